/-
  `seq`'s private helpers built on single insert / erase (seq.hpp 2102-2308),
  the public interface (seq.hpp 2310-3773) and `iterator_t` (seq.hpp 700-1114).
-/
import Verif.Model.Core
set_option autoImplicit false

namespace SegTree

section Api
variable {α : Type} (E : Env α)

/-! #### helpers -/

/-- `find_index`, seq.hpp 2103-2106 -/
def find_index (o pos : Nat) : M α Iter := do
  let s ← rdObj o
  find_index_root E s.root s.sz s.ht pos

/-- `find_first`, seq.hpp 2108-2110 -/
def find_first (o : Nat) : M α Iter := do
  let s ← rdObj o
  find_first_root E s.root s.sz s.ht

/-- `find_last`, seq.hpp 2112-2114 -/
def find_last (o : Nat) : M α Iter := do
  let s ← rdObj o
  find_last_root E s.root s.sz s.ht

/-- `find_end`, seq.hpp 2116-2118 -/
def find_end (o : Nat) : M α Iter := do
  let s ← rdObj o
  find_end_root E s.root s.sz s.ht

/-- `steal`, seq.hpp 2120-2127 (statement by statement, so that
`steal(*this)` behaves as in the source) -/
def steal (o other : Nat) : M α Unit := do
  let r ← getRoot other
  setRoot o r
  let h ← getHeight other
  setHeight o h
  let s ← getSize other
  setSize o s
  setRoot other 0
  setHeight other 0
  setSize other 0

/-- copy construction of a `T` from an lvalue of the given value (trivially
copyable values never throw) -/
def copyVal (v : α) : M α α := fun m =>
  if E.trivCopy then .ok v m
  else if E.cthrow m.ticks v then .throw .elem m.tick
  else .ok v m.tick

/-- copy assignment `p[i] = v` -/
def copyAssign (p i : Nat) (v : α) : M α Unit := do
  let v ← copyVal E v
  wrElem E p i v

/-- move construction of a `T` from the live object `p[i]` -/
def moveFrom (p i : Nat) : M α α := do
  let v ← rdElem E p i
  if E.throws v then M.throw .elem
  else
    wrElem E p i (E.moved v)
    return v

/-- `emplace_single`, seq.hpp 2129-2133; `mk` is the evaluation of
`value_type(std::forward<Args>(args)...)`, which happens before the call. -/
def emplace_single (o : Nat) (it : Iter) (mk : M α α) : M α Iter := do
  let v ← mk
  insert_single_iterator E o it v

/-- the loop of `emplace_count`, seq.hpp 2138-2141 -/
def emplace_count_loop (o : Nat) (mk : M α α) : (n : Nat) → Iter → M α Iter
  | 0, it => pure it
  | n + 1, it => do
    let it ← emplace_single E o it mk
    let it ← move_next_iterator E it
    emplace_count_loop o mk n it

/-- `emplace_count`, seq.hpp 2135-2144 -/
def emplace_count (o : Nat) (it : Iter) (count : Nat) (mk : M α α) : M α Iter := do
  let it ← emplace_count_loop E o mk count it
  move_prev_iterator_count E it count

/-- A C++ input range `[first, last)` with current position `σ`: `done` is
`first == last`, `read` is `value_type(*first)`, `next` is `++first`. -/
structure Src (α σ : Type) where
  done : σ → Bool
  read : σ → M α α
  next : σ → M α σ

/-- the loop of `emplace_range`, seq.hpp 2149-2154 -/
def emplace_range_loop {σ : Type} (S : Src α σ) (o : Nat) (it : Iter) (first : σ) (count : Nat) :
    M α (Iter × Nat) :=
  if S.done first then pure (it, count)
  else do
    let it ← emplace_single E o it (S.read first)
    let first ← S.next first
    let it ← move_next_iterator E it
    emplace_range_loop S o it first (count + 1)
partial_fixpoint

/-- `emplace_range`, seq.hpp 2146-2157 -/
def emplace_range {σ : Type} (S : Src α σ) (o : Nat) (it : Iter) (first : σ) : M α Iter := do
  let (it, count) ← emplace_range_loop E S o it first 0
  move_prev_iterator_count E it count

/-- a range of external values (initializer list, array, another container) -/
def listSrc : Src α (List α) where
  done l := l.isEmpty
  read l := match l with
    | [] => M.ub .access
    | v :: _ => copyVal E v
  next l := pure l.tail

/-- `[first, last)` of `const_iterator`s of a `seq` -/
def copySrc (last : Iter) : Src α Iter where
  done it := decide (it.pos = last.pos)
  read it := do copyVal E (← dereference E it)
  next it := move_next_iterator E it

/-- `[make_move_iterator(first), make_move_iterator(last))` of a `seq` -/
def moveSrc (last : Iter) : Src α Iter where
  done it := decide (it.pos = last.pos)
  read it := moveFrom E it.entry.seg.ptr it.entry.seg.idx
  next it := move_next_iterator E it

/-- `erase_single`, seq.hpp 2159-2164 -/
def erase_single (o : Nat) (it : Iter) : M α Iter := do
  let it ← erase_single_iterator E o it
  if it.entry.seg.idx = it.entry.seg.len then
    let e ← move_next_leaf E it.entry
    return { it with entry := e }
  else return it

/-- `erase_range`, seq.hpp 2166-2172 (`while (last.pos - first.pos)`) -/
def erase_range (o : Nat) (first last : Iter) : M α Iter :=
  if last.pos ≠ first.pos then do
    let last ← move_prev_iterator E last
    let last ← erase_single E o last
    erase_range o first last
  else pure last
partial_fixpoint

/-- the loop of `assign_count`, seq.hpp 2177-2191; `src` re-reads the lvalue
`value` each time it is used -/
def assign_count_loop (o : Nat) (src : M α α) (count : Nat) (first last : Iter) : M α Unit :=
  if count = 0 then do
    let _ ← erase_range E o first last
    return ()
  else if first.pos = last.pos then do
    let _ ← emplace_count E o last count (do copyVal E (← src))
    return ()
  else do
    let v ← src
    copyAssign E first.entry.seg.ptr first.entry.seg.idx v
    let first ← move_next_iterator E first
    assign_count_loop o src (count - 1) first last
partial_fixpoint

/-- `assign_count`, seq.hpp 2174-2192 -/
def assign_count (o count : Nat) (src : M α α) : M α Unit := do
  let first ← find_first E o
  let last ← find_end E o
  assign_count_loop E o src count first last

/-- the loop of `assign_range`, seq.hpp 2198-2212 -/
def assign_range_loop {σ : Type} (S : Src α σ) (o : Nat) (source : σ) (first last : Iter) :
    M α Unit :=
  if S.done source then do
    let _ ← erase_range E o first last
    return ()
  else if first.pos = last.pos then do
    let _ ← emplace_range E S o last source
    return ()
  else do
    let v ← S.read source
    wrElem E first.entry.seg.ptr first.entry.seg.idx v
    let first ← move_next_iterator E first
    let source ← S.next source
    assign_range_loop S o source first last
partial_fixpoint

/-- `assign_range`, seq.hpp 2194-2213 -/
def assign_range {σ : Type} (S : Src α σ) (o : Nat) (source : σ) : M α Unit := do
  let first ← find_first E o
  let last ← find_end E o
  assign_range_loop E S o source first last

/-- `resize_count`, seq.hpp 2215-2225 -/
def resize_count (o count : Nat) (mk : M α α) : M α Unit := do
  let sz ← getSize o
  if sz = count then pure ()
  else
    let last ← find_end E o
    if count < sz then
      let first ← find_index E o count
      let _ ← erase_range E o first last
    else
      let _ ← emplace_count E o last (count - sz) mk

/-- `clear`, seq.hpp 3064-3069 -/
def clear (o : Nat) : M α Unit := do
  purge E o
  setRoot o 0
  setHeight o 0
  setSize o 0

/-- `copy_assign_alloc`, seq.hpp 2227-2243 -/
def copy_assign_alloc (o other : Nat) : M α Unit := do
  if E.pocca then
    let s ← rdObj o
    let t ← rdObj other
    if E.acls s.ealloc ≠ E.acls t.ealloc then clear E o
    let s ← rdObj o
    wrObj o { s with ealloc := t.ealloc, nalloc := t.nalloc }
  else pure ()

/-- `move_assign_alloc`, seq.hpp 2245-2263 -/
def move_assign_alloc (o other : Nat) : M α Unit := do
  if E.pocma then
    let t ← rdObj other
    let s ← rdObj o
    wrObj o { s with ealloc := t.ealloc, nalloc := t.nalloc }
  else pure ()

/-- `move_assign(seq&, std::true_type)`, seq.hpp 2284-2289 -/
def move_assign_steal (o other : Nat) : M α Unit := do
  purge E o
  move_assign_alloc E o other
  steal o other

/-- `move_assign`, seq.hpp 2265-2282 -/
def move_assign (o other : Nat) : M α Unit := do
  if E.pocma then move_assign_steal E o other
  else
    let s ← rdObj o
    let t ← rdObj other
    if E.acls s.ealloc ≠ E.acls t.ealloc then
      let first ← find_first E other
      let last ← find_end E other
      assign_range E (moveSrc E last) o first
    else move_assign_steal E o other

/-! #### constructors and destructor -/

/-- `seq(Allocator const&)`, seq.hpp 2324-2325 (and the default constructor,
seq.hpp 2316-2317, with the default allocator): a new object in storage the
user provides. -/
def ctor (o alloc : Nat) : M α Unit := fun m =>
  match m.cell (.obj o) with
  | some _ => .ub .access
  | none => .ok () (m.set (.obj o) (.obj { root := 0, sz := 0, ht := 0, ealloc := alloc, nalloc := alloc }))

/-- the end of the lifetime of the `seq` object itself -/
def dropObj (o : Nat) : M α Unit := fun m =>
  match m.cell (.obj o) with
  | some (.obj _) => .ok () (m.erase (.obj o))
  | _ => .ub .access

/-- `~seq()`, seq.hpp 2427 -/
def dtor (o : Nat) : M α Unit := do
  purge E o
  dropObj o

/-- A delegating constructor: if the body throws, the object constructed by
`seq{alloc}` is destroyed before the exception propagates. -/
def delegating (o alloc : Nat) (body : M α Unit) : M α Unit := do
  ctor o alloc
  M.onThrow body (dtor E o)

/-- `seq(count, value, alloc)` and `seq(count, alloc)`, seq.hpp 2333-2347 -/
def ctor_count (o alloc count : Nat) (mk : M α α) : M α Unit :=
  delegating E o alloc (do
    let it ← find_end E o
    let _ ← emplace_count E o it count mk)

/-- `seq(first, last, alloc)` and `seq(init, alloc)`, seq.hpp 2355-2360, 2417-2420 -/
def ctor_range {σ : Type} (S : Src α σ) (o alloc : Nat) (first : σ) : M α Unit :=
  delegating E o alloc (do
    let it ← find_end E o
    let _ ← emplace_range E S o it first)

/-- `seq(seq const&, alloc)`, seq.hpp 2378-2380 -/
def ctor_copy_alloc (o other alloc : Nat) : M α Unit :=
  delegating E o alloc (do
    let it ← find_end E o
    let first ← find_first E other
    let last ← find_end E other
    let _ ← emplace_range E (copySrc E last) o it first)

/-- `seq(seq const&)`, seq.hpp 2367-2371 -/
def ctor_copy (o other : Nat) : M α Unit := do
  let t ← rdObj other
  ctor_copy_alloc E o other (E.selectCopy t.ealloc)

/-- `seq(seq&&)`, seq.hpp 2387-2395 -/
def ctor_move (o other : Nat) : M α Unit := do
  let t ← rdObj other
  ctor o t.ealloc
  wrObj o t
  setRoot other 0
  setHeight other 0
  setSize other 0

/-- `seq(seq&&, alloc)`, seq.hpp 2403-2409 -/
def ctor_move_alloc (o other alloc : Nat) : M α Unit :=
  delegating E o alloc (do
    let t ← rdObj other
    if E.acls alloc = E.acls t.ealloc then steal o other
    else
      let it ← find_end E o
      let first ← find_first E other
      let last ← find_end E other
      let _ ← emplace_range E (moveSrc E last) o it first)

/-! #### assignment -/

/-- `operator=(seq const&)`, seq.hpp 2445-2451 -/
def assign_copy (o other : Nat) : M α Unit := do
  if o ≠ other then
    copy_assign_alloc E o other
    let first ← find_first E other
    let last ← find_end E other
    assign_range E (copySrc E last) o first
  else pure ()

/-- `operator=(seq&&)`, seq.hpp 2475-2480 -/
def assign_move (o other : Nat) : M α Unit := move_assign E o other

/-- `operator=(initializer_list)` and `assign(first, last)` / `assign(ilist)`
of external values, seq.hpp 2498-2501, 2532-2553 -/
def assign_list (o : Nat) (vs : List α) : M α Unit := assign_range E (listSrc E) o vs

/-- `assign(count, value)`, seq.hpp 2516, with `value` an object outside the
container -/
def assign_fill (o count : Nat) (v : α) : M α Unit := assign_count E o count (pure v)

/-! #### element access -/

/-- `at`, seq.hpp 2599-2620 -/
def at_ (o pos : Nat) : M α α := do
  let sz ← getSize o
  if pos ≥ sz then M.throw .range
  else
    let it ← find_index E o pos
    dereference E it

/-- `operator[]`, seq.hpp 2633-2652 -/
def index_op (o pos : Nat) : M α α := do
  let it ← find_index E o pos
  dereference E it

/-- writing through the reference returned by `operator[]`: `s[pos] = v` -/
def index_set (o pos : Nat) (v : α) : M α Unit := do
  let it ← find_index E o pos
  copyAssign E it.entry.seg.ptr it.entry.seg.idx v

/-- writing through `operator*` of an iterator (seq.hpp 810, 668-670): `*it = v` -/
def deref_set (it : Iter) (v : α) : M α Unit :=
  copyAssign E it.entry.seg.ptr it.entry.seg.idx v

/-- moving into an element through an iterator: `*it = std::move(x)`, `x` having the value `v` -/
def deref_set_rv (it : Iter) (v : α) : M α Unit :=
  assign_segment E it.entry.seg.ptr it.entry.seg.idx v

/-- `front`, seq.hpp 2665-2678 -/
def front (o : Nat) : M α α := do dereference E (← find_first E o)

/-- `back`, seq.hpp 2691-2704 -/
def back (o : Nat) : M α α := do dereference E (← find_last E o)

/-- `begin` / `cbegin`, seq.hpp 2717-2743 -/
def begin_ (o : Nat) : M α Iter := find_first E o
/-- `penultimate` / `cpenultimate`, seq.hpp 2759-2791 -/
def penultimate (o : Nat) : M α Iter := find_last E o
/-- `end` / `cend`, seq.hpp 2804-2830; also the base of `rbegin`, seq.hpp 2843-2873 -/
def end_ (o : Nat) : M α Iter := find_end E o

/-- `*r` for a `std::reverse_iterator` with base `it` (`rbegin`/`rend`,
seq.hpp 2843-2916): `auto tmp = it; return *--tmp;` -/
def rev_deref (it : Iter) : M α α := do dereference E (← move_prev_iterator E it)

/-- `nth`, seq.hpp 2936-2962 -/
def nth (o pos : Nat) : M α Iter := do
  let sz ← getSize o
  if pos ≥ sz then find_end E o else find_index E o pos

/-- `index_of`, seq.hpp 2978-2994 -/
def index_of (it : Iter) : Nat := it.pos

/-- `empty`, seq.hpp 3007 -/
def empty (o : Nat) : M α Bool := do return decide ((← getSize o) = 0)
/-- `size`, seq.hpp 3020 -/
def size (o : Nat) : M α Nat := getSize o
/-- `height`, seq.hpp 3036 -/
def height (o : Nat) : M α Nat := getHeight o
/-- `max_size`, seq.hpp 3049-3051 -/
def max_size : Nat := E.W - 1

/-- `get_allocator`, seq.hpp 2566-2568 -/
def get_allocator (o : Nat) : M α Nat := do return (← rdObj o).ealloc

/-! #### modifiers -/

/-- `insert(pos, T const&)` of an object outside the container, seq.hpp 3085-3087 -/
def insert (o : Nat) (it : Iter) (v : α) : M α Iter := emplace_single E o it (copyVal E v)
/-- `insert(pos, T&&)` and `emplace(pos, args...)` producing `v`, seq.hpp
3103-3105, 3184-3187 -/
def insert_rv (o : Nat) (it : Iter) (v : α) : M α Iter := emplace_single E o it (pure v)
/-- `insert(pos, s[j])`: the argument is a reference to an element of the
container itself, seq.hpp 3085-3087 -/
def insert_alias (o : Nat) (it src : Iter) : M α Iter :=
  emplace_single E o it (do copyVal E (← dereference E src))
/-- `insert(pos, count, value)`, seq.hpp 3122-3124 -/
def insert_fill (o : Nat) (it : Iter) (count : Nat) (v : α) : M α Iter :=
  emplace_count E o it count (copyVal E v)
/-- `insert(pos, count, s[j])`: aliased argument, seq.hpp 3122-3124 -/
def insert_fill_alias (o : Nat) (it : Iter) (count : Nat) (src : Iter) : M α Iter :=
  emplace_count E o it count (do copyVal E (← dereference E src))
/-- `insert(pos, first, last)` / `insert(pos, ilist)` of external values,
seq.hpp 3143-3168 -/
def insert_list (o : Nat) (it : Iter) (vs : List α) : M α Iter := emplace_range E (listSrc E) o it vs

/-- `erase(pos)`, seq.hpp 3203 -/
def erase (o : Nat) (it : Iter) : M α Iter := erase_single E o it
/-- `erase(first, last)`, seq.hpp 3219-3221 -/
def erase_rng (o : Nat) (first last : Iter) : M α Iter := erase_range E o first last

/-- `push_back(T const&)`, seq.hpp 3234, 3260-3263 -/
def push_back (o : Nat) (v : α) : M α Unit := do
  let _ ← emplace_single E o (← find_end E o) (copyVal E v)
/-- `push_back(T&&)` and `emplace_back(args...)` producing `v`, seq.hpp 3247, 3260-3263 -/
def push_back_rv (o : Nat) (v : α) : M α Unit := do
  let _ ← emplace_single E o (← find_end E o) (pure v)
/-- `pop_back`, seq.hpp 3276 -/
def pop_back (o : Nat) : M α Unit := do
  let _ ← erase_single E o (← find_last E o)
/-- `push_front(T const&)`, seq.hpp 3289, 3315-3318 -/
def push_front (o : Nat) (v : α) : M α Unit := do
  let _ ← emplace_single E o (← find_first E o) (copyVal E v)
/-- `push_front(T&&)` and `emplace_front(args...)` producing `v`, seq.hpp 3302, 3315-3318 -/
def push_front_rv (o : Nat) (v : α) : M α Unit := do
  let _ ← emplace_single E o (← find_first E o) (pure v)
/-- `pop_front`, seq.hpp 3331 -/
def pop_front (o : Nat) : M α Unit := do
  let _ ← erase_single E o (← find_first E o)

/-- `resize(count)` (with `v` the default-constructed value) and
`resize(count, value)`, seq.hpp 3346-3363 -/
def resize (o count : Nat) (v : α) : M α Unit := resize_count E o count (copyVal E v)

/-- `swap`, seq.hpp 3379-3387 with `swap_allocator`, seq.hpp 2291-2306 -/
def swap (o other : Nat) : M α Unit := do
  let s ← rdObj o
  let t ← rdObj other
  wrObj o { s with root := t.root, ht := t.ht, sz := t.sz }
  let t' ← rdObj other
  wrObj other { t' with root := s.root, ht := s.ht, sz := s.sz }
  if E.pocs then
    let s ← rdObj o
    let t ← rdObj other
    wrObj o { s with ealloc := t.ealloc, nalloc := t.nalloc }
    let t' ← rdObj other
    wrObj other { t' with ealloc := s.ealloc, nalloc := s.nalloc }
  else pure ()

/-! #### list-like operations -/

/-- `splice(pos, other)`, seq.hpp 3471-3475 -/
def splice (o : Nat) (pos : Iter) (other : Nat) : M α Unit := do
  let first ← find_first E other
  let last ← find_end E other
  let _ ← emplace_range E (moveSrc E last) o pos first
  clear E other

/-- `splice(pos, other, it)`, seq.hpp 3502-3505.  `std::move(*it)` of a
`const_iterator` is a `T const&&`: the element is copied, then erased. -/
def splice_one (o : Nat) (pos : Iter) (other : Nat) (it : Iter) : M α Unit := do
  let _ ← emplace_single E o pos (do copyVal E (← dereference E it))
  let _ ← erase_single E other it

/-- `splice(pos, other, first, last)`, seq.hpp 3535-3540 -/
def splice_range (o : Nat) (pos : Iter) (other : Nat) (first last : Iter) : M α Unit := do
  let _ ← emplace_range E (moveSrc E last) o pos first
  let _ ← erase_range E other first last

/-- Read `[first, last)` through iterators (used for the standard algorithms
whose contract is modelled, not their code). -/
def read_range (first last : Iter) : M α (List α) :=
  if first.pos ≠ last.pos then do
    let v ← dereference E first
    let first ← move_next_iterator E first
    let vs ← read_range first last
    return v :: vs
  else pure []
partial_fixpoint

/-- Overwrite the elements from `first` on through iterators. -/
def write_range (first : Iter) : List α → M α Unit
  | [] => pure ()
  | v :: vs => do
    wrElem E first.entry.seg.ptr first.entry.seg.idx v
    let first ← move_next_iterator E first
    write_range first vs

/-- `std::inplace_merge(first, mid, last, comp)`: its contract for ranges of
pure values (stable merge; the second range's element goes first only if it
compares less). -/
def std_inplace_merge (comp : α → α → Bool) (first mid last : Iter) : M α Unit := do
  let xs ← read_range E first mid
  let ys ← read_range E mid last
  write_range E first (xs.merge ys (fun a b => !comp b a))

/-- `std::stable_sort(first, last, comp)`: its contract (the stable sorted
permutation). -/
def std_stable_sort (comp : α → α → Bool) (first last : Iter) : M α Unit := do
  let xs ← read_range E first last
  write_range E first (xs.mergeSort (fun a b => !comp b a))

/-- `merge(other, comp)`, seq.hpp 3433-3438 -/
def merge (o other : Nat) (comp : α → α → Bool) : M α Unit := do
  let sz ← getSize o
  let e ← end_ E o
  let f ← begin_ E other
  let l ← end_ E other
  splice_range E o e other f l
  let b ← begin_ E o
  let mid ← nth E o sz
  let e ← end_ E o
  std_inplace_merge E comp b mid e

/-- `std::find_if` -/
def std_find_if (p : α → Bool) (first last : Iter) : M α Iter :=
  if first.pos ≠ last.pos then do
    let v ← dereference E first
    if p v then pure first
    else std_find_if p (← move_next_iterator E first) last
  else pure first
partial_fixpoint

/-- `*dst = std::move(*src)` -/
def iter_move_assign (src dst : Iter) : M α Unit :=
  move_assign_segment E src.entry.seg.ptr src.entry.seg.idx dst.entry.seg.ptr dst.entry.seg.idx

/-- `for (auto i = first; ++i != last;) if (!p(*i)) *first++ = std::move(*i);` -/
def std_remove_loop (p : α → Bool) (first i last : Iter) : M α Iter := do
  let i ← move_next_iterator E i
  if i.pos ≠ last.pos then
    let v ← dereference E i
    if p v then std_remove_loop p first i last
    else
      iter_move_assign E i first
      let first ← move_next_iterator E first
      std_remove_loop p first i last
  else pure first
partial_fixpoint

/-- `std::remove_if` (the reference implementation) -/
def std_remove_if (p : α → Bool) (first last : Iter) : M α Iter := do
  let first ← std_find_if E p first last
  if first.pos ≠ last.pos then std_remove_loop E p first first last else pure first

/-- `remove_if(p)`, seq.hpp 3586-3589 -/
def remove_if (o : Nat) (p : α → Bool) : M α Unit := do
  let b ← begin_ E o
  let e ← end_ E o
  let first ← std_remove_if E p b e
  let e ← end_ E o
  let _ ← erase_range E o first e

/-- `remove(value)`, seq.hpp 3571-3573, with `value` an object outside the
container (`std::remove` is `std::remove_if` with the predicate `x == value`) -/
def remove (o : Nat) (eq : α → α → Bool) (v : α) : M α Unit := remove_if E o (fun x => eq x v)

/-- `std::iter_swap` -/
def iter_swap (a b : Iter) : M α Unit := do
  let x ← moveFrom E a.entry.seg.ptr a.entry.seg.idx
  move_assign_segment E b.entry.seg.ptr b.entry.seg.idx a.entry.seg.ptr a.entry.seg.idx
  assign_segment E b.entry.seg.ptr b.entry.seg.idx x

/-- `while (first < last) { iter_swap(first, last); ++first; --last; }` -/
def std_reverse_loop (first last : Iter) : M α Unit :=
  if first.pos < last.pos then do
    iter_swap E first last
    let first ← move_next_iterator E first
    let last ← move_prev_iterator E last
    std_reverse_loop first last
  else pure ()
partial_fixpoint

/-- `std::reverse` on random-access iterators -/
def std_reverse (first last : Iter) : M α Unit :=
  if first.pos = last.pos then pure ()
  else do
    let last ← move_prev_iterator E last
    std_reverse_loop E first last

/-- `reverse`, seq.hpp 3602 -/
def reverse (o : Nat) : M α Unit := do
  let b ← begin_ E o
  let e ← end_ E o
  std_reverse E b e

/-- `while (++first != last) if (!p(*result, *first) && ++result != first)
*result = std::move(*first);` then `++result` -/
def std_unique_loop (p : α → α → Bool) (result first last : Iter) : M α Iter := do
  let first ← move_next_iterator E first
  if first.pos ≠ last.pos then
    let x ← dereference E result
    let y ← dereference E first
    if p x y then std_unique_loop p result first last
    else
      let result ← move_next_iterator E result
      if result.pos ≠ first.pos then
        iter_move_assign E first result
        std_unique_loop p result first last
      else std_unique_loop p result first last
  else move_next_iterator E result
partial_fixpoint

/-- `std::unique` (the reference implementation) -/
def std_unique (p : α → α → Bool) (first last : Iter) : M α Iter :=
  if first.pos = last.pos then pure last else std_unique_loop E p first first last

/-- `unique(p)`, seq.hpp 3615-3632 -/
def unique (o : Nat) (p : α → α → Bool) : M α Unit := do
  let b ← begin_ E o
  let e ← end_ E o
  let first ← std_unique E p b e
  let e ← end_ E o
  let _ ← erase_range E o first e

/-- `sort(comp)`, seq.hpp 3645-3661 -/
def sort (o : Nat) (comp : α → α → Bool) : M α Unit := do
  let b ← begin_ E o
  let e ← end_ E o
  std_stable_sort E comp b e

/-! #### comparison -/

/-- `std::equal(first1, last1, first2)` -/
def std_equal (eq : α → α → Bool) (first1 last1 first2 : Iter) : M α Bool :=
  if first1.pos ≠ last1.pos then do
    let x ← dereference E first1
    let y ← dereference E first2
    if eq x y then
      let first1 ← move_next_iterator E first1
      let first2 ← move_next_iterator E first2
      std_equal eq first1 last1 first2
    else pure false
  else pure true
partial_fixpoint

/-- `operator==`, seq.hpp 3675-3678 -/
def op_eq (eq : α → α → Bool) (a b : Nat) : M α Bool := do
  let sa ← getSize a
  let sb ← getSize b
  if sa = sb then
    let f1 ← begin_ E a
    let l1 ← end_ E a
    let f2 ← begin_ E b
    std_equal E eq f1 l1 f2
  else pure false

/-- `operator!=`, seq.hpp 3692-3694 -/
def op_ne (eq : α → α → Bool) (a b : Nat) : M α Bool := do return !(← op_eq E eq a b)

/-- `std::lexicographical_compare` -/
def std_lex (lt : α → α → Bool) (first1 last1 first2 last2 : Iter) : M α Bool :=
  if first1.pos ≠ last1.pos ∧ first2.pos ≠ last2.pos then do
    let x ← dereference E first1
    let y ← dereference E first2
    if lt x y then pure true
    else if lt y x then pure false
    else
      let first1 ← move_next_iterator E first1
      let first2 ← move_next_iterator E first2
      std_lex lt first1 last1 first2 last2
  else pure (decide (first1.pos = last1.pos) && decide (first2.pos ≠ last2.pos))
partial_fixpoint

/-- `operator<`, seq.hpp 3708-3711 -/
def op_lt (lt : α → α → Bool) (a b : Nat) : M α Bool := do
  let f1 ← begin_ E a
  let l1 ← end_ E a
  let f2 ← begin_ E b
  let l2 ← end_ E b
  std_lex E lt f1 l1 f2 l2

/-- `operator<=`, seq.hpp 3725-3727 -/
def op_le (lt : α → α → Bool) (a b : Nat) : M α Bool := do return !(← op_lt E lt b a)
/-- `operator>`, seq.hpp 3741 -/
def op_gt (lt : α → α → Bool) (a b : Nat) : M α Bool := op_lt E lt b a
/-- `operator>=`, seq.hpp 3755-3757 -/
def op_ge (lt : α → α → Bool) (a b : Nat) : M α Bool := do return !(← op_lt E lt a b)

/-! #### `iterator_t` -/

/-- `iterator_t::current()` as an (address, index) pair, seq.hpp 776, 660-662 -/
def Iter.current (it : Iter) : Nat × Nat := (it.entry.seg.ptr, it.entry.seg.idx)
/-- `iterator_t::begin()`, seq.hpp 786, 656-658 -/
def Iter.segBegin (it : Iter) : Nat × Nat := (it.entry.seg.ptr, 0)
/-- `iterator_t::end()`, seq.hpp 796, 664-666 -/
def Iter.segEnd (it : Iter) : Nat × Nat := (it.entry.seg.ptr, it.entry.seg.len)

/-- `operator+=` and `operator+`, seq.hpp 878-881, 901-905 -/
def it_add (it : Iter) (d : Int) : M α Iter := move_iterator_count E it d
/-- `operator-=` and `operator-`, seq.hpp 891-894, 912-916 -/
def it_sub (it : Iter) (d : Int) : M α Iter := move_iterator_count E it (-d)
/-- `operator-(iterator)`, seq.hpp 923-925 -/
def it_diff (a b : Iter) : Int := difference E a b
/-- `operator[]`, seq.hpp 818-820 -/
def it_index (it : Iter) (d : Int) : M α α := dereference_count E it d
/-- `operator==`, `!=`, `<`, `>`, `<=`, `>=`, seq.hpp 1055-1104 -/
def it_eq (a b : Iter) : Bool := decide (a.pos = b.pos)
def it_ne (a b : Iter) : Bool := decide (a.pos ≠ b.pos)
def it_lt (a b : Iter) : Bool := decide (a.pos < b.pos)
def it_gt (a b : Iter) : Bool := decide (a.pos > b.pos)
def it_le (a b : Iter) : Bool := decide (a.pos ≤ b.pos)
def it_ge (a b : Iter) : Bool := decide (a.pos ≥ b.pos)

end Api
end SegTree
