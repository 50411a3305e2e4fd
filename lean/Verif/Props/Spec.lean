/-
  The specification: what a user sees of a container, and what each call is
  supposed to do to plain lists.  Only the model's public functions
  (Model/Api.lean) are mentioned here; nothing of the proofs is.
-/
import Verif.Model.Api
set_option autoImplicit false

namespace SegTree

variable {α : Type}

/-! ### Observing a container -/

/-- Container `o` holds the sequence `xs`: `size()` is its length and `at(i)`
gives its `i`-th element (and neither call changes anything). -/
def Contents (E : Env α) (o : Nat) (m : Mem α) (xs : List α) : Prop :=
  size o m = .ok xs.length m ∧ ∀ (i : Nat) (h : i < xs.length), at_ E o i m = .ok xs[i] m

/-- What a container is to its user: a list and an allocator. -/
structure Obj (α : Type) where
  alloc : Nat
  elems : List α

/-- A bank of containers: the abstract state of a program using the library. -/
abbrev Bank (α : Type) := Nat → Option (Obj α)

/-- `m` looks like the bank `S`: the containers that exist are those of `S`,
with those allocators and those contents. -/
def View (E : Env α) (m : Mem α) (S : Bank α) : Prop := ∀ o, match S o with
  | none => m.cell (.obj o) = none
  | some x => get_allocator o m = .ok x.alloc m ∧ Contents E o m x.elems

/-- The same container, to every observer: same elements, size, height and
allocator, and every iterator of it is still valid, in every field, and refers
to the same element. -/
def Unchanged (E : Env α) (o : Nat) (m m' : Mem α) : Prop :=
  (∀ n, size o m = .ok n m → size o m' = .ok n m') ∧
  (∀ n, height o m = .ok n m → height o m' = .ok n m') ∧
  (∀ a, get_allocator o m = .ok a m → get_allocator o m' = .ok a m') ∧
  (∀ i it, nth E o i m = .ok it m → nth E o i m' = .ok it m' ∧
    ∀ n, size o m = .ok n m → i < n → ∀ v, dereference E it m = .ok v m → dereference E it m' = .ok v m') ∧
  (∀ i v, at_ E o i m = .ok v m → at_ E o i m' = .ok v m') ∧
  (m.cell (.obj o) = none → m'.cell (.obj o) = none)

/-- The blocks of container `o`: `Block m o h a sz` says that following the root
pointer and the child pointers of `o` leads to address `a`, at height `h` above
the segments (0: a segment, otherwise a node), and that the size recorded there
for it is `sz`. -/
inductive Block (m : Mem α) (o : Nat) : (h a sz : Nat) → Prop where
  | root {s : SeqObj} {h : Nat} : m.cell (.obj o) = some (.obj s) → s.ht = h + 1 → Block m o h s.root s.sz
  | child {h a sz w i : Nat} {n : Node} : Block m o (h + 1) a sz → m.cell (.heap a) = some (.node w n) →
      i < n.len → Block m o h (n.ptrs i) (n.sizes i)

/-! ### The environment assumptions -/

/-- Assumptions on the template arguments and the element type under which the
container is claimed to work: a trivially copyable type is trivially
destructible, moving an element does not throw, a node's length and index fit in
the 16-bit fields, and `size_type` can represent something. -/
structure Env.Good (E : Env α) : Prop where
  triv : E.trivCopy = true → E.trivDtor = true
  nothrow : ∀ v, E.trivCopy = true ∨ E.mthrow v = false
  base : E.baseMax < 65536
  wpos : 0 < E.W

/-- Nothing observable changed: every object and every block of memory is what it
was, and the allocator was not called. (Only the count of copies attempted so far,
which no code reads, may differ.) -/
structure Ticked (m m' : Mem α) : Prop where
  cell : m'.cell = m.cell
  log : m'.log = m.log

/-- Between `m` and `m'` the elements with the values `vs` were copied, one after
the other, and none of the copies threw. -/
def Copied (E : Env α) (m m' : Mem α) (vs : List α) : Prop :=
  m'.ticks = m.ticks + vs.length ∧ ∀ k v, vs[k]? = some v → E.cthrow (m.ticks + k) v = false

/-- Of the elements `vs` the first `k` were copied, without an exception; then the
next one was copied, and either that threw and `e` is the element's exception, or it
did not and `e` is `bad_alloc`. -/
def Broke (E : Env α) (m m' : Mem α) (vs : List α) (k : Nat) (e : Exn) : Prop :=
  m'.ticks = m.ticks + k + 1 ∧ (∀ j v, j < k → vs[j]? = some v → E.cthrow (m.ticks + j) v = false) ∧
  ∃ v, vs[k]? = some v ∧ (E.cthrow (m.ticks + k) v = true ∧ e = .elem ∨ E.cthrow (m.ticks + k) v = false ∧ e = .alloc)

/-- some copies of `v` throw -/
def CopyThrows (E : Env α) (v : α) : Prop := E.trivCopy = false ∧ ∃ n, E.cthrow n v = true

/-- an exception that an operation copying some of `vs` may let out -/
def Blame (E : Env α) (vs : List α) (e : Exn) : Prop :=
  e = .alloc ∨ (e = .elem ∧ ∃ v ∈ vs, CopyThrows E v)

/-- the allocator tolerates the `deallocate(nullptr)` made when an empty
container is cleared, or the container is not empty (see C45) -/
def Clearable (E : Env α) (x : Obj α) : Prop := x.elems ≠ [] ∨ E.nullFree = true

/-- the two allocators compare equal -/
def SameAlloc (E : Env α) (a b : Nat) : Prop := E.acls a = E.acls b

/-! ### Plain-list functions -/

/-- `ys` inserted in `xs` at position `i` -/
def ins (xs : List α) (i : Nat) (ys : List α) : List α := xs.take i ++ (ys ++ xs.drop i)

/-- elements `a`, ..., `b-1` -/
def slice (xs : List α) (a b : Nat) : List α := (xs.take b).drop a

/-- `std::unique`: drop every element equivalent to the last one kept -/
def dropDups (p : α → α → Bool) : List α → List α
  | [] => []
  | x :: xs => x :: go x xs
where
  go (last : α) : List α → List α
    | [] => []
    | y :: ys => if p last y then go last ys else y :: go y ys

/-- element-wise equality -/
def allEq (eq : α → α → Bool) : List α → List α → Bool
  | [], [] => true
  | x :: xs, y :: ys => eq x y && allEq eq xs ys
  | _, _ => false

/-- lexicographic order -/
def lexLt (lt : α → α → Bool) : List α → List α → Bool
  | x :: xs, y :: ys => if lt x y then true else if lt y x then false else lexLt lt xs ys
  | [], _ :: _ => true
  | _, [] => false

/-- elements `a`, ..., `j-1` of `xs` have been moved from -/
def movedFrom (E : Env α) (a j : Nat) (xs : List α) : List α :=
  xs.take a ++ ((slice xs a j).map E.moved ++ xs.drop j)

/-! ### Calls on one container -/

/-- returned values; a returned iterator is reported by its `index_of` (that it
is the right one in every field is C03) -/
inductive Ret (α : Type) where
  | unit
  | val (v : α)
  | num (n : Nat)
  | flag (b : Bool)
  | pos (i : Nat)

inductive Un (α : Type) where
  | size | empty | getAlloc
  | at_ (i : Nat) | index (i : Nat) | front | back
  | set (i : Nat) (v : α) | setIt (i : Nat) (v : α) | setRv (i : Nat) (v : α)
  | nth (i : Nat) | begin_ | end_ | penultimate
  | insert (i : Nat) (v : α) | insertRv (i : Nat) (v : α) | insertSelf (i j : Nat)
  | insertFill (i n : Nat) (v : α) | insertList (i : Nat) (vs : List α)
  | pushBack (v : α) | pushFront (v : α) | pushBackRv (v : α) | pushFrontRv (v : α)
  | erase (i : Nat) | eraseRange (i j : Nat) | popBack | popFront
  | resize (n : Nat) (v : α) | clear
  | assignFill (n : Nat) (v : α) | assignList (vs : List α)
  | removeIf (p : α → Bool) | remove (eq : α → α → Bool) (v : α) | unique (p : α → α → Bool) | reverse | sort (comp : α → α → Bool)
  | selfAssign | selfMove | selfSwap

namespace Un

def unit {β : Type} (x : M α β) : M α (Ret α) := do let _ ← x; return .unit
def pos (x : M α Iter) : M α (Ret α) := do return .pos (index_of (← x))
def val (x : M α α) : M α (Ret α) := do return .val (← x)
def num (x : M α Nat) : M α (Ret α) := do return .num (← x)
def flag (x : M α Bool) : M α (Ret α) := do return .flag (← x)

/-- the call, in terms of the model of the public interface -/
def run (E : Env α) (o : Nat) : Un α → M α (Ret α)
  | .size => num (SegTree.size o)
  | .empty => flag (SegTree.empty o)
  | .getAlloc => num (get_allocator o)
  | .at_ i => val (SegTree.at_ E o i)
  | .index i => val (index_op E o i)
  | .front => val (SegTree.front E o)
  | .back => val (SegTree.back E o)
  | .set i v => unit (index_set E o i v)
  | .setIt i v => unit (do deref_set E (← SegTree.nth E o i) v)
  | .setRv i v => unit (do deref_set_rv E (← SegTree.nth E o i) v)
  | .nth i => pos (SegTree.nth E o i)
  | .begin_ => pos (SegTree.begin_ E o)
  | .end_ => pos (SegTree.end_ E o)
  | .penultimate => pos (SegTree.penultimate E o)
  | .insert i v => pos (do SegTree.insert E o (← SegTree.nth E o i) v)
  | .insertRv i v => pos (do insert_rv E o (← SegTree.nth E o i) v)
  | .insertSelf i j => pos (do
      let it ← SegTree.nth E o i
      let jt ← SegTree.nth E o j
      insert_alias E o it jt)
  | .insertFill i n v => pos (do insert_fill E o (← SegTree.nth E o i) n v)
  | .insertList i vs => pos (do insert_list E o (← SegTree.nth E o i) vs)
  | .pushBack v => unit (push_back E o v)
  | .pushFront v => unit (push_front E o v)
  | .pushBackRv v => unit (push_back_rv E o v)
  | .pushFrontRv v => unit (push_front_rv E o v)
  | .erase i => pos (do SegTree.erase E o (← SegTree.nth E o i))
  | .eraseRange i j => pos (do
      let it ← SegTree.nth E o i
      let jt ← SegTree.nth E o j
      erase_rng E o it jt)
  | .popBack => unit (pop_back E o)
  | .popFront => unit (pop_front E o)
  | .resize n v => unit (SegTree.resize E o n v)
  | .clear => unit (SegTree.clear E o)
  | .assignFill n v => unit (assign_fill E o n v)
  | .assignList vs => unit (assign_list E o vs)
  | .removeIf p => unit (remove_if E o p)
  | .remove eq v => unit (SegTree.remove E o eq v)
  | .unique p => unit (SegTree.unique E o p)
  | .reverse => unit (SegTree.reverse E o)
  | .sort comp => unit (SegTree.sort E o comp)
  | .selfAssign => unit (assign_copy E o o)
  | .selfMove => unit (assign_move E o o)
  | .selfSwap => unit (swap E o o)

/-- the documented precondition of the call on a container seen as `x` -/
def Pre (E : Env α) (x : Obj α) : Un α → Prop
  | .index i | .set i _ | .setIt i _ | .setRv i _ | .erase i => i < x.elems.length
  | .front | .back | .penultimate | .popBack | .popFront => x.elems ≠ []
  | .insert i _ | .insertRv i _ => i ≤ x.elems.length ∧ x.elems.length + 1 ≤ max_size E
  | .insertSelf i j => i ≤ x.elems.length ∧ j < x.elems.length ∧ x.elems.length + 1 ≤ max_size E
  | .insertFill i n _ => i ≤ x.elems.length ∧ x.elems.length + n ≤ max_size E
  | .insertList i vs => i ≤ x.elems.length ∧ x.elems.length + vs.length ≤ max_size E
  | .pushBack _ | .pushFront _ | .pushBackRv _ | .pushFrontRv _ => x.elems.length + 1 ≤ max_size E
  | .eraseRange i j => i ≤ j ∧ j ≤ x.elems.length
  | .resize n _ | .assignFill n _ => n ≤ max_size E
  | .assignList vs => vs.length ≤ max_size E
  | .clear | .selfMove => Clearable E x
  | _ => True

/-- normal return: returned value and new container -/
def Ok (x : Obj α) : Un α → Ret α → Obj α → Prop
  | .size, r, x' => r = .num x.elems.length ∧ x' = x
  | .empty, r, x' => r = .flag (decide (x.elems.length = 0)) ∧ x' = x
  | .getAlloc, r, x' => r = .num x.alloc ∧ x' = x
  | .at_ i, r, x' => (∃ h : i < x.elems.length, r = .val x.elems[i]) ∧ x' = x
  | .index i, r, x' => (∃ h : i < x.elems.length, r = .val x.elems[i]) ∧ x' = x
  | .front, r, x' => (∃ h : x.elems ≠ [], r = .val (x.elems.head h)) ∧ x' = x
  | .back, r, x' => (∃ h : x.elems ≠ [], r = .val (x.elems.getLast h)) ∧ x' = x
  | .set i v, r, x' => r = .unit ∧ x' = { x with elems := x.elems.set i v }
  | .setIt i v, r, x' => r = .unit ∧ x' = { x with elems := x.elems.set i v }
  | .setRv i v, r, x' => r = .unit ∧ x' = { x with elems := x.elems.set i v }
  | .nth i, r, x' => r = .pos (min i x.elems.length) ∧ x' = x
  | .begin_, r, x' => r = .pos 0 ∧ x' = x
  | .end_, r, x' => r = .pos x.elems.length ∧ x' = x
  | .penultimate, r, x' => r = .pos (x.elems.length - 1) ∧ x' = x
  | .insert i v, r, x' => r = .pos i ∧ x' = { x with elems := ins x.elems i [v] }
  | .insertRv i v, r, x' => r = .pos i ∧ x' = { x with elems := ins x.elems i [v] }
  | .insertSelf i j, r, x' => r = .pos i ∧
      ∃ h : j < x.elems.length, x' = { x with elems := ins x.elems i [x.elems[j]] }
  | .insertFill i n v, r, x' => r = .pos i ∧ x' = { x with elems := ins x.elems i (List.replicate n v) }
  | .insertList i vs, r, x' => r = .pos i ∧ x' = { x with elems := ins x.elems i vs }
  | .pushBack v, r, x' => r = .unit ∧ x' = { x with elems := x.elems ++ [v] }
  | .pushFront v, r, x' => r = .unit ∧ x' = { x with elems := v :: x.elems }
  | .pushBackRv v, r, x' => r = .unit ∧ x' = { x with elems := x.elems ++ [v] }
  | .pushFrontRv v, r, x' => r = .unit ∧ x' = { x with elems := v :: x.elems }
  | .erase i, r, x' => r = .pos i ∧ x' = { x with elems := x.elems.eraseIdx i }
  | .eraseRange i j, r, x' => r = .pos i ∧ x' = { x with elems := x.elems.take i ++ x.elems.drop j }
  | .popBack, r, x' => r = .unit ∧ x' = { x with elems := x.elems.dropLast }
  | .popFront, r, x' => r = .unit ∧ x' = { x with elems := x.elems.tail }
  | .resize n v, r, x' => r = .unit ∧
      x' = { x with elems := x.elems.take n ++ List.replicate (n - x.elems.length) v }
  | .clear, r, x' => r = .unit ∧ x' = { x with elems := [] }
  | .assignFill n v, r, x' => r = .unit ∧ x' = { x with elems := List.replicate n v }
  | .assignList vs, r, x' => r = .unit ∧ x' = { x with elems := vs }
  | .removeIf p, r, x' => r = .unit ∧ x' = { x with elems := x.elems.filter (fun v => !p v) }
  | .remove eq v, r, x' => r = .unit ∧ x' = { x with elems := x.elems.filter (fun w => !eq w v) }
  | .unique p, r, x' => r = .unit ∧ x' = { x with elems := dropDups p x.elems }
  | .reverse, r, x' => r = .unit ∧ x' = { x with elems := x.elems.reverse }
  | .sort comp, r, x' => r = .unit ∧ x' = { x with elems := x.elems.mergeSort (fun a b => !comp b a) }
  | .selfAssign, r, x' => r = .unit ∧ x' = x
  | .selfMove, r, x' => r = .unit ∧ x' = { x with elems := [] }
  | .selfSwap, r, x' => r = .unit ∧ x' = x

/-- an exception: which, and what the container is afterwards -/
def Exc (E : Env α) (x : Obj α) : Un α → Exn → Obj α → Prop
  | .at_ i, e, x' => e = .range ∧ x.elems.length ≤ i ∧ x' = x
  | .set _ v, e, x' => e = .elem ∧ CopyThrows E v ∧ x' = x
  | .setIt _ v, e, x' => e = .elem ∧ CopyThrows E v ∧ x' = x
  | .insert _ v, e, x' => Blame E [v] e ∧ x' = x
  | .insertRv _ _, e, x' => e = .alloc ∧ x' = x
  | .insertSelf _ j, e, x' => (∃ h : j < x.elems.length, Blame E [x.elems[j]] e) ∧ x' = x
  | .pushBack v, e, x' => Blame E [v] e ∧ x' = x
  | .pushFront v, e, x' => Blame E [v] e ∧ x' = x
  | .pushBackRv _, e, x' => e = .alloc ∧ x' = x
  | .pushFrontRv _, e, x' => e = .alloc ∧ x' = x
  | .insertFill i n v, e, x' => Blame E [v] e ∧
      ∃ k < n, x' = { x with elems := ins x.elems i (List.replicate k v) }
  | .insertList i vs, e, x' => Blame E vs e ∧ ∃ k < vs.length, x' = { x with elems := ins x.elems i (vs.take k) }
  | .resize n v, e, x' => Blame E [v] e ∧
      ∃ k, x.elems.length + k < n ∧ x' = { x with elems := x.elems ++ List.replicate k v }
  | .assignFill n v, e, x' => Blame E [v] e ∧
      ∃ k < n, x' = { x with elems := List.replicate k v ++ x.elems.drop k }
  | .assignList vs, e, x' => Blame E vs e ∧
      ∃ k < vs.length, x' = { x with elems := vs.take k ++ x.elems.drop k }
  | _, _, _ => False

/-- calls that never ask the allocator for memory -/
def Quiet : Un α → Prop
  | .insert .. | .insertRv .. | .insertSelf .. | .insertFill .. | .insertList .. | .pushBack _
  | .pushFront _ | .pushBackRv _ | .pushFrontRv _ | .resize .. | .assignFill .. | .assignList _ => False
  | _ => True

end Un

/-! ### Calls on two containers -/

inductive Bin (α : Type) where
  | swap | assignCopy | assignMove
  | splice (i : Nat) | spliceOne (i j : Nat) | spliceRange (i a b : Nat)
  | merge (comp : α → α → Bool)
  | insertRange (i a b : Nat) | assignRange (a b : Nat)
  | eq (f : α → α → Bool) | ne (f : α → α → Bool) | lt (f : α → α → Bool)
  | le (f : α → α → Bool) | gt (f : α → α → Bool) | ge (f : α → α → Bool)

namespace Bin

def run (E : Env α) (o p : Nat) : Bin α → M α (Ret α)
  | .swap => Un.unit (SegTree.swap E o p)
  | .assignCopy => Un.unit (assign_copy E o p)
  | .assignMove => Un.unit (assign_move E o p)
  | .splice i => Un.unit (do SegTree.splice E o (← nth E o i) p)
  | .spliceOne i j => Un.unit (do
      let it ← nth E o i
      let jt ← nth E p j
      splice_one E o it p jt)
  | .spliceRange i a b => Un.unit (do
      let it ← nth E o i
      let first ← nth E p a
      let last ← nth E p b
      splice_range E o it p first last)
  | .merge comp => Un.unit (SegTree.merge E o p comp)
  | .insertRange i a b => Un.pos (do
      let it ← nth E o i
      let first ← nth E p a
      let last ← nth E p b
      emplace_range E (copySrc E last) o it first)
  | .assignRange a b => Un.unit (do
      let first ← nth E p a
      let last ← nth E p b
      assign_range E (copySrc E last) o first)
  | .eq f => Un.flag (op_eq E f o p)
  | .ne f => Un.flag (op_ne E f o p)
  | .lt f => Un.flag (op_lt E f o p)
  | .le f => Un.flag (op_le E f o p)
  | .gt f => Un.flag (op_gt E f o p)
  | .ge f => Un.flag (op_ge E f o p)

def Pre (E : Env α) (x y : Obj α) : Bin α → Prop
  | .swap => E.pocs = true ∨ SameAlloc E x.alloc y.alloc
  | .assignCopy => E.pocca = true → ¬ SameAlloc E x.alloc y.alloc → Clearable E x
  | .assignMove => (E.pocma = true ∨ SameAlloc E x.alloc y.alloc) → Clearable E x
  | .splice i => i ≤ x.elems.length ∧ Clearable E y ∧ x.elems.length + y.elems.length ≤ max_size E
  | .spliceOne i j => i ≤ x.elems.length ∧ j < y.elems.length ∧ x.elems.length + 1 ≤ max_size E
  | .spliceRange i a b => i ≤ x.elems.length ∧ a ≤ b ∧ b ≤ y.elems.length ∧
      x.elems.length + (b - a) ≤ max_size E
  | .merge _ => x.elems.length + y.elems.length ≤ max_size E
  | .insertRange i a b => i ≤ x.elems.length ∧ a ≤ b ∧ b ≤ y.elems.length ∧
      x.elems.length + (b - a) ≤ max_size E
  | .assignRange a b => a ≤ b ∧ b ≤ y.elems.length
  | _ => True

def Ok (E : Env α) (x y : Obj α) : Bin α → Ret α → Obj α → Obj α → Prop
  | .swap, r, x', y' => r = .unit ∧
      x' = ⟨if E.pocs then y.alloc else x.alloc, y.elems⟩ ∧ y' = ⟨if E.pocs then x.alloc else y.alloc, x.elems⟩
  | .assignCopy, r, x', y' => r = .unit ∧ x' = ⟨if E.pocca then y.alloc else x.alloc, y.elems⟩ ∧ y' = y
  | .assignMove, r, x', y' => r = .unit ∧ x' = ⟨if E.pocma then y.alloc else x.alloc, y.elems⟩ ∧
      ((E.pocma = true ∨ SameAlloc E x.alloc y.alloc) → y' = { y with elems := [] }) ∧
      (¬ (E.pocma = true ∨ SameAlloc E x.alloc y.alloc) → y' = { y with elems := y.elems.map E.moved })
  | .splice i, r, x', y' => r = .unit ∧ x' = { x with elems := ins x.elems i y.elems } ∧
      y' = { y with elems := [] }
  | .spliceOne i j, r, x', y' => r = .unit ∧
      (∃ h : j < y.elems.length, x' = { x with elems := ins x.elems i [y.elems[j]] }) ∧
      y' = { y with elems := y.elems.eraseIdx j }
  | .spliceRange i a b, r, x', y' => r = .unit ∧ x' = { x with elems := ins x.elems i (slice y.elems a b) } ∧
      y' = { y with elems := y.elems.take a ++ y.elems.drop b }
  | .merge comp, r, x', y' => r = .unit ∧
      x' = { x with elems := x.elems.merge y.elems (fun a b => !comp b a) } ∧ y' = { y with elems := [] }
  | .insertRange i a b, r, x', y' => r = .pos i ∧ x' = { x with elems := ins x.elems i (slice y.elems a b) } ∧
      y' = y
  | .assignRange a b, r, x', y' => r = .unit ∧ x' = { x with elems := slice y.elems a b } ∧ y' = y
  | .eq f, r, x', y' => r = .flag (allEq f x.elems y.elems) ∧ x' = x ∧ y' = y
  | .ne f, r, x', y' => r = .flag (!allEq f x.elems y.elems) ∧ x' = x ∧ y' = y
  | .lt f, r, x', y' => r = .flag (lexLt f x.elems y.elems) ∧ x' = x ∧ y' = y
  | .le f, r, x', y' => r = .flag (!lexLt f y.elems x.elems) ∧ x' = x ∧ y' = y
  | .gt f, r, x', y' => r = .flag (lexLt f y.elems x.elems) ∧ x' = x ∧ y' = y
  | .ge f, r, x', y' => r = .flag (!lexLt f x.elems y.elems) ∧ x' = x ∧ y' = y

def Exc (E : Env α) (x y : Obj α) : Bin α → Exn → Obj α → Obj α → Prop
  | .assignCopy, e, x', y' => Blame E y.elems e ∧ y' = y ∧ ∃ k < y.elems.length, ∃ xs,
      -- `xs`: the old elements, or nothing if the allocator had to be replaced
      (¬ (E.pocca = true ∧ ¬ SameAlloc E x.alloc y.alloc) → xs = x.elems) ∧
      ((E.pocca = true ∧ ¬ SameAlloc E x.alloc y.alloc) → xs = []) ∧
      x' = ⟨if E.pocca then y.alloc else x.alloc, y.elems.take k ++ xs.drop k⟩
  | .assignMove, e, x', y' => e = .alloc ∧ ¬ (E.pocma = true ∨ SameAlloc E x.alloc y.alloc) ∧
      ∃ k < y.elems.length, x' = { x with elems := y.elems.take k ++ x.elems.drop k } ∧
      y' = { y with elems := movedFrom E 0 (k + 1) y.elems }
  | .splice i, e, x', y' => e = .alloc ∧ ∃ k < y.elems.length,
      x' = { x with elems := ins x.elems i (y.elems.take k) } ∧
      y' = { y with elems := movedFrom E 0 (k + 1) y.elems }
  | .spliceOne _ j, e, x', y' => (∃ h : j < y.elems.length, Blame E [y.elems[j]] e) ∧ x' = x ∧ y' = y
  | .spliceRange i a b, e, x', y' => e = .alloc ∧ ∃ k < b - a,
      x' = { x with elems := ins x.elems i ((slice y.elems a b).take k) } ∧
      y' = { y with elems := movedFrom E a (a + k + 1) y.elems }
  | .merge _, e, x', y' => e = .alloc ∧ ∃ k < y.elems.length,
      x' = { x with elems := x.elems ++ y.elems.take k } ∧
      y' = { y with elems := movedFrom E 0 (k + 1) y.elems }
  | .insertRange i a b, e, x', y' => Blame E (slice y.elems a b) e ∧ y' = y ∧
      ∃ k < b - a, x' = { x with elems := ins x.elems i ((slice y.elems a b).take k) }
  | .assignRange a b, e, x', y' => Blame E (slice y.elems a b) e ∧ y' = y ∧
      ∃ k < b - a, x' = { x with elems := (slice y.elems a b).take k ++ x.elems.drop k }
  | _, _, _, _ => False

end Bin

/-! ### Constructors -/

inductive New (α : Type) where
  | empty (al : Nat) | fill (al n : Nat) (v : α) | list (al : Nat) (vs : List α)

namespace New

def run (E : Env α) (o : Nat) : New α → M α (Ret α)
  | .empty al => Un.unit (ctor o al)
  | .fill al n v => Un.unit (ctor_count E o al n (copyVal E v))
  | .list al vs => Un.unit (ctor_range E (listSrc E) o al vs)

/-- A constructor that throws destroys a possibly empty container, hence the
condition on the allocator (see C45). -/
def Pre (E : Env α) : New α → Prop
  | .empty _ => True
  | .fill _ n _ => n ≤ max_size E ∧ E.nullFree = true
  | .list _ vs => vs.length ≤ max_size E ∧ E.nullFree = true

def Ok : New α → Obj α → Prop
  | .empty al, x' => x' = ⟨al, []⟩
  | .fill al n v, x' => x' = ⟨al, List.replicate n v⟩
  | .list al vs, x' => x' = ⟨al, vs⟩

def Exc (E : Env α) : New α → Exn → Prop
  | .empty _, _ => False
  | .fill _ _ v, e => Blame E [v] e
  | .list _ vs, e => Blame E vs e

end New

/-- constructors from another container -/
inductive New2 where
  | copy | copyAlloc (al : Nat) | move | moveAlloc (al : Nat) | range (al a b : Nat)

namespace New2

def run (E : Env α) (o p : Nat) : New2 → M α (Ret α)
  | .copy => Un.unit (ctor_copy E o p)
  | .copyAlloc al => Un.unit (ctor_copy_alloc E o p al)
  | .move => Un.unit (ctor_move o p)
  | .moveAlloc al => Un.unit (ctor_move_alloc E o p al)
  | .range al a b => Un.unit (do
      let first ← nth E p a
      let last ← nth E p b
      ctor_range E (copySrc E last) o al first)

def Pre (E : Env α) (y : Obj α) : New2 → Prop
  | .move => True
  | .range _ a b => a ≤ b ∧ b ≤ y.elems.length ∧ E.nullFree = true
  | _ => E.nullFree = true

def Ok (E : Env α) (y : Obj α) : New2 → Obj α → Obj α → Prop
  | .copy, x', y' => x' = ⟨E.selectCopy y.alloc, y.elems⟩ ∧ y' = y
  | .copyAlloc al, x', y' => x' = ⟨al, y.elems⟩ ∧ y' = y
  | .move, x', y' => x' = y ∧ y' = { y with elems := [] }
  | .moveAlloc al, x', y' => x' = ⟨al, y.elems⟩ ∧
      (SameAlloc E al y.alloc → y' = { y with elems := [] }) ∧
      (¬ SameAlloc E al y.alloc → y' = { y with elems := y.elems.map E.moved })
  | .range al a b, x', y' => x' = ⟨al, slice y.elems a b⟩ ∧ y' = y

/-- a failing constructor makes no object; the source afterwards -/
def Exc (E : Env α) (y : Obj α) : New2 → Exn → Obj α → Prop
  | .copy, e, y' => Blame E y.elems e ∧ y' = y
  | .copyAlloc _, e, y' => Blame E y.elems e ∧ y' = y
  | .move, _, _ => False
  | .moveAlloc al, e, y' => e = .alloc ∧ ¬ SameAlloc E al y.alloc ∧
      ∃ k < y.elems.length, y' = { y with elems := movedFrom E 0 (k + 1) y.elems }
  | .range _ a b, e, y' => Blame E (slice y.elems a b) e ∧ y' = y

end New2

/-! ### Programs -/

/-- One call of the public interface. -/
inductive Op (α : Type) where
  | un (o : Nat) (c : Un α)
  | bin (o p : Nat) (c : Bin α)
  | new (o : Nat) (c : New α)
  | new2 (o p : Nat) (c : New2)
  | dtor (o : Nat)

namespace Op

def run (E : Env α) : Op α → M α (Ret α)
  | .un o c => c.run E o
  | .bin o p c => c.run E o p
  | .new o c => c.run E o
  | .new2 o p c => c.run E o p
  | .dtor o => Un.unit (SegTree.dtor E o)

/-- the containers a call names -/
def objs : Op α → List Nat
  | .un o _ | .new o _ | .dtor o => [o]
  | .bin o p _ | .new2 o p _ => [o, p]

/-- documented preconditions, on the bank of lists -/
def Pre (E : Env α) (S : Bank α) : Op α → Prop
  | .un o c => ∃ x, S o = some x ∧ c.Pre E x
  | .bin o p c => o ≠ p ∧ ∃ x y, S o = some x ∧ S p = some y ∧ c.Pre E x y
  | .new o c => S o = none ∧ c.Pre E
  | .new2 o p c => S o = none ∧ ∃ y, S p = some y ∧ c.Pre E y
  | .dtor o => ∃ x, S o = some x ∧ Clearable E x

/-- normal return on the bank of lists -/
def Ok (E : Env α) (S : Bank α) : Op α → Ret α → Bank α → Prop
  | .un o c, r, S' => ∃ x x', S o = some x ∧ c.Ok x r x' ∧ S' = upd S o (some x')
  | .bin o p c, r, S' => ∃ x y x' y', S o = some x ∧ S p = some y ∧ c.Ok E x y r x' y' ∧
      S' = upd (upd S p (some y')) o (some x')
  | .new o c, r, S' => r = .unit ∧ ∃ x', c.Ok x' ∧ S' = upd S o (some x')
  | .new2 o p c, r, S' => r = .unit ∧ ∃ y x' y', S p = some y ∧ c.Ok E y x' y' ∧
      S' = upd (upd S p (some y')) o (some x')
  | .dtor o, r, S' => r = .unit ∧ S' = upd S o none

/-- exception on the bank of lists -/
def Exc (E : Env α) (S : Bank α) : Op α → Exn → Bank α → Prop
  | .un o c, e, S' => ∃ x x', S o = some x ∧ c.Exc E x e x' ∧ S' = upd S o (some x')
  | .bin o p c, e, S' => ∃ x y x' y', S o = some x ∧ S p = some y ∧ c.Exc E x y e x' y' ∧
      S' = upd (upd S p (some y')) o (some x')
  | .new _ c, e, S' => c.Exc E e ∧ S' = S
  | .new2 _ p c, e, S' => ∃ y y', S p = some y ∧ c.Exc E y e y' ∧ S' = upd S p (some y')
  | .dtor _, _, _ => False

/-- calls that never ask the allocator for memory -/
def Quiet : Op α → Prop
  | .un _ c => c.Quiet
  | .bin _ _ c => match c with
    | .swap | .eq _ | .ne _ | .lt _ | .le _ | .gt _ | .ge _ => True
    | _ => False
  | .new _ c => match c with
    | .empty _ => True
    | _ => False
  | .new2 _ _ c => c = .move
  | .dtor _ => True

end Op

/-- the memory before any call: nothing allocated, no container -/
def noMem : Mem α := ⟨fun _ => none, ⟨0, 0⟩, 0⟩

/-- The memories a program using the library can be in: after any number of
calls made within their preconditions, whether they returned or threw. -/
inductive Reach (E : Env α) : Mem α → Prop where
  | init : Reach E noMem
  | ret {m m' : Mem α} {S : Bank α} {op : Op α} {r : Ret α} :
      Reach E m → View E m S → op.Pre E S → op.run E m = .ok r m' → Reach E m'
  | exc {m m' : Mem α} {S : Bank α} {op : Op α} {e : Exn} :
      Reach E m → View E m S → op.Pre E S → op.run E m = .throw e m' → Reach E m'

end SegTree
