/-
  What `std::stable_sort` and `std::inplace_merge` do when no buffer can be had: the
  functions of libstdc++ (bits/stl_algo.h) that `sort` and `merge` of the container
  then run, statement by statement, on the container's iterators.  (Model/Api.lean
  models the two standard functions by their contract.)  Simplifications: the
  comparison is a pure function; a value that is compared again and again through a
  reference to an element nobody writes is read once; `std::rotate` takes its shortcuts
  for `__is_pod` types (which the proofs allow for any type) when the type is trivially
  copyable; its counters are natural numbers.
-/
import Verif.Model.Api
set_option autoImplicit false

namespace SegTree
variable {α : Type} (E : Env α) (comp : α → α → Bool)

/-- `std::move_backward(first, last, result)`: `while (first != last) *--result = std::move(*--last);` -/
def std_move_backward (first last result : Iter) : M α Unit :=
  if first.pos ≠ last.pos then do
    let result ← move_prev_iterator E result
    let last ← move_prev_iterator E last
    iter_move_assign E last result
    std_move_backward first last result
  else pure ()
partial_fixpoint

/-- the loop of `__unguarded_linear_insert`: `while (comp(val, *next)) { *last = std::move(*next);
last = next; --next; }  *last = std::move(val);` -/
def linear_insert_loop (v : α) (last next : Iter) : M α Unit := do
  let x ← dereference E next
  if comp v x then
    iter_move_assign E next last
    let before ← move_prev_iterator E next
    linear_insert_loop v next before
  else deref_set_rv E last v
partial_fixpoint

/-- `__unguarded_linear_insert(last)`: `val = std::move(*last); next = last; --next;` and the loop -/
def linear_insert (last : Iter) : M α Unit := do
  let v ← moveFrom E last.entry.seg.ptr last.entry.seg.idx
  let next ← move_prev_iterator E last
  linear_insert_loop E comp v last next

/-- the loop of `__insertion_sort`, from `i` on -/
def insertion_sort_loop (first i last : Iter) : M α Unit :=
  if i.pos ≠ last.pos then do
    let x ← dereference E i
    let y ← dereference E first
    let after ← move_next_iterator E i
    if comp x y then
      let v ← moveFrom E i.entry.seg.ptr i.entry.seg.idx
      std_move_backward E first i after
      deref_set_rv E first v
    else linear_insert E comp i
    insertion_sort_loop first after last
  else pure ()
partial_fixpoint

/-- `__insertion_sort(first, last)` -/
def insertion_sort (first last : Iter) : M α Unit :=
  if first.pos = last.pos then pure ()
  else do
    let i ← move_next_iterator E first
    insertion_sort_loop E comp first i last

/-- the loop of `std::lower_bound` (`q x` is `comp(x, val)`) and of `std::upper_bound`
(`q x` is `!comp(val, x)`): `while (len > 0) { half = len / 2; mid = first + half;
if (q(*mid)) { first = mid; ++first; len = len - half - 1; } else len = half; }` -/
def bound_loop (q : α → Bool) (first : Iter) (len : Nat) : M α Iter :=
  if 0 < len then do
    let mid ← it_add E first (len / 2 : Nat)
    let x ← dereference E mid
    if q x then
      let first ← move_next_iterator E mid
      bound_loop q first (len - len / 2 - 1)
    else bound_loop q first (len / 2)
  else pure first
partial_fixpoint

/-- `std::lower_bound(first, last, val, comp)` -/
def std_lower_bound (first last : Iter) (v : α) : M α Iter :=
  bound_loop E (fun x => comp x v) first (it_diff E last first).toNat

/-- `std::upper_bound(first, last, val, comp)` -/
def std_upper_bound (first last : Iter) (v : α) : M α Iter :=
  bound_loop E (fun x => !comp v x) first (it_diff E last first).toNat

/-- `std::move(first, last, result)` -/
def std_move (first last result : Iter) : M α Unit :=
  if first.pos ≠ last.pos then do
    iter_move_assign E first result
    let first ← move_next_iterator E first
    let result ← move_next_iterator E result
    std_move first last result
  else pure ()
partial_fixpoint

/-- `std::swap_ranges(first1, last1, first2)` -/
def swap_ranges (first1 last1 first2 : Iter) : M α Iter :=
  if first1.pos ≠ last1.pos then do
    iter_swap E first1 first2
    let first1 ← move_next_iterator E first1
    let first2 ← move_next_iterator E first2
    swap_ranges first1 last1 first2
  else pure first2
partial_fixpoint

/-- `for (i = 0; i < c; ++i) { iter_swap(p, q); ++p; ++q; }`; the new `p` -/
def rotate_up (p q : Iter) : Nat → M α Iter
  | 0 => pure p
  | c + 1 => do
    iter_swap E p q
    let p ← move_next_iterator E p
    let q ← move_next_iterator E q
    rotate_up p q c

/-- `for (i = 0; i < c; ++i) { --p; --q; iter_swap(p, q); }`; the new `p` -/
def rotate_down (p q : Iter) : Nat → M α Iter
  | 0 => pure p
  | c + 1 => do
    let p ← move_prev_iterator E p
    let q ← move_prev_iterator E q
    iter_swap E p q
    rotate_down p q c

/-- the loop of `std::rotate` -/
def rotate_loop (pod : Bool) (p : Iter) (n k : Nat) : M α Unit :=
  if k < n - k then
    if pod = true ∧ k = 1 then do
      let v ← moveFrom E p.entry.seg.ptr p.entry.seg.idx
      let p1 ← it_add E p 1
      let pn ← it_add E p n
      std_move E p1 pn p
      let pn ← it_add E p n
      let pl ← it_sub E pn 1
      deref_set_rv E pl v
    else do
      let q ← it_add E p k
      let p ← rotate_up E p q (n - k)
      let n' := n % k
      if n' = 0 then pure ()
      else rotate_loop pod p k (k - n')
  else
    let k := n - k
    if pod = true ∧ k = 1 then do
      let pn ← it_add E p n
      let pl ← it_sub E pn 1
      let v ← moveFrom E pl.entry.seg.ptr pl.entry.seg.idx
      let pn ← it_add E p n
      let pl ← it_sub E pn 1
      let pn ← it_add E p n
      std_move_backward E p pl pn
      deref_set_rv E p v
    else do
      let q ← it_add E p n
      let p ← it_sub E q k
      let p ← rotate_down E p q (n - k)
      let n' := n % k
      if n' = 0 then pure ()
      else rotate_loop pod p k n'
partial_fixpoint

/-- `std::rotate(first, middle, last)` on random-access iterators, `__is_pod` being `pod`;
it returns `first + (last - middle)` -/
def rotate_random (pod : Bool) (first middle last : Iter) : M α Iter :=
  if first.pos = middle.pos then pure last
  else if last.pos = middle.pos then pure first
  else do
    let n := (it_diff E last first).toNat
    let k := (it_diff E middle first).toNat
    if k = n - k then
      let _ ← swap_ranges E first middle middle
      return middle
    else
      let ret ← it_add E first (it_diff E last middle)
      rotate_loop E pod first n k
      return ret

/-- `std::rotate(first, middle, last)` -/
def std_rotate (first middle last : Iter) : M α Iter := rotate_random E E.trivCopy first middle last

/-- `__merge_without_buffer(first, middle, last, len1, len2)` -/
def merge_without_buffer (first middle last : Iter) (len1 len2 : Nat) : M α Unit :=
  if len1 = 0 ∨ len2 = 0 then pure ()
  else if len1 + len2 = 2 then do
    let x ← dereference E middle
    let y ← dereference E first
    if comp x y then iter_swap E first middle else pure ()
  else if len2 < len1 then do
    let first_cut ← it_add E first (len1 / 2 : Nat)
    let v ← dereference E first_cut
    let second_cut ← std_lower_bound E comp middle last v
    let len22 := (it_diff E second_cut middle).toNat
    let new_middle ← std_rotate E first_cut middle second_cut
    merge_without_buffer first first_cut new_middle (len1 / 2) len22
    merge_without_buffer new_middle second_cut last (len1 - len1 / 2) (len2 - len22)
  else do
    let second_cut ← it_add E middle (len2 / 2 : Nat)
    let v ← dereference E second_cut
    let first_cut ← std_upper_bound E comp first middle v
    let len11 := (it_diff E first_cut first).toNat
    let new_middle ← std_rotate E first_cut middle second_cut
    merge_without_buffer first first_cut new_middle len11 (len2 / 2)
    merge_without_buffer new_middle second_cut last (len1 - len11) (len2 - len2 / 2)
partial_fixpoint

/-- `__inplace_stable_sort(first, last)` -/
def inplace_stable_sort (first last : Iter) : M α Unit :=
  if it_diff E last first < 15 then insertion_sort E comp first last
  else do
    let middle ← it_add E first (it_diff E last first / 2)
    inplace_stable_sort first middle
    inplace_stable_sort middle last
    merge_without_buffer E comp first middle last (it_diff E middle first).toNat (it_diff E last middle).toNat
partial_fixpoint

/-- `std::inplace_merge(first, middle, last)` without a buffer -/
def inplace_merge (first middle last : Iter) : M α Unit :=
  if first.pos = middle.pos ∨ middle.pos = last.pos then pure ()
  else merge_without_buffer E comp first middle last (it_diff E middle first).toNat (it_diff E last middle).toNat

/-- `sort(comp)`, seq.hpp 3645-3661, running the algorithm above -/
def sort_inplace (o : Nat) : M α Unit := do
  let b ← begin_ E o
  let e ← end_ E o
  inplace_stable_sort E comp b e

/-- `merge(other, comp)`, seq.hpp 3433-3438, running the algorithm above -/
def merge_inplace (o other : Nat) : M α Unit := do
  let sz ← getSize o
  let e ← end_ E o
  let f ← begin_ E other
  let l ← end_ E other
  splice_range E o e other f l
  let b ← begin_ E o
  let mid ← nth E o sz
  let e ← end_ E o
  inplace_merge E comp b mid e

end SegTree
