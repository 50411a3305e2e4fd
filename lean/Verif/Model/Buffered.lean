/-
  What `std::stable_sort` and `std::inplace_merge` do with the temporary buffer they
  ask for, whether they get all of it, a part or none: the functions of libstdc++
  (bits/stl_algo.h) that `sort` and `merge` of the container then run, on the
  container's iterators.  (What is run without a buffer is in Model/Sorting.lean.)
  Simplifications: the comparison is a pure function; the buffer is the list of the
  values moved into it, and values moved out of it, which nothing reads again, are
  dropped from the list; a range of the buffer is a list, and one that is read from its
  end is the reversed list.  Writing past the end of the buffer is undefined behaviour
  (`fits`).  `std::rotate` is that of Model/Sorting.lean.
-/
import Verif.Model.Sorting
set_option autoImplicit false

namespace SegTree
variable {α : Type} (E : Env α) (comp : α → α → Bool)

/-- `_Temporary_buffer(seed, n)`, bits/stl_tempbuf.h: the first object of the buffer is made
from `std::move(*seed)`, each further one from the one before it, and
`*seed = std::move(*prev)` puts the value back -/
def tmp_buffer (seed : Iter) (n : Nat) : M α Unit :=
  if n = 0 then pure ()
  else do
    let v ← moveFrom E seed.entry.seg.ptr seed.entry.seg.idx
    deref_set_rv E seed v

/-- writing `vs` to the start of a buffer of `size` objects -/
def fits (size : Nat) (vs : List α) : M α (List α) :=
  if vs.length ≤ size then pure vs else M.ub .oob

/-- `std::move(first, last, buffer)` -/
def move_to_buffer (first last : Iter) : M α (List α) :=
  if first.pos ≠ last.pos then do
    let v ← moveFrom E first.entry.seg.ptr first.entry.seg.idx
    let first ← move_next_iterator E first
    let vs ← move_to_buffer first last
    return v :: vs
  else pure []
partial_fixpoint

/-- `std::move(buffer, buffer_end, result)` -/
def move_from_buffer : List α → Iter → M α Iter
  | [], result => pure result
  | v :: vs, result => do
    deref_set_rv E result v
    let result ← move_next_iterator E result
    move_from_buffer vs result

/-- `std::move_backward(buffer, buffer_end, result)`, the last value first -/
def move_backward_from_buffer : List α → Iter → M α Iter
  | [], result => pure result
  | v :: vs, result => do
    let result ← move_prev_iterator E result
    deref_set_rv E result v
    move_backward_from_buffer vs result

/-- `__move_merge(first1, last1, first2, last2, buffer, comp)` into the buffer -/
def merge_to_buffer (first1 last1 first2 last2 : Iter) : M α (List α) :=
  if first1.pos ≠ last1.pos ∧ first2.pos ≠ last2.pos then do
    let y ← dereference E first2
    let x ← dereference E first1
    if comp y x then
      let v ← moveFrom E first2.entry.seg.ptr first2.entry.seg.idx
      let first2 ← move_next_iterator E first2
      let vs ← merge_to_buffer first1 last1 first2 last2
      return v :: vs
    else
      let v ← moveFrom E first1.entry.seg.ptr first1.entry.seg.idx
      let first1 ← move_next_iterator E first1
      let vs ← merge_to_buffer first1 last1 first2 last2
      return v :: vs
  else do
    let xs ← move_to_buffer E first1 last1
    let ys ← move_to_buffer E first2 last2
    return xs ++ ys
partial_fixpoint

/-- `__move_merge` from the buffer to `result` -/
def merge_from_buffer (xs ys : List α) (result : Iter) : M α Iter :=
  match xs, ys with
  | x :: xs, y :: ys =>
    if comp y x then do
      deref_set_rv E result y
      let result ← move_next_iterator E result
      merge_from_buffer (x :: xs) ys result
    else do
      deref_set_rv E result x
      let result ← move_next_iterator E result
      merge_from_buffer xs (y :: ys) result
  | xs, ys => do
    let result ← move_from_buffer E xs result
    move_from_buffer E ys result
partial_fixpoint

/-- `__merge_sort_loop(first, last, buffer, step_size, comp)` into the buffer -/
def merge_loop_to_buffer (first last : Iter) (step : Nat) : M α (List α) :=
  if it_diff E last first ≥ (2 * step : Nat) then do
    let mid ← it_add E first step
    let after ← it_add E first (2 * step : Nat)
    let vs ← merge_to_buffer E comp first mid mid after
    let ws ← merge_loop_to_buffer after last step
    return vs ++ ws
  else do
    let mid ← it_add E first (min (it_diff E last first) step)
    merge_to_buffer E comp first mid mid last
partial_fixpoint

/-- `__merge_sort_loop(buffer, buffer_last, first, step_size, comp)` from the buffer -/
def merge_loop_from_buffer (buf : List α) (result : Iter) (step : Nat) : M α Unit :=
  if buf.length ≥ 2 * step then do
    let result ← merge_from_buffer E comp (buf.take step) ((buf.drop step).take step) result
    merge_loop_from_buffer (buf.drop (2 * step)) result step
  else do
    let mid := min buf.length step
    let _ ← merge_from_buffer E comp (buf.take mid) (buf.drop mid) result
    return ()
partial_fixpoint

/-- `__chunk_insertion_sort(first, last, chunk_size, comp)` -/
def chunk_insertion_sort (first last : Iter) (chunk : Nat) : M α Unit :=
  if it_diff E last first ≥ chunk then do
    let mid ← it_add E first chunk
    insertion_sort E comp first mid
    chunk_insertion_sort mid last chunk
  else insertion_sort E comp first last
partial_fixpoint

/-- the loop of `__merge_sort_with_buffer` -/
def merge_passes (size : Nat) (first last : Iter) (len step : Nat) : M α Unit :=
  if step < len then do
    let buf ← fits size (← merge_loop_to_buffer E comp first last step)
    let step := step * 2
    merge_loop_from_buffer E comp buf first step
    merge_passes size first last len (step * 2)
  else pure ()
partial_fixpoint

/-- `__merge_sort_with_buffer(first, last, buffer, comp)`; `_S_chunk_size` is 7 -/
def merge_sort_with_buffer (size : Nat) (first last : Iter) : M α Unit := do
  chunk_insertion_sort E comp first last 7
  merge_passes E comp size first last (it_diff E last first).toNat 7

/-- `__move_merge_adaptive(buffer, buffer_end, first2, last2, result, comp)` -/
def merge_adaptive_forward (xs : List α) (first2 last2 result : Iter) : M α Unit :=
  match xs with
  | [] => pure ()
  | x :: xs =>
    if first2.pos ≠ last2.pos then do
      let y ← dereference E first2
      if comp y x then
        iter_move_assign E first2 result
        let first2 ← move_next_iterator E first2
        let result ← move_next_iterator E result
        merge_adaptive_forward (x :: xs) first2 last2 result
      else
        deref_set_rv E result x
        let result ← move_next_iterator E result
        merge_adaptive_forward xs first2 last2 result
    else do
      let _ ← move_from_buffer E (x :: xs) result
      return ()
partial_fixpoint

/-- the loop of `__move_merge_adaptive_backward`: `b` is `*last2`, `bs` what is before it -/
def merge_backward_loop (first1 last1 : Iter) (b : α) (bs : List α) (result : Iter) : M α Unit := do
  let x ← dereference E last1
  if comp b x then
    let result ← move_prev_iterator E result
    iter_move_assign E last1 result
    if first1.pos = last1.pos then do
      let _ ← move_backward_from_buffer E (b :: bs) result
      return ()
    else
      let last1 ← move_prev_iterator E last1
      merge_backward_loop first1 last1 b bs result
  else
    let result ← move_prev_iterator E result
    deref_set_rv E result b
    match bs with
    | [] => pure ()
    | b' :: bs => merge_backward_loop first1 last1 b' bs result
partial_fixpoint

/-- `__move_merge_adaptive_backward(first1, last1, buffer, buffer_end, result, comp)` -/
def merge_adaptive_backward (first1 last1 : Iter) (rs : List α) (result : Iter) : M α Unit :=
  if first1.pos = last1.pos then do
    let _ ← move_backward_from_buffer E rs result
    return ()
  else
    match rs with
    | [] => pure ()
    | b :: bs => do
      let last1 ← move_prev_iterator E last1
      merge_backward_loop E comp first1 last1 b bs result

/-- `__merge_adaptive(first, middle, last, len1, len2, buffer, comp)` -/
def merge_adaptive (size : Nat) (first middle last : Iter) (len1 len2 : Int) : M α Unit :=
  if len1 ≤ len2 then do
    let xs ← fits size (← move_to_buffer E first middle)
    merge_adaptive_forward E comp xs middle last first
  else do
    let ys ← fits size (← move_to_buffer E middle last)
    merge_adaptive_backward E comp first middle ys.reverse last

/-- `__stable_sort_adaptive(first, middle, last, buffer, comp)` -/
def stable_sort_adaptive (size : Nat) (first middle last : Iter) : M α Unit := do
  merge_sort_with_buffer E comp size first middle
  merge_sort_with_buffer E comp size middle last
  merge_adaptive E comp size first middle last (it_diff E middle first) (it_diff E last middle)

/-- `__rotate_adaptive(first, middle, last, len1, len2, buffer, buffer_size)` -/
def rotate_adaptive (size : Nat) (first middle last : Iter) (len1 len2 : Nat) : M α Iter :=
  if len1 > len2 ∧ len2 ≤ size then
    if len2 ≠ 0 then do
      let vs ← fits size (← move_to_buffer E middle last)
      std_move_backward E first middle last
      move_from_buffer E vs first
    else pure first
  else if len1 ≤ size then
    if len1 ≠ 0 then do
      let vs ← fits size (← move_to_buffer E first middle)
      std_move E middle last first
      move_backward_from_buffer E vs.reverse last
    else pure last
  else std_rotate E first middle last

/-- `__merge_adaptive_resize(first, middle, last, len1, len2, buffer, buffer_size, comp)` -/
def merge_adaptive_resize (size : Nat) (first middle last : Iter) (len1 len2 : Nat) : M α Unit :=
  if len1 ≤ size ∨ len2 ≤ size then merge_adaptive E comp size first middle last len1 len2
  else if len2 < len1 then do
    let first_cut ← it_add E first (len1 / 2 : Nat)
    let v ← dereference E first_cut
    let second_cut ← std_lower_bound E comp middle last v
    let len22 := (it_diff E second_cut middle).toNat
    let new_middle ← rotate_adaptive E size first_cut middle second_cut (len1 - len1 / 2) len22
    merge_adaptive_resize size first first_cut new_middle (len1 / 2) len22
    merge_adaptive_resize size new_middle second_cut last (len1 - len1 / 2) (len2 - len22)
  else do
    let second_cut ← it_add E middle (len2 / 2 : Nat)
    let v ← dereference E second_cut
    let first_cut ← std_upper_bound E comp first middle v
    let len11 := (it_diff E first_cut first).toNat
    let new_middle ← rotate_adaptive E size first_cut middle second_cut (len1 - len11) (len2 / 2)
    merge_adaptive_resize size first first_cut new_middle len11 (len2 / 2)
    merge_adaptive_resize size new_middle second_cut last (len1 - len11) (len2 - len2 / 2)
partial_fixpoint

/-- `__stable_sort_adaptive_resize(first, last, buffer, buffer_size, comp)` -/
def stable_sort_adaptive_resize (size : Nat) (first last : Iter) : M α Unit := do
  let half := (it_diff E last first + 1) / 2
  let middle ← it_add E first half
  if half > size then
    stable_sort_adaptive_resize size first middle
    stable_sort_adaptive_resize size middle last
    merge_adaptive_resize E comp size first middle last (it_diff E middle first).toNat (it_diff E last middle).toNat
  else stable_sort_adaptive E comp size first middle last
partial_fixpoint

/-- `std::stable_sort(first, last)` when `std::get_temporary_buffer(n)` yields `got n` objects -/
def buffered_stable_sort (got : Nat → Nat) (first last : Iter) : M α Unit :=
  if first.pos = last.pos then pure ()
  else do
    let half := ((it_diff E last first + 1) / 2).toNat
    let size := got half
    tmp_buffer E first size
    if half = size then
      let middle ← it_add E first size
      stable_sort_adaptive E comp size first middle last
    else if size = 0 then inplace_stable_sort E comp first last
    else stable_sort_adaptive_resize E comp size first last

/-- `std::inplace_merge(first, middle, last)` when `std::get_temporary_buffer(n)` yields `got n` objects -/
def buffered_merge (got : Nat → Nat) (first middle last : Iter) : M α Unit :=
  if first.pos = middle.pos ∨ middle.pos = last.pos then pure ()
  else do
    let len1 := (it_diff E middle first).toNat
    let len2 := (it_diff E last middle).toNat
    let size := got (min len1 len2)
    tmp_buffer E first size
    if size = min len1 len2 then merge_adaptive E comp size first middle last len1 len2
    else if size = 0 then merge_without_buffer E comp first middle last len1 len2
    else merge_adaptive_resize E comp size first middle last len1 len2

/-- `sort(comp)`, seq.hpp 3645-3661, running the algorithm above -/
def sort_buffered (got : Nat → Nat) (o : Nat) : M α Unit := do
  let b ← begin_ E o
  let e ← end_ E o
  buffered_stable_sort E comp got b e

/-- `merge(other, comp)`, seq.hpp 3433-3438, running the algorithm above -/
def merge_buffered (got : Nat → Nat) (o other : Nat) : M α Unit := do
  let sz ← getSize o
  let e ← end_ E o
  let f ← begin_ E other
  let l ← end_ E other
  splice_range E o e other f l
  let b ← begin_ E o
  let mid ← nth E o sz
  let e ← end_ E o
  buffered_merge E comp got b mid e

end SegTree
