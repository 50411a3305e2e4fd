/-
  `detail::static_traits_t`: searching and iterator movement.
  seq.hpp 121-701.
-/
import Verif.Model.Base
set_option autoImplicit false

namespace SegTree

/-- `segment_entry`, seq.hpp 141-145 -/
structure SegE where
  ptr : Nat
  idx : Nat
  len : Nat
  deriving DecidableEq, Repr

/-- `leaf_entry`, seq.hpp 147-150 -/
structure LeafE where
  ptr : Nat
  idx : Nat
  deriving DecidableEq, Repr

/-- `iterator_entry`, seq.hpp 152-155 -/
structure Entry where
  seg : SegE
  leaf : LeafE
  deriving DecidableEq, Repr

/-- `iterator_data`, seq.hpp 157-160 -/
structure Iter where
  entry : Entry
  pos : Nat
  deriving DecidableEq, Repr

section Static
variable {α : Type} (E : Env α)

/-! #### find_index -/

/-- `find_index_segment`, seq.hpp 229-236 -/
def find_index_segment (p sz pos : Nat) : SegE := { ptr := p, idx := pos, len := sz }

/-- the inner loop shared by `find_index_branch` (seq.hpp 198-202) and
`find_index_leaf` (seq.hpp 215-219):
`while (pos >= size) { pos -= size; ++index; size = pointer->sizes[index]; }` -/
def find_index_loop (p index size pos : Nat) : M α (Nat × Nat) :=
  if pos ≥ size then do
    let size' ← sizesAt E p (index + 1)
    find_index_loop p (index + 1) size' (pos - size)
  else pure (index, pos)
partial_fixpoint

/-- `find_index_leaf`, seq.hpp 212-227 -/
def find_index_leaf (p pos : Nat) : M α Entry := do
  let size ← sizesAt E p 0
  let (index, pos) ← find_index_loop E p 0 size pos
  let child ← ptrsAt E p index
  let csz ← sizesAt E p index
  return { leaf := { ptr := p, idx := index }, seg := find_index_segment child csz pos }

/-- `find_index_branch`, seq.hpp 193-210 -/
def find_index_branch (p ht pos : Nat) : M α Entry := do
  let size ← sizesAt E p 0
  let (index, pos) ← find_index_loop E p 0 size pos
  let child ← ptrsAt E p index
  let ht ← usub ht 1
  if ht = 2 then find_index_leaf E child pos
  else find_index_branch child ht pos
partial_fixpoint

/-- `find_index_node`, seq.hpp 187-191 -/
def find_index_node (p ht pos : Nat) : M α Entry :=
  if ht = 2 then find_index_leaf E p pos else find_index_branch E p ht pos

/-- `find_index_root`, seq.hpp 172-185 -/
def find_index_root (p sz ht pos : Nat) : M α Iter :=
  if ht < 2 then
    pure { pos := pos, entry := { leaf := { ptr := 0, idx := 0 }, seg := find_index_segment p sz pos } }
  else do
    let e ← find_index_node E p ht pos
    return { pos := pos, entry := e }

/-! #### find_first -/

/-- `find_first_segment`, seq.hpp 278-285 -/
def find_first_segment (p sz : Nat) : SegE := { ptr := p, idx := 0, len := sz }

/-- `find_first_leaf`, seq.hpp 269-276 -/
def find_first_leaf (p : Nat) : M α Entry := do
  let child ← ptrsAt E p 0
  let csz ← sizesAt E p 0
  return { leaf := { ptr := p, idx := 0 }, seg := find_first_segment child csz }

/-- `find_first_branch`, seq.hpp 259-267 -/
def find_first_branch (p ht : Nat) : M α Entry := do
  let child ← ptrsAt E p 0
  let ht ← usub ht 1
  if ht = 2 then find_first_leaf E child else find_first_branch child ht
partial_fixpoint

/-- `find_first_node`, seq.hpp 254-257 -/
def find_first_node (p ht : Nat) : M α Entry :=
  if ht = 2 then find_first_leaf E p else find_first_branch E p ht

/-- `find_first_root`, seq.hpp 239-252 -/
def find_first_root (p sz ht : Nat) : M α Iter :=
  if ht < 2 then
    pure { pos := 0, entry := { leaf := { ptr := 0, idx := 0 }, seg := find_first_segment p sz } }
  else do
    let e ← find_first_node E p ht
    return { pos := 0, entry := e }

/-! #### find_last -/

/-- `find_last_segment`, seq.hpp 329-336 -/
def find_last_segment (p sz : Nat) : M α SegE := do
  let i ← usub sz 1
  return { ptr := p, idx := i, len := sz }

/-- `find_last_leaf`, seq.hpp 319-327 -/
def find_last_leaf (p : Nat) : M α Entry := do
  let l ← len p
  let index ← usub l 1
  let child ← ptrsAt E p index
  let csz ← sizesAt E p index
  let s ← find_last_segment child csz
  return { leaf := { ptr := p, idx := index }, seg := s }

/-- `find_last_branch`, seq.hpp 308-317 -/
def find_last_branch (p ht : Nat) : M α Entry := do
  let l ← len p
  let index ← usub l 1
  let child ← ptrsAt E p index
  let ht ← usub ht 1
  if ht = 2 then find_last_leaf E child else find_last_branch child ht
partial_fixpoint

/-- `find_last_node`, seq.hpp 303-306 -/
def find_last_node (p ht : Nat) : M α Entry :=
  if ht = 2 then find_last_leaf E p else find_last_branch E p ht

/-- `find_last_root`, seq.hpp 288-301 -/
def find_last_root (p sz ht : Nat) : M α Iter := do
  let pos ← usub sz 1
  if ht < 2 then
    let s ← find_last_segment p sz
    return { pos := pos, entry := { leaf := { ptr := 0, idx := 0 }, seg := s } }
  else
    let e ← find_last_node E p ht
    return { pos := pos, entry := e }

/-! #### find_end -/

/-- `find_end_segment`, seq.hpp 381-387 -/
def find_end_segment (p sz : Nat) : SegE := { ptr := p, idx := sz, len := sz }

/-- `find_end_leaf`, seq.hpp 371-379 -/
def find_end_leaf (p : Nat) : M α Entry := do
  let l ← len p
  let index ← usub l 1
  let child ← ptrsAt E p index
  let csz ← sizesAt E p index
  return { leaf := { ptr := p, idx := index }, seg := find_end_segment child csz }

/-- `find_end_branch`, seq.hpp 359-369 -/
def find_end_branch (p ht : Nat) : M α Entry := do
  let l ← len p
  let index ← usub l 1
  let child ← ptrsAt E p index
  let ht ← usub ht 1
  if ht = 2 then find_end_leaf E child else find_end_branch child ht
partial_fixpoint

/-- `find_end_node`, seq.hpp 354-357 -/
def find_end_node (p ht : Nat) : M α Entry :=
  if ht = 2 then find_end_leaf E p else find_end_branch E p ht

/-- `find_end_root`, seq.hpp 339-352 -/
def find_end_root (p sz ht : Nat) : M α Iter :=
  if ht < 2 then
    pure { pos := sz, entry := { leaf := { ptr := 0, idx := 0 }, seg := find_end_segment p sz } }
  else do
    let e ← find_end_node E p ht
    return { pos := sz, entry := e }

/-! #### move_next -/

/-- the end position of the current segment (the "special case for end
iterator" of seq.hpp 412-416, 434-438, 535-539) -/
def Entry.atSegEnd (e : Entry) : Entry := { e with seg := { e.seg with idx := e.seg.len } }

/-- `move_next_branch`, seq.hpp 429-450 -/
def move_next_branch (e : Entry) (p index child_ht : Nat) : M α Entry :=
  if p = 0 then pure e.atSegEnd
  else do
    let l ← len p
    if index + 1 ≠ l then
      let child ← ptrsAt E p (index + 1)
      find_first_node E child child_ht
    else
      let i ← pidx p
      let q ← parent p
      move_next_branch e q i (child_ht + 1)
partial_fixpoint

/-- `move_next_leaf`, seq.hpp 408-427 -/
def move_next_leaf (e : Entry) : M α Entry :=
  if e.leaf.ptr = 0 then pure e.atSegEnd
  else do
    let l ← len e.leaf.ptr
    if e.leaf.idx + 1 ≠ l then
      let child ← ptrsAt E e.leaf.ptr (e.leaf.idx + 1)
      let csz ← sizesAt E e.leaf.ptr (e.leaf.idx + 1)
      return { leaf := { e.leaf with idx := e.leaf.idx + 1 }, seg := find_first_segment child csz }
    else
      let q ← parent e.leaf.ptr
      let i ← pidx e.leaf.ptr
      move_next_branch E e q i 2

/-- `move_next_segment`, seq.hpp 395-406 -/
def move_next_segment (e : Entry) : M α Entry :=
  if e.seg.idx + 1 ≠ e.seg.len then
    pure { e with seg := { e.seg with idx := e.seg.idx + 1 } }
  else move_next_leaf E e

/-- `move_next_iterator`, seq.hpp 390-393 -/
def move_next_iterator (it : Iter) : M α Iter := do
  let e ← move_next_segment E it.entry
  return { pos := it.pos + 1, entry := e }

/-! #### move_prev -/

/-- `move_prev_branch`, seq.hpp 485-500 -/
def move_prev_branch (p index child_ht : Nat) : M α Entry :=
  if index ≠ 0 then do
    let child ← ptrsAt E p (index - 1)
    find_last_node E child child_ht
  else do
    let i ← pidx p
    let q ← parent p
    move_prev_branch q i (child_ht + 1)
partial_fixpoint

/-- `move_prev_leaf`, seq.hpp 470-483 -/
def move_prev_leaf (e : Entry) : M α Entry :=
  if e.leaf.idx ≠ 0 then do
    let child ← ptrsAt E e.leaf.ptr (e.leaf.idx - 1)
    let csz ← sizesAt E e.leaf.ptr (e.leaf.idx - 1)
    let s ← find_last_segment child csz
    return { leaf := { e.leaf with idx := e.leaf.idx - 1 }, seg := s }
  else do
    let q ← parent e.leaf.ptr
    let i ← pidx e.leaf.ptr
    move_prev_branch E q i 2

/-- `move_prev_segment`, seq.hpp 458-468 -/
def move_prev_segment (e : Entry) : M α Entry :=
  if e.seg.idx ≠ 0 then
    pure { e with seg := { e.seg with idx := e.seg.idx - 1 } }
  else move_prev_leaf E e

/-- `move_prev_iterator`, seq.hpp 453-456 -/
def move_prev_iterator (it : Iter) : M α Iter := do
  let pos ← usub it.pos 1
  let e ← move_prev_segment E it.entry
  return { pos := pos, entry := e }

/-! #### move_next_count -/

/-- the inner loop of `move_next_leaf_count` (seq.hpp 541-553) and of
`move_next_branch_count` (seq.hpp 572-583): scan the siblings to the right.
`.inl (index, size, count)`: the target lies in child `index`;
`.inr count`: ran off the node with `count` elements still to go. -/
def scan_next (p index count : Nat) : M α ((Nat × Nat × Nat) ⊕ Nat) := do
  let l ← len p
  if index + 1 = l then pure (.inr count)
  else
    let size ← sizesAt E p (index + 1)
    if size > count then pure (.inl (index + 1, size, count))
    else scan_next p (index + 1) (count - size)
partial_fixpoint

/-- `move_next_branch_count`, seq.hpp 559-589 -/
def move_next_branch_count (base p index count child_ht : Nat) : M α Entry :=
  if p = 0 then find_end_node E base child_ht
  else do
    match ← scan_next E p index count with
    | .inl (i, _, c) =>
      let child ← ptrsAt E p i
      find_index_node E child child_ht c
    | .inr c =>
      let i ← pidx p
      let q ← parent p
      move_next_branch_count p q i c (child_ht + 1)
partial_fixpoint

/-- `move_next_leaf_count`, seq.hpp 531-557 -/
def move_next_leaf_count (e : Entry) (count : Nat) : M α Entry :=
  if e.leaf.ptr = 0 then pure e.atSegEnd
  else do
    match ← scan_next E e.leaf.ptr e.leaf.idx count with
    | .inl (i, size, c) =>
      let child ← ptrsAt E e.leaf.ptr i
      return { leaf := { e.leaf with idx := i }, seg := find_index_segment child size c }
    | .inr c =>
      let q ← parent e.leaf.ptr
      let i ← pidx e.leaf.ptr
      move_next_branch_count E e.leaf.ptr q i c 2

/-- `move_next_segment_count`, seq.hpp 518-529 -/
def move_next_segment_count (e : Entry) (count : Nat) : M α Entry :=
  if e.seg.idx + count < e.seg.len then
    pure { e with seg := { e.seg with idx := e.seg.idx + count } }
  else move_next_leaf_count E e (e.seg.idx + count - e.seg.len)

/-- `move_next_iterator_count`, seq.hpp 513-516 -/
def move_next_iterator_count (it : Iter) (count : Nat) : M α Iter := do
  let e ← move_next_segment_count E it.entry count
  return { pos := it.pos + count, entry := e }

/-! #### move_prev_count -/

/-- the inner loop of `move_prev_leaf_count` (seq.hpp 613-624) and of
`move_prev_branch_count` (seq.hpp 637-648): scan the siblings to the left. -/
def scan_prev (p index count : Nat) : M α ((Nat × Nat × Nat) ⊕ Nat) :=
  if index = 0 then pure (.inr count)
  else do
    let size ← sizesAt E p (index - 1)
    if size ≥ count then pure (.inl (index - 1, size, count))
    else scan_prev p (index - 1) (count - size)
partial_fixpoint

/-- `move_prev_branch_count`, seq.hpp 631-654 -/
def move_prev_branch_count (p index count child_ht : Nat) : M α Entry := do
  match ← scan_prev E p index count with
  | .inl (i, size, c) =>
    let child ← ptrsAt E p i
    find_index_node E child child_ht (size - c)
  | .inr c =>
    let i ← pidx p
    let q ← parent p
    move_prev_branch_count q i c (child_ht + 1)
partial_fixpoint

/-- `move_prev_leaf_count`, seq.hpp 609-629 -/
def move_prev_leaf_count (e : Entry) (count : Nat) : M α Entry := do
  match ← scan_prev E e.leaf.ptr e.leaf.idx count with
  | .inl (i, size, c) =>
    let child ← ptrsAt E e.leaf.ptr i
    return { leaf := { e.leaf with idx := i }, seg := find_index_segment child size (size - c) }
  | .inr c =>
    let q ← parent e.leaf.ptr
    let i ← pidx e.leaf.ptr
    move_prev_branch_count E q i c 2

/-- `move_prev_segment_count`, seq.hpp 597-607 -/
def move_prev_segment_count (e : Entry) (count : Nat) : M α Entry :=
  if e.seg.idx ≥ count then
    pure { e with seg := { e.seg with idx := e.seg.idx - count } }
  else move_prev_leaf_count E e (count - e.seg.idx)

/-- `move_prev_iterator_count`, seq.hpp 592-595 -/
def move_prev_iterator_count (it : Iter) (count : Nat) : M α Iter := do
  let e ← move_prev_segment_count E it.entry count
  let pos ← usub it.pos count
  return { pos := pos, entry := e }

/-! #### signed movement, element access, difference -/

/-- `static_cast<size_type>(diff)` -/
def toSize (d : Int) : Nat := (d % (E.W : Int)).toNat

/-- `static_cast<difference_type>(n)` (two's complement) -/
def toDiff (n : Nat) : Int := if 2 * n < E.W then (n : Int) else (n : Int) - (E.W : Int)

/-- `move_iterator_count`, seq.hpp 503-510 -/
def move_iterator_count (it : Iter) (diff : Int) : M α Iter := do
  let size := toSize E diff
  let pos := E.wadd it.pos size
  if diff > 0 then
    let e ← move_next_segment_count E it.entry size
    return { pos := pos, entry := e }
  else if diff < 0 then
    let e ← move_prev_segment_count E it.entry (E.wneg size)
    return { pos := pos, entry := e }
  else return { it with pos := pos }

/-- `dereference`, seq.hpp 668-670 (the value read through the reference) -/
def dereference (it : Iter) : M α α := rdElem E it.entry.seg.ptr it.entry.seg.idx

/-- `dereference_count`, seq.hpp 672-675 -/
def dereference_count (it : Iter) (diff : Int) : M α α := do
  let it ← move_iterator_count E it diff
  rdElem E it.entry.seg.ptr it.entry.seg.idx

/-- `difference`, seq.hpp 677-680 -/
def difference (a b : Iter) : Int :=
  if a.pos > b.pos then toDiff E (a.pos - b.pos) else - toDiff E (b.pos - a.pos)

/-- `move_after_segment`, seq.hpp 682-685 -/
def move_after_segment (it : Iter) : M α Iter := do
  let d ← usub it.entry.seg.len it.entry.seg.idx
  let e ← move_next_leaf E it.entry
  return { pos := it.pos + d, entry := e }

/-- `move_after_segment_count`, seq.hpp 687-690 -/
def move_after_segment_count (it : Iter) (count : Nat) : M α Iter := do
  let d ← usub it.entry.seg.len it.entry.seg.idx
  let e ← move_next_leaf_count E it.entry count
  return { pos := it.pos + (d + count), entry := e }

/-- `move_before_segment`, seq.hpp 692-695 -/
def move_before_segment (it : Iter) : M α Iter := do
  let pos ← usub it.pos (it.entry.seg.idx + 1)
  let e ← move_prev_leaf E it.entry
  return { pos := pos, entry := e }

/-- `move_before_segment_count`, seq.hpp 697-700.  The arithmetic is that of
the source: `it.pos -= it.entry.segment.index + 1 - count` in `size_type`. -/
def move_before_segment_count (it : Iter) (count : Nat) : M α Iter := do
  let e ← move_prev_leaf_count E it.entry count
  return { pos := E.wsub it.pos (E.wsub (it.entry.seg.idx + 1) count), entry := e }

end Static
end SegTree
