/-
  GENERATED by tools/gen_cost.py from Verif/Model: the model's functions, text
  unchanged, for a thread among others.  Before every access to memory the other
  threads act, and the access is checked (Thread/Base.lean).  Comments cite the
  lines of seq.hpp.
-/
import Verif.Thread.Base
import Verif.Props.Spec
set_option autoImplicit false
set_option linter.unusedVariables false

namespace SegTree.Thread

noncomputable section
variable {α : Type} (E : Env α)

/-- Unsigned subtraction the code relies on not wrapping. -/
def usub {α : Type} (a b : Nat) : T α Nat :=
  if b ≤ a then pure (a - b) else T.ub .wrap

/-- read a whole `node` through a pointer -/
def rdNode (p : Nat) : T α Node :=
  T.reads (.heap p) (SegTree.rdNode p)

/-- overwrite a `node` through a pointer -/
def wrNode (p : Nat) (n : Node) : T α Unit :=
  T.writes (.heap p) (SegTree.wrNode p n)

/-- `p->length()`, seq.hpp 134 -/
def len (p : Nat) : T α Nat := do return (← rdNode p).len

/-- `p->length(v)`: stored in a `uint16_t`, seq.hpp 136-138 -/
def setLen (p v : Nat) : T α Unit := do wrNode p { (← rdNode p) with len := v % 65536 }

/-- `p->parent_pointer` -/
def parent (p : Nat) : T α Nat := do return (← rdNode p).parent

/-- `p->parent_pointer = v` -/
def setParent (p v : Nat) : T α Unit := do wrNode p { (← rdNode p) with parent := v }

/-- `p->parent_index()`, seq.hpp 128 -/
def pidx (p : Nat) : T α Nat := do return (← rdNode p).pidx

/-- `p->parent_index(v)`: stored in a `uint16_t`, seq.hpp 130-132 -/
def setPidx (p v : Nat) : T α Unit := do wrNode p { (← rdNode p) with pidx := v % 65536 }

/-- `p->sizes[i]` -/
def sizesAt (p i : Nat) : T α Nat := do
  let n ← rdNode p
  if i < E.baseMax then pure (n.sizes i) else T.ub .oob

/-- `p->sizes[i] = v` -/
def setSizes (p i v : Nat) : T α Unit := do
  let n ← rdNode p
  if i < E.baseMax then wrNode p { n with sizes := upd n.sizes i v } else T.ub .oob

/-- `p->pointers[i]` -/
def ptrsAt (p i : Nat) : T α Nat := do
  let n ← rdNode p
  if i < E.baseMax then pure (n.ptrs i) else T.ub .oob

/-- `p->pointers[i] = v` -/
def setPtrs (p i v : Nat) : T α Unit := do
  let n ← rdNode p
  if i < E.baseMax then wrNode p { n with ptrs := upd n.ptrs i v } else T.ub .oob

/-- the slots of the segment at `p` -/
def rdSlots (p : Nat) : T α (Nat → Slot α) :=
  T.reads (.heap p) (SegTree.rdSlots p)

/-- overwrite the slots of the segment at `p` -/
def wrSlots (p : Nat) (s : Nat → Slot α) : T α Unit :=
  T.writes (.heap p) (SegTree.wrSlots p s)

/-- read the object `p[i]` -/
def rdElem (p i : Nat) : T α α := do
  let s ← rdSlots p
  if i < E.segMax then
    match s i with
    | .val v => pure v
    | .raw => T.ub .raw
  else T.ub .oob

/-- change the value of the live object `p[i]`.  Assigning to storage that
holds no object is undefined unless `T` is trivially copyable. -/
def wrElem (p i : Nat) (v : α) : T α Unit := do
  let s ← rdSlots p
  if i < E.segMax then
    match s i with
    | .val _ => wrSlots p (upd s i (.val v))
    | .raw => if E.trivCopy then wrSlots p (upd s i (.val v)) else T.ub .raw
  else T.ub .oob

/-- the `seq` object named `o` -/
def rdObj (o : Nat) : T α SeqObj :=
  T.reads (.obj o) (SegTree.rdObj o)

/-- overwrite the `seq` object named `o` -/
def wrObj (o : Nat) (s : SeqObj) : T α Unit :=
  T.writes (.obj o) (SegTree.wrObj o s)

/-- `get_root()` etc., seq.hpp 1191-1200 -/
def getRoot (o : Nat) : T α Nat := do return (← rdObj o).root

def getSize (o : Nat) : T α Nat := do return (← rdObj o).sz

def getHeight (o : Nat) : T α Nat := do return (← rdObj o).ht

def setRoot (o v : Nat) : T α Unit := do wrObj o { (← rdObj o) with root := v }

def setSize (o v : Nat) : T α Unit := do wrObj o { (← rdObj o) with sz := v }

def setHeight (o v : Nat) : T α Unit := do wrObj o { (← rdObj o) with ht := v }

/-- One call to an allocator's `allocate`.  The n-th call of the program gets
the answer `oracle n`; null, or an address that is still live, counts as a
failure (so every behaviour of a correct allocator, including address reuse
after deallocation, is some oracle, and no oracle breaks the contract). -/
def allocCell (c : Cell α) : T α Nat :=
  T.acquires (fun g => .heap (E.oracle g.reqs)) (SegTree.allocCell E c)

/-- the inner loop shared by `find_index_branch` (seq.hpp 198-202) and
`find_index_leaf` (seq.hpp 215-219):
`while (pos >= size) { pos -= size; ++index; size = pointer->sizes[index]; }` -/
def find_index_loop (p index size pos : Nat) : T α (Nat × Nat) :=
  if pos ≥ size then do
    let size' ← sizesAt E p (index + 1)
    find_index_loop p (index + 1) size' (pos - size)
  else pure (index, pos)
partial_fixpoint

/-- `find_index_leaf`, seq.hpp 212-227 -/
def find_index_leaf (p pos : Nat) : T α Entry := do
  let size ← sizesAt E p 0
  let (index, pos) ← find_index_loop E p 0 size pos
  let child ← ptrsAt E p index
  let csz ← sizesAt E p index
  return { leaf := { ptr := p, idx := index }, seg := find_index_segment child csz pos }

/-- `find_index_branch`, seq.hpp 193-210 -/
def find_index_branch (p ht pos : Nat) : T α Entry := do
  let size ← sizesAt E p 0
  let (index, pos) ← find_index_loop E p 0 size pos
  let child ← ptrsAt E p index
  let ht ← usub ht 1
  if ht = 2 then find_index_leaf E child pos
  else find_index_branch child ht pos
partial_fixpoint

/-- `find_index_node`, seq.hpp 187-191 -/
def find_index_node (p ht pos : Nat) : T α Entry :=
  if ht = 2 then find_index_leaf E p pos else find_index_branch E p ht pos

/-- `find_index_root`, seq.hpp 172-185 -/
def find_index_root (p sz ht pos : Nat) : T α Iter :=
  if ht < 2 then
    pure { pos := pos, entry := { leaf := { ptr := 0, idx := 0 }, seg := find_index_segment p sz pos } }
  else do
    let e ← find_index_node E p ht pos
    return { pos := pos, entry := e }

/-- `find_first_leaf`, seq.hpp 269-276 -/
def find_first_leaf (p : Nat) : T α Entry := do
  let child ← ptrsAt E p 0
  let csz ← sizesAt E p 0
  return { leaf := { ptr := p, idx := 0 }, seg := find_first_segment child csz }

/-- `find_first_branch`, seq.hpp 259-267 -/
def find_first_branch (p ht : Nat) : T α Entry := do
  let child ← ptrsAt E p 0
  let ht ← usub ht 1
  if ht = 2 then find_first_leaf E child else find_first_branch child ht
partial_fixpoint

/-- `find_first_node`, seq.hpp 254-257 -/
def find_first_node (p ht : Nat) : T α Entry :=
  if ht = 2 then find_first_leaf E p else find_first_branch E p ht

/-- `find_first_root`, seq.hpp 239-252 -/
def find_first_root (p sz ht : Nat) : T α Iter :=
  if ht < 2 then
    pure { pos := 0, entry := { leaf := { ptr := 0, idx := 0 }, seg := find_first_segment p sz } }
  else do
    let e ← find_first_node E p ht
    return { pos := 0, entry := e }

/-- `find_last_segment`, seq.hpp 329-336 -/
def find_last_segment (p sz : Nat) : T α SegE := do
  let i ← usub sz 1
  return { ptr := p, idx := i, len := sz }

/-- `find_last_leaf`, seq.hpp 319-327 -/
def find_last_leaf (p : Nat) : T α Entry := do
  let l ← len p
  let index ← usub l 1
  let child ← ptrsAt E p index
  let csz ← sizesAt E p index
  let s ← find_last_segment child csz
  return { leaf := { ptr := p, idx := index }, seg := s }

/-- `find_last_branch`, seq.hpp 308-317 -/
def find_last_branch (p ht : Nat) : T α Entry := do
  let l ← len p
  let index ← usub l 1
  let child ← ptrsAt E p index
  let ht ← usub ht 1
  if ht = 2 then find_last_leaf E child else find_last_branch child ht
partial_fixpoint

/-- `find_last_node`, seq.hpp 303-306 -/
def find_last_node (p ht : Nat) : T α Entry :=
  if ht = 2 then find_last_leaf E p else find_last_branch E p ht

/-- `find_last_root`, seq.hpp 288-301 -/
def find_last_root (p sz ht : Nat) : T α Iter := do
  let pos ← usub sz 1
  if ht < 2 then
    let s ← find_last_segment p sz
    return { pos := pos, entry := { leaf := { ptr := 0, idx := 0 }, seg := s } }
  else
    let e ← find_last_node E p ht
    return { pos := pos, entry := e }

/-- `find_end_leaf`, seq.hpp 371-379 -/
def find_end_leaf (p : Nat) : T α Entry := do
  let l ← len p
  let index ← usub l 1
  let child ← ptrsAt E p index
  let csz ← sizesAt E p index
  return { leaf := { ptr := p, idx := index }, seg := find_end_segment child csz }

/-- `find_end_branch`, seq.hpp 359-369 -/
def find_end_branch (p ht : Nat) : T α Entry := do
  let l ← len p
  let index ← usub l 1
  let child ← ptrsAt E p index
  let ht ← usub ht 1
  if ht = 2 then find_end_leaf E child else find_end_branch child ht
partial_fixpoint

/-- `find_end_node`, seq.hpp 354-357 -/
def find_end_node (p ht : Nat) : T α Entry :=
  if ht = 2 then find_end_leaf E p else find_end_branch E p ht

/-- `find_end_root`, seq.hpp 339-352 -/
def find_end_root (p sz ht : Nat) : T α Iter :=
  if ht < 2 then
    pure { pos := sz, entry := { leaf := { ptr := 0, idx := 0 }, seg := find_end_segment p sz } }
  else do
    let e ← find_end_node E p ht
    return { pos := sz, entry := e }

/-- `move_next_branch`, seq.hpp 429-450 -/
def move_next_branch (e : Entry) (p index child_ht : Nat) : T α Entry :=
  if p = 0 then pure e.atSegEnd
  else do
    let l ← len p
    if index + 1 ≠ l then
      let child ← ptrsAt E p (index + 1)
      find_first_node E child child_ht
    else
      let i ← pidx p
      let q ← parent p
      move_next_branch e q i (child_ht + 1)
partial_fixpoint

/-- `move_next_leaf`, seq.hpp 408-427 -/
def move_next_leaf (e : Entry) : T α Entry :=
  if e.leaf.ptr = 0 then pure e.atSegEnd
  else do
    let l ← len e.leaf.ptr
    if e.leaf.idx + 1 ≠ l then
      let child ← ptrsAt E e.leaf.ptr (e.leaf.idx + 1)
      let csz ← sizesAt E e.leaf.ptr (e.leaf.idx + 1)
      return { leaf := { e.leaf with idx := e.leaf.idx + 1 }, seg := find_first_segment child csz }
    else
      let q ← parent e.leaf.ptr
      let i ← pidx e.leaf.ptr
      move_next_branch E e q i 2

/-- `move_next_segment`, seq.hpp 395-406 -/
def move_next_segment (e : Entry) : T α Entry :=
  if e.seg.idx + 1 ≠ e.seg.len then
    pure { e with seg := { e.seg with idx := e.seg.idx + 1 } }
  else move_next_leaf E e

/-- `move_next_iterator`, seq.hpp 390-393 -/
def move_next_iterator (it : Iter) : T α Iter := do
  let e ← move_next_segment E it.entry
  return { pos := it.pos + 1, entry := e }

/-- `move_prev_branch`, seq.hpp 485-500 -/
def move_prev_branch (p index child_ht : Nat) : T α Entry :=
  if index ≠ 0 then do
    let child ← ptrsAt E p (index - 1)
    find_last_node E child child_ht
  else do
    let i ← pidx p
    let q ← parent p
    move_prev_branch q i (child_ht + 1)
partial_fixpoint

/-- `move_prev_leaf`, seq.hpp 470-483 -/
def move_prev_leaf (e : Entry) : T α Entry :=
  if e.leaf.idx ≠ 0 then do
    let child ← ptrsAt E e.leaf.ptr (e.leaf.idx - 1)
    let csz ← sizesAt E e.leaf.ptr (e.leaf.idx - 1)
    let s ← find_last_segment child csz
    return { leaf := { e.leaf with idx := e.leaf.idx - 1 }, seg := s }
  else do
    let q ← parent e.leaf.ptr
    let i ← pidx e.leaf.ptr
    move_prev_branch E q i 2

/-- `move_prev_segment`, seq.hpp 458-468 -/
def move_prev_segment (e : Entry) : T α Entry :=
  if e.seg.idx ≠ 0 then
    pure { e with seg := { e.seg with idx := e.seg.idx - 1 } }
  else move_prev_leaf E e

/-- `move_prev_iterator`, seq.hpp 453-456 -/
def move_prev_iterator (it : Iter) : T α Iter := do
  let pos ← usub it.pos 1
  let e ← move_prev_segment E it.entry
  return { pos := pos, entry := e }

/-- the inner loop of `move_next_leaf_count` (seq.hpp 541-553) and of
`move_next_branch_count` (seq.hpp 572-583): scan the siblings to the right.
`.inl (index, size, count)`: the target lies in child `index`;
`.inr count`: ran off the node with `count` elements still to go. -/
def scan_next (p index count : Nat) : T α ((Nat × Nat × Nat) ⊕ Nat) := do
  let l ← len p
  if index + 1 = l then pure (.inr count)
  else
    let size ← sizesAt E p (index + 1)
    if size > count then pure (.inl (index + 1, size, count))
    else scan_next p (index + 1) (count - size)
partial_fixpoint

/-- `move_next_branch_count`, seq.hpp 559-589 -/
def move_next_branch_count (base p index count child_ht : Nat) : T α Entry :=
  if p = 0 then find_end_node E base child_ht
  else do
    match ← scan_next E p index count with
    | .inl (i, _, c) =>
      let child ← ptrsAt E p i
      find_index_node E child child_ht c
    | .inr c =>
      let i ← pidx p
      let q ← parent p
      move_next_branch_count p q i c (child_ht + 1)
partial_fixpoint

/-- `move_next_leaf_count`, seq.hpp 531-557 -/
def move_next_leaf_count (e : Entry) (count : Nat) : T α Entry :=
  if e.leaf.ptr = 0 then pure e.atSegEnd
  else do
    match ← scan_next E e.leaf.ptr e.leaf.idx count with
    | .inl (i, size, c) =>
      let child ← ptrsAt E e.leaf.ptr i
      return { leaf := { e.leaf with idx := i }, seg := find_index_segment child size c }
    | .inr c =>
      let q ← parent e.leaf.ptr
      let i ← pidx e.leaf.ptr
      move_next_branch_count E e.leaf.ptr q i c 2

/-- `move_next_segment_count`, seq.hpp 518-529 -/
def move_next_segment_count (e : Entry) (count : Nat) : T α Entry :=
  if e.seg.idx + count < e.seg.len then
    pure { e with seg := { e.seg with idx := e.seg.idx + count } }
  else move_next_leaf_count E e (e.seg.idx + count - e.seg.len)

/-- `move_next_iterator_count`, seq.hpp 513-516 -/
def move_next_iterator_count (it : Iter) (count : Nat) : T α Iter := do
  let e ← move_next_segment_count E it.entry count
  return { pos := it.pos + count, entry := e }

/-- the inner loop of `move_prev_leaf_count` (seq.hpp 613-624) and of
`move_prev_branch_count` (seq.hpp 637-648): scan the siblings to the left. -/
def scan_prev (p index count : Nat) : T α ((Nat × Nat × Nat) ⊕ Nat) :=
  if index = 0 then pure (.inr count)
  else do
    let size ← sizesAt E p (index - 1)
    if size ≥ count then pure (.inl (index - 1, size, count))
    else scan_prev p (index - 1) (count - size)
partial_fixpoint

/-- `move_prev_branch_count`, seq.hpp 631-654 -/
def move_prev_branch_count (p index count child_ht : Nat) : T α Entry := do
  match ← scan_prev E p index count with
  | .inl (i, size, c) =>
    let child ← ptrsAt E p i
    find_index_node E child child_ht (size - c)
  | .inr c =>
    let i ← pidx p
    let q ← parent p
    move_prev_branch_count q i c (child_ht + 1)
partial_fixpoint

/-- `move_prev_leaf_count`, seq.hpp 609-629 -/
def move_prev_leaf_count (e : Entry) (count : Nat) : T α Entry := do
  match ← scan_prev E e.leaf.ptr e.leaf.idx count with
  | .inl (i, size, c) =>
    let child ← ptrsAt E e.leaf.ptr i
    return { leaf := { e.leaf with idx := i }, seg := find_index_segment child size (size - c) }
  | .inr c =>
    let q ← parent e.leaf.ptr
    let i ← pidx e.leaf.ptr
    move_prev_branch_count E q i c 2

/-- `move_prev_segment_count`, seq.hpp 597-607 -/
def move_prev_segment_count (e : Entry) (count : Nat) : T α Entry :=
  if e.seg.idx ≥ count then
    pure { e with seg := { e.seg with idx := e.seg.idx - count } }
  else move_prev_leaf_count E e (count - e.seg.idx)

/-- `move_prev_iterator_count`, seq.hpp 592-595 -/
def move_prev_iterator_count (it : Iter) (count : Nat) : T α Iter := do
  let e ← move_prev_segment_count E it.entry count
  let pos ← usub it.pos count
  return { pos := pos, entry := e }

/-- `move_iterator_count`, seq.hpp 503-510 -/
def move_iterator_count (it : Iter) (diff : Int) : T α Iter := do
  let size := toSize E diff
  let pos := E.wadd it.pos size
  if diff > 0 then
    let e ← move_next_segment_count E it.entry size
    return { pos := pos, entry := e }
  else if diff < 0 then
    let e ← move_prev_segment_count E it.entry (E.wneg size)
    return { pos := pos, entry := e }
  else return { it with pos := pos }

/-- `dereference`, seq.hpp 668-670 (the value read through the reference) -/
def dereference (it : Iter) : T α α := rdElem E it.entry.seg.ptr it.entry.seg.idx

/-- `dereference_count`, seq.hpp 672-675 -/
def dereference_count (it : Iter) (diff : Int) : T α α := do
  let it ← move_iterator_count E it diff
  rdElem E it.entry.seg.ptr it.entry.seg.idx

/-- `move_after_segment`, seq.hpp 682-685 -/
def move_after_segment (it : Iter) : T α Iter := do
  let d ← usub it.entry.seg.len it.entry.seg.idx
  let e ← move_next_leaf E it.entry
  return { pos := it.pos + d, entry := e }

/-- `move_after_segment_count`, seq.hpp 687-690 -/
def move_after_segment_count (it : Iter) (count : Nat) : T α Iter := do
  let d ← usub it.entry.seg.len it.entry.seg.idx
  let e ← move_next_leaf_count E it.entry count
  return { pos := it.pos + (d + count), entry := e }

/-- `move_before_segment`, seq.hpp 692-695 -/
def move_before_segment (it : Iter) : T α Iter := do
  let pos ← usub it.pos (it.entry.seg.idx + 1)
  let e ← move_prev_leaf E it.entry
  return { pos := pos, entry := e }

/-- `move_before_segment_count`, seq.hpp 697-700.  The arithmetic is that of
the source: `it.pos -= it.entry.segment.index + 1 - count` in `size_type`. -/
def move_before_segment_count (it : Iter) (count : Nat) : T α Iter := do
  let e ← move_prev_leaf_count E it.entry count
  return { pos := E.wsub it.pos (E.wsub (it.entry.seg.idx + 1) count), entry := e }

/-- `allocate_segment`, seq.hpp 1203-1206: `segment_max` raw slots. -/
def allocate_segment (o : Nat) : T α Nat := do
  let s ← rdObj o
  allocCell E (.seg (E.acls s.ealloc) (fun _ => .raw))

/-- obtain storage for a node from an allocator of class `w`.  The node's
members are not initialised: its contents are the environment's `junk`. -/
def allocNodeCell (w : Nat) : T α Nat :=
  T.acquires (fun g => .heap (E.oracle g.reqs)) (SegTree.allocNodeCell E w)

/-- `allocate_node`, seq.hpp 1208-1210 -/
def allocate_node (o : Nat) : T α Nat := do
  let s ← rdObj o
  allocNodeCell E (E.acls s.nalloc)

/-- `destroy_segment`, seq.hpp 1213-1216 -/
def destroy_segment (p i : Nat) : T α Unit := do
  let s ← rdSlots p
  if i < E.segMax then
    match s i with
    | .val _ => wrSlots p (upd s i .raw)
    | .raw => T.ub .raw
  else T.ub .oob

/-- `destroy_node`, seq.hpp 1218-1220: the (trivial) destructor of one stored
pointer; only the access is modelled. -/
def destroy_node (p i : Nat) : T α Unit := do
  let _ ← ptrsAt E p i
  return ()

/-- return a segment's storage to an allocator of class `a`: it must have come
from an equal allocator and hold no objects (unless destruction is trivial) -/
def freeSeg (a p : Nat) : T α Unit :=
  T.releases (.heap p) (SegTree.freeSeg E a p)

/-- return a node's storage to an allocator of class `a` -/
def freeNode (a p : Nat) : T α Unit :=
  T.releases (.heap p) (SegTree.freeNode a p)

/-- `deallocate_segment`, seq.hpp 1223-1226 -/
def deallocate_segment (o p : Nat) : T α Unit := do
  let x ← rdObj o
  if p = 0 then
    if E.nullFree then pure () else T.ub .badFree
  else freeSeg E (E.acls x.ealloc) p

/-- `deallocate_node`, seq.hpp 1228-1230 -/
def deallocate_node (o p : Nat) : T α Unit := do
  let x ← rdObj o
  freeNode (E.acls x.nalloc) p

/-- `for (size_type i = i₀, e = i₀ + n; i != e; ++i) f(i);` -/
def forN (f : Nat → T α Unit) : (n i : Nat) → T α Unit
  | 0, _ => pure ()
  | n + 1, i => do f i; forN f n (i + 1)

/-- `purge_segment`, seq.hpp 1235-1247 (the two tagged overloads are selected
by `is_trivially_destructible`) -/
def purge_segment (o p sz : Nat) : T α Unit := do
  if E.trivDtor then pure () else forN (destroy_segment E p) sz 0
  deallocate_segment E o p

/-- `purge_node`, seq.hpp 1249-1263 (recursion on the height; the code is never
called with a height below 2, which the model rejects) -/
def purge_node (o : Nat) : (ht p : Nat) → T α Unit
  | 0, _ => T.ub .access
  | 1, _ => T.ub .access
  | 2, p => do
    let e ← len p
    forN (fun i => do
      let child ← ptrsAt E p i
      let sz ← sizesAt E p i
      purge_segment E o child sz
      destroy_node E p i) e 0
    deallocate_node E o p
  | ht + 3, p => do
    let e ← len p
    forN (fun i => do
      let child ← ptrsAt E p i
      purge_node o (ht + 2) child
      destroy_node E p i) e 0
    deallocate_node E o p

/-- `purge_root`, seq.hpp 1265-1270 -/
def purge_root (o p sz ht : Nat) : T α Unit :=
  if ht < 2 then purge_segment E o p sz else purge_node E o ht p

/-- `purge`, seq.hpp 1233 -/
def purge (o : Nat) : T α Unit := do
  let s ← rdObj o
  purge_root E o s.root s.sz s.ht

/-- `construct_segment`, seq.hpp 1273-1278 -/
def construct_segment (p i : Nat) (v : α) : T α Unit := do
  if E.throws v then T.throw .elem
  else
    let s ← rdSlots p
    if i < E.segMax then
      match s i with
      | .raw => wrSlots p (upd s i (.val v))
      | .val _ => if E.trivDtor then wrSlots p (upd s i (.val v)) else T.ub .overwrite
    else T.ub .oob

/-- `construct_leaf`, seq.hpp 1280-1286 -/
def construct_leaf (p i csz child : Nat) : T α Nat := do
  setSizes E p i csz
  setPtrs E p i child
  return csz

/-- `construct_branch`, seq.hpp 1288-1297 -/
def construct_branch (p i csz child : Nat) : T α Nat := do
  setSizes E p i csz
  setParent child p
  setPidx child i
  setPtrs E p i child
  return csz

/-- `assign_segment`, seq.hpp 1300-1304 -/
def assign_segment (p i : Nat) (v : α) : T α Unit := do
  if E.throws v then T.throw .elem else wrElem E p i v

/-- `assign_leaf`, seq.hpp 1306-1311 -/
def assign_leaf (p i csz child : Nat) : T α Nat := do
  setSizes E p i csz
  setPtrs E p i child
  return csz

/-- `assign_branch`, seq.hpp 1313-1321 -/
def assign_branch (p i csz child : Nat) : T α Nat := do
  setSizes E p i csz
  setParent child p
  setPidx child i
  setPtrs E p i child
  return csz

/-- `move_assign_segment`, seq.hpp 1324-1328 -/
def move_assign_segment (src si dst di : Nat) : T α Unit := do
  let v ← rdElem E src si
  assign_segment E dst di v
  wrElem E src si (E.moved v)

/-- `move_assign_leaf`, seq.hpp 1330-1334 -/
def move_assign_leaf (src si dst di : Nat) : T α Nat := do
  let csz ← sizesAt E src si
  let child ← ptrsAt E src si
  assign_leaf E dst di csz child

/-- `move_assign_branch`, seq.hpp 1336-1340 -/
def move_assign_branch (src si dst di : Nat) : T α Nat := do
  let csz ← sizesAt E src si
  let child ← ptrsAt E src si
  assign_branch E dst di csz child

/-- `move_segment`, seq.hpp 1343-1347 -/
def move_segment (src si dst di : Nat) : T α Unit := do
  let v ← rdElem E src si
  construct_segment E dst di v
  wrElem E src si (E.moved v)

/-- `move_leaf`, seq.hpp 1349-1355 -/
def move_leaf (src si dst di : Nat) : T α Nat := do
  let csz ← sizesAt E src si
  let child ← ptrsAt E src si
  let _ ← construct_leaf E dst di csz child
  return csz

/-- `move_branch`, seq.hpp 1357-1363 -/
def move_branch (src si dst di : Nat) : T α Nat := do
  let csz ← sizesAt E src si
  let child ← ptrsAt E src si
  let _ ← construct_branch E dst di csz child
  return csz

/-- `while (from != last) { step(from, to); ++from; ++to; }` accumulating the
returned sizes: the loops of seq.hpp 1377-1385, 1407-1417, 1424-1434. -/
def range_loop (step : Nat → Nat → T α Nat) (src last dst acc : Nat) : T α Nat :=
  if src ≠ last then do
    let s ← step src dst
    range_loop step (src + 1) last (dst + 1) (acc + s)
  else pure acc
partial_fixpoint

/-- `while (first != from) { --from; --to; step(from, to); }`: the loops of
seq.hpp 1448-1456, 1468-1476, 1481-1489. -/
def forward_loop (step : Nat → Nat → T α Unit) (first src dst : Nat) : T α Unit :=
  if first ≠ src then do
    let src ← usub src 1
    let dst ← usub dst 1
    step src dst
    forward_loop step first src dst
  else pure ()
partial_fixpoint

/-- `while (to != last) { step(from, to); ++from; ++to; }`: the loops of
seq.hpp 1504-1512, 1524-1532, 1537-1545. -/
def backward_loop (step : Nat → Nat → T α Unit) (src dst last : Nat) : T α Unit :=
  if dst ≠ last then do
    step src dst
    backward_loop step (src + 1) (dst + 1) last
  else pure ()
partial_fixpoint

/-- the `memcpy` of seq.hpp 1366-1371 and the `memmove`s of seq.hpp 1438-1443,
1493-1499 -/
def memcpy_segment (src si dst di n : Nat) : T α Unit := do
  let s ← rdSlots src
  let d ← rdSlots dst
  if n = 0 ∨ (si + n ≤ E.segMax ∧ di + n ≤ E.segMax) then
    wrSlots dst (copySlots s si d di n)
  else T.ub .oob

/-- `construct_range_segment`, seq.hpp 1366-1401 -/
def construct_range_segment (src si dst di count : Nat) : T α Unit :=
  if E.trivCopy && E.defConstruct then memcpy_segment E src si dst di count
  else do
    let _ ← range_loop (fun f t => do
      let v ← rdElem E src f
      construct_segment E dst t v
      wrElem E src f (E.moved v)
      destroy_segment E src f
      return 0) si (si + count) di 0
    return ()

/-- `construct_range_leaf`, seq.hpp 1403-1418 -/
def construct_range_leaf (src si dst di count : Nat) : T α Nat :=
  range_loop (fun f t => move_assign_leaf E src f dst t) si (si + count) di 0

/-- `construct_range_branch`, seq.hpp 1420-1435 -/
def construct_range_branch (src si dst di count : Nat) : T α Nat :=
  range_loop (fun f t => move_assign_branch E src f dst t) si (si + count) di 0

/-- `assign_forward_segment`, seq.hpp 1438-1464 -/
def assign_forward_segment (p length index distance : Nat) : T α Unit :=
  if E.trivCopy then do
    let n ← usub length index
    memcpy_segment E p index p (index + distance) n
  else forward_loop (fun f t => move_assign_segment E p f p t) index length (length + distance)

/-- `assign_forward_leaf`, seq.hpp 1466-1477 -/
def assign_forward_leaf (p length index distance : Nat) : T α Unit :=
  forward_loop (fun f t => do let _ ← move_assign_leaf E p f p t) index length (length + distance)

/-- `assign_forward_branch`, seq.hpp 1479-1490 -/
def assign_forward_branch (p length index distance : Nat) : T α Unit :=
  forward_loop (fun f t => do let _ ← move_assign_branch E p f p t) index length (length + distance)

/-- `assign_backward_segment`, seq.hpp 1493-1520 -/
def assign_backward_segment (p length index distance : Nat) : T α Unit :=
  if E.trivCopy then do
    let n ← usub length index
    memcpy_segment E p (index + distance) p index n
  else backward_loop (fun f t => move_assign_segment E p f p t) (index + distance) index length

/-- `assign_backward_leaf`, seq.hpp 1522-1533 -/
def assign_backward_leaf (p length index distance : Nat) : T α Unit :=
  backward_loop (fun f t => do let _ ← move_assign_leaf E p f p t) (index + distance) index length

/-- `assign_backward_branch`, seq.hpp 1535-1546 -/
def assign_backward_branch (p length index distance : Nat) : T α Unit :=
  backward_loop (fun f t => do let _ ← move_assign_branch E p f p t) (index + distance) index length

/-- `update_sizes`, seq.hpp 1549-1557 -/
def update_sizes (o p index sz : Nat) : T α Unit :=
  if p ≠ 0 then do
    let s ← sizesAt E p index
    setSizes E p index (E.wadd s sz)
    let i ← pidx p
    let q ← parent p
    update_sizes o q i sz
  else do
    let s ← getSize o
    setSize o (E.wadd s sz)
partial_fixpoint

/-- `increment_sizes` (with the default `by = 1`), seq.hpp 1559-1562 -/
def increment_sizes (o p index : Nat) : T α Unit := update_sizes E o p index 1

/-- `decrement_sizes` (with the default `by = 1`), seq.hpp 1564-1567 -/
def decrement_sizes (o p index : Nat) : T α Unit := update_sizes E o p index (E.wneg 1)

/-- `while (alloc != nullptr) {...}` in the handler, seq.hpp 1593-1597 -/
def free_chain (o alloc : Nat) : T α Unit :=
  if alloc ≠ 0 then do
    let temp ← parent alloc
    deallocate_node E o alloc
    free_chain o temp
  else pure ()
partial_fixpoint

/-- the handler of seq.hpp 1590-1599 (the `throw;` is `M.onThrow`'s) -/
def alloc_catch (o segment_alloc alloc : Nat) : T α Unit := do
  deallocate_segment E o segment_alloc
  free_chain E o alloc

/-- the loop of `alloc_nodes_single`, seq.hpp 1574-1589.  The only statements
of the `try` block that can throw are the two `allocate_node()` calls, so the
handler is attached to them. -/
def alloc_nodes_loop (o p segment_alloc alloc : Nat) : T α Nat :=
  if p = 0 then do
    let temp ← T.onThrow (allocate_node E o) (alloc_catch E o segment_alloc alloc)
    setParent temp alloc
    return temp
  else do
    let l ← len p
    if l ≠ E.baseMax then pure alloc
    else
      let temp ← T.onThrow (allocate_node E o) (alloc_catch E o segment_alloc alloc)
      setParent temp alloc
      let q ← parent p
      alloc_nodes_loop o q segment_alloc temp
partial_fixpoint

/-- `alloc_nodes_single`, seq.hpp 1570-1600 -/
def alloc_nodes_single (o p segment_alloc : Nat) : T α Nat :=
  alloc_nodes_loop E o p segment_alloc 0

/-- `insert_single_branch`, seq.hpp 1742-1807 -/
def insert_single_branch (o base p index alloc child_pointer child_size : Nat) : T α Unit :=
  if p = 0 then do
    setParent alloc 0
    setPidx alloc 0
    setLen alloc 2
    let sz ← getSize o
    let d ← usub sz child_size
    let _ ← construct_branch E alloc 0 (d + 1) base
    let _ ← construct_branch E alloc 1 child_size child_pointer
    setRoot o alloc
    let h ← getHeight o
    setHeight o (h + 1)
    let sz ← getSize o
    setSize o (E.wadd sz 1)
  else do
    let length ← len p
    let im ← usub index 1
    let s ← sizesAt E p im
    let d ← usub child_size 1
    let s ← usub s d
    setSizes E p im s
    if length ≠ E.baseMax then
      if index ≠ length then
        let lm ← usub length 1
        let _ ← move_branch E p lm p length
        assign_forward_branch E p lm index 1
        let _ ← assign_branch E p index child_size child_pointer
      else
        let _ ← construct_branch E p index child_size child_pointer
      setLen p (length + 1)
      let q ← parent p
      let i ← pidx p
      increment_sizes E o q i
    else
      let next_alloc ← parent alloc
      let sum := E.baseMax + 1
      let pointer_length := sum / 2
      let alloc_length := sum - pointer_length
      let alloc_size ←
        if index < pointer_length then do
          let left_index := pointer_length - 1
          let s1 ← move_branch E p left_index alloc 0
          let s2 ← construct_range_branch E p (left_index + 1) alloc 1 (alloc_length - 1)
          assign_forward_branch E p left_index index 1
          let _ ← assign_branch E p index child_size child_pointer
          pure (s1 + s2)
        else do
          let new_index := index - pointer_length
          let move_length ← usub length index
          let s1 ← construct_range_branch E p pointer_length alloc 0 new_index
          let s2 ← construct_range_branch E p index alloc (new_index + 1) move_length
          let s3 ← construct_branch E alloc new_index child_size child_pointer
          pure (s1 + s2 + s3)
      setLen p pointer_length
      setLen alloc alloc_length
      let i ← pidx p
      let q ← parent p
      insert_single_branch o p q (i + 1) next_alloc alloc alloc_size
partial_fixpoint

/-- `insert_single_leaf`, seq.hpp 1674-1740 -/
def insert_single_leaf (o : Nat) (entry : Entry) (base p index alloc child_pointer child_size : Nat) :
    T α Entry :=
  if p = 0 then do
    setParent alloc 0
    setPidx alloc 0
    setLen alloc 2
    let sz ← getSize o
    let d ← usub sz child_size
    let _ ← construct_leaf E alloc 0 (d + 1) base
    let _ ← construct_leaf E alloc 1 child_size child_pointer
    setRoot o alloc
    setHeight o 2
    let sz ← getSize o
    setSize o (E.wadd sz 1)
    return { entry with leaf := { entry.leaf with ptr := alloc } }
  else do
    let length ← len p
    let im ← usub index 1
    let s ← sizesAt E p im
    let d ← usub child_size 1
    let s ← usub s d
    setSizes E p im s
    if length ≠ E.baseMax then
      if index ≠ length then
        let lm ← usub length 1
        let _ ← move_leaf E p lm p length
        assign_forward_leaf E p lm index 1
        let _ ← assign_leaf E p index child_size child_pointer
      else
        let _ ← construct_leaf E p index child_size child_pointer
      setLen p (length + 1)
      let q ← parent p
      let i ← pidx p
      increment_sizes E o q i
      return entry
    else
      let next_alloc ← parent alloc
      let sum := E.baseMax + 1
      let pointer_length := sum / 2
      let alloc_length := sum - pointer_length
      let alloc_size ←
        if index < pointer_length then do
          let left_index := pointer_length - 1
          let s1 ← move_leaf E p left_index alloc 0
          let s2 ← construct_range_leaf E p (left_index + 1) alloc 1 (alloc_length - 1)
          assign_forward_leaf E p left_index index 1
          let _ ← assign_leaf E p index child_size child_pointer
          pure (s1 + s2)
        else do
          let new_index := index - pointer_length
          let move_length ← usub length index
          let s1 ← construct_range_leaf E p pointer_length alloc 0 new_index
          let s2 ← construct_range_leaf E p index alloc (new_index + 1) move_length
          let s3 ← construct_leaf E alloc new_index child_size child_pointer
          pure (s1 + s2 + s3)
      setLen p pointer_length
      setLen alloc alloc_length
      let entry :=
        if entry.leaf.idx ≥ pointer_length then
          { entry with leaf := { ptr := alloc, idx := entry.leaf.idx - pointer_length } }
        else entry
      let q ← parent p
      let i ← pidx p
      insert_single_branch E o p q (i + 1) next_alloc alloc alloc_size
      return entry

/-- `insert_single_segment`, seq.hpp 1607-1672.  The by-value parameter `value`
is move-constructed from the caller's: that construction is modelled by the
`throws` check of `insert_single_iterator` and `emplace_single`. -/
def insert_single_segment (o : Nat) (entry : Entry) (value : α) : T α Entry := do
  let pointer := entry.seg.ptr
  let index := entry.seg.idx
  let length := entry.seg.len
  let parent_pointer := entry.leaf.ptr
  let parent_index := entry.leaf.idx
  if index ≠ length ∧ length ≠ E.segMax then
    let lm ← usub length 1
    move_segment E pointer lm pointer length
    assign_forward_segment E pointer lm index 1
    assign_segment E pointer index value
    increment_sizes E o parent_pointer parent_index
    return { entry with seg := { entry.seg with len := length + 1 } }
  else if pointer = 0 then
    let alloc ← allocate_segment E o
    setRoot o alloc
    setSize o 1
    setHeight o 1
    construct_segment E alloc 0 value
    return { entry with seg := { entry.seg with ptr := alloc, len := 1 } }
  else if length ≠ E.segMax then
    construct_segment E pointer index value
    increment_sizes E o parent_pointer parent_index
    return { entry with seg := { entry.seg with len := length + 1 } }
  else
    let alloc ← allocate_segment E o
    let leaf_alloc ← alloc_nodes_single E o parent_pointer alloc
    let sum := E.segMax + 1
    let pointer_length := sum / 2
    let alloc_length := sum - pointer_length
    let entry ←
      if index < pointer_length then do
        let left_index := pointer_length - 1
        move_segment E pointer left_index alloc 0
        construct_range_segment E pointer (left_index + 1) alloc 1 (alloc_length - 1)
        assign_forward_segment E pointer left_index index 1
        assign_segment E pointer index value
        pure { entry with seg := { entry.seg with len := pointer_length } }
      else do
        let new_index := index - pointer_length
        let move_length ← usub length index
        construct_range_segment E pointer pointer_length alloc 0 new_index
        construct_range_segment E pointer index alloc (new_index + 1) move_length
        construct_segment E alloc new_index value
        pure { entry with
          seg := { ptr := alloc, idx := new_index, len := alloc_length }
          leaf := { entry.leaf with idx := entry.leaf.idx + 1 } }
    insert_single_leaf E o entry pointer parent_pointer (parent_index + 1) leaf_alloc alloc
      alloc_length

/-- `insert_single_iterator`, seq.hpp 1603-1605 -/
def insert_single_iterator (o : Nat) (it : Iter) (value : α) : T α Iter := do
  if E.throws value then T.throw .elem
  else
    let e ← insert_single_segment E o it.entry value
    return { it with entry := e }

/-- `erase_single_branch`, seq.hpp 2006-2100 -/
def erase_single_branch (o p index : Nat) : T α Unit := do
  let parent_pointer ← parent p
  let parent_index ← pidx p
  let length ← len p
  if length = 2 ∧ (E.baseMin ≠ 2 ∨ parent_pointer = 0) then
    let other ← ptrsAt E p (index ^^^ 1)
    destroy_node E p 0
    destroy_node E p 1
    deallocate_node E o p
    setRoot o other
    setParent other 0
    setPidx other 0
    let s ← getSize o
    let s ← usub s 1
    setSize o s
    let h ← getHeight o
    let h ← usub h 1
    setHeight o h
  else
    let old := length
    let length ← usub length 1
    if old ≠ E.baseMin ∨ parent_pointer = 0 then
      assign_backward_branch E p length index 1
      destroy_node E p length
      setLen p length
      decrement_sizes E o parent_pointer parent_index
    else if parent_index ≠ 0 then
      let prev_index := parent_index - 1
      let prev_pointer ← ptrsAt E parent_pointer prev_index
      let prev_length ← len prev_pointer
      if prev_length ≠ E.baseMin then
        let prev_length ← usub prev_length 1
        assign_forward_branch E p index 0 1
        let sz ← move_assign_branch E prev_pointer prev_length p 0
        destroy_node E prev_pointer prev_length
        let s ← sizesAt E parent_pointer prev_index
        let s ← usub s sz
        setSizes E parent_pointer prev_index s
        let s ← sizesAt E parent_pointer parent_index
        let d ← usub sz 1
        setSizes E parent_pointer parent_index (s + d)
        setLen prev_pointer prev_length
        let q ← parent parent_pointer
        let i ← pidx parent_pointer
        decrement_sizes E o q i
      else
        let s1 ← construct_range_branch E p 0 prev_pointer prev_length index
        let ml ← usub length index
        let s2 ← construct_range_branch E p (index + 1) prev_pointer (prev_length + index) ml
        destroy_node E p index
        deallocate_node E o p
        setLen prev_pointer (prev_length + length)
        let s ← sizesAt E parent_pointer prev_index
        setSizes E parent_pointer prev_index (s + (s1 + s2))
        erase_single_branch o parent_pointer parent_index
    else
      let next_index := parent_index + 1
      let next_pointer ← ptrsAt E parent_pointer next_index
      let next_length ← len next_pointer
      if next_length ≠ E.baseMin then
        let next_length ← usub next_length 1
        assign_backward_branch E p length index 1
        let sz ← move_assign_branch E next_pointer 0 p length
        assign_backward_branch E next_pointer next_length 0 1
        destroy_node E next_pointer next_length
        let s ← sizesAt E parent_pointer next_index
        let s ← usub s sz
        setSizes E parent_pointer next_index s
        let s ← sizesAt E parent_pointer parent_index
        let d ← usub sz 1
        setSizes E parent_pointer parent_index (s + d)
        setLen next_pointer next_length
        let q ← parent parent_pointer
        let i ← pidx parent_pointer
        decrement_sizes E o q i
      else
        assign_backward_branch E p length index 1
        let s1 ← move_assign_branch E next_pointer 0 p length
        destroy_node E next_pointer 0
        let nl ← usub next_length 1
        let s2 ← construct_range_branch E next_pointer 1 p (length + 1) nl
        deallocate_node E o next_pointer
        setLen p (length + next_length)
        let s ← sizesAt E parent_pointer parent_index
        let d ← usub (s1 + s2) 1
        setSizes E parent_pointer parent_index (s + d)
        erase_single_branch o parent_pointer next_index
partial_fixpoint

/-- `erase_single_leaf`, seq.hpp 1909-2004 -/
def erase_single_leaf (o : Nat) (entry : LeafE) (p index : Nat) : T α LeafE := do
  let parent_pointer ← parent p
  let parent_index ← pidx p
  let length ← len p
  if length = 2 ∧ (E.baseMin ≠ 2 ∨ parent_pointer = 0) then
    let other ← ptrsAt E p (index ^^^ 1)
    destroy_node E p 0
    destroy_node E p 1
    deallocate_node E o p
    setRoot o other
    let s ← getSize o
    let s ← usub s 1
    setSize o s
    setHeight o 1
    return { ptr := 0, idx := 0 }
  else
    let old := length
    let length ← usub length 1
    if old ≠ E.baseMin ∨ parent_pointer = 0 then
      assign_backward_leaf E p length index 1
      destroy_node E p length
      setLen p length
      decrement_sizes E o parent_pointer parent_index
      return entry
    else if parent_index ≠ 0 then
      let prev_index := parent_index - 1
      let prev_pointer ← ptrsAt E parent_pointer prev_index
      let prev_length ← len prev_pointer
      if prev_length ≠ E.baseMin then
        let prev_length ← usub prev_length 1
        assign_forward_leaf E p index 0 1
        let sz ← move_assign_leaf E prev_pointer prev_length p 0
        destroy_node E prev_pointer prev_length
        let s ← sizesAt E parent_pointer prev_index
        let s ← usub s sz
        setSizes E parent_pointer prev_index s
        let s ← sizesAt E parent_pointer parent_index
        let d ← usub sz 1
        setSizes E parent_pointer parent_index (s + d)
        setLen prev_pointer prev_length
        let entry := { entry with idx := entry.idx + 1 }
        let q ← parent parent_pointer
        let i ← pidx parent_pointer
        decrement_sizes E o q i
        return entry
      else
        let s1 ← construct_range_leaf E p 0 prev_pointer prev_length index
        let ml ← usub length index
        let s2 ← construct_range_leaf E p (index + 1) prev_pointer (prev_length + index) ml
        destroy_node E p index
        deallocate_node E o p
        setLen prev_pointer (prev_length + length)
        let s ← sizesAt E parent_pointer prev_index
        setSizes E parent_pointer prev_index (s + (s1 + s2))
        let entry := { ptr := prev_pointer, idx := entry.idx + prev_length }
        erase_single_branch E o parent_pointer parent_index
        return entry
    else
      let next_index := parent_index + 1
      let next_pointer ← ptrsAt E parent_pointer next_index
      let next_length ← len next_pointer
      if next_length ≠ E.baseMin then
        let next_length ← usub next_length 1
        assign_backward_leaf E p length index 1
        let sz ← move_assign_leaf E next_pointer 0 p length
        assign_backward_leaf E next_pointer next_length 0 1
        destroy_node E next_pointer next_length
        let s ← sizesAt E parent_pointer next_index
        let s ← usub s sz
        setSizes E parent_pointer next_index s
        let s ← sizesAt E parent_pointer parent_index
        let d ← usub sz 1
        setSizes E parent_pointer parent_index (s + d)
        setLen next_pointer next_length
        let q ← parent parent_pointer
        let i ← pidx parent_pointer
        decrement_sizes E o q i
        return entry
      else
        assign_backward_leaf E p length index 1
        let s1 ← move_assign_leaf E next_pointer 0 p length
        destroy_node E next_pointer 0
        let nl ← usub next_length 1
        let s2 ← construct_range_leaf E next_pointer 1 p (length + 1) nl
        deallocate_node E o next_pointer
        setLen p (length + next_length)
        let s ← sizesAt E parent_pointer parent_index
        let d ← usub (s1 + s2) 1
        setSizes E parent_pointer parent_index (s + d)
        erase_single_branch E o parent_pointer next_index
        return entry

/-- `erase_single_segment`, seq.hpp 1814-1907 -/
def erase_single_segment (o : Nat) (entry : Entry) : T α Entry := do
  let pointer := entry.seg.ptr
  let index := entry.seg.idx
  let length := entry.seg.len
  let parent_pointer := entry.leaf.ptr
  let parent_index := entry.leaf.idx
  if length = 1 ∧ (E.segMin ≠ 1 ∨ parent_pointer = 0) then
    destroy_segment E pointer 0
    deallocate_segment E o pointer
    setRoot o 0
    setSize o 0
    setHeight o 0
    return { entry with seg := { ptr := 0, idx := 0, len := 0 } }
  else
    let old := length
    let length ← usub length 1
    if old ≠ E.segMin ∨ parent_pointer = 0 then
      assign_backward_segment E pointer length index 1
      destroy_segment E pointer length
      let entry := { entry with seg := { entry.seg with len := length } }
      decrement_sizes E o parent_pointer parent_index
      return entry
    else
      let merge_size := E.segMin * 2 - 1
      if parent_index ≠ 0 then
        let prev_index := parent_index - 1
        let prev_pointer ← ptrsAt E parent_pointer prev_index
        let prev_length ← sizesAt E parent_pointer prev_index
        if prev_length ≠ E.segMin then
          let prev_length ← usub prev_length 1
          assign_forward_segment E pointer index 0 1
          move_assign_segment E prev_pointer prev_length pointer 0
          destroy_segment E prev_pointer prev_length
          setSizes E parent_pointer prev_index prev_length
          let entry := { entry with seg := { entry.seg with idx := index + 1 } }
          let q ← parent parent_pointer
          let i ← pidx parent_pointer
          decrement_sizes E o q i
          return entry
        else
          construct_range_segment E pointer 0 prev_pointer prev_length index
          let ml ← usub length index
          construct_range_segment E pointer (index + 1) prev_pointer (prev_length + index) ml
          destroy_segment E pointer index
          deallocate_segment E o pointer
          setSizes E parent_pointer prev_index merge_size
          let entry := { seg := { ptr := prev_pointer, len := merge_size, idx := index + E.segMin }
                         leaf := { entry.leaf with idx := entry.leaf.idx - 1 } : Entry }
          let l ← erase_single_leaf E o entry.leaf parent_pointer parent_index
          return { entry with leaf := l }
      else
        let next_index := parent_index + 1
        let next_pointer ← ptrsAt E parent_pointer next_index
        let next_length ← sizesAt E parent_pointer next_index
        if next_length ≠ E.segMin then
          let next_length ← usub next_length 1
          assign_backward_segment E pointer length index 1
          move_assign_segment E next_pointer 0 pointer length
          assign_backward_segment E next_pointer next_length 0 1
          destroy_segment E next_pointer next_length
          setSizes E parent_pointer next_index next_length
          let q ← parent parent_pointer
          let i ← pidx parent_pointer
          decrement_sizes E o q i
          return entry
        else
          assign_backward_segment E pointer length index 1
          move_assign_segment E next_pointer 0 pointer length
          destroy_segment E next_pointer 0
          let nl ← usub next_length 1
          construct_range_segment E next_pointer 1 pointer (length + 1) nl
          deallocate_segment E o next_pointer
          setSizes E parent_pointer parent_index merge_size
          let entry := { entry with seg := { entry.seg with len := merge_size } }
          let l ← erase_single_leaf E o entry.leaf parent_pointer next_index
          return { entry with leaf := l }

/-- `erase_single_iterator`, seq.hpp 1810-1812 -/
def erase_single_iterator (o : Nat) (it : Iter) : T α Iter := do
  let e ← erase_single_segment E o it.entry
  return { it with entry := e }

/-- `find_index`, seq.hpp 2103-2106 -/
def find_index (o pos : Nat) : T α Iter := do
  let s ← rdObj o
  find_index_root E s.root s.sz s.ht pos

/-- `find_first`, seq.hpp 2108-2110 -/
def find_first (o : Nat) : T α Iter := do
  let s ← rdObj o
  find_first_root E s.root s.sz s.ht

/-- `find_last`, seq.hpp 2112-2114 -/
def find_last (o : Nat) : T α Iter := do
  let s ← rdObj o
  find_last_root E s.root s.sz s.ht

/-- `find_end`, seq.hpp 2116-2118 -/
def find_end (o : Nat) : T α Iter := do
  let s ← rdObj o
  find_end_root E s.root s.sz s.ht

/-- `steal`, seq.hpp 2120-2127 (statement by statement, so that
`steal(*this)` behaves as in the source) -/
def steal (o other : Nat) : T α Unit := do
  let r ← getRoot other
  setRoot o r
  let h ← getHeight other
  setHeight o h
  let s ← getSize other
  setSize o s
  setRoot other 0
  setHeight other 0
  setSize other 0

/-- copy construction of a `T` from an lvalue of the given value (trivially
copyable values never throw) -/
def copyVal (v : α) : T α α :=
  T.local_  (SegTree.copyVal E v)

/-- copy assignment `p[i] = v` -/
def copyAssign (p i : Nat) (v : α) : T α Unit := do
  let v ← copyVal E v
  wrElem E p i v

/-- move construction of a `T` from the live object `p[i]` -/
def moveFrom (p i : Nat) : T α α := do
  let v ← rdElem E p i
  if E.throws v then T.throw .elem
  else
    wrElem E p i (E.moved v)
    return v

/-- `emplace_single`, seq.hpp 2129-2133; `mk` is the evaluation of
`value_type(std::forward<Args>(args)...)`, which happens before the call. -/
def emplace_single (o : Nat) (it : Iter) (mk : T α α) : T α Iter := do
  let v ← mk
  insert_single_iterator E o it v

/-- the loop of `emplace_count`, seq.hpp 2138-2141 -/
def emplace_count_loop (o : Nat) (mk : T α α) : (n : Nat) → Iter → T α Iter
  | 0, it => pure it
  | n + 1, it => do
    let it ← emplace_single E o it mk
    let it ← move_next_iterator E it
    emplace_count_loop o mk n it

/-- `emplace_count`, seq.hpp 2135-2144 -/
def emplace_count (o : Nat) (it : Iter) (count : Nat) (mk : T α α) : T α Iter := do
  let it ← emplace_count_loop E o mk count it
  move_prev_iterator_count E it count

/-- A C++ input range `[first, last)` with current position `σ`: `done` is
`first == last`, `read` is `value_type(*first)`, `next` is `++first`. -/
structure Src (α σ : Type) where
  done : σ → Bool
  read : σ → T α α
  next : σ → T α σ

/-- the loop of `emplace_range`, seq.hpp 2149-2154 -/
def emplace_range_loop {σ : Type} (S : Src α σ) (o : Nat) (it : Iter) (first : σ) (count : Nat) :
    T α (Iter × Nat) :=
  if S.done first then pure (it, count)
  else do
    let it ← emplace_single E o it (S.read first)
    let first ← S.next first
    let it ← move_next_iterator E it
    emplace_range_loop S o it first (count + 1)
partial_fixpoint

/-- `emplace_range`, seq.hpp 2146-2157 -/
def emplace_range {σ : Type} (S : Src α σ) (o : Nat) (it : Iter) (first : σ) : T α Iter := do
  let (it, count) ← emplace_range_loop E S o it first 0
  move_prev_iterator_count E it count

/-- a range of external values (initializer list, array, another container) -/
def listSrc : Src α (List α) where
  done l := l.isEmpty
  read l := match l with
    | [] => T.ub .access
    | v :: _ => copyVal E v
  next l := pure l.tail

/-- `[first, last)` of `const_iterator`s of a `seq` -/
def copySrc (last : Iter) : Src α Iter where
  done it := decide (it.pos = last.pos)
  read it := do copyVal E (← dereference E it)
  next it := move_next_iterator E it

/-- `[make_move_iterator(first), make_move_iterator(last))` of a `seq` -/
def moveSrc (last : Iter) : Src α Iter where
  done it := decide (it.pos = last.pos)
  read it := moveFrom E it.entry.seg.ptr it.entry.seg.idx
  next it := move_next_iterator E it

/-- `erase_single`, seq.hpp 2159-2164 -/
def erase_single (o : Nat) (it : Iter) : T α Iter := do
  let it ← erase_single_iterator E o it
  if it.entry.seg.idx = it.entry.seg.len then
    let e ← move_next_leaf E it.entry
    return { it with entry := e }
  else return it

/-- `erase_range`, seq.hpp 2166-2172 (`while (last.pos - first.pos)`) -/
def erase_range (o : Nat) (first last : Iter) : T α Iter :=
  if last.pos ≠ first.pos then do
    let last ← move_prev_iterator E last
    let last ← erase_single E o last
    erase_range o first last
  else pure last
partial_fixpoint

/-- the loop of `assign_count`, seq.hpp 2177-2191; `src` re-reads the lvalue
`value` each time it is used -/
def assign_count_loop (o : Nat) (src : T α α) (count : Nat) (first last : Iter) : T α Unit :=
  if count = 0 then do
    let _ ← erase_range E o first last
    return ()
  else if first.pos = last.pos then do
    let _ ← emplace_count E o last count (do copyVal E (← src))
    return ()
  else do
    let v ← src
    copyAssign E first.entry.seg.ptr first.entry.seg.idx v
    let first ← move_next_iterator E first
    assign_count_loop o src (count - 1) first last
partial_fixpoint

/-- `assign_count`, seq.hpp 2174-2192 -/
def assign_count (o count : Nat) (src : T α α) : T α Unit := do
  let first ← find_first E o
  let last ← find_end E o
  assign_count_loop E o src count first last

/-- the loop of `assign_range`, seq.hpp 2198-2212 -/
def assign_range_loop {σ : Type} (S : Src α σ) (o : Nat) (source : σ) (first last : Iter) :
    T α Unit :=
  if S.done source then do
    let _ ← erase_range E o first last
    return ()
  else if first.pos = last.pos then do
    let _ ← emplace_range E S o last source
    return ()
  else do
    let v ← S.read source
    wrElem E first.entry.seg.ptr first.entry.seg.idx v
    let first ← move_next_iterator E first
    let source ← S.next source
    assign_range_loop S o source first last
partial_fixpoint

/-- `assign_range`, seq.hpp 2194-2213 -/
def assign_range {σ : Type} (S : Src α σ) (o : Nat) (source : σ) : T α Unit := do
  let first ← find_first E o
  let last ← find_end E o
  assign_range_loop E S o source first last

/-- `resize_count`, seq.hpp 2215-2225 -/
def resize_count (o count : Nat) (mk : T α α) : T α Unit := do
  let sz ← getSize o
  if sz = count then pure ()
  else
    let last ← find_end E o
    if count < sz then
      let first ← find_index E o count
      let _ ← erase_range E o first last
    else
      let _ ← emplace_count E o last (count - sz) mk

/-- `clear`, seq.hpp 3064-3069 -/
def clear (o : Nat) : T α Unit := do
  purge E o
  setRoot o 0
  setHeight o 0
  setSize o 0

/-- `copy_assign_alloc`, seq.hpp 2227-2243 -/
def copy_assign_alloc (o other : Nat) : T α Unit := do
  if E.pocca then
    let s ← rdObj o
    let t ← rdObj other
    if E.acls s.ealloc ≠ E.acls t.ealloc then clear E o
    let s ← rdObj o
    wrObj o { s with ealloc := t.ealloc, nalloc := t.nalloc }
  else pure ()

/-- `move_assign_alloc`, seq.hpp 2245-2263 -/
def move_assign_alloc (o other : Nat) : T α Unit := do
  if E.pocma then
    let t ← rdObj other
    let s ← rdObj o
    wrObj o { s with ealloc := t.ealloc, nalloc := t.nalloc }
  else pure ()

/-- `move_assign(seq&, std::true_type)`, seq.hpp 2284-2289 -/
def move_assign_steal (o other : Nat) : T α Unit := do
  purge E o
  move_assign_alloc E o other
  steal o other

/-- `move_assign`, seq.hpp 2265-2282 -/
def move_assign (o other : Nat) : T α Unit := do
  if E.pocma then move_assign_steal E o other
  else
    let s ← rdObj o
    let t ← rdObj other
    if E.acls s.ealloc ≠ E.acls t.ealloc then
      let first ← find_first E other
      let last ← find_end E other
      assign_range E (moveSrc E last) o first
    else move_assign_steal E o other

/-- `seq(Allocator const&)`, seq.hpp 2324-2325 (and the default constructor,
seq.hpp 2316-2317, with the default allocator): a new object in storage the
user provides. -/
def ctor (o alloc : Nat) : T α Unit :=
  T.acquires (fun _ => .obj o) (SegTree.ctor o alloc)

/-- the end of the lifetime of the `seq` object itself -/
def dropObj (o : Nat) : T α Unit :=
  T.releases (.obj o) (SegTree.dropObj o)

/-- `~seq()`, seq.hpp 2427 -/
def dtor (o : Nat) : T α Unit := do
  purge E o
  dropObj o

/-- A delegating constructor: if the body throws, the object constructed by
`seq{alloc}` is destroyed before the exception propagates. -/
def delegating (o alloc : Nat) (body : T α Unit) : T α Unit := do
  ctor o alloc
  T.onThrow body (dtor E o)

/-- `seq(count, value, alloc)` and `seq(count, alloc)`, seq.hpp 2333-2347 -/
def ctor_count (o alloc count : Nat) (mk : T α α) : T α Unit :=
  delegating E o alloc (do
    let it ← find_end E o
    let _ ← emplace_count E o it count mk)

/-- `seq(first, last, alloc)` and `seq(init, alloc)`, seq.hpp 2355-2360, 2417-2420 -/
def ctor_range {σ : Type} (S : Src α σ) (o alloc : Nat) (first : σ) : T α Unit :=
  delegating E o alloc (do
    let it ← find_end E o
    let _ ← emplace_range E S o it first)

/-- `seq(seq const&, alloc)`, seq.hpp 2378-2380 -/
def ctor_copy_alloc (o other alloc : Nat) : T α Unit :=
  delegating E o alloc (do
    let it ← find_end E o
    let first ← find_first E other
    let last ← find_end E other
    let _ ← emplace_range E (copySrc E last) o it first)

/-- `seq(seq const&)`, seq.hpp 2367-2371 -/
def ctor_copy (o other : Nat) : T α Unit := do
  let t ← rdObj other
  ctor_copy_alloc E o other (E.selectCopy t.ealloc)

/-- `seq(seq&&)`, seq.hpp 2387-2395 -/
def ctor_move (o other : Nat) : T α Unit := do
  let t ← rdObj other
  ctor o t.ealloc
  wrObj o t
  setRoot other 0
  setHeight other 0
  setSize other 0

/-- `seq(seq&&, alloc)`, seq.hpp 2403-2409 -/
def ctor_move_alloc (o other alloc : Nat) : T α Unit :=
  delegating E o alloc (do
    let t ← rdObj other
    if E.acls alloc = E.acls t.ealloc then steal o other
    else
      let it ← find_end E o
      let first ← find_first E other
      let last ← find_end E other
      let _ ← emplace_range E (moveSrc E last) o it first)

/-- `operator=(seq const&)`, seq.hpp 2445-2451 -/
def assign_copy (o other : Nat) : T α Unit := do
  if o ≠ other then
    copy_assign_alloc E o other
    let first ← find_first E other
    let last ← find_end E other
    assign_range E (copySrc E last) o first
  else pure ()

/-- `operator=(seq&&)`, seq.hpp 2475-2480 -/
def assign_move (o other : Nat) : T α Unit := move_assign E o other

/-- `operator=(initializer_list)` and `assign(first, last)` / `assign(ilist)`
of external values, seq.hpp 2498-2501, 2532-2553 -/
def assign_list (o : Nat) (vs : List α) : T α Unit := assign_range E (listSrc E) o vs

/-- `assign(count, value)`, seq.hpp 2516, with `value` an object outside the
container -/
def assign_fill (o count : Nat) (v : α) : T α Unit := assign_count E o count (pure v)

/-- `at`, seq.hpp 2599-2620 -/
def at_ (o pos : Nat) : T α α := do
  let sz ← getSize o
  if pos ≥ sz then T.throw .range
  else
    let it ← find_index E o pos
    dereference E it

/-- `operator[]`, seq.hpp 2633-2652 -/
def index_op (o pos : Nat) : T α α := do
  let it ← find_index E o pos
  dereference E it

/-- writing through the reference returned by `operator[]`: `s[pos] = v` -/
def index_set (o pos : Nat) (v : α) : T α Unit := do
  let it ← find_index E o pos
  copyAssign E it.entry.seg.ptr it.entry.seg.idx v

/-- writing through `operator*` of an iterator (seq.hpp 810, 668-670): `*it = v` -/
def deref_set (it : Iter) (v : α) : T α Unit :=
  copyAssign E it.entry.seg.ptr it.entry.seg.idx v

/-- moving into an element through an iterator: `*it = std::move(x)`, `x` having the value `v` -/
def deref_set_rv (it : Iter) (v : α) : T α Unit :=
  assign_segment E it.entry.seg.ptr it.entry.seg.idx v

/-- `front`, seq.hpp 2665-2678 -/
def front (o : Nat) : T α α := do dereference E (← find_first E o)

/-- `back`, seq.hpp 2691-2704 -/
def back (o : Nat) : T α α := do dereference E (← find_last E o)

/-- `begin` / `cbegin`, seq.hpp 2717-2743 -/
def begin_ (o : Nat) : T α Iter := find_first E o

/-- `penultimate` / `cpenultimate`, seq.hpp 2759-2791 -/
def penultimate (o : Nat) : T α Iter := find_last E o

/-- `end` / `cend`, seq.hpp 2804-2830; also the base of `rbegin`, seq.hpp 2843-2873 -/
def end_ (o : Nat) : T α Iter := find_end E o

/-- `*r` for a `std::reverse_iterator` with base `it` (`rbegin`/`rend`,
seq.hpp 2843-2916): `auto tmp = it; return *--tmp;` -/
def rev_deref (it : Iter) : T α α := do dereference E (← move_prev_iterator E it)

/-- `nth`, seq.hpp 2936-2962 -/
def nth (o pos : Nat) : T α Iter := do
  let sz ← getSize o
  if pos ≥ sz then find_end E o else find_index E o pos

/-- `empty`, seq.hpp 3007 -/
def empty (o : Nat) : T α Bool := do return decide ((← getSize o) = 0)

/-- `size`, seq.hpp 3020 -/
def size (o : Nat) : T α Nat := getSize o

/-- `height`, seq.hpp 3036 -/
def height (o : Nat) : T α Nat := getHeight o

/-- `get_allocator`, seq.hpp 2566-2568 -/
def get_allocator (o : Nat) : T α Nat := do return (← rdObj o).ealloc

/-- `insert(pos, T const&)` of an object outside the container, seq.hpp 3085-3087 -/
def insert (o : Nat) (it : Iter) (v : α) : T α Iter := emplace_single E o it (copyVal E v)

/-- `insert(pos, T&&)` and `emplace(pos, args...)` producing `v`, seq.hpp
3103-3105, 3184-3187 -/
def insert_rv (o : Nat) (it : Iter) (v : α) : T α Iter := emplace_single E o it (pure v)

/-- `insert(pos, s[j])`: the argument is a reference to an element of the
container itself, seq.hpp 3085-3087 -/
def insert_alias (o : Nat) (it src : Iter) : T α Iter :=
  emplace_single E o it (do copyVal E (← dereference E src))

/-- `insert(pos, count, value)`, seq.hpp 3122-3124 -/
def insert_fill (o : Nat) (it : Iter) (count : Nat) (v : α) : T α Iter :=
  emplace_count E o it count (copyVal E v)

/-- `insert(pos, count, s[j])`: aliased argument, seq.hpp 3122-3124 -/
def insert_fill_alias (o : Nat) (it : Iter) (count : Nat) (src : Iter) : T α Iter :=
  emplace_count E o it count (do copyVal E (← dereference E src))

/-- `insert(pos, first, last)` / `insert(pos, ilist)` of external values,
seq.hpp 3143-3168 -/
def insert_list (o : Nat) (it : Iter) (vs : List α) : T α Iter := emplace_range E (listSrc E) o it vs

/-- `erase(pos)`, seq.hpp 3203 -/
def erase (o : Nat) (it : Iter) : T α Iter := erase_single E o it

/-- `erase(first, last)`, seq.hpp 3219-3221 -/
def erase_rng (o : Nat) (first last : Iter) : T α Iter := erase_range E o first last

/-- `push_back(T const&)`, seq.hpp 3234, 3260-3263 -/
def push_back (o : Nat) (v : α) : T α Unit := do
  let _ ← emplace_single E o (← find_end E o) (copyVal E v)

/-- `push_back(T&&)` and `emplace_back(args...)` producing `v`, seq.hpp 3247, 3260-3263 -/
def push_back_rv (o : Nat) (v : α) : T α Unit := do
  let _ ← emplace_single E o (← find_end E o) (pure v)

/-- `pop_back`, seq.hpp 3276 -/
def pop_back (o : Nat) : T α Unit := do
  let _ ← erase_single E o (← find_last E o)

/-- `push_front(T const&)`, seq.hpp 3289, 3315-3318 -/
def push_front (o : Nat) (v : α) : T α Unit := do
  let _ ← emplace_single E o (← find_first E o) (copyVal E v)

/-- `push_front(T&&)` and `emplace_front(args...)` producing `v`, seq.hpp 3302, 3315-3318 -/
def push_front_rv (o : Nat) (v : α) : T α Unit := do
  let _ ← emplace_single E o (← find_first E o) (pure v)

/-- `pop_front`, seq.hpp 3331 -/
def pop_front (o : Nat) : T α Unit := do
  let _ ← erase_single E o (← find_first E o)

/-- `resize(count)` (with `v` the default-constructed value) and
`resize(count, value)`, seq.hpp 3346-3363 -/
def resize (o count : Nat) (v : α) : T α Unit := resize_count E o count (copyVal E v)

/-- `swap`, seq.hpp 3379-3387 with `swap_allocator`, seq.hpp 2291-2306 -/
def swap (o other : Nat) : T α Unit := do
  let s ← rdObj o
  let t ← rdObj other
  wrObj o { s with root := t.root, ht := t.ht, sz := t.sz }
  let t' ← rdObj other
  wrObj other { t' with root := s.root, ht := s.ht, sz := s.sz }
  if E.pocs then
    let s ← rdObj o
    let t ← rdObj other
    wrObj o { s with ealloc := t.ealloc, nalloc := t.nalloc }
    let t' ← rdObj other
    wrObj other { t' with ealloc := s.ealloc, nalloc := s.nalloc }
  else pure ()

/-- `splice(pos, other)`, seq.hpp 3471-3475 -/
def splice (o : Nat) (pos : Iter) (other : Nat) : T α Unit := do
  let first ← find_first E other
  let last ← find_end E other
  let _ ← emplace_range E (moveSrc E last) o pos first
  clear E other

/-- `splice(pos, other, it)`, seq.hpp 3502-3505.  `std::move(*it)` of a
`const_iterator` is a `T const&&`: the element is copied, then erased. -/
def splice_one (o : Nat) (pos : Iter) (other : Nat) (it : Iter) : T α Unit := do
  let _ ← emplace_single E o pos (do copyVal E (← dereference E it))
  let _ ← erase_single E other it

/-- `splice(pos, other, first, last)`, seq.hpp 3535-3540 -/
def splice_range (o : Nat) (pos : Iter) (other : Nat) (first last : Iter) : T α Unit := do
  let _ ← emplace_range E (moveSrc E last) o pos first
  let _ ← erase_range E other first last

/-- Read `[first, last)` through iterators (used for the standard algorithms
whose contract is modelled, not their code). -/
def read_range (first last : Iter) : T α (List α) :=
  if first.pos ≠ last.pos then do
    let v ← dereference E first
    let first ← move_next_iterator E first
    let vs ← read_range first last
    return v :: vs
  else pure []
partial_fixpoint

/-- Overwrite the elements from `first` on through iterators. -/
def write_range (first : Iter) : List α → T α Unit
  | [] => pure ()
  | v :: vs => do
    wrElem E first.entry.seg.ptr first.entry.seg.idx v
    let first ← move_next_iterator E first
    write_range first vs

/-- `std::inplace_merge(first, mid, last, comp)`: its contract for ranges of
pure values (stable merge; the second range's element goes first only if it
compares less). -/
def std_inplace_merge (comp : α → α → Bool) (first mid last : Iter) : T α Unit := do
  let xs ← read_range E first mid
  let ys ← read_range E mid last
  write_range E first (xs.merge ys (fun a b => !comp b a))

/-- `std::stable_sort(first, last, comp)`: its contract (the stable sorted
permutation). -/
def std_stable_sort (comp : α → α → Bool) (first last : Iter) : T α Unit := do
  let xs ← read_range E first last
  write_range E first (xs.mergeSort (fun a b => !comp b a))

/-- `merge(other, comp)`, seq.hpp 3433-3438 -/
def merge (o other : Nat) (comp : α → α → Bool) : T α Unit := do
  let sz ← getSize o
  let e ← end_ E o
  let f ← begin_ E other
  let l ← end_ E other
  splice_range E o e other f l
  let b ← begin_ E o
  let mid ← nth E o sz
  let e ← end_ E o
  std_inplace_merge E comp b mid e

/-- `std::find_if` -/
def std_find_if (p : α → Bool) (first last : Iter) : T α Iter :=
  if first.pos ≠ last.pos then do
    let v ← dereference E first
    if p v then pure first
    else std_find_if p (← move_next_iterator E first) last
  else pure first
partial_fixpoint

/-- `*dst = std::move(*src)` -/
def iter_move_assign (src dst : Iter) : T α Unit :=
  move_assign_segment E src.entry.seg.ptr src.entry.seg.idx dst.entry.seg.ptr dst.entry.seg.idx

/-- `for (auto i = first; ++i != last;) if (!p(*i)) *first++ = std::move(*i);` -/
def std_remove_loop (p : α → Bool) (first i last : Iter) : T α Iter := do
  let i ← move_next_iterator E i
  if i.pos ≠ last.pos then
    let v ← dereference E i
    if p v then std_remove_loop p first i last
    else
      iter_move_assign E i first
      let first ← move_next_iterator E first
      std_remove_loop p first i last
  else pure first
partial_fixpoint

/-- `std::remove_if` (the reference implementation) -/
def std_remove_if (p : α → Bool) (first last : Iter) : T α Iter := do
  let first ← std_find_if E p first last
  if first.pos ≠ last.pos then std_remove_loop E p first first last else pure first

/-- `remove_if(p)`, seq.hpp 3586-3589 -/
def remove_if (o : Nat) (p : α → Bool) : T α Unit := do
  let b ← begin_ E o
  let e ← end_ E o
  let first ← std_remove_if E p b e
  let e ← end_ E o
  let _ ← erase_range E o first e

/-- `remove(value)`, seq.hpp 3571-3573, with `value` an object outside the
container (`std::remove` is `std::remove_if` with the predicate `x == value`) -/
def remove (o : Nat) (eq : α → α → Bool) (v : α) : T α Unit := remove_if E o (fun x => eq x v)

/-- `std::iter_swap` -/
def iter_swap (a b : Iter) : T α Unit := do
  let x ← moveFrom E a.entry.seg.ptr a.entry.seg.idx
  move_assign_segment E b.entry.seg.ptr b.entry.seg.idx a.entry.seg.ptr a.entry.seg.idx
  assign_segment E b.entry.seg.ptr b.entry.seg.idx x

/-- `while (first < last) { iter_swap(first, last); ++first; --last; }` -/
def std_reverse_loop (first last : Iter) : T α Unit :=
  if first.pos < last.pos then do
    iter_swap E first last
    let first ← move_next_iterator E first
    let last ← move_prev_iterator E last
    std_reverse_loop first last
  else pure ()
partial_fixpoint

/-- `std::reverse` on random-access iterators -/
def std_reverse (first last : Iter) : T α Unit :=
  if first.pos = last.pos then pure ()
  else do
    let last ← move_prev_iterator E last
    std_reverse_loop E first last

/-- `reverse`, seq.hpp 3602 -/
def reverse (o : Nat) : T α Unit := do
  let b ← begin_ E o
  let e ← end_ E o
  std_reverse E b e

/-- `while (++first != last) if (!p(*result, *first) && ++result != first)
*result = std::move(*first);` then `++result` -/
def std_unique_loop (p : α → α → Bool) (result first last : Iter) : T α Iter := do
  let first ← move_next_iterator E first
  if first.pos ≠ last.pos then
    let x ← dereference E result
    let y ← dereference E first
    if p x y then std_unique_loop p result first last
    else
      let result ← move_next_iterator E result
      if result.pos ≠ first.pos then
        iter_move_assign E first result
        std_unique_loop p result first last
      else std_unique_loop p result first last
  else move_next_iterator E result
partial_fixpoint

/-- `std::unique` (the reference implementation) -/
def std_unique (p : α → α → Bool) (first last : Iter) : T α Iter :=
  if first.pos = last.pos then pure last else std_unique_loop E p first first last

/-- `unique(p)`, seq.hpp 3615-3632 -/
def unique (o : Nat) (p : α → α → Bool) : T α Unit := do
  let b ← begin_ E o
  let e ← end_ E o
  let first ← std_unique E p b e
  let e ← end_ E o
  let _ ← erase_range E o first e

/-- `sort(comp)`, seq.hpp 3645-3661 -/
def sort (o : Nat) (comp : α → α → Bool) : T α Unit := do
  let b ← begin_ E o
  let e ← end_ E o
  std_stable_sort E comp b e

/-- `std::equal(first1, last1, first2)` -/
def std_equal (eq : α → α → Bool) (first1 last1 first2 : Iter) : T α Bool :=
  if first1.pos ≠ last1.pos then do
    let x ← dereference E first1
    let y ← dereference E first2
    if eq x y then
      let first1 ← move_next_iterator E first1
      let first2 ← move_next_iterator E first2
      std_equal eq first1 last1 first2
    else pure false
  else pure true
partial_fixpoint

/-- `operator==`, seq.hpp 3675-3678 -/
def op_eq (eq : α → α → Bool) (a b : Nat) : T α Bool := do
  let sa ← getSize a
  let sb ← getSize b
  if sa = sb then
    let f1 ← begin_ E a
    let l1 ← end_ E a
    let f2 ← begin_ E b
    std_equal E eq f1 l1 f2
  else pure false

/-- `operator!=`, seq.hpp 3692-3694 -/
def op_ne (eq : α → α → Bool) (a b : Nat) : T α Bool := do return !(← op_eq E eq a b)

/-- `std::lexicographical_compare` -/
def std_lex (lt : α → α → Bool) (first1 last1 first2 last2 : Iter) : T α Bool :=
  if first1.pos ≠ last1.pos ∧ first2.pos ≠ last2.pos then do
    let x ← dereference E first1
    let y ← dereference E first2
    if lt x y then pure true
    else if lt y x then pure false
    else
      let first1 ← move_next_iterator E first1
      let first2 ← move_next_iterator E first2
      std_lex lt first1 last1 first2 last2
  else pure (decide (first1.pos = last1.pos) && decide (first2.pos ≠ last2.pos))
partial_fixpoint

/-- `operator<`, seq.hpp 3708-3711 -/
def op_lt (lt : α → α → Bool) (a b : Nat) : T α Bool := do
  let f1 ← begin_ E a
  let l1 ← end_ E a
  let f2 ← begin_ E b
  let l2 ← end_ E b
  std_lex E lt f1 l1 f2 l2

/-- `operator<=`, seq.hpp 3725-3727 -/
def op_le (lt : α → α → Bool) (a b : Nat) : T α Bool := do return !(← op_lt E lt b a)

/-- `operator>`, seq.hpp 3741 -/
def op_gt (lt : α → α → Bool) (a b : Nat) : T α Bool := op_lt E lt b a

/-- `operator>=`, seq.hpp 3755-3757 -/
def op_ge (lt : α → α → Bool) (a b : Nat) : T α Bool := do return !(← op_lt E lt a b)

/-- `operator+=` and `operator+`, seq.hpp 878-881, 901-905 -/
def it_add (it : Iter) (d : Int) : T α Iter := move_iterator_count E it d

/-- `operator-=` and `operator-`, seq.hpp 891-894, 912-916 -/
def it_sub (it : Iter) (d : Int) : T α Iter := move_iterator_count E it (-d)

/-- `operator[]`, seq.hpp 818-820 -/
def it_index (it : Iter) (d : Int) : T α α := dereference_count E it d

end

noncomputable section
variable {α : Type}

namespace Un

def unit {β : Type} (x : T α β) : T α (Ret α) := do let _ ← x; return .unit
def pos (x : T α Iter) : T α (Ret α) := do return .pos (index_of (← x))
def val (x : T α α) : T α (Ret α) := do return .val (← x)
def num (x : T α Nat) : T α (Ret α) := do return .num (← x)
def flag (x : T α Bool) : T α (Ret α) := do return .flag (← x)

/-- `SegTree.Un.run` -/
def _root_.SegTree.Un.among (E : Env α) (o : Nat) : SegTree.Un α → T α (Ret α)
  | .size => Thread.Un.num (size o)
  | .empty => Thread.Un.flag (empty o)
  | .getAlloc => Thread.Un.num (get_allocator o)
  | .at_ i => Thread.Un.val (at_ E o i)
  | .index i => Thread.Un.val (index_op E o i)
  | .front => Thread.Un.val (front E o)
  | .back => Thread.Un.val (back E o)
  | .set i v => Thread.Un.unit (index_set E o i v)
  | .setIt i v => Thread.Un.unit (do deref_set E (← nth E o i) v)
  | .setRv i v => Thread.Un.unit (do deref_set_rv E (← nth E o i) v)
  | .nth i => Thread.Un.pos (nth E o i)
  | .begin_ => Thread.Un.pos (begin_ E o)
  | .end_ => Thread.Un.pos (end_ E o)
  | .penultimate => Thread.Un.pos (penultimate E o)
  | .insert i v => Thread.Un.pos (do insert E o (← nth E o i) v)
  | .insertRv i v => Thread.Un.pos (do insert_rv E o (← nth E o i) v)
  | .insertSelf i j => Thread.Un.pos (do
      let it ← nth E o i
      let jt ← nth E o j
      insert_alias E o it jt)
  | .insertFill i n v => Thread.Un.pos (do insert_fill E o (← nth E o i) n v)
  | .insertList i vs => Thread.Un.pos (do insert_list E o (← nth E o i) vs)
  | .pushBack v => Thread.Un.unit (push_back E o v)
  | .pushFront v => Thread.Un.unit (push_front E o v)
  | .pushBackRv v => Thread.Un.unit (push_back_rv E o v)
  | .pushFrontRv v => Thread.Un.unit (push_front_rv E o v)
  | .erase i => Thread.Un.pos (do erase E o (← nth E o i))
  | .eraseRange i j => Thread.Un.pos (do
      let it ← nth E o i
      let jt ← nth E o j
      erase_rng E o it jt)
  | .popBack => Thread.Un.unit (pop_back E o)
  | .popFront => Thread.Un.unit (pop_front E o)
  | .resize n v => Thread.Un.unit (resize E o n v)
  | .clear => Thread.Un.unit (clear E o)
  | .assignFill n v => Thread.Un.unit (assign_fill E o n v)
  | .assignList vs => Thread.Un.unit (assign_list E o vs)
  | .removeIf p => Thread.Un.unit (remove_if E o p)
  | .remove eq v => Thread.Un.unit (remove E o eq v)
  | .unique p => Thread.Un.unit (unique E o p)
  | .reverse => Thread.Un.unit (reverse E o)
  | .sort comp => Thread.Un.unit (sort E o comp)
  | .selfAssign => Thread.Un.unit (assign_copy E o o)
  | .selfMove => Thread.Un.unit (assign_move E o o)
  | .selfSwap => Thread.Un.unit (swap E o o)

end Un

/-- `SegTree.Bin.run` -/
def _root_.SegTree.Bin.among (E : Env α) (o p : Nat) : SegTree.Bin α → T α (Ret α)
  | .swap => Thread.Un.unit (swap E o p)
  | .assignCopy => Thread.Un.unit (assign_copy E o p)
  | .assignMove => Thread.Un.unit (assign_move E o p)
  | .splice i => Thread.Un.unit (do splice E o (← nth E o i) p)
  | .spliceOne i j => Thread.Un.unit (do
      let it ← nth E o i
      let jt ← nth E p j
      splice_one E o it p jt)
  | .spliceRange i a b => Thread.Un.unit (do
      let it ← nth E o i
      let first ← nth E p a
      let last ← nth E p b
      splice_range E o it p first last)
  | .merge comp => Thread.Un.unit (merge E o p comp)
  | .insertRange i a b => Thread.Un.pos (do
      let it ← nth E o i
      let first ← nth E p a
      let last ← nth E p b
      emplace_range E (copySrc E last) o it first)
  | .assignRange a b => Thread.Un.unit (do
      let first ← nth E p a
      let last ← nth E p b
      assign_range E (copySrc E last) o first)
  | .eq f => Thread.Un.flag (op_eq E f o p)
  | .ne f => Thread.Un.flag (op_ne E f o p)
  | .lt f => Thread.Un.flag (op_lt E f o p)
  | .le f => Thread.Un.flag (op_le E f o p)
  | .gt f => Thread.Un.flag (op_gt E f o p)
  | .ge f => Thread.Un.flag (op_ge E f o p)

/-- `SegTree.New.run` -/
def _root_.SegTree.New.among (E : Env α) (o : Nat) : SegTree.New α → T α (Ret α)
  | .empty al => Thread.Un.unit (ctor o al)
  | .fill al n v => Thread.Un.unit (ctor_count E o al n (copyVal E v))
  | .list al vs => Thread.Un.unit (ctor_range E (listSrc E) o al vs)

/-- `SegTree.New2.run` -/
def _root_.SegTree.New2.among (E : Env α) (o p : Nat) : New2 → T α (Ret α)
  | .copy => Thread.Un.unit (ctor_copy E o p)
  | .copyAlloc al => Thread.Un.unit (ctor_copy_alloc E o p al)
  | .move => Thread.Un.unit (ctor_move o p)
  | .moveAlloc al => Thread.Un.unit (ctor_move_alloc E o p al)
  | .range al a b => Thread.Un.unit (do
      let first ← nth E p a
      let last ← nth E p b
      ctor_range E (copySrc E last) o al first)

/-- a call of the interface, by a thread among others (`Op.run`) -/
def _root_.SegTree.Op.among (E : Env α) : Op α → T α (Ret α)
  | .un o c => c.among E o
  | .bin o p c => c.among E o p
  | .new o c => c.among E o
  | .new2 o p c => c.among E o p
  | .dtor o => Thread.Un.unit (dtor E o)

end
end SegTree.Thread
