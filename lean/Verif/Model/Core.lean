/-
  `seq`'s private machinery: allocation, construction, destruction, shifting,
  size bookkeeping, single insert and single erase.  seq.hpp 1202-2100.
-/
import Verif.Model.Static
set_option autoImplicit false

namespace SegTree

section Core
variable {α : Type} (E : Env α)

/-! #### allocate / destroy / deallocate -/

/-- `allocate_segment`, seq.hpp 1203-1206: `segment_max` raw slots. -/
def allocate_segment (o : Nat) : M α Nat := do
  let s ← rdObj o
  allocCell E (.seg (E.acls s.ealloc) (fun _ => .raw))

/-- obtain storage for a node from an allocator of class `w`.  The node's
members are not initialised: its contents are the environment's `junk`. -/
def allocNodeCell (w : Nat) : M α Nat := fun m => allocCell E (.node w (E.junk m.log.reqs)) m

/-- `allocate_node`, seq.hpp 1208-1210 -/
def allocate_node (o : Nat) : M α Nat := do
  let s ← rdObj o
  allocNodeCell E (E.acls s.nalloc)

/-- `destroy_segment`, seq.hpp 1213-1216 -/
def destroy_segment (p i : Nat) : M α Unit := do
  let s ← rdSlots p
  if i < E.segMax then
    match s i with
    | .val _ => wrSlots p (upd s i .raw)
    | .raw => M.ub .raw
  else M.ub .oob

/-- `destroy_node`, seq.hpp 1218-1220: the (trivial) destructor of one stored
pointer; only the access is modelled. -/
def destroy_node (p i : Nat) : M α Unit := do
  let _ ← ptrsAt E p i
  return ()

/-- no slot of the segment holds an object -/
def allRaw (s : Nat → Slot α) : Bool :=
  (List.range E.segMax).all fun i => match s i with | .raw => true | .val _ => false

/-- return a segment's storage to an allocator of class `a`: it must have come
from an equal allocator and hold no objects (unless destruction is trivial) -/
def freeSeg (a p : Nat) : M α Unit := fun m =>
  match m.cell (.heap p) with
  | some (.seg w s) =>
    if w ≠ a then .ub .badFree
    else if E.trivDtor || allRaw E s then .ok () (m.erase (.heap p))
    else .ub .leak
  | _ => .ub .access

/-- return a node's storage to an allocator of class `a` -/
def freeNode (a p : Nat) : M α Unit := fun m =>
  match m.cell (.heap p) with
  | some (.node w _) => if w ≠ a then .ub .badFree else .ok () (m.erase (.heap p))
  | _ => .ub .access

/-- `deallocate_segment`, seq.hpp 1223-1226 -/
def deallocate_segment (o p : Nat) : M α Unit := do
  let x ← rdObj o
  if p = 0 then
    if E.nullFree then pure () else M.ub .badFree
  else freeSeg E (E.acls x.ealloc) p

/-- `deallocate_node`, seq.hpp 1228-1230 -/
def deallocate_node (o p : Nat) : M α Unit := do
  let x ← rdObj o
  freeNode (E.acls x.nalloc) p

/-! #### purge -/

/-- `for (size_type i = i₀, e = i₀ + n; i != e; ++i) f(i);` -/
def forN (f : Nat → M α Unit) : (n i : Nat) → M α Unit
  | 0, _ => pure ()
  | n + 1, i => do f i; forN f n (i + 1)

/-- `purge_segment`, seq.hpp 1235-1247 (the two tagged overloads are selected
by `is_trivially_destructible`) -/
def purge_segment (o p sz : Nat) : M α Unit := do
  if E.trivDtor then pure () else forN (destroy_segment E p) sz 0
  deallocate_segment E o p

/-- `purge_node`, seq.hpp 1249-1263 (recursion on the height; the code is never
called with a height below 2, which the model rejects) -/
def purge_node (o : Nat) : (ht p : Nat) → M α Unit
  | 0, _ => M.ub .access
  | 1, _ => M.ub .access
  | 2, p => do
    let e ← len p
    forN (fun i => do
      let child ← ptrsAt E p i
      let sz ← sizesAt E p i
      purge_segment E o child sz
      destroy_node E p i) e 0
    deallocate_node E o p
  | ht + 3, p => do
    let e ← len p
    forN (fun i => do
      let child ← ptrsAt E p i
      purge_node o (ht + 2) child
      destroy_node E p i) e 0
    deallocate_node E o p

/-- `purge_root`, seq.hpp 1265-1270 -/
def purge_root (o p sz ht : Nat) : M α Unit :=
  if ht < 2 then purge_segment E o p sz else purge_node E o ht p

/-- `purge`, seq.hpp 1233 -/
def purge (o : Nat) : M α Unit := do
  let s ← rdObj o
  purge_root E o s.root s.sz s.ht

/-! #### construct / assign / move -/

/-- moving this value throws (trivially copyable values never do) -/
def Env.throws (v : α) : Bool := !E.trivCopy && E.mthrow v

/-- `construct_segment`, seq.hpp 1273-1278 -/
def construct_segment (p i : Nat) (v : α) : M α Unit := do
  if E.throws v then M.throw .elem
  else
    let s ← rdSlots p
    if i < E.segMax then
      match s i with
      | .raw => wrSlots p (upd s i (.val v))
      | .val _ => if E.trivDtor then wrSlots p (upd s i (.val v)) else M.ub .overwrite
    else M.ub .oob

/-- `construct_leaf`, seq.hpp 1280-1286 -/
def construct_leaf (p i csz child : Nat) : M α Nat := do
  setSizes E p i csz
  setPtrs E p i child
  return csz

/-- `construct_branch`, seq.hpp 1288-1297 -/
def construct_branch (p i csz child : Nat) : M α Nat := do
  setSizes E p i csz
  setParent child p
  setPidx child i
  setPtrs E p i child
  return csz

/-- `assign_segment`, seq.hpp 1300-1304 -/
def assign_segment (p i : Nat) (v : α) : M α Unit := do
  if E.throws v then M.throw .elem else wrElem E p i v

/-- `assign_leaf`, seq.hpp 1306-1311 -/
def assign_leaf (p i csz child : Nat) : M α Nat := do
  setSizes E p i csz
  setPtrs E p i child
  return csz

/-- `assign_branch`, seq.hpp 1313-1321 -/
def assign_branch (p i csz child : Nat) : M α Nat := do
  setSizes E p i csz
  setParent child p
  setPidx child i
  setPtrs E p i child
  return csz

/-- `move_assign_segment`, seq.hpp 1324-1328 -/
def move_assign_segment (src si dst di : Nat) : M α Unit := do
  let v ← rdElem E src si
  assign_segment E dst di v
  wrElem E src si (E.moved v)

/-- `move_assign_leaf`, seq.hpp 1330-1334 -/
def move_assign_leaf (src si dst di : Nat) : M α Nat := do
  let csz ← sizesAt E src si
  let child ← ptrsAt E src si
  assign_leaf E dst di csz child

/-- `move_assign_branch`, seq.hpp 1336-1340 -/
def move_assign_branch (src si dst di : Nat) : M α Nat := do
  let csz ← sizesAt E src si
  let child ← ptrsAt E src si
  assign_branch E dst di csz child

/-- `move_segment`, seq.hpp 1343-1347 -/
def move_segment (src si dst di : Nat) : M α Unit := do
  let v ← rdElem E src si
  construct_segment E dst di v
  wrElem E src si (E.moved v)

/-- `move_leaf`, seq.hpp 1349-1355 -/
def move_leaf (src si dst di : Nat) : M α Nat := do
  let csz ← sizesAt E src si
  let child ← ptrsAt E src si
  let _ ← construct_leaf E dst di csz child
  return csz

/-- `move_branch`, seq.hpp 1357-1363 -/
def move_branch (src si dst di : Nat) : M α Nat := do
  let csz ← sizesAt E src si
  let child ← ptrsAt E src si
  let _ ← construct_branch E dst di csz child
  return csz

/-! #### shifting loops -/

/-- `while (from != last) { step(from, to); ++from; ++to; }` accumulating the
returned sizes: the loops of seq.hpp 1377-1385, 1407-1417, 1424-1434. -/
def range_loop (step : Nat → Nat → M α Nat) (src last dst acc : Nat) : M α Nat :=
  if src ≠ last then do
    let s ← step src dst
    range_loop step (src + 1) last (dst + 1) (acc + s)
  else pure acc
partial_fixpoint

/-- `while (first != from) { --from; --to; step(from, to); }`: the loops of
seq.hpp 1448-1456, 1468-1476, 1481-1489. -/
def forward_loop (step : Nat → Nat → M α Unit) (first src dst : Nat) : M α Unit :=
  if first ≠ src then do
    let src ← usub src 1
    let dst ← usub dst 1
    step src dst
    forward_loop step first src dst
  else pure ()
partial_fixpoint

/-- `while (to != last) { step(from, to); ++from; ++to; }`: the loops of
seq.hpp 1504-1512, 1524-1532, 1537-1545. -/
def backward_loop (step : Nat → Nat → M α Unit) (src dst last : Nat) : M α Unit :=
  if dst ≠ last then do
    step src dst
    backward_loop step (src + 1) (dst + 1) last
  else pure ()
partial_fixpoint

/-- `memcpy` / `memmove` of `n` element slots -/
def copySlots (from_ : Nat → Slot α) (si : Nat) (to_ : Nat → Slot α) (di n : Nat) :
    Nat → Slot α :=
  fun i => if di ≤ i ∧ i < di + n then from_ (si + (i - di)) else to_ i

/-- the `memcpy` of seq.hpp 1366-1371 and the `memmove`s of seq.hpp 1438-1443,
1493-1499 -/
def memcpy_segment (src si dst di n : Nat) : M α Unit := do
  let s ← rdSlots src
  let d ← rdSlots dst
  if n = 0 ∨ (si + n ≤ E.segMax ∧ di + n ≤ E.segMax) then
    wrSlots dst (copySlots s si d di n)
  else M.ub .oob

/-- `construct_range_segment`, seq.hpp 1366-1401 -/
def construct_range_segment (src si dst di count : Nat) : M α Unit :=
  if E.trivCopy && E.defConstruct then memcpy_segment E src si dst di count
  else do
    let _ ← range_loop (fun f t => do
      let v ← rdElem E src f
      construct_segment E dst t v
      wrElem E src f (E.moved v)
      destroy_segment E src f
      return 0) si (si + count) di 0
    return ()

/-- `construct_range_leaf`, seq.hpp 1403-1418 -/
def construct_range_leaf (src si dst di count : Nat) : M α Nat :=
  range_loop (fun f t => move_assign_leaf E src f dst t) si (si + count) di 0

/-- `construct_range_branch`, seq.hpp 1420-1435 -/
def construct_range_branch (src si dst di count : Nat) : M α Nat :=
  range_loop (fun f t => move_assign_branch E src f dst t) si (si + count) di 0

/-- `assign_forward_segment`, seq.hpp 1438-1464 -/
def assign_forward_segment (p length index distance : Nat) : M α Unit :=
  if E.trivCopy then do
    let n ← usub length index
    memcpy_segment E p index p (index + distance) n
  else forward_loop (fun f t => move_assign_segment E p f p t) index length (length + distance)

/-- `assign_forward_leaf`, seq.hpp 1466-1477 -/
def assign_forward_leaf (p length index distance : Nat) : M α Unit :=
  forward_loop (fun f t => do let _ ← move_assign_leaf E p f p t) index length (length + distance)

/-- `assign_forward_branch`, seq.hpp 1479-1490 -/
def assign_forward_branch (p length index distance : Nat) : M α Unit :=
  forward_loop (fun f t => do let _ ← move_assign_branch E p f p t) index length (length + distance)

/-- `assign_backward_segment`, seq.hpp 1493-1520 -/
def assign_backward_segment (p length index distance : Nat) : M α Unit :=
  if E.trivCopy then do
    let n ← usub length index
    memcpy_segment E p (index + distance) p index n
  else backward_loop (fun f t => move_assign_segment E p f p t) (index + distance) index length

/-- `assign_backward_leaf`, seq.hpp 1522-1533 -/
def assign_backward_leaf (p length index distance : Nat) : M α Unit :=
  backward_loop (fun f t => do let _ ← move_assign_leaf E p f p t) (index + distance) index length

/-- `assign_backward_branch`, seq.hpp 1535-1546 -/
def assign_backward_branch (p length index distance : Nat) : M α Unit :=
  backward_loop (fun f t => do let _ ← move_assign_branch E p f p t) (index + distance) index length

/-! #### update_sizes -/

/-- `update_sizes`, seq.hpp 1549-1557 -/
def update_sizes (o p index sz : Nat) : M α Unit :=
  if p ≠ 0 then do
    let s ← sizesAt E p index
    setSizes E p index (E.wadd s sz)
    let i ← pidx p
    let q ← parent p
    update_sizes o q i sz
  else do
    let s ← getSize o
    setSize o (E.wadd s sz)
partial_fixpoint

/-- `increment_sizes` (with the default `by = 1`), seq.hpp 1559-1562 -/
def increment_sizes (o p index : Nat) : M α Unit := update_sizes E o p index 1

/-- `decrement_sizes` (with the default `by = 1`), seq.hpp 1564-1567 -/
def decrement_sizes (o p index : Nat) : M α Unit := update_sizes E o p index (E.wneg 1)

/-! #### alloc_nodes_single -/

/-- `while (alloc != nullptr) {...}` in the handler, seq.hpp 1593-1597 -/
def free_chain (o alloc : Nat) : M α Unit :=
  if alloc ≠ 0 then do
    let temp ← parent alloc
    deallocate_node E o alloc
    free_chain o temp
  else pure ()
partial_fixpoint

/-- the handler of seq.hpp 1590-1599 (the `throw;` is `M.onThrow`'s) -/
def alloc_catch (o segment_alloc alloc : Nat) : M α Unit := do
  deallocate_segment E o segment_alloc
  free_chain E o alloc

/-- the loop of `alloc_nodes_single`, seq.hpp 1574-1589.  The only statements
of the `try` block that can throw are the two `allocate_node()` calls, so the
handler is attached to them. -/
def alloc_nodes_loop (o p segment_alloc alloc : Nat) : M α Nat :=
  if p = 0 then do
    let temp ← M.onThrow (allocate_node E o) (alloc_catch E o segment_alloc alloc)
    setParent temp alloc
    return temp
  else do
    let l ← len p
    if l ≠ E.baseMax then pure alloc
    else
      let temp ← M.onThrow (allocate_node E o) (alloc_catch E o segment_alloc alloc)
      setParent temp alloc
      let q ← parent p
      alloc_nodes_loop o q segment_alloc temp
partial_fixpoint

/-- `alloc_nodes_single`, seq.hpp 1570-1600 -/
def alloc_nodes_single (o p segment_alloc : Nat) : M α Nat :=
  alloc_nodes_loop E o p segment_alloc 0

/-! #### insert_single -/

/-- `insert_single_branch`, seq.hpp 1742-1807 -/
def insert_single_branch (o base p index alloc child_pointer child_size : Nat) : M α Unit :=
  if p = 0 then do
    setParent alloc 0
    setPidx alloc 0
    setLen alloc 2
    let sz ← getSize o
    let d ← usub sz child_size
    let _ ← construct_branch E alloc 0 (d + 1) base
    let _ ← construct_branch E alloc 1 child_size child_pointer
    setRoot o alloc
    let h ← getHeight o
    setHeight o (h + 1)
    let sz ← getSize o
    setSize o (E.wadd sz 1)
  else do
    let length ← len p
    let im ← usub index 1
    let s ← sizesAt E p im
    let d ← usub child_size 1
    let s ← usub s d
    setSizes E p im s
    if length ≠ E.baseMax then
      if index ≠ length then
        let lm ← usub length 1
        let _ ← move_branch E p lm p length
        assign_forward_branch E p lm index 1
        let _ ← assign_branch E p index child_size child_pointer
      else
        let _ ← construct_branch E p index child_size child_pointer
      setLen p (length + 1)
      let q ← parent p
      let i ← pidx p
      increment_sizes E o q i
    else
      let next_alloc ← parent alloc
      let sum := E.baseMax + 1
      let pointer_length := sum / 2
      let alloc_length := sum - pointer_length
      let alloc_size ←
        if index < pointer_length then do
          let left_index := pointer_length - 1
          let s1 ← move_branch E p left_index alloc 0
          let s2 ← construct_range_branch E p (left_index + 1) alloc 1 (alloc_length - 1)
          assign_forward_branch E p left_index index 1
          let _ ← assign_branch E p index child_size child_pointer
          pure (s1 + s2)
        else do
          let new_index := index - pointer_length
          let move_length ← usub length index
          let s1 ← construct_range_branch E p pointer_length alloc 0 new_index
          let s2 ← construct_range_branch E p index alloc (new_index + 1) move_length
          let s3 ← construct_branch E alloc new_index child_size child_pointer
          pure (s1 + s2 + s3)
      setLen p pointer_length
      setLen alloc alloc_length
      let i ← pidx p
      let q ← parent p
      insert_single_branch o p q (i + 1) next_alloc alloc alloc_size
partial_fixpoint

/-- `insert_single_leaf`, seq.hpp 1674-1740 -/
def insert_single_leaf (o : Nat) (entry : Entry) (base p index alloc child_pointer child_size : Nat) :
    M α Entry :=
  if p = 0 then do
    setParent alloc 0
    setPidx alloc 0
    setLen alloc 2
    let sz ← getSize o
    let d ← usub sz child_size
    let _ ← construct_leaf E alloc 0 (d + 1) base
    let _ ← construct_leaf E alloc 1 child_size child_pointer
    setRoot o alloc
    setHeight o 2
    let sz ← getSize o
    setSize o (E.wadd sz 1)
    return { entry with leaf := { entry.leaf with ptr := alloc } }
  else do
    let length ← len p
    let im ← usub index 1
    let s ← sizesAt E p im
    let d ← usub child_size 1
    let s ← usub s d
    setSizes E p im s
    if length ≠ E.baseMax then
      if index ≠ length then
        let lm ← usub length 1
        let _ ← move_leaf E p lm p length
        assign_forward_leaf E p lm index 1
        let _ ← assign_leaf E p index child_size child_pointer
      else
        let _ ← construct_leaf E p index child_size child_pointer
      setLen p (length + 1)
      let q ← parent p
      let i ← pidx p
      increment_sizes E o q i
      return entry
    else
      let next_alloc ← parent alloc
      let sum := E.baseMax + 1
      let pointer_length := sum / 2
      let alloc_length := sum - pointer_length
      let alloc_size ←
        if index < pointer_length then do
          let left_index := pointer_length - 1
          let s1 ← move_leaf E p left_index alloc 0
          let s2 ← construct_range_leaf E p (left_index + 1) alloc 1 (alloc_length - 1)
          assign_forward_leaf E p left_index index 1
          let _ ← assign_leaf E p index child_size child_pointer
          pure (s1 + s2)
        else do
          let new_index := index - pointer_length
          let move_length ← usub length index
          let s1 ← construct_range_leaf E p pointer_length alloc 0 new_index
          let s2 ← construct_range_leaf E p index alloc (new_index + 1) move_length
          let s3 ← construct_leaf E alloc new_index child_size child_pointer
          pure (s1 + s2 + s3)
      setLen p pointer_length
      setLen alloc alloc_length
      let entry :=
        if entry.leaf.idx ≥ pointer_length then
          { entry with leaf := { ptr := alloc, idx := entry.leaf.idx - pointer_length } }
        else entry
      let q ← parent p
      let i ← pidx p
      insert_single_branch E o p q (i + 1) next_alloc alloc alloc_size
      return entry

/-- `insert_single_segment`, seq.hpp 1607-1672.  The by-value parameter `value`
is move-constructed from the caller's: that construction is modelled by the
`throws` check of `insert_single_iterator` and `emplace_single`. -/
def insert_single_segment (o : Nat) (entry : Entry) (value : α) : M α Entry := do
  let pointer := entry.seg.ptr
  let index := entry.seg.idx
  let length := entry.seg.len
  let parent_pointer := entry.leaf.ptr
  let parent_index := entry.leaf.idx
  if index ≠ length ∧ length ≠ E.segMax then
    let lm ← usub length 1
    move_segment E pointer lm pointer length
    assign_forward_segment E pointer lm index 1
    assign_segment E pointer index value
    increment_sizes E o parent_pointer parent_index
    return { entry with seg := { entry.seg with len := length + 1 } }
  else if pointer = 0 then
    let alloc ← allocate_segment E o
    setRoot o alloc
    setSize o 1
    setHeight o 1
    construct_segment E alloc 0 value
    return { entry with seg := { entry.seg with ptr := alloc, len := 1 } }
  else if length ≠ E.segMax then
    construct_segment E pointer index value
    increment_sizes E o parent_pointer parent_index
    return { entry with seg := { entry.seg with len := length + 1 } }
  else
    let alloc ← allocate_segment E o
    let leaf_alloc ← alloc_nodes_single E o parent_pointer alloc
    let sum := E.segMax + 1
    let pointer_length := sum / 2
    let alloc_length := sum - pointer_length
    let entry ←
      if index < pointer_length then do
        let left_index := pointer_length - 1
        move_segment E pointer left_index alloc 0
        construct_range_segment E pointer (left_index + 1) alloc 1 (alloc_length - 1)
        assign_forward_segment E pointer left_index index 1
        assign_segment E pointer index value
        pure { entry with seg := { entry.seg with len := pointer_length } }
      else do
        let new_index := index - pointer_length
        let move_length ← usub length index
        construct_range_segment E pointer pointer_length alloc 0 new_index
        construct_range_segment E pointer index alloc (new_index + 1) move_length
        construct_segment E alloc new_index value
        pure { entry with
          seg := { ptr := alloc, idx := new_index, len := alloc_length }
          leaf := { entry.leaf with idx := entry.leaf.idx + 1 } }
    insert_single_leaf E o entry pointer parent_pointer (parent_index + 1) leaf_alloc alloc
      alloc_length

/-- `insert_single_iterator`, seq.hpp 1603-1605 -/
def insert_single_iterator (o : Nat) (it : Iter) (value : α) : M α Iter := do
  if E.throws value then M.throw .elem
  else
    let e ← insert_single_segment E o it.entry value
    return { it with entry := e }

/-! #### erase_single -/

/-- `erase_single_branch`, seq.hpp 2006-2100 -/
def erase_single_branch (o p index : Nat) : M α Unit := do
  let parent_pointer ← parent p
  let parent_index ← pidx p
  let length ← len p
  if length = 2 ∧ (E.baseMin ≠ 2 ∨ parent_pointer = 0) then
    let other ← ptrsAt E p (index ^^^ 1)
    destroy_node E p 0
    destroy_node E p 1
    deallocate_node E o p
    setRoot o other
    setParent other 0
    setPidx other 0
    let s ← getSize o
    let s ← usub s 1
    setSize o s
    let h ← getHeight o
    let h ← usub h 1
    setHeight o h
  else
    let old := length
    let length ← usub length 1
    if old ≠ E.baseMin ∨ parent_pointer = 0 then
      assign_backward_branch E p length index 1
      destroy_node E p length
      setLen p length
      decrement_sizes E o parent_pointer parent_index
    else if parent_index ≠ 0 then
      let prev_index := parent_index - 1
      let prev_pointer ← ptrsAt E parent_pointer prev_index
      let prev_length ← len prev_pointer
      if prev_length ≠ E.baseMin then
        let prev_length ← usub prev_length 1
        assign_forward_branch E p index 0 1
        let sz ← move_assign_branch E prev_pointer prev_length p 0
        destroy_node E prev_pointer prev_length
        let s ← sizesAt E parent_pointer prev_index
        let s ← usub s sz
        setSizes E parent_pointer prev_index s
        let s ← sizesAt E parent_pointer parent_index
        let d ← usub sz 1
        setSizes E parent_pointer parent_index (s + d)
        setLen prev_pointer prev_length
        let q ← parent parent_pointer
        let i ← pidx parent_pointer
        decrement_sizes E o q i
      else
        let s1 ← construct_range_branch E p 0 prev_pointer prev_length index
        let ml ← usub length index
        let s2 ← construct_range_branch E p (index + 1) prev_pointer (prev_length + index) ml
        destroy_node E p index
        deallocate_node E o p
        setLen prev_pointer (prev_length + length)
        let s ← sizesAt E parent_pointer prev_index
        setSizes E parent_pointer prev_index (s + (s1 + s2))
        erase_single_branch o parent_pointer parent_index
    else
      let next_index := parent_index + 1
      let next_pointer ← ptrsAt E parent_pointer next_index
      let next_length ← len next_pointer
      if next_length ≠ E.baseMin then
        let next_length ← usub next_length 1
        assign_backward_branch E p length index 1
        let sz ← move_assign_branch E next_pointer 0 p length
        assign_backward_branch E next_pointer next_length 0 1
        destroy_node E next_pointer next_length
        let s ← sizesAt E parent_pointer next_index
        let s ← usub s sz
        setSizes E parent_pointer next_index s
        let s ← sizesAt E parent_pointer parent_index
        let d ← usub sz 1
        setSizes E parent_pointer parent_index (s + d)
        setLen next_pointer next_length
        let q ← parent parent_pointer
        let i ← pidx parent_pointer
        decrement_sizes E o q i
      else
        assign_backward_branch E p length index 1
        let s1 ← move_assign_branch E next_pointer 0 p length
        destroy_node E next_pointer 0
        let nl ← usub next_length 1
        let s2 ← construct_range_branch E next_pointer 1 p (length + 1) nl
        deallocate_node E o next_pointer
        setLen p (length + next_length)
        let s ← sizesAt E parent_pointer parent_index
        let d ← usub (s1 + s2) 1
        setSizes E parent_pointer parent_index (s + d)
        erase_single_branch o parent_pointer next_index
partial_fixpoint

/-- `erase_single_leaf`, seq.hpp 1909-2004 -/
def erase_single_leaf (o : Nat) (entry : LeafE) (p index : Nat) : M α LeafE := do
  let parent_pointer ← parent p
  let parent_index ← pidx p
  let length ← len p
  if length = 2 ∧ (E.baseMin ≠ 2 ∨ parent_pointer = 0) then
    let other ← ptrsAt E p (index ^^^ 1)
    destroy_node E p 0
    destroy_node E p 1
    deallocate_node E o p
    setRoot o other
    let s ← getSize o
    let s ← usub s 1
    setSize o s
    setHeight o 1
    return { ptr := 0, idx := 0 }
  else
    let old := length
    let length ← usub length 1
    if old ≠ E.baseMin ∨ parent_pointer = 0 then
      assign_backward_leaf E p length index 1
      destroy_node E p length
      setLen p length
      decrement_sizes E o parent_pointer parent_index
      return entry
    else if parent_index ≠ 0 then
      let prev_index := parent_index - 1
      let prev_pointer ← ptrsAt E parent_pointer prev_index
      let prev_length ← len prev_pointer
      if prev_length ≠ E.baseMin then
        let prev_length ← usub prev_length 1
        assign_forward_leaf E p index 0 1
        let sz ← move_assign_leaf E prev_pointer prev_length p 0
        destroy_node E prev_pointer prev_length
        let s ← sizesAt E parent_pointer prev_index
        let s ← usub s sz
        setSizes E parent_pointer prev_index s
        let s ← sizesAt E parent_pointer parent_index
        let d ← usub sz 1
        setSizes E parent_pointer parent_index (s + d)
        setLen prev_pointer prev_length
        let entry := { entry with idx := entry.idx + 1 }
        let q ← parent parent_pointer
        let i ← pidx parent_pointer
        decrement_sizes E o q i
        return entry
      else
        let s1 ← construct_range_leaf E p 0 prev_pointer prev_length index
        let ml ← usub length index
        let s2 ← construct_range_leaf E p (index + 1) prev_pointer (prev_length + index) ml
        destroy_node E p index
        deallocate_node E o p
        setLen prev_pointer (prev_length + length)
        let s ← sizesAt E parent_pointer prev_index
        setSizes E parent_pointer prev_index (s + (s1 + s2))
        let entry := { ptr := prev_pointer, idx := entry.idx + prev_length }
        erase_single_branch E o parent_pointer parent_index
        return entry
    else
      let next_index := parent_index + 1
      let next_pointer ← ptrsAt E parent_pointer next_index
      let next_length ← len next_pointer
      if next_length ≠ E.baseMin then
        let next_length ← usub next_length 1
        assign_backward_leaf E p length index 1
        let sz ← move_assign_leaf E next_pointer 0 p length
        assign_backward_leaf E next_pointer next_length 0 1
        destroy_node E next_pointer next_length
        let s ← sizesAt E parent_pointer next_index
        let s ← usub s sz
        setSizes E parent_pointer next_index s
        let s ← sizesAt E parent_pointer parent_index
        let d ← usub sz 1
        setSizes E parent_pointer parent_index (s + d)
        setLen next_pointer next_length
        let q ← parent parent_pointer
        let i ← pidx parent_pointer
        decrement_sizes E o q i
        return entry
      else
        assign_backward_leaf E p length index 1
        let s1 ← move_assign_leaf E next_pointer 0 p length
        destroy_node E next_pointer 0
        let nl ← usub next_length 1
        let s2 ← construct_range_leaf E next_pointer 1 p (length + 1) nl
        deallocate_node E o next_pointer
        setLen p (length + next_length)
        let s ← sizesAt E parent_pointer parent_index
        let d ← usub (s1 + s2) 1
        setSizes E parent_pointer parent_index (s + d)
        erase_single_branch E o parent_pointer next_index
        return entry

/-- `erase_single_segment`, seq.hpp 1814-1907 -/
def erase_single_segment (o : Nat) (entry : Entry) : M α Entry := do
  let pointer := entry.seg.ptr
  let index := entry.seg.idx
  let length := entry.seg.len
  let parent_pointer := entry.leaf.ptr
  let parent_index := entry.leaf.idx
  if length = 1 ∧ (E.segMin ≠ 1 ∨ parent_pointer = 0) then
    destroy_segment E pointer 0
    deallocate_segment E o pointer
    setRoot o 0
    setSize o 0
    setHeight o 0
    return { entry with seg := { ptr := 0, idx := 0, len := 0 } }
  else
    let old := length
    let length ← usub length 1
    if old ≠ E.segMin ∨ parent_pointer = 0 then
      assign_backward_segment E pointer length index 1
      destroy_segment E pointer length
      let entry := { entry with seg := { entry.seg with len := length } }
      decrement_sizes E o parent_pointer parent_index
      return entry
    else
      let merge_size := E.segMin * 2 - 1
      if parent_index ≠ 0 then
        let prev_index := parent_index - 1
        let prev_pointer ← ptrsAt E parent_pointer prev_index
        let prev_length ← sizesAt E parent_pointer prev_index
        if prev_length ≠ E.segMin then
          let prev_length ← usub prev_length 1
          assign_forward_segment E pointer index 0 1
          move_assign_segment E prev_pointer prev_length pointer 0
          destroy_segment E prev_pointer prev_length
          setSizes E parent_pointer prev_index prev_length
          let entry := { entry with seg := { entry.seg with idx := index + 1 } }
          let q ← parent parent_pointer
          let i ← pidx parent_pointer
          decrement_sizes E o q i
          return entry
        else
          construct_range_segment E pointer 0 prev_pointer prev_length index
          let ml ← usub length index
          construct_range_segment E pointer (index + 1) prev_pointer (prev_length + index) ml
          destroy_segment E pointer index
          deallocate_segment E o pointer
          setSizes E parent_pointer prev_index merge_size
          let entry := { seg := { ptr := prev_pointer, len := merge_size, idx := index + E.segMin }
                         leaf := { entry.leaf with idx := entry.leaf.idx - 1 } : Entry }
          let l ← erase_single_leaf E o entry.leaf parent_pointer parent_index
          return { entry with leaf := l }
      else
        let next_index := parent_index + 1
        let next_pointer ← ptrsAt E parent_pointer next_index
        let next_length ← sizesAt E parent_pointer next_index
        if next_length ≠ E.segMin then
          let next_length ← usub next_length 1
          assign_backward_segment E pointer length index 1
          move_assign_segment E next_pointer 0 pointer length
          assign_backward_segment E next_pointer next_length 0 1
          destroy_segment E next_pointer next_length
          setSizes E parent_pointer next_index next_length
          let q ← parent parent_pointer
          let i ← pidx parent_pointer
          decrement_sizes E o q i
          return entry
        else
          assign_backward_segment E pointer length index 1
          move_assign_segment E next_pointer 0 pointer length
          destroy_segment E next_pointer 0
          let nl ← usub next_length 1
          construct_range_segment E next_pointer 1 pointer (length + 1) nl
          deallocate_segment E o next_pointer
          setSizes E parent_pointer parent_index merge_size
          let entry := { entry with seg := { entry.seg with len := merge_size } }
          let l ← erase_single_leaf E o entry.leaf parent_pointer next_index
          return { entry with leaf := l }

/-- `erase_single_iterator`, seq.hpp 1810-1812 -/
def erase_single_iterator (o : Nat) (it : Iter) : M α Iter := do
  let e ← erase_single_segment E o it.entry
  return { it with entry := e }

end Core
end SegTree
