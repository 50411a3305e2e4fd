/-
  GENERATED by tools/gen_cost.py: for every function of the model, in every
  memory and every configuration, the exceptions it can raise are those of the
  sources it reaches (allocation, move, copy, bounds check).
-/
import Verif.Proof.Throws
set_option autoImplicit false
set_option linter.unusedVariables false
set_option synthInstance.maxSize 2000
set_option synthInstance.maxHeartbeats 400000

namespace SegTree
variable {α β γ : Type} {E : Env α} {T : Exn → Prop}
namespace Raises

instance rdNode (p : Nat) : Raises T (SegTree.rdNode p : M α Node) := by
  refine ⟨fun m => ?_⟩
  unfold SegTree.rdNode
  try dsimp only
  repeat' first | trivial | split
instance wrNode (p : Nat) (n : Node) : Raises T (SegTree.wrNode p n : M α Unit) := by
  refine ⟨fun m => ?_⟩
  unfold SegTree.wrNode
  try dsimp only
  repeat' first | trivial | split
instance len (p : Nat) : Raises T (SegTree.len p : M α Nat) := by
  unfold SegTree.len; raises
instance setLen (p : Nat) (v : Nat) : Raises T (SegTree.setLen p v : M α Unit) := by
  unfold SegTree.setLen; raises
instance parent (p : Nat) : Raises T (SegTree.parent p : M α Nat) := by
  unfold SegTree.parent; raises
instance setParent (p : Nat) (v : Nat) : Raises T (SegTree.setParent p v : M α Unit) := by
  unfold SegTree.setParent; raises
instance pidx (p : Nat) : Raises T (SegTree.pidx p : M α Nat) := by
  unfold SegTree.pidx; raises
instance setPidx (p : Nat) (v : Nat) : Raises T (SegTree.setPidx p v : M α Unit) := by
  unfold SegTree.setPidx; raises
instance sizesAt (p : Nat) (i : Nat) : Raises T (SegTree.sizesAt E p i : M α Nat) := by
  unfold SegTree.sizesAt; raises
instance setSizes (p : Nat) (i : Nat) (v : Nat) : Raises T (SegTree.setSizes E p i v : M α Unit) := by
  unfold SegTree.setSizes; raises
instance ptrsAt (p : Nat) (i : Nat) : Raises T (SegTree.ptrsAt E p i : M α Nat) := by
  unfold SegTree.ptrsAt; raises
instance setPtrs (p : Nat) (i : Nat) (v : Nat) : Raises T (SegTree.setPtrs E p i v : M α Unit) := by
  unfold SegTree.setPtrs; raises
instance rdSlots (p : Nat) : Raises T (SegTree.rdSlots p : M α (Nat → Slot α)) := by
  refine ⟨fun m => ?_⟩
  unfold SegTree.rdSlots
  try dsimp only
  repeat' first | trivial | split
instance wrSlots (p : Nat) (s : Nat → Slot α) : Raises T (SegTree.wrSlots p s : M α Unit) := by
  refine ⟨fun m => ?_⟩
  unfold SegTree.wrSlots
  try dsimp only
  repeat' first | trivial | split
instance rdElem (p : Nat) (i : Nat) : Raises T (SegTree.rdElem E p i : M α α) := by
  unfold SegTree.rdElem; raises
instance wrElem (p : Nat) (i : Nat) (v : α) : Raises T (SegTree.wrElem E p i v : M α Unit) := by
  unfold SegTree.wrElem; raises
instance rdObj (o : Nat) : Raises T (SegTree.rdObj o : M α SeqObj) := by
  refine ⟨fun m => ?_⟩
  unfold SegTree.rdObj
  try dsimp only
  repeat' first | trivial | split
instance wrObj (o : Nat) (s : SeqObj) : Raises T (SegTree.wrObj o s : M α Unit) := by
  refine ⟨fun m => ?_⟩
  unfold SegTree.wrObj
  try dsimp only
  repeat' first | trivial | split
instance getRoot (o : Nat) : Raises T (SegTree.getRoot o : M α Nat) := by
  unfold SegTree.getRoot; raises
instance getSize (o : Nat) : Raises T (SegTree.getSize o : M α Nat) := by
  unfold SegTree.getSize; raises
instance getHeight (o : Nat) : Raises T (SegTree.getHeight o : M α Nat) := by
  unfold SegTree.getHeight; raises
instance setRoot (o : Nat) (v : Nat) : Raises T (SegTree.setRoot o v : M α Unit) := by
  unfold SegTree.setRoot; raises
instance setSize (o : Nat) (v : Nat) : Raises T (SegTree.setSize o v : M α Unit) := by
  unfold SegTree.setSize; raises
instance setHeight (o : Nat) (v : Nat) : Raises T (SegTree.setHeight o v : M α Unit) := by
  unfold SegTree.setHeight; raises
instance find_index_loop (p : Nat) (index : Nat) (size : Nat) (pos : Nat) : Raises T (SegTree.find_index_loop E p index size pos : M α (Nat × Nat)) := by
  revert index size pos
  refine SegTree.find_index_loop.fixpoint_induct E p (fun f => ∀ (index : Nat) (size : Nat) (pos : Nat), Raises T (f index size pos)) adm3 ?_
  intro f ih index size pos
  raises
instance find_index_leaf (p : Nat) (pos : Nat) : Raises T (SegTree.find_index_leaf E p pos : M α Entry) := by
  unfold SegTree.find_index_leaf; raises
instance find_index_branch (p : Nat) (ht : Nat) (pos : Nat) : Raises T (SegTree.find_index_branch E p ht pos : M α Entry) := by
  revert p ht pos
  refine SegTree.find_index_branch.fixpoint_induct E (fun f => ∀ (p : Nat) (ht : Nat) (pos : Nat), Raises T (f p ht pos)) adm3 ?_
  intro f ih p ht pos
  raises
instance find_index_node (p : Nat) (ht : Nat) (pos : Nat) : Raises T (SegTree.find_index_node E p ht pos : M α Entry) := by
  unfold SegTree.find_index_node; raises
instance find_index_root (p : Nat) (sz : Nat) (ht : Nat) (pos : Nat) : Raises T (SegTree.find_index_root E p sz ht pos : M α Iter) := by
  unfold SegTree.find_index_root; raises
instance find_first_leaf (p : Nat) : Raises T (SegTree.find_first_leaf E p : M α Entry) := by
  unfold SegTree.find_first_leaf; raises
instance find_first_branch (p : Nat) (ht : Nat) : Raises T (SegTree.find_first_branch E p ht : M α Entry) := by
  revert p ht
  refine SegTree.find_first_branch.fixpoint_induct E (fun f => ∀ (p : Nat) (ht : Nat), Raises T (f p ht)) adm2 ?_
  intro f ih p ht
  raises
instance find_first_node (p : Nat) (ht : Nat) : Raises T (SegTree.find_first_node E p ht : M α Entry) := by
  unfold SegTree.find_first_node; raises
instance find_first_root (p : Nat) (sz : Nat) (ht : Nat) : Raises T (SegTree.find_first_root E p sz ht : M α Iter) := by
  unfold SegTree.find_first_root; raises
instance find_last_segment (p : Nat) (sz : Nat) : Raises T (SegTree.find_last_segment p sz : M α SegE) := by
  unfold SegTree.find_last_segment; raises
instance find_last_leaf (p : Nat) : Raises T (SegTree.find_last_leaf E p : M α Entry) := by
  unfold SegTree.find_last_leaf; raises
instance find_last_branch (p : Nat) (ht : Nat) : Raises T (SegTree.find_last_branch E p ht : M α Entry) := by
  revert p ht
  refine SegTree.find_last_branch.fixpoint_induct E (fun f => ∀ (p : Nat) (ht : Nat), Raises T (f p ht)) adm2 ?_
  intro f ih p ht
  raises
instance find_last_node (p : Nat) (ht : Nat) : Raises T (SegTree.find_last_node E p ht : M α Entry) := by
  unfold SegTree.find_last_node; raises
instance find_last_root (p : Nat) (sz : Nat) (ht : Nat) : Raises T (SegTree.find_last_root E p sz ht : M α Iter) := by
  unfold SegTree.find_last_root; raises
instance find_end_leaf (p : Nat) : Raises T (SegTree.find_end_leaf E p : M α Entry) := by
  unfold SegTree.find_end_leaf; raises
instance find_end_branch (p : Nat) (ht : Nat) : Raises T (SegTree.find_end_branch E p ht : M α Entry) := by
  revert p ht
  refine SegTree.find_end_branch.fixpoint_induct E (fun f => ∀ (p : Nat) (ht : Nat), Raises T (f p ht)) adm2 ?_
  intro f ih p ht
  raises
instance find_end_node (p : Nat) (ht : Nat) : Raises T (SegTree.find_end_node E p ht : M α Entry) := by
  unfold SegTree.find_end_node; raises
instance find_end_root (p : Nat) (sz : Nat) (ht : Nat) : Raises T (SegTree.find_end_root E p sz ht : M α Iter) := by
  unfold SegTree.find_end_root; raises
instance move_next_branch (e : Entry) (p : Nat) (index : Nat) (child_ht : Nat) : Raises T (SegTree.move_next_branch E e p index child_ht : M α Entry) := by
  revert p index child_ht
  refine SegTree.move_next_branch.fixpoint_induct E e (fun f => ∀ (p : Nat) (index : Nat) (child_ht : Nat), Raises T (f p index child_ht)) adm3 ?_
  intro f ih p index child_ht
  raises
instance move_next_leaf (e : Entry) : Raises T (SegTree.move_next_leaf E e : M α Entry) := by
  unfold SegTree.move_next_leaf; raises
instance move_next_segment (e : Entry) : Raises T (SegTree.move_next_segment E e : M α Entry) := by
  unfold SegTree.move_next_segment; raises
instance move_next_iterator (it : Iter) : Raises T (SegTree.move_next_iterator E it : M α Iter) := by
  unfold SegTree.move_next_iterator; raises
instance move_prev_branch (p : Nat) (index : Nat) (child_ht : Nat) : Raises T (SegTree.move_prev_branch E p index child_ht : M α Entry) := by
  revert p index child_ht
  refine SegTree.move_prev_branch.fixpoint_induct E (fun f => ∀ (p : Nat) (index : Nat) (child_ht : Nat), Raises T (f p index child_ht)) adm3 ?_
  intro f ih p index child_ht
  raises
instance move_prev_leaf (e : Entry) : Raises T (SegTree.move_prev_leaf E e : M α Entry) := by
  unfold SegTree.move_prev_leaf; raises
instance move_prev_segment (e : Entry) : Raises T (SegTree.move_prev_segment E e : M α Entry) := by
  unfold SegTree.move_prev_segment; raises
instance move_prev_iterator (it : Iter) : Raises T (SegTree.move_prev_iterator E it : M α Iter) := by
  unfold SegTree.move_prev_iterator; raises
instance scan_next (p : Nat) (index : Nat) (count : Nat) : Raises T (SegTree.scan_next E p index count : M α ((Nat × Nat × Nat) ⊕ Nat)) := by
  revert index count
  refine SegTree.scan_next.fixpoint_induct E p (fun f => ∀ (index : Nat) (count : Nat), Raises T (f index count)) adm2 ?_
  intro f ih index count
  raises
instance move_next_branch_count (base : Nat) (p : Nat) (index : Nat) (count : Nat) (child_ht : Nat) : Raises T (SegTree.move_next_branch_count E base p index count child_ht : M α Entry) := by
  revert base p index count child_ht
  refine SegTree.move_next_branch_count.fixpoint_induct E (fun f => ∀ (base : Nat) (p : Nat) (index : Nat) (count : Nat) (child_ht : Nat), Raises T (f base p index count child_ht)) adm5 ?_
  intro f ih base p index count child_ht
  raises
instance move_next_leaf_count (e : Entry) (count : Nat) : Raises T (SegTree.move_next_leaf_count E e count : M α Entry) := by
  unfold SegTree.move_next_leaf_count; raises
instance move_next_segment_count (e : Entry) (count : Nat) : Raises T (SegTree.move_next_segment_count E e count : M α Entry) := by
  unfold SegTree.move_next_segment_count; raises
instance move_next_iterator_count (it : Iter) (count : Nat) : Raises T (SegTree.move_next_iterator_count E it count : M α Iter) := by
  unfold SegTree.move_next_iterator_count; raises
instance scan_prev (p : Nat) (index : Nat) (count : Nat) : Raises T (SegTree.scan_prev E p index count : M α ((Nat × Nat × Nat) ⊕ Nat)) := by
  revert index count
  refine SegTree.scan_prev.fixpoint_induct E p (fun f => ∀ (index : Nat) (count : Nat), Raises T (f index count)) adm2 ?_
  intro f ih index count
  raises
instance move_prev_branch_count (p : Nat) (index : Nat) (count : Nat) (child_ht : Nat) : Raises T (SegTree.move_prev_branch_count E p index count child_ht : M α Entry) := by
  revert p index count child_ht
  refine SegTree.move_prev_branch_count.fixpoint_induct E (fun f => ∀ (p : Nat) (index : Nat) (count : Nat) (child_ht : Nat), Raises T (f p index count child_ht)) adm4 ?_
  intro f ih p index count child_ht
  raises
instance move_prev_leaf_count (e : Entry) (count : Nat) : Raises T (SegTree.move_prev_leaf_count E e count : M α Entry) := by
  unfold SegTree.move_prev_leaf_count; raises
instance move_prev_segment_count (e : Entry) (count : Nat) : Raises T (SegTree.move_prev_segment_count E e count : M α Entry) := by
  unfold SegTree.move_prev_segment_count; raises
instance move_prev_iterator_count (it : Iter) (count : Nat) : Raises T (SegTree.move_prev_iterator_count E it count : M α Iter) := by
  unfold SegTree.move_prev_iterator_count; raises
instance move_iterator_count (it : Iter) (diff : Int) : Raises T (SegTree.move_iterator_count E it diff : M α Iter) := by
  unfold SegTree.move_iterator_count; raises
instance dereference (it : Iter) : Raises T (SegTree.dereference E it : M α α) := by
  unfold SegTree.dereference; raises
instance dereference_count (it : Iter) (diff : Int) : Raises T (SegTree.dereference_count E it diff : M α α) := by
  unfold SegTree.dereference_count; raises
instance move_after_segment (it : Iter) : Raises T (SegTree.move_after_segment E it : M α Iter) := by
  unfold SegTree.move_after_segment; raises
instance move_after_segment_count (it : Iter) (count : Nat) : Raises T (SegTree.move_after_segment_count E it count : M α Iter) := by
  unfold SegTree.move_after_segment_count; raises
instance move_before_segment (it : Iter) : Raises T (SegTree.move_before_segment E it : M α Iter) := by
  unfold SegTree.move_before_segment; raises
instance move_before_segment_count (it : Iter) (count : Nat) : Raises T (SegTree.move_before_segment_count E it count : M α Iter) := by
  unfold SegTree.move_before_segment_count; raises
instance allocate_segment (o : Nat) [OnAlloc T] : Raises T (SegTree.allocate_segment E o : M α Nat) := by
  unfold SegTree.allocate_segment; raises
instance allocNodeCell (w : Nat) [OnAlloc T] : Raises T (SegTree.allocNodeCell E w : M α Nat) := by
  exact ⟨fun m => (Raises.allocCell (E := E) (T := T) _).run m⟩
instance allocate_node (o : Nat) [OnAlloc T] : Raises T (SegTree.allocate_node E o : M α Nat) := by
  unfold SegTree.allocate_node; raises
instance destroy_segment (p : Nat) (i : Nat) : Raises T (SegTree.destroy_segment E p i : M α Unit) := by
  unfold SegTree.destroy_segment; raises
instance destroy_node (p : Nat) (i : Nat) : Raises T (SegTree.destroy_node E p i : M α Unit) := by
  unfold SegTree.destroy_node; raises
instance freeSeg (a : Nat) (p : Nat) : Raises T (SegTree.freeSeg E a p : M α Unit) := by
  refine ⟨fun m => ?_⟩
  unfold SegTree.freeSeg
  try dsimp only
  repeat' first | trivial | split
instance freeNode (a : Nat) (p : Nat) : Raises T (SegTree.freeNode a p : M α Unit) := by
  refine ⟨fun m => ?_⟩
  unfold SegTree.freeNode
  try dsimp only
  repeat' first | trivial | split
instance deallocate_segment (o : Nat) (p : Nat) : Raises T (SegTree.deallocate_segment E o p : M α Unit) := by
  unfold SegTree.deallocate_segment; raises
instance deallocate_node (o : Nat) (p : Nat) : Raises T (SegTree.deallocate_node E o p : M α Unit) := by
  unfold SegTree.deallocate_node; raises
instance purge_segment (o : Nat) (p : Nat) (sz : Nat) : Raises T (SegTree.purge_segment E o p sz : M α Unit) := by
  unfold SegTree.purge_segment; raises
theorem purge_node_r (o : Nat) : ∀ (ht p : Nat), Raises T (SegTree.purge_node E o ht p)
  | 0, _ => ub _
  | 1, _ => ub _
  | 2, p => by unfold SegTree.purge_node; raises
  | ht + 3, p => by
    have ih := purge_node_r o (ht + 2)
    unfold SegTree.purge_node; raises
instance purge_node (o ht p : Nat) : Raises T (SegTree.purge_node E o ht p) := purge_node_r o ht p
instance purge_root (o : Nat) (p : Nat) (sz : Nat) (ht : Nat) : Raises T (SegTree.purge_root E o p sz ht : M α Unit) := by
  unfold SegTree.purge_root; raises
instance purge (o : Nat) : Raises T (SegTree.purge E o : M α Unit) := by
  unfold SegTree.purge; raises
instance construct_segment (p : Nat) (i : Nat) (v : α) [OnMove E T] : Raises T (SegTree.construct_segment E p i v : M α Unit) := by
  unfold SegTree.construct_segment; raises
instance construct_leaf (p : Nat) (i : Nat) (csz : Nat) (child : Nat) : Raises T (SegTree.construct_leaf E p i csz child : M α Nat) := by
  unfold SegTree.construct_leaf; raises
instance construct_branch (p : Nat) (i : Nat) (csz : Nat) (child : Nat) : Raises T (SegTree.construct_branch E p i csz child : M α Nat) := by
  unfold SegTree.construct_branch; raises
instance assign_segment (p : Nat) (i : Nat) (v : α) [OnMove E T] : Raises T (SegTree.assign_segment E p i v : M α Unit) := by
  unfold SegTree.assign_segment; raises
instance assign_leaf (p : Nat) (i : Nat) (csz : Nat) (child : Nat) : Raises T (SegTree.assign_leaf E p i csz child : M α Nat) := by
  unfold SegTree.assign_leaf; raises
instance assign_branch (p : Nat) (i : Nat) (csz : Nat) (child : Nat) : Raises T (SegTree.assign_branch E p i csz child : M α Nat) := by
  unfold SegTree.assign_branch; raises
instance move_assign_segment (src : Nat) (si : Nat) (dst : Nat) (di : Nat) [OnMove E T] : Raises T (SegTree.move_assign_segment E src si dst di : M α Unit) := by
  unfold SegTree.move_assign_segment; raises
instance move_assign_leaf (src : Nat) (si : Nat) (dst : Nat) (di : Nat) : Raises T (SegTree.move_assign_leaf E src si dst di : M α Nat) := by
  unfold SegTree.move_assign_leaf; raises
instance move_assign_branch (src : Nat) (si : Nat) (dst : Nat) (di : Nat) : Raises T (SegTree.move_assign_branch E src si dst di : M α Nat) := by
  unfold SegTree.move_assign_branch; raises
instance move_segment (src : Nat) (si : Nat) (dst : Nat) (di : Nat) [OnMove E T] : Raises T (SegTree.move_segment E src si dst di : M α Unit) := by
  unfold SegTree.move_segment; raises
instance move_leaf (src : Nat) (si : Nat) (dst : Nat) (di : Nat) : Raises T (SegTree.move_leaf E src si dst di : M α Nat) := by
  unfold SegTree.move_leaf; raises
instance move_branch (src : Nat) (si : Nat) (dst : Nat) (di : Nat) : Raises T (SegTree.move_branch E src si dst di : M α Nat) := by
  unfold SegTree.move_branch; raises
instance memcpy_segment (src : Nat) (si : Nat) (dst : Nat) (di : Nat) (n : Nat) : Raises T (SegTree.memcpy_segment E src si dst di n : M α Unit) := by
  unfold SegTree.memcpy_segment; raises
instance construct_range_segment (src : Nat) (si : Nat) (dst : Nat) (di : Nat) (count : Nat) [OnMove E T] : Raises T (SegTree.construct_range_segment E src si dst di count : M α Unit) := by
  unfold SegTree.construct_range_segment; raises
instance construct_range_leaf (src : Nat) (si : Nat) (dst : Nat) (di : Nat) (count : Nat) : Raises T (SegTree.construct_range_leaf E src si dst di count : M α Nat) := by
  unfold SegTree.construct_range_leaf; raises
instance construct_range_branch (src : Nat) (si : Nat) (dst : Nat) (di : Nat) (count : Nat) : Raises T (SegTree.construct_range_branch E src si dst di count : M α Nat) := by
  unfold SegTree.construct_range_branch; raises
instance assign_forward_segment (p : Nat) (length : Nat) (index : Nat) (distance : Nat) [OnMove E T] : Raises T (SegTree.assign_forward_segment E p length index distance : M α Unit) := by
  unfold SegTree.assign_forward_segment; raises
instance assign_forward_leaf (p : Nat) (length : Nat) (index : Nat) (distance : Nat) : Raises T (SegTree.assign_forward_leaf E p length index distance : M α Unit) := by
  unfold SegTree.assign_forward_leaf; raises
instance assign_forward_branch (p : Nat) (length : Nat) (index : Nat) (distance : Nat) : Raises T (SegTree.assign_forward_branch E p length index distance : M α Unit) := by
  unfold SegTree.assign_forward_branch; raises
instance assign_backward_segment (p : Nat) (length : Nat) (index : Nat) (distance : Nat) [OnMove E T] : Raises T (SegTree.assign_backward_segment E p length index distance : M α Unit) := by
  unfold SegTree.assign_backward_segment; raises
instance assign_backward_leaf (p : Nat) (length : Nat) (index : Nat) (distance : Nat) : Raises T (SegTree.assign_backward_leaf E p length index distance : M α Unit) := by
  unfold SegTree.assign_backward_leaf; raises
instance assign_backward_branch (p : Nat) (length : Nat) (index : Nat) (distance : Nat) : Raises T (SegTree.assign_backward_branch E p length index distance : M α Unit) := by
  unfold SegTree.assign_backward_branch; raises
instance update_sizes (o : Nat) (p : Nat) (index : Nat) (sz : Nat) : Raises T (SegTree.update_sizes E o p index sz : M α Unit) := by
  revert p index
  refine SegTree.update_sizes.fixpoint_induct E o sz (fun f => ∀ (p : Nat) (index : Nat), Raises T (f p index)) adm2 ?_
  intro f ih p index
  raises
instance increment_sizes (o : Nat) (p : Nat) (index : Nat) : Raises T (SegTree.increment_sizes E o p index : M α Unit) := by
  unfold SegTree.increment_sizes; raises
instance decrement_sizes (o : Nat) (p : Nat) (index : Nat) : Raises T (SegTree.decrement_sizes E o p index : M α Unit) := by
  unfold SegTree.decrement_sizes; raises
instance free_chain (o : Nat) (alloc : Nat) : Raises T (SegTree.free_chain E o alloc : M α Unit) := by
  revert alloc
  refine SegTree.free_chain.fixpoint_induct E o (fun f => ∀ (alloc : Nat), Raises T (f alloc)) adm1 ?_
  intro f ih alloc
  raises
instance alloc_catch (o : Nat) (segment_alloc : Nat) (alloc : Nat) : Raises T (SegTree.alloc_catch E o segment_alloc alloc : M α Unit) := by
  unfold SegTree.alloc_catch; raises
instance alloc_nodes_loop (o : Nat) (p : Nat) (segment_alloc : Nat) (alloc : Nat) [OnAlloc T] : Raises T (SegTree.alloc_nodes_loop E o p segment_alloc alloc : M α Nat) := by
  revert p alloc
  refine SegTree.alloc_nodes_loop.fixpoint_induct E o segment_alloc (fun f => ∀ (p : Nat) (alloc : Nat), Raises T (f p alloc)) adm2 ?_
  intro f ih p alloc
  raises
instance alloc_nodes_single (o : Nat) (p : Nat) (segment_alloc : Nat) [OnAlloc T] : Raises T (SegTree.alloc_nodes_single E o p segment_alloc : M α Nat) := by
  unfold SegTree.alloc_nodes_single; raises
instance insert_single_branch (o : Nat) (base : Nat) (p : Nat) (index : Nat) (alloc : Nat) (child_pointer : Nat) (child_size : Nat) : Raises T (SegTree.insert_single_branch E o base p index alloc child_pointer child_size : M α Unit) := by
  revert base p index alloc child_pointer child_size
  refine SegTree.insert_single_branch.fixpoint_induct E o (fun f => ∀ (base : Nat) (p : Nat) (index : Nat) (alloc : Nat) (child_pointer : Nat) (child_size : Nat), Raises T (f base p index alloc child_pointer child_size)) adm6 ?_
  intro f ih base p index alloc child_pointer child_size
  raises
instance insert_single_leaf (o : Nat) (entry : Entry) (base : Nat) (p : Nat) (index : Nat) (alloc : Nat) (child_pointer : Nat) (child_size : Nat) : Raises T (SegTree.insert_single_leaf E o entry base p index alloc child_pointer child_size : M α Entry) := by
  unfold SegTree.insert_single_leaf; raises
instance insert_single_segment (o : Nat) (entry : Entry) (value : α) [OnMove E T] [OnAlloc T] : Raises T (SegTree.insert_single_segment E o entry value : M α Entry) := by
  unfold SegTree.insert_single_segment; raises
instance insert_single_iterator (o : Nat) (it : Iter) (value : α) [OnMove E T] [OnAlloc T] : Raises T (SegTree.insert_single_iterator E o it value : M α Iter) := by
  unfold SegTree.insert_single_iterator; raises
instance erase_single_branch (o : Nat) (p : Nat) (index : Nat) : Raises T (SegTree.erase_single_branch E o p index : M α Unit) := by
  revert p index
  refine SegTree.erase_single_branch.fixpoint_induct E o (fun f => ∀ (p : Nat) (index : Nat), Raises T (f p index)) adm2 ?_
  intro f ih p index
  raises
instance erase_single_leaf (o : Nat) (entry : LeafE) (p : Nat) (index : Nat) : Raises T (SegTree.erase_single_leaf E o entry p index : M α LeafE) := by
  unfold SegTree.erase_single_leaf; raises
instance erase_single_segment (o : Nat) (entry : Entry) [OnMove E T] : Raises T (SegTree.erase_single_segment E o entry : M α Entry) := by
  unfold SegTree.erase_single_segment; raises
instance erase_single_iterator (o : Nat) (it : Iter) [OnMove E T] : Raises T (SegTree.erase_single_iterator E o it : M α Iter) := by
  unfold SegTree.erase_single_iterator; raises
instance find_index (o : Nat) (pos : Nat) : Raises T (SegTree.find_index E o pos : M α Iter) := by
  unfold SegTree.find_index; raises
instance find_first (o : Nat) : Raises T (SegTree.find_first E o : M α Iter) := by
  unfold SegTree.find_first; raises
instance find_last (o : Nat) : Raises T (SegTree.find_last E o : M α Iter) := by
  unfold SegTree.find_last; raises
instance find_end (o : Nat) : Raises T (SegTree.find_end E o : M α Iter) := by
  unfold SegTree.find_end; raises
instance steal (o : Nat) (other : Nat) : Raises T (SegTree.steal o other : M α Unit) := by
  unfold SegTree.steal; raises
instance copyAssign (p : Nat) (i : Nat) (v : α) [OnCopy E T] : Raises T (SegTree.copyAssign E p i v : M α Unit) := by
  unfold SegTree.copyAssign; raises
instance moveFrom (p : Nat) (i : Nat) [OnMove E T] : Raises T (SegTree.moveFrom E p i : M α α) := by
  unfold SegTree.moveFrom; raises
instance emplace_single (o : Nat) (it : Iter) (mk : M α α) [hmk : Raises T mk] [OnMove E T] [OnAlloc T] : Raises T (SegTree.emplace_single E o it mk : M α Iter) := by
  unfold SegTree.emplace_single; raises
instance emplace_count_loop (o : Nat) (mk : M α α) (n : Nat) (it : Iter) [Raises T mk] [OnMove E T] [OnAlloc T] :
    Raises T (SegTree.emplace_count_loop E o mk n it) := by
  induction n generalizing it with
  | zero => exact pure _
  | succ n ih => unfold SegTree.emplace_count_loop; raises
instance emplace_count (o : Nat) (it : Iter) (count : Nat) (mk : M α α) [hmk : Raises T mk] [OnMove E T] [OnAlloc T] : Raises T (SegTree.emplace_count E o it count mk : M α Iter) := by
  unfold SegTree.emplace_count; raises
instance emplace_range_loop {σ : Type} (S : Src α σ) [hrS : ∀ s, Raises T (S.read s)] [hnS : ∀ s, Raises T (S.next s)] (o : Nat) (it : Iter) (first : σ) (count : Nat) [OnMove E T] [OnAlloc T] : Raises T (SegTree.emplace_range_loop E S o it first count : M α (Iter × Nat)) := by
  revert it first count
  refine SegTree.emplace_range_loop.fixpoint_induct E S o (fun f => ∀ (it : Iter) (first : σ) (count : Nat), Raises T (f it first count)) adm3 ?_
  intro f ih it first count
  raises
instance emplace_range {σ : Type} (S : Src α σ) [hrS : ∀ s, Raises T (S.read s)] [hnS : ∀ s, Raises T (S.next s)] (o : Nat) (it : Iter) (first : σ) [OnMove E T] [OnAlloc T] : Raises T (SegTree.emplace_range E S o it first : M α Iter) := by
  unfold SegTree.emplace_range; raises
instance listSrc_read  (l : List α) [OnCopy E T] : Raises T ((SegTree.listSrc E ).read l) := by
  cases l <;> (simp only [SegTree.listSrc]; raises)
instance listSrc_next  (l : List α) [OnCopy E T] : Raises T ((SegTree.listSrc E ).next l) := by
  cases l <;> (simp only [SegTree.listSrc]; raises)
instance copySrc_read (last : Iter) (it : Iter) [OnCopy E T] : Raises T ((SegTree.copySrc E last).read it) := by
  simp only [SegTree.copySrc]; raises
instance copySrc_next (last : Iter) (it : Iter) [OnCopy E T] : Raises T ((SegTree.copySrc E last).next it) := by
  simp only [SegTree.copySrc]; raises
instance moveSrc_read (last : Iter) (it : Iter) [OnMove E T] : Raises T ((SegTree.moveSrc E last).read it) := by
  simp only [SegTree.moveSrc]; raises
instance moveSrc_next (last : Iter) (it : Iter) [OnMove E T] : Raises T ((SegTree.moveSrc E last).next it) := by
  simp only [SegTree.moveSrc]; raises
instance erase_single (o : Nat) (it : Iter) [OnMove E T] : Raises T (SegTree.erase_single E o it : M α Iter) := by
  unfold SegTree.erase_single; raises
instance erase_range (o : Nat) (first : Iter) (last : Iter) [OnMove E T] : Raises T (SegTree.erase_range E o first last : M α Iter) := by
  revert last
  refine SegTree.erase_range.fixpoint_induct E o first (fun f => ∀ (last : Iter), Raises T (f last)) adm1 ?_
  intro f ih last
  raises
instance assign_count_loop (o : Nat) (src : M α α) [hsrc : Raises T src] (count : Nat) (first : Iter) (last : Iter) [OnMove E T] [OnCopy E T] [OnAlloc T] : Raises T (SegTree.assign_count_loop E o src count first last : M α Unit) := by
  revert count first
  refine SegTree.assign_count_loop.fixpoint_induct E o src last (fun f => ∀ (count : Nat) (first : Iter), Raises T (f count first)) adm2 ?_
  intro f ih count first
  raises
instance assign_count (o : Nat) (count : Nat) (src : M α α) [hsrc : Raises T src] [OnMove E T] [OnCopy E T] [OnAlloc T] : Raises T (SegTree.assign_count E o count src : M α Unit) := by
  unfold SegTree.assign_count; raises
instance assign_range_loop {σ : Type} (S : Src α σ) [hrS : ∀ s, Raises T (S.read s)] [hnS : ∀ s, Raises T (S.next s)] (o : Nat) (source : σ) (first : Iter) (last : Iter) [OnMove E T] [OnAlloc T] : Raises T (SegTree.assign_range_loop E S o source first last : M α Unit) := by
  revert source first
  refine SegTree.assign_range_loop.fixpoint_induct E S o last (fun f => ∀ (source : σ) (first : Iter), Raises T (f source first)) adm2 ?_
  intro f ih source first
  raises
instance assign_range {σ : Type} (S : Src α σ) [hrS : ∀ s, Raises T (S.read s)] [hnS : ∀ s, Raises T (S.next s)] (o : Nat) (source : σ) [OnMove E T] [OnAlloc T] : Raises T (SegTree.assign_range E S o source : M α Unit) := by
  unfold SegTree.assign_range; raises
instance resize_count (o : Nat) (count : Nat) (mk : M α α) [hmk : Raises T mk] [OnMove E T] [OnAlloc T] : Raises T (SegTree.resize_count E o count mk : M α Unit) := by
  unfold SegTree.resize_count; raises
instance clear (o : Nat) : Raises T (SegTree.clear E o : M α Unit) := by
  unfold SegTree.clear; raises
instance copy_assign_alloc (o : Nat) (other : Nat) : Raises T (SegTree.copy_assign_alloc E o other : M α Unit) := by
  unfold SegTree.copy_assign_alloc; raises
instance move_assign_alloc (o : Nat) (other : Nat) : Raises T (SegTree.move_assign_alloc E o other : M α Unit) := by
  unfold SegTree.move_assign_alloc; raises
instance move_assign_steal (o : Nat) (other : Nat) : Raises T (SegTree.move_assign_steal E o other : M α Unit) := by
  unfold SegTree.move_assign_steal; raises
instance move_assign (o : Nat) (other : Nat) [OnMove E T] [OnAlloc T] : Raises T (SegTree.move_assign E o other : M α Unit) := by
  unfold SegTree.move_assign; raises
instance ctor (o : Nat) (alloc : Nat) : Raises T (SegTree.ctor o alloc : M α Unit) := by
  refine ⟨fun m => ?_⟩
  unfold SegTree.ctor
  try dsimp only
  repeat' first | trivial | split
instance dropObj (o : Nat) : Raises T (SegTree.dropObj o : M α Unit) := by
  refine ⟨fun m => ?_⟩
  unfold SegTree.dropObj
  try dsimp only
  repeat' first | trivial | split
instance dtor (o : Nat) : Raises T (SegTree.dtor E o : M α Unit) := by
  unfold SegTree.dtor; raises
instance delegating (o : Nat) (alloc : Nat) (body : M α Unit) [hbody : Raises T body] : Raises T (SegTree.delegating E o alloc body : M α Unit) := by
  unfold SegTree.delegating; raises
instance ctor_count (o : Nat) (alloc : Nat) (count : Nat) (mk : M α α) [hmk : Raises T mk] [OnMove E T] [OnAlloc T] : Raises T (SegTree.ctor_count E o alloc count mk : M α Unit) := by
  unfold SegTree.ctor_count; raises
instance ctor_range {σ : Type} (S : Src α σ) [hrS : ∀ s, Raises T (S.read s)] [hnS : ∀ s, Raises T (S.next s)] (o : Nat) (alloc : Nat) (first : σ) [OnMove E T] [OnAlloc T] : Raises T (SegTree.ctor_range E S o alloc first : M α Unit) := by
  unfold SegTree.ctor_range; raises
instance ctor_copy_alloc (o : Nat) (other : Nat) (alloc : Nat) [OnMove E T] [OnCopy E T] [OnAlloc T] : Raises T (SegTree.ctor_copy_alloc E o other alloc : M α Unit) := by
  unfold SegTree.ctor_copy_alloc; raises
instance ctor_copy (o : Nat) (other : Nat) [OnMove E T] [OnCopy E T] [OnAlloc T] : Raises T (SegTree.ctor_copy E o other : M α Unit) := by
  unfold SegTree.ctor_copy; raises
instance ctor_move (o : Nat) (other : Nat) : Raises T (SegTree.ctor_move o other : M α Unit) := by
  unfold SegTree.ctor_move; raises
instance ctor_move_alloc (o : Nat) (other : Nat) (alloc : Nat) [OnMove E T] [OnAlloc T] : Raises T (SegTree.ctor_move_alloc E o other alloc : M α Unit) := by
  unfold SegTree.ctor_move_alloc; raises
instance assign_copy (o : Nat) (other : Nat) [OnMove E T] [OnCopy E T] [OnAlloc T] : Raises T (SegTree.assign_copy E o other : M α Unit) := by
  unfold SegTree.assign_copy; raises
instance assign_move (o : Nat) (other : Nat) [OnMove E T] [OnAlloc T] : Raises T (SegTree.assign_move E o other : M α Unit) := by
  unfold SegTree.assign_move; raises
instance assign_list (o : Nat) (vs : List α) [OnMove E T] [OnCopy E T] [OnAlloc T] : Raises T (SegTree.assign_list E o vs : M α Unit) := by
  unfold SegTree.assign_list; raises
instance assign_fill (o : Nat) (count : Nat) (v : α) [OnMove E T] [OnCopy E T] [OnAlloc T] : Raises T (SegTree.assign_fill E o count v : M α Unit) := by
  unfold SegTree.assign_fill; raises
instance at_ (o : Nat) (pos : Nat) [OnRange T] : Raises T (SegTree.at_ E o pos : M α α) := by
  unfold SegTree.at_; raises
instance index_op (o : Nat) (pos : Nat) : Raises T (SegTree.index_op E o pos : M α α) := by
  unfold SegTree.index_op; raises
instance index_set (o : Nat) (pos : Nat) (v : α) [OnCopy E T] : Raises T (SegTree.index_set E o pos v : M α Unit) := by
  unfold SegTree.index_set; raises
instance deref_set (it : Iter) (v : α) [OnCopy E T] : Raises T (SegTree.deref_set E it v : M α Unit) := by
  unfold SegTree.deref_set; raises
instance deref_set_rv (it : Iter) (v : α) [OnMove E T] : Raises T (SegTree.deref_set_rv E it v : M α Unit) := by
  unfold SegTree.deref_set_rv; raises
instance front (o : Nat) : Raises T (SegTree.front E o : M α α) := by
  unfold SegTree.front; raises
instance back (o : Nat) : Raises T (SegTree.back E o : M α α) := by
  unfold SegTree.back; raises
instance begin_ (o : Nat) : Raises T (SegTree.begin_ E o : M α Iter) := by
  unfold SegTree.begin_; raises
instance penultimate (o : Nat) : Raises T (SegTree.penultimate E o : M α Iter) := by
  unfold SegTree.penultimate; raises
instance end_ (o : Nat) : Raises T (SegTree.end_ E o : M α Iter) := by
  unfold SegTree.end_; raises
instance rev_deref (it : Iter) : Raises T (SegTree.rev_deref E it : M α α) := by
  unfold SegTree.rev_deref; raises
instance nth (o : Nat) (pos : Nat) : Raises T (SegTree.nth E o pos : M α Iter) := by
  unfold SegTree.nth; raises
instance empty (o : Nat) : Raises T (SegTree.empty o : M α Bool) := by
  unfold SegTree.empty; raises
instance size (o : Nat) : Raises T (SegTree.size o : M α Nat) := by
  unfold SegTree.size; raises
instance height (o : Nat) : Raises T (SegTree.height o : M α Nat) := by
  unfold SegTree.height; raises
instance get_allocator (o : Nat) : Raises T (SegTree.get_allocator o : M α Nat) := by
  unfold SegTree.get_allocator; raises
instance insert (o : Nat) (it : Iter) (v : α) [OnMove E T] [OnCopy E T] [OnAlloc T] : Raises T (SegTree.insert E o it v : M α Iter) := by
  unfold SegTree.insert; raises
instance insert_rv (o : Nat) (it : Iter) (v : α) [OnMove E T] [OnAlloc T] : Raises T (SegTree.insert_rv E o it v : M α Iter) := by
  unfold SegTree.insert_rv; raises
instance insert_alias (o : Nat) (it : Iter) (src : Iter) [OnMove E T] [OnCopy E T] [OnAlloc T] : Raises T (SegTree.insert_alias E o it src : M α Iter) := by
  unfold SegTree.insert_alias; raises
instance insert_fill (o : Nat) (it : Iter) (count : Nat) (v : α) [OnMove E T] [OnCopy E T] [OnAlloc T] : Raises T (SegTree.insert_fill E o it count v : M α Iter) := by
  unfold SegTree.insert_fill; raises
instance insert_fill_alias (o : Nat) (it : Iter) (count : Nat) (src : Iter) [OnMove E T] [OnCopy E T] [OnAlloc T] : Raises T (SegTree.insert_fill_alias E o it count src : M α Iter) := by
  unfold SegTree.insert_fill_alias; raises
instance insert_list (o : Nat) (it : Iter) (vs : List α) [OnMove E T] [OnCopy E T] [OnAlloc T] : Raises T (SegTree.insert_list E o it vs : M α Iter) := by
  unfold SegTree.insert_list; raises
instance erase (o : Nat) (it : Iter) [OnMove E T] : Raises T (SegTree.erase E o it : M α Iter) := by
  unfold SegTree.erase; raises
instance erase_rng (o : Nat) (first : Iter) (last : Iter) [OnMove E T] : Raises T (SegTree.erase_rng E o first last : M α Iter) := by
  unfold SegTree.erase_rng; raises
instance push_back (o : Nat) (v : α) [OnMove E T] [OnCopy E T] [OnAlloc T] : Raises T (SegTree.push_back E o v : M α Unit) := by
  unfold SegTree.push_back; raises
instance push_back_rv (o : Nat) (v : α) [OnMove E T] [OnAlloc T] : Raises T (SegTree.push_back_rv E o v : M α Unit) := by
  unfold SegTree.push_back_rv; raises
instance pop_back (o : Nat) [OnMove E T] : Raises T (SegTree.pop_back E o : M α Unit) := by
  unfold SegTree.pop_back; raises
instance push_front (o : Nat) (v : α) [OnMove E T] [OnCopy E T] [OnAlloc T] : Raises T (SegTree.push_front E o v : M α Unit) := by
  unfold SegTree.push_front; raises
instance push_front_rv (o : Nat) (v : α) [OnMove E T] [OnAlloc T] : Raises T (SegTree.push_front_rv E o v : M α Unit) := by
  unfold SegTree.push_front_rv; raises
instance pop_front (o : Nat) [OnMove E T] : Raises T (SegTree.pop_front E o : M α Unit) := by
  unfold SegTree.pop_front; raises
instance resize (o : Nat) (count : Nat) (v : α) [OnMove E T] [OnCopy E T] [OnAlloc T] : Raises T (SegTree.resize E o count v : M α Unit) := by
  unfold SegTree.resize; raises
instance swap (o : Nat) (other : Nat) : Raises T (SegTree.swap E o other : M α Unit) := by
  unfold SegTree.swap; raises
instance splice (o : Nat) (pos : Iter) (other : Nat) [OnMove E T] [OnAlloc T] : Raises T (SegTree.splice E o pos other : M α Unit) := by
  unfold SegTree.splice; raises
instance splice_one (o : Nat) (pos : Iter) (other : Nat) (it : Iter) [OnMove E T] [OnCopy E T] [OnAlloc T] : Raises T (SegTree.splice_one E o pos other it : M α Unit) := by
  unfold SegTree.splice_one; raises
instance splice_range (o : Nat) (pos : Iter) (other : Nat) (first : Iter) (last : Iter) [OnMove E T] [OnAlloc T] : Raises T (SegTree.splice_range E o pos other first last : M α Unit) := by
  unfold SegTree.splice_range; raises
instance std_find_if (p : α → Bool) (first : Iter) (last : Iter) : Raises T (SegTree.std_find_if E p first last : M α Iter) := by
  revert first
  refine SegTree.std_find_if.fixpoint_induct E p last (fun f => ∀ (first : Iter), Raises T (f first)) adm1 ?_
  intro f ih first
  raises
instance iter_move_assign (src : Iter) (dst : Iter) [OnMove E T] : Raises T (SegTree.iter_move_assign E src dst : M α Unit) := by
  unfold SegTree.iter_move_assign; raises
instance std_remove_loop (p : α → Bool) (first : Iter) (i : Iter) (last : Iter) [OnMove E T] : Raises T (SegTree.std_remove_loop E p first i last : M α Iter) := by
  revert first i
  refine SegTree.std_remove_loop.fixpoint_induct E p last (fun f => ∀ (first : Iter) (i : Iter), Raises T (f first i)) adm2 ?_
  intro f ih first i
  raises
instance std_remove_if (p : α → Bool) (first : Iter) (last : Iter) [OnMove E T] : Raises T (SegTree.std_remove_if E p first last : M α Iter) := by
  unfold SegTree.std_remove_if; raises
instance remove_if (o : Nat) (p : α → Bool) [OnMove E T] : Raises T (SegTree.remove_if E o p : M α Unit) := by
  unfold SegTree.remove_if; raises
instance remove (o : Nat) (eq : α → α → Bool) (v : α) [OnMove E T] : Raises T (SegTree.remove E o eq v : M α Unit) := by
  unfold SegTree.remove; raises
instance iter_swap (a : Iter) (b : Iter) [OnMove E T] : Raises T (SegTree.iter_swap E a b : M α Unit) := by
  unfold SegTree.iter_swap; raises
instance std_reverse_loop (first : Iter) (last : Iter) [OnMove E T] : Raises T (SegTree.std_reverse_loop E first last : M α Unit) := by
  revert first last
  refine SegTree.std_reverse_loop.fixpoint_induct E (fun f => ∀ (first : Iter) (last : Iter), Raises T (f first last)) adm2 ?_
  intro f ih first last
  raises
instance std_reverse (first : Iter) (last : Iter) [OnMove E T] : Raises T (SegTree.std_reverse E first last : M α Unit) := by
  unfold SegTree.std_reverse; raises
instance reverse (o : Nat) [OnMove E T] : Raises T (SegTree.reverse E o : M α Unit) := by
  unfold SegTree.reverse; raises
instance std_unique_loop (p : α → α → Bool) (result : Iter) (first : Iter) (last : Iter) [OnMove E T] : Raises T (SegTree.std_unique_loop E p result first last : M α Iter) := by
  revert result first
  refine SegTree.std_unique_loop.fixpoint_induct E p last (fun f => ∀ (result : Iter) (first : Iter), Raises T (f result first)) adm2 ?_
  intro f ih result first
  raises
instance std_unique (p : α → α → Bool) (first : Iter) (last : Iter) [OnMove E T] : Raises T (SegTree.std_unique E p first last : M α Iter) := by
  unfold SegTree.std_unique; raises
instance unique (o : Nat) (p : α → α → Bool) [OnMove E T] : Raises T (SegTree.unique E o p : M α Unit) := by
  unfold SegTree.unique; raises
instance std_equal (eq : α → α → Bool) (first1 : Iter) (last1 : Iter) (first2 : Iter) : Raises T (SegTree.std_equal E eq first1 last1 first2 : M α Bool) := by
  revert first1 first2
  refine SegTree.std_equal.fixpoint_induct E eq last1 (fun f => ∀ (first1 : Iter) (first2 : Iter), Raises T (f first1 first2)) adm2 ?_
  intro f ih first1 first2
  raises
instance op_eq (eq : α → α → Bool) (a : Nat) (b : Nat) : Raises T (SegTree.op_eq E eq a b : M α Bool) := by
  unfold SegTree.op_eq; raises
instance op_ne (eq : α → α → Bool) (a : Nat) (b : Nat) : Raises T (SegTree.op_ne E eq a b : M α Bool) := by
  unfold SegTree.op_ne; raises
instance std_lex (lt : α → α → Bool) (first1 : Iter) (last1 : Iter) (first2 : Iter) (last2 : Iter) : Raises T (SegTree.std_lex E lt first1 last1 first2 last2 : M α Bool) := by
  revert first1 first2
  refine SegTree.std_lex.fixpoint_induct E lt last1 last2 (fun f => ∀ (first1 : Iter) (first2 : Iter), Raises T (f first1 first2)) adm2 ?_
  intro f ih first1 first2
  raises
instance op_lt (lt : α → α → Bool) (a : Nat) (b : Nat) : Raises T (SegTree.op_lt E lt a b : M α Bool) := by
  unfold SegTree.op_lt; raises
instance op_le (lt : α → α → Bool) (a : Nat) (b : Nat) : Raises T (SegTree.op_le E lt a b : M α Bool) := by
  unfold SegTree.op_le; raises
instance op_gt (lt : α → α → Bool) (a : Nat) (b : Nat) : Raises T (SegTree.op_gt E lt a b : M α Bool) := by
  unfold SegTree.op_gt; raises
instance op_ge (lt : α → α → Bool) (a : Nat) (b : Nat) : Raises T (SegTree.op_ge E lt a b : M α Bool) := by
  unfold SegTree.op_ge; raises
instance it_add (it : Iter) (d : Int) : Raises T (SegTree.it_add E it d : M α Iter) := by
  unfold SegTree.it_add; raises
instance it_sub (it : Iter) (d : Int) : Raises T (SegTree.it_sub E it d : M α Iter) := by
  unfold SegTree.it_sub; raises
instance it_index (it : Iter) (d : Int) : Raises T (SegTree.it_index E it d : M α α) := by
  unfold SegTree.it_index; raises

end Raises
end SegTree
