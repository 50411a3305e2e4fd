/-
  GENERATED by tools/gen_cost.py: for every function of the model, in every
  memory and every configuration, the memory before and after it are related by
  any relation that holds of the copies, moves, requests and checks it makes.
-/
import Verif.Proof.Traced
set_option autoImplicit false
set_option linter.unusedVariables false
set_option synthInstance.maxSize 2000
set_option synthInstance.maxHeartbeats 400000

namespace SegTree
variable {α β γ : Type} {E : Env α} {P : Proto α}
namespace Traced

instance rdNode (p : Nat) : Traced P (SegTree.rdNode p : M α Node) := by
  refine ⟨fun m => ?_⟩
  unfold SegTree.rdNode
  try dsimp only
  repeat' first | trivial | exact P.frame ⟨rfl, rfl⟩ | split
instance wrNode (p : Nat) (n : Node) : Traced P (SegTree.wrNode p n : M α Unit) := by
  refine ⟨fun m => ?_⟩
  unfold SegTree.wrNode
  try dsimp only
  repeat' first | trivial | exact P.frame ⟨rfl, rfl⟩ | split
instance len (p : Nat) : Traced P (SegTree.len p : M α Nat) := by
  unfold SegTree.len; traced
instance setLen (p : Nat) (v : Nat) : Traced P (SegTree.setLen p v : M α Unit) := by
  unfold SegTree.setLen; traced
instance parent (p : Nat) : Traced P (SegTree.parent p : M α Nat) := by
  unfold SegTree.parent; traced
instance setParent (p : Nat) (v : Nat) : Traced P (SegTree.setParent p v : M α Unit) := by
  unfold SegTree.setParent; traced
instance pidx (p : Nat) : Traced P (SegTree.pidx p : M α Nat) := by
  unfold SegTree.pidx; traced
instance setPidx (p : Nat) (v : Nat) : Traced P (SegTree.setPidx p v : M α Unit) := by
  unfold SegTree.setPidx; traced
instance sizesAt (p : Nat) (i : Nat) : Traced P (SegTree.sizesAt E p i : M α Nat) := by
  unfold SegTree.sizesAt; traced
instance setSizes (p : Nat) (i : Nat) (v : Nat) : Traced P (SegTree.setSizes E p i v : M α Unit) := by
  unfold SegTree.setSizes; traced
instance ptrsAt (p : Nat) (i : Nat) : Traced P (SegTree.ptrsAt E p i : M α Nat) := by
  unfold SegTree.ptrsAt; traced
instance setPtrs (p : Nat) (i : Nat) (v : Nat) : Traced P (SegTree.setPtrs E p i v : M α Unit) := by
  unfold SegTree.setPtrs; traced
instance rdSlots (p : Nat) : Traced P (SegTree.rdSlots p : M α (Nat → Slot α)) := by
  refine ⟨fun m => ?_⟩
  unfold SegTree.rdSlots
  try dsimp only
  repeat' first | trivial | exact P.frame ⟨rfl, rfl⟩ | split
instance wrSlots (p : Nat) (s : Nat → Slot α) : Traced P (SegTree.wrSlots p s : M α Unit) := by
  refine ⟨fun m => ?_⟩
  unfold SegTree.wrSlots
  try dsimp only
  repeat' first | trivial | exact P.frame ⟨rfl, rfl⟩ | split
instance rdElem (p : Nat) (i : Nat) : Traced P (SegTree.rdElem E p i : M α α) := by
  unfold SegTree.rdElem; traced
instance wrElem (p : Nat) (i : Nat) (v : α) : Traced P (SegTree.wrElem E p i v : M α Unit) := by
  unfold SegTree.wrElem; traced
instance rdObj (o : Nat) : Traced P (SegTree.rdObj o : M α SeqObj) := by
  refine ⟨fun m => ?_⟩
  unfold SegTree.rdObj
  try dsimp only
  repeat' first | trivial | exact P.frame ⟨rfl, rfl⟩ | split
instance wrObj (o : Nat) (s : SeqObj) : Traced P (SegTree.wrObj o s : M α Unit) := by
  refine ⟨fun m => ?_⟩
  unfold SegTree.wrObj
  try dsimp only
  repeat' first | trivial | exact P.frame ⟨rfl, rfl⟩ | split
instance getRoot (o : Nat) : Traced P (SegTree.getRoot o : M α Nat) := by
  unfold SegTree.getRoot; traced
instance getSize (o : Nat) : Traced P (SegTree.getSize o : M α Nat) := by
  unfold SegTree.getSize; traced
instance getHeight (o : Nat) : Traced P (SegTree.getHeight o : M α Nat) := by
  unfold SegTree.getHeight; traced
instance setRoot (o : Nat) (v : Nat) : Traced P (SegTree.setRoot o v : M α Unit) := by
  unfold SegTree.setRoot; traced
instance setSize (o : Nat) (v : Nat) : Traced P (SegTree.setSize o v : M α Unit) := by
  unfold SegTree.setSize; traced
instance setHeight (o : Nat) (v : Nat) : Traced P (SegTree.setHeight o v : M α Unit) := by
  unfold SegTree.setHeight; traced
instance find_index_loop (p : Nat) (index : Nat) (size : Nat) (pos : Nat) : Traced P (SegTree.find_index_loop E p index size pos : M α (Nat × Nat)) := by
  revert index size pos
  refine SegTree.find_index_loop.fixpoint_induct E p (fun f => ∀ (index : Nat) (size : Nat) (pos : Nat), Traced P (f index size pos)) adm3 ?_
  intro f ih index size pos
  traced
instance find_index_leaf (p : Nat) (pos : Nat) : Traced P (SegTree.find_index_leaf E p pos : M α Entry) := by
  unfold SegTree.find_index_leaf; traced
instance find_index_branch (p : Nat) (ht : Nat) (pos : Nat) : Traced P (SegTree.find_index_branch E p ht pos : M α Entry) := by
  revert p ht pos
  refine SegTree.find_index_branch.fixpoint_induct E (fun f => ∀ (p : Nat) (ht : Nat) (pos : Nat), Traced P (f p ht pos)) adm3 ?_
  intro f ih p ht pos
  traced
instance find_index_node (p : Nat) (ht : Nat) (pos : Nat) : Traced P (SegTree.find_index_node E p ht pos : M α Entry) := by
  unfold SegTree.find_index_node; traced
instance find_index_root (p : Nat) (sz : Nat) (ht : Nat) (pos : Nat) : Traced P (SegTree.find_index_root E p sz ht pos : M α Iter) := by
  unfold SegTree.find_index_root; traced
instance find_first_leaf (p : Nat) : Traced P (SegTree.find_first_leaf E p : M α Entry) := by
  unfold SegTree.find_first_leaf; traced
instance find_first_branch (p : Nat) (ht : Nat) : Traced P (SegTree.find_first_branch E p ht : M α Entry) := by
  revert p ht
  refine SegTree.find_first_branch.fixpoint_induct E (fun f => ∀ (p : Nat) (ht : Nat), Traced P (f p ht)) adm2 ?_
  intro f ih p ht
  traced
instance find_first_node (p : Nat) (ht : Nat) : Traced P (SegTree.find_first_node E p ht : M α Entry) := by
  unfold SegTree.find_first_node; traced
instance find_first_root (p : Nat) (sz : Nat) (ht : Nat) : Traced P (SegTree.find_first_root E p sz ht : M α Iter) := by
  unfold SegTree.find_first_root; traced
instance find_last_segment (p : Nat) (sz : Nat) : Traced P (SegTree.find_last_segment p sz : M α SegE) := by
  unfold SegTree.find_last_segment; traced
instance find_last_leaf (p : Nat) : Traced P (SegTree.find_last_leaf E p : M α Entry) := by
  unfold SegTree.find_last_leaf; traced
instance find_last_branch (p : Nat) (ht : Nat) : Traced P (SegTree.find_last_branch E p ht : M α Entry) := by
  revert p ht
  refine SegTree.find_last_branch.fixpoint_induct E (fun f => ∀ (p : Nat) (ht : Nat), Traced P (f p ht)) adm2 ?_
  intro f ih p ht
  traced
instance find_last_node (p : Nat) (ht : Nat) : Traced P (SegTree.find_last_node E p ht : M α Entry) := by
  unfold SegTree.find_last_node; traced
instance find_last_root (p : Nat) (sz : Nat) (ht : Nat) : Traced P (SegTree.find_last_root E p sz ht : M α Iter) := by
  unfold SegTree.find_last_root; traced
instance find_end_leaf (p : Nat) : Traced P (SegTree.find_end_leaf E p : M α Entry) := by
  unfold SegTree.find_end_leaf; traced
instance find_end_branch (p : Nat) (ht : Nat) : Traced P (SegTree.find_end_branch E p ht : M α Entry) := by
  revert p ht
  refine SegTree.find_end_branch.fixpoint_induct E (fun f => ∀ (p : Nat) (ht : Nat), Traced P (f p ht)) adm2 ?_
  intro f ih p ht
  traced
instance find_end_node (p : Nat) (ht : Nat) : Traced P (SegTree.find_end_node E p ht : M α Entry) := by
  unfold SegTree.find_end_node; traced
instance find_end_root (p : Nat) (sz : Nat) (ht : Nat) : Traced P (SegTree.find_end_root E p sz ht : M α Iter) := by
  unfold SegTree.find_end_root; traced
instance move_next_branch (e : Entry) (p : Nat) (index : Nat) (child_ht : Nat) : Traced P (SegTree.move_next_branch E e p index child_ht : M α Entry) := by
  revert p index child_ht
  refine SegTree.move_next_branch.fixpoint_induct E e (fun f => ∀ (p : Nat) (index : Nat) (child_ht : Nat), Traced P (f p index child_ht)) adm3 ?_
  intro f ih p index child_ht
  traced
instance move_next_leaf (e : Entry) : Traced P (SegTree.move_next_leaf E e : M α Entry) := by
  unfold SegTree.move_next_leaf; traced
instance move_next_segment (e : Entry) : Traced P (SegTree.move_next_segment E e : M α Entry) := by
  unfold SegTree.move_next_segment; traced
instance move_next_iterator (it : Iter) : Traced P (SegTree.move_next_iterator E it : M α Iter) := by
  unfold SegTree.move_next_iterator; traced
instance move_prev_branch (p : Nat) (index : Nat) (child_ht : Nat) : Traced P (SegTree.move_prev_branch E p index child_ht : M α Entry) := by
  revert p index child_ht
  refine SegTree.move_prev_branch.fixpoint_induct E (fun f => ∀ (p : Nat) (index : Nat) (child_ht : Nat), Traced P (f p index child_ht)) adm3 ?_
  intro f ih p index child_ht
  traced
instance move_prev_leaf (e : Entry) : Traced P (SegTree.move_prev_leaf E e : M α Entry) := by
  unfold SegTree.move_prev_leaf; traced
instance move_prev_segment (e : Entry) : Traced P (SegTree.move_prev_segment E e : M α Entry) := by
  unfold SegTree.move_prev_segment; traced
instance move_prev_iterator (it : Iter) : Traced P (SegTree.move_prev_iterator E it : M α Iter) := by
  unfold SegTree.move_prev_iterator; traced
instance scan_next (p : Nat) (index : Nat) (count : Nat) : Traced P (SegTree.scan_next E p index count : M α ((Nat × Nat × Nat) ⊕ Nat)) := by
  revert index count
  refine SegTree.scan_next.fixpoint_induct E p (fun f => ∀ (index : Nat) (count : Nat), Traced P (f index count)) adm2 ?_
  intro f ih index count
  traced
instance move_next_branch_count (base : Nat) (p : Nat) (index : Nat) (count : Nat) (child_ht : Nat) : Traced P (SegTree.move_next_branch_count E base p index count child_ht : M α Entry) := by
  revert base p index count child_ht
  refine SegTree.move_next_branch_count.fixpoint_induct E (fun f => ∀ (base : Nat) (p : Nat) (index : Nat) (count : Nat) (child_ht : Nat), Traced P (f base p index count child_ht)) adm5 ?_
  intro f ih base p index count child_ht
  traced
instance move_next_leaf_count (e : Entry) (count : Nat) : Traced P (SegTree.move_next_leaf_count E e count : M α Entry) := by
  unfold SegTree.move_next_leaf_count; traced
instance move_next_segment_count (e : Entry) (count : Nat) : Traced P (SegTree.move_next_segment_count E e count : M α Entry) := by
  unfold SegTree.move_next_segment_count; traced
instance move_next_iterator_count (it : Iter) (count : Nat) : Traced P (SegTree.move_next_iterator_count E it count : M α Iter) := by
  unfold SegTree.move_next_iterator_count; traced
instance scan_prev (p : Nat) (index : Nat) (count : Nat) : Traced P (SegTree.scan_prev E p index count : M α ((Nat × Nat × Nat) ⊕ Nat)) := by
  revert index count
  refine SegTree.scan_prev.fixpoint_induct E p (fun f => ∀ (index : Nat) (count : Nat), Traced P (f index count)) adm2 ?_
  intro f ih index count
  traced
instance move_prev_branch_count (p : Nat) (index : Nat) (count : Nat) (child_ht : Nat) : Traced P (SegTree.move_prev_branch_count E p index count child_ht : M α Entry) := by
  revert p index count child_ht
  refine SegTree.move_prev_branch_count.fixpoint_induct E (fun f => ∀ (p : Nat) (index : Nat) (count : Nat) (child_ht : Nat), Traced P (f p index count child_ht)) adm4 ?_
  intro f ih p index count child_ht
  traced
instance move_prev_leaf_count (e : Entry) (count : Nat) : Traced P (SegTree.move_prev_leaf_count E e count : M α Entry) := by
  unfold SegTree.move_prev_leaf_count; traced
instance move_prev_segment_count (e : Entry) (count : Nat) : Traced P (SegTree.move_prev_segment_count E e count : M α Entry) := by
  unfold SegTree.move_prev_segment_count; traced
instance move_prev_iterator_count (it : Iter) (count : Nat) : Traced P (SegTree.move_prev_iterator_count E it count : M α Iter) := by
  unfold SegTree.move_prev_iterator_count; traced
instance move_iterator_count (it : Iter) (diff : Int) : Traced P (SegTree.move_iterator_count E it diff : M α Iter) := by
  unfold SegTree.move_iterator_count; traced
instance dereference (it : Iter) : Traced P (SegTree.dereference E it : M α α) := by
  unfold SegTree.dereference; traced
instance dereference_count (it : Iter) (diff : Int) : Traced P (SegTree.dereference_count E it diff : M α α) := by
  unfold SegTree.dereference_count; traced
instance move_after_segment (it : Iter) : Traced P (SegTree.move_after_segment E it : M α Iter) := by
  unfold SegTree.move_after_segment; traced
instance move_after_segment_count (it : Iter) (count : Nat) : Traced P (SegTree.move_after_segment_count E it count : M α Iter) := by
  unfold SegTree.move_after_segment_count; traced
instance move_before_segment (it : Iter) : Traced P (SegTree.move_before_segment E it : M α Iter) := by
  unfold SegTree.move_before_segment; traced
instance move_before_segment_count (it : Iter) (count : Nat) : Traced P (SegTree.move_before_segment_count E it count : M α Iter) := by
  unfold SegTree.move_before_segment_count; traced
instance allocate_segment (o : Nat) [AtAlloc E P] : Traced P (SegTree.allocate_segment E o : M α Nat) := by
  unfold SegTree.allocate_segment; traced
instance allocNodeCell (w : Nat) [AtAlloc E P] : Traced P (SegTree.allocNodeCell E w : M α Nat) := by
  exact ⟨fun m => (Traced.allocCell (E := E) (P := P) _).run m⟩
instance allocate_node (o : Nat) [AtAlloc E P] : Traced P (SegTree.allocate_node E o : M α Nat) := by
  unfold SegTree.allocate_node; traced
instance destroy_segment (p : Nat) (i : Nat) : Traced P (SegTree.destroy_segment E p i : M α Unit) := by
  unfold SegTree.destroy_segment; traced
instance destroy_node (p : Nat) (i : Nat) : Traced P (SegTree.destroy_node E p i : M α Unit) := by
  unfold SegTree.destroy_node; traced
instance freeSeg (a : Nat) (p : Nat) : Traced P (SegTree.freeSeg E a p : M α Unit) := by
  refine ⟨fun m => ?_⟩
  unfold SegTree.freeSeg
  try dsimp only
  repeat' first | trivial | exact P.frame ⟨rfl, rfl⟩ | split
instance freeNode (a : Nat) (p : Nat) : Traced P (SegTree.freeNode a p : M α Unit) := by
  refine ⟨fun m => ?_⟩
  unfold SegTree.freeNode
  try dsimp only
  repeat' first | trivial | exact P.frame ⟨rfl, rfl⟩ | split
instance deallocate_segment (o : Nat) (p : Nat) : Traced P (SegTree.deallocate_segment E o p : M α Unit) := by
  unfold SegTree.deallocate_segment; traced
instance deallocate_node (o : Nat) (p : Nat) : Traced P (SegTree.deallocate_node E o p : M α Unit) := by
  unfold SegTree.deallocate_node; traced
instance purge_segment (o : Nat) (p : Nat) (sz : Nat) : Traced P (SegTree.purge_segment E o p sz : M α Unit) := by
  unfold SegTree.purge_segment; traced
theorem purge_node_r (o : Nat) : ∀ (ht p : Nat), Traced P (SegTree.purge_node E o ht p)
  | 0, _ => ub _
  | 1, _ => ub _
  | 2, p => by unfold SegTree.purge_node; traced
  | ht + 3, p => by
    have ih := purge_node_r o (ht + 2)
    unfold SegTree.purge_node; traced
instance purge_node (o ht p : Nat) : Traced P (SegTree.purge_node E o ht p) := purge_node_r o ht p
instance purge_root (o : Nat) (p : Nat) (sz : Nat) (ht : Nat) : Traced P (SegTree.purge_root E o p sz ht : M α Unit) := by
  unfold SegTree.purge_root; traced
instance purge (o : Nat) : Traced P (SegTree.purge E o : M α Unit) := by
  unfold SegTree.purge; traced
instance construct_segment (p : Nat) (i : Nat) (v : α) [AtMove E P] : Traced P (SegTree.construct_segment E p i v : M α Unit) := by
  unfold SegTree.construct_segment; traced
instance construct_leaf (p : Nat) (i : Nat) (csz : Nat) (child : Nat) : Traced P (SegTree.construct_leaf E p i csz child : M α Nat) := by
  unfold SegTree.construct_leaf; traced
instance construct_branch (p : Nat) (i : Nat) (csz : Nat) (child : Nat) : Traced P (SegTree.construct_branch E p i csz child : M α Nat) := by
  unfold SegTree.construct_branch; traced
instance assign_segment (p : Nat) (i : Nat) (v : α) [AtMove E P] : Traced P (SegTree.assign_segment E p i v : M α Unit) := by
  unfold SegTree.assign_segment; traced
instance assign_leaf (p : Nat) (i : Nat) (csz : Nat) (child : Nat) : Traced P (SegTree.assign_leaf E p i csz child : M α Nat) := by
  unfold SegTree.assign_leaf; traced
instance assign_branch (p : Nat) (i : Nat) (csz : Nat) (child : Nat) : Traced P (SegTree.assign_branch E p i csz child : M α Nat) := by
  unfold SegTree.assign_branch; traced
instance move_assign_segment (src : Nat) (si : Nat) (dst : Nat) (di : Nat) [AtMove E P] : Traced P (SegTree.move_assign_segment E src si dst di : M α Unit) := by
  unfold SegTree.move_assign_segment; traced
instance move_assign_leaf (src : Nat) (si : Nat) (dst : Nat) (di : Nat) : Traced P (SegTree.move_assign_leaf E src si dst di : M α Nat) := by
  unfold SegTree.move_assign_leaf; traced
instance move_assign_branch (src : Nat) (si : Nat) (dst : Nat) (di : Nat) : Traced P (SegTree.move_assign_branch E src si dst di : M α Nat) := by
  unfold SegTree.move_assign_branch; traced
instance move_segment (src : Nat) (si : Nat) (dst : Nat) (di : Nat) [AtMove E P] : Traced P (SegTree.move_segment E src si dst di : M α Unit) := by
  unfold SegTree.move_segment; traced
instance move_leaf (src : Nat) (si : Nat) (dst : Nat) (di : Nat) : Traced P (SegTree.move_leaf E src si dst di : M α Nat) := by
  unfold SegTree.move_leaf; traced
instance move_branch (src : Nat) (si : Nat) (dst : Nat) (di : Nat) : Traced P (SegTree.move_branch E src si dst di : M α Nat) := by
  unfold SegTree.move_branch; traced
instance memcpy_segment (src : Nat) (si : Nat) (dst : Nat) (di : Nat) (n : Nat) : Traced P (SegTree.memcpy_segment E src si dst di n : M α Unit) := by
  unfold SegTree.memcpy_segment; traced
instance construct_range_segment (src : Nat) (si : Nat) (dst : Nat) (di : Nat) (count : Nat) [AtMove E P] : Traced P (SegTree.construct_range_segment E src si dst di count : M α Unit) := by
  unfold SegTree.construct_range_segment; traced
instance construct_range_leaf (src : Nat) (si : Nat) (dst : Nat) (di : Nat) (count : Nat) : Traced P (SegTree.construct_range_leaf E src si dst di count : M α Nat) := by
  unfold SegTree.construct_range_leaf; traced
instance construct_range_branch (src : Nat) (si : Nat) (dst : Nat) (di : Nat) (count : Nat) : Traced P (SegTree.construct_range_branch E src si dst di count : M α Nat) := by
  unfold SegTree.construct_range_branch; traced
instance assign_forward_segment (p : Nat) (length : Nat) (index : Nat) (distance : Nat) [AtMove E P] : Traced P (SegTree.assign_forward_segment E p length index distance : M α Unit) := by
  unfold SegTree.assign_forward_segment; traced
instance assign_forward_leaf (p : Nat) (length : Nat) (index : Nat) (distance : Nat) : Traced P (SegTree.assign_forward_leaf E p length index distance : M α Unit) := by
  unfold SegTree.assign_forward_leaf; traced
instance assign_forward_branch (p : Nat) (length : Nat) (index : Nat) (distance : Nat) : Traced P (SegTree.assign_forward_branch E p length index distance : M α Unit) := by
  unfold SegTree.assign_forward_branch; traced
instance assign_backward_segment (p : Nat) (length : Nat) (index : Nat) (distance : Nat) [AtMove E P] : Traced P (SegTree.assign_backward_segment E p length index distance : M α Unit) := by
  unfold SegTree.assign_backward_segment; traced
instance assign_backward_leaf (p : Nat) (length : Nat) (index : Nat) (distance : Nat) : Traced P (SegTree.assign_backward_leaf E p length index distance : M α Unit) := by
  unfold SegTree.assign_backward_leaf; traced
instance assign_backward_branch (p : Nat) (length : Nat) (index : Nat) (distance : Nat) : Traced P (SegTree.assign_backward_branch E p length index distance : M α Unit) := by
  unfold SegTree.assign_backward_branch; traced
instance update_sizes (o : Nat) (p : Nat) (index : Nat) (sz : Nat) : Traced P (SegTree.update_sizes E o p index sz : M α Unit) := by
  revert p index
  refine SegTree.update_sizes.fixpoint_induct E o sz (fun f => ∀ (p : Nat) (index : Nat), Traced P (f p index)) adm2 ?_
  intro f ih p index
  traced
instance increment_sizes (o : Nat) (p : Nat) (index : Nat) : Traced P (SegTree.increment_sizes E o p index : M α Unit) := by
  unfold SegTree.increment_sizes; traced
instance decrement_sizes (o : Nat) (p : Nat) (index : Nat) : Traced P (SegTree.decrement_sizes E o p index : M α Unit) := by
  unfold SegTree.decrement_sizes; traced
instance free_chain (o : Nat) (alloc : Nat) : Traced P (SegTree.free_chain E o alloc : M α Unit) := by
  revert alloc
  refine SegTree.free_chain.fixpoint_induct E o (fun f => ∀ (alloc : Nat), Traced P (f alloc)) adm1 ?_
  intro f ih alloc
  traced
instance alloc_catch (o : Nat) (segment_alloc : Nat) (alloc : Nat) : Traced P (SegTree.alloc_catch E o segment_alloc alloc : M α Unit) := by
  unfold SegTree.alloc_catch; traced
instance alloc_nodes_loop (o : Nat) (p : Nat) (segment_alloc : Nat) (alloc : Nat) [AtAlloc E P] : Traced P (SegTree.alloc_nodes_loop E o p segment_alloc alloc : M α Nat) := by
  revert p alloc
  refine SegTree.alloc_nodes_loop.fixpoint_induct E o segment_alloc (fun f => ∀ (p : Nat) (alloc : Nat), Traced P (f p alloc)) adm2 ?_
  intro f ih p alloc
  traced
instance alloc_nodes_single (o : Nat) (p : Nat) (segment_alloc : Nat) [AtAlloc E P] : Traced P (SegTree.alloc_nodes_single E o p segment_alloc : M α Nat) := by
  unfold SegTree.alloc_nodes_single; traced
instance insert_single_branch (o : Nat) (base : Nat) (p : Nat) (index : Nat) (alloc : Nat) (child_pointer : Nat) (child_size : Nat) : Traced P (SegTree.insert_single_branch E o base p index alloc child_pointer child_size : M α Unit) := by
  revert base p index alloc child_pointer child_size
  refine SegTree.insert_single_branch.fixpoint_induct E o (fun f => ∀ (base : Nat) (p : Nat) (index : Nat) (alloc : Nat) (child_pointer : Nat) (child_size : Nat), Traced P (f base p index alloc child_pointer child_size)) adm6 ?_
  intro f ih base p index alloc child_pointer child_size
  traced
instance insert_single_leaf (o : Nat) (entry : Entry) (base : Nat) (p : Nat) (index : Nat) (alloc : Nat) (child_pointer : Nat) (child_size : Nat) : Traced P (SegTree.insert_single_leaf E o entry base p index alloc child_pointer child_size : M α Entry) := by
  unfold SegTree.insert_single_leaf; traced
instance insert_single_segment (o : Nat) (entry : Entry) (value : α) [AtMove E P] [AtAlloc E P] : Traced P (SegTree.insert_single_segment E o entry value : M α Entry) := by
  unfold SegTree.insert_single_segment; traced
instance insert_single_iterator (o : Nat) (it : Iter) (value : α) [AtMove E P] [AtAlloc E P] : Traced P (SegTree.insert_single_iterator E o it value : M α Iter) := by
  unfold SegTree.insert_single_iterator; traced
instance erase_single_branch (o : Nat) (p : Nat) (index : Nat) : Traced P (SegTree.erase_single_branch E o p index : M α Unit) := by
  revert p index
  refine SegTree.erase_single_branch.fixpoint_induct E o (fun f => ∀ (p : Nat) (index : Nat), Traced P (f p index)) adm2 ?_
  intro f ih p index
  traced
instance erase_single_leaf (o : Nat) (entry : LeafE) (p : Nat) (index : Nat) : Traced P (SegTree.erase_single_leaf E o entry p index : M α LeafE) := by
  unfold SegTree.erase_single_leaf; traced
instance erase_single_segment (o : Nat) (entry : Entry) [AtMove E P] : Traced P (SegTree.erase_single_segment E o entry : M α Entry) := by
  unfold SegTree.erase_single_segment; traced
instance erase_single_iterator (o : Nat) (it : Iter) [AtMove E P] : Traced P (SegTree.erase_single_iterator E o it : M α Iter) := by
  unfold SegTree.erase_single_iterator; traced
instance find_index (o : Nat) (pos : Nat) : Traced P (SegTree.find_index E o pos : M α Iter) := by
  unfold SegTree.find_index; traced
instance find_first (o : Nat) : Traced P (SegTree.find_first E o : M α Iter) := by
  unfold SegTree.find_first; traced
instance find_last (o : Nat) : Traced P (SegTree.find_last E o : M α Iter) := by
  unfold SegTree.find_last; traced
instance find_end (o : Nat) : Traced P (SegTree.find_end E o : M α Iter) := by
  unfold SegTree.find_end; traced
instance steal (o : Nat) (other : Nat) : Traced P (SegTree.steal o other : M α Unit) := by
  unfold SegTree.steal; traced
instance copyAssign (p : Nat) (i : Nat) (v : α) [AtCopy E P] : Traced P (SegTree.copyAssign E p i v : M α Unit) := by
  unfold SegTree.copyAssign; traced
instance moveFrom (p : Nat) (i : Nat) [AtMove E P] : Traced P (SegTree.moveFrom E p i : M α α) := by
  unfold SegTree.moveFrom; traced
instance emplace_single (o : Nat) (it : Iter) (mk : M α α) [hmk : Traced P mk] [AtMove E P] [AtAlloc E P] : Traced P (SegTree.emplace_single E o it mk : M α Iter) := by
  unfold SegTree.emplace_single; traced
instance emplace_count_loop (o : Nat) (mk : M α α) (n : Nat) (it : Iter) [Traced P mk] [AtMove E P] [AtAlloc E P] :
    Traced P (SegTree.emplace_count_loop E o mk n it) := by
  induction n generalizing it with
  | zero => exact pure _
  | succ n ih => unfold SegTree.emplace_count_loop; traced
instance emplace_count (o : Nat) (it : Iter) (count : Nat) (mk : M α α) [hmk : Traced P mk] [AtMove E P] [AtAlloc E P] : Traced P (SegTree.emplace_count E o it count mk : M α Iter) := by
  unfold SegTree.emplace_count; traced
instance emplace_range_loop {σ : Type} (S : Src α σ) [hrS : ∀ s, Traced P (S.read s)] [hnS : ∀ s, Traced P (S.next s)] (o : Nat) (it : Iter) (first : σ) (count : Nat) [AtMove E P] [AtAlloc E P] : Traced P (SegTree.emplace_range_loop E S o it first count : M α (Iter × Nat)) := by
  revert it first count
  refine SegTree.emplace_range_loop.fixpoint_induct E S o (fun f => ∀ (it : Iter) (first : σ) (count : Nat), Traced P (f it first count)) adm3 ?_
  intro f ih it first count
  traced
instance emplace_range {σ : Type} (S : Src α σ) [hrS : ∀ s, Traced P (S.read s)] [hnS : ∀ s, Traced P (S.next s)] (o : Nat) (it : Iter) (first : σ) [AtMove E P] [AtAlloc E P] : Traced P (SegTree.emplace_range E S o it first : M α Iter) := by
  unfold SegTree.emplace_range; traced
instance listSrc_read  (l : List α) [AtCopy E P] : Traced P ((SegTree.listSrc E ).read l) := by
  cases l <;> (simp only [SegTree.listSrc]; traced)
instance listSrc_next  (l : List α) [AtCopy E P] : Traced P ((SegTree.listSrc E ).next l) := by
  cases l <;> (simp only [SegTree.listSrc]; traced)
instance copySrc_read (last : Iter) (it : Iter) [AtCopy E P] : Traced P ((SegTree.copySrc E last).read it) := by
  simp only [SegTree.copySrc]; traced
instance copySrc_next (last : Iter) (it : Iter) [AtCopy E P] : Traced P ((SegTree.copySrc E last).next it) := by
  simp only [SegTree.copySrc]; traced
instance moveSrc_read (last : Iter) (it : Iter) [AtMove E P] : Traced P ((SegTree.moveSrc E last).read it) := by
  simp only [SegTree.moveSrc]; traced
instance moveSrc_next (last : Iter) (it : Iter) [AtMove E P] : Traced P ((SegTree.moveSrc E last).next it) := by
  simp only [SegTree.moveSrc]; traced
instance erase_single (o : Nat) (it : Iter) [AtMove E P] : Traced P (SegTree.erase_single E o it : M α Iter) := by
  unfold SegTree.erase_single; traced
instance erase_range (o : Nat) (first : Iter) (last : Iter) [AtMove E P] : Traced P (SegTree.erase_range E o first last : M α Iter) := by
  revert last
  refine SegTree.erase_range.fixpoint_induct E o first (fun f => ∀ (last : Iter), Traced P (f last)) adm1 ?_
  intro f ih last
  traced
instance assign_count_loop (o : Nat) (src : M α α) [hsrc : Traced P src] (count : Nat) (first : Iter) (last : Iter) [AtMove E P] [AtCopy E P] [AtAlloc E P] : Traced P (SegTree.assign_count_loop E o src count first last : M α Unit) := by
  revert count first
  refine SegTree.assign_count_loop.fixpoint_induct E o src last (fun f => ∀ (count : Nat) (first : Iter), Traced P (f count first)) adm2 ?_
  intro f ih count first
  traced
instance assign_count (o : Nat) (count : Nat) (src : M α α) [hsrc : Traced P src] [AtMove E P] [AtCopy E P] [AtAlloc E P] : Traced P (SegTree.assign_count E o count src : M α Unit) := by
  unfold SegTree.assign_count; traced
instance assign_range_loop {σ : Type} (S : Src α σ) [hrS : ∀ s, Traced P (S.read s)] [hnS : ∀ s, Traced P (S.next s)] (o : Nat) (source : σ) (first : Iter) (last : Iter) [AtMove E P] [AtAlloc E P] : Traced P (SegTree.assign_range_loop E S o source first last : M α Unit) := by
  revert source first
  refine SegTree.assign_range_loop.fixpoint_induct E S o last (fun f => ∀ (source : σ) (first : Iter), Traced P (f source first)) adm2 ?_
  intro f ih source first
  traced
instance assign_range {σ : Type} (S : Src α σ) [hrS : ∀ s, Traced P (S.read s)] [hnS : ∀ s, Traced P (S.next s)] (o : Nat) (source : σ) [AtMove E P] [AtAlloc E P] : Traced P (SegTree.assign_range E S o source : M α Unit) := by
  unfold SegTree.assign_range; traced
instance resize_count (o : Nat) (count : Nat) (mk : M α α) [hmk : Traced P mk] [AtMove E P] [AtAlloc E P] : Traced P (SegTree.resize_count E o count mk : M α Unit) := by
  unfold SegTree.resize_count; traced
instance clear (o : Nat) : Traced P (SegTree.clear E o : M α Unit) := by
  unfold SegTree.clear; traced
instance copy_assign_alloc (o : Nat) (other : Nat) : Traced P (SegTree.copy_assign_alloc E o other : M α Unit) := by
  unfold SegTree.copy_assign_alloc; traced
instance move_assign_alloc (o : Nat) (other : Nat) : Traced P (SegTree.move_assign_alloc E o other : M α Unit) := by
  unfold SegTree.move_assign_alloc; traced
instance move_assign_steal (o : Nat) (other : Nat) : Traced P (SegTree.move_assign_steal E o other : M α Unit) := by
  unfold SegTree.move_assign_steal; traced
instance move_assign (o : Nat) (other : Nat) [AtMove E P] [AtAlloc E P] : Traced P (SegTree.move_assign E o other : M α Unit) := by
  unfold SegTree.move_assign; traced
instance ctor (o : Nat) (alloc : Nat) : Traced P (SegTree.ctor o alloc : M α Unit) := by
  refine ⟨fun m => ?_⟩
  unfold SegTree.ctor
  try dsimp only
  repeat' first | trivial | exact P.frame ⟨rfl, rfl⟩ | split
instance dropObj (o : Nat) : Traced P (SegTree.dropObj o : M α Unit) := by
  refine ⟨fun m => ?_⟩
  unfold SegTree.dropObj
  try dsimp only
  repeat' first | trivial | exact P.frame ⟨rfl, rfl⟩ | split
instance dtor (o : Nat) : Traced P (SegTree.dtor E o : M α Unit) := by
  unfold SegTree.dtor; traced
instance delegating (o : Nat) (alloc : Nat) (body : M α Unit) [hbody : Traced P body] : Traced P (SegTree.delegating E o alloc body : M α Unit) := by
  unfold SegTree.delegating; traced
instance ctor_count (o : Nat) (alloc : Nat) (count : Nat) (mk : M α α) [hmk : Traced P mk] [AtMove E P] [AtAlloc E P] : Traced P (SegTree.ctor_count E o alloc count mk : M α Unit) := by
  unfold SegTree.ctor_count; traced
instance ctor_range {σ : Type} (S : Src α σ) [hrS : ∀ s, Traced P (S.read s)] [hnS : ∀ s, Traced P (S.next s)] (o : Nat) (alloc : Nat) (first : σ) [AtMove E P] [AtAlloc E P] : Traced P (SegTree.ctor_range E S o alloc first : M α Unit) := by
  unfold SegTree.ctor_range; traced
instance ctor_copy_alloc (o : Nat) (other : Nat) (alloc : Nat) [AtMove E P] [AtCopy E P] [AtAlloc E P] : Traced P (SegTree.ctor_copy_alloc E o other alloc : M α Unit) := by
  unfold SegTree.ctor_copy_alloc; traced
instance ctor_copy (o : Nat) (other : Nat) [AtMove E P] [AtCopy E P] [AtAlloc E P] : Traced P (SegTree.ctor_copy E o other : M α Unit) := by
  unfold SegTree.ctor_copy; traced
instance ctor_move (o : Nat) (other : Nat) : Traced P (SegTree.ctor_move o other : M α Unit) := by
  unfold SegTree.ctor_move; traced
instance ctor_move_alloc (o : Nat) (other : Nat) (alloc : Nat) [AtMove E P] [AtAlloc E P] : Traced P (SegTree.ctor_move_alloc E o other alloc : M α Unit) := by
  unfold SegTree.ctor_move_alloc; traced
instance assign_copy (o : Nat) (other : Nat) [AtMove E P] [AtCopy E P] [AtAlloc E P] : Traced P (SegTree.assign_copy E o other : M α Unit) := by
  unfold SegTree.assign_copy; traced
instance assign_move (o : Nat) (other : Nat) [AtMove E P] [AtAlloc E P] : Traced P (SegTree.assign_move E o other : M α Unit) := by
  unfold SegTree.assign_move; traced
instance assign_list (o : Nat) (vs : List α) [AtMove E P] [AtCopy E P] [AtAlloc E P] : Traced P (SegTree.assign_list E o vs : M α Unit) := by
  unfold SegTree.assign_list; traced
instance assign_fill (o : Nat) (count : Nat) (v : α) [AtMove E P] [AtCopy E P] [AtAlloc E P] : Traced P (SegTree.assign_fill E o count v : M α Unit) := by
  unfold SegTree.assign_fill; traced
instance at_ (o : Nat) (pos : Nat) [AtRange P] : Traced P (SegTree.at_ E o pos : M α α) := by
  unfold SegTree.at_; traced
instance index_op (o : Nat) (pos : Nat) : Traced P (SegTree.index_op E o pos : M α α) := by
  unfold SegTree.index_op; traced
instance index_set (o : Nat) (pos : Nat) (v : α) [AtCopy E P] : Traced P (SegTree.index_set E o pos v : M α Unit) := by
  unfold SegTree.index_set; traced
instance deref_set (it : Iter) (v : α) [AtCopy E P] : Traced P (SegTree.deref_set E it v : M α Unit) := by
  unfold SegTree.deref_set; traced
instance deref_set_rv (it : Iter) (v : α) [AtMove E P] : Traced P (SegTree.deref_set_rv E it v : M α Unit) := by
  unfold SegTree.deref_set_rv; traced
instance front (o : Nat) : Traced P (SegTree.front E o : M α α) := by
  unfold SegTree.front; traced
instance back (o : Nat) : Traced P (SegTree.back E o : M α α) := by
  unfold SegTree.back; traced
instance begin_ (o : Nat) : Traced P (SegTree.begin_ E o : M α Iter) := by
  unfold SegTree.begin_; traced
instance penultimate (o : Nat) : Traced P (SegTree.penultimate E o : M α Iter) := by
  unfold SegTree.penultimate; traced
instance end_ (o : Nat) : Traced P (SegTree.end_ E o : M α Iter) := by
  unfold SegTree.end_; traced
instance rev_deref (it : Iter) : Traced P (SegTree.rev_deref E it : M α α) := by
  unfold SegTree.rev_deref; traced
instance nth (o : Nat) (pos : Nat) : Traced P (SegTree.nth E o pos : M α Iter) := by
  unfold SegTree.nth; traced
instance empty (o : Nat) : Traced P (SegTree.empty o : M α Bool) := by
  unfold SegTree.empty; traced
instance size (o : Nat) : Traced P (SegTree.size o : M α Nat) := by
  unfold SegTree.size; traced
instance height (o : Nat) : Traced P (SegTree.height o : M α Nat) := by
  unfold SegTree.height; traced
instance get_allocator (o : Nat) : Traced P (SegTree.get_allocator o : M α Nat) := by
  unfold SegTree.get_allocator; traced
instance insert (o : Nat) (it : Iter) (v : α) [AtMove E P] [AtCopy E P] [AtAlloc E P] : Traced P (SegTree.insert E o it v : M α Iter) := by
  unfold SegTree.insert; traced
instance insert_rv (o : Nat) (it : Iter) (v : α) [AtMove E P] [AtAlloc E P] : Traced P (SegTree.insert_rv E o it v : M α Iter) := by
  unfold SegTree.insert_rv; traced
instance insert_alias (o : Nat) (it : Iter) (src : Iter) [AtMove E P] [AtCopy E P] [AtAlloc E P] : Traced P (SegTree.insert_alias E o it src : M α Iter) := by
  unfold SegTree.insert_alias; traced
instance insert_fill (o : Nat) (it : Iter) (count : Nat) (v : α) [AtMove E P] [AtCopy E P] [AtAlloc E P] : Traced P (SegTree.insert_fill E o it count v : M α Iter) := by
  unfold SegTree.insert_fill; traced
instance insert_fill_alias (o : Nat) (it : Iter) (count : Nat) (src : Iter) [AtMove E P] [AtCopy E P] [AtAlloc E P] : Traced P (SegTree.insert_fill_alias E o it count src : M α Iter) := by
  unfold SegTree.insert_fill_alias; traced
instance insert_list (o : Nat) (it : Iter) (vs : List α) [AtMove E P] [AtCopy E P] [AtAlloc E P] : Traced P (SegTree.insert_list E o it vs : M α Iter) := by
  unfold SegTree.insert_list; traced
instance erase (o : Nat) (it : Iter) [AtMove E P] : Traced P (SegTree.erase E o it : M α Iter) := by
  unfold SegTree.erase; traced
instance erase_rng (o : Nat) (first : Iter) (last : Iter) [AtMove E P] : Traced P (SegTree.erase_rng E o first last : M α Iter) := by
  unfold SegTree.erase_rng; traced
instance push_back (o : Nat) (v : α) [AtMove E P] [AtCopy E P] [AtAlloc E P] : Traced P (SegTree.push_back E o v : M α Unit) := by
  unfold SegTree.push_back; traced
instance push_back_rv (o : Nat) (v : α) [AtMove E P] [AtAlloc E P] : Traced P (SegTree.push_back_rv E o v : M α Unit) := by
  unfold SegTree.push_back_rv; traced
instance pop_back (o : Nat) [AtMove E P] : Traced P (SegTree.pop_back E o : M α Unit) := by
  unfold SegTree.pop_back; traced
instance push_front (o : Nat) (v : α) [AtMove E P] [AtCopy E P] [AtAlloc E P] : Traced P (SegTree.push_front E o v : M α Unit) := by
  unfold SegTree.push_front; traced
instance push_front_rv (o : Nat) (v : α) [AtMove E P] [AtAlloc E P] : Traced P (SegTree.push_front_rv E o v : M α Unit) := by
  unfold SegTree.push_front_rv; traced
instance pop_front (o : Nat) [AtMove E P] : Traced P (SegTree.pop_front E o : M α Unit) := by
  unfold SegTree.pop_front; traced
instance resize (o : Nat) (count : Nat) (v : α) [AtMove E P] [AtCopy E P] [AtAlloc E P] : Traced P (SegTree.resize E o count v : M α Unit) := by
  unfold SegTree.resize; traced
instance swap (o : Nat) (other : Nat) : Traced P (SegTree.swap E o other : M α Unit) := by
  unfold SegTree.swap; traced
instance splice (o : Nat) (pos : Iter) (other : Nat) [AtMove E P] [AtAlloc E P] : Traced P (SegTree.splice E o pos other : M α Unit) := by
  unfold SegTree.splice; traced
instance splice_one (o : Nat) (pos : Iter) (other : Nat) (it : Iter) [AtMove E P] [AtCopy E P] [AtAlloc E P] : Traced P (SegTree.splice_one E o pos other it : M α Unit) := by
  unfold SegTree.splice_one; traced
instance splice_range (o : Nat) (pos : Iter) (other : Nat) (first : Iter) (last : Iter) [AtMove E P] [AtAlloc E P] : Traced P (SegTree.splice_range E o pos other first last : M α Unit) := by
  unfold SegTree.splice_range; traced
instance std_find_if (p : α → Bool) (first : Iter) (last : Iter) : Traced P (SegTree.std_find_if E p first last : M α Iter) := by
  revert first
  refine SegTree.std_find_if.fixpoint_induct E p last (fun f => ∀ (first : Iter), Traced P (f first)) adm1 ?_
  intro f ih first
  traced
instance iter_move_assign (src : Iter) (dst : Iter) [AtMove E P] : Traced P (SegTree.iter_move_assign E src dst : M α Unit) := by
  unfold SegTree.iter_move_assign; traced
instance std_remove_loop (p : α → Bool) (first : Iter) (i : Iter) (last : Iter) [AtMove E P] : Traced P (SegTree.std_remove_loop E p first i last : M α Iter) := by
  revert first i
  refine SegTree.std_remove_loop.fixpoint_induct E p last (fun f => ∀ (first : Iter) (i : Iter), Traced P (f first i)) adm2 ?_
  intro f ih first i
  traced
instance std_remove_if (p : α → Bool) (first : Iter) (last : Iter) [AtMove E P] : Traced P (SegTree.std_remove_if E p first last : M α Iter) := by
  unfold SegTree.std_remove_if; traced
instance remove_if (o : Nat) (p : α → Bool) [AtMove E P] : Traced P (SegTree.remove_if E o p : M α Unit) := by
  unfold SegTree.remove_if; traced
instance remove (o : Nat) (eq : α → α → Bool) (v : α) [AtMove E P] : Traced P (SegTree.remove E o eq v : M α Unit) := by
  unfold SegTree.remove; traced
instance iter_swap (a : Iter) (b : Iter) [AtMove E P] : Traced P (SegTree.iter_swap E a b : M α Unit) := by
  unfold SegTree.iter_swap; traced
instance std_reverse_loop (first : Iter) (last : Iter) [AtMove E P] : Traced P (SegTree.std_reverse_loop E first last : M α Unit) := by
  revert first last
  refine SegTree.std_reverse_loop.fixpoint_induct E (fun f => ∀ (first : Iter) (last : Iter), Traced P (f first last)) adm2 ?_
  intro f ih first last
  traced
instance std_reverse (first : Iter) (last : Iter) [AtMove E P] : Traced P (SegTree.std_reverse E first last : M α Unit) := by
  unfold SegTree.std_reverse; traced
instance reverse (o : Nat) [AtMove E P] : Traced P (SegTree.reverse E o : M α Unit) := by
  unfold SegTree.reverse; traced
instance std_unique_loop (p : α → α → Bool) (result : Iter) (first : Iter) (last : Iter) [AtMove E P] : Traced P (SegTree.std_unique_loop E p result first last : M α Iter) := by
  revert result first
  refine SegTree.std_unique_loop.fixpoint_induct E p last (fun f => ∀ (result : Iter) (first : Iter), Traced P (f result first)) adm2 ?_
  intro f ih result first
  traced
instance std_unique (p : α → α → Bool) (first : Iter) (last : Iter) [AtMove E P] : Traced P (SegTree.std_unique E p first last : M α Iter) := by
  unfold SegTree.std_unique; traced
instance unique (o : Nat) (p : α → α → Bool) [AtMove E P] : Traced P (SegTree.unique E o p : M α Unit) := by
  unfold SegTree.unique; traced
instance std_equal (eq : α → α → Bool) (first1 : Iter) (last1 : Iter) (first2 : Iter) : Traced P (SegTree.std_equal E eq first1 last1 first2 : M α Bool) := by
  revert first1 first2
  refine SegTree.std_equal.fixpoint_induct E eq last1 (fun f => ∀ (first1 : Iter) (first2 : Iter), Traced P (f first1 first2)) adm2 ?_
  intro f ih first1 first2
  traced
instance op_eq (eq : α → α → Bool) (a : Nat) (b : Nat) : Traced P (SegTree.op_eq E eq a b : M α Bool) := by
  unfold SegTree.op_eq; traced
instance op_ne (eq : α → α → Bool) (a : Nat) (b : Nat) : Traced P (SegTree.op_ne E eq a b : M α Bool) := by
  unfold SegTree.op_ne; traced
instance std_lex (lt : α → α → Bool) (first1 : Iter) (last1 : Iter) (first2 : Iter) (last2 : Iter) : Traced P (SegTree.std_lex E lt first1 last1 first2 last2 : M α Bool) := by
  revert first1 first2
  refine SegTree.std_lex.fixpoint_induct E lt last1 last2 (fun f => ∀ (first1 : Iter) (first2 : Iter), Traced P (f first1 first2)) adm2 ?_
  intro f ih first1 first2
  traced
instance op_lt (lt : α → α → Bool) (a : Nat) (b : Nat) : Traced P (SegTree.op_lt E lt a b : M α Bool) := by
  unfold SegTree.op_lt; traced
instance op_le (lt : α → α → Bool) (a : Nat) (b : Nat) : Traced P (SegTree.op_le E lt a b : M α Bool) := by
  unfold SegTree.op_le; traced
instance op_gt (lt : α → α → Bool) (a : Nat) (b : Nat) : Traced P (SegTree.op_gt E lt a b : M α Bool) := by
  unfold SegTree.op_gt; traced
instance op_ge (lt : α → α → Bool) (a : Nat) (b : Nat) : Traced P (SegTree.op_ge E lt a b : M α Bool) := by
  unfold SegTree.op_ge; traced
instance it_add (it : Iter) (d : Int) : Traced P (SegTree.it_add E it d : M α Iter) := by
  unfold SegTree.it_add; traced
instance it_sub (it : Iter) (d : Int) : Traced P (SegTree.it_sub E it d : M α Iter) := by
  unfold SegTree.it_sub; traced
instance it_index (it : Iter) (d : Int) : Traced P (SegTree.it_index E it d : M α α) := by
  unfold SegTree.it_index; traced

end Traced
end SegTree
