/-
  GENERATED by tools/gen_cost.py: every function of the model does with a type
  whose moves may throw what it does with the same type made non-throwing, or ends
  in an element exception.
-/
import Verif.Proof.Calm
set_option autoImplicit false
set_option linter.unusedVariables false
set_option linter.unusedSimpArgs false
set_option synthInstance.maxSize 2000
set_option synthInstance.maxHeartbeats 400000

namespace SegTree
variable {α β γ : Type} {E : Env α} {dir : Bool}
namespace Same

instance rdNode (p : Nat) : Same dir (SegTree.rdNode p : M α Node) (SegTree.rdNode p) := refl _
instance wrNode (p : Nat) (n : Node) : Same dir (SegTree.wrNode p n : M α Unit) (SegTree.wrNode p n) := refl _
instance len (p : Nat) : Same dir (SegTree.len p : M α Nat) (SegTree.len p) := refl _
instance setLen (p v : Nat) : Same dir (SegTree.setLen p v : M α Unit) (SegTree.setLen p v) := refl _
instance parent (p : Nat) : Same dir (SegTree.parent p : M α Nat) (SegTree.parent p) := refl _
instance setParent (p v : Nat) : Same dir (SegTree.setParent p v : M α Unit) (SegTree.setParent p v) := refl _
instance pidx (p : Nat) : Same dir (SegTree.pidx p : M α Nat) (SegTree.pidx p) := refl _
instance setPidx (p v : Nat) : Same dir (SegTree.setPidx p v : M α Unit) (SegTree.setPidx p v) := refl _
instance sizesAt (p : Nat) (i : Nat) : Same dir (SegTree.sizesAt E p i : M α Nat) (SegTree.sizesAt E.calm p i) := by
  unfold SegTree.sizesAt
  calm
instance setSizes (p : Nat) (i : Nat) (v : Nat) : Same dir (SegTree.setSizes E p i v : M α Unit) (SegTree.setSizes E.calm p i v) := by
  unfold SegTree.setSizes
  calm
instance ptrsAt (p : Nat) (i : Nat) : Same dir (SegTree.ptrsAt E p i : M α Nat) (SegTree.ptrsAt E.calm p i) := by
  unfold SegTree.ptrsAt
  calm
instance setPtrs (p : Nat) (i : Nat) (v : Nat) : Same dir (SegTree.setPtrs E p i v : M α Unit) (SegTree.setPtrs E.calm p i v) := by
  unfold SegTree.setPtrs
  calm
instance rdSlots (p : Nat) : Same dir (SegTree.rdSlots p : M α (Nat → Slot α)) (SegTree.rdSlots p) := refl _
instance wrSlots (p : Nat) (s : Nat → Slot α) : Same dir (SegTree.wrSlots p s : M α Unit) (SegTree.wrSlots p s) := refl _
instance rdElem (p : Nat) (i : Nat) : Same dir (SegTree.rdElem E p i : M α α) (SegTree.rdElem E.calm p i) := by
  unfold SegTree.rdElem
  calm
instance wrElem (p : Nat) (i : Nat) (v : α) : Same dir (SegTree.wrElem E p i v : M α Unit) (SegTree.wrElem E.calm p i v) := by
  unfold SegTree.wrElem
  calm
instance rdObj (o : Nat) : Same dir (SegTree.rdObj o : M α SeqObj) (SegTree.rdObj o) := refl _
instance wrObj (o : Nat) (s : SeqObj) : Same dir (SegTree.wrObj o s : M α Unit) (SegTree.wrObj o s) := refl _
instance getRoot (o : Nat) : Same dir (SegTree.getRoot o : M α Nat) (SegTree.getRoot o) := refl _
instance getSize (o : Nat) : Same dir (SegTree.getSize o : M α Nat) (SegTree.getSize o) := refl _
instance getHeight (o : Nat) : Same dir (SegTree.getHeight o : M α Nat) (SegTree.getHeight o) := refl _
instance setRoot (o v : Nat) : Same dir (SegTree.setRoot o v : M α Unit) (SegTree.setRoot o v) := refl _
instance setSize (o v : Nat) : Same dir (SegTree.setSize o v : M α Unit) (SegTree.setSize o v) := refl _
instance setHeight (o v : Nat) : Same dir (SegTree.setHeight o v : M α Unit) (SegTree.setHeight o v) := refl _
instance allocCell (c : Cell α) : Same dir (SegTree.allocCell E c : M α Nat) (SegTree.allocCell E.calm c) := refl _
instance find_index_loop (p : Nat) (index : Nat) (size : Nat) (pos : Nat) : Same dir (SegTree.find_index_loop E p index size pos : M α (Nat × Nat)) (SegTree.find_index_loop E.calm p index size pos) := by
  revert index size pos
  cases dir
  · refine SegTree.find_index_loop.fixpoint_induct E.calm p (fun f => ∀ (index : Nat) (size : Nat) (pos : Nat),
      Same false (SegTree.find_index_loop E p index size pos) (f index size pos)) (adm3 fun _ _ _ => admR _) ?_
    intro f ih index size pos
    unfold SegTree.find_index_loop
    calm
  · refine SegTree.find_index_loop.fixpoint_induct E p (fun f => ∀ (index : Nat) (size : Nat) (pos : Nat),
      Same true (f index size pos) (SegTree.find_index_loop E.calm p index size pos)) (adm3 fun _ _ _ => admL _) ?_
    intro f ih index size pos
    unfold SegTree.find_index_loop
    calm
instance find_index_leaf (p : Nat) (pos : Nat) : Same dir (SegTree.find_index_leaf E p pos : M α Entry) (SegTree.find_index_leaf E.calm p pos) := by
  unfold SegTree.find_index_leaf
  calm
instance find_index_branch (p : Nat) (ht : Nat) (pos : Nat) : Same dir (SegTree.find_index_branch E p ht pos : M α Entry) (SegTree.find_index_branch E.calm p ht pos) := by
  revert p ht pos
  cases dir
  · refine SegTree.find_index_branch.fixpoint_induct E.calm (fun f => ∀ (p : Nat) (ht : Nat) (pos : Nat),
      Same false (SegTree.find_index_branch E p ht pos) (f p ht pos)) (adm3 fun _ _ _ => admR _) ?_
    intro f ih p ht pos
    unfold SegTree.find_index_branch
    calm
  · refine SegTree.find_index_branch.fixpoint_induct E (fun f => ∀ (p : Nat) (ht : Nat) (pos : Nat),
      Same true (f p ht pos) (SegTree.find_index_branch E.calm p ht pos)) (adm3 fun _ _ _ => admL _) ?_
    intro f ih p ht pos
    unfold SegTree.find_index_branch
    calm
instance find_index_node (p : Nat) (ht : Nat) (pos : Nat) : Same dir (SegTree.find_index_node E p ht pos : M α Entry) (SegTree.find_index_node E.calm p ht pos) := by
  unfold SegTree.find_index_node
  calm
instance find_index_root (p : Nat) (sz : Nat) (ht : Nat) (pos : Nat) : Same dir (SegTree.find_index_root E p sz ht pos : M α Iter) (SegTree.find_index_root E.calm p sz ht pos) := by
  unfold SegTree.find_index_root
  calm
instance find_first_leaf (p : Nat) : Same dir (SegTree.find_first_leaf E p : M α Entry) (SegTree.find_first_leaf E.calm p) := by
  unfold SegTree.find_first_leaf
  calm
instance find_first_branch (p : Nat) (ht : Nat) : Same dir (SegTree.find_first_branch E p ht : M α Entry) (SegTree.find_first_branch E.calm p ht) := by
  revert p ht
  cases dir
  · refine SegTree.find_first_branch.fixpoint_induct E.calm (fun f => ∀ (p : Nat) (ht : Nat),
      Same false (SegTree.find_first_branch E p ht) (f p ht)) (adm2 fun _ _ => admR _) ?_
    intro f ih p ht
    unfold SegTree.find_first_branch
    calm
  · refine SegTree.find_first_branch.fixpoint_induct E (fun f => ∀ (p : Nat) (ht : Nat),
      Same true (f p ht) (SegTree.find_first_branch E.calm p ht)) (adm2 fun _ _ => admL _) ?_
    intro f ih p ht
    unfold SegTree.find_first_branch
    calm
instance find_first_node (p : Nat) (ht : Nat) : Same dir (SegTree.find_first_node E p ht : M α Entry) (SegTree.find_first_node E.calm p ht) := by
  unfold SegTree.find_first_node
  calm
instance find_first_root (p : Nat) (sz : Nat) (ht : Nat) : Same dir (SegTree.find_first_root E p sz ht : M α Iter) (SegTree.find_first_root E.calm p sz ht) := by
  unfold SegTree.find_first_root
  calm
instance find_last_segment (p sz : Nat) : Same dir (SegTree.find_last_segment p sz : M α SegE) (SegTree.find_last_segment p sz) := refl _
instance find_last_leaf (p : Nat) : Same dir (SegTree.find_last_leaf E p : M α Entry) (SegTree.find_last_leaf E.calm p) := by
  unfold SegTree.find_last_leaf
  calm
instance find_last_branch (p : Nat) (ht : Nat) : Same dir (SegTree.find_last_branch E p ht : M α Entry) (SegTree.find_last_branch E.calm p ht) := by
  revert p ht
  cases dir
  · refine SegTree.find_last_branch.fixpoint_induct E.calm (fun f => ∀ (p : Nat) (ht : Nat),
      Same false (SegTree.find_last_branch E p ht) (f p ht)) (adm2 fun _ _ => admR _) ?_
    intro f ih p ht
    unfold SegTree.find_last_branch
    calm
  · refine SegTree.find_last_branch.fixpoint_induct E (fun f => ∀ (p : Nat) (ht : Nat),
      Same true (f p ht) (SegTree.find_last_branch E.calm p ht)) (adm2 fun _ _ => admL _) ?_
    intro f ih p ht
    unfold SegTree.find_last_branch
    calm
instance find_last_node (p : Nat) (ht : Nat) : Same dir (SegTree.find_last_node E p ht : M α Entry) (SegTree.find_last_node E.calm p ht) := by
  unfold SegTree.find_last_node
  calm
instance find_last_root (p : Nat) (sz : Nat) (ht : Nat) : Same dir (SegTree.find_last_root E p sz ht : M α Iter) (SegTree.find_last_root E.calm p sz ht) := by
  unfold SegTree.find_last_root
  calm
instance find_end_leaf (p : Nat) : Same dir (SegTree.find_end_leaf E p : M α Entry) (SegTree.find_end_leaf E.calm p) := by
  unfold SegTree.find_end_leaf
  calm
instance find_end_branch (p : Nat) (ht : Nat) : Same dir (SegTree.find_end_branch E p ht : M α Entry) (SegTree.find_end_branch E.calm p ht) := by
  revert p ht
  cases dir
  · refine SegTree.find_end_branch.fixpoint_induct E.calm (fun f => ∀ (p : Nat) (ht : Nat),
      Same false (SegTree.find_end_branch E p ht) (f p ht)) (adm2 fun _ _ => admR _) ?_
    intro f ih p ht
    unfold SegTree.find_end_branch
    calm
  · refine SegTree.find_end_branch.fixpoint_induct E (fun f => ∀ (p : Nat) (ht : Nat),
      Same true (f p ht) (SegTree.find_end_branch E.calm p ht)) (adm2 fun _ _ => admL _) ?_
    intro f ih p ht
    unfold SegTree.find_end_branch
    calm
instance find_end_node (p : Nat) (ht : Nat) : Same dir (SegTree.find_end_node E p ht : M α Entry) (SegTree.find_end_node E.calm p ht) := by
  unfold SegTree.find_end_node
  calm
instance find_end_root (p : Nat) (sz : Nat) (ht : Nat) : Same dir (SegTree.find_end_root E p sz ht : M α Iter) (SegTree.find_end_root E.calm p sz ht) := by
  unfold SegTree.find_end_root
  calm
instance move_next_branch (e : Entry) (p : Nat) (index : Nat) (child_ht : Nat) : Same dir (SegTree.move_next_branch E e p index child_ht : M α Entry) (SegTree.move_next_branch E.calm e p index child_ht) := by
  revert p index child_ht
  cases dir
  · refine SegTree.move_next_branch.fixpoint_induct E.calm e (fun f => ∀ (p : Nat) (index : Nat) (child_ht : Nat),
      Same false (SegTree.move_next_branch E e p index child_ht) (f p index child_ht)) (adm3 fun _ _ _ => admR _) ?_
    intro f ih p index child_ht
    unfold SegTree.move_next_branch
    calm
  · refine SegTree.move_next_branch.fixpoint_induct E e (fun f => ∀ (p : Nat) (index : Nat) (child_ht : Nat),
      Same true (f p index child_ht) (SegTree.move_next_branch E.calm e p index child_ht)) (adm3 fun _ _ _ => admL _) ?_
    intro f ih p index child_ht
    unfold SegTree.move_next_branch
    calm
instance move_next_leaf (e : Entry) : Same dir (SegTree.move_next_leaf E e : M α Entry) (SegTree.move_next_leaf E.calm e) := by
  unfold SegTree.move_next_leaf
  calm
instance move_next_segment (e : Entry) : Same dir (SegTree.move_next_segment E e : M α Entry) (SegTree.move_next_segment E.calm e) := by
  unfold SegTree.move_next_segment
  calm
instance move_next_iterator (it : Iter) : Same dir (SegTree.move_next_iterator E it : M α Iter) (SegTree.move_next_iterator E.calm it) := by
  unfold SegTree.move_next_iterator
  calm
instance move_prev_branch (p : Nat) (index : Nat) (child_ht : Nat) : Same dir (SegTree.move_prev_branch E p index child_ht : M α Entry) (SegTree.move_prev_branch E.calm p index child_ht) := by
  revert p index child_ht
  cases dir
  · refine SegTree.move_prev_branch.fixpoint_induct E.calm (fun f => ∀ (p : Nat) (index : Nat) (child_ht : Nat),
      Same false (SegTree.move_prev_branch E p index child_ht) (f p index child_ht)) (adm3 fun _ _ _ => admR _) ?_
    intro f ih p index child_ht
    unfold SegTree.move_prev_branch
    calm
  · refine SegTree.move_prev_branch.fixpoint_induct E (fun f => ∀ (p : Nat) (index : Nat) (child_ht : Nat),
      Same true (f p index child_ht) (SegTree.move_prev_branch E.calm p index child_ht)) (adm3 fun _ _ _ => admL _) ?_
    intro f ih p index child_ht
    unfold SegTree.move_prev_branch
    calm
instance move_prev_leaf (e : Entry) : Same dir (SegTree.move_prev_leaf E e : M α Entry) (SegTree.move_prev_leaf E.calm e) := by
  unfold SegTree.move_prev_leaf
  calm
instance move_prev_segment (e : Entry) : Same dir (SegTree.move_prev_segment E e : M α Entry) (SegTree.move_prev_segment E.calm e) := by
  unfold SegTree.move_prev_segment
  calm
instance move_prev_iterator (it : Iter) : Same dir (SegTree.move_prev_iterator E it : M α Iter) (SegTree.move_prev_iterator E.calm it) := by
  unfold SegTree.move_prev_iterator
  calm
instance scan_next (p : Nat) (index : Nat) (count : Nat) : Same dir (SegTree.scan_next E p index count : M α ((Nat × Nat × Nat) ⊕ Nat)) (SegTree.scan_next E.calm p index count) := by
  revert index count
  cases dir
  · refine SegTree.scan_next.fixpoint_induct E.calm p (fun f => ∀ (index : Nat) (count : Nat),
      Same false (SegTree.scan_next E p index count) (f index count)) (adm2 fun _ _ => admR _) ?_
    intro f ih index count
    unfold SegTree.scan_next
    calm
  · refine SegTree.scan_next.fixpoint_induct E p (fun f => ∀ (index : Nat) (count : Nat),
      Same true (f index count) (SegTree.scan_next E.calm p index count)) (adm2 fun _ _ => admL _) ?_
    intro f ih index count
    unfold SegTree.scan_next
    calm
instance move_next_branch_count (base : Nat) (p : Nat) (index : Nat) (count : Nat) (child_ht : Nat) : Same dir (SegTree.move_next_branch_count E base p index count child_ht : M α Entry) (SegTree.move_next_branch_count E.calm base p index count child_ht) := by
  revert base p index count child_ht
  cases dir
  · refine SegTree.move_next_branch_count.fixpoint_induct E.calm (fun f => ∀ (base : Nat) (p : Nat) (index : Nat) (count : Nat) (child_ht : Nat),
      Same false (SegTree.move_next_branch_count E base p index count child_ht) (f base p index count child_ht)) (adm5 fun _ _ _ _ _ => admR _) ?_
    intro f ih base p index count child_ht
    unfold SegTree.move_next_branch_count
    calm
  · refine SegTree.move_next_branch_count.fixpoint_induct E (fun f => ∀ (base : Nat) (p : Nat) (index : Nat) (count : Nat) (child_ht : Nat),
      Same true (f base p index count child_ht) (SegTree.move_next_branch_count E.calm base p index count child_ht)) (adm5 fun _ _ _ _ _ => admL _) ?_
    intro f ih base p index count child_ht
    unfold SegTree.move_next_branch_count
    calm
instance move_next_leaf_count (e : Entry) (count : Nat) : Same dir (SegTree.move_next_leaf_count E e count : M α Entry) (SegTree.move_next_leaf_count E.calm e count) := by
  unfold SegTree.move_next_leaf_count
  calm
instance move_next_segment_count (e : Entry) (count : Nat) : Same dir (SegTree.move_next_segment_count E e count : M α Entry) (SegTree.move_next_segment_count E.calm e count) := by
  unfold SegTree.move_next_segment_count
  calm
instance move_next_iterator_count (it : Iter) (count : Nat) : Same dir (SegTree.move_next_iterator_count E it count : M α Iter) (SegTree.move_next_iterator_count E.calm it count) := by
  unfold SegTree.move_next_iterator_count
  calm
instance scan_prev (p : Nat) (index : Nat) (count : Nat) : Same dir (SegTree.scan_prev E p index count : M α ((Nat × Nat × Nat) ⊕ Nat)) (SegTree.scan_prev E.calm p index count) := by
  revert index count
  cases dir
  · refine SegTree.scan_prev.fixpoint_induct E.calm p (fun f => ∀ (index : Nat) (count : Nat),
      Same false (SegTree.scan_prev E p index count) (f index count)) (adm2 fun _ _ => admR _) ?_
    intro f ih index count
    unfold SegTree.scan_prev
    calm
  · refine SegTree.scan_prev.fixpoint_induct E p (fun f => ∀ (index : Nat) (count : Nat),
      Same true (f index count) (SegTree.scan_prev E.calm p index count)) (adm2 fun _ _ => admL _) ?_
    intro f ih index count
    unfold SegTree.scan_prev
    calm
instance move_prev_branch_count (p : Nat) (index : Nat) (count : Nat) (child_ht : Nat) : Same dir (SegTree.move_prev_branch_count E p index count child_ht : M α Entry) (SegTree.move_prev_branch_count E.calm p index count child_ht) := by
  revert p index count child_ht
  cases dir
  · refine SegTree.move_prev_branch_count.fixpoint_induct E.calm (fun f => ∀ (p : Nat) (index : Nat) (count : Nat) (child_ht : Nat),
      Same false (SegTree.move_prev_branch_count E p index count child_ht) (f p index count child_ht)) (adm4 fun _ _ _ _ => admR _) ?_
    intro f ih p index count child_ht
    unfold SegTree.move_prev_branch_count
    calm
  · refine SegTree.move_prev_branch_count.fixpoint_induct E (fun f => ∀ (p : Nat) (index : Nat) (count : Nat) (child_ht : Nat),
      Same true (f p index count child_ht) (SegTree.move_prev_branch_count E.calm p index count child_ht)) (adm4 fun _ _ _ _ => admL _) ?_
    intro f ih p index count child_ht
    unfold SegTree.move_prev_branch_count
    calm
instance move_prev_leaf_count (e : Entry) (count : Nat) : Same dir (SegTree.move_prev_leaf_count E e count : M α Entry) (SegTree.move_prev_leaf_count E.calm e count) := by
  unfold SegTree.move_prev_leaf_count
  calm
instance move_prev_segment_count (e : Entry) (count : Nat) : Same dir (SegTree.move_prev_segment_count E e count : M α Entry) (SegTree.move_prev_segment_count E.calm e count) := by
  unfold SegTree.move_prev_segment_count
  calm
instance move_prev_iterator_count (it : Iter) (count : Nat) : Same dir (SegTree.move_prev_iterator_count E it count : M α Iter) (SegTree.move_prev_iterator_count E.calm it count) := by
  unfold SegTree.move_prev_iterator_count
  calm
instance move_iterator_count (it : Iter) (diff : Int) : Same dir (SegTree.move_iterator_count E it diff : M α Iter) (SegTree.move_iterator_count E.calm it diff) := by
  unfold SegTree.move_iterator_count
  calm
instance dereference (it : Iter) : Same dir (SegTree.dereference E it : M α α) (SegTree.dereference E.calm it) := by
  unfold SegTree.dereference
  calm
instance dereference_count (it : Iter) (diff : Int) : Same dir (SegTree.dereference_count E it diff : M α α) (SegTree.dereference_count E.calm it diff) := by
  unfold SegTree.dereference_count
  calm
instance move_after_segment (it : Iter) : Same dir (SegTree.move_after_segment E it : M α Iter) (SegTree.move_after_segment E.calm it) := by
  unfold SegTree.move_after_segment
  calm
instance move_after_segment_count (it : Iter) (count : Nat) : Same dir (SegTree.move_after_segment_count E it count : M α Iter) (SegTree.move_after_segment_count E.calm it count) := by
  unfold SegTree.move_after_segment_count
  calm
instance move_before_segment (it : Iter) : Same dir (SegTree.move_before_segment E it : M α Iter) (SegTree.move_before_segment E.calm it) := by
  unfold SegTree.move_before_segment
  calm
instance move_before_segment_count (it : Iter) (count : Nat) : Same dir (SegTree.move_before_segment_count E it count : M α Iter) (SegTree.move_before_segment_count E.calm it count) := by
  unfold SegTree.move_before_segment_count
  calm
instance allocate_segment (o : Nat) : Same dir (SegTree.allocate_segment E o : M α Nat) (SegTree.allocate_segment E.calm o) := by
  unfold SegTree.allocate_segment
  calm
instance allocNodeCell (w : Nat) : Same dir (SegTree.allocNodeCell E w : M α Nat) (SegTree.allocNodeCell E.calm w) := refl _
instance allocate_node (o : Nat) : Same dir (SegTree.allocate_node E o : M α Nat) (SegTree.allocate_node E.calm o) := by
  unfold SegTree.allocate_node
  calm
instance destroy_segment (p : Nat) (i : Nat) : Same dir (SegTree.destroy_segment E p i : M α Unit) (SegTree.destroy_segment E.calm p i) := by
  unfold SegTree.destroy_segment
  calm
instance destroy_node (p : Nat) (i : Nat) : Same dir (SegTree.destroy_node E p i : M α Unit) (SegTree.destroy_node E.calm p i) := by
  unfold SegTree.destroy_node
  calm
instance freeSeg (a p : Nat) : Same dir (SegTree.freeSeg E a p : M α Unit) (SegTree.freeSeg E.calm a p) := refl _
instance freeNode (a p : Nat) : Same dir (SegTree.freeNode a p : M α Unit) (SegTree.freeNode a p) := refl _
instance deallocate_segment (o : Nat) (p : Nat) : Same dir (SegTree.deallocate_segment E o p : M α Unit) (SegTree.deallocate_segment E.calm o p) := by
  unfold SegTree.deallocate_segment
  calm
instance deallocate_node (o : Nat) (p : Nat) : Same dir (SegTree.deallocate_node E o p : M α Unit) (SegTree.deallocate_node E.calm o p) := by
  unfold SegTree.deallocate_node
  calm
instance purge_segment (o : Nat) (p : Nat) (sz : Nat) : Same dir (SegTree.purge_segment E o p sz : M α Unit) (SegTree.purge_segment E.calm o p sz) := by
  unfold SegTree.purge_segment
  calm
theorem purge_node_s (o : Nat) : ∀ (ht p : Nat), Same dir (SegTree.purge_node E o ht p) (SegTree.purge_node E.calm o ht p)
  | 0, _ => ub _
  | 1, _ => ub _
  | 2, p => by unfold SegTree.purge_node; calm
  | ht + 3, p => by
    have ih := purge_node_s o (ht + 2)
    unfold SegTree.purge_node; calm
instance purge_node (o ht p : Nat) : Same dir (SegTree.purge_node E o ht p) (SegTree.purge_node E.calm o ht p) := purge_node_s o ht p
instance purge_root (o : Nat) (p : Nat) (sz : Nat) (ht : Nat) : Same dir (SegTree.purge_root E o p sz ht : M α Unit) (SegTree.purge_root E.calm o p sz ht) := by
  unfold SegTree.purge_root
  calm
instance purge (o : Nat) : Same dir (SegTree.purge E o : M α Unit) (SegTree.purge E.calm o) := by
  unfold SegTree.purge
  calm
instance construct_segment (p : Nat) (i : Nat) (v : α) : Same dir (SegTree.construct_segment E p i v : M α Unit) (SegTree.construct_segment E.calm p i v) := by
  unfold SegTree.construct_segment
  calm
instance construct_leaf (p : Nat) (i : Nat) (csz : Nat) (child : Nat) : Same dir (SegTree.construct_leaf E p i csz child : M α Nat) (SegTree.construct_leaf E.calm p i csz child) := by
  unfold SegTree.construct_leaf
  calm
instance construct_branch (p : Nat) (i : Nat) (csz : Nat) (child : Nat) : Same dir (SegTree.construct_branch E p i csz child : M α Nat) (SegTree.construct_branch E.calm p i csz child) := by
  unfold SegTree.construct_branch
  calm
instance assign_segment (p : Nat) (i : Nat) (v : α) : Same dir (SegTree.assign_segment E p i v : M α Unit) (SegTree.assign_segment E.calm p i v) := by
  unfold SegTree.assign_segment
  calm
instance assign_leaf (p : Nat) (i : Nat) (csz : Nat) (child : Nat) : Same dir (SegTree.assign_leaf E p i csz child : M α Nat) (SegTree.assign_leaf E.calm p i csz child) := by
  unfold SegTree.assign_leaf
  calm
instance assign_branch (p : Nat) (i : Nat) (csz : Nat) (child : Nat) : Same dir (SegTree.assign_branch E p i csz child : M α Nat) (SegTree.assign_branch E.calm p i csz child) := by
  unfold SegTree.assign_branch
  calm
instance move_assign_segment (src : Nat) (si : Nat) (dst : Nat) (di : Nat) : Same dir (SegTree.move_assign_segment E src si dst di : M α Unit) (SegTree.move_assign_segment E.calm src si dst di) := by
  unfold SegTree.move_assign_segment
  calm
instance move_assign_leaf (src : Nat) (si : Nat) (dst : Nat) (di : Nat) : Same dir (SegTree.move_assign_leaf E src si dst di : M α Nat) (SegTree.move_assign_leaf E.calm src si dst di) := by
  unfold SegTree.move_assign_leaf
  calm
instance move_assign_branch (src : Nat) (si : Nat) (dst : Nat) (di : Nat) : Same dir (SegTree.move_assign_branch E src si dst di : M α Nat) (SegTree.move_assign_branch E.calm src si dst di) := by
  unfold SegTree.move_assign_branch
  calm
instance move_segment (src : Nat) (si : Nat) (dst : Nat) (di : Nat) : Same dir (SegTree.move_segment E src si dst di : M α Unit) (SegTree.move_segment E.calm src si dst di) := by
  unfold SegTree.move_segment
  calm
instance move_leaf (src : Nat) (si : Nat) (dst : Nat) (di : Nat) : Same dir (SegTree.move_leaf E src si dst di : M α Nat) (SegTree.move_leaf E.calm src si dst di) := by
  unfold SegTree.move_leaf
  calm
instance move_branch (src : Nat) (si : Nat) (dst : Nat) (di : Nat) : Same dir (SegTree.move_branch E src si dst di : M α Nat) (SegTree.move_branch E.calm src si dst di) := by
  unfold SegTree.move_branch
  calm
instance memcpy_segment (src : Nat) (si : Nat) (dst : Nat) (di : Nat) (n : Nat) : Same dir (SegTree.memcpy_segment E src si dst di n : M α Unit) (SegTree.memcpy_segment E.calm src si dst di n) := by
  unfold SegTree.memcpy_segment
  calm
instance construct_range_segment (src : Nat) (si : Nat) (dst : Nat) (di : Nat) (count : Nat) : Same dir (SegTree.construct_range_segment E src si dst di count : M α Unit) (SegTree.construct_range_segment E.calm src si dst di count) := by
  unfold SegTree.construct_range_segment
  calm
instance construct_range_leaf (src : Nat) (si : Nat) (dst : Nat) (di : Nat) (count : Nat) : Same dir (SegTree.construct_range_leaf E src si dst di count : M α Nat) (SegTree.construct_range_leaf E.calm src si dst di count) := by
  unfold SegTree.construct_range_leaf
  calm
instance construct_range_branch (src : Nat) (si : Nat) (dst : Nat) (di : Nat) (count : Nat) : Same dir (SegTree.construct_range_branch E src si dst di count : M α Nat) (SegTree.construct_range_branch E.calm src si dst di count) := by
  unfold SegTree.construct_range_branch
  calm
instance assign_forward_segment (p : Nat) (length : Nat) (index : Nat) (distance : Nat) : Same dir (SegTree.assign_forward_segment E p length index distance : M α Unit) (SegTree.assign_forward_segment E.calm p length index distance) := by
  unfold SegTree.assign_forward_segment
  calm
instance assign_forward_leaf (p : Nat) (length : Nat) (index : Nat) (distance : Nat) : Same dir (SegTree.assign_forward_leaf E p length index distance : M α Unit) (SegTree.assign_forward_leaf E.calm p length index distance) := by
  unfold SegTree.assign_forward_leaf
  calm
instance assign_forward_branch (p : Nat) (length : Nat) (index : Nat) (distance : Nat) : Same dir (SegTree.assign_forward_branch E p length index distance : M α Unit) (SegTree.assign_forward_branch E.calm p length index distance) := by
  unfold SegTree.assign_forward_branch
  calm
instance assign_backward_segment (p : Nat) (length : Nat) (index : Nat) (distance : Nat) : Same dir (SegTree.assign_backward_segment E p length index distance : M α Unit) (SegTree.assign_backward_segment E.calm p length index distance) := by
  unfold SegTree.assign_backward_segment
  calm
instance assign_backward_leaf (p : Nat) (length : Nat) (index : Nat) (distance : Nat) : Same dir (SegTree.assign_backward_leaf E p length index distance : M α Unit) (SegTree.assign_backward_leaf E.calm p length index distance) := by
  unfold SegTree.assign_backward_leaf
  calm
instance assign_backward_branch (p : Nat) (length : Nat) (index : Nat) (distance : Nat) : Same dir (SegTree.assign_backward_branch E p length index distance : M α Unit) (SegTree.assign_backward_branch E.calm p length index distance) := by
  unfold SegTree.assign_backward_branch
  calm
instance update_sizes (o : Nat) (p : Nat) (index : Nat) (sz : Nat) : Same dir (SegTree.update_sizes E o p index sz : M α Unit) (SegTree.update_sizes E.calm o p index sz) := by
  revert p index
  cases dir
  · refine SegTree.update_sizes.fixpoint_induct E.calm o sz (fun f => ∀ (p : Nat) (index : Nat),
      Same false (SegTree.update_sizes E o p index sz) (f p index)) (adm2 fun _ _ => admR _) ?_
    intro f ih p index
    unfold SegTree.update_sizes
    calm
  · refine SegTree.update_sizes.fixpoint_induct E o sz (fun f => ∀ (p : Nat) (index : Nat),
      Same true (f p index) (SegTree.update_sizes E.calm o p index sz)) (adm2 fun _ _ => admL _) ?_
    intro f ih p index
    unfold SegTree.update_sizes
    calm
instance increment_sizes (o : Nat) (p : Nat) (index : Nat) : Same dir (SegTree.increment_sizes E o p index : M α Unit) (SegTree.increment_sizes E.calm o p index) := by
  unfold SegTree.increment_sizes
  calm
instance decrement_sizes (o : Nat) (p : Nat) (index : Nat) : Same dir (SegTree.decrement_sizes E o p index : M α Unit) (SegTree.decrement_sizes E.calm o p index) := by
  unfold SegTree.decrement_sizes
  calm
instance free_chain (o : Nat) (alloc : Nat) : Same dir (SegTree.free_chain E o alloc : M α Unit) (SegTree.free_chain E.calm o alloc) := by
  revert alloc
  cases dir
  · refine SegTree.free_chain.fixpoint_induct E.calm o (fun f => ∀ (alloc : Nat),
      Same false (SegTree.free_chain E o alloc) (f alloc)) (adm1 fun _ => admR _) ?_
    intro f ih alloc
    unfold SegTree.free_chain
    calm
  · refine SegTree.free_chain.fixpoint_induct E o (fun f => ∀ (alloc : Nat),
      Same true (f alloc) (SegTree.free_chain E.calm o alloc)) (adm1 fun _ => admL _) ?_
    intro f ih alloc
    unfold SegTree.free_chain
    calm
instance alloc_catch (o : Nat) (segment_alloc : Nat) (alloc : Nat) : Same dir (SegTree.alloc_catch E o segment_alloc alloc : M α Unit) (SegTree.alloc_catch E.calm o segment_alloc alloc) := by
  unfold SegTree.alloc_catch
  calm
instance alloc_nodes_loop (o : Nat) (p : Nat) (segment_alloc : Nat) (alloc : Nat) : Same dir (SegTree.alloc_nodes_loop E o p segment_alloc alloc : M α Nat) (SegTree.alloc_nodes_loop E.calm o p segment_alloc alloc) := by
  revert p alloc
  cases dir
  · refine SegTree.alloc_nodes_loop.fixpoint_induct E.calm o segment_alloc (fun f => ∀ (p : Nat) (alloc : Nat),
      Same false (SegTree.alloc_nodes_loop E o p segment_alloc alloc) (f p alloc)) (adm2 fun _ _ => admR _) ?_
    intro f ih p alloc
    unfold SegTree.alloc_nodes_loop
    calm
  · refine SegTree.alloc_nodes_loop.fixpoint_induct E o segment_alloc (fun f => ∀ (p : Nat) (alloc : Nat),
      Same true (f p alloc) (SegTree.alloc_nodes_loop E.calm o p segment_alloc alloc)) (adm2 fun _ _ => admL _) ?_
    intro f ih p alloc
    unfold SegTree.alloc_nodes_loop
    calm
instance alloc_nodes_single (o : Nat) (p : Nat) (segment_alloc : Nat) : Same dir (SegTree.alloc_nodes_single E o p segment_alloc : M α Nat) (SegTree.alloc_nodes_single E.calm o p segment_alloc) := by
  unfold SegTree.alloc_nodes_single
  calm
instance insert_single_branch (o : Nat) (base : Nat) (p : Nat) (index : Nat) (alloc : Nat) (child_pointer : Nat) (child_size : Nat) : Same dir (SegTree.insert_single_branch E o base p index alloc child_pointer child_size : M α Unit) (SegTree.insert_single_branch E.calm o base p index alloc child_pointer child_size) := by
  revert base p index alloc child_pointer child_size
  cases dir
  · refine SegTree.insert_single_branch.fixpoint_induct E.calm o (fun f => ∀ (base : Nat) (p : Nat) (index : Nat) (alloc : Nat) (child_pointer : Nat) (child_size : Nat),
      Same false (SegTree.insert_single_branch E o base p index alloc child_pointer child_size) (f base p index alloc child_pointer child_size)) (adm6 fun _ _ _ _ _ _ => admR _) ?_
    intro f ih base p index alloc child_pointer child_size
    unfold SegTree.insert_single_branch
    calm
  · refine SegTree.insert_single_branch.fixpoint_induct E o (fun f => ∀ (base : Nat) (p : Nat) (index : Nat) (alloc : Nat) (child_pointer : Nat) (child_size : Nat),
      Same true (f base p index alloc child_pointer child_size) (SegTree.insert_single_branch E.calm o base p index alloc child_pointer child_size)) (adm6 fun _ _ _ _ _ _ => admL _) ?_
    intro f ih base p index alloc child_pointer child_size
    unfold SegTree.insert_single_branch
    calm
instance insert_single_leaf (o : Nat) (entry : Entry) (base : Nat) (p : Nat) (index : Nat) (alloc : Nat) (child_pointer : Nat) (child_size : Nat) : Same dir (SegTree.insert_single_leaf E o entry base p index alloc child_pointer child_size : M α Entry) (SegTree.insert_single_leaf E.calm o entry base p index alloc child_pointer child_size) := by
  unfold SegTree.insert_single_leaf
  calm
instance insert_single_segment (o : Nat) (entry : Entry) (value : α) : Same dir (SegTree.insert_single_segment E o entry value : M α Entry) (SegTree.insert_single_segment E.calm o entry value) := by
  unfold SegTree.insert_single_segment
  calm
instance insert_single_iterator (o : Nat) (it : Iter) (value : α) : Same dir (SegTree.insert_single_iterator E o it value : M α Iter) (SegTree.insert_single_iterator E.calm o it value) := by
  unfold SegTree.insert_single_iterator
  calm
instance erase_single_branch (o : Nat) (p : Nat) (index : Nat) : Same dir (SegTree.erase_single_branch E o p index : M α Unit) (SegTree.erase_single_branch E.calm o p index) := by
  revert p index
  cases dir
  · refine SegTree.erase_single_branch.fixpoint_induct E.calm o (fun f => ∀ (p : Nat) (index : Nat),
      Same false (SegTree.erase_single_branch E o p index) (f p index)) (adm2 fun _ _ => admR _) ?_
    intro f ih p index
    unfold SegTree.erase_single_branch
    calm
  · refine SegTree.erase_single_branch.fixpoint_induct E o (fun f => ∀ (p : Nat) (index : Nat),
      Same true (f p index) (SegTree.erase_single_branch E.calm o p index)) (adm2 fun _ _ => admL _) ?_
    intro f ih p index
    unfold SegTree.erase_single_branch
    calm
instance erase_single_leaf (o : Nat) (entry : LeafE) (p : Nat) (index : Nat) : Same dir (SegTree.erase_single_leaf E o entry p index : M α LeafE) (SegTree.erase_single_leaf E.calm o entry p index) := by
  unfold SegTree.erase_single_leaf
  calm
instance erase_single_segment (o : Nat) (entry : Entry) : Same dir (SegTree.erase_single_segment E o entry : M α Entry) (SegTree.erase_single_segment E.calm o entry) := by
  unfold SegTree.erase_single_segment
  calm
instance erase_single_iterator (o : Nat) (it : Iter) : Same dir (SegTree.erase_single_iterator E o it : M α Iter) (SegTree.erase_single_iterator E.calm o it) := by
  unfold SegTree.erase_single_iterator
  calm
instance find_index (o : Nat) (pos : Nat) : Same dir (SegTree.find_index E o pos : M α Iter) (SegTree.find_index E.calm o pos) := by
  unfold SegTree.find_index
  calm
instance find_first (o : Nat) : Same dir (SegTree.find_first E o : M α Iter) (SegTree.find_first E.calm o) := by
  unfold SegTree.find_first
  calm
instance find_last (o : Nat) : Same dir (SegTree.find_last E o : M α Iter) (SegTree.find_last E.calm o) := by
  unfold SegTree.find_last
  calm
instance find_end (o : Nat) : Same dir (SegTree.find_end E o : M α Iter) (SegTree.find_end E.calm o) := by
  unfold SegTree.find_end
  calm
instance steal (o other : Nat) : Same dir (SegTree.steal o other : M α Unit) (SegTree.steal o other) := refl _
instance copyVal (v : α) : Same dir (SegTree.copyVal E v : M α α) (SegTree.copyVal E.calm v) := refl _
instance copyAssign (p : Nat) (i : Nat) (v : α) : Same dir (SegTree.copyAssign E p i v : M α Unit) (SegTree.copyAssign E.calm p i v) := by
  unfold SegTree.copyAssign
  calm
instance moveFrom (p : Nat) (i : Nat) : Same dir (SegTree.moveFrom E p i : M α α) (SegTree.moveFrom E.calm p i) := by
  unfold SegTree.moveFrom
  calm
instance emplace_single (o : Nat) (it : Iter) {mk mk0 : M α α} [hmk : Same dir mk mk0] : Same dir (SegTree.emplace_single E o it mk : M α Iter) (SegTree.emplace_single E.calm o it mk0) := by
  unfold SegTree.emplace_single
  calm
instance emplace_count_loop (o : Nat) {mk mk0 : M α α} [Same dir mk mk0] (n : Nat) (it : Iter) :
    Same dir (SegTree.emplace_count_loop E o mk n it) (SegTree.emplace_count_loop E.calm o mk0 n it) := by
  induction n generalizing it with
  | zero => exact pure _
  | succ n ih => unfold SegTree.emplace_count_loop; calm
instance emplace_count (o : Nat) (it : Iter) (count : Nat) {mk mk0 : M α α} [hmk : Same dir mk mk0] : Same dir (SegTree.emplace_count E o it count mk : M α Iter) (SegTree.emplace_count E.calm o it count mk0) := by
  unfold SegTree.emplace_count
  calm
instance emplace_range_loop {σ : Type} {S S0 : Src α σ} [hS : SameSrc dir S S0] (o : Nat) (it : Iter) (first : σ) (count : Nat) : Same dir (SegTree.emplace_range_loop E S o it first count : M α (Iter × Nat)) (SegTree.emplace_range_loop E.calm S0 o it first count) := by
  have hrS := hS.read
  have hnS := hS.next
  revert it first count
  cases dir
  · refine SegTree.emplace_range_loop.fixpoint_induct E.calm S0 o (fun f => ∀ (it : Iter) (first : σ) (count : Nat),
      Same false (SegTree.emplace_range_loop E S o it first count) (f it first count)) (adm3 fun _ _ _ => admR _) ?_
    intro f ih it first count
    unfold SegTree.emplace_range_loop
    try simp only [hS.done]
    calm
  · refine SegTree.emplace_range_loop.fixpoint_induct E S o (fun f => ∀ (it : Iter) (first : σ) (count : Nat),
      Same true (f it first count) (SegTree.emplace_range_loop E.calm S0 o it first count)) (adm3 fun _ _ _ => admL _) ?_
    intro f ih it first count
    unfold SegTree.emplace_range_loop
    try simp only [hS.done]
    calm
instance emplace_range {σ : Type} {S S0 : Src α σ} [hS : SameSrc dir S S0] (o : Nat) (it : Iter) (first : σ) : Same dir (SegTree.emplace_range E S o it first : M α Iter) (SegTree.emplace_range E.calm S0 o it first) := by
  have hrS := hS.read
  have hnS := hS.next
  unfold SegTree.emplace_range
  try simp only [hS.done]
  calm
instance listSrc  : SameSrc dir (SegTree.listSrc E ) (SegTree.listSrc E.calm ) where
  done _ := rfl
  read l := by cases l <;> (simp only [SegTree.listSrc]; calm)
  next l := by simp only [SegTree.listSrc]; calm
instance copySrc (last : Iter) : SameSrc dir (SegTree.copySrc E last) (SegTree.copySrc E.calm last) where
  done _ := rfl
  read l := by (simp only [SegTree.copySrc]; calm)
  next l := by simp only [SegTree.copySrc]; calm
instance moveSrc (last : Iter) : SameSrc dir (SegTree.moveSrc E last) (SegTree.moveSrc E.calm last) where
  done _ := rfl
  read l := by (simp only [SegTree.moveSrc]; calm)
  next l := by simp only [SegTree.moveSrc]; calm
instance erase_single (o : Nat) (it : Iter) : Same dir (SegTree.erase_single E o it : M α Iter) (SegTree.erase_single E.calm o it) := by
  unfold SegTree.erase_single
  calm
instance erase_range (o : Nat) (first : Iter) (last : Iter) : Same dir (SegTree.erase_range E o first last : M α Iter) (SegTree.erase_range E.calm o first last) := by
  revert last
  cases dir
  · refine SegTree.erase_range.fixpoint_induct E.calm o first (fun f => ∀ (last : Iter),
      Same false (SegTree.erase_range E o first last) (f last)) (adm1 fun _ => admR _) ?_
    intro f ih last
    unfold SegTree.erase_range
    calm
  · refine SegTree.erase_range.fixpoint_induct E o first (fun f => ∀ (last : Iter),
      Same true (f last) (SegTree.erase_range E.calm o first last)) (adm1 fun _ => admL _) ?_
    intro f ih last
    unfold SegTree.erase_range
    calm
instance assign_count_loop (o : Nat) {src src0 : M α α} [hsrc : Same dir src src0] (count : Nat) (first : Iter) (last : Iter) : Same dir (SegTree.assign_count_loop E o src count first last : M α Unit) (SegTree.assign_count_loop E.calm o src0 count first last) := by
  revert count first
  cases dir
  · refine SegTree.assign_count_loop.fixpoint_induct E.calm o src0 last (fun f => ∀ (count : Nat) (first : Iter),
      Same false (SegTree.assign_count_loop E o src count first last) (f count first)) (adm2 fun _ _ => admR _) ?_
    intro f ih count first
    unfold SegTree.assign_count_loop
    calm
  · refine SegTree.assign_count_loop.fixpoint_induct E o src last (fun f => ∀ (count : Nat) (first : Iter),
      Same true (f count first) (SegTree.assign_count_loop E.calm o src0 count first last)) (adm2 fun _ _ => admL _) ?_
    intro f ih count first
    unfold SegTree.assign_count_loop
    calm
instance assign_count (o : Nat) (count : Nat) {src src0 : M α α} [hsrc : Same dir src src0] : Same dir (SegTree.assign_count E o count src : M α Unit) (SegTree.assign_count E.calm o count src0) := by
  unfold SegTree.assign_count
  calm
instance assign_range_loop {σ : Type} {S S0 : Src α σ} [hS : SameSrc dir S S0] (o : Nat) (source : σ) (first : Iter) (last : Iter) : Same dir (SegTree.assign_range_loop E S o source first last : M α Unit) (SegTree.assign_range_loop E.calm S0 o source first last) := by
  have hrS := hS.read
  have hnS := hS.next
  revert source first
  cases dir
  · refine SegTree.assign_range_loop.fixpoint_induct E.calm S0 o last (fun f => ∀ (source : σ) (first : Iter),
      Same false (SegTree.assign_range_loop E S o source first last) (f source first)) (adm2 fun _ _ => admR _) ?_
    intro f ih source first
    unfold SegTree.assign_range_loop
    try simp only [hS.done]
    calm
  · refine SegTree.assign_range_loop.fixpoint_induct E S o last (fun f => ∀ (source : σ) (first : Iter),
      Same true (f source first) (SegTree.assign_range_loop E.calm S0 o source first last)) (adm2 fun _ _ => admL _) ?_
    intro f ih source first
    unfold SegTree.assign_range_loop
    try simp only [hS.done]
    calm
instance assign_range {σ : Type} {S S0 : Src α σ} [hS : SameSrc dir S S0] (o : Nat) (source : σ) : Same dir (SegTree.assign_range E S o source : M α Unit) (SegTree.assign_range E.calm S0 o source) := by
  have hrS := hS.read
  have hnS := hS.next
  unfold SegTree.assign_range
  try simp only [hS.done]
  calm
instance resize_count (o : Nat) (count : Nat) {mk mk0 : M α α} [hmk : Same dir mk mk0] : Same dir (SegTree.resize_count E o count mk : M α Unit) (SegTree.resize_count E.calm o count mk0) := by
  unfold SegTree.resize_count
  calm
instance clear (o : Nat) : Same dir (SegTree.clear E o : M α Unit) (SegTree.clear E.calm o) := by
  unfold SegTree.clear
  calm
instance copy_assign_alloc (o : Nat) (other : Nat) : Same dir (SegTree.copy_assign_alloc E o other : M α Unit) (SegTree.copy_assign_alloc E.calm o other) := by
  unfold SegTree.copy_assign_alloc
  calm
instance move_assign_alloc (o : Nat) (other : Nat) : Same dir (SegTree.move_assign_alloc E o other : M α Unit) (SegTree.move_assign_alloc E.calm o other) := by
  unfold SegTree.move_assign_alloc
  calm
instance move_assign_steal (o : Nat) (other : Nat) : Same dir (SegTree.move_assign_steal E o other : M α Unit) (SegTree.move_assign_steal E.calm o other) := by
  unfold SegTree.move_assign_steal
  calm
instance move_assign (o : Nat) (other : Nat) : Same dir (SegTree.move_assign E o other : M α Unit) (SegTree.move_assign E.calm o other) := by
  unfold SegTree.move_assign
  calm
instance ctor (o alloc : Nat) : Same dir (SegTree.ctor o alloc : M α Unit) (SegTree.ctor o alloc) := refl _
instance dropObj (o : Nat) : Same dir (SegTree.dropObj o : M α Unit) (SegTree.dropObj o) := refl _
instance dtor (o : Nat) : Same dir (SegTree.dtor E o : M α Unit) (SegTree.dtor E.calm o) := by
  unfold SegTree.dtor
  calm
instance ctor_move (o other : Nat) : Same dir (SegTree.ctor_move o other : M α Unit) (SegTree.ctor_move o other) := refl _
instance assign_copy (o : Nat) (other : Nat) : Same dir (SegTree.assign_copy E o other : M α Unit) (SegTree.assign_copy E.calm o other) := by
  unfold SegTree.assign_copy
  calm
instance assign_move (o : Nat) (other : Nat) : Same dir (SegTree.assign_move E o other : M α Unit) (SegTree.assign_move E.calm o other) := by
  unfold SegTree.assign_move
  calm
instance assign_list (o : Nat) (vs : List α) : Same dir (SegTree.assign_list E o vs : M α Unit) (SegTree.assign_list E.calm o vs) := by
  unfold SegTree.assign_list
  calm
instance assign_fill (o : Nat) (count : Nat) (v : α) : Same dir (SegTree.assign_fill E o count v : M α Unit) (SegTree.assign_fill E.calm o count v) := by
  unfold SegTree.assign_fill
  calm
instance at_ (o : Nat) (pos : Nat) : Same dir (SegTree.at_ E o pos : M α α) (SegTree.at_ E.calm o pos) := by
  unfold SegTree.at_
  calm
instance index_op (o : Nat) (pos : Nat) : Same dir (SegTree.index_op E o pos : M α α) (SegTree.index_op E.calm o pos) := by
  unfold SegTree.index_op
  calm
instance index_set (o : Nat) (pos : Nat) (v : α) : Same dir (SegTree.index_set E o pos v : M α Unit) (SegTree.index_set E.calm o pos v) := by
  unfold SegTree.index_set
  calm
instance deref_set (it : Iter) (v : α) : Same dir (SegTree.deref_set E it v : M α Unit) (SegTree.deref_set E.calm it v) := by
  unfold SegTree.deref_set
  calm
instance deref_set_rv (it : Iter) (v : α) : Same dir (SegTree.deref_set_rv E it v : M α Unit) (SegTree.deref_set_rv E.calm it v) := by
  unfold SegTree.deref_set_rv
  calm
instance front (o : Nat) : Same dir (SegTree.front E o : M α α) (SegTree.front E.calm o) := by
  unfold SegTree.front
  calm
instance back (o : Nat) : Same dir (SegTree.back E o : M α α) (SegTree.back E.calm o) := by
  unfold SegTree.back
  calm
instance begin_ (o : Nat) : Same dir (SegTree.begin_ E o : M α Iter) (SegTree.begin_ E.calm o) := by
  unfold SegTree.begin_
  calm
instance penultimate (o : Nat) : Same dir (SegTree.penultimate E o : M α Iter) (SegTree.penultimate E.calm o) := by
  unfold SegTree.penultimate
  calm
instance end_ (o : Nat) : Same dir (SegTree.end_ E o : M α Iter) (SegTree.end_ E.calm o) := by
  unfold SegTree.end_
  calm
instance rev_deref (it : Iter) : Same dir (SegTree.rev_deref E it : M α α) (SegTree.rev_deref E.calm it) := by
  unfold SegTree.rev_deref
  calm
instance nth (o : Nat) (pos : Nat) : Same dir (SegTree.nth E o pos : M α Iter) (SegTree.nth E.calm o pos) := by
  unfold SegTree.nth
  calm
instance empty (o : Nat) : Same dir (SegTree.empty o : M α Bool) (SegTree.empty o) := refl _
instance size (o : Nat) : Same dir (SegTree.size o : M α Nat) (SegTree.size o) := refl _
instance height (o : Nat) : Same dir (SegTree.height o : M α Nat) (SegTree.height o) := refl _
instance get_allocator (o : Nat) : Same dir (SegTree.get_allocator o : M α Nat) (SegTree.get_allocator o) := refl _
instance insert (o : Nat) (it : Iter) (v : α) : Same dir (SegTree.insert E o it v : M α Iter) (SegTree.insert E.calm o it v) := by
  unfold SegTree.insert
  calm
instance insert_rv (o : Nat) (it : Iter) (v : α) : Same dir (SegTree.insert_rv E o it v : M α Iter) (SegTree.insert_rv E.calm o it v) := by
  unfold SegTree.insert_rv
  calm
instance insert_alias (o : Nat) (it : Iter) (src : Iter) : Same dir (SegTree.insert_alias E o it src : M α Iter) (SegTree.insert_alias E.calm o it src) := by
  unfold SegTree.insert_alias
  calm
instance insert_fill (o : Nat) (it : Iter) (count : Nat) (v : α) : Same dir (SegTree.insert_fill E o it count v : M α Iter) (SegTree.insert_fill E.calm o it count v) := by
  unfold SegTree.insert_fill
  calm
instance insert_fill_alias (o : Nat) (it : Iter) (count : Nat) (src : Iter) : Same dir (SegTree.insert_fill_alias E o it count src : M α Iter) (SegTree.insert_fill_alias E.calm o it count src) := by
  unfold SegTree.insert_fill_alias
  calm
instance insert_list (o : Nat) (it : Iter) (vs : List α) : Same dir (SegTree.insert_list E o it vs : M α Iter) (SegTree.insert_list E.calm o it vs) := by
  unfold SegTree.insert_list
  calm
instance erase (o : Nat) (it : Iter) : Same dir (SegTree.erase E o it : M α Iter) (SegTree.erase E.calm o it) := by
  unfold SegTree.erase
  calm
instance erase_rng (o : Nat) (first : Iter) (last : Iter) : Same dir (SegTree.erase_rng E o first last : M α Iter) (SegTree.erase_rng E.calm o first last) := by
  unfold SegTree.erase_rng
  calm
instance push_back (o : Nat) (v : α) : Same dir (SegTree.push_back E o v : M α Unit) (SegTree.push_back E.calm o v) := by
  unfold SegTree.push_back
  calm
instance push_back_rv (o : Nat) (v : α) : Same dir (SegTree.push_back_rv E o v : M α Unit) (SegTree.push_back_rv E.calm o v) := by
  unfold SegTree.push_back_rv
  calm
instance pop_back (o : Nat) : Same dir (SegTree.pop_back E o : M α Unit) (SegTree.pop_back E.calm o) := by
  unfold SegTree.pop_back
  calm
instance push_front (o : Nat) (v : α) : Same dir (SegTree.push_front E o v : M α Unit) (SegTree.push_front E.calm o v) := by
  unfold SegTree.push_front
  calm
instance push_front_rv (o : Nat) (v : α) : Same dir (SegTree.push_front_rv E o v : M α Unit) (SegTree.push_front_rv E.calm o v) := by
  unfold SegTree.push_front_rv
  calm
instance pop_front (o : Nat) : Same dir (SegTree.pop_front E o : M α Unit) (SegTree.pop_front E.calm o) := by
  unfold SegTree.pop_front
  calm
instance resize (o : Nat) (count : Nat) (v : α) : Same dir (SegTree.resize E o count v : M α Unit) (SegTree.resize E.calm o count v) := by
  unfold SegTree.resize
  calm
instance swap (o : Nat) (other : Nat) : Same dir (SegTree.swap E o other : M α Unit) (SegTree.swap E.calm o other) := by
  unfold SegTree.swap
  calm
instance splice (o : Nat) (pos : Iter) (other : Nat) : Same dir (SegTree.splice E o pos other : M α Unit) (SegTree.splice E.calm o pos other) := by
  unfold SegTree.splice
  calm
instance splice_one (o : Nat) (pos : Iter) (other : Nat) (it : Iter) : Same dir (SegTree.splice_one E o pos other it : M α Unit) (SegTree.splice_one E.calm o pos other it) := by
  unfold SegTree.splice_one
  calm
instance splice_range (o : Nat) (pos : Iter) (other : Nat) (first : Iter) (last : Iter) : Same dir (SegTree.splice_range E o pos other first last : M α Unit) (SegTree.splice_range E.calm o pos other first last) := by
  unfold SegTree.splice_range
  calm
instance std_find_if (p : α → Bool) (first : Iter) (last : Iter) : Same dir (SegTree.std_find_if E p first last : M α Iter) (SegTree.std_find_if E.calm p first last) := by
  revert first
  cases dir
  · refine SegTree.std_find_if.fixpoint_induct E.calm p last (fun f => ∀ (first : Iter),
      Same false (SegTree.std_find_if E p first last) (f first)) (adm1 fun _ => admR _) ?_
    intro f ih first
    unfold SegTree.std_find_if
    calm
  · refine SegTree.std_find_if.fixpoint_induct E p last (fun f => ∀ (first : Iter),
      Same true (f first) (SegTree.std_find_if E.calm p first last)) (adm1 fun _ => admL _) ?_
    intro f ih first
    unfold SegTree.std_find_if
    calm
instance iter_move_assign (src : Iter) (dst : Iter) : Same dir (SegTree.iter_move_assign E src dst : M α Unit) (SegTree.iter_move_assign E.calm src dst) := by
  unfold SegTree.iter_move_assign
  calm
instance std_remove_loop (p : α → Bool) (first : Iter) (i : Iter) (last : Iter) : Same dir (SegTree.std_remove_loop E p first i last : M α Iter) (SegTree.std_remove_loop E.calm p first i last) := by
  revert first i
  cases dir
  · refine SegTree.std_remove_loop.fixpoint_induct E.calm p last (fun f => ∀ (first : Iter) (i : Iter),
      Same false (SegTree.std_remove_loop E p first i last) (f first i)) (adm2 fun _ _ => admR _) ?_
    intro f ih first i
    unfold SegTree.std_remove_loop
    calm
  · refine SegTree.std_remove_loop.fixpoint_induct E p last (fun f => ∀ (first : Iter) (i : Iter),
      Same true (f first i) (SegTree.std_remove_loop E.calm p first i last)) (adm2 fun _ _ => admL _) ?_
    intro f ih first i
    unfold SegTree.std_remove_loop
    calm
instance std_remove_if (p : α → Bool) (first : Iter) (last : Iter) : Same dir (SegTree.std_remove_if E p first last : M α Iter) (SegTree.std_remove_if E.calm p first last) := by
  unfold SegTree.std_remove_if
  calm
instance remove_if (o : Nat) (p : α → Bool) : Same dir (SegTree.remove_if E o p : M α Unit) (SegTree.remove_if E.calm o p) := by
  unfold SegTree.remove_if
  calm
instance remove (o : Nat) (eq : α → α → Bool) (v : α) : Same dir (SegTree.remove E o eq v : M α Unit) (SegTree.remove E.calm o eq v) := by
  unfold SegTree.remove
  calm
instance iter_swap (a : Iter) (b : Iter) : Same dir (SegTree.iter_swap E a b : M α Unit) (SegTree.iter_swap E.calm a b) := by
  unfold SegTree.iter_swap
  calm
instance std_reverse_loop (first : Iter) (last : Iter) : Same dir (SegTree.std_reverse_loop E first last : M α Unit) (SegTree.std_reverse_loop E.calm first last) := by
  revert first last
  cases dir
  · refine SegTree.std_reverse_loop.fixpoint_induct E.calm (fun f => ∀ (first : Iter) (last : Iter),
      Same false (SegTree.std_reverse_loop E first last) (f first last)) (adm2 fun _ _ => admR _) ?_
    intro f ih first last
    unfold SegTree.std_reverse_loop
    calm
  · refine SegTree.std_reverse_loop.fixpoint_induct E (fun f => ∀ (first : Iter) (last : Iter),
      Same true (f first last) (SegTree.std_reverse_loop E.calm first last)) (adm2 fun _ _ => admL _) ?_
    intro f ih first last
    unfold SegTree.std_reverse_loop
    calm
instance std_reverse (first : Iter) (last : Iter) : Same dir (SegTree.std_reverse E first last : M α Unit) (SegTree.std_reverse E.calm first last) := by
  unfold SegTree.std_reverse
  calm
instance reverse (o : Nat) : Same dir (SegTree.reverse E o : M α Unit) (SegTree.reverse E.calm o) := by
  unfold SegTree.reverse
  calm
instance std_unique_loop (p : α → α → Bool) (result : Iter) (first : Iter) (last : Iter) : Same dir (SegTree.std_unique_loop E p result first last : M α Iter) (SegTree.std_unique_loop E.calm p result first last) := by
  revert result first
  cases dir
  · refine SegTree.std_unique_loop.fixpoint_induct E.calm p last (fun f => ∀ (result : Iter) (first : Iter),
      Same false (SegTree.std_unique_loop E p result first last) (f result first)) (adm2 fun _ _ => admR _) ?_
    intro f ih result first
    unfold SegTree.std_unique_loop
    calm
  · refine SegTree.std_unique_loop.fixpoint_induct E p last (fun f => ∀ (result : Iter) (first : Iter),
      Same true (f result first) (SegTree.std_unique_loop E.calm p result first last)) (adm2 fun _ _ => admL _) ?_
    intro f ih result first
    unfold SegTree.std_unique_loop
    calm
instance std_unique (p : α → α → Bool) (first : Iter) (last : Iter) : Same dir (SegTree.std_unique E p first last : M α Iter) (SegTree.std_unique E.calm p first last) := by
  unfold SegTree.std_unique
  calm
instance unique (o : Nat) (p : α → α → Bool) : Same dir (SegTree.unique E o p : M α Unit) (SegTree.unique E.calm o p) := by
  unfold SegTree.unique
  calm
instance std_equal (eq : α → α → Bool) (first1 : Iter) (last1 : Iter) (first2 : Iter) : Same dir (SegTree.std_equal E eq first1 last1 first2 : M α Bool) (SegTree.std_equal E.calm eq first1 last1 first2) := by
  revert first1 first2
  cases dir
  · refine SegTree.std_equal.fixpoint_induct E.calm eq last1 (fun f => ∀ (first1 : Iter) (first2 : Iter),
      Same false (SegTree.std_equal E eq first1 last1 first2) (f first1 first2)) (adm2 fun _ _ => admR _) ?_
    intro f ih first1 first2
    unfold SegTree.std_equal
    calm
  · refine SegTree.std_equal.fixpoint_induct E eq last1 (fun f => ∀ (first1 : Iter) (first2 : Iter),
      Same true (f first1 first2) (SegTree.std_equal E.calm eq first1 last1 first2)) (adm2 fun _ _ => admL _) ?_
    intro f ih first1 first2
    unfold SegTree.std_equal
    calm
instance op_eq (eq : α → α → Bool) (a : Nat) (b : Nat) : Same dir (SegTree.op_eq E eq a b : M α Bool) (SegTree.op_eq E.calm eq a b) := by
  unfold SegTree.op_eq
  calm
instance op_ne (eq : α → α → Bool) (a : Nat) (b : Nat) : Same dir (SegTree.op_ne E eq a b : M α Bool) (SegTree.op_ne E.calm eq a b) := by
  unfold SegTree.op_ne
  calm
instance std_lex (lt : α → α → Bool) (first1 : Iter) (last1 : Iter) (first2 : Iter) (last2 : Iter) : Same dir (SegTree.std_lex E lt first1 last1 first2 last2 : M α Bool) (SegTree.std_lex E.calm lt first1 last1 first2 last2) := by
  revert first1 first2
  cases dir
  · refine SegTree.std_lex.fixpoint_induct E.calm lt last1 last2 (fun f => ∀ (first1 : Iter) (first2 : Iter),
      Same false (SegTree.std_lex E lt first1 last1 first2 last2) (f first1 first2)) (adm2 fun _ _ => admR _) ?_
    intro f ih first1 first2
    unfold SegTree.std_lex
    calm
  · refine SegTree.std_lex.fixpoint_induct E lt last1 last2 (fun f => ∀ (first1 : Iter) (first2 : Iter),
      Same true (f first1 first2) (SegTree.std_lex E.calm lt first1 last1 first2 last2)) (adm2 fun _ _ => admL _) ?_
    intro f ih first1 first2
    unfold SegTree.std_lex
    calm
instance op_lt (lt : α → α → Bool) (a : Nat) (b : Nat) : Same dir (SegTree.op_lt E lt a b : M α Bool) (SegTree.op_lt E.calm lt a b) := by
  unfold SegTree.op_lt
  calm
instance op_le (lt : α → α → Bool) (a : Nat) (b : Nat) : Same dir (SegTree.op_le E lt a b : M α Bool) (SegTree.op_le E.calm lt a b) := by
  unfold SegTree.op_le
  calm
instance op_gt (lt : α → α → Bool) (a : Nat) (b : Nat) : Same dir (SegTree.op_gt E lt a b : M α Bool) (SegTree.op_gt E.calm lt a b) := by
  unfold SegTree.op_gt
  calm
instance op_ge (lt : α → α → Bool) (a : Nat) (b : Nat) : Same dir (SegTree.op_ge E lt a b : M α Bool) (SegTree.op_ge E.calm lt a b) := by
  unfold SegTree.op_ge
  calm
instance it_add (it : Iter) (d : Int) : Same dir (SegTree.it_add E it d : M α Iter) (SegTree.it_add E.calm it d) := by
  unfold SegTree.it_add
  calm
instance it_sub (it : Iter) (d : Int) : Same dir (SegTree.it_sub E it d : M α Iter) (SegTree.it_sub E.calm it d) := by
  unfold SegTree.it_sub
  calm
instance it_index (it : Iter) (d : Int) : Same dir (SegTree.it_index E it d : M α α) (SegTree.it_index E.calm it d) := by
  unfold SegTree.it_index
  calm

end Same
end SegTree
