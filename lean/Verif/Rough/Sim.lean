/-
  GENERATED by tools/gen_cost.py: every function of the model, with moves that may
  throw at any moment, does what it does without them, or ends in an element exception.
-/
import Verif.Rough.Lag
set_option autoImplicit false
set_option linter.unusedVariables false
set_option linter.unusedSimpArgs false
set_option synthInstance.maxSize 2000
set_option synthInstance.maxHeartbeats 400000

namespace SegTree
variable {α β γ : Type} [Moves α] {E : Env α} {dir : Bool}
namespace Lag

instance rdNode (p : Nat) : Lag dir (Rough.rdNode p : N α Node) (SegTree.rdNode p) := lift _
instance rdNode_x (p : Nat) : Exact (Rough.rdNode p : N α Node) (SegTree.rdNode p) := Exact.lift _
instance wrNode (p : Nat) (n : Node) : Lag dir (Rough.wrNode p n : N α Unit) (SegTree.wrNode p n) := lift _
instance wrNode_x (p : Nat) (n : Node) : Exact (Rough.wrNode p n : N α Unit) (SegTree.wrNode p n) := Exact.lift _
instance len (p : Nat) : Lag dir (Rough.len p : N α Nat) (SegTree.len p) := by
  unfold Rough.len SegTree.len
  lag
instance setLen (p : Nat) (v : Nat) : Lag dir (Rough.setLen p v : N α Unit) (SegTree.setLen p v) := by
  unfold Rough.setLen SegTree.setLen
  lag
instance parent (p : Nat) : Lag dir (Rough.parent p : N α Nat) (SegTree.parent p) := by
  unfold Rough.parent SegTree.parent
  lag
instance setParent (p : Nat) (v : Nat) : Lag dir (Rough.setParent p v : N α Unit) (SegTree.setParent p v) := by
  unfold Rough.setParent SegTree.setParent
  lag
instance pidx (p : Nat) : Lag dir (Rough.pidx p : N α Nat) (SegTree.pidx p) := by
  unfold Rough.pidx SegTree.pidx
  lag
instance setPidx (p : Nat) (v : Nat) : Lag dir (Rough.setPidx p v : N α Unit) (SegTree.setPidx p v) := by
  unfold Rough.setPidx SegTree.setPidx
  lag
instance sizesAt (p : Nat) (i : Nat) : Lag dir (Rough.sizesAt E p i : N α Nat) (SegTree.sizesAt E.calm p i) := by
  unfold Rough.sizesAt SegTree.sizesAt
  lag
instance setSizes (p : Nat) (i : Nat) (v : Nat) : Lag dir (Rough.setSizes E p i v : N α Unit) (SegTree.setSizes E.calm p i v) := by
  unfold Rough.setSizes SegTree.setSizes
  lag
instance ptrsAt (p : Nat) (i : Nat) : Lag dir (Rough.ptrsAt E p i : N α Nat) (SegTree.ptrsAt E.calm p i) := by
  unfold Rough.ptrsAt SegTree.ptrsAt
  lag
instance setPtrs (p : Nat) (i : Nat) (v : Nat) : Lag dir (Rough.setPtrs E p i v : N α Unit) (SegTree.setPtrs E.calm p i v) := by
  unfold Rough.setPtrs SegTree.setPtrs
  lag
instance rdSlots (p : Nat) : Lag dir (Rough.rdSlots p : N α (Nat → Slot α)) (SegTree.rdSlots p) := lift _
instance rdSlots_x (p : Nat) : Exact (Rough.rdSlots p : N α (Nat → Slot α)) (SegTree.rdSlots p) := Exact.lift _
instance wrSlots (p : Nat) (s : Nat → Slot α) : Lag dir (Rough.wrSlots p s : N α Unit) (SegTree.wrSlots p s) := lift _
instance wrSlots_x (p : Nat) (s : Nat → Slot α) : Exact (Rough.wrSlots p s : N α Unit) (SegTree.wrSlots p s) := Exact.lift _
instance rdElem (p : Nat) (i : Nat) : Lag dir (Rough.rdElem E p i : N α α) (SegTree.rdElem E.calm p i) := by
  unfold Rough.rdElem SegTree.rdElem
  lag
instance wrElem (p : Nat) (i : Nat) (v : α) : Lag dir (Rough.wrElem E p i v : N α Unit) (SegTree.wrElem E.calm p i v) := by
  unfold Rough.wrElem SegTree.wrElem
  lag
instance rdObj (o : Nat) : Lag dir (Rough.rdObj o : N α SeqObj) (SegTree.rdObj o) := lift _
instance rdObj_x (o : Nat) : Exact (Rough.rdObj o : N α SeqObj) (SegTree.rdObj o) := Exact.lift _
instance wrObj (o : Nat) (s : SeqObj) : Lag dir (Rough.wrObj o s : N α Unit) (SegTree.wrObj o s) := lift _
instance wrObj_x (o : Nat) (s : SeqObj) : Exact (Rough.wrObj o s : N α Unit) (SegTree.wrObj o s) := Exact.lift _
instance getRoot (o : Nat) : Lag dir (Rough.getRoot o : N α Nat) (SegTree.getRoot o) := by
  unfold Rough.getRoot SegTree.getRoot
  lag
instance getSize (o : Nat) : Lag dir (Rough.getSize o : N α Nat) (SegTree.getSize o) := by
  unfold Rough.getSize SegTree.getSize
  lag
instance getHeight (o : Nat) : Lag dir (Rough.getHeight o : N α Nat) (SegTree.getHeight o) := by
  unfold Rough.getHeight SegTree.getHeight
  lag
instance setRoot (o : Nat) (v : Nat) : Lag dir (Rough.setRoot o v : N α Unit) (SegTree.setRoot o v) := by
  unfold Rough.setRoot SegTree.setRoot
  lag
instance setSize (o : Nat) (v : Nat) : Lag dir (Rough.setSize o v : N α Unit) (SegTree.setSize o v) := by
  unfold Rough.setSize SegTree.setSize
  lag
instance setHeight (o : Nat) (v : Nat) : Lag dir (Rough.setHeight o v : N α Unit) (SegTree.setHeight o v) := by
  unfold Rough.setHeight SegTree.setHeight
  lag
instance allocCell (c : Cell α) : Lag dir (Rough.allocCell E c : N α Nat) (SegTree.allocCell E.calm c) := lift _
instance allocCell_x (c : Cell α) : Exact (Rough.allocCell E c : N α Nat) (SegTree.allocCell E.calm c) := Exact.lift _
instance find_index_loop (p : Nat) (index : Nat) (size : Nat) (pos : Nat) : Lag dir (Rough.find_index_loop E p index size pos : N α (Nat × Nat)) (SegTree.find_index_loop E.calm p index size pos) := by
  revert index size pos
  cases dir
  · refine SegTree.find_index_loop.fixpoint_induct E.calm p (fun f => ∀ (index : Nat) (size : Nat) (pos : Nat),
      Lag false (Rough.find_index_loop E p index size pos) (f index size pos)) (Same.adm3 fun _ _ _ => admR _) ?_
    intro f ih index size pos
    unfold Rough.find_index_loop
    lag
  · refine Rough.find_index_loop.fixpoint_induct E p (fun f => ∀ (index : Nat) (size : Nat) (pos : Nat),
      Lag true (f index size pos) (SegTree.find_index_loop E.calm p index size pos)) (adm3 fun _ _ _ => admL _) ?_
    intro f ih index size pos
    unfold SegTree.find_index_loop
    lag
instance find_index_leaf (p : Nat) (pos : Nat) : Lag dir (Rough.find_index_leaf E p pos : N α Entry) (SegTree.find_index_leaf E.calm p pos) := by
  unfold Rough.find_index_leaf SegTree.find_index_leaf
  lag
instance find_index_branch (p : Nat) (ht : Nat) (pos : Nat) : Lag dir (Rough.find_index_branch E p ht pos : N α Entry) (SegTree.find_index_branch E.calm p ht pos) := by
  revert p ht pos
  cases dir
  · refine SegTree.find_index_branch.fixpoint_induct E.calm (fun f => ∀ (p : Nat) (ht : Nat) (pos : Nat),
      Lag false (Rough.find_index_branch E p ht pos) (f p ht pos)) (Same.adm3 fun _ _ _ => admR _) ?_
    intro f ih p ht pos
    unfold Rough.find_index_branch
    lag
  · refine Rough.find_index_branch.fixpoint_induct E (fun f => ∀ (p : Nat) (ht : Nat) (pos : Nat),
      Lag true (f p ht pos) (SegTree.find_index_branch E.calm p ht pos)) (adm3 fun _ _ _ => admL _) ?_
    intro f ih p ht pos
    unfold SegTree.find_index_branch
    lag
instance find_index_node (p : Nat) (ht : Nat) (pos : Nat) : Lag dir (Rough.find_index_node E p ht pos : N α Entry) (SegTree.find_index_node E.calm p ht pos) := by
  unfold Rough.find_index_node SegTree.find_index_node
  lag
instance find_index_root (p : Nat) (sz : Nat) (ht : Nat) (pos : Nat) : Lag dir (Rough.find_index_root E p sz ht pos : N α Iter) (SegTree.find_index_root E.calm p sz ht pos) := by
  unfold Rough.find_index_root SegTree.find_index_root
  lag
instance find_first_leaf (p : Nat) : Lag dir (Rough.find_first_leaf E p : N α Entry) (SegTree.find_first_leaf E.calm p) := by
  unfold Rough.find_first_leaf SegTree.find_first_leaf
  lag
instance find_first_branch (p : Nat) (ht : Nat) : Lag dir (Rough.find_first_branch E p ht : N α Entry) (SegTree.find_first_branch E.calm p ht) := by
  revert p ht
  cases dir
  · refine SegTree.find_first_branch.fixpoint_induct E.calm (fun f => ∀ (p : Nat) (ht : Nat),
      Lag false (Rough.find_first_branch E p ht) (f p ht)) (Same.adm2 fun _ _ => admR _) ?_
    intro f ih p ht
    unfold Rough.find_first_branch
    lag
  · refine Rough.find_first_branch.fixpoint_induct E (fun f => ∀ (p : Nat) (ht : Nat),
      Lag true (f p ht) (SegTree.find_first_branch E.calm p ht)) (adm2 fun _ _ => admL _) ?_
    intro f ih p ht
    unfold SegTree.find_first_branch
    lag
instance find_first_node (p : Nat) (ht : Nat) : Lag dir (Rough.find_first_node E p ht : N α Entry) (SegTree.find_first_node E.calm p ht) := by
  unfold Rough.find_first_node SegTree.find_first_node
  lag
instance find_first_root (p : Nat) (sz : Nat) (ht : Nat) : Lag dir (Rough.find_first_root E p sz ht : N α Iter) (SegTree.find_first_root E.calm p sz ht) := by
  unfold Rough.find_first_root SegTree.find_first_root
  lag
instance find_last_segment (p : Nat) (sz : Nat) : Lag dir (Rough.find_last_segment p sz : N α SegE) (SegTree.find_last_segment p sz) := by
  unfold Rough.find_last_segment SegTree.find_last_segment
  lag
instance find_last_leaf (p : Nat) : Lag dir (Rough.find_last_leaf E p : N α Entry) (SegTree.find_last_leaf E.calm p) := by
  unfold Rough.find_last_leaf SegTree.find_last_leaf
  lag
instance find_last_branch (p : Nat) (ht : Nat) : Lag dir (Rough.find_last_branch E p ht : N α Entry) (SegTree.find_last_branch E.calm p ht) := by
  revert p ht
  cases dir
  · refine SegTree.find_last_branch.fixpoint_induct E.calm (fun f => ∀ (p : Nat) (ht : Nat),
      Lag false (Rough.find_last_branch E p ht) (f p ht)) (Same.adm2 fun _ _ => admR _) ?_
    intro f ih p ht
    unfold Rough.find_last_branch
    lag
  · refine Rough.find_last_branch.fixpoint_induct E (fun f => ∀ (p : Nat) (ht : Nat),
      Lag true (f p ht) (SegTree.find_last_branch E.calm p ht)) (adm2 fun _ _ => admL _) ?_
    intro f ih p ht
    unfold SegTree.find_last_branch
    lag
instance find_last_node (p : Nat) (ht : Nat) : Lag dir (Rough.find_last_node E p ht : N α Entry) (SegTree.find_last_node E.calm p ht) := by
  unfold Rough.find_last_node SegTree.find_last_node
  lag
instance find_last_root (p : Nat) (sz : Nat) (ht : Nat) : Lag dir (Rough.find_last_root E p sz ht : N α Iter) (SegTree.find_last_root E.calm p sz ht) := by
  unfold Rough.find_last_root SegTree.find_last_root
  lag
instance find_end_leaf (p : Nat) : Lag dir (Rough.find_end_leaf E p : N α Entry) (SegTree.find_end_leaf E.calm p) := by
  unfold Rough.find_end_leaf SegTree.find_end_leaf
  lag
instance find_end_branch (p : Nat) (ht : Nat) : Lag dir (Rough.find_end_branch E p ht : N α Entry) (SegTree.find_end_branch E.calm p ht) := by
  revert p ht
  cases dir
  · refine SegTree.find_end_branch.fixpoint_induct E.calm (fun f => ∀ (p : Nat) (ht : Nat),
      Lag false (Rough.find_end_branch E p ht) (f p ht)) (Same.adm2 fun _ _ => admR _) ?_
    intro f ih p ht
    unfold Rough.find_end_branch
    lag
  · refine Rough.find_end_branch.fixpoint_induct E (fun f => ∀ (p : Nat) (ht : Nat),
      Lag true (f p ht) (SegTree.find_end_branch E.calm p ht)) (adm2 fun _ _ => admL _) ?_
    intro f ih p ht
    unfold SegTree.find_end_branch
    lag
instance find_end_node (p : Nat) (ht : Nat) : Lag dir (Rough.find_end_node E p ht : N α Entry) (SegTree.find_end_node E.calm p ht) := by
  unfold Rough.find_end_node SegTree.find_end_node
  lag
instance find_end_root (p : Nat) (sz : Nat) (ht : Nat) : Lag dir (Rough.find_end_root E p sz ht : N α Iter) (SegTree.find_end_root E.calm p sz ht) := by
  unfold Rough.find_end_root SegTree.find_end_root
  lag
instance move_next_branch (e : Entry) (p : Nat) (index : Nat) (child_ht : Nat) : Lag dir (Rough.move_next_branch E e p index child_ht : N α Entry) (SegTree.move_next_branch E.calm e p index child_ht) := by
  revert p index child_ht
  cases dir
  · refine SegTree.move_next_branch.fixpoint_induct E.calm e (fun f => ∀ (p : Nat) (index : Nat) (child_ht : Nat),
      Lag false (Rough.move_next_branch E e p index child_ht) (f p index child_ht)) (Same.adm3 fun _ _ _ => admR _) ?_
    intro f ih p index child_ht
    unfold Rough.move_next_branch
    lag
  · refine Rough.move_next_branch.fixpoint_induct E e (fun f => ∀ (p : Nat) (index : Nat) (child_ht : Nat),
      Lag true (f p index child_ht) (SegTree.move_next_branch E.calm e p index child_ht)) (adm3 fun _ _ _ => admL _) ?_
    intro f ih p index child_ht
    unfold SegTree.move_next_branch
    lag
instance move_next_leaf (e : Entry) : Lag dir (Rough.move_next_leaf E e : N α Entry) (SegTree.move_next_leaf E.calm e) := by
  unfold Rough.move_next_leaf SegTree.move_next_leaf
  lag
instance move_next_segment (e : Entry) : Lag dir (Rough.move_next_segment E e : N α Entry) (SegTree.move_next_segment E.calm e) := by
  unfold Rough.move_next_segment SegTree.move_next_segment
  lag
instance move_next_iterator (it : Iter) : Lag dir (Rough.move_next_iterator E it : N α Iter) (SegTree.move_next_iterator E.calm it) := by
  unfold Rough.move_next_iterator SegTree.move_next_iterator
  lag
instance move_prev_branch (p : Nat) (index : Nat) (child_ht : Nat) : Lag dir (Rough.move_prev_branch E p index child_ht : N α Entry) (SegTree.move_prev_branch E.calm p index child_ht) := by
  revert p index child_ht
  cases dir
  · refine SegTree.move_prev_branch.fixpoint_induct E.calm (fun f => ∀ (p : Nat) (index : Nat) (child_ht : Nat),
      Lag false (Rough.move_prev_branch E p index child_ht) (f p index child_ht)) (Same.adm3 fun _ _ _ => admR _) ?_
    intro f ih p index child_ht
    unfold Rough.move_prev_branch
    lag
  · refine Rough.move_prev_branch.fixpoint_induct E (fun f => ∀ (p : Nat) (index : Nat) (child_ht : Nat),
      Lag true (f p index child_ht) (SegTree.move_prev_branch E.calm p index child_ht)) (adm3 fun _ _ _ => admL _) ?_
    intro f ih p index child_ht
    unfold SegTree.move_prev_branch
    lag
instance move_prev_leaf (e : Entry) : Lag dir (Rough.move_prev_leaf E e : N α Entry) (SegTree.move_prev_leaf E.calm e) := by
  unfold Rough.move_prev_leaf SegTree.move_prev_leaf
  lag
instance move_prev_segment (e : Entry) : Lag dir (Rough.move_prev_segment E e : N α Entry) (SegTree.move_prev_segment E.calm e) := by
  unfold Rough.move_prev_segment SegTree.move_prev_segment
  lag
instance move_prev_iterator (it : Iter) : Lag dir (Rough.move_prev_iterator E it : N α Iter) (SegTree.move_prev_iterator E.calm it) := by
  unfold Rough.move_prev_iterator SegTree.move_prev_iterator
  lag
instance scan_next (p : Nat) (index : Nat) (count : Nat) : Lag dir (Rough.scan_next E p index count : N α ((Nat × Nat × Nat) ⊕ Nat)) (SegTree.scan_next E.calm p index count) := by
  revert index count
  cases dir
  · refine SegTree.scan_next.fixpoint_induct E.calm p (fun f => ∀ (index : Nat) (count : Nat),
      Lag false (Rough.scan_next E p index count) (f index count)) (Same.adm2 fun _ _ => admR _) ?_
    intro f ih index count
    unfold Rough.scan_next
    lag
  · refine Rough.scan_next.fixpoint_induct E p (fun f => ∀ (index : Nat) (count : Nat),
      Lag true (f index count) (SegTree.scan_next E.calm p index count)) (adm2 fun _ _ => admL _) ?_
    intro f ih index count
    unfold SegTree.scan_next
    lag
instance move_next_branch_count (base : Nat) (p : Nat) (index : Nat) (count : Nat) (child_ht : Nat) : Lag dir (Rough.move_next_branch_count E base p index count child_ht : N α Entry) (SegTree.move_next_branch_count E.calm base p index count child_ht) := by
  revert base p index count child_ht
  cases dir
  · refine SegTree.move_next_branch_count.fixpoint_induct E.calm (fun f => ∀ (base : Nat) (p : Nat) (index : Nat) (count : Nat) (child_ht : Nat),
      Lag false (Rough.move_next_branch_count E base p index count child_ht) (f base p index count child_ht)) (Same.adm5 fun _ _ _ _ _ => admR _) ?_
    intro f ih base p index count child_ht
    unfold Rough.move_next_branch_count
    lag
  · refine Rough.move_next_branch_count.fixpoint_induct E (fun f => ∀ (base : Nat) (p : Nat) (index : Nat) (count : Nat) (child_ht : Nat),
      Lag true (f base p index count child_ht) (SegTree.move_next_branch_count E.calm base p index count child_ht)) (adm5 fun _ _ _ _ _ => admL _) ?_
    intro f ih base p index count child_ht
    unfold SegTree.move_next_branch_count
    lag
instance move_next_leaf_count (e : Entry) (count : Nat) : Lag dir (Rough.move_next_leaf_count E e count : N α Entry) (SegTree.move_next_leaf_count E.calm e count) := by
  unfold Rough.move_next_leaf_count SegTree.move_next_leaf_count
  lag
instance move_next_segment_count (e : Entry) (count : Nat) : Lag dir (Rough.move_next_segment_count E e count : N α Entry) (SegTree.move_next_segment_count E.calm e count) := by
  unfold Rough.move_next_segment_count SegTree.move_next_segment_count
  lag
instance move_next_iterator_count (it : Iter) (count : Nat) : Lag dir (Rough.move_next_iterator_count E it count : N α Iter) (SegTree.move_next_iterator_count E.calm it count) := by
  unfold Rough.move_next_iterator_count SegTree.move_next_iterator_count
  lag
instance scan_prev (p : Nat) (index : Nat) (count : Nat) : Lag dir (Rough.scan_prev E p index count : N α ((Nat × Nat × Nat) ⊕ Nat)) (SegTree.scan_prev E.calm p index count) := by
  revert index count
  cases dir
  · refine SegTree.scan_prev.fixpoint_induct E.calm p (fun f => ∀ (index : Nat) (count : Nat),
      Lag false (Rough.scan_prev E p index count) (f index count)) (Same.adm2 fun _ _ => admR _) ?_
    intro f ih index count
    unfold Rough.scan_prev
    lag
  · refine Rough.scan_prev.fixpoint_induct E p (fun f => ∀ (index : Nat) (count : Nat),
      Lag true (f index count) (SegTree.scan_prev E.calm p index count)) (adm2 fun _ _ => admL _) ?_
    intro f ih index count
    unfold SegTree.scan_prev
    lag
instance move_prev_branch_count (p : Nat) (index : Nat) (count : Nat) (child_ht : Nat) : Lag dir (Rough.move_prev_branch_count E p index count child_ht : N α Entry) (SegTree.move_prev_branch_count E.calm p index count child_ht) := by
  revert p index count child_ht
  cases dir
  · refine SegTree.move_prev_branch_count.fixpoint_induct E.calm (fun f => ∀ (p : Nat) (index : Nat) (count : Nat) (child_ht : Nat),
      Lag false (Rough.move_prev_branch_count E p index count child_ht) (f p index count child_ht)) (Same.adm4 fun _ _ _ _ => admR _) ?_
    intro f ih p index count child_ht
    unfold Rough.move_prev_branch_count
    lag
  · refine Rough.move_prev_branch_count.fixpoint_induct E (fun f => ∀ (p : Nat) (index : Nat) (count : Nat) (child_ht : Nat),
      Lag true (f p index count child_ht) (SegTree.move_prev_branch_count E.calm p index count child_ht)) (adm4 fun _ _ _ _ => admL _) ?_
    intro f ih p index count child_ht
    unfold SegTree.move_prev_branch_count
    lag
instance move_prev_leaf_count (e : Entry) (count : Nat) : Lag dir (Rough.move_prev_leaf_count E e count : N α Entry) (SegTree.move_prev_leaf_count E.calm e count) := by
  unfold Rough.move_prev_leaf_count SegTree.move_prev_leaf_count
  lag
instance move_prev_segment_count (e : Entry) (count : Nat) : Lag dir (Rough.move_prev_segment_count E e count : N α Entry) (SegTree.move_prev_segment_count E.calm e count) := by
  unfold Rough.move_prev_segment_count SegTree.move_prev_segment_count
  lag
instance move_prev_iterator_count (it : Iter) (count : Nat) : Lag dir (Rough.move_prev_iterator_count E it count : N α Iter) (SegTree.move_prev_iterator_count E.calm it count) := by
  unfold Rough.move_prev_iterator_count SegTree.move_prev_iterator_count
  lag
instance move_iterator_count (it : Iter) (diff : Int) : Lag dir (Rough.move_iterator_count E it diff : N α Iter) (SegTree.move_iterator_count E.calm it diff) := by
  unfold Rough.move_iterator_count SegTree.move_iterator_count
  lag
instance dereference (it : Iter) : Lag dir (Rough.dereference E it : N α α) (SegTree.dereference E.calm it) := by
  unfold Rough.dereference SegTree.dereference
  lag
instance dereference_count (it : Iter) (diff : Int) : Lag dir (Rough.dereference_count E it diff : N α α) (SegTree.dereference_count E.calm it diff) := by
  unfold Rough.dereference_count SegTree.dereference_count
  lag
instance move_after_segment (it : Iter) : Lag dir (Rough.move_after_segment E it : N α Iter) (SegTree.move_after_segment E.calm it) := by
  unfold Rough.move_after_segment SegTree.move_after_segment
  lag
instance move_after_segment_count (it : Iter) (count : Nat) : Lag dir (Rough.move_after_segment_count E it count : N α Iter) (SegTree.move_after_segment_count E.calm it count) := by
  unfold Rough.move_after_segment_count SegTree.move_after_segment_count
  lag
instance move_before_segment (it : Iter) : Lag dir (Rough.move_before_segment E it : N α Iter) (SegTree.move_before_segment E.calm it) := by
  unfold Rough.move_before_segment SegTree.move_before_segment
  lag
instance move_before_segment_count (it : Iter) (count : Nat) : Lag dir (Rough.move_before_segment_count E it count : N α Iter) (SegTree.move_before_segment_count E.calm it count) := by
  unfold Rough.move_before_segment_count SegTree.move_before_segment_count
  lag
instance allocate_segment (o : Nat) : Lag dir (Rough.allocate_segment E o : N α Nat) (SegTree.allocate_segment E.calm o) := by
  unfold Rough.allocate_segment SegTree.allocate_segment
  lag
instance allocNodeCell (w : Nat) : Lag dir (Rough.allocNodeCell E w : N α Nat) (SegTree.allocNodeCell E.calm w) := lift _
instance allocNodeCell_x (w : Nat) : Exact (Rough.allocNodeCell E w : N α Nat) (SegTree.allocNodeCell E.calm w) := Exact.lift _
instance allocate_node_x (o : Nat) : Exact (Rough.allocate_node E o) (SegTree.allocate_node E.calm o) := by
  unfold Rough.allocate_node SegTree.allocate_node; uncalm; infer_instance
instance allocate_node (o : Nat) : Lag dir (Rough.allocate_node E o : N α Nat) (SegTree.allocate_node E.calm o) := by
  unfold Rough.allocate_node SegTree.allocate_node
  lag
instance destroy_segment (p : Nat) (i : Nat) : Lag dir (Rough.destroy_segment E p i : N α Unit) (SegTree.destroy_segment E.calm p i) := by
  unfold Rough.destroy_segment SegTree.destroy_segment
  lag
instance destroy_node (p : Nat) (i : Nat) : Lag dir (Rough.destroy_node E p i : N α Unit) (SegTree.destroy_node E.calm p i) := by
  unfold Rough.destroy_node SegTree.destroy_node
  lag
instance freeSeg (a p : Nat) : Lag dir (Rough.freeSeg E a p : N α Unit) (SegTree.freeSeg E.calm a p) := lift _
instance freeSeg_x (a p : Nat) : Exact (Rough.freeSeg E a p : N α Unit) (SegTree.freeSeg E.calm a p) := Exact.lift _
instance freeNode (a p : Nat) : Lag dir (Rough.freeNode a p : N α Unit) (SegTree.freeNode a p) := lift _
instance freeNode_x (a p : Nat) : Exact (Rough.freeNode a p : N α Unit) (SegTree.freeNode a p) := Exact.lift _
instance deallocate_segment (o : Nat) (p : Nat) : Lag dir (Rough.deallocate_segment E o p : N α Unit) (SegTree.deallocate_segment E.calm o p) := by
  unfold Rough.deallocate_segment SegTree.deallocate_segment
  lag
instance deallocate_node (o : Nat) (p : Nat) : Lag dir (Rough.deallocate_node E o p : N α Unit) (SegTree.deallocate_node E.calm o p) := by
  unfold Rough.deallocate_node SegTree.deallocate_node
  lag
instance purge_segment (o : Nat) (p : Nat) (sz : Nat) : Lag dir (Rough.purge_segment E o p sz : N α Unit) (SegTree.purge_segment E.calm o p sz) := by
  unfold Rough.purge_segment SegTree.purge_segment
  lag
theorem purge_node_s (o : Nat) : ∀ (ht p : Nat), Lag dir (Rough.purge_node E o ht p) (SegTree.purge_node E.calm o ht p)
  | 0, _ => ub _
  | 1, _ => ub _
  | 2, p => by unfold Rough.purge_node SegTree.purge_node; lag
  | ht + 3, p => by
    have ih := purge_node_s o (ht + 2)
    unfold Rough.purge_node SegTree.purge_node; lag
instance purge_node (o ht p : Nat) : Lag dir (Rough.purge_node E o ht p) (SegTree.purge_node E.calm o ht p) := purge_node_s o ht p
instance purge_root (o : Nat) (p : Nat) (sz : Nat) (ht : Nat) : Lag dir (Rough.purge_root E o p sz ht : N α Unit) (SegTree.purge_root E.calm o p sz ht) := by
  unfold Rough.purge_root SegTree.purge_root
  lag
instance purge (o : Nat) : Lag dir (Rough.purge E o : N α Unit) (SegTree.purge E.calm o) := by
  unfold Rough.purge SegTree.purge
  lag
instance construct_segment (p : Nat) (i : Nat) (v : α) : Lag dir (Rough.construct_segment E p i v : N α Unit) (SegTree.construct_segment E.calm p i v) := by
  unfold Rough.construct_segment SegTree.construct_segment
  lag
instance construct_leaf (p : Nat) (i : Nat) (csz : Nat) (child : Nat) : Lag dir (Rough.construct_leaf E p i csz child : N α Nat) (SegTree.construct_leaf E.calm p i csz child) := by
  unfold Rough.construct_leaf SegTree.construct_leaf
  lag
instance construct_branch (p : Nat) (i : Nat) (csz : Nat) (child : Nat) : Lag dir (Rough.construct_branch E p i csz child : N α Nat) (SegTree.construct_branch E.calm p i csz child) := by
  unfold Rough.construct_branch SegTree.construct_branch
  lag
instance assign_segment (p : Nat) (i : Nat) (v : α) : Lag dir (Rough.assign_segment E p i v : N α Unit) (SegTree.assign_segment E.calm p i v) := by
  unfold Rough.assign_segment SegTree.assign_segment
  lag
instance assign_leaf (p : Nat) (i : Nat) (csz : Nat) (child : Nat) : Lag dir (Rough.assign_leaf E p i csz child : N α Nat) (SegTree.assign_leaf E.calm p i csz child) := by
  unfold Rough.assign_leaf SegTree.assign_leaf
  lag
instance assign_branch (p : Nat) (i : Nat) (csz : Nat) (child : Nat) : Lag dir (Rough.assign_branch E p i csz child : N α Nat) (SegTree.assign_branch E.calm p i csz child) := by
  unfold Rough.assign_branch SegTree.assign_branch
  lag
instance move_assign_segment (src : Nat) (si : Nat) (dst : Nat) (di : Nat) : Lag dir (Rough.move_assign_segment E src si dst di : N α Unit) (SegTree.move_assign_segment E.calm src si dst di) := by
  unfold Rough.move_assign_segment SegTree.move_assign_segment
  lag
instance move_assign_leaf (src : Nat) (si : Nat) (dst : Nat) (di : Nat) : Lag dir (Rough.move_assign_leaf E src si dst di : N α Nat) (SegTree.move_assign_leaf E.calm src si dst di) := by
  unfold Rough.move_assign_leaf SegTree.move_assign_leaf
  lag
instance move_assign_branch (src : Nat) (si : Nat) (dst : Nat) (di : Nat) : Lag dir (Rough.move_assign_branch E src si dst di : N α Nat) (SegTree.move_assign_branch E.calm src si dst di) := by
  unfold Rough.move_assign_branch SegTree.move_assign_branch
  lag
instance move_segment (src : Nat) (si : Nat) (dst : Nat) (di : Nat) : Lag dir (Rough.move_segment E src si dst di : N α Unit) (SegTree.move_segment E.calm src si dst di) := by
  unfold Rough.move_segment SegTree.move_segment
  lag
instance move_leaf (src : Nat) (si : Nat) (dst : Nat) (di : Nat) : Lag dir (Rough.move_leaf E src si dst di : N α Nat) (SegTree.move_leaf E.calm src si dst di) := by
  unfold Rough.move_leaf SegTree.move_leaf
  lag
instance move_branch (src : Nat) (si : Nat) (dst : Nat) (di : Nat) : Lag dir (Rough.move_branch E src si dst di : N α Nat) (SegTree.move_branch E.calm src si dst di) := by
  unfold Rough.move_branch SegTree.move_branch
  lag
instance memcpy_segment (src : Nat) (si : Nat) (dst : Nat) (di : Nat) (n : Nat) : Lag dir (Rough.memcpy_segment E src si dst di n : N α Unit) (SegTree.memcpy_segment E.calm src si dst di n) := by
  unfold Rough.memcpy_segment SegTree.memcpy_segment
  lag
instance construct_range_segment (src : Nat) (si : Nat) (dst : Nat) (di : Nat) (count : Nat) : Lag dir (Rough.construct_range_segment E src si dst di count : N α Unit) (SegTree.construct_range_segment E.calm src si dst di count) := by
  unfold Rough.construct_range_segment SegTree.construct_range_segment
  lag
instance construct_range_leaf (src : Nat) (si : Nat) (dst : Nat) (di : Nat) (count : Nat) : Lag dir (Rough.construct_range_leaf E src si dst di count : N α Nat) (SegTree.construct_range_leaf E.calm src si dst di count) := by
  unfold Rough.construct_range_leaf SegTree.construct_range_leaf
  lag
instance construct_range_branch (src : Nat) (si : Nat) (dst : Nat) (di : Nat) (count : Nat) : Lag dir (Rough.construct_range_branch E src si dst di count : N α Nat) (SegTree.construct_range_branch E.calm src si dst di count) := by
  unfold Rough.construct_range_branch SegTree.construct_range_branch
  lag
instance assign_forward_segment (p : Nat) (length : Nat) (index : Nat) (distance : Nat) : Lag dir (Rough.assign_forward_segment E p length index distance : N α Unit) (SegTree.assign_forward_segment E.calm p length index distance) := by
  unfold Rough.assign_forward_segment SegTree.assign_forward_segment
  lag
instance assign_forward_leaf (p : Nat) (length : Nat) (index : Nat) (distance : Nat) : Lag dir (Rough.assign_forward_leaf E p length index distance : N α Unit) (SegTree.assign_forward_leaf E.calm p length index distance) := by
  unfold Rough.assign_forward_leaf SegTree.assign_forward_leaf
  lag
instance assign_forward_branch (p : Nat) (length : Nat) (index : Nat) (distance : Nat) : Lag dir (Rough.assign_forward_branch E p length index distance : N α Unit) (SegTree.assign_forward_branch E.calm p length index distance) := by
  unfold Rough.assign_forward_branch SegTree.assign_forward_branch
  lag
instance assign_backward_segment (p : Nat) (length : Nat) (index : Nat) (distance : Nat) : Lag dir (Rough.assign_backward_segment E p length index distance : N α Unit) (SegTree.assign_backward_segment E.calm p length index distance) := by
  unfold Rough.assign_backward_segment SegTree.assign_backward_segment
  lag
instance assign_backward_leaf (p : Nat) (length : Nat) (index : Nat) (distance : Nat) : Lag dir (Rough.assign_backward_leaf E p length index distance : N α Unit) (SegTree.assign_backward_leaf E.calm p length index distance) := by
  unfold Rough.assign_backward_leaf SegTree.assign_backward_leaf
  lag
instance assign_backward_branch (p : Nat) (length : Nat) (index : Nat) (distance : Nat) : Lag dir (Rough.assign_backward_branch E p length index distance : N α Unit) (SegTree.assign_backward_branch E.calm p length index distance) := by
  unfold Rough.assign_backward_branch SegTree.assign_backward_branch
  lag
instance update_sizes (o : Nat) (p : Nat) (index : Nat) (sz : Nat) : Lag dir (Rough.update_sizes E o p index sz : N α Unit) (SegTree.update_sizes E.calm o p index sz) := by
  revert p index
  cases dir
  · refine SegTree.update_sizes.fixpoint_induct E.calm o sz (fun f => ∀ (p : Nat) (index : Nat),
      Lag false (Rough.update_sizes E o p index sz) (f p index)) (Same.adm2 fun _ _ => admR _) ?_
    intro f ih p index
    unfold Rough.update_sizes
    lag
  · refine Rough.update_sizes.fixpoint_induct E o sz (fun f => ∀ (p : Nat) (index : Nat),
      Lag true (f p index) (SegTree.update_sizes E.calm o p index sz)) (adm2 fun _ _ => admL _) ?_
    intro f ih p index
    unfold SegTree.update_sizes
    lag
instance increment_sizes (o : Nat) (p : Nat) (index : Nat) : Lag dir (Rough.increment_sizes E o p index : N α Unit) (SegTree.increment_sizes E.calm o p index) := by
  unfold Rough.increment_sizes SegTree.increment_sizes
  lag
instance decrement_sizes (o : Nat) (p : Nat) (index : Nat) : Lag dir (Rough.decrement_sizes E o p index : N α Unit) (SegTree.decrement_sizes E.calm o p index) := by
  unfold Rough.decrement_sizes SegTree.decrement_sizes
  lag
instance free_chain (o : Nat) (alloc : Nat) : Lag dir (Rough.free_chain E o alloc : N α Unit) (SegTree.free_chain E.calm o alloc) := by
  revert alloc
  cases dir
  · refine SegTree.free_chain.fixpoint_induct E.calm o (fun f => ∀ (alloc : Nat),
      Lag false (Rough.free_chain E o alloc) (f alloc)) (Same.adm1 fun _ => admR _) ?_
    intro f ih alloc
    unfold Rough.free_chain
    lag
  · refine Rough.free_chain.fixpoint_induct E o (fun f => ∀ (alloc : Nat),
      Lag true (f alloc) (SegTree.free_chain E.calm o alloc)) (adm1 fun _ => admL _) ?_
    intro f ih alloc
    unfold SegTree.free_chain
    lag
instance alloc_catch (o : Nat) (segment_alloc : Nat) (alloc : Nat) : Lag dir (Rough.alloc_catch E o segment_alloc alloc : N α Unit) (SegTree.alloc_catch E.calm o segment_alloc alloc) := by
  unfold Rough.alloc_catch SegTree.alloc_catch
  lag
instance alloc_nodes_loop (o : Nat) (p : Nat) (segment_alloc : Nat) (alloc : Nat) : Lag dir (Rough.alloc_nodes_loop E o p segment_alloc alloc : N α Nat) (SegTree.alloc_nodes_loop E.calm o p segment_alloc alloc) := by
  revert p alloc
  cases dir
  · refine SegTree.alloc_nodes_loop.fixpoint_induct E.calm o segment_alloc (fun f => ∀ (p : Nat) (alloc : Nat),
      Lag false (Rough.alloc_nodes_loop E o p segment_alloc alloc) (f p alloc)) (Same.adm2 fun _ _ => admR _) ?_
    intro f ih p alloc
    unfold Rough.alloc_nodes_loop
    lag
  · refine Rough.alloc_nodes_loop.fixpoint_induct E o segment_alloc (fun f => ∀ (p : Nat) (alloc : Nat),
      Lag true (f p alloc) (SegTree.alloc_nodes_loop E.calm o p segment_alloc alloc)) (adm2 fun _ _ => admL _) ?_
    intro f ih p alloc
    unfold SegTree.alloc_nodes_loop
    lag
instance alloc_nodes_single (o : Nat) (p : Nat) (segment_alloc : Nat) : Lag dir (Rough.alloc_nodes_single E o p segment_alloc : N α Nat) (SegTree.alloc_nodes_single E.calm o p segment_alloc) := by
  unfold Rough.alloc_nodes_single SegTree.alloc_nodes_single
  lag
instance insert_single_branch (o : Nat) (base : Nat) (p : Nat) (index : Nat) (alloc : Nat) (child_pointer : Nat) (child_size : Nat) : Lag dir (Rough.insert_single_branch E o base p index alloc child_pointer child_size : N α Unit) (SegTree.insert_single_branch E.calm o base p index alloc child_pointer child_size) := by
  revert base p index alloc child_pointer child_size
  cases dir
  · refine SegTree.insert_single_branch.fixpoint_induct E.calm o (fun f => ∀ (base : Nat) (p : Nat) (index : Nat) (alloc : Nat) (child_pointer : Nat) (child_size : Nat),
      Lag false (Rough.insert_single_branch E o base p index alloc child_pointer child_size) (f base p index alloc child_pointer child_size)) (Same.adm6 fun _ _ _ _ _ _ => admR _) ?_
    intro f ih base p index alloc child_pointer child_size
    unfold Rough.insert_single_branch
    lag
  · refine Rough.insert_single_branch.fixpoint_induct E o (fun f => ∀ (base : Nat) (p : Nat) (index : Nat) (alloc : Nat) (child_pointer : Nat) (child_size : Nat),
      Lag true (f base p index alloc child_pointer child_size) (SegTree.insert_single_branch E.calm o base p index alloc child_pointer child_size)) (adm6 fun _ _ _ _ _ _ => admL _) ?_
    intro f ih base p index alloc child_pointer child_size
    unfold SegTree.insert_single_branch
    lag
instance insert_single_leaf (o : Nat) (entry : Entry) (base : Nat) (p : Nat) (index : Nat) (alloc : Nat) (child_pointer : Nat) (child_size : Nat) : Lag dir (Rough.insert_single_leaf E o entry base p index alloc child_pointer child_size : N α Entry) (SegTree.insert_single_leaf E.calm o entry base p index alloc child_pointer child_size) := by
  unfold Rough.insert_single_leaf SegTree.insert_single_leaf
  lag
instance insert_single_segment (o : Nat) (entry : Entry) (value : α) : Lag dir (Rough.insert_single_segment E o entry value : N α Entry) (SegTree.insert_single_segment E.calm o entry value) := by
  unfold Rough.insert_single_segment SegTree.insert_single_segment
  lag
instance insert_single_iterator (o : Nat) (it : Iter) (value : α) : Lag dir (Rough.insert_single_iterator E o it value : N α Iter) (SegTree.insert_single_iterator E.calm o it value) := by
  unfold Rough.insert_single_iterator SegTree.insert_single_iterator
  lag
instance erase_single_branch (o : Nat) (p : Nat) (index : Nat) : Lag dir (Rough.erase_single_branch E o p index : N α Unit) (SegTree.erase_single_branch E.calm o p index) := by
  revert p index
  cases dir
  · refine SegTree.erase_single_branch.fixpoint_induct E.calm o (fun f => ∀ (p : Nat) (index : Nat),
      Lag false (Rough.erase_single_branch E o p index) (f p index)) (Same.adm2 fun _ _ => admR _) ?_
    intro f ih p index
    unfold Rough.erase_single_branch
    lag
  · refine Rough.erase_single_branch.fixpoint_induct E o (fun f => ∀ (p : Nat) (index : Nat),
      Lag true (f p index) (SegTree.erase_single_branch E.calm o p index)) (adm2 fun _ _ => admL _) ?_
    intro f ih p index
    unfold SegTree.erase_single_branch
    lag
instance erase_single_leaf (o : Nat) (entry : LeafE) (p : Nat) (index : Nat) : Lag dir (Rough.erase_single_leaf E o entry p index : N α LeafE) (SegTree.erase_single_leaf E.calm o entry p index) := by
  unfold Rough.erase_single_leaf SegTree.erase_single_leaf
  lag
instance erase_single_segment (o : Nat) (entry : Entry) : Lag dir (Rough.erase_single_segment E o entry : N α Entry) (SegTree.erase_single_segment E.calm o entry) := by
  unfold Rough.erase_single_segment SegTree.erase_single_segment
  lag
instance erase_single_iterator (o : Nat) (it : Iter) : Lag dir (Rough.erase_single_iterator E o it : N α Iter) (SegTree.erase_single_iterator E.calm o it) := by
  unfold Rough.erase_single_iterator SegTree.erase_single_iterator
  lag
instance find_index (o : Nat) (pos : Nat) : Lag dir (Rough.find_index E o pos : N α Iter) (SegTree.find_index E.calm o pos) := by
  unfold Rough.find_index SegTree.find_index
  lag
instance find_first (o : Nat) : Lag dir (Rough.find_first E o : N α Iter) (SegTree.find_first E.calm o) := by
  unfold Rough.find_first SegTree.find_first
  lag
instance find_last (o : Nat) : Lag dir (Rough.find_last E o : N α Iter) (SegTree.find_last E.calm o) := by
  unfold Rough.find_last SegTree.find_last
  lag
instance find_end (o : Nat) : Lag dir (Rough.find_end E o : N α Iter) (SegTree.find_end E.calm o) := by
  unfold Rough.find_end SegTree.find_end
  lag
instance steal (o : Nat) (other : Nat) : Lag dir (Rough.steal o other : N α Unit) (SegTree.steal o other) := by
  unfold Rough.steal SegTree.steal
  lag
instance copyVal (v : α) : Lag dir (Rough.copyVal E v : N α α) (SegTree.copyVal E.calm v) := lift _
instance copyVal_x (v : α) : Exact (Rough.copyVal E v : N α α) (SegTree.copyVal E.calm v) := Exact.lift _
instance copyAssign (p : Nat) (i : Nat) (v : α) : Lag dir (Rough.copyAssign E p i v : N α Unit) (SegTree.copyAssign E.calm p i v) := by
  unfold Rough.copyAssign SegTree.copyAssign
  lag
instance moveFrom (p : Nat) (i : Nat) : Lag dir (Rough.moveFrom E p i : N α α) (SegTree.moveFrom E.calm p i) := by
  unfold Rough.moveFrom SegTree.moveFrom
  lag
instance emplace_single (o : Nat) (it : Iter) {mk : N α α} {mk0 : M α α} [hmk : Lag dir mk mk0] : Lag dir (Rough.emplace_single E o it mk : N α Iter) (SegTree.emplace_single E.calm o it mk0) := by
  unfold Rough.emplace_single SegTree.emplace_single
  lag
instance emplace_count_loop (o : Nat) {mk : N α α} {mk0 : M α α} [Lag dir mk mk0] (n : Nat) (it : Iter) :
    Lag dir (Rough.emplace_count_loop E o mk n it) (SegTree.emplace_count_loop E.calm o mk0 n it) := by
  induction n generalizing it with
  | zero => exact pure _
  | succ n ih => unfold Rough.emplace_count_loop SegTree.emplace_count_loop; lag
instance emplace_count (o : Nat) (it : Iter) (count : Nat) {mk : N α α} {mk0 : M α α} [hmk : Lag dir mk mk0] : Lag dir (Rough.emplace_count E o it count mk : N α Iter) (SegTree.emplace_count E.calm o it count mk0) := by
  unfold Rough.emplace_count SegTree.emplace_count
  lag
instance emplace_range_loop {σ : Type} {S : Rough.Src α σ} {S0 : SegTree.Src α σ} [hS : LagSrc dir S S0] (o : Nat) (it : Iter) (first : σ) (count : Nat) : Lag dir (Rough.emplace_range_loop E S o it first count : N α (Iter × Nat)) (SegTree.emplace_range_loop E.calm S0 o it first count) := by
  have hrS := hS.read
  have hnS := hS.next
  revert it first count
  cases dir
  · refine SegTree.emplace_range_loop.fixpoint_induct E.calm S0 o (fun f => ∀ (it : Iter) (first : σ) (count : Nat),
      Lag false (Rough.emplace_range_loop E S o it first count) (f it first count)) (Same.adm3 fun _ _ _ => admR _) ?_
    intro f ih it first count
    unfold Rough.emplace_range_loop
    try simp only [hS.done]
    lag
  · refine Rough.emplace_range_loop.fixpoint_induct E S o (fun f => ∀ (it : Iter) (first : σ) (count : Nat),
      Lag true (f it first count) (SegTree.emplace_range_loop E.calm S0 o it first count)) (adm3 fun _ _ _ => admL _) ?_
    intro f ih it first count
    unfold SegTree.emplace_range_loop
    try simp only [hS.done]
    lag
instance emplace_range {σ : Type} {S : Rough.Src α σ} {S0 : SegTree.Src α σ} [hS : LagSrc dir S S0] (o : Nat) (it : Iter) (first : σ) : Lag dir (Rough.emplace_range E S o it first : N α Iter) (SegTree.emplace_range E.calm S0 o it first) := by
  have hrS := hS.read
  have hnS := hS.next
  unfold Rough.emplace_range SegTree.emplace_range
  try simp only [hS.done]
  lag
instance listSrc  : LagSrc dir (Rough.listSrc E ) (SegTree.listSrc E.calm ) where
  done _ := rfl
  read l := by cases l <;> (simp only [SegTree.listSrc, Rough.listSrc]; lag)
  next l := by simp only [SegTree.listSrc, Rough.listSrc]; lag
instance copySrc (last : Iter) : LagSrc dir (Rough.copySrc E last) (SegTree.copySrc E.calm last) where
  done _ := rfl
  read l := by (simp only [SegTree.copySrc, Rough.copySrc]; lag)
  next l := by simp only [SegTree.copySrc, Rough.copySrc]; lag
instance moveSrc (last : Iter) : LagSrc dir (Rough.moveSrc E last) (SegTree.moveSrc E.calm last) where
  done _ := rfl
  read l := by (simp only [SegTree.moveSrc, Rough.moveSrc]; lag)
  next l := by simp only [SegTree.moveSrc, Rough.moveSrc]; lag
instance erase_single (o : Nat) (it : Iter) : Lag dir (Rough.erase_single E o it : N α Iter) (SegTree.erase_single E.calm o it) := by
  unfold Rough.erase_single SegTree.erase_single
  lag
instance erase_range (o : Nat) (first : Iter) (last : Iter) : Lag dir (Rough.erase_range E o first last : N α Iter) (SegTree.erase_range E.calm o first last) := by
  revert last
  cases dir
  · refine SegTree.erase_range.fixpoint_induct E.calm o first (fun f => ∀ (last : Iter),
      Lag false (Rough.erase_range E o first last) (f last)) (Same.adm1 fun _ => admR _) ?_
    intro f ih last
    unfold Rough.erase_range
    lag
  · refine Rough.erase_range.fixpoint_induct E o first (fun f => ∀ (last : Iter),
      Lag true (f last) (SegTree.erase_range E.calm o first last)) (adm1 fun _ => admL _) ?_
    intro f ih last
    unfold SegTree.erase_range
    lag
instance assign_count_loop (o : Nat) {src : N α α} {src0 : M α α} [hsrc : Lag dir src src0] (count : Nat) (first : Iter) (last : Iter) : Lag dir (Rough.assign_count_loop E o src count first last : N α Unit) (SegTree.assign_count_loop E.calm o src0 count first last) := by
  revert count first
  cases dir
  · refine SegTree.assign_count_loop.fixpoint_induct E.calm o src0 last (fun f => ∀ (count : Nat) (first : Iter),
      Lag false (Rough.assign_count_loop E o src count first last) (f count first)) (Same.adm2 fun _ _ => admR _) ?_
    intro f ih count first
    unfold Rough.assign_count_loop
    lag
  · refine Rough.assign_count_loop.fixpoint_induct E o src last (fun f => ∀ (count : Nat) (first : Iter),
      Lag true (f count first) (SegTree.assign_count_loop E.calm o src0 count first last)) (adm2 fun _ _ => admL _) ?_
    intro f ih count first
    unfold SegTree.assign_count_loop
    lag
instance assign_count (o : Nat) (count : Nat) {src : N α α} {src0 : M α α} [hsrc : Lag dir src src0] : Lag dir (Rough.assign_count E o count src : N α Unit) (SegTree.assign_count E.calm o count src0) := by
  unfold Rough.assign_count SegTree.assign_count
  lag
instance assign_range_loop {σ : Type} {S : Rough.Src α σ} {S0 : SegTree.Src α σ} [hS : LagSrc dir S S0] (o : Nat) (source : σ) (first : Iter) (last : Iter) : Lag dir (Rough.assign_range_loop E S o source first last : N α Unit) (SegTree.assign_range_loop E.calm S0 o source first last) := by
  have hrS := hS.read
  have hnS := hS.next
  revert source first
  cases dir
  · refine SegTree.assign_range_loop.fixpoint_induct E.calm S0 o last (fun f => ∀ (source : σ) (first : Iter),
      Lag false (Rough.assign_range_loop E S o source first last) (f source first)) (Same.adm2 fun _ _ => admR _) ?_
    intro f ih source first
    unfold Rough.assign_range_loop
    try simp only [hS.done]
    lag
  · refine Rough.assign_range_loop.fixpoint_induct E S o last (fun f => ∀ (source : σ) (first : Iter),
      Lag true (f source first) (SegTree.assign_range_loop E.calm S0 o source first last)) (adm2 fun _ _ => admL _) ?_
    intro f ih source first
    unfold SegTree.assign_range_loop
    try simp only [hS.done]
    lag
instance assign_range {σ : Type} {S : Rough.Src α σ} {S0 : SegTree.Src α σ} [hS : LagSrc dir S S0] (o : Nat) (source : σ) : Lag dir (Rough.assign_range E S o source : N α Unit) (SegTree.assign_range E.calm S0 o source) := by
  have hrS := hS.read
  have hnS := hS.next
  unfold Rough.assign_range SegTree.assign_range
  try simp only [hS.done]
  lag
instance resize_count (o : Nat) (count : Nat) {mk : N α α} {mk0 : M α α} [hmk : Lag dir mk mk0] : Lag dir (Rough.resize_count E o count mk : N α Unit) (SegTree.resize_count E.calm o count mk0) := by
  unfold Rough.resize_count SegTree.resize_count
  lag
instance clear (o : Nat) : Lag dir (Rough.clear E o : N α Unit) (SegTree.clear E.calm o) := by
  unfold Rough.clear SegTree.clear
  lag
instance copy_assign_alloc (o : Nat) (other : Nat) : Lag dir (Rough.copy_assign_alloc E o other : N α Unit) (SegTree.copy_assign_alloc E.calm o other) := by
  unfold Rough.copy_assign_alloc SegTree.copy_assign_alloc
  lag
instance move_assign_alloc (o : Nat) (other : Nat) : Lag dir (Rough.move_assign_alloc E o other : N α Unit) (SegTree.move_assign_alloc E.calm o other) := by
  unfold Rough.move_assign_alloc SegTree.move_assign_alloc
  lag
instance move_assign_steal (o : Nat) (other : Nat) : Lag dir (Rough.move_assign_steal E o other : N α Unit) (SegTree.move_assign_steal E.calm o other) := by
  unfold Rough.move_assign_steal SegTree.move_assign_steal
  lag
instance move_assign (o : Nat) (other : Nat) : Lag dir (Rough.move_assign E o other : N α Unit) (SegTree.move_assign E.calm o other) := by
  unfold Rough.move_assign SegTree.move_assign
  lag
instance ctor (o alloc : Nat) : Lag dir (Rough.ctor o alloc : N α Unit) (SegTree.ctor o alloc) := lift _
instance ctor_x (o alloc : Nat) : Exact (Rough.ctor o alloc : N α Unit) (SegTree.ctor o alloc) := Exact.lift _
instance dropObj (o : Nat) : Lag dir (Rough.dropObj o : N α Unit) (SegTree.dropObj o) := lift _
instance dropObj_x (o : Nat) : Exact (Rough.dropObj o : N α Unit) (SegTree.dropObj o) := Exact.lift _
instance dtor (o : Nat) : Lag dir (Rough.dtor E o : N α Unit) (SegTree.dtor E.calm o) := by
  unfold Rough.dtor SegTree.dtor
  lag
instance ctor_move (o : Nat) (other : Nat) : Lag dir (Rough.ctor_move o other : N α Unit) (SegTree.ctor_move o other) := by
  unfold Rough.ctor_move SegTree.ctor_move
  lag
instance assign_copy (o : Nat) (other : Nat) : Lag dir (Rough.assign_copy E o other : N α Unit) (SegTree.assign_copy E.calm o other) := by
  unfold Rough.assign_copy SegTree.assign_copy
  lag
instance assign_move (o : Nat) (other : Nat) : Lag dir (Rough.assign_move E o other : N α Unit) (SegTree.assign_move E.calm o other) := by
  unfold Rough.assign_move SegTree.assign_move
  lag
instance assign_list (o : Nat) (vs : List α) : Lag dir (Rough.assign_list E o vs : N α Unit) (SegTree.assign_list E.calm o vs) := by
  unfold Rough.assign_list SegTree.assign_list
  lag
instance assign_fill (o : Nat) (count : Nat) (v : α) : Lag dir (Rough.assign_fill E o count v : N α Unit) (SegTree.assign_fill E.calm o count v) := by
  unfold Rough.assign_fill SegTree.assign_fill
  lag
instance at_ (o : Nat) (pos : Nat) : Lag dir (Rough.at_ E o pos : N α α) (SegTree.at_ E.calm o pos) := by
  unfold Rough.at_ SegTree.at_
  lag
instance index_op (o : Nat) (pos : Nat) : Lag dir (Rough.index_op E o pos : N α α) (SegTree.index_op E.calm o pos) := by
  unfold Rough.index_op SegTree.index_op
  lag
instance index_set (o : Nat) (pos : Nat) (v : α) : Lag dir (Rough.index_set E o pos v : N α Unit) (SegTree.index_set E.calm o pos v) := by
  unfold Rough.index_set SegTree.index_set
  lag
instance deref_set (it : Iter) (v : α) : Lag dir (Rough.deref_set E it v : N α Unit) (SegTree.deref_set E.calm it v) := by
  unfold Rough.deref_set SegTree.deref_set
  lag
instance deref_set_rv (it : Iter) (v : α) : Lag dir (Rough.deref_set_rv E it v : N α Unit) (SegTree.deref_set_rv E.calm it v) := by
  unfold Rough.deref_set_rv SegTree.deref_set_rv
  lag
instance front (o : Nat) : Lag dir (Rough.front E o : N α α) (SegTree.front E.calm o) := by
  unfold Rough.front SegTree.front
  lag
instance back (o : Nat) : Lag dir (Rough.back E o : N α α) (SegTree.back E.calm o) := by
  unfold Rough.back SegTree.back
  lag
instance begin_ (o : Nat) : Lag dir (Rough.begin_ E o : N α Iter) (SegTree.begin_ E.calm o) := by
  unfold Rough.begin_ SegTree.begin_
  lag
instance penultimate (o : Nat) : Lag dir (Rough.penultimate E o : N α Iter) (SegTree.penultimate E.calm o) := by
  unfold Rough.penultimate SegTree.penultimate
  lag
instance end_ (o : Nat) : Lag dir (Rough.end_ E o : N α Iter) (SegTree.end_ E.calm o) := by
  unfold Rough.end_ SegTree.end_
  lag
instance rev_deref (it : Iter) : Lag dir (Rough.rev_deref E it : N α α) (SegTree.rev_deref E.calm it) := by
  unfold Rough.rev_deref SegTree.rev_deref
  lag
instance nth (o : Nat) (pos : Nat) : Lag dir (Rough.nth E o pos : N α Iter) (SegTree.nth E.calm o pos) := by
  unfold Rough.nth SegTree.nth
  lag
instance empty (o : Nat) : Lag dir (Rough.empty o : N α Bool) (SegTree.empty o) := by
  unfold Rough.empty SegTree.empty
  lag
instance size (o : Nat) : Lag dir (Rough.size o : N α Nat) (SegTree.size o) := by
  unfold Rough.size SegTree.size
  lag
instance height (o : Nat) : Lag dir (Rough.height o : N α Nat) (SegTree.height o) := by
  unfold Rough.height SegTree.height
  lag
instance get_allocator (o : Nat) : Lag dir (Rough.get_allocator o : N α Nat) (SegTree.get_allocator o) := by
  unfold Rough.get_allocator SegTree.get_allocator
  lag
instance insert (o : Nat) (it : Iter) (v : α) : Lag dir (Rough.insert E o it v : N α Iter) (SegTree.insert E.calm o it v) := by
  unfold Rough.insert SegTree.insert
  lag
instance insert_rv (o : Nat) (it : Iter) (v : α) : Lag dir (Rough.insert_rv E o it v : N α Iter) (SegTree.insert_rv E.calm o it v) := by
  unfold Rough.insert_rv SegTree.insert_rv
  lag
instance insert_alias (o : Nat) (it : Iter) (src : Iter) : Lag dir (Rough.insert_alias E o it src : N α Iter) (SegTree.insert_alias E.calm o it src) := by
  unfold Rough.insert_alias SegTree.insert_alias
  lag
instance insert_fill (o : Nat) (it : Iter) (count : Nat) (v : α) : Lag dir (Rough.insert_fill E o it count v : N α Iter) (SegTree.insert_fill E.calm o it count v) := by
  unfold Rough.insert_fill SegTree.insert_fill
  lag
instance insert_fill_alias (o : Nat) (it : Iter) (count : Nat) (src : Iter) : Lag dir (Rough.insert_fill_alias E o it count src : N α Iter) (SegTree.insert_fill_alias E.calm o it count src) := by
  unfold Rough.insert_fill_alias SegTree.insert_fill_alias
  lag
instance insert_list (o : Nat) (it : Iter) (vs : List α) : Lag dir (Rough.insert_list E o it vs : N α Iter) (SegTree.insert_list E.calm o it vs) := by
  unfold Rough.insert_list SegTree.insert_list
  lag
instance erase (o : Nat) (it : Iter) : Lag dir (Rough.erase E o it : N α Iter) (SegTree.erase E.calm o it) := by
  unfold Rough.erase SegTree.erase
  lag
instance erase_rng (o : Nat) (first : Iter) (last : Iter) : Lag dir (Rough.erase_rng E o first last : N α Iter) (SegTree.erase_rng E.calm o first last) := by
  unfold Rough.erase_rng SegTree.erase_rng
  lag
instance push_back (o : Nat) (v : α) : Lag dir (Rough.push_back E o v : N α Unit) (SegTree.push_back E.calm o v) := by
  unfold Rough.push_back SegTree.push_back
  lag
instance push_back_rv (o : Nat) (v : α) : Lag dir (Rough.push_back_rv E o v : N α Unit) (SegTree.push_back_rv E.calm o v) := by
  unfold Rough.push_back_rv SegTree.push_back_rv
  lag
instance pop_back (o : Nat) : Lag dir (Rough.pop_back E o : N α Unit) (SegTree.pop_back E.calm o) := by
  unfold Rough.pop_back SegTree.pop_back
  lag
instance push_front (o : Nat) (v : α) : Lag dir (Rough.push_front E o v : N α Unit) (SegTree.push_front E.calm o v) := by
  unfold Rough.push_front SegTree.push_front
  lag
instance push_front_rv (o : Nat) (v : α) : Lag dir (Rough.push_front_rv E o v : N α Unit) (SegTree.push_front_rv E.calm o v) := by
  unfold Rough.push_front_rv SegTree.push_front_rv
  lag
instance pop_front (o : Nat) : Lag dir (Rough.pop_front E o : N α Unit) (SegTree.pop_front E.calm o) := by
  unfold Rough.pop_front SegTree.pop_front
  lag
instance resize (o : Nat) (count : Nat) (v : α) : Lag dir (Rough.resize E o count v : N α Unit) (SegTree.resize E.calm o count v) := by
  unfold Rough.resize SegTree.resize
  lag
instance swap (o : Nat) (other : Nat) : Lag dir (Rough.swap E o other : N α Unit) (SegTree.swap E.calm o other) := by
  unfold Rough.swap SegTree.swap
  lag
instance splice (o : Nat) (pos : Iter) (other : Nat) : Lag dir (Rough.splice E o pos other : N α Unit) (SegTree.splice E.calm o pos other) := by
  unfold Rough.splice SegTree.splice
  lag
instance splice_one (o : Nat) (pos : Iter) (other : Nat) (it : Iter) : Lag dir (Rough.splice_one E o pos other it : N α Unit) (SegTree.splice_one E.calm o pos other it) := by
  unfold Rough.splice_one SegTree.splice_one
  lag
instance splice_range (o : Nat) (pos : Iter) (other : Nat) (first : Iter) (last : Iter) : Lag dir (Rough.splice_range E o pos other first last : N α Unit) (SegTree.splice_range E.calm o pos other first last) := by
  unfold Rough.splice_range SegTree.splice_range
  lag
instance std_find_if (p : α → Bool) (first : Iter) (last : Iter) : Lag dir (Rough.std_find_if E p first last : N α Iter) (SegTree.std_find_if E.calm p first last) := by
  revert first
  cases dir
  · refine SegTree.std_find_if.fixpoint_induct E.calm p last (fun f => ∀ (first : Iter),
      Lag false (Rough.std_find_if E p first last) (f first)) (Same.adm1 fun _ => admR _) ?_
    intro f ih first
    unfold Rough.std_find_if
    lag
  · refine Rough.std_find_if.fixpoint_induct E p last (fun f => ∀ (first : Iter),
      Lag true (f first) (SegTree.std_find_if E.calm p first last)) (adm1 fun _ => admL _) ?_
    intro f ih first
    unfold SegTree.std_find_if
    lag
instance iter_move_assign (src : Iter) (dst : Iter) : Lag dir (Rough.iter_move_assign E src dst : N α Unit) (SegTree.iter_move_assign E.calm src dst) := by
  unfold Rough.iter_move_assign SegTree.iter_move_assign
  lag
instance std_remove_loop (p : α → Bool) (first : Iter) (i : Iter) (last : Iter) : Lag dir (Rough.std_remove_loop E p first i last : N α Iter) (SegTree.std_remove_loop E.calm p first i last) := by
  revert first i
  cases dir
  · refine SegTree.std_remove_loop.fixpoint_induct E.calm p last (fun f => ∀ (first : Iter) (i : Iter),
      Lag false (Rough.std_remove_loop E p first i last) (f first i)) (Same.adm2 fun _ _ => admR _) ?_
    intro f ih first i
    unfold Rough.std_remove_loop
    lag
  · refine Rough.std_remove_loop.fixpoint_induct E p last (fun f => ∀ (first : Iter) (i : Iter),
      Lag true (f first i) (SegTree.std_remove_loop E.calm p first i last)) (adm2 fun _ _ => admL _) ?_
    intro f ih first i
    unfold SegTree.std_remove_loop
    lag
instance std_remove_if (p : α → Bool) (first : Iter) (last : Iter) : Lag dir (Rough.std_remove_if E p first last : N α Iter) (SegTree.std_remove_if E.calm p first last) := by
  unfold Rough.std_remove_if SegTree.std_remove_if
  lag
instance remove_if (o : Nat) (p : α → Bool) : Lag dir (Rough.remove_if E o p : N α Unit) (SegTree.remove_if E.calm o p) := by
  unfold Rough.remove_if SegTree.remove_if
  lag
instance remove (o : Nat) (eq : α → α → Bool) (v : α) : Lag dir (Rough.remove E o eq v : N α Unit) (SegTree.remove E.calm o eq v) := by
  unfold Rough.remove SegTree.remove
  lag
instance iter_swap (a : Iter) (b : Iter) : Lag dir (Rough.iter_swap E a b : N α Unit) (SegTree.iter_swap E.calm a b) := by
  unfold Rough.iter_swap SegTree.iter_swap
  lag
instance std_reverse_loop (first : Iter) (last : Iter) : Lag dir (Rough.std_reverse_loop E first last : N α Unit) (SegTree.std_reverse_loop E.calm first last) := by
  revert first last
  cases dir
  · refine SegTree.std_reverse_loop.fixpoint_induct E.calm (fun f => ∀ (first : Iter) (last : Iter),
      Lag false (Rough.std_reverse_loop E first last) (f first last)) (Same.adm2 fun _ _ => admR _) ?_
    intro f ih first last
    unfold Rough.std_reverse_loop
    lag
  · refine Rough.std_reverse_loop.fixpoint_induct E (fun f => ∀ (first : Iter) (last : Iter),
      Lag true (f first last) (SegTree.std_reverse_loop E.calm first last)) (adm2 fun _ _ => admL _) ?_
    intro f ih first last
    unfold SegTree.std_reverse_loop
    lag
instance std_reverse (first : Iter) (last : Iter) : Lag dir (Rough.std_reverse E first last : N α Unit) (SegTree.std_reverse E.calm first last) := by
  unfold Rough.std_reverse SegTree.std_reverse
  lag
instance reverse (o : Nat) : Lag dir (Rough.reverse E o : N α Unit) (SegTree.reverse E.calm o) := by
  unfold Rough.reverse SegTree.reverse
  lag
instance std_unique_loop (p : α → α → Bool) (result : Iter) (first : Iter) (last : Iter) : Lag dir (Rough.std_unique_loop E p result first last : N α Iter) (SegTree.std_unique_loop E.calm p result first last) := by
  revert result first
  cases dir
  · refine SegTree.std_unique_loop.fixpoint_induct E.calm p last (fun f => ∀ (result : Iter) (first : Iter),
      Lag false (Rough.std_unique_loop E p result first last) (f result first)) (Same.adm2 fun _ _ => admR _) ?_
    intro f ih result first
    unfold Rough.std_unique_loop
    lag
  · refine Rough.std_unique_loop.fixpoint_induct E p last (fun f => ∀ (result : Iter) (first : Iter),
      Lag true (f result first) (SegTree.std_unique_loop E.calm p result first last)) (adm2 fun _ _ => admL _) ?_
    intro f ih result first
    unfold SegTree.std_unique_loop
    lag
instance std_unique (p : α → α → Bool) (first : Iter) (last : Iter) : Lag dir (Rough.std_unique E p first last : N α Iter) (SegTree.std_unique E.calm p first last) := by
  unfold Rough.std_unique SegTree.std_unique
  lag
instance unique (o : Nat) (p : α → α → Bool) : Lag dir (Rough.unique E o p : N α Unit) (SegTree.unique E.calm o p) := by
  unfold Rough.unique SegTree.unique
  lag
instance std_equal (eq : α → α → Bool) (first1 : Iter) (last1 : Iter) (first2 : Iter) : Lag dir (Rough.std_equal E eq first1 last1 first2 : N α Bool) (SegTree.std_equal E.calm eq first1 last1 first2) := by
  revert first1 first2
  cases dir
  · refine SegTree.std_equal.fixpoint_induct E.calm eq last1 (fun f => ∀ (first1 : Iter) (first2 : Iter),
      Lag false (Rough.std_equal E eq first1 last1 first2) (f first1 first2)) (Same.adm2 fun _ _ => admR _) ?_
    intro f ih first1 first2
    unfold Rough.std_equal
    lag
  · refine Rough.std_equal.fixpoint_induct E eq last1 (fun f => ∀ (first1 : Iter) (first2 : Iter),
      Lag true (f first1 first2) (SegTree.std_equal E.calm eq first1 last1 first2)) (adm2 fun _ _ => admL _) ?_
    intro f ih first1 first2
    unfold SegTree.std_equal
    lag
instance op_eq (eq : α → α → Bool) (a : Nat) (b : Nat) : Lag dir (Rough.op_eq E eq a b : N α Bool) (SegTree.op_eq E.calm eq a b) := by
  unfold Rough.op_eq SegTree.op_eq
  lag
instance op_ne (eq : α → α → Bool) (a : Nat) (b : Nat) : Lag dir (Rough.op_ne E eq a b : N α Bool) (SegTree.op_ne E.calm eq a b) := by
  unfold Rough.op_ne SegTree.op_ne
  lag
instance std_lex (lt : α → α → Bool) (first1 : Iter) (last1 : Iter) (first2 : Iter) (last2 : Iter) : Lag dir (Rough.std_lex E lt first1 last1 first2 last2 : N α Bool) (SegTree.std_lex E.calm lt first1 last1 first2 last2) := by
  revert first1 first2
  cases dir
  · refine SegTree.std_lex.fixpoint_induct E.calm lt last1 last2 (fun f => ∀ (first1 : Iter) (first2 : Iter),
      Lag false (Rough.std_lex E lt first1 last1 first2 last2) (f first1 first2)) (Same.adm2 fun _ _ => admR _) ?_
    intro f ih first1 first2
    unfold Rough.std_lex
    lag
  · refine Rough.std_lex.fixpoint_induct E lt last1 last2 (fun f => ∀ (first1 : Iter) (first2 : Iter),
      Lag true (f first1 first2) (SegTree.std_lex E.calm lt first1 last1 first2 last2)) (adm2 fun _ _ => admL _) ?_
    intro f ih first1 first2
    unfold SegTree.std_lex
    lag
instance op_lt (lt : α → α → Bool) (a : Nat) (b : Nat) : Lag dir (Rough.op_lt E lt a b : N α Bool) (SegTree.op_lt E.calm lt a b) := by
  unfold Rough.op_lt SegTree.op_lt
  lag
instance op_le (lt : α → α → Bool) (a : Nat) (b : Nat) : Lag dir (Rough.op_le E lt a b : N α Bool) (SegTree.op_le E.calm lt a b) := by
  unfold Rough.op_le SegTree.op_le
  lag
instance op_gt (lt : α → α → Bool) (a : Nat) (b : Nat) : Lag dir (Rough.op_gt E lt a b : N α Bool) (SegTree.op_gt E.calm lt a b) := by
  unfold Rough.op_gt SegTree.op_gt
  lag
instance op_ge (lt : α → α → Bool) (a : Nat) (b : Nat) : Lag dir (Rough.op_ge E lt a b : N α Bool) (SegTree.op_ge E.calm lt a b) := by
  unfold Rough.op_ge SegTree.op_ge
  lag
instance it_add (it : Iter) (d : Int) : Lag dir (Rough.it_add E it d : N α Iter) (SegTree.it_add E.calm it d) := by
  unfold Rough.it_add SegTree.it_add
  lag
instance it_sub (it : Iter) (d : Int) : Lag dir (Rough.it_sub E it d : N α Iter) (SegTree.it_sub E.calm it d) := by
  unfold Rough.it_sub SegTree.it_sub
  lag
instance it_index (it : Iter) (d : Int) : Lag dir (Rough.it_index E it d : N α α) (SegTree.it_index E.calm it d) := by
  unfold Rough.it_index SegTree.it_index
  lag

end Lag
end SegTree
