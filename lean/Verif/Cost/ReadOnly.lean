/-
  GENERATED by tools/gen_cost.py: the functions that write nothing.
-/
import Verif.Cost.Quiet
set_option autoImplicit false
set_option linter.unusedVariables false
set_option synthInstance.maxSize 2000
set_option synthInstance.maxHeartbeats 400000

attribute [local instance] SegTree.Weights.writes

namespace SegTree
variable {α β γ : Type} {E : Env α}
namespace QuietReadOnly
open Quiet

instance rdNode (p : Nat) : Quiet true (Cost.rdNode p : C α Node) := lift0 rfl fun _ m => by
  simp only [SegTree.rdNode]; constructor <;> intros <;> (split at * <;> simp_all [M.ub])
instance len (p : Nat) : Quiet true (Cost.len p : C α Nat) := by
  unfold Cost.len; quiet
instance parent (p : Nat) : Quiet true (Cost.parent p : C α Nat) := by
  unfold Cost.parent; quiet
instance pidx (p : Nat) : Quiet true (Cost.pidx p : C α Nat) := by
  unfold Cost.pidx; quiet
instance sizesAt (p : Nat) (i : Nat) : Quiet true (Cost.sizesAt E p i : C α Nat) := by
  unfold Cost.sizesAt; quiet
instance ptrsAt (p : Nat) (i : Nat) : Quiet true (Cost.ptrsAt E p i : C α Nat) := by
  unfold Cost.ptrsAt; quiet
instance rdSlots (p : Nat) : Quiet true (Cost.rdSlots p : C α (Nat → Slot α)) := lift0 rfl fun _ m => by
  simp only [SegTree.rdSlots]; constructor <;> intros <;> (split at * <;> simp_all [M.ub])
instance rdElem (p : Nat) (i : Nat) : Quiet true (Cost.rdElem E p i : C α α) := by
  unfold Cost.rdElem; quiet
instance rdObj (o : Nat) : Quiet true (Cost.rdObj o : C α SeqObj) := lift0 rfl fun _ m => by
  simp only [SegTree.rdObj]; constructor <;> intros <;> (split at * <;> simp_all [M.ub])
instance getRoot (o : Nat) : Quiet true (Cost.getRoot o : C α Nat) := by
  unfold Cost.getRoot; quiet
instance getSize (o : Nat) : Quiet true (Cost.getSize o : C α Nat) := by
  unfold Cost.getSize; quiet
instance getHeight (o : Nat) : Quiet true (Cost.getHeight o : C α Nat) := by
  unfold Cost.getHeight; quiet
instance find_index_loop (p : Nat) (index : Nat) (size : Nat) (pos : Nat) : Quiet true (Cost.find_index_loop E p index size pos : C α (Nat × Nat)) := by
  revert index size pos
  refine Cost.find_index_loop.fixpoint_induct E p (fun f => ∀ (index : Nat) (size : Nat) (pos : Nat), Quiet true (f index size pos)) adm3 ?_
  intro f ih index size pos
  quiet
instance find_index_leaf (p : Nat) (pos : Nat) : Quiet true (Cost.find_index_leaf E p pos : C α Entry) := by
  unfold Cost.find_index_leaf; quiet
instance find_index_branch (p : Nat) (ht : Nat) (pos : Nat) : Quiet true (Cost.find_index_branch E p ht pos : C α Entry) := by
  revert p ht pos
  refine Cost.find_index_branch.fixpoint_induct E (fun f => ∀ (p : Nat) (ht : Nat) (pos : Nat), Quiet true (f p ht pos)) adm3 ?_
  intro f ih p ht pos
  quiet
instance find_index_node (p : Nat) (ht : Nat) (pos : Nat) : Quiet true (Cost.find_index_node E p ht pos : C α Entry) := by
  unfold Cost.find_index_node; quiet
instance find_index_root (p : Nat) (sz : Nat) (ht : Nat) (pos : Nat) : Quiet true (Cost.find_index_root E p sz ht pos : C α Iter) := by
  unfold Cost.find_index_root; quiet
instance find_first_leaf (p : Nat) : Quiet true (Cost.find_first_leaf E p : C α Entry) := by
  unfold Cost.find_first_leaf; quiet
instance find_first_branch (p : Nat) (ht : Nat) : Quiet true (Cost.find_first_branch E p ht : C α Entry) := by
  revert p ht
  refine Cost.find_first_branch.fixpoint_induct E (fun f => ∀ (p : Nat) (ht : Nat), Quiet true (f p ht)) adm2 ?_
  intro f ih p ht
  quiet
instance find_first_node (p : Nat) (ht : Nat) : Quiet true (Cost.find_first_node E p ht : C α Entry) := by
  unfold Cost.find_first_node; quiet
instance find_first_root (p : Nat) (sz : Nat) (ht : Nat) : Quiet true (Cost.find_first_root E p sz ht : C α Iter) := by
  unfold Cost.find_first_root; quiet
instance find_last_segment (p : Nat) (sz : Nat) : Quiet true (Cost.find_last_segment p sz : C α SegE) := by
  unfold Cost.find_last_segment; quiet
instance find_last_leaf (p : Nat) : Quiet true (Cost.find_last_leaf E p : C α Entry) := by
  unfold Cost.find_last_leaf; quiet
instance find_last_branch (p : Nat) (ht : Nat) : Quiet true (Cost.find_last_branch E p ht : C α Entry) := by
  revert p ht
  refine Cost.find_last_branch.fixpoint_induct E (fun f => ∀ (p : Nat) (ht : Nat), Quiet true (f p ht)) adm2 ?_
  intro f ih p ht
  quiet
instance find_last_node (p : Nat) (ht : Nat) : Quiet true (Cost.find_last_node E p ht : C α Entry) := by
  unfold Cost.find_last_node; quiet
instance find_last_root (p : Nat) (sz : Nat) (ht : Nat) : Quiet true (Cost.find_last_root E p sz ht : C α Iter) := by
  unfold Cost.find_last_root; quiet
instance find_end_leaf (p : Nat) : Quiet true (Cost.find_end_leaf E p : C α Entry) := by
  unfold Cost.find_end_leaf; quiet
instance find_end_branch (p : Nat) (ht : Nat) : Quiet true (Cost.find_end_branch E p ht : C α Entry) := by
  revert p ht
  refine Cost.find_end_branch.fixpoint_induct E (fun f => ∀ (p : Nat) (ht : Nat), Quiet true (f p ht)) adm2 ?_
  intro f ih p ht
  quiet
instance find_end_node (p : Nat) (ht : Nat) : Quiet true (Cost.find_end_node E p ht : C α Entry) := by
  unfold Cost.find_end_node; quiet
instance find_end_root (p : Nat) (sz : Nat) (ht : Nat) : Quiet true (Cost.find_end_root E p sz ht : C α Iter) := by
  unfold Cost.find_end_root; quiet
instance move_next_branch (e : Entry) (p : Nat) (index : Nat) (child_ht : Nat) : Quiet true (Cost.move_next_branch E e p index child_ht : C α Entry) := by
  revert p index child_ht
  refine Cost.move_next_branch.fixpoint_induct E e (fun f => ∀ (p : Nat) (index : Nat) (child_ht : Nat), Quiet true (f p index child_ht)) adm3 ?_
  intro f ih p index child_ht
  quiet
instance move_next_leaf (e : Entry) : Quiet true (Cost.move_next_leaf E e : C α Entry) := by
  unfold Cost.move_next_leaf; quiet
instance move_next_segment (e : Entry) : Quiet true (Cost.move_next_segment E e : C α Entry) := by
  unfold Cost.move_next_segment; quiet
instance move_next_iterator (it : Iter) : Quiet true (Cost.move_next_iterator E it : C α Iter) := by
  unfold Cost.move_next_iterator; quiet
instance move_prev_branch (p : Nat) (index : Nat) (child_ht : Nat) : Quiet true (Cost.move_prev_branch E p index child_ht : C α Entry) := by
  revert p index child_ht
  refine Cost.move_prev_branch.fixpoint_induct E (fun f => ∀ (p : Nat) (index : Nat) (child_ht : Nat), Quiet true (f p index child_ht)) adm3 ?_
  intro f ih p index child_ht
  quiet
instance move_prev_leaf (e : Entry) : Quiet true (Cost.move_prev_leaf E e : C α Entry) := by
  unfold Cost.move_prev_leaf; quiet
instance move_prev_segment (e : Entry) : Quiet true (Cost.move_prev_segment E e : C α Entry) := by
  unfold Cost.move_prev_segment; quiet
instance move_prev_iterator (it : Iter) : Quiet true (Cost.move_prev_iterator E it : C α Iter) := by
  unfold Cost.move_prev_iterator; quiet
instance scan_next (p : Nat) (index : Nat) (count : Nat) : Quiet true (Cost.scan_next E p index count : C α ((Nat × Nat × Nat) ⊕ Nat)) := by
  revert index count
  refine Cost.scan_next.fixpoint_induct E p (fun f => ∀ (index : Nat) (count : Nat), Quiet true (f index count)) adm2 ?_
  intro f ih index count
  quiet
instance move_next_branch_count (base : Nat) (p : Nat) (index : Nat) (count : Nat) (child_ht : Nat) : Quiet true (Cost.move_next_branch_count E base p index count child_ht : C α Entry) := by
  revert base p index count child_ht
  refine Cost.move_next_branch_count.fixpoint_induct E (fun f => ∀ (base : Nat) (p : Nat) (index : Nat) (count : Nat) (child_ht : Nat), Quiet true (f base p index count child_ht)) adm5 ?_
  intro f ih base p index count child_ht
  quiet
instance move_next_leaf_count (e : Entry) (count : Nat) : Quiet true (Cost.move_next_leaf_count E e count : C α Entry) := by
  unfold Cost.move_next_leaf_count; quiet
instance move_next_segment_count (e : Entry) (count : Nat) : Quiet true (Cost.move_next_segment_count E e count : C α Entry) := by
  unfold Cost.move_next_segment_count; quiet
instance move_next_iterator_count (it : Iter) (count : Nat) : Quiet true (Cost.move_next_iterator_count E it count : C α Iter) := by
  unfold Cost.move_next_iterator_count; quiet
instance scan_prev (p : Nat) (index : Nat) (count : Nat) : Quiet true (Cost.scan_prev E p index count : C α ((Nat × Nat × Nat) ⊕ Nat)) := by
  revert index count
  refine Cost.scan_prev.fixpoint_induct E p (fun f => ∀ (index : Nat) (count : Nat), Quiet true (f index count)) adm2 ?_
  intro f ih index count
  quiet
instance move_prev_branch_count (p : Nat) (index : Nat) (count : Nat) (child_ht : Nat) : Quiet true (Cost.move_prev_branch_count E p index count child_ht : C α Entry) := by
  revert p index count child_ht
  refine Cost.move_prev_branch_count.fixpoint_induct E (fun f => ∀ (p : Nat) (index : Nat) (count : Nat) (child_ht : Nat), Quiet true (f p index count child_ht)) adm4 ?_
  intro f ih p index count child_ht
  quiet
instance move_prev_leaf_count (e : Entry) (count : Nat) : Quiet true (Cost.move_prev_leaf_count E e count : C α Entry) := by
  unfold Cost.move_prev_leaf_count; quiet
instance move_prev_segment_count (e : Entry) (count : Nat) : Quiet true (Cost.move_prev_segment_count E e count : C α Entry) := by
  unfold Cost.move_prev_segment_count; quiet
instance move_prev_iterator_count (it : Iter) (count : Nat) : Quiet true (Cost.move_prev_iterator_count E it count : C α Iter) := by
  unfold Cost.move_prev_iterator_count; quiet
instance move_iterator_count (it : Iter) (diff : Int) : Quiet true (Cost.move_iterator_count E it diff : C α Iter) := by
  unfold Cost.move_iterator_count; quiet
instance dereference (it : Iter) : Quiet true (Cost.dereference E it : C α α) := by
  unfold Cost.dereference; quiet
instance dereference_count (it : Iter) (diff : Int) : Quiet true (Cost.dereference_count E it diff : C α α) := by
  unfold Cost.dereference_count; quiet
instance move_after_segment (it : Iter) : Quiet true (Cost.move_after_segment E it : C α Iter) := by
  unfold Cost.move_after_segment; quiet
instance move_after_segment_count (it : Iter) (count : Nat) : Quiet true (Cost.move_after_segment_count E it count : C α Iter) := by
  unfold Cost.move_after_segment_count; quiet
instance move_before_segment (it : Iter) : Quiet true (Cost.move_before_segment E it : C α Iter) := by
  unfold Cost.move_before_segment; quiet
instance move_before_segment_count (it : Iter) (count : Nat) : Quiet true (Cost.move_before_segment_count E it count : C α Iter) := by
  unfold Cost.move_before_segment_count; quiet
instance destroy_node (p : Nat) (i : Nat) : Quiet true (Cost.destroy_node E p i : C α Unit) := by
  unfold Cost.destroy_node; quiet
instance find_index (o : Nat) (pos : Nat) : Quiet true (Cost.find_index E o pos : C α Iter) := by
  unfold Cost.find_index; quiet
instance find_first (o : Nat) : Quiet true (Cost.find_first E o : C α Iter) := by
  unfold Cost.find_first; quiet
instance find_last (o : Nat) : Quiet true (Cost.find_last E o : C α Iter) := by
  unfold Cost.find_last; quiet
instance find_end (o : Nat) : Quiet true (Cost.find_end E o : C α Iter) := by
  unfold Cost.find_end; quiet
instance at_ (o : Nat) (pos : Nat) : Quiet true (Cost.at_ E o pos : C α α) := by
  unfold Cost.at_; quiet
instance index_op (o : Nat) (pos : Nat) : Quiet true (Cost.index_op E o pos : C α α) := by
  unfold Cost.index_op; quiet
instance front (o : Nat) : Quiet true (Cost.front E o : C α α) := by
  unfold Cost.front; quiet
instance back (o : Nat) : Quiet true (Cost.back E o : C α α) := by
  unfold Cost.back; quiet
instance begin_ (o : Nat) : Quiet true (Cost.begin_ E o : C α Iter) := by
  unfold Cost.begin_; quiet
instance penultimate (o : Nat) : Quiet true (Cost.penultimate E o : C α Iter) := by
  unfold Cost.penultimate; quiet
instance end_ (o : Nat) : Quiet true (Cost.end_ E o : C α Iter) := by
  unfold Cost.end_; quiet
instance rev_deref (it : Iter) : Quiet true (Cost.rev_deref E it : C α α) := by
  unfold Cost.rev_deref; quiet
instance nth (o : Nat) (pos : Nat) : Quiet true (Cost.nth E o pos : C α Iter) := by
  unfold Cost.nth; quiet
instance empty (o : Nat) : Quiet true (Cost.empty o : C α Bool) := by
  unfold Cost.empty; quiet
instance size (o : Nat) : Quiet true (Cost.size o : C α Nat) := by
  unfold Cost.size; quiet
instance height (o : Nat) : Quiet true (Cost.height o : C α Nat) := by
  unfold Cost.height; quiet
instance get_allocator (o : Nat) : Quiet true (Cost.get_allocator o : C α Nat) := by
  unfold Cost.get_allocator; quiet
instance std_find_if (p : α → Bool) (first : Iter) (last : Iter) : Quiet true (Cost.std_find_if E p first last : C α Iter) := by
  revert first
  refine Cost.std_find_if.fixpoint_induct E p last (fun f => ∀ (first : Iter), Quiet true (f first)) adm1 ?_
  intro f ih first
  quiet
instance std_equal (eq : α → α → Bool) (first1 : Iter) (last1 : Iter) (first2 : Iter) : Quiet true (Cost.std_equal E eq first1 last1 first2 : C α Bool) := by
  revert first1 first2
  refine Cost.std_equal.fixpoint_induct E eq last1 (fun f => ∀ (first1 : Iter) (first2 : Iter), Quiet true (f first1 first2)) adm2 ?_
  intro f ih first1 first2
  quiet
instance op_eq (eq : α → α → Bool) (a : Nat) (b : Nat) : Quiet true (Cost.op_eq E eq a b : C α Bool) := by
  unfold Cost.op_eq; quiet
instance op_ne (eq : α → α → Bool) (a : Nat) (b : Nat) : Quiet true (Cost.op_ne E eq a b : C α Bool) := by
  unfold Cost.op_ne; quiet
instance std_lex (lt : α → α → Bool) (first1 : Iter) (last1 : Iter) (first2 : Iter) (last2 : Iter) : Quiet true (Cost.std_lex E lt first1 last1 first2 last2 : C α Bool) := by
  revert first1 first2
  refine Cost.std_lex.fixpoint_induct E lt last1 last2 (fun f => ∀ (first1 : Iter) (first2 : Iter), Quiet true (f first1 first2)) adm2 ?_
  intro f ih first1 first2
  quiet
instance op_lt (lt : α → α → Bool) (a : Nat) (b : Nat) : Quiet true (Cost.op_lt E lt a b : C α Bool) := by
  unfold Cost.op_lt; quiet
instance op_le (lt : α → α → Bool) (a : Nat) (b : Nat) : Quiet true (Cost.op_le E lt a b : C α Bool) := by
  unfold Cost.op_le; quiet
instance op_gt (lt : α → α → Bool) (a : Nat) (b : Nat) : Quiet true (Cost.op_gt E lt a b : C α Bool) := by
  unfold Cost.op_gt; quiet
instance op_ge (lt : α → α → Bool) (a : Nat) (b : Nat) : Quiet true (Cost.op_ge E lt a b : C α Bool) := by
  unfold Cost.op_ge; quiet
instance it_add (it : Iter) (d : Int) : Quiet true (Cost.it_add E it d : C α Iter) := by
  unfold Cost.it_add; quiet
instance it_sub (it : Iter) (d : Int) : Quiet true (Cost.it_sub E it d : C α Iter) := by
  unfold Cost.it_sub; quiet
instance it_index (it : Iter) (d : Int) : Quiet true (Cost.it_index E it d : C α α) := by
  unfold Cost.it_index; quiet

end QuietReadOnly
end SegTree
