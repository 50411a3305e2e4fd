/-
  GENERATED by tools/gen_cost.py: the functions that construct, assign and destroy no element.
-/
import Verif.Cost.Quiet
set_option autoImplicit false
set_option linter.unusedVariables false
set_option synthInstance.maxSize 2000
set_option synthInstance.maxHeartbeats 400000

attribute [local instance] SegTree.Weights.elements

namespace SegTree
variable {α β γ : Type} {E : Env α}
namespace QuietElem
open Quiet

instance rdNode (p : Nat) : Quiet false (Cost.rdNode p : C α Node) := lift0 rfl fun h => by cases h
instance wrNode (p : Nat) (n : Node) : Quiet false (Cost.wrNode p n : C α Unit) := lift0 rfl fun h => by cases h
instance len (p : Nat) : Quiet false (Cost.len p : C α Nat) := by
  unfold Cost.len; quiet
instance setLen (p : Nat) (v : Nat) : Quiet false (Cost.setLen p v : C α Unit) := by
  unfold Cost.setLen; quiet
instance parent (p : Nat) : Quiet false (Cost.parent p : C α Nat) := by
  unfold Cost.parent; quiet
instance setParent (p : Nat) (v : Nat) : Quiet false (Cost.setParent p v : C α Unit) := by
  unfold Cost.setParent; quiet
instance pidx (p : Nat) : Quiet false (Cost.pidx p : C α Nat) := by
  unfold Cost.pidx; quiet
instance setPidx (p : Nat) (v : Nat) : Quiet false (Cost.setPidx p v : C α Unit) := by
  unfold Cost.setPidx; quiet
instance sizesAt (p : Nat) (i : Nat) : Quiet false (Cost.sizesAt E p i : C α Nat) := by
  unfold Cost.sizesAt; quiet
instance setSizes (p : Nat) (i : Nat) (v : Nat) : Quiet false (Cost.setSizes E p i v : C α Unit) := by
  unfold Cost.setSizes; quiet
instance ptrsAt (p : Nat) (i : Nat) : Quiet false (Cost.ptrsAt E p i : C α Nat) := by
  unfold Cost.ptrsAt; quiet
instance setPtrs (p : Nat) (i : Nat) (v : Nat) : Quiet false (Cost.setPtrs E p i v : C α Unit) := by
  unfold Cost.setPtrs; quiet
instance rdSlots (p : Nat) : Quiet false (Cost.rdSlots p : C α (Nat → Slot α)) := lift0 rfl fun h => by cases h
instance rdElem (p : Nat) (i : Nat) : Quiet false (Cost.rdElem E p i : C α α) := by
  unfold Cost.rdElem; quiet
instance rdObj (o : Nat) : Quiet false (Cost.rdObj o : C α SeqObj) := lift0 rfl fun h => by cases h
instance wrObj (o : Nat) (s : SeqObj) : Quiet false (Cost.wrObj o s : C α Unit) := lift0 rfl fun h => by cases h
instance getRoot (o : Nat) : Quiet false (Cost.getRoot o : C α Nat) := by
  unfold Cost.getRoot; quiet
instance getSize (o : Nat) : Quiet false (Cost.getSize o : C α Nat) := by
  unfold Cost.getSize; quiet
instance getHeight (o : Nat) : Quiet false (Cost.getHeight o : C α Nat) := by
  unfold Cost.getHeight; quiet
instance setRoot (o : Nat) (v : Nat) : Quiet false (Cost.setRoot o v : C α Unit) := by
  unfold Cost.setRoot; quiet
instance setSize (o : Nat) (v : Nat) : Quiet false (Cost.setSize o v : C α Unit) := by
  unfold Cost.setSize; quiet
instance setHeight (o : Nat) (v : Nat) : Quiet false (Cost.setHeight o v : C α Unit) := by
  unfold Cost.setHeight; quiet
instance allocCell (c : Cell α) : Quiet false (Cost.allocCell E c : C α Nat) := lift0 rfl fun h => by cases h
instance find_index_loop (p : Nat) (index : Nat) (size : Nat) (pos : Nat) : Quiet false (Cost.find_index_loop E p index size pos : C α (Nat × Nat)) := by
  revert index size pos
  refine Cost.find_index_loop.fixpoint_induct E p (fun f => ∀ (index : Nat) (size : Nat) (pos : Nat), Quiet false (f index size pos)) adm3 ?_
  intro f ih index size pos
  quiet
instance find_index_leaf (p : Nat) (pos : Nat) : Quiet false (Cost.find_index_leaf E p pos : C α Entry) := by
  unfold Cost.find_index_leaf; quiet
instance find_index_branch (p : Nat) (ht : Nat) (pos : Nat) : Quiet false (Cost.find_index_branch E p ht pos : C α Entry) := by
  revert p ht pos
  refine Cost.find_index_branch.fixpoint_induct E (fun f => ∀ (p : Nat) (ht : Nat) (pos : Nat), Quiet false (f p ht pos)) adm3 ?_
  intro f ih p ht pos
  quiet
instance find_index_node (p : Nat) (ht : Nat) (pos : Nat) : Quiet false (Cost.find_index_node E p ht pos : C α Entry) := by
  unfold Cost.find_index_node; quiet
instance find_index_root (p : Nat) (sz : Nat) (ht : Nat) (pos : Nat) : Quiet false (Cost.find_index_root E p sz ht pos : C α Iter) := by
  unfold Cost.find_index_root; quiet
instance find_first_leaf (p : Nat) : Quiet false (Cost.find_first_leaf E p : C α Entry) := by
  unfold Cost.find_first_leaf; quiet
instance find_first_branch (p : Nat) (ht : Nat) : Quiet false (Cost.find_first_branch E p ht : C α Entry) := by
  revert p ht
  refine Cost.find_first_branch.fixpoint_induct E (fun f => ∀ (p : Nat) (ht : Nat), Quiet false (f p ht)) adm2 ?_
  intro f ih p ht
  quiet
instance find_first_node (p : Nat) (ht : Nat) : Quiet false (Cost.find_first_node E p ht : C α Entry) := by
  unfold Cost.find_first_node; quiet
instance find_first_root (p : Nat) (sz : Nat) (ht : Nat) : Quiet false (Cost.find_first_root E p sz ht : C α Iter) := by
  unfold Cost.find_first_root; quiet
instance find_last_segment (p : Nat) (sz : Nat) : Quiet false (Cost.find_last_segment p sz : C α SegE) := by
  unfold Cost.find_last_segment; quiet
instance find_last_leaf (p : Nat) : Quiet false (Cost.find_last_leaf E p : C α Entry) := by
  unfold Cost.find_last_leaf; quiet
instance find_last_branch (p : Nat) (ht : Nat) : Quiet false (Cost.find_last_branch E p ht : C α Entry) := by
  revert p ht
  refine Cost.find_last_branch.fixpoint_induct E (fun f => ∀ (p : Nat) (ht : Nat), Quiet false (f p ht)) adm2 ?_
  intro f ih p ht
  quiet
instance find_last_node (p : Nat) (ht : Nat) : Quiet false (Cost.find_last_node E p ht : C α Entry) := by
  unfold Cost.find_last_node; quiet
instance find_last_root (p : Nat) (sz : Nat) (ht : Nat) : Quiet false (Cost.find_last_root E p sz ht : C α Iter) := by
  unfold Cost.find_last_root; quiet
instance find_end_leaf (p : Nat) : Quiet false (Cost.find_end_leaf E p : C α Entry) := by
  unfold Cost.find_end_leaf; quiet
instance find_end_branch (p : Nat) (ht : Nat) : Quiet false (Cost.find_end_branch E p ht : C α Entry) := by
  revert p ht
  refine Cost.find_end_branch.fixpoint_induct E (fun f => ∀ (p : Nat) (ht : Nat), Quiet false (f p ht)) adm2 ?_
  intro f ih p ht
  quiet
instance find_end_node (p : Nat) (ht : Nat) : Quiet false (Cost.find_end_node E p ht : C α Entry) := by
  unfold Cost.find_end_node; quiet
instance find_end_root (p : Nat) (sz : Nat) (ht : Nat) : Quiet false (Cost.find_end_root E p sz ht : C α Iter) := by
  unfold Cost.find_end_root; quiet
instance move_next_branch (e : Entry) (p : Nat) (index : Nat) (child_ht : Nat) : Quiet false (Cost.move_next_branch E e p index child_ht : C α Entry) := by
  revert p index child_ht
  refine Cost.move_next_branch.fixpoint_induct E e (fun f => ∀ (p : Nat) (index : Nat) (child_ht : Nat), Quiet false (f p index child_ht)) adm3 ?_
  intro f ih p index child_ht
  quiet
instance move_next_leaf (e : Entry) : Quiet false (Cost.move_next_leaf E e : C α Entry) := by
  unfold Cost.move_next_leaf; quiet
instance move_next_segment (e : Entry) : Quiet false (Cost.move_next_segment E e : C α Entry) := by
  unfold Cost.move_next_segment; quiet
instance move_next_iterator (it : Iter) : Quiet false (Cost.move_next_iterator E it : C α Iter) := by
  unfold Cost.move_next_iterator; quiet
instance move_prev_branch (p : Nat) (index : Nat) (child_ht : Nat) : Quiet false (Cost.move_prev_branch E p index child_ht : C α Entry) := by
  revert p index child_ht
  refine Cost.move_prev_branch.fixpoint_induct E (fun f => ∀ (p : Nat) (index : Nat) (child_ht : Nat), Quiet false (f p index child_ht)) adm3 ?_
  intro f ih p index child_ht
  quiet
instance move_prev_leaf (e : Entry) : Quiet false (Cost.move_prev_leaf E e : C α Entry) := by
  unfold Cost.move_prev_leaf; quiet
instance move_prev_segment (e : Entry) : Quiet false (Cost.move_prev_segment E e : C α Entry) := by
  unfold Cost.move_prev_segment; quiet
instance move_prev_iterator (it : Iter) : Quiet false (Cost.move_prev_iterator E it : C α Iter) := by
  unfold Cost.move_prev_iterator; quiet
instance scan_next (p : Nat) (index : Nat) (count : Nat) : Quiet false (Cost.scan_next E p index count : C α ((Nat × Nat × Nat) ⊕ Nat)) := by
  revert index count
  refine Cost.scan_next.fixpoint_induct E p (fun f => ∀ (index : Nat) (count : Nat), Quiet false (f index count)) adm2 ?_
  intro f ih index count
  quiet
instance move_next_branch_count (base : Nat) (p : Nat) (index : Nat) (count : Nat) (child_ht : Nat) : Quiet false (Cost.move_next_branch_count E base p index count child_ht : C α Entry) := by
  revert base p index count child_ht
  refine Cost.move_next_branch_count.fixpoint_induct E (fun f => ∀ (base : Nat) (p : Nat) (index : Nat) (count : Nat) (child_ht : Nat), Quiet false (f base p index count child_ht)) adm5 ?_
  intro f ih base p index count child_ht
  quiet
instance move_next_leaf_count (e : Entry) (count : Nat) : Quiet false (Cost.move_next_leaf_count E e count : C α Entry) := by
  unfold Cost.move_next_leaf_count; quiet
instance move_next_segment_count (e : Entry) (count : Nat) : Quiet false (Cost.move_next_segment_count E e count : C α Entry) := by
  unfold Cost.move_next_segment_count; quiet
instance move_next_iterator_count (it : Iter) (count : Nat) : Quiet false (Cost.move_next_iterator_count E it count : C α Iter) := by
  unfold Cost.move_next_iterator_count; quiet
instance scan_prev (p : Nat) (index : Nat) (count : Nat) : Quiet false (Cost.scan_prev E p index count : C α ((Nat × Nat × Nat) ⊕ Nat)) := by
  revert index count
  refine Cost.scan_prev.fixpoint_induct E p (fun f => ∀ (index : Nat) (count : Nat), Quiet false (f index count)) adm2 ?_
  intro f ih index count
  quiet
instance move_prev_branch_count (p : Nat) (index : Nat) (count : Nat) (child_ht : Nat) : Quiet false (Cost.move_prev_branch_count E p index count child_ht : C α Entry) := by
  revert p index count child_ht
  refine Cost.move_prev_branch_count.fixpoint_induct E (fun f => ∀ (p : Nat) (index : Nat) (count : Nat) (child_ht : Nat), Quiet false (f p index count child_ht)) adm4 ?_
  intro f ih p index count child_ht
  quiet
instance move_prev_leaf_count (e : Entry) (count : Nat) : Quiet false (Cost.move_prev_leaf_count E e count : C α Entry) := by
  unfold Cost.move_prev_leaf_count; quiet
instance move_prev_segment_count (e : Entry) (count : Nat) : Quiet false (Cost.move_prev_segment_count E e count : C α Entry) := by
  unfold Cost.move_prev_segment_count; quiet
instance move_prev_iterator_count (it : Iter) (count : Nat) : Quiet false (Cost.move_prev_iterator_count E it count : C α Iter) := by
  unfold Cost.move_prev_iterator_count; quiet
instance move_iterator_count (it : Iter) (diff : Int) : Quiet false (Cost.move_iterator_count E it diff : C α Iter) := by
  unfold Cost.move_iterator_count; quiet
instance dereference (it : Iter) : Quiet false (Cost.dereference E it : C α α) := by
  unfold Cost.dereference; quiet
instance dereference_count (it : Iter) (diff : Int) : Quiet false (Cost.dereference_count E it diff : C α α) := by
  unfold Cost.dereference_count; quiet
instance move_after_segment (it : Iter) : Quiet false (Cost.move_after_segment E it : C α Iter) := by
  unfold Cost.move_after_segment; quiet
instance move_after_segment_count (it : Iter) (count : Nat) : Quiet false (Cost.move_after_segment_count E it count : C α Iter) := by
  unfold Cost.move_after_segment_count; quiet
instance move_before_segment (it : Iter) : Quiet false (Cost.move_before_segment E it : C α Iter) := by
  unfold Cost.move_before_segment; quiet
instance move_before_segment_count (it : Iter) (count : Nat) : Quiet false (Cost.move_before_segment_count E it count : C α Iter) := by
  unfold Cost.move_before_segment_count; quiet
instance allocate_segment (o : Nat) : Quiet false (Cost.allocate_segment E o : C α Nat) := by
  unfold Cost.allocate_segment; quiet
instance allocNodeCell (w : Nat) : Quiet false (Cost.allocNodeCell E w : C α Nat) := lift0 rfl fun h => by cases h
instance allocate_node (o : Nat) : Quiet false (Cost.allocate_node E o : C α Nat) := by
  unfold Cost.allocate_node; quiet
instance destroy_node (p : Nat) (i : Nat) : Quiet false (Cost.destroy_node E p i : C α Unit) := by
  unfold Cost.destroy_node; quiet
instance freeSeg (a p : Nat) : Quiet false (Cost.freeSeg E a p : C α Unit) := lift0 rfl fun h => by cases h
instance freeNode (a p : Nat) : Quiet false (Cost.freeNode a p : C α Unit) := lift0 rfl fun h => by cases h
instance deallocate_segment (o : Nat) (p : Nat) : Quiet false (Cost.deallocate_segment E o p : C α Unit) := by
  unfold Cost.deallocate_segment; quiet
instance deallocate_node (o : Nat) (p : Nat) : Quiet false (Cost.deallocate_node E o p : C α Unit) := by
  unfold Cost.deallocate_node; quiet
instance construct_leaf (p : Nat) (i : Nat) (csz : Nat) (child : Nat) : Quiet false (Cost.construct_leaf E p i csz child : C α Nat) := by
  unfold Cost.construct_leaf; quiet
instance construct_branch (p : Nat) (i : Nat) (csz : Nat) (child : Nat) : Quiet false (Cost.construct_branch E p i csz child : C α Nat) := by
  unfold Cost.construct_branch; quiet
instance assign_leaf (p : Nat) (i : Nat) (csz : Nat) (child : Nat) : Quiet false (Cost.assign_leaf E p i csz child : C α Nat) := by
  unfold Cost.assign_leaf; quiet
instance assign_branch (p : Nat) (i : Nat) (csz : Nat) (child : Nat) : Quiet false (Cost.assign_branch E p i csz child : C α Nat) := by
  unfold Cost.assign_branch; quiet
instance move_assign_leaf (src : Nat) (si : Nat) (dst : Nat) (di : Nat) : Quiet false (Cost.move_assign_leaf E src si dst di : C α Nat) := by
  unfold Cost.move_assign_leaf; quiet
instance move_assign_branch (src : Nat) (si : Nat) (dst : Nat) (di : Nat) : Quiet false (Cost.move_assign_branch E src si dst di : C α Nat) := by
  unfold Cost.move_assign_branch; quiet
instance move_leaf (src : Nat) (si : Nat) (dst : Nat) (di : Nat) : Quiet false (Cost.move_leaf E src si dst di : C α Nat) := by
  unfold Cost.move_leaf; quiet
instance move_branch (src : Nat) (si : Nat) (dst : Nat) (di : Nat) : Quiet false (Cost.move_branch E src si dst di : C α Nat) := by
  unfold Cost.move_branch; quiet
instance construct_range_leaf (src : Nat) (si : Nat) (dst : Nat) (di : Nat) (count : Nat) : Quiet false (Cost.construct_range_leaf E src si dst di count : C α Nat) := by
  unfold Cost.construct_range_leaf; quiet
instance construct_range_branch (src : Nat) (si : Nat) (dst : Nat) (di : Nat) (count : Nat) : Quiet false (Cost.construct_range_branch E src si dst di count : C α Nat) := by
  unfold Cost.construct_range_branch; quiet
instance assign_forward_leaf (p : Nat) (length : Nat) (index : Nat) (distance : Nat) : Quiet false (Cost.assign_forward_leaf E p length index distance : C α Unit) := by
  unfold Cost.assign_forward_leaf; quiet
instance assign_forward_branch (p : Nat) (length : Nat) (index : Nat) (distance : Nat) : Quiet false (Cost.assign_forward_branch E p length index distance : C α Unit) := by
  unfold Cost.assign_forward_branch; quiet
instance assign_backward_leaf (p : Nat) (length : Nat) (index : Nat) (distance : Nat) : Quiet false (Cost.assign_backward_leaf E p length index distance : C α Unit) := by
  unfold Cost.assign_backward_leaf; quiet
instance assign_backward_branch (p : Nat) (length : Nat) (index : Nat) (distance : Nat) : Quiet false (Cost.assign_backward_branch E p length index distance : C α Unit) := by
  unfold Cost.assign_backward_branch; quiet
instance update_sizes (o : Nat) (p : Nat) (index : Nat) (sz : Nat) : Quiet false (Cost.update_sizes E o p index sz : C α Unit) := by
  revert p index
  refine Cost.update_sizes.fixpoint_induct E o sz (fun f => ∀ (p : Nat) (index : Nat), Quiet false (f p index)) adm2 ?_
  intro f ih p index
  quiet
instance increment_sizes (o : Nat) (p : Nat) (index : Nat) : Quiet false (Cost.increment_sizes E o p index : C α Unit) := by
  unfold Cost.increment_sizes; quiet
instance decrement_sizes (o : Nat) (p : Nat) (index : Nat) : Quiet false (Cost.decrement_sizes E o p index : C α Unit) := by
  unfold Cost.decrement_sizes; quiet
instance free_chain (o : Nat) (alloc : Nat) : Quiet false (Cost.free_chain E o alloc : C α Unit) := by
  revert alloc
  refine Cost.free_chain.fixpoint_induct E o (fun f => ∀ (alloc : Nat), Quiet false (f alloc)) adm1 ?_
  intro f ih alloc
  quiet
instance alloc_catch (o : Nat) (segment_alloc : Nat) (alloc : Nat) : Quiet false (Cost.alloc_catch E o segment_alloc alloc : C α Unit) := by
  unfold Cost.alloc_catch; quiet
instance alloc_nodes_loop (o : Nat) (p : Nat) (segment_alloc : Nat) (alloc : Nat) : Quiet false (Cost.alloc_nodes_loop E o p segment_alloc alloc : C α Nat) := by
  revert p alloc
  refine Cost.alloc_nodes_loop.fixpoint_induct E o segment_alloc (fun f => ∀ (p : Nat) (alloc : Nat), Quiet false (f p alloc)) adm2 ?_
  intro f ih p alloc
  quiet
instance alloc_nodes_single (o : Nat) (p : Nat) (segment_alloc : Nat) : Quiet false (Cost.alloc_nodes_single E o p segment_alloc : C α Nat) := by
  unfold Cost.alloc_nodes_single; quiet
instance insert_single_branch (o : Nat) (base : Nat) (p : Nat) (index : Nat) (alloc : Nat) (child_pointer : Nat) (child_size : Nat) : Quiet false (Cost.insert_single_branch E o base p index alloc child_pointer child_size : C α Unit) := by
  revert base p index alloc child_pointer child_size
  refine Cost.insert_single_branch.fixpoint_induct E o (fun f => ∀ (base : Nat) (p : Nat) (index : Nat) (alloc : Nat) (child_pointer : Nat) (child_size : Nat), Quiet false (f base p index alloc child_pointer child_size)) adm6 ?_
  intro f ih base p index alloc child_pointer child_size
  quiet
instance insert_single_leaf (o : Nat) (entry : Entry) (base : Nat) (p : Nat) (index : Nat) (alloc : Nat) (child_pointer : Nat) (child_size : Nat) : Quiet false (Cost.insert_single_leaf E o entry base p index alloc child_pointer child_size : C α Entry) := by
  unfold Cost.insert_single_leaf; quiet
instance erase_single_branch (o : Nat) (p : Nat) (index : Nat) : Quiet false (Cost.erase_single_branch E o p index : C α Unit) := by
  revert p index
  refine Cost.erase_single_branch.fixpoint_induct E o (fun f => ∀ (p : Nat) (index : Nat), Quiet false (f p index)) adm2 ?_
  intro f ih p index
  quiet
instance erase_single_leaf (o : Nat) (entry : LeafE) (p : Nat) (index : Nat) : Quiet false (Cost.erase_single_leaf E o entry p index : C α LeafE) := by
  unfold Cost.erase_single_leaf; quiet
instance find_index (o : Nat) (pos : Nat) : Quiet false (Cost.find_index E o pos : C α Iter) := by
  unfold Cost.find_index; quiet
instance find_first (o : Nat) : Quiet false (Cost.find_first E o : C α Iter) := by
  unfold Cost.find_first; quiet
instance find_last (o : Nat) : Quiet false (Cost.find_last E o : C α Iter) := by
  unfold Cost.find_last; quiet
instance find_end (o : Nat) : Quiet false (Cost.find_end E o : C α Iter) := by
  unfold Cost.find_end; quiet
instance steal (o : Nat) (other : Nat) : Quiet false (Cost.steal o other : C α Unit) := by
  unfold Cost.steal; quiet
instance copyVal (v : α) : Quiet false (Cost.copyVal E v : C α α) := lift0 rfl fun h => by cases h
instance move_assign_alloc (o : Nat) (other : Nat) : Quiet false (Cost.move_assign_alloc E o other : C α Unit) := by
  unfold Cost.move_assign_alloc; quiet
instance ctor (o alloc : Nat) : Quiet false (Cost.ctor o alloc : C α Unit) := lift0 rfl fun h => by cases h
instance dropObj (o : Nat) : Quiet false (Cost.dropObj o : C α Unit) := lift0 rfl fun h => by cases h
instance ctor_move (o : Nat) (other : Nat) : Quiet false (Cost.ctor_move o other : C α Unit) := by
  unfold Cost.ctor_move; quiet
instance at_ (o : Nat) (pos : Nat) : Quiet false (Cost.at_ E o pos : C α α) := by
  unfold Cost.at_; quiet
instance index_op (o : Nat) (pos : Nat) : Quiet false (Cost.index_op E o pos : C α α) := by
  unfold Cost.index_op; quiet
instance front (o : Nat) : Quiet false (Cost.front E o : C α α) := by
  unfold Cost.front; quiet
instance back (o : Nat) : Quiet false (Cost.back E o : C α α) := by
  unfold Cost.back; quiet
instance begin_ (o : Nat) : Quiet false (Cost.begin_ E o : C α Iter) := by
  unfold Cost.begin_; quiet
instance penultimate (o : Nat) : Quiet false (Cost.penultimate E o : C α Iter) := by
  unfold Cost.penultimate; quiet
instance end_ (o : Nat) : Quiet false (Cost.end_ E o : C α Iter) := by
  unfold Cost.end_; quiet
instance rev_deref (it : Iter) : Quiet false (Cost.rev_deref E it : C α α) := by
  unfold Cost.rev_deref; quiet
instance nth (o : Nat) (pos : Nat) : Quiet false (Cost.nth E o pos : C α Iter) := by
  unfold Cost.nth; quiet
instance empty (o : Nat) : Quiet false (Cost.empty o : C α Bool) := by
  unfold Cost.empty; quiet
instance size (o : Nat) : Quiet false (Cost.size o : C α Nat) := by
  unfold Cost.size; quiet
instance height (o : Nat) : Quiet false (Cost.height o : C α Nat) := by
  unfold Cost.height; quiet
instance get_allocator (o : Nat) : Quiet false (Cost.get_allocator o : C α Nat) := by
  unfold Cost.get_allocator; quiet
instance swap (o : Nat) (other : Nat) : Quiet false (Cost.swap E o other : C α Unit) := by
  unfold Cost.swap; quiet
instance std_find_if (p : α → Bool) (first : Iter) (last : Iter) : Quiet false (Cost.std_find_if E p first last : C α Iter) := by
  revert first
  refine Cost.std_find_if.fixpoint_induct E p last (fun f => ∀ (first : Iter), Quiet false (f first)) adm1 ?_
  intro f ih first
  quiet
instance std_equal (eq : α → α → Bool) (first1 : Iter) (last1 : Iter) (first2 : Iter) : Quiet false (Cost.std_equal E eq first1 last1 first2 : C α Bool) := by
  revert first1 first2
  refine Cost.std_equal.fixpoint_induct E eq last1 (fun f => ∀ (first1 : Iter) (first2 : Iter), Quiet false (f first1 first2)) adm2 ?_
  intro f ih first1 first2
  quiet
instance op_eq (eq : α → α → Bool) (a : Nat) (b : Nat) : Quiet false (Cost.op_eq E eq a b : C α Bool) := by
  unfold Cost.op_eq; quiet
instance op_ne (eq : α → α → Bool) (a : Nat) (b : Nat) : Quiet false (Cost.op_ne E eq a b : C α Bool) := by
  unfold Cost.op_ne; quiet
instance std_lex (lt : α → α → Bool) (first1 : Iter) (last1 : Iter) (first2 : Iter) (last2 : Iter) : Quiet false (Cost.std_lex E lt first1 last1 first2 last2 : C α Bool) := by
  revert first1 first2
  refine Cost.std_lex.fixpoint_induct E lt last1 last2 (fun f => ∀ (first1 : Iter) (first2 : Iter), Quiet false (f first1 first2)) adm2 ?_
  intro f ih first1 first2
  quiet
instance op_lt (lt : α → α → Bool) (a : Nat) (b : Nat) : Quiet false (Cost.op_lt E lt a b : C α Bool) := by
  unfold Cost.op_lt; quiet
instance op_le (lt : α → α → Bool) (a : Nat) (b : Nat) : Quiet false (Cost.op_le E lt a b : C α Bool) := by
  unfold Cost.op_le; quiet
instance op_gt (lt : α → α → Bool) (a : Nat) (b : Nat) : Quiet false (Cost.op_gt E lt a b : C α Bool) := by
  unfold Cost.op_gt; quiet
instance op_ge (lt : α → α → Bool) (a : Nat) (b : Nat) : Quiet false (Cost.op_ge E lt a b : C α Bool) := by
  unfold Cost.op_ge; quiet
instance it_add (it : Iter) (d : Int) : Quiet false (Cost.it_add E it d : C α Iter) := by
  unfold Cost.it_add; quiet
instance it_sub (it : Iter) (d : Int) : Quiet false (Cost.it_sub E it d : C α Iter) := by
  unfold Cost.it_sub; quiet
instance it_index (it : Iter) (d : Int) : Quiet false (Cost.it_index E it d : C α α) := by
  unfold Cost.it_index; quiet

end QuietElem
end SegTree
