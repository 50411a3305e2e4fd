/-
  The parts of the library that move no elements: they throw nothing, whatever moves do.
-/
import Verif.Props.Interrupted
import Verif.Proof.Throws
set_option autoImplicit false
set_option linter.unusedSectionVars false

namespace SegTree
open Lean.Order
variable {α β γ : Type} [Moves α] {E : Env α}

/-- `x` throws nothing -/
class Mute (x : N α β) : Prop where
  run : ∀ k m e m' n, x k m ≠ .throw e m' n

namespace Mute

instance pure (v : β) : Mute (Pure.pure v : N α β) := ⟨fun _ _ _ _ _ h => by cases h⟩
instance ub (u : UB) : Mute (N.ub u : N α β) := ⟨fun _ _ _ _ _ h => by cases h⟩
instance fails (v : α) : Mute (Rough.fails E v) := ⟨fun _ _ _ _ _ h => by cases h⟩
instance lift {x : M α β} [h : Raises (fun _ => False) x] : Mute (N.lift x) := by
  refine ⟨fun k m e m' n hx => ?_⟩
  unfold N.lift at hx
  cases e1 : x m with
  | throw e2 m2 => exact h.throws e1
  | _ => rw [e1] at hx; cases hx
instance ite {c : Prop} [Decidable c] {x y : N α β} [hx : Mute x] [hy : Mute y] : Mute (if c then x else y) := by
  split <;> assumption
instance bind {x : N α β} {f : β → N α γ} [h : Mute x] [hf : ∀ v, Mute (f v)] : Mute (x >>= f) := by
  refine ⟨fun k m e m' n hx => ?_⟩
  change N.bind x f k m = _ at hx
  unfold N.bind at hx
  cases e1 : x k m with
  | ok v m1 k1 => rw [e1] at hx; exact (hf v).run _ _ _ _ _ hx
  | throw e2 m2 k2 => exact h.run _ _ _ _ _ e1
  | _ => rw [e1] at hx; cases hx

theorem adm : Lean.Order.admissible (fun x : N α β => Mute x) := by
  have : (fun x : N α β => Mute x) = fun x => ∀ k m, ∀ e m' n, x k m ≠ .throw e m' n := by
    funext x; exact propext ⟨fun h => h.run, fun h => ⟨h⟩⟩
  rw [this]
  apply admissible_pi
  intro k
  refine admissible_apply (fun k (f : Mem α → NRes α β) => ∀ m, ∀ e m' n, f m ≠ .throw e m' n) k ?_
  apply admissible_pi
  intro m
  exact admissible_apply (fun m (r : NRes α β) => ∀ e m' n, r ≠ .throw e m' n) m
    (admissible_flatOrder _ (fun _ _ _ h => by cases h))

/-- walk through the program -/
macro "mute" : tactic => `(tactic| (repeat' first
  | infer_instance
  | (intro (_ : Nat))
  | dsimp (failIfUnchanged := true) only
  | (refine Mute.bind (h := ?_) (hf := ?_))
  | (refine Mute.ite (hx := ?_) (hy := ?_))
  | split
  | intro _))

instance usub (a b : Nat) : Mute (Rough.usub a b : N α Nat) := by unfold Rough.usub; infer_instance
instance rdNode (p : Nat) : Mute (Rough.rdNode p : N α Node) := by unfold Rough.rdNode; infer_instance
instance wrNode (p : Nat) (n : Node) : Mute (Rough.wrNode p n : N α Unit) := by unfold Rough.wrNode; infer_instance
instance len (p : Nat) : Mute (Rough.len p : N α Nat) := by unfold Rough.len; infer_instance
instance parent (p : Nat) : Mute (Rough.parent p : N α Nat) := by unfold Rough.parent; infer_instance
instance pidx (p : Nat) : Mute (Rough.pidx p : N α Nat) := by unfold Rough.pidx; infer_instance
instance sizesAt (p i : Nat) : Mute (Rough.sizesAt E p i) := by unfold Rough.sizesAt; infer_instance
instance setSizes (p i v : Nat) : Mute (Rough.setSizes E p i v) := by unfold Rough.setSizes; infer_instance
instance ptrsAt (p i : Nat) : Mute (Rough.ptrsAt E p i) := by unfold Rough.ptrsAt; infer_instance
instance rdSlots (p : Nat) : Mute (Rough.rdSlots p : N α _) := by unfold Rough.rdSlots; infer_instance
instance wrSlots (p : Nat) (s : Nat → Slot α) : Mute (Rough.wrSlots p s) := by unfold Rough.wrSlots; infer_instance
instance rdElem (p i : Nat) : Mute (Rough.rdElem E p i) := by unfold Rough.rdElem; mute
instance wrElem (p i : Nat) (v : α) : Mute (Rough.wrElem E p i v) := by unfold Rough.wrElem; mute
instance rdObj (o : Nat) : Mute (Rough.rdObj o : N α _) := by unfold Rough.rdObj; infer_instance
instance wrObj (o : Nat) (s : SeqObj) : Mute (Rough.wrObj o s : N α _) := by unfold Rough.wrObj; infer_instance
instance getSize (o : Nat) : Mute (Rough.getSize o : N α _) := by unfold Rough.getSize; infer_instance
instance setRoot (o v : Nat) : Mute (Rough.setRoot o v : N α _) := by unfold Rough.setRoot; infer_instance
instance setSize (o v : Nat) : Mute (Rough.setSize o v : N α _) := by unfold Rough.setSize; infer_instance
instance setHeight (o v : Nat) : Mute (Rough.setHeight o v : N α _) := by unfold Rough.setHeight; infer_instance

instance find_index_loop (p index size pos : Nat) : Mute (Rough.find_index_loop E p index size pos) := by
  revert index size pos
  refine Rough.find_index_loop.fixpoint_induct E p (fun f => ∀ index size pos, Mute (f index size pos))
    (Lag.adm3 fun _ _ _ => adm) ?_
  intro f ih index size pos
  mute
instance find_index_leaf (p pos : Nat) : Mute (Rough.find_index_leaf E p pos) := by unfold Rough.find_index_leaf; mute
instance find_index_branch (p ht pos : Nat) : Mute (Rough.find_index_branch E p ht pos) := by
  revert p ht pos
  refine Rough.find_index_branch.fixpoint_induct E (fun f => ∀ p ht pos, Mute (f p ht pos)) (Lag.adm3 fun _ _ _ => adm) ?_
  intro f ih p ht pos
  mute
instance find_index_node (p ht pos : Nat) : Mute (Rough.find_index_node E p ht pos) := by
  unfold Rough.find_index_node; infer_instance
instance find_index (o pos : Nat) : Mute (Rough.find_index E o pos) := by
  unfold Rough.find_index Rough.find_index_root; mute
instance find_first_leaf (p : Nat) : Mute (Rough.find_first_leaf E p) := by unfold Rough.find_first_leaf; mute
instance find_first_branch (p ht : Nat) : Mute (Rough.find_first_branch E p ht) := by
  revert p ht
  refine Rough.find_first_branch.fixpoint_induct E (fun f => ∀ p ht, Mute (f p ht)) (Lag.adm2 fun _ _ => adm) ?_
  intro f ih p ht
  mute
instance find_first_node (p ht : Nat) : Mute (Rough.find_first_node E p ht) := by
  unfold Rough.find_first_node; infer_instance
instance find_first (o : Nat) : Mute (Rough.find_first E o) := by
  unfold Rough.find_first Rough.find_first_root; mute
instance find_last_segment (p sz : Nat) : Mute (Rough.find_last_segment p sz : N α _) := by
  unfold Rough.find_last_segment; infer_instance
instance find_last_leaf (p : Nat) : Mute (Rough.find_last_leaf E p) := by unfold Rough.find_last_leaf; mute
instance find_last_branch (p ht : Nat) : Mute (Rough.find_last_branch E p ht) := by
  revert p ht
  refine Rough.find_last_branch.fixpoint_induct E (fun f => ∀ p ht, Mute (f p ht)) (Lag.adm2 fun _ _ => adm) ?_
  intro f ih p ht
  mute
instance find_last_node (p ht : Nat) : Mute (Rough.find_last_node E p ht) := by
  unfold Rough.find_last_node; infer_instance
instance find_last (o : Nat) : Mute (Rough.find_last E o) := by
  unfold Rough.find_last Rough.find_last_root; mute
instance find_end_leaf (p : Nat) : Mute (Rough.find_end_leaf E p) := by unfold Rough.find_end_leaf; mute
instance find_end_branch (p ht : Nat) : Mute (Rough.find_end_branch E p ht) := by
  revert p ht
  refine Rough.find_end_branch.fixpoint_induct E (fun f => ∀ p ht, Mute (f p ht)) (Lag.adm2 fun _ _ => adm) ?_
  intro f ih p ht
  mute
instance find_end_node (p ht : Nat) : Mute (Rough.find_end_node E p ht) := by
  unfold Rough.find_end_node; infer_instance
instance find_end (o : Nat) : Mute (Rough.find_end E o) := by
  unfold Rough.find_end Rough.find_end_root; mute
instance nth (o i : Nat) : Mute (Rough.nth E o i) := by unfold Rough.nth; infer_instance
instance move_next_branch (e : Entry) (p index ht : Nat) : Mute (Rough.move_next_branch E e p index ht) := by
  revert p index ht
  refine Rough.move_next_branch.fixpoint_induct E e (fun f => ∀ p index ht, Mute (f p index ht))
    (Lag.adm3 fun _ _ _ => adm) ?_
  intro f ih p index ht
  mute
instance move_next_leaf (e : Entry) : Mute (Rough.move_next_leaf E e) := by unfold Rough.move_next_leaf; mute

instance destroy_segment (p i : Nat) : Mute (Rough.destroy_segment E p i) := by unfold Rough.destroy_segment; mute
instance freeSeg (a p : Nat) : Mute (Rough.freeSeg E a p) := by unfold Rough.freeSeg; infer_instance
instance deallocate_segment (o p : Nat) : Mute (Rough.deallocate_segment E o p) := by
  unfold Rough.deallocate_segment; mute
instance memcpy_segment (a b c d n : Nat) : Mute (Rough.memcpy_segment E a b c d n) := by
  unfold Rough.memcpy_segment; mute
instance update_sizes (o p index sz : Nat) : Mute (Rough.update_sizes E o p index sz) := by
  revert p index sz
  intro p index sz
  revert p index
  refine Rough.update_sizes.fixpoint_induct E o sz (fun f => ∀ p index, Mute (f p index)) (Lag.adm2 fun _ _ => adm) ?_
  intro f ih p index
  mute
instance increment_sizes (o p index : Nat) : Mute (Rough.increment_sizes E o p index) := by
  unfold Rough.increment_sizes; infer_instance
instance decrement_sizes (o p index : Nat) : Mute (Rough.decrement_sizes E o p index) := by
  unfold Rough.decrement_sizes; infer_instance

end Mute
end SegTree
