/-
  Where live addresses come from: a structural fact about every function on the
  insertion path.  A call only adds addresses the allocator answered during the
  call, and lets `Exn.alloc` out only if one of its requests was refused.
-/
import Verif.Model.Api
import Mathlib.Data.Nat.Notation
set_option autoImplicit false

namespace SegTree
open Lean.Order

variable {α β γ : Type}

/-- a block is allocated at address `a` -/
def Live (m : Mem α) (a : Nat) : Prop := (m.cell (.heap a)).isSome = true

structure Ext (E : Env α) (m m' : Mem α) : Prop where
  le : m.log.reqs ≤ m'.log.reqs
  live : ∀ a, Live m' a → Live m a ∨ ∃ k, m.log.reqs ≤ k ∧ k < m'.log.reqs ∧ E.oracle k = a

/-- one of the requests made between `m` and `m'` got no usable address: null,
one in use in `m`, or one already given since -/
def Refused (E : Env α) (m m' : Mem α) : Prop :=
  ∃ n, m.log.reqs ≤ n ∧ n < m'.log.reqs ∧ (E.oracle n = 0 ∨ Live m (E.oracle n) ∨
    ∃ k, m.log.reqs ≤ k ∧ k < n ∧ E.oracle k = E.oracle n)

variable {E : Env α} {m m1 m' : Mem α}

theorem Ext.refl : Ext E m m := ⟨Nat.le_refl _, fun _ h => .inl h⟩
theorem Ext.trans (h1 : Ext E m m1) (h2 : Ext E m1 m') : Ext E m m' := by
  refine ⟨Nat.le_trans h1.le h2.le, ?_⟩
  intro a ha
  rcases h2.live a ha with ha | ⟨k, hk, hk', e⟩
  · rcases h1.live a ha with ha | ⟨k, hk, hk', e⟩
    · exact .inl ha
    · exact .inr ⟨k, hk, Nat.lt_of_lt_of_le hk' h2.le, e⟩
  · exact .inr ⟨k, Nat.le_trans h1.le hk, hk', e⟩
theorem Refused.left (h1 : Refused E m m1) (h2 : Ext E m1 m') : Refused E m m' := by
  obtain ⟨n, h3, h4, h5⟩ := h1
  exact ⟨n, h3, Nat.lt_of_lt_of_le h4 h2.le, h5⟩
theorem Refused.right (h1 : Ext E m m1) (h2 : Refused E m1 m') : Refused E m m' := by
  obtain ⟨n, h3, h4, h5⟩ := h2
  refine ⟨n, Nat.le_trans h1.le h3, h4, ?_⟩
  rcases h5 with h5 | h5 | ⟨k, hk, hk', e⟩
  · exact .inl h5
  · rcases h1.live _ h5 with h | ⟨k, hk, hk', e⟩
    · exact .inr (.inl h)
    · exact .inr (.inr ⟨k, hk, Nat.lt_of_lt_of_le hk' h3, e⟩)
  · exact .inr (.inr ⟨k, Nat.le_trans h1.le hk, hk', e⟩)

/-- outcome of a function started in `m` -/
def PresR (E : Env α) (m : Mem α) : Res α β → Prop
  | .ok _ m' => Ext E m m'
  | .throw e m' => Ext E m m' ∧ (e = .alloc → Refused E m m')
  | _ => True

class Pres (E : Env α) (x : M α β) : Prop where
  run : ∀ m, PresR E m (x m)

namespace Pres

instance pure (v : β) : Pres E (Pure.pure v : M α β) := ⟨fun _ => Ext.refl⟩
instance pure' (v : β) : Pres E (M.pure v : M α β) := ⟨fun _ => Ext.refl⟩
instance ub (k : UB) : Pres E (M.ub k : M α β) := ⟨fun _ => trivial⟩
theorem thr {e : Exn} (h : e ≠ .alloc) : Pres E (M.throw e : M α β) := ⟨fun _ => ⟨Ext.refl, fun h' => absurd h' h⟩⟩
instance thrElem : Pres E (M.throw .elem : M α β) := thr (by decide)
instance thrRange : Pres E (M.throw .range : M α β) := thr (by decide)
instance ite {c : Prop} [Decidable c] {x y : M α β} [Pres E x] [Pres E y] : Pres E (if c then x else y) := by
  split <;> assumption

instance bind {x : M α β} {f : β → M α γ} [h : Pres E x] [hf : ∀ v, Pres E (f v)] : Pres E (x >>= f) := by
  refine ⟨fun m => ?_⟩
  have := h.run m
  show PresR E m (M.bind x f m)
  unfold M.bind
  cases hx : x m with
  | ok v m1 =>
    rw [hx] at this
    have h2 := (hf v).run m1
    simp only
    cases hy : f v m1 with
    | ok w m2 => rw [hy] at h2; exact Ext.trans this h2
    | throw e m2 => rw [hy] at h2; exact ⟨Ext.trans this h2.1, fun he => Refused.right this (h2.2 he)⟩
    | ub k => trivial
    | div => trivial
  | throw e m1 => rw [hx] at this; exact this
  | ub k => trivial
  | div => trivial

instance onThrow {x : M α β} {h : M α Unit} [hx : Pres E x] [hh : Pres E h] : Pres E (M.onThrow x h) := by
  refine ⟨fun m => ?_⟩
  have h1 := hx.run m
  unfold M.onThrow
  cases e : x m with
  | ok v m1 => rw [e] at h1; exact h1
  | throw ex m1 =>
    rw [e] at h1
    have h2 := hh.run m1
    simp only
    cases e2 : h m1 with
    | ok v m2 => rw [e2] at h2; exact ⟨Ext.trans h1.1 h2, fun he => Refused.left (h1.2 he) h2⟩
    | throw ex2 m2 => rw [e2] at h2; exact ⟨Ext.trans h1.1 h2.1, fun he => Refused.right h1.1 (h2.2 he)⟩
    | ub k => trivial
    | div => trivial
  | ub k => trivial
  | div => trivial

theorem admissible : Lean.Order.admissible (fun x : M α β => Pres E x) := by
  have : (fun x : M α β => Pres E x) = fun x => ∀ m, PresR E m (x m) := by
    funext x; exact propext ⟨fun h => h.run, fun h => ⟨h⟩⟩
  rw [this]
  apply admissible_pi
  intro m
  exact admissible_apply (fun m r => PresR E m r) m (admissible_flatOrder _ trivial)

end Pres

/-! ### Primitives -/

theorem live_set {l : Loc} {c : Cell α} {a : Nat} (h : (m.cell l).isSome = true) (hl : Live (m.set l c) a) : Live m a := by
  unfold Live Mem.set upd at *
  simp only at hl
  split at hl
  · next e => rw [e]; exact h
  · exact hl
theorem live_set_obj {o : Nat} {c : Cell α} {a : Nat} (hl : Live (m.set (.obj o) c) a) : Live m a := by
  unfold Live Mem.set upd at *; simpa using hl
theorem live_erase {l : Loc} {a : Nat} (hl : Live (m.erase l) a) : Live m a := by
  unfold Live Mem.erase upd at *
  simp only at hl
  split at hl
  · simp at hl
  · exact hl

namespace Pres

instance rdNode (p : Nat) : Pres E (rdNode p : M α Node) := by
  refine ⟨fun m => ?_⟩; unfold SegTree.rdNode; split <;> first | exact Ext.refl | trivial
instance wrNode (p : Nat) (n : Node) : Pres E (wrNode p n : M α Unit) := by
  refine ⟨fun m => ?_⟩; unfold SegTree.wrNode; split
  · next h => exact ⟨Nat.le_refl _, fun a ha => .inl (live_set (by rw [h]; rfl) ha)⟩
  · trivial
instance rdSlots (p : Nat) : Pres E (rdSlots p : M α _) := by
  refine ⟨fun m => ?_⟩; unfold SegTree.rdSlots; split <;> first | exact Ext.refl | trivial
instance wrSlots (p : Nat) (s : Nat → Slot α) : Pres E (wrSlots p s) := by
  refine ⟨fun m => ?_⟩; unfold SegTree.wrSlots; split
  · next h => exact ⟨Nat.le_refl _, fun a ha => .inl (live_set (by rw [h]; rfl) ha)⟩
  · trivial
instance rdObj (o : Nat) : Pres E (rdObj o : M α SeqObj) := by
  refine ⟨fun m => ?_⟩; unfold SegTree.rdObj; split <;> first | exact Ext.refl | trivial
instance wrObj (o : Nat) (s : SeqObj) : Pres E (wrObj o s : M α Unit) := by
  refine ⟨fun m => ?_⟩; unfold SegTree.wrObj; split
  · next h => exact ⟨Nat.le_refl _, fun a ha => .inl (live_set (by rw [h]; rfl) ha)⟩
  · trivial
instance usub (a b : Nat) : Pres E (usub a b : M α Nat) := by
  unfold SegTree.usub; split
  · exact pure _
  · exact ub _
instance allocCell (c : Cell α) : Pres E (allocCell E c) := by
  refine ⟨fun m => ?_⟩
  unfold SegTree.allocCell
  simp only
  split
  · next h =>
    refine ⟨⟨Nat.le_succ _, fun a ha => .inl ha⟩, fun _ => ⟨m.log.reqs, Nat.le_refl _, Nat.lt_succ_self _, ?_⟩⟩
    rcases h with h | h
    · exact .inl h
    · exact .inr (.inl h)
  · refine ⟨Nat.le_succ _, ?_⟩
    intro a ha
    by_cases e : a = E.oracle m.log.reqs
    · exact .inr ⟨_, Nat.le_refl _, Nat.lt_succ_self _, e.symm⟩
    · left; unfold Live Mem.set upd at *; simpa [e] using ha
instance freeSeg (a p : Nat) : Pres E (freeSeg E a p) := by
  refine ⟨fun m => ?_⟩; unfold SegTree.freeSeg; split
  · split
    · trivial
    · split
      · exact ⟨Nat.le_refl _, fun a ha => .inl (live_erase ha)⟩
      · trivial
  · trivial
instance freeNode (a p : Nat) : Pres E (freeNode a p : M α Unit) := by
  refine ⟨fun m => ?_⟩; unfold SegTree.freeNode; split
  · split
    · trivial
    · exact ⟨Nat.le_refl _, fun a ha => .inl (live_erase ha)⟩
  · trivial
instance allocNodeCell (w : Nat) : Pres E (allocNodeCell E w) := ⟨fun m => (allocCell _).run m⟩
instance ctor (o al : Nat) : Pres E (ctor o al : M α Unit) := by
  refine ⟨fun m => ?_⟩; unfold SegTree.ctor; split
  · trivial
  · exact ⟨Nat.le_refl _, fun a ha => .inl (live_set_obj ha)⟩
instance dropObj (o : Nat) : Pres E (dropObj o : M α Unit) := by
  refine ⟨fun m => ?_⟩; unfold SegTree.dropObj; split
  · exact ⟨Nat.le_refl _, fun a ha => .inl (live_erase ha)⟩
  · trivial

/-! ### All functions -/

section
variable {ι1 ι2 ι3 ι4 ι5 ι6 ι7 ι8 : Type}
set_option synthInstance.maxSize 2000
set_option synthInstance.maxHeartbeats 200000
theorem adm1 : Lean.Order.admissible (fun f : ι1 → M α β => ∀ a, Pres E (f a)) :=
  admissible_pi _ fun a => admissible_apply (fun _ y => Pres E y) a Pres.admissible
theorem adm2 : Lean.Order.admissible (fun f : ι1 → ι2 → M α β => ∀ a1 a2, Pres E (f a1 a2)) :=
  admissible_pi _ fun a => admissible_apply (fun (_ : ι1) (f : ι2 → M α β) => ∀ a2, Pres E (f a2)) a adm1
theorem adm3 : Lean.Order.admissible (fun f : ι1 → ι2 → ι3 → M α β => ∀ a1 a2 a3, Pres E (f a1 a2 a3)) :=
  admissible_pi _ fun a => admissible_apply (fun (_ : ι1) (f : ι2 → ι3 → M α β) => ∀ a2 a3, Pres E (f a2 a3)) a adm2
theorem adm4 : Lean.Order.admissible (fun f : ι1 → ι2 → ι3 → ι4 → M α β => ∀ a1 a2 a3 a4, Pres E (f a1 a2 a3 a4)) :=
  admissible_pi _ fun a => admissible_apply (fun (_ : ι1) (f : ι2 → ι3 → ι4 → M α β) => ∀ a2 a3 a4, Pres E (f a2 a3 a4)) a adm3
theorem adm5 : Lean.Order.admissible (fun f : ι1 → ι2 → ι3 → ι4 → ι5 → M α β => ∀ a1 a2 a3 a4 a5, Pres E (f a1 a2 a3 a4 a5)) :=
  admissible_pi _ fun a => admissible_apply (fun (_ : ι1) (f : ι2 → ι3 → ι4 → ι5 → M α β) => ∀ a2 a3 a4 a5, Pres E (f a2 a3 a4 a5)) a adm4
theorem adm6 : Lean.Order.admissible (fun f : ι1 → ι2 → ι3 → ι4 → ι5 → ι6 → M α β => ∀ a1 a2 a3 a4 a5 a6, Pres E (f a1 a2 a3 a4 a5 a6)) :=
  admissible_pi _ fun a => admissible_apply (fun (_ : ι1) (f : ι2 → ι3 → ι4 → ι5 → ι6 → M α β) => ∀ a2 a3 a4 a5 a6, Pres E (f a2 a3 a4 a5 a6)) a adm5
end

macro "pres" : tactic => `(tactic| repeat' first | infer_instance | (intro (_ : Nat)) | dsimp (failIfUnchanged := true) only | (refine Pres.bind (h := ?_) (hf := ?_)) | (refine Pres.onThrow (hx := ?_) (hh := ?_)) | split | intro _)

instance len (p : Nat) : Pres E (SegTree.len p : M α Nat) := by
  unfold SegTree.len; pres
instance setLen (p : Nat) (v : Nat) : Pres E (SegTree.setLen p v : M α Unit) := by
  unfold SegTree.setLen; pres
instance parent (p : Nat) : Pres E (SegTree.parent p : M α Nat) := by
  unfold SegTree.parent; pres
instance setParent (p : Nat) (v : Nat) : Pres E (SegTree.setParent p v : M α Unit) := by
  unfold SegTree.setParent; pres
instance pidx (p : Nat) : Pres E (SegTree.pidx p : M α Nat) := by
  unfold SegTree.pidx; pres
instance setPidx (p : Nat) (v : Nat) : Pres E (SegTree.setPidx p v : M α Unit) := by
  unfold SegTree.setPidx; pres
instance sizesAt (p : Nat) (i : Nat) : Pres E (SegTree.sizesAt E p i : M α Nat) := by
  unfold SegTree.sizesAt; pres
instance setSizes (p : Nat) (i : Nat) (v : Nat) : Pres E (SegTree.setSizes E p i v : M α Unit) := by
  unfold SegTree.setSizes; pres
instance ptrsAt (p : Nat) (i : Nat) : Pres E (SegTree.ptrsAt E p i : M α Nat) := by
  unfold SegTree.ptrsAt; pres
instance setPtrs (p : Nat) (i : Nat) (v : Nat) : Pres E (SegTree.setPtrs E p i v : M α Unit) := by
  unfold SegTree.setPtrs; pres
instance rdElem (p : Nat) (i : Nat) : Pres E (SegTree.rdElem E p i : M α α) := by
  unfold SegTree.rdElem; pres
instance wrElem (p : Nat) (i : Nat) (v : α) : Pres E (SegTree.wrElem E p i v : M α Unit) := by
  unfold SegTree.wrElem; pres
instance getRoot (o : Nat) : Pres E (SegTree.getRoot o : M α Nat) := by
  unfold SegTree.getRoot; pres
instance getSize (o : Nat) : Pres E (SegTree.getSize o : M α Nat) := by
  unfold SegTree.getSize; pres
instance getHeight (o : Nat) : Pres E (SegTree.getHeight o : M α Nat) := by
  unfold SegTree.getHeight; pres
instance setRoot (o : Nat) (v : Nat) : Pres E (SegTree.setRoot o v : M α Unit) := by
  unfold SegTree.setRoot; pres
instance setSize (o : Nat) (v : Nat) : Pres E (SegTree.setSize o v : M α Unit) := by
  unfold SegTree.setSize; pres
instance setHeight (o : Nat) (v : Nat) : Pres E (SegTree.setHeight o v : M α Unit) := by
  unfold SegTree.setHeight; pres
instance find_index_loop (p : Nat) (index : Nat) (size : Nat) (pos : Nat) : Pres E (SegTree.find_index_loop E p index size pos : M α (Nat × Nat)) := by
  revert index size pos
  refine SegTree.find_index_loop.fixpoint_induct E p (fun f => ∀ (index : Nat) (size : Nat) (pos : Nat), Pres E (f index size pos)) adm3 ?_
  intro f ih index size pos
  pres
instance find_index_leaf (p : Nat) (pos : Nat) : Pres E (SegTree.find_index_leaf E p pos : M α Entry) := by
  unfold SegTree.find_index_leaf; pres
instance find_index_branch (p : Nat) (ht : Nat) (pos : Nat) : Pres E (SegTree.find_index_branch E p ht pos : M α Entry) := by
  revert p ht pos
  refine SegTree.find_index_branch.fixpoint_induct E (fun f => ∀ (p : Nat) (ht : Nat) (pos : Nat), Pres E (f p ht pos)) adm3 ?_
  intro f ih p ht pos
  pres
instance find_index_node (p : Nat) (ht : Nat) (pos : Nat) : Pres E (SegTree.find_index_node E p ht pos : M α Entry) := by
  unfold SegTree.find_index_node; pres
instance find_index_root (p : Nat) (sz : Nat) (ht : Nat) (pos : Nat) : Pres E (SegTree.find_index_root E p sz ht pos : M α Iter) := by
  unfold SegTree.find_index_root; pres
instance find_first_leaf (p : Nat) : Pres E (SegTree.find_first_leaf E p : M α Entry) := by
  unfold SegTree.find_first_leaf; pres
instance find_first_branch (p : Nat) (ht : Nat) : Pres E (SegTree.find_first_branch E p ht : M α Entry) := by
  revert p ht
  refine SegTree.find_first_branch.fixpoint_induct E (fun f => ∀ (p : Nat) (ht : Nat), Pres E (f p ht)) adm2 ?_
  intro f ih p ht
  pres
instance find_first_node (p : Nat) (ht : Nat) : Pres E (SegTree.find_first_node E p ht : M α Entry) := by
  unfold SegTree.find_first_node; pres
instance find_first_root (p : Nat) (sz : Nat) (ht : Nat) : Pres E (SegTree.find_first_root E p sz ht : M α Iter) := by
  unfold SegTree.find_first_root; pres
instance find_last_segment (p : Nat) (sz : Nat) : Pres E (SegTree.find_last_segment p sz : M α SegE) := by
  unfold SegTree.find_last_segment; pres
instance find_last_leaf (p : Nat) : Pres E (SegTree.find_last_leaf E p : M α Entry) := by
  unfold SegTree.find_last_leaf; pres
instance find_last_branch (p : Nat) (ht : Nat) : Pres E (SegTree.find_last_branch E p ht : M α Entry) := by
  revert p ht
  refine SegTree.find_last_branch.fixpoint_induct E (fun f => ∀ (p : Nat) (ht : Nat), Pres E (f p ht)) adm2 ?_
  intro f ih p ht
  pres
instance find_last_node (p : Nat) (ht : Nat) : Pres E (SegTree.find_last_node E p ht : M α Entry) := by
  unfold SegTree.find_last_node; pres
instance find_last_root (p : Nat) (sz : Nat) (ht : Nat) : Pres E (SegTree.find_last_root E p sz ht : M α Iter) := by
  unfold SegTree.find_last_root; pres
instance find_end_leaf (p : Nat) : Pres E (SegTree.find_end_leaf E p : M α Entry) := by
  unfold SegTree.find_end_leaf; pres
instance find_end_branch (p : Nat) (ht : Nat) : Pres E (SegTree.find_end_branch E p ht : M α Entry) := by
  revert p ht
  refine SegTree.find_end_branch.fixpoint_induct E (fun f => ∀ (p : Nat) (ht : Nat), Pres E (f p ht)) adm2 ?_
  intro f ih p ht
  pres
instance find_end_node (p : Nat) (ht : Nat) : Pres E (SegTree.find_end_node E p ht : M α Entry) := by
  unfold SegTree.find_end_node; pres
instance find_end_root (p : Nat) (sz : Nat) (ht : Nat) : Pres E (SegTree.find_end_root E p sz ht : M α Iter) := by
  unfold SegTree.find_end_root; pres
instance move_next_branch (e : Entry) (p : Nat) (index : Nat) (child_ht : Nat) : Pres E (SegTree.move_next_branch E e p index child_ht : M α Entry) := by
  revert p index child_ht
  refine SegTree.move_next_branch.fixpoint_induct E e (fun f => ∀ (p : Nat) (index : Nat) (child_ht : Nat), Pres E (f p index child_ht)) adm3 ?_
  intro f ih p index child_ht
  pres
instance move_next_leaf (e : Entry) : Pres E (SegTree.move_next_leaf E e : M α Entry) := by
  unfold SegTree.move_next_leaf; pres
instance move_next_segment (e : Entry) : Pres E (SegTree.move_next_segment E e : M α Entry) := by
  unfold SegTree.move_next_segment; pres
instance move_next_iterator (it : Iter) : Pres E (SegTree.move_next_iterator E it : M α Iter) := by
  unfold SegTree.move_next_iterator; pres
instance move_prev_branch (p : Nat) (index : Nat) (child_ht : Nat) : Pres E (SegTree.move_prev_branch E p index child_ht : M α Entry) := by
  revert p index child_ht
  refine SegTree.move_prev_branch.fixpoint_induct E (fun f => ∀ (p : Nat) (index : Nat) (child_ht : Nat), Pres E (f p index child_ht)) adm3 ?_
  intro f ih p index child_ht
  pres
instance move_prev_leaf (e : Entry) : Pres E (SegTree.move_prev_leaf E e : M α Entry) := by
  unfold SegTree.move_prev_leaf; pres
instance move_prev_segment (e : Entry) : Pres E (SegTree.move_prev_segment E e : M α Entry) := by
  unfold SegTree.move_prev_segment; pres
instance move_prev_iterator (it : Iter) : Pres E (SegTree.move_prev_iterator E it : M α Iter) := by
  unfold SegTree.move_prev_iterator; pres
instance scan_next (p : Nat) (index : Nat) (count : Nat) : Pres E (SegTree.scan_next E p index count : M α (Nat × Nat × Nat ⊕ Nat)) := by
  revert index count
  refine SegTree.scan_next.fixpoint_induct E p (fun f => ∀ (index : Nat) (count : Nat), Pres E (f index count)) adm2 ?_
  intro f ih index count
  pres
instance move_next_branch_count (base : Nat) (p : Nat) (index : Nat) (count : Nat) (child_ht : Nat) : Pres E (SegTree.move_next_branch_count E base p index count child_ht : M α Entry) := by
  revert base p index count child_ht
  refine SegTree.move_next_branch_count.fixpoint_induct E (fun f => ∀ (base : Nat) (p : Nat) (index : Nat) (count : Nat) (child_ht : Nat), Pres E (f base p index count child_ht)) adm5 ?_
  intro f ih base p index count child_ht
  pres
instance move_next_leaf_count (e : Entry) (count : Nat) : Pres E (SegTree.move_next_leaf_count E e count : M α Entry) := by
  unfold SegTree.move_next_leaf_count; pres
instance move_next_segment_count (e : Entry) (count : Nat) : Pres E (SegTree.move_next_segment_count E e count : M α Entry) := by
  unfold SegTree.move_next_segment_count; pres
instance move_next_iterator_count (it : Iter) (count : Nat) : Pres E (SegTree.move_next_iterator_count E it count : M α Iter) := by
  unfold SegTree.move_next_iterator_count; pres
instance scan_prev (p : Nat) (index : Nat) (count : Nat) : Pres E (SegTree.scan_prev E p index count : M α (Nat × Nat × Nat ⊕ Nat)) := by
  revert index count
  refine SegTree.scan_prev.fixpoint_induct E p (fun f => ∀ (index : Nat) (count : Nat), Pres E (f index count)) adm2 ?_
  intro f ih index count
  pres
instance move_prev_branch_count (p : Nat) (index : Nat) (count : Nat) (child_ht : Nat) : Pres E (SegTree.move_prev_branch_count E p index count child_ht : M α Entry) := by
  revert p index count child_ht
  refine SegTree.move_prev_branch_count.fixpoint_induct E (fun f => ∀ (p : Nat) (index : Nat) (count : Nat) (child_ht : Nat), Pres E (f p index count child_ht)) adm4 ?_
  intro f ih p index count child_ht
  pres
instance move_prev_leaf_count (e : Entry) (count : Nat) : Pres E (SegTree.move_prev_leaf_count E e count : M α Entry) := by
  unfold SegTree.move_prev_leaf_count; pres
instance move_prev_segment_count (e : Entry) (count : Nat) : Pres E (SegTree.move_prev_segment_count E e count : M α Entry) := by
  unfold SegTree.move_prev_segment_count; pres
instance move_prev_iterator_count (it : Iter) (count : Nat) : Pres E (SegTree.move_prev_iterator_count E it count : M α Iter) := by
  unfold SegTree.move_prev_iterator_count; pres
instance move_iterator_count (it : Iter) (diff : Int) : Pres E (SegTree.move_iterator_count E it diff : M α Iter) := by
  unfold SegTree.move_iterator_count; pres
instance dereference (it : Iter) : Pres E (SegTree.dereference E it : M α α) := by
  unfold SegTree.dereference; pres
instance dereference_count (it : Iter) (diff : Int) : Pres E (SegTree.dereference_count E it diff : M α α) := by
  unfold SegTree.dereference_count; pres
instance move_after_segment (it : Iter) : Pres E (SegTree.move_after_segment E it : M α Iter) := by
  unfold SegTree.move_after_segment; pres
instance move_after_segment_count (it : Iter) (count : Nat) : Pres E (SegTree.move_after_segment_count E it count : M α Iter) := by
  unfold SegTree.move_after_segment_count; pres
instance move_before_segment (it : Iter) : Pres E (SegTree.move_before_segment E it : M α Iter) := by
  unfold SegTree.move_before_segment; pres
instance move_before_segment_count (it : Iter) (count : Nat) : Pres E (SegTree.move_before_segment_count E it count : M α Iter) := by
  unfold SegTree.move_before_segment_count; pres
instance allocate_segment (o : Nat) : Pres E (SegTree.allocate_segment E o : M α Nat) := by
  unfold SegTree.allocate_segment; pres
instance allocate_node (o : Nat) : Pres E (SegTree.allocate_node E o : M α Nat) := by
  unfold SegTree.allocate_node; pres
instance destroy_segment (p : Nat) (i : Nat) : Pres E (SegTree.destroy_segment E p i : M α Unit) := by
  unfold SegTree.destroy_segment; pres
instance destroy_node (p : Nat) (i : Nat) : Pres E (SegTree.destroy_node E p i : M α Unit) := by
  unfold SegTree.destroy_node; pres
instance deallocate_segment (o : Nat) (p : Nat) : Pres E (SegTree.deallocate_segment E o p : M α Unit) := by
  unfold SegTree.deallocate_segment; pres
instance deallocate_node (o : Nat) (p : Nat) : Pres E (SegTree.deallocate_node E o p : M α Unit) := by
  unfold SegTree.deallocate_node; pres
instance forN (f : Nat → M α Unit) (n : Nat) (i : Nat) [hf : ∀ i, Pres E (f i)] : Pres E (SegTree.forN f n i) := by
  induction n generalizing i with
  | zero => exact pure _
  | succ n ih => exact bind (hf := fun _ => ih _)
instance purge_segment (o : Nat) (p : Nat) (sz : Nat) : Pres E (SegTree.purge_segment E o p sz : M α Unit) := by
  unfold SegTree.purge_segment; pres
instance purge_node (o : Nat) : ∀ (ht p : Nat), Pres E (SegTree.purge_node E o ht p)
  | 0, _ => ub _
  | 1, _ => ub _
  | 2, p => by unfold SegTree.purge_node; pres
  | ht + 3, p => by
    have ih := purge_node o (ht + 2)
    unfold SegTree.purge_node; pres
instance purge_root (o : Nat) (p : Nat) (sz : Nat) (ht : Nat) : Pres E (SegTree.purge_root E o p sz ht : M α Unit) := by
  unfold SegTree.purge_root; pres
instance purge (o : Nat) : Pres E (SegTree.purge E o : M α Unit) := by
  unfold SegTree.purge; pres
instance construct_segment (p : Nat) (i : Nat) (v : α) : Pres E (SegTree.construct_segment E p i v : M α Unit) := by
  unfold SegTree.construct_segment; pres
instance construct_leaf (p : Nat) (i : Nat) (csz : Nat) (child : Nat) : Pres E (SegTree.construct_leaf E p i csz child : M α Nat) := by
  unfold SegTree.construct_leaf; pres
instance construct_branch (p : Nat) (i : Nat) (csz : Nat) (child : Nat) : Pres E (SegTree.construct_branch E p i csz child : M α Nat) := by
  unfold SegTree.construct_branch; pres
instance assign_segment (p : Nat) (i : Nat) (v : α) : Pres E (SegTree.assign_segment E p i v : M α Unit) := by
  unfold SegTree.assign_segment; pres
instance assign_leaf (p : Nat) (i : Nat) (csz : Nat) (child : Nat) : Pres E (SegTree.assign_leaf E p i csz child : M α Nat) := by
  unfold SegTree.assign_leaf; pres
instance assign_branch (p : Nat) (i : Nat) (csz : Nat) (child : Nat) : Pres E (SegTree.assign_branch E p i csz child : M α Nat) := by
  unfold SegTree.assign_branch; pres
instance move_assign_segment (src : Nat) (si : Nat) (dst : Nat) (di : Nat) : Pres E (SegTree.move_assign_segment E src si dst di : M α Unit) := by
  unfold SegTree.move_assign_segment; pres
instance move_assign_leaf (src : Nat) (si : Nat) (dst : Nat) (di : Nat) : Pres E (SegTree.move_assign_leaf E src si dst di : M α Nat) := by
  unfold SegTree.move_assign_leaf; pres
instance move_assign_branch (src : Nat) (si : Nat) (dst : Nat) (di : Nat) : Pres E (SegTree.move_assign_branch E src si dst di : M α Nat) := by
  unfold SegTree.move_assign_branch; pres
instance move_segment (src : Nat) (si : Nat) (dst : Nat) (di : Nat) : Pres E (SegTree.move_segment E src si dst di : M α Unit) := by
  unfold SegTree.move_segment; pres
instance move_leaf (src : Nat) (si : Nat) (dst : Nat) (di : Nat) : Pres E (SegTree.move_leaf E src si dst di : M α Nat) := by
  unfold SegTree.move_leaf; pres
instance move_branch (src : Nat) (si : Nat) (dst : Nat) (di : Nat) : Pres E (SegTree.move_branch E src si dst di : M α Nat) := by
  unfold SegTree.move_branch; pres
instance range_loop (step : Nat → Nat → M α Nat) (src : Nat) (last : Nat) (dst : Nat) (acc : Nat) [hs : ∀ a b, Pres E (step a b)] : Pres E (SegTree.range_loop step src last dst acc : M α Nat) := by
  revert src dst acc
  refine SegTree.range_loop.fixpoint_induct step last (fun f => ∀ (src : Nat) (dst : Nat) (acc : Nat), Pres E (f src dst acc)) adm3 ?_
  intro f ih src dst acc
  pres
instance forward_loop (step : Nat → Nat → M α Unit) (first : Nat) (src : Nat) (dst : Nat) [hs : ∀ a b, Pres E (step a b)] : Pres E (SegTree.forward_loop step first src dst : M α Unit) := by
  revert src dst
  refine SegTree.forward_loop.fixpoint_induct step first (fun f => ∀ (src : Nat) (dst : Nat), Pres E (f src dst)) adm2 ?_
  intro f ih src dst
  pres
instance backward_loop (step : Nat → Nat → M α Unit) (src : Nat) (dst : Nat) (last : Nat) [hs : ∀ a b, Pres E (step a b)] : Pres E (SegTree.backward_loop step src dst last : M α Unit) := by
  revert src dst
  refine SegTree.backward_loop.fixpoint_induct step last (fun f => ∀ (src : Nat) (dst : Nat), Pres E (f src dst)) adm2 ?_
  intro f ih src dst
  pres
instance memcpy_segment (src : Nat) (si : Nat) (dst : Nat) (di : Nat) (n : Nat) : Pres E (SegTree.memcpy_segment E src si dst di n : M α Unit) := by
  unfold SegTree.memcpy_segment; pres
instance construct_range_segment (src : Nat) (si : Nat) (dst : Nat) (di : Nat) (count : Nat) : Pres E (SegTree.construct_range_segment E src si dst di count : M α Unit) := by
  unfold SegTree.construct_range_segment; pres
instance construct_range_leaf (src : Nat) (si : Nat) (dst : Nat) (di : Nat) (count : Nat) : Pres E (SegTree.construct_range_leaf E src si dst di count : M α Nat) := by
  unfold SegTree.construct_range_leaf; pres
instance construct_range_branch (src : Nat) (si : Nat) (dst : Nat) (di : Nat) (count : Nat) : Pres E (SegTree.construct_range_branch E src si dst di count : M α Nat) := by
  unfold SegTree.construct_range_branch; pres
instance assign_forward_segment (p : Nat) (length : Nat) (index : Nat) (distance : Nat) : Pres E (SegTree.assign_forward_segment E p length index distance : M α Unit) := by
  unfold SegTree.assign_forward_segment; pres
instance assign_forward_leaf (p : Nat) (length : Nat) (index : Nat) (distance : Nat) : Pres E (SegTree.assign_forward_leaf E p length index distance : M α Unit) := by
  unfold SegTree.assign_forward_leaf; pres
instance assign_forward_branch (p : Nat) (length : Nat) (index : Nat) (distance : Nat) : Pres E (SegTree.assign_forward_branch E p length index distance : M α Unit) := by
  unfold SegTree.assign_forward_branch; pres
instance assign_backward_segment (p : Nat) (length : Nat) (index : Nat) (distance : Nat) : Pres E (SegTree.assign_backward_segment E p length index distance : M α Unit) := by
  unfold SegTree.assign_backward_segment; pres
instance assign_backward_leaf (p : Nat) (length : Nat) (index : Nat) (distance : Nat) : Pres E (SegTree.assign_backward_leaf E p length index distance : M α Unit) := by
  unfold SegTree.assign_backward_leaf; pres
instance assign_backward_branch (p : Nat) (length : Nat) (index : Nat) (distance : Nat) : Pres E (SegTree.assign_backward_branch E p length index distance : M α Unit) := by
  unfold SegTree.assign_backward_branch; pres
instance update_sizes (o : Nat) (p : Nat) (index : Nat) (sz : Nat) : Pres E (SegTree.update_sizes E o p index sz : M α Unit) := by
  revert p index
  refine SegTree.update_sizes.fixpoint_induct E o sz (fun f => ∀ (p : Nat) (index : Nat), Pres E (f p index)) adm2 ?_
  intro f ih p index
  pres
instance increment_sizes (o : Nat) (p : Nat) (index : Nat) : Pres E (SegTree.increment_sizes E o p index : M α Unit) := by
  unfold SegTree.increment_sizes; pres
instance decrement_sizes (o : Nat) (p : Nat) (index : Nat) : Pres E (SegTree.decrement_sizes E o p index : M α Unit) := by
  unfold SegTree.decrement_sizes; pres
instance free_chain (o : Nat) (alloc : Nat) : Pres E (SegTree.free_chain E o alloc : M α Unit) := by
  revert alloc
  refine SegTree.free_chain.fixpoint_induct E o (fun f => ∀ (alloc : Nat), Pres E (f alloc)) adm1 ?_
  intro f ih alloc
  pres
instance alloc_catch (o : Nat) (segment_alloc : Nat) (alloc : Nat) : Pres E (SegTree.alloc_catch E o segment_alloc alloc : M α Unit) := by
  unfold SegTree.alloc_catch; pres
instance alloc_nodes_loop (o : Nat) (p : Nat) (segment_alloc : Nat) (alloc : Nat) : Pres E (SegTree.alloc_nodes_loop E o p segment_alloc alloc : M α Nat) := by
  revert p alloc
  refine SegTree.alloc_nodes_loop.fixpoint_induct E o segment_alloc (fun f => ∀ (p : Nat) (alloc : Nat), Pres E (f p alloc)) adm2 ?_
  intro f ih p alloc
  pres
instance alloc_nodes_single (o : Nat) (p : Nat) (segment_alloc : Nat) : Pres E (SegTree.alloc_nodes_single E o p segment_alloc : M α Nat) := by
  unfold SegTree.alloc_nodes_single; pres
instance insert_single_branch (o : Nat) (base : Nat) (p : Nat) (index : Nat) (alloc : Nat) (child_pointer : Nat) (child_size : Nat) : Pres E (SegTree.insert_single_branch E o base p index alloc child_pointer child_size : M α Unit) := by
  revert base p index alloc child_pointer child_size
  refine SegTree.insert_single_branch.fixpoint_induct E o (fun f => ∀ (base : Nat) (p : Nat) (index : Nat) (alloc : Nat) (child_pointer : Nat) (child_size : Nat), Pres E (f base p index alloc child_pointer child_size)) adm6 ?_
  intro f ih base p index alloc child_pointer child_size
  pres
instance insert_single_leaf (o : Nat) (entry : Entry) (base : Nat) (p : Nat) (index : Nat) (alloc : Nat) (child_pointer : Nat) (child_size : Nat) : Pres E (SegTree.insert_single_leaf E o entry base p index alloc child_pointer child_size : M α Entry) := by
  unfold SegTree.insert_single_leaf; pres
instance insert_single_segment (o : Nat) (entry : Entry) (value : α) : Pres E (SegTree.insert_single_segment E o entry value : M α Entry) := by
  unfold SegTree.insert_single_segment; pres
instance insert_single_iterator (o : Nat) (it : Iter) (value : α) : Pres E (SegTree.insert_single_iterator E o it value : M α Iter) := by
  unfold SegTree.insert_single_iterator; pres
instance erase_single_branch (o : Nat) (p : Nat) (index : Nat) : Pres E (SegTree.erase_single_branch E o p index : M α Unit) := by
  revert p index
  refine SegTree.erase_single_branch.fixpoint_induct E o (fun f => ∀ (p : Nat) (index : Nat), Pres E (f p index)) adm2 ?_
  intro f ih p index
  pres
instance erase_single_leaf (o : Nat) (entry : LeafE) (p : Nat) (index : Nat) : Pres E (SegTree.erase_single_leaf E o entry p index : M α LeafE) := by
  unfold SegTree.erase_single_leaf; pres
instance erase_single_segment (o : Nat) (entry : Entry) : Pres E (SegTree.erase_single_segment E o entry : M α Entry) := by
  unfold SegTree.erase_single_segment; pres
instance erase_single_iterator (o : Nat) (it : Iter) : Pres E (SegTree.erase_single_iterator E o it : M α Iter) := by
  unfold SegTree.erase_single_iterator; pres
instance find_index (o : Nat) (pos : Nat) : Pres E (SegTree.find_index E o pos : M α Iter) := by
  unfold SegTree.find_index; pres
instance find_first (o : Nat) : Pres E (SegTree.find_first E o : M α Iter) := by
  unfold SegTree.find_first; pres
instance find_last (o : Nat) : Pres E (SegTree.find_last E o : M α Iter) := by
  unfold SegTree.find_last; pres
instance find_end (o : Nat) : Pres E (SegTree.find_end E o : M α Iter) := by
  unfold SegTree.find_end; pres
instance steal (o : Nat) (other : Nat) : Pres E (SegTree.steal o other : M α Unit) := by
  unfold SegTree.steal; pres
instance copyVal (v : α) : Pres E (SegTree.copyVal E v : M α α) := by
  refine ⟨fun m => ?_⟩; unfold SegTree.copyVal; split
  · exact Ext.refl
  · split
    · exact ⟨⟨Nat.le_refl _, fun a ha => .inl ha⟩, nofun⟩
    · exact ⟨Nat.le_refl _, fun a ha => .inl ha⟩
instance copyAssign (p : Nat) (i : Nat) (v : α) : Pres E (SegTree.copyAssign E p i v : M α Unit) := by
  unfold SegTree.copyAssign; pres
instance moveFrom (p : Nat) (i : Nat) : Pres E (SegTree.moveFrom E p i : M α α) := by
  unfold SegTree.moveFrom; pres
instance emplace_single (o : Nat) (it : Iter) (mk : M α α) [hmk : Pres E mk] : Pres E (SegTree.emplace_single E o it mk : M α Iter) := by
  unfold SegTree.emplace_single; pres

/-- the source of a range only does what functions may -/
class _root_.SegTree.PresS {σ : Type} (E : Env α) (S : Src α σ) : Prop where
  read : ∀ st, Pres E (S.read st)
  next : ∀ st, Pres E (S.next st)
instance srcRead {σ : Type} {S : Src α σ} [h : PresS E S] (st : σ) : Pres E (S.read st) := h.read st
instance srcNext {σ : Type} {S : Src α σ} [h : PresS E S] (st : σ) : Pres E (S.next st) := h.next st
instance emplace_count_loop (o : Nat) (mk : M α α) [hmk : Pres E mk] : ∀ (n : Nat) (it : Iter), Pres E (SegTree.emplace_count_loop E o mk n it)
  | 0, it => pure _
  | n + 1, it => by
    have ih := fun it => emplace_count_loop o mk n it
    unfold SegTree.emplace_count_loop; pres
instance emplace_count (o : Nat) (it : Iter) (count : Nat) (mk : M α α) [hmk : Pres E mk] : Pres E (SegTree.emplace_count E o it count mk : M α Iter) := by
  unfold SegTree.emplace_count; pres
instance emplace_range_loop {σ : Type} (S : Src α σ) (o : Nat) (it : Iter) (first : σ) (count : Nat) [hS : PresS E S] : Pres E (SegTree.emplace_range_loop E S o it first count : M α (Iter × Nat)) := by
  revert it first count
  refine SegTree.emplace_range_loop.fixpoint_induct E S o (fun f => ∀ (it : Iter) (first : σ) (count : Nat), Pres E (f it first count)) adm3 ?_
  intro f ih it first count
  pres
instance emplace_range {σ : Type} (S : Src α σ) (o : Nat) (it : Iter) (first : σ) [hS : PresS E S] : Pres E (SegTree.emplace_range E S o it first : M α Iter) := by
  unfold SegTree.emplace_range; pres

instance listSrc : PresS E (SegTree.listSrc E) := ⟨fun l => by
    cases l
    · exact ub _
    · exact copyVal _, fun _ => pure _⟩
instance copySrc (last : Iter) : PresS E (SegTree.copySrc E last) := ⟨fun _ => inferInstanceAs (Pres E (_ >>= _)), fun _ => move_next_iterator _⟩
instance moveSrc (last : Iter) : PresS E (SegTree.moveSrc E last) := ⟨fun _ => moveFrom _ _, fun _ => move_next_iterator _⟩

instance erase_single (o : Nat) (it : Iter) : Pres E (SegTree.erase_single E o it : M α Iter) := by
  unfold SegTree.erase_single; pres
instance erase_range (o : Nat) (first : Iter) (last : Iter) : Pres E (SegTree.erase_range E o first last : M α Iter) := by
  revert last
  refine SegTree.erase_range.fixpoint_induct E o first (fun f => ∀ (last : Iter), Pres E (f last)) adm1 ?_
  intro f ih last
  pres
instance assign_count_loop (o : Nat) (src : M α α) (count : Nat) (first last : Iter) [hsrc : Pres E src] : Pres E (SegTree.assign_count_loop E o src count first last : M α Unit) := by
  revert count first
  refine SegTree.assign_count_loop.fixpoint_induct E o src last (fun f => ∀ (count : Nat) (first : Iter), Pres E (f count first)) adm2 ?_
  intro f ih count first
  pres
instance assign_count (o : Nat) (count : Nat) (src : M α α) [hsrc : Pres E src] : Pres E (SegTree.assign_count E o count src : M α Unit) := by
  unfold SegTree.assign_count; pres
instance assign_range_loop {σ : Type} (S : Src α σ) (o : Nat) (source : σ) (first : Iter) (last : Iter) [hS : PresS E S] : Pres E (SegTree.assign_range_loop E S o source first last : M α Unit) := by
  revert source first
  refine SegTree.assign_range_loop.fixpoint_induct E S o last (fun f => ∀ (source : σ) (first : Iter), Pres E (f source first)) adm2 ?_
  intro f ih source first
  pres
instance assign_range {σ : Type} (S : Src α σ) (o : Nat) (source : σ) [hS : PresS E S] : Pres E (SegTree.assign_range E S o source : M α Unit) := by
  unfold SegTree.assign_range; pres
instance resize_count (o : Nat) (count : Nat) (mk : M α α) [hmk : Pres E mk] : Pres E (SegTree.resize_count E o count mk : M α Unit) := by
  unfold SegTree.resize_count; pres
instance clear (o : Nat) : Pres E (SegTree.clear E o : M α Unit) := by
  unfold SegTree.clear; pres
instance copy_assign_alloc (o : Nat) (other : Nat) : Pres E (SegTree.copy_assign_alloc E o other : M α Unit) := by
  unfold SegTree.copy_assign_alloc; pres
instance move_assign_alloc (o : Nat) (other : Nat) : Pres E (SegTree.move_assign_alloc E o other : M α Unit) := by
  unfold SegTree.move_assign_alloc; pres
instance move_assign_steal (o : Nat) (other : Nat) : Pres E (SegTree.move_assign_steal E o other : M α Unit) := by
  unfold SegTree.move_assign_steal; pres
instance move_assign (o : Nat) (other : Nat) : Pres E (SegTree.move_assign E o other : M α Unit) := by
  unfold SegTree.move_assign; pres
instance dtor (o : Nat) : Pres E (SegTree.dtor E o : M α Unit) := by
  unfold SegTree.dtor; pres
instance delegating (o : Nat) (alloc : Nat) (body : M α Unit) [hb : Pres E body] : Pres E (SegTree.delegating E o alloc body : M α Unit) := by
  unfold SegTree.delegating; pres
instance ctor_count (o : Nat) (alloc : Nat) (count : Nat) (mk : M α α) [hmk : Pres E mk] : Pres E (SegTree.ctor_count E o alloc count mk : M α Unit) := by
  unfold SegTree.ctor_count; pres
instance ctor_range {σ : Type} (S : Src α σ) (o : Nat) (alloc : Nat) (first : σ) [hS : PresS E S] : Pres E (SegTree.ctor_range E S o alloc first : M α Unit) := by
  unfold SegTree.ctor_range; pres
instance ctor_copy_alloc (o : Nat) (other : Nat) (alloc : Nat) : Pres E (SegTree.ctor_copy_alloc E o other alloc : M α Unit) := by
  unfold SegTree.ctor_copy_alloc; pres
instance ctor_copy (o : Nat) (other : Nat) : Pres E (SegTree.ctor_copy E o other : M α Unit) := by
  unfold SegTree.ctor_copy; pres
instance ctor_move (o : Nat) (other : Nat) : Pres E (SegTree.ctor_move o other : M α Unit) := by
  unfold SegTree.ctor_move; pres
instance ctor_move_alloc (o : Nat) (other : Nat) (alloc : Nat) : Pres E (SegTree.ctor_move_alloc E o other alloc : M α Unit) := by
  unfold SegTree.ctor_move_alloc; pres
instance assign_copy (o : Nat) (other : Nat) : Pres E (SegTree.assign_copy E o other : M α Unit) := by
  unfold SegTree.assign_copy; pres
instance assign_move (o : Nat) (other : Nat) : Pres E (SegTree.assign_move E o other : M α Unit) := by
  unfold SegTree.assign_move; pres
instance assign_list (o : Nat) (vs : List α) : Pres E (SegTree.assign_list E o vs : M α Unit) := by
  unfold SegTree.assign_list; pres
instance assign_fill (o : Nat) (count : Nat) (v : α) : Pres E (SegTree.assign_fill E o count v : M α Unit) := by
  unfold SegTree.assign_fill; pres
instance at_ (o : Nat) (pos : Nat) : Pres E (SegTree.at_ E o pos : M α α) := by
  unfold SegTree.at_; pres
instance index_op (o : Nat) (pos : Nat) : Pres E (SegTree.index_op E o pos : M α α) := by
  unfold SegTree.index_op; pres
instance index_set (o : Nat) (pos : Nat) (v : α) : Pres E (SegTree.index_set E o pos v : M α Unit) := by
  unfold SegTree.index_set; pres
instance deref_set (it : Iter) (v : α) : Pres E (SegTree.deref_set E it v : M α Unit) := by
  unfold SegTree.deref_set; pres
instance deref_set_rv (it : Iter) (v : α) : Pres E (SegTree.deref_set_rv E it v : M α Unit) := by
  unfold SegTree.deref_set_rv; pres
instance front (o : Nat) : Pres E (SegTree.front E o : M α α) := by
  unfold SegTree.front; pres
instance back (o : Nat) : Pres E (SegTree.back E o : M α α) := by
  unfold SegTree.back; pres
instance begin_ (o : Nat) : Pres E (SegTree.begin_ E o : M α Iter) := by
  unfold SegTree.begin_; pres
instance penultimate (o : Nat) : Pres E (SegTree.penultimate E o : M α Iter) := by
  unfold SegTree.penultimate; pres
instance end_ (o : Nat) : Pres E (SegTree.end_ E o : M α Iter) := by
  unfold SegTree.end_; pres
instance rev_deref (it : Iter) : Pres E (SegTree.rev_deref E it : M α α) := by
  unfold SegTree.rev_deref; pres
instance nth (o : Nat) (pos : Nat) : Pres E (SegTree.nth E o pos : M α Iter) := by
  unfold SegTree.nth; pres
instance empty (o : Nat) : Pres E (SegTree.empty o : M α Bool) := by
  unfold SegTree.empty; pres
instance size (o : Nat) : Pres E (SegTree.size o : M α Nat) := by
  unfold SegTree.size; pres
instance height (o : Nat) : Pres E (SegTree.height o : M α Nat) := by
  unfold SegTree.height; pres
instance get_allocator (o : Nat) : Pres E (SegTree.get_allocator o : M α Nat) := by
  unfold SegTree.get_allocator; pres
instance insert (o : Nat) (it : Iter) (v : α) : Pres E (SegTree.insert E o it v : M α Iter) := by
  unfold SegTree.insert; pres
instance insert_rv (o : Nat) (it : Iter) (v : α) : Pres E (SegTree.insert_rv E o it v : M α Iter) := by
  unfold SegTree.insert_rv; pres
instance insert_alias (o : Nat) (it : Iter) (src : Iter) : Pres E (SegTree.insert_alias E o it src : M α Iter) := by
  unfold SegTree.insert_alias; pres
instance insert_fill (o : Nat) (it : Iter) (count : Nat) (v : α) : Pres E (SegTree.insert_fill E o it count v : M α Iter) := by
  unfold SegTree.insert_fill; pres
instance insert_fill_alias (o : Nat) (it : Iter) (count : Nat) (src : Iter) : Pres E (SegTree.insert_fill_alias E o it count src : M α Iter) := by
  unfold SegTree.insert_fill_alias; pres
instance insert_list (o : Nat) (it : Iter) (vs : List α) : Pres E (SegTree.insert_list E o it vs : M α Iter) := by
  unfold SegTree.insert_list; pres
instance erase (o : Nat) (it : Iter) : Pres E (SegTree.erase E o it : M α Iter) := by
  unfold SegTree.erase; pres
instance erase_rng (o : Nat) (first : Iter) (last : Iter) : Pres E (SegTree.erase_rng E o first last : M α Iter) := by
  unfold SegTree.erase_rng; pres
instance push_back (o : Nat) (v : α) : Pres E (SegTree.push_back E o v : M α Unit) := by
  unfold SegTree.push_back; pres
instance push_back_rv (o : Nat) (v : α) : Pres E (SegTree.push_back_rv E o v : M α Unit) := by
  unfold SegTree.push_back_rv; pres
instance push_front_rv (o : Nat) (v : α) : Pres E (SegTree.push_front_rv E o v : M α Unit) := by
  unfold SegTree.push_front_rv; pres
instance pop_back (o : Nat) : Pres E (SegTree.pop_back E o : M α Unit) := by
  unfold SegTree.pop_back; pres
instance push_front (o : Nat) (v : α) : Pres E (SegTree.push_front E o v : M α Unit) := by
  unfold SegTree.push_front; pres
instance pop_front (o : Nat) : Pres E (SegTree.pop_front E o : M α Unit) := by
  unfold SegTree.pop_front; pres
instance resize (o : Nat) (count : Nat) (v : α) : Pres E (SegTree.resize E o count v : M α Unit) := by
  unfold SegTree.resize; pres
instance swap (o : Nat) (other : Nat) : Pres E (SegTree.swap E o other : M α Unit) := by
  unfold SegTree.swap; pres
instance splice (o : Nat) (pos : Iter) (other : Nat) : Pres E (SegTree.splice E o pos other : M α Unit) := by
  unfold SegTree.splice; pres
instance splice_one (o : Nat) (pos : Iter) (other : Nat) (it : Iter) : Pres E (SegTree.splice_one E o pos other it : M α Unit) := by
  unfold SegTree.splice_one; pres
instance splice_range (o : Nat) (pos : Iter) (other : Nat) (first : Iter) (last : Iter) : Pres E (SegTree.splice_range E o pos other first last : M α Unit) := by
  unfold SegTree.splice_range; pres
instance read_range (first : Iter) (last : Iter) : Pres E (SegTree.read_range E first last : M α (List α)) := by
  revert first
  refine SegTree.read_range.fixpoint_induct E last (fun f => ∀ (first : Iter), Pres E (f first)) adm1 ?_
  intro f ih first
  pres
instance write_range : ∀ (l : List α) (first : Iter), Pres E (SegTree.write_range E first l)
  | [], _ => pure _
  | v :: l, first => by
    have ih := write_range l
    unfold SegTree.write_range; pres
instance std_inplace_merge (comp : α → α → Bool) (first : Iter) (mid : Iter) (last : Iter) : Pres E (SegTree.std_inplace_merge E comp first mid last : M α Unit) := by
  unfold SegTree.std_inplace_merge; pres
instance std_stable_sort (comp : α → α → Bool) (first : Iter) (last : Iter) : Pres E (SegTree.std_stable_sort E comp first last : M α Unit) := by
  unfold SegTree.std_stable_sort; pres
instance merge (o : Nat) (other : Nat) (comp : α → α → Bool) : Pres E (SegTree.merge E o other comp : M α Unit) := by
  unfold SegTree.merge; pres
instance std_find_if (p : α → Bool) (first : Iter) (last : Iter) : Pres E (SegTree.std_find_if E p first last : M α Iter) := by
  revert first
  refine SegTree.std_find_if.fixpoint_induct E p last (fun f => ∀ (first : Iter), Pres E (f first)) adm1 ?_
  intro f ih first
  pres
instance iter_move_assign (src : Iter) (dst : Iter) : Pres E (SegTree.iter_move_assign E src dst : M α Unit) := by
  unfold SegTree.iter_move_assign; pres
instance std_remove_loop (p : α → Bool) (first : Iter) (i : Iter) (last : Iter) : Pres E (SegTree.std_remove_loop E p first i last : M α Iter) := by
  revert first i
  refine SegTree.std_remove_loop.fixpoint_induct E p last (fun f => ∀ (first : Iter) (i : Iter), Pres E (f first i)) adm2 ?_
  intro f ih first i
  pres
instance std_remove_if (p : α → Bool) (first : Iter) (last : Iter) : Pres E (SegTree.std_remove_if E p first last : M α Iter) := by
  unfold SegTree.std_remove_if; pres
instance remove_if (o : Nat) (p : α → Bool) : Pres E (SegTree.remove_if E o p : M α Unit) := by
  unfold SegTree.remove_if; pres
instance remove (o : Nat) (eq : α → α → Bool) (v : α) : Pres E (SegTree.remove E o eq v : M α Unit) := by
  unfold SegTree.remove; pres
instance iter_swap (a : Iter) (b : Iter) : Pres E (SegTree.iter_swap E a b : M α Unit) := by
  unfold SegTree.iter_swap; pres
instance std_reverse_loop (first : Iter) (last : Iter) : Pres E (SegTree.std_reverse_loop E first last : M α Unit) := by
  revert first last
  refine SegTree.std_reverse_loop.fixpoint_induct E (fun f => ∀ (first : Iter) (last : Iter), Pres E (f first last)) adm2 ?_
  intro f ih first last
  pres
instance std_reverse (first : Iter) (last : Iter) : Pres E (SegTree.std_reverse E first last : M α Unit) := by
  unfold SegTree.std_reverse; pres
instance reverse (o : Nat) : Pres E (SegTree.reverse E o : M α Unit) := by
  unfold SegTree.reverse; pres
instance std_unique_loop (p : α → α → Bool) (result : Iter) (first : Iter) (last : Iter) : Pres E (SegTree.std_unique_loop E p result first last : M α Iter) := by
  revert result first
  refine SegTree.std_unique_loop.fixpoint_induct E p last (fun f => ∀ (result : Iter) (first : Iter), Pres E (f result first)) adm2 ?_
  intro f ih result first
  pres
instance std_unique (p : α → α → Bool) (first : Iter) (last : Iter) : Pres E (SegTree.std_unique E p first last : M α Iter) := by
  unfold SegTree.std_unique; pres
instance unique (o : Nat) (p : α → α → Bool) : Pres E (SegTree.unique E o p : M α Unit) := by
  unfold SegTree.unique; pres
instance sort (o : Nat) (comp : α → α → Bool) : Pres E (SegTree.sort E o comp : M α Unit) := by
  unfold SegTree.sort; pres
instance std_equal (eq : α → α → Bool) (first1 : Iter) (last1 : Iter) (first2 : Iter) : Pres E (SegTree.std_equal E eq first1 last1 first2 : M α Bool) := by
  revert first1 first2
  refine SegTree.std_equal.fixpoint_induct E eq last1 (fun f => ∀ (first1 : Iter) (first2 : Iter), Pres E (f first1 first2)) adm2 ?_
  intro f ih first1 first2
  pres
instance op_eq (eq : α → α → Bool) (a : Nat) (b : Nat) : Pres E (SegTree.op_eq E eq a b : M α Bool) := by
  unfold SegTree.op_eq; pres
instance op_ne (eq : α → α → Bool) (a : Nat) (b : Nat) : Pres E (SegTree.op_ne E eq a b : M α Bool) := by
  unfold SegTree.op_ne; pres
instance std_lex (lt : α → α → Bool) (first1 : Iter) (last1 : Iter) (first2 : Iter) (last2 : Iter) : Pres E (SegTree.std_lex E lt first1 last1 first2 last2 : M α Bool) := by
  revert first1 first2
  refine SegTree.std_lex.fixpoint_induct E lt last1 last2 (fun f => ∀ (first1 : Iter) (first2 : Iter), Pres E (f first1 first2)) adm2 ?_
  intro f ih first1 first2
  pres
instance op_lt (lt : α → α → Bool) (a : Nat) (b : Nat) : Pres E (SegTree.op_lt E lt a b : M α Bool) := by
  unfold SegTree.op_lt; pres
instance op_le (lt : α → α → Bool) (a : Nat) (b : Nat) : Pres E (SegTree.op_le E lt a b : M α Bool) := by
  unfold SegTree.op_le; pres
instance op_gt (lt : α → α → Bool) (a : Nat) (b : Nat) : Pres E (SegTree.op_gt E lt a b : M α Bool) := by
  unfold SegTree.op_gt; pres
instance op_ge (lt : α → α → Bool) (a : Nat) (b : Nat) : Pres E (SegTree.op_ge E lt a b : M α Bool) := by
  unfold SegTree.op_ge; pres
instance it_add (it : Iter) (d : Int) : Pres E (SegTree.it_add E it d : M α Iter) := by
  unfold SegTree.it_add; pres
instance it_sub (it : Iter) (d : Int) : Pres E (SegTree.it_sub E it d : M α Iter) := by
  unfold SegTree.it_sub; pres
instance it_index (it : Iter) (d : Int) : Pres E (SegTree.it_index E it d : M α α) := by
  unfold SegTree.it_index; pres

end Pres

end SegTree
