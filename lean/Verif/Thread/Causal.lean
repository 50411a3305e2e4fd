/-
  GENERATED by tools/gen_cost.py: what a thread does up to its n-th access does not
  depend on what it would find at later ones.
-/
import Verif.Thread.Pace
set_option autoImplicit false
set_option linter.unusedVariables false
set_option linter.unusedSimpArgs false

namespace SegTree
open Lean.Order

variable {α β γ : Type} {E : Env α}

/-- the same thread, finding the memories `e` -/
def Th.seeing (e : Nat → Loc → Option (Cell α)) (s : Th α) : Th α := { s with env := e }

def TRes.seeing (e : Nat → Loc → Option (Cell α)) : TRes α β → TRes α β
  | .ok v s => .ok v (s.seeing e)
  | .throw x s => .throw x (s.seeing e)
  | .paused s => .paused (s.seeing e)
  | .ub u => .ub u
  | .race l => .race l
  | .torn => .torn
  | .taken l => .taken l
  | .div => .div

class Causal (y : T α β) : Prop where
  run : ∀ (s : Th α) (e : Nat → Loc → Option (Cell α)), (∀ k, k < s.limit → e k = s.env k) →
    y (s.seeing e) = .div ∨ y s = .div ∨ y (s.seeing e) = (y s).seeing e
  keeps : ∀ (s s2 : Th α), (y s).state = some s2 → s2.env = s.env ∧ s2.limit = s.limit

class CausalSrc {σ : Type} (S : Thread.Src α σ) : Prop where
  read : ∀ x, Causal (S.read x)
  next : ∀ x, Causal (S.next x)

namespace Causal

instance pure (v : β) : Causal (Pure.pure v : T α β) := ⟨fun s e h => .inr (.inr rfl), fun s s2 h => by cases h; exact ⟨rfl, rfl⟩⟩
instance ub (k : UB) : Causal (T.ub k : T α β) := ⟨fun s e h => .inr (.inr rfl), fun s s2 h => by cases h⟩
instance thr (x : Exn) : Causal (T.throw x : T α β) := ⟨fun s e h => .inr (.inr rfl), fun s s2 h => by cases h; exact ⟨rfl, rfl⟩⟩
instance ite {c : Prop} [Decidable c] {x y : T α β} [Causal x] [Causal y] : Causal (if c then x else y) := by
  split <;> assumption

instance bind {x : T α β} {f : β → T α γ} [hx : Causal x] [hf : ∀ v, Causal (f v)] : Causal (x >>= f) := by
  constructor
  · intro s e h
    show T.bind x f (s.seeing e) = _ ∨ T.bind x f s = _ ∨ T.bind x f (s.seeing e) = (T.bind x f s).seeing e
    have hk := hx.keeps s
    unfold T.bind
    rcases hx.run s e h with h1 | h1 | h1
    · rw [h1]; exact .inl rfl
    · rw [h1]; exact .inr (.inl rfl)
    · rw [h1]
      generalize x s = r at hk
      cases r with
      | ok v s1 =>
        obtain ⟨k1, k2⟩ := hk s1 rfl
        exact (hf v).run s1 e (by rw [k1, k2]; exact h)
      | _ => exact .inr (.inr rfl)
  · intro s s2 h
    change (T.bind x f s).state = _ at h
    have hk := hx.keeps s
    unfold T.bind at h
    generalize x s = r at hk h
    cases r with
    | ok v s1 =>
      obtain ⟨k1, k2⟩ := hk s1 rfl
      obtain ⟨k3, k4⟩ := (hf v).keeps s1 s2 h
      exact ⟨k3.trans k1, k4.trans k2⟩
    | throw => exact hk _ h
    | paused => exact hk _ h
    | _ => cases h

instance onThrow {x : T α β} {f : T α Unit} [hx : Causal x] [hf : Causal f] : Causal (T.onThrow x f) := by
  constructor
  · intro s e h
    have hk := hx.keeps s
    unfold T.onThrow
    rcases hx.run s e h with h1 | h1 | h1
    · rw [h1]; exact .inl rfl
    · rw [h1]; exact .inr (.inl rfl)
    · rw [h1]
      generalize x s = r at hk
      cases r with
      | throw v s1 =>
        obtain ⟨k1, k2⟩ := hk s1 rfl
        have := hf.run s1 e (by rw [k1, k2]; exact h)
        simp only [TRes.seeing]
        rcases this with h2 | h2 | h2
        · rw [h2]; exact .inl rfl
        · rw [h2]; exact .inr (.inl rfl)
        · rw [h2]
          cases f s1 <;> exact .inr (.inr rfl)
      | _ => exact .inr (.inr rfl)
  · intro s s2 h
    have hk := hx.keeps s
    unfold T.onThrow at h
    generalize x s = r at hk h
    cases r with
    | throw v s1 =>
      obtain ⟨k1, k2⟩ := hk s1 rfl
      have := hf.keeps s1
      dsimp only at h
      generalize f s1 = q at this h
      cases q with
      | ok v s3 => obtain ⟨k3, k4⟩ := this s3 rfl; cases h; exact ⟨k3.trans k1, k4.trans k2⟩
      | throw v s3 => obtain ⟨k3, k4⟩ := this s3 rfl; cases h; exact ⟨k3.trans k1, k4.trans k2⟩
      | paused s3 => obtain ⟨k3, k4⟩ := this s3 rfl; cases h; exact ⟨k3.trans k1, k4.trans k2⟩
      | _ => cases h
    | ok => exact hk _ h
    | paused => exact hk _ h
    | _ => cases h

instance attempt {x : T α β} [hx : Causal x] : Causal (T.attempt x) := by
  constructor
  · intro s e h
    unfold T.attempt
    rcases hx.run s e h with h1 | h1 | h1
    · rw [h1]; exact .inl rfl
    · rw [h1]; exact .inr (.inl rfl)
    · rw [h1]
      cases x s <;> exact .inr (.inr rfl)
  · intro s s2 h
    have hk := hx.keeps s
    unfold T.attempt at h
    generalize x s = r at hk h
    cases r with
    | ok => exact hk _ h
    | throw => exact hk _ h
    | paused => exact hk _ h
    | _ => cases h

/-! #### the primitives -/

theorem perform_seeing (x : M α β) (s : Th α) (own : Loc → Bool) {e : Nat → Loc → Option (Cell α)} (h : e s.step = s.env s.step) :
    T.perform x (s.seeing e) own = (T.perform x s own).seeing e := by
  unfold T.perform Th.seeing
  dsimp only
  rw [h]
  cases x { s.mem with cell := s.env s.step } <;> rfl

theorem perform_keeps {x : M α β} {s s2 : Th α} {own : Loc → Bool} (h : (T.perform x s own).state = some s2) :
    s2.env = s.env ∧ s2.limit = s.limit := by
  unfold T.perform at h
  cases hx : x { s.mem with cell := s.env s.step } <;> rw [hx] at h <;> cases h <;> exact ⟨rfl, rfl⟩

theorem access {act : Th α → TRes α β}
    (h1 : ∀ (s : Th α) e, e s.step = s.env s.step → act (s.seeing e) = (act s).seeing e)
    (h2 : ∀ s s2 : Th α, (act s).state = some s2 → s2.env = s.env ∧ s2.limit = s.limit) : Causal (T.access act) := by
  constructor
  · intro s e h
    refine .inr (.inr ?_)
    by_cases hl : s.limit ≤ s.step
    · rw [Paced.access_pause hl, Paced.access_pause (s := s.seeing e) hl]; rfl
    · have hl : s.step < s.limit := Nat.lt_of_not_le hl
      have he := h s.step hl
      by_cases ha : ∀ l, s.own l = true ∨ s.lent l = true → s.env s.step l = s.mem.cell l
      · rw [Paced.access_act hl ha, Paced.access_act (s := s.seeing e) hl (fun l hl => by
          show e s.step l = _
          rw [he]; exact ha l hl)]
        exact h1 s e he
      · rw [Paced.access_torn hl ha, Paced.access_torn (s := s.seeing e) hl (fun h => ha fun l hl => by
          rw [← he]; exact h l hl)]
        rfl
  · intro s s2 h
    by_cases hl : s.limit ≤ s.step
    · rw [Paced.access_pause hl] at h; cases h; exact ⟨rfl, rfl⟩
    · have hl : s.step < s.limit := Nat.lt_of_not_le hl
      by_cases ha : ∀ l, s.own l = true ∨ s.lent l = true → s.env s.step l = s.mem.cell l
      · rw [Paced.access_act hl ha] at h; exact h2 s s2 h
      · rw [Paced.access_torn hl ha] at h; cases h

theorem reads {l : Loc} {x : M α β} : Causal (T.reads l x) := by
  refine access (fun s e h => ?_) (fun s s2 h => ?_)
  · show (if s.own l || s.lent l then _ else _) = _
    split
    · exact perform_seeing x s _ h
    · rfl
  · split at h
    · exact perform_keeps h
    · cases h

theorem writes {l : Loc} {x : M α β} : Causal (T.writes l x) := by
  refine access (fun s e h => ?_) (fun s s2 h => ?_)
  · show (if s.own l && !s.lent l then _ else _) = _
    split
    · exact perform_seeing x s _ h
    · rfl
  · split at h
    · exact perform_keeps h
    · cases h

theorem releases {l : Loc} {x : M α β} : Causal (T.releases l x) := by
  refine access (fun s e h => ?_) (fun s s2 h => ?_)
  · show (if s.own l && !s.lent l then _ else _) = _
    split
    · exact perform_seeing x s _ h
    · rfl
  · split at h
    · exact perform_keeps h
    · cases h

theorem acquires {offer : Log → Loc} {x : M α β} : Causal (T.acquires offer x) := by
  refine access (fun s e h => ?_) (fun s s2 h => ?_)
  · have hs : ((s.seeing e).env (s.seeing e).step) = s.env s.step := h
    dsimp only
    rw [hs]
    show (if offer s.mem.log = .heap 0 ∨ s.own (offer s.mem.log) = true then _ else if (s.env s.step (offer s.mem.log)).isSome || s.lent (offer s.mem.log) then _ else _) = _
    split
    · exact perform_seeing x s _ h
    · split
      · rfl
      · exact perform_seeing x s _ h
  · dsimp only at h
    split at h
    · exact perform_keeps h
    · split at h
      · cases h
      · exact perform_keeps h

theorem local_ {x : M α β} : Causal (T.local_ x) :=
  access (fun s e h => perform_seeing x s _ h) (fun s s2 h => perform_keeps h)

instance rdNode (p : Nat) : Causal (Thread.rdNode p : T α Node) := reads
instance rdSlots (p : Nat) : Causal (Thread.rdSlots p : T α (Nat → Slot α)) := reads
instance rdObj (o : Nat) : Causal (Thread.rdObj o : T α SeqObj) := reads
instance wrNode (p : Nat) (n : Node) : Causal (Thread.wrNode p n : T α Unit) := writes
instance wrSlots (p : Nat) (f : Nat → Slot α) : Causal (Thread.wrSlots p f : T α Unit) := writes
instance wrObj (o : Nat) (x : SeqObj) : Causal (Thread.wrObj o x : T α Unit) := writes
instance freeSeg (a p : Nat) : Causal (Thread.freeSeg E a p : T α Unit) := releases
instance freeNode (a p : Nat) : Causal (Thread.freeNode a p : T α Unit) := releases
instance dropObj (o : Nat) : Causal (Thread.dropObj o : T α Unit) := releases
instance allocCell (c : Cell α) : Causal (Thread.allocCell E c) := acquires
instance allocNodeCell (w : Nat) : Causal (Thread.allocNodeCell E w) := acquires
instance ctor (o al : Nat) : Causal (Thread.ctor o al : T α Unit) := acquires
instance copyVal (v : α) : Causal (Thread.copyVal E v) := local_
instance usub (a b : Nat) : Causal (Thread.usub a b : T α Nat) := by
  unfold Thread.usub; infer_instance

theorem admissible : Lean.Order.admissible (fun y : T α β => Causal y) := by
  have : (fun y : T α β => Causal y) = fun y => ∀ s : Th α, (∀ s2, (y s).state = some s2 → s2.env = s.env ∧ s2.limit = s.limit) ∧
      ∀ e : Nat → Loc → Option (Cell α), (∀ k, k < s.limit → e k = s.env k) →
      ∀ r' : TRes α β, r' ≠ .div → ((y s = .div ∨ (y s).seeing e = r') ∨ y (s.seeing e) ≠ r') := by
    funext y
    apply propext
    constructor
    · intro h s
      refine ⟨h.keeps s, fun e he r' hd => ?_⟩
      by_cases hy : y (s.seeing e) = r'
      · rcases h.run s e he with h | h | h
        · exact absurd (hy.symm.trans h) hd
        · exact .inl (.inl h)
        · exact .inl (.inr (h.symm.trans hy))
      · exact .inr hy
    · intro h
      refine ⟨fun s e he => ?_, fun s => (h s).1⟩
      by_cases hd : y (s.seeing e) = .div
      · exact .inl hd
      · rcases (h s).2 e he _ hd with (h | h) | h
        · exact .inr (.inl h)
        · exact .inr (.inr h.symm)
        · exact absurd rfl h
  rw [this]
  apply admissible_pi
  intro s
  apply admissible_and
  · exact admissible_apply (fun s r => ∀ s2, TRes.state r = some s2 → s2.env = s.env ∧ s2.limit = s.limit) s
      (admissible_flatOrder _ fun _ h => by cases h)
  · apply admissible_pi
    intro e
    apply admissible_pi
    intro _
    apply admissible_pi
    intro r'
    apply admissible_pi
    intro hd
    apply admissible_or
    · exact admissible_apply (fun (s : Th α) r => r = .div ∨ TRes.seeing e r = r') s (admissible_flatOrder _ (.inl rfl))
    · exact admissible_apply (fun (_ : Th α) r => r ≠ r') (s.seeing e) (admissible_flatOrder _ fun e => hd e.symm)

section
variable {ι1 ι2 ι3 ι4 ι5 ι6 ι7 : Type}
theorem adm1 : Lean.Order.admissible (fun f : ι1 → T α β => ∀ a, Causal (f a)) :=
  admissible_pi _ fun a => admissible_apply (fun _ y => Causal y) a admissible
theorem adm2 : Lean.Order.admissible (fun f : ι1 → ι2 → T α β => ∀ a1 a2, Causal (f a1 a2)) :=
  admissible_pi _ fun a => admissible_apply (fun (_ : ι1) (f : ι2 → T α β) => ∀ a2, Causal (f a2)) a adm1
theorem adm3 : Lean.Order.admissible (fun f : ι1 → ι2 → ι3 → T α β => ∀ a1 a2 a3, Causal (f a1 a2 a3)) :=
  admissible_pi _ fun a => admissible_apply (fun (_ : ι1) (f : ι2 → ι3 → T α β) => ∀ a2 a3, Causal (f a2 a3)) a adm2
theorem adm4 : Lean.Order.admissible (fun f : ι1 → ι2 → ι3 → ι4 → T α β => ∀ a1 a2 a3 a4, Causal (f a1 a2 a3 a4)) :=
  admissible_pi _ fun a => admissible_apply (fun (_ : ι1) (f : ι2 → ι3 → ι4 → T α β) => ∀ a2 a3 a4, Causal (f a2 a3 a4)) a adm3
theorem adm5 : Lean.Order.admissible (fun f : ι1 → ι2 → ι3 → ι4 → ι5 → T α β => ∀ a1 a2 a3 a4 a5, Causal (f a1 a2 a3 a4 a5)) :=
  admissible_pi _ fun a => admissible_apply
    (fun (_ : ι1) (f : ι2 → ι3 → ι4 → ι5 → T α β) => ∀ a2 a3 a4 a5, Causal (f a2 a3 a4 a5)) a adm4
theorem adm6 : Lean.Order.admissible (fun f : ι1 → ι2 → ι3 → ι4 → ι5 → ι6 → T α β => ∀ a1 a2 a3 a4 a5 a6, Causal (f a1 a2 a3 a4 a5 a6)) :=
  admissible_pi _ fun a => admissible_apply
    (fun (_ : ι1) (f : ι2 → ι3 → ι4 → ι5 → ι6 → T α β) => ∀ a2 a3 a4 a5 a6, Causal (f a2 a3 a4 a5 a6)) a adm5
end

set_option synthInstance.maxSize 2000
set_option synthInstance.maxHeartbeats 400000

/-- walk through the program -/
macro "causal" : tactic => `(tactic| repeat' first
  | infer_instance
  | (intro (_ : Nat))
  | dsimp (failIfUnchanged := true) only
  | (refine Causal.bind (hx := ?_) (hf := ?_))
  | (refine Causal.onThrow (hx := ?_) (hf := ?_))
  | split
  | intro _)

instance len (p : Nat) : Causal (Thread.len p : T α Nat) := by
  unfold Thread.len; causal
instance setLen (p : Nat) (v : Nat) : Causal (Thread.setLen p v : T α Unit) := by
  unfold Thread.setLen; causal
instance parent (p : Nat) : Causal (Thread.parent p : T α Nat) := by
  unfold Thread.parent; causal
instance setParent (p : Nat) (v : Nat) : Causal (Thread.setParent p v : T α Unit) := by
  unfold Thread.setParent; causal
instance pidx (p : Nat) : Causal (Thread.pidx p : T α Nat) := by
  unfold Thread.pidx; causal
instance setPidx (p : Nat) (v : Nat) : Causal (Thread.setPidx p v : T α Unit) := by
  unfold Thread.setPidx; causal
instance sizesAt (p : Nat) (i : Nat) : Causal (Thread.sizesAt E p i : T α Nat) := by
  unfold Thread.sizesAt; causal
instance setSizes (p : Nat) (i : Nat) (v : Nat) : Causal (Thread.setSizes E p i v : T α Unit) := by
  unfold Thread.setSizes; causal
instance ptrsAt (p : Nat) (i : Nat) : Causal (Thread.ptrsAt E p i : T α Nat) := by
  unfold Thread.ptrsAt; causal
instance setPtrs (p : Nat) (i : Nat) (v : Nat) : Causal (Thread.setPtrs E p i v : T α Unit) := by
  unfold Thread.setPtrs; causal
instance rdElem (p : Nat) (i : Nat) : Causal (Thread.rdElem E p i : T α α) := by
  unfold Thread.rdElem; causal
instance wrElem (p : Nat) (i : Nat) (v : α) : Causal (Thread.wrElem E p i v : T α Unit) := by
  unfold Thread.wrElem; causal
instance getRoot (o : Nat) : Causal (Thread.getRoot o : T α Nat) := by
  unfold Thread.getRoot; causal
instance getSize (o : Nat) : Causal (Thread.getSize o : T α Nat) := by
  unfold Thread.getSize; causal
instance getHeight (o : Nat) : Causal (Thread.getHeight o : T α Nat) := by
  unfold Thread.getHeight; causal
instance setRoot (o : Nat) (v : Nat) : Causal (Thread.setRoot o v : T α Unit) := by
  unfold Thread.setRoot; causal
instance setSize (o : Nat) (v : Nat) : Causal (Thread.setSize o v : T α Unit) := by
  unfold Thread.setSize; causal
instance setHeight (o : Nat) (v : Nat) : Causal (Thread.setHeight o v : T α Unit) := by
  unfold Thread.setHeight; causal
instance find_index_loop (p : Nat) (index : Nat) (size : Nat) (pos : Nat) : Causal (Thread.find_index_loop E p index size pos : T α (Nat × Nat)) := by
  revert index size pos
  refine Thread.find_index_loop.fixpoint_induct E p (fun f => ∀ (index : Nat) (size : Nat) (pos : Nat), Causal (f index size pos)) adm3 ?_
  intro f ih index size pos
  causal
instance find_index_leaf (p : Nat) (pos : Nat) : Causal (Thread.find_index_leaf E p pos : T α Entry) := by
  unfold Thread.find_index_leaf; causal
instance find_index_branch (p : Nat) (ht : Nat) (pos : Nat) : Causal (Thread.find_index_branch E p ht pos : T α Entry) := by
  revert p ht pos
  refine Thread.find_index_branch.fixpoint_induct E (fun f => ∀ (p : Nat) (ht : Nat) (pos : Nat), Causal (f p ht pos)) adm3 ?_
  intro f ih p ht pos
  causal
instance find_index_node (p : Nat) (ht : Nat) (pos : Nat) : Causal (Thread.find_index_node E p ht pos : T α Entry) := by
  unfold Thread.find_index_node; causal
instance find_index_root (p : Nat) (sz : Nat) (ht : Nat) (pos : Nat) : Causal (Thread.find_index_root E p sz ht pos : T α Iter) := by
  unfold Thread.find_index_root; causal
instance find_first_leaf (p : Nat) : Causal (Thread.find_first_leaf E p : T α Entry) := by
  unfold Thread.find_first_leaf; causal
instance find_first_branch (p : Nat) (ht : Nat) : Causal (Thread.find_first_branch E p ht : T α Entry) := by
  revert p ht
  refine Thread.find_first_branch.fixpoint_induct E (fun f => ∀ (p : Nat) (ht : Nat), Causal (f p ht)) adm2 ?_
  intro f ih p ht
  causal
instance find_first_node (p : Nat) (ht : Nat) : Causal (Thread.find_first_node E p ht : T α Entry) := by
  unfold Thread.find_first_node; causal
instance find_first_root (p : Nat) (sz : Nat) (ht : Nat) : Causal (Thread.find_first_root E p sz ht : T α Iter) := by
  unfold Thread.find_first_root; causal
instance find_last_segment (p : Nat) (sz : Nat) : Causal (Thread.find_last_segment p sz : T α SegE) := by
  unfold Thread.find_last_segment; causal
instance find_last_leaf (p : Nat) : Causal (Thread.find_last_leaf E p : T α Entry) := by
  unfold Thread.find_last_leaf; causal
instance find_last_branch (p : Nat) (ht : Nat) : Causal (Thread.find_last_branch E p ht : T α Entry) := by
  revert p ht
  refine Thread.find_last_branch.fixpoint_induct E (fun f => ∀ (p : Nat) (ht : Nat), Causal (f p ht)) adm2 ?_
  intro f ih p ht
  causal
instance find_last_node (p : Nat) (ht : Nat) : Causal (Thread.find_last_node E p ht : T α Entry) := by
  unfold Thread.find_last_node; causal
instance find_last_root (p : Nat) (sz : Nat) (ht : Nat) : Causal (Thread.find_last_root E p sz ht : T α Iter) := by
  unfold Thread.find_last_root; causal
instance find_end_leaf (p : Nat) : Causal (Thread.find_end_leaf E p : T α Entry) := by
  unfold Thread.find_end_leaf; causal
instance find_end_branch (p : Nat) (ht : Nat) : Causal (Thread.find_end_branch E p ht : T α Entry) := by
  revert p ht
  refine Thread.find_end_branch.fixpoint_induct E (fun f => ∀ (p : Nat) (ht : Nat), Causal (f p ht)) adm2 ?_
  intro f ih p ht
  causal
instance find_end_node (p : Nat) (ht : Nat) : Causal (Thread.find_end_node E p ht : T α Entry) := by
  unfold Thread.find_end_node; causal
instance find_end_root (p : Nat) (sz : Nat) (ht : Nat) : Causal (Thread.find_end_root E p sz ht : T α Iter) := by
  unfold Thread.find_end_root; causal
instance move_next_branch (e : Entry) (p : Nat) (index : Nat) (child_ht : Nat) : Causal (Thread.move_next_branch E e p index child_ht : T α Entry) := by
  revert p index child_ht
  refine Thread.move_next_branch.fixpoint_induct E e (fun f => ∀ (p : Nat) (index : Nat) (child_ht : Nat), Causal (f p index child_ht)) adm3 ?_
  intro f ih p index child_ht
  causal
instance move_next_leaf (e : Entry) : Causal (Thread.move_next_leaf E e : T α Entry) := by
  unfold Thread.move_next_leaf; causal
instance move_next_segment (e : Entry) : Causal (Thread.move_next_segment E e : T α Entry) := by
  unfold Thread.move_next_segment; causal
instance move_next_iterator (it : Iter) : Causal (Thread.move_next_iterator E it : T α Iter) := by
  unfold Thread.move_next_iterator; causal
instance move_prev_branch (p : Nat) (index : Nat) (child_ht : Nat) : Causal (Thread.move_prev_branch E p index child_ht : T α Entry) := by
  revert p index child_ht
  refine Thread.move_prev_branch.fixpoint_induct E (fun f => ∀ (p : Nat) (index : Nat) (child_ht : Nat), Causal (f p index child_ht)) adm3 ?_
  intro f ih p index child_ht
  causal
instance move_prev_leaf (e : Entry) : Causal (Thread.move_prev_leaf E e : T α Entry) := by
  unfold Thread.move_prev_leaf; causal
instance move_prev_segment (e : Entry) : Causal (Thread.move_prev_segment E e : T α Entry) := by
  unfold Thread.move_prev_segment; causal
instance move_prev_iterator (it : Iter) : Causal (Thread.move_prev_iterator E it : T α Iter) := by
  unfold Thread.move_prev_iterator; causal
instance scan_next (p : Nat) (index : Nat) (count : Nat) : Causal (Thread.scan_next E p index count : T α ((Nat × Nat × Nat) ⊕ Nat)) := by
  revert index count
  refine Thread.scan_next.fixpoint_induct E p (fun f => ∀ (index : Nat) (count : Nat), Causal (f index count)) adm2 ?_
  intro f ih index count
  causal
instance move_next_branch_count (base : Nat) (p : Nat) (index : Nat) (count : Nat) (child_ht : Nat) : Causal (Thread.move_next_branch_count E base p index count child_ht : T α Entry) := by
  revert base p index count child_ht
  refine Thread.move_next_branch_count.fixpoint_induct E (fun f => ∀ (base : Nat) (p : Nat) (index : Nat) (count : Nat) (child_ht : Nat), Causal (f base p index count child_ht)) adm5 ?_
  intro f ih base p index count child_ht
  causal
instance move_next_leaf_count (e : Entry) (count : Nat) : Causal (Thread.move_next_leaf_count E e count : T α Entry) := by
  unfold Thread.move_next_leaf_count; causal
instance move_next_segment_count (e : Entry) (count : Nat) : Causal (Thread.move_next_segment_count E e count : T α Entry) := by
  unfold Thread.move_next_segment_count; causal
instance move_next_iterator_count (it : Iter) (count : Nat) : Causal (Thread.move_next_iterator_count E it count : T α Iter) := by
  unfold Thread.move_next_iterator_count; causal
instance scan_prev (p : Nat) (index : Nat) (count : Nat) : Causal (Thread.scan_prev E p index count : T α ((Nat × Nat × Nat) ⊕ Nat)) := by
  revert index count
  refine Thread.scan_prev.fixpoint_induct E p (fun f => ∀ (index : Nat) (count : Nat), Causal (f index count)) adm2 ?_
  intro f ih index count
  causal
instance move_prev_branch_count (p : Nat) (index : Nat) (count : Nat) (child_ht : Nat) : Causal (Thread.move_prev_branch_count E p index count child_ht : T α Entry) := by
  revert p index count child_ht
  refine Thread.move_prev_branch_count.fixpoint_induct E (fun f => ∀ (p : Nat) (index : Nat) (count : Nat) (child_ht : Nat), Causal (f p index count child_ht)) adm4 ?_
  intro f ih p index count child_ht
  causal
instance move_prev_leaf_count (e : Entry) (count : Nat) : Causal (Thread.move_prev_leaf_count E e count : T α Entry) := by
  unfold Thread.move_prev_leaf_count; causal
instance move_prev_segment_count (e : Entry) (count : Nat) : Causal (Thread.move_prev_segment_count E e count : T α Entry) := by
  unfold Thread.move_prev_segment_count; causal
instance move_prev_iterator_count (it : Iter) (count : Nat) : Causal (Thread.move_prev_iterator_count E it count : T α Iter) := by
  unfold Thread.move_prev_iterator_count; causal
instance move_iterator_count (it : Iter) (diff : Int) : Causal (Thread.move_iterator_count E it diff : T α Iter) := by
  unfold Thread.move_iterator_count; causal
instance dereference (it : Iter) : Causal (Thread.dereference E it : T α α) := by
  unfold Thread.dereference; causal
instance dereference_count (it : Iter) (diff : Int) : Causal (Thread.dereference_count E it diff : T α α) := by
  unfold Thread.dereference_count; causal
instance move_after_segment (it : Iter) : Causal (Thread.move_after_segment E it : T α Iter) := by
  unfold Thread.move_after_segment; causal
instance move_after_segment_count (it : Iter) (count : Nat) : Causal (Thread.move_after_segment_count E it count : T α Iter) := by
  unfold Thread.move_after_segment_count; causal
instance move_before_segment (it : Iter) : Causal (Thread.move_before_segment E it : T α Iter) := by
  unfold Thread.move_before_segment; causal
instance move_before_segment_count (it : Iter) (count : Nat) : Causal (Thread.move_before_segment_count E it count : T α Iter) := by
  unfold Thread.move_before_segment_count; causal
instance allocate_segment (o : Nat) : Causal (Thread.allocate_segment E o : T α Nat) := by
  unfold Thread.allocate_segment; causal
instance allocate_node (o : Nat) : Causal (Thread.allocate_node E o : T α Nat) := by
  unfold Thread.allocate_node; causal
instance destroy_segment (p : Nat) (i : Nat) : Causal (Thread.destroy_segment E p i : T α Unit) := by
  unfold Thread.destroy_segment; causal
instance destroy_node (p : Nat) (i : Nat) : Causal (Thread.destroy_node E p i : T α Unit) := by
  unfold Thread.destroy_node; causal
instance deallocate_segment (o : Nat) (p : Nat) : Causal (Thread.deallocate_segment E o p : T α Unit) := by
  unfold Thread.deallocate_segment; causal
instance deallocate_node (o : Nat) (p : Nat) : Causal (Thread.deallocate_node E o p : T α Unit) := by
  unfold Thread.deallocate_node; causal
instance forN (f : Nat → T α Unit) (n i : Nat) [hf : ∀ i, Causal (f i)] : Causal (Thread.forN f n i) := by
  induction n generalizing i with
  | zero => exact pure _
  | succ n ih => exact bind (hf := fun _ => ih _)
instance purge_segment (o : Nat) (p : Nat) (sz : Nat) : Causal (Thread.purge_segment E o p sz : T α Unit) := by
  unfold Thread.purge_segment; causal
theorem purge_node_p (o : Nat) : ∀ (ht p : Nat), Causal (Thread.purge_node E o ht p)
  | 0, _ => ub _
  | 1, _ => ub _
  | 2, p => by unfold Thread.purge_node; causal
  | ht + 3, p => by
    have ih := purge_node_p o (ht + 2)
    unfold Thread.purge_node; causal
instance purge_node (o ht p : Nat) : Causal (Thread.purge_node E o ht p) := purge_node_p o ht p
instance purge_root (o : Nat) (p : Nat) (sz : Nat) (ht : Nat) : Causal (Thread.purge_root E o p sz ht : T α Unit) := by
  unfold Thread.purge_root; causal
instance purge (o : Nat) : Causal (Thread.purge E o : T α Unit) := by
  unfold Thread.purge; causal
instance construct_segment (p : Nat) (i : Nat) (v : α) : Causal (Thread.construct_segment E p i v : T α Unit) := by
  unfold Thread.construct_segment; causal
instance construct_leaf (p : Nat) (i : Nat) (csz : Nat) (child : Nat) : Causal (Thread.construct_leaf E p i csz child : T α Nat) := by
  unfold Thread.construct_leaf; causal
instance construct_branch (p : Nat) (i : Nat) (csz : Nat) (child : Nat) : Causal (Thread.construct_branch E p i csz child : T α Nat) := by
  unfold Thread.construct_branch; causal
instance assign_segment (p : Nat) (i : Nat) (v : α) : Causal (Thread.assign_segment E p i v : T α Unit) := by
  unfold Thread.assign_segment; causal
instance assign_leaf (p : Nat) (i : Nat) (csz : Nat) (child : Nat) : Causal (Thread.assign_leaf E p i csz child : T α Nat) := by
  unfold Thread.assign_leaf; causal
instance assign_branch (p : Nat) (i : Nat) (csz : Nat) (child : Nat) : Causal (Thread.assign_branch E p i csz child : T α Nat) := by
  unfold Thread.assign_branch; causal
instance move_assign_segment (src : Nat) (si : Nat) (dst : Nat) (di : Nat) : Causal (Thread.move_assign_segment E src si dst di : T α Unit) := by
  unfold Thread.move_assign_segment; causal
instance move_assign_leaf (src : Nat) (si : Nat) (dst : Nat) (di : Nat) : Causal (Thread.move_assign_leaf E src si dst di : T α Nat) := by
  unfold Thread.move_assign_leaf; causal
instance move_assign_branch (src : Nat) (si : Nat) (dst : Nat) (di : Nat) : Causal (Thread.move_assign_branch E src si dst di : T α Nat) := by
  unfold Thread.move_assign_branch; causal
instance move_segment (src : Nat) (si : Nat) (dst : Nat) (di : Nat) : Causal (Thread.move_segment E src si dst di : T α Unit) := by
  unfold Thread.move_segment; causal
instance move_leaf (src : Nat) (si : Nat) (dst : Nat) (di : Nat) : Causal (Thread.move_leaf E src si dst di : T α Nat) := by
  unfold Thread.move_leaf; causal
instance move_branch (src : Nat) (si : Nat) (dst : Nat) (di : Nat) : Causal (Thread.move_branch E src si dst di : T α Nat) := by
  unfold Thread.move_branch; causal
instance range_loop {step : Nat → Nat → T α Nat} [hstep : ∀ i0 i1, Causal (step i0 i1)] (src : Nat) (last : Nat) (dst : Nat) (acc : Nat) : Causal (Thread.range_loop step src last dst acc : T α Nat) := by
  revert src dst acc
  refine Thread.range_loop.fixpoint_induct step last (fun f => ∀ (src : Nat) (dst : Nat) (acc : Nat), Causal (f src dst acc)) adm3 ?_
  intro f ih src dst acc
  causal
instance forward_loop {step : Nat → Nat → T α Unit} [hstep : ∀ i0 i1, Causal (step i0 i1)] (first : Nat) (src : Nat) (dst : Nat) : Causal (Thread.forward_loop step first src dst : T α Unit) := by
  revert src dst
  refine Thread.forward_loop.fixpoint_induct step first (fun f => ∀ (src : Nat) (dst : Nat), Causal (f src dst)) adm2 ?_
  intro f ih src dst
  causal
instance backward_loop {step : Nat → Nat → T α Unit} [hstep : ∀ i0 i1, Causal (step i0 i1)] (src : Nat) (dst : Nat) (last : Nat) : Causal (Thread.backward_loop step src dst last : T α Unit) := by
  revert src dst
  refine Thread.backward_loop.fixpoint_induct step last (fun f => ∀ (src : Nat) (dst : Nat), Causal (f src dst)) adm2 ?_
  intro f ih src dst
  causal
instance memcpy_segment (src : Nat) (si : Nat) (dst : Nat) (di : Nat) (n : Nat) : Causal (Thread.memcpy_segment E src si dst di n : T α Unit) := by
  unfold Thread.memcpy_segment; causal
instance construct_range_segment (src : Nat) (si : Nat) (dst : Nat) (di : Nat) (count : Nat) : Causal (Thread.construct_range_segment E src si dst di count : T α Unit) := by
  unfold Thread.construct_range_segment; causal
instance construct_range_leaf (src : Nat) (si : Nat) (dst : Nat) (di : Nat) (count : Nat) : Causal (Thread.construct_range_leaf E src si dst di count : T α Nat) := by
  unfold Thread.construct_range_leaf; causal
instance construct_range_branch (src : Nat) (si : Nat) (dst : Nat) (di : Nat) (count : Nat) : Causal (Thread.construct_range_branch E src si dst di count : T α Nat) := by
  unfold Thread.construct_range_branch; causal
instance assign_forward_segment (p : Nat) (length : Nat) (index : Nat) (distance : Nat) : Causal (Thread.assign_forward_segment E p length index distance : T α Unit) := by
  unfold Thread.assign_forward_segment; causal
instance assign_forward_leaf (p : Nat) (length : Nat) (index : Nat) (distance : Nat) : Causal (Thread.assign_forward_leaf E p length index distance : T α Unit) := by
  unfold Thread.assign_forward_leaf; causal
instance assign_forward_branch (p : Nat) (length : Nat) (index : Nat) (distance : Nat) : Causal (Thread.assign_forward_branch E p length index distance : T α Unit) := by
  unfold Thread.assign_forward_branch; causal
instance assign_backward_segment (p : Nat) (length : Nat) (index : Nat) (distance : Nat) : Causal (Thread.assign_backward_segment E p length index distance : T α Unit) := by
  unfold Thread.assign_backward_segment; causal
instance assign_backward_leaf (p : Nat) (length : Nat) (index : Nat) (distance : Nat) : Causal (Thread.assign_backward_leaf E p length index distance : T α Unit) := by
  unfold Thread.assign_backward_leaf; causal
instance assign_backward_branch (p : Nat) (length : Nat) (index : Nat) (distance : Nat) : Causal (Thread.assign_backward_branch E p length index distance : T α Unit) := by
  unfold Thread.assign_backward_branch; causal
instance update_sizes (o : Nat) (p : Nat) (index : Nat) (sz : Nat) : Causal (Thread.update_sizes E o p index sz : T α Unit) := by
  revert p index
  refine Thread.update_sizes.fixpoint_induct E o sz (fun f => ∀ (p : Nat) (index : Nat), Causal (f p index)) adm2 ?_
  intro f ih p index
  causal
instance increment_sizes (o : Nat) (p : Nat) (index : Nat) : Causal (Thread.increment_sizes E o p index : T α Unit) := by
  unfold Thread.increment_sizes; causal
instance decrement_sizes (o : Nat) (p : Nat) (index : Nat) : Causal (Thread.decrement_sizes E o p index : T α Unit) := by
  unfold Thread.decrement_sizes; causal
instance free_chain (o : Nat) (alloc : Nat) : Causal (Thread.free_chain E o alloc : T α Unit) := by
  revert alloc
  refine Thread.free_chain.fixpoint_induct E o (fun f => ∀ (alloc : Nat), Causal (f alloc)) adm1 ?_
  intro f ih alloc
  causal
instance alloc_catch (o : Nat) (segment_alloc : Nat) (alloc : Nat) : Causal (Thread.alloc_catch E o segment_alloc alloc : T α Unit) := by
  unfold Thread.alloc_catch; causal
instance alloc_nodes_loop (o : Nat) (p : Nat) (segment_alloc : Nat) (alloc : Nat) : Causal (Thread.alloc_nodes_loop E o p segment_alloc alloc : T α Nat) := by
  revert p alloc
  refine Thread.alloc_nodes_loop.fixpoint_induct E o segment_alloc (fun f => ∀ (p : Nat) (alloc : Nat), Causal (f p alloc)) adm2 ?_
  intro f ih p alloc
  causal
instance alloc_nodes_single (o : Nat) (p : Nat) (segment_alloc : Nat) : Causal (Thread.alloc_nodes_single E o p segment_alloc : T α Nat) := by
  unfold Thread.alloc_nodes_single; causal
instance insert_single_branch (o : Nat) (base : Nat) (p : Nat) (index : Nat) (alloc : Nat) (child_pointer : Nat) (child_size : Nat) : Causal (Thread.insert_single_branch E o base p index alloc child_pointer child_size : T α Unit) := by
  revert base p index alloc child_pointer child_size
  refine Thread.insert_single_branch.fixpoint_induct E o (fun f => ∀ (base : Nat) (p : Nat) (index : Nat) (alloc : Nat) (child_pointer : Nat) (child_size : Nat), Causal (f base p index alloc child_pointer child_size)) adm6 ?_
  intro f ih base p index alloc child_pointer child_size
  causal
instance insert_single_leaf (o : Nat) (entry : Entry) (base : Nat) (p : Nat) (index : Nat) (alloc : Nat) (child_pointer : Nat) (child_size : Nat) : Causal (Thread.insert_single_leaf E o entry base p index alloc child_pointer child_size : T α Entry) := by
  unfold Thread.insert_single_leaf; causal
instance insert_single_segment (o : Nat) (entry : Entry) (value : α) : Causal (Thread.insert_single_segment E o entry value : T α Entry) := by
  unfold Thread.insert_single_segment; causal
instance insert_single_iterator (o : Nat) (it : Iter) (value : α) : Causal (Thread.insert_single_iterator E o it value : T α Iter) := by
  unfold Thread.insert_single_iterator; causal
instance erase_single_branch (o : Nat) (p : Nat) (index : Nat) : Causal (Thread.erase_single_branch E o p index : T α Unit) := by
  revert p index
  refine Thread.erase_single_branch.fixpoint_induct E o (fun f => ∀ (p : Nat) (index : Nat), Causal (f p index)) adm2 ?_
  intro f ih p index
  causal
instance erase_single_leaf (o : Nat) (entry : LeafE) (p : Nat) (index : Nat) : Causal (Thread.erase_single_leaf E o entry p index : T α LeafE) := by
  unfold Thread.erase_single_leaf; causal
instance erase_single_segment (o : Nat) (entry : Entry) : Causal (Thread.erase_single_segment E o entry : T α Entry) := by
  unfold Thread.erase_single_segment; causal
instance erase_single_iterator (o : Nat) (it : Iter) : Causal (Thread.erase_single_iterator E o it : T α Iter) := by
  unfold Thread.erase_single_iterator; causal
instance find_index (o : Nat) (pos : Nat) : Causal (Thread.find_index E o pos : T α Iter) := by
  unfold Thread.find_index; causal
instance find_first (o : Nat) : Causal (Thread.find_first E o : T α Iter) := by
  unfold Thread.find_first; causal
instance find_last (o : Nat) : Causal (Thread.find_last E o : T α Iter) := by
  unfold Thread.find_last; causal
instance find_end (o : Nat) : Causal (Thread.find_end E o : T α Iter) := by
  unfold Thread.find_end; causal
instance steal (o : Nat) (other : Nat) : Causal (Thread.steal o other : T α Unit) := by
  unfold Thread.steal; causal
instance copyAssign (p : Nat) (i : Nat) (v : α) : Causal (Thread.copyAssign E p i v : T α Unit) := by
  unfold Thread.copyAssign; causal
instance moveFrom (p : Nat) (i : Nat) : Causal (Thread.moveFrom E p i : T α α) := by
  unfold Thread.moveFrom; causal
instance emplace_single (o : Nat) (it : Iter) {mk : T α α} [hmk : Causal (mk )] : Causal (Thread.emplace_single E o it mk : T α Iter) := by
  unfold Thread.emplace_single; causal
instance emplace_count_loop (o : Nat) {mk : T α α} [Causal mk] (n : Nat) (it : Iter) :
    Causal (Thread.emplace_count_loop E o mk n it) := by
  induction n generalizing it with
  | zero => exact pure _
  | succ n ih => unfold Thread.emplace_count_loop; causal
instance emplace_count (o : Nat) (it : Iter) (count : Nat) {mk : T α α} [hmk : Causal (mk )] : Causal (Thread.emplace_count E o it count mk : T α Iter) := by
  unfold Thread.emplace_count; causal
instance emplace_range_loop {σ : Type} {S : Thread.Src α σ} [hS : CausalSrc S] (o : Nat) (it : Iter) (first : σ) (count : Nat) : Causal (Thread.emplace_range_loop E S o it first count : T α (Iter × Nat)) := by
  have hrS := hS.read
  have hnS := hS.next
  revert it first count
  refine Thread.emplace_range_loop.fixpoint_induct E S o (fun f => ∀ (it : Iter) (first : σ) (count : Nat), Causal (f it first count)) adm3 ?_
  intro f ih it first count
  causal
instance emplace_range {σ : Type} {S : Thread.Src α σ} [hS : CausalSrc S] (o : Nat) (it : Iter) (first : σ) : Causal (Thread.emplace_range E S o it first : T α Iter) := by
  have hrS := hS.read
  have hnS := hS.next
  unfold Thread.emplace_range; causal
instance listSrc : CausalSrc (Thread.listSrc E) where
  read l := by cases l <;> (simp only [Thread.listSrc]; infer_instance)
  next l := by simp only [Thread.listSrc]; infer_instance
instance copySrc (last : Iter) : CausalSrc (Thread.copySrc E last) where
  read it := by simp only [Thread.copySrc]; infer_instance
  next it := by simp only [Thread.copySrc]; infer_instance
instance moveSrc (last : Iter) : CausalSrc (Thread.moveSrc E last) where
  read it := by simp only [Thread.moveSrc]; infer_instance
  next it := by simp only [Thread.moveSrc]; infer_instance
instance erase_single (o : Nat) (it : Iter) : Causal (Thread.erase_single E o it : T α Iter) := by
  unfold Thread.erase_single; causal
instance erase_range (o : Nat) (first : Iter) (last : Iter) : Causal (Thread.erase_range E o first last : T α Iter) := by
  revert last
  refine Thread.erase_range.fixpoint_induct E o first (fun f => ∀ (last : Iter), Causal (f last)) adm1 ?_
  intro f ih last
  causal
instance assign_count_loop (o : Nat) {src : T α α} [hsrc : Causal (src )] (count : Nat) (first : Iter) (last : Iter) : Causal (Thread.assign_count_loop E o src count first last : T α Unit) := by
  revert count first
  refine Thread.assign_count_loop.fixpoint_induct E o src last (fun f => ∀ (count : Nat) (first : Iter), Causal (f count first)) adm2 ?_
  intro f ih count first
  causal
instance assign_count (o : Nat) (count : Nat) {src : T α α} [hsrc : Causal (src )] : Causal (Thread.assign_count E o count src : T α Unit) := by
  unfold Thread.assign_count; causal
instance assign_range_loop {σ : Type} {S : Thread.Src α σ} [hS : CausalSrc S] (o : Nat) (source : σ) (first : Iter) (last : Iter) : Causal (Thread.assign_range_loop E S o source first last : T α Unit) := by
  have hrS := hS.read
  have hnS := hS.next
  revert source first
  refine Thread.assign_range_loop.fixpoint_induct E S o last (fun f => ∀ (source : σ) (first : Iter), Causal (f source first)) adm2 ?_
  intro f ih source first
  causal
instance assign_range {σ : Type} {S : Thread.Src α σ} [hS : CausalSrc S] (o : Nat) (source : σ) : Causal (Thread.assign_range E S o source : T α Unit) := by
  have hrS := hS.read
  have hnS := hS.next
  unfold Thread.assign_range; causal
instance resize_count (o : Nat) (count : Nat) {mk : T α α} [hmk : Causal (mk )] : Causal (Thread.resize_count E o count mk : T α Unit) := by
  unfold Thread.resize_count; causal
instance clear (o : Nat) : Causal (Thread.clear E o : T α Unit) := by
  unfold Thread.clear; causal
instance copy_assign_alloc (o : Nat) (other : Nat) : Causal (Thread.copy_assign_alloc E o other : T α Unit) := by
  unfold Thread.copy_assign_alloc; causal
instance move_assign_alloc (o : Nat) (other : Nat) : Causal (Thread.move_assign_alloc E o other : T α Unit) := by
  unfold Thread.move_assign_alloc; causal
instance move_assign_steal (o : Nat) (other : Nat) : Causal (Thread.move_assign_steal E o other : T α Unit) := by
  unfold Thread.move_assign_steal; causal
instance move_assign (o : Nat) (other : Nat) : Causal (Thread.move_assign E o other : T α Unit) := by
  unfold Thread.move_assign; causal
instance dtor (o : Nat) : Causal (Thread.dtor E o : T α Unit) := by
  unfold Thread.dtor; causal
instance delegating (o : Nat) (alloc : Nat) {body : T α Unit} [hbody : Causal (body )] : Causal (Thread.delegating E o alloc body : T α Unit) := by
  unfold Thread.delegating; causal
instance ctor_count (o : Nat) (alloc : Nat) (count : Nat) {mk : T α α} [hmk : Causal (mk )] : Causal (Thread.ctor_count E o alloc count mk : T α Unit) := by
  unfold Thread.ctor_count; causal
instance ctor_range {σ : Type} {S : Thread.Src α σ} [hS : CausalSrc S] (o : Nat) (alloc : Nat) (first : σ) : Causal (Thread.ctor_range E S o alloc first : T α Unit) := by
  have hrS := hS.read
  have hnS := hS.next
  unfold Thread.ctor_range; causal
instance ctor_copy_alloc (o : Nat) (other : Nat) (alloc : Nat) : Causal (Thread.ctor_copy_alloc E o other alloc : T α Unit) := by
  unfold Thread.ctor_copy_alloc; causal
instance ctor_copy (o : Nat) (other : Nat) : Causal (Thread.ctor_copy E o other : T α Unit) := by
  unfold Thread.ctor_copy; causal
instance ctor_move (o : Nat) (other : Nat) : Causal (Thread.ctor_move o other : T α Unit) := by
  unfold Thread.ctor_move; causal
instance ctor_move_alloc (o : Nat) (other : Nat) (alloc : Nat) : Causal (Thread.ctor_move_alloc E o other alloc : T α Unit) := by
  unfold Thread.ctor_move_alloc; causal
instance assign_copy (o : Nat) (other : Nat) : Causal (Thread.assign_copy E o other : T α Unit) := by
  unfold Thread.assign_copy; causal
instance assign_move (o : Nat) (other : Nat) : Causal (Thread.assign_move E o other : T α Unit) := by
  unfold Thread.assign_move; causal
instance assign_list (o : Nat) (vs : List α) : Causal (Thread.assign_list E o vs : T α Unit) := by
  unfold Thread.assign_list; causal
instance assign_fill (o : Nat) (count : Nat) (v : α) : Causal (Thread.assign_fill E o count v : T α Unit) := by
  unfold Thread.assign_fill; causal
instance at_ (o : Nat) (pos : Nat) : Causal (Thread.at_ E o pos : T α α) := by
  unfold Thread.at_; causal
instance index_op (o : Nat) (pos : Nat) : Causal (Thread.index_op E o pos : T α α) := by
  unfold Thread.index_op; causal
instance index_set (o : Nat) (pos : Nat) (v : α) : Causal (Thread.index_set E o pos v : T α Unit) := by
  unfold Thread.index_set; causal
instance deref_set (it : Iter) (v : α) : Causal (Thread.deref_set E it v : T α Unit) := by
  unfold Thread.deref_set; causal
instance deref_set_rv (it : Iter) (v : α) : Causal (Thread.deref_set_rv E it v : T α Unit) := by
  unfold Thread.deref_set_rv; causal
instance front (o : Nat) : Causal (Thread.front E o : T α α) := by
  unfold Thread.front; causal
instance back (o : Nat) : Causal (Thread.back E o : T α α) := by
  unfold Thread.back; causal
instance begin_ (o : Nat) : Causal (Thread.begin_ E o : T α Iter) := by
  unfold Thread.begin_; causal
instance penultimate (o : Nat) : Causal (Thread.penultimate E o : T α Iter) := by
  unfold Thread.penultimate; causal
instance end_ (o : Nat) : Causal (Thread.end_ E o : T α Iter) := by
  unfold Thread.end_; causal
instance rev_deref (it : Iter) : Causal (Thread.rev_deref E it : T α α) := by
  unfold Thread.rev_deref; causal
instance nth (o : Nat) (pos : Nat) : Causal (Thread.nth E o pos : T α Iter) := by
  unfold Thread.nth; causal
instance empty (o : Nat) : Causal (Thread.empty o : T α Bool) := by
  unfold Thread.empty; causal
instance size (o : Nat) : Causal (Thread.size o : T α Nat) := by
  unfold Thread.size; causal
instance height (o : Nat) : Causal (Thread.height o : T α Nat) := by
  unfold Thread.height; causal
instance get_allocator (o : Nat) : Causal (Thread.get_allocator o : T α Nat) := by
  unfold Thread.get_allocator; causal
instance insert (o : Nat) (it : Iter) (v : α) : Causal (Thread.insert E o it v : T α Iter) := by
  unfold Thread.insert; causal
instance insert_rv (o : Nat) (it : Iter) (v : α) : Causal (Thread.insert_rv E o it v : T α Iter) := by
  unfold Thread.insert_rv; causal
instance insert_alias (o : Nat) (it : Iter) (src : Iter) : Causal (Thread.insert_alias E o it src : T α Iter) := by
  unfold Thread.insert_alias; causal
instance insert_fill (o : Nat) (it : Iter) (count : Nat) (v : α) : Causal (Thread.insert_fill E o it count v : T α Iter) := by
  unfold Thread.insert_fill; causal
instance insert_fill_alias (o : Nat) (it : Iter) (count : Nat) (src : Iter) : Causal (Thread.insert_fill_alias E o it count src : T α Iter) := by
  unfold Thread.insert_fill_alias; causal
instance insert_list (o : Nat) (it : Iter) (vs : List α) : Causal (Thread.insert_list E o it vs : T α Iter) := by
  unfold Thread.insert_list; causal
instance erase (o : Nat) (it : Iter) : Causal (Thread.erase E o it : T α Iter) := by
  unfold Thread.erase; causal
instance erase_rng (o : Nat) (first : Iter) (last : Iter) : Causal (Thread.erase_rng E o first last : T α Iter) := by
  unfold Thread.erase_rng; causal
instance push_back (o : Nat) (v : α) : Causal (Thread.push_back E o v : T α Unit) := by
  unfold Thread.push_back; causal
instance push_back_rv (o : Nat) (v : α) : Causal (Thread.push_back_rv E o v : T α Unit) := by
  unfold Thread.push_back_rv; causal
instance pop_back (o : Nat) : Causal (Thread.pop_back E o : T α Unit) := by
  unfold Thread.pop_back; causal
instance push_front (o : Nat) (v : α) : Causal (Thread.push_front E o v : T α Unit) := by
  unfold Thread.push_front; causal
instance push_front_rv (o : Nat) (v : α) : Causal (Thread.push_front_rv E o v : T α Unit) := by
  unfold Thread.push_front_rv; causal
instance pop_front (o : Nat) : Causal (Thread.pop_front E o : T α Unit) := by
  unfold Thread.pop_front; causal
instance resize (o : Nat) (count : Nat) (v : α) : Causal (Thread.resize E o count v : T α Unit) := by
  unfold Thread.resize; causal
instance swap (o : Nat) (other : Nat) : Causal (Thread.swap E o other : T α Unit) := by
  unfold Thread.swap; causal
instance splice (o : Nat) (pos : Iter) (other : Nat) : Causal (Thread.splice E o pos other : T α Unit) := by
  unfold Thread.splice; causal
instance splice_one (o : Nat) (pos : Iter) (other : Nat) (it : Iter) : Causal (Thread.splice_one E o pos other it : T α Unit) := by
  unfold Thread.splice_one; causal
instance splice_range (o : Nat) (pos : Iter) (other : Nat) (first : Iter) (last : Iter) : Causal (Thread.splice_range E o pos other first last : T α Unit) := by
  unfold Thread.splice_range; causal
instance read_range (first : Iter) (last : Iter) : Causal (Thread.read_range E first last : T α (List α)) := by
  revert first
  refine Thread.read_range.fixpoint_induct E last (fun f => ∀ (first : Iter), Causal (f first)) adm1 ?_
  intro f ih first
  causal
instance write_range (first : Iter) (vs : List α) : Causal (Thread.write_range E first vs) := by
  induction vs generalizing first with
  | nil => exact pure _
  | cons v vs ih => unfold Thread.write_range; causal
instance std_inplace_merge (comp : α → α → Bool) (first : Iter) (mid : Iter) (last : Iter) : Causal (Thread.std_inplace_merge E comp first mid last : T α Unit) := by
  unfold Thread.std_inplace_merge; causal
instance std_stable_sort (comp : α → α → Bool) (first : Iter) (last : Iter) : Causal (Thread.std_stable_sort E comp first last : T α Unit) := by
  unfold Thread.std_stable_sort; causal
instance merge (o : Nat) (other : Nat) (comp : α → α → Bool) : Causal (Thread.merge E o other comp : T α Unit) := by
  unfold Thread.merge; causal
instance std_find_if (p : α → Bool) (first : Iter) (last : Iter) : Causal (Thread.std_find_if E p first last : T α Iter) := by
  revert first
  refine Thread.std_find_if.fixpoint_induct E p last (fun f => ∀ (first : Iter), Causal (f first)) adm1 ?_
  intro f ih first
  causal
instance iter_move_assign (src : Iter) (dst : Iter) : Causal (Thread.iter_move_assign E src dst : T α Unit) := by
  unfold Thread.iter_move_assign; causal
instance std_remove_loop (p : α → Bool) (first : Iter) (i : Iter) (last : Iter) : Causal (Thread.std_remove_loop E p first i last : T α Iter) := by
  revert first i
  refine Thread.std_remove_loop.fixpoint_induct E p last (fun f => ∀ (first : Iter) (i : Iter), Causal (f first i)) adm2 ?_
  intro f ih first i
  causal
instance std_remove_if (p : α → Bool) (first : Iter) (last : Iter) : Causal (Thread.std_remove_if E p first last : T α Iter) := by
  unfold Thread.std_remove_if; causal
instance remove_if (o : Nat) (p : α → Bool) : Causal (Thread.remove_if E o p : T α Unit) := by
  unfold Thread.remove_if; causal
instance remove (o : Nat) (eq : α → α → Bool) (v : α) : Causal (Thread.remove E o eq v : T α Unit) := by
  unfold Thread.remove; causal
instance iter_swap (a : Iter) (b : Iter) : Causal (Thread.iter_swap E a b : T α Unit) := by
  unfold Thread.iter_swap; causal
instance std_reverse_loop (first : Iter) (last : Iter) : Causal (Thread.std_reverse_loop E first last : T α Unit) := by
  revert first last
  refine Thread.std_reverse_loop.fixpoint_induct E (fun f => ∀ (first : Iter) (last : Iter), Causal (f first last)) adm2 ?_
  intro f ih first last
  causal
instance std_reverse (first : Iter) (last : Iter) : Causal (Thread.std_reverse E first last : T α Unit) := by
  unfold Thread.std_reverse; causal
instance reverse (o : Nat) : Causal (Thread.reverse E o : T α Unit) := by
  unfold Thread.reverse; causal
instance std_unique_loop (p : α → α → Bool) (result : Iter) (first : Iter) (last : Iter) : Causal (Thread.std_unique_loop E p result first last : T α Iter) := by
  revert result first
  refine Thread.std_unique_loop.fixpoint_induct E p last (fun f => ∀ (result : Iter) (first : Iter), Causal (f result first)) adm2 ?_
  intro f ih result first
  causal
instance std_unique (p : α → α → Bool) (first : Iter) (last : Iter) : Causal (Thread.std_unique E p first last : T α Iter) := by
  unfold Thread.std_unique; causal
instance unique (o : Nat) (p : α → α → Bool) : Causal (Thread.unique E o p : T α Unit) := by
  unfold Thread.unique; causal
instance sort (o : Nat) (comp : α → α → Bool) : Causal (Thread.sort E o comp : T α Unit) := by
  unfold Thread.sort; causal
instance std_equal (eq : α → α → Bool) (first1 : Iter) (last1 : Iter) (first2 : Iter) : Causal (Thread.std_equal E eq first1 last1 first2 : T α Bool) := by
  revert first1 first2
  refine Thread.std_equal.fixpoint_induct E eq last1 (fun f => ∀ (first1 : Iter) (first2 : Iter), Causal (f first1 first2)) adm2 ?_
  intro f ih first1 first2
  causal
instance op_eq (eq : α → α → Bool) (a : Nat) (b : Nat) : Causal (Thread.op_eq E eq a b : T α Bool) := by
  unfold Thread.op_eq; causal
instance op_ne (eq : α → α → Bool) (a : Nat) (b : Nat) : Causal (Thread.op_ne E eq a b : T α Bool) := by
  unfold Thread.op_ne; causal
instance std_lex (lt : α → α → Bool) (first1 : Iter) (last1 : Iter) (first2 : Iter) (last2 : Iter) : Causal (Thread.std_lex E lt first1 last1 first2 last2 : T α Bool) := by
  revert first1 first2
  refine Thread.std_lex.fixpoint_induct E lt last1 last2 (fun f => ∀ (first1 : Iter) (first2 : Iter), Causal (f first1 first2)) adm2 ?_
  intro f ih first1 first2
  causal
instance op_lt (lt : α → α → Bool) (a : Nat) (b : Nat) : Causal (Thread.op_lt E lt a b : T α Bool) := by
  unfold Thread.op_lt; causal
instance op_le (lt : α → α → Bool) (a : Nat) (b : Nat) : Causal (Thread.op_le E lt a b : T α Bool) := by
  unfold Thread.op_le; causal
instance op_gt (lt : α → α → Bool) (a : Nat) (b : Nat) : Causal (Thread.op_gt E lt a b : T α Bool) := by
  unfold Thread.op_gt; causal
instance op_ge (lt : α → α → Bool) (a : Nat) (b : Nat) : Causal (Thread.op_ge E lt a b : T α Bool) := by
  unfold Thread.op_ge; causal
instance it_add (it : Iter) (d : Int) : Causal (Thread.it_add E it d : T α Iter) := by
  unfold Thread.it_add; causal
instance it_sub (it : Iter) (d : Int) : Causal (Thread.it_sub E it d : T α Iter) := by
  unfold Thread.it_sub; causal
instance it_index (it : Iter) (d : Int) : Causal (Thread.it_index E it d : T α α) := by
  unfold Thread.it_index; causal

end Causal
end SegTree
