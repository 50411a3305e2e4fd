/-
  GENERATED by tools/gen_cost.py: what a thread does up to its n-th access does not
  depend on what it would find at later ones.
-/
import Verif.Thread.Pace
set_option autoImplicit false
set_option linter.unusedVariables false
set_option linter.unusedSimpArgs false

namespace SegTree
open Lean.Order

variable {α β γ : Type} {E : Env α}

/-- the same thread, finding the memories `e` -/
def Th.seeing (e : Nat → Loc → Option (Cell α)) (s : Th α) : Th α := { s with env := e }

def TRes.seeing (e : Nat → Loc → Option (Cell α)) : TRes α β → TRes α β
  | .ok v s => .ok v (s.seeing e)
  | .throw x s => .throw x (s.seeing e)
  | .paused s => .paused (s.seeing e)
  | .ub u => .ub u
  | .race l => .race l
  | .torn => .torn
  | .taken l => .taken l
  | .div => .div

class Causal (y : T α β) : Prop where
  run : ∀ (s : Th α) (e : Nat → Loc → Option (Cell α)), (∀ k, k < s.limit → e k = s.env k) →
    y (s.seeing e) = .div ∨ y s = .div ∨ y (s.seeing e) = (y s).seeing e
  keeps : ∀ (s s2 : Th α), (y s).state = some s2 → s2.env = s.env ∧ s2.limit = s.limit

class CausalSrc {σ : Type} (S : Thread.Src α σ) : Prop where
  read : ∀ x, Causal (S.read x)
  next : ∀ x, Causal (S.next x)

namespace Causal

instance pure (v : β) : Causal (Pure.pure v : T α β) := ⟨fun s e h => .inr (.inr rfl), fun s s2 h => by cases h; exact ⟨rfl, rfl⟩⟩
instance ub (k : UB) : Causal (T.ub k : T α β) := ⟨fun s e h => .inr (.inr rfl), fun s s2 h => by cases h⟩
instance thr (x : Exn) : Causal (T.throw x : T α β) := ⟨fun s e h => .inr (.inr rfl), fun s s2 h => by cases h; exact ⟨rfl, rfl⟩⟩
instance ite {c : Prop} [Decidable c] {x y : T α β} [Causal x] [Causal y] : Causal (if c then x else y) := by
  split <;> assumption

instance bind {x : T α β} {f : β → T α γ} [hx : Causal x] [hf : ∀ v, Causal (f v)] : Causal (x >>= f) := by
  constructor
  · intro s e h
    show T.bind x f (s.seeing e) = _ ∨ T.bind x f s = _ ∨ T.bind x f (s.seeing e) = (T.bind x f s).seeing e
    have hk := hx.keeps s
    unfold T.bind
    rcases hx.run s e h with h1 | h1 | h1
    · rw [h1]; exact .inl rfl
    · rw [h1]; exact .inr (.inl rfl)
    · rw [h1]
      generalize x s = r at hk
      cases r with
      | ok v s1 =>
        obtain ⟨k1, k2⟩ := hk s1 rfl
        exact (hf v).run s1 e (by rw [k1, k2]; exact h)
      | _ => exact .inr (.inr rfl)
  · intro s s2 h
    change (T.bind x f s).state = _ at h
    have hk := hx.keeps s
    unfold T.bind at h
    generalize x s = r at hk h
    cases r with
    | ok v s1 =>
      obtain ⟨k1, k2⟩ := hk s1 rfl
      obtain ⟨k3, k4⟩ := (hf v).keeps s1 s2 h
      exact ⟨k3.trans k1, k4.trans k2⟩
    | throw => exact hk _ h
    | paused => exact hk _ h
    | _ => cases h

instance onThrow {x : T α β} {f : T α Unit} [hx : Causal x] [hf : Causal f] : Causal (T.onThrow x f) := by
  constructor
  · intro s e h
    have hk := hx.keeps s
    unfold T.onThrow
    rcases hx.run s e h with h1 | h1 | h1
    · rw [h1]; exact .inl rfl
    · rw [h1]; exact .inr (.inl rfl)
    · rw [h1]
      generalize x s = r at hk
      cases r with
      | throw v s1 =>
        obtain ⟨k1, k2⟩ := hk s1 rfl
        have := hf.run s1 e (by rw [k1, k2]; exact h)
        simp only [TRes.seeing]
        rcases this with h2 | h2 | h2
        · rw [h2]; exact .inl rfl
        · rw [h2]; exact .inr (.inl rfl)
        · rw [h2]
          cases f s1 <;> exact .inr (.inr rfl)
      | _ => exact .inr (.inr rfl)
  · intro s s2 h
    have hk := hx.keeps s
    unfold T.onThrow at h
    generalize x s = r at hk h
    cases r with
    | throw v s1 =>
      obtain ⟨k1, k2⟩ := hk s1 rfl
      have := hf.keeps s1
      dsimp only at h
      generalize f s1 = q at this h
      cases q with
      | ok v s3 => obtain ⟨k3, k4⟩ := this s3 rfl; cases h; exact ⟨k3.trans k1, k4.trans k2⟩
      | throw v s3 => obtain ⟨k3, k4⟩ := this s3 rfl; cases h; exact ⟨k3.trans k1, k4.trans k2⟩
      | paused s3 => obtain ⟨k3, k4⟩ := this s3 rfl; cases h; exact ⟨k3.trans k1, k4.trans k2⟩
      | _ => cases h
    | ok => exact hk _ h
    | paused => exact hk _ h
    | _ => cases h

instance attempt {x : T α β} [hx : Causal x] : Causal (T.attempt x) := by
  constructor
  · intro s e h
    unfold T.attempt
    rcases hx.run s e h with h1 | h1 | h1
    · rw [h1]; exact .inl rfl
    · rw [h1]; exact .inr (.inl rfl)
    · rw [h1]
      cases x s <;> exact .inr (.inr rfl)
  · intro s s2 h
    have hk := hx.keeps s
    unfold T.attempt at h
    generalize x s = r at hk h
    cases r with
    | ok => exact hk _ h
    | throw => exact hk _ h
    | paused => exact hk _ h
    | _ => cases h

/-! #### the primitives -/

theorem perform_seeing (x : M α β) (s : Th α) (own : Loc → Bool) {e : Nat → Loc → Option (Cell α)} (h : e s.step = s.env s.step) :
    T.perform x (s.seeing e) own = (T.perform x s own).seeing e := by
  unfold T.perform Th.seeing
  dsimp only
  rw [h]
  cases x { s.mem with cell := s.env s.step } <;> rfl

theorem perform_keeps {x : M α β} {s s2 : Th α} {own : Loc → Bool} (h : (T.perform x s own).state = some s2) :
    s2.env = s.env ∧ s2.limit = s.limit := by
  unfold T.perform at h
  cases hx : x { s.mem with cell := s.env s.step } <;> rw [hx] at h <;> cases h <;> exact ⟨rfl, rfl⟩

theorem access {act : Th α → TRes α β}
    (h1 : ∀ (s : Th α) e, e s.step = s.env s.step → act (s.seeing e) = (act s).seeing e)
    (h2 : ∀ s s2 : Th α, (act s).state = some s2 → s2.env = s.env ∧ s2.limit = s.limit) : Causal (T.access act) := by
  constructor
  · intro s e h
    refine .inr (.inr ?_)
    by_cases hl : s.limit ≤ s.step
    · rw [Paced.access_pause hl, Paced.access_pause (s := s.seeing e) hl]; rfl
    · have hl : s.step < s.limit := Nat.lt_of_not_le hl
      have he := h s.step hl
      by_cases ha : ∀ l, s.own l = true ∨ s.lent l = true → s.env s.step l = s.mem.cell l
      · rw [Paced.access_act hl ha, Paced.access_act (s := s.seeing e) hl (fun l hl => by
          show e s.step l = _
          rw [he]; exact ha l hl)]
        exact h1 s e he
      · rw [Paced.access_torn hl ha, Paced.access_torn (s := s.seeing e) hl (fun h => ha fun l hl => by
          rw [← he]; exact h l hl)]
        rfl
  · intro s s2 h
    by_cases hl : s.limit ≤ s.step
    · rw [Paced.access_pause hl] at h; cases h; exact ⟨rfl, rfl⟩
    · have hl : s.step < s.limit := Nat.lt_of_not_le hl
      by_cases ha : ∀ l, s.own l = true ∨ s.lent l = true → s.env s.step l = s.mem.cell l
      · rw [Paced.access_act hl ha] at h; exact h2 s s2 h
      · rw [Paced.access_torn hl ha] at h; cases h

theorem reads {l : Loc} {x : M α β} : Causal (T.reads l x) := by
  refine access (fun s e h => ?_) (fun s s2 h => ?_)
  · show (if s.own l || s.lent l then _ else _) = _
    split
    · exact perform_seeing x s _ h
    · rfl
  · split at h
    · exact perform_keeps h
    · cases h

theorem writes {l : Loc} {x : M α β} : Causal (T.writes l x) := by
  refine access (fun s e h => ?_) (fun s s2 h => ?_)
  · show (if s.own l && !s.lent l then _ else _) = _
    split
    · exact perform_seeing x s _ h
    · rfl
  · split at h
    · exact perform_keeps h
    · cases h

theorem releases {l : Loc} {x : M α β} : Causal (T.releases l x) := by
  refine access (fun s e h => ?_) (fun s s2 h => ?_)
  · show (if s.own l && !s.lent l then _ else _) = _
    split
    · exact perform_seeing x s _ h
    · rfl
  · split at h
    · exact perform_keeps h
    · cases h

theorem acquires {offer : Log → Loc} {x : M α β} : Causal (T.acquires offer x) := by
  refine access (fun s e h => ?_) (fun s s2 h => ?_)
  · have hs : ((s.seeing e).env (s.seeing e).step) = s.env s.step := h
    dsimp only
    rw [hs]
    show (if offer s.mem.log = .heap 0 ∨ s.own (offer s.mem.log) = true then _ else if (s.env s.step (offer s.mem.log)).isSome || s.lent (offer s.mem.log) then _ else _) = _
    split
    · exact perform_seeing x s _ h
    · split
      · rfl
      · exact perform_seeing x s _ h
  · dsimp only at h
    split at h
    · exact perform_keeps h
    · split at h
      · cases h
      · exact perform_keeps h

theorem local_ {x : M α β} : Causal (T.local_ x) :=
  access (fun s e h => perform_seeing x s _ h) (fun s s2 h => perform_keeps h)

instance rdNode (p : Nat) : Causal (Thread.rdNode p : T α Node) := reads
instance rdSlots (p : Nat) : Causal (Thread.rdSlots p : T α (Nat → Slot α)) := reads
instance rdObj (o : Nat) : Causal (Thread.rdObj o : T α SeqObj) := reads
instance wrNode (p : Nat) (n : Node) : Causal (Thread.wrNode p n : T α Unit) := writes
instance wrSlots (p : Nat) (f : Nat → Slot α) : Causal (Thread.wrSlots p f : T α Unit) := writes
instance wrObj (o : Nat) (x : SeqObj) : Causal (Thread.wrObj o x : T α Unit) := writes
instance freeSeg (a p : Nat) : Causal (Thread.freeSeg E a p : T α Unit) := releases
instance freeNode (a p : Nat) : Causal (Thread.freeNode a p : T α Unit) := releases
instance dropObj (o : Nat) : Causal (Thread.dropObj o : T α Unit) := releases
instance allocCell (c : Cell α) : Causal (Thread.allocCell E c) := acquires
instance allocNodeCell (w : Nat) : Causal (Thread.allocNodeCell E w) := acquires
instance ctor (o al : Nat) : Causal (Thread.ctor o al : T α Unit) := acquires
instance copyVal (v : α) : Causal (Thread.copyVal E v) := local_
instance usub (a b : Nat) : Causal (Thread.usub a b : T α Nat) := by
  unfold Thread.usub; infer_instance

theorem admissible : Lean.Order.admissible (fun y : T α β => Causal y) := by
  have : (fun y : T α β => Causal y) = fun y => ∀ s : Th α, (∀ s2, (y s).state = some s2 → s2.env = s.env ∧ s2.limit = s.limit) ∧
      ∀ e : Nat → Loc → Option (Cell α), (∀ k, k < s.limit → e k = s.env k) →
      ∀ r' : TRes α β, r' ≠ .div → ((y s = .div ∨ (y s).seeing e = r') ∨ y (s.seeing e) ≠ r') := by
    funext y
    apply propext
    constructor
    · intro h s
      refine ⟨h.keeps s, fun e he r' hd => ?_⟩
      by_cases hy : y (s.seeing e) = r'
      · rcases h.run s e he with h | h | h
        · exact absurd (hy.symm.trans h) hd
        · exact .inl (.inl h)
        · exact .inl (.inr (h.symm.trans hy))
      · exact .inr hy
    · intro h
      refine ⟨fun s e he => ?_, fun s => (h s).1⟩
      by_cases hd : y (s.seeing e) = .div
      · exact .inl hd
      · rcases (h s).2 e he _ hd with (h | h) | h
        · exact .inr (.inl h)
        · exact .inr (.inr h.symm)
        · exact absurd rfl h
  rw [this]
  apply admissible_pi
  intro s
  apply admissible_and
  · exact admissible_apply (fun s r => ∀ s2, TRes.state r = some s2 → s2.env = s.env ∧ s2.limit = s.limit) s
      (admissible_flatOrder _ fun _ h => by cases h)
  · apply admissible_pi
    intro e
    apply admissible_pi
    intro _
    apply admissible_pi
    intro r'
    apply admissible_pi
    intro hd
    apply admissible_or
    · exact admissible_apply (fun (s : Th α) r => r = .div ∨ TRes.seeing e r = r') s (admissible_flatOrder _ (.inl rfl))
    · exact admissible_apply (fun (_ : Th α) r => r ≠ r') (s.seeing e) (admissible_flatOrder _ fun e => hd e.symm)

section
variable {ι1 ι2 ι3 ι4 ι5 ι6 ι7 : Type}
theorem adm1 : Lean.Order.admissible (fun f : ι1 → T α β => ∀ a, Causal (f a)) :=
  admissible_pi _ fun a => admissible_apply (fun _ y => Causal y) a admissible
theorem adm2 : Lean.Order.admissible (fun f : ι1 → ι2 → T α β => ∀ a1 a2, Causal (f a1 a2)) :=
  admissible_pi _ fun a => admissible_apply (fun (_ : ι1) (f : ι2 → T α β) => ∀ a2, Causal (f a2)) a adm1
theorem adm3 : Lean.Order.admissible (fun f : ι1 → ι2 → ι3 → T α β => ∀ a1 a2 a3, Causal (f a1 a2 a3)) :=
  admissible_pi _ fun a => admissible_apply (fun (_ : ι1) (f : ι2 → ι3 → T α β) => ∀ a2 a3, Causal (f a2 a3)) a adm2
theorem adm4 : Lean.Order.admissible (fun f : ι1 → ι2 → ι3 → ι4 → T α β => ∀ a1 a2 a3 a4, Causal (f a1 a2 a3 a4)) :=
  admissible_pi _ fun a => admissible_apply (fun (_ : ι1) (f : ι2 → ι3 → ι4 → T α β) => ∀ a2 a3 a4, Causal (f a2 a3 a4)) a adm3
theorem adm5 : Lean.Order.admissible (fun f : ι1 → ι2 → ι3 → ι4 → ι5 → T α β => ∀ a1 a2 a3 a4 a5, Causal (f a1 a2 a3 a4 a5)) :=
  admissible_pi _ fun a => admissible_apply
    (fun (_ : ι1) (f : ι2 → ι3 → ι4 → ι5 → T α β) => ∀ a2 a3 a4 a5, Causal (f a2 a3 a4 a5)) a adm4
theorem adm6 : Lean.Order.admissible (fun f : ι1 → ι2 → ι3 → ι4 → ι5 → ι6 → T α β => ∀ a1 a2 a3 a4 a5 a6, Causal (f a1 a2 a3 a4 a5 a6)) :=
  admissible_pi _ fun a => admissible_apply
    (fun (_ : ι1) (f : ι2 → ι3 → ι4 → ι5 → ι6 → T α β) => ∀ a2 a3 a4 a5 a6, Causal (f a2 a3 a4 a5 a6)) a adm5
end

set_option synthInstance.maxSize 2000
set_option synthInstance.maxHeartbeats 400000

/-- walk through the program -/
macro "causal" : tactic => `(tactic| repeat' first
  | infer_instance
  | (intro (_ : Nat))
  | dsimp (failIfUnchanged := true) only
  | (refine Causal.bind (hx := ?_) (hf := ?_))
  | (refine Causal.onThrow (hx := ?_) (hf := ?_))
  | split
  | intro _)

