/-
  GENERATED by tools/gen_cost.py: the functions that only read write nothing that is
  lent and ask for no storage.
-/
import Verif.Thread.Sim
set_option autoImplicit false
set_option linter.unusedVariables false
set_option linter.unusedSimpArgs false

namespace SegTree
open Lean.Order

variable {α β γ : Type} {E : Env α}

/-- what the thread may read shows (at least) the memory `c` -/
def Th.Shows (s : Th α) (c : Mem α) : Prop :=
  ∀ l, c.cell l ≠ none → (s.own l = true ∨ s.lent l = true) ∧ s.mem.cell l = c.cell l

/-- from `s` to `s'` with at most `N` accesses, none of them changing anything -/
structure Th.Reads (N : Nat) (s s' : Th α) : Prop where
  lent : s'.lent = s.lent
  env : s'.env = s.env
  limit : s'.limit = s.limit
  step : s'.step ≤ s.step + N
  own : s'.own = s.own
  log : s'.mem.log = s.mem.log
  ticks : s'.mem.ticks = s.mem.ticks
  shown : ∀ l, s.own l = true ∨ s.lent l = true → s'.mem.cell l = s.mem.cell l

/-- The outcome among others goes with the outcome in the memory `c` alone: it is the same,
and nothing has changed; or the thread has had less than `N` accesses, or others changed
what is not theirs. -/
inductive Saw (N : Nat) (s : Th α) (c : Mem α) : Res α β → TRes α β → Prop
  | torn (r : Res α β) : Saw N s c r .torn
  | paused (s' : Th α) (r : Res α β) : s.limit < s.step + N → Saw N s c r (.paused s')
  | ok (v : β) (s' : Th α) : s.Reads N s' → Saw N s c (.ok v c) (.ok v s')
  | throw (e : Exn) (s' : Th α) : s.Reads N s' → Saw N s c (.throw e c) (.throw e s')

class Looks (x : M α β) (y : T α β) : Prop where
  run : ∀ c : Mem α, Bad (x c) ∨ ∃ N, ∀ s : Th α, s.Shows c → Saw N s c (x c) (y s)

theorem Th.Reads.refl (s : Th α) : s.Reads 0 s :=
  ⟨rfl, rfl, rfl, Nat.le_refl _, rfl, rfl, rfl, fun _ _ => rfl⟩
theorem Th.Reads.trans {N K : Nat} {s s1 s2 : Th α} (h : s.Reads N s1) (h2 : s1.Reads K s2) : s.Reads (N + K) s2 :=
  ⟨h2.lent.trans h.lent, h2.env.trans h.env, h2.limit.trans h.limit, by have := h.step; have := h2.step; omega,
    h2.own.trans h.own, h2.log.trans h.log, h2.ticks.trans h.ticks,
    fun l hl => (h2.shown l (by rw [h.lent, h.own]; exact hl)).trans (h.shown l hl)⟩
theorem Th.Reads.shows {N : Nat} {s s1 : Th α} {c : Mem α} (h : s.Reads N s1) (hc : s.Shows c) : s1.Shows c := fun l hl => by
  obtain ⟨h1, h2⟩ := hc l hl
  exact ⟨by rw [h.lent, h.own]; exact h1, (h.shown l h1).trans h2⟩
theorem Saw.from {N K : Nat} {s s1 : Th α} {c : Mem α} {r : Res α β} {r' : TRes α β} (hl : s.Reads N s1)
    (h : Saw K s1 c r r') : Saw (N + K) s c r r' := by
  cases h with
  | torn => exact .torn _
  | paused s' r h => exact .paused _ _ (by have := hl.limit; have := hl.step; omega)
  | ok v s' h => exact .ok v s' (hl.trans h)
  | throw e s' h => exact .throw e s' (hl.trans h)

namespace Looks

instance pure (v : β) : Looks (Pure.pure v : M α β) (Pure.pure v : T α β) :=
  ⟨fun _ => .inr ⟨0, fun s h => .ok _ _ (.refl s)⟩⟩
instance ub (k : UB) : Looks (M.ub k : M α β) (T.ub k : T α β) := ⟨fun _ => .inl (.inr ⟨_, rfl⟩)⟩
instance thr (e : Exn) : Looks (M.throw e : M α β) (T.throw e : T α β) :=
  ⟨fun _ => .inr ⟨0, fun s h => .throw _ _ (.refl s)⟩⟩
instance ite {c : Prop} [Decidable c] {x y : M α β} {x' y' : T α β} [Looks x x'] [Looks y y'] :
    Looks (if c then x else y) (if c then x' else y') := by
  split <;> assumption

instance bind {x : M α β} {f : β → M α γ} {y : T α β} {g : β → T α γ} [h : Looks x y] [hf : ∀ v, Looks (f v) (g v)] :
    Looks (x >>= f) (y >>= g) := by
  refine ⟨fun m => ?_⟩
  show Bad (M.bind x f m) ∨ ∃ N, ∀ s : Th α, s.Shows m → Saw N s m (M.bind x f m) (T.bind y g s)
  unfold M.bind T.bind
  rcases h.run m with (hm | ⟨u, hm⟩) | ⟨N, hN⟩
  · rw [hm]; exact .inl (.inl rfl)
  · rw [hm]; exact .inl (.inr ⟨_, rfl⟩)
  · cases hx : x m with
    | div => exact .inl (.inl rfl)
    | ub u => exact .inl (.inr ⟨_, rfl⟩)
    | throw e m1 =>
      refine .inr ⟨N, fun s hp => ?_⟩
      have := hN s hp
      rw [hx] at this
      generalize y s = r' at this
      cases this with
      | torn => exact .torn _
      | paused s' _ h => exact .paused _ _ h
      | throw e s' h => exact .throw _ s' h
    | ok v m1 =>
      by_cases e : m1 = m
      · subst e
        rcases (hf v).run m1 with (hm | ⟨u, hm⟩) | ⟨K, hK⟩
        · exact .inl (.inl hm)
        · exact .inl (.inr ⟨u, hm⟩)
        · refine .inr ⟨N + K, fun s hp => ?_⟩
          have := hN s hp
          rw [hx] at this
          generalize y s = r' at this
          cases this with
          | torn => exact .torn _
          | paused s' _ h => exact .paused _ _ (by omega)
          | ok v s' h => exact (hK s' (h.shows hp)).from h
      · refine .inr ⟨N, fun s hp => ?_⟩
        have := hN s hp
        rw [hx] at this
        generalize y s = r' at this
        cases this with
        | torn => exact .torn _
        | paused s' _ h => exact .paused _ _ h
        | ok v s' h => exact absurd rfl e

theorem reads {l : Loc} {x : M α β} (hx : ∀ m, (∃ v, x m = .ok v m) ∨ ∃ u, x m = .ub u)
    (hl : ∀ m m' : Mem α, m.cell l = m'.cell l → ∀ v, x m = .ok v m → x m' = .ok v m')
    (hn : ∀ m : Mem α, m.cell l = none → ∃ u, x m = .ub u) : Looks x (T.reads l x) := by
  refine ⟨fun m => ?_⟩
  rcases hx m with ⟨v, e⟩ | ⟨u, e⟩
  · refine .inr ⟨1, fun s h => ?_⟩
    unfold T.reads T.access
    split
    · exact .paused _ _ (by omega)
    · split
      · rename_i ha
        obtain ⟨h1, h2⟩ := h l fun hc => by
          obtain ⟨u, e'⟩ := hn m hc
          rw [e] at e'; cases e'
        have ho : (s.own l || s.lent l) = true := by rw [Bool.or_eq_true]; exact h1
        unfold T.perform
        have := hl m { s.mem with cell := s.env s.step } (by rw [← h2]; exact (ha l h1).symm) v e
        dsimp only
        rw [if_pos ho, e, this]
        exact .ok _ _ ⟨rfl, rfl, rfl, Nat.le_refl _, rfl, rfl, rfl, ha⟩
      · exact .torn _
  · exact .inl (.inr ⟨u, e⟩)

instance rdNode (p : Nat) : Looks (SegTree.rdNode p : M α Node) (Thread.rdNode p) :=
  reads (fun m => by unfold SegTree.rdNode; split <;> simp)
    (fun m m' hc v => by unfold SegTree.rdNode; rw [hc]; split <;> simp)
    (fun m hc => by unfold SegTree.rdNode; rw [hc]; exact ⟨_, rfl⟩)
instance rdSlots (p : Nat) : Looks (SegTree.rdSlots p : M α (Nat → Slot α)) (Thread.rdSlots p) :=
  reads (fun m => by unfold SegTree.rdSlots; split <;> simp)
    (fun m m' hc v => by unfold SegTree.rdSlots; rw [hc]; split <;> simp)
    (fun m hc => by unfold SegTree.rdSlots; rw [hc]; exact ⟨_, rfl⟩)
instance rdObj (o : Nat) : Looks (SegTree.rdObj o : M α SeqObj) (Thread.rdObj o) :=
  reads (fun m => by unfold SegTree.rdObj; split <;> simp)
    (fun m m' hc v => by unfold SegTree.rdObj; rw [hc]; split <;> simp)
    (fun m hc => by unfold SegTree.rdObj; rw [hc]; exact ⟨_, rfl⟩)
instance usub (a b : Nat) : Looks (SegTree.usub a b : M α Nat) (Thread.usub a b) := by
  unfold SegTree.usub Thread.usub; infer_instance

theorem admissible (y : T α β) : Lean.Order.admissible (fun x : M α β => Looks x y) := by
  have : (fun x : M α β => Looks x y) = fun x => ∀ c, (Bad (x c) ∨ ∃ N, ∀ s : Th α, s.Shows c → Saw N s c (x c) (y s)) := by
    funext x; exact propext ⟨fun h m => h.run m, fun h => ⟨fun m => h m⟩⟩
  rw [this]
  apply admissible_pi
  intro m
  exact admissible_apply (fun m r => (Bad r ∨ ∃ N, ∀ s : Th α, s.Shows m → Saw N s m r (y s))) m
    (admissible_flatOrder _ (.inl (.inl rfl)))

section
variable {ι1 ι2 ι3 ι4 ι5 ι6 ι7 : Type}
theorem adm1 (g : ι1 → T α β) : Lean.Order.admissible (fun f : ι1 → M α β => ∀ a, Looks (f a) (g a)) :=
  admissible_pi _ fun a => admissible_apply (fun a y => Looks y (g a)) a (admissible _)
theorem adm2 (g : ι1 → ι2 → T α β) :
    Lean.Order.admissible (fun f : ι1 → ι2 → M α β => ∀ a1 a2, Looks (f a1 a2) (g a1 a2)) :=
  admissible_pi _ fun a => admissible_apply (fun (a : ι1) (f : ι2 → M α β) => ∀ a2, Looks (f a2) (g a a2)) a (adm1 _)
theorem adm3 (g : ι1 → ι2 → ι3 → T α β) :
    Lean.Order.admissible (fun f : ι1 → ι2 → ι3 → M α β => ∀ a1 a2 a3, Looks (f a1 a2 a3) (g a1 a2 a3)) :=
  admissible_pi _ fun a => admissible_apply
    (fun (a : ι1) (f : ι2 → ι3 → M α β) => ∀ a2 a3, Looks (f a2 a3) (g a a2 a3)) a (adm2 _)
theorem adm4 (g : ι1 → ι2 → ι3 → ι4 → T α β) :
    Lean.Order.admissible (fun f : ι1 → ι2 → ι3 → ι4 → M α β => ∀ a1 a2 a3 a4, Looks (f a1 a2 a3 a4) (g a1 a2 a3 a4)) :=
  admissible_pi _ fun a => admissible_apply
    (fun (a : ι1) (f : ι2 → ι3 → ι4 → M α β) => ∀ a2 a3 a4, Looks (f a2 a3 a4) (g a a2 a3 a4)) a (adm3 _)
theorem adm5 (g : ι1 → ι2 → ι3 → ι4 → ι5 → T α β) :
    Lean.Order.admissible (fun f : ι1 → ι2 → ι3 → ι4 → ι5 → M α β =>
      ∀ a1 a2 a3 a4 a5, Looks (f a1 a2 a3 a4 a5) (g a1 a2 a3 a4 a5)) :=
  admissible_pi _ fun a => admissible_apply
    (fun (a : ι1) (f : ι2 → ι3 → ι4 → ι5 → M α β) => ∀ a2 a3 a4 a5, Looks (f a2 a3 a4 a5) (g a a2 a3 a4 a5)) a (adm4 _)
theorem adm6 (g : ι1 → ι2 → ι3 → ι4 → ι5 → ι6 → T α β) :
    Lean.Order.admissible (fun f : ι1 → ι2 → ι3 → ι4 → ι5 → ι6 → M α β =>
      ∀ a1 a2 a3 a4 a5 a6, Looks (f a1 a2 a3 a4 a5 a6) (g a1 a2 a3 a4 a5 a6)) :=
  admissible_pi _ fun a => admissible_apply
    (fun (a : ι1) (f : ι2 → ι3 → ι4 → ι5 → ι6 → M α β) =>
      ∀ a2 a3 a4 a5 a6, Looks (f a2 a3 a4 a5 a6) (g a a2 a3 a4 a5 a6)) a (adm5 _)
end

set_option synthInstance.maxSize 2000
set_option synthInstance.maxHeartbeats 400000

/-- walk through both programs in parallel -/
macro "looks" : tactic => `(tactic| repeat' first
  | infer_instance
  | (intro (_ : Nat))
  | dsimp (failIfUnchanged := true) only
  | (refine Looks.bind (h := ?_) (hf := ?_))
  | (refine Looks.onLooksow (hx := ?_) (hh := ?_))
  | (split <;> simp (failIfUnchanged := true) only [*, ↓reduceIte])
  | split
  | intro _)

