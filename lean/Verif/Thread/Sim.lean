/-
  GENERATED by tools/gen_cost.py: what each function does in a thread among others
  is what it does alone, in the part of the memory that belongs to the thread.
-/
import Verif.Thread.Model
set_option autoImplicit false
set_option linter.unusedVariables false
set_option linter.unusedSimpArgs false

namespace SegTree
open Lean.Order

variable {α β γ : Type} {E : Env α} {L : Mem α}

/-- `m` is the part of the memory that belongs to the thread, `L` the part that is lent. -/
structure Th.Part (L : Mem α) (s : Th α) (m : Mem α) : Prop where
  mine : ∀ l, s.own l = true → s.mem.cell l = m.cell l
  rest : ∀ l, s.own l = false → m.cell l = none
  log : s.mem.log = m.log
  ticks : s.mem.ticks = m.ticks
  sep : ∀ l, s.own l = true → s.lent l = false
  lends : ∀ l, s.lent l = true → s.mem.cell l = L.cell l
  whole : ∀ l, s.lent l = false → L.cell l = none

/-- from `s` to `s'` with at most `N` accesses -/
structure Th.Leads (N : Nat) (s s' : Th α) : Prop where
  lent : s'.lent = s.lent
  env : s'.env = s.env
  limit : s'.limit = s.limit
  step : s'.step ≤ s.step + N
  shown : ∀ l, s.lent l = true → s'.mem.cell l = s.mem.cell l

/-- The outcome `r'` among others goes with the outcome `r` alone: it is the same, or the
thread has had less than `N` accesses, or something is wrong with the others (storage in
use is handed out, or they changed what is not theirs). -/
inductive Goes (L : Mem α) (N : Nat) (s : Th α) : Res α β → TRes α β → Prop
  | taken (l : Loc) (r : Res α β) : Goes L N s r (.taken l)
  | torn (r : Res α β) : Goes L N s r .torn
  | paused (s' : Th α) (r : Res α β) : s.limit < s.step + N → Goes L N s r (.paused s')
  | ok (v : β) (m : Mem α) (s' : Th α) : s'.Part L m → s.Leads N s' → Goes L N s (.ok v m) (.ok v s')
  | throw (e : Exn) (m : Mem α) (s' : Th α) : s'.Part L m → s.Leads N s' → Goes L N s (.throw e m) (.throw e s')

/-- nothing is said about a run that, alone, is undefined or does not end -/
def Bad (r : Res α β) : Prop := r = .div ∨ ∃ u, r = .ub u

class Thr (L : Mem α) (x : M α β) (y : T α β) : Prop where
  run : ∀ m : Mem α, Bad (x m) ∨ ∃ N, ∀ s : Th α, s.Part L m → Goes L N s (x m) (y s)

/-- an input range, read by the thread -/
class ThrSrc (L : Mem α) {σ : Type} (S : SegTree.Src α σ) (S' : Thread.Src α σ) : Prop where
  done : ∀ x, S'.done x = S.done x
  read : ∀ x, Thr L (S.read x) (S'.read x)
  next : ∀ x, Thr L (S.next x) (S'.next x)

theorem Th.Leads.refl (s : Th α) : s.Leads 0 s := ⟨rfl, rfl, rfl, Nat.le_refl _, fun _ _ => rfl⟩

theorem Th.Leads.trans {N K : Nat} {s s1 s2 : Th α} (h : s.Leads N s1) (h2 : s1.Leads K s2) : s.Leads (N + K) s2 :=
  ⟨h2.lent.trans h.lent, h2.env.trans h.env, h2.limit.trans h.limit, by have := h.step; have := h2.step; omega,
    fun l hl => (h2.shown l (h.lent ▸ hl)).trans (h.shown l hl)⟩

theorem Goes.from {N K : Nat} {s s1 : Th α} {r : Res α β} {r' : TRes α β} (hl : s.Leads N s1)
    (h : Goes L K s1 r r') : Goes L (N + K) s r r' := by
  cases h with
  | taken => exact .taken ..
  | torn => exact .torn _
  | paused s' r h => exact .paused _ _ (by have := hl.limit; have := hl.step; omega)
  | ok v m s' h h' => exact .ok v m s' h (hl.trans h')
  | throw e m s' h h' => exact .throw e m s' h (hl.trans h')

/-- the memory the thread finds at its next access -/
def Th.found (s : Th α) : Th α := { s with mem := { s.mem with cell := s.env s.step } }

theorem Th.Part.find {s : Th α} {m : Mem α} (h : s.Part L m)
    (ha : ∀ l, s.own l = true ∨ s.lent l = true → s.env s.step l = s.mem.cell l) : s.found.Part L m where
  mine l hl := by
    show s.env s.step l = _
    rw [ha l (.inl hl), h.mine l hl]
  rest := h.rest
  log := h.log
  ticks := h.ticks
  sep := h.sep
  lends l hl := (ha l (.inr hl)).trans (h.lends l hl)
  whole := h.whole

theorem upd_lent {s : Th α} {l : Loc} {f : Loc → Option (Cell α)} {c : Option (Cell α)} (hl : s.lent l = false) :
    ∀ k, s.lent k = true → upd f l c k = f k := fun k hk => by
  simp only [upd]
  rw [if_neg]
  intro e; subst e; rw [hl] at hk; cases hk

/-- an owned cell is written -/
theorem Th.Part.set {s : Th α} {m : Mem α} {l : Loc} {c : Cell α} (h : s.Part L m)
    (hl : s.own l = true) : ({ s with mem := s.mem.set l c, step := s.step + 1 } : Th α).Part L (m.set l c) where
  mine k hk := by
    simp only [Mem.set, upd]
    split
    · rfl
    · exact h.mine k hk
  rest k hk := by
    simp only [Mem.set, upd]
    split
    · subst k; rw [hl] at hk; cases hk
    · exact h.rest k hk
  log := h.log
  ticks := h.ticks
  sep := h.sep
  lends k hk := (upd_lent (s := s) (h.sep l hl) k hk).trans (h.lends k hk)
  whole := h.whole

/-- a new cell -/
theorem Th.Part.take {s : Th α} {m : Mem α} {l : Loc} {c : Cell α} (h : s.Part L m) (hl : s.lent l = false) :
    ({ s with mem := s.mem.set l c, own := upd s.own l true, step := s.step + 1 } : Th α).Part L (m.set l c) where
  mine k hk := by
    simp only [Mem.set, upd] at hk ⊢
    split
    · rfl
    · rename_i hne; rw [if_neg hne] at hk; exact h.mine k hk
  rest k hk := by
    simp only [Mem.set, upd] at hk ⊢
    split
    · rename_i he; rw [if_pos he] at hk; cases hk
    · rename_i hne; rw [if_neg hne] at hk; exact h.rest k hk
  log := h.log
  ticks := h.ticks
  sep k hk := by
    simp only [upd] at hk
    split at hk
    · subst k; exact hl
    · exact h.sep k hk
  lends k hk := (upd_lent (s := s) hl k hk).trans (h.lends k hk)
  whole := h.whole

/-- a cell is given back -/
theorem Th.Part.drop {s : Th α} {m : Mem α} {l : Loc} (h : s.Part L m) (hl : s.own l = true) :
    ({ s with mem := s.mem.erase l, own := upd s.own l false, step := s.step + 1 } : Th α).Part L (m.erase l) where
  mine k hk := by
    simp only [Mem.erase, upd] at hk ⊢
    split
    · rfl
    · rename_i hne; rw [if_neg hne] at hk; exact h.mine k hk
  rest k hk := by
    simp only [Mem.erase, upd] at hk ⊢
    split
    · rfl
    · rename_i hne; rw [if_neg hne] at hk; exact h.rest k hk
  log := h.log
  ticks := h.ticks
  sep k hk := by
    simp only [upd] at hk
    split at hk
    · cases hk
    · exact h.sep k hk
  lends k hk := (upd_lent (s := s) (h.sep l hl) k hk).trans (h.lends k hk)
  whole := h.whole

namespace Thr

instance pure (v : β) : Thr L (Pure.pure v : M α β) (Pure.pure v : T α β) :=
  ⟨fun _ => .inr ⟨0, fun s h => .ok _ _ _ h (.refl s)⟩⟩
instance ub (k : UB) : Thr L (M.ub k : M α β) (T.ub k : T α β) := ⟨fun _ => .inl (.inr ⟨_, rfl⟩)⟩
instance thr (e : Exn) : Thr L (M.throw e : M α β) (T.throw e : T α β) :=
  ⟨fun _ => .inr ⟨0, fun s h => .throw _ _ _ h (.refl s)⟩⟩
instance ite {c : Prop} [Decidable c] {x y : M α β} {x' y' : T α β} [Thr L x x'] [Thr L y y'] :
    Thr L (if c then x else y) (if c then x' else y') := by
  split <;> assumption

instance bind {x : M α β} {f : β → M α γ} {y : T α β} {g : β → T α γ} [h : Thr L x y] [hf : ∀ v, Thr L (f v) (g v)] :
    Thr L (x >>= f) (y >>= g) := by
  refine ⟨fun m => ?_⟩
  show Bad (M.bind x f m) ∨ ∃ N, ∀ s : Th α, s.Part L m → Goes L N s (M.bind x f m) (T.bind y g s)
  unfold M.bind T.bind
  rcases h.run m with (hm | ⟨u, hm⟩) | ⟨N, hN⟩
  · rw [hm]; exact .inl (.inl rfl)
  · rw [hm]; exact .inl (.inr ⟨_, rfl⟩)
  · cases hx : x m with
    | div => exact .inl (.inl rfl)
    | ub u => exact .inl (.inr ⟨_, rfl⟩)
    | throw e m1 =>
      refine .inr ⟨N, fun s hp => ?_⟩
      have := hN s hp
      rw [hx] at this
      generalize y s = r' at this
      cases this with
      | taken => exact .taken ..
      | torn => exact .torn _
      | paused s' _ h => exact .paused _ _ h
      | throw e m s' h h' => exact .throw _ _ s' h h'
    | ok v m1 =>
      rcases (hf v).run m1 with (hm | ⟨u, hm⟩) | ⟨K, hK⟩
      · exact .inl (.inl hm)
      · exact .inl (.inr ⟨u, hm⟩)
      · refine .inr ⟨N + K, fun s hp => ?_⟩
        have := hN s hp
        rw [hx] at this
        generalize y s = r' at this
        cases this with
        | taken => exact .taken ..
        | torn => exact .torn _
        | paused s' _ h => exact .paused _ _ (by omega)
        | ok v m s' h h' => exact (hK s' h).from h'

instance onThrow {x : M α β} {h : M α Unit} {x' : T α β} {h' : T α Unit} [hx : Thr L x x'] [hh : Thr L h h'] :
    Thr L (M.onThrow x h) (T.onThrow x' h') := by
  refine ⟨fun m => ?_⟩
  unfold M.onThrow T.onThrow
  rcases hx.run m with (hm | ⟨u, hm⟩) | ⟨N, hN⟩
  · rw [hm]; exact .inl (.inl rfl)
  · rw [hm]; exact .inl (.inr ⟨_, rfl⟩)
  · cases hx : x m with
    | div => exact .inl (.inl rfl)
    | ub u => exact .inl (.inr ⟨_, rfl⟩)
    | ok v m1 =>
      refine .inr ⟨N, fun s hp => ?_⟩
      have := hN s hp
      rw [hx] at this
      generalize x' s = r' at this
      cases this with
      | taken => exact .taken ..
      | torn => exact .torn _
      | paused s' _ h => exact .paused _ _ h
      | ok v m s' h h' => exact .ok _ _ s' h h'
    | throw e m1 =>
      dsimp only
      rcases hh.run m1 with (hm | ⟨u, hm⟩) | ⟨K, hK⟩
      · rw [hm]; exact .inl (.inl rfl)
      · rw [hm]; exact .inl (.inr ⟨u, rfl⟩)
      · cases hy : h m1 with
        | div => exact .inl (.inl rfl)
        | ub u => exact .inl (.inr ⟨_, rfl⟩)
        | ok w m2 =>
          refine .inr ⟨N + K, fun s hp => ?_⟩
          have := hN s hp
          rw [hx] at this
          generalize x' s = r' at this
          cases this with
          | taken => exact .taken ..
          | torn => exact .torn _
          | paused s' _ h => exact .paused _ _ (by omega)
          | throw e m s' h h1 =>
            have := hK s' h
            rw [hy] at this
            dsimp only
            generalize h' s' = r'' at this
            cases this with
            | taken => exact .taken ..
            | torn => exact .torn _
            | paused s' _ h => exact .paused _ _ (by have := h1.limit; have := h1.step; omega)
            | ok v m s'' h h' => exact .throw e _ _ h (h1.trans h')
        | throw e2 m2 =>
          refine .inr ⟨N + K, fun s hp => ?_⟩
          have := hN s hp
          rw [hx] at this
          generalize x' s = r' at this
          cases this with
          | taken => exact .taken ..
          | torn => exact .torn _
          | paused s' _ h => exact .paused _ _ (by omega)
          | throw e m s' h h1 =>
            have := hK s' h
            rw [hy] at this
            dsimp only
            generalize h' s' = r'' at this
            cases this with
            | taken => exact .taken ..
            | torn => exact .torn _
            | paused s' _ h => exact .paused _ _ (by have := h1.limit; have := h1.step; omega)
            | throw v m s'' h h' => exact .throw _ _ _ h (h1.trans h')

instance attempt {x : M α β} {x' : T α β} [hx : Thr L x x'] : Thr L (M.attempt x) (T.attempt x') := by
  refine ⟨fun m => ?_⟩
  unfold M.attempt T.attempt
  rcases hx.run m with (hm | ⟨u, hm⟩) | ⟨N, hN⟩
  · rw [hm]; exact .inl (.inl rfl)
  · rw [hm]; exact .inl (.inr ⟨_, rfl⟩)
  · refine .inr ⟨N, fun s hp => ?_⟩
    have := hN s hp
    generalize x m = r at this
    generalize x' s = r' at this
    cases this with
    | taken => exact .taken ..
    | torn => exact .torn _
    | paused s' _ h => exact .paused _ _ h
    | ok v m s' h h' => exact .ok _ _ s' h h'
    | throw v m s' h h' => exact .ok _ _ s' h h'

/-! #### the primitives -/

/-- one access -/
theorem access {x : M α β} {act : Th α → TRes α β}
    (h : ∀ m, Bad (x m) ∨ ∀ s : Th α, (∀ l, s.lent l = true → s.env s.step l = s.mem.cell l) → s.found.Part L m → Goes L 1 s (x m) (act s)) :
    Thr L x (T.access act) := by
  refine ⟨fun m => (h m).imp_right fun h => ⟨1, fun s hp => ?_⟩⟩
  unfold T.access
  split
  · exact .paused _ _ (by omega)
  · split
    · rename_i ha; exact h s (fun l hl => ha l (.inr hl)) (hp.find ha)
    · exact .torn _

theorem Leads1 {s : Th α} (hs : ∀ l, s.lent l = true → s.env s.step l = s.mem.cell l) {m : Mem α} {own : Loc → Bool}
    (h : ∀ l, s.lent l = true → m.cell l = s.env s.step l) :
    s.Leads 1 { s with mem := m, own := own, step := s.step + 1 } :=
  ⟨rfl, rfl, rfl, Nat.le_refl _, fun l hl => (h l hl).trans (hs l hl)⟩

theorem reads {l : Loc} {x : M α β} (hx : ∀ m, (∃ v, x m = .ok v m) ∨ ∃ u, x m = .ub u)
    (hl : ∀ m m' : Mem α, m.cell l = m'.cell l → ∀ v, x m = .ok v m → x m' = .ok v m')
    (hn : ∀ m : Mem α, m.cell l = none → ∃ u, x m = .ub u) : Thr L x (T.reads l x) := by
  refine access fun m => ?_
  rcases hx m with ⟨v, e⟩ | ⟨u, e⟩
  · refine .inr fun s hs h => ?_
    have hsome : s.found.own l = true := by
      by_cases h1 : s.found.own l = true
      · exact h1
      · exfalso
        obtain ⟨u, e'⟩ := hn m (h.rest l (by simpa using h1))
        rw [e] at e'; cases e'
    have ho : (s.own l || s.lent l) = true := by
      rw [Bool.or_eq_true]; exact .inl hsome
    unfold T.perform
    have := hl m _ (h.mine l hsome).symm v e
    simp only [Th.found] at this
    rw [if_pos ho, e, this]
    exact .ok _ _ _ ⟨h.mine, h.rest, h.log, h.ticks, h.sep, h.lends, h.whole⟩ (Leads1 hs fun _ _ => rfl)
  · exact .inl (.inr ⟨u, e⟩)

theorem writes {l : Loc} {x : M α β}
    (hx : ∀ m m' : Mem α, m.cell l = m'.cell l → (∃ v c, x m = .ok v (m.set l c) ∧ x m' = .ok v (m'.set l c)) ∨ ∃ u, x m = .ub u)
    (hn : ∀ m : Mem α, m.cell l = none → ∃ u, x m = .ub u) : Thr L x (T.writes l x) := by
  refine access fun m => ?_
  rcases hx m m rfl with ⟨v0, c0, e0, -⟩ | ⟨u, e⟩
  · refine .inr fun s hs h => ?_
    by_cases ho : s.own l = true
    · have hs' : s.lent l = false := h.sep l ho
      rw [if_pos (by rw [ho, hs']; rfl)]
      rcases hx m _ (h.mine l ho).symm with ⟨v, c, e, e'⟩ | ⟨u, e⟩
      · unfold T.perform
        simp only [Th.found] at e'
        rw [e, e']
        exact .ok _ _ _ (h.set (c := c) ho) (Leads1 hs (upd_lent hs'))
      · rw [e] at e0; cases e0
    · exfalso
      obtain ⟨u, e'⟩ := hn m (h.rest l (by show s.own l = false; simpa using ho))
      rw [e0] at e'; cases e'
  · exact .inl (.inr ⟨u, e⟩)

theorem releases {l : Loc} {x : M α β}
    (hx : ∀ m m' : Mem α, m.cell l = m'.cell l → (∃ v, x m = .ok v (m.erase l) ∧ x m' = .ok v (m'.erase l)) ∨ ∃ u, x m = .ub u)
    (hn : ∀ m : Mem α, m.cell l = none → ∃ u, x m = .ub u) : Thr L x (T.releases l x) := by
  refine access fun m => ?_
  rcases hx m m rfl with ⟨v0, e0, -⟩ | ⟨u, e⟩
  · refine .inr fun s hs h => ?_
    by_cases ho : s.own l = true
    · have hs' : s.lent l = false := h.sep l ho
      rw [if_pos (by rw [ho, hs']; rfl)]
      rcases hx m _ (h.mine l ho).symm with ⟨v, e, e'⟩ | ⟨u, e⟩
      · unfold T.perform
        simp only [Th.found] at e'
        rw [e, e']
        exact .ok _ _ _ (h.drop ho) (Leads1 hs (upd_lent hs'))
      · rw [e] at e0; cases e0
    · exfalso
      obtain ⟨u, e'⟩ := hn m (h.rest l (by show s.own l = false; simpa using ho))
      rw [e0] at e'; cases e'
  · exact .inl (.inr ⟨u, e⟩)

theorem alloc {c : Nat → Cell α} {x : M α Nat} (hx : ∀ m, x m = SegTree.allocCell E (c m.log.reqs) m) :
    Thr L x (T.acquires (fun g => .heap (E.oracle g.reqs)) x) := by
  have hfail : ∀ m : Mem α, (E.oracle m.log.reqs = 0 ∨ (m.cell (.heap (E.oracle m.log.reqs))).isSome) →
      x m = .throw .alloc { m with log := ⟨m.log.reqs + 1, m.log.fails + 1⟩ } := fun m h => by
    rw [hx]; unfold SegTree.allocCell; exact if_pos h
  have hgood : ∀ m : Mem α, ¬ (E.oracle m.log.reqs = 0 ∨ (m.cell (.heap (E.oracle m.log.reqs))).isSome) →
      x m = .ok (E.oracle m.log.reqs) ({ m with log := { m.log with reqs := m.log.reqs + 1 } }.set
        (.heap (E.oracle m.log.reqs)) (c m.log.reqs)) := fun m h => by
    rw [hx]; unfold SegTree.allocCell; exact if_neg h
  refine access fun m => .inr fun s hs hi => ?_
  unfold T.perform
  dsimp only
  have hlog : s.mem.log = m.log := hi.log
  have htrow : ({ s with mem := { s.mem with cell := s.env s.step, log := ⟨m.log.reqs + 1, m.log.fails + 1⟩ }, step := s.step + 1 } : Th α).Part L
      { m with log := ⟨m.log.reqs + 1, m.log.fails + 1⟩ } := ⟨hi.mine, hi.rest, rfl, hi.ticks, hi.sep, hi.lends, hi.whole⟩
  have hret : ({ s with mem := { s.mem with cell := s.env s.step, log := { m.log with reqs := m.log.reqs + 1 } } } : Th α).Part L
      { m with log := { m.log with reqs := m.log.reqs + 1 } } := ⟨hi.mine, hi.rest, rfl, hi.ticks, hi.sep, hi.lends, hi.whole⟩
  have f' := hfail { s.mem with cell := s.env s.step }
  have g' := hgood { s.mem with cell := s.env s.step }
  dsimp only at f' g'
  rw [hlog] at f' g'
  rw [hlog]
  by_cases h0 : E.oracle m.log.reqs = 0
  · rw [if_pos (.inl (by rw [h0])), hfail m (.inl h0), f' (.inl h0)]
    exact .throw _ _ _ htrow (Leads1 hs fun _ _ => rfl)
  · have h0' : ¬ (Loc.heap (E.oracle m.log.reqs) = Loc.heap 0) := fun e => h0 (Loc.heap.inj e)
    by_cases ho : s.own (.heap (E.oracle m.log.reqs)) = true
    · rw [if_pos (.inr ho)]
      have hmine : s.env s.step _ = _ := hi.mine _ ho
      rw [hmine] at f' g'
      by_cases hc : E.oracle m.log.reqs = 0 ∨ (m.cell (.heap (E.oracle m.log.reqs))).isSome
      · rw [hfail m hc, f' hc]; exact .throw _ _ _ htrow (Leads1 hs fun _ _ => rfl)
      · rw [hgood m hc, g' hc]; exact .ok _ _ _ (hret.set ho) (Leads1 hs (upd_lent (hi.sep _ ho)))
    · rw [if_neg (fun e => e.elim h0' ho)]
      split
      · exact .taken ..
      · rename_i hnone
        simp only [Bool.or_eq_true, not_or, Bool.not_eq_true] at ho hnone
        rw [g' (fun e => e.elim h0 (by rw [hnone.1]; exact Bool.noConfusion)), hgood m (fun e => e.elim h0 fun e => by
          rw [hi.rest _ ho] at e; cases e)]
        exact .ok _ _ _ (hret.take hnone.2) (Leads1 hs (upd_lent hnone.2))

instance rdNode (p : Nat) : Thr L (SegTree.rdNode p : M α Node) (Thread.rdNode p) :=
  reads (fun m => by unfold SegTree.rdNode; split <;> simp)
    (fun m m' hc v => by unfold SegTree.rdNode; rw [hc]; split <;> simp)
    (fun m hc => by unfold SegTree.rdNode; rw [hc]; exact ⟨_, rfl⟩)
instance rdSlots (p : Nat) : Thr L (SegTree.rdSlots p : M α (Nat → Slot α)) (Thread.rdSlots p) :=
  reads (fun m => by unfold SegTree.rdSlots; split <;> simp)
    (fun m m' hc v => by unfold SegTree.rdSlots; rw [hc]; split <;> simp)
    (fun m hc => by unfold SegTree.rdSlots; rw [hc]; exact ⟨_, rfl⟩)
instance rdObj (o : Nat) : Thr L (SegTree.rdObj o : M α SeqObj) (Thread.rdObj o) :=
  reads (fun m => by unfold SegTree.rdObj; split <;> simp)
    (fun m m' hc v => by unfold SegTree.rdObj; rw [hc]; split <;> simp)
    (fun m hc => by unfold SegTree.rdObj; rw [hc]; exact ⟨_, rfl⟩)
instance wrNode (p : Nat) (n : Node) : Thr L (SegTree.wrNode p n : M α Unit) (Thread.wrNode p n) :=
  writes (fun m m' hc => by unfold SegTree.wrNode; rw [hc]; split <;> first | exact .inl ⟨_, _, rfl, rfl⟩ | exact .inr ⟨_, rfl⟩)
    (fun m hc => by unfold SegTree.wrNode; rw [hc]; exact ⟨_, rfl⟩)
instance wrSlots (p : Nat) (f : Nat → Slot α) : Thr L (SegTree.wrSlots p f : M α Unit) (Thread.wrSlots p f) :=
  writes (fun m m' hc => by unfold SegTree.wrSlots; rw [hc]; split <;> first | exact .inl ⟨_, _, rfl, rfl⟩ | exact .inr ⟨_, rfl⟩)
    (fun m hc => by unfold SegTree.wrSlots; rw [hc]; exact ⟨_, rfl⟩)
instance wrObj (o : Nat) (x : SeqObj) : Thr L (SegTree.wrObj o x : M α Unit) (Thread.wrObj o x) :=
  writes (fun m m' hc => by unfold SegTree.wrObj; rw [hc]; split <;> first | exact .inl ⟨_, _, rfl, rfl⟩ | exact .inr ⟨_, rfl⟩)
    (fun m hc => by unfold SegTree.wrObj; rw [hc]; exact ⟨_, rfl⟩)
instance freeSeg (a p : Nat) : Thr L (SegTree.freeSeg E a p : M α Unit) (Thread.freeSeg E a p) :=
  releases (fun m m' hc => by
      unfold SegTree.freeSeg; rw [hc]
      split
      · split
        · exact .inr ⟨_, rfl⟩
        · split
          · exact .inl ⟨_, rfl, rfl⟩
          · exact .inr ⟨_, rfl⟩
      · exact .inr ⟨_, rfl⟩)
    (fun m hc => by unfold SegTree.freeSeg; rw [hc]; exact ⟨_, rfl⟩)
instance freeNode (a p : Nat) : Thr L (SegTree.freeNode a p : M α Unit) (Thread.freeNode a p) :=
  releases (fun m m' hc => by
      unfold SegTree.freeNode; rw [hc]
      split
      · split
        · exact .inr ⟨_, rfl⟩
        · exact .inl ⟨_, rfl, rfl⟩
      · exact .inr ⟨_, rfl⟩)
    (fun m hc => by unfold SegTree.freeNode; rw [hc]; exact ⟨_, rfl⟩)
instance dropObj (o : Nat) : Thr L (SegTree.dropObj o : M α Unit) (Thread.dropObj o) :=
  releases (fun m m' hc => by unfold SegTree.dropObj; rw [hc]; split <;> first | exact .inl ⟨_, rfl, rfl⟩ | exact .inr ⟨_, rfl⟩)
    (fun m hc => by unfold SegTree.dropObj; rw [hc]; exact ⟨_, rfl⟩)
instance allocCell (c : Cell α) : Thr L (SegTree.allocCell E c) (Thread.allocCell E c) :=
  alloc (c := fun _ => c) fun _ => rfl
instance allocNodeCell (w : Nat) : Thr L (SegTree.allocNodeCell E w) (Thread.allocNodeCell E w) :=
  alloc (c := fun n => .node w (E.junk n)) fun _ => rfl
instance ctor (o al : Nat) : Thr L (SegTree.ctor o al : M α Unit) (Thread.ctor o al) := by
  refine access fun m => ?_
  unfold T.perform SegTree.ctor
  dsimp only
  cases hm : m.cell (.obj o) with
  | some c => exact .inl (.inr ⟨_, rfl⟩)
  | none =>
    refine .inr fun s hs hi => ?_
    by_cases ho : s.own (.obj o) = true
    · have hmine : s.env s.step _ = _ := hi.mine _ ho
      rw [if_pos (.inr ho), hmine, hm]
      exact .ok _ _ _ (hi.set ho) (Leads1 hs (upd_lent (hi.sep _ ho)))
    · rw [if_neg (fun e => e.elim (fun e => Loc.noConfusion e) ho)]
      by_cases hnone : ((s.env s.step (.obj o)).isSome || s.lent (.obj o)) = true
      · rw [if_pos hnone]; exact .taken ..
      · rw [if_neg hnone]
        simp only [Bool.or_eq_true, not_or, Bool.not_eq_true] at hnone
        have : s.env s.step (.obj o) = none := by simpa using hnone.1
        rw [this]
        exact .ok _ _ _ (hi.take hnone.2) (Leads1 hs (upd_lent hnone.2))
instance copyVal (v : α) : Thr L (SegTree.copyVal E v) (Thread.copyVal E v) := by
  refine access fun m => .inr fun s hs hi => ?_
  have ht : s.mem.ticks = m.ticks := hi.ticks
  unfold T.perform SegTree.copyVal
  dsimp only
  rw [ht]
  have hi' : ({ s with mem := ({ s.mem with cell := s.env s.step, ticks := m.ticks } : Mem α).tick, step := s.step + 1 } : Th α).Part L m.tick :=
    ⟨hi.mine, hi.rest, hi.log, rfl, hi.sep, hi.lends, hi.whole⟩
  split
  · exact .ok _ _ _ ⟨hi.mine, hi.rest, hi.log, rfl, hi.sep, hi.lends, hi.whole⟩ (Leads1 hs fun _ _ => rfl)
  · split
    · exact .throw _ _ _ (ht ▸ hi') (Leads1 hs fun _ _ => rfl)
    · exact .ok _ _ _ (ht ▸ hi') (Leads1 hs fun _ _ => rfl)
instance usub (a b : Nat) : Thr L (SegTree.usub a b : M α Nat) (Thread.usub a b) := by
  unfold SegTree.usub Thread.usub; infer_instance

theorem admissible (y : T α β) : Lean.Order.admissible (fun x : M α β => Thr L x y) := by
  have : (fun x : M α β => Thr L x y) = fun x => ∀ m, (Bad (x m) ∨ ∃ N, ∀ s : Th α, s.Part L m → Goes L N s (x m) (y s)) := by
    funext x; exact propext ⟨fun h m => h.run m, fun h => ⟨fun m => h m⟩⟩
  rw [this]
  apply admissible_pi
  intro m
  exact admissible_apply (fun m r => (Bad r ∨ ∃ N, ∀ s : Th α, s.Part L m → Goes L N s r (y s))) m
    (admissible_flatOrder _ (.inl (.inl rfl)))

section
variable {ι1 ι2 ι3 ι4 ι5 ι6 ι7 : Type}
theorem adm1 (g : ι1 → T α β) : Lean.Order.admissible (fun f : ι1 → M α β => ∀ a, Thr L (f a) (g a)) :=
  admissible_pi _ fun a => admissible_apply (fun a y => Thr L y (g a)) a (admissible _)
theorem adm2 (g : ι1 → ι2 → T α β) :
    Lean.Order.admissible (fun f : ι1 → ι2 → M α β => ∀ a1 a2, Thr L (f a1 a2) (g a1 a2)) :=
  admissible_pi _ fun a => admissible_apply (fun (a : ι1) (f : ι2 → M α β) => ∀ a2, Thr L (f a2) (g a a2)) a (adm1 _)
theorem adm3 (g : ι1 → ι2 → ι3 → T α β) :
    Lean.Order.admissible (fun f : ι1 → ι2 → ι3 → M α β => ∀ a1 a2 a3, Thr L (f a1 a2 a3) (g a1 a2 a3)) :=
  admissible_pi _ fun a => admissible_apply
    (fun (a : ι1) (f : ι2 → ι3 → M α β) => ∀ a2 a3, Thr L (f a2 a3) (g a a2 a3)) a (adm2 _)
theorem adm4 (g : ι1 → ι2 → ι3 → ι4 → T α β) :
    Lean.Order.admissible (fun f : ι1 → ι2 → ι3 → ι4 → M α β => ∀ a1 a2 a3 a4, Thr L (f a1 a2 a3 a4) (g a1 a2 a3 a4)) :=
  admissible_pi _ fun a => admissible_apply
    (fun (a : ι1) (f : ι2 → ι3 → ι4 → M α β) => ∀ a2 a3 a4, Thr L (f a2 a3 a4) (g a a2 a3 a4)) a (adm3 _)
theorem adm5 (g : ι1 → ι2 → ι3 → ι4 → ι5 → T α β) :
    Lean.Order.admissible (fun f : ι1 → ι2 → ι3 → ι4 → ι5 → M α β =>
      ∀ a1 a2 a3 a4 a5, Thr L (f a1 a2 a3 a4 a5) (g a1 a2 a3 a4 a5)) :=
  admissible_pi _ fun a => admissible_apply
    (fun (a : ι1) (f : ι2 → ι3 → ι4 → ι5 → M α β) => ∀ a2 a3 a4 a5, Thr L (f a2 a3 a4 a5) (g a a2 a3 a4 a5)) a (adm4 _)
theorem adm6 (g : ι1 → ι2 → ι3 → ι4 → ι5 → ι6 → T α β) :
    Lean.Order.admissible (fun f : ι1 → ι2 → ι3 → ι4 → ι5 → ι6 → M α β =>
      ∀ a1 a2 a3 a4 a5 a6, Thr L (f a1 a2 a3 a4 a5 a6) (g a1 a2 a3 a4 a5 a6)) :=
  admissible_pi _ fun a => admissible_apply
    (fun (a : ι1) (f : ι2 → ι3 → ι4 → ι5 → ι6 → M α β) =>
      ∀ a2 a3 a4 a5 a6, Thr L (f a2 a3 a4 a5 a6) (g a a2 a3 a4 a5 a6)) a (adm5 _)
end

set_option synthInstance.maxSize 2000
set_option synthInstance.maxHeartbeats 400000

/-- walk through both programs in parallel -/
macro "thr" : tactic => `(tactic| repeat' first
  | infer_instance
  | (intro (_ : Nat))
  | dsimp (failIfUnchanged := true) only
  | (refine Thr.bind (h := ?_) (hf := ?_))
  | (refine Thr.onThrow (hx := ?_) (hh := ?_))
  | (split <;> simp (failIfUnchanged := true) only [*, ↓reduceIte])
  | split
  | intro _)

instance len (p : Nat) : Thr L (SegTree.len p : M α Nat) (Thread.len p) := by
  unfold SegTree.len Thread.len; thr
instance setLen (p : Nat) (v : Nat) : Thr L (SegTree.setLen p v : M α Unit) (Thread.setLen p v) := by
  unfold SegTree.setLen Thread.setLen; thr
instance parent (p : Nat) : Thr L (SegTree.parent p : M α Nat) (Thread.parent p) := by
  unfold SegTree.parent Thread.parent; thr
instance setParent (p : Nat) (v : Nat) : Thr L (SegTree.setParent p v : M α Unit) (Thread.setParent p v) := by
  unfold SegTree.setParent Thread.setParent; thr
instance pidx (p : Nat) : Thr L (SegTree.pidx p : M α Nat) (Thread.pidx p) := by
  unfold SegTree.pidx Thread.pidx; thr
instance setPidx (p : Nat) (v : Nat) : Thr L (SegTree.setPidx p v : M α Unit) (Thread.setPidx p v) := by
  unfold SegTree.setPidx Thread.setPidx; thr
instance sizesAt (p : Nat) (i : Nat) : Thr L (SegTree.sizesAt E p i : M α Nat) (Thread.sizesAt E p i) := by
  unfold SegTree.sizesAt Thread.sizesAt; thr
instance setSizes (p : Nat) (i : Nat) (v : Nat) : Thr L (SegTree.setSizes E p i v : M α Unit) (Thread.setSizes E p i v) := by
  unfold SegTree.setSizes Thread.setSizes; thr
instance ptrsAt (p : Nat) (i : Nat) : Thr L (SegTree.ptrsAt E p i : M α Nat) (Thread.ptrsAt E p i) := by
  unfold SegTree.ptrsAt Thread.ptrsAt; thr
instance setPtrs (p : Nat) (i : Nat) (v : Nat) : Thr L (SegTree.setPtrs E p i v : M α Unit) (Thread.setPtrs E p i v) := by
  unfold SegTree.setPtrs Thread.setPtrs; thr
instance rdElem (p : Nat) (i : Nat) : Thr L (SegTree.rdElem E p i : M α α) (Thread.rdElem E p i) := by
  unfold SegTree.rdElem Thread.rdElem; thr
instance wrElem (p : Nat) (i : Nat) (v : α) : Thr L (SegTree.wrElem E p i v : M α Unit) (Thread.wrElem E p i v) := by
  unfold SegTree.wrElem Thread.wrElem; thr
instance getRoot (o : Nat) : Thr L (SegTree.getRoot o : M α Nat) (Thread.getRoot o) := by
  unfold SegTree.getRoot Thread.getRoot; thr
instance getSize (o : Nat) : Thr L (SegTree.getSize o : M α Nat) (Thread.getSize o) := by
  unfold SegTree.getSize Thread.getSize; thr
instance getHeight (o : Nat) : Thr L (SegTree.getHeight o : M α Nat) (Thread.getHeight o) := by
  unfold SegTree.getHeight Thread.getHeight; thr
instance setRoot (o : Nat) (v : Nat) : Thr L (SegTree.setRoot o v : M α Unit) (Thread.setRoot o v) := by
  unfold SegTree.setRoot Thread.setRoot; thr
instance setSize (o : Nat) (v : Nat) : Thr L (SegTree.setSize o v : M α Unit) (Thread.setSize o v) := by
  unfold SegTree.setSize Thread.setSize; thr
instance setHeight (o : Nat) (v : Nat) : Thr L (SegTree.setHeight o v : M α Unit) (Thread.setHeight o v) := by
  unfold SegTree.setHeight Thread.setHeight; thr
instance find_index_loop (p : Nat) (index : Nat) (size : Nat) (pos : Nat) : Thr L (SegTree.find_index_loop E p index size pos : M α (Nat × Nat)) (Thread.find_index_loop E p index size pos) := by
  revert index size pos
  refine SegTree.find_index_loop.fixpoint_induct E p (fun f => ∀ (index : Nat) (size : Nat) (pos : Nat), Thr L (f index size pos) (Thread.find_index_loop E p index size pos)) (adm3 _) ?_
  intro f ih index size pos
  unfold Thread.find_index_loop; thr
instance find_index_leaf (p : Nat) (pos : Nat) : Thr L (SegTree.find_index_leaf E p pos : M α Entry) (Thread.find_index_leaf E p pos) := by
  unfold SegTree.find_index_leaf Thread.find_index_leaf; thr
instance find_index_branch (p : Nat) (ht : Nat) (pos : Nat) : Thr L (SegTree.find_index_branch E p ht pos : M α Entry) (Thread.find_index_branch E p ht pos) := by
  revert p ht pos
  refine SegTree.find_index_branch.fixpoint_induct E (fun f => ∀ (p : Nat) (ht : Nat) (pos : Nat), Thr L (f p ht pos) (Thread.find_index_branch E p ht pos)) (adm3 _) ?_
  intro f ih p ht pos
  unfold Thread.find_index_branch; thr
instance find_index_node (p : Nat) (ht : Nat) (pos : Nat) : Thr L (SegTree.find_index_node E p ht pos : M α Entry) (Thread.find_index_node E p ht pos) := by
  unfold SegTree.find_index_node Thread.find_index_node; thr
instance find_index_root (p : Nat) (sz : Nat) (ht : Nat) (pos : Nat) : Thr L (SegTree.find_index_root E p sz ht pos : M α Iter) (Thread.find_index_root E p sz ht pos) := by
  unfold SegTree.find_index_root Thread.find_index_root; thr
instance find_first_leaf (p : Nat) : Thr L (SegTree.find_first_leaf E p : M α Entry) (Thread.find_first_leaf E p) := by
  unfold SegTree.find_first_leaf Thread.find_first_leaf; thr
instance find_first_branch (p : Nat) (ht : Nat) : Thr L (SegTree.find_first_branch E p ht : M α Entry) (Thread.find_first_branch E p ht) := by
  revert p ht
  refine SegTree.find_first_branch.fixpoint_induct E (fun f => ∀ (p : Nat) (ht : Nat), Thr L (f p ht) (Thread.find_first_branch E p ht)) (adm2 _) ?_
  intro f ih p ht
  unfold Thread.find_first_branch; thr
instance find_first_node (p : Nat) (ht : Nat) : Thr L (SegTree.find_first_node E p ht : M α Entry) (Thread.find_first_node E p ht) := by
  unfold SegTree.find_first_node Thread.find_first_node; thr
instance find_first_root (p : Nat) (sz : Nat) (ht : Nat) : Thr L (SegTree.find_first_root E p sz ht : M α Iter) (Thread.find_first_root E p sz ht) := by
  unfold SegTree.find_first_root Thread.find_first_root; thr
instance find_last_segment (p : Nat) (sz : Nat) : Thr L (SegTree.find_last_segment p sz : M α SegE) (Thread.find_last_segment p sz) := by
  unfold SegTree.find_last_segment Thread.find_last_segment; thr
instance find_last_leaf (p : Nat) : Thr L (SegTree.find_last_leaf E p : M α Entry) (Thread.find_last_leaf E p) := by
  unfold SegTree.find_last_leaf Thread.find_last_leaf; thr
instance find_last_branch (p : Nat) (ht : Nat) : Thr L (SegTree.find_last_branch E p ht : M α Entry) (Thread.find_last_branch E p ht) := by
  revert p ht
  refine SegTree.find_last_branch.fixpoint_induct E (fun f => ∀ (p : Nat) (ht : Nat), Thr L (f p ht) (Thread.find_last_branch E p ht)) (adm2 _) ?_
  intro f ih p ht
  unfold Thread.find_last_branch; thr
instance find_last_node (p : Nat) (ht : Nat) : Thr L (SegTree.find_last_node E p ht : M α Entry) (Thread.find_last_node E p ht) := by
  unfold SegTree.find_last_node Thread.find_last_node; thr
instance find_last_root (p : Nat) (sz : Nat) (ht : Nat) : Thr L (SegTree.find_last_root E p sz ht : M α Iter) (Thread.find_last_root E p sz ht) := by
  unfold SegTree.find_last_root Thread.find_last_root; thr
instance find_end_leaf (p : Nat) : Thr L (SegTree.find_end_leaf E p : M α Entry) (Thread.find_end_leaf E p) := by
  unfold SegTree.find_end_leaf Thread.find_end_leaf; thr
instance find_end_branch (p : Nat) (ht : Nat) : Thr L (SegTree.find_end_branch E p ht : M α Entry) (Thread.find_end_branch E p ht) := by
  revert p ht
  refine SegTree.find_end_branch.fixpoint_induct E (fun f => ∀ (p : Nat) (ht : Nat), Thr L (f p ht) (Thread.find_end_branch E p ht)) (adm2 _) ?_
  intro f ih p ht
  unfold Thread.find_end_branch; thr
instance find_end_node (p : Nat) (ht : Nat) : Thr L (SegTree.find_end_node E p ht : M α Entry) (Thread.find_end_node E p ht) := by
  unfold SegTree.find_end_node Thread.find_end_node; thr
instance find_end_root (p : Nat) (sz : Nat) (ht : Nat) : Thr L (SegTree.find_end_root E p sz ht : M α Iter) (Thread.find_end_root E p sz ht) := by
  unfold SegTree.find_end_root Thread.find_end_root; thr
instance move_next_branch (e : Entry) (p : Nat) (index : Nat) (child_ht : Nat) : Thr L (SegTree.move_next_branch E e p index child_ht : M α Entry) (Thread.move_next_branch E e p index child_ht) := by
  revert p index child_ht
  refine SegTree.move_next_branch.fixpoint_induct E e (fun f => ∀ (p : Nat) (index : Nat) (child_ht : Nat), Thr L (f p index child_ht) (Thread.move_next_branch E e p index child_ht)) (adm3 _) ?_
  intro f ih p index child_ht
  unfold Thread.move_next_branch; thr
instance move_next_leaf (e : Entry) : Thr L (SegTree.move_next_leaf E e : M α Entry) (Thread.move_next_leaf E e) := by
  unfold SegTree.move_next_leaf Thread.move_next_leaf; thr
instance move_next_segment (e : Entry) : Thr L (SegTree.move_next_segment E e : M α Entry) (Thread.move_next_segment E e) := by
  unfold SegTree.move_next_segment Thread.move_next_segment; thr
instance move_next_iterator (it : Iter) : Thr L (SegTree.move_next_iterator E it : M α Iter) (Thread.move_next_iterator E it) := by
  unfold SegTree.move_next_iterator Thread.move_next_iterator; thr
instance move_prev_branch (p : Nat) (index : Nat) (child_ht : Nat) : Thr L (SegTree.move_prev_branch E p index child_ht : M α Entry) (Thread.move_prev_branch E p index child_ht) := by
  revert p index child_ht
  refine SegTree.move_prev_branch.fixpoint_induct E (fun f => ∀ (p : Nat) (index : Nat) (child_ht : Nat), Thr L (f p index child_ht) (Thread.move_prev_branch E p index child_ht)) (adm3 _) ?_
  intro f ih p index child_ht
  unfold Thread.move_prev_branch; thr
instance move_prev_leaf (e : Entry) : Thr L (SegTree.move_prev_leaf E e : M α Entry) (Thread.move_prev_leaf E e) := by
  unfold SegTree.move_prev_leaf Thread.move_prev_leaf; thr
instance move_prev_segment (e : Entry) : Thr L (SegTree.move_prev_segment E e : M α Entry) (Thread.move_prev_segment E e) := by
  unfold SegTree.move_prev_segment Thread.move_prev_segment; thr
instance move_prev_iterator (it : Iter) : Thr L (SegTree.move_prev_iterator E it : M α Iter) (Thread.move_prev_iterator E it) := by
  unfold SegTree.move_prev_iterator Thread.move_prev_iterator; thr
instance scan_next (p : Nat) (index : Nat) (count : Nat) : Thr L (SegTree.scan_next E p index count : M α ((Nat × Nat × Nat) ⊕ Nat)) (Thread.scan_next E p index count) := by
  revert index count
  refine SegTree.scan_next.fixpoint_induct E p (fun f => ∀ (index : Nat) (count : Nat), Thr L (f index count) (Thread.scan_next E p index count)) (adm2 _) ?_
  intro f ih index count
  unfold Thread.scan_next; thr
instance move_next_branch_count (base : Nat) (p : Nat) (index : Nat) (count : Nat) (child_ht : Nat) : Thr L (SegTree.move_next_branch_count E base p index count child_ht : M α Entry) (Thread.move_next_branch_count E base p index count child_ht) := by
  revert base p index count child_ht
  refine SegTree.move_next_branch_count.fixpoint_induct E (fun f => ∀ (base : Nat) (p : Nat) (index : Nat) (count : Nat) (child_ht : Nat), Thr L (f base p index count child_ht) (Thread.move_next_branch_count E base p index count child_ht)) (adm5 _) ?_
  intro f ih base p index count child_ht
  unfold Thread.move_next_branch_count; thr
instance move_next_leaf_count (e : Entry) (count : Nat) : Thr L (SegTree.move_next_leaf_count E e count : M α Entry) (Thread.move_next_leaf_count E e count) := by
  unfold SegTree.move_next_leaf_count Thread.move_next_leaf_count; thr
instance move_next_segment_count (e : Entry) (count : Nat) : Thr L (SegTree.move_next_segment_count E e count : M α Entry) (Thread.move_next_segment_count E e count) := by
  unfold SegTree.move_next_segment_count Thread.move_next_segment_count; thr
instance move_next_iterator_count (it : Iter) (count : Nat) : Thr L (SegTree.move_next_iterator_count E it count : M α Iter) (Thread.move_next_iterator_count E it count) := by
  unfold SegTree.move_next_iterator_count Thread.move_next_iterator_count; thr
instance scan_prev (p : Nat) (index : Nat) (count : Nat) : Thr L (SegTree.scan_prev E p index count : M α ((Nat × Nat × Nat) ⊕ Nat)) (Thread.scan_prev E p index count) := by
  revert index count
  refine SegTree.scan_prev.fixpoint_induct E p (fun f => ∀ (index : Nat) (count : Nat), Thr L (f index count) (Thread.scan_prev E p index count)) (adm2 _) ?_
  intro f ih index count
  unfold Thread.scan_prev; thr
instance move_prev_branch_count (p : Nat) (index : Nat) (count : Nat) (child_ht : Nat) : Thr L (SegTree.move_prev_branch_count E p index count child_ht : M α Entry) (Thread.move_prev_branch_count E p index count child_ht) := by
  revert p index count child_ht
  refine SegTree.move_prev_branch_count.fixpoint_induct E (fun f => ∀ (p : Nat) (index : Nat) (count : Nat) (child_ht : Nat), Thr L (f p index count child_ht) (Thread.move_prev_branch_count E p index count child_ht)) (adm4 _) ?_
  intro f ih p index count child_ht
  unfold Thread.move_prev_branch_count; thr
instance move_prev_leaf_count (e : Entry) (count : Nat) : Thr L (SegTree.move_prev_leaf_count E e count : M α Entry) (Thread.move_prev_leaf_count E e count) := by
  unfold SegTree.move_prev_leaf_count Thread.move_prev_leaf_count; thr
instance move_prev_segment_count (e : Entry) (count : Nat) : Thr L (SegTree.move_prev_segment_count E e count : M α Entry) (Thread.move_prev_segment_count E e count) := by
  unfold SegTree.move_prev_segment_count Thread.move_prev_segment_count; thr
instance move_prev_iterator_count (it : Iter) (count : Nat) : Thr L (SegTree.move_prev_iterator_count E it count : M α Iter) (Thread.move_prev_iterator_count E it count) := by
  unfold SegTree.move_prev_iterator_count Thread.move_prev_iterator_count; thr
instance move_iterator_count (it : Iter) (diff : Int) : Thr L (SegTree.move_iterator_count E it diff : M α Iter) (Thread.move_iterator_count E it diff) := by
  unfold SegTree.move_iterator_count Thread.move_iterator_count; thr
instance dereference (it : Iter) : Thr L (SegTree.dereference E it : M α α) (Thread.dereference E it) := by
  unfold SegTree.dereference Thread.dereference; thr
instance dereference_count (it : Iter) (diff : Int) : Thr L (SegTree.dereference_count E it diff : M α α) (Thread.dereference_count E it diff) := by
  unfold SegTree.dereference_count Thread.dereference_count; thr
instance move_after_segment (it : Iter) : Thr L (SegTree.move_after_segment E it : M α Iter) (Thread.move_after_segment E it) := by
  unfold SegTree.move_after_segment Thread.move_after_segment; thr
instance move_after_segment_count (it : Iter) (count : Nat) : Thr L (SegTree.move_after_segment_count E it count : M α Iter) (Thread.move_after_segment_count E it count) := by
  unfold SegTree.move_after_segment_count Thread.move_after_segment_count; thr
instance move_before_segment (it : Iter) : Thr L (SegTree.move_before_segment E it : M α Iter) (Thread.move_before_segment E it) := by
  unfold SegTree.move_before_segment Thread.move_before_segment; thr
instance move_before_segment_count (it : Iter) (count : Nat) : Thr L (SegTree.move_before_segment_count E it count : M α Iter) (Thread.move_before_segment_count E it count) := by
  unfold SegTree.move_before_segment_count Thread.move_before_segment_count; thr
instance allocate_segment (o : Nat) : Thr L (SegTree.allocate_segment E o : M α Nat) (Thread.allocate_segment E o) := by
  unfold SegTree.allocate_segment Thread.allocate_segment; thr
instance allocate_node (o : Nat) : Thr L (SegTree.allocate_node E o : M α Nat) (Thread.allocate_node E o) := by
  unfold SegTree.allocate_node Thread.allocate_node; thr
instance destroy_segment (p : Nat) (i : Nat) : Thr L (SegTree.destroy_segment E p i : M α Unit) (Thread.destroy_segment E p i) := by
  unfold SegTree.destroy_segment Thread.destroy_segment; thr
instance destroy_node (p : Nat) (i : Nat) : Thr L (SegTree.destroy_node E p i : M α Unit) (Thread.destroy_node E p i) := by
  unfold SegTree.destroy_node Thread.destroy_node; thr
instance deallocate_segment (o : Nat) (p : Nat) : Thr L (SegTree.deallocate_segment E o p : M α Unit) (Thread.deallocate_segment E o p) := by
  unfold SegTree.deallocate_segment Thread.deallocate_segment; thr
instance deallocate_node (o : Nat) (p : Nat) : Thr L (SegTree.deallocate_node E o p : M α Unit) (Thread.deallocate_node E o p) := by
  unfold SegTree.deallocate_node Thread.deallocate_node; thr
instance forN (f : Nat → M α Unit) (g : Nat → T α Unit) (n i : Nat) [hf : ∀ i, Thr L (f i) (g i)] :
    Thr L (SegTree.forN f n i) (Thread.forN g n i) := by
  induction n generalizing i with
  | zero => exact pure _
  | succ n ih => exact bind (hf := fun _ => ih _)
instance purge_segment (o : Nat) (p : Nat) (sz : Nat) : Thr L (SegTree.purge_segment E o p sz : M α Unit) (Thread.purge_segment E o p sz) := by
  unfold SegTree.purge_segment Thread.purge_segment; thr
instance purge_node (o : Nat) : ∀ (ht p : Nat), Thr L (SegTree.purge_node E o ht p) (Thread.purge_node E o ht p)
  | 0, _ => ub _
  | 1, _ => ub _
  | 2, p => by unfold SegTree.purge_node Thread.purge_node; thr
  | ht + 3, p => by
    have ih := purge_node o (ht + 2)
    unfold SegTree.purge_node Thread.purge_node; thr
instance purge_root (o : Nat) (p : Nat) (sz : Nat) (ht : Nat) : Thr L (SegTree.purge_root E o p sz ht : M α Unit) (Thread.purge_root E o p sz ht) := by
  unfold SegTree.purge_root Thread.purge_root; thr
instance purge (o : Nat) : Thr L (SegTree.purge E o : M α Unit) (Thread.purge E o) := by
  unfold SegTree.purge Thread.purge; thr
instance construct_segment (p : Nat) (i : Nat) (v : α) : Thr L (SegTree.construct_segment E p i v : M α Unit) (Thread.construct_segment E p i v) := by
  unfold SegTree.construct_segment Thread.construct_segment; thr
instance construct_leaf (p : Nat) (i : Nat) (csz : Nat) (child : Nat) : Thr L (SegTree.construct_leaf E p i csz child : M α Nat) (Thread.construct_leaf E p i csz child) := by
  unfold SegTree.construct_leaf Thread.construct_leaf; thr
instance construct_branch (p : Nat) (i : Nat) (csz : Nat) (child : Nat) : Thr L (SegTree.construct_branch E p i csz child : M α Nat) (Thread.construct_branch E p i csz child) := by
  unfold SegTree.construct_branch Thread.construct_branch; thr
instance assign_segment (p : Nat) (i : Nat) (v : α) : Thr L (SegTree.assign_segment E p i v : M α Unit) (Thread.assign_segment E p i v) := by
  unfold SegTree.assign_segment Thread.assign_segment; thr
instance assign_leaf (p : Nat) (i : Nat) (csz : Nat) (child : Nat) : Thr L (SegTree.assign_leaf E p i csz child : M α Nat) (Thread.assign_leaf E p i csz child) := by
  unfold SegTree.assign_leaf Thread.assign_leaf; thr
instance assign_branch (p : Nat) (i : Nat) (csz : Nat) (child : Nat) : Thr L (SegTree.assign_branch E p i csz child : M α Nat) (Thread.assign_branch E p i csz child) := by
  unfold SegTree.assign_branch Thread.assign_branch; thr
instance move_assign_segment (src : Nat) (si : Nat) (dst : Nat) (di : Nat) : Thr L (SegTree.move_assign_segment E src si dst di : M α Unit) (Thread.move_assign_segment E src si dst di) := by
  unfold SegTree.move_assign_segment Thread.move_assign_segment; thr
instance move_assign_leaf (src : Nat) (si : Nat) (dst : Nat) (di : Nat) : Thr L (SegTree.move_assign_leaf E src si dst di : M α Nat) (Thread.move_assign_leaf E src si dst di) := by
  unfold SegTree.move_assign_leaf Thread.move_assign_leaf; thr
instance move_assign_branch (src : Nat) (si : Nat) (dst : Nat) (di : Nat) : Thr L (SegTree.move_assign_branch E src si dst di : M α Nat) (Thread.move_assign_branch E src si dst di) := by
  unfold SegTree.move_assign_branch Thread.move_assign_branch; thr
instance move_segment (src : Nat) (si : Nat) (dst : Nat) (di : Nat) : Thr L (SegTree.move_segment E src si dst di : M α Unit) (Thread.move_segment E src si dst di) := by
  unfold SegTree.move_segment Thread.move_segment; thr
instance move_leaf (src : Nat) (si : Nat) (dst : Nat) (di : Nat) : Thr L (SegTree.move_leaf E src si dst di : M α Nat) (Thread.move_leaf E src si dst di) := by
  unfold SegTree.move_leaf Thread.move_leaf; thr
instance move_branch (src : Nat) (si : Nat) (dst : Nat) (di : Nat) : Thr L (SegTree.move_branch E src si dst di : M α Nat) (Thread.move_branch E src si dst di) := by
  unfold SegTree.move_branch Thread.move_branch; thr
instance range_loop (step : Nat → Nat → M α Nat) (stepc : Nat → Nat → T α Nat) (src last dst acc : Nat)
    [hs : ∀ i j, Thr L (step i j) (stepc i j)] :
    Thr L (SegTree.range_loop step src last dst acc) (Thread.range_loop stepc src last dst acc) := by
  revert src dst acc
  refine SegTree.range_loop.fixpoint_induct step last (fun f => ∀ src dst acc, Thr L (f src dst acc)
    (Thread.range_loop stepc src last dst acc)) (adm3 _) ?_
  intro f ih src dst acc
  unfold Thread.range_loop; thr
instance forward_loop (step : Nat → Nat → M α Unit) (stepc : Nat → Nat → T α Unit) (first src dst : Nat)
    [hs : ∀ i j, Thr L (step i j) (stepc i j)] :
    Thr L (SegTree.forward_loop step first src dst) (Thread.forward_loop stepc first src dst) := by
  revert src dst
  refine SegTree.forward_loop.fixpoint_induct step first (fun f => ∀ src dst, Thr L (f src dst)
    (Thread.forward_loop stepc first src dst)) (adm2 _) ?_
  intro f ih src dst
  unfold Thread.forward_loop; thr
instance backward_loop (step : Nat → Nat → M α Unit) (stepc : Nat → Nat → T α Unit) (src dst last : Nat)
    [hs : ∀ i j, Thr L (step i j) (stepc i j)] :
    Thr L (SegTree.backward_loop step src dst last) (Thread.backward_loop stepc src dst last) := by
  revert src dst
  refine SegTree.backward_loop.fixpoint_induct step last (fun f => ∀ src dst, Thr L (f src dst)
    (Thread.backward_loop stepc src dst last)) (adm2 _) ?_
  intro f ih src dst
  unfold Thread.backward_loop; thr
instance memcpy_segment (src : Nat) (si : Nat) (dst : Nat) (di : Nat) (n : Nat) : Thr L (SegTree.memcpy_segment E src si dst di n : M α Unit) (Thread.memcpy_segment E src si dst di n) := by
  unfold SegTree.memcpy_segment Thread.memcpy_segment; thr
instance construct_range_segment (src : Nat) (si : Nat) (dst : Nat) (di : Nat) (count : Nat) : Thr L (SegTree.construct_range_segment E src si dst di count : M α Unit) (Thread.construct_range_segment E src si dst di count) := by
  unfold SegTree.construct_range_segment Thread.construct_range_segment; thr
instance construct_range_leaf (src : Nat) (si : Nat) (dst : Nat) (di : Nat) (count : Nat) : Thr L (SegTree.construct_range_leaf E src si dst di count : M α Nat) (Thread.construct_range_leaf E src si dst di count) := by
  unfold SegTree.construct_range_leaf Thread.construct_range_leaf; thr
instance construct_range_branch (src : Nat) (si : Nat) (dst : Nat) (di : Nat) (count : Nat) : Thr L (SegTree.construct_range_branch E src si dst di count : M α Nat) (Thread.construct_range_branch E src si dst di count) := by
  unfold SegTree.construct_range_branch Thread.construct_range_branch; thr
instance assign_forward_segment (p : Nat) (length : Nat) (index : Nat) (distance : Nat) : Thr L (SegTree.assign_forward_segment E p length index distance : M α Unit) (Thread.assign_forward_segment E p length index distance) := by
  unfold SegTree.assign_forward_segment Thread.assign_forward_segment; thr
instance assign_forward_leaf (p : Nat) (length : Nat) (index : Nat) (distance : Nat) : Thr L (SegTree.assign_forward_leaf E p length index distance : M α Unit) (Thread.assign_forward_leaf E p length index distance) := by
  unfold SegTree.assign_forward_leaf Thread.assign_forward_leaf; thr
instance assign_forward_branch (p : Nat) (length : Nat) (index : Nat) (distance : Nat) : Thr L (SegTree.assign_forward_branch E p length index distance : M α Unit) (Thread.assign_forward_branch E p length index distance) := by
  unfold SegTree.assign_forward_branch Thread.assign_forward_branch; thr
instance assign_backward_segment (p : Nat) (length : Nat) (index : Nat) (distance : Nat) : Thr L (SegTree.assign_backward_segment E p length index distance : M α Unit) (Thread.assign_backward_segment E p length index distance) := by
  unfold SegTree.assign_backward_segment Thread.assign_backward_segment; thr
instance assign_backward_leaf (p : Nat) (length : Nat) (index : Nat) (distance : Nat) : Thr L (SegTree.assign_backward_leaf E p length index distance : M α Unit) (Thread.assign_backward_leaf E p length index distance) := by
  unfold SegTree.assign_backward_leaf Thread.assign_backward_leaf; thr
instance assign_backward_branch (p : Nat) (length : Nat) (index : Nat) (distance : Nat) : Thr L (SegTree.assign_backward_branch E p length index distance : M α Unit) (Thread.assign_backward_branch E p length index distance) := by
  unfold SegTree.assign_backward_branch Thread.assign_backward_branch; thr
instance update_sizes (o : Nat) (p : Nat) (index : Nat) (sz : Nat) : Thr L (SegTree.update_sizes E o p index sz : M α Unit) (Thread.update_sizes E o p index sz) := by
  revert p index
  refine SegTree.update_sizes.fixpoint_induct E o sz (fun f => ∀ (p : Nat) (index : Nat), Thr L (f p index) (Thread.update_sizes E o p index sz)) (adm2 _) ?_
  intro f ih p index
  unfold Thread.update_sizes; thr
instance increment_sizes (o : Nat) (p : Nat) (index : Nat) : Thr L (SegTree.increment_sizes E o p index : M α Unit) (Thread.increment_sizes E o p index) := by
  unfold SegTree.increment_sizes Thread.increment_sizes; thr
instance decrement_sizes (o : Nat) (p : Nat) (index : Nat) : Thr L (SegTree.decrement_sizes E o p index : M α Unit) (Thread.decrement_sizes E o p index) := by
  unfold SegTree.decrement_sizes Thread.decrement_sizes; thr
instance free_chain (o : Nat) (alloc : Nat) : Thr L (SegTree.free_chain E o alloc : M α Unit) (Thread.free_chain E o alloc) := by
  revert alloc
  refine SegTree.free_chain.fixpoint_induct E o (fun f => ∀ (alloc : Nat), Thr L (f alloc) (Thread.free_chain E o alloc)) (adm1 _) ?_
  intro f ih alloc
  unfold Thread.free_chain; thr
instance alloc_catch (o : Nat) (segment_alloc : Nat) (alloc : Nat) : Thr L (SegTree.alloc_catch E o segment_alloc alloc : M α Unit) (Thread.alloc_catch E o segment_alloc alloc) := by
  unfold SegTree.alloc_catch Thread.alloc_catch; thr
instance alloc_nodes_loop (o : Nat) (p : Nat) (segment_alloc : Nat) (alloc : Nat) : Thr L (SegTree.alloc_nodes_loop E o p segment_alloc alloc : M α Nat) (Thread.alloc_nodes_loop E o p segment_alloc alloc) := by
  revert p alloc
  refine SegTree.alloc_nodes_loop.fixpoint_induct E o segment_alloc (fun f => ∀ (p : Nat) (alloc : Nat), Thr L (f p alloc) (Thread.alloc_nodes_loop E o p segment_alloc alloc)) (adm2 _) ?_
  intro f ih p alloc
  unfold Thread.alloc_nodes_loop; thr
instance alloc_nodes_single (o : Nat) (p : Nat) (segment_alloc : Nat) : Thr L (SegTree.alloc_nodes_single E o p segment_alloc : M α Nat) (Thread.alloc_nodes_single E o p segment_alloc) := by
  unfold SegTree.alloc_nodes_single Thread.alloc_nodes_single; thr
instance insert_single_branch (o : Nat) (base : Nat) (p : Nat) (index : Nat) (alloc : Nat) (child_pointer : Nat) (child_size : Nat) : Thr L (SegTree.insert_single_branch E o base p index alloc child_pointer child_size : M α Unit) (Thread.insert_single_branch E o base p index alloc child_pointer child_size) := by
  revert base p index alloc child_pointer child_size
  refine SegTree.insert_single_branch.fixpoint_induct E o (fun f => ∀ (base : Nat) (p : Nat) (index : Nat) (alloc : Nat) (child_pointer : Nat) (child_size : Nat), Thr L (f base p index alloc child_pointer child_size) (Thread.insert_single_branch E o base p index alloc child_pointer child_size)) (adm6 _) ?_
  intro f ih base p index alloc child_pointer child_size
  unfold Thread.insert_single_branch; thr
instance insert_single_leaf (o : Nat) (entry : Entry) (base : Nat) (p : Nat) (index : Nat) (alloc : Nat) (child_pointer : Nat) (child_size : Nat) : Thr L (SegTree.insert_single_leaf E o entry base p index alloc child_pointer child_size : M α Entry) (Thread.insert_single_leaf E o entry base p index alloc child_pointer child_size) := by
  unfold SegTree.insert_single_leaf Thread.insert_single_leaf; thr
instance insert_single_segment (o : Nat) (entry : Entry) (value : α) : Thr L (SegTree.insert_single_segment E o entry value : M α Entry) (Thread.insert_single_segment E o entry value) := by
  unfold SegTree.insert_single_segment Thread.insert_single_segment; thr
instance insert_single_iterator (o : Nat) (it : Iter) (value : α) : Thr L (SegTree.insert_single_iterator E o it value : M α Iter) (Thread.insert_single_iterator E o it value) := by
  unfold SegTree.insert_single_iterator Thread.insert_single_iterator; thr
instance erase_single_branch (o : Nat) (p : Nat) (index : Nat) : Thr L (SegTree.erase_single_branch E o p index : M α Unit) (Thread.erase_single_branch E o p index) := by
  revert p index
  refine SegTree.erase_single_branch.fixpoint_induct E o (fun f => ∀ (p : Nat) (index : Nat), Thr L (f p index) (Thread.erase_single_branch E o p index)) (adm2 _) ?_
  intro f ih p index
  unfold Thread.erase_single_branch; thr
instance erase_single_leaf (o : Nat) (entry : LeafE) (p : Nat) (index : Nat) : Thr L (SegTree.erase_single_leaf E o entry p index : M α LeafE) (Thread.erase_single_leaf E o entry p index) := by
  unfold SegTree.erase_single_leaf Thread.erase_single_leaf; thr
instance erase_single_segment (o : Nat) (entry : Entry) : Thr L (SegTree.erase_single_segment E o entry : M α Entry) (Thread.erase_single_segment E o entry) := by
  unfold SegTree.erase_single_segment Thread.erase_single_segment; thr
instance erase_single_iterator (o : Nat) (it : Iter) : Thr L (SegTree.erase_single_iterator E o it : M α Iter) (Thread.erase_single_iterator E o it) := by
  unfold SegTree.erase_single_iterator Thread.erase_single_iterator; thr
instance find_index (o : Nat) (pos : Nat) : Thr L (SegTree.find_index E o pos : M α Iter) (Thread.find_index E o pos) := by
  unfold SegTree.find_index Thread.find_index; thr
instance find_first (o : Nat) : Thr L (SegTree.find_first E o : M α Iter) (Thread.find_first E o) := by
  unfold SegTree.find_first Thread.find_first; thr
instance find_last (o : Nat) : Thr L (SegTree.find_last E o : M α Iter) (Thread.find_last E o) := by
  unfold SegTree.find_last Thread.find_last; thr
instance find_end (o : Nat) : Thr L (SegTree.find_end E o : M α Iter) (Thread.find_end E o) := by
  unfold SegTree.find_end Thread.find_end; thr
instance steal (o : Nat) (other : Nat) : Thr L (SegTree.steal o other : M α Unit) (Thread.steal o other) := by
  unfold SegTree.steal Thread.steal; thr
instance copyAssign (p : Nat) (i : Nat) (v : α) : Thr L (SegTree.copyAssign E p i v : M α Unit) (Thread.copyAssign E p i v) := by
  unfold SegTree.copyAssign Thread.copyAssign; thr
instance moveFrom (p : Nat) (i : Nat) : Thr L (SegTree.moveFrom E p i : M α α) (Thread.moveFrom E p i) := by
  unfold SegTree.moveFrom Thread.moveFrom; thr
instance emplace_single (o : Nat) (it : Iter) {mk : M α α} {mkc : T α α} [Thr L mk mkc] : Thr L (SegTree.emplace_single E o it mk : M α Iter) (Thread.emplace_single E o it mkc) := by
  unfold SegTree.emplace_single Thread.emplace_single; thr
instance emplace_count_loop (o : Nat) {mk : M α α} {mkc : T α α} [Thr L mk mkc] (n : Nat) (it : Iter) :
    Thr L (SegTree.emplace_count_loop E o mk n it) (Thread.emplace_count_loop E o mkc n it) := by
  induction n generalizing it with
  | zero => exact pure _
  | succ n ih => unfold SegTree.emplace_count_loop Thread.emplace_count_loop; thr
instance emplace_count (o : Nat) (it : Iter) (count : Nat) {mk : M α α} {mkc : T α α} [Thr L mk mkc] : Thr L (SegTree.emplace_count E o it count mk : M α Iter) (Thread.emplace_count E o it count mkc) := by
  unfold SegTree.emplace_count Thread.emplace_count; thr
instance emplace_range_loop {σ : Type} {S : SegTree.Src α σ} {Sc : Thread.Src α σ} [hS : ThrSrc L S Sc] (o : Nat)
    (it : Iter) (first : σ) (count : Nat) :
    Thr L (SegTree.emplace_range_loop E S o it first count) (Thread.emplace_range_loop E Sc o it first count) := by
  have hr := hS.read
  have hn := hS.next
  revert it first count
  refine SegTree.emplace_range_loop.fixpoint_induct E S o (fun f => ∀ it first count, Thr L (f it first count)
    (Thread.emplace_range_loop E Sc o it first count)) (adm3 _) ?_
  intro f ih it first count
  unfold Thread.emplace_range_loop
  rw [hS.done]
  thr
instance emplace_range {σ : Type} {S : SegTree.Src α σ} {Sc : Thread.Src α σ} [ThrSrc L S Sc] (o : Nat) (it : Iter) (first : σ) : Thr L (SegTree.emplace_range E S o it first : M α Iter) (Thread.emplace_range E Sc o it first) := by
  unfold SegTree.emplace_range Thread.emplace_range; thr
instance listSrc : ThrSrc L (SegTree.listSrc E) (Thread.listSrc E) where
  done _ := rfl
  read l := by cases l <;> (simp only [SegTree.listSrc, Thread.listSrc]; infer_instance)
  next l := by simp only [SegTree.listSrc, Thread.listSrc]; infer_instance
instance copySrc (last : Iter) : ThrSrc L (SegTree.copySrc E last) (Thread.copySrc E last) where
  done _ := rfl
  read it := by simp only [SegTree.copySrc, Thread.copySrc]; infer_instance
  next it := by simp only [SegTree.copySrc, Thread.copySrc]; infer_instance
instance moveSrc (last : Iter) : ThrSrc L (SegTree.moveSrc E last) (Thread.moveSrc E last) where
  done _ := rfl
  read it := by simp only [SegTree.moveSrc, Thread.moveSrc]; infer_instance
  next it := by simp only [SegTree.moveSrc, Thread.moveSrc]; infer_instance
instance erase_single (o : Nat) (it : Iter) : Thr L (SegTree.erase_single E o it : M α Iter) (Thread.erase_single E o it) := by
  unfold SegTree.erase_single Thread.erase_single; thr
instance erase_range (o : Nat) (first : Iter) (last : Iter) : Thr L (SegTree.erase_range E o first last : M α Iter) (Thread.erase_range E o first last) := by
  revert last
  refine SegTree.erase_range.fixpoint_induct E o first (fun f => ∀ (last : Iter), Thr L (f last) (Thread.erase_range E o first last)) (adm1 _) ?_
  intro f ih last
  unfold Thread.erase_range; thr
instance assign_count_loop (o : Nat) {src : M α α} {srcc : T α α} [Thr L src srcc] (count : Nat) (first : Iter) (last : Iter) : Thr L (SegTree.assign_count_loop E o src count first last : M α Unit) (Thread.assign_count_loop E o srcc count first last) := by
  revert count first
  refine SegTree.assign_count_loop.fixpoint_induct E o src last (fun f => ∀ (count : Nat) (first : Iter), Thr L (f count first) (Thread.assign_count_loop E o srcc count first last)) (adm2 _) ?_
  intro f ih count first
  unfold Thread.assign_count_loop; thr
instance assign_count (o : Nat) (count : Nat) {src : M α α} {srcc : T α α} [Thr L src srcc] : Thr L (SegTree.assign_count E o count src : M α Unit) (Thread.assign_count E o count srcc) := by
  unfold SegTree.assign_count Thread.assign_count; thr
instance assign_range_loop {σ : Type} {S : SegTree.Src α σ} {Sc : Thread.Src α σ} [hS : ThrSrc L S Sc] (o : Nat)
    (source : σ) (first last : Iter) :
    Thr L (SegTree.assign_range_loop E S o source first last) (Thread.assign_range_loop E Sc o source first last) := by
  have hr := hS.read
  have hn := hS.next
  revert source first
  refine SegTree.assign_range_loop.fixpoint_induct E S o last (fun f => ∀ source first, Thr L (f source first)
    (Thread.assign_range_loop E Sc o source first last)) (adm2 _) ?_
  intro f ih source first
  unfold Thread.assign_range_loop
  rw [hS.done]
  thr
instance assign_range {σ : Type} {S : SegTree.Src α σ} {Sc : Thread.Src α σ} [ThrSrc L S Sc] (o : Nat) (source : σ) : Thr L (SegTree.assign_range E S o source : M α Unit) (Thread.assign_range E Sc o source) := by
  unfold SegTree.assign_range Thread.assign_range; thr
instance resize_count (o : Nat) (count : Nat) {mk : M α α} {mkc : T α α} [Thr L mk mkc] : Thr L (SegTree.resize_count E o count mk : M α Unit) (Thread.resize_count E o count mkc) := by
  unfold SegTree.resize_count Thread.resize_count; thr
instance clear (o : Nat) : Thr L (SegTree.clear E o : M α Unit) (Thread.clear E o) := by
  unfold SegTree.clear Thread.clear; thr
instance copy_assign_alloc (o : Nat) (other : Nat) : Thr L (SegTree.copy_assign_alloc E o other : M α Unit) (Thread.copy_assign_alloc E o other) := by
  unfold SegTree.copy_assign_alloc Thread.copy_assign_alloc; thr
instance move_assign_alloc (o : Nat) (other : Nat) : Thr L (SegTree.move_assign_alloc E o other : M α Unit) (Thread.move_assign_alloc E o other) := by
  unfold SegTree.move_assign_alloc Thread.move_assign_alloc; thr
instance move_assign_steal (o : Nat) (other : Nat) : Thr L (SegTree.move_assign_steal E o other : M α Unit) (Thread.move_assign_steal E o other) := by
  unfold SegTree.move_assign_steal Thread.move_assign_steal; thr
instance move_assign (o : Nat) (other : Nat) : Thr L (SegTree.move_assign E o other : M α Unit) (Thread.move_assign E o other) := by
  unfold SegTree.move_assign Thread.move_assign; thr
instance dtor (o : Nat) : Thr L (SegTree.dtor E o : M α Unit) (Thread.dtor E o) := by
  unfold SegTree.dtor Thread.dtor; thr
instance delegating (o : Nat) (alloc : Nat) {body : M α Unit} {bodyc : T α Unit} [Thr L body bodyc] : Thr L (SegTree.delegating E o alloc body : M α Unit) (Thread.delegating E o alloc bodyc) := by
  unfold SegTree.delegating Thread.delegating; thr
instance ctor_count (o : Nat) (alloc : Nat) (count : Nat) {mk : M α α} {mkc : T α α} [Thr L mk mkc] : Thr L (SegTree.ctor_count E o alloc count mk : M α Unit) (Thread.ctor_count E o alloc count mkc) := by
  unfold SegTree.ctor_count Thread.ctor_count; thr
instance ctor_range {σ : Type} {S : SegTree.Src α σ} {Sc : Thread.Src α σ} [ThrSrc L S Sc] (o : Nat) (alloc : Nat) (first : σ) : Thr L (SegTree.ctor_range E S o alloc first : M α Unit) (Thread.ctor_range E Sc o alloc first) := by
  unfold SegTree.ctor_range Thread.ctor_range; thr
instance ctor_copy_alloc (o : Nat) (other : Nat) (alloc : Nat) : Thr L (SegTree.ctor_copy_alloc E o other alloc : M α Unit) (Thread.ctor_copy_alloc E o other alloc) := by
  unfold SegTree.ctor_copy_alloc Thread.ctor_copy_alloc; thr
instance ctor_copy (o : Nat) (other : Nat) : Thr L (SegTree.ctor_copy E o other : M α Unit) (Thread.ctor_copy E o other) := by
  unfold SegTree.ctor_copy Thread.ctor_copy; thr
instance ctor_move (o : Nat) (other : Nat) : Thr L (SegTree.ctor_move o other : M α Unit) (Thread.ctor_move o other) := by
  unfold SegTree.ctor_move Thread.ctor_move; thr
instance ctor_move_alloc (o : Nat) (other : Nat) (alloc : Nat) : Thr L (SegTree.ctor_move_alloc E o other alloc : M α Unit) (Thread.ctor_move_alloc E o other alloc) := by
  unfold SegTree.ctor_move_alloc Thread.ctor_move_alloc; thr
instance assign_copy (o : Nat) (other : Nat) : Thr L (SegTree.assign_copy E o other : M α Unit) (Thread.assign_copy E o other) := by
  unfold SegTree.assign_copy Thread.assign_copy; thr
instance assign_move (o : Nat) (other : Nat) : Thr L (SegTree.assign_move E o other : M α Unit) (Thread.assign_move E o other) := by
  unfold SegTree.assign_move Thread.assign_move; thr
instance assign_list (o : Nat) (vs : List α) : Thr L (SegTree.assign_list E o vs : M α Unit) (Thread.assign_list E o vs) := by
  unfold SegTree.assign_list Thread.assign_list; thr
instance assign_fill (o : Nat) (count : Nat) (v : α) : Thr L (SegTree.assign_fill E o count v : M α Unit) (Thread.assign_fill E o count v) := by
  unfold SegTree.assign_fill Thread.assign_fill; thr
instance at_ (o : Nat) (pos : Nat) : Thr L (SegTree.at_ E o pos : M α α) (Thread.at_ E o pos) := by
  unfold SegTree.at_ Thread.at_; thr
instance index_op (o : Nat) (pos : Nat) : Thr L (SegTree.index_op E o pos : M α α) (Thread.index_op E o pos) := by
  unfold SegTree.index_op Thread.index_op; thr
instance index_set (o : Nat) (pos : Nat) (v : α) : Thr L (SegTree.index_set E o pos v : M α Unit) (Thread.index_set E o pos v) := by
  unfold SegTree.index_set Thread.index_set; thr
instance deref_set (it : Iter) (v : α) : Thr L (SegTree.deref_set E it v : M α Unit) (Thread.deref_set E it v) := by
  unfold SegTree.deref_set Thread.deref_set; thr
instance deref_set_rv (it : Iter) (v : α) : Thr L (SegTree.deref_set_rv E it v : M α Unit) (Thread.deref_set_rv E it v) := by
  unfold SegTree.deref_set_rv Thread.deref_set_rv; thr
instance front (o : Nat) : Thr L (SegTree.front E o : M α α) (Thread.front E o) := by
  unfold SegTree.front Thread.front; thr
instance back (o : Nat) : Thr L (SegTree.back E o : M α α) (Thread.back E o) := by
  unfold SegTree.back Thread.back; thr
instance begin_ (o : Nat) : Thr L (SegTree.begin_ E o : M α Iter) (Thread.begin_ E o) := by
  unfold SegTree.begin_ Thread.begin_; thr
instance penultimate (o : Nat) : Thr L (SegTree.penultimate E o : M α Iter) (Thread.penultimate E o) := by
  unfold SegTree.penultimate Thread.penultimate; thr
instance end_ (o : Nat) : Thr L (SegTree.end_ E o : M α Iter) (Thread.end_ E o) := by
  unfold SegTree.end_ Thread.end_; thr
instance rev_deref (it : Iter) : Thr L (SegTree.rev_deref E it : M α α) (Thread.rev_deref E it) := by
  unfold SegTree.rev_deref Thread.rev_deref; thr
instance nth (o : Nat) (pos : Nat) : Thr L (SegTree.nth E o pos : M α Iter) (Thread.nth E o pos) := by
  unfold SegTree.nth Thread.nth; thr
instance empty (o : Nat) : Thr L (SegTree.empty o : M α Bool) (Thread.empty o) := by
  unfold SegTree.empty Thread.empty; thr
instance size (o : Nat) : Thr L (SegTree.size o : M α Nat) (Thread.size o) := by
  unfold SegTree.size Thread.size; thr
instance height (o : Nat) : Thr L (SegTree.height o : M α Nat) (Thread.height o) := by
  unfold SegTree.height Thread.height; thr
instance get_allocator (o : Nat) : Thr L (SegTree.get_allocator o : M α Nat) (Thread.get_allocator o) := by
  unfold SegTree.get_allocator Thread.get_allocator; thr
instance insert (o : Nat) (it : Iter) (v : α) : Thr L (SegTree.insert E o it v : M α Iter) (Thread.insert E o it v) := by
  unfold SegTree.insert Thread.insert; thr
instance insert_rv (o : Nat) (it : Iter) (v : α) : Thr L (SegTree.insert_rv E o it v : M α Iter) (Thread.insert_rv E o it v) := by
  unfold SegTree.insert_rv Thread.insert_rv; thr
instance insert_alias (o : Nat) (it : Iter) (src : Iter) : Thr L (SegTree.insert_alias E o it src : M α Iter) (Thread.insert_alias E o it src) := by
  unfold SegTree.insert_alias Thread.insert_alias; thr
instance insert_fill (o : Nat) (it : Iter) (count : Nat) (v : α) : Thr L (SegTree.insert_fill E o it count v : M α Iter) (Thread.insert_fill E o it count v) := by
  unfold SegTree.insert_fill Thread.insert_fill; thr
instance insert_fill_alias (o : Nat) (it : Iter) (count : Nat) (src : Iter) : Thr L (SegTree.insert_fill_alias E o it count src : M α Iter) (Thread.insert_fill_alias E o it count src) := by
  unfold SegTree.insert_fill_alias Thread.insert_fill_alias; thr
instance insert_list (o : Nat) (it : Iter) (vs : List α) : Thr L (SegTree.insert_list E o it vs : M α Iter) (Thread.insert_list E o it vs) := by
  unfold SegTree.insert_list Thread.insert_list; thr
instance erase (o : Nat) (it : Iter) : Thr L (SegTree.erase E o it : M α Iter) (Thread.erase E o it) := by
  unfold SegTree.erase Thread.erase; thr
instance erase_rng (o : Nat) (first : Iter) (last : Iter) : Thr L (SegTree.erase_rng E o first last : M α Iter) (Thread.erase_rng E o first last) := by
  unfold SegTree.erase_rng Thread.erase_rng; thr
instance push_back (o : Nat) (v : α) : Thr L (SegTree.push_back E o v : M α Unit) (Thread.push_back E o v) := by
  unfold SegTree.push_back Thread.push_back; thr
instance push_back_rv (o : Nat) (v : α) : Thr L (SegTree.push_back_rv E o v : M α Unit) (Thread.push_back_rv E o v) := by
  unfold SegTree.push_back_rv Thread.push_back_rv; thr
instance pop_back (o : Nat) : Thr L (SegTree.pop_back E o : M α Unit) (Thread.pop_back E o) := by
  unfold SegTree.pop_back Thread.pop_back; thr
instance push_front (o : Nat) (v : α) : Thr L (SegTree.push_front E o v : M α Unit) (Thread.push_front E o v) := by
  unfold SegTree.push_front Thread.push_front; thr
instance push_front_rv (o : Nat) (v : α) : Thr L (SegTree.push_front_rv E o v : M α Unit) (Thread.push_front_rv E o v) := by
  unfold SegTree.push_front_rv Thread.push_front_rv; thr
instance pop_front (o : Nat) : Thr L (SegTree.pop_front E o : M α Unit) (Thread.pop_front E o) := by
  unfold SegTree.pop_front Thread.pop_front; thr
instance resize (o : Nat) (count : Nat) (v : α) : Thr L (SegTree.resize E o count v : M α Unit) (Thread.resize E o count v) := by
  unfold SegTree.resize Thread.resize; thr
instance swap (o : Nat) (other : Nat) : Thr L (SegTree.swap E o other : M α Unit) (Thread.swap E o other) := by
  unfold SegTree.swap Thread.swap; thr
instance splice (o : Nat) (pos : Iter) (other : Nat) : Thr L (SegTree.splice E o pos other : M α Unit) (Thread.splice E o pos other) := by
  unfold SegTree.splice Thread.splice; thr
instance splice_one (o : Nat) (pos : Iter) (other : Nat) (it : Iter) : Thr L (SegTree.splice_one E o pos other it : M α Unit) (Thread.splice_one E o pos other it) := by
  unfold SegTree.splice_one Thread.splice_one; thr
instance splice_range (o : Nat) (pos : Iter) (other : Nat) (first : Iter) (last : Iter) : Thr L (SegTree.splice_range E o pos other first last : M α Unit) (Thread.splice_range E o pos other first last) := by
  unfold SegTree.splice_range Thread.splice_range; thr
instance read_range (first : Iter) (last : Iter) : Thr L (SegTree.read_range E first last : M α (List α)) (Thread.read_range E first last) := by
  revert first
  refine SegTree.read_range.fixpoint_induct E last (fun f => ∀ (first : Iter), Thr L (f first) (Thread.read_range E first last)) (adm1 _) ?_
  intro f ih first
  unfold Thread.read_range; thr
instance write_range (first : Iter) (vs : List α) :
    Thr L (SegTree.write_range E first vs) (Thread.write_range E first vs) := by
  induction vs generalizing first with
  | nil => exact pure _
  | cons v vs ih => unfold SegTree.write_range Thread.write_range; thr
instance std_inplace_merge (comp : α → α → Bool) (first : Iter) (mid : Iter) (last : Iter) : Thr L (SegTree.std_inplace_merge E comp first mid last : M α Unit) (Thread.std_inplace_merge E comp first mid last) := by
  unfold SegTree.std_inplace_merge Thread.std_inplace_merge; thr
instance std_stable_sort (comp : α → α → Bool) (first : Iter) (last : Iter) : Thr L (SegTree.std_stable_sort E comp first last : M α Unit) (Thread.std_stable_sort E comp first last) := by
  unfold SegTree.std_stable_sort Thread.std_stable_sort; thr
instance merge (o : Nat) (other : Nat) (comp : α → α → Bool) : Thr L (SegTree.merge E o other comp : M α Unit) (Thread.merge E o other comp) := by
  unfold SegTree.merge Thread.merge; thr
instance std_find_if (p : α → Bool) (first : Iter) (last : Iter) : Thr L (SegTree.std_find_if E p first last : M α Iter) (Thread.std_find_if E p first last) := by
  revert first
  refine SegTree.std_find_if.fixpoint_induct E p last (fun f => ∀ (first : Iter), Thr L (f first) (Thread.std_find_if E p first last)) (adm1 _) ?_
  intro f ih first
  unfold Thread.std_find_if; thr
instance iter_move_assign (src : Iter) (dst : Iter) : Thr L (SegTree.iter_move_assign E src dst : M α Unit) (Thread.iter_move_assign E src dst) := by
  unfold SegTree.iter_move_assign Thread.iter_move_assign; thr
instance std_remove_loop (p : α → Bool) (first : Iter) (i : Iter) (last : Iter) : Thr L (SegTree.std_remove_loop E p first i last : M α Iter) (Thread.std_remove_loop E p first i last) := by
  revert first i
  refine SegTree.std_remove_loop.fixpoint_induct E p last (fun f => ∀ (first : Iter) (i : Iter), Thr L (f first i) (Thread.std_remove_loop E p first i last)) (adm2 _) ?_
  intro f ih first i
  unfold Thread.std_remove_loop; thr
instance std_remove_if (p : α → Bool) (first : Iter) (last : Iter) : Thr L (SegTree.std_remove_if E p first last : M α Iter) (Thread.std_remove_if E p first last) := by
  unfold SegTree.std_remove_if Thread.std_remove_if; thr
instance remove_if (o : Nat) (p : α → Bool) : Thr L (SegTree.remove_if E o p : M α Unit) (Thread.remove_if E o p) := by
  unfold SegTree.remove_if Thread.remove_if; thr
instance remove (o : Nat) (eq : α → α → Bool) (v : α) : Thr L (SegTree.remove E o eq v : M α Unit) (Thread.remove E o eq v) := by
  unfold SegTree.remove Thread.remove; thr
instance iter_swap (a : Iter) (b : Iter) : Thr L (SegTree.iter_swap E a b : M α Unit) (Thread.iter_swap E a b) := by
  unfold SegTree.iter_swap Thread.iter_swap; thr
instance std_reverse_loop (first : Iter) (last : Iter) : Thr L (SegTree.std_reverse_loop E first last : M α Unit) (Thread.std_reverse_loop E first last) := by
  revert first last
  refine SegTree.std_reverse_loop.fixpoint_induct E (fun f => ∀ (first : Iter) (last : Iter), Thr L (f first last) (Thread.std_reverse_loop E first last)) (adm2 _) ?_
  intro f ih first last
  unfold Thread.std_reverse_loop; thr
instance std_reverse (first : Iter) (last : Iter) : Thr L (SegTree.std_reverse E first last : M α Unit) (Thread.std_reverse E first last) := by
  unfold SegTree.std_reverse Thread.std_reverse; thr
instance reverse (o : Nat) : Thr L (SegTree.reverse E o : M α Unit) (Thread.reverse E o) := by
  unfold SegTree.reverse Thread.reverse; thr
instance std_unique_loop (p : α → α → Bool) (result : Iter) (first : Iter) (last : Iter) : Thr L (SegTree.std_unique_loop E p result first last : M α Iter) (Thread.std_unique_loop E p result first last) := by
  revert result first
  refine SegTree.std_unique_loop.fixpoint_induct E p last (fun f => ∀ (result : Iter) (first : Iter), Thr L (f result first) (Thread.std_unique_loop E p result first last)) (adm2 _) ?_
  intro f ih result first
  unfold Thread.std_unique_loop; thr
instance std_unique (p : α → α → Bool) (first : Iter) (last : Iter) : Thr L (SegTree.std_unique E p first last : M α Iter) (Thread.std_unique E p first last) := by
  unfold SegTree.std_unique Thread.std_unique; thr
instance unique (o : Nat) (p : α → α → Bool) : Thr L (SegTree.unique E o p : M α Unit) (Thread.unique E o p) := by
  unfold SegTree.unique Thread.unique; thr
instance sort (o : Nat) (comp : α → α → Bool) : Thr L (SegTree.sort E o comp : M α Unit) (Thread.sort E o comp) := by
  unfold SegTree.sort Thread.sort; thr
instance std_equal (eq : α → α → Bool) (first1 : Iter) (last1 : Iter) (first2 : Iter) : Thr L (SegTree.std_equal E eq first1 last1 first2 : M α Bool) (Thread.std_equal E eq first1 last1 first2) := by
  revert first1 first2
  refine SegTree.std_equal.fixpoint_induct E eq last1 (fun f => ∀ (first1 : Iter) (first2 : Iter), Thr L (f first1 first2) (Thread.std_equal E eq first1 last1 first2)) (adm2 _) ?_
  intro f ih first1 first2
  unfold Thread.std_equal; thr
instance op_eq (eq : α → α → Bool) (a : Nat) (b : Nat) : Thr L (SegTree.op_eq E eq a b : M α Bool) (Thread.op_eq E eq a b) := by
  unfold SegTree.op_eq Thread.op_eq; thr
instance op_ne (eq : α → α → Bool) (a : Nat) (b : Nat) : Thr L (SegTree.op_ne E eq a b : M α Bool) (Thread.op_ne E eq a b) := by
  unfold SegTree.op_ne Thread.op_ne; thr
instance std_lex (lt : α → α → Bool) (first1 : Iter) (last1 : Iter) (first2 : Iter) (last2 : Iter) : Thr L (SegTree.std_lex E lt first1 last1 first2 last2 : M α Bool) (Thread.std_lex E lt first1 last1 first2 last2) := by
  revert first1 first2
  refine SegTree.std_lex.fixpoint_induct E lt last1 last2 (fun f => ∀ (first1 : Iter) (first2 : Iter), Thr L (f first1 first2) (Thread.std_lex E lt first1 last1 first2 last2)) (adm2 _) ?_
  intro f ih first1 first2
  unfold Thread.std_lex; thr
instance op_lt (lt : α → α → Bool) (a : Nat) (b : Nat) : Thr L (SegTree.op_lt E lt a b : M α Bool) (Thread.op_lt E lt a b) := by
  unfold SegTree.op_lt Thread.op_lt; thr
instance op_le (lt : α → α → Bool) (a : Nat) (b : Nat) : Thr L (SegTree.op_le E lt a b : M α Bool) (Thread.op_le E lt a b) := by
  unfold SegTree.op_le Thread.op_le; thr
instance op_gt (lt : α → α → Bool) (a : Nat) (b : Nat) : Thr L (SegTree.op_gt E lt a b : M α Bool) (Thread.op_gt E lt a b) := by
  unfold SegTree.op_gt Thread.op_gt; thr
instance op_ge (lt : α → α → Bool) (a : Nat) (b : Nat) : Thr L (SegTree.op_ge E lt a b : M α Bool) (Thread.op_ge E lt a b) := by
  unfold SegTree.op_ge Thread.op_ge; thr
instance it_add (it : Iter) (d : Int) : Thr L (SegTree.it_add E it d : M α Iter) (Thread.it_add E it d) := by
  unfold SegTree.it_add Thread.it_add; thr
instance it_sub (it : Iter) (d : Int) : Thr L (SegTree.it_sub E it d : M α Iter) (Thread.it_sub E it d) := by
  unfold SegTree.it_sub Thread.it_sub; thr
instance it_index (it : Iter) (d : Int) : Thr L (SegTree.it_index E it d : M α α) (Thread.it_index E it d) := by
  unfold SegTree.it_index Thread.it_index; thr

end Thr
end SegTree
