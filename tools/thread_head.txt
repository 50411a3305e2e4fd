/-
  GENERATED by tools/gen_cost.py: what each function does in a thread among others
  is what it does alone, in the part of the memory that belongs to the thread.
-/
import Verif.Thread.Model
set_option autoImplicit false
set_option linter.unusedVariables false
set_option linter.unusedSimpArgs false

namespace SegTree
open Lean.Order

variable {α β γ : Type} {E : Env α} {L : Mem α}

/-- `m` is the part of the memory that belongs to the thread, `L` the part that is lent. -/
structure Th.Part (L : Mem α) (s : Th α) (m : Mem α) : Prop where
  mine : ∀ l, s.own l = true → s.mem.cell l = m.cell l
  rest : ∀ l, s.own l = false → m.cell l = none
  log : s.mem.log = m.log
  ticks : s.mem.ticks = m.ticks
  sep : ∀ l, s.own l = true → s.lent l = false
  lends : ∀ l, s.lent l = true → s.mem.cell l = L.cell l
  whole : ∀ l, s.lent l = false → L.cell l = none

/-- from `s` to `s'` with at most `N` accesses -/
structure Th.Leads (N : Nat) (s s' : Th α) : Prop where
  lent : s'.lent = s.lent
  env : s'.env = s.env
  limit : s'.limit = s.limit
  step : s'.step ≤ s.step + N
  shown : ∀ l, s.lent l = true → s'.mem.cell l = s.mem.cell l

/-- The outcome `r'` among others goes with the outcome `r` alone: it is the same, or the
thread has had less than `N` accesses, or something is wrong with the others (storage in
use is handed out, or they changed what is not theirs). -/
inductive Goes (L : Mem α) (N : Nat) (s : Th α) : Res α β → TRes α β → Prop
  | taken (l : Loc) (r : Res α β) : Goes L N s r (.taken l)
  | torn (r : Res α β) : Goes L N s r .torn
  | paused (s' : Th α) (r : Res α β) : s.limit < s.step + N → Goes L N s r (.paused s')
  | ok (v : β) (m : Mem α) (s' : Th α) : s'.Part L m → s.Leads N s' → Goes L N s (.ok v m) (.ok v s')
  | throw (e : Exn) (m : Mem α) (s' : Th α) : s'.Part L m → s.Leads N s' → Goes L N s (.throw e m) (.throw e s')

/-- nothing is said about a run that, alone, is undefined or does not end -/
def Bad (r : Res α β) : Prop := r = .div ∨ ∃ u, r = .ub u

class Thr (L : Mem α) (x : M α β) (y : T α β) : Prop where
  run : ∀ m : Mem α, Bad (x m) ∨ ∃ N, ∀ s : Th α, s.Part L m → Goes L N s (x m) (y s)

/-- an input range, read by the thread -/
class ThrSrc (L : Mem α) {σ : Type} (S : SegTree.Src α σ) (S' : Thread.Src α σ) : Prop where
  done : ∀ x, S'.done x = S.done x
  read : ∀ x, Thr L (S.read x) (S'.read x)
  next : ∀ x, Thr L (S.next x) (S'.next x)

theorem Th.Leads.refl (s : Th α) : s.Leads 0 s := ⟨rfl, rfl, rfl, Nat.le_refl _, fun _ _ => rfl⟩

theorem Th.Leads.trans {N K : Nat} {s s1 s2 : Th α} (h : s.Leads N s1) (h2 : s1.Leads K s2) : s.Leads (N + K) s2 :=
  ⟨h2.lent.trans h.lent, h2.env.trans h.env, h2.limit.trans h.limit, by have := h.step; have := h2.step; omega,
    fun l hl => (h2.shown l (h.lent ▸ hl)).trans (h.shown l hl)⟩

theorem Goes.from {N K : Nat} {s s1 : Th α} {r : Res α β} {r' : TRes α β} (hl : s.Leads N s1)
    (h : Goes L K s1 r r') : Goes L (N + K) s r r' := by
  cases h with
  | taken => exact .taken ..
  | torn => exact .torn _
  | paused s' r h => exact .paused _ _ (by have := hl.limit; have := hl.step; omega)
  | ok v m s' h h' => exact .ok v m s' h (hl.trans h')
  | throw e m s' h h' => exact .throw e m s' h (hl.trans h')

/-- the memory the thread finds at its next access -/
def Th.found (s : Th α) : Th α := { s with mem := { s.mem with cell := s.env s.step } }

theorem Th.Part.find {s : Th α} {m : Mem α} (h : s.Part L m)
    (ha : ∀ l, s.own l = true ∨ s.lent l = true → s.env s.step l = s.mem.cell l) : s.found.Part L m where
  mine l hl := by
    show s.env s.step l = _
    rw [ha l (.inl hl), h.mine l hl]
  rest := h.rest
  log := h.log
  ticks := h.ticks
  sep := h.sep
  lends l hl := (ha l (.inr hl)).trans (h.lends l hl)
  whole := h.whole

theorem upd_lent {s : Th α} {l : Loc} {f : Loc → Option (Cell α)} {c : Option (Cell α)} (hl : s.lent l = false) :
    ∀ k, s.lent k = true → upd f l c k = f k := fun k hk => by
  simp only [upd]
  rw [if_neg]
  intro e; subst e; rw [hl] at hk; cases hk

/-- an owned cell is written -/
theorem Th.Part.set {s : Th α} {m : Mem α} {l : Loc} {c : Cell α} (h : s.Part L m)
    (hl : s.own l = true) : ({ s with mem := s.mem.set l c, step := s.step + 1 } : Th α).Part L (m.set l c) where
  mine k hk := by
    simp only [Mem.set, upd]
    split
    · rfl
    · exact h.mine k hk
  rest k hk := by
    simp only [Mem.set, upd]
    split
    · subst k; rw [hl] at hk; cases hk
    · exact h.rest k hk
  log := h.log
  ticks := h.ticks
  sep := h.sep
  lends k hk := (upd_lent (s := s) (h.sep l hl) k hk).trans (h.lends k hk)
  whole := h.whole

/-- a new cell -/
theorem Th.Part.take {s : Th α} {m : Mem α} {l : Loc} {c : Cell α} (h : s.Part L m) (hl : s.lent l = false) :
    ({ s with mem := s.mem.set l c, own := upd s.own l true, step := s.step + 1 } : Th α).Part L (m.set l c) where
  mine k hk := by
    simp only [Mem.set, upd] at hk ⊢
    split
    · rfl
    · rename_i hne; rw [if_neg hne] at hk; exact h.mine k hk
  rest k hk := by
    simp only [Mem.set, upd] at hk ⊢
    split
    · rename_i he; rw [if_pos he] at hk; cases hk
    · rename_i hne; rw [if_neg hne] at hk; exact h.rest k hk
  log := h.log
  ticks := h.ticks
  sep k hk := by
    simp only [upd] at hk
    split at hk
    · subst k; exact hl
    · exact h.sep k hk
  lends k hk := (upd_lent (s := s) hl k hk).trans (h.lends k hk)
  whole := h.whole

/-- a cell is given back -/
theorem Th.Part.drop {s : Th α} {m : Mem α} {l : Loc} (h : s.Part L m) (hl : s.own l = true) :
    ({ s with mem := s.mem.erase l, own := upd s.own l false, step := s.step + 1 } : Th α).Part L (m.erase l) where
  mine k hk := by
    simp only [Mem.erase, upd] at hk ⊢
    split
    · rfl
    · rename_i hne; rw [if_neg hne] at hk; exact h.mine k hk
  rest k hk := by
    simp only [Mem.erase, upd] at hk ⊢
    split
    · rfl
    · rename_i hne; rw [if_neg hne] at hk; exact h.rest k hk
  log := h.log
  ticks := h.ticks
  sep k hk := by
    simp only [upd] at hk
    split at hk
    · cases hk
    · exact h.sep k hk
  lends k hk := (upd_lent (s := s) (h.sep l hl) k hk).trans (h.lends k hk)
  whole := h.whole

namespace Thr

instance pure (v : β) : Thr L (Pure.pure v : M α β) (Pure.pure v : T α β) :=
  ⟨fun _ => .inr ⟨0, fun s h => .ok _ _ _ h (.refl s)⟩⟩
instance ub (k : UB) : Thr L (M.ub k : M α β) (T.ub k : T α β) := ⟨fun _ => .inl (.inr ⟨_, rfl⟩)⟩
instance thr (e : Exn) : Thr L (M.throw e : M α β) (T.throw e : T α β) :=
  ⟨fun _ => .inr ⟨0, fun s h => .throw _ _ _ h (.refl s)⟩⟩
instance ite {c : Prop} [Decidable c] {x y : M α β} {x' y' : T α β} [Thr L x x'] [Thr L y y'] :
    Thr L (if c then x else y) (if c then x' else y') := by
  split <;> assumption

instance bind {x : M α β} {f : β → M α γ} {y : T α β} {g : β → T α γ} [h : Thr L x y] [hf : ∀ v, Thr L (f v) (g v)] :
    Thr L (x >>= f) (y >>= g) := by
  refine ⟨fun m => ?_⟩
  show Bad (M.bind x f m) ∨ ∃ N, ∀ s : Th α, s.Part L m → Goes L N s (M.bind x f m) (T.bind y g s)
  unfold M.bind T.bind
  rcases h.run m with (hm | ⟨u, hm⟩) | ⟨N, hN⟩
  · rw [hm]; exact .inl (.inl rfl)
  · rw [hm]; exact .inl (.inr ⟨_, rfl⟩)
  · cases hx : x m with
    | div => exact .inl (.inl rfl)
    | ub u => exact .inl (.inr ⟨_, rfl⟩)
    | throw e m1 =>
      refine .inr ⟨N, fun s hp => ?_⟩
      have := hN s hp
      rw [hx] at this
      generalize y s = r' at this
      cases this with
      | taken => exact .taken ..
      | torn => exact .torn _
      | paused s' _ h => exact .paused _ _ h
      | throw e m s' h h' => exact .throw _ _ s' h h'
    | ok v m1 =>
      rcases (hf v).run m1 with (hm | ⟨u, hm⟩) | ⟨K, hK⟩
      · exact .inl (.inl hm)
      · exact .inl (.inr ⟨u, hm⟩)
      · refine .inr ⟨N + K, fun s hp => ?_⟩
        have := hN s hp
        rw [hx] at this
        generalize y s = r' at this
        cases this with
        | taken => exact .taken ..
        | torn => exact .torn _
        | paused s' _ h => exact .paused _ _ (by omega)
        | ok v m s' h h' => exact (hK s' h).from h'

instance onThrow {x : M α β} {h : M α Unit} {x' : T α β} {h' : T α Unit} [hx : Thr L x x'] [hh : Thr L h h'] :
    Thr L (M.onThrow x h) (T.onThrow x' h') := by
  refine ⟨fun m => ?_⟩
  unfold M.onThrow T.onThrow
  rcases hx.run m with (hm | ⟨u, hm⟩) | ⟨N, hN⟩
  · rw [hm]; exact .inl (.inl rfl)
  · rw [hm]; exact .inl (.inr ⟨_, rfl⟩)
  · cases hx : x m with
    | div => exact .inl (.inl rfl)
    | ub u => exact .inl (.inr ⟨_, rfl⟩)
    | ok v m1 =>
      refine .inr ⟨N, fun s hp => ?_⟩
      have := hN s hp
      rw [hx] at this
      generalize x' s = r' at this
      cases this with
      | taken => exact .taken ..
      | torn => exact .torn _
      | paused s' _ h => exact .paused _ _ h
      | ok v m s' h h' => exact .ok _ _ s' h h'
    | throw e m1 =>
      dsimp only
      rcases hh.run m1 with (hm | ⟨u, hm⟩) | ⟨K, hK⟩
      · rw [hm]; exact .inl (.inl rfl)
      · rw [hm]; exact .inl (.inr ⟨u, rfl⟩)
      · cases hy : h m1 with
        | div => exact .inl (.inl rfl)
        | ub u => exact .inl (.inr ⟨_, rfl⟩)
        | ok w m2 =>
          refine .inr ⟨N + K, fun s hp => ?_⟩
          have := hN s hp
          rw [hx] at this
          generalize x' s = r' at this
          cases this with
          | taken => exact .taken ..
          | torn => exact .torn _
          | paused s' _ h => exact .paused _ _ (by omega)
          | throw e m s' h h1 =>
            have := hK s' h
            rw [hy] at this
            dsimp only
            generalize h' s' = r'' at this
            cases this with
            | taken => exact .taken ..
            | torn => exact .torn _
            | paused s' _ h => exact .paused _ _ (by have := h1.limit; have := h1.step; omega)
            | ok v m s'' h h' => exact .throw e _ _ h (h1.trans h')
        | throw e2 m2 =>
          refine .inr ⟨N + K, fun s hp => ?_⟩
          have := hN s hp
          rw [hx] at this
          generalize x' s = r' at this
          cases this with
          | taken => exact .taken ..
          | torn => exact .torn _
          | paused s' _ h => exact .paused _ _ (by omega)
          | throw e m s' h h1 =>
            have := hK s' h
            rw [hy] at this
            dsimp only
            generalize h' s' = r'' at this
            cases this with
            | taken => exact .taken ..
            | torn => exact .torn _
            | paused s' _ h => exact .paused _ _ (by have := h1.limit; have := h1.step; omega)
            | throw v m s'' h h' => exact .throw _ _ _ h (h1.trans h')

instance attempt {x : M α β} {x' : T α β} [hx : Thr L x x'] : Thr L (M.attempt x) (T.attempt x') := by
  refine ⟨fun m => ?_⟩
  unfold M.attempt T.attempt
  rcases hx.run m with (hm | ⟨u, hm⟩) | ⟨N, hN⟩
  · rw [hm]; exact .inl (.inl rfl)
  · rw [hm]; exact .inl (.inr ⟨_, rfl⟩)
  · refine .inr ⟨N, fun s hp => ?_⟩
    have := hN s hp
    generalize x m = r at this
    generalize x' s = r' at this
    cases this with
    | taken => exact .taken ..
    | torn => exact .torn _
    | paused s' _ h => exact .paused _ _ h
    | ok v m s' h h' => exact .ok _ _ s' h h'
    | throw v m s' h h' => exact .ok _ _ s' h h'

/-! #### the primitives -/

/-- one access -/
theorem access {x : M α β} {act : Th α → TRes α β}
    (h : ∀ m, Bad (x m) ∨ ∀ s : Th α, (∀ l, s.lent l = true → s.env s.step l = s.mem.cell l) → s.found.Part L m → Goes L 1 s (x m) (act s)) :
    Thr L x (T.access act) := by
  refine ⟨fun m => (h m).imp_right fun h => ⟨1, fun s hp => ?_⟩⟩
  unfold T.access
  split
  · exact .paused _ _ (by omega)
  · split
    · rename_i ha; exact h s (fun l hl => ha l (.inr hl)) (hp.find ha)
    · exact .torn _

theorem Leads1 {s : Th α} (hs : ∀ l, s.lent l = true → s.env s.step l = s.mem.cell l) {m : Mem α} {own : Loc → Bool}
    (h : ∀ l, s.lent l = true → m.cell l = s.env s.step l) :
    s.Leads 1 { s with mem := m, own := own, step := s.step + 1 } :=
  ⟨rfl, rfl, rfl, Nat.le_refl _, fun l hl => (h l hl).trans (hs l hl)⟩

theorem reads {l : Loc} {x : M α β} (hx : ∀ m, (∃ v, x m = .ok v m) ∨ ∃ u, x m = .ub u)
    (hl : ∀ m m' : Mem α, m.cell l = m'.cell l → ∀ v, x m = .ok v m → x m' = .ok v m')
    (hn : ∀ m : Mem α, m.cell l = none → ∃ u, x m = .ub u) : Thr L x (T.reads l x) := by
  refine access fun m => ?_
  rcases hx m with ⟨v, e⟩ | ⟨u, e⟩
  · refine .inr fun s hs h => ?_
    have hsome : s.found.own l = true := by
      by_cases h1 : s.found.own l = true
      · exact h1
      · exfalso
        obtain ⟨u, e'⟩ := hn m (h.rest l (by simpa using h1))
        rw [e] at e'; cases e'
    have ho : (s.own l || s.lent l) = true := by
      rw [Bool.or_eq_true]; exact .inl hsome
    unfold T.perform
    have := hl m _ (h.mine l hsome).symm v e
    simp only [Th.found] at this
    rw [if_pos ho, e, this]
    exact .ok _ _ _ ⟨h.mine, h.rest, h.log, h.ticks, h.sep, h.lends, h.whole⟩ (Leads1 hs fun _ _ => rfl)
  · exact .inl (.inr ⟨u, e⟩)

theorem writes {l : Loc} {x : M α β}
    (hx : ∀ m m' : Mem α, m.cell l = m'.cell l → (∃ v c, x m = .ok v (m.set l c) ∧ x m' = .ok v (m'.set l c)) ∨ ∃ u, x m = .ub u)
    (hn : ∀ m : Mem α, m.cell l = none → ∃ u, x m = .ub u) : Thr L x (T.writes l x) := by
  refine access fun m => ?_
  rcases hx m m rfl with ⟨v0, c0, e0, -⟩ | ⟨u, e⟩
  · refine .inr fun s hs h => ?_
    by_cases ho : s.own l = true
    · have hs' : s.lent l = false := h.sep l ho
      rw [if_pos (by rw [ho, hs']; rfl)]
      rcases hx m _ (h.mine l ho).symm with ⟨v, c, e, e'⟩ | ⟨u, e⟩
      · unfold T.perform
        simp only [Th.found] at e'
        rw [e, e']
        exact .ok _ _ _ (h.set (c := c) ho) (Leads1 hs (upd_lent hs'))
      · rw [e] at e0; cases e0
    · exfalso
      obtain ⟨u, e'⟩ := hn m (h.rest l (by show s.own l = false; simpa using ho))
      rw [e0] at e'; cases e'
  · exact .inl (.inr ⟨u, e⟩)

theorem releases {l : Loc} {x : M α β}
    (hx : ∀ m m' : Mem α, m.cell l = m'.cell l → (∃ v, x m = .ok v (m.erase l) ∧ x m' = .ok v (m'.erase l)) ∨ ∃ u, x m = .ub u)
    (hn : ∀ m : Mem α, m.cell l = none → ∃ u, x m = .ub u) : Thr L x (T.releases l x) := by
  refine access fun m => ?_
  rcases hx m m rfl with ⟨v0, e0, -⟩ | ⟨u, e⟩
  · refine .inr fun s hs h => ?_
    by_cases ho : s.own l = true
    · have hs' : s.lent l = false := h.sep l ho
      rw [if_pos (by rw [ho, hs']; rfl)]
      rcases hx m _ (h.mine l ho).symm with ⟨v, e, e'⟩ | ⟨u, e⟩
      · unfold T.perform
        simp only [Th.found] at e'
        rw [e, e']
        exact .ok _ _ _ (h.drop ho) (Leads1 hs (upd_lent hs'))
      · rw [e] at e0; cases e0
    · exfalso
      obtain ⟨u, e'⟩ := hn m (h.rest l (by show s.own l = false; simpa using ho))
      rw [e0] at e'; cases e'
  · exact .inl (.inr ⟨u, e⟩)

theorem alloc {c : Nat → Cell α} {x : M α Nat} (hx : ∀ m, x m = SegTree.allocCell E (c m.log.reqs) m) :
    Thr L x (T.acquires (fun g => .heap (E.oracle g.reqs)) x) := by
  have hfail : ∀ m : Mem α, (E.oracle m.log.reqs = 0 ∨ (m.cell (.heap (E.oracle m.log.reqs))).isSome) →
      x m = .throw .alloc { m with log := ⟨m.log.reqs + 1, m.log.fails + 1⟩ } := fun m h => by
    rw [hx]; unfold SegTree.allocCell; exact if_pos h
  have hgood : ∀ m : Mem α, ¬ (E.oracle m.log.reqs = 0 ∨ (m.cell (.heap (E.oracle m.log.reqs))).isSome) →
      x m = .ok (E.oracle m.log.reqs) ({ m with log := { m.log with reqs := m.log.reqs + 1 } }.set
        (.heap (E.oracle m.log.reqs)) (c m.log.reqs)) := fun m h => by
    rw [hx]; unfold SegTree.allocCell; exact if_neg h
  refine access fun m => .inr fun s hs hi => ?_
  unfold T.perform
  dsimp only
  have hlog : s.mem.log = m.log := hi.log
  have htrow : ({ s with mem := { s.mem with cell := s.env s.step, log := ⟨m.log.reqs + 1, m.log.fails + 1⟩ }, step := s.step + 1 } : Th α).Part L
      { m with log := ⟨m.log.reqs + 1, m.log.fails + 1⟩ } := ⟨hi.mine, hi.rest, rfl, hi.ticks, hi.sep, hi.lends, hi.whole⟩
  have hret : ({ s with mem := { s.mem with cell := s.env s.step, log := { m.log with reqs := m.log.reqs + 1 } } } : Th α).Part L
      { m with log := { m.log with reqs := m.log.reqs + 1 } } := ⟨hi.mine, hi.rest, rfl, hi.ticks, hi.sep, hi.lends, hi.whole⟩
  have f' := hfail { s.mem with cell := s.env s.step }
  have g' := hgood { s.mem with cell := s.env s.step }
  dsimp only at f' g'
  rw [hlog] at f' g'
  rw [hlog]
  by_cases h0 : E.oracle m.log.reqs = 0
  · rw [if_pos (.inl (by rw [h0])), hfail m (.inl h0), f' (.inl h0)]
    exact .throw _ _ _ htrow (Leads1 hs fun _ _ => rfl)
  · have h0' : ¬ (Loc.heap (E.oracle m.log.reqs) = Loc.heap 0) := fun e => h0 (Loc.heap.inj e)
    by_cases ho : s.own (.heap (E.oracle m.log.reqs)) = true
    · rw [if_pos (.inr ho)]
      have hmine : s.env s.step _ = _ := hi.mine _ ho
      rw [hmine] at f' g'
      by_cases hc : E.oracle m.log.reqs = 0 ∨ (m.cell (.heap (E.oracle m.log.reqs))).isSome
      · rw [hfail m hc, f' hc]; exact .throw _ _ _ htrow (Leads1 hs fun _ _ => rfl)
      · rw [hgood m hc, g' hc]; exact .ok _ _ _ (hret.set ho) (Leads1 hs (upd_lent (hi.sep _ ho)))
    · rw [if_neg (fun e => e.elim h0' ho)]
      split
      · exact .taken ..
      · rename_i hnone
        simp only [Bool.or_eq_true, not_or, Bool.not_eq_true] at ho hnone
        rw [g' (fun e => e.elim h0 (by rw [hnone.1]; exact Bool.noConfusion)), hgood m (fun e => e.elim h0 fun e => by
          rw [hi.rest _ ho] at e; cases e)]
        exact .ok _ _ _ (hret.take hnone.2) (Leads1 hs (upd_lent hnone.2))

instance rdNode (p : Nat) : Thr L (SegTree.rdNode p : M α Node) (Thread.rdNode p) :=
  reads (fun m => by unfold SegTree.rdNode; split <;> simp)
    (fun m m' hc v => by unfold SegTree.rdNode; rw [hc]; split <;> simp)
    (fun m hc => by unfold SegTree.rdNode; rw [hc]; exact ⟨_, rfl⟩)
instance rdSlots (p : Nat) : Thr L (SegTree.rdSlots p : M α (Nat → Slot α)) (Thread.rdSlots p) :=
  reads (fun m => by unfold SegTree.rdSlots; split <;> simp)
    (fun m m' hc v => by unfold SegTree.rdSlots; rw [hc]; split <;> simp)
    (fun m hc => by unfold SegTree.rdSlots; rw [hc]; exact ⟨_, rfl⟩)
instance rdObj (o : Nat) : Thr L (SegTree.rdObj o : M α SeqObj) (Thread.rdObj o) :=
  reads (fun m => by unfold SegTree.rdObj; split <;> simp)
    (fun m m' hc v => by unfold SegTree.rdObj; rw [hc]; split <;> simp)
    (fun m hc => by unfold SegTree.rdObj; rw [hc]; exact ⟨_, rfl⟩)
instance wrNode (p : Nat) (n : Node) : Thr L (SegTree.wrNode p n : M α Unit) (Thread.wrNode p n) :=
  writes (fun m m' hc => by unfold SegTree.wrNode; rw [hc]; split <;> first | exact .inl ⟨_, _, rfl, rfl⟩ | exact .inr ⟨_, rfl⟩)
    (fun m hc => by unfold SegTree.wrNode; rw [hc]; exact ⟨_, rfl⟩)
instance wrSlots (p : Nat) (f : Nat → Slot α) : Thr L (SegTree.wrSlots p f : M α Unit) (Thread.wrSlots p f) :=
  writes (fun m m' hc => by unfold SegTree.wrSlots; rw [hc]; split <;> first | exact .inl ⟨_, _, rfl, rfl⟩ | exact .inr ⟨_, rfl⟩)
    (fun m hc => by unfold SegTree.wrSlots; rw [hc]; exact ⟨_, rfl⟩)
instance wrObj (o : Nat) (x : SeqObj) : Thr L (SegTree.wrObj o x : M α Unit) (Thread.wrObj o x) :=
  writes (fun m m' hc => by unfold SegTree.wrObj; rw [hc]; split <;> first | exact .inl ⟨_, _, rfl, rfl⟩ | exact .inr ⟨_, rfl⟩)
    (fun m hc => by unfold SegTree.wrObj; rw [hc]; exact ⟨_, rfl⟩)
instance freeSeg (a p : Nat) : Thr L (SegTree.freeSeg E a p : M α Unit) (Thread.freeSeg E a p) :=
  releases (fun m m' hc => by
      unfold SegTree.freeSeg; rw [hc]
      split
      · split
        · exact .inr ⟨_, rfl⟩
        · split
          · exact .inl ⟨_, rfl, rfl⟩
          · exact .inr ⟨_, rfl⟩
      · exact .inr ⟨_, rfl⟩)
    (fun m hc => by unfold SegTree.freeSeg; rw [hc]; exact ⟨_, rfl⟩)
instance freeNode (a p : Nat) : Thr L (SegTree.freeNode a p : M α Unit) (Thread.freeNode a p) :=
  releases (fun m m' hc => by
      unfold SegTree.freeNode; rw [hc]
      split
      · split
        · exact .inr ⟨_, rfl⟩
        · exact .inl ⟨_, rfl, rfl⟩
      · exact .inr ⟨_, rfl⟩)
    (fun m hc => by unfold SegTree.freeNode; rw [hc]; exact ⟨_, rfl⟩)
instance dropObj (o : Nat) : Thr L (SegTree.dropObj o : M α Unit) (Thread.dropObj o) :=
  releases (fun m m' hc => by unfold SegTree.dropObj; rw [hc]; split <;> first | exact .inl ⟨_, rfl, rfl⟩ | exact .inr ⟨_, rfl⟩)
    (fun m hc => by unfold SegTree.dropObj; rw [hc]; exact ⟨_, rfl⟩)
instance allocCell (c : Cell α) : Thr L (SegTree.allocCell E c) (Thread.allocCell E c) :=
  alloc (c := fun _ => c) fun _ => rfl
instance allocNodeCell (w : Nat) : Thr L (SegTree.allocNodeCell E w) (Thread.allocNodeCell E w) :=
  alloc (c := fun n => .node w (E.junk n)) fun _ => rfl
instance ctor (o al : Nat) : Thr L (SegTree.ctor o al : M α Unit) (Thread.ctor o al) := by
  refine access fun m => ?_
  unfold T.perform SegTree.ctor
  dsimp only
  cases hm : m.cell (.obj o) with
  | some c => exact .inl (.inr ⟨_, rfl⟩)
  | none =>
    refine .inr fun s hs hi => ?_
    by_cases ho : s.own (.obj o) = true
    · have hmine : s.env s.step _ = _ := hi.mine _ ho
      rw [if_pos (.inr ho), hmine, hm]
      exact .ok _ _ _ (hi.set ho) (Leads1 hs (upd_lent (hi.sep _ ho)))
    · rw [if_neg (fun e => e.elim (fun e => Loc.noConfusion e) ho)]
      by_cases hnone : ((s.env s.step (.obj o)).isSome || s.lent (.obj o)) = true
      · rw [if_pos hnone]; exact .taken ..
      · rw [if_neg hnone]
        simp only [Bool.or_eq_true, not_or, Bool.not_eq_true] at hnone
        have : s.env s.step (.obj o) = none := by simpa using hnone.1
        rw [this]
        exact .ok _ _ _ (hi.take hnone.2) (Leads1 hs (upd_lent hnone.2))
instance copyVal (v : α) : Thr L (SegTree.copyVal E v) (Thread.copyVal E v) := by
  refine access fun m => .inr fun s hs hi => ?_
  have ht : s.mem.ticks = m.ticks := hi.ticks
  unfold T.perform SegTree.copyVal
  dsimp only
  rw [ht]
  have hi' : ({ s with mem := ({ s.mem with cell := s.env s.step, ticks := m.ticks } : Mem α).tick, step := s.step + 1 } : Th α).Part L m.tick :=
    ⟨hi.mine, hi.rest, hi.log, rfl, hi.sep, hi.lends, hi.whole⟩
  split
  · exact .ok _ _ _ ⟨hi.mine, hi.rest, hi.log, rfl, hi.sep, hi.lends, hi.whole⟩ (Leads1 hs fun _ _ => rfl)
  · split
    · exact .throw _ _ _ (ht ▸ hi') (Leads1 hs fun _ _ => rfl)
    · exact .ok _ _ _ (ht ▸ hi') (Leads1 hs fun _ _ => rfl)
instance usub (a b : Nat) : Thr L (SegTree.usub a b : M α Nat) (Thread.usub a b) := by
  unfold SegTree.usub Thread.usub; infer_instance

theorem admissible (y : T α β) : Lean.Order.admissible (fun x : M α β => Thr L x y) := by
  have : (fun x : M α β => Thr L x y) = fun x => ∀ m, (Bad (x m) ∨ ∃ N, ∀ s : Th α, s.Part L m → Goes L N s (x m) (y s)) := by
    funext x; exact propext ⟨fun h m => h.run m, fun h => ⟨fun m => h m⟩⟩
  rw [this]
  apply admissible_pi
  intro m
  exact admissible_apply (fun m r => (Bad r ∨ ∃ N, ∀ s : Th α, s.Part L m → Goes L N s r (y s))) m
    (admissible_flatOrder _ (.inl (.inl rfl)))

section
variable {ι1 ι2 ι3 ι4 ι5 ι6 ι7 : Type}
theorem adm1 (g : ι1 → T α β) : Lean.Order.admissible (fun f : ι1 → M α β => ∀ a, Thr L (f a) (g a)) :=
  admissible_pi _ fun a => admissible_apply (fun a y => Thr L y (g a)) a (admissible _)
theorem adm2 (g : ι1 → ι2 → T α β) :
    Lean.Order.admissible (fun f : ι1 → ι2 → M α β => ∀ a1 a2, Thr L (f a1 a2) (g a1 a2)) :=
  admissible_pi _ fun a => admissible_apply (fun (a : ι1) (f : ι2 → M α β) => ∀ a2, Thr L (f a2) (g a a2)) a (adm1 _)
theorem adm3 (g : ι1 → ι2 → ι3 → T α β) :
    Lean.Order.admissible (fun f : ι1 → ι2 → ι3 → M α β => ∀ a1 a2 a3, Thr L (f a1 a2 a3) (g a1 a2 a3)) :=
  admissible_pi _ fun a => admissible_apply
    (fun (a : ι1) (f : ι2 → ι3 → M α β) => ∀ a2 a3, Thr L (f a2 a3) (g a a2 a3)) a (adm2 _)
theorem adm4 (g : ι1 → ι2 → ι3 → ι4 → T α β) :
    Lean.Order.admissible (fun f : ι1 → ι2 → ι3 → ι4 → M α β => ∀ a1 a2 a3 a4, Thr L (f a1 a2 a3 a4) (g a1 a2 a3 a4)) :=
  admissible_pi _ fun a => admissible_apply
    (fun (a : ι1) (f : ι2 → ι3 → ι4 → M α β) => ∀ a2 a3 a4, Thr L (f a2 a3 a4) (g a a2 a3 a4)) a (adm3 _)
theorem adm5 (g : ι1 → ι2 → ι3 → ι4 → ι5 → T α β) :
    Lean.Order.admissible (fun f : ι1 → ι2 → ι3 → ι4 → ι5 → M α β =>
      ∀ a1 a2 a3 a4 a5, Thr L (f a1 a2 a3 a4 a5) (g a1 a2 a3 a4 a5)) :=
  admissible_pi _ fun a => admissible_apply
    (fun (a : ι1) (f : ι2 → ι3 → ι4 → ι5 → M α β) => ∀ a2 a3 a4 a5, Thr L (f a2 a3 a4 a5) (g a a2 a3 a4 a5)) a (adm4 _)
theorem adm6 (g : ι1 → ι2 → ι3 → ι4 → ι5 → ι6 → T α β) :
    Lean.Order.admissible (fun f : ι1 → ι2 → ι3 → ι4 → ι5 → ι6 → M α β =>
      ∀ a1 a2 a3 a4 a5 a6, Thr L (f a1 a2 a3 a4 a5 a6) (g a1 a2 a3 a4 a5 a6)) :=
  admissible_pi _ fun a => admissible_apply
    (fun (a : ι1) (f : ι2 → ι3 → ι4 → ι5 → ι6 → M α β) =>
      ∀ a2 a3 a4 a5 a6, Thr L (f a2 a3 a4 a5 a6) (g a a2 a3 a4 a5 a6)) a (adm5 _)
end

set_option synthInstance.maxSize 2000
set_option synthInstance.maxHeartbeats 400000

/-- walk through both programs in parallel -/
macro "thr" : tactic => `(tactic| repeat' first
  | infer_instance
  | (intro (_ : Nat))
  | dsimp (failIfUnchanged := true) only
  | (refine Thr.bind (h := ?_) (hf := ?_))
  | (refine Thr.onThrow (hx := ?_) (hh := ?_))
  | (split <;> simp (failIfUnchanged := true) only [*, ↓reduceIte])
  | split
  | intro _)

