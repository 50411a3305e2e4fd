/-
  GENERATED by tools/gen_cost.py: how each function, in a thread among others, gets
  from one access to the next.
-/
import Verif.Thread.Sim
set_option autoImplicit false
set_option linter.unusedVariables false
set_option linter.unusedSimpArgs false

namespace SegTree
open Lean.Order

variable {α β γ : Type} {E : Env α} {Z : Loc → Prop}

/-- the same thread, allowed one access more -/
def Th.more (s : Th α) : Th α := { s with limit := s.limit + 1 }

/-- From `s1` to `s2` the thread made one access: it found its own memory as it had left
it, changed nothing that is not its own, took nothing that was in use, nothing outside
`Z`, left nothing in what it gave back and something in all it owns. -/
structure Access (Z : Loc → Prop) (s1 s2 : Th α) : Prop where
  step : s2.step = s1.step + 1
  lent : s2.lent = s1.lent
  env : s2.env = s1.env
  kept : ∀ l, s1.own l = true ∨ s1.lent l = true → s1.env s1.step l = s1.mem.cell l
  alien : ∀ l, s1.own l = false → s2.own l = false → s2.mem.cell l = s1.env s1.step l
  gain : ∀ l, s1.own l = false → s2.own l = true → s1.env s1.step l = none ∧ s1.lent l = false ∧ Z l
  lose : ∀ l, s1.own l = true → s2.own l = false → s2.mem.cell l = none
  live : (∀ l, s1.own l = true → s1.env s1.step l ≠ none) → ∀ l, s2.own l = true → s2.mem.cell l ≠ none

/-- the state an outcome leaves the thread in -/
def TRes.state : TRes α β → Option (Th α)
  | .ok _ s => some s
  | .throw _ s => some s
  | .paused s => some s
  | _ => none

/-- the thread was stopped: by storage in use (`some l`), or by a change to its memory -/
def TRes.halt : TRes α β → Option (Option Loc)
  | .taken l => some (some l)
  | .torn => some none
  | _ => none

/-- a reason to stop at the next access -/
def Halted (Z : Loc → Prop) (s : Th α) : Option Loc → Prop
  | some l => Z l ∧ s.own l = false ∧ (s.env s.step l ≠ none ∨ s.lent l = true)
  | none => ¬ ∀ l, s.own l = true ∨ s.lent l = true → s.env s.step l = s.mem.cell l

/-- outcomes with `n` and with `n + 1` accesses -/
def Next (Z : Loc → Prop) (r r' : TRes α β) : Prop :=
  match r with
  | .ok v s => r' = .ok v s.more
  | .throw e s => r' = .throw e s.more
  | .ub u => r' = .ub u
  | .race l => r' = .race l
  | .torn => r' = .torn
  | .taken l => r' = .taken l ∧ Z l
  | .paused s => (∀ s2, r'.state = some s2 → Access Z s s2) ∧ ∀ h, r'.halt = some h → Halted Z s h
  | .div => True

/-- what an outcome keeps of the state before -/
structure Held (s : Th α) (r : TRes α β) : Prop where
  keeps : ∀ s2, r.state = some s2 → s2.lent = s.lent ∧ s2.env = s.env ∧ s2.limit = s.limit ∧ s2.step ≤ s2.limit
  full : ∀ s2, r = .paused s2 → s2.step = s2.limit
  still : s.step = s.limit → ∀ s2, r.state = some s2 → s2 = s
  stops : s.step = s.limit → r.halt = none

structure Pace (Z : Loc → Prop) (s : Th α) (r r' : TRes α β) : Prop where
  held : Held s r
  next : r' = .div ∨ Next Z r r'

class Paced (Z : Loc → Prop) (y : T α β) : Prop where
  run : ∀ s : Th α, s.step ≤ s.limit → Pace Z s (y s) (y s.more)

class PacedSrc (Z : Loc → Prop) {σ : Type} (S : Thread.Src α σ) : Prop where
  read : ∀ x, Paced Z (S.read x)
  next : ∀ x, Paced Z (S.next x)

/-- the addresses the allocator hands out lie in `Z` -/
class Zone (E : Env α) (Z : Loc → Prop) : Prop where
  heap : ∀ n, E.oracle n = 0 ∨ Z (.heap (E.oracle n))

/-- the name of the new object lies in `Z` -/
class Named (Z : Loc → Prop) (o : Nat) : Prop where
  out : Z (.obj o)

theorem Held.stuck {s : Th α} {r : TRes α β} (h1 : r.state = none) (h2 : s.step = s.limit → r.halt = none) :
    Held s r where
  keeps s2 e := by rw [h1] at e; cases e
  full s2 e := by rw [e] at h1; cases h1
  still _ s2 e := by rw [h1] at e; cases e
  stops := h2

theorem Held.ok {s s2 : Th α} {v : β} (h : s2.lent = s.lent ∧ s2.env = s.env ∧ s2.limit = s.limit ∧ s2.step ≤ s2.limit)
    (h2 : s.step = s.limit → s2 = s) : Held s (.ok v s2 : TRes α β) where
  keeps s2 e := by cases e; exact h
  full s2 e := by cases e
  still hs s2 e := by cases e; exact h2 hs
  stops _ := rfl

theorem Held.throw {s s2 : Th α} {v : Exn} (h : s2.lent = s.lent ∧ s2.env = s.env ∧ s2.limit = s.limit ∧ s2.step ≤ s2.limit)
    (h2 : s.step = s.limit → s2 = s) : Held s (.throw v s2 : TRes α β) where
  keeps s2 e := by cases e; exact h
  full s2 e := by cases e
  still hs s2 e := by cases e; exact h2 hs
  stops _ := rfl

theorem Held.paused {s s2 : Th α} (h : s2.lent = s.lent ∧ s2.env = s.env ∧ s2.limit = s.limit ∧ s2.step ≤ s2.limit)
    (h1 : s2.step = s2.limit) (h2 : s.step = s.limit → s2 = s) : Held s (.paused s2 : TRes α β) where
  keeps s2 e := by cases e; exact h
  full s2 e := by cases e; exact h1
  still hs s2 e := by cases e; exact h2 hs
  stops _ := rfl

theorem Held.trans {s s1 : Th α} {r1 : TRes α β} {r : TRes α γ} (h1 : Held s r1) (e : r1.state = some s1) (h : Held s1 r) : Held s r where
  keeps s2 e2 := by
    obtain ⟨k1, k2, k3, k4⟩ := h1.keeps s1 e
    obtain ⟨a, b, c, d⟩ := h.keeps s2 e2
    exact ⟨a.trans k1, b.trans k2, c.trans k3, d⟩
  full := h.full
  still hs := by
    have := h1.still hs s1 e
    subst this
    exact h.still hs
  stops hs := by
    have := h1.still hs s1 e
    subst this
    exact h.stops hs

/-- an outcome with the same effect on the thread -/
theorem Held.like {s : Th α} {r : TRes α β} {r' : TRes α γ} (h : Held s r) (e1 : r'.state = r.state) (e2 : ∀ s2, r' = .paused s2 → r = .paused s2)
    (e3 : r'.halt = r.halt) : Held s r' :=
  ⟨fun s2 e => h.keeps s2 (e1 ▸ e), fun s2 e => h.full s2 (e2 s2 e), fun hs s2 e => h.still hs s2 (e1 ▸ e), fun hs => e3.trans (h.stops hs)⟩

theorem Next.like {s : Th α} {r' : TRes α β} {q : TRes α γ} (h : (∀ s2, r'.state = some s2 → Access Z s s2) ∧ ∀ h, r'.halt = some h → Halted Z s h)
    (e1 : q.state = r'.state) (e3 : q.halt = r'.halt) : (∀ s2, q.state = some s2 → Access Z s s2) ∧ ∀ h, q.halt = some h → Halted Z s h :=
  ⟨fun s2 e => h.1 s2 (e1 ▸ e), fun l e => h.2 l (e3 ▸ e)⟩

namespace Paced

instance pure (v : β) : Paced Z (Pure.pure v : T α β) := ⟨fun s h => ⟨.ok ⟨rfl, rfl, rfl, h⟩ fun _ => rfl, .inr rfl⟩⟩
instance ub (k : UB) : Paced Z (T.ub k : T α β) := ⟨fun s h => ⟨.stuck rfl (fun _ => rfl), .inr rfl⟩⟩
instance thr (e : Exn) : Paced Z (T.throw e : T α β) := ⟨fun s h => ⟨.throw ⟨rfl, rfl, rfl, h⟩ fun _ => rfl, .inr rfl⟩⟩
instance ite {c : Prop} [Decidable c] {x y : T α β} [Paced Z x] [Paced Z y] : Paced Z (if c then x else y) := by
  split <;> assumption

/-- what comes after the last access -/
theorem after {s1 s2 : Th α} {y : T α β} (hy : Paced Z y) (h : s1.step = s1.limit) (hl : s2.limit = s1.limit + 1) (ha : Access Z s1 s2) :
    (∀ s3, (y s2).state = some s3 → Access Z s1 s3) ∧ ∀ h, (y s2).halt = some h → Halted Z s1 h := by
  have hs : s2.step = s2.limit := by rw [ha.step, hl, h]
  have := (hy.run s2 (by omega)).held
  exact ⟨fun s3 e => by rw [this.still hs s3 e]; exact ha, fun l e => by rw [this.stops hs] at e; cases e⟩

instance bind {x : T α β} {f : β → T α γ} [hx : Paced Z x] [hf : ∀ v, Paced Z (f v)] : Paced Z (x >>= f) := by
  refine ⟨fun s h => ?_⟩
  show Pace Z s (T.bind x f s) (T.bind x f s.more)
  obtain ⟨h1, hn⟩ := hx.run s h
  have h2 := (hx.run s.more (Nat.le_succ_of_le h)).held
  unfold T.bind
  generalize x s = r at h1 hn
  generalize x s.more = r' at h2 hn
  constructor
  · cases r with
    | ok v s1 => exact h1.trans rfl ((hf v).run s1 (h1.keeps s1 rfl).2.2.2).held
    | _ => exact h1.like rfl (fun _ e => by cases e <;> rfl) rfl
  · rcases hn with rfl | hn
    · exact .inl rfl
    · cases r with
      | ok v s1 => cases hn; exact ((hf v).run s1 (h1.keeps s1 rfl).2.2.2).next
      | throw e s1 => cases hn; exact .inr rfl
      | ub u => cases hn; exact .inr rfl
      | race l => cases hn; exact .inr rfl
      | torn => cases hn; exact .inr rfl
      | taken l => cases hn.1; exact .inr ⟨rfl, hn.2⟩
      | div => exact .inr trivial
      | paused s1 =>
        right
        show (∀ s2, _ → _) ∧ _
        cases r' with
        | ok v s2 =>
          refine after (hf v) (h1.full s1 rfl) ?_ (hn.1 s2 rfl)
          rw [(h2.keeps s2 rfl).2.2.1, (h1.keeps s1 rfl).2.2.1]; rfl
        | _ => exact Next.like hn rfl rfl

instance onThrow {x : T α β} {f : T α Unit} [hx : Paced Z x] [hf : Paced Z f] : Paced Z (T.onThrow x f) := by
  refine ⟨fun s h => ?_⟩
  obtain ⟨h1, hn⟩ := hx.run s h
  have h2 := (hx.run s.more (Nat.le_succ_of_le h)).held
  unfold T.onThrow
  generalize x s = r at h1 hn
  generalize x s.more = r' at h2 hn
  constructor
  · cases r with
    | throw v s1 =>
      have := h1.trans rfl (hf.run s1 (h1.keeps s1 rfl).2.2.2).held
      dsimp only
      generalize f s1 = q at this
      cases q <;> exact this.like rfl (fun _ e => by cases e <;> rfl) rfl
    | _ => exact h1.like rfl (fun _ e => by cases e <;> rfl) rfl
  · rcases hn with rfl | hn
    · exact .inl rfl
    · cases r with
      | throw v s1 =>
        cases hn
        have := (hf.run s1 (h1.keeps s1 rfl).2.2.2).next
        dsimp only
        generalize f s1 = q at this
        generalize f s1.more = q' at this
        rcases this with rfl | this
        · exact .inl rfl
        · cases q with
          | ok v s1 => cases this; exact .inr rfl
          | throw e s1 => cases this; exact .inr rfl
          | ub u => cases this; exact .inr rfl
          | race l => cases this; exact .inr rfl
          | torn => cases this; exact .inr rfl
          | taken l => cases this.1; exact .inr ⟨rfl, this.2⟩
          | div => exact .inr trivial
          | paused s1 =>
            right
            show (∀ s2, _ → _) ∧ _
            cases q' <;> exact Next.like this rfl rfl
      | ok e s1 => cases hn; exact .inr rfl
      | ub u => cases hn; exact .inr rfl
      | race l => cases hn; exact .inr rfl
      | torn => cases hn; exact .inr rfl
      | taken l => cases hn.1; exact .inr ⟨rfl, hn.2⟩
      | div => exact .inr trivial
      | paused s1 =>
        right
        show (∀ s2, _ → _) ∧ _
        cases r' with
        | throw v s2 =>
          have := after hf (h1.full s1 rfl) (by rw [(h2.keeps s2 rfl).2.2.1, (h1.keeps s1 rfl).2.2.1]; rfl) (hn.1 s2 rfl)
          dsimp only
          generalize f s2 = q at this
          cases q <;> exact Next.like this rfl rfl
        | _ => exact Next.like hn rfl rfl

instance attempt {x : T α β} [hx : Paced Z x] : Paced Z (T.attempt x) := by
  refine ⟨fun s h => ?_⟩
  obtain ⟨h1, hn⟩ := hx.run s h
  unfold T.attempt
  generalize x s = r at h1 hn
  generalize x s.more = r' at hn
  constructor
  · cases r <;> exact h1.like rfl (fun _ e => by cases e <;> rfl) rfl
  · rcases hn with rfl | hn
    · exact .inl rfl
    · cases r with
      | ok e s1 => cases hn; exact .inr rfl
      | throw e s1 => cases hn; exact .inr rfl
      | ub u => cases hn; exact .inr rfl
      | race l => cases hn; exact .inr rfl
      | torn => cases hn; exact .inr rfl
      | taken l => cases hn.1; exact .inr ⟨rfl, hn.2⟩
      | div => exact .inr trivial
      | paused s1 =>
        right
        show (∀ s2, _ → _) ∧ _
        cases r' <;> exact Next.like hn rfl rfl

/-! #### the primitives -/

/-- an access that is made: the outcome, but for the limit -/
structure Acts (Z : Loc → Prop) (act : Th α → TRes α β) : Prop where
  more : ∀ s : Th α, act s.more = match act s with
    | .ok v s => .ok v s.more
    | .throw e s => .throw e s.more
    | .ub u => .ub u
    | .race l => .race l
    | .torn => .torn
    | .taken l => .taken l
    | .paused s => .paused s.more
    | .div => .div
  acts : ∀ (s s2 : Th α), (act s).state = some s2 → (∀ s3, act s ≠ .paused s3) ∧ s2.limit = s.limit ∧ s2.lent = s.lent ∧
    s2.env = s.env ∧ s2.step = s.step + 1 ∧ (∀ l, s.own l = false → s2.own l = false → s2.mem.cell l = s.env s.step l) ∧
    (∀ l, s.own l = false → s2.own l = true → s.env s.step l = none ∧ s.lent l = false ∧ Z l) ∧
    (∀ l, s.own l = true → s2.own l = false → s2.mem.cell l = none) ∧
    ((∀ l, s.own l = true → s.env s.step l ≠ none) → ∀ l, s2.own l = true → s2.mem.cell l ≠ none)
  zone : ∀ (s : Th α) h, (act s).halt = some h → ∃ l, h = some l ∧ Z l ∧ s.own l = false ∧ (s.env s.step l ≠ none ∨ s.lent l = true)

theorem access_pause {act : Th α → TRes α β} {s : Th α} (h : s.limit ≤ s.step) : T.access act s = .paused s := if_pos h
theorem access_act {act : Th α → TRes α β} {s : Th α} (h : s.step < s.limit)
    (ha : ∀ l, s.own l = true ∨ s.lent l = true → s.env s.step l = s.mem.cell l) : T.access act s = act s := by
  unfold T.access; rw [if_neg (by omega), if_pos ha]
theorem access_torn {act : Th α → TRes α β} {s : Th α} (h : s.step < s.limit)
    (ha : ¬ ∀ l, s.own l = true ∨ s.lent l = true → s.env s.step l = s.mem.cell l) : T.access act s = .torn := by
  unfold T.access; rw [if_neg (by omega), if_neg ha]

theorem access {act : Th α → TRes α β} (h : Acts Z act) : Paced Z (T.access act) := by
  refine ⟨fun s hs => ?_⟩
  have hlt : s.more.step < s.more.limit := by show s.step < s.limit + 1; omega
  by_cases hl : s.limit ≤ s.step
  · rw [access_pause hl]
    refine ⟨.paused ⟨rfl, rfl, rfl, hs⟩ (by omega) (fun _ => rfl), .inr ?_⟩
    show (∀ s2, _ → _) ∧ _
    by_cases ha : ∀ l, s.own l = true ∨ s.lent l = true → s.env s.step l = s.mem.cell l
    · rw [access_act hlt ha]
      refine ⟨fun s2 e => ?_, fun l e => by obtain ⟨k, rfl, h⟩ := h.zone _ l e; exact h⟩
      obtain ⟨-, -, h2, h3, h4, h5, h6, h7, h8⟩ := h.acts s.more s2 e
      exact ⟨h4, h2, h3, ha, h5, h6, h7, h8⟩
    · rw [access_torn hlt ha]
      exact ⟨fun _ e => (by cases e), fun _ e => by cases e; exact ha⟩
  · have hm := h.more s
    by_cases ha : ∀ l, s.own l = true ∨ s.lent l = true → s.env s.step l = s.mem.cell l
    · rw [access_act hlt ha, access_act (by omega) ha]
      have ha := h.acts s
      have hz := h.zone s
      rw [hm]
      cases hr : act s with
      | ok v s2 =>
        rw [hr] at ha
        obtain ⟨-, h1, h2, h3, h4, -⟩ := ha s2 rfl
        exact ⟨.ok ⟨h2, h3, h1, by omega⟩ (by omega), .inr rfl⟩
      | throw v s2 =>
        rw [hr] at ha
        obtain ⟨-, h1, h2, h3, h4, -⟩ := ha s2 rfl
        exact ⟨.throw ⟨h2, h3, h1, by omega⟩ (by omega), .inr rfl⟩
      | paused s2 => rw [hr] at ha; exact absurd rfl ((ha s2 rfl).1 s2)
      | ub u => exact ⟨.stuck rfl (fun _ => rfl), .inr rfl⟩
      | race l => exact ⟨.stuck rfl (fun _ => rfl), .inr rfl⟩
      | torn => exact ⟨.stuck rfl (fun e => by omega), .inr rfl⟩
      | taken l => exact ⟨.stuck rfl (fun e => by omega), .inr ⟨rfl, by obtain ⟨k, e, h⟩ := hz (some l) (by rw [hr]; rfl); cases e; exact h.1⟩⟩
      | div => exact ⟨.stuck rfl (fun _ => rfl), .inr trivial⟩
    · rw [access_torn hlt ha, access_torn (by omega) ha]
      exact ⟨.stuck rfl (fun e => by omega), .inr rfl⟩

theorem perform_more (x : M α β) (s : Th α) (own : Loc → Bool) :
    T.perform x s.more own = match T.perform x s own with
    | .ok v s => .ok v s.more
    | .throw e s => .throw e s.more
    | .ub u => .ub u
    | .race l => .race l
    | .torn => .torn
    | .taken l => .taken l
    | .paused s => .paused s.more
    | .div => .div := by
  unfold T.perform
  simp only [Th.more]
  cases x { s.mem with cell := s.env s.step } <;> rfl

theorem perform_state {x : M α β} {s s2 : Th α} {own : Loc → Bool} (h : (T.perform x s own).state = some s2) :
    (∀ s3, T.perform x s own ≠ .paused s3) ∧ s2.limit = s.limit ∧ s2.lent = s.lent ∧ s2.env = s.env ∧ s2.step = s.step + 1 ∧
    ((∃ v, x { s.mem with cell := s.env s.step } = .ok v s2.mem ∧ s2.own = own) ∨
      ∃ e, x { s.mem with cell := s.env s.step } = .throw e s2.mem ∧ s2.own = s.own) := by
  unfold T.perform at *
  cases hx : x { s.mem with cell := s.env s.step } with
  | ok v m =>
    rw [hx] at h; cases h
    exact ⟨fun _ e => (by cases e), rfl, rfl, rfl, rfl, .inl ⟨v, rfl, rfl⟩⟩
  | throw v m =>
    rw [hx] at h; cases h
    exact ⟨fun _ e => (by cases e), rfl, rfl, rfl, rfl, .inr ⟨v, rfl, rfl⟩⟩
  | ub u => rw [hx] at h; cases h
  | div => rw [hx] at h; cases h

/-- the memory after `x` is the one before it -/
theorem local_ {x : M α β} (hx : ∀ m, (∀ v m', x m = .ok v m' → m'.cell = m.cell) ∧ ∀ e m', x m = .throw e m' → m'.cell = m.cell) :
    Paced Z (T.local_ x) := by
  refine access ⟨fun s => perform_more .., fun s s2 e => ?_, fun s l e => ?_⟩
  · obtain ⟨h0, h1, h2, h3, h4, h5⟩ := perform_state e
    have hc : s2.mem.cell = s.env s.step := by
      rcases h5 with ⟨v, e, -⟩ | ⟨v, e, -⟩
      · exact (hx _).1 v _ e
      · exact (hx _).2 v _ e
    have ho : s2.own = s.own := by rcases h5 with ⟨v, -, e⟩ | ⟨v, -, e⟩ <;> exact e
    exact ⟨h0, h1, h2, h3, h4, fun l _ _ => by rw [hc], fun l a b => by (rw [ho, a] at b; cases b), fun l a b => by (rw [ho, a] at b; cases b),
      fun hk k h => by (rw [hc]; exact hk k (ho ▸ h))⟩
  · exfalso
    unfold T.perform at e
    split at e <;> cases e

theorem reads {l : Loc} {x : M α β} (hx : ∀ m, (∃ v, x m = .ok v m) ∨ ∃ u, x m = .ub u) : Paced Z (T.reads l x) := by
  refine access ⟨fun s => ?_, fun s s2 e => ?_, fun s k e => ?_⟩
  · show (if (s.own l || s.lent l) = true then _ else _) = _
    split
    · exact perform_more ..
    · rfl
  · split at e
    · rename_i hc
      obtain ⟨h0, h1, h2, h3, h4, h5⟩ := perform_state e
      have hc' : s2.mem.cell = s.env s.step := by
        rcases hx { s.mem with cell := s.env s.step } with ⟨w, e'⟩ | ⟨u, e'⟩
        · rw [e'] at h5
          rcases h5 with ⟨v, e, -⟩ | ⟨v, e, -⟩
          · injection e with _ e
            rw [← e]
          · cases e
        · rw [e'] at h5
          rcases h5 with ⟨v, e, -⟩ | ⟨v, e, -⟩ <;> cases e
      have ho : s2.own = s.own := by rcases h5 with ⟨v, -, e⟩ | ⟨v, -, e⟩ <;> exact e
      rw [if_pos hc]
      exact ⟨h0, h1, h2, h3, h4, fun l _ _ => by rw [hc'], fun l a b => by (rw [ho, a] at b; cases b), fun l a b => by (rw [ho, a] at b; cases b),
        fun hk k h => by (rw [hc']; exact hk k (ho ▸ h))⟩
    · cases e
  · exfalso
    split at e
    · unfold T.perform at e
      split at e <;> cases e
    · cases e

theorem writes {l : Loc} {x : M α β} (hx : ∀ m, (∃ v c, x m = .ok v (m.set l c)) ∨ ∃ u, x m = .ub u) : Paced Z (T.writes l x) := by
  refine access ⟨fun s => ?_, fun s s2 e => ?_, fun s k e => ?_⟩
  · show (if (s.own l && !s.lent l) = true then _ else _) = _
    split
    · exact perform_more ..
    · rfl
  · split at e
    · rename_i hc
      obtain ⟨h0, h1, h2, h3, h4, h5⟩ := perform_state e
      have hl : s.own l = true := by rw [Bool.and_eq_true] at hc; exact hc.1
      have hc' : ∀ k, k ≠ l → s2.mem.cell k = s.env s.step k := fun k hk => by
        rcases hx { s.mem with cell := s.env s.step } with ⟨w, c, e'⟩ | ⟨u, e'⟩
        · rw [e'] at h5
          rcases h5 with ⟨v, e, -⟩ | ⟨v, e, -⟩
          · injection e with _ e
            rw [← e]
            show upd _ l _ k = _
            simp only [upd]
            rw [if_neg hk]
          · cases e
        · rw [e'] at h5
          rcases h5 with ⟨v, e, -⟩ | ⟨v, e, -⟩ <;> cases e
      have ho : s2.own = s.own := by rcases h5 with ⟨v, -, e⟩ | ⟨v, -, e⟩ <;> exact e
      have hs' : s2.mem.cell l ≠ none := by
        rcases hx { s.mem with cell := s.env s.step } with ⟨w, c, e'⟩ | ⟨u, e'⟩
        · rw [e'] at h5
          rcases h5 with ⟨v, e, -⟩ | ⟨v, e, -⟩
          · injection e with _ e
            rw [← e]
            show upd _ l _ l ≠ _
            simp only [upd]
            rw [if_pos trivial]
            exact Option.some_ne_none _
          · cases e
        · rw [e'] at h5
          rcases h5 with ⟨v, e, -⟩ | ⟨v, e, -⟩ <;> cases e
      rw [if_pos hc]
      exact ⟨h0, h1, h2, h3, h4, fun k a _ => hc' k fun e => by (subst e; rw [a] at hl; cases hl),
        fun l a b => by (rw [ho, a] at b; cases b), fun l a b => by (rw [ho, a] at b; cases b),
        fun hk k h => by
          by_cases e : k = l
          · rw [e]; exact hs'
          · rw [hc' k e]; exact hk k (ho ▸ h)⟩
    · cases e
  · exfalso
    split at e
    · unfold T.perform at e
      split at e <;> cases e
    · cases e

theorem releases {l : Loc} {x : M α β} (hx : ∀ m, (∃ v, x m = .ok v (m.erase l)) ∨ ∃ u, x m = .ub u) : Paced Z (T.releases l x) := by
  refine access ⟨fun s => ?_, fun s s2 e => ?_, fun s k e => ?_⟩
  · show (if (s.own l && !s.lent l) = true then _ else _) = _
    split
    · exact perform_more ..
    · rfl
  · split at e
    · rename_i hc
      obtain ⟨h0, h1, h2, h3, h4, h5⟩ := perform_state e
      have hl : s.own l = true := by rw [Bool.and_eq_true] at hc; exact hc.1
      rw [if_pos hc]
      rcases hx { s.mem with cell := s.env s.step } with ⟨w, e'⟩ | ⟨u, e'⟩
      · rw [e'] at h5
        rcases h5 with ⟨v, e, ho⟩ | ⟨v, e, -⟩
        · injection e with _ e
          rw [← e]
          refine ⟨h0, h1, h2, h3, h4, fun k a _ => ?_, fun k a b => ?_, fun k a b => ?_, fun hk k b => ?_⟩
          rotate_right
          · rw [ho] at b
            show upd _ l _ k ≠ _
            simp only [upd] at b ⊢
            split at b
            · cases b
            · rename_i hne; rw [if_neg hne]; exact hk k b
          · show upd _ l _ k = _
            simp only [upd]
            rw [if_neg fun e => by (subst e; rw [a] at hl; cases hl)]
          · exfalso
            rw [ho] at b
            simp only [upd] at b
            split at b
            · cases b
            · rw [a] at b; cases b
          · show upd _ l _ k = _
            rw [ho] at b
            simp only [upd] at b ⊢
            split
            · rfl
            · rename_i hne; rw [if_neg hne, a] at b; cases b
        · cases e
      · rw [e'] at h5
        rcases h5 with ⟨v, e, -⟩ | ⟨v, e, -⟩ <;> cases e
    · cases e
  · exfalso
    split at e
    · unfold T.perform at e
      split at e <;> cases e
    · cases e

theorem acquires {offer : Log → Loc} {x : M α β}
    (hx : ∀ m, (∃ v m' c, x m = .ok v m' ∧ m'.cell = upd m.cell (offer m.log) (some c) ∧ offer m.log ≠ .heap 0) ∨
      (∃ e m', x m = .throw e m' ∧ m'.cell = m.cell) ∨ ∃ u, x m = .ub u)
    (hz : ∀ g, offer g = .heap 0 ∨ Z (offer g)) : Paced Z (T.acquires offer x) := by
  refine access ⟨fun s => ?_, fun s s2 e => ?_, fun s k e => ?_⟩
  · dsimp only
    show (if offer s.mem.log = .heap 0 ∨ s.own (offer s.mem.log) = true then _ else
      if ((s.env s.step (offer s.mem.log)).isSome || s.lent (offer s.mem.log)) = true then _ else _) = _
    split
    · exact perform_more ..
    · split
      · rfl
      · exact perform_more ..
  · dsimp only at e
    split at e
    · rename_i hc
      dsimp only
      obtain ⟨h0, h1, h2, h3, h4, h5⟩ := perform_state e
      rw [if_pos hc]
      have ho : s2.own = s.own := by rcases h5 with ⟨v, -, e⟩ | ⟨v, -, e⟩ <;> exact e
      refine ⟨h0, h1, h2, h3, h4, fun k a _ => ?_, fun l a b => by (rw [ho, a] at b; cases b), fun l a b => by (rw [ho, a] at b; cases b), fun hk k h => ?_⟩
      rotate_right
      · rcases hx { s.mem with cell := s.env s.step } with ⟨w, m', c, e', hc', hne⟩ | ⟨w, m', e', hc'⟩ | ⟨u, e'⟩
        · rw [e'] at h5
          rcases h5 with ⟨v, e, -⟩ | ⟨v, e, -⟩
          · injection e with _ e
            rw [← e, hc']
            simp only [upd]
            split
            · exact Option.some_ne_none _
            · exact hk k (ho ▸ h)
          · cases e
        · rw [e'] at h5
          rcases h5 with ⟨v, e, -⟩ | ⟨v, e, -⟩
          · cases e
          · injection e with _ e
            rw [← e, hc']; exact hk k (ho ▸ h)
        · rw [e'] at h5
          rcases h5 with ⟨v, e, -⟩ | ⟨v, e, -⟩ <;> cases e
      rcases hx { s.mem with cell := s.env s.step } with ⟨w, m', c, e', hc', hne⟩ | ⟨w, m', e', hc'⟩ | ⟨u, e'⟩
      · rw [e'] at h5
        rcases h5 with ⟨v, e, -⟩ | ⟨v, e, -⟩
        · injection e with _ e
          rw [← e, hc']
          simp only [upd]
          rw [if_neg]
          intro hk
          rcases hc with hc | hc
          · exact hne hc
          · rw [hk] at a
            rw [show s.own (offer s.mem.log) = true from hc] at a; cases a
        · cases e
      · rw [e'] at h5
        rcases h5 with ⟨v, e, -⟩ | ⟨v, e, -⟩
        · cases e
        · injection e with _ e
          rw [← e, hc']
      · rw [e'] at h5
        rcases h5 with ⟨v, e, -⟩ | ⟨v, e, -⟩ <;> cases e
    · rename_i hc
      split at e
      · cases e
      · rename_i hfree
        dsimp only
        rw [if_neg hc, if_neg hfree]
        obtain ⟨h0, h1, h2, h3, h4, h5⟩ := perform_state e
        simp only [Bool.or_eq_true, not_or, Bool.not_eq_true] at hfree
        have hnone : s.env s.step (offer s.mem.log) = none := by simpa using hfree.1
        have hzz : Z (offer s.mem.log) := (hz s.mem.log).resolve_left fun e => hc (.inl e)
        refine ⟨h0, h1, h2, h3, h4, fun k a b => ?_, fun k a b => ?_, fun k a b => ?_, fun hk k b => ?_⟩
        rotate_right
        · rcases hx { s.mem with cell := s.env s.step } with ⟨w, m', c, e', hc', hne⟩ | ⟨w, m', e', hc'⟩ | ⟨u, e'⟩
          · rw [e'] at h5
            rcases h5 with ⟨v, e, ho⟩ | ⟨v, e, -⟩
            · injection e with _ e
              rw [← e, hc']
              rw [ho] at b
              simp only [upd] at b ⊢
              split
              · exact Option.some_ne_none _
              · rename_i hne; exact hk k ((if_neg hne).symm.trans b)
            · cases e
          · rw [e'] at h5
            rcases h5 with ⟨v, e, -⟩ | ⟨v, e, ho⟩
            · cases e
            · injection e with _ e
              rw [← e, hc']; exact hk k (ho ▸ b)
          · rw [e'] at h5
            rcases h5 with ⟨v, e, -⟩ | ⟨v, e, -⟩ <;> cases e
        · rcases hx { s.mem with cell := s.env s.step } with ⟨w, m', c, e', hc', hne⟩ | ⟨w, m', e', hc'⟩ | ⟨u, e'⟩
          · rw [e'] at h5
            rcases h5 with ⟨v, e, ho⟩ | ⟨v, e, -⟩
            · injection e with _ e
              rw [← e, hc']
              rw [ho] at b
              simp only [upd] at b ⊢
              split at b
              · cases b
              · rename_i hne; rw [if_neg hne]
            · cases e
          · rw [e'] at h5
            rcases h5 with ⟨v, e, -⟩ | ⟨v, e, -⟩
            · cases e
            · injection e with _ e
              rw [← e, hc']
          · rw [e'] at h5
            rcases h5 with ⟨v, e, -⟩ | ⟨v, e, -⟩ <;> cases e
        · have : k = offer s.mem.log := by
            rcases h5 with ⟨v, e, ho⟩ | ⟨v, e, ho⟩
            · rw [ho] at b
              simp only [upd] at b
              split at b
              · assumption
              · rw [a] at b; cases b
            · rw [ho, a] at b; cases b
          subst this
          exact ⟨hnone, hfree.2, hzz⟩
        · exfalso
          rcases h5 with ⟨v, e, ho⟩ | ⟨v, e, ho⟩
          · rw [ho] at b
            simp only [upd] at b
            split at b
            · cases b
            · rw [a] at b; cases b
          · rw [ho, a] at b; cases b
  · dsimp only at e
    split at e
    · unfold T.perform at e
      split at e <;> cases e
    · rename_i hc
      split at e
      · cases e
        rename_i hu
        refine ⟨_, rfl, (hz s.mem.log).resolve_left fun e => hc (.inl e), ?_, ?_⟩
        · have : ¬ s.own (offer s.mem.log) = true := fun e => hc (.inr e)
          simpa using this
        · rw [Bool.or_eq_true] at hu
          refine hu.imp_left fun h e => ?_
          rw [e] at h; cases h
      · unfold T.perform at e
        split at e <;> cases e

instance rdNode (p : Nat) : Paced Z (Thread.rdNode p : T α Node) := reads fun m => by unfold SegTree.rdNode; split <;> simp
instance rdSlots (p : Nat) : Paced Z (Thread.rdSlots p : T α (Nat → Slot α)) := reads fun m => by unfold SegTree.rdSlots; split <;> simp
instance rdObj (o : Nat) : Paced Z (Thread.rdObj o : T α SeqObj) := reads fun m => by unfold SegTree.rdObj; split <;> simp
instance wrNode (p : Nat) (n : Node) : Paced Z (Thread.wrNode p n : T α Unit) := writes fun m => by
  unfold SegTree.wrNode; split <;> first | exact .inl ⟨_, _, rfl⟩ | exact .inr ⟨_, rfl⟩
instance wrSlots (p : Nat) (f : Nat → Slot α) : Paced Z (Thread.wrSlots p f : T α Unit) := writes fun m => by
  unfold SegTree.wrSlots; split <;> first | exact .inl ⟨_, _, rfl⟩ | exact .inr ⟨_, rfl⟩
instance wrObj (o : Nat) (x : SeqObj) : Paced Z (Thread.wrObj o x : T α Unit) := writes fun m => by
  unfold SegTree.wrObj; split <;> first | exact .inl ⟨_, _, rfl⟩ | exact .inr ⟨_, rfl⟩
instance freeSeg (a p : Nat) : Paced Z (Thread.freeSeg E a p : T α Unit) := releases fun m => by
  unfold SegTree.freeSeg
  repeat' first | exact .inl ⟨_, rfl⟩ | exact .inr ⟨_, rfl⟩ | split
instance freeNode (a p : Nat) : Paced Z (Thread.freeNode a p : T α Unit) := releases fun m => by
  unfold SegTree.freeNode
  repeat' first | exact .inl ⟨_, rfl⟩ | exact .inr ⟨_, rfl⟩ | split
instance dropObj (o : Nat) : Paced Z (Thread.dropObj o : T α Unit) := releases fun m => by
  unfold SegTree.dropObj
  repeat' first | exact .inl ⟨_, rfl⟩ | exact .inr ⟨_, rfl⟩ | split
theorem alloc [hz : Zone E Z] {c : Nat → Cell α} {x : M α Nat} (hx : ∀ m, x m = SegTree.allocCell E (c m.log.reqs) m) :
    Paced Z (T.acquires (fun g => .heap (E.oracle g.reqs)) x) := by
  refine acquires (fun m => ?_) fun g => (hz.heap g.reqs).imp_left fun e => by rw [e]
  rw [hx]
  unfold SegTree.allocCell
  dsimp only
  split
  · exact .inr (.inl ⟨_, _, rfl, rfl⟩)
  · rename_i h
    exact .inl ⟨_, _, _, rfl, rfl, fun e => h (.inl (Loc.heap.inj e))⟩
instance allocCell (c : Cell α) [Zone E Z] : Paced Z (Thread.allocCell E c) := alloc (c := fun _ => c) fun _ => rfl
instance allocNodeCell (w : Nat) [Zone E Z] : Paced Z (Thread.allocNodeCell E w) :=
  alloc (c := fun n => .node w (E.junk n)) fun _ => rfl
instance ctor (o al : Nat) [hz : Named Z o] : Paced Z (Thread.ctor o al : T α Unit) := by
  refine acquires (fun m => ?_) fun g => .inr hz.out
  unfold SegTree.ctor
  split
  · exact .inr (.inr ⟨_, rfl⟩)
  · exact .inl ⟨_, _, _, rfl, rfl, fun e => Loc.noConfusion e⟩
instance copyVal (v : α) : Paced Z (Thread.copyVal E v) := by
  refine local_ fun m => ?_
  unfold SegTree.copyVal
  constructor <;> intro w m' e
  · split at e
    · cases e; rfl
    · split at e
      · cases e
      · cases e; rfl
  · split at e
    · cases e
    · split at e
      · cases e; rfl
      · cases e
instance usub (a b : Nat) : Paced Z (Thread.usub a b : T α Nat) := by
  unfold Thread.usub; infer_instance

theorem admissible : Lean.Order.admissible (fun y : T α β => Paced Z y) := by
  have : (fun y : T α β => Paced Z y) = fun y => ∀ s : Th α, (s.step ≤ s.limit → Held s (y s)) ∧
      ∀ r' : TRes α β, r' = .div ∨ s.step ≤ s.limit → (r' = .div ∨ Next Z (y s) r' ∨ y s.more ≠ r') := by
    funext y
    apply propext
    constructor
    · intro h s
      refine ⟨fun hs => (h.run s hs).held, fun r' hs => ?_⟩
      by_cases hd : r' = .div
      · exact .inl hd
      · by_cases he : y s.more = r'
        · subst he
          rcases (h.run s (hs.resolve_left hd)).next with h | h
          · exact absurd h hd
          · exact .inr (.inl h)
        · exact .inr (.inr he)
    · intro h
      refine ⟨fun s hs => ⟨(h s).1 hs, ?_⟩⟩
      rcases (h s).2 (y s.more) (.inr hs) with h | h | h
      · exact .inl h
      · exact .inr h
      · exact absurd rfl h
  rw [this]
  apply admissible_pi
  intro s
  apply admissible_and
  · exact admissible_apply (fun s r => s.step ≤ s.limit → Held s r) s
      (admissible_flatOrder _ fun _ => .stuck rfl fun _ => rfl)
  · apply admissible_pi
    intro r'
    apply admissible_pi
    intro _
    by_cases hd : r' = .div
    · exact fun _ _ _ => .inl hd
    · have : (fun y : T α β => r' = TRes.div ∨ Next Z (y s) r' ∨ y s.more ≠ r') = fun y => Next Z (y s) r' ∨ y s.more ≠ r' := by
        funext y; simp [hd]
      rw [this]
      apply admissible_or
      · exact admissible_apply (fun (s : Th α) r => Next Z r r') s (admissible_flatOrder _ trivial)
      · exact admissible_apply (fun (_ : Th α) r => r ≠ r') s.more (admissible_flatOrder _ fun e => hd e.symm)

section
variable {ι1 ι2 ι3 ι4 ι5 ι6 ι7 : Type}
theorem adm1 : Lean.Order.admissible (fun f : ι1 → T α β => ∀ a, Paced Z (f a)) :=
  admissible_pi _ fun a => admissible_apply (fun _ y => Paced Z y) a admissible
theorem adm2 : Lean.Order.admissible (fun f : ι1 → ι2 → T α β => ∀ a1 a2, Paced Z (f a1 a2)) :=
  admissible_pi _ fun a => admissible_apply (fun (_ : ι1) (f : ι2 → T α β) => ∀ a2, Paced Z (f a2)) a adm1
theorem adm3 : Lean.Order.admissible (fun f : ι1 → ι2 → ι3 → T α β => ∀ a1 a2 a3, Paced Z (f a1 a2 a3)) :=
  admissible_pi _ fun a => admissible_apply (fun (_ : ι1) (f : ι2 → ι3 → T α β) => ∀ a2 a3, Paced Z (f a2 a3)) a adm2
theorem adm4 : Lean.Order.admissible (fun f : ι1 → ι2 → ι3 → ι4 → T α β => ∀ a1 a2 a3 a4, Paced Z (f a1 a2 a3 a4)) :=
  admissible_pi _ fun a => admissible_apply (fun (_ : ι1) (f : ι2 → ι3 → ι4 → T α β) => ∀ a2 a3 a4, Paced Z (f a2 a3 a4)) a adm3
theorem adm5 : Lean.Order.admissible (fun f : ι1 → ι2 → ι3 → ι4 → ι5 → T α β => ∀ a1 a2 a3 a4 a5, Paced Z (f a1 a2 a3 a4 a5)) :=
  admissible_pi _ fun a => admissible_apply
    (fun (_ : ι1) (f : ι2 → ι3 → ι4 → ι5 → T α β) => ∀ a2 a3 a4 a5, Paced Z (f a2 a3 a4 a5)) a adm4
theorem adm6 : Lean.Order.admissible (fun f : ι1 → ι2 → ι3 → ι4 → ι5 → ι6 → T α β => ∀ a1 a2 a3 a4 a5 a6, Paced Z (f a1 a2 a3 a4 a5 a6)) :=
  admissible_pi _ fun a => admissible_apply
    (fun (_ : ι1) (f : ι2 → ι3 → ι4 → ι5 → ι6 → T α β) => ∀ a2 a3 a4 a5 a6, Paced Z (f a2 a3 a4 a5 a6)) a adm5
end

set_option synthInstance.maxSize 2000
set_option synthInstance.maxHeartbeats 400000

/-- walk through the program -/
macro "paced" : tactic => `(tactic| repeat' first
  | infer_instance
  | (intro (_ : Nat))
  | dsimp (failIfUnchanged := true) only
  | (refine Paced.bind (hx := ?_) (hf := ?_))
  | (refine Paced.onThrow (hx := ?_) (hf := ?_))
  | split
  | intro _)

instance len (p : Nat) : Paced Z (Thread.len p : T α Nat) := by
  unfold Thread.len; paced
instance setLen (p : Nat) (v : Nat) : Paced Z (Thread.setLen p v : T α Unit) := by
  unfold Thread.setLen; paced
instance parent (p : Nat) : Paced Z (Thread.parent p : T α Nat) := by
  unfold Thread.parent; paced
instance setParent (p : Nat) (v : Nat) : Paced Z (Thread.setParent p v : T α Unit) := by
  unfold Thread.setParent; paced
instance pidx (p : Nat) : Paced Z (Thread.pidx p : T α Nat) := by
  unfold Thread.pidx; paced
instance setPidx (p : Nat) (v : Nat) : Paced Z (Thread.setPidx p v : T α Unit) := by
  unfold Thread.setPidx; paced
instance sizesAt (p : Nat) (i : Nat) [Zone E Z] : Paced Z (Thread.sizesAt E p i : T α Nat) := by
  unfold Thread.sizesAt; paced
instance setSizes (p : Nat) (i : Nat) (v : Nat) [Zone E Z] : Paced Z (Thread.setSizes E p i v : T α Unit) := by
  unfold Thread.setSizes; paced
instance ptrsAt (p : Nat) (i : Nat) [Zone E Z] : Paced Z (Thread.ptrsAt E p i : T α Nat) := by
  unfold Thread.ptrsAt; paced
instance setPtrs (p : Nat) (i : Nat) (v : Nat) [Zone E Z] : Paced Z (Thread.setPtrs E p i v : T α Unit) := by
  unfold Thread.setPtrs; paced
instance rdElem (p : Nat) (i : Nat) [Zone E Z] : Paced Z (Thread.rdElem E p i : T α α) := by
  unfold Thread.rdElem; paced
instance wrElem (p : Nat) (i : Nat) (v : α) [Zone E Z] : Paced Z (Thread.wrElem E p i v : T α Unit) := by
  unfold Thread.wrElem; paced
instance getRoot (o : Nat) : Paced Z (Thread.getRoot o : T α Nat) := by
  unfold Thread.getRoot; paced
instance getSize (o : Nat) : Paced Z (Thread.getSize o : T α Nat) := by
  unfold Thread.getSize; paced
instance getHeight (o : Nat) : Paced Z (Thread.getHeight o : T α Nat) := by
  unfold Thread.getHeight; paced
instance setRoot (o : Nat) (v : Nat) : Paced Z (Thread.setRoot o v : T α Unit) := by
  unfold Thread.setRoot; paced
instance setSize (o : Nat) (v : Nat) : Paced Z (Thread.setSize o v : T α Unit) := by
  unfold Thread.setSize; paced
instance setHeight (o : Nat) (v : Nat) : Paced Z (Thread.setHeight o v : T α Unit) := by
  unfold Thread.setHeight; paced
instance find_index_loop (p : Nat) (index : Nat) (size : Nat) (pos : Nat) [Zone E Z] : Paced Z (Thread.find_index_loop E p index size pos : T α (Nat × Nat)) := by
  revert index size pos
  refine Thread.find_index_loop.fixpoint_induct E p (fun f => ∀ (index : Nat) (size : Nat) (pos : Nat), Paced Z (f index size pos)) adm3 ?_
  intro f ih index size pos
  paced
instance find_index_leaf (p : Nat) (pos : Nat) [Zone E Z] : Paced Z (Thread.find_index_leaf E p pos : T α Entry) := by
  unfold Thread.find_index_leaf; paced
instance find_index_branch (p : Nat) (ht : Nat) (pos : Nat) [Zone E Z] : Paced Z (Thread.find_index_branch E p ht pos : T α Entry) := by
  revert p ht pos
  refine Thread.find_index_branch.fixpoint_induct E (fun f => ∀ (p : Nat) (ht : Nat) (pos : Nat), Paced Z (f p ht pos)) adm3 ?_
  intro f ih p ht pos
  paced
instance find_index_node (p : Nat) (ht : Nat) (pos : Nat) [Zone E Z] : Paced Z (Thread.find_index_node E p ht pos : T α Entry) := by
  unfold Thread.find_index_node; paced
instance find_index_root (p : Nat) (sz : Nat) (ht : Nat) (pos : Nat) [Zone E Z] : Paced Z (Thread.find_index_root E p sz ht pos : T α Iter) := by
  unfold Thread.find_index_root; paced
instance find_first_leaf (p : Nat) [Zone E Z] : Paced Z (Thread.find_first_leaf E p : T α Entry) := by
  unfold Thread.find_first_leaf; paced
instance find_first_branch (p : Nat) (ht : Nat) [Zone E Z] : Paced Z (Thread.find_first_branch E p ht : T α Entry) := by
  revert p ht
  refine Thread.find_first_branch.fixpoint_induct E (fun f => ∀ (p : Nat) (ht : Nat), Paced Z (f p ht)) adm2 ?_
  intro f ih p ht
  paced
instance find_first_node (p : Nat) (ht : Nat) [Zone E Z] : Paced Z (Thread.find_first_node E p ht : T α Entry) := by
  unfold Thread.find_first_node; paced
instance find_first_root (p : Nat) (sz : Nat) (ht : Nat) [Zone E Z] : Paced Z (Thread.find_first_root E p sz ht : T α Iter) := by
  unfold Thread.find_first_root; paced
instance find_last_segment (p : Nat) (sz : Nat) : Paced Z (Thread.find_last_segment p sz : T α SegE) := by
  unfold Thread.find_last_segment; paced
instance find_last_leaf (p : Nat) [Zone E Z] : Paced Z (Thread.find_last_leaf E p : T α Entry) := by
  unfold Thread.find_last_leaf; paced
instance find_last_branch (p : Nat) (ht : Nat) [Zone E Z] : Paced Z (Thread.find_last_branch E p ht : T α Entry) := by
  revert p ht
  refine Thread.find_last_branch.fixpoint_induct E (fun f => ∀ (p : Nat) (ht : Nat), Paced Z (f p ht)) adm2 ?_
  intro f ih p ht
  paced
instance find_last_node (p : Nat) (ht : Nat) [Zone E Z] : Paced Z (Thread.find_last_node E p ht : T α Entry) := by
  unfold Thread.find_last_node; paced
instance find_last_root (p : Nat) (sz : Nat) (ht : Nat) [Zone E Z] : Paced Z (Thread.find_last_root E p sz ht : T α Iter) := by
  unfold Thread.find_last_root; paced
instance find_end_leaf (p : Nat) [Zone E Z] : Paced Z (Thread.find_end_leaf E p : T α Entry) := by
  unfold Thread.find_end_leaf; paced
instance find_end_branch (p : Nat) (ht : Nat) [Zone E Z] : Paced Z (Thread.find_end_branch E p ht : T α Entry) := by
  revert p ht
  refine Thread.find_end_branch.fixpoint_induct E (fun f => ∀ (p : Nat) (ht : Nat), Paced Z (f p ht)) adm2 ?_
  intro f ih p ht
  paced
instance find_end_node (p : Nat) (ht : Nat) [Zone E Z] : Paced Z (Thread.find_end_node E p ht : T α Entry) := by
  unfold Thread.find_end_node; paced
instance find_end_root (p : Nat) (sz : Nat) (ht : Nat) [Zone E Z] : Paced Z (Thread.find_end_root E p sz ht : T α Iter) := by
  unfold Thread.find_end_root; paced
instance move_next_branch (e : Entry) (p : Nat) (index : Nat) (child_ht : Nat) [Zone E Z] : Paced Z (Thread.move_next_branch E e p index child_ht : T α Entry) := by
  revert p index child_ht
  refine Thread.move_next_branch.fixpoint_induct E e (fun f => ∀ (p : Nat) (index : Nat) (child_ht : Nat), Paced Z (f p index child_ht)) adm3 ?_
  intro f ih p index child_ht
  paced
instance move_next_leaf (e : Entry) [Zone E Z] : Paced Z (Thread.move_next_leaf E e : T α Entry) := by
  unfold Thread.move_next_leaf; paced
instance move_next_segment (e : Entry) [Zone E Z] : Paced Z (Thread.move_next_segment E e : T α Entry) := by
  unfold Thread.move_next_segment; paced
instance move_next_iterator (it : Iter) [Zone E Z] : Paced Z (Thread.move_next_iterator E it : T α Iter) := by
  unfold Thread.move_next_iterator; paced
instance move_prev_branch (p : Nat) (index : Nat) (child_ht : Nat) [Zone E Z] : Paced Z (Thread.move_prev_branch E p index child_ht : T α Entry) := by
  revert p index child_ht
  refine Thread.move_prev_branch.fixpoint_induct E (fun f => ∀ (p : Nat) (index : Nat) (child_ht : Nat), Paced Z (f p index child_ht)) adm3 ?_
  intro f ih p index child_ht
  paced
instance move_prev_leaf (e : Entry) [Zone E Z] : Paced Z (Thread.move_prev_leaf E e : T α Entry) := by
  unfold Thread.move_prev_leaf; paced
instance move_prev_segment (e : Entry) [Zone E Z] : Paced Z (Thread.move_prev_segment E e : T α Entry) := by
  unfold Thread.move_prev_segment; paced
instance move_prev_iterator (it : Iter) [Zone E Z] : Paced Z (Thread.move_prev_iterator E it : T α Iter) := by
  unfold Thread.move_prev_iterator; paced
instance scan_next (p : Nat) (index : Nat) (count : Nat) [Zone E Z] : Paced Z (Thread.scan_next E p index count : T α ((Nat × Nat × Nat) ⊕ Nat)) := by
  revert index count
  refine Thread.scan_next.fixpoint_induct E p (fun f => ∀ (index : Nat) (count : Nat), Paced Z (f index count)) adm2 ?_
  intro f ih index count
  paced
instance move_next_branch_count (base : Nat) (p : Nat) (index : Nat) (count : Nat) (child_ht : Nat) [Zone E Z] : Paced Z (Thread.move_next_branch_count E base p index count child_ht : T α Entry) := by
  revert base p index count child_ht
  refine Thread.move_next_branch_count.fixpoint_induct E (fun f => ∀ (base : Nat) (p : Nat) (index : Nat) (count : Nat) (child_ht : Nat), Paced Z (f base p index count child_ht)) adm5 ?_
  intro f ih base p index count child_ht
  paced
instance move_next_leaf_count (e : Entry) (count : Nat) [Zone E Z] : Paced Z (Thread.move_next_leaf_count E e count : T α Entry) := by
  unfold Thread.move_next_leaf_count; paced
instance move_next_segment_count (e : Entry) (count : Nat) [Zone E Z] : Paced Z (Thread.move_next_segment_count E e count : T α Entry) := by
  unfold Thread.move_next_segment_count; paced
instance move_next_iterator_count (it : Iter) (count : Nat) [Zone E Z] : Paced Z (Thread.move_next_iterator_count E it count : T α Iter) := by
  unfold Thread.move_next_iterator_count; paced
instance scan_prev (p : Nat) (index : Nat) (count : Nat) [Zone E Z] : Paced Z (Thread.scan_prev E p index count : T α ((Nat × Nat × Nat) ⊕ Nat)) := by
  revert index count
  refine Thread.scan_prev.fixpoint_induct E p (fun f => ∀ (index : Nat) (count : Nat), Paced Z (f index count)) adm2 ?_
  intro f ih index count
  paced
instance move_prev_branch_count (p : Nat) (index : Nat) (count : Nat) (child_ht : Nat) [Zone E Z] : Paced Z (Thread.move_prev_branch_count E p index count child_ht : T α Entry) := by
  revert p index count child_ht
  refine Thread.move_prev_branch_count.fixpoint_induct E (fun f => ∀ (p : Nat) (index : Nat) (count : Nat) (child_ht : Nat), Paced Z (f p index count child_ht)) adm4 ?_
  intro f ih p index count child_ht
  paced
instance move_prev_leaf_count (e : Entry) (count : Nat) [Zone E Z] : Paced Z (Thread.move_prev_leaf_count E e count : T α Entry) := by
  unfold Thread.move_prev_leaf_count; paced
instance move_prev_segment_count (e : Entry) (count : Nat) [Zone E Z] : Paced Z (Thread.move_prev_segment_count E e count : T α Entry) := by
  unfold Thread.move_prev_segment_count; paced
instance move_prev_iterator_count (it : Iter) (count : Nat) [Zone E Z] : Paced Z (Thread.move_prev_iterator_count E it count : T α Iter) := by
  unfold Thread.move_prev_iterator_count; paced
instance move_iterator_count (it : Iter) (diff : Int) [Zone E Z] : Paced Z (Thread.move_iterator_count E it diff : T α Iter) := by
  unfold Thread.move_iterator_count; paced
instance dereference (it : Iter) [Zone E Z] : Paced Z (Thread.dereference E it : T α α) := by
  unfold Thread.dereference; paced
instance dereference_count (it : Iter) (diff : Int) [Zone E Z] : Paced Z (Thread.dereference_count E it diff : T α α) := by
  unfold Thread.dereference_count; paced
instance move_after_segment (it : Iter) [Zone E Z] : Paced Z (Thread.move_after_segment E it : T α Iter) := by
  unfold Thread.move_after_segment; paced
instance move_after_segment_count (it : Iter) (count : Nat) [Zone E Z] : Paced Z (Thread.move_after_segment_count E it count : T α Iter) := by
  unfold Thread.move_after_segment_count; paced
instance move_before_segment (it : Iter) [Zone E Z] : Paced Z (Thread.move_before_segment E it : T α Iter) := by
  unfold Thread.move_before_segment; paced
instance move_before_segment_count (it : Iter) (count : Nat) [Zone E Z] : Paced Z (Thread.move_before_segment_count E it count : T α Iter) := by
  unfold Thread.move_before_segment_count; paced
instance allocate_segment (o : Nat) [Zone E Z] : Paced Z (Thread.allocate_segment E o : T α Nat) := by
  unfold Thread.allocate_segment; paced
instance allocate_node (o : Nat) [Zone E Z] : Paced Z (Thread.allocate_node E o : T α Nat) := by
  unfold Thread.allocate_node; paced
instance destroy_segment (p : Nat) (i : Nat) [Zone E Z] : Paced Z (Thread.destroy_segment E p i : T α Unit) := by
  unfold Thread.destroy_segment; paced
instance destroy_node (p : Nat) (i : Nat) [Zone E Z] : Paced Z (Thread.destroy_node E p i : T α Unit) := by
  unfold Thread.destroy_node; paced
instance deallocate_segment (o : Nat) (p : Nat) [Zone E Z] : Paced Z (Thread.deallocate_segment E o p : T α Unit) := by
  unfold Thread.deallocate_segment; paced
instance deallocate_node (o : Nat) (p : Nat) [Zone E Z] : Paced Z (Thread.deallocate_node E o p : T α Unit) := by
  unfold Thread.deallocate_node; paced
instance forN (f : Nat → T α Unit) (n i : Nat) [hf : ∀ i, Paced Z (f i)] : Paced Z (Thread.forN f n i) := by
  induction n generalizing i with
  | zero => exact pure _
  | succ n ih => exact bind (hf := fun _ => ih _)
instance purge_segment (o : Nat) (p : Nat) (sz : Nat) [Zone E Z] : Paced Z (Thread.purge_segment E o p sz : T α Unit) := by
  unfold Thread.purge_segment; paced
theorem purge_node_p (o : Nat) [Zone E Z] : ∀ (ht p : Nat), Paced Z (Thread.purge_node E o ht p)
  | 0, _ => ub _
  | 1, _ => ub _
  | 2, p => by unfold Thread.purge_node; paced
  | ht + 3, p => by
    have ih := purge_node_p o (ht + 2)
    unfold Thread.purge_node; paced
instance purge_node (o ht p : Nat) [Zone E Z] : Paced Z (Thread.purge_node E o ht p) := purge_node_p o ht p
instance purge_root (o : Nat) (p : Nat) (sz : Nat) (ht : Nat) [Zone E Z] : Paced Z (Thread.purge_root E o p sz ht : T α Unit) := by
  unfold Thread.purge_root; paced
instance purge (o : Nat) [Zone E Z] : Paced Z (Thread.purge E o : T α Unit) := by
  unfold Thread.purge; paced
instance construct_segment (p : Nat) (i : Nat) (v : α) [Zone E Z] : Paced Z (Thread.construct_segment E p i v : T α Unit) := by
  unfold Thread.construct_segment; paced
instance construct_leaf (p : Nat) (i : Nat) (csz : Nat) (child : Nat) [Zone E Z] : Paced Z (Thread.construct_leaf E p i csz child : T α Nat) := by
  unfold Thread.construct_leaf; paced
instance construct_branch (p : Nat) (i : Nat) (csz : Nat) (child : Nat) [Zone E Z] : Paced Z (Thread.construct_branch E p i csz child : T α Nat) := by
  unfold Thread.construct_branch; paced
instance assign_segment (p : Nat) (i : Nat) (v : α) [Zone E Z] : Paced Z (Thread.assign_segment E p i v : T α Unit) := by
  unfold Thread.assign_segment; paced
instance assign_leaf (p : Nat) (i : Nat) (csz : Nat) (child : Nat) [Zone E Z] : Paced Z (Thread.assign_leaf E p i csz child : T α Nat) := by
  unfold Thread.assign_leaf; paced
instance assign_branch (p : Nat) (i : Nat) (csz : Nat) (child : Nat) [Zone E Z] : Paced Z (Thread.assign_branch E p i csz child : T α Nat) := by
  unfold Thread.assign_branch; paced
instance move_assign_segment (src : Nat) (si : Nat) (dst : Nat) (di : Nat) [Zone E Z] : Paced Z (Thread.move_assign_segment E src si dst di : T α Unit) := by
  unfold Thread.move_assign_segment; paced
instance move_assign_leaf (src : Nat) (si : Nat) (dst : Nat) (di : Nat) [Zone E Z] : Paced Z (Thread.move_assign_leaf E src si dst di : T α Nat) := by
  unfold Thread.move_assign_leaf; paced
instance move_assign_branch (src : Nat) (si : Nat) (dst : Nat) (di : Nat) [Zone E Z] : Paced Z (Thread.move_assign_branch E src si dst di : T α Nat) := by
  unfold Thread.move_assign_branch; paced
instance move_segment (src : Nat) (si : Nat) (dst : Nat) (di : Nat) [Zone E Z] : Paced Z (Thread.move_segment E src si dst di : T α Unit) := by
  unfold Thread.move_segment; paced
instance move_leaf (src : Nat) (si : Nat) (dst : Nat) (di : Nat) [Zone E Z] : Paced Z (Thread.move_leaf E src si dst di : T α Nat) := by
  unfold Thread.move_leaf; paced
instance move_branch (src : Nat) (si : Nat) (dst : Nat) (di : Nat) [Zone E Z] : Paced Z (Thread.move_branch E src si dst di : T α Nat) := by
  unfold Thread.move_branch; paced
instance range_loop {step : Nat → Nat → T α Nat} [hstep : ∀ i0 i1, Paced Z (step i0 i1)] (src : Nat) (last : Nat) (dst : Nat) (acc : Nat) : Paced Z (Thread.range_loop step src last dst acc : T α Nat) := by
  revert src dst acc
  refine Thread.range_loop.fixpoint_induct step last (fun f => ∀ (src : Nat) (dst : Nat) (acc : Nat), Paced Z (f src dst acc)) adm3 ?_
  intro f ih src dst acc
  paced
instance forward_loop {step : Nat → Nat → T α Unit} [hstep : ∀ i0 i1, Paced Z (step i0 i1)] (first : Nat) (src : Nat) (dst : Nat) : Paced Z (Thread.forward_loop step first src dst : T α Unit) := by
  revert src dst
  refine Thread.forward_loop.fixpoint_induct step first (fun f => ∀ (src : Nat) (dst : Nat), Paced Z (f src dst)) adm2 ?_
  intro f ih src dst
  paced
instance backward_loop {step : Nat → Nat → T α Unit} [hstep : ∀ i0 i1, Paced Z (step i0 i1)] (src : Nat) (dst : Nat) (last : Nat) : Paced Z (Thread.backward_loop step src dst last : T α Unit) := by
  revert src dst
  refine Thread.backward_loop.fixpoint_induct step last (fun f => ∀ (src : Nat) (dst : Nat), Paced Z (f src dst)) adm2 ?_
  intro f ih src dst
  paced
instance memcpy_segment (src : Nat) (si : Nat) (dst : Nat) (di : Nat) (n : Nat) [Zone E Z] : Paced Z (Thread.memcpy_segment E src si dst di n : T α Unit) := by
  unfold Thread.memcpy_segment; paced
instance construct_range_segment (src : Nat) (si : Nat) (dst : Nat) (di : Nat) (count : Nat) [Zone E Z] : Paced Z (Thread.construct_range_segment E src si dst di count : T α Unit) := by
  unfold Thread.construct_range_segment; paced
instance construct_range_leaf (src : Nat) (si : Nat) (dst : Nat) (di : Nat) (count : Nat) [Zone E Z] : Paced Z (Thread.construct_range_leaf E src si dst di count : T α Nat) := by
  unfold Thread.construct_range_leaf; paced
instance construct_range_branch (src : Nat) (si : Nat) (dst : Nat) (di : Nat) (count : Nat) [Zone E Z] : Paced Z (Thread.construct_range_branch E src si dst di count : T α Nat) := by
  unfold Thread.construct_range_branch; paced
instance assign_forward_segment (p : Nat) (length : Nat) (index : Nat) (distance : Nat) [Zone E Z] : Paced Z (Thread.assign_forward_segment E p length index distance : T α Unit) := by
  unfold Thread.assign_forward_segment; paced
instance assign_forward_leaf (p : Nat) (length : Nat) (index : Nat) (distance : Nat) [Zone E Z] : Paced Z (Thread.assign_forward_leaf E p length index distance : T α Unit) := by
  unfold Thread.assign_forward_leaf; paced
instance assign_forward_branch (p : Nat) (length : Nat) (index : Nat) (distance : Nat) [Zone E Z] : Paced Z (Thread.assign_forward_branch E p length index distance : T α Unit) := by
  unfold Thread.assign_forward_branch; paced
instance assign_backward_segment (p : Nat) (length : Nat) (index : Nat) (distance : Nat) [Zone E Z] : Paced Z (Thread.assign_backward_segment E p length index distance : T α Unit) := by
  unfold Thread.assign_backward_segment; paced
instance assign_backward_leaf (p : Nat) (length : Nat) (index : Nat) (distance : Nat) [Zone E Z] : Paced Z (Thread.assign_backward_leaf E p length index distance : T α Unit) := by
  unfold Thread.assign_backward_leaf; paced
instance assign_backward_branch (p : Nat) (length : Nat) (index : Nat) (distance : Nat) [Zone E Z] : Paced Z (Thread.assign_backward_branch E p length index distance : T α Unit) := by
  unfold Thread.assign_backward_branch; paced
instance update_sizes (o : Nat) (p : Nat) (index : Nat) (sz : Nat) [Zone E Z] : Paced Z (Thread.update_sizes E o p index sz : T α Unit) := by
  revert p index
  refine Thread.update_sizes.fixpoint_induct E o sz (fun f => ∀ (p : Nat) (index : Nat), Paced Z (f p index)) adm2 ?_
  intro f ih p index
  paced
instance increment_sizes (o : Nat) (p : Nat) (index : Nat) [Zone E Z] : Paced Z (Thread.increment_sizes E o p index : T α Unit) := by
  unfold Thread.increment_sizes; paced
instance decrement_sizes (o : Nat) (p : Nat) (index : Nat) [Zone E Z] : Paced Z (Thread.decrement_sizes E o p index : T α Unit) := by
  unfold Thread.decrement_sizes; paced
instance free_chain (o : Nat) (alloc : Nat) [Zone E Z] : Paced Z (Thread.free_chain E o alloc : T α Unit) := by
  revert alloc
  refine Thread.free_chain.fixpoint_induct E o (fun f => ∀ (alloc : Nat), Paced Z (f alloc)) adm1 ?_
  intro f ih alloc
  paced
instance alloc_catch (o : Nat) (segment_alloc : Nat) (alloc : Nat) [Zone E Z] : Paced Z (Thread.alloc_catch E o segment_alloc alloc : T α Unit) := by
  unfold Thread.alloc_catch; paced
instance alloc_nodes_loop (o : Nat) (p : Nat) (segment_alloc : Nat) (alloc : Nat) [Zone E Z] : Paced Z (Thread.alloc_nodes_loop E o p segment_alloc alloc : T α Nat) := by
  revert p alloc
  refine Thread.alloc_nodes_loop.fixpoint_induct E o segment_alloc (fun f => ∀ (p : Nat) (alloc : Nat), Paced Z (f p alloc)) adm2 ?_
  intro f ih p alloc
  paced
instance alloc_nodes_single (o : Nat) (p : Nat) (segment_alloc : Nat) [Zone E Z] : Paced Z (Thread.alloc_nodes_single E o p segment_alloc : T α Nat) := by
  unfold Thread.alloc_nodes_single; paced
instance insert_single_branch (o : Nat) (base : Nat) (p : Nat) (index : Nat) (alloc : Nat) (child_pointer : Nat) (child_size : Nat) [Zone E Z] : Paced Z (Thread.insert_single_branch E o base p index alloc child_pointer child_size : T α Unit) := by
  revert base p index alloc child_pointer child_size
  refine Thread.insert_single_branch.fixpoint_induct E o (fun f => ∀ (base : Nat) (p : Nat) (index : Nat) (alloc : Nat) (child_pointer : Nat) (child_size : Nat), Paced Z (f base p index alloc child_pointer child_size)) adm6 ?_
  intro f ih base p index alloc child_pointer child_size
  paced
instance insert_single_leaf (o : Nat) (entry : Entry) (base : Nat) (p : Nat) (index : Nat) (alloc : Nat) (child_pointer : Nat) (child_size : Nat) [Zone E Z] : Paced Z (Thread.insert_single_leaf E o entry base p index alloc child_pointer child_size : T α Entry) := by
  unfold Thread.insert_single_leaf; paced
instance insert_single_segment (o : Nat) (entry : Entry) (value : α) [Zone E Z] : Paced Z (Thread.insert_single_segment E o entry value : T α Entry) := by
  unfold Thread.insert_single_segment; paced
instance insert_single_iterator (o : Nat) (it : Iter) (value : α) [Zone E Z] : Paced Z (Thread.insert_single_iterator E o it value : T α Iter) := by
  unfold Thread.insert_single_iterator; paced
instance erase_single_branch (o : Nat) (p : Nat) (index : Nat) [Zone E Z] : Paced Z (Thread.erase_single_branch E o p index : T α Unit) := by
  revert p index
  refine Thread.erase_single_branch.fixpoint_induct E o (fun f => ∀ (p : Nat) (index : Nat), Paced Z (f p index)) adm2 ?_
  intro f ih p index
  paced
instance erase_single_leaf (o : Nat) (entry : LeafE) (p : Nat) (index : Nat) [Zone E Z] : Paced Z (Thread.erase_single_leaf E o entry p index : T α LeafE) := by
  unfold Thread.erase_single_leaf; paced
instance erase_single_segment (o : Nat) (entry : Entry) [Zone E Z] : Paced Z (Thread.erase_single_segment E o entry : T α Entry) := by
  unfold Thread.erase_single_segment; paced
instance erase_single_iterator (o : Nat) (it : Iter) [Zone E Z] : Paced Z (Thread.erase_single_iterator E o it : T α Iter) := by
  unfold Thread.erase_single_iterator; paced
instance find_index (o : Nat) (pos : Nat) [Zone E Z] : Paced Z (Thread.find_index E o pos : T α Iter) := by
  unfold Thread.find_index; paced
instance find_first (o : Nat) [Zone E Z] : Paced Z (Thread.find_first E o : T α Iter) := by
  unfold Thread.find_first; paced
instance find_last (o : Nat) [Zone E Z] : Paced Z (Thread.find_last E o : T α Iter) := by
  unfold Thread.find_last; paced
instance find_end (o : Nat) [Zone E Z] : Paced Z (Thread.find_end E o : T α Iter) := by
  unfold Thread.find_end; paced
instance steal (o : Nat) (other : Nat) : Paced Z (Thread.steal o other : T α Unit) := by
  unfold Thread.steal; paced
instance copyAssign (p : Nat) (i : Nat) (v : α) [Zone E Z] : Paced Z (Thread.copyAssign E p i v : T α Unit) := by
  unfold Thread.copyAssign; paced
instance moveFrom (p : Nat) (i : Nat) [Zone E Z] : Paced Z (Thread.moveFrom E p i : T α α) := by
  unfold Thread.moveFrom; paced
instance emplace_single (o : Nat) (it : Iter) {mk : T α α} [hmk : Paced Z (mk )] [Zone E Z] : Paced Z (Thread.emplace_single E o it mk : T α Iter) := by
  unfold Thread.emplace_single; paced
instance emplace_count_loop (o : Nat) {mk : T α α} [Paced Z mk] [Zone E Z] (n : Nat) (it : Iter) :
    Paced Z (Thread.emplace_count_loop E o mk n it) := by
  induction n generalizing it with
  | zero => exact pure _
  | succ n ih => unfold Thread.emplace_count_loop; paced
instance emplace_count (o : Nat) (it : Iter) (count : Nat) {mk : T α α} [hmk : Paced Z (mk )] [Zone E Z] : Paced Z (Thread.emplace_count E o it count mk : T α Iter) := by
  unfold Thread.emplace_count; paced
instance emplace_range_loop {σ : Type} {S : Thread.Src α σ} [hS : PacedSrc Z S] (o : Nat) (it : Iter) (first : σ) (count : Nat) [Zone E Z] : Paced Z (Thread.emplace_range_loop E S o it first count : T α (Iter × Nat)) := by
  have hrS := hS.read
  have hnS := hS.next
  revert it first count
  refine Thread.emplace_range_loop.fixpoint_induct E S o (fun f => ∀ (it : Iter) (first : σ) (count : Nat), Paced Z (f it first count)) adm3 ?_
  intro f ih it first count
  paced
instance emplace_range {σ : Type} {S : Thread.Src α σ} [hS : PacedSrc Z S] (o : Nat) (it : Iter) (first : σ) [Zone E Z] : Paced Z (Thread.emplace_range E S o it first : T α Iter) := by
  have hrS := hS.read
  have hnS := hS.next
  unfold Thread.emplace_range; paced
instance listSrc [Zone E Z] : PacedSrc Z (Thread.listSrc E) where
  read l := by cases l <;> (simp only [Thread.listSrc]; infer_instance)
  next l := by simp only [Thread.listSrc]; infer_instance
instance copySrc [Zone E Z] (last : Iter) : PacedSrc Z (Thread.copySrc E last) where
  read it := by simp only [Thread.copySrc]; infer_instance
  next it := by simp only [Thread.copySrc]; infer_instance
instance moveSrc [Zone E Z] (last : Iter) : PacedSrc Z (Thread.moveSrc E last) where
  read it := by simp only [Thread.moveSrc]; infer_instance
  next it := by simp only [Thread.moveSrc]; infer_instance
instance erase_single (o : Nat) (it : Iter) [Zone E Z] : Paced Z (Thread.erase_single E o it : T α Iter) := by
  unfold Thread.erase_single; paced
instance erase_range (o : Nat) (first : Iter) (last : Iter) [Zone E Z] : Paced Z (Thread.erase_range E o first last : T α Iter) := by
  revert last
  refine Thread.erase_range.fixpoint_induct E o first (fun f => ∀ (last : Iter), Paced Z (f last)) adm1 ?_
  intro f ih last
  paced
instance assign_count_loop (o : Nat) {src : T α α} [hsrc : Paced Z (src )] (count : Nat) (first : Iter) (last : Iter) [Zone E Z] : Paced Z (Thread.assign_count_loop E o src count first last : T α Unit) := by
  revert count first
  refine Thread.assign_count_loop.fixpoint_induct E o src last (fun f => ∀ (count : Nat) (first : Iter), Paced Z (f count first)) adm2 ?_
  intro f ih count first
  paced
instance assign_count (o : Nat) (count : Nat) {src : T α α} [hsrc : Paced Z (src )] [Zone E Z] : Paced Z (Thread.assign_count E o count src : T α Unit) := by
  unfold Thread.assign_count; paced
instance assign_range_loop {σ : Type} {S : Thread.Src α σ} [hS : PacedSrc Z S] (o : Nat) (source : σ) (first : Iter) (last : Iter) [Zone E Z] : Paced Z (Thread.assign_range_loop E S o source first last : T α Unit) := by
  have hrS := hS.read
  have hnS := hS.next
  revert source first
  refine Thread.assign_range_loop.fixpoint_induct E S o last (fun f => ∀ (source : σ) (first : Iter), Paced Z (f source first)) adm2 ?_
  intro f ih source first
  paced
instance assign_range {σ : Type} {S : Thread.Src α σ} [hS : PacedSrc Z S] (o : Nat) (source : σ) [Zone E Z] : Paced Z (Thread.assign_range E S o source : T α Unit) := by
  have hrS := hS.read
  have hnS := hS.next
  unfold Thread.assign_range; paced
instance resize_count (o : Nat) (count : Nat) {mk : T α α} [hmk : Paced Z (mk )] [Zone E Z] : Paced Z (Thread.resize_count E o count mk : T α Unit) := by
  unfold Thread.resize_count; paced
instance clear (o : Nat) [Zone E Z] : Paced Z (Thread.clear E o : T α Unit) := by
  unfold Thread.clear; paced
instance copy_assign_alloc (o : Nat) (other : Nat) [Zone E Z] : Paced Z (Thread.copy_assign_alloc E o other : T α Unit) := by
  unfold Thread.copy_assign_alloc; paced
instance move_assign_alloc (o : Nat) (other : Nat) [Zone E Z] : Paced Z (Thread.move_assign_alloc E o other : T α Unit) := by
  unfold Thread.move_assign_alloc; paced
instance move_assign_steal (o : Nat) (other : Nat) [Zone E Z] : Paced Z (Thread.move_assign_steal E o other : T α Unit) := by
  unfold Thread.move_assign_steal; paced
instance move_assign (o : Nat) (other : Nat) [Zone E Z] : Paced Z (Thread.move_assign E o other : T α Unit) := by
  unfold Thread.move_assign; paced
instance dtor (o : Nat) [Zone E Z] : Paced Z (Thread.dtor E o : T α Unit) := by
  unfold Thread.dtor; paced
instance delegating (o : Nat) (alloc : Nat) {body : T α Unit} [hbody : Paced Z (body )] [Zone E Z] [Named Z o] : Paced Z (Thread.delegating E o alloc body : T α Unit) := by
  unfold Thread.delegating; paced
instance ctor_count (o : Nat) (alloc : Nat) (count : Nat) {mk : T α α} [hmk : Paced Z (mk )] [Zone E Z] [Named Z o] : Paced Z (Thread.ctor_count E o alloc count mk : T α Unit) := by
  unfold Thread.ctor_count; paced
instance ctor_range {σ : Type} {S : Thread.Src α σ} [hS : PacedSrc Z S] (o : Nat) (alloc : Nat) (first : σ) [Zone E Z] [Named Z o] : Paced Z (Thread.ctor_range E S o alloc first : T α Unit) := by
  have hrS := hS.read
  have hnS := hS.next
  unfold Thread.ctor_range; paced
instance ctor_copy_alloc (o : Nat) (other : Nat) (alloc : Nat) [Zone E Z] [Named Z o] : Paced Z (Thread.ctor_copy_alloc E o other alloc : T α Unit) := by
  unfold Thread.ctor_copy_alloc; paced
instance ctor_copy (o : Nat) (other : Nat) [Zone E Z] [Named Z o] : Paced Z (Thread.ctor_copy E o other : T α Unit) := by
  unfold Thread.ctor_copy; paced
instance ctor_move (o : Nat) (other : Nat) [Named Z o] : Paced Z (Thread.ctor_move o other : T α Unit) := by
  unfold Thread.ctor_move; paced
instance ctor_move_alloc (o : Nat) (other : Nat) (alloc : Nat) [Zone E Z] [Named Z o] : Paced Z (Thread.ctor_move_alloc E o other alloc : T α Unit) := by
  unfold Thread.ctor_move_alloc; paced
instance assign_copy (o : Nat) (other : Nat) [Zone E Z] : Paced Z (Thread.assign_copy E o other : T α Unit) := by
  unfold Thread.assign_copy; paced
instance assign_move (o : Nat) (other : Nat) [Zone E Z] : Paced Z (Thread.assign_move E o other : T α Unit) := by
  unfold Thread.assign_move; paced
instance assign_list (o : Nat) (vs : List α) [Zone E Z] : Paced Z (Thread.assign_list E o vs : T α Unit) := by
  unfold Thread.assign_list; paced
instance assign_fill (o : Nat) (count : Nat) (v : α) [Zone E Z] : Paced Z (Thread.assign_fill E o count v : T α Unit) := by
  unfold Thread.assign_fill; paced
instance at_ (o : Nat) (pos : Nat) [Zone E Z] : Paced Z (Thread.at_ E o pos : T α α) := by
  unfold Thread.at_; paced
instance index_op (o : Nat) (pos : Nat) [Zone E Z] : Paced Z (Thread.index_op E o pos : T α α) := by
  unfold Thread.index_op; paced
instance index_set (o : Nat) (pos : Nat) (v : α) [Zone E Z] : Paced Z (Thread.index_set E o pos v : T α Unit) := by
  unfold Thread.index_set; paced
instance deref_set (it : Iter) (v : α) [Zone E Z] : Paced Z (Thread.deref_set E it v : T α Unit) := by
  unfold Thread.deref_set; paced
instance deref_set_rv (it : Iter) (v : α) [Zone E Z] : Paced Z (Thread.deref_set_rv E it v : T α Unit) := by
  unfold Thread.deref_set_rv; paced
instance front (o : Nat) [Zone E Z] : Paced Z (Thread.front E o : T α α) := by
  unfold Thread.front; paced
instance back (o : Nat) [Zone E Z] : Paced Z (Thread.back E o : T α α) := by
  unfold Thread.back; paced
instance begin_ (o : Nat) [Zone E Z] : Paced Z (Thread.begin_ E o : T α Iter) := by
  unfold Thread.begin_; paced
instance penultimate (o : Nat) [Zone E Z] : Paced Z (Thread.penultimate E o : T α Iter) := by
  unfold Thread.penultimate; paced
instance end_ (o : Nat) [Zone E Z] : Paced Z (Thread.end_ E o : T α Iter) := by
  unfold Thread.end_; paced
instance rev_deref (it : Iter) [Zone E Z] : Paced Z (Thread.rev_deref E it : T α α) := by
  unfold Thread.rev_deref; paced
instance nth (o : Nat) (pos : Nat) [Zone E Z] : Paced Z (Thread.nth E o pos : T α Iter) := by
  unfold Thread.nth; paced
instance empty (o : Nat) : Paced Z (Thread.empty o : T α Bool) := by
  unfold Thread.empty; paced
instance size (o : Nat) : Paced Z (Thread.size o : T α Nat) := by
  unfold Thread.size; paced
instance height (o : Nat) : Paced Z (Thread.height o : T α Nat) := by
  unfold Thread.height; paced
instance get_allocator (o : Nat) : Paced Z (Thread.get_allocator o : T α Nat) := by
  unfold Thread.get_allocator; paced
instance insert (o : Nat) (it : Iter) (v : α) [Zone E Z] : Paced Z (Thread.insert E o it v : T α Iter) := by
  unfold Thread.insert; paced
instance insert_rv (o : Nat) (it : Iter) (v : α) [Zone E Z] : Paced Z (Thread.insert_rv E o it v : T α Iter) := by
  unfold Thread.insert_rv; paced
instance insert_alias (o : Nat) (it : Iter) (src : Iter) [Zone E Z] : Paced Z (Thread.insert_alias E o it src : T α Iter) := by
  unfold Thread.insert_alias; paced
instance insert_fill (o : Nat) (it : Iter) (count : Nat) (v : α) [Zone E Z] : Paced Z (Thread.insert_fill E o it count v : T α Iter) := by
  unfold Thread.insert_fill; paced
instance insert_fill_alias (o : Nat) (it : Iter) (count : Nat) (src : Iter) [Zone E Z] : Paced Z (Thread.insert_fill_alias E o it count src : T α Iter) := by
  unfold Thread.insert_fill_alias; paced
instance insert_list (o : Nat) (it : Iter) (vs : List α) [Zone E Z] : Paced Z (Thread.insert_list E o it vs : T α Iter) := by
  unfold Thread.insert_list; paced
instance erase (o : Nat) (it : Iter) [Zone E Z] : Paced Z (Thread.erase E o it : T α Iter) := by
  unfold Thread.erase; paced
instance erase_rng (o : Nat) (first : Iter) (last : Iter) [Zone E Z] : Paced Z (Thread.erase_rng E o first last : T α Iter) := by
  unfold Thread.erase_rng; paced
instance push_back (o : Nat) (v : α) [Zone E Z] : Paced Z (Thread.push_back E o v : T α Unit) := by
  unfold Thread.push_back; paced
instance push_back_rv (o : Nat) (v : α) [Zone E Z] : Paced Z (Thread.push_back_rv E o v : T α Unit) := by
  unfold Thread.push_back_rv; paced
instance pop_back (o : Nat) [Zone E Z] : Paced Z (Thread.pop_back E o : T α Unit) := by
  unfold Thread.pop_back; paced
instance push_front (o : Nat) (v : α) [Zone E Z] : Paced Z (Thread.push_front E o v : T α Unit) := by
  unfold Thread.push_front; paced
instance push_front_rv (o : Nat) (v : α) [Zone E Z] : Paced Z (Thread.push_front_rv E o v : T α Unit) := by
  unfold Thread.push_front_rv; paced
instance pop_front (o : Nat) [Zone E Z] : Paced Z (Thread.pop_front E o : T α Unit) := by
  unfold Thread.pop_front; paced
instance resize (o : Nat) (count : Nat) (v : α) [Zone E Z] : Paced Z (Thread.resize E o count v : T α Unit) := by
  unfold Thread.resize; paced
instance swap (o : Nat) (other : Nat) [Zone E Z] : Paced Z (Thread.swap E o other : T α Unit) := by
  unfold Thread.swap; paced
instance splice (o : Nat) (pos : Iter) (other : Nat) [Zone E Z] : Paced Z (Thread.splice E o pos other : T α Unit) := by
  unfold Thread.splice; paced
instance splice_one (o : Nat) (pos : Iter) (other : Nat) (it : Iter) [Zone E Z] : Paced Z (Thread.splice_one E o pos other it : T α Unit) := by
  unfold Thread.splice_one; paced
instance splice_range (o : Nat) (pos : Iter) (other : Nat) (first : Iter) (last : Iter) [Zone E Z] : Paced Z (Thread.splice_range E o pos other first last : T α Unit) := by
  unfold Thread.splice_range; paced
instance read_range (first : Iter) (last : Iter) [Zone E Z] : Paced Z (Thread.read_range E first last : T α (List α)) := by
  revert first
  refine Thread.read_range.fixpoint_induct E last (fun f => ∀ (first : Iter), Paced Z (f first)) adm1 ?_
  intro f ih first
  paced
instance write_range (first : Iter) (vs : List α) [Zone E Z] : Paced Z (Thread.write_range E first vs) := by
  induction vs generalizing first with
  | nil => exact pure _
  | cons v vs ih => unfold Thread.write_range; paced
instance std_inplace_merge (comp : α → α → Bool) (first : Iter) (mid : Iter) (last : Iter) [Zone E Z] : Paced Z (Thread.std_inplace_merge E comp first mid last : T α Unit) := by
  unfold Thread.std_inplace_merge; paced
instance std_stable_sort (comp : α → α → Bool) (first : Iter) (last : Iter) [Zone E Z] : Paced Z (Thread.std_stable_sort E comp first last : T α Unit) := by
  unfold Thread.std_stable_sort; paced
instance merge (o : Nat) (other : Nat) (comp : α → α → Bool) [Zone E Z] : Paced Z (Thread.merge E o other comp : T α Unit) := by
  unfold Thread.merge; paced
instance std_find_if (p : α → Bool) (first : Iter) (last : Iter) [Zone E Z] : Paced Z (Thread.std_find_if E p first last : T α Iter) := by
  revert first
  refine Thread.std_find_if.fixpoint_induct E p last (fun f => ∀ (first : Iter), Paced Z (f first)) adm1 ?_
  intro f ih first
  paced
instance iter_move_assign (src : Iter) (dst : Iter) [Zone E Z] : Paced Z (Thread.iter_move_assign E src dst : T α Unit) := by
  unfold Thread.iter_move_assign; paced
instance std_remove_loop (p : α → Bool) (first : Iter) (i : Iter) (last : Iter) [Zone E Z] : Paced Z (Thread.std_remove_loop E p first i last : T α Iter) := by
  revert first i
  refine Thread.std_remove_loop.fixpoint_induct E p last (fun f => ∀ (first : Iter) (i : Iter), Paced Z (f first i)) adm2 ?_
  intro f ih first i
  paced
instance std_remove_if (p : α → Bool) (first : Iter) (last : Iter) [Zone E Z] : Paced Z (Thread.std_remove_if E p first last : T α Iter) := by
  unfold Thread.std_remove_if; paced
instance remove_if (o : Nat) (p : α → Bool) [Zone E Z] : Paced Z (Thread.remove_if E o p : T α Unit) := by
  unfold Thread.remove_if; paced
instance remove (o : Nat) (eq : α → α → Bool) (v : α) [Zone E Z] : Paced Z (Thread.remove E o eq v : T α Unit) := by
  unfold Thread.remove; paced
instance iter_swap (a : Iter) (b : Iter) [Zone E Z] : Paced Z (Thread.iter_swap E a b : T α Unit) := by
  unfold Thread.iter_swap; paced
instance std_reverse_loop (first : Iter) (last : Iter) [Zone E Z] : Paced Z (Thread.std_reverse_loop E first last : T α Unit) := by
  revert first last
  refine Thread.std_reverse_loop.fixpoint_induct E (fun f => ∀ (first : Iter) (last : Iter), Paced Z (f first last)) adm2 ?_
  intro f ih first last
  paced
instance std_reverse (first : Iter) (last : Iter) [Zone E Z] : Paced Z (Thread.std_reverse E first last : T α Unit) := by
  unfold Thread.std_reverse; paced
instance reverse (o : Nat) [Zone E Z] : Paced Z (Thread.reverse E o : T α Unit) := by
  unfold Thread.reverse; paced
instance std_unique_loop (p : α → α → Bool) (result : Iter) (first : Iter) (last : Iter) [Zone E Z] : Paced Z (Thread.std_unique_loop E p result first last : T α Iter) := by
  revert result first
  refine Thread.std_unique_loop.fixpoint_induct E p last (fun f => ∀ (result : Iter) (first : Iter), Paced Z (f result first)) adm2 ?_
  intro f ih result first
  paced
instance std_unique (p : α → α → Bool) (first : Iter) (last : Iter) [Zone E Z] : Paced Z (Thread.std_unique E p first last : T α Iter) := by
  unfold Thread.std_unique; paced
instance unique (o : Nat) (p : α → α → Bool) [Zone E Z] : Paced Z (Thread.unique E o p : T α Unit) := by
  unfold Thread.unique; paced
instance sort (o : Nat) (comp : α → α → Bool) [Zone E Z] : Paced Z (Thread.sort E o comp : T α Unit) := by
  unfold Thread.sort; paced
instance std_equal (eq : α → α → Bool) (first1 : Iter) (last1 : Iter) (first2 : Iter) [Zone E Z] : Paced Z (Thread.std_equal E eq first1 last1 first2 : T α Bool) := by
  revert first1 first2
  refine Thread.std_equal.fixpoint_induct E eq last1 (fun f => ∀ (first1 : Iter) (first2 : Iter), Paced Z (f first1 first2)) adm2 ?_
  intro f ih first1 first2
  paced
instance op_eq (eq : α → α → Bool) (a : Nat) (b : Nat) [Zone E Z] : Paced Z (Thread.op_eq E eq a b : T α Bool) := by
  unfold Thread.op_eq; paced
instance op_ne (eq : α → α → Bool) (a : Nat) (b : Nat) [Zone E Z] : Paced Z (Thread.op_ne E eq a b : T α Bool) := by
  unfold Thread.op_ne; paced
instance std_lex (lt : α → α → Bool) (first1 : Iter) (last1 : Iter) (first2 : Iter) (last2 : Iter) [Zone E Z] : Paced Z (Thread.std_lex E lt first1 last1 first2 last2 : T α Bool) := by
  revert first1 first2
  refine Thread.std_lex.fixpoint_induct E lt last1 last2 (fun f => ∀ (first1 : Iter) (first2 : Iter), Paced Z (f first1 first2)) adm2 ?_
  intro f ih first1 first2
  paced
instance op_lt (lt : α → α → Bool) (a : Nat) (b : Nat) [Zone E Z] : Paced Z (Thread.op_lt E lt a b : T α Bool) := by
  unfold Thread.op_lt; paced
instance op_le (lt : α → α → Bool) (a : Nat) (b : Nat) [Zone E Z] : Paced Z (Thread.op_le E lt a b : T α Bool) := by
  unfold Thread.op_le; paced
instance op_gt (lt : α → α → Bool) (a : Nat) (b : Nat) [Zone E Z] : Paced Z (Thread.op_gt E lt a b : T α Bool) := by
  unfold Thread.op_gt; paced
instance op_ge (lt : α → α → Bool) (a : Nat) (b : Nat) [Zone E Z] : Paced Z (Thread.op_ge E lt a b : T α Bool) := by
  unfold Thread.op_ge; paced
instance it_add (it : Iter) (d : Int) [Zone E Z] : Paced Z (Thread.it_add E it d : T α Iter) := by
  unfold Thread.it_add; paced
instance it_sub (it : Iter) (d : Int) [Zone E Z] : Paced Z (Thread.it_sub E it d : T α Iter) := by
  unfold Thread.it_sub; paced
instance it_index (it : Iter) (d : Int) [Zone E Z] : Paced Z (Thread.it_index E it d : T α α) := by
  unfold Thread.it_index; paced

end Paced
end SegTree
