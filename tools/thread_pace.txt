/-
  GENERATED by tools/gen_cost.py: how each function, in a thread among others, gets
  from one access to the next.
-/
import Verif.Thread.Sim
set_option autoImplicit false
set_option linter.unusedVariables false
set_option linter.unusedSimpArgs false

namespace SegTree
open Lean.Order

variable {α β γ : Type} {E : Env α} {Z : Loc → Prop}

/-- the same thread, allowed one access more -/
def Th.more (s : Th α) : Th α := { s with limit := s.limit + 1 }

/-- From `s1` to `s2` the thread made one access: it found its own memory as it had left
it, changed nothing that is not its own, took nothing that was in use, nothing outside
`Z`, left nothing in what it gave back and something in all it owns. -/
structure Access (Z : Loc → Prop) (s1 s2 : Th α) : Prop where
  step : s2.step = s1.step + 1
  lent : s2.lent = s1.lent
  env : s2.env = s1.env
  kept : ∀ l, s1.own l = true ∨ s1.lent l = true → s1.env s1.step l = s1.mem.cell l
  alien : ∀ l, s1.own l = false → s2.own l = false → s2.mem.cell l = s1.env s1.step l
  gain : ∀ l, s1.own l = false → s2.own l = true → s1.env s1.step l = none ∧ s1.lent l = false ∧ Z l
  lose : ∀ l, s1.own l = true → s2.own l = false → s2.mem.cell l = none
  live : (∀ l, s1.own l = true → s1.env s1.step l ≠ none) → ∀ l, s2.own l = true → s2.mem.cell l ≠ none

/-- the state an outcome leaves the thread in -/
def TRes.state : TRes α β → Option (Th α)
  | .ok _ s => some s
  | .throw _ s => some s
  | .paused s => some s
  | _ => none

/-- the thread was stopped: by storage in use (`some l`), or by a change to its memory -/
def TRes.halt : TRes α β → Option (Option Loc)
  | .taken l => some (some l)
  | .torn => some none
  | _ => none

/-- a reason to stop at the next access -/
def Halted (Z : Loc → Prop) (s : Th α) : Option Loc → Prop
  | some l => Z l ∧ s.own l = false ∧ (s.env s.step l ≠ none ∨ s.lent l = true)
  | none => ¬ ∀ l, s.own l = true ∨ s.lent l = true → s.env s.step l = s.mem.cell l

/-- outcomes with `n` and with `n + 1` accesses -/
def Next (Z : Loc → Prop) (r r' : TRes α β) : Prop :=
  match r with
  | .ok v s => r' = .ok v s.more
  | .throw e s => r' = .throw e s.more
  | .ub u => r' = .ub u
  | .race l => r' = .race l
  | .torn => r' = .torn
  | .taken l => r' = .taken l ∧ Z l
  | .paused s => (∀ s2, r'.state = some s2 → Access Z s s2) ∧ ∀ h, r'.halt = some h → Halted Z s h
  | .div => True

/-- what an outcome keeps of the state before -/
structure Held (s : Th α) (r : TRes α β) : Prop where
  keeps : ∀ s2, r.state = some s2 → s2.lent = s.lent ∧ s2.env = s.env ∧ s2.limit = s.limit ∧ s2.step ≤ s2.limit
  full : ∀ s2, r = .paused s2 → s2.step = s2.limit
  still : s.step = s.limit → ∀ s2, r.state = some s2 → s2 = s
  stops : s.step = s.limit → r.halt = none

structure Pace (Z : Loc → Prop) (s : Th α) (r r' : TRes α β) : Prop where
  held : Held s r
  next : r' = .div ∨ Next Z r r'

class Paced (Z : Loc → Prop) (y : T α β) : Prop where
  run : ∀ s : Th α, s.step ≤ s.limit → Pace Z s (y s) (y s.more)

class PacedSrc (Z : Loc → Prop) {σ : Type} (S : Thread.Src α σ) : Prop where
  read : ∀ x, Paced Z (S.read x)
  next : ∀ x, Paced Z (S.next x)

/-- the addresses the allocator hands out lie in `Z` -/
class Zone (E : Env α) (Z : Loc → Prop) : Prop where
  heap : ∀ n, E.oracle n = 0 ∨ Z (.heap (E.oracle n))

/-- the name of the new object lies in `Z` -/
class Named (Z : Loc → Prop) (o : Nat) : Prop where
  out : Z (.obj o)

theorem Held.stuck {s : Th α} {r : TRes α β} (h1 : r.state = none) (h2 : s.step = s.limit → r.halt = none) :
    Held s r where
  keeps s2 e := by rw [h1] at e; cases e
  full s2 e := by rw [e] at h1; cases h1
  still _ s2 e := by rw [h1] at e; cases e
  stops := h2

theorem Held.ok {s s2 : Th α} {v : β} (h : s2.lent = s.lent ∧ s2.env = s.env ∧ s2.limit = s.limit ∧ s2.step ≤ s2.limit)
    (h2 : s.step = s.limit → s2 = s) : Held s (.ok v s2 : TRes α β) where
  keeps s2 e := by cases e; exact h
  full s2 e := by cases e
  still hs s2 e := by cases e; exact h2 hs
  stops _ := rfl

theorem Held.throw {s s2 : Th α} {v : Exn} (h : s2.lent = s.lent ∧ s2.env = s.env ∧ s2.limit = s.limit ∧ s2.step ≤ s2.limit)
    (h2 : s.step = s.limit → s2 = s) : Held s (.throw v s2 : TRes α β) where
  keeps s2 e := by cases e; exact h
  full s2 e := by cases e
  still hs s2 e := by cases e; exact h2 hs
  stops _ := rfl

theorem Held.paused {s s2 : Th α} (h : s2.lent = s.lent ∧ s2.env = s.env ∧ s2.limit = s.limit ∧ s2.step ≤ s2.limit)
    (h1 : s2.step = s2.limit) (h2 : s.step = s.limit → s2 = s) : Held s (.paused s2 : TRes α β) where
  keeps s2 e := by cases e; exact h
  full s2 e := by cases e; exact h1
  still hs s2 e := by cases e; exact h2 hs
  stops _ := rfl

theorem Held.trans {s s1 : Th α} {r1 : TRes α β} {r : TRes α γ} (h1 : Held s r1) (e : r1.state = some s1) (h : Held s1 r) : Held s r where
  keeps s2 e2 := by
    obtain ⟨k1, k2, k3, k4⟩ := h1.keeps s1 e
    obtain ⟨a, b, c, d⟩ := h.keeps s2 e2
    exact ⟨a.trans k1, b.trans k2, c.trans k3, d⟩
  full := h.full
  still hs := by
    have := h1.still hs s1 e
    subst this
    exact h.still hs
  stops hs := by
    have := h1.still hs s1 e
    subst this
    exact h.stops hs

/-- an outcome with the same effect on the thread -/
theorem Held.like {s : Th α} {r : TRes α β} {r' : TRes α γ} (h : Held s r) (e1 : r'.state = r.state) (e2 : ∀ s2, r' = .paused s2 → r = .paused s2)
    (e3 : r'.halt = r.halt) : Held s r' :=
  ⟨fun s2 e => h.keeps s2 (e1 ▸ e), fun s2 e => h.full s2 (e2 s2 e), fun hs s2 e => h.still hs s2 (e1 ▸ e), fun hs => e3.trans (h.stops hs)⟩

theorem Next.like {s : Th α} {r' : TRes α β} {q : TRes α γ} (h : (∀ s2, r'.state = some s2 → Access Z s s2) ∧ ∀ h, r'.halt = some h → Halted Z s h)
    (e1 : q.state = r'.state) (e3 : q.halt = r'.halt) : (∀ s2, q.state = some s2 → Access Z s s2) ∧ ∀ h, q.halt = some h → Halted Z s h :=
  ⟨fun s2 e => h.1 s2 (e1 ▸ e), fun l e => h.2 l (e3 ▸ e)⟩

namespace Paced

instance pure (v : β) : Paced Z (Pure.pure v : T α β) := ⟨fun s h => ⟨.ok ⟨rfl, rfl, rfl, h⟩ fun _ => rfl, .inr rfl⟩⟩
instance ub (k : UB) : Paced Z (T.ub k : T α β) := ⟨fun s h => ⟨.stuck rfl (fun _ => rfl), .inr rfl⟩⟩
instance thr (e : Exn) : Paced Z (T.throw e : T α β) := ⟨fun s h => ⟨.throw ⟨rfl, rfl, rfl, h⟩ fun _ => rfl, .inr rfl⟩⟩
instance ite {c : Prop} [Decidable c] {x y : T α β} [Paced Z x] [Paced Z y] : Paced Z (if c then x else y) := by
  split <;> assumption

/-- what comes after the last access -/
theorem after {s1 s2 : Th α} {y : T α β} (hy : Paced Z y) (h : s1.step = s1.limit) (hl : s2.limit = s1.limit + 1) (ha : Access Z s1 s2) :
    (∀ s3, (y s2).state = some s3 → Access Z s1 s3) ∧ ∀ h, (y s2).halt = some h → Halted Z s1 h := by
  have hs : s2.step = s2.limit := by rw [ha.step, hl, h]
  have := (hy.run s2 (by omega)).held
  exact ⟨fun s3 e => by rw [this.still hs s3 e]; exact ha, fun l e => by rw [this.stops hs] at e; cases e⟩

instance bind {x : T α β} {f : β → T α γ} [hx : Paced Z x] [hf : ∀ v, Paced Z (f v)] : Paced Z (x >>= f) := by
  refine ⟨fun s h => ?_⟩
  show Pace Z s (T.bind x f s) (T.bind x f s.more)
  obtain ⟨h1, hn⟩ := hx.run s h
  have h2 := (hx.run s.more (Nat.le_succ_of_le h)).held
  unfold T.bind
  generalize x s = r at h1 hn
  generalize x s.more = r' at h2 hn
  constructor
  · cases r with
    | ok v s1 => exact h1.trans rfl ((hf v).run s1 (h1.keeps s1 rfl).2.2.2).held
    | _ => exact h1.like rfl (fun _ e => by cases e <;> rfl) rfl
  · rcases hn with rfl | hn
    · exact .inl rfl
    · cases r with
      | ok v s1 => cases hn; exact ((hf v).run s1 (h1.keeps s1 rfl).2.2.2).next
      | throw e s1 => cases hn; exact .inr rfl
      | ub u => cases hn; exact .inr rfl
      | race l => cases hn; exact .inr rfl
      | torn => cases hn; exact .inr rfl
      | taken l => cases hn.1; exact .inr ⟨rfl, hn.2⟩
      | div => exact .inr trivial
      | paused s1 =>
        right
        show (∀ s2, _ → _) ∧ _
        cases r' with
        | ok v s2 =>
          refine after (hf v) (h1.full s1 rfl) ?_ (hn.1 s2 rfl)
          rw [(h2.keeps s2 rfl).2.2.1, (h1.keeps s1 rfl).2.2.1]; rfl
        | _ => exact Next.like hn rfl rfl

instance onThrow {x : T α β} {f : T α Unit} [hx : Paced Z x] [hf : Paced Z f] : Paced Z (T.onThrow x f) := by
  refine ⟨fun s h => ?_⟩
  obtain ⟨h1, hn⟩ := hx.run s h
  have h2 := (hx.run s.more (Nat.le_succ_of_le h)).held
  unfold T.onThrow
  generalize x s = r at h1 hn
  generalize x s.more = r' at h2 hn
  constructor
  · cases r with
    | throw v s1 =>
      have := h1.trans rfl (hf.run s1 (h1.keeps s1 rfl).2.2.2).held
      dsimp only
      generalize f s1 = q at this
      cases q <;> exact this.like rfl (fun _ e => by cases e <;> rfl) rfl
    | _ => exact h1.like rfl (fun _ e => by cases e <;> rfl) rfl
  · rcases hn with rfl | hn
    · exact .inl rfl
    · cases r with
      | throw v s1 =>
        cases hn
        have := (hf.run s1 (h1.keeps s1 rfl).2.2.2).next
        dsimp only
        generalize f s1 = q at this
        generalize f s1.more = q' at this
        rcases this with rfl | this
        · exact .inl rfl
        · cases q with
          | ok v s1 => cases this; exact .inr rfl
          | throw e s1 => cases this; exact .inr rfl
          | ub u => cases this; exact .inr rfl
          | race l => cases this; exact .inr rfl
          | torn => cases this; exact .inr rfl
          | taken l => cases this.1; exact .inr ⟨rfl, this.2⟩
          | div => exact .inr trivial
          | paused s1 =>
            right
            show (∀ s2, _ → _) ∧ _
            cases q' <;> exact Next.like this rfl rfl
      | ok e s1 => cases hn; exact .inr rfl
      | ub u => cases hn; exact .inr rfl
      | race l => cases hn; exact .inr rfl
      | torn => cases hn; exact .inr rfl
      | taken l => cases hn.1; exact .inr ⟨rfl, hn.2⟩
      | div => exact .inr trivial
      | paused s1 =>
        right
        show (∀ s2, _ → _) ∧ _
        cases r' with
        | throw v s2 =>
          have := after hf (h1.full s1 rfl) (by rw [(h2.keeps s2 rfl).2.2.1, (h1.keeps s1 rfl).2.2.1]; rfl) (hn.1 s2 rfl)
          dsimp only
          generalize f s2 = q at this
          cases q <;> exact Next.like this rfl rfl
        | _ => exact Next.like hn rfl rfl

instance attempt {x : T α β} [hx : Paced Z x] : Paced Z (T.attempt x) := by
  refine ⟨fun s h => ?_⟩
  obtain ⟨h1, hn⟩ := hx.run s h
  unfold T.attempt
  generalize x s = r at h1 hn
  generalize x s.more = r' at hn
  constructor
  · cases r <;> exact h1.like rfl (fun _ e => by cases e <;> rfl) rfl
  · rcases hn with rfl | hn
    · exact .inl rfl
    · cases r with
      | ok e s1 => cases hn; exact .inr rfl
      | throw e s1 => cases hn; exact .inr rfl
      | ub u => cases hn; exact .inr rfl
      | race l => cases hn; exact .inr rfl
      | torn => cases hn; exact .inr rfl
      | taken l => cases hn.1; exact .inr ⟨rfl, hn.2⟩
      | div => exact .inr trivial
      | paused s1 =>
        right
        show (∀ s2, _ → _) ∧ _
        cases r' <;> exact Next.like hn rfl rfl

/-! #### the primitives -/

/-- an access that is made: the outcome, but for the limit -/
structure Acts (Z : Loc → Prop) (act : Th α → TRes α β) : Prop where
  more : ∀ s : Th α, act s.more = match act s with
    | .ok v s => .ok v s.more
    | .throw e s => .throw e s.more
    | .ub u => .ub u
    | .race l => .race l
    | .torn => .torn
    | .taken l => .taken l
    | .paused s => .paused s.more
    | .div => .div
  acts : ∀ (s s2 : Th α), (act s).state = some s2 → (∀ s3, act s ≠ .paused s3) ∧ s2.limit = s.limit ∧ s2.lent = s.lent ∧
    s2.env = s.env ∧ s2.step = s.step + 1 ∧ (∀ l, s.own l = false → s2.own l = false → s2.mem.cell l = s.env s.step l) ∧
    (∀ l, s.own l = false → s2.own l = true → s.env s.step l = none ∧ s.lent l = false ∧ Z l) ∧
    (∀ l, s.own l = true → s2.own l = false → s2.mem.cell l = none) ∧
    ((∀ l, s.own l = true → s.env s.step l ≠ none) → ∀ l, s2.own l = true → s2.mem.cell l ≠ none)
  zone : ∀ (s : Th α) h, (act s).halt = some h → ∃ l, h = some l ∧ Z l ∧ s.own l = false ∧ (s.env s.step l ≠ none ∨ s.lent l = true)

theorem access_pause {act : Th α → TRes α β} {s : Th α} (h : s.limit ≤ s.step) : T.access act s = .paused s := if_pos h
theorem access_act {act : Th α → TRes α β} {s : Th α} (h : s.step < s.limit)
    (ha : ∀ l, s.own l = true ∨ s.lent l = true → s.env s.step l = s.mem.cell l) : T.access act s = act s := by
  unfold T.access; rw [if_neg (by omega), if_pos ha]
theorem access_torn {act : Th α → TRes α β} {s : Th α} (h : s.step < s.limit)
    (ha : ¬ ∀ l, s.own l = true ∨ s.lent l = true → s.env s.step l = s.mem.cell l) : T.access act s = .torn := by
  unfold T.access; rw [if_neg (by omega), if_neg ha]

theorem access {act : Th α → TRes α β} (h : Acts Z act) : Paced Z (T.access act) := by
  refine ⟨fun s hs => ?_⟩
  have hlt : s.more.step < s.more.limit := by show s.step < s.limit + 1; omega
  by_cases hl : s.limit ≤ s.step
  · rw [access_pause hl]
    refine ⟨.paused ⟨rfl, rfl, rfl, hs⟩ (by omega) (fun _ => rfl), .inr ?_⟩
    show (∀ s2, _ → _) ∧ _
    by_cases ha : ∀ l, s.own l = true ∨ s.lent l = true → s.env s.step l = s.mem.cell l
    · rw [access_act hlt ha]
      refine ⟨fun s2 e => ?_, fun l e => by obtain ⟨k, rfl, h⟩ := h.zone _ l e; exact h⟩
      obtain ⟨-, -, h2, h3, h4, h5, h6, h7, h8⟩ := h.acts s.more s2 e
      exact ⟨h4, h2, h3, ha, h5, h6, h7, h8⟩
    · rw [access_torn hlt ha]
      exact ⟨fun _ e => (by cases e), fun _ e => by cases e; exact ha⟩
  · have hm := h.more s
    by_cases ha : ∀ l, s.own l = true ∨ s.lent l = true → s.env s.step l = s.mem.cell l
    · rw [access_act hlt ha, access_act (by omega) ha]
      have ha := h.acts s
      have hz := h.zone s
      rw [hm]
      cases hr : act s with
      | ok v s2 =>
        rw [hr] at ha
        obtain ⟨-, h1, h2, h3, h4, -⟩ := ha s2 rfl
        exact ⟨.ok ⟨h2, h3, h1, by omega⟩ (by omega), .inr rfl⟩
      | throw v s2 =>
        rw [hr] at ha
        obtain ⟨-, h1, h2, h3, h4, -⟩ := ha s2 rfl
        exact ⟨.throw ⟨h2, h3, h1, by omega⟩ (by omega), .inr rfl⟩
      | paused s2 => rw [hr] at ha; exact absurd rfl ((ha s2 rfl).1 s2)
      | ub u => exact ⟨.stuck rfl (fun _ => rfl), .inr rfl⟩
      | race l => exact ⟨.stuck rfl (fun _ => rfl), .inr rfl⟩
      | torn => exact ⟨.stuck rfl (fun e => by omega), .inr rfl⟩
      | taken l => exact ⟨.stuck rfl (fun e => by omega), .inr ⟨rfl, by obtain ⟨k, e, h⟩ := hz (some l) (by rw [hr]; rfl); cases e; exact h.1⟩⟩
      | div => exact ⟨.stuck rfl (fun _ => rfl), .inr trivial⟩
    · rw [access_torn hlt ha, access_torn (by omega) ha]
      exact ⟨.stuck rfl (fun e => by omega), .inr rfl⟩

theorem perform_more (x : M α β) (s : Th α) (own : Loc → Bool) :
    T.perform x s.more own = match T.perform x s own with
    | .ok v s => .ok v s.more
    | .throw e s => .throw e s.more
    | .ub u => .ub u
    | .race l => .race l
    | .torn => .torn
    | .taken l => .taken l
    | .paused s => .paused s.more
    | .div => .div := by
  unfold T.perform
  simp only [Th.more]
  cases x { s.mem with cell := s.env s.step } <;> rfl

theorem perform_state {x : M α β} {s s2 : Th α} {own : Loc → Bool} (h : (T.perform x s own).state = some s2) :
    (∀ s3, T.perform x s own ≠ .paused s3) ∧ s2.limit = s.limit ∧ s2.lent = s.lent ∧ s2.env = s.env ∧ s2.step = s.step + 1 ∧
    ((∃ v, x { s.mem with cell := s.env s.step } = .ok v s2.mem ∧ s2.own = own) ∨
      ∃ e, x { s.mem with cell := s.env s.step } = .throw e s2.mem ∧ s2.own = s.own) := by
  unfold T.perform at *
  cases hx : x { s.mem with cell := s.env s.step } with
  | ok v m =>
    rw [hx] at h; cases h
    exact ⟨fun _ e => (by cases e), rfl, rfl, rfl, rfl, .inl ⟨v, rfl, rfl⟩⟩
  | throw v m =>
    rw [hx] at h; cases h
    exact ⟨fun _ e => (by cases e), rfl, rfl, rfl, rfl, .inr ⟨v, rfl, rfl⟩⟩
  | ub u => rw [hx] at h; cases h
  | div => rw [hx] at h; cases h

/-- the memory after `x` is the one before it -/
theorem local_ {x : M α β} (hx : ∀ m, (∀ v m', x m = .ok v m' → m'.cell = m.cell) ∧ ∀ e m', x m = .throw e m' → m'.cell = m.cell) :
    Paced Z (T.local_ x) := by
  refine access ⟨fun s => perform_more .., fun s s2 e => ?_, fun s l e => ?_⟩
  · obtain ⟨h0, h1, h2, h3, h4, h5⟩ := perform_state e
    have hc : s2.mem.cell = s.env s.step := by
      rcases h5 with ⟨v, e, -⟩ | ⟨v, e, -⟩
      · exact (hx _).1 v _ e
      · exact (hx _).2 v _ e
    have ho : s2.own = s.own := by rcases h5 with ⟨v, -, e⟩ | ⟨v, -, e⟩ <;> exact e
    exact ⟨h0, h1, h2, h3, h4, fun l _ _ => by rw [hc], fun l a b => by (rw [ho, a] at b; cases b), fun l a b => by (rw [ho, a] at b; cases b),
      fun hk k h => by (rw [hc]; exact hk k (ho ▸ h))⟩
  · exfalso
    unfold T.perform at e
    split at e <;> cases e

theorem reads {l : Loc} {x : M α β} (hx : ∀ m, (∃ v, x m = .ok v m) ∨ ∃ u, x m = .ub u) : Paced Z (T.reads l x) := by
  refine access ⟨fun s => ?_, fun s s2 e => ?_, fun s k e => ?_⟩
  · show (if (s.own l || s.lent l) = true then _ else _) = _
    split
    · exact perform_more ..
    · rfl
  · split at e
    · rename_i hc
      obtain ⟨h0, h1, h2, h3, h4, h5⟩ := perform_state e
      have hc' : s2.mem.cell = s.env s.step := by
        rcases hx { s.mem with cell := s.env s.step } with ⟨w, e'⟩ | ⟨u, e'⟩
        · rw [e'] at h5
          rcases h5 with ⟨v, e, -⟩ | ⟨v, e, -⟩
          · injection e with _ e
            rw [← e]
          · cases e
        · rw [e'] at h5
          rcases h5 with ⟨v, e, -⟩ | ⟨v, e, -⟩ <;> cases e
      have ho : s2.own = s.own := by rcases h5 with ⟨v, -, e⟩ | ⟨v, -, e⟩ <;> exact e
      rw [if_pos hc]
      exact ⟨h0, h1, h2, h3, h4, fun l _ _ => by rw [hc'], fun l a b => by (rw [ho, a] at b; cases b), fun l a b => by (rw [ho, a] at b; cases b),
        fun hk k h => by (rw [hc']; exact hk k (ho ▸ h))⟩
    · cases e
  · exfalso
    split at e
    · unfold T.perform at e
      split at e <;> cases e
    · cases e

theorem writes {l : Loc} {x : M α β} (hx : ∀ m, (∃ v c, x m = .ok v (m.set l c)) ∨ ∃ u, x m = .ub u) : Paced Z (T.writes l x) := by
  refine access ⟨fun s => ?_, fun s s2 e => ?_, fun s k e => ?_⟩
  · show (if (s.own l && !s.lent l) = true then _ else _) = _
    split
    · exact perform_more ..
    · rfl
  · split at e
    · rename_i hc
      obtain ⟨h0, h1, h2, h3, h4, h5⟩ := perform_state e
      have hl : s.own l = true := by rw [Bool.and_eq_true] at hc; exact hc.1
      have hc' : ∀ k, k ≠ l → s2.mem.cell k = s.env s.step k := fun k hk => by
        rcases hx { s.mem with cell := s.env s.step } with ⟨w, c, e'⟩ | ⟨u, e'⟩
        · rw [e'] at h5
          rcases h5 with ⟨v, e, -⟩ | ⟨v, e, -⟩
          · injection e with _ e
            rw [← e]
            show upd _ l _ k = _
            simp only [upd]
            rw [if_neg hk]
          · cases e
        · rw [e'] at h5
          rcases h5 with ⟨v, e, -⟩ | ⟨v, e, -⟩ <;> cases e
      have ho : s2.own = s.own := by rcases h5 with ⟨v, -, e⟩ | ⟨v, -, e⟩ <;> exact e
      have hs' : s2.mem.cell l ≠ none := by
        rcases hx { s.mem with cell := s.env s.step } with ⟨w, c, e'⟩ | ⟨u, e'⟩
        · rw [e'] at h5
          rcases h5 with ⟨v, e, -⟩ | ⟨v, e, -⟩
          · injection e with _ e
            rw [← e]
            show upd _ l _ l ≠ _
            simp only [upd]
            rw [if_pos trivial]
            exact Option.some_ne_none _
          · cases e
        · rw [e'] at h5
          rcases h5 with ⟨v, e, -⟩ | ⟨v, e, -⟩ <;> cases e
      rw [if_pos hc]
      exact ⟨h0, h1, h2, h3, h4, fun k a _ => hc' k fun e => by (subst e; rw [a] at hl; cases hl),
        fun l a b => by (rw [ho, a] at b; cases b), fun l a b => by (rw [ho, a] at b; cases b),
        fun hk k h => by
          by_cases e : k = l
          · rw [e]; exact hs'
          · rw [hc' k e]; exact hk k (ho ▸ h)⟩
    · cases e
  · exfalso
    split at e
    · unfold T.perform at e
      split at e <;> cases e
    · cases e

theorem releases {l : Loc} {x : M α β} (hx : ∀ m, (∃ v, x m = .ok v (m.erase l)) ∨ ∃ u, x m = .ub u) : Paced Z (T.releases l x) := by
  refine access ⟨fun s => ?_, fun s s2 e => ?_, fun s k e => ?_⟩
  · show (if (s.own l && !s.lent l) = true then _ else _) = _
    split
    · exact perform_more ..
    · rfl
  · split at e
    · rename_i hc
      obtain ⟨h0, h1, h2, h3, h4, h5⟩ := perform_state e
      have hl : s.own l = true := by rw [Bool.and_eq_true] at hc; exact hc.1
      rw [if_pos hc]
      rcases hx { s.mem with cell := s.env s.step } with ⟨w, e'⟩ | ⟨u, e'⟩
      · rw [e'] at h5
        rcases h5 with ⟨v, e, ho⟩ | ⟨v, e, -⟩
        · injection e with _ e
          rw [← e]
          refine ⟨h0, h1, h2, h3, h4, fun k a _ => ?_, fun k a b => ?_, fun k a b => ?_, fun hk k b => ?_⟩
          rotate_right
          · rw [ho] at b
            show upd _ l _ k ≠ _
            simp only [upd] at b ⊢
            split at b
            · cases b
            · rename_i hne; rw [if_neg hne]; exact hk k b
          · show upd _ l _ k = _
            simp only [upd]
            rw [if_neg fun e => by (subst e; rw [a] at hl; cases hl)]
          · exfalso
            rw [ho] at b
            simp only [upd] at b
            split at b
            · cases b
            · rw [a] at b; cases b
          · show upd _ l _ k = _
            rw [ho] at b
            simp only [upd] at b ⊢
            split
            · rfl
            · rename_i hne; rw [if_neg hne, a] at b; cases b
        · cases e
      · rw [e'] at h5
        rcases h5 with ⟨v, e, -⟩ | ⟨v, e, -⟩ <;> cases e
    · cases e
  · exfalso
    split at e
    · unfold T.perform at e
      split at e <;> cases e
    · cases e

theorem acquires {offer : Log → Loc} {x : M α β}
    (hx : ∀ m, (∃ v m' c, x m = .ok v m' ∧ m'.cell = upd m.cell (offer m.log) (some c) ∧ offer m.log ≠ .heap 0) ∨
      (∃ e m', x m = .throw e m' ∧ m'.cell = m.cell) ∨ ∃ u, x m = .ub u)
    (hz : ∀ g, offer g = .heap 0 ∨ Z (offer g)) : Paced Z (T.acquires offer x) := by
  refine access ⟨fun s => ?_, fun s s2 e => ?_, fun s k e => ?_⟩
  · dsimp only
    show (if offer s.mem.log = .heap 0 ∨ s.own (offer s.mem.log) = true then _ else
      if ((s.env s.step (offer s.mem.log)).isSome || s.lent (offer s.mem.log)) = true then _ else _) = _
    split
    · exact perform_more ..
    · split
      · rfl
      · exact perform_more ..
  · dsimp only at e
    split at e
    · rename_i hc
      dsimp only
      obtain ⟨h0, h1, h2, h3, h4, h5⟩ := perform_state e
      rw [if_pos hc]
      have ho : s2.own = s.own := by rcases h5 with ⟨v, -, e⟩ | ⟨v, -, e⟩ <;> exact e
      refine ⟨h0, h1, h2, h3, h4, fun k a _ => ?_, fun l a b => by (rw [ho, a] at b; cases b), fun l a b => by (rw [ho, a] at b; cases b), fun hk k h => ?_⟩
      rotate_right
      · rcases hx { s.mem with cell := s.env s.step } with ⟨w, m', c, e', hc', hne⟩ | ⟨w, m', e', hc'⟩ | ⟨u, e'⟩
        · rw [e'] at h5
          rcases h5 with ⟨v, e, -⟩ | ⟨v, e, -⟩
          · injection e with _ e
            rw [← e, hc']
            simp only [upd]
            split
            · exact Option.some_ne_none _
            · exact hk k (ho ▸ h)
          · cases e
        · rw [e'] at h5
          rcases h5 with ⟨v, e, -⟩ | ⟨v, e, -⟩
          · cases e
          · injection e with _ e
            rw [← e, hc']; exact hk k (ho ▸ h)
        · rw [e'] at h5
          rcases h5 with ⟨v, e, -⟩ | ⟨v, e, -⟩ <;> cases e
      rcases hx { s.mem with cell := s.env s.step } with ⟨w, m', c, e', hc', hne⟩ | ⟨w, m', e', hc'⟩ | ⟨u, e'⟩
      · rw [e'] at h5
        rcases h5 with ⟨v, e, -⟩ | ⟨v, e, -⟩
        · injection e with _ e
          rw [← e, hc']
          simp only [upd]
          rw [if_neg]
          intro hk
          rcases hc with hc | hc
          · exact hne hc
          · rw [hk] at a
            rw [show s.own (offer s.mem.log) = true from hc] at a; cases a
        · cases e
      · rw [e'] at h5
        rcases h5 with ⟨v, e, -⟩ | ⟨v, e, -⟩
        · cases e
        · injection e with _ e
          rw [← e, hc']
      · rw [e'] at h5
        rcases h5 with ⟨v, e, -⟩ | ⟨v, e, -⟩ <;> cases e
    · rename_i hc
      split at e
      · cases e
      · rename_i hfree
        dsimp only
        rw [if_neg hc, if_neg hfree]
        obtain ⟨h0, h1, h2, h3, h4, h5⟩ := perform_state e
        simp only [Bool.or_eq_true, not_or, Bool.not_eq_true] at hfree
        have hnone : s.env s.step (offer s.mem.log) = none := by simpa using hfree.1
        have hzz : Z (offer s.mem.log) := (hz s.mem.log).resolve_left fun e => hc (.inl e)
        refine ⟨h0, h1, h2, h3, h4, fun k a b => ?_, fun k a b => ?_, fun k a b => ?_, fun hk k b => ?_⟩
        rotate_right
        · rcases hx { s.mem with cell := s.env s.step } with ⟨w, m', c, e', hc', hne⟩ | ⟨w, m', e', hc'⟩ | ⟨u, e'⟩
          · rw [e'] at h5
            rcases h5 with ⟨v, e, ho⟩ | ⟨v, e, -⟩
            · injection e with _ e
              rw [← e, hc']
              rw [ho] at b
              simp only [upd] at b ⊢
              split
              · exact Option.some_ne_none _
              · rename_i hne; exact hk k ((if_neg hne).symm.trans b)
            · cases e
          · rw [e'] at h5
            rcases h5 with ⟨v, e, -⟩ | ⟨v, e, ho⟩
            · cases e
            · injection e with _ e
              rw [← e, hc']; exact hk k (ho ▸ b)
          · rw [e'] at h5
            rcases h5 with ⟨v, e, -⟩ | ⟨v, e, -⟩ <;> cases e
        · rcases hx { s.mem with cell := s.env s.step } with ⟨w, m', c, e', hc', hne⟩ | ⟨w, m', e', hc'⟩ | ⟨u, e'⟩
          · rw [e'] at h5
            rcases h5 with ⟨v, e, ho⟩ | ⟨v, e, -⟩
            · injection e with _ e
              rw [← e, hc']
              rw [ho] at b
              simp only [upd] at b ⊢
              split at b
              · cases b
              · rename_i hne; rw [if_neg hne]
            · cases e
          · rw [e'] at h5
            rcases h5 with ⟨v, e, -⟩ | ⟨v, e, -⟩
            · cases e
            · injection e with _ e
              rw [← e, hc']
          · rw [e'] at h5
            rcases h5 with ⟨v, e, -⟩ | ⟨v, e, -⟩ <;> cases e
        · have : k = offer s.mem.log := by
            rcases h5 with ⟨v, e, ho⟩ | ⟨v, e, ho⟩
            · rw [ho] at b
              simp only [upd] at b
              split at b
              · assumption
              · rw [a] at b; cases b
            · rw [ho, a] at b; cases b
          subst this
          exact ⟨hnone, hfree.2, hzz⟩
        · exfalso
          rcases h5 with ⟨v, e, ho⟩ | ⟨v, e, ho⟩
          · rw [ho] at b
            simp only [upd] at b
            split at b
            · cases b
            · rw [a] at b; cases b
          · rw [ho, a] at b; cases b
  · dsimp only at e
    split at e
    · unfold T.perform at e
      split at e <;> cases e
    · rename_i hc
      split at e
      · cases e
        rename_i hu
        refine ⟨_, rfl, (hz s.mem.log).resolve_left fun e => hc (.inl e), ?_, ?_⟩
        · have : ¬ s.own (offer s.mem.log) = true := fun e => hc (.inr e)
          simpa using this
        · rw [Bool.or_eq_true] at hu
          refine hu.imp_left fun h e => ?_
          rw [e] at h; cases h
      · unfold T.perform at e
        split at e <;> cases e

instance rdNode (p : Nat) : Paced Z (Thread.rdNode p : T α Node) := reads fun m => by unfold SegTree.rdNode; split <;> simp
instance rdSlots (p : Nat) : Paced Z (Thread.rdSlots p : T α (Nat → Slot α)) := reads fun m => by unfold SegTree.rdSlots; split <;> simp
instance rdObj (o : Nat) : Paced Z (Thread.rdObj o : T α SeqObj) := reads fun m => by unfold SegTree.rdObj; split <;> simp
instance wrNode (p : Nat) (n : Node) : Paced Z (Thread.wrNode p n : T α Unit) := writes fun m => by
  unfold SegTree.wrNode; split <;> first | exact .inl ⟨_, _, rfl⟩ | exact .inr ⟨_, rfl⟩
instance wrSlots (p : Nat) (f : Nat → Slot α) : Paced Z (Thread.wrSlots p f : T α Unit) := writes fun m => by
  unfold SegTree.wrSlots; split <;> first | exact .inl ⟨_, _, rfl⟩ | exact .inr ⟨_, rfl⟩
instance wrObj (o : Nat) (x : SeqObj) : Paced Z (Thread.wrObj o x : T α Unit) := writes fun m => by
  unfold SegTree.wrObj; split <;> first | exact .inl ⟨_, _, rfl⟩ | exact .inr ⟨_, rfl⟩
instance freeSeg (a p : Nat) : Paced Z (Thread.freeSeg E a p : T α Unit) := releases fun m => by
  unfold SegTree.freeSeg
  repeat' first | exact .inl ⟨_, rfl⟩ | exact .inr ⟨_, rfl⟩ | split
instance freeNode (a p : Nat) : Paced Z (Thread.freeNode a p : T α Unit) := releases fun m => by
  unfold SegTree.freeNode
  repeat' first | exact .inl ⟨_, rfl⟩ | exact .inr ⟨_, rfl⟩ | split
instance dropObj (o : Nat) : Paced Z (Thread.dropObj o : T α Unit) := releases fun m => by
  unfold SegTree.dropObj
  repeat' first | exact .inl ⟨_, rfl⟩ | exact .inr ⟨_, rfl⟩ | split
theorem alloc [hz : Zone E Z] {c : Nat → Cell α} {x : M α Nat} (hx : ∀ m, x m = SegTree.allocCell E (c m.log.reqs) m) :
    Paced Z (T.acquires (fun g => .heap (E.oracle g.reqs)) x) := by
  refine acquires (fun m => ?_) fun g => (hz.heap g.reqs).imp_left fun e => by rw [e]
  rw [hx]
  unfold SegTree.allocCell
  dsimp only
  split
  · exact .inr (.inl ⟨_, _, rfl, rfl⟩)
  · rename_i h
    exact .inl ⟨_, _, _, rfl, rfl, fun e => h (.inl (Loc.heap.inj e))⟩
instance allocCell (c : Cell α) [Zone E Z] : Paced Z (Thread.allocCell E c) := alloc (c := fun _ => c) fun _ => rfl
instance allocNodeCell (w : Nat) [Zone E Z] : Paced Z (Thread.allocNodeCell E w) :=
  alloc (c := fun n => .node w (E.junk n)) fun _ => rfl
instance ctor (o al : Nat) [hz : Named Z o] : Paced Z (Thread.ctor o al : T α Unit) := by
  refine acquires (fun m => ?_) fun g => .inr hz.out
  unfold SegTree.ctor
  split
  · exact .inr (.inr ⟨_, rfl⟩)
  · exact .inl ⟨_, _, _, rfl, rfl, fun e => Loc.noConfusion e⟩
instance copyVal (v : α) : Paced Z (Thread.copyVal E v) := by
  refine local_ fun m => ?_
  unfold SegTree.copyVal
  constructor <;> intro w m' e
  · split at e
    · cases e; rfl
    · split at e
      · cases e
      · cases e; rfl
  · split at e
    · cases e
    · split at e
      · cases e; rfl
      · cases e
instance usub (a b : Nat) : Paced Z (Thread.usub a b : T α Nat) := by
  unfold Thread.usub; infer_instance

theorem admissible : Lean.Order.admissible (fun y : T α β => Paced Z y) := by
  have : (fun y : T α β => Paced Z y) = fun y => ∀ s : Th α, (s.step ≤ s.limit → Held s (y s)) ∧
      ∀ r' : TRes α β, r' = .div ∨ s.step ≤ s.limit → (r' = .div ∨ Next Z (y s) r' ∨ y s.more ≠ r') := by
    funext y
    apply propext
    constructor
    · intro h s
      refine ⟨fun hs => (h.run s hs).held, fun r' hs => ?_⟩
      by_cases hd : r' = .div
      · exact .inl hd
      · by_cases he : y s.more = r'
        · subst he
          rcases (h.run s (hs.resolve_left hd)).next with h | h
          · exact absurd h hd
          · exact .inr (.inl h)
        · exact .inr (.inr he)
    · intro h
      refine ⟨fun s hs => ⟨(h s).1 hs, ?_⟩⟩
      rcases (h s).2 (y s.more) (.inr hs) with h | h | h
      · exact .inl h
      · exact .inr h
      · exact absurd rfl h
  rw [this]
  apply admissible_pi
  intro s
  apply admissible_and
  · exact admissible_apply (fun s r => s.step ≤ s.limit → Held s r) s
      (admissible_flatOrder _ fun _ => .stuck rfl fun _ => rfl)
  · apply admissible_pi
    intro r'
    apply admissible_pi
    intro _
    by_cases hd : r' = .div
    · exact fun _ _ _ => .inl hd
    · have : (fun y : T α β => r' = TRes.div ∨ Next Z (y s) r' ∨ y s.more ≠ r') = fun y => Next Z (y s) r' ∨ y s.more ≠ r' := by
        funext y; simp [hd]
      rw [this]
      apply admissible_or
      · exact admissible_apply (fun (s : Th α) r => Next Z r r') s (admissible_flatOrder _ trivial)
      · exact admissible_apply (fun (_ : Th α) r => r ≠ r') s.more (admissible_flatOrder _ fun e => hd e.symm)

section
variable {ι1 ι2 ι3 ι4 ι5 ι6 ι7 : Type}
theorem adm1 : Lean.Order.admissible (fun f : ι1 → T α β => ∀ a, Paced Z (f a)) :=
  admissible_pi _ fun a => admissible_apply (fun _ y => Paced Z y) a admissible
theorem adm2 : Lean.Order.admissible (fun f : ι1 → ι2 → T α β => ∀ a1 a2, Paced Z (f a1 a2)) :=
  admissible_pi _ fun a => admissible_apply (fun (_ : ι1) (f : ι2 → T α β) => ∀ a2, Paced Z (f a2)) a adm1
theorem adm3 : Lean.Order.admissible (fun f : ι1 → ι2 → ι3 → T α β => ∀ a1 a2 a3, Paced Z (f a1 a2 a3)) :=
  admissible_pi _ fun a => admissible_apply (fun (_ : ι1) (f : ι2 → ι3 → T α β) => ∀ a2 a3, Paced Z (f a2 a3)) a adm2
theorem adm4 : Lean.Order.admissible (fun f : ι1 → ι2 → ι3 → ι4 → T α β => ∀ a1 a2 a3 a4, Paced Z (f a1 a2 a3 a4)) :=
  admissible_pi _ fun a => admissible_apply (fun (_ : ι1) (f : ι2 → ι3 → ι4 → T α β) => ∀ a2 a3 a4, Paced Z (f a2 a3 a4)) a adm3
theorem adm5 : Lean.Order.admissible (fun f : ι1 → ι2 → ι3 → ι4 → ι5 → T α β => ∀ a1 a2 a3 a4 a5, Paced Z (f a1 a2 a3 a4 a5)) :=
  admissible_pi _ fun a => admissible_apply
    (fun (_ : ι1) (f : ι2 → ι3 → ι4 → ι5 → T α β) => ∀ a2 a3 a4 a5, Paced Z (f a2 a3 a4 a5)) a adm4
theorem adm6 : Lean.Order.admissible (fun f : ι1 → ι2 → ι3 → ι4 → ι5 → ι6 → T α β => ∀ a1 a2 a3 a4 a5 a6, Paced Z (f a1 a2 a3 a4 a5 a6)) :=
  admissible_pi _ fun a => admissible_apply
    (fun (_ : ι1) (f : ι2 → ι3 → ι4 → ι5 → ι6 → T α β) => ∀ a2 a3 a4 a5 a6, Paced Z (f a2 a3 a4 a5 a6)) a adm5
end

set_option synthInstance.maxSize 2000
set_option synthInstance.maxHeartbeats 400000

/-- walk through the program -/
macro "paced" : tactic => `(tactic| repeat' first
  | infer_instance
  | (intro (_ : Nat))
  | dsimp (failIfUnchanged := true) only
  | (refine Paced.bind (hx := ?_) (hf := ?_))
  | (refine Paced.onThrow (hx := ?_) (hf := ?_))
  | split
  | intro _)

