/-
  Consequences of `Fresh.lean` for whole programs: live addresses are answers of
  the allocator, and an allocator that always answers with a fresh address never
  makes a call throw `bad_alloc`.
-/
import Verif.Proof.Fresh
import Verif.Proof.Bank
set_option autoImplicit false
set_option linter.unusedTactic false

namespace SegTree
variable {α : Type} {E : Env α} {m m' : Mem α}

instance presUn (o : Nat) (c : Un α) : Pres E (c.run E o) := by
  cases c <;> (unfold Un.run; first | infer_instance | (unfold Un.unit; pres) | (unfold Un.pos; pres) | (unfold Un.val; pres) | (unfold Un.num; pres) | (unfold Un.flag; pres))
instance presBin (o p : Nat) (c : Bin α) : Pres E (c.run E o p) := by
  cases c <;> (unfold Bin.run; first | infer_instance | (unfold Un.unit; pres) | (unfold Un.pos; pres) | (unfold Un.val; pres) | (unfold Un.num; pres) | (unfold Un.flag; pres))
instance presNew (o : Nat) (c : New α) : Pres E (c.run E o) := by
  cases c <;> (unfold New.run Un.unit; pres)
instance presNew2 (o p : Nat) (c : New2) : Pres E (c.run E o p) := by
  cases c <;> (unfold New2.run Un.unit; pres)
instance presOp (op : Op α) : Pres E (op.run E) := by
  cases op <;> (unfold Op.run; first | infer_instance | (unfold Un.unit; pres))

/-- every live address of a reachable memory is an answer of the allocator -/
theorem Reach.live (h : Reach E m) : ∀ {a : Nat}, Live m a → ∃ k < m.log.reqs, E.oracle k = a := by
  have step : ∀ {m m' : Mem α}, (∀ {a : Nat}, Live m a → ∃ k < m.log.reqs, E.oracle k = a) → Ext E m m' →
      ∀ {a : Nat}, Live m' a → ∃ k < m'.log.reqs, E.oracle k = a := by
    intro m m' ih h a ha
    rcases h.live a ha with h' | ⟨k, -, hk, e⟩
    · obtain ⟨k, hk, e⟩ := ih h'
      exact ⟨k, Nat.lt_of_lt_of_le hk h.le, e⟩
    · exact ⟨k, hk, e⟩
  induction h with
  | init => intro a ha; simp [Live, noMem] at ha
  | @ret m m' S op r _ _ _ he ih =>
    have := (presOp (E := E) op).run m
    rw [he] at this
    exact fun {a} => step ih this
  | @exc m m' S op r _ _ _ he ih =>
    have := (presOp (E := E) op).run m
    rw [he] at this
    exact fun {a} => step ih this.1

/-- the allocator never answers null and never gives the same address twice -/
def Endless (E : Env α) : Prop := (∀ n, E.oracle n ≠ 0) ∧ ∀ n k, E.oracle n = E.oracle k → n = k

theorem Reach.no_alloc (h : Reach E m) (hf : Endless E) (op : Op α) : op.run E m ≠ .throw .alloc m' := by
  intro he
  have := (presOp (E := E) op).run m
  rw [he] at this
  obtain ⟨n, h1, h2, h3⟩ := this.2 rfl
  rcases h3 with h3 | h3 | ⟨k, h4, h5, e⟩
  · exact hf.1 _ h3
  · obtain ⟨k, hk, e⟩ := h.live h3
    have := hf.2 _ _ e
    omega
  · have := hf.2 _ _ e
    omega

/-- one call, from a reachable memory -/
theorem Reach.op (hE : E.Good) (h : Reach E m) {S : Bank α} (hv : View E m S) {op : Op α} (hp : op.Pre E S) :
    (∃ r m' S', op.run E m = .ok r m' ∧ op.Ok E S r S' ∧ View E m' S' ∧ Reach E m') ∨
    (∃ e m' S', op.run E m = .throw e m' ∧ op.Exc E S e S' ∧ View E m' S' ∧ Reach E m') := by
  obtain ⟨S0, hI⟩ := h.inv hE
  cases hI.view.unique hv
  obtain ⟨A, hR, H⟩ := hI
  have hs := op_c hE op hR H hp
  unfold Spec at hs
  cases he : op.run E m with
  | ok r m' =>
    rw [he] at hs
    obtain ⟨S', h1, h2, -⟩ := hs
    exact .inl ⟨r, m', S', rfl, h1, h2.view, .ret h hv hp he⟩
  | throw e m' =>
    rw [he] at hs
    obtain ⟨S', h1, h2, -⟩ := hs
    exact .inr ⟨e, m', S', rfl, h1, h2.view, .exc h hv hp he⟩
  | ub k => rw [he] at hs; exact hs.elim
  | div => rw [he] at hs; exact hs.elim

end SegTree
