/-
  Small facts used when the theorems of `Props` are derived from the
  specifications proved about the model.
-/
import Verif.Props.Witness
set_option autoImplicit false

namespace SegTree
variable {α β γ : Type} {E : Env α} {g : Log} {F : Asrt α} {m m' : Mem α}

/-- the iterator `nth(i)` is the one at position `i` -/
theorem at_of_nth {o al i : Nat} {s : St α} {it : Iter} {m1 : Mem α} (hs : s.Ok E) (H : Holds g (cont E o al s + F) m)
    (hi : i ≤ s.elems.length) (h : nth E o i m = .ok it m1) : s.At i it := by
  obtain ⟨jt, h1, h2⟩ := nth_any_c (i := i) hs H
  rw [h1] at h
  cases h
  rwa [Nat.min_eq_left hi] at h2

theorem bind_inv {x : M α β} {f : β → M α γ} {v : γ} (h : (x >>= f) m = .ok v m') :
    ∃ a m1, x m = .ok a m1 ∧ f a m1 = .ok v m' := by
  change M.bind x f m = _ at h
  unfold M.bind at h
  cases hx : x m with
  | ok a m1 => rw [hx] at h; exact ⟨a, m1, rfl, h⟩
  | throw e m1 => rw [hx] at h; cases h
  | ub k => rw [hx] at h; cases h
  | div => rw [hx] at h; cases h

theorem bind_inv_throw {x : M α β} {f : β → M α γ} {e : Exn} (h : (x >>= f) m = .throw e m') :
    (x m = .throw e m') ∨ ∃ a m1, x m = .ok a m1 ∧ f a m1 = .throw e m' := by
  change M.bind x f m = _ at h
  unfold M.bind at h
  cases hx : x m with
  | ok a m1 => rw [hx] at h; exact .inr ⟨a, m1, rfl, h⟩
  | throw e m1 => rw [hx] at h; cases h; exact .inl rfl
  | ub k => rw [hx] at h; cases h
  | div => rw [hx] at h; cases h

theorem pure_inv {v w : β} (h : (pure v : M α β) m = .ok w m') : w = v ∧ m' = m := by
  cases h; exact ⟨rfl, rfl⟩
theorem pure_inv_throw {v : β} {e : Exn} : (pure v : M α β) m ≠ .throw e m' := by
  intro h; cases h

/-- what a `Spec` says of a normal return -/
theorem Spec.ret {x : M α β} {Q : β → Mem α → Prop} {T : Exn → Mem α → Prop} (h : Spec x m Q T) {v : β}
    (e : x m = .ok v m') : Q v m' := by
  unfold Spec at h; rw [e] at h; exact h
/-- what a `Spec` says of an exception -/
theorem Spec.exc {x : M α β} {Q : β → Mem α → Prop} {T : Exn → Mem α → Prop} (h : Spec x m Q T) {ex : Exn}
    (e : x m = .throw ex m') : T ex m' := by
  unfold Spec at h; rw [e] at h; exact h

theorem unit_inv {x : M α β} {r : Ret α} (h : Un.unit x m = .ok r m') : r = .unit ∧ ∃ v, x m = .ok v m' := by
  obtain ⟨a, m1, h1, h2⟩ := bind_inv h
  obtain ⟨rfl, rfl⟩ := pure_inv h2
  exact ⟨rfl, a, h1⟩
theorem pos_inv {x : M α Iter} {r : Ret α} (h : Un.pos x m = .ok r m') : ∃ it, x m = .ok it m' ∧ r = .pos it.pos := by
  obtain ⟨a, m1, h1, h2⟩ := bind_inv h
  obtain ⟨rfl, rfl⟩ := pure_inv h2
  exact ⟨a, h1, rfl⟩
theorem unit_inv_throw {x : M α β} {e : Exn} (h : Un.unit x m = .throw e m') : x m = .throw e m' := by
  rcases bind_inv_throw h with h | ⟨a, m1, -, h⟩
  · exact h
  · exact absurd h pure_inv_throw
theorem pos_inv_throw {x : M α Iter} {e : Exn} (h : Un.pos x m = .throw e m') : x m = .throw e m' := by
  rcases bind_inv_throw h with h | ⟨a, m1, -, h⟩
  · exact h
  · exact absurd h pure_inv_throw

/-- iterators exist at every position -/
theorem Reach.nth (hE : E.Good) (h : Reach E m) {o : Nat} {xs : List α} (hc : Contents E o m xs) (i : Nat) :
    ∃ it, nth E o i m = .ok it m := by
  obtain ⟨al, s, F, hs, rfl, H⟩ := h.cont hE hc
  obtain ⟨it, h1, -⟩ := nth_any_c (i := i) hs H
  exact ⟨it, h1⟩

/-- a read-only call that succeeded returned the same memory -/
theorem Reach.nth_same (hE : E.Good) (h : Reach E m) {o i : Nat} {xs : List α} {it : Iter} (hc : Contents E o m xs)
    (hn : SegTree.nth E o i m = .ok it m') : m' = m := by
  obtain ⟨jt, h1⟩ := h.nth hE hc i
  rw [h1] at hn; cases hn; rfl

/-- the bank a reachable memory looks like contains a container with that content -/
theorem Reach.view (hE : E.Good) (h : Reach E m) {o : Nat} {xs : List α} (hc : Contents E o m xs) :
    ∃ S al, View E m S ∧ S o = some ⟨al, xs⟩ ∧ get_allocator o m = .ok al m := by
  obtain ⟨S, hi⟩ := h.inv hE
  have hv := hi.view
  cases ho : S o with
  | none =>
    have := hv o
    rw [ho] at this
    exact absurd this (size_some hc.1)
  | some x =>
    have := hv o
    rw [ho] at this
    have he := this.2.unique hc
    refine ⟨S, x.alloc, hv, ?_, this.1⟩
    rw [ho, ← he]

/-- a call on one container from a reachable memory stays reachable -/
theorem Reach.un (hE : E.Good) (h : Reach E m) {o : Nat} {xs : List α} (hc : Contents E o m xs) {c : Un α} {r : Ret α}
    (hp : ∀ al, c.Pre E ⟨al, xs⟩) (hr : c.run E o m = .ok r m') : Reach E m' := by
  obtain ⟨S, al, hv, ho, -⟩ := h.view hE hc
  exact Reach.ret (op := .un o c) h hv ⟨_, ho, hp al⟩ hr

/-- a call on one container in the endless environment returns -/
theorem demo_un {m : Mem Nat} {o : Nat} {xs : List Nat} (h : Reach demo m) (hc : Contents demo o m xs) (c : Un Nat)
    (hp : ∀ al, c.Pre demo ⟨al, xs⟩) (hx : ∀ al e x', c.Exc demo ⟨al, xs⟩ e x' → e = .alloc) :
    ∃ r m' al x', c.run demo o m = .ok r m' ∧ c.Ok ⟨al, xs⟩ r x' ∧ Contents demo o m' x'.elems ∧ Reach demo m' := by
  obtain ⟨S, al, hv, ho, -⟩ := h.view demo_good hc
  obtain ⟨r, m', S', h1, h2, h3, h4⟩ := demo_op (op := .un o c) h hv ⟨_, ho, hp al⟩ (by
    rintro e S' ⟨x, x', hx1, hx2, -⟩
    rw [ho] at hx1; cases hx1
    exact hx al e x' hx2)
  obtain ⟨x, x', hx1, hx2, rfl⟩ := h2
  rw [ho] at hx1; cases hx1
  have := h3 o
  rw [upd_self] at this
  exact ⟨r, m', al, x', h1, hx2, this.2, h4⟩

end SegTree
