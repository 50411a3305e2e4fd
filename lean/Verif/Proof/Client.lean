/-
  Reasoning about programs that use containers: one call at a time, from one
  reachable memory to the next.
-/
import Verif.Proof.Use
set_option autoImplicit false

namespace SegTree
variable {α β γ : Type} {E : Env α} {m m' : Mem α} {o i j n : Nat} {xs ys vs : List α} {v : α}

/-- `m'` comes after `m` in a history, and the containers other than `o` are as they
were: alive or not, with the same elements and allocator. -/
structure After (E : Env α) (o : Nat) (m m' : Mem α) : Prop where
  reach : Reach E m'
  others : ∀ S, View E m S → ∃ x, View E m' (upd S o (some x))

theorem After.refl (h : Reach E m) (hc : Contents E o m xs) (hE : E.Good) : After E o m m := by
  refine ⟨h, fun S hv => ?_⟩
  obtain ⟨S', al, hv', ho, -⟩ := h.view hE hc
  obtain ⟨S0, hI⟩ := h.inv hE
  cases hI.view.unique hv
  cases hI.view.unique hv'
  exact ⟨⟨al, xs⟩, by rw [upd_id ho]; exact hv⟩

theorem After.trans {m1 m2 m3 : Mem α} (h1 : After E o m1 m2) (h2 : After E o m2 m3) : After E o m1 m3 := by
  refine ⟨h2.reach, fun S hv => ?_⟩
  obtain ⟨x, hx⟩ := h1.others S hv
  obtain ⟨y, hy⟩ := h2.others _ hx
  rw [upd_twice] at hy
  exact ⟨y, hy⟩

/-- one call on one container: it returns or throws as documented, and the memory
afterwards is reachable again -/
theorem Reach.call (hE : E.Good) (h : Reach E m) (hc : Contents E o m xs) (c : Un α)
    (hp : ∀ al, c.Pre E ⟨al, xs⟩) :
    (∃ r m' al x', c.run E o m = .ok r m' ∧ c.Ok ⟨al, xs⟩ r x' ∧ Contents E o m' x'.elems ∧ After E o m m') ∨
    (∃ e m' al x', c.run E o m = .throw e m' ∧ c.Exc E ⟨al, xs⟩ e x' ∧ Contents E o m' x'.elems ∧ After E o m m') := by
  obtain ⟨S, al, hv, ho, -⟩ := h.view hE hc
  have hk : ∀ (m' : Mem α) x', View E m S → View E m' (upd S o (some x')) →
      ∀ S0, View E m S0 → ∃ x, View E m' (upd S0 o (some x)) := by
    intro m' x' hv hv' S0 hv0
    obtain ⟨S1, hI⟩ := h.inv hE
    cases hI.view.unique hv
    cases hI.view.unique hv0
    exact ⟨x', hv'⟩
  rcases h.op hE hv (op := .un o c) ⟨_, ho, hp al⟩ with ⟨r, m', S', h1, h2, h3, h4⟩ | ⟨e, m', S', h1, h2, h3, h4⟩
  · obtain ⟨x, x', hx1, hx2, rfl⟩ := h2
    rw [ho] at hx1; cases hx1
    have := h3 o
    rw [upd_self] at this
    exact .inl ⟨r, m', al, x', h1, hx2, this.2, h4, hk _ _ hv h3⟩
  · obtain ⟨x, x', hx1, hx2, rfl⟩ := h2
    rw [ho] at hx1; cases hx1
    have := h3 o
    rw [upd_self] at this
    exact .inr ⟨e, m', al, x', h1, hx2, this.2, h4, hk _ _ hv h3⟩

/-- `insert(nth(i), v)` -/
theorem Reach.insertAt (hE : E.Good) (h : Reach E m) (hc : Contents E o m xs) (hi : i ≤ xs.length)
    (hsz : xs.length + 1 ≤ max_size E) (f : M α β) :
    (∃ m', (do let it ← SegTree.nth E o i; let _ ← insert E o it v; f : M α β) m = f m' ∧
      Contents E o m' (ins xs i [v]) ∧ After E o m m') ∨
    (∃ e m', (do let it ← SegTree.nth E o i; let _ ← insert E o it v; f : M α β) m = .throw e m' ∧ Blame E [v] e ∧
      Contents E o m' xs ∧ After E o m m') := by
  obtain ⟨it, hn⟩ := h.nth hE hc i
  rcases h.call hE hc (.insert i v) (fun _ => ⟨hi, hsz⟩) with
    ⟨r, m', al, x', h1, ⟨-, rfl⟩, h3, h4⟩ | ⟨e, m', al, x', h1, ⟨hb, rfl⟩, h3, h4⟩
  · obtain ⟨jt, h5, -⟩ := pos_inv h1
    rw [bind_ok hn] at h5
    exact .inl ⟨m', by rw [bind_ok hn, bind_ok h5], h3, h4⟩
  · have h5 := pos_inv_throw h1
    rw [bind_ok hn] at h5
    exact .inr ⟨e, m', by rw [bind_ok hn, bind_throw h5], hb, h3, h4⟩

/-- `insert(nth(i), vs)` -/
theorem Reach.insertListAt (hE : E.Good) (h : Reach E m) (hc : Contents E o m xs) (hi : i ≤ xs.length)
    (hsz : xs.length + vs.length ≤ max_size E) (f : M α β) :
    (∃ m', (do let it ← SegTree.nth E o i; let _ ← insert_list E o it vs; f : M α β) m = f m' ∧
      Contents E o m' (ins xs i vs) ∧ After E o m m') ∨
    (∃ e m', (do let it ← SegTree.nth E o i; let _ ← insert_list E o it vs; f : M α β) m = .throw e m' ∧ Blame E vs e ∧
      (∃ k < vs.length, Contents E o m' (ins xs i (vs.take k))) ∧ After E o m m') := by
  obtain ⟨it, hn⟩ := h.nth hE hc i
  rcases h.call hE hc (.insertList i vs) (fun _ => ⟨hi, hsz⟩) with
    ⟨r, m', al, x', h1, ⟨-, rfl⟩, h3, h4⟩ | ⟨e, m', al, x', h1, ⟨hb, k, hk, rfl⟩, h3, h4⟩
  · obtain ⟨jt, h5, -⟩ := pos_inv h1
    rw [bind_ok hn] at h5
    exact .inl ⟨m', by rw [bind_ok hn, bind_ok h5], h3, h4⟩
  · have h5 := pos_inv_throw h1
    rw [bind_ok hn] at h5
    exact .inr ⟨e, m', by rw [bind_ok hn, bind_throw h5], hb, ⟨k, hk, h3⟩, h4⟩

/-- `erase(nth(i))` -/
theorem Reach.eraseAt (hE : E.Good) (h : Reach E m) (hc : Contents E o m xs) (hi : i < xs.length) (f : M α β) :
    ∃ m', (do let it ← SegTree.nth E o i; let _ ← erase E o it; f : M α β) m = f m' ∧
      Contents E o m' (xs.eraseIdx i) ∧ After E o m m' := by
  obtain ⟨it, hn⟩ := h.nth hE hc i
  rcases h.call hE hc (.erase i) (fun _ => hi) with
    ⟨r, m', al, x', h1, ⟨-, rfl⟩, h3, h4⟩ | ⟨e, m', al, x', h1, hx, h3, h4⟩
  · obtain ⟨jt, h5, -⟩ := pos_inv h1
    rw [bind_ok hn] at h5
    exact ⟨m', by rw [bind_ok hn, bind_ok h5], h3, h4⟩
  · exact hx.elim

/-- `erase(nth(i), nth(j))` -/
theorem Reach.eraseRangeAt (hE : E.Good) (h : Reach E m) (hc : Contents E o m xs) (hij : i ≤ j) (hj : j ≤ xs.length)
    {it jt : Iter} (hn : SegTree.nth E o i m = .ok it m) (hm : SegTree.nth E o j m = .ok jt m) (f : M α β) :
    ∃ m', (do let _ ← erase_rng E o it jt; f : M α β) m = f m' ∧
      Contents E o m' (xs.take i ++ xs.drop j) ∧ After E o m m' := by
  rcases h.call hE hc (.eraseRange i j) (fun _ => ⟨hij, hj⟩) with
    ⟨r, m', al, x', h1, ⟨-, rfl⟩, h3, h4⟩ | ⟨e, m', al, x', h1, hx, h3, h4⟩
  · obtain ⟨kt, h5, -⟩ := pos_inv h1
    rw [bind_ok hn, bind_ok hm] at h5
    exact ⟨m', by rw [bind_ok h5], h3, h4⟩
  · exact hx.elim

end SegTree
