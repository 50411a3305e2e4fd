/-
  A lower bound: `remove_if` and `remove` read every element.
-/
import Verif.Cost.Algo
set_option autoImplicit false

attribute [local instance] SegTree.Weights.accesses

namespace SegTree
variable {α β γ : Type} {E : Env α} {m m1 m2 : Mem α} {g : Log} {F : Asrt α} {o al : Nat} {s : St α} {a b : Nat}

/-- `y` returns `v` in `m1`, having made at least `k` accesses -/
def AtLeast (y : C α β) (m : Mem α) (v : β) (m1 : Mem α) (k : Nat) : Prop :=
  ∃ n, y m = .ok v m1 n ∧ k ≤ n

theorem AtLeast.bind {y : C α β} {f : β → C α γ} {v : β} {w : γ} (h : AtLeast y m v m1 a)
    (h' : AtLeast (f v) m1 w m2 b) : AtLeast (y >>= f) m w m2 (a + b) := by
  obtain ⟨n, e, hn⟩ := h
  obtain ⟨k, e', hk⟩ := h'
  refine ⟨n + k, ?_, by omega⟩
  show C.bind y f m = _
  unfold C.bind
  rw [e]
  simp only [e', CRes.add]

theorem AtLeast.of {x : M α β} {y : C α β} [hs : Sim x y] {v : β} (h : x m = .ok v m1) : AtLeast y m v m1 0 := by
  obtain ⟨n, e⟩ := hs.ok h
  exact ⟨n, e, Nat.zero_le _⟩

theorem AtLeast.mono {y : C α β} {v : β} (h : AtLeast y m v m1 a) (hb : b ≤ a) : AtLeast y m v m1 b := by
  obtain ⟨n, e, hn⟩ := h
  exact ⟨n, e, by omega⟩

theorem AtLeast.pure (v : β) : AtLeast (Pure.pure v : C α β) m v m 0 := ⟨0, rfl, Nat.le_refl _⟩

theorem C.bind_inv {y : C α β} {f : β → C α γ} {w : γ} {n : Nat} (h : (y >>= f) m = .ok w m2 n) :
    ∃ v m1 a b, y m = .ok v m1 a ∧ f v m1 = .ok w m2 b ∧ n = a + b := by
  change C.bind y f m = _ at h
  unfold C.bind at h
  split at h
  · next v m1 a e =>
    cases e' : f v m1 <;> rw [e'] at h <;> simp only [CRes.add] at h <;> cases h
    exact ⟨v, m1, a, _, e, e', rfl⟩
  all_goals cases h

theorem dereference_ge {i : Nat} {it : Iter} (hs : s.Ok E) (ha : s.At i it) (hi : i < s.elems.length)
    (H : Holds g (cont E o al s + F) m) : AtLeast (Cost.dereference E it) m s.elems[i] m 1 := by
  have h := dereference_c hs ha hi H
  obtain ⟨n, e⟩ := (inferInstance : Sim (dereference E it) (Cost.dereference E it)).ok h
  refine ⟨n, e, ?_⟩
  obtain ⟨v, m1, a, b, e1, -, rfl⟩ := C.bind_inv (show (Cost.rdSlots it.entry.seg.ptr >>= _) m = _ from e)
  unfold Cost.rdSlots C.lift at e1
  split at e1 <;> cases e1
  exact Nat.le_add_right 1 b

theorem std_find_if_ge {p : α → Bool} {last : Iter} (hs : s.Ok E) (hl : s.At s.elems.length last)
    (H : Holds g (cont E o al s + F) m) (n : Nat) :
    ∀ {i : Nat} {first : Iter}, s.At i first → i + n = s.elems.length →
    ∃ f it, s.At f it ∧ i ≤ f ∧ AtLeast (Cost.std_find_if E p first last) m it m (min (f + 1) s.elems.length - i) := by
  induction n with
  | zero =>
    intro i first hf hi
    rw [Cost.std_find_if, if_neg (by rw [hf.pos, hl.pos]; omega)]
    exact ⟨i, first, hf, Nat.le_refl _, (AtLeast.pure _).mono (by omega)⟩
  | succ n ih =>
    intro i first hf hi
    rw [Cost.std_find_if, if_pos (by rw [hf.pos, hl.pos]; omega)]
    have hd := dereference_ge hs hf (by omega) H
    by_cases hp : p (s.elems[i]'(by omega)) = true
    · refine ⟨i, first, hf, Nat.le_refl _, (hd.bind (b := 0) ?_).mono (by omega)⟩
      rw [if_pos hp]; exact AtLeast.pure _
    · obtain ⟨it', e', ha'⟩ := move_next_c hs hf (by omega) H
      obtain ⟨f, it, h1, h2, h3⟩ := ih ha' (by omega)
      refine ⟨f, it, h1, by omega, (hd.bind (b := 0 + (min (f + 1) s.elems.length - (i + 1))) ?_).mono (by omega)⟩
      rw [if_neg hp]
      exact (AtLeast.of e').bind h3

theorem std_remove_loop_ge {p : α → Bool} {last : Iter} (hE : E.Good) (n : Nat) :
    ∀ {m : Mem α} {s : St α} {f k : Nat} {first it : Iter}, s.Ok E → s.At f first → s.At k it →
    s.At s.elems.length last → f ≤ k → k + 1 + n = s.elems.length →
    Holds g (cont E o al s + F) m →
    ∃ v m1, AtLeast (Cost.std_remove_loop E p first it last) m v m1 n := by
  induction n with
  | zero =>
    intro m s f k first it hs hf hk hl hfk hn H
    rw [Cost.std_remove_loop]
    obtain ⟨it1, e1, h1⟩ := move_next_c hs hk (by omega) H
    refine ⟨first, m, (AtLeast.of e1).bind (b := 0) ?_⟩
    rw [if_neg (by rw [h1.pos, hl.pos]; omega)]
    exact AtLeast.pure _
  | succ n ih =>
    intro m s f k first it hs hf hk hl hfk hn H
    rw [Cost.std_remove_loop]
    obtain ⟨it1, e1, h1⟩ := move_next_c hs hk (by omega) H
    have hd := dereference_ge hs h1 (by omega) H
    by_cases hp : p (s.elems[k + 1]'(by omega)) = true
    · obtain ⟨v, m1, h⟩ := ih hs hf h1 hl (by omega) (by omega) H
      refine ⟨v, m1, ((AtLeast.of e1).bind (b := 1 + n) ?_).mono (by omega)⟩
      rw [if_pos (by rw [h1.pos, hl.pos]; omega)]
      refine hd.bind ?_
      rw [if_pos hp]; exact h
    · obtain ⟨m2, s2, e2, r2, H2⟩ := iter_move_assign_c hE hs h1 hf (by omega) (by omega) (by omega) H
      have hlen2 : s2.elems.length = s.elems.length := by rw [r2.elems]; simp
      obtain ⟨it3, e3, h3⟩ := move_next_c r2.ok (r2.at_ _ _ hf) (by omega) H2
      have hl2 : s2.At s2.elems.length last := by rw [hlen2]; exact r2.at_ _ _ hl
      obtain ⟨v, m1, h⟩ := ih r2.ok h3 (r2.at_ _ _ h1) hl2 (by omega) (by omega) H2
      refine ⟨v, m1, ((AtLeast.of e1).bind (b := 1 + (0 + (0 + n))) ?_).mono (by omega)⟩
      rw [if_pos (by rw [h1.pos, hl.pos]; omega)]
      refine hd.bind ?_
      rw [if_neg hp]
      exact (AtLeast.of e2).bind ((AtLeast.of e3).bind h)

theorem std_remove_if_ge {p : α → Bool} {first last : Iter} (hE : E.Good) (hs : s.Ok E) (hf : s.At 0 first)
    (hl : s.At s.elems.length last) (H : Holds g (cont E o al s + F) m) :
    ∃ v m1, AtLeast (Cost.std_remove_if E p first last) m v m1 s.elems.length := by
  unfold Cost.std_remove_if
  obtain ⟨f, it1, h1, h0, h2⟩ := std_find_if_ge (p := p) hs hl H s.elems.length hf (by omega)
  have hfl := h1.le
  by_cases hc : f = s.elems.length
  · refine ⟨it1, m, (h2.bind (b := 0) ?_).mono (by omega)⟩
    rw [if_neg (by rw [h1.pos, hl.pos]; simpa using hc)]
    exact AtLeast.pure _
  · obtain ⟨v, m1, h⟩ := std_remove_loop_ge (p := p) hE (s.elems.length - f - 1) hs h1 h1 hl (Nat.le_refl _) (by omega) H
    refine ⟨v, m1, (h2.bind (b := s.elems.length - f - 1) ?_).mono (by omega)⟩
    rw [if_pos (by rw [h1.pos, hl.pos]; simpa using hc)]
    exact h

/-- `remove_if` makes at least one access per element, whatever the predicate. -/
theorem remove_if_ge {p : α → Bool} (hE : E.Good) (hs : s.Ok E) (H : Holds g (cont E o al s + F) m) :
    ∃ m1, AtLeast (Cost.remove_if E o p) m () m1 s.elems.length := by
  obtain ⟨u, m', h, -⟩ := (remove_if_c (p := p) hE hs H).get
  obtain ⟨n, e⟩ := (inferInstance : Sim (remove_if E o p) (Cost.remove_if E o p)).ok h
  refine ⟨m', n, e, ?_⟩
  obtain ⟨fi, hfi⟩ := St.At.exists hs (Nat.zero_le _)
  obtain ⟨la, hla⟩ := St.At.exists hs (Nat.le_refl _)
  obtain ⟨n1, e1⟩ := (inferInstance : Sim (find_first E o) (Cost.find_first E o)).ok (find_first_c hs hfi H)
  obtain ⟨n2, e2⟩ := (inferInstance : Sim (find_end E o) (Cost.find_end E o)).ok (find_end_c hs hla H)
  obtain ⟨v, m1, n3, e3, h3⟩ := std_remove_if_ge (p := p) hE hs hfi hla H
  obtain ⟨v1, k1, a1, b1, f1, f2, h4⟩ := C.bind_inv (show (Cost.find_first E o >>= _) m = _ from e)
  rw [e1] at f1; cases f1
  obtain ⟨v3, k3, a3, b3, f3, f4, h5⟩ := C.bind_inv (show (Cost.find_end E o >>= _) m = _ from f2)
  rw [e2] at f3; cases f3
  obtain ⟨v5, k5, a5, b5, f5, f6, h6⟩ := C.bind_inv f4
  rw [e3] at f5; cases f5
  omega

end SegTree
