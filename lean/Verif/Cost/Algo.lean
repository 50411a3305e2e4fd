/-
  Bounds for `remove_if`, `unique`, `reverse` and the comparison operators.
-/
import Verif.Cost.Whole
import Verif.Proof.Algo
set_option autoImplicit false
set_option synthInstance.maxSize 2000
set_option synthInstance.maxHeartbeats 400000

attribute [local instance] SegTree.Weights.accesses

namespace SegTree

variable {α : Type} {E : Env α} {g : Log} {F : Asrt α} {m : Mem α} {o al i j L : Nat} {s : St α} {it : Iter}

instance CB.iter_move_assign (a b : Iter) : CB (Cost.iter_move_assign E a b) 5 := by
  unfold Cost.iter_move_assign; cb
instance CB.iter_swap (a b : Iter) : CB (Cost.iter_swap E a b) 10 := by unfold Cost.iter_swap; cb

/-! ### find_if, remove_if -/

theorem std_find_if_le {p : α → Bool} {last : Iter} (hs : s.Ok E) (hl : s.At s.elems.length last)
    (H : Holds g (cont E o al s + F) m) (n : Nat) :
    ∀ {i a : Nat} {first : Iter}, s.AtT i first a → i + n = s.elems.length →
    (Cost.std_find_if E p first last m).le (12 * n + 5 * a) := by
  induction n with
  | zero =>
    intro i a first hf hi
    rw [Cost.std_find_if, if_neg (by rw [hf.at.pos, hl.pos]; omega)]
    exact Nat.zero_le _
  | succ n ih =>
    intro i a first hf hi
    rw [Cost.std_find_if, if_pos (by rw [hf.at.pos, hl.pos]; omega)]
    refine CRes.le_step (dereference_c hs hf.at (by omega) H) ((CB.dereference first).run m) (by omega) ?_
    by_cases hp : p (s.elems[i]'(by omega)) = true
    · rw [if_pos hp]; exact Nat.zero_le _
    · rw [if_neg hp]
      obtain ⟨it', k, b, e', hk, ha', hb⟩ := move_next_am hs hf (by omega) H
      refine CRes.le_step e' hk (by omega) ?_
      exact (ih ha' (by omega)).mono (by omega)

theorem std_remove_loop_le {p : α → Bool} {last : Iter} (hE : E.Good) (n : Nat) :
    ∀ {m : Mem α} {s : St α} {f k a b : Nat} {first it : Iter}, s.Ok E → s.AtT f first a → s.AtT k it b →
    s.At s.elems.length last → f ≤ k → k + 1 + n = s.elems.length →
    Holds g (cont E o al s + F) m →
    (Cost.std_remove_loop E p first it last m).le (28 * n + 11 + 5 * a + 5 * b) := by
  induction n with
  | zero =>
    intro m s f k a b first it hs hf hk hl hfk hn H
    rw [Cost.std_remove_loop]
    obtain ⟨it1, k1, b1, e1, hk1, h1, hb1⟩ := move_next_am hs hk (by omega) H
    refine CRes.le_step e1 hk1 (by omega) ?_
    rw [if_neg (by rw [h1.at.pos, hl.pos]; omega)]
    exact Nat.zero_le _
  | succ n ih =>
    intro m s f k a b first it hs hf hk hl hfk hn H
    rw [Cost.std_remove_loop]
    obtain ⟨it1, k1, b1, e1, hk1, h1, hb1⟩ := move_next_am hs hk (by omega) H
    refine CRes.le_step e1 hk1 (by omega) ?_
    rw [if_pos (by rw [h1.at.pos, hl.pos]; omega)]
    refine CRes.le_step (dereference_c hs h1.at (by omega) H) ((CB.dereference it1).run m) (by omega) ?_
    by_cases hp : p (s.elems[k + 1]'(by omega)) = true
    · rw [if_pos hp]
      exact (ih hs hf h1 hl (by omega) (by omega) H).mono (by omega)
    · rw [if_neg hp]
      obtain ⟨m2, s2, e2, r2, H2⟩ := iter_move_assign_c hE hs h1.at hf.at (by omega) (by omega) (by omega) H
      refine CRes.le_step e2 ((CB.iter_move_assign it1 first).run m) (by omega) ?_
      have hlen2 : s2.elems.length = s.elems.length := by rw [r2.elems]; simp
      obtain ⟨it3, k3, b3, e3, hk3, h3, hb3⟩ := move_next_am r2.ok (hf.same r2.same) (by omega) H2
      refine CRes.le_step e3 hk3 (by omega) ?_
      have hl2 : s2.At s2.elems.length last := by rw [hlen2]; exact r2.at_ _ _ hl
      exact (ih r2.ok h3 (h1.same r2.same) hl2 (by omega) (by omega) H2).mono (by omega)

theorem std_remove_if_le {p : α → Bool} {first last : Iter} (hE : E.Good) (hs : s.Ok E) (hf : s.At 0 first)
    (hl : s.At s.elems.length last) (H : Holds g (cont E o al s + F) m) :
    (Cost.std_remove_if E p first last m).le (40 * s.elems.length + 15 * s.ht) := by
  unfold Cost.std_remove_if
  obtain ⟨f, it1, e1, h1, h0, h2, h3⟩ := std_find_if_c (p := p) hs hl H s.elems.length hf (by omega)
  have hfl := h1.le
  refine CRes.le_step e1 (std_find_if_le (p := p) hs hl H s.elems.length hf.toT (by omega)) (by omega) ?_
  by_cases hc : f = s.elems.length
  · rw [if_neg (by rw [h1.pos, hl.pos]; simpa using hc)]
    exact Nat.zero_le _
  · rw [if_pos (by rw [h1.pos, hl.pos]; simpa using hc)]
    exact (std_remove_loop_le hE (s.elems.length - f - 1) hs h1.toT h1.toT hl (Nat.le_refl _) (by omega) H).mono
      (by omega)

/-- the erased tail of `remove_if` and `unique`: `r` elements survive -/
theorem remove_if_le {p : α → Bool} (hE : E.Good) (hs : s.Ok E) (hL : lg s.elems.length ≤ L)
    (H : Holds g (cont E o al s + F) m) :
    (Cost.remove_if E o p m).le (40 * s.elems.length + 34 * L +
      (s.elems.length - (s.elems.filter (fun x => !p x)).length) * (eraK E * L + 16 * L)) := by
  unfold Cost.remove_if Cost.begin_ Cost.end_
  have hh := htL hs hL
  obtain ⟨fi, hfi⟩ := St.At.exists hs (Nat.zero_le _)
  obtain ⟨la, hla⟩ := St.At.exists hs (Nat.le_refl _)
  refine CRes.le_step (find_first_c hs hfi H) (find_first_leL hs hL H) (by omega) ?_
  refine CRes.le_step (find_end_c hs hla H) (find_end_leL hs hL H) (by omega) ?_
  obtain ⟨m1, s1, f1, it1, ys, e1, r1, h1, h2, H1⟩ := std_remove_if_c (p := p) hE hs hfi hla H
  refine CRes.le_step e1 (std_remove_if_le hE hs hfi hla H) (by omega) ?_
  have hlen : s1.elems.length = s.elems.length := by rw [r1.same.len]
  obtain ⟨la1, hla1⟩ := St.At.exists r1.ok (Nat.le_refl _)
  refine CRes.le_step (find_end_c r1.ok hla1 H1) (find_end_leL (L := L) r1.ok (by rwa [hlen]) H1) (by omega) ?_
  have hle := h1.le
  have hf1 : (s.elems.filter (fun x => !p x)).length = f1 := by
    rw [← h2, List.length_take, ← r1.elems, Nat.min_eq_left hle]
  rw [hf1]
  refine CRes.le_bind (erase_range_le (L := L) hE (s1.elems.length - f1) r1.ok h1.pos hla1 (by omega) (by rwa [hlen]) H1)
    (by rw [hlen]; omega) fun _ _ _ _ => Nat.zero_le _

/-! ### unique -/

theorem std_unique_loop_le {p : α → α → Bool} {last : Iter} (hE : E.Good) (n : Nat) :
    ∀ {m : Mem α} {s : St α} {r k a b : Nat} {result first : Iter}, s.Ok E → s.AtT r result a → s.AtT k first b →
    s.At s.elems.length last → r ≤ k → k + 1 + n = s.elems.length →
    Holds g (cont E o al s + F) m →
    (Cost.std_unique_loop E p result first last m).le (29 * n + 22 + 5 * a + 5 * b) := by
  induction n with
  | zero =>
    intro m s r k a b result first hs hr hf hl hrk hn H
    rw [Cost.std_unique_loop]
    obtain ⟨it1, k1, b1, e1, hk1, h1, hb1⟩ := move_next_am hs hf (by omega) H
    refine CRes.le_step e1 hk1 (by omega) ?_
    rw [if_neg (by rw [h1.at.pos, hl.pos]; omega)]
    obtain ⟨it2, k2, b2, e2, hk2, h2, hb2⟩ := move_next_am hs hr (by omega) H
    exact hk2.mono (by omega)
  | succ n ih =>
    intro m s r k a b result first hs hr hf hl hrk hn H
    rw [Cost.std_unique_loop]
    obtain ⟨it1, k1, b1, e1, hk1, h1, hb1⟩ := move_next_am hs hf (by omega) H
    refine CRes.le_step e1 hk1 (by omega) ?_
    rw [if_pos (by rw [h1.at.pos, hl.pos]; omega)]
    refine CRes.le_step (dereference_c hs hr.at (by omega) H) ((CB.dereference _).run m) (by omega) ?_
    refine CRes.le_step (dereference_c hs h1.at (by omega) H) ((CB.dereference _).run m) (by omega) ?_
    split
    · exact (ih hs hr h1 hl (by omega) (by omega) H).mono (by omega)
    · obtain ⟨it2, k2, b2, e2, hk2, h2, hb2⟩ := move_next_am hs hr (by omega) H
      refine CRes.le_step e2 hk2 (by omega) ?_
      by_cases hrk1 : r + 1 = k + 1
      · rw [if_neg (by rw [h1.at.pos, h2.at.pos]; omega)]
        exact (ih hs h2 h1 hl (by omega) (by omega) H).mono (by omega)
      · rw [if_pos (by rw [h1.at.pos, h2.at.pos]; omega)]
        obtain ⟨m3, s3, e3, r3, H3⟩ := iter_move_assign_c hE hs h1.at h2.at (by omega) (by omega) (by omega) H
        refine CRes.le_step e3 ((CB.iter_move_assign _ _).run m) (by omega) ?_
        have hl3 : s3.elems.length = s.elems.length := by rw [r3.elems]; simp
        have hla3 : s3.At s3.elems.length last := by rw [hl3]; exact r3.at_ _ _ hl
        exact (ih r3.ok (h2.same r3.same) (h1.same r3.same) hla3 (by omega) (by omega) H3).mono (by omega)

theorem unique_le {p : α → α → Bool} (hE : E.Good) (hs : s.Ok E) (hL : lg s.elems.length ≤ L)
    (H : Holds g (cont E o al s + F) m) :
    (Cost.unique E o p m).le (29 * s.elems.length + 29 * L +
      (s.elems.length - (uniq p s.elems).length) * (eraK E * L + 16 * L)) := by
  unfold Cost.unique Cost.begin_ Cost.end_
  have hh := htL hs hL
  obtain ⟨fi, hfi⟩ := St.At.exists hs (Nat.zero_le _)
  obtain ⟨la, hla⟩ := St.At.exists hs (Nat.le_refl _)
  refine CRes.le_step (find_first_c hs hfi H) (find_first_leL hs hL H) (by omega) ?_
  refine CRes.le_step (find_end_c hs hla H) (find_end_leL hs hL H) (by omega) ?_
  have hcost : (Cost.std_unique E p fi la m).le (29 * s.elems.length + 10 * s.ht) := by
    unfold Cost.std_unique
    by_cases h0 : s.elems.length = 0
    · rw [if_pos (by rw [hfi.pos, hla.pos, h0])]; exact Nat.zero_le _
    · rw [if_neg (by rw [hfi.pos, hla.pos]; omega)]
      exact (std_unique_loop_le hE (s.elems.length - 1) hs hfi.toT hfi.toT hla (Nat.le_refl _) (by omega) H).mono
        (by omega)
  have key : ∃ m' s' f' it' ys, std_unique E p fi la m = .ok it' m' ∧ Rew E s s' ys ∧ s'.At f' it' ∧
      ys.take f' = uniq p s.elems ∧ Holds g (cont E o al s' + F) m' := by
    unfold std_unique
    by_cases h0 : s.elems.length = 0
    · rw [if_pos (by rw [hfi.pos, hla.pos, h0])]
      refine ⟨m, s, _, la, _, rfl, Rew.refl hs, hla, ?_, H⟩
      rw [List.eq_nil_of_length_eq_zero h0]; rfl
    · rw [if_neg (by rw [hfi.pos, hla.pos]; omega)]
      refine std_unique_loop_c hE (s.elems.length - 1) (by omega) hs hfi hfi hla rfl (Nat.le_refl _) (by omega) rfl ?_ H
      exact uniq_start (by omega)
  obtain ⟨m1, s1, f1, it1, ys, e1, r1, h1, h2, H1⟩ := key
  refine CRes.le_step e1 hcost (by omega) ?_
  have hlen : s1.elems.length = s.elems.length := by rw [r1.same.len]
  obtain ⟨la1, hla1⟩ := St.At.exists r1.ok (Nat.le_refl _)
  refine CRes.le_step (find_end_c r1.ok hla1 H1) (find_end_leL (L := L) r1.ok (by rwa [hlen]) H1) (by omega) ?_
  have hle := h1.le
  have hf1 : (uniq p s.elems).length = f1 := by
    rw [← h2, List.length_take, ← r1.elems, Nat.min_eq_left hle]
  rw [hf1]
  refine CRes.le_bind (erase_range_le (L := L) hE (s1.elems.length - f1) r1.ok h1.pos hla1 (by omega) (by rwa [hlen]) H1)
    (by rw [hlen]; omega) fun _ _ _ _ => Nat.zero_le _

/-! ### reverse -/

theorem std_reverse_loop_le (hE : E.Good) (n : Nat) :
    ∀ {m : Mem α} {s : St α} {k l a b : Nat} {first last : Iter}, s.Ok E → s.AtT k first a → s.AtL l last b →
    l < s.elems.length → l - k ≤ n → Holds g (cont E o al s + F) m →
    (Cost.std_reverse_loop E first last m).le (33 * n + 5 * a + 6 * b) := by
  induction n with
  | zero =>
    intro m s k l a b first last hs hf hl hlen hn H
    rw [Cost.std_reverse_loop, if_neg (by rw [hf.at.pos, hl.at.pos]; omega)]
    exact Nat.zero_le _
  | succ n ih =>
    intro m s k l a b first last hs hf hl hlen hn H
    by_cases hkl2 : k < l
    · rw [Cost.std_reverse_loop, if_pos (by rw [hf.at.pos, hl.at.pos]; omega)]
      obtain ⟨m1, s1, e1, r1, H1⟩ := iter_swap_c hE hs hf.at hl.at (by omega) (by omega) (by omega) H
      refine CRes.le_step e1 ((CB.iter_swap first last).run m) (by omega) ?_
      have hl1 : s1.elems.length = s.elems.length := by rw [r1.elems]; simp
      obtain ⟨it2, k2, b2, e2, hk2, h2, hb2⟩ := move_next_am r1.ok (hf.same r1.same) (by omega) H1
      refine CRes.le_step e2 hk2 (by omega) ?_
      obtain ⟨it3, k3, b3, e3, hk3, h3, hb3⟩ := move_prev_am r1.ok (hl.same r1.same) (by omega) H1
      refine CRes.le_step e3 hk3 (by omega) ?_
      exact (ih r1.ok h2 h3 (by omega) (by omega) H1).mono (by omega)
    · rw [Cost.std_reverse_loop, if_neg (by rw [hf.at.pos, hl.at.pos]; omega)]
      exact Nat.zero_le _

theorem reverse_le (hE : E.Good) (hs : s.Ok E) (hL : lg s.elems.length ≤ L) (H : Holds g (cont E o al s + F) m) :
    (Cost.reverse E o m).le (33 * s.elems.length + 35 * L) := by
  unfold Cost.reverse Cost.begin_ Cost.end_
  have hh := htL hs hL
  have h1 := posL hL
  obtain ⟨fi, hfi⟩ := St.At.exists hs (Nat.zero_le _)
  obtain ⟨la, hla⟩ := St.At.exists hs (Nat.le_refl _)
  refine CRes.le_step (find_first_c hs hfi H) (find_first_leL hs hL H) (by omega) ?_
  refine CRes.le_step (find_end_c hs hla H) (find_end_leL hs hL H) (by omega) ?_
  unfold Cost.std_reverse
  by_cases h0 : s.elems.length = 0
  · rw [if_pos (by rw [hfi.pos, hla.pos, h0])]; exact Nat.zero_le _
  · rw [if_neg (by rw [hfi.pos, hla.pos]; omega)]
    obtain ⟨it3, k3, b3, e3, hk3, h3, hb3⟩ := move_prev_am hs hla.toL (by omega) H
    refine CRes.le_step e3 hk3 (by omega) ?_
    exact (std_reverse_loop_le hE (s.elems.length - 1) hs hfi.toT h3 (by omega) (by omega) H).mono (by omega)

/-! ### comparison -/

section
variable {o2 al2 : Nat} {s2 : St α} {F2 : Asrt α} {g2 : Log}

theorem std_equal_le {eq : α → α → Bool} (hs : s.Ok E) (hs2 : s2.Ok E)
    (hlen : s.elems.length = s2.elems.length) {l1 : Iter} (hl1 : s.At s.elems.length l1)
    (H : Holds g (cont E o al s + F) m) (H2 : Holds g2 (cont E o2 al2 s2 + F2) m) (n : Nat) :
    ∀ {i a b : Nat} {f1 f2 : Iter}, s.AtT i f1 a → s2.AtT i f2 b → i + n = s.elems.length →
    (Cost.std_equal E eq f1 l1 f2 m).le (24 * n + 5 * a + 5 * b) := by
  induction n with
  | zero =>
    intro i a b f1 f2 h1 h2 hi
    rw [Cost.std_equal, if_neg (by rw [h1.at.pos, hl1.pos]; omega)]
    exact Nat.zero_le _
  | succ n ih =>
    intro i a b f1 f2 h1 h2 hi
    rw [Cost.std_equal, if_pos (by rw [h1.at.pos, hl1.pos]; omega)]
    refine CRes.le_step (dereference_c hs h1.at (by omega) H) ((CB.dereference _).run m) (by omega) ?_
    refine CRes.le_step (dereference_c hs2 h2.at (by omega) H2) ((CB.dereference _).run m) (by omega) ?_
    split
    · obtain ⟨it1, k1, b1, e1, hk1, ha1, hb1⟩ := move_next_am hs h1 (by omega) H
      obtain ⟨it2, k2, b2, e2, hk2, ha2, hb2⟩ := move_next_am hs2 h2 (by omega) H2
      refine CRes.le_step e1 hk1 (by omega) ?_
      refine CRes.le_step e2 hk2 (by omega) ?_
      exact (ih ha1 ha2 (by omega)).mono (by omega)
    · exact Nat.zero_le _

theorem op_eq_le {eq : α → α → Bool} (hs : s.Ok E) (hs2 : s2.Ok E) (hL : lg s.elems.length ≤ L)
    (H : Holds g (cont E o al s + F) m) (H2 : Holds g2 (cont E o2 al2 s2 + F2) m) :
    (Cost.op_eq E eq o o2 m).le
      (if s.elems.length = s2.elems.length then 24 * s.elems.length + 29 * L else 2) := by
  unfold Cost.op_eq Cost.begin_ Cost.end_
  have h1 := posL hL
  refine CRes.le_step (getSize_c H) ((CB.getSize o).run m) (by split <;> omega) ?_
  refine CRes.le_step (getSize_c H2) ((CB.getSize o2).run m) (by split <;> omega) ?_
  by_cases hlen : s.elems.length = s2.elems.length
  · rw [if_pos hlen, if_pos hlen]
    have hh := htL hs hL
    have hL2 : lg s2.elems.length ≤ L := by rwa [← hlen]
    have hh2 := htL hs2 hL2
    obtain ⟨fi, hfi⟩ := St.At.exists hs (Nat.zero_le _)
    obtain ⟨la, hla⟩ := St.At.exists hs (Nat.le_refl _)
    obtain ⟨f2, hf2⟩ := St.At.exists hs2 (Nat.zero_le _)
    refine CRes.le_step (find_first_c hs hfi H) (find_first_leL hs hL H) (by omega) ?_
    refine CRes.le_step (find_end_c hs hla H) (find_end_leL hs hL H) (by omega) ?_
    refine CRes.le_step (find_first_c hs2 hf2 H2) (find_first_leL hs2 hL2 H2) (by omega) ?_
    exact (std_equal_le hs hs2 hlen hla H H2 s.elems.length hfi.toT hf2.toT (by omega)).mono (by omega)
  · rw [if_neg hlen, if_neg hlen]; exact Nat.zero_le _

theorem std_lex_le {lt : α → α → Bool} (hs : s.Ok E) (hs2 : s2.Ok E)
    {l1 l2 : Iter} (hl1 : s.At s.elems.length l1) (hl2 : s2.At s2.elems.length l2)
    (H : Holds g (cont E o al s + F) m) (H2 : Holds g2 (cont E o2 al2 s2 + F2) m) (n : Nat) :
    ∀ {i a b : Nat} {f1 f2 : Iter}, s.AtT i f1 a → s2.AtT i f2 b →
      min s.elems.length s2.elems.length = i + n →
    (Cost.std_lex E lt f1 l1 f2 l2 m).le (24 * n + 5 * a + 5 * b) := by
  induction n with
  | zero =>
    intro i a b f1 f2 h1 h2 hi
    rw [Cost.std_lex, if_neg (by rw [h1.at.pos, hl1.pos, h2.at.pos, hl2.pos]; omega)]
    exact Nat.zero_le _
  | succ n ih =>
    intro i a b f1 f2 h1 h2 hi
    rw [Cost.std_lex, if_pos (by rw [h1.at.pos, hl1.pos, h2.at.pos, hl2.pos]; omega)]
    refine CRes.le_step (dereference_c hs h1.at (by omega) H) ((CB.dereference _).run m) (by omega) ?_
    refine CRes.le_step (dereference_c hs2 h2.at (by omega) H2) ((CB.dereference _).run m) (by omega) ?_
    split
    · exact Nat.zero_le _
    · split
      · exact Nat.zero_le _
      · obtain ⟨it1, k1, b1, e1, hk1, ha1, hb1⟩ := move_next_am hs h1 (by omega) H
        obtain ⟨it2, k2, b2, e2, hk2, ha2, hb2⟩ := move_next_am hs2 h2 (by omega) H2
        refine CRes.le_step e1 hk1 (by omega) ?_
        refine CRes.le_step e2 hk2 (by omega) ?_
        exact (ih ha1 ha2 (by omega)).mono (by omega)

theorem op_lt_le {lt : α → α → Bool} (hs : s.Ok E) (hs2 : s2.Ok E) (hL : lg s.elems.length ≤ L)
    (hL2 : lg s2.elems.length ≤ L)
    (H : Holds g (cont E o al s + F) m) (H2 : Holds g2 (cont E o2 al2 s2 + F2) m) :
    (Cost.op_lt E lt o o2 m).le (24 * min s.elems.length s2.elems.length + 34 * L) := by
  unfold Cost.op_lt Cost.begin_ Cost.end_
  have hh := htL hs hL
  have hh2 := htL hs2 hL2
  obtain ⟨fi, hfi⟩ := St.At.exists hs (Nat.zero_le _)
  obtain ⟨la, hla⟩ := St.At.exists hs (Nat.le_refl _)
  obtain ⟨f2, hf2⟩ := St.At.exists hs2 (Nat.zero_le _)
  obtain ⟨l2, hl2⟩ := St.At.exists hs2 (Nat.le_refl _)
  refine CRes.le_step (find_first_c hs hfi H) (find_first_leL hs hL H) (by omega) ?_
  refine CRes.le_step (find_end_c hs hla H) (find_end_leL hs hL H) (by omega) ?_
  refine CRes.le_step (find_first_c hs2 hf2 H2) (find_first_leL hs2 hL2 H2) (by omega) ?_
  refine CRes.le_step (find_end_c hs2 hl2 H2) (find_end_leL hs2 hL2 H2) (by omega) ?_
  exact (std_lex_le hs hs2 hla hl2 H H2 _ hfi.toT hf2.toT (Nat.zero_add _).symm).mono (by omega)
end

end SegTree
