/-
  The list-like operations (seq.hpp 3433-3661) and comparisons (3675-3757).
-/
import Verif.Proof.Whole
set_option autoImplicit false
set_option linter.unusedSimpArgs false

namespace SegTree

variable {α β γ : Type} {E : Env α} {g : Log} {F : Asrt α} {m : Mem α} {o al : Nat}

/-- `s'` is `s` with the elements overwritten by `xs`: same blocks, same iterators -/
structure Rew (E : Env α) (s s' : St α) (xs : List α) : Prop where
  ok : s'.Ok E
  elems : s'.elems = xs
  at_ : ∀ j it, s.At j it → s'.At j it
  same : s.Same s'

theorem Rew.ht {s s' : St α} {xs : List α} (h : Rew E s s' xs) : s'.ht = s.ht := h.same.ht
theorem Rew.refl {s : St α} (h : s.Ok E) : Rew E s s s.elems := ⟨h, rfl, fun _ _ h => h, .refl s⟩
theorem Rew.trans {s s1 s2 : St α} {xs ys : List α} (h1 : Rew E s s1 xs) (h2 : Rew E s1 s2 ys) : Rew E s s2 ys :=
  ⟨h2.ok, h2.elems, fun j it h => h2.at_ j it (h1.at_ j it h), h1.same.trans h2.same⟩
theorem Rew.cast {s s1 : St α} {xs ys : List α} (h1 : Rew E s s1 xs) (h : xs = ys) : Rew E s s1 ys := h ▸ h1

section
variable {s : St α} {i j : Nat} {it jt first last : Iter}

theorem wrElem_r (v : α) (hs : s.Ok E) (ha : s.At i it) (hi : i < s.elems.length)
    (H : Holds g (cont E o al s + F) m) :
    ∃ m' s', wrElem E it.entry.seg.ptr it.entry.seg.idx v m = .ok () m' ∧ Rew E s s' (s.elems.set i v) ∧
      Holds g (cont E o al s' + F) m' := by
  obtain ⟨m', s', e, h1, h2, h3, h4, H'⟩ := wrElem_c v hs ha hi H
  exact ⟨m', s', e, ⟨h1, h2, h3, h4⟩, H'⟩

/-! ### reading and writing ranges -/

theorem read_range_c (hs : s.Ok E) (hl : s.At j last) (H : Holds g (cont E o al s + F) m) (n : Nat) :
    ∀ {i : Nat} {first : Iter}, s.At i first → i + n = j →
    read_range E first last m = .ok ((s.elems.take j).drop i) m := by
  have hj := hl.le
  induction n with
  | zero =>
    intro i first hf hij
    rw [read_range, if_neg (by rw [hf.pos, hl.pos]; omega)]
    rw [List.drop_eq_nil_of_le (by simp; omega)]; rfl
  | succ n ih =>
    intro i first hf hij
    rw [read_range, if_pos (by rw [hf.pos, hl.pos]; omega)]
    rw [bind_ok (dereference_c hs hf (by omega) H)]
    obtain ⟨it', e', ha'⟩ := move_next_c hs hf (by omega) H
    rw [bind_ok e', bind_ok (ih ha' (by omega))]
    rw [List.drop_eq_getElem_cons (i := i) (by simp; omega), List.getElem_take]; rfl

theorem write_range_c (vs : List α) : ∀ {m : Mem α} {s : St α} {i : Nat} {first : Iter}, s.Ok E → s.At i first →
    i + vs.length ≤ s.elems.length → Holds g (cont E o al s + F) m →
    ∃ m' s', write_range E first vs m = .ok () m' ∧
      Rew E s s' (s.elems.take i ++ (vs ++ s.elems.drop (i + vs.length))) ∧ Holds g (cont E o al s' + F) m' := by
  induction vs with
  | nil =>
    intro m s i first hs hf hi H
    exact ⟨m, s, rfl, (Rew.refl hs).cast (by simp), H⟩
  | cons v vs ih =>
    intro m s i first hs hf hi H
    simp only [List.length_cons] at hi
    rw [write_range]
    obtain ⟨m1, s1, e1, r1, H1⟩ := wrElem_r v hs hf (by omega) H
    rw [bind_ok e1]
    have hlen : s1.elems.length = s.elems.length := by rw [r1.elems]; simp
    obtain ⟨it2, e2, ha2⟩ := move_next_c r1.ok (r1.at_ _ _ hf) (by omega) H1
    rw [bind_ok e2]
    obtain ⟨m3, s3, e3, r3, H3⟩ := ih r1.ok ha2 (by omega) H1
    refine ⟨m3, s3, e3, (r1.trans r3).cast ?_, H3⟩
    rw [r1.elems, List.take_add_one, List.take_set_of_le (Nat.le_refl _), List.getElem?_set_self (by omega),
      List.drop_set_of_lt (by omega)]
    simp [Nat.add_assoc, Nat.add_comm 1]

theorem std_stable_sort_c {comp : α → α → Bool} (hs : s.Ok E) (hf : s.At 0 first) (hl : s.At s.elems.length last)
    (H : Holds g (cont E o al s + F) m) :
    ∃ m' s', std_stable_sort E comp first last m = .ok () m' ∧
      Rew E s s' (s.elems.mergeSort (fun a b => !comp b a)) ∧ Holds g (cont E o al s' + F) m' := by
  unfold std_stable_sort
  rw [bind_ok (read_range_c hs hl H s.elems.length hf (by omega))]
  obtain ⟨m', s', e, r, H'⟩ := write_range_c (s.elems.mergeSort (fun a b => !comp b a)) hs hf (by simp) H
  refine ⟨m', s', ?_, r.cast (by simp), H'⟩
  simpa using e

theorem std_inplace_merge_c {comp : α → α → Bool} {k : Nat} {mid : Iter} (hs : s.Ok E) (hf : s.At 0 first)
    (hm : s.At k mid) (hl : s.At s.elems.length last) (H : Holds g (cont E o al s + F) m) :
    ∃ m' s', std_inplace_merge E comp first mid last m = .ok () m' ∧
      Rew E s s' ((s.elems.take k).merge (s.elems.drop k) (fun a b => !comp b a)) ∧
      Holds g (cont E o al s' + F) m' := by
  unfold std_inplace_merge
  have hk := hm.le
  rw [bind_ok (read_range_c hs hm H k hf (by omega)),
    bind_ok (read_range_c hs hl H (s.elems.length - k) hm (by omega))]
  have hlen : ((s.elems.take k).merge (s.elems.drop k) (fun a b => !comp b a)).length = s.elems.length := by
    rw [(List.merge_perm_append _).length_eq]; simp
  obtain ⟨m', s', e, r, H'⟩ := write_range_c ((s.elems.take k).merge (s.elems.drop k) (fun a b => !comp b a))
    hs hf (by omega) H
  refine ⟨m', s', ?_, r.cast (by simp [hlen]), H'⟩
  simpa using e

theorem sort_c {comp : α → α → Bool} (hs : s.Ok E) (H : Holds g (cont E o al s + F) m) :
    ∃ m' s', sort E o comp m = .ok () m' ∧
      Rew E s s' (s.elems.mergeSort (fun a b => !comp b a)) ∧ Holds g (cont E o al s' + F) m' := by
  obtain ⟨fi, hfi⟩ := St.At.exists hs (Nat.zero_le _)
  obtain ⟨la, hla⟩ := St.At.exists hs (Nat.le_refl _)
  unfold sort begin_ end_
  rw [bind_ok (find_first_c hs hfi H), bind_ok (find_end_c hs hla H)]
  exact std_stable_sort_c hs hfi hla H

theorem merge_c {comp : α → α → Bool} {o2 al2 : Nat} {s2 : St α} (hE : E.Good) (hs : s.Ok E) (hs2 : s2.Ok E)
    (hW : s.elems.length + s2.elems.length < E.W)
    (H : Holds g (cont E o al s + (cont E o2 al2 s2 + F)) m) :
    Spec (merge E o o2 comp) m
      (fun _ m' => ∃ s' s2' r, s'.Ok E ∧ s2'.Ok E ∧
        s'.elems = s.elems.merge s2.elems (fun a b => !comp b a) ∧ s2'.elems = [] ∧
        Holds { g with reqs := g.reqs + r } (cont E o al s' + (cont E o2 al2 s2' + F)) m')
      (fun e m' => ∃ s' s2' g' k, s'.Ok E ∧ s2'.Ok E ∧ k < s2.elems.length ∧
        s'.elems = s.elems ++ s2.elems.take k ∧
        s2'.elems = movedList E 0 (k + 1) s2.elems ∧ e = .alloc ∧ g'.fails = g.fails + 1 ∧
        Holds g' (cont E o al s' + (cont E o2 al2 s2' + F)) m') := by
  unfold merge begin_ end_
  have H' := H.eqv (by frame : _ = cont E o2 al2 s2 + (_ + _))
  obtain ⟨la, hla⟩ := St.At.exists hs (Nat.le_refl _)
  obtain ⟨f2, hf2⟩ := St.At.exists hs2 (Nat.zero_le _)
  obtain ⟨l2, hl2⟩ := St.At.exists hs2 (Nat.le_refl _)
  refine Spec.step (getSize_c H) (Spec.step (find_end_c hs hla H) (Spec.step (find_first_c hs2 hf2 H')
    (Spec.step (find_end_c hs2 hl2 H') ?_)))
  refine ((splice_range_c hE hs hs2 hla hf2 hl2 (Nat.zero_le _) (by omega) H).mono (fun _ _ h => h) ?_).bind ?_
  · rintro e m' ⟨s', s2', g', k, h1, h2, h3, h6, h7, h8, h9⟩
    exact ⟨s', s2', g', k, h1, h2, by omega, by simpa using h6, by simpa using h7, h8, h9⟩
  · rintro _ m1 ⟨s1, s3, r, hs1, hs3, he1, he3, H1⟩
    have he1 : s1.elems = s.elems ++ s2.elems := by simpa using he1
    obtain ⟨b, hb⟩ := St.At.exists hs1 (Nat.zero_le _)
    obtain ⟨mi, hmi⟩ := St.At.exists hs1 (by rw [he1]; simp : s.elems.length ≤ s1.elems.length)
    obtain ⟨en, hen⟩ := St.At.exists hs1 (Nat.le_refl _)
    refine Spec.step (find_first_c hs1 hb H1) (Spec.step (nth_c hs1 hmi H1) (Spec.step (find_end_c hs1 hen H1) ?_))
    obtain ⟨m4, s4, e4, r4, H4⟩ := std_inplace_merge_c (comp := comp) hs1 hb hmi hen H1
    refine Spec.ok e4 ⟨s4, s3, r, r4.ok, hs3, ?_, by simpa using he3, H4⟩
    rw [r4.elems, he1]; simp

/-! ### remove_if -/

theorem iter_move_assign_c (hE : E.Good) (hs : s.Ok E) (hi : s.At i it) (hj : s.At j jt) (hij : i ≠ j)
    (hil : i < s.elems.length) (hjl : j < s.elems.length) (H : Holds g (cont E o al s + F) m) :
    ∃ m' s', iter_move_assign E it jt m = .ok () m' ∧
      Rew E s s' ((s.elems.set j s.elems[i]).set i (E.moved s.elems[i])) ∧ Holds g (cont E o al s' + F) m' := by
  unfold iter_move_assign move_assign_segment
  rw [bind_ok (rdElem_c hs hi hil H)]
  unfold assign_segment
  rw [hE.throws]
  simp only [Bool.false_eq_true, if_false]
  obtain ⟨m1, s1, e1, r1, H1⟩ := wrElem_r s.elems[i] hs hj hjl H
  rw [bind_ok e1]
  obtain ⟨m2, s2, e2, r2, H2⟩ := wrElem_r (E.moved s.elems[i]) r1.ok (r1.at_ _ _ hi) (by rw [r1.elems]; simpa) H1
  exact ⟨m2, s2, e2, (r1.trans r2).cast (by rw [r1.elems]), H2⟩

theorem std_find_if_c {p : α → Bool} (hs : s.Ok E) (hl : s.At s.elems.length last)
    (H : Holds g (cont E o al s + F) m) (n : Nat) :
    ∀ {i : Nat} {first : Iter}, s.At i first → i + n = s.elems.length →
    ∃ f it', std_find_if E p first last m = .ok it' m ∧ s.At f it' ∧ i ≤ f ∧
      (∀ x ∈ (s.elems.take f).drop i, p x = false) ∧ (∀ h : f < s.elems.length, p s.elems[f] = true) := by
  induction n with
  | zero =>
    intro i first hf hi
    rw [std_find_if, if_neg (by rw [hf.pos, hl.pos]; omega)]
    exact ⟨i, first, rfl, hf, Nat.le_refl _, by simp, fun h => by omega⟩
  | succ n ih =>
    intro i first hf hi
    rw [std_find_if, if_pos (by rw [hf.pos, hl.pos]; omega)]
    rw [bind_ok (dereference_c hs hf (by omega) H)]
    by_cases hp : p (s.elems[i]'(by omega)) = true
    · rw [if_pos hp]
      exact ⟨i, first, rfl, hf, Nat.le_refl _, by simp, fun h => hp⟩
    · rw [if_neg hp]
      obtain ⟨it', e', ha'⟩ := move_next_c hs hf (by omega) H
      rw [bind_ok e']
      obtain ⟨f, it2, e2, ha2, h1, h2, h3⟩ := ih ha' (by omega)
      refine ⟨f, it2, e2, ha2, by omega, ?_, h3⟩
      intro x hx
      rw [List.drop_eq_getElem_cons (i := i) (by simp; omega), List.getElem_take] at hx
      rcases List.mem_cons.1 hx with rfl | hx
      · simpa using hp
      · exact h2 x hx

/-- the loop of `std::remove_if` after examining positions `≤ k` of `xs` -/
theorem std_remove_loop_c {p : α → Bool} {xs : List α} (hE : E.Good) (n : Nat) :
    ∀ {m : Mem α} {s : St α} {f k : Nat} {first it : Iter}, s.Ok E → s.At f first → s.At k it →
    s.At s.elems.length last → s.elems.length = xs.length → f ≤ k → k + 1 + n = xs.length →
    s.elems.take f = (xs.take (k + 1)).filter (fun x => !p x) → s.elems.drop (k + 1) = xs.drop (k + 1) →
    Holds g (cont E o al s + F) m →
    ∃ m' s' f' it' ys, std_remove_loop E p first it last m = .ok it' m' ∧ Rew E s s' ys ∧ s'.At f' it' ∧
      ys.take f' = xs.filter (fun x => !p x) ∧ Holds g (cont E o al s' + F) m' := by
  induction n with
  | zero =>
    intro m s f k first it hs hf hk hl hlen hfk hn ht hd H
    rw [std_remove_loop]
    obtain ⟨it1, e1, h1⟩ := move_next_c hs hk (by omega) H
    rw [bind_ok e1, if_neg (by rw [h1.pos, hl.pos]; omega)]
    refine ⟨m, s, f, first, s.elems, rfl, Rew.refl hs, hf, ?_, H⟩
    rw [ht, List.take_of_length_le (by omega)]
  | succ n ih =>
    intro m s f k first it hs hf hk hl hlen hfk hn ht hd H
    rw [std_remove_loop]
    obtain ⟨it1, e1, h1⟩ := move_next_c hs hk (by omega) H
    rw [bind_ok e1, if_pos (by rw [h1.pos, hl.pos]; omega), bind_ok (dereference_c hs h1 (by omega) H)]
    have hx : s.elems[k + 1]'(by omega) = xs[k + 1]'(by omega) := by
      have := congrArg (fun l => l[0]?) hd
      simp only [List.getElem?_drop, Nat.add_zero] at this
      rw [List.getElem?_eq_getElem (by omega), List.getElem?_eq_getElem (by omega)] at this
      simpa using this
    have hd' : s.elems.drop (k + 1 + 1) = xs.drop (k + 1 + 1) := by
      have := congrArg (List.drop 1) hd
      simpa only [List.drop_drop] using this
    have htk : (xs.take (k + 1 + 1)).filter (fun x => !p x) =
        s.elems.take f ++ [xs[k + 1]'(by omega)].filter (fun x => !p x) := by
      rw [List.take_add_one, List.getElem?_eq_getElem (by omega), List.filter_append, ← ht]; rfl
    by_cases hp : p (s.elems[k + 1]'(by omega)) = true
    · rw [if_pos hp]
      rw [hx] at hp
      exact ih hs hf h1 hl hlen (by omega) (by omega) (by rw [htk]; simp [hp]) hd' H
    · rw [if_neg hp]
      obtain ⟨m2, s2, e2, r2, H2⟩ := iter_move_assign_c hE hs h1 hf (by omega) (by omega) (by omega) H
      rw [bind_ok e2]
      have hlen2 : s2.elems.length = s.elems.length := by rw [r2.elems]; simp
      obtain ⟨it3, e3, h3⟩ := move_next_c r2.ok (r2.at_ _ _ hf) (by omega) H2
      rw [bind_ok e3]
      have hl2 : s2.At s2.elems.length last := by rw [hlen2]; exact r2.at_ _ _ hl
      obtain ⟨m4, s4, f4, it4, ys, e4, r4, h4, h5, H4⟩ := ih r2.ok h3 (r2.at_ _ _ h1) hl2 (by omega) (by omega) (by omega)
        (by
          rw [r2.elems, List.take_set_of_le (by omega), List.take_add_one, List.take_set_of_le (Nat.le_refl _),
            List.getElem?_set_self (by omega), htk, hx]
          rw [hx] at hp
          simp [hp])
        (by
          rw [r2.elems, List.drop_set_of_lt (by omega), List.drop_set_of_lt (by omega)]
          exact hd') H2
      exact ⟨m4, s4, f4, it4, ys, e4, r2.trans r4, h4, h5, H4⟩

theorem std_remove_if_c {p : α → Bool} (hE : E.Good) (hs : s.Ok E) (hf : s.At 0 first)
    (hl : s.At s.elems.length last) (H : Holds g (cont E o al s + F) m) :
    ∃ m' s' f' it' ys, std_remove_if E p first last m = .ok it' m' ∧ Rew E s s' ys ∧ s'.At f' it' ∧
      ys.take f' = s.elems.filter (fun x => !p x) ∧ Holds g (cont E o al s' + F) m' := by
  unfold std_remove_if
  obtain ⟨f, it1, e1, h1, h0, h2, h3⟩ := std_find_if_c (p := p) hs hl H s.elems.length hf (by omega)
  have hfl := h1.le
  rw [bind_ok e1]
  have hall : (s.elems.take f).filter (fun x => !p x) = s.elems.take f := by
    rw [List.filter_eq_self]
    intro x hx
    simpa using h2 x (by simpa using hx)
  by_cases hc : f = s.elems.length
  · rw [if_neg (by rw [h1.pos, hl.pos]; simpa using hc)]
    refine ⟨m, s, f, it1, s.elems, rfl, Rew.refl hs, h1, ?_, H⟩
    rw [← hall, hc, List.take_length]
  · rw [if_pos (by rw [h1.pos, hl.pos]; simpa using hc)]
    refine std_remove_loop_c hE (s.elems.length - f - 1) hs h1 h1 hl rfl (Nat.le_refl _) (by omega) ?_ rfl H
    rw [List.take_add_one, List.filter_append, hall, List.getElem?_eq_getElem (by omega)]
    simp [h3 (by omega)]

theorem remove_if_c {p : α → Bool} (hE : E.Good) (hs : s.Ok E) (H : Holds g (cont E o al s + F) m) :
    Spec (remove_if E o p) m (fun _ m' => ∃ s', s'.Ok E ∧ s'.elems = s.elems.filter (fun x => !p x) ∧
      Holds g (cont E o al s' + F) m') NoThrow := by
  unfold remove_if begin_ end_
  obtain ⟨fi, hfi⟩ := St.At.exists hs (Nat.zero_le _)
  obtain ⟨la, hla⟩ := St.At.exists hs (Nat.le_refl _)
  refine Spec.step (find_first_c hs hfi H) (Spec.step (find_end_c hs hla H) ?_)
  obtain ⟨m1, s1, f1, it1, ys, e1, r1, h1, h2, H1⟩ := std_remove_if_c (p := p) hE hs hfi hla H
  refine Spec.step e1 ?_
  obtain ⟨la1, hla1⟩ := St.At.exists r1.ok (Nat.le_refl _)
  refine Spec.step (find_end_c r1.ok hla1 H1) ?_
  have := h1.le
  refine ((erase_range_c hE (s1.elems.length - f1) r1.ok h1.pos hla1 (by omega) H1)).bind ?_
  rintro it2 m2 ⟨s2, hs2, he2, -, H2⟩
  refine Spec.pure ⟨s2, hs2, ?_, H2⟩
  rw [he2, List.drop_length, List.append_nil, r1.elems, h2]

/-! ### reverse -/

theorem iter_swap_c (hE : E.Good) (hs : s.Ok E) (hi : s.At i it) (hj : s.At j jt) (hij : i ≠ j)
    (hil : i < s.elems.length) (hjl : j < s.elems.length) (H : Holds g (cont E o al s + F) m) :
    ∃ m' s', iter_swap E it jt m = .ok () m' ∧
      Rew E s s' ((s.elems.set i s.elems[j]).set j s.elems[i]) ∧ Holds g (cont E o al s' + F) m' := by
  unfold iter_swap
  obtain ⟨m1, s1, e1, h1, h2, h3, h4, H1⟩ := moveFrom_c hE hs hi hil H
  have r1 : Rew E s s1 _ := ⟨h1, h2, h3, h4⟩
  rw [bind_ok e1]
  have hl1 : s1.elems.length = s.elems.length := by rw [h2]; simp
  obtain ⟨m2, s2, e2, r2, H2⟩ := iter_move_assign_c hE h1 (h3 _ _ hj) (h3 _ _ hi) (fun h => hij h.symm)
    (by omega) (by omega) H1
  unfold iter_move_assign at e2
  rw [bind_ok e2]
  unfold assign_segment
  rw [hE.throws]
  simp only [Bool.false_eq_true, if_false]
  have hl2 : s2.elems.length = s.elems.length := by rw [r2.elems]; simp [hl1]
  obtain ⟨m3, s3, e3, r3, H3⟩ := wrElem_r s.elems[i] r2.ok (r2.at_ _ _ (h3 _ _ hj)) (by omega) H2
  refine ⟨m3, s3, e3, ((r1.trans r2).trans r3).cast ?_, H3⟩
  rw [r2.elems]
  simp only [h2]
  rw [List.getElem_set_ne (by omega), List.set_set, List.set_set]

theorem std_reverse_loop_c {xs : List α} (hE : E.Good) (n : Nat) :
    ∀ {m : Mem α} {s : St α} {k l : Nat} {first last : Iter}, s.Ok E → s.At k first → s.At l last →
    s.elems.length = xs.length → k + l + 1 = xs.length → l - k ≤ n →
    (∀ q (h : q < s.elems.length) (h' : q < xs.length), k ≤ q → q ≤ l → s.elems[q] = xs[q]) →
    (∀ q (h : q < s.elems.length) (h' : q < xs.length), ¬ (k ≤ q ∧ q ≤ l) → s.elems[q] = xs[xs.length - 1 - q]) →
    Holds g (cont E o al s + F) m →
    ∃ m' s', std_reverse_loop E first last m = .ok () m' ∧ Rew E s s' xs.reverse ∧
      Holds g (cont E o al s' + F) m' := by
  induction n with
  | zero =>
    intro m s k l first last hs hf hl hlen hkl hn hin hout H
    rw [std_reverse_loop, if_neg (by rw [hf.pos, hl.pos]; omega)]
    refine ⟨m, s, rfl, (Rew.refl hs).cast ?_, H⟩
    apply List.ext_getElem (by simp [hlen])
    intro q h1 h2
    rw [List.getElem_reverse]
    by_cases hq : k ≤ q ∧ q ≤ l
    · rw [hin q h1 (by omega) hq.1 hq.2]; congr 1; omega
    · exact hout q h1 (by omega) hq
  | succ n ih =>
    intro m s k l first last hs hf hl hlen hkl hn hin hout H
    by_cases hkl2 : k < l
    · rw [std_reverse_loop, if_pos (by rw [hf.pos, hl.pos]; omega)]
      obtain ⟨m1, s1, e1, r1, H1⟩ := iter_swap_c hE hs hf hl (by omega) (by omega) (by omega) H
      rw [bind_ok e1]
      have hl1 : s1.elems.length = s.elems.length := by rw [r1.elems]; simp
      obtain ⟨it2, e2, h2⟩ := move_next_c r1.ok (r1.at_ _ _ hf) (by omega) H1
      rw [bind_ok e2]
      obtain ⟨it3, e3, h3⟩ := move_prev_c r1.ok (r1.at_ _ _ hl) (by omega) H1
      rw [bind_ok e3]
      obtain ⟨m4, s4, e4, r4, H4⟩ := ih r1.ok h2 h3 (by omega) (by omega) (by omega) (by
          intro q h1 h2 h3 h4
          simp only [r1.elems]
          rw [List.getElem_set_ne (by omega), List.getElem_set_ne (by omega)]
          exact hin q _ _ (by omega) (by omega)) (by
          intro q h1 h2 h3
          simp only [r1.elems]
          rw [List.getElem_set]
          split
          · rename_i hq
            subst hq
            rw [hin k (by omega) (by omega) (Nat.le_refl _) (by omega)]
            congr 1; omega
          · rw [List.getElem_set]
            split
            · rename_i hq
              subst hq
              rw [hin l (by omega) (by omega) (by omega) (by omega)]
              congr 1; omega
            · exact hout q (by omega) (by omega) (by omega)) H1
      exact ⟨m4, s4, e4, r1.trans r4, H4⟩
    · rw [std_reverse_loop, if_neg (by rw [hf.pos, hl.pos]; omega)]
      refine ⟨m, s, rfl, (Rew.refl hs).cast ?_, H⟩
      apply List.ext_getElem (by simp [hlen])
      intro q h1 h2
      rw [List.getElem_reverse]
      by_cases hq : k ≤ q ∧ q ≤ l
      · rw [hin q h1 (by omega) hq.1 hq.2]; congr 1; omega
      · exact hout q h1 (by omega) hq

theorem reverse_c (hE : E.Good) (hs : s.Ok E) (H : Holds g (cont E o al s + F) m) :
    ∃ m' s', reverse E o m = .ok () m' ∧ Rew E s s' s.elems.reverse ∧ Holds g (cont E o al s' + F) m' := by
  unfold reverse begin_ end_
  obtain ⟨fi, hfi⟩ := St.At.exists hs (Nat.zero_le _)
  obtain ⟨la, hla⟩ := St.At.exists hs (Nat.le_refl _)
  rw [bind_ok (find_first_c hs hfi H), bind_ok (find_end_c hs hla H)]
  unfold std_reverse
  by_cases h0 : s.elems.length = 0
  · rw [if_pos (by rw [hfi.pos, hla.pos, h0])]
    refine ⟨m, s, rfl, (Rew.refl hs).cast ?_, H⟩
    rw [List.eq_nil_of_length_eq_zero h0]; rfl
  · rw [if_neg (by rw [hfi.pos, hla.pos]; omega)]
    obtain ⟨it3, e3, h3⟩ := move_prev_c hs hla (by omega) H
    rw [bind_ok e3]
    exact std_reverse_loop_c hE (s.elems.length) hs hfi h3 rfl (by omega) (by omega) (fun _ _ _ _ _ => rfl)
      (fun q h _ hq => absurd ⟨Nat.zero_le _, by omega⟩ hq) H

/-! ### unique -/

/-- drop every element equivalent to the last kept one -/
def uniqGo (p : α → α → Bool) (last : α) : List α → List α
  | [] => []
  | y :: ys => if p last y then uniqGo p last ys else y :: uniqGo p y ys

def uniq (p : α → α → Bool) : List α → List α
  | [] => []
  | x :: xs => x :: uniqGo p x xs

theorem uniq_start {p : α → α → Bool} {xs : List α} (h : 0 < xs.length) :
    xs.take (0 + 1) ++ uniqGo p xs[0] (xs.drop (0 + 1)) = uniq p xs := by
  cases xs with
  | nil => simp at h
  | cons x xs => simp [uniq]

theorem std_unique_loop_c {p : α → α → Bool} {xs : List α} (hE : E.Good) (n : Nat) :
    ∀ {m : Mem α} {s : St α} {r k : Nat} {result first : Iter} (hrl : r < s.elems.length), s.Ok E → s.At r result →
    s.At k first → s.At s.elems.length last → s.elems.length = xs.length → r ≤ k → k + 1 + n = xs.length →
    s.elems.drop (k + 1) = xs.drop (k + 1) →
    s.elems.take (r + 1) ++ uniqGo p (s.elems[r]) (xs.drop (k + 1)) = uniq p xs →
    Holds g (cont E o al s + F) m →
    ∃ m' s' f' it' ys, std_unique_loop E p result first last m = .ok it' m' ∧ Rew E s s' ys ∧ s'.At f' it' ∧
      ys.take f' = uniq p xs ∧ Holds g (cont E o al s' + F) m' := by
  induction n with
  | zero =>
    intro m s r k result first hrl hs hr hf hl hlen hrk hn hd hu H
    rw [std_unique_loop]
    obtain ⟨it1, e1, h1⟩ := move_next_c hs hf (by omega) H
    rw [bind_ok e1, if_neg (by rw [h1.pos, hl.pos]; omega)]
    obtain ⟨it2, e2, h2⟩ := move_next_c hs hr (by omega) H
    refine ⟨m, s, r + 1, it2, s.elems, e2, Rew.refl hs, h2, ?_, H⟩
    rw [← hu, List.drop_eq_nil_of_le (by omega), uniqGo, List.append_nil]
  | succ n ih =>
    intro m s r k result first hrl hs hr hf hl hlen hrk hn hd hu H
    rw [std_unique_loop]
    obtain ⟨it1, e1, h1⟩ := move_next_c hs hf (by omega) H
    rw [bind_ok e1, if_pos (by rw [h1.pos, hl.pos]; omega), bind_ok (dereference_c hs hr (by omega) H),
      bind_ok (dereference_c hs h1 (by omega) H)]
    have hx : s.elems[k + 1]'(by omega) = xs[k + 1]'(by omega) := by
      have := congrArg (fun l => l[0]?) hd
      simp only [List.getElem?_drop, Nat.add_zero] at this
      rw [List.getElem?_eq_getElem (by omega), List.getElem?_eq_getElem (by omega)] at this
      simpa using this
    have hd' : s.elems.drop (k + 1 + 1) = xs.drop (k + 1 + 1) := by
      have := congrArg (List.drop 1) hd
      simpa only [List.drop_drop] using this
    rw [List.drop_eq_getElem_cons (by omega : k + 1 < xs.length), uniqGo, ← hx] at hu
    by_cases hp : p s.elems[r] (s.elems[k + 1]'(by omega)) = true
    · rw [if_pos hp]
      rw [if_pos hp] at hu
      exact ih hrl hs hr h1 hl hlen (by omega) (by omega) hd' hu H
    · rw [if_neg hp]
      rw [if_neg hp] at hu
      obtain ⟨it2, e2, h2⟩ := move_next_c hs hr (by omega) H
      rw [bind_ok e2]
      by_cases hrk1 : r + 1 = k + 1
      · rw [if_neg (by rw [h1.pos, h2.pos]; omega)]
        refine ih (by omega) hs h2 h1 hl hlen (by omega) (by omega) hd' ?_ H
        have : r = k := by omega
        subst this
        rw [← hu, List.take_add_one (i := r + 1), List.getElem?_eq_getElem (by omega), List.append_assoc]
        rfl
      · rw [if_pos (by rw [h1.pos, h2.pos]; omega)]
        obtain ⟨m3, s3, e3, r3, H3⟩ := iter_move_assign_c hE hs h1 h2 (by omega) (by omega) (by omega) H
        rw [bind_ok e3]
        have hl3 : s3.elems.length = s.elems.length := by rw [r3.elems]; simp
        have hla3 : s3.At s3.elems.length last := by rw [hl3]; exact r3.at_ _ _ hl
        have hg : s3.elems[r + 1]'(by omega) = s.elems[k + 1]'(by omega) := by
          simp only [r3.elems]
          rw [List.getElem_set_ne (by omega), List.getElem_set_self]
        obtain ⟨m4, s4, f4, it4, ys, e4, r4, h4, h5, H4⟩ := ih (by omega) r3.ok (r3.at_ _ _ h2) (r3.at_ _ _ h1) hla3
          (by omega) (by omega) (by omega) (by
            rw [r3.elems, List.drop_set_of_lt (by omega), List.drop_set_of_lt (by omega)]
            exact hd') (by
            rw [hg, ← hu, List.take_add_one, List.getElem?_eq_getElem (by omega), hg, r3.elems,
              List.take_set_of_le (by omega), List.take_set_of_le (by omega)]
            simp) H3
        exact ⟨m4, s4, f4, it4, ys, e4, r3.trans r4, h4, h5, H4⟩

theorem unique_c {p : α → α → Bool} (hE : E.Good) (hs : s.Ok E) (H : Holds g (cont E o al s + F) m) :
    Spec (unique E o p) m (fun _ m' => ∃ s', s'.Ok E ∧ s'.elems = uniq p s.elems ∧
      Holds g (cont E o al s' + F) m') NoThrow := by
  unfold unique begin_ end_
  obtain ⟨fi, hfi⟩ := St.At.exists hs (Nat.zero_le _)
  obtain ⟨la, hla⟩ := St.At.exists hs (Nat.le_refl _)
  refine Spec.step (find_first_c hs hfi H) (Spec.step (find_end_c hs hla H) ?_)
  have key : ∃ m' s' f' it' ys, std_unique E p fi la m = .ok it' m' ∧ Rew E s s' ys ∧ s'.At f' it' ∧
      ys.take f' = uniq p s.elems ∧ Holds g (cont E o al s' + F) m' := by
    unfold std_unique
    by_cases h0 : s.elems.length = 0
    · rw [if_pos (by rw [hfi.pos, hla.pos, h0])]
      refine ⟨m, s, _, la, _, rfl, Rew.refl hs, hla, ?_, H⟩
      rw [List.eq_nil_of_length_eq_zero h0]; rfl
    · rw [if_neg (by rw [hfi.pos, hla.pos]; omega)]
      refine std_unique_loop_c hE (s.elems.length - 1) (by omega) hs hfi hfi hla rfl (Nat.le_refl _) (by omega) rfl ?_ H
      exact uniq_start (by omega)
  obtain ⟨m1, s1, f1, it1, ys, e1, r1, h1, h2, H1⟩ := key
  refine Spec.step e1 ?_
  obtain ⟨la1, hla1⟩ := St.At.exists r1.ok (Nat.le_refl _)
  refine Spec.step (find_end_c r1.ok hla1 H1) ?_
  have := h1.le
  refine ((erase_range_c hE (s1.elems.length - f1) r1.ok h1.pos hla1 (by omega) H1)).bind ?_
  rintro it2 m2 ⟨s2, hs2, he2, -, H2⟩
  refine Spec.pure ⟨s2, hs2, ?_, H2⟩
  rw [he2, List.drop_length, List.append_nil, r1.elems, h2]

end

/-! ### comparison -/

section
variable {o2 al2 : Nat} {s s2 : St α} {F2 : Asrt α} {g2 : Log}

/-- element-wise equality -/
def eqList (eq : α → α → Bool) : List α → List α → Bool
  | [], [] => true
  | x :: xs, y :: ys => eq x y && eqList eq xs ys
  | _, _ => false

/-- lexicographic order -/
def ltList (lt : α → α → Bool) : List α → List α → Bool
  | x :: xs, y :: ys => if lt x y then true else if lt y x then false else ltList lt xs ys
  | [], _ :: _ => true
  | _, [] => false

theorem ltList_nil_right {lt : α → α → Bool} {xs : List α} : ltList lt xs [] = false := by
  cases xs <;> rfl

theorem std_equal_c {eq : α → α → Bool} (hs : s.Ok E) (hs2 : s2.Ok E)
    (hlen : s.elems.length = s2.elems.length) {l1 : Iter} (hl1 : s.At s.elems.length l1)
    (H : Holds g (cont E o al s + F) m) (H2 : Holds g2 (cont E o2 al2 s2 + F2) m) (n : Nat) :
    ∀ {i : Nat} {f1 f2 : Iter}, s.At i f1 → s2.At i f2 → i + n = s.elems.length →
    std_equal E eq f1 l1 f2 m = .ok (eqList eq (s.elems.drop i) (s2.elems.drop i)) m := by
  induction n with
  | zero =>
    intro i f1 f2 h1 h2 hi
    rw [std_equal, if_neg (by rw [h1.pos, hl1.pos]; omega), List.drop_eq_nil_of_le (by omega),
      List.drop_eq_nil_of_le (by omega)]; rfl
  | succ n ih =>
    intro i f1 f2 h1 h2 hi
    rw [std_equal, if_pos (by rw [h1.pos, hl1.pos]; omega), bind_ok (dereference_c hs h1 (by omega) H),
      bind_ok (dereference_c hs2 h2 (by omega) H2)]
    rw [List.drop_eq_getElem_cons (by omega : i < s.elems.length),
      List.drop_eq_getElem_cons (by omega : i < s2.elems.length), eqList]
    by_cases hq : eq (s.elems[i]'(by omega)) (s2.elems[i]'(by omega)) = true
    · rw [if_pos hq, hq, Bool.true_and]
      obtain ⟨it1, e1, ha1⟩ := move_next_c hs h1 (by omega) H
      obtain ⟨it2, e2, ha2⟩ := move_next_c hs2 h2 (by omega) H2
      rw [bind_ok e1, bind_ok e2]
      exact ih ha1 ha2 (by omega)
    · rw [if_neg hq]
      rw [Bool.not_eq_true] at hq
      rw [hq]; rfl

theorem eqList_len {eq : α → α → Bool} {xs ys : List α} (h : xs.length ≠ ys.length) : eqList eq xs ys = false := by
  induction xs generalizing ys with
  | nil => cases ys <;> simp_all [eqList]
  | cons x xs ih =>
    cases ys with
    | nil => rfl
    | cons y ys => rw [eqList, ih (by simpa using h), Bool.and_false]

theorem op_eq_c {eq : α → α → Bool} (hs : s.Ok E) (hs2 : s2.Ok E)
    (H : Holds g (cont E o al s + F) m) (H2 : Holds g2 (cont E o2 al2 s2 + F2) m) :
    op_eq E eq o o2 m = .ok (eqList eq s.elems s2.elems) m := by
  unfold op_eq begin_ end_
  rw [bind_ok (getSize_c H), bind_ok (getSize_c H2)]
  by_cases hlen : s.elems.length = s2.elems.length
  · rw [if_pos hlen]
    obtain ⟨fi, hfi⟩ := St.At.exists hs (Nat.zero_le _)
    obtain ⟨la, hla⟩ := St.At.exists hs (Nat.le_refl _)
    obtain ⟨f2, hf2⟩ := St.At.exists hs2 (Nat.zero_le _)
    rw [bind_ok (find_first_c hs hfi H), bind_ok (find_end_c hs hla H), bind_ok (find_first_c hs2 hf2 H2)]
    exact std_equal_c hs hs2 hlen hla H H2 s.elems.length hfi hf2 (by omega)
  · rw [if_neg hlen, eqList_len hlen]; rfl

theorem std_lex_c {lt : α → α → Bool} (hs : s.Ok E) (hs2 : s2.Ok E)
    {l1 l2 : Iter} (hl1 : s.At s.elems.length l1) (hl2 : s2.At s2.elems.length l2)
    (H : Holds g (cont E o al s + F) m) (H2 : Holds g2 (cont E o2 al2 s2 + F2) m) (n : Nat) :
    ∀ {i : Nat} {f1 f2 : Iter}, s.At i f1 → s2.At i f2 → i + n = s.elems.length →
    std_lex E lt f1 l1 f2 l2 m = .ok (ltList lt (s.elems.drop i) (s2.elems.drop i)) m := by
  induction n with
  | zero =>
    intro i f1 f2 h1 h2 hi
    rw [std_lex, if_neg (by rw [h1.pos, hl1.pos]; omega), List.drop_eq_nil_of_le (by omega), h1.pos, hl1.pos,
      h2.pos, hl2.pos]
    have := h2.le
    by_cases h : i = s2.elems.length
    · rw [List.drop_eq_nil_of_le (by omega), ltList_nil_right]
      simp [h]
    · rw [List.drop_eq_getElem_cons (by omega : i < s2.elems.length), ltList]
      have : i = s.elems.length := by omega
      simp only [this]
      rw [this] at h
      simp [h]
  | succ n ih =>
    intro i f1 f2 h1 h2 hi
    have hle := h2.le
    by_cases hc : i = s2.elems.length
    · rw [std_lex, if_neg (by rw [h2.pos, hl2.pos]; simp [hc]), h1.pos, hl1.pos, h2.pos, hl2.pos,
        List.drop_eq_nil_of_le (show s2.elems.length ≤ i by omega), ltList_nil_right]
      simp [hc]
    · rw [std_lex, if_pos (by rw [h1.pos, hl1.pos, h2.pos, hl2.pos]; omega), bind_ok (dereference_c hs h1 (by omega) H),
        bind_ok (dereference_c hs2 h2 (by omega) H2)]
      rw [List.drop_eq_getElem_cons (by omega : i < s.elems.length),
        List.drop_eq_getElem_cons (by omega : i < s2.elems.length), ltList]
      by_cases hq : lt (s.elems[i]'(by omega)) (s2.elems[i]'(by omega)) = true
      · rw [if_pos hq, if_pos hq]; rfl
      · rw [if_neg hq, if_neg hq]
        by_cases hq2 : lt (s2.elems[i]'(by omega)) (s.elems[i]'(by omega)) = true
        · rw [if_pos hq2, if_pos hq2]; rfl
        · rw [if_neg hq2, if_neg hq2]
          obtain ⟨it1, e1, ha1⟩ := move_next_c hs h1 (by omega) H
          obtain ⟨it2, e2, ha2⟩ := move_next_c hs2 h2 (by omega) H2
          rw [bind_ok e1, bind_ok e2]
          exact ih ha1 ha2 (by omega)

theorem op_lt_c {lt : α → α → Bool} (hs : s.Ok E) (hs2 : s2.Ok E)
    (H : Holds g (cont E o al s + F) m) (H2 : Holds g2 (cont E o2 al2 s2 + F2) m) :
    op_lt E lt o o2 m = .ok (ltList lt s.elems s2.elems) m := by
  unfold op_lt begin_ end_
  obtain ⟨fi, hfi⟩ := St.At.exists hs (Nat.zero_le _)
  obtain ⟨la, hla⟩ := St.At.exists hs (Nat.le_refl _)
  obtain ⟨f2, hf2⟩ := St.At.exists hs2 (Nat.zero_le _)
  obtain ⟨l2, hl2⟩ := St.At.exists hs2 (Nat.le_refl _)
  rw [bind_ok (find_first_c hs hfi H), bind_ok (find_end_c hs hla H), bind_ok (find_first_c hs2 hf2 H2),
    bind_ok (find_end_c hs2 hl2 H2)]
  exact std_lex_c hs hs2 hla hl2 H H2 s.elems.length hfi hf2 (by omega)

end

end SegTree
