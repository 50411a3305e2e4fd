/-
  Which copies a call makes, in which order, and what the container holds when one
  of them throws or an allocation fails.
-/
import Verif.Proof.CopyCount
set_option autoImplicit false
set_option linter.unusedVariables false
set_option linter.unusedSimpArgs false
set_option synthInstance.maxSize 2000
set_option synthInstance.maxHeartbeats 400000

namespace SegTree
variable {α β γ : Type} {E : Env α} {m m' : Mem α} {g : Log} {F : Asrt α}

theorem Copied.nil (h : m'.ticks = m.ticks) : Copied E m m' [] := ⟨h, fun _ _ h => by simp at h⟩

theorem Copied.trans {m1 m2 m3 : Mem α} {vs ws : List α} (h1 : Copied E m1 m2 vs) (h2 : Copied E m2 m3 ws) :
    Copied E m1 m3 (vs ++ ws) := by
  refine ⟨by rw [h2.1, h1.1, List.length_append]; omega, fun k v h => ?_⟩
  rcases Nat.lt_or_ge k vs.length with hk | hk
  · rw [List.getElem?_append_left hk] at h; exact h1.2 k v h
  · rw [List.getElem?_append_right hk] at h
    have := h2.2 _ v h
    rw [h1.1] at this
    rwa [show m1.ticks + k = m1.ticks + vs.length + (k - vs.length) by omega]

theorem Copied.to {m1 m2 m3 : Mem α} {vs : List α} (h : Copied E m1 m2 vs) (ht : m3.ticks = m2.ticks) : Copied E m1 m3 vs :=
  ⟨ht.trans h.1, h.2⟩
theorem Copied.from {m1 m2 m3 : Mem α} {vs : List α} (h : Copied E m2 m3 vs) (ht : m2.ticks = m1.ticks) : Copied E m1 m3 vs := by
  unfold Copied at *; rwa [ht] at h

theorem Broke.to {m1 m2 m3 : Mem α} {vs : List α} {k : Nat} {e : Exn} (h : Broke E m1 m2 vs k e) (ht : m3.ticks = m2.ticks) :
    Broke E m1 m3 vs k e := ⟨ht.trans h.1, h.2⟩
theorem Broke.from {m1 m2 m3 : Mem α} {vs : List α} {k : Nat} {e : Exn} (h : Broke E m2 m3 vs k e) (ht : m2.ticks = m1.ticks) :
    Broke E m1 m3 vs k e := by
  unfold Broke at *; rwa [ht] at h

theorem Broke.after {m1 m2 m3 : Mem α} {v : α} {vs : List α} {k : Nat} {e : Exn} (h1 : Copied E m1 m2 [v])
    (h2 : Broke E m2 m3 vs k e) : Broke E m1 m3 (v :: vs) (k + 1) e := by
  obtain ⟨a, b⟩ := h1
  simp only [List.length_cons, List.length_nil, Nat.zero_add] at a
  obtain ⟨c, d, w, hw, hi⟩ := h2
  rw [a] at c d hi
  refine ⟨by omega, ?_, w, by simpa using hw, by rwa [show m1.ticks + (k + 1) = m1.ticks + 1 + k by omega]⟩
  intro j u hj hu
  cases j with
  | zero => exact b 0 u (by simpa using hu)
  | succ j => rw [show m1.ticks + (j + 1) = m1.ticks + 1 + j by omega]; exact d j u (by omega) (by simpa using hu)

/-- adding what is known about the counter -/
theorem Spec.calm {x : M α β} [h : Traced (copyfree α) x] {Q : β → Mem α → Prop} {T : Exn → Mem α → Prop} (hx : Spec x m Q T) :
    Spec x m (fun r m' => Q r m' ∧ m'.ticks = m.ticks) (fun e m' => T e m' ∧ m'.ticks = m.ticks) := by
  have h := h.run m
  unfold Spec at *
  cases e : x m with
  | ok v m' => rw [e] at h hx; exact ⟨hx, h⟩
  | throw v m' => rw [e] at h hx; exact ⟨hx, h⟩
  | ub _ => rw [e] at hx; exact hx
  | div => rw [e] at hx; exact hx

theorem copyVal_x (ht : E.trivCopy = false) (v : α) (m : Mem α) :
    (copyVal E v m = .ok v m.tick ∧ Copied E m m.tick [v]) ∨
    (copyVal E v m = .throw .elem m.tick ∧ Broke E m m.tick [v] 0 .elem) := by
  unfold copyVal
  simp only [ht, Bool.false_eq_true, if_false]
  by_cases h : E.cthrow m.ticks v = true
  · rw [if_pos h]
    exact .inr ⟨rfl, rfl, by omega, v, rfl, .inl ⟨h, rfl⟩⟩
  · rw [if_neg h]
    refine .inl ⟨rfl, rfl, ?_⟩
    intro k w hk
    cases k with
    | zero => simp at hk; subst hk; simpa using h
    | succ k => simp at hk

section
variable {o al i : Nat} {s : St α} {it : Iter}

theorem emplace_single_x {v : α} {mk : M α α} (hE : E.Good) (ht : E.trivCopy = false) (hm : mk m = copyVal E v m)
    (hs : s.Ok E) (ha : s.At i it)
    (hW : s.elems.length + 1 < E.W) (H : Holds g (cont E o al s + F) m) :
    Spec (emplace_single E o it mk) m
      (fun it' m' => Copied E m m' [v] ∧ ∃ s' g', s'.Ok E ∧ s'.elems = s.elems.take i ++ v :: s.elems.drop i ∧ s'.At i it' ∧
        Holds g' (cont E o al s' + F) m')
      (fun e m' => Broke E m m' [v] 0 e ∧ ∃ g', Holds g' (cont E o al s + F) m') := by
  unfold emplace_single
  rcases copyVal_x ht v m with ⟨h, h1⟩ | ⟨h, h1⟩
  · refine Spec.step (hm.trans h) ((insert_iterator_c v hE hs ha hW ((Ticked.tick m).holds H)).calm.mono ?_ ?_)
    · rintro it' m' ⟨⟨s', n, h2, h3, h4, -, H'⟩, hk⟩
      exact ⟨h1.to hk, s', _, h2, h3, h4, H'⟩
    · rintro e m' ⟨⟨rfl, hc, n, hn, H'⟩, hk⟩
      refine ⟨⟨by rw [hk]; rfl, by omega, v, rfl, .inr ⟨h1.2 0 v rfl, rfl⟩⟩, _, H'⟩
  · exact Spec.thr (bind_throw (hm.trans h)) ⟨h1, g, (Ticked.tick m).holds H⟩

theorem emplace_count_loop_x {v : α} (hE : E.Good) (ht : E.trivCopy = false) (n : Nat) :
    ∀ {m : Mem α} {g : Log} {i : Nat} {s : St α} {it : Iter}, s.Ok E → s.At i it →
    s.elems.length + n < E.W → Holds g (cont E o al s + F) m →
    Spec (emplace_count_loop E o (copyVal E v) n it) m
      (fun it' m' => Copied E m m' (List.replicate n v) ∧ ∃ s' g', s'.Ok E ∧ s'.At (i + n) it' ∧
        s'.elems = s.elems.take i ++ (List.replicate n v ++ s.elems.drop i) ∧ Holds g' (cont E o al s' + F) m')
      (fun e m' => ∃ s' g' k, k < n ∧ Broke E m m' (List.replicate n v) k e ∧ s'.Ok E ∧
        s'.elems = s.elems.take i ++ (List.replicate k v ++ s.elems.drop i) ∧
        Holds g' (cont E o al s' + F) m') := by
  induction n with
  | zero =>
    intro m g i s it hs ha hW H
    exact Spec.pure ⟨.nil rfl, s, g, hs, ha, by simp, H⟩
  | succ n ih =>
    intro m g i s it hs ha hW H
    have hi := ha.le
    unfold emplace_count_loop
    refine ((emplace_single_x hE ht rfl hs ha (by omega) H).mono (fun _ _ h => h) ?_).bind ?_
    · rintro e m' ⟨⟨hb1, -, w, hw, hb2⟩, g', H'⟩
      exact ⟨s, g', 0, by omega, ⟨hb1, by omega, w, by simpa [List.replicate_succ] using hw, hb2⟩, hs, by simp, H'⟩
    · rintro it1 m1 ⟨hc1, s1, n1, hs1, he1, ha1, H1⟩
      have hl1 : s1.elems.length = s.elems.length + 1 := by rw [he1]; simp; omega
      obtain ⟨it2, e2, ha2⟩ := move_next_c hs1 ha1 (by omega) H1
      refine Spec.step e2 ?_
      refine (ih hs1 ha2 (by omega) H1).mono ?_ ?_
      · rintro it3 m3 ⟨hc3, s3, r, hs3, ha3, he3, H3⟩
        refine ⟨?_, s3, r, hs3, by rw [show i + (n + 1) = i + 1 + n by omega]; exact ha3, ?_, H3⟩
        · have := hc1.trans hc3
          simpa [List.replicate_succ] using this
        · rw [he3, he1, take_ins1 hi, drop_ins1 hi]
          simp [List.replicate_succ]
      · rintro e m3 ⟨s3, g3, k, hk, hb, hs3, he3, H3⟩
        refine ⟨s3, g3, k + 1, by omega, ?_, hs3, ?_, H3⟩
        · rw [List.replicate_succ]; exact Broke.after hc1 hb
        · rw [he3, he1, take_ins1 hi, drop_ins1 hi]
          simp [List.replicate_succ]

theorem emplace_count_x {v : α} {n : Nat} (hE : E.Good) (ht : E.trivCopy = false) (hs : s.Ok E) (ha : s.At i it)
    (hW : s.elems.length + n < E.W) (H : Holds g (cont E o al s + F) m) :
    Spec (emplace_count E o it n (copyVal E v)) m
      (fun it' m' => Copied E m m' (List.replicate n v))
      (fun e m' => ∃ s' g' k, k < n ∧ Broke E m m' (List.replicate n v) k e ∧ s'.Ok E ∧
        s'.elems = s.elems.take i ++ (List.replicate k v ++ s.elems.drop i) ∧
        Holds g' (cont E o al s' + F) m') := by
  unfold emplace_count
  refine (emplace_count_loop_x hE ht n hs ha hW H).bind ?_
  rintro it1 m1 ⟨hc, s1, r, hs1, ha1, he1, H1⟩
  obtain ⟨it2, e2, ha2⟩ := move_prev_iterator_count_c hs1 ha1 (by omega : n ≤ i + n) H1
  exact Spec.ok e2 hc

/-! ### input ranges -/

/-- `S` yields exactly the values `vs` from position `st`, by copying them; `X` is
the memory it reads. -/
structure SrcX {σ : Type} (E : Env α) (S : Src α σ) (R : σ → List α → Prop) (X : Asrt α) : Prop where
  done : ∀ {st vs}, R st vs → S.done st = vs.isEmpty
  read : ∀ {st v vs} {g : Log} {F : Asrt α} {m : Mem α}, R st (v :: vs) → Holds g (X + F) m → S.read st m = copyVal E v m
  next : ∀ {st v vs} {g : Log} {F : Asrt α} {m : Mem α}, R st (v :: vs) → Holds g (X + F) m →
    ∃ st', S.next st m = .ok st' m ∧ R st' vs

theorem listSrc_x : SrcX E (listSrc E) (fun st vs => st = vs) 0 where
  done := by rintro st vs rfl; rfl
  read := by rintro st v vs g F m rfl H; rfl
  next := by rintro st v vs g F m rfl H; exact ⟨_, rfl, rfl⟩

theorem copySrc_x {o2 al2 b : Nat} {s2 : St α} {last : Iter} (hs2 : s2.Ok E) (hl : s2.At b last) :
    SrcX E (copySrc E last) (fun st vs => ∃ i, s2.At i st ∧ i ≤ b ∧ vs = (s2.elems.take b).drop i) (cont E o2 al2 s2) where
  done := by
    rintro st vs h
    exact (copySrc_ok (o2 := o2) (al2 := al2) (X0 := cont E o2 al2 s2) hs2 hl).done ⟨rfl, Ent.refl _, h⟩
  read := by
    rintro st v vs g F m ⟨i, ha, hi, hv⟩ H
    have hb := hl.le
    obtain ⟨hib, rfl, hvs⟩ := drop_cons_info hb hv
    exact bind_ok (dereference_c hs2 ha (by omega) H)
  next := by
    rintro st v vs g F m ⟨i, ha, hi, hv⟩ H
    have hb := hl.le
    obtain ⟨hib, rfl, hvs⟩ := drop_cons_info hb hv
    obtain ⟨it', e, ha'⟩ := move_next_c hs2 ha (by omega) H
    exact ⟨it', e, i + 1, ha', by omega, hvs⟩

section
variable {σ : Type} {S : Src α σ} {R : σ → List α → Prop} {X : Asrt α}

theorem emplace_range_loop_x (hE : E.Good) (ht : E.trivCopy = false) (hS : SrcX E S R X) (vs : List α) :
    ∀ {m : Mem α} {g : Log} {i cnt : Nat} {s : St α} {it : Iter} {st : σ}, s.Ok E → s.At i it →
    R st vs → s.elems.length + vs.length < E.W → Holds g (cont E o al s + (X + F)) m →
    Spec (emplace_range_loop E S o it st cnt) m
      (fun p m' => p.2 = cnt + vs.length ∧ Copied E m m' vs ∧ ∃ s' g', s'.Ok E ∧ s'.At (i + vs.length) p.1 ∧
        s'.elems = s.elems.take i ++ (vs ++ s.elems.drop i) ∧ Holds g' (cont E o al s' + (X + F)) m')
      (fun e m' => ∃ s' g' k, k < vs.length ∧ Broke E m m' vs k e ∧ s'.Ok E ∧
        s'.elems = s.elems.take i ++ (vs.take k ++ s.elems.drop i) ∧ Holds g' (cont E o al s' + (X + F)) m') := by
  induction vs with
  | nil =>
    intro m g i cnt s it st hs ha hR hW H
    rw [emplace_range_loop, hS.done hR]
    exact Spec.pure ⟨rfl, .nil rfl, s, g, hs, ha, by simp, H⟩
  | cons v vs ih =>
    intro m g i cnt s it st hs ha hR hW H
    have hi := ha.le
    simp only [List.length_cons] at hW
    rw [emplace_range_loop, hS.done hR]
    simp only [List.isEmpty_cons, Bool.false_eq_true, if_false]
    have H' := H.eqv (by frame : _ = X + (cont E o al s + F))
    refine ((emplace_single_x hE ht (hS.read hR H') hs ha (by omega) H).mono (fun _ _ h => h) ?_).bind ?_
    · rintro e m' ⟨⟨hb1, -, w, hw, hb2⟩, g', H'⟩
      exact ⟨s, g', 0, by simp, ⟨hb1, by omega, w, by simpa using hw, hb2⟩, hs, by simp, H'⟩
    · rintro it1 m1 ⟨hc1, s1, n1, hs1, he1, ha1, H1⟩
      have hl1 : s1.elems.length = s.elems.length + 1 := by rw [he1]; simp; omega
      obtain ⟨st', e1, hR'⟩ := hS.next hR (H1.eqv (by frame : _ = X + (cont E o al s1 + F)))
      refine Spec.step e1 ?_
      obtain ⟨it2, e2, ha2⟩ := move_next_c hs1 ha1 (by omega) H1
      refine Spec.step e2 ?_
      refine (ih hs1 ha2 hR' (by omega) H1).mono ?_ ?_
      · rintro ⟨it3, c3⟩ m3 ⟨hc, hcp, s3, r, hs3, ha3, he3, H3⟩
        refine ⟨by rw [hc]; simp; omega, hc1.trans hcp, s3, r, hs3, ?_, ?_, H3⟩
        · rw [List.length_cons, show i + (vs.length + 1) = i + 1 + vs.length by omega]; exact ha3
        · rw [he3, he1, take_ins1 hi, drop_ins1 hi]; simp
      · rintro e m3 ⟨s3, g3, k, hk, hb, hs3, he3, H3⟩
        refine ⟨s3, g3, k + 1, by simp; omega, Broke.after hc1 hb, hs3, ?_, H3⟩
        rw [he3, he1, take_ins1 hi, drop_ins1 hi]; simp

theorem emplace_range_x {st : σ} {vs : List α} (hE : E.Good) (ht : E.trivCopy = false) (hS : SrcX E S R X) (hs : s.Ok E) (ha : s.At i it)
    (hR : R st vs) (hW : s.elems.length + vs.length < E.W) (H : Holds g (cont E o al s + (X + F)) m) :
    Spec (emplace_range E S o it st) m
      (fun it' m' => Copied E m m' vs)
      (fun e m' => ∃ s' g' k, k < vs.length ∧ Broke E m m' vs k e ∧ s'.Ok E ∧
        s'.elems = s.elems.take i ++ (vs.take k ++ s.elems.drop i) ∧ Holds g' (cont E o al s' + (X + F)) m') := by
  unfold emplace_range
  refine (emplace_range_loop_x hE ht hS vs hs ha hR hW H).bind ?_
  rintro ⟨it1, c1⟩ m1 ⟨hc, hcp, s1, r, hs1, ha1, he1, H1⟩
  dsimp only at hc ha1 ⊢
  rw [hc, Nat.zero_add]
  obtain ⟨it2, e2, ha2⟩ := move_prev_iterator_count_c hs1 ha1 (by omega : vs.length ≤ i + vs.length) H1
  exact Spec.ok e2 hcp

theorem assign_range_loop_x (hE : E.Good) (ht : E.trivCopy = false) (hS : SrcX E S R X) (vs : List α) :
    ∀ {m : Mem α} {g : Log} {i : Nat} {s : St α} {first last : Iter} {st : σ}, s.Ok E → s.At i first →
    s.At s.elems.length last → R st vs → i + vs.length < E.W → Holds g (cont E o al s + (X + F)) m →
    Spec (assign_range_loop E S o st first last) m
      (fun _ m' => Copied E m m' vs)
      (fun e m' => ∃ s' g' k, k < vs.length ∧ Broke E m m' vs k e ∧ s'.Ok E ∧
        s'.elems = s.elems.take i ++ (vs.take k ++ s.elems.drop (i + k)) ∧
        Holds g' (cont E o al s' + (X + F)) m') := by
  induction vs with
  | nil =>
    intro m g i s first last st hs ha hl hR hW H
    rw [assign_range_loop, hS.done hR]
    simp only [List.isEmpty_nil, if_true]
    have hi := ha.le
    refine ((erase_range_c hE (s.elems.length - i) hs ha.pos hl (by omega) H).calm.mono (fun _ _ h => h)
      (fun _ _ h => h.1.elim)).bind ?_
    rintro it1 m1 ⟨-, hk⟩
    exact Spec.pure (.nil hk)
  | cons v vs ih =>
    intro m g i s first last st hs ha hl hR hW H
    rw [assign_range_loop, hS.done hR]
    simp only [List.isEmpty_cons, Bool.false_eq_true, if_false]
    have hi := ha.le
    by_cases hil : i = s.elems.length
    · rw [if_pos (by rw [ha.pos, hl.pos, hil])]
      subst hil
      refine ((emplace_range_x hE ht hS hs hl hR hW H).mono (fun _ _ h => h) ?_).bind ?_
      · rintro e m1 ⟨s1, g1, k, hk, hb, hs1, he1, H1⟩
        refine ⟨s1, g1, k, hk, hb, hs1, ?_, H1⟩
        rw [he1, List.drop_eq_nil_of_le (by omega), List.drop_eq_nil_of_le (by omega)]
      · rintro it1 m1 hc
        exact Spec.pure hc
    · rw [if_neg (by rw [ha.pos, hl.pos]; exact hil)]
      have hlt : i < s.elems.length := by omega
      have hrd := hS.read hR (H.eqv (by frame : _ = X + (cont E o al s + F)))
      rcases copyVal_x ht v m with ⟨h, hc1⟩ | ⟨h, hb⟩
      · refine Spec.step (hrd.trans h) ?_
        obtain ⟨m2, s2, e2, hs2, he2, hpres, -, H2⟩ := wrElem_c v hs ha hlt ((Ticked.tick m).holds H)
        have hk2 : m2.ticks = m.tick.ticks := Traced.returns (P := copyfree α) inferInstance e2
        refine Spec.step e2 ?_
        have hlen : s2.elems.length = s.elems.length := by rw [he2]; simp
        obtain ⟨it3, e3, ha3⟩ := move_next_c hs2 (hpres _ _ ha) (by omega) H2
        refine Spec.step e3 ?_
        obtain ⟨st', e4, hR'⟩ := hS.next hR (H2.eqv (by frame : _ = X + (cont E o al s2 + F)))
        refine Spec.step e4 ?_
        have hl2 : s2.At s2.elems.length last := by rw [hlen]; exact hpres _ _ hl
        have htake : s2.elems.take (i + 1) = s.elems.take i ++ [v] := by
          rw [he2, List.take_add_one, List.take_set_of_le (Nat.le_refl _), List.getElem?_set_self hlt]; rfl
        have hdrop : ∀ k, s2.elems.drop (i + 1 + k) = s.elems.drop (i + (k + 1)) := by
          intro k
          rw [he2, List.drop_set_of_lt (by omega), show i + 1 + k = i + (k + 1) by omega]
        refine (ih hs2 ha3 hl2 hR' (by simp at hW; omega) H2).mono ?_ ?_
        · rintro _ m5 hc5
          exact (hc1.to hk2).trans hc5
        · rintro e m5 ⟨s5, g5, k, hk, hb5, hs5, he5, H5⟩
          refine ⟨s5, g5, k + 1, by simp; omega, Broke.after (hc1.to hk2) hb5, hs5, ?_, H5⟩
          rw [he5, htake, hdrop]; simp
      · obtain ⟨hb1, -, w, hw, hb2⟩ := hb
        refine Spec.thr (bind_throw (hrd.trans h)) ⟨s, g, 0, by simp, ⟨hb1, by omega, w, by simpa using hw, hb2⟩, hs,
          by simp, (Ticked.tick m).holds H⟩

theorem assign_range_x {st : σ} {vs : List α} (hE : E.Good) (ht : E.trivCopy = false) (hS : SrcX E S R X) (hs : s.Ok E)
    (hR : R st vs) (hW : vs.length < E.W) (H : Holds g (cont E o al s + (X + F)) m) :
    Spec (assign_range E S o st) m
      (fun _ m' => Copied E m m' vs)
      (fun e m' => ∃ s' g' k, k < vs.length ∧ Broke E m m' vs k e ∧ s'.Ok E ∧ s'.elems = vs.take k ++ s.elems.drop k ∧
        Holds g' (cont E o al s' + (X + F)) m') := by
  unfold assign_range
  obtain ⟨f, hf⟩ := St.At.exists hs (Nat.zero_le _)
  obtain ⟨l, hl⟩ := St.At.exists hs (Nat.le_refl _)
  refine Spec.step (find_first_c hs hf H) (Spec.step (find_end_c hs hl H) ?_)
  refine (assign_range_loop_x hE ht hS vs hs hf hl hR (by omega) H).mono (fun _ _ h => h) ?_
  rintro e m' ⟨s', g', k, hk, h1, h2, h3, H'⟩
  exact ⟨s', g', k, hk, h1, h2, by simpa using h3, H'⟩
end

theorem assign_count_loop_x {v : α} (hE : E.Good) (ht : E.trivCopy = false) (n : Nat) :
    ∀ {m : Mem α} {g : Log} {i : Nat} {s : St α} {first last : Iter}, s.Ok E → s.At i first →
    s.At s.elems.length last → i + n < E.W → Holds g (cont E o al s + F) m →
    Spec (assign_count_loop E o (pure v) n first last) m
      (fun _ m' => Copied E m m' (List.replicate n v))
      (fun e m' => ∃ s' g' k, k < n ∧ Broke E m m' (List.replicate n v) k e ∧ s'.Ok E ∧
        s'.elems = s.elems.take i ++ (List.replicate k v ++ s.elems.drop (i + k)) ∧
        Holds g' (cont E o al s' + F) m') := by
  induction n with
  | zero =>
    intro m g i s first last hs ha hl hW H
    rw [assign_count_loop, if_pos rfl]
    have hi := ha.le
    refine ((erase_range_c hE (s.elems.length - i) hs ha.pos hl (by omega) H).calm.mono (fun _ _ h => h)
      (fun _ _ h => h.1.elim)).bind ?_
    rintro it1 m1 ⟨-, hk⟩
    exact Spec.pure (.nil hk)
  | succ n ih =>
    intro m g i s first last hs ha hl hW H
    rw [assign_count_loop, if_neg (by omega)]
    have hi := ha.le
    by_cases hil : i = s.elems.length
    · rw [if_pos (by rw [ha.pos, hl.pos, hil])]
      subst hil
      have := emplace_count_x (v := v) hE ht hs hl hW H
      simp only [pure_bind]
      refine (this.mono (fun _ _ h => h) ?_).bind ?_
      · rintro e m1 ⟨s1, g1, k, hk, hb, hs1, he1, H1⟩
        refine ⟨s1, g1, k, hk, hb, hs1, ?_, H1⟩
        rw [he1, List.drop_eq_nil_of_le (by omega), List.drop_eq_nil_of_le (by omega)]
      · rintro it1 m1 hc
        exact Spec.pure hc
    · rw [if_neg (by rw [ha.pos, hl.pos]; exact hil)]
      have hlt : i < s.elems.length := by omega
      simp only [pure_bind]
      unfold copyAssign
      simp only [bind_assoc]
      rcases copyVal_x ht v m with ⟨h, hc1⟩ | ⟨h, hb⟩
      · refine Spec.step h ?_
        obtain ⟨m2, s2, e2, hs2, he2, hpres, -, H2⟩ := wrElem_c v hs ha hlt ((Ticked.tick m).holds H)
        have hk2 : m2.ticks = m.tick.ticks := Traced.returns (P := copyfree α) inferInstance e2
        refine Spec.step e2 ?_
        have hlen : s2.elems.length = s.elems.length := by rw [he2]; simp
        obtain ⟨it3, e3, ha3⟩ := move_next_c hs2 (hpres _ _ ha) (by omega) H2
        refine Spec.step e3 ?_
        have hl2 : s2.At s2.elems.length last := by rw [hlen]; exact hpres _ _ hl
        have htake : s2.elems.take (i + 1) = s.elems.take i ++ [v] := by
          rw [he2, List.take_add_one, List.take_set_of_le (Nat.le_refl _), List.getElem?_set_self hlt]; rfl
        have hdrop : ∀ k, s2.elems.drop (i + 1 + k) = s.elems.drop (i + (k + 1)) := by
          intro k
          rw [he2, List.drop_set_of_lt (by omega), show i + 1 + k = i + (k + 1) by omega]
        rw [Nat.add_sub_cancel]
        refine (ih hs2 ha3 hl2 (by omega) H2).mono ?_ ?_
        · rintro _ m5 hc5
          exact (hc1.to hk2).trans hc5
        · rintro e m5 ⟨s5, g5, k, hk, hb5, hs5, he5, H5⟩
          refine ⟨s5, g5, k + 1, by omega, Broke.after (hc1.to hk2) hb5, hs5, ?_, H5⟩
          rw [he5, htake, hdrop]; simp [List.replicate_succ]
      · obtain ⟨hb1, -, w, hw, hb2⟩ := hb
        refine Spec.thr (bind_throw h) ⟨s, g, 0, by omega, ⟨hb1, by omega, w, by simpa [List.replicate_succ] using hw, hb2⟩, hs,
          by simp, (Ticked.tick m).holds H⟩

theorem assign_count_x {v : α} {n : Nat} (hE : E.Good) (ht : E.trivCopy = false) (hs : s.Ok E)
    (hW : n < E.W) (H : Holds g (cont E o al s + F) m) :
    Spec (assign_count E o n (pure v)) m
      (fun _ m' => Copied E m m' (List.replicate n v))
      (fun e m' => ∃ s' g' k, k < n ∧ Broke E m m' (List.replicate n v) k e ∧ s'.Ok E ∧
        s'.elems = List.replicate k v ++ s.elems.drop k ∧ Holds g' (cont E o al s' + F) m') := by
  unfold assign_count
  obtain ⟨f, hf⟩ := St.At.exists hs (Nat.zero_le _)
  obtain ⟨l, hl⟩ := St.At.exists hs (Nat.le_refl _)
  refine Spec.step (find_first_c hs hf H) (Spec.step (find_end_c hs hl H) ?_)
  refine (assign_count_loop_x hE ht n hs hf hl (by omega) H).mono (fun _ _ h => h) ?_
  rintro e m' ⟨s', g', k, hk, h1, h2, h4, H'⟩
  exact ⟨s', g', k, hk, h1, h2, by simpa using h4, H'⟩

theorem resize_count_x {v : α} {n : Nat} (hE : E.Good) (ht : E.trivCopy = false) (hs : s.Ok E)
    (hW : n < E.W) (H : Holds g (cont E o al s + F) m) :
    Spec (resize_count E o n (copyVal E v)) m
      (fun _ m' => Copied E m m' (List.replicate (n - s.elems.length) v))
      (fun e m' => ∃ s' g' k, k < n - s.elems.length ∧ Broke E m m' (List.replicate (n - s.elems.length) v) k e ∧ s'.Ok E ∧
        s'.elems = s.elems ++ List.replicate k v ∧ Holds g' (cont E o al s' + F) m') := by
  unfold resize_count
  refine Spec.step (getSize_c H) ?_
  by_cases h1 : s.elems.length = n
  · rw [if_pos h1]
    refine Spec.pure ?_
    rw [← h1, Nat.sub_self]; exact .nil rfl
  · rw [if_neg h1]
    obtain ⟨l, hl⟩ := St.At.exists hs (Nat.le_refl _)
    refine Spec.step (find_end_c hs hl H) ?_
    by_cases h2 : n < s.elems.length
    · rw [if_pos h2]
      obtain ⟨f, hf⟩ := St.At.exists hs (Nat.le_of_lt h2)
      refine Spec.step (find_index_c hs hf h2 H) ?_
      refine ((erase_range_c hE (s.elems.length - n) hs hf.pos hl (by omega) H).calm.mono (fun _ _ h => h)
        (fun _ _ h => h.1.elim)).bind ?_
      rintro it1 m1 ⟨-, hk⟩
      refine Spec.pure ?_
      rw [show n - s.elems.length = 0 by omega]; exact .nil hk
    · rw [if_neg h2]
      refine ((emplace_count_x (n := n - s.elems.length) hE ht hs hl (by omega) H).mono (fun _ _ h => h) ?_).bind ?_
      · rintro e m1 ⟨s1, g1, k, hk, hb, hs1, he1, H1⟩
        exact ⟨s1, g1, k, hk, hb, hs1, by simpa using he1, H1⟩
      · rintro it1 m1 hc
        exact Spec.pure hc

/-! ### constructors -/

theorem delegating_x {body : M α Unit} {Q : Mem α → Prop} {P : Exn → Mem α → Prop}
    (hn : E.nullFree = true) (hf : m.cell (.obj o) = none) (H : Holds g F m)
    (hb : ∀ m1, m1.ticks = m.ticks → Holds g (cont E o al .nil + F) m1 → Spec body m1 (fun _ => Q)
      (fun e m' => P e m' ∧ ∃ s' g' F', s'.Ok E ∧ Holds g' (cont E o al s' + F') m')) :
    Spec (delegating E o al body) m (fun _ => Q) (fun e m' => ∃ m1, P e m1 ∧ m'.ticks = m1.ticks) := by
  unfold delegating
  obtain ⟨m1, e1, H1⟩ := ctor_c (E := E) (al := al) hf H
  refine Spec.step e1 (Spec.onThrow (hb m1 (Traced.returns (P := copyfree α) inferInstance e1) H1) ?_)
  rintro e m' ⟨hP, s', g', F', hs, H'⟩
  obtain ⟨m2, e2, H2⟩ := dtor_c hs (.inr hn) H'
  exact ⟨m2, e2, m', hP, Traced.returns (P := copyfree α) inferInstance e2⟩

theorem ctor_count_x {v : α} {n : Nat} (hE : E.Good) (ht : E.trivCopy = false) (hn : E.nullFree = true)
    (hW : n < E.W) (hf : m.cell (.obj o) = none) (H : Holds g F m) :
    Spec (ctor_count E o al n (copyVal E v)) m
      (fun _ m' => Copied E m m' (List.replicate n v))
      (fun e m' => ∃ k, k < n ∧ Broke E m m' (List.replicate n v) k e) := by
  unfold ctor_count
  have hnil : (St.nil : St α).Ok E := St.Ok.nil (by omega)
  obtain ⟨l, hl⟩ := St.At.exists hnil (Nat.le_refl _)
  refine (delegating_x (Q := fun m' => Copied E m m' (List.replicate n v))
      (P := fun e m' => ∃ k, k < n ∧ Broke E m m' (List.replicate n v) k e) hn hf H ?_).mono (fun _ _ h => h) ?_
  · intro m1 hk H1
    refine Spec.step (find_end_c hnil hl H1) ?_
    refine ((emplace_count_x (n := n) (v := v) hE ht hnil hl (by simpa using hW) H1).mono (fun _ _ h => h) ?_).bind ?_
    · rintro e m2 ⟨s2, g2, k, hk2, hb, hs2, -, H2⟩
      exact ⟨⟨k, hk2, hb.from hk⟩, s2, g2, _, hs2, H2⟩
    · rintro it m2 hc
      exact Spec.pure (hc.from hk)
  · rintro e m' ⟨m1, ⟨k, hk, hb⟩, h⟩
    exact ⟨k, hk, hb.to h⟩

section
variable {σ : Type} {S : Src α σ} {R : σ → List α → Prop} {X : Asrt α}

theorem ctor_range_x {st : σ} {vs : List α} (hE : E.Good) (ht : E.trivCopy = false) (hS : SrcX E S R X) (hn : E.nullFree = true)
    (hR : R st vs) (hW : vs.length < E.W) (hf : m.cell (.obj o) = none) (H : Holds g (X + F) m) :
    Spec (delegating E o al (do
      let it ← find_end E o
      let _ ← emplace_range E S o it st)) m
      (fun _ m' => Copied E m m' vs)
      (fun e m' => ∃ k, k < vs.length ∧ Broke E m m' vs k e) := by
  have hnil : (St.nil : St α).Ok E := St.Ok.nil (by omega)
  obtain ⟨l, hl⟩ := St.At.exists hnil (Nat.le_refl _)
  refine (delegating_x (Q := fun m' => Copied E m m' vs)
      (P := fun e m' => ∃ k, k < vs.length ∧ Broke E m m' vs k e) hn hf H ?_).mono (fun _ _ h => h) ?_
  · intro m1 hk H1
    refine Spec.step (find_end_c hnil hl H1) ?_
    refine ((emplace_range_x hE ht hS hnil hl hR (by simpa using hW) H1).mono (fun _ _ h => h) ?_).bind ?_
    · rintro e m2 ⟨s2, g2, k, hk2, hb, hs2, -, H2⟩
      exact ⟨⟨k, hk2, hb.from hk⟩, s2, g2, _, hs2, H2⟩
    · rintro it m2 hc
      exact Spec.pure (hc.from hk)
  · rintro e m' ⟨m1, ⟨k, hk, hb⟩, h⟩
    exact ⟨k, hk, hb.to h⟩
end

theorem ctor_copy_alloc_x {o2 al2 : Nat} {s2 : St α} (hE : E.Good) (ht : E.trivCopy = false) (hn : E.nullFree = true) (hs2 : s2.Ok E)
    (hf : m.cell (.obj o) = none) (H : Holds g (cont E o2 al2 s2 + F) m) :
    Spec (ctor_copy_alloc E o o2 al) m
      (fun _ m' => Copied E m m' s2.elems)
      (fun e m' => ∃ k, k < s2.elems.length ∧ Broke E m m' s2.elems k e) := by
  obtain ⟨fi, hfi⟩ := St.At.exists hs2 (Nat.zero_le _)
  obtain ⟨la, hla⟩ := St.At.exists hs2 (Nat.le_refl _)
  have hnil : (St.nil : St α).Ok E := St.Ok.nil (by have := hs2.1; omega)
  obtain ⟨l, hl⟩ := St.At.exists hnil (Nat.le_refl _)
  have e : ctor_copy_alloc E o o2 al m = delegating E o al (do
      let it ← find_end E o
      let _ ← emplace_range E (copySrc E la) o it fi) m := by
    unfold ctor_copy_alloc
    refine delegating_congr hf ?_
    intro m1 e1
    obtain ⟨m1', e1', H1⟩ := ctor_c (E := E) (al := al) hf H
    rw [e1] at e1'
    injection e1' with _ e1'
    subst e1'
    rw [bind_ok (find_end_c hnil hl H1), bind_ok (find_end_c hnil hl H1)]
    have H1' := H1.eqv (by frame : _ = cont E o2 al2 s2 + (cont E o al .nil + F))
    rw [bind_ok (find_first_c hs2 hfi H1'), bind_ok (find_end_c hs2 hla H1')]
  unfold Spec
  rw [e]
  exact ctor_range_x (vs := s2.elems) hE ht (copySrc_x (o2 := o2) (al2 := al2) hs2 hla) hn
    ⟨0, hfi, Nat.zero_le _, by simp⟩ hs2.1 hf H

theorem assign_copy_x {o2 al2 : Nat} {s s2 : St α} (hE : E.Good) (ht : E.trivCopy = false) (hs : s.Ok E) (hs2 : s2.Ok E)
    (hn : E.pocca = true → ¬ SameAlloc E al al2 → s.elems ≠ [] ∨ E.nullFree = true)
    (H : Holds g (cont E o al s + (cont E o2 al2 s2 + F)) m) :
    Spec (assign_copy E o o2) m
      (fun _ m' => Copied E m m' s2.elems)
      (fun e m' => ∃ s' g' k xs, k < s2.elems.length ∧ Broke E m m' s2.elems k e ∧ s'.Ok E ∧
        (¬ (E.pocca = true ∧ ¬ SameAlloc E al al2) → xs = s.elems) ∧
        ((E.pocca = true ∧ ¬ SameAlloc E al al2) → xs = []) ∧
        s'.elems = s2.elems.take k ++ xs.drop k ∧
        Holds g' (cont E o (if E.pocca then al2 else al) s' + (cont E o2 al2 s2 + F)) m') := by
  unfold assign_copy
  rw [if_pos H.obj_ne]
  obtain ⟨m1, s1, e1, hs1, hx1, hx2, H1⟩ := copy_assign_alloc_c hs hn H
  have hk : m1.ticks = m.ticks := Traced.returns (P := copyfree α) inferInstance e1
  refine Spec.step e1 ?_
  obtain ⟨fi, hfi⟩ := St.At.exists hs2 (Nat.zero_le _)
  obtain ⟨la, hla⟩ := St.At.exists hs2 (Nat.le_refl _)
  have H1' := H1.eqv (by frame : _ = cont E o2 al2 s2 + (_ + _))
  refine Spec.step (find_first_c hs2 hfi H1') (Spec.step (find_end_c hs2 hla H1') ?_)
  refine (assign_range_x (vs := s2.elems) hE ht (copySrc_x (o2 := o2) (al2 := al2) hs2 hla) hs1
    ⟨0, hfi, Nat.zero_le _, by simp⟩ hs2.1 H1).mono (fun _ _ h => h.from hk) ?_
  rintro e m' ⟨s', g', k, hk', hb, h1, he, H'⟩
  exact ⟨s', g', k, s1.elems, hk', hb.from hk, h1, hx1, hx2, he, H'⟩

end
end SegTree
