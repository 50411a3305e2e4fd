/-
  Lower bounds for the operations that insert or erase many elements.
-/
import Verif.Cost.LowIns
import Verif.Cost.Algo
import Verif.Proof.Iters
set_option autoImplicit false
set_option synthInstance.maxSize 2000
set_option synthInstance.maxHeartbeats 400000

attribute [local instance] SegTree.Weights.accesses

namespace SegTree

variable {α β γ σ : Type} {E : Env α} {g : Log} {F : Asrt α} {m : Mem α} {o al i j : Nat} {s : St α} {it : Iter}
  {T : α → Prop}

theorem CRes.ge_spec {x : M α β} {y : C α β} [hsim : Sim x y] {f : β → C α γ} {a k : Nat} {Q : β → Mem α → Prop}
    {T : Exn → Mem α → Prop} (hs : Spec x m Q T) (h : (y m).ge a)
    (hf : ∀ v m', Q v m' → (f v m').ge k) : ((y >>= f) m).ge (a + k) := by
  rcases hs.cases with ⟨v, m', e, hq⟩ | ⟨e', m', e, -⟩
  · exact CRes.ge_seq_step e h (hf v m' hq)
  · refine CRes.ge_seq h fun v m'' n hv => ?_
    exact absurd hv (Sim.not_ok hsim e _ _ _)

/-- the most elements a container of height `h + 1` can hold -/
def capOf (E : Env α) (h : Nat) : Nat := E.baseMax ^ h * E.segMax

theorem ht_of_cap (hs : s.Ok E) {h : Nat} (hl : capOf E h < s.elems.length) : h + 1 ≤ s.ht - 1 := by
  by_contra hc
  have h1 := hs.size_le
  have h2 : E.baseMax ^ (s.ht - 1) ≤ E.baseMax ^ h :=
    Nat.pow_le_pow_right (by have := E.baseMax_ge; omega) (by omega)
  have h3 := Nat.mul_le_mul_right E.segMax h2
  unfold capOf at hl
  omega

theorem insert_iterator_ge (v : α) (hE : E.Good) (hs : s.Ok E) (ha : s.At i it)
    (H : Holds g (cont E o al s + F) m) : (Cost.insert_single_iterator E o it v m).ge (s.ht - 1) := by
  cases s with
  | nil => exact CRes.ge_zero
  | @tree h t =>
    rw [cont_tree, aassoc] at H
    unfold Cost.insert_single_iterator
    split
    · trivial
    · exact CRes.ge_bind (insert_single_segment_ge v hE hs.2 ha.2 rfl rfl H)

theorem emplace_single_ge {v : α} {mk : M α α} {mk' : C α α} [Sim mk mk'] (hE : E.Good) (hm : Mk T v mk)
    (hs : s.Ok E) (ha : s.At i it) (H : Holds g (cont E o al s + F) m) :
    (Cost.emplace_single E o it mk' m).ge (s.ht - 1) := by
  unfold Cost.emplace_single
  refine (CRes.ge_spec (x := mk) (a := 0) hm.spec CRes.ge_zero ?_).mono (Nat.le_of_eq (Nat.zero_add _).symm)
  rintro u m1 ⟨rfl, ht⟩
  exact insert_iterator_ge u hE hs ha (ht.holds H)

theorem erase_single_ge (hE : E.Good) (hs : s.Ok E) (ha : s.At i it) (hi : i < s.elems.length)
    (H : Holds g (cont E o al s + F) m) : (Cost.erase_single E o it m).ge (s.ht - 1) := by
  obtain ⟨e, p⟩ := it
  obtain ⟨rfl, ha⟩ := ha
  dsimp only at ha hi ⊢
  cases s with
  | nil => simp at hi
  | @tree h t =>
    rw [cont_tree, aassoc] at H
    unfold Cost.erase_single Cost.erase_single_iterator
    simp only [C.bind_assoc, C.pure_bind]
    exact CRes.ge_bind (erase_single_segment_ge hE hs.2 ha hi hs.1 rfl rfl H)

/-- erasing `n` elements: every one of those erased while the container holds
more than `capOf h` elements costs more than `h` accesses -/
theorem erase_range_ge {first : Iter} (hE : E.Good) (h n : Nat) : ∀ {m : Mem α} {j : Nat} {s : St α} {last : Iter},
    s.Ok E → first.pos = i → s.At j last → i + n = j → Holds g (cont E o al s + F) m →
    (Cost.erase_range E o first last m).ge (min n (s.elems.length - capOf E h) * (h + 1)) := by
  induction n with
  | zero =>
    intro m j s last hs hf hl hij H
    simp only [Nat.zero_min, Nat.zero_mul]
    exact CRes.ge_zero
  | succ n ih =>
    intro m j s last hs hf hl hij H
    have hj := hl.le
    rw [Cost.erase_range, if_pos (by rw [hl.pos, hf]; omega)]
    obtain ⟨it1, e1, ha1⟩ := move_prev_c hs hl (by omega) H
    refine CRes.ge_step e1 ?_
    refine CRes.ge.mono (CRes.ge_spec (a := s.ht - 1) (k := min n (s.elems.length - 1 - capOf E h) * (h + 1))
      (erase_single_c hE hs ha1 (by omega) H) (erase_single_ge hE hs ha1 (by omega) H) ?_) ?_
    · rintro it2 m2 ⟨s2, hs2, he2, ha2, H2⟩
      have hl2 : s2.elems.length = s.elems.length - 1 := by
        rw [he2, List.length_eraseIdx, if_pos (by omega)]
      have := ih hs2 hf ha2 (by omega) H2
      rwa [hl2] at this
    · rcases Nat.lt_or_ge (capOf E h) s.elems.length with hc | hc
      · have := ht_of_cap hs hc
        have e : min (n + 1) (s.elems.length - capOf E h) = min n (s.elems.length - 1 - capOf E h) + 1 := by omega
        rw [e, Nat.succ_mul]
        omega
      · rw [show s.elems.length - capOf E h = 0 by omega]; simp

theorem emplace_count_loop_ge {v : α} {mk : M α α} {mk' : C α α} [Sim mk mk'] (hE : E.Good) (hm : Mk T v mk) (h : Nat)
    (n : Nat) : ∀ {m : Mem α} {g : Log} {i : Nat} {s : St α} {it : Iter}, s.Ok E → s.At i it →
    s.elems.length + n < E.W → Holds g (cont E o al s + F) m →
    (Cost.emplace_count_loop E o mk' n it m).ge (min n (s.elems.length + n - (capOf E h + 1)) * (h + 1)) := by
  induction n with
  | zero => intro m g i s it hs ha hW H; simp only [Nat.zero_min, Nat.zero_mul]; exact CRes.ge_zero
  | succ n ih =>
    intro m g i s it hs ha hW H
    unfold Cost.emplace_count_loop
    refine CRes.ge.mono (CRes.ge_spec (a := s.ht - 1) (k := min n (s.elems.length + 1 + n - (capOf E h + 1)) * (h + 1))
      (emplace_single_c hE hm hs ha (by omega) H) (emplace_single_ge hE hm hs ha H) ?_) ?_
    · rintro it1 m1 ⟨s1, n1, hs1, he1, ha1, -, H1⟩
      have hi := ha.le
      have hl1 : s1.elems.length = s.elems.length + 1 := by rw [he1]; simp; omega
      obtain ⟨it2, e2, ha2⟩ := move_next_c hs1 ha1 (by omega) H1
      refine CRes.ge_step e2 ?_
      have := ih hs1 ha2 (by omega) H1
      rwa [hl1] at this
    · rcases Nat.lt_or_ge (capOf E h) s.elems.length with hc | hc
      · have := ht_of_cap hs hc
        rw [Nat.min_eq_left (by omega), Nat.min_eq_left (by omega), Nat.succ_mul]
        omega
      · refine Nat.le_trans (Nat.mul_le_mul_right _ ?_) (Nat.le_add_left _ _)
        omega

section
variable {S : Src α σ} {S' : Cost.Src α σ} {R R1 : σ → List α → Asrt α → Prop} [hsim : SimSrc S S']

theorem emplace_src_ge {st : σ} {v : α} {vs : List α} {X : Asrt α} (hE : E.Good) (hS : SrcOk E T S R R1)
    (hs : s.Ok E) (ha : s.At i it) (hR : R st (v :: vs) X) (H : Holds g (cont E o al s + (X + F)) m) :
    (Cost.emplace_single E o it (S'.read st) m).ge (s.ht - 1) := by
  unfold Cost.emplace_single
  have := hsim.read st
  refine (CRes.ge_spec (x := S.read st) (a := 0) (hS.read hR (H.eqv (by frame : _ = X + (cont E o al s + F))))
    CRes.ge_zero ?_).mono (Nat.le_of_eq (Nat.zero_add _).symm)
  rintro u m1 ⟨rfl, X1, hR1, H1⟩
  exact insert_iterator_ge u hE hs ha (H1.eqv (by frame : _ = cont E o al s + (X1 + F)))

theorem emplace_range_loop_ge (hE : E.Good) (hS : SrcOk E T S R R1) (h : Nat) (vs : List α) :
    ∀ {m : Mem α} {g : Log} {i cnt : Nat} {s : St α} {it : Iter} {st : σ} {X : Asrt α}, s.Ok E → s.At i it →
    R st vs X → s.elems.length + vs.length < E.W →
    Holds g (cont E o al s + (X + F)) m →
    (Cost.emplace_range_loop E S' o it st cnt m).ge
      (min vs.length (s.elems.length + vs.length - (capOf E h + 1)) * (h + 1)) := by
  induction vs with
  | nil =>
    intro m g i cnt s it st X hs ha hR hW H
    simp only [List.length_nil, Nat.zero_min, Nat.zero_mul]
    exact CRes.ge_zero
  | cons v vs ih =>
    intro m g i cnt s it st X hs ha hR hW H
    have hi := ha.le
    simp only [List.length_cons] at hW ⊢
    rw [Cost.emplace_range_loop, hsim.done, hS.done hR]
    simp only [List.isEmpty_cons, Bool.false_eq_true, if_false]
    have i1 := hsim.read st
    refine CRes.ge.mono (CRes.ge_spec (a := s.ht - 1)
      (k := min vs.length (s.elems.length + 1 + vs.length - (capOf E h + 1)) * (h + 1))
      (emplace_src_c hE hS hs ha hR (by omega) H) (emplace_src_ge hE hS hs ha hR H) ?_) ?_
    · rintro it1 m1 ⟨s1, X1, n1, hs1, he1, ha1, hR1, H1⟩
      have hl1 : s1.elems.length = s.elems.length + 1 := by rw [he1]; simp; omega
      have H1' := H1.eqv (by frame : _ = X1 + (cont E o al s1 + F))
      obtain ⟨st', e1, hR'⟩ := hS.next hR1 H1'
      have i2 := hsim.next st
      refine CRes.ge_step (x := S.next st) e1 ?_
      obtain ⟨it2, e2, ha2⟩ := move_next_c hs1 ha1 (by omega) H1
      refine CRes.ge_step e2 ?_
      have := ih (cnt := cnt + 1) hs1 ha2 hR' (by omega) H1
      rwa [hl1] at this
    · rcases Nat.lt_or_ge (capOf E h) s.elems.length with hc | hc
      · have := ht_of_cap hs hc
        rw [Nat.min_eq_left (by omega), Nat.min_eq_left (by omega), Nat.succ_mul]
        omega
      · refine Nat.le_trans (Nat.mul_le_mul_right _ ?_) (Nat.le_add_left _ _)
        omega
end

theorem remove_if_low {p : α → Bool} (hE : E.Good) (hs : s.Ok E) (h : Nat) (H : Holds g (cont E o al s + F) m) :
    (Cost.remove_if E o p m).ge (min (s.elems.length - (s.elems.filter (fun x => !p x)).length)
      (s.elems.length - capOf E h) * (h + 1)) := by
  unfold Cost.remove_if Cost.begin_ Cost.end_
  obtain ⟨fi, hfi⟩ := St.At.exists hs (Nat.zero_le _)
  obtain ⟨la, hla⟩ := St.At.exists hs (Nat.le_refl _)
  refine CRes.ge_step (find_first_c hs hfi H) ?_
  refine CRes.ge_step (find_end_c hs hla H) ?_
  obtain ⟨m1, s1, f1, it1, ys, e1, r1, h1, h2, H1⟩ := std_remove_if_c (p := p) hE hs hfi hla H
  refine CRes.ge_step e1 ?_
  have hlen : s1.elems.length = s.elems.length := by rw [r1.same.len]
  obtain ⟨la1, hla1⟩ := St.At.exists r1.ok (Nat.le_refl _)
  refine CRes.ge_step (find_end_c r1.ok hla1 H1) ?_
  have hf := h1.le
  have e : (s.elems.filter (fun x => !p x)).length = f1 := by
    rw [← h2, List.length_take, ← r1.elems]; omega
  rw [e, ← hlen]
  exact CRes.ge_bind (erase_range_ge hE h (s1.elems.length - f1) r1.ok h1.pos hla1 (by omega) H1)

theorem unique_low {p : α → α → Bool} (hE : E.Good) (hs : s.Ok E) (h : Nat) (H : Holds g (cont E o al s + F) m) :
    (Cost.unique E o p m).ge (min (s.elems.length - (uniq p s.elems).length)
      (s.elems.length - capOf E h) * (h + 1)) := by
  unfold Cost.unique Cost.begin_ Cost.end_
  obtain ⟨fi, hfi⟩ := St.At.exists hs (Nat.zero_le _)
  obtain ⟨la, hla⟩ := St.At.exists hs (Nat.le_refl _)
  refine CRes.ge_step (find_first_c hs hfi H) ?_
  refine CRes.ge_step (find_end_c hs hla H) ?_
  have key : ∃ m' s' f' it' ys, std_unique E p fi la m = .ok it' m' ∧ Rew E s s' ys ∧ s'.At f' it' ∧
      ys.take f' = uniq p s.elems ∧ Holds g (cont E o al s' + F) m' := by
    unfold std_unique
    by_cases h0 : s.elems.length = 0
    · rw [if_pos (by rw [hfi.pos, hla.pos, h0])]
      refine ⟨m, s, _, la, _, rfl, Rew.refl hs, hla, ?_, H⟩
      rw [List.eq_nil_of_length_eq_zero h0]; rfl
    · rw [if_neg (by rw [hfi.pos, hla.pos]; omega)]
      refine std_unique_loop_c hE (s.elems.length - 1) (by omega) hs hfi hfi hla rfl (Nat.le_refl _) (by omega) rfl ?_ H
      exact uniq_start (by omega)
  obtain ⟨m1, s1, f1, it1, ys, e1, r1, h1, h2, H1⟩ := key
  refine CRes.ge_step e1 ?_
  have hlen : s1.elems.length = s.elems.length := by rw [r1.same.len]
  obtain ⟨la1, hla1⟩ := St.At.exists r1.ok (Nat.le_refl _)
  refine CRes.ge_step (find_end_c r1.ok hla1 H1) ?_
  have hf := h1.le
  have e : (uniq p s.elems).length = f1 := by
    rw [← h2, List.length_take, ← r1.elems]; omega
  rw [e, ← hlen]
  exact CRes.ge_bind (erase_range_ge hE h (s1.elems.length - f1) r1.ok h1.pos hla1 (by omega) H1)

theorem splice_range_ge {o2 al2 a b : Nat} {s2 : St α} {fi la : Iter} (hE : E.Good) (hs : s.Ok E) (hs2 : s2.Ok E)
    (ha : s.At i it) (hfi : s2.At a fi) (hla : s2.At b la) (hab : a ≤ b) (hW : s.elems.length + (b - a) < E.W) (h : Nat)
    (H : Holds g (cont E o al s + (cont E o2 al2 s2 + F)) m) :
    (Cost.splice_range E o it o2 fi la m).ge
      ((min (b - a) (s.elems.length + (b - a) - (capOf E h + 1)) + min (b - a) (s2.elems.length - capOf E h)) * (h + 1)) := by
  unfold Cost.splice_range
  have hb := hla.le
  have hlen : ((s2.elems.take b).drop a).length = b - a := by simp; omega
  rw [Nat.add_mul]
  refine CRes.ge_spec (x := emplace_range E (moveSrc E la) o it fi)
    (emplace_range_c (X := cont E o2 al2 s2) (vs := (s2.elems.take b).drop a) hE (moveSrc_ok (a := a) hE hla) hs ha
    ⟨s2, a, rfl, hs2, .refl _, hfi, Nat.le_refl _, hab, rfl, by simp [movedList]⟩
    (by omega) H) (CRes.ge_bind ?_) ?_
  · have := emplace_range_loop_ge (S' := Cost.moveSrc E la) (X := cont E o2 al2 s2) (cnt := 0) hE (moveSrc_ok (a := a) hE hla) h ((s2.elems.take b).drop a) hs ha
      ⟨s2, a, rfl, hs2, .refl _, hfi, Nat.le_refl _, hab, rfl, by simp [movedList]⟩ (by omega) H
    rwa [hlen] at this
  · rintro it1 m1 ⟨s1, X1, st1, r, hs1, he1, -, hR1, H1⟩
    obtain ⟨s3, rfl, hs3, hpres, he3⟩ := moveR_end hb hR1
    have hl3 : s3.elems.length = s2.elems.length := by rw [he3]; simp [movedList]; omega
    rw [← hl3]
    exact CRes.ge_bind (erase_range_ge hE h (b - a) hs3 hfi.pos (hpres _ _ hla) (by omega)
      (H1.eqv (by frame : _ = cont E o2 al2 s3 + (cont E o al s1 + F))))

end SegTree
