/-
  Bounds for the operations that insert, erase or overwrite many elements.
-/
import Verif.Cost.Purge
import Verif.Proof.Whole
set_option autoImplicit false
set_option synthInstance.maxSize 2000
set_option synthInstance.maxHeartbeats 400000

attribute [local instance] SegTree.Weights.accesses

namespace SegTree

variable {α β γ σ : Type} {E : Env α} {g : Log} {F : Asrt α} {m : Mem α} {o al i j L : Nat} {s : St α} {it : Iter}
  {T : α → Prop}

/-- accesses of one insertion, per level -/
def insK (E : Env α) : Nat := 20 * E.baseMax + 14 * E.segMax + 79
/-- accesses of one erasure, per level -/
def eraK (E : Env α) : Nat := 20 * E.baseMax + 14 * E.segMax + 84
/-- accesses of one jump of an iterator, per level -/
def cntK (E : Env α) : Nat := 12 * E.baseMax + 24

theorem emplace_single_le {v : α} {mk : M α α} {mk' : C α α} [Sim mk mk'] {c : Nat} (hE : E.Good) (hm : Mk T v mk)
    (hc : CB mk' c) (hs : s.Ok E) (hL : lg s.elems.length ≤ L) (ha : s.At i it) (H : Holds g (cont E o al s + F) m) :
    (Cost.emplace_single E o it mk' m).le (c + insK E * L) := by
  unfold Cost.emplace_single
  refine CRes.le_spec (x := mk) hm.spec (hc.run m) (Nat.le_add_right _ _) ?_
  rintro u m1 ⟨rfl, ht⟩
  exact (insert_iterator_leL hs hL (ht.holds H) u hE ha).mono (by unfold insK; omega)

theorem emplace_count_loop_le {v : α} {mk : M α α} {mk' : C α α} [Sim mk mk'] {c : Nat} (hE : E.Good) (hm : Mk T v mk)
    (hc : CB mk' c) (n : Nat) : ∀ {m : Mem α} {g : Log} {i : Nat} {s : St α} {it : Iter}, s.Ok E → s.At i it →
    s.elems.length + n < E.W → lg (s.elems.length + n) ≤ L → Holds g (cont E o al s + F) m →
    (Cost.emplace_count_loop E o mk' n it m).le (n * (c + insK E * L + 14 * L)) := by
  induction n with
  | zero => intro m g i s it hs ha hW hL H; exact Nat.zero_le _
  | succ n ih =>
    intro m g i s it hs ha hW hL H
    have hL1 : lg (s.elems.length + 1) ≤ L := Nat.le_trans (lg_mono (by omega)) hL
    have hL0 : lg s.elems.length ≤ L := Nat.le_trans (lg_mono (by omega)) hL
    unfold Cost.emplace_count_loop
    rw [Nat.succ_mul]
    refine CRes.le_spec (emplace_single_c hE hm hs ha (by omega) H) (emplace_single_le hE hm hc hs hL0 ha H) (by omega) ?_
    rintro it1 m1 ⟨s1, n1, hs1, he1, ha1, -, H1⟩
    have hi := ha.le
    have hl1 : s1.elems.length = s.elems.length + 1 := by rw [he1]; simp; omega
    obtain ⟨it2, e2, ha2⟩ := move_next_c hs1 ha1 (by omega) H1
    refine CRes.le_step e2 (move_next_leL hs1 (hl1 ▸ hL1) H1 ha1) (by omega) ?_
    refine (ih hs1 ha2 (by omega) (by rw [hl1]; exact Nat.le_trans (lg_mono (by omega)) hL) H1).mono (by omega)

theorem emplace_count_le {v : α} {mk : M α α} {mk' : C α α} [Sim mk mk'] {c n : Nat} (hE : E.Good) (hm : Mk T v mk)
    (hc : CB mk' c) (hs : s.Ok E) (ha : s.At i it) (hW : s.elems.length + n < E.W)
    (hL : lg (s.elems.length + n) ≤ L) (H : Holds g (cont E o al s + F) m) :
    (Cost.emplace_count E o it n mk' m).le (n * (c + insK E * L + 14 * L) + cntK E * L) := by
  unfold Cost.emplace_count
  refine CRes.le_spec (emplace_count_loop_c hE hm n hs ha hW H) (emplace_count_loop_le hE hm hc n hs ha hW hL H)
    (by omega) ?_
  rintro it1 m1 ⟨s1, r, hs1, he1, ha1, H1⟩
  have hi := ha.le
  have hl1 : s1.elems.length = s.elems.length + n := by rw [he1]; simp; omega
  exact (move_prev_iterator_count_leL hs1 (hl1 ▸ hL) H1 ha1).mono (by unfold cntK; omega)

/-! ### input ranges -/

theorem Tree.Same.symm : {k : Nat} → {t t' : Tree α k} → t.Same t' → t'.Same t
  | 0, _, _, h => ⟨h.1.symm, h.2.symm⟩
  | k + 1, t, t', h => by
    refine ⟨h.1.symm, ?_⟩
    have a := h.2
    revert a
    generalize t.2 = x
    generalize t'.2 = y
    intro a
    induction a with
    | nil => exact .nil
    | cons h _ ih => exact .cons h.symm ih
theorem St.Same.symm {s s' : St α} (h : s.Same s') : s'.Same s := by
  cases h with
  | nil => exact .nil
  | tree h => exact .tree h.symm
theorem St.Same.len {s s' : St α} (h : s.Same s') : s'.elems.length = s.elems.length := by
  cases h with
  | nil => rfl
  | tree h => exact h.len.symm

/-- what the input range costs: reading a value takes at most 3 accesses, and
advancing takes at most 11 in the long run; `RA st a` says that `a` is the
potential of position `st` -/
structure SrcCost (S : Src α σ) (S' : Cost.Src α σ) (R1 : σ → List α → Asrt α → Prop) (RA : σ → Nat → Prop) : Prop where
  read : ∀ st, CB (S'.read st) 3
  next : ∀ {st vs X} {g : Log} {F : Asrt α} {m : Mem α} {a : Nat}, R1 st vs X → RA st a → Holds g (X + F) m →
    ∃ st' n b, S.next st m = .ok st' m ∧ (S'.next st m).le n ∧ RA st' b ∧ n + 5 * b ≤ 5 * a + 11

theorem listSrc_cost : SrcCost (listSrc E) (Cost.listSrc E) (fun st vs X => st.tail = vs ∧ X = 0) (fun _ a => a = 0) where
  read st := by
    cases st with
    | nil => exact CB.of (CB.ub (α := α) (β := α) .access) (by omega)
    | cons v l => exact CB.of (CB.copyVal v) (by omega)
  next := by
    rintro st vs X g F m a - rfl H
    exact ⟨st.tail, 0, 0, rfl, Nat.zero_le _, rfl, by omega⟩

section
variable {o2 al2 a b : Nat} {s2 : St α} {last : Iter}

theorem copySrc_cost {X0 : Asrt α} (hs2 : s2.Ok E) (hl : s2.At b last) :
    SrcCost (copySrc E last) (Cost.copySrc E last) (CopyR1 E o2 al2 b s2 X0) (fun st a => ∃ i, s2.AtT i st a) where
  read st := by
    show CB (do Cost.copyVal E (← Cost.dereference E st)) 3
    exact CB.of (by infer_instance) (by omega)
  next := by
    rintro st vs X g F m a ⟨rfl, hX, i, ha, hi, -⟩ ⟨i', hA⟩ H
    have := hA.at.pos
    rw [ha.pos] at this
    subst this
    have hb := hl.le
    obtain ⟨it', n, b', h1, h2, h3, h4⟩ := move_next_am hs2 hA (by omega) (hX _ _ _ H)
    exact ⟨it', n, b', h1, h2, ⟨_, h3⟩, h4⟩

theorem moveSrc_cost (hl : s2.At b last) :
    SrcCost (moveSrc E last) (Cost.moveSrc E last) (MoveR1 E o2 al2 a b s2) (fun st a => ∃ i, s2.AtT i st a) where
  read st := CB.moveFrom _ _
  next := by
    rintro st vs X g F m a ⟨s, i, rfl, hs, hsame, ha, hai, hi, -, -⟩ ⟨i', hA⟩ H
    have := hA.at.pos
    rw [ha.pos] at this
    subst this
    have hb := hl.le
    have := hsame.len
    obtain ⟨it', n, b', h1, h2, h3, h4⟩ := move_next_am hs (hA.same hsame) (by omega) H
    exact ⟨it', n, b', h1, h2, ⟨_, h3.same hsame.symm⟩, h4⟩
end

section
variable {S : Src α σ} {S' : Cost.Src α σ} {R R1 : σ → List α → Asrt α → Prop} {RA : σ → Nat → Prop} [hsim : SimSrc S S']

theorem emplace_src_le {st : σ} {v : α} {vs : List α} {X : Asrt α} (hE : E.Good) (hS : SrcOk E T S R R1)
    (hC : SrcCost S S' R1 RA) (hs : s.Ok E) (ha : s.At i it) (hL : lg s.elems.length ≤ L)
    (hR : R st (v :: vs) X) (H : Holds g (cont E o al s + (X + F)) m) :
    (Cost.emplace_single E o it (S'.read st) m).le (3 + insK E * L) := by
  unfold Cost.emplace_single
  have := hsim.read st
  refine CRes.le_spec (x := S.read st) (hS.read hR (H.eqv (by frame : _ = X + (cont E o al s + F))))
    ((hC.read st).run m) (Nat.le_add_right _ _) ?_
  rintro u m1 ⟨rfl, X1, hR1, H1⟩
  refine (insert_iterator_leL hs hL (H1.eqv (by frame : _ = cont E o al s + (X1 + F))) u hE ha).mono ?_
  unfold insK; omega

theorem emplace_range_loop_le (hE : E.Good) (hS : SrcOk E T S R R1) (hC : SrcCost S S' R1 RA) (vs : List α) :
    ∀ {m : Mem α} {g : Log} {i cnt a : Nat} {s : St α} {it : Iter} {st : σ} {X : Asrt α}, s.Ok E → s.At i it →
    R st vs X → RA st a → s.elems.length + vs.length < E.W → lg (s.elems.length + vs.length) ≤ L →
    Holds g (cont E o al s + (X + F)) m →
    (Cost.emplace_range_loop E S' o it st cnt m).le (vs.length * (insK E * L + 28 * L) + 5 * a) := by
  induction vs with
  | nil =>
    intro m g i cnt a s it st X hs ha hR hA hW hL H
    rw [Cost.emplace_range_loop, hsim.done, hS.done hR]
    exact Nat.zero_le _
  | cons v vs ih =>
    intro m g i cnt a s it st X hs ha hR hA hW hL H
    have hi := ha.le
    simp only [List.length_cons] at hW hL ⊢
    have hL1 : lg (s.elems.length + 1) ≤ L := Nat.le_trans (lg_mono (by omega)) hL
    have hL0 : lg s.elems.length ≤ L := Nat.le_trans (lg_mono (by omega)) hL
    have h1 := posL hL0
    rw [Cost.emplace_range_loop, hsim.done, hS.done hR, Nat.succ_mul]
    simp only [List.isEmpty_cons, Bool.false_eq_true, if_false]
    have i1 := hsim.read st
    refine CRes.le_spec (emplace_src_c hE hS hs ha hR (by omega) H) (emplace_src_le hE hS hC hs ha hL0 hR H)
      (by omega) ?_
    rintro it1 m1 ⟨s1, X1, n1, hs1, he1, ha1, hR1, H1⟩
    have hl1 : s1.elems.length = s.elems.length + 1 := by rw [he1]; simp; omega
    have H1' := H1.eqv (by frame : _ = X1 + (cont E o al s1 + F))
    obtain ⟨st', e1, hR'⟩ := hS.next hR1 H1'
    obtain ⟨st'', n, b, e1', hn, hA', hpot⟩ := hC.next hR1 hA H1'
    rw [e1] at e1'; cases e1'
    have i2 := hsim.next st
    refine CRes.le_step (x := S.next st) e1 hn (by omega) ?_
    obtain ⟨it2, e2, ha2⟩ := move_next_c hs1 ha1 (by omega) H1
    refine CRes.le_step e2 (move_next_leL hs1 (hl1 ▸ hL1) H1 ha1) (by omega) ?_
    refine (ih hs1 ha2 hR' hA' (by omega) (by rw [hl1]; exact Nat.le_trans (lg_mono (by omega)) hL) H1).mono (by omega)

theorem emplace_range_le {st : σ} {vs : List α} {X : Asrt α} {a : Nat} (hE : E.Good) (hS : SrcOk E T S R R1)
    (hC : SrcCost S S' R1 RA) (hs : s.Ok E) (ha : s.At i it) (hR : R st vs X) (hA : RA st a)
    (hW : s.elems.length + vs.length < E.W) (hL : lg (s.elems.length + vs.length) ≤ L)
    (H : Holds g (cont E o al s + (X + F)) m) :
    (Cost.emplace_range E S' o it st m).le (vs.length * (insK E * L + 28 * L) + 5 * a + cntK E * L) := by
  unfold Cost.emplace_range
  refine CRes.le_spec (emplace_range_loop_c (cnt := 0) hE hS vs hs ha hR hW H)
    (emplace_range_loop_le hE hS hC vs hs ha hR hA hW hL H) (by omega) ?_
  rintro ⟨it1, c1⟩ m1 ⟨hc, s1, X1, st1, r, hs1, he1, ha1, hR1, H1⟩
  have hi := ha.le
  have hl1 : s1.elems.length = s.elems.length + vs.length := by rw [he1]; simp; omega
  exact (move_prev_iterator_count_leL hs1 (hl1 ▸ hL) H1 ha1).mono (by unfold cntK; omega)
end

/-! ### erase_range -/

theorem erase_range_le {first : Iter} (hE : E.Good) (n : Nat) : ∀ {m : Mem α} {j : Nat} {s : St α} {last : Iter},
    s.Ok E → first.pos = i → s.At j last → i + n = j → lg s.elems.length ≤ L → Holds g (cont E o al s + F) m →
    (Cost.erase_range E o first last m).le (n * (eraK E * L + 16 * L)) := by
  induction n with
  | zero =>
    intro m j s last hs hf hl hij hL H
    rw [Cost.erase_range, if_neg (by rw [hl.pos, hf]; simp; omega)]
    exact Nat.zero_le _
  | succ n ih =>
    intro m j s last hs hf hl hij hL H
    have hj := hl.le
    rw [Cost.erase_range, if_pos (by rw [hl.pos, hf]; omega), Nat.succ_mul]
    obtain ⟨it1, e1, ha1⟩ := move_prev_c hs hl (by omega) H
    refine CRes.le_step e1 (move_prev_leL hs hL H hl) (by omega) ?_
    refine CRes.le_spec (a := eraK E * L) (erase_single_c hE hs ha1 (by omega) H)
      (erase_single_leL hs hL H hE ha1 (by omega)) (by omega) ?_
    rintro it2 m2 ⟨s2, hs2, he2, ha2, H2⟩
    have hl2 : lg s2.elems.length ≤ L := by
      refine Nat.le_trans (lg_mono ?_) hL
      rw [he2]; exact List.length_eraseIdx_le _ _
    exact (ih hs2 hf ha2 (by omega) hl2 H2).mono (by omega)

/-! ### assign and resize -/

/-- replacing `r` elements by `n` others: the common part is overwritten, the
rest is inserted or erased -/
def asgCost (E : Env α) (L n r : Nat) : Nat :=
  27 * min n r + (n - r) * (insK E * L + 28 * L) + (r - n) * (eraK E * L + 16 * L) + cntK E * L

theorem asgCost_succ {n r : Nat} : asgCost E L (n + 1) (r + 1) = 27 + asgCost E L n r := by
  unfold asgCost
  rw [Nat.add_sub_add_right, Nat.add_sub_add_right, Nat.add_min_add_right]
  omega
theorem asgCost_ins {n : Nat} : n * (insK E * L + 28 * L) + cntK E * L ≤ asgCost E L n 0 := by
  unfold asgCost
  simp
theorem asgCost_era {r : Nat} : r * (eraK E * L + 16 * L) ≤ asgCost E L 0 r := by
  unfold asgCost
  simp

section
variable {S : Src α σ} {S' : Cost.Src α σ} {R R1 : σ → List α → Asrt α → Prop} {RA : σ → Nat → Prop} [hsim : SimSrc S S']

theorem assign_range_loop_le (hE : E.Good) (hS : SrcOk E T S R R1) (hC : SrcCost S S' R1 RA) (vs : List α) :
    ∀ {m : Mem α} {g : Log} {i a a2 : Nat} {s : St α} {first last : Iter} {st : σ} {X : Asrt α}, s.Ok E →
    s.AtT i first a → s.At s.elems.length last → R st vs X → RA st a2 → i + vs.length < E.W →
    lg s.elems.length ≤ L → lg (i + vs.length) ≤ L →
    Holds g (cont E o al s + (X + F)) m →
    (Cost.assign_range_loop E S' o st first last m).le (asgCost E L vs.length (s.elems.length - i) + 5 * a + 5 * a2) := by
  induction vs with
  | nil =>
    intro m g i a a2 s first last st X hs ha hl hR hA hW hL hL2 H
    rw [Cost.assign_range_loop, hsim.done, hS.done hR]
    simp only [List.isEmpty_nil, if_true]
    have hi := ha.at.le
    have hb := asgCost_era (E := E) (L := L) (r := s.elems.length - i)
    refine CRes.le_bind (erase_range_le hE (s.elems.length - i) hs ha.at.pos hl (by omega) hL H)
      (by simp only [List.length_nil]; omega) fun _ _ _ _ => Nat.zero_le _
  | cons v vs ih =>
    intro m g i a a2 s first last st X hs ha hl hR hA hW hL hL2 H
    rw [Cost.assign_range_loop, hsim.done, hS.done hR]
    simp only [List.isEmpty_cons, Bool.false_eq_true, if_false]
    have hi := ha.at.le
    by_cases hil : i = s.elems.length
    · rw [if_pos (by rw [ha.at.pos, hl.pos, hil])]
      subst hil
      have hb := asgCost_ins (E := E) (L := L) (n := (v :: vs).length)
      refine CRes.le_bind (emplace_range_le hE hS hC hs hl hR hA hW hL2 H) ?_ fun _ _ _ _ => Nat.zero_le _
      rw [Nat.sub_self]
      omega
    · rw [if_neg (by rw [ha.at.pos, hl.pos]; exact hil)]
      have hlt : i < s.elems.length := by omega
      rw [show s.elems.length - i = s.elems.length - (i + 1) + 1 by omega, List.length_cons, asgCost_succ]
      have i1 := hsim.read st
      refine CRes.le_spec (x := S.read st) (hS.read hR (H.eqv (by frame : _ = X + (cont E o al s + F))))
        ((hC.read st).run m) (by omega) ?_
      rintro u m1 ⟨rfl, X1, hR1, H1⟩
      obtain ⟨m2, s2, e2, hs2, he2, hpres, hsame, H2⟩ := wrElem_c u hs ha.at hlt
        (H1.eqv (by frame : _ = cont E o al s + (X1 + F)))
      refine CRes.le_step e2 ((CB.wrElem _ _ _).run m1) (by omega) ?_
      have hlen := hsame.len
      obtain ⟨it3, n3, b3, e3, c3, ha3, p3⟩ := move_next_am hs2 (ha.same hsame) (by omega) H2
      refine CRes.le_step e3 c3 (by omega) ?_
      have H2' := H2.eqv (by frame : _ = X1 + (cont E o al s2 + F))
      obtain ⟨st', e4, hR'⟩ := hS.next hR1 H2'
      obtain ⟨st'', n4, b4, e4', c4, hA4, p4⟩ := hC.next hR1 hA H2'
      rw [e4] at e4'; cases e4'
      have i2 := hsim.next st
      refine CRes.le_step (x := S.next st) e4 c4 (by omega) ?_
      have hl2 : s2.At s2.elems.length last := by rw [hlen]; exact hpres _ _ hl
      simp only [List.length_cons] at hW hL2
      refine (ih hs2 ha3 hl2 hR' hA4 (by omega) (hlen ▸ hL) (by rwa [show i + 1 + vs.length = i + (vs.length + 1) by omega]) H2).mono ?_
      rw [hlen]
      omega

theorem assign_range_le {st : σ} {vs : List α} {X : Asrt α} {a : Nat} (hE : E.Good) (hS : SrcOk E T S R R1)
    (hC : SrcCost S S' R1 RA) (hs : s.Ok E) (hR : R st vs X) (hA : RA st a) (hW : vs.length < E.W)
    (hL : lg s.elems.length ≤ L) (hL2 : lg vs.length ≤ L) (H : Holds g (cont E o al s + (X + F)) m) :
    (Cost.assign_range E S' o st m).le (asgCost E L vs.length s.elems.length + 17 * L + 5 * a) := by
  unfold Cost.assign_range
  obtain ⟨f, hf⟩ := St.At.exists hs (Nat.zero_le _)
  obtain ⟨l, hl⟩ := St.At.exists hs (Nat.le_refl _)
  have hh := htL hs hL
  refine CRes.le_step (find_first_c hs hf H) (find_first_leL hs hL H) (by omega) ?_
  refine CRes.le_step (find_end_c hs hl H) (find_end_leL hs hL H) (by omega) ?_
  exact (assign_range_loop_le hE hS hC vs hs hf.toT hl hR hA (by omega) hL (by simpa using hL2) H).mono (by rw [Nat.sub_zero]; omega)
end

theorem assign_count_loop_le {v : α} (hE : E.Good) (n : Nat) :
    ∀ {m : Mem α} {g : Log} {i a : Nat} {s : St α} {first last : Iter}, s.Ok E → s.AtT i first a →
    s.At s.elems.length last → i + n < E.W → lg s.elems.length ≤ L → lg (i + n) ≤ L → Holds g (cont E o al s + F) m →
    (Cost.assign_count_loop E o (pure v) n first last m).le (asgCost E L n (s.elems.length - i) + 5 * a) := by
  induction n with
  | zero =>
    intro m g i a s first last hs ha hl hW hL hL2 H
    rw [Cost.assign_count_loop, if_pos rfl]
    have hi := ha.at.le
    have hb := asgCost_era (E := E) (L := L) (r := s.elems.length - i)
    refine CRes.le_bind (erase_range_le hE (s.elems.length - i) hs ha.at.pos hl (by omega) hL H)
      (by omega) fun _ _ _ _ => Nat.zero_le _
  | succ n ih =>
    intro m g i a s first last hs ha hl hW hL hL2 H
    rw [Cost.assign_count_loop, if_neg (by omega)]
    have hi := ha.at.le
    by_cases hil : i = s.elems.length
    · rw [if_pos (by rw [ha.at.pos, hl.pos, hil])]
      subst hil
      have hb := asgCost_ins (E := E) (L := L) (n := n + 1)
      have := posL hL
      refine CRes.le_bind (a := (n + 1) * (0 + insK E * L + 14 * L) + cntK E * L) ?_ ?_ fun _ _ _ _ => Nat.zero_le _
      · simp only [C.pure_bind]
        exact emplace_count_le (mk := copyVal E v) hE (Mk.copy v) (CB.copyVal v) hs hl hW hL2 H
      · rw [Nat.sub_self]
        have : (n + 1) * (0 + insK E * L + 14 * L) ≤ (n + 1) * (insK E * L + 28 * L) := Nat.mul_le_mul_left _ (by omega)
        omega
    · rw [if_neg (by rw [ha.at.pos, hl.pos]; exact hil)]
      have hlt : i < s.elems.length := by omega
      rw [show s.elems.length - i = s.elems.length - (i + 1) + 1 by omega, asgCost_succ]
      simp only [C.pure_bind]
      have hsp : Spec (copyAssign E first.entry.seg.ptr first.entry.seg.idx v) m
          (fun _ m' => ∃ s2, s2.Ok E ∧ s.Same s2 ∧ (∀ j jt, s.At j jt → s2.At j jt) ∧ Holds g (cont E o al s2 + F) m')
          (fun _ _ => True) := by
        unfold copyAssign
        obtain ⟨m1, ht, hc | ⟨hc, h1, h2⟩⟩ := Mk.copy (E := E) v m
        · obtain ⟨m2, s2, e2, hs2, he2, hpres, hsame, H2⟩ := wrElem_c v hs ha.at hlt (ht.holds H)
          refine Spec.step hc (Spec.ok e2 ⟨s2, hs2, hsame, hpres, H2⟩)
        · exact Spec.thr (bind_throw hc) trivial
      refine CRes.le_spec hsp ((CB.copyAssign _ _ _).run m) (by omega) ?_
      rintro - m2 ⟨s2, hs2, hsame, hpres, H2⟩
      have hlen := hsame.len
      obtain ⟨it3, n3, b3, e3, c3, ha3, p3⟩ := move_next_am hs2 (ha.same hsame) (by omega) H2
      refine CRes.le_step e3 c3 (by omega) ?_
      have hl2 : s2.At s2.elems.length last := by rw [hlen]; exact hpres _ _ hl
      rw [Nat.add_sub_cancel]
      refine (ih hs2 ha3 hl2 (by omega) (hlen ▸ hL) (by rwa [show i + 1 + n = i + (n + 1) by omega]) H2).mono ?_
      rw [hlen]
      omega

theorem assign_count_le {v : α} {n : Nat} (hE : E.Good) (hs : s.Ok E) (hW : n < E.W)
    (hL : lg s.elems.length ≤ L) (hL2 : lg n ≤ L) (H : Holds g (cont E o al s + F) m) :
    (Cost.assign_count E o n (pure v) m).le (asgCost E L n s.elems.length + 17 * L) := by
  unfold Cost.assign_count
  obtain ⟨f, hf⟩ := St.At.exists hs (Nat.zero_le _)
  obtain ⟨l, hl⟩ := St.At.exists hs (Nat.le_refl _)
  have hh := htL hs hL
  refine CRes.le_step (find_first_c hs hf H) (find_first_leL hs hL H) (by omega) ?_
  refine CRes.le_step (find_end_c hs hl H) (find_end_leL hs hL H) (by omega) ?_
  exact (assign_count_loop_le hE n hs hf.toT hl (by omega) hL (by simpa using hL2) H).mono (by rw [Nat.sub_zero]; omega)

theorem resize_count_le {v : α} {mk : M α α} {mk' : C α α} [Sim mk mk'] {c n : Nat} (hE : E.Good) (hm : Mk T v mk)
    (hc : CB mk' c) (hs : s.Ok E) (hW : n < E.W) (hL : lg s.elems.length ≤ L) (hL2 : lg n ≤ L)
    (H : Holds g (cont E o al s + F) m) :
    (Cost.resize_count E o n mk' m).le ((n - s.elems.length) * (c + insK E * L + 14 * L) +
      (s.elems.length - n) * (eraK E * L + 16 * L) + cntK E * L + 8 * L) := by
  unfold Cost.resize_count
  have h1 := posL hL
  have hK : (2 * E.baseMax + 7) * L ≤ cntK E * L := Nat.mul_le_mul_right _ (by unfold cntK; omega)
  refine CRes.le_step (getSize_c H) ((CB.getSize o).run m) (by omega) ?_
  by_cases h1 : s.elems.length = n
  · rw [if_pos h1]; exact Nat.zero_le _
  · rw [if_neg h1]
    obtain ⟨l, hl⟩ := St.At.exists hs (Nat.le_refl _)
    refine CRes.le_step (find_end_c hs hl H) (find_end_leL hs hL H) (by omega) ?_
    by_cases h2 : n < s.elems.length
    · rw [if_pos h2]
      obtain ⟨f, hf⟩ := St.At.exists hs (Nat.le_of_lt h2)
      refine CRes.le_step (find_index_c hs hf h2 H) (find_index_leL hs hL H n) (by omega) ?_
      refine CRes.le_bind (erase_range_le hE (s.elems.length - n) hs hf.pos hl (by omega) hL H) (by omega)
        fun _ _ _ _ => Nat.zero_le _
    · rw [if_neg h2]
      refine CRes.le_bind (emplace_count_le (n := n - s.elems.length) (L := L) hE hm hc hs hl (by omega) ?_ H) (by omega)
        fun _ _ _ _ => Nat.zero_le _
      rwa [show s.elems.length + (n - s.elems.length) = n by omega]

end SegTree
