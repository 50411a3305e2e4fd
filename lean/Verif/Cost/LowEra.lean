/-
  Lower bounds for the removal of one element: whatever the state of the tree, the
  counters of all the ancestors are touched.
-/
import Verif.Cost.EraSeg
import Verif.Cost.Lower
set_option autoImplicit false
set_option synthInstance.maxSize 2000
set_option synthInstance.maxHeartbeats 400000

attribute [local instance] SegTree.Weights.accesses

namespace SegTree

variable {α β γ δ : Type} {E : Env α} {g : Log} {F : Asrt α} {m : Mem α}

/-- if the run returns, it made at least `k` accesses -/
def CRes.ge (k : Nat) : CRes α β → Prop
  | .ok _ _ n => k ≤ n
  | _ => True

theorem CRes.ge.mono {r : CRes α β} {a b : Nat} (h : r.ge a) (hb : b ≤ a) : r.ge b := by
  cases r with
  | ok v m n => exact Nat.le_trans hb h
  | _ => trivial

theorem CRes.ge_zero {r : CRes α β} : r.ge 0 := by
  cases r with
  | ok v m n => exact Nat.zero_le _
  | _ => trivial

theorem CRes.ge_seq {x : C α β} {f : β → C α γ} {a k : Nat} (h : (x m).ge a)
    (hf : ∀ v m' n, x m = .ok v m' n → (f v m').ge k) : ((x >>= f) m).ge (a + k) := by
  show CRes.ge (a + k) (C.bind x f m)
  unfold C.bind
  cases hx : x m with
  | ok v m' n =>
    rw [hx] at h
    have h : a ≤ n := h
    have h2 := hf v m' n hx
    simp only
    cases hy : f v m' with
    | ok w m2 b =>
      rw [hy] at h2
      have h2 : k ≤ b := h2
      show a + k ≤ n + b
      omega
    | _ => trivial
  | _ => trivial

theorem CRes.ge_bind {x : C α β} {f : β → C α γ} {k : Nat} (h : (x m).ge k) : ((x >>= f) m).ge k :=
  (CRes.ge_seq h fun _ _ _ _ => CRes.ge_zero).mono (by omega)

theorem CRes.ge_seq_step {x : M α β} {y : C α β} [s : Sim x y] {f : β → C α γ} {a k : Nat} {v : β} {m' : Mem α}
    (e : x m = .ok v m') (h : (y m).ge a) (hf : (f v m').ge k) : ((y >>= f) m).ge (a + k) := by
  refine CRes.ge_seq h ?_
  intro v' m'' n h'
  obtain ⟨n', e'⟩ := s.ok e
  rw [e'] at h'
  cases h'
  exact hf

theorem CRes.ge_step {x : M α β} {y : C α β} [s : Sim x y] {f : β → C α γ} {k : Nat} {v : β} {m' : Mem α}
    (e : x m = .ok v m') (hf : (f v m').ge k) : ((y >>= f) m).ge k :=
  (CRes.ge_seq_step e CRes.ge_zero hf).mono (by omega)

theorem CRes.ge_usub {a b k : Nat} {f : Nat → C α β} (h : b ≤ a → (f (a - b) m).ge k) :
    ((Cost.usub a b >>= f) m).ge k := by
  by_cases hb : b ≤ a
  · exact CRes.ge_step (usub_ok hb m) (h hb)
  · refine (CRes.ge_seq (a := 0) (k := k) CRes.ge_zero (fun v m' n e => ?_)).mono (Nat.le_of_eq (Nat.zero_add _).symm)
    exact absurd e ((CB.usub_dead hb m 0).2 _ _ _)

theorem Cost.parent_ge (p : Nat) : (Cost.parent p m : CRes α Nat).ge 1 := by
  unfold Cost.parent
  refine CRes.ge_bind ?_
  unfold Cost.rdNode C.lift
  cases SegTree.rdNode p m with
  | ok v m1 => exact Nat.le_refl 1
  | _ => trivial

/-- the counters of all the ancestors are updated -/
theorem Up.update_sizes_ge {o sz : Nat} : ∀ {k : Nat} {m : Mem α} {p : Nat}, Up m p k → ∀ idx,
    (Cost.update_sizes E o p idx sz m).ge k := by
  intro k
  induction k with
  | zero => intro m p hu idx; exact CRes.ge_zero
  | succ k ih =>
    intro m p hu idx
    cases hu with
    | @step _ k w n hp hc hu =>
      unfold Cost.update_sizes
      rw [if_pos hp]
      by_cases hi : idx < E.baseMax
      · refine CRes.ge_step (x := SegTree.sizesAt E p idx) (v := n.sizes idx) (m' := m) ?_ ?_
        · unfold SegTree.sizesAt; rw [bind_ok (rd hc), if_pos hi]; rfl
        refine CRes.ge_step (setSizes_run (v := E.wadd (n.sizes idx) sz) hc hi) ?_
        have hc' : (m.set (.heap p) (.node w { n with sizes := upd n.sizes idx (E.wadd (n.sizes idx) sz) })).cell (.heap p) =
          some (.node w { n with sizes := upd n.sizes idx (E.wadd (n.sizes idx) sz) }) := by simp [Mem.set, upd]
        refine CRes.ge_step (pidx hc') ?_
        rw [Nat.add_comm k 1]
        refine CRes.ge_seq_step (parent hc') (Cost.parent_ge p) ?_
        exact ih (hu.congr (keeps_node (n' := { n with sizes := upd n.sizes idx (E.wadd (n.sizes idx) sz) }) hc rfl)) n.pidx
      · refine (CRes.ge_seq (a := 0) CRes.ge_zero (fun v m' n e => ?_)).mono (Nat.le_of_eq (Nat.zero_add _).symm)
        exact absurd e ((CB.sizesAt_dead hi m 0).2 _ _ _)

theorem Up.decrement_sizes_ge {o idx p k : Nat} (hu : Up m p k) : (Cost.decrement_sizes E o p idx m).ge k :=
  hu.update_sizes_ge idx
theorem Up.increment_sizes_ge {o idx p k : Nat} (hu : Up m p k) : (Cost.increment_sizes E o p idx m).ge k :=
  hu.update_sizes_ge idx

theorem decAfter0_ge {X : M α β} {Y : C α β} {o q i d : Nat} {r : γ} {mf : Mem α} [Sim X Y]
    (e : (X >>= fun _ => decrement_sizes E o q i >>= fun _ => pure r) m = .ok r mf) (hu : Up mf q d) :
    ((Y >>= fun _ => Cost.decrement_sizes E o q i >>= fun _ => pure r) m).ge d := by
  obtain ⟨w, m1, e1, e2⟩ := M.bind_ok_inv e
  refine CRes.ge_step e1 ?_
  obtain ⟨_, m2, e2, e3⟩ := M.bind_ok_inv e2
  cases e3
  have hu1 := (KP.decrement_sizes o q i).run _ _ _ e2 _ _ hu
  exact CRes.ge_bind (Up.decrement_sizes_ge hu1)

theorem decAfter_ge {X : M α β} {Y : C α β} {o q d : Nat} {r : γ} {mf : Mem α} [Sim X Y]
    (e : (X >>= fun _ => parent q >>= fun p => pidx q >>= fun i => decrement_sizes E o p i >>= fun _ => pure r) m =
      .ok r mf) (hu : Up mf q d) :
    ((Y >>= fun _ => Cost.parent q >>= fun p => Cost.pidx q >>= fun i => Cost.decrement_sizes E o p i >>= fun _ =>
      pure r) m).ge d := by
  obtain ⟨w, m1, e1, e2⟩ := M.bind_ok_inv e
  refine CRes.ge_step e1 ?_
  have hu1 : Up m1 q d := by
    refine (?_ : KP (parent q >>= fun p => pidx q >>= fun i => decrement_sizes E o p i >>= fun _ => (pure r : M α γ))).run
      _ _ _ e2 _ _ hu
    infer_instance
  cases hu1 with
  | zero h => exact CRes.ge_zero
  | @step _ k w n hp hc hu' =>
    rw [Nat.add_comm k 1]
    refine CRes.ge_seq_step (Up.parent hc) (Cost.parent_ge q) ?_
    refine CRes.ge_step (Up.pidx hc) ?_
    exact CRes.ge_bind (Up.decrement_sizes_ge hu')

theorem eraGen_ge {o w : Nat} (hb : E.baseMax < 65536) (n : Nat) : ∀ {h k : Nat} (c : Ctx α h (k + 1)), h = k + n →
    ∀ {m : Mem α} {F : Asrt α} {x : SeqObj} {p S : Nat} {A B : List (Tree α k)} {dk : Nat × Nat} {entry : LeafE},
    EraHyp E w x c p A B S →
    Holds g (EraMem E w c p A B dk S + (Ob o x + F)) m →
    (Cost.eraGen E k o entry p A.length m).ge n := by
  induction n with
  | zero =>
    intro h k c hn
    have := c.le
    omega
  | succ n ih =>
  intro h k c hn m F x p S A B dk entry hy H
  have hhi := hy.hi
  have hlo := hy.lo
  have hge := E.baseMax_ge
  have hmn := E.baseMin_ge
  have hmm : 2 * E.baseMin - 1 ≤ E.baseMax := by unfold Env.baseMin; omega
  have htop : c.hdr.1 = 0 ↔ c.isTop = true := by
    unfold EraMem at H
    exact Ctx.isTop_hdr (F := pt (.heap p) (IsNode w c.hdr.1 c.hdr.2 (keys A ++ dk :: keys B)) + (lays E w p 0 A +
      (lays E w p (A.length + 1) B + (Ob o x + F)))) (H.eqv (by frame))
  obtain ⟨q, hq⟩ : ∃ q, c.hdr.1 = q := ⟨_, rfl⟩
  obtain ⟨j, hj⟩ : ∃ j, c.hdr.2 = j := ⟨_, rfl⟩
  have H0 : Holds g (pt (.heap p) (IsNode w q j (keys A ++ dk :: keys B)) + (lays E w p 0 A +
      (lays E w p (A.length + 1) B + (c.lay E w p S + (Ob o x + F))))) m := by
    subst hq hj
    unfold EraMem at H
    exact H.eqv (by frame)
  unfold Cost.eraGen
  refine CRes.ge.mono (a := 1 + n) (CRes.ge_seq_step (nparent H0) (Cost.parent_ge p) ?_) (by omega)
  refine CRes.ge_step (npidx H0) ?_
  refine CRes.ge_step (nlen H0) ?_
  have hkl : (keys A ++ dk :: keys B).length = A.length + B.length + 1 := by simp; omega
  rw [hkl]
  by_cases hroot : A.length + B.length + 1 = 2 ∧ (E.baseMin ≠ 2 ∨ q = 0)
  · rw [if_pos hroot]
    have htop' : c.isTop = true := by
      by_contra hc
      rw [if_neg hc] at hlo
      rcases hroot.2 with h2 | h2
      · omega
      · exact hc (htop.1 (hq.trans h2))
    have hn0 : n = 0 := by
      cases c with
      | top => omega
      | step _ _ _ _ => simp at htop'
    subst hn0
    exact CRes.ge_zero
  rw [if_neg hroot]
  refine CRes.ge_usub fun _ => ?_
  by_cases hsh : A.length + B.length + 1 ≠ E.baseMin ∨ q = 0
  · rw [if_pos hsh]
    obtain ⟨m1, e1, H1⟩ := eraShift_ok (f := (pure entry : M α LeafE)) (l := A.length + B.length + 1 - 1) hb hy (by omega) H
    rw [hq, hj] at e1
    obtain ⟨d, hd, hu⟩ := up_of_fill H1
    obtain rfl : d = n := by omega
    rw [hq] at hu
    refine decAfter0_ge (Y := Cost.eraShiftP E k p (A.length + B.length + 1 - 1) A.length) (X := eraShiftP E k p (A.length + B.length + 1 - 1) A.length) (d := d) (mf := m1) ?_ hu
    unfold eraShiftP
    simp only [bind_assoc]
    exact e1
  rw [if_neg hsh]
  have hbm : A.length + B.length + 1 = E.baseMin := by omega
  have hne0 : q ≠ 0 := by omega
  clear hroot hsh hlo htop
  have hcok := hy.cok
  have hal := hy.al
  have hbnd := hy.bnd
  have hsz := hy.sz
  have hrt := hy.root
  have hS := hy.size
  have hht := hy.ht
  cases c with
  | top => exact absurd hq.symm (by simpa [Ctx.hdr_top] using hne0)
  | step gp l r c =>
  simp only [Ctx.hdr_step] at hq hj
  subst hq hj
  obtain ⟨c1, c2, c3, c4, c5⟩ := hcok
  rw [Ctx.out_step] at hsz
  rcases List.eq_nil_or_concat l with rfl | ⟨lt, pv, rfl⟩
  · -- no previous sibling: use the next one
    rw [if_neg (by simp)]
    obtain ⟨nx, rt, rfl⟩ : ∃ nx rt, r = nx :: rt := by
      cases r with
      | nil => simp at c3; split at c3 <;> omega
      | cons a b => exact ⟨a, b, rfl⟩
    have hnx := c2 nx (by simp)
    rw [Tree.wf_succ] at hnx
    obtain ⟨x1, x2, x3⟩ := hnx
    obtain ⟨z, K, hzK⟩ : ∃ z K, nx.kids = z :: K := by
      cases hk : nx.kids with
      | nil => simp [hk] at x1; omega
      | cons a b => exact ⟨a, b, rfl⟩
    obtain ⟨pp, rfl⟩ : ∃ pp, nx = .mkNode pp (z :: K) := ⟨nx.addr, by rw [← hzK]; rfl⟩
    simp only [Tree.kids_mkNode, List.length_cons] at x1 x2 x3
    simp only [List.length_nil, List.length_cons] at c3 c4
    have hz := x3 z (by simp)
    simp only [Ctx.lay, lays_cons, lays_nil, lay_mkNode, keys_cons, keys_nil, List.nil_append, List.length_nil,
      Nat.zero_add, zero_add, aassoc] at H0 ⊢
    have Hg := H0.eqv (by frame : _ = pt (.heap gp) (IsNode w c.hdr.1 c.hdr.2
      ((S, p) :: key (.mkNode pp (z :: K)) :: keys rt)) + _)
    have Hn := H0.eqv (by frame : _ = pt (.heap pp) (IsNode w gp 1 (key z :: keys K)) + _)
    refine CRes.ge_step (nptr (E := E) (a := [(S, p)]) (k := (key (.mkNode pp (z :: K) : Tree α (k + 1)))) (b := keys rt) (j := 1) rfl rfl
      (by simp; omega) Hg) ?_
    simp only [show (key (.mkNode pp (z :: K) : Tree α (k + 1))).2 = pp from rfl]
    refine CRes.ge_step (nlen Hn) ?_
    simp only [keys_length, List.length_cons]
    by_cases hmin : K.length + 1 ≠ E.baseMin
    · rw [if_pos hmin]
      obtain ⟨m1, e1, H1⟩ := eraRotNext_ok (f := (pure entry : M α LeafE)) (l := A.length + B.length + 1 - 1) hb hy (by omega)
        hz (by omega) H
      obtain ⟨d, hd, hu⟩ := up_of_fill H1
      obtain rfl : d = n := by omega
      refine decAfter_ge (X := eraRotNextP E k p A.length gp 0 pp (K.length + 1) (A.length + B.length + 1 - 1)) (d := d) (mf := m1) ?_ hu
      unfold eraRotNextP
      simp only [bind_assoc, Nat.zero_add]
      exact e1
    · rw [if_neg hmin]
      obtain ⟨m1, e1, H1⟩ := eraMergeNext_ok (f := (pure () : M α Unit))
        (l := A.length + B.length + 1 - 1) hb hy (by omega)
        hz (by omega) H
      have hy1 : EraHyp E w x c gp [.mkNode p (A ++ B ++ z :: K)] rt
          (S + (elemsL ([] : List (Tree α (k + 1)))).length + (elemsL (.mkNode pp (z :: K) :: rt)).length) := by
        refine ⟨c5, ?_, by simp; omega, by simp; omega, ?_, by omega, hbnd, hht, hrt, hal⟩
        · rintro t' ht'
          rcases List.mem_cons.1 ht' with rfl | ht'
          · refine Tree.wf_succ.2 ⟨by simp; omega, by simp; omega, ?_⟩
            intro a ha
            simp only [Tree.kids_mkNode, List.mem_append, List.mem_cons] at ha
            have := hy.wf a
            simp only [List.mem_append] at this
            rcases ha with ha | rfl | ha
            · exact this ha
            · exact hz
            · exact x3 a (by simp [ha])
          · exact c2 t' (by simp_all)
        · simp; omega
      have e2 : eraMergeNextP E k o p A.length gp 0 pp (K.length + 1) (A.length + B.length + 1 - 1) m = .ok () m1 := by
        rw [← bind_pure_unit (x := eraMergeNextP E k o p A.length gp 0 pp (K.length + 1) (A.length + B.length + 1 - 1))]
        unfold eraMergeNextP
        simp only [bind_assoc, Nat.zero_add]
        exact e1
      refine CRes.ge_step e2 ?_
      have := ih c (by omega) (entry := ⟨gp, 0⟩) hy1 H1
      rw [Cost.erase_single_branch_eq k ⟨gp, 0⟩, C.bind_assoc]
      simp only [List.length_nil, List.length_cons, Nat.zero_add] at this
      exact CRes.ge_bind this
  · -- a previous sibling
    simp only [List.concat_eq_append, List.length_append, List.length_cons, List.length_nil] at *
    rw [if_pos (show _ ≠ _ by simp)]
    have hpv := c1 pv (by simp)
    rw [Tree.wf_succ] at hpv
    obtain ⟨x1, x2, x3⟩ := hpv
    obtain ⟨pp, Q, rfl⟩ : ∃ pp Q, pv = .mkNode pp Q := ⟨pv.addr, pv.kids, rfl⟩
    simp only [Tree.kids_mkNode] at x1 x2 x3
    simp only [Ctx.lay, lays_append, lays_cons, lays_nil, lay_mkNode, keys_append, keys_cons, keys_nil, List.append_assoc,
      List.cons_append, List.nil_append, List.length_nil, Nat.zero_add, zero_add, add_zero, Nat.add_sub_cancel, aassoc] at H0 ⊢
    have Hg := H0.eqv (by frame : _ = pt (.heap gp) (IsNode w c.hdr.1 c.hdr.2
      (keys lt ++ key (.mkNode pp Q) :: (S, p) :: keys r)) + _)
    have Hn := H0.eqv (by frame : _ = pt (.heap pp) (IsNode w gp lt.length (keys Q)) + _)
    refine CRes.ge_step (nptr (E := E) (a := keys lt) (k := (key (.mkNode pp Q : Tree α (k + 1)))) (b := (S, p) :: keys r) (j := lt.length)
      rfl (by simp) (by simp; omega) Hg) ?_
    simp only [show (key (.mkNode pp Q : Tree α (k + 1))).2 = pp from rfl]
    refine CRes.ge_step (nlen Hn) ?_
    simp only [keys_length]
    by_cases hmin : Q.length ≠ E.baseMin
    · rw [if_pos hmin]
      obtain ⟨K, z, rfl⟩ : ∃ K z, Q = K ++ [z] := snoc_of_ne (by intro e; simp [e] at x1; omega)
      simp only [List.length_append, List.length_cons, List.length_nil, Nat.zero_add] at x1 x2 hmin ⊢
      have hz := x3 z (by simp)
      obtain ⟨m1, e1, H1⟩ := eraRotPrev_ok (f := (pure { entry with idx := entry.idx + 1 } : M α LeafE)) hb hy (by omega)
        hz H
      obtain ⟨d, hd, hu⟩ := up_of_fill H1
      obtain rfl : d = n := by omega
      refine decAfter_ge (X := eraRotPrevP E k p A.length gp (lt.length + 1) pp (K.length + 1)) (d := d) (mf := m1) ?_ hu
      unfold eraRotPrevP
      simp only [bind_assoc, Nat.add_sub_cancel]
      exact e1
    · rw [if_neg hmin]
      obtain ⟨m1, e1, H1⟩ := eraMergePrev_ok (K := Q)
        (f := (pure () : M α Unit))
        (l := A.length + B.length) hb hy (by omega) (by omega) H
      have hy1 : EraHyp E w x c gp (lt ++ [.mkNode pp (Q ++ (A ++ B))]) r
          (S + (elemsL (lt ++ [.mkNode pp Q])).length + (elemsL r).length) := by
        refine ⟨c5, ?_, by simp; omega, by simp; omega, ?_, by omega, hbnd, hht, hrt, hal⟩
        · rintro t' ht'
          simp only [List.mem_append, List.mem_cons, List.not_mem_nil, or_false] at ht'
          rcases ht' with (ht' | rfl) | ht'
          · exact c1 t' (by simp [ht'])
          · refine Tree.wf_succ.2 ⟨by simp; omega, by simp; omega, ?_⟩
            intro a ha
            simp only [Tree.kids_mkNode, List.mem_append] at ha
            rcases ha with ha | ha
            · exact x3 a ha
            · exact hy.wf a (by simpa using ha)
          · exact c2 t' ht'
        · simp; omega
      have e2 : eraMergePrevP E k o p A.length gp (lt.length + 1) pp Q.length (A.length + B.length) m = .ok () m1 := by
        rw [← bind_pure_unit (x := eraMergePrevP E k o p A.length gp (lt.length + 1) pp Q.length (A.length + B.length))]
        unfold eraMergePrevP
        simp only [bind_assoc, Nat.add_sub_cancel]
        exact e1
      refine CRes.ge_step e2 ?_
      have := ih c (by omega) (entry := ⟨gp, 0⟩) hy1 H1
      rw [Cost.erase_single_branch_eq k ⟨gp, 0⟩, C.bind_assoc]
      simp only [List.length_append, List.length_cons, List.length_nil, Nat.zero_add] at this
      exact CRes.ge_bind this

theorem erase_single_leaf_ge {o w h : Nat} (hb : E.baseMax < 65536) (c : Ctx α h 1) {x : SeqObj} {p S j : Nat}
    {A B : List (Tree α 0)} {dk : Nat × Nat} {entry : LeafE}
    (hy : EraHyp E w x c p A B S) (hj : j = A.length)
    (H : Holds g (EraMem E w c p A B dk S + (Ob o x + F)) m) :
    (Cost.erase_single_leaf E o entry p j m).ge h := by
  subst hj
  rw [Cost.erase_single_leaf_eq]
  exact eraGen_ge hb h c (by omega) hy H

theorem segTail_ge {o w gp j n h : Nat} {c : Ctx α h 1} {ks : List (Nat × Nat)} {S : Nat}
    (hj : j < ks.length) (hks : ks.length ≤ E.baseMax)
    (H : Holds g (pt (.heap gp) (IsNode w c.hdr.1 c.hdr.2 ks) + (c.lay E w gp S + F)) m) :
    (Cost.segTail E o gp j n m).ge h := by
  obtain ⟨a, k, b, rfl, rfl⟩ : ∃ a k b, ks = a ++ k :: b ∧ a.length = j := by
    refine ⟨ks.take j, ks[j], ks.drop (j + 1), ?_, ?_⟩
    · rw [List.getElem_cons_drop, List.take_append_drop]
    · rw [List.length_take]; omega
  unfold Cost.segTail
  obtain ⟨m2, e2, H2⟩ := nsetSize (E := E) (v := n) (j := a.length) rfl hks H
  refine CRes.ge_step e2 ?_
  obtain ⟨d, hd, hu⟩ := c.up (H2.eqv (by frame : _ = c.lay E w gp S + _))
  refine CRes.ge.mono (a := 1 + d) (CRes.ge_seq_step (nparent H2) (Cost.parent_ge gp) ?_) (by omega)
  refine CRes.ge_step (npidx H2) ?_
  exact Up.decrement_sizes_ge hu

theorem erase_single_segment_ge {h o w al nal i : Nat} {t : Tree α h} {e : Entry} (hE : E.Good)
    (hr : t.Root E) (he : At t i e) (hi : i < t.size) (hW : t.size < E.W) (hw1 : w = E.acls al) (hw2 : w = E.acls nal)
    (H : Holds g (lay E w 0 0 t + (Ob o (objOf t al nal) + F)) m) :
    (Cost.erase_single_segment E o e m).ge h := by
  obtain ⟨c, s, j, rfl, rfl, rfl, hj⟩ := he
  have hj : j < s.xs.length := by
    rcases hj with hj | ⟨hj, hp⟩
    · exact hj
    · rw [fill_size, hp] at hi
      have : s.size = s.xs.length := rfl
      simp at hi; omega
  obtain ⟨hc, hs⟩ := (Ctx.fill_root c s).1 hr
  have hsr : s.Root E := Ctx.holeOk_root hs
  rw [Tree.root_zero] at hsr
  have hsm := E.segMax_pos
  have hmn := E.segMin_pos
  have hmm : 2 * E.segMin - 1 ≤ E.segMax := by unfold Env.segMin; omega
  have hbase := hE.base
  have hcost : eraCost E h = h * eraStep E + 14 * E.segMax + 30 := rfl
  have h5 : 5 * h ≤ h * eraStep E := by
    rw [Nat.mul_comm]; exact Nat.mul_le_mul_left _ (by unfold eraStep; omega)
  obtain ⟨p, A, d, B, rfl, rfl⟩ : ∃ p A d B, s = .mkSeg p (A ++ d :: B) ∧ A.length = j := by
    refine ⟨s.addr, s.xs.take j, s.xs[j], s.xs.drop (j + 1), ?_, ?_⟩
    · rw [List.getElem_cons_drop, List.take_append_drop]; rfl
    · rw [List.length_take]; omega
  simp only [Tree.xs_mkSeg, List.length_append, List.length_cons] at hsr hj
  have hsize : (Tree.mkSeg p (A ++ d :: B)).size = A.length + B.length + 1 := by simp [Tree.size]; omega
  have H0 := H
  rw [Ctx.fill_lay, aassoc] at H
  have htop : c.hdr.1 = 0 ↔ c.isTop = true :=
    Ctx.isTop_hdr (H.eqv (by frame : _ = c.lay E w (Tree.mkSeg p (A ++ d :: B)).addr (Tree.mkSeg p (A ++ d :: B)).size + _))
  rw [lay_mkSeg] at H
  obtain ⟨q, hq⟩ : ∃ q, c.hdr.1 = q := ⟨_, rfl⟩
  obtain ⟨j, hj2⟩ : ∃ j, c.hdr.2 = j := ⟨_, rfl⟩
  have hentry : entryOf c (.mkSeg p (A ++ d :: B)) A.length = ⟨⟨p, A.length, A.length + B.length + 1⟩, ⟨q, j⟩⟩ := by
    simp only [entryOf, hq, hj2, Tree.addr_mkSeg, Tree.xs_mkSeg, List.length_append, List.length_cons]; rfl
  rw [hentry, Cost.erase_single_segment_eq]
  simp only []
  by_cases hroot : A.length + B.length + 1 = 1 ∧ (E.segMin ≠ 1 ∨ q = 0)
  · rw [if_pos hroot]
    have hn0 : h = 0 := by
      cases c with
      | top => rfl
      | step _ _ _ _ =>
        rcases hroot.2 with h2 | h2
        · rw [Ctx.HoleOk, if_neg (by simp), Tree.wf_zero] at hs
          simp at hs
          omega
        · exact absurd (htop.1 (hq.trans h2)) (by simp)
    subst hn0
    exact CRes.ge_zero
  rw [if_neg hroot]
  refine CRes.ge_usub fun _ => ?_
  rw [Nat.add_sub_cancel]
  by_cases hsh : A.length + B.length + 1 ≠ E.segMin ∨ q = 0
  · rw [if_pos hsh]
    obtain ⟨m1, e1, H1⟩ := segDrop_ok (n := A.length + B.length)
      (f := (pure () : M α Unit)) hE rfl (by omega) H
    have e1 : segDropP E p (A.length + B.length) A.length m = .ok () m1 := by
      apply M.run_unit
      unfold segDropP
      simp only [bind_assoc]
      exact e1
    refine CRes.ge_step e1 ?_
    obtain ⟨d', hd, hu⟩ := c.up (H1.eqv (by frame : _ = c.lay E w _ _ + _))
    rw [hq] at hu
    obtain rfl : d' = h := by omega
    exact CRes.ge_bind (Up.decrement_sizes_ge hu)
  rw [if_neg hsh]
  have hbm : A.length + B.length + 1 = E.segMin := by omega
  have hne0 : q ≠ 0 := by omega
  clear hroot hsh htop
  cases c with
  | top => exact absurd hq.symm (by simpa [Ctx.hdr_top] using hne0)
  | step gp l r c =>
  simp only [Ctx.hdr_step] at hq hj2
  subst hq hj2
  have hc0 := hc
  obtain ⟨c1, c2, c3, c4, c5⟩ := hc
  rcases List.eq_nil_or_concat l with rfl | ⟨lt, pv, rfl⟩
  · -- no previous sibling: use the next one
    rw [if_neg (by simp)]
    obtain ⟨nx, rt, rfl⟩ : ∃ nx rt, r = nx :: rt := by
      cases r with
      | nil => have := E.baseMin_ge; simp at c3; split at c3 <;> omega
      | cons a b => exact ⟨a, b, rfl⟩
    have hnx := c2 nx (by simp)
    rw [Tree.wf_zero] at hnx
    obtain ⟨x1, x2⟩ := hnx
    obtain ⟨z, K, hzK⟩ : ∃ z K, nx.xs = z :: K := by
      cases hk : nx.xs with
      | nil => simp [hk] at x1; omega
      | cons a b => exact ⟨a, b, rfl⟩
    obtain ⟨pp, rfl⟩ : ∃ pp, nx = .mkSeg pp (z :: K) := ⟨nx.addr, by rw [← hzK]; rfl⟩
    simp only [Tree.xs_mkSeg, List.length_cons] at x1 x2
    have hk1 : key (.mkSeg pp (z :: K)) = (K.length + 1, pp) := by simp [key, Tree.size]
    have H : Holds g (pt (.heap gp) (IsNode w c.hdr.1 c.hdr.2 ((A.length + B.length + 1, p) :: (K.length + 1, pp) ::
        keys rt)) +
      (pt (.heap p) (IsSeg E w (A ++ d :: B)) + (pt (.heap pp) (IsSeg E w (z :: K)) + (lays E w gp 2 rt +
      (c.lay E w gp (elemsL (.mkSeg p (A ++ d :: B) :: .mkSeg pp (z :: K) :: rt)).length +
      (Ob o (objOf (c.fill (.mkNode gp (.mkSeg p (A ++ d :: B) :: .mkSeg pp (z :: K) :: rt))) al nal) + F)))))) m := by
      refine H.eqv ?_
      simp only [Ctx.lay, Ctx.fill, lays_cons, lays_nil, lay_mkSeg, keys_cons, keys_nil, List.nil_append, List.length_nil,
        Nat.zero_add, zero_add, aassoc, Tree.addr_mkSeg, hsize, hk1]
      rw [show A.length + B.length + 1 + (elemsL ([] : List (Tree α 0))).length + (elemsL (.mkSeg pp (z :: K) :: rt)).length =
        (elemsL (.mkSeg p (A ++ d :: B) :: .mkSeg pp (z :: K) :: rt)).length by simp; omega]
      ac_rfl
    simp only [List.length_nil, List.length_cons, Nat.zero_add] at c3 c4 ⊢
    refine CRes.ge_step (nptr (E := E) (a := [(A.length + B.length + 1, p)]) (k := (K.length + 1, pp)) (b := keys rt) (j := 1)
      rfl rfl (by simp; omega) H) ?_
    refine CRes.ge_step (nsize (E := E) (a := [(A.length + B.length + 1, p)]) (k := (K.length + 1, pp)) (b := keys rt) (j := 1)
      rfl rfl (by simp; omega) H) ?_
    simp only
    generalize hx : objOf (c.fill (.mkNode gp (.mkSeg p (A ++ d :: B) :: .mkSeg pp (z :: K) :: rt))) al nal = x at H
    generalize hn : (elemsL (Tree.mkSeg p (A ++ d :: B) :: .mkSeg pp (z :: K) :: rt)).length = n at H
    by_cases hmin : K.length + 1 ≠ E.segMin
    · rw [if_pos hmin]
      refine CRes.ge_usub fun _ => ?_
      rw [Nat.add_sub_cancel]
      obtain ⟨m1, e1, H1⟩ := segRotNext_ok (n := A.length + B.length) (K := K) (z := z) (q := pp)
        (f := (pure () : M α Unit)) hE (by omega) rfl (by omega)
        (H.eqv (by frame : _ = pt (.heap p) (IsSeg E w (A ++ d :: B)) + (pt (.heap pp) (IsSeg E w (z :: K)) + _)))
      have H1 := H1.eqv (by frame : _ = pt (.heap gp) (IsNode w c.hdr.1 c.hdr.2
        ((A.length + B.length + 1, p) :: (K.length + 1, pp) :: keys rt)) + (c.lay E w gp n + _))
      have e1 : segRotNextP E p (A.length + B.length) A.length pp K.length m = .ok () m1 := by
        apply M.run_unit
        unfold segRotNextP
        simp only [bind_assoc]
        exact e1
      refine CRes.ge_step e1 ?_
      exact CRes.ge_bind (segTail_ge (by simp) (by simp; omega) H1)
    · rw [if_neg hmin]
      have hsz : x.sz = n + c.out := by
        rw [← hx, ← hn]; simp only [objOf, fill_size]; simp [Tree.size, Ctx.out]; omega
      obtain ⟨m1, e1, H1⟩ := segMergeNext_ok (l := A.length + B.length) (K := K) (z := z) (q := pp) (o := o) (x := x)
        (f := (pure () : M α Unit)) hE rfl (by omega) (by rw [← hx]; exact hw1)
        (H.eqv (by frame : _ = pt (.heap p) (IsSeg E w (A ++ d :: B)) + (pt (.heap pp) (IsSeg E w (z :: K)) +
          (Ob o x + _))))
      have e1 : segMergeNextP E o p (A.length + B.length) A.length pp (K.length + 1) m = .ok () m1 := by
        apply M.run_unit
        unfold segMergeNextP
        simp only [bind_assoc]
        exact e1
      refine CRes.ge_step e1 ?_
      have H1 := H1.eqv (by frame : _ = pt (.heap gp) (IsNode w c.hdr.1 c.hdr.2
        ((A.length + B.length + 1, p) :: (K.length + 1, pp) :: keys rt)) + _)
      obtain ⟨m2, e2, H2⟩ := nsetSize (E := E) (a := []) (k := (A.length + B.length + 1, p))
        (b := (K.length + 1, pp) :: keys rt)
        (v := E.segMin * 2 - 1) (j := 0) rfl (by simp; omega) H1
      simp only [List.nil_append] at H2
      refine CRes.ge_step e2 ?_
      have hy : EraHyp E w x c gp [.mkSeg p (A ++ B ++ z :: K)] rt n := by
        refine ⟨c5, ?_, by simp; omega, by simp; omega, ?_, hsz, by rw [← hx]; exact hW, by rw [← hx]; rfl, ?_,
          by rw [← hx]; exact hw2⟩
        · rintro t' ht'
          rcases List.mem_cons.1 ht' with rfl | ht'
          · exact Tree.wf_zero.2 ⟨by simp; omega, by simp; omega⟩
          · exact c2 t' (by simp_all)
        · rw [← hn]; simp; omega
        · rw [← hx]; simp [objOf, Ctx.fill_addr]
      have := erase_single_leaf_ge (E := E) (o := o) (F := F) (w := w) (g := g) (j := 1) (entry := ⟨gp, 0⟩)
        (dk := (K.length + 1, pp)) hE.base c (m := m2) hy rfl (H2.eqv (by
          unfold EraMem
          simp only [lays_cons, lays_nil, lay_mkSeg, keys_cons, keys_nil, List.length_cons, List.length_nil,
            show key (.mkSeg p (A ++ B ++ z :: K)) = (E.segMin * 2 - 1, p) by simp [key, Tree.size]; omega,
            List.cons_append, List.nil_append, add_zero]
          ac_rfl))
      exact CRes.ge_bind this
  · rw [if_pos (show _ ≠ _ by simp)]
    rw [List.concat_eq_append] at *
    have hpv := c1 pv (by simp)
    rw [Tree.wf_zero] at hpv
    obtain ⟨x1, x2⟩ := hpv
    obtain ⟨pp, Q, rfl⟩ : ∃ pp Q, pv = .mkSeg pp Q := ⟨pv.addr, pv.xs, rfl⟩
    simp only [Tree.xs_mkSeg] at x1 x2
    have hk1 : key (.mkSeg pp Q) = (Q.length, pp) := by simp [key, Tree.size]
    have H : Holds g (pt (.heap gp) (IsNode w c.hdr.1 c.hdr.2 (keys lt ++ (Q.length, pp) :: (A.length + B.length + 1, p) ::
        keys r)) +
      (pt (.heap p) (IsSeg E w (A ++ d :: B)) + (pt (.heap pp) (IsSeg E w Q) + (lays E w gp 0 lt +
      (lays E w gp (lt.length + 2) r +
      (c.lay E w gp (elemsL (lt ++ .mkSeg pp Q :: .mkSeg p (A ++ d :: B) :: r)).length +
      (Ob o (objOf (c.fill (.mkNode gp (lt ++ .mkSeg pp Q :: .mkSeg p (A ++ d :: B) :: r))) al nal) + F))))))) m := by
      refine H.eqv ?_
      simp only [Ctx.lay, Ctx.fill, lays_append, lays_cons, lays_nil, lay_mkSeg, keys_append, keys_cons, keys_nil,
        List.append_assoc, List.cons_append, List.nil_append, List.length_append, List.length_cons, List.length_nil,
        Nat.zero_add, zero_add, add_zero, aassoc, Tree.addr_mkSeg, hsize, hk1]
      rw [show A.length + B.length + 1 + (elemsL (lt ++ [.mkSeg pp Q])).length + (elemsL r).length =
        (elemsL (lt ++ .mkSeg pp Q :: .mkSeg p (A ++ d :: B) :: r)).length by simp; omega]
      ac_rfl
    simp only [List.length_append, List.length_nil, List.length_cons, Nat.zero_add] at c3 c4 ⊢
    have hW : (c.fill (.mkNode gp (lt ++ .mkSeg pp Q :: .mkSeg p (A ++ d :: B) :: r))).size < E.W := by
      simpa only [Ctx.fill, List.append_assoc, List.cons_append, List.nil_append] using hW
    rw [Nat.add_sub_cancel]
    refine CRes.ge_step (nptr (E := E) (a := keys lt) (k := (Q.length, pp)) (b := (A.length + B.length + 1, p) :: keys r) (j := lt.length)
      rfl (by simp) (by simp; omega) H) ?_
    refine CRes.ge_step (nsize (E := E) (a := keys lt) (k := (Q.length, pp)) (b := (A.length + B.length + 1, p) :: keys r) (j := lt.length)
      rfl (by simp) (by simp; omega) H) ?_
    simp only
    generalize hx : objOf (c.fill (.mkNode gp (lt ++ .mkSeg pp Q :: .mkSeg p (A ++ d :: B) :: r))) al nal = x at H
    generalize hn : (elemsL (lt ++ Tree.mkSeg pp Q :: .mkSeg p (A ++ d :: B) :: r)).length = n at H
    by_cases hmin : Q.length ≠ E.segMin
    · rw [if_pos hmin]
      refine CRes.ge_usub fun _ => ?_
      obtain ⟨K, z, rfl⟩ : ∃ K z, Q = K ++ [z] := snoc_of_ne (by intro e; simp [e] at x1; omega)
      simp only [List.length_append, List.length_cons, List.length_nil, Nat.zero_add, Nat.add_sub_cancel] at x1 x2 hmin H ⊢
      obtain ⟨m1, e1, H1⟩ := segRotPrev_ok (n := K.length) (K := K) (z := z) (q := pp)
        (f := (pure () : M α Unit)) hE (by omega) (by omega) rfl
        (H.eqv (by frame : _ = pt (.heap p) (IsSeg E w (A ++ d :: B)) + (pt (.heap pp) (IsSeg E w (K ++ [z])) + _)))
      have H1 := H1.eqv (by frame : _ = pt (.heap gp) (IsNode w c.hdr.1 c.hdr.2
        (keys lt ++ (K.length + 1, pp) :: (A.length + B.length + 1, p) :: keys r)) + (c.lay E w gp n + _))
      have e1 : segRotPrevP E p A.length pp K.length m = .ok () m1 := by
        apply M.run_unit
        unfold segRotPrevP
        simp only [bind_assoc]
        exact e1
      refine CRes.ge_step e1 ?_
      exact CRes.ge_bind (segTail_ge (by simp) (by simp; omega) H1)
    · rw [if_neg hmin]
      have hsz : x.sz = n + c.out := by
        rw [← hx, ← hn]; simp only [objOf, fill_size]; simp [Tree.size, Ctx.out]; omega
      obtain ⟨m1, e1, H1⟩ := segMergePrev_ok (n := Q.length) (l := A.length + B.length) (K := Q) (q := pp) (o := o) (x := x)
        (f := (pure () : M α Unit)) hE rfl (by omega) (by omega) rfl
        (by rw [← hx]; exact hw1)
        (H.eqv (by frame : _ = pt (.heap p) (IsSeg E w (A ++ d :: B)) + (pt (.heap pp) (IsSeg E w Q) +
          (Ob o x + _))))
      have e1 : segMergePrevP E o p A.length pp Q.length (A.length + B.length) m = .ok () m1 := by
        apply M.run_unit
        unfold segMergePrevP
        simp only [bind_assoc]
        exact e1
      refine CRes.ge_step e1 ?_
      have H1 := H1.eqv (by frame : _ = pt (.heap gp) (IsNode w c.hdr.1 c.hdr.2
        (keys lt ++ (Q.length, pp) :: (A.length + B.length + 1, p) :: keys r)) + _)
      obtain ⟨m2, e2, H2⟩ := nsetSize (E := E)
        (v := E.segMin * 2 - 1) (j := lt.length) (by simp) (by simp; omega) H1
      refine CRes.ge_step e2 ?_
      have hy : EraHyp E w x c gp (lt ++ [.mkSeg pp (Q ++ (A ++ B))]) r n := by
        refine ⟨c5, ?_, by simp; omega, by simp; omega, ?_, hsz, by rw [← hx]; exact hW, by rw [← hx]; rfl, ?_,
          by rw [← hx]; exact hw2⟩
        · rintro t' ht'
          simp only [List.mem_append, List.mem_cons, List.not_mem_nil, or_false] at ht'
          rcases ht' with (ht' | rfl) | ht'
          · exact c1 t' (by simp [ht'])
          · exact Tree.wf_zero.2 ⟨by simp; omega, by simp; omega⟩
          · exact c2 t' ht'
        · rw [← hn]; simp; omega
        · rw [← hx]; simp [objOf, Ctx.fill_addr]
      have := erase_single_leaf_ge (E := E) (o := o) (F := F) (w := w) (g := g) (j := lt.length + 1) (entry := ⟨gp, lt.length⟩)
        (dk := (A.length + B.length + 1, p)) hE.base c (m := m2) hy (by simp) (H2.eqv (by
          unfold EraMem
          simp only [lays_append, lays_cons, lays_nil, lay_mkSeg, keys_append, keys_cons, keys_nil, List.length_append,
            List.length_cons, List.length_nil,
            show key (.mkSeg pp (Q ++ (A ++ B))) = (E.segMin * 2 - 1, pp) by simp [key, Tree.size]; omega,
            List.append_assoc, List.cons_append, List.nil_append, add_zero, Nat.zero_add]
          ac_rfl))
      exact CRes.ge_bind this


end SegTree
