/-
  Bounds for the removal of one element, at segment level.
-/
import Verif.Cost.Era
set_option autoImplicit false
set_option synthInstance.maxSize 2000
set_option synthInstance.maxHeartbeats 400000

attribute [local instance] SegTree.Weights.accesses

namespace SegTree

variable {α β γ δ : Type} {E : Env α} {g : Log} {F : Asrt α} {m : Mem α}

/-! ### the blocks of `erase_single_segment` -/

def segDropP (E : Env α) (p l i : Nat) : M α Unit := do
  assign_backward_segment E p l i 1
  destroy_segment E p l

def segRotPrevP (E : Env α) (p i pp n : Nat) : M α Unit := do
  assign_forward_segment E p i 0 1
  move_assign_segment E pp n p 0
  destroy_segment E pp n

def segMergePrevP (E : Env α) (o p i pp n l : Nat) : M α Unit := do
  construct_range_segment E p 0 pp n i
  let ml ← usub l i
  construct_range_segment E p (i + 1) pp (n + i) ml
  destroy_segment E p i
  deallocate_segment E o p

def segRotNextP (E : Env α) (p l i np n : Nat) : M α Unit := do
  assign_backward_segment E p l i 1
  move_assign_segment E np 0 p l
  assign_backward_segment E np n 0 1
  destroy_segment E np n

def segMergeNextP (E : Env α) (o p l i np n : Nat) : M α Unit := do
  assign_backward_segment E p l i 1
  move_assign_segment E np 0 p l
  destroy_segment E np 0
  let nl ← usub n 1
  construct_range_segment E np 1 p (l + 1) nl
  deallocate_segment E o np

namespace Cost

def segDropP (E : Env α) (p l i : Nat) : C α Unit := do
  assign_backward_segment E p l i 1
  destroy_segment E p l

def segRotPrevP (E : Env α) (p i pp n : Nat) : C α Unit := do
  assign_forward_segment E p i 0 1
  move_assign_segment E pp n p 0
  destroy_segment E pp n

def segMergePrevP (E : Env α) (o p i pp n l : Nat) : C α Unit := do
  construct_range_segment E p 0 pp n i
  let ml ← usub l i
  construct_range_segment E p (i + 1) pp (n + i) ml
  destroy_segment E p i
  deallocate_segment E o p

def segRotNextP (E : Env α) (p l i np n : Nat) : C α Unit := do
  assign_backward_segment E p l i 1
  move_assign_segment E np 0 p l
  assign_backward_segment E np n 0 1
  destroy_segment E np n

def segMergeNextP (E : Env α) (o p l i np n : Nat) : C α Unit := do
  assign_backward_segment E p l i 1
  move_assign_segment E np 0 p l
  destroy_segment E np 0
  let nl ← usub n 1
  construct_range_segment E np 1 p (l + 1) nl
  deallocate_segment E o np

def segEmpty (E : Env α) (o p : Nat) : C α Unit := do
  destroy_segment E p 0
  deallocate_segment E o p
  setRoot o 0
  setSize o 0
  setHeight o 0

/-- the end of the two rotations -/
def segTail (E : Env α) (o gp j n : Nat) : C α Unit := do
  setSizes E gp j n
  let q ← parent gp
  let i ← pidx gp
  decrement_sizes E o q i

/-- `erase_single_segment` by blocks -/
theorem erase_single_segment_eq {o : Nat} {e : Entry} : Cost.erase_single_segment E o e =
    if e.seg.len = 1 ∧ (E.segMin ≠ 1 ∨ e.leaf.ptr = 0) then
      segEmpty E o e.seg.ptr >>= fun _ => pure { e with seg := { ptr := 0, idx := 0, len := 0 } }
    else usub e.seg.len 1 >>= fun l =>
      if e.seg.len ≠ E.segMin ∨ e.leaf.ptr = 0 then
        segDropP E e.seg.ptr l e.seg.idx >>= fun _ => decrement_sizes E o e.leaf.ptr e.leaf.idx >>= fun _ =>
        pure { e with seg := { e.seg with len := l } }
      else if e.leaf.idx ≠ 0 then
        ptrsAt E e.leaf.ptr (e.leaf.idx - 1) >>= fun pp => sizesAt E e.leaf.ptr (e.leaf.idx - 1) >>= fun n =>
        if n ≠ E.segMin then usub n 1 >>= fun n =>
          segRotPrevP E e.seg.ptr e.seg.idx pp n >>= fun _ => segTail E o e.leaf.ptr (e.leaf.idx - 1) n >>= fun _ =>
          pure { e with seg := { e.seg with idx := e.seg.idx + 1 } }
        else
          segMergePrevP E o e.seg.ptr e.seg.idx pp n l >>= fun _ =>
          setSizes E e.leaf.ptr (e.leaf.idx - 1) (E.segMin * 2 - 1) >>= fun _ =>
          erase_single_leaf E o { e.leaf with idx := e.leaf.idx - 1 } e.leaf.ptr e.leaf.idx >>= fun lf =>
          pure { seg := { ptr := pp, len := E.segMin * 2 - 1, idx := e.seg.idx + E.segMin }, leaf := lf }
      else
        ptrsAt E e.leaf.ptr (e.leaf.idx + 1) >>= fun np => sizesAt E e.leaf.ptr (e.leaf.idx + 1) >>= fun n =>
        if n ≠ E.segMin then usub n 1 >>= fun n =>
          segRotNextP E e.seg.ptr l e.seg.idx np n >>= fun _ => segTail E o e.leaf.ptr (e.leaf.idx + 1) n >>= fun _ =>
          pure e
        else
          segMergeNextP E o e.seg.ptr l e.seg.idx np n >>= fun _ =>
          setSizes E e.leaf.ptr e.leaf.idx (E.segMin * 2 - 1) >>= fun _ =>
          erase_single_leaf E o e.leaf e.leaf.ptr (e.leaf.idx + 1) >>= fun lf =>
          pure { seg := { e.seg with len := E.segMin * 2 - 1 }, leaf := lf } := by
  unfold erase_single_segment segEmpty segDropP segRotPrevP segMergePrevP segRotNextP segMergeNextP segTail
  simp only [C.ite_bind, C.bind_assoc, C.pure_bind]

end Cost

namespace Sim
instance segDropP (p l i : Nat) : Sim (SegTree.segDropP E p l i) (Cost.segDropP E p l i) := by
  unfold SegTree.segDropP Cost.segDropP; infer_instance
instance segRotPrevP (p i pp n : Nat) : Sim (SegTree.segRotPrevP E p i pp n) (Cost.segRotPrevP E p i pp n) := by
  unfold SegTree.segRotPrevP Cost.segRotPrevP; infer_instance
instance segMergePrevP (o p i pp n l : Nat) : Sim (SegTree.segMergePrevP E o p i pp n l) (Cost.segMergePrevP E o p i pp n l) := by
  unfold SegTree.segMergePrevP Cost.segMergePrevP; infer_instance
instance segRotNextP (p l i np n : Nat) : Sim (SegTree.segRotNextP E p l i np n) (Cost.segRotNextP E p l i np n) := by
  unfold SegTree.segRotNextP Cost.segRotNextP; infer_instance
instance segMergeNextP (o p l i np n : Nat) : Sim (SegTree.segMergeNextP E o p l i np n) (Cost.segMergeNextP E o p l i np n) := by
  unfold SegTree.segMergeNextP Cost.segMergeNextP; infer_instance
end Sim

namespace CB
instance segEmpty (o p : Nat) : CB (Cost.segEmpty E o p) 10 := by unfold Cost.segEmpty; cb
instance segDropP (p l i : Nat) : CB (Cost.segDropP E p l i) (5 * E.segMax + 5) := by unfold Cost.segDropP; cb
instance segRotPrevP (p i pp n : Nat) : CB (Cost.segRotPrevP E p i pp n) (5 * E.segMax + 10) := by unfold Cost.segRotPrevP; cb
instance segMergePrevP (o p i pp n l : Nat) : CB (Cost.segMergePrevP E o p i pp n l) (14 * E.segMax + 10) := by
  unfold Cost.segMergePrevP; cb
instance segRotNextP (p l i np n : Nat) : CB (Cost.segRotNextP E p l i np n) (10 * E.segMax + 13) := by
  unfold Cost.segRotNextP; cb
instance segMergeNextP (o p l i np n : Nat) : CB (Cost.segMergeNextP E o p l i np n) (12 * E.segMax + 15) := by
  unfold Cost.segMergeNextP; cb
end CB

/-- what one removal from a tree of `h + 1` levels may cost -/
def eraCost (E : Env α) (h : Nat) : Nat := h * eraStep E + 14 * E.segMax + 30

theorem segTail_le {o w gp j n h K : Nat} {c : Ctx α h 1} {ks : List (Nat × Nat)} {S : Nat}
    (hj : j < ks.length) (hks : ks.length ≤ E.baseMax) (hK : 5 * h + 7 ≤ K)
    (H : Holds g (pt (.heap gp) (IsNode w c.hdr.1 c.hdr.2 ks) + (c.lay E w gp S + F)) m) :
    (Cost.segTail E o gp j n m).le K := by
  obtain ⟨a, k, b, rfl, rfl⟩ : ∃ a k b, ks = a ++ k :: b ∧ a.length = j := by
    refine ⟨ks.take j, ks[j], ks.drop (j + 1), ?_, ?_⟩
    · rw [List.getElem_cons_drop, List.take_append_drop]
    · rw [List.length_take]; omega
  unfold Cost.segTail
  obtain ⟨m2, e2, H2⟩ := nsetSize (E := E) (v := n) (j := a.length) rfl hks H
  refine CRes.le_step e2 ((CB.setSizes _ _ _).run m) (by omega) ?_
  refine CRes.le_step (nparent H2) ((CB.parent _).run m2) (by omega) ?_
  refine CRes.le_step (npidx H2) ((CB.pidx _).run m2) (by omega) ?_
  obtain ⟨d, hd, hu⟩ := c.up (H2.eqv (by frame : _ = c.lay E w gp S + _))
  exact (Up.decrement_sizes hu).mono (by omega)

theorem M.run_unit {x : M α Unit} {m1 : Mem α} (h : (x >>= fun _ => (pure () : M α Unit)) m = .ok () m1) :
    x m = .ok () m1 := by
  rw [← h, bind_pure_unit]

theorem erase_single_segment_le {h o w al nal i : Nat} {t : Tree α h} {e : Entry} (hE : E.Good)
    (hr : t.Root E) (he : At t i e) (hi : i < t.size) (hW : t.size < E.W) (hw1 : w = E.acls al) (hw2 : w = E.acls nal)
    (H : Holds g (lay E w 0 0 t + (Ob o (objOf t al nal) + F)) m) :
    (Cost.erase_single_segment E o e m).le (eraCost E h) := by
  obtain ⟨c, s, j, rfl, rfl, rfl, hj⟩ := he
  have hj : j < s.xs.length := by
    rcases hj with hj | ⟨hj, hp⟩
    · exact hj
    · rw [fill_size, hp] at hi
      have : s.size = s.xs.length := rfl
      simp at hi; omega
  obtain ⟨hc, hs⟩ := (Ctx.fill_root c s).1 hr
  have hsr : s.Root E := Ctx.holeOk_root hs
  rw [Tree.root_zero] at hsr
  have hsm := E.segMax_pos
  have hmn := E.segMin_pos
  have hmm : 2 * E.segMin - 1 ≤ E.segMax := by unfold Env.segMin; omega
  have hbase := hE.base
  have hcost : eraCost E h = h * eraStep E + 14 * E.segMax + 30 := rfl
  have h5 : 5 * h ≤ h * eraStep E := by
    rw [Nat.mul_comm]; exact Nat.mul_le_mul_left _ (by unfold eraStep; omega)
  obtain ⟨p, A, d, B, rfl, rfl⟩ : ∃ p A d B, s = .mkSeg p (A ++ d :: B) ∧ A.length = j := by
    refine ⟨s.addr, s.xs.take j, s.xs[j], s.xs.drop (j + 1), ?_, ?_⟩
    · rw [List.getElem_cons_drop, List.take_append_drop]; rfl
    · rw [List.length_take]; omega
  simp only [Tree.xs_mkSeg, List.length_append, List.length_cons] at hsr hj
  have hsize : (Tree.mkSeg p (A ++ d :: B)).size = A.length + B.length + 1 := by simp [Tree.size]; omega
  have H0 := H
  rw [Ctx.fill_lay, aassoc] at H
  have htop : c.hdr.1 = 0 ↔ c.isTop = true :=
    Ctx.isTop_hdr (H.eqv (by frame : _ = c.lay E w (Tree.mkSeg p (A ++ d :: B)).addr (Tree.mkSeg p (A ++ d :: B)).size + _))
  rw [lay_mkSeg] at H
  obtain ⟨q, hq⟩ : ∃ q, c.hdr.1 = q := ⟨_, rfl⟩
  obtain ⟨j, hj2⟩ : ∃ j, c.hdr.2 = j := ⟨_, rfl⟩
  have hentry : entryOf c (.mkSeg p (A ++ d :: B)) A.length = ⟨⟨p, A.length, A.length + B.length + 1⟩, ⟨q, j⟩⟩ := by
    simp only [entryOf, hq, hj2, Tree.addr_mkSeg, Tree.xs_mkSeg, List.length_append, List.length_cons]; rfl
  rw [hentry, Cost.erase_single_segment_eq]
  simp only []
  by_cases hroot : A.length + B.length + 1 = 1 ∧ (E.segMin ≠ 1 ∨ q = 0)
  · rw [if_pos hroot]
    exact CRes.le_bind ((CB.segEmpty o p).run m) (by omega) fun _ _ _ _ => Nat.zero_le _
  rw [if_neg hroot]
  refine CRes.le_usub fun _ => ?_
  rw [Nat.add_sub_cancel]
  by_cases hsh : A.length + B.length + 1 ≠ E.segMin ∨ q = 0
  · rw [if_pos hsh]
    obtain ⟨m1, e1, H1⟩ := segDrop_ok (n := A.length + B.length)
      (f := (pure () : M α Unit)) hE rfl (by omega) H
    have e1 : segDropP E p (A.length + B.length) A.length m = .ok () m1 := by
      apply M.run_unit
      unfold segDropP
      simp only [bind_assoc]
      exact e1
    refine CRes.le_step e1 ((CB.segDropP _ _ _).run m) (by omega) ?_
    obtain ⟨d', hd, hu⟩ := c.up (H1.eqv (by frame : _ = c.lay E w _ _ + _))
    rw [hq] at hu
    exact CRes.le_bind (Up.decrement_sizes hu) (by omega) fun _ _ _ _ => Nat.zero_le _
  rw [if_neg hsh]
  have hbm : A.length + B.length + 1 = E.segMin := by omega
  have hne0 : q ≠ 0 := by omega
  clear hroot hsh htop
  cases c with
  | top => exact absurd hq.symm (by simpa [Ctx.hdr_top] using hne0)
  | step gp l r c =>
  simp only [Ctx.hdr_step] at hq hj2
  subst hq hj2
  have hc0 := hc
  obtain ⟨c1, c2, c3, c4, c5⟩ := hc
  rcases List.eq_nil_or_concat l with rfl | ⟨lt, pv, rfl⟩
  · -- no previous sibling: use the next one
    rw [if_neg (by simp)]
    obtain ⟨nx, rt, rfl⟩ : ∃ nx rt, r = nx :: rt := by
      cases r with
      | nil => have := E.baseMin_ge; simp at c3; split at c3 <;> omega
      | cons a b => exact ⟨a, b, rfl⟩
    have hnx := c2 nx (by simp)
    rw [Tree.wf_zero] at hnx
    obtain ⟨x1, x2⟩ := hnx
    obtain ⟨z, K, hzK⟩ : ∃ z K, nx.xs = z :: K := by
      cases hk : nx.xs with
      | nil => simp [hk] at x1; omega
      | cons a b => exact ⟨a, b, rfl⟩
    obtain ⟨pp, rfl⟩ : ∃ pp, nx = .mkSeg pp (z :: K) := ⟨nx.addr, by rw [← hzK]; rfl⟩
    simp only [Tree.xs_mkSeg, List.length_cons] at x1 x2
    have hk1 : key (.mkSeg pp (z :: K)) = (K.length + 1, pp) := by simp [key, Tree.size]
    have H : Holds g (pt (.heap gp) (IsNode w c.hdr.1 c.hdr.2 ((A.length + B.length + 1, p) :: (K.length + 1, pp) ::
        keys rt)) +
      (pt (.heap p) (IsSeg E w (A ++ d :: B)) + (pt (.heap pp) (IsSeg E w (z :: K)) + (lays E w gp 2 rt +
      (c.lay E w gp (elemsL (.mkSeg p (A ++ d :: B) :: .mkSeg pp (z :: K) :: rt)).length +
      (Ob o (objOf (c.fill (.mkNode gp (.mkSeg p (A ++ d :: B) :: .mkSeg pp (z :: K) :: rt))) al nal) + F)))))) m := by
      refine H.eqv ?_
      simp only [Ctx.lay, Ctx.fill, lays_cons, lays_nil, lay_mkSeg, keys_cons, keys_nil, List.nil_append, List.length_nil,
        Nat.zero_add, zero_add, aassoc, Tree.addr_mkSeg, hsize, hk1]
      rw [show A.length + B.length + 1 + (elemsL ([] : List (Tree α 0))).length + (elemsL (.mkSeg pp (z :: K) :: rt)).length =
        (elemsL (.mkSeg p (A ++ d :: B) :: .mkSeg pp (z :: K) :: rt)).length by simp; omega]
      ac_rfl
    simp only [List.length_nil, List.length_cons, Nat.zero_add] at c3 c4 ⊢
    refine CRes.le_step (nptr (E := E) (a := [(A.length + B.length + 1, p)]) (k := (K.length + 1, pp)) (b := keys rt) (j := 1)
      rfl rfl (by simp; omega) H) ((CB.ptrsAt _ _).run m) (by omega) ?_
    refine CRes.le_step (nsize (E := E) (a := [(A.length + B.length + 1, p)]) (k := (K.length + 1, pp)) (b := keys rt) (j := 1)
      rfl rfl (by simp; omega) H) ((CB.sizesAt _ _).run m) (by omega) ?_
    simp only
    generalize hx : objOf (c.fill (.mkNode gp (.mkSeg p (A ++ d :: B) :: .mkSeg pp (z :: K) :: rt))) al nal = x at H
    generalize hn : (elemsL (Tree.mkSeg p (A ++ d :: B) :: .mkSeg pp (z :: K) :: rt)).length = n at H
    by_cases hmin : K.length + 1 ≠ E.segMin
    · rw [if_pos hmin]
      refine CRes.le_usub fun _ => ?_
      rw [Nat.add_sub_cancel]
      obtain ⟨m1, e1, H1⟩ := segRotNext_ok (n := A.length + B.length) (K := K) (z := z) (q := pp)
        (f := (pure () : M α Unit)) hE (by omega) rfl (by omega)
        (H.eqv (by frame : _ = pt (.heap p) (IsSeg E w (A ++ d :: B)) + (pt (.heap pp) (IsSeg E w (z :: K)) + _)))
      have H1 := H1.eqv (by frame : _ = pt (.heap gp) (IsNode w c.hdr.1 c.hdr.2
        ((A.length + B.length + 1, p) :: (K.length + 1, pp) :: keys rt)) + (c.lay E w gp n + _))
      have e1 : segRotNextP E p (A.length + B.length) A.length pp K.length m = .ok () m1 := by
        apply M.run_unit
        unfold segRotNextP
        simp only [bind_assoc]
        exact e1
      refine CRes.le_step e1 ((CB.segRotNextP _ _ _ _ _).run m) (by omega) ?_
      exact CRes.le_bind (segTail_le (K := 5 * h + 7) (by simp) (by simp; omega) (by omega) H1) (by omega)
        fun _ _ _ _ => Nat.zero_le _
    · rw [if_neg hmin]
      have hsz : x.sz = n + c.out := by
        rw [← hx, ← hn]; simp only [objOf, fill_size]; simp [Tree.size, Ctx.out]; omega
      obtain ⟨m1, e1, H1⟩ := segMergeNext_ok (l := A.length + B.length) (K := K) (z := z) (q := pp) (o := o) (x := x)
        (f := (pure () : M α Unit)) hE rfl (by omega) (by rw [← hx]; exact hw1)
        (H.eqv (by frame : _ = pt (.heap p) (IsSeg E w (A ++ d :: B)) + (pt (.heap pp) (IsSeg E w (z :: K)) +
          (Ob o x + _))))
      have e1 : segMergeNextP E o p (A.length + B.length) A.length pp (K.length + 1) m = .ok () m1 := by
        apply M.run_unit
        unfold segMergeNextP
        simp only [bind_assoc]
        exact e1
      refine CRes.le_step e1 ((CB.segMergeNextP _ _ _ _ _ _).run m) (by omega) ?_
      have H1 := H1.eqv (by frame : _ = pt (.heap gp) (IsNode w c.hdr.1 c.hdr.2
        ((A.length + B.length + 1, p) :: (K.length + 1, pp) :: keys rt)) + _)
      obtain ⟨m2, e2, H2⟩ := nsetSize (E := E) (a := []) (k := (A.length + B.length + 1, p))
        (b := (K.length + 1, pp) :: keys rt)
        (v := E.segMin * 2 - 1) (j := 0) rfl (by simp; omega) H1
      simp only [List.nil_append] at H2
      refine CRes.le_step e2 ((CB.setSizes _ _ _).run m1) (by omega) ?_
      have hy : EraHyp E w x c gp [.mkSeg p (A ++ B ++ z :: K)] rt n := by
        refine ⟨c5, ?_, by simp; omega, by simp; omega, ?_, hsz, by rw [← hx]; exact hW, by rw [← hx]; rfl, ?_,
          by rw [← hx]; exact hw2⟩
        · rintro t' ht'
          rcases List.mem_cons.1 ht' with rfl | ht'
          · exact Tree.wf_zero.2 ⟨by simp; omega, by simp; omega⟩
          · exact c2 t' (by simp_all)
        · rw [← hn]; simp; omega
        · rw [← hx]; simp [objOf, Ctx.fill_addr]
      have := erase_single_leaf_le (E := E) (o := o) (F := F) (w := w) (g := g) (j := 1) (entry := ⟨gp, 0⟩)
        (dk := (K.length + 1, pp)) hE.base c (m := m2) hy rfl (H2.eqv (by
          unfold EraMem
          simp only [lays_cons, lays_nil, lay_mkSeg, keys_cons, keys_nil, List.length_cons, List.length_nil,
            show key (.mkSeg p (A ++ B ++ z :: K)) = (E.segMin * 2 - 1, p) by simp [key, Tree.size]; omega,
            List.cons_append, List.nil_append, add_zero]
          ac_rfl))
      exact CRes.le_bind this (by omega) fun _ _ _ _ => Nat.zero_le _
  · rw [if_pos (show _ ≠ _ by simp)]
    rw [List.concat_eq_append] at *
    have hpv := c1 pv (by simp)
    rw [Tree.wf_zero] at hpv
    obtain ⟨x1, x2⟩ := hpv
    obtain ⟨pp, Q, rfl⟩ : ∃ pp Q, pv = .mkSeg pp Q := ⟨pv.addr, pv.xs, rfl⟩
    simp only [Tree.xs_mkSeg] at x1 x2
    have hk1 : key (.mkSeg pp Q) = (Q.length, pp) := by simp [key, Tree.size]
    have H : Holds g (pt (.heap gp) (IsNode w c.hdr.1 c.hdr.2 (keys lt ++ (Q.length, pp) :: (A.length + B.length + 1, p) ::
        keys r)) +
      (pt (.heap p) (IsSeg E w (A ++ d :: B)) + (pt (.heap pp) (IsSeg E w Q) + (lays E w gp 0 lt +
      (lays E w gp (lt.length + 2) r +
      (c.lay E w gp (elemsL (lt ++ .mkSeg pp Q :: .mkSeg p (A ++ d :: B) :: r)).length +
      (Ob o (objOf (c.fill (.mkNode gp (lt ++ .mkSeg pp Q :: .mkSeg p (A ++ d :: B) :: r))) al nal) + F))))))) m := by
      refine H.eqv ?_
      simp only [Ctx.lay, Ctx.fill, lays_append, lays_cons, lays_nil, lay_mkSeg, keys_append, keys_cons, keys_nil,
        List.append_assoc, List.cons_append, List.nil_append, List.length_append, List.length_cons, List.length_nil,
        Nat.zero_add, zero_add, add_zero, aassoc, Tree.addr_mkSeg, hsize, hk1]
      rw [show A.length + B.length + 1 + (elemsL (lt ++ [.mkSeg pp Q])).length + (elemsL r).length =
        (elemsL (lt ++ .mkSeg pp Q :: .mkSeg p (A ++ d :: B) :: r)).length by simp; omega]
      ac_rfl
    simp only [List.length_append, List.length_nil, List.length_cons, Nat.zero_add] at c3 c4 ⊢
    have hW : (c.fill (.mkNode gp (lt ++ .mkSeg pp Q :: .mkSeg p (A ++ d :: B) :: r))).size < E.W := by
      simpa only [Ctx.fill, List.append_assoc, List.cons_append, List.nil_append] using hW
    rw [Nat.add_sub_cancel]
    refine CRes.le_step (nptr (E := E) (a := keys lt) (k := (Q.length, pp)) (b := (A.length + B.length + 1, p) :: keys r) (j := lt.length)
      rfl (by simp) (by simp; omega) H) ((CB.ptrsAt _ _).run m) (by omega) ?_
    refine CRes.le_step (nsize (E := E) (a := keys lt) (k := (Q.length, pp)) (b := (A.length + B.length + 1, p) :: keys r) (j := lt.length)
      rfl (by simp) (by simp; omega) H) ((CB.sizesAt _ _).run m) (by omega) ?_
    simp only
    generalize hx : objOf (c.fill (.mkNode gp (lt ++ .mkSeg pp Q :: .mkSeg p (A ++ d :: B) :: r))) al nal = x at H
    generalize hn : (elemsL (lt ++ Tree.mkSeg pp Q :: .mkSeg p (A ++ d :: B) :: r)).length = n at H
    by_cases hmin : Q.length ≠ E.segMin
    · rw [if_pos hmin]
      refine CRes.le_usub fun _ => ?_
      obtain ⟨K, z, rfl⟩ : ∃ K z, Q = K ++ [z] := snoc_of_ne (by intro e; simp [e] at x1; omega)
      simp only [List.length_append, List.length_cons, List.length_nil, Nat.zero_add, Nat.add_sub_cancel] at x1 x2 hmin H ⊢
      obtain ⟨m1, e1, H1⟩ := segRotPrev_ok (n := K.length) (K := K) (z := z) (q := pp)
        (f := (pure () : M α Unit)) hE (by omega) (by omega) rfl
        (H.eqv (by frame : _ = pt (.heap p) (IsSeg E w (A ++ d :: B)) + (pt (.heap pp) (IsSeg E w (K ++ [z])) + _)))
      have H1 := H1.eqv (by frame : _ = pt (.heap gp) (IsNode w c.hdr.1 c.hdr.2
        (keys lt ++ (K.length + 1, pp) :: (A.length + B.length + 1, p) :: keys r)) + (c.lay E w gp n + _))
      have e1 : segRotPrevP E p A.length pp K.length m = .ok () m1 := by
        apply M.run_unit
        unfold segRotPrevP
        simp only [bind_assoc]
        exact e1
      refine CRes.le_step e1 ((CB.segRotPrevP _ _ _ _).run m) (by omega) ?_
      exact CRes.le_bind (segTail_le (K := 5 * h + 7) (by simp) (by simp; omega) (by omega) H1) (by omega)
        fun _ _ _ _ => Nat.zero_le _
    · rw [if_neg hmin]
      have hsz : x.sz = n + c.out := by
        rw [← hx, ← hn]; simp only [objOf, fill_size]; simp [Tree.size, Ctx.out]; omega
      obtain ⟨m1, e1, H1⟩ := segMergePrev_ok (n := Q.length) (l := A.length + B.length) (K := Q) (q := pp) (o := o) (x := x)
        (f := (pure () : M α Unit)) hE rfl (by omega) (by omega) rfl
        (by rw [← hx]; exact hw1)
        (H.eqv (by frame : _ = pt (.heap p) (IsSeg E w (A ++ d :: B)) + (pt (.heap pp) (IsSeg E w Q) +
          (Ob o x + _))))
      have e1 : segMergePrevP E o p A.length pp Q.length (A.length + B.length) m = .ok () m1 := by
        apply M.run_unit
        unfold segMergePrevP
        simp only [bind_assoc]
        exact e1
      refine CRes.le_step e1 ((CB.segMergePrevP _ _ _ _ _ _).run m) (by omega) ?_
      have H1 := H1.eqv (by frame : _ = pt (.heap gp) (IsNode w c.hdr.1 c.hdr.2
        (keys lt ++ (Q.length, pp) :: (A.length + B.length + 1, p) :: keys r)) + _)
      obtain ⟨m2, e2, H2⟩ := nsetSize (E := E)
        (v := E.segMin * 2 - 1) (j := lt.length) (by simp) (by simp; omega) H1
      refine CRes.le_step e2 ((CB.setSizes _ _ _).run m1) (by omega) ?_
      have hy : EraHyp E w x c gp (lt ++ [.mkSeg pp (Q ++ (A ++ B))]) r n := by
        refine ⟨c5, ?_, by simp; omega, by simp; omega, ?_, hsz, by rw [← hx]; exact hW, by rw [← hx]; rfl, ?_,
          by rw [← hx]; exact hw2⟩
        · rintro t' ht'
          simp only [List.mem_append, List.mem_cons, List.not_mem_nil, or_false] at ht'
          rcases ht' with (ht' | rfl) | ht'
          · exact c1 t' (by simp [ht'])
          · exact Tree.wf_zero.2 ⟨by simp; omega, by simp; omega⟩
          · exact c2 t' ht'
        · rw [← hn]; simp; omega
        · rw [← hx]; simp [objOf, Ctx.fill_addr]
      have := erase_single_leaf_le (E := E) (o := o) (F := F) (w := w) (g := g) (j := lt.length + 1) (entry := ⟨gp, lt.length⟩)
        (dk := (A.length + B.length + 1, p)) hE.base c (m := m2) hy (by simp) (H2.eqv (by
          unfold EraMem
          simp only [lays_append, lays_cons, lays_nil, lay_mkSeg, keys_append, keys_cons, keys_nil, List.length_append,
            List.length_cons, List.length_nil,
            show key (.mkSeg pp (Q ++ (A ++ B))) = (E.segMin * 2 - 1, pp) by simp [key, Tree.size]; omega,
            List.append_assoc, List.cons_append, List.nil_append, add_zero, Nat.zero_add]
          ac_rfl))
      exact CRes.le_bind this (by omega) fun _ _ _ _ => Nat.zero_le _

end SegTree
