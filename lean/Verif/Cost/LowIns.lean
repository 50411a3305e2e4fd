/-
  Lower bounds for the insertion of one element: whatever the state of the tree,
  the counters of all the ancestors are touched.
-/
import Verif.Cost.LowEra
import Verif.Cost.Ins
set_option autoImplicit false
set_option synthInstance.maxSize 2000
set_option synthInstance.maxHeartbeats 400000

attribute [local instance] SegTree.Weights.accesses

namespace SegTree

variable {α β γ δ : Type} {E : Env α} {g : Log} {F : Asrt α} {m : Mem α}

theorem Cost.rdNode_ge (p : Nat) : (Cost.rdNode p m : CRes α Node).ge 1 := by
  unfold Cost.rdNode C.lift
  cases SegTree.rdNode p m with
  | ok v m1 => exact Nat.le_refl 1
  | _ => trivial

theorem Cost.insHead_ge {p i s : Nat} : (Cost.insHead E p i s m).ge 1 := by
  unfold Cost.insHead Cost.sizesAt
  exact CRes.ge_bind (CRes.ge_bind (Cost.rdNode_ge p))

theorem insert_single_branch_ge {h o w : Nat} (hE : E.Good) {k : Nat} (c : Ctx α h k) :
    ∀ {m : Mem α} {F : Asrt α} {x : SeqObj} {S q j d : Nat} {t1 u : Tree α k} {as : List Nat}, 1 ≤ k → d + k = h →
    c.Ok E → as.length = c.need E → S + 1 = t1.size + u.size → t1.WF E → u.WF E →
    Holds g (lay E w c.hdr.1 c.hdr.2 t1 + (lay E w q j u + (c.lay E w t1.addr S +
      (chain w as + (Ob o x + F))))) m →
    (Cost.insert_single_branch E o t1.addr c.hdr.1 (c.hdr.2 + 1) (as.headD 0) u.addr u.size m).ge d := by
  induction c with
  | top =>
    intro m F x S q j d t1 u as hk hd _ has hS h1 h2 H
    rw [Ctx.hdr_top, Cost.insert_single_branch_eq, if_pos rfl]
    obtain rfl : d = 0 := by omega
    exact CRes.ge_zero
  | @step k b l r c ih =>
    intro m F x S q j d t1 u as hk hd hc has hS h1 h2 H
    obtain ⟨k, rfl⟩ : ∃ k', k = k' + 1 := ⟨k - 1, by omega⟩
    have hp1 : 1 ≤ t1.size := h1.size_pos
    have hp2 : 1 ≤ u.size := h2.size_pos
    have hcle := c.le
    obtain ⟨d, rfl⟩ : ∃ d', d = d' + 1 := ⟨d - 1, by omega⟩
    have hb0 : b ≠ 0 := by
      simp only [Ctx.lay, aassoc] at H
      exact Holds.ne0 (H.eqv (by frame : _ = pt (.heap b) (IsNode w c.hdr.1 c.hdr.2 (keys l ++ (S, t1.addr) :: keys r)) + _))
    simp only [Ctx.hdr] at H ⊢
    rw [Cost.insert_single_branch_eq, if_neg hb0, Nat.add_comm d 1]
    obtain ⟨m1, nd, e1, n1, n2, n3, n4, H1⟩ := insHead_run (E := E) hc hS hp1 hp2 H
    refine CRes.ge_seq_step e1 Cost.insHead_ge ?_
    have hc' := hc.2.2.2.2
    have hle := hc.2.2.2.1
    simp only [Ctx.need] at has
    by_cases hfull : l.length + 1 + r.length = E.baseMax
    · rw [if_neg (by simpa using hfull)]
      rw [if_pos hfull] at has
      obtain ⟨a, as, rfl⟩ : ∃ a as', as = a :: as' := by
        cases as with
        | nil => simp at has
        | cons a as => exact ⟨a, as, rfl⟩
      simp only [List.length_cons, Nat.add_right_cancel_iff] at has
      obtain ⟨m2, X, Y, q', j', e2, s1, wf1, wf2, H2⟩ := insFull_run (E := E) hE hfull hc h1 h2 hS n1 n2 n4 H1
      simp only [List.headD_cons]
      refine CRes.ge_step e2 ?_
      have := ih (x := x) (d := d) (as := as) (by omega) (by omega) hc' has s1 wf1 wf2 H2
      exact this
    · rw [if_pos hfull]
      rw [if_neg hfull] at has
      obtain rfl := List.length_eq_zero_iff.1 has
      simp only [chain_nil, zero_add] at H1
      obtain ⟨m2, e2, F', H2⟩ := insFit_run (E := E) hE hfull hle n1 n2 n4 H1
      refine CRes.ge_step e2 ?_
      obtain ⟨d', hd', hu⟩ := c.up H2
      obtain rfl : d' = d := by omega
      exact Up.increment_sizes_ge hu

theorem insert_single_leaf_ge {h o w : Nat} (hE : E.Good) (c : Ctx α h 0)
    {x : SeqObj} {S q j : Nat} {t1 u : Tree α 0} {as : List Nat} {e : Entry}
    (hc : c.Ok E) (has : as.length = c.need E) (hS : S + 1 = t1.size + u.size) (h1 : t1.WF E) (h2 : u.WF E)
    (H : Holds g (lay E w c.hdr.1 c.hdr.2 t1 + (lay E w q j u + (c.lay E w t1.addr S +
      (chain w as + (Ob o x + F))))) m) :
    (Cost.insert_single_leaf E o e t1.addr c.hdr.1 (c.hdr.2 + 1) (as.headD 0) u.addr u.size m).ge h := by
  have hp1 : 1 ≤ t1.size := h1.size_pos
  have hp2 : 1 ≤ u.size := h2.size_pos
  cases c with
  | top =>
    rw [Ctx.hdr_top, Cost.insert_single_leaf_eq, if_pos rfl]
    exact CRes.ge_zero
  | step b l r c =>
    have hcle := c.le
    obtain ⟨d, rfl⟩ : ∃ d', h = d' + 1 := ⟨h - 1, by omega⟩
    have hb0 : b ≠ 0 := by
      simp only [Ctx.lay, aassoc] at H
      exact Holds.ne0 (H.eqv (by frame : _ = pt (.heap b) (IsNode w c.hdr.1 c.hdr.2 (keys l ++ (S, t1.addr) :: keys r)) + _))
    simp only [Ctx.hdr_step] at H ⊢
    rw [Cost.insert_single_leaf_eq, if_neg hb0, Nat.add_comm d 1]
    obtain ⟨m1, nd, e1, n1, n2, n3, n4, H1⟩ := insHead_run (E := E) hc hS hp1 hp2 H
    refine CRes.ge_seq_step e1 Cost.insHead_ge ?_
    have hc' := hc.2.2.2.2
    have hle := hc.2.2.2.1
    simp only [Ctx.need] at has
    by_cases hfull : l.length + 1 + r.length = E.baseMax
    · rw [if_neg (by simpa using hfull)]
      rw [if_pos hfull] at has
      obtain ⟨a, as, rfl⟩ : ∃ a as', as = a :: as' := by
        cases as with
        | nil => simp at has
        | cons a as => exact ⟨a, as, rfl⟩
      simp only [List.length_cons, Nat.add_right_cancel_iff] at has
      obtain ⟨m2, X, Y, q', j', e2, s1, wf1, wf2, H2⟩ := insFull_run (E := E) hE hfull hc h1 h2 hS n1 n2 n4 H1
      simp only [List.headD_cons]
      refine CRes.ge_step e2 ?_
      have := insert_single_branch_ge hE c (x := x) (d := d) (as := as) (by omega) (by omega) hc' has s1 wf1 wf2 H2
      exact CRes.ge_bind this
    · rw [if_pos hfull]
      rw [if_neg hfull] at has
      obtain rfl := List.length_eq_zero_iff.1 has
      simp only [chain_nil, zero_add] at H1
      obtain ⟨m2, e2, F', H2⟩ := insFit_run (E := E) hE hfull hle n1 n2 n4 H1
      refine CRes.ge_step e2 ?_
      obtain ⟨d', hd', hu⟩ := c.up H2
      obtain rfl : d' = d := by omega
      exact CRes.ge_bind (Up.increment_sizes_ge hu)


theorem insert_single_segment_ge {h o w al nal i : Nat} {t : Tree α h} {e : Entry} (v : α) (hE : E.Good)
    (hr : t.Root E) (he : At t i e) (hw1 : w = E.acls al) (hw2 : w = E.acls nal)
    (H : Holds g (lay E w 0 0 t + (Ob o (objOf t al nal) + F)) m) :
    (Cost.insert_single_segment E o e v m).ge h := by
  have H0 := H
  have hu0 : Up m e.leaf.ptr h := At.up he H
  obtain ⟨c, s, j, rfl, rfl, rfl, hj⟩ := he
  obtain ⟨hc, hs⟩ := (Ctx.fill_root c s).1 hr
  have hsr : s.Root E := Ctx.holeOk_root hs
  rw [Tree.root_zero] at hsr
  obtain ⟨A, B, hAB, rfl⟩ : ∃ A B, s.xs = A ++ B ∧ A.length = j :=
    ⟨_, _, (List.take_append_drop j s.xs).symm, by rw [List.length_take]; omega⟩
  have hlen : s.xs.length = A.length + B.length := by rw [hAB]; simp
  rw [Ctx.fill_lay, lay_zero, aassoc] at H
  have hp0 := Holds.ne0 H
  obtain ⟨sl, sl1, sl2, H⟩ := H.toSg
  rw [hAB] at sl1
  simp only [entryOf] at hu0 ⊢
  rw [Cost.insert_single_segment_eq]
  by_cases hfull : s.xs.length = E.segMax
  · rw [if_neg (by simp [hfull]), if_neg hp0, if_neg (by simp [hfull])]
    have ea : allocate_segment E o m = allocCell E (.seg w (fun _ => .raw)) m := by
      unfold allocate_segment
      rw [bind_ok (rdObj_ok (H0.eqv (by frame : _ = Ob o _ + _))), hw1]; rfl
    have H0' := H0
    rw [Ctx.fill_lay, aassoc] at H0'
    have hpin := H0'.toEx
    rcases allocCell_cases (E := E) (.seg w (fun _ => .raw)) hpin with ⟨b, m1, e1, H1⟩ | ⟨m1, e1, hce, H1⟩
    rotate_left
    · refine (CRes.ge_seq (a := 0) CRes.ge_zero fun v' m' n' hv => absurd hv ?_).mono (Nat.le_of_eq (Nat.zero_add _).symm)
      exact Sim.not_ok inferInstance (ea.trans e1) _ _ _
    refine CRes.ge_step (ea.trans e1) ?_
    have hu1 : Up m1 c.hdr.1 h := by
      have HF := H0'.ofEx (A := Sg b w (fun _ => .raw)) H1
      obtain ⟨d, hd, hu⟩ := c.up (HF.eqv (by frame : _ = c.lay E w s.addr s.size + _))
      obtain rfl : d = h := by omega
      exact hu
    have hz : Up m1 0 0 := .zero (by simp [H1.null])
    unfold Cost.alloc_nodes_single
    rcases alloc_nodes_loop_ok (E := E) (o := o) (w := w) (seg := b) (x := objOf (c.fill s) al nal) (m0 := m) (L0 := g)
      (F0 := lay E w c.hdr.1 c.hdr.2 s + F) (a := s.addr) (s := s.size) hw2 hw1 c [] (by ac_rfl) H0'
      (by rw [chain_nil, zero_add]; exact H1) with ⟨as, m2, e2, has, H2⟩ | ⟨m2, n, e2, n1, n2, H2⟩
    rotate_left
    · simp only [List.headD_nil] at e2
      refine (CRes.ge_seq (a := 0) CRes.ge_zero fun v' m' n' hv => absurd hv ?_).mono (Nat.le_of_eq (Nat.zero_add _).symm)
      exact Sim.not_ok inferInstance e2 _ _ _
    simp only [List.headD_nil] at e2
    refine CRes.ge_step e2 ?_
    rw [← aassoc] at H2
    have H2 := H0'.ofEx H2
    rw [aassoc, lay_zero] at H2
    obtain ⟨sl, sl1, sl2, H2⟩ := (H2.eqv (by frame : _ = pt (.heap s.addr) (IsSeg E w s.xs) + (Sg b w (fun _ => .raw) + _))).toSg
    rw [hAB] at sl1
    obtain ⟨X, Y, m3, sx, sy, hXY, hX, e3, x1, x2, y1, y2, H3⟩ := segSplit_ok (E := E) (v := v)
      (e := ⟨⟨s.addr, A.length, s.xs.length⟩, ⟨c.hdr.1, c.hdr.2⟩⟩) hE (by omega) sl1
      (fun i hi => sl2 i (by omega)) (fun _ => .inl rfl) H2
    rw [← hfull] at e3
    refine CRes.ge_step e3 ?_
    have hXYl : X.length + Y.length = E.segMax + 1 := by
      have := congrArg List.length hXY
      simp at this; omega
    have hpos := E.segMax_pos
    have H3 := (H3.ofSg (E := E) x1 x2).eqv (by frame : _ = Sg b w sy + _)
    have H3 := H3.ofSg (E := E) y1 y2
    have hfin := insert_single_leaf_ge (E := E) hE c (x := objOf (c.fill s) al nal)
      (S := s.size) (q := 0) (j := 0) (t1 := .mkSeg s.addr X) (u := .mkSeg b Y) (as := as) (F := F)
      (e := if A.length < X.length then
          ⟨⟨s.addr, A.length, X.length⟩, ⟨c.hdr.1, c.hdr.2⟩⟩
         else ⟨⟨b, A.length - X.length, Y.length⟩, ⟨c.hdr.1, c.hdr.2 + 1⟩⟩)
      hc (by simpa using has)
      (by simp only [Tree.size, Tree.elems_zero, Tree.xs_mkSeg]; omega)
      (Tree.wf_zero.2 ⟨by unfold Env.segMin; simp; omega, by simp; omega⟩)
      (Tree.wf_zero.2 ⟨by unfold Env.segMin; simp; omega, by simp; omega⟩)
      (H3.eqv (by simp only [lay_mkSeg, Tree.addr_mkSeg]; ac_rfl))
    rw [show E.segMax + 1 - (E.segMax + 1) / 2 = (Tree.mkSeg b Y).size by
        simp only [Tree.size, Tree.elems_mkSeg]; omega]
    exact hfin
  · have hend : ∀ m1, (∃ F', Holds g (c.lay E w s.addr s.size + F') m1) →
        ((Cost.increment_sizes E o c.hdr.1 c.hdr.2 >>= fun _ =>
          (pure ⟨⟨s.addr, A.length, s.xs.length + 1⟩, ⟨c.hdr.1, c.hdr.2⟩⟩ : C α Entry)) m1).ge h := by
      rintro m1 ⟨F', H1⟩
      obtain ⟨d, hd, hu⟩ := c.up H1
      obtain rfl : d = h := by omega
      exact CRes.ge_bind (Up.increment_sizes_ge hu)
    by_cases hB : B = []
    · subst hB
      simp only [List.append_nil] at *
      rw [if_neg (by simp [hlen]), if_neg hp0, if_pos hfull]
      obtain ⟨m1, e1, H1⟩ := construct_segment_ok (E := E) (i := A.length) v hE (by simp at hlen; omega)
        (sl2 _ (by simp [hlen])) H
      refine CRes.ge_step e1 ?_
      exact hend m1 ⟨_, H1.eqv (by frame)⟩
    · have hBp : 1 ≤ B.length := by
        rcases B with _ | ⟨_, _⟩
        · exact absurd rfl hB
        · simp
      rw [if_pos ⟨by omega, hfull⟩]
      obtain ⟨m1, s1, e1, a1, a2, H1⟩ := segRoom_ok (E := E) (v := v) (n := s.xs.length)
        (f := pure ()) hE hB hlen (by omega) sl1 sl2 H
      have e1 : segRoom E s.addr s.xs.length A.length v m = .ok () m1 := e1
      refine CRes.ge_step e1 ?_
      exact hend m1 ⟨_, H1.eqv (by frame)⟩

end SegTree
