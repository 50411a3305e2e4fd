/-
  Single erasure at segment level, and its summary on whole trees.
-/
import Verif.Proof.Era
import Verif.Proof.InsSeg
set_option autoImplicit false
set_option linter.unusedSimpArgs false

namespace SegTree

variable {α : Type} {E : Env α} {g : Log} {F : Asrt α} {m : Mem α}

section
variable {p q w n : Nat} {A B K : List α} {d z : α} {β : Type} {f : M α β}

theorem segDrop_ok (hE : E.Good) (hn : n = A.length + B.length) (hl : n < E.segMax)
    (H : Holds g (pt (.heap p) (IsSeg E w (A ++ d :: B)) + F) m) :
    ∃ m', (assign_backward_segment E p n A.length 1 >>= fun _ => destroy_segment E p n >>= fun _ => f) m = f m' ∧
      Holds g (pt (.heap p) (IsSeg E w (A ++ B)) + F) m' := by
  obtain ⟨s, s1, s2, H⟩ := H.toSg
  simp only [SArr_append, SArr_cons, Nat.zero_add, List.length_append, List.length_cons] at s1 s2
  obtain ⟨a1, a2, a3⟩ := s1
  have hv : ∀ j, j < n + 1 → IsVal (s j) := by
    intro j hj
    by_cases h1 : j < A.length
    · exact a1.isVal (Nat.zero_le _) (by omega)
    · by_cases h2 : j = A.length
      · subst h2; exact ⟨_, a2⟩
      · exact a3.isVal (by omega) (by omega)
  obtain ⟨m1, s', e1, H1, b1, b2⟩ := assign_backward_segment_ok (E := E) hE B hn (by omega) a3
    (fun _ => .inl ⟨_, a2⟩) H
  rw [bind_ok e1]
  obtain ⟨m2, e2, H2⟩ := destroy_segment_ok (E := E) hl (b2.vals _ (hv n (by omega))) H1
  rw [bind_ok e2]
  refine ⟨m2, rfl, H2.ofSg ?_ ?_⟩
  · simp only [SArr_append, Nat.zero_add]
    refine ⟨(SArr_upd (by omega)).2 (SArr_congr (fun j _ hj => b2.outside j (by omega)) a1),
      (SArr_upd (by omega)).2 b1⟩
  · intro i hi
    simp only [List.length_append] at hi
    by_cases h : i = n
    · subst h; rw [upd_same]; exact .inl rfl
    · rw [upd_ne h, b2.outside i (by omega)]
      exact s2 i (by omega)

theorem segRotPrev_ok (hE : E.Good) (hl : A.length + B.length < E.segMax) (hK : K.length < E.segMax) (hn : n = K.length)
    (H : Holds g (pt (.heap p) (IsSeg E w (A ++ d :: B)) + (pt (.heap q) (IsSeg E w (K ++ [z])) + F)) m) :
    ∃ m', (assign_forward_segment E p A.length 0 1 >>= fun _ => move_assign_segment E q n p 0 >>= fun _ =>
        destroy_segment E q n >>= fun _ => f) m = f m' ∧
      Holds g (pt (.heap p) (IsSeg E w (z :: (A ++ B))) + (pt (.heap q) (IsSeg E w K) + F)) m' := by
  subst hn
  obtain ⟨s, s1, s2, H⟩ := H.toSg
  obtain ⟨t, t1, t2, H⟩ := (H.eqv (by frame : _ = pt (.heap q) (IsSeg E w (K ++ [z])) + _)).toSg
  simp only [SArr_append, SArr_cons, Nat.zero_add, List.length_append, List.length_cons, List.length_nil] at s1 s2 t1 t2
  obtain ⟨a1, a2, a3⟩ := s1
  obtain ⟨c1, c2, -⟩ := t1
  have hv : ∀ j, j < A.length + 1 → IsVal (s j) := by
    intro j hj
    by_cases h1 : j < A.length
    · exact a1.isVal (Nat.zero_le _) (by omega)
    · rw [show j = A.length by omega]; exact ⟨_, a2⟩
  obtain ⟨m1, s', e1, H1, b1, b2⟩ := assign_forward_segment_ok (E := E) (n := A.length) hE A (by omega) (by omega) a1
    (fun j _ h => .inl (hv j (by omega))) (H.eqv (by frame : _ = Sg p w s + _))
  rw [bind_ok e1]
  obtain ⟨m2, e2, H2⟩ := move_assign_segment_diff (E := E) (si := K.length) (di := 0) hE hK (by omega) c2
    (.inl (b2.vals _ (hv 0 (by omega)))) (H1.eqv (by frame : _ = Sg p w s' + (Sg q w t + _)))
  rw [bind_ok e2]
  obtain ⟨m3, e3, H3⟩ := destroy_segment_ok (E := E) (i := K.length) hK ⟨_, upd_same⟩
    (H2.eqv (by frame : _ = Sg q w _ + _))
  rw [bind_ok e3]
  have H3 := H3.ofSg (E := E) (xs := K) ((SArr_upd (by omega)).2 ((SArr_upd (by omega)).2 c1)) (by
    intro i hi
    by_cases h : i = K.length
    · subst h; rw [upd_same]; exact .inl rfl
    · rw [upd_ne h, upd_ne h]; exact t2 i (by omega))
  have H3 := (H3.eqv (by frame : _ = Sg p w (upd s' 0 (.val z)) + _)).ofSg (E := E) (xs := z :: (A ++ B)) (by
      simp only [SArr_append, SArr_cons, Nat.zero_add]
      refine ⟨upd_same, (SArr_upd (by omega)).2 (by simpa using b1), (SArr_upd (by omega)).2 ?_⟩
      rw [Nat.add_comm 1]
      exact SArr_congr (fun j hj _ => b2.outside j (by omega)) a3) (by
    intro i hi
    simp only [List.length_append, List.length_cons] at hi
    rw [upd_ne (by omega), b2.outside i (by omega)]
    exact s2 i (by omega))
  exact ⟨m3, rfl, H3.eqv (by frame)⟩

theorem segRotNext_ok (hE : E.Good) (hl : n < E.segMax) (hn : n = A.length + B.length) (hK : K.length < E.segMax)
    (H : Holds g (pt (.heap p) (IsSeg E w (A ++ d :: B)) + (pt (.heap q) (IsSeg E w (z :: K)) + F)) m) :
    ∃ m', (assign_backward_segment E p n A.length 1 >>= fun _ => move_assign_segment E q 0 p n >>= fun _ =>
        assign_backward_segment E q K.length 0 1 >>= fun _ => destroy_segment E q K.length >>= fun _ => f) m = f m' ∧
      Holds g (pt (.heap p) (IsSeg E w (A ++ B ++ [z])) + (pt (.heap q) (IsSeg E w K) + F)) m' := by
  obtain ⟨s, s1, s2, H⟩ := H.toSg
  obtain ⟨t, t1, t2, H⟩ := (H.eqv (by frame : _ = pt (.heap q) (IsSeg E w (z :: K)) + _)).toSg
  simp only [SArr_append, SArr_cons, Nat.zero_add, List.length_append, List.length_cons, List.length_nil] at s1 s2 t1 t2
  obtain ⟨a1, a2, a3⟩ := s1
  obtain ⟨c1, c2⟩ := t1
  have hv : ∀ j, j < n + 1 → IsVal (s j) := by
    intro j hj
    by_cases h1 : j < A.length
    · exact a1.isVal (Nat.zero_le _) (by omega)
    · by_cases h2 : j = A.length
      · subst h2; exact ⟨_, a2⟩
      · exact a3.isVal (by omega) (by omega)
  obtain ⟨m1, s', e1, H1, b1, b2⟩ := assign_backward_segment_ok (E := E) hE B hn (by omega) a3
    (fun _ => .inl ⟨_, a2⟩) (H.eqv (by frame : _ = Sg p w s + _))
  rw [bind_ok e1]
  obtain ⟨m2, e2, H2⟩ := move_assign_segment_diff (E := E) (si := 0) (di := n) hE (by omega) (by omega) c1
    (.inl (b2.vals _ (hv n (by omega)))) (H1.eqv (by frame : _ = Sg p w s' + (Sg q w t + _)))
  rw [bind_ok e2]
  obtain ⟨m3, t', e3, H3, d1, d2⟩ := assign_backward_segment_ok (E := E) (n := K.length) (i := 0) hE K (by omega) (by omega)
    ((SArr_upd (by omega)).2 (by simpa using c2))
    (fun _ => .inl ⟨_, upd_same⟩) (H2.eqv (by frame : _ = Sg q w _ + _))
  rw [bind_ok e3]
  obtain ⟨m4, e4, H4⟩ := destroy_segment_ok (E := E) (i := K.length) hK (by
      apply d2.vals
      by_cases h : K.length = 0
      · rw [h]; exact ⟨_, upd_same⟩
      · rw [upd_ne h]; exact c2.isVal (by omega) (by omega)) H3
  rw [bind_ok e4]
  have H4 := H4.ofSg (E := E) (xs := K) ((SArr_upd (by omega)).2 d1) (by
    intro i hi
    by_cases h : i = K.length
    · subst h; rw [upd_same]; exact .inl rfl
    · rw [upd_ne h, d2.outside i (by omega), upd_ne (by omega)]; exact t2 i (by omega))
  have H4 := (H4.eqv (by frame : _ = Sg p w (upd s' n (.val z)) + _)).ofSg (E := E) (xs := A ++ B ++ [z]) (by
      simp only [SArr_append, SArr_cons, Nat.zero_add, List.length_append, ← hn]
      refine ⟨⟨(SArr_upd (by omega)).2 ?_, (SArr_upd (by omega)).2 b1⟩, upd_same, SArr.nil _ _⟩
      exact SArr_congr (fun j _ hj => b2.outside j (by omega)) a1) (by
    intro i hi
    simp only [List.length_append, List.length_cons, List.length_nil] at hi
    rw [upd_ne (by omega), b2.outside i (by omega)]
    exact s2 i (by omega))
  exact ⟨m4, rfl, H4.eqv (by frame)⟩

theorem segMergePrev_ok {o l : Nat} {x : SeqObj} (hE : E.Good) (hl : l = A.length + B.length) (hA : l < E.segMax)
    (hK : K.length + l ≤ E.segMax) (hn : n = K.length) (hw : w = E.acls x.ealloc)
    (H : Holds g (pt (.heap p) (IsSeg E w (A ++ d :: B)) + (pt (.heap q) (IsSeg E w K) + (Ob o x + F))) m) :
    ∃ m', (construct_range_segment E p 0 q n A.length >>= fun _ => usub l A.length >>= fun ml =>
        construct_range_segment E p (A.length + 1) q (n + A.length) ml >>= fun _ =>
        destroy_segment E p A.length >>= fun _ => deallocate_segment E o p >>= fun _ => f) m = f m' ∧
      Holds g (pt (.heap q) (IsSeg E w (K ++ (A ++ B))) + (Ob o x + F)) m' := by
  subst hn
  obtain ⟨s, s1, s2, H⟩ := H.toSg
  obtain ⟨t, t1, t2, H⟩ := (H.eqv (by frame : _ = pt (.heap q) (IsSeg E w K) + _)).toSg
  simp only [SArr_append, SArr_cons, Nat.zero_add, List.length_append, List.length_cons] at s1 s2
  obtain ⟨a1, a2, a3⟩ := s1
  obtain ⟨m1, t', s', e1, H1, b1, b2, b3⟩ := construct_range_segment_ok (E := E) (si := 0) (di := K.length)
    (n := A.length) hE A rfl (by omega) (by omega) a1 (fun i h _ => t2 i h)
    (H.eqv (by frame : _ = Sg q w t + (Sg p w s + _)))
  rw [bind_ok e1, bind_ok (usub_ok (by omega) _)]
  obtain ⟨m2, t'', s'', e2, H2, c1, c2, c3⟩ := construct_range_segment_ok (E := E) (si := A.length + 1)
    (di := K.length + A.length)
    (n := l - A.length) hE B (by omega) (by omega) (by omega)
    (SArr_congr (fun j hj _ => b3.outside j (by omega)) a3)
    (fun i h _ => by rw [b2 i (by omega)]; exact t2 i (by omega)) H1
  rw [bind_ok e2]
  obtain ⟨m3, e3, H3⟩ := destroy_segment_ok (E := E) (i := A.length) (by omega)
    ⟨d, by rw [c3.outside _ (by omega), b3.outside _ (by omega), a2]⟩ (H2.eqv (by frame : _ = Sg p w s'' + _))
  rw [bind_ok e3]
  have H3 := H3.eqv (by frame : _ = Sg p w (upd s'' A.length .raw) + (Ob o x + _))
  obtain ⟨m4, e4, H4⟩ := deallocate_segment_ok (E := E) (s := upd s'' A.length .raw) hw (by
    intro i _
    by_cases h : i = A.length
    · subst h; rw [upd_same]; exact .inl rfl
    · rw [upd_ne h]
      by_cases h1 : i < A.length
      · rw [c3.outside i (by omega)]; exact b3.inside i (by omega) (by omega)
      · by_cases h2 : i < A.length + 1 + B.length
        · exact c3.inside i (by omega) h2
        · rw [c3.outside i (by omega), b3.outside i (by omega)]
          exact s2 i (by omega)) H3
  rw [bind_ok e4]
  have H4 := (H4.eqv (by frame : _ = Sg q w t'' + _)).ofSg (E := E) (xs := K ++ (A ++ B)) (by
      simp only [SArr_append, Nat.zero_add]
      refine ⟨SArr_congr (fun j _ hj => ?_) t1, SArr_congr (fun j _ hj => ?_) b1, c1⟩
      · rw [c2 j (by omega), b2 j (by omega)]
      · rw [c2 j (by omega)]) (by
    intro i hi
    simp only [List.length_append] at hi
    rw [c2 i (by omega), b2 i (by omega)]
    exact t2 i (by omega))
  exact ⟨m4, rfl, H4.eqv (by frame)⟩

theorem segMergeNext_ok {o l : Nat} {x : SeqObj} (hE : E.Good) (hl : l = A.length + B.length)
    (hK : l + 1 + K.length ≤ E.segMax) (hw : w = E.acls x.ealloc)
    (H : Holds g (pt (.heap p) (IsSeg E w (A ++ d :: B)) + (pt (.heap q) (IsSeg E w (z :: K)) + (Ob o x + F))) m) :
    ∃ m', (assign_backward_segment E p l A.length 1 >>= fun _ => move_assign_segment E q 0 p l >>= fun _ =>
        destroy_segment E q 0 >>= fun _ => usub (K.length + 1) 1 >>= fun nl =>
        construct_range_segment E q 1 p (l + 1) nl >>= fun _ => deallocate_segment E o q >>= fun _ => f) m = f m' ∧
      Holds g (pt (.heap p) (IsSeg E w (A ++ B ++ z :: K)) + (Ob o x + F)) m' := by
  obtain ⟨s, s1, s2, H⟩ := H.toSg
  obtain ⟨t, t1, t2, H⟩ := (H.eqv (by frame : _ = pt (.heap q) (IsSeg E w (z :: K)) + _)).toSg
  simp only [SArr_append, SArr_cons, Nat.zero_add, List.length_append, List.length_cons, List.length_nil] at s1 s2 t1 t2
  obtain ⟨a1, a2, a3⟩ := s1
  obtain ⟨c1, c2⟩ := t1
  have hv : ∀ j, j < l + 1 → IsVal (s j) := by
    intro j hj
    by_cases h1 : j < A.length
    · exact a1.isVal (Nat.zero_le _) (by omega)
    · by_cases h2 : j = A.length
      · subst h2; exact ⟨_, a2⟩
      · exact a3.isVal (by omega) (by omega)
  obtain ⟨m1, s', e1, H1, b1, b2⟩ := assign_backward_segment_ok (E := E) hE B hl (by omega) a3
    (fun _ => .inl ⟨_, a2⟩) (H.eqv (by frame : _ = Sg p w s + _))
  rw [bind_ok e1]
  obtain ⟨m2, e2, H2⟩ := move_assign_segment_diff (E := E) (si := 0) (di := l) hE (by omega) (by omega) c1
    (.inl (b2.vals _ (hv l (by omega)))) (H1.eqv (by frame : _ = Sg p w s' + (Sg q w t + _)))
  rw [bind_ok e2]
  obtain ⟨m3, e3, H3⟩ := destroy_segment_ok (E := E) (i := 0) (by omega) ⟨_, upd_same⟩
    (H2.eqv (by frame : _ = Sg q w _ + _))
  rw [bind_ok e3, bind_ok (usub_ok (by omega) _), Nat.add_sub_cancel]
  have H3 := H3.eqv (by frame : _ = Sg p w (upd s' l (.val z)) + (Sg q w (upd (upd t 0 (.val (E.moved z))) 0 .raw) + _))
  obtain ⟨m4, s'', t', e4, H4, d1, d2, d3⟩ := construct_range_segment_ok (E := E) (si := 1) (di := l + 1)
    (n := K.length) (s := upd s' l (.val z)) (ss := upd (upd t 0 (.val (E.moved z))) 0 .raw)
    hE K rfl (by omega) (by omega) ((SArr_upd (by omega)).2 ((SArr_upd (by omega)).2 c2))
    (fun i h _ => by rw [upd_ne (by omega), b2.outside i (by omega)]; exact s2 i (by omega))
    H3
  rw [bind_ok e4]
  obtain ⟨m5, e5, H5⟩ := deallocate_segment_ok (E := E) hw (by
    intro i _
    by_cases h : i = 0
    · subst h; rw [d3.outside _ (by omega), upd_same]; exact .inl rfl
    · by_cases h2 : i < 1 + K.length
      · exact d3.inside i (by omega) h2
      · rw [d3.outside i (by omega), upd_ne h, upd_ne h]
        exact t2 i (by omega)) (H4.eqv (by frame : _ = Sg q w t' + (Ob o x + _)))
  rw [bind_ok e5]
  have H5 := (H5.eqv (by frame : _ = Sg p w s'' + _)).ofSg (E := E) (xs := A ++ B ++ z :: K) (by
      simp only [SArr_append, SArr_cons, Nat.zero_add, List.length_append, ← hl]
      refine ⟨⟨SArr_congr (fun j _ hj => ?_) a1, SArr_congr (fun j _ hj => ?_) b1⟩, ?_, d1⟩
      · rw [d2 j (by omega), upd_ne (by omega), b2.outside j (by omega)]
      · rw [d2 j (by omega), upd_ne (by omega)]
      · rw [d2 l (by omega), upd_same]) (by
    intro i hi
    simp only [List.length_append, List.length_cons, List.length_nil] at hi
    rw [d2 i (by omega), upd_ne (by omega), b2.outside i (by omega)]
    exact s2 i (by omega))
  exact ⟨m5, rfl, H5.eqv (by frame)⟩

end

/-! ### summary on whole trees -/

theorem decrement_in_place {h o w al nal : Nat} {c : Ctx α h 0} {s s' : Tree α 0}
    (ha : s'.addr = s.addr) (hs : s'.size + 1 = s.size) (hc : c.Ok E)
    (hW : (c.fill s).size < E.W)
    (H : Holds g (lay E w 0 0 s' + (c.lay E w s.addr s.size + (Ob o (objOf (c.fill s) al nal) + F))) m) :
    ∃ m', decrement_sizes E o c.hdr.1 c.hdr.2 m = .ok () m' ∧
      Holds g (lay E w 0 0 (c.fill s') + (Ob o (objOf (c.fill s') al nal) + F)) m' := by
  obtain ⟨m', e, H'⟩ := decrement_sizes_ok (E := E) (x := objOf (c.fill s) al nal) hc
    (by simp only [objOf, fill_size, Ctx.out]; omega) (by omega) hW
    (H.eqv (by frame : _ = c.lay E w s.addr s.size + (Ob o (objOf (c.fill s) al nal) + _)))
  refine ⟨m', e, H'.eqv ?_⟩
  rw [Ctx.fill_lay, ha, ← hs, Nat.add_sub_cancel, lay_hdr0 s' 0 0 c.hdr.1 c.hdr.2]
  have : objOf (c.fill s') al nal = { objOf (c.fill s) al nal with sz := (objOf (c.fill s) al nal).sz - 1 } := by
    simp only [objOf, Ctx.fill_addr, ha, fill_size, ← hs, SeqObj.mk.injEq, and_true, true_and]
    omega
  rw [this]
  ac_rfl

theorem eraSegTail {h k o w gp al nal : Nat} {c : Ctx α h (k + 1)} {K K' : List (Tree α k)} {β : Type} {f : M α β}
    (hc : c.Ok E) (hs : (elemsL K).length = (elemsL K').length + 1)
    (hW : (c.fill (.mkNode gp K)).size < E.W)
    (H : Holds g (pt (.heap gp) (IsNode w c.hdr.1 c.hdr.2 (keys K')) + (lays E w gp 0 K' +
      (c.lay E w gp (elemsL K).length + (Ob o (objOf (c.fill (.mkNode gp K)) al nal) + F)))) m) :
    ∃ m', (parent gp >>= fun q => pidx gp >>= fun i => decrement_sizes E o q i >>= fun _ => f) m = f m' ∧
      Holds g (lay E w 0 0 (c.fill (.mkNode gp K')) + (Ob o (objOf (c.fill (.mkNode gp K')) al nal) + F)) m' := by
  rw [bind_ok (nparent H), bind_ok (npidx H)]
  have e1 : ∀ J : List (Tree α k), (c.fill (.mkNode gp J)).size = (elemsL J).length + c.out := by
    intro J; rw [fill_size]; simp [Tree.size, Ctx.out]; omega
  obtain ⟨m', e, H'⟩ := decrement_sizes_ok (E := E) (x := objOf (c.fill (.mkNode gp K)) al nal)
    (s := (elemsL K).length) hc (by simp only [objOf, e1]) (by omega) hW
    (H.eqv (by frame : _ = c.lay E w gp _ + (Ob o _ + _)))
  rw [bind_ok e]
  refine ⟨m', rfl, H'.eqv ?_⟩
  rw [Ctx.fill_lay, lay_mkNode, Tree.addr_mkNode]
  have : objOf (c.fill (.mkNode gp K')) al nal =
      { objOf (c.fill (.mkNode gp K)) al nal with sz := (objOf (c.fill (.mkNode gp K)) al nal).sz - 1 } := by
    simp only [objOf, Ctx.fill_addr, e1, SeqObj.mk.injEq, and_true, true_and, Tree.addr_mkNode]
    omega
  rw [this, hs, Nat.add_sub_cancel, show (Tree.mkNode gp K').size = (elemsL K').length from rfl]
  ac_rfl

theorem del_split {xs P Q : List α} {i : Nat} {d : α} (h : xs = P ++ d :: Q) (hi : i = P.length) :
    xs.take i ++ xs.drop (i + 1) = P ++ Q := by
  subst h hi
  rw [List.take_left, List.drop_append]
  simp

/-- the object that owns nothing -/
def objNil (al nal : Nat) : SeqObj := ⟨0, 0, 0, al, nal⟩

theorem eraSegEmpty_ok {o w p : Nat} {x : SeqObj} {d : α} {β : Type} {f : M α β} (hw : w = E.acls x.ealloc)
    (H : Holds g (pt (.heap p) (IsSeg E w [d]) + (Ob o x + F)) m) :
    ∃ m', (destroy_segment E p 0 >>= fun _ => deallocate_segment E o p >>= fun _ => setRoot o 0 >>= fun _ =>
      setSize o 0 >>= fun _ => setHeight o 0 >>= fun _ => f) m = f m' ∧
      Holds g (Ob o (objNil x.ealloc x.nalloc) + F) m' := by
  have hsm := E.segMax_pos
  obtain ⟨sl, s1, s2, H⟩ := H.toSg
  rw [SArr_one] at s1
  obtain ⟨m1, e1, H⟩ := destroy_segment_ok (E := E) (i := 0) (by omega) ⟨_, s1⟩ H
  rw [bind_ok e1]
  obtain ⟨m2, e2, H⟩ := deallocate_segment_ok (E := E) (s := upd sl 0 .raw) hw (by
    intro i _
    by_cases h : i = 0
    · subst h; rw [upd_same]; exact .inl rfl
    · rw [upd_ne h]; exact s2 i (by simp; omega)) H
  rw [bind_ok e2]
  obtain ⟨m3, e3, H⟩ := setRoot_ok 0 H
  rw [bind_ok e3]
  obtain ⟨m4, e4, H⟩ := setSize_ok 0 H
  rw [bind_ok e4]
  obtain ⟨m5, e5, H⟩ := setHeight_ok 0 H
  rw [bind_ok e5]
  exact ⟨m5, rfl, H⟩

/-- the position an erasure leaves its iterator at: offset `j` may be one past
the end of its segment -/
def Near {h : Nat} (t : Tree α h) (i : Nat) (e : Entry) : Prop :=
  ∃ (c : Ctx α h 0) (s : Tree α 0) (j : Nat), c.fill s = t ∧ c.pre.length + j = i ∧ e = entryOf c s j ∧
    j ≤ s.xs.length

/-- how the widths of the nodes change when an erasure at `i`, in the segment `s` in the hole
of `c`, leads to `t'` -/
structure EraSegShape (E : Env α) {h h' : Nat} (c : Ctx α h 0) (s : Tree α 0) (i : Nat) (t' : Tree α h') : Prop where
  ge : c.pre.length ≤ i
  lt : i < c.pre.length + s.xs.length
  cost : E.Even → t'.pot E ≤ (c.fill s).pot E + 1
  roomy : s.xs.length ≠ E.segMin → c.Slim E → t'.Slender E (s.xs.length - 1)
  merge : E.Odd → s.xs.length = E.segMin → c.Slim E → t'.Brimming E (2 * E.segMin - 1)

/-- blocks freed and levels lost by an erasure at `e` that turns `t` into `t'` -/
def ShrunkBy (E : Env α) {h h' : Nat} (t : Tree α h) (i : Nat) (e : Entry) (t' : Tree α h') : Prop :=
  ∃ (c : Ctx α h 0) (s : Tree α 0), c.fill s = t ∧ e.leaf = leafOf c.hdr ∧ e.seg.len = s.xs.length ∧
    t'.blocks + (c.joins E s.xs.length).1 = t.blocks ∧ h' + (c.joins E s.xs.length).2 = h ∧ EraSegShape E c s i t'

/-- outcome of an erasure that leaves the tree non-empty -/
def EraSegPost (E : Env α) {h : Nat} (c : Ctx α h 0) (s : Tree α 0) (ie : Nat) (bl : Nat) (J : Nat × Nat)
    (o w al nal i : Nat) (ys : List α) (g : Log) (F : Asrt α) (res : Res α Entry) : Prop :=
  ∃ m' h' e', ∃ t' : Tree α h', res = .ok e' m' ∧ t'.Root E ∧ t'.elems = ys ∧ Near t' i e' ∧
    (t'.blocks + J.1 = bl ∧ h' + J.2 = h ∧ EraSegShape E c s ie t') ∧
    Holds g (lay E w 0 0 t' + (Ob o (objOf t' al nal) + F)) m'

theorem EraSegPost.shrunk {h bl o w al nal i ie : Nat} {J : Nat × Nat} {ys : List α} {res : Res α Entry} {t : Tree α h}
    {e : Entry} {c : Ctx α h 0} {s : Tree α 0} (hp : EraSegPost E c s ie bl J o w al nal i ys g F res) (ht : c.fill s = t)
    (hbl : bl = t.blocks) (h1 : e.leaf = leafOf c.hdr) (h2 : e.seg.len = s.xs.length)
    (hJ : c.joins E s.xs.length = J) :
    ∃ m' h' e', ∃ t' : Tree α h', res = .ok e' m' ∧ t'.Root E ∧ t'.elems = ys ∧ Near t' i e' ∧ ShrunkBy E t ie e t' ∧
      Holds g (lay E w 0 0 t' + (Ob o (objOf t' al nal) + F)) m' := by
  obtain ⟨m', h', e', t', r1, r2, r3, r4, r5, r6⟩ := hp
  subst hJ hbl
  exact ⟨m', h', e', t', r1, r2, r3, r4, ⟨c, s, ht, h1, h2, r5⟩, r6⟩

section
variable {h o w al nal gp p pp : Nat} {A B K : List α} {d z : α} {c : Ctx α h 1} {lt rt : List (Tree α 0)}

theorem objOf_era {h' : Nat} {ct : Ctx α h' 0} {s : Tree α 0} {t : Tree α h} {x : SeqObj}
    (hx : x = objOf t al nal) (hs : (ct.fill s).size + 1 = t.size) :
    { x with root := (ct.fill s).addr, sz := x.sz - 1, ht := h' + 1 } = objOf (ct.fill s) al nal := by
  subst hx
  simp only [objOf, SeqObj.mk.injEq, and_true, true_and]
  omega

theorem eraSegRotNext (hE : E.Good) (hc : (Ctx.step gp [] (.mkSeg pp (z :: K) :: rt) c).Ok E)
    (hW : (c.fill (.mkNode gp (.mkSeg p (A ++ d :: B) :: .mkSeg pp (z :: K) :: rt))).size < E.W)
    (hm : A.length + B.length + 1 = E.segMin) (hK : K.length + 1 ≠ E.segMin)
    (H : Holds g (pt (.heap gp) (IsNode w c.hdr.1 c.hdr.2 ((A.length + B.length + 1, p) :: (K.length + 1, pp) :: keys rt)) +
      (pt (.heap p) (IsSeg E w (A ++ d :: B)) + (pt (.heap pp) (IsSeg E w (z :: K)) + (lays E w gp 2 rt +
      (c.lay E w gp (elemsL (.mkSeg p (A ++ d :: B) :: .mkSeg pp (z :: K) :: rt)).length +
      (Ob o (objOf (c.fill (.mkNode gp (.mkSeg p (A ++ d :: B) :: .mkSeg pp (z :: K) :: rt))) al nal) + F)))))) m) :
    EraSegPost E (.step gp [] (.mkSeg pp (z :: K) :: rt) c) (.mkSeg p (A ++ d :: B)) (c.pre.length + A.length)
      (c.fill (.mkNode gp (.mkSeg p (A ++ d :: B) :: .mkSeg pp (z :: K) :: rt))).blocks (0, 0)
      o w al nal (c.pre.length + A.length) (c.pre ++ A ++ (B ++ (z :: K ++ elemsL rt ++ c.post))) g F
      ((do
        assign_backward_segment E p (A.length + B.length) A.length 1
        move_assign_segment E pp 0 p (A.length + B.length)
        assign_backward_segment E pp K.length 0 1
        destroy_segment E pp K.length
        setSizes E gp 1 K.length
        let q ← parent gp
        let i ← pidx gp
        decrement_sizes E o q i
        return ⟨⟨p, A.length, A.length + B.length + 1⟩, ⟨gp, 0⟩⟩ : M α Entry) m) := by
  obtain ⟨c1, c2, c3, c4, c5⟩ := hc
  obtain ⟨x1, x2⟩ := Tree.wf_zero.1 (c2 (.mkSeg pp (z :: K)) (by simp))
  simp only [Tree.xs_mkSeg, List.length_cons, List.length_nil] at x1 x2 c3 c4
  have hmn := E.segMin_pos
  have hmm : 2 * E.segMin - 1 ≤ E.segMax := by unfold Env.segMin; omega
  generalize hob : Ob (α := α) o (objOf (c.fill (.mkNode gp (.mkSeg p (A ++ d :: B) :: .mkSeg pp (z :: K) :: rt))) al nal) = OB at H
  generalize hn : (elemsL (Tree.mkSeg p (A ++ d :: B) :: .mkSeg pp (z :: K) :: rt)).length = n at H
  obtain ⟨m1, e1, H1⟩ := segRotNext_ok (n := A.length + B.length) (K := K) (z := z) (q := pp)
    (f := (do
      setSizes E gp 1 K.length
      let q ← parent gp
      let i ← pidx gp
      decrement_sizes E o q i
      return ⟨⟨p, A.length, A.length + B.length + 1⟩, ⟨gp, 0⟩⟩ : M α Entry)) hE (by omega) rfl (by omega)
    (H.eqv (by frame : _ = pt (.heap p) (IsSeg E w (A ++ d :: B)) + (pt (.heap pp) (IsSeg E w (z :: K)) + _)))
  have H1 := H1.eqv (by frame : _ = pt (.heap gp) (IsNode w c.hdr.1 c.hdr.2
    ((A.length + B.length + 1, p) :: (K.length + 1, pp) :: keys rt)) + _)
  obtain ⟨m2, e2, H2⟩ := nsetSize (E := E) (a := [(A.length + B.length + 1, p)]) (k := (K.length + 1, pp)) (b := keys rt)
    (v := K.length) (j := 1) rfl (by simp; omega) H1
  simp only [List.cons_append, List.nil_append] at H2
  subst hob hn
  obtain ⟨m3, e3, H3⟩ := eraSegTail (E := E) (o := o) (al := al) (nal := nal) (F := F) (w := w) (g := g)
    (f := (pure ⟨⟨p, A.length, A.length + B.length + 1⟩, ⟨gp, 0⟩⟩ : M α Entry))
    (K := .mkSeg p (A ++ d :: B) :: .mkSeg pp (z :: K) :: rt)
    (K' := .mkSeg p (A ++ B ++ [z]) :: .mkSeg pp K :: rt) c5 (by simp; omega) hW (m := m2) (H2.eqv (by
      simp only [lays_cons, lay_mkSeg, keys_cons, show key (.mkSeg pp K) = (K.length, pp) from rfl,
        show key (.mkSeg p (A ++ B ++ [z])) = (A.length + B.length + 1, p) by simp [key, Tree.size]; omega]
      ac_rfl))
  refine ⟨m3, h, ⟨⟨p, A.length, A.length + B.length + 1⟩, ⟨gp, 0⟩⟩, _, e1.trans ((bind_ok e2).trans e3), ?_, ?_, ?_, ⟨by simp [Ctx.fill_blocks], rfl, ?_⟩, H3⟩
  · refine (Ctx.fill_root (E := E) (.step gp [] (.mkSeg pp K :: rt) c) (.mkSeg p (A ++ B ++ [z]))).2 ⟨?_, ?_⟩
    · refine ⟨by simp, ?_, by simpa using c3, by simpa using c4, c5⟩
      rintro t' ht'
      rcases List.mem_cons.1 ht' with rfl | ht'
      · exact Tree.wf_zero.2 ⟨by simp; omega, by simp; omega⟩
      · exact c2 t' (by simp [ht'])
    · unfold Ctx.HoleOk
      rw [if_neg (by simp), Tree.wf_zero]
      simp; omega
  · rw [Ctx.fill_elems]; simp
  · refine ⟨.step gp [] (.mkSeg pp K :: rt) c, .mkSeg p (A ++ B ++ [z]), A.length, rfl, by simp [Ctx.pre], ?_, by simp⟩
    simp [entryOf, Ctx.hdr_step]; omega
  · refine ⟨by simp [Ctx.pre], by simp [Ctx.pre], fun _ => ?_, fun h => absurd (by simp; omega) h, fun _ _ h => ?_⟩
    · simp [Ctx.fill_pot]
      rw [Nat.add_comm 1 (rt.length + 1)]; omega
    · simp [Ctx.slim_step] at h

theorem eraSegMergeNext (hE : E.Good) (hc : (Ctx.step gp [] (.mkSeg pp (z :: K) :: rt) c).Ok E)
    (hW : (c.fill (.mkNode gp (.mkSeg p (A ++ d :: B) :: .mkSeg pp (z :: K) :: rt))).size < E.W)
    (hw1 : w = E.acls al) (hw2 : w = E.acls nal)
    (hm : A.length + B.length + 1 = E.segMin) (hK : K.length + 1 = E.segMin)
    (H : Holds g (pt (.heap gp) (IsNode w c.hdr.1 c.hdr.2 ((A.length + B.length + 1, p) :: (K.length + 1, pp) :: keys rt)) +
      (pt (.heap p) (IsSeg E w (A ++ d :: B)) + (pt (.heap pp) (IsSeg E w (z :: K)) + (lays E w gp 2 rt +
      (c.lay E w gp (elemsL (.mkSeg p (A ++ d :: B) :: .mkSeg pp (z :: K) :: rt)).length +
      (Ob o (objOf (c.fill (.mkNode gp (.mkSeg p (A ++ d :: B) :: .mkSeg pp (z :: K) :: rt))) al nal) + F)))))) m) :
    EraSegPost E (.step gp [] (.mkSeg pp (z :: K) :: rt) c) (.mkSeg p (A ++ d :: B)) (c.pre.length + A.length)
      (c.fill (.mkNode gp (.mkSeg p (A ++ d :: B) :: .mkSeg pp (z :: K) :: rt))).blocks
      ((c.joins E (rt.length + 2)).1 + 1, (c.joins E (rt.length + 2)).2) o w al nal (c.pre.length + A.length) (c.pre ++ A ++ (B ++ (z :: K ++ elemsL rt ++ c.post))) g F
      ((do
        assign_backward_segment E p (A.length + B.length) A.length 1
        move_assign_segment E pp 0 p (A.length + B.length)
        destroy_segment E pp 0
        let nl ← usub (K.length + 1) 1
        construct_range_segment E pp 1 p (A.length + B.length + 1) nl
        deallocate_segment E o pp
        setSizes E gp 0 (E.segMin * 2 - 1)
        let l ← erase_single_leaf E o ⟨gp, 0⟩ gp 1
        return ⟨⟨p, A.length, E.segMin * 2 - 1⟩, l⟩ : M α Entry) m) := by
  obtain ⟨c1, c2, c3, c4, c5⟩ := hc
  simp only [List.length_cons, List.length_nil] at c3 c4
  have hmn := E.segMin_pos
  have hmm : 2 * E.segMin - 1 ≤ E.segMax := by unfold Env.segMin; omega
  generalize hx : objOf (c.fill (.mkNode gp (.mkSeg p (A ++ d :: B) :: .mkSeg pp (z :: K) :: rt))) al nal = x at H
  generalize hn : (elemsL (Tree.mkSeg p (A ++ d :: B) :: .mkSeg pp (z :: K) :: rt)).length = n at H
  have hsz : x.sz = n + c.out := by
    rw [← hx, ← hn]; simp only [objOf, fill_size]; simp [Tree.size, Ctx.out]; omega
  obtain ⟨m1, e1, H1⟩ := segMergeNext_ok (l := A.length + B.length) (K := K) (z := z) (q := pp) (o := o) (x := x)
    (f := (do
      setSizes E gp 0 (E.segMin * 2 - 1)
      let l ← erase_single_leaf E o ⟨gp, 0⟩ gp 1
      return ⟨⟨p, A.length, E.segMin * 2 - 1⟩, l⟩ : M α Entry)) hE rfl (by omega) (by rw [← hx]; exact hw1)
    (H.eqv (by frame : _ = pt (.heap p) (IsSeg E w (A ++ d :: B)) + (pt (.heap pp) (IsSeg E w (z :: K)) +
      (Ob o x + _))))
  have H1 := H1.eqv (by frame : _ = pt (.heap gp) (IsNode w c.hdr.1 c.hdr.2
    ((A.length + B.length + 1, p) :: (K.length + 1, pp) :: keys rt)) + _)
  obtain ⟨m2, e2, H2⟩ := nsetSize (E := E) (a := []) (k := (A.length + B.length + 1, p))
    (b := (K.length + 1, pp) :: keys rt)
    (v := E.segMin * 2 - 1) (j := 0) rfl (by simp; omega) H1
  simp only [List.nil_append] at H2
  have hy : EraHyp E w x c gp [.mkSeg p (A ++ B ++ z :: K)] rt n := by
    refine ⟨c5, ?_, by simp; omega, by simp; omega, ?_, hsz, by rw [← hx]; exact hW, by rw [← hx]; rfl, ?_,
      by rw [← hx]; exact hw2⟩
    · rintro t' ht'
      rcases List.mem_cons.1 ht' with rfl | ht'
      · exact Tree.wf_zero.2 ⟨by simp; omega, by simp; omega⟩
      · exact c2 t' (by simp_all)
    · rw [← hn]; simp; omega
    · rw [← hx]; simp [objOf, Ctx.fill_addr]
  obtain ⟨res, m3, e3, h', ct, r1, r2, r3, r4, ⟨r6, r7, r8⟩, r5⟩ := erase_single_leaf_ok (E := E) (o := o) (F := F) (w := w) (g := g)
    (i := 0) (j := 1) (L := []) (R := rt) (t := .mkSeg p (A ++ B ++ z :: K))
    (dk := (K.length + 1, pp)) hE.base c (m := m2) hy (by simp) rfl rfl (H2.eqv (by
      unfold EraMem
      simp only [lays_cons, lays_nil, lay_mkSeg, keys_cons, keys_nil, List.length_cons, List.length_nil,
        show key (.mkSeg p (A ++ B ++ z :: K)) = (E.segMin * 2 - 1, p) by simp [key, Tree.size]; omega,
        List.cons_append, List.nil_append, add_zero]
      ac_rfl))
  refine ⟨m3, h', ⟨⟨p, A.length, E.segMin * 2 - 1⟩, res⟩, _, e1.trans ((bind_ok e2).trans (bind_ok e3)), r2, ?_, ?_, ⟨by
      simp only [Ctx.fill_blocks, Tree.blocks_mkNode, Tree.blocks_mkSeg, blocksL_cons, blocksL_append, blocksL_nil, List.length_nil] at r6 ⊢
      rw [show 0 + 2 + rt.length = rt.length + 2 by omega] at r6
      omega, by simpa [Nat.add_comm 2] using r7, ?_⟩, r5.eqv ?_⟩
  · rw [Ctx.fill_elems, r3, r4]; simp
  · refine ⟨ct, _, A.length, rfl, by rw [r3]; simp, ?_, by simp⟩
    rw [r1]
    simp [entryOf, leafOf]; omega
  · refine ⟨by simp [Ctx.pre], by simp [Ctx.pre], fun hev => ?_, fun h => absurd (by simp; omega) h, fun _ _ h => ?_⟩
    · have := r8.cost hev
      simp only [Ctx.fill_pot, Ctx.pot_step, Tree.pot_seg, potL_nil, potL_cons, List.length_nil, List.length_cons] at this ⊢
      rw [show 0 + 1 + (rt.length + 1) = 0 + 2 + rt.length by omega]
      omega
    · simp [Ctx.slim_step] at h
  · rw [objOf_era hx.symm]
    rw [fill_size, r3, r4, fill_size]
    simp [Tree.size]; omega

theorem eraSegRotPrev (hE : E.Good) (hc : (Ctx.step gp (lt ++ [.mkSeg pp (K ++ [z])]) rt c).Ok E)
    (hW : (c.fill (.mkNode gp (lt ++ .mkSeg pp (K ++ [z]) :: .mkSeg p (A ++ d :: B) :: rt))).size < E.W)
    (hm : A.length + B.length + 1 = E.segMin) (hK : K.length + 1 ≠ E.segMin)
    (H : Holds g (pt (.heap gp) (IsNode w c.hdr.1 c.hdr.2 (keys lt ++ (K.length + 1, pp) :: (A.length + B.length + 1, p) ::
        keys rt)) +
      (pt (.heap p) (IsSeg E w (A ++ d :: B)) + (pt (.heap pp) (IsSeg E w (K ++ [z])) + (lays E w gp 0 lt +
      (lays E w gp (lt.length + 2) rt +
      (c.lay E w gp (elemsL (lt ++ .mkSeg pp (K ++ [z]) :: .mkSeg p (A ++ d :: B) :: rt)).length +
      (Ob o (objOf (c.fill (.mkNode gp (lt ++ .mkSeg pp (K ++ [z]) :: .mkSeg p (A ++ d :: B) :: rt))) al nal) + F))))))) m) :
    EraSegPost E (.step gp (lt ++ [.mkSeg pp (K ++ [z])]) rt c) (.mkSeg p (A ++ d :: B)) (c.pre.length + (elemsL lt).length + K.length + 1 + A.length)
      (c.fill (.mkNode gp (lt ++ .mkSeg pp (K ++ [z]) :: .mkSeg p (A ++ d :: B) :: rt))).blocks (0, 0)
      o w al nal (c.pre.length + (elemsL lt).length + K.length + 1 + A.length)
      (c.pre ++ elemsL lt ++ K ++ [z] ++ A ++ (B ++ (elemsL rt ++ c.post))) g F
      ((do
        assign_forward_segment E p A.length 0 1
        move_assign_segment E pp K.length p 0
        destroy_segment E pp K.length
        setSizes E gp lt.length K.length
        let q ← parent gp
        let i ← pidx gp
        decrement_sizes E o q i
        return ⟨⟨p, A.length + 1, A.length + B.length + 1⟩, ⟨gp, lt.length + 1⟩⟩ : M α Entry) m) := by
  obtain ⟨c1, c2, c3, c4, c5⟩ := hc
  obtain ⟨x1, x2⟩ := Tree.wf_zero.1 (c1 (.mkSeg pp (K ++ [z])) (by simp))
  simp only [Tree.xs_mkSeg, List.length_cons, List.length_nil, List.length_append] at x1 x2 c3 c4
  have hmn := E.segMin_pos
  have hmm : 2 * E.segMin - 1 ≤ E.segMax := by unfold Env.segMin; omega
  generalize hob : Ob (α := α) o (objOf (c.fill (.mkNode gp (lt ++ .mkSeg pp (K ++ [z]) :: .mkSeg p (A ++ d :: B) :: rt))) al nal) = OB at H
  generalize hn : (elemsL (lt ++ Tree.mkSeg pp (K ++ [z]) :: .mkSeg p (A ++ d :: B) :: rt)).length = n at H
  obtain ⟨m1, e1, H1⟩ := segRotPrev_ok (n := K.length) (K := K) (z := z) (q := pp)
    (f := (do
      setSizes E gp lt.length K.length
      let q ← parent gp
      let i ← pidx gp
      decrement_sizes E o q i
      return ⟨⟨p, A.length + 1, A.length + B.length + 1⟩, ⟨gp, lt.length + 1⟩⟩ : M α Entry)) hE (by omega) (by omega) rfl
    (H.eqv (by frame : _ = pt (.heap p) (IsSeg E w (A ++ d :: B)) + (pt (.heap pp) (IsSeg E w (K ++ [z])) + _)))
  have H1 := H1.eqv (by frame : _ = pt (.heap gp) (IsNode w c.hdr.1 c.hdr.2
    (keys lt ++ (K.length + 1, pp) :: (A.length + B.length + 1, p) :: keys rt)) + _)
  obtain ⟨m2, e2, H2⟩ := nsetSize (E := E) (v := K.length) (j := lt.length) (by simp) (by simp; omega) H1
  subst hob hn
  obtain ⟨m3, e3, H3⟩ := eraSegTail (E := E) (o := o) (al := al) (nal := nal) (F := F) (w := w) (g := g)
    (f := (pure ⟨⟨p, A.length + 1, A.length + B.length + 1⟩, ⟨gp, lt.length + 1⟩⟩ : M α Entry))
    (K := lt ++ .mkSeg pp (K ++ [z]) :: .mkSeg p (A ++ d :: B) :: rt)
    (K' := lt ++ .mkSeg pp K :: .mkSeg p (z :: (A ++ B)) :: rt) c5 (by simp; omega) hW (m := m2) (H2.eqv (by
      simp only [lays_append, lays_cons, lay_mkSeg, keys_append, keys_cons, show key (.mkSeg pp K) = (K.length, pp) from rfl,
        show key (.mkSeg p (z :: (A ++ B))) = (A.length + B.length + 1, p) by simp [key, Tree.size], Nat.zero_add]
      ac_rfl))
  refine ⟨m3, h, ⟨⟨p, A.length + 1, A.length + B.length + 1⟩, ⟨gp, lt.length + 1⟩⟩, _,
    e1.trans ((bind_ok e2).trans e3), ?_, ?_, ?_, ⟨by simp [Ctx.fill_blocks], rfl, ?_⟩, H3⟩
  · have := (Ctx.fill_root (E := E) (.step gp (lt ++ [.mkSeg pp K]) rt c) (.mkSeg p (z :: (A ++ B)))).2 ⟨?_, ?_⟩
    · simpa only [Ctx.fill, List.append_assoc, List.cons_append, List.nil_append] using this
    · refine ⟨?_, c2, by simpa using c3, by simpa using c4, c5⟩
      rintro t' ht'
      rcases List.mem_append.1 ht' with ht' | ht'
      · exact c1 t' (by simp [ht'])
      · rw [List.mem_singleton.1 ht']
        exact Tree.wf_zero.2 ⟨by simp; omega, by simp; omega⟩
    · unfold Ctx.HoleOk
      rw [if_neg (by simp), Tree.wf_zero]
      simp; omega
  · rw [Ctx.fill_elems]; simp
  · refine ⟨.step gp (lt ++ [.mkSeg pp K]) rt c, .mkSeg p (z :: (A ++ B)), A.length + 1, ?_, ?_, ?_, by simp⟩
    · simp only [Ctx.fill, List.append_assoc, List.cons_append, List.nil_append]
    · simp [Ctx.pre]; omega
    · simp [entryOf, Ctx.hdr_step]
  · refine ⟨by simp [Ctx.pre]; omega, by simp [Ctx.pre]; omega, fun _ => ?_, fun h => absurd (by simp; omega) h, fun _ _ h => ?_⟩
    · simp [Ctx.fill_pot]
      rw [show lt.length + (rt.length + 1 + 1) = lt.length + 1 + 1 + rt.length by omega]; omega
    · simp [Ctx.slim_step, Env.least] at h
      omega

theorem eraSegMergePrev (hE : E.Good) (hc : (Ctx.step gp (lt ++ [.mkSeg pp K]) rt c).Ok E)
    (hW : (c.fill (.mkNode gp (lt ++ .mkSeg pp K :: .mkSeg p (A ++ d :: B) :: rt))).size < E.W)
    (hw1 : w = E.acls al) (hw2 : w = E.acls nal)
    (hm : A.length + B.length + 1 = E.segMin) (hK : K.length = E.segMin)
    (H : Holds g (pt (.heap gp) (IsNode w c.hdr.1 c.hdr.2 (keys lt ++ (K.length, pp) :: (A.length + B.length + 1, p) ::
        keys rt)) +
      (pt (.heap p) (IsSeg E w (A ++ d :: B)) + (pt (.heap pp) (IsSeg E w K) + (lays E w gp 0 lt +
      (lays E w gp (lt.length + 2) rt +
      (c.lay E w gp (elemsL (lt ++ .mkSeg pp K :: .mkSeg p (A ++ d :: B) :: rt)).length +
      (Ob o (objOf (c.fill (.mkNode gp (lt ++ .mkSeg pp K :: .mkSeg p (A ++ d :: B) :: rt))) al nal) + F))))))) m) :
    EraSegPost E (.step gp (lt ++ [.mkSeg pp K]) rt c) (.mkSeg p (A ++ d :: B)) (c.pre.length + (elemsL lt).length + K.length + A.length)
      (c.fill (.mkNode gp (lt ++ .mkSeg pp K :: .mkSeg p (A ++ d :: B) :: rt))).blocks
      ((c.joins E (lt.length + 2 + rt.length)).1 + 1, (c.joins E (lt.length + 2 + rt.length)).2)
      o w al nal (c.pre.length + (elemsL lt).length + K.length + A.length)
      (c.pre ++ elemsL lt ++ K ++ A ++ (B ++ (elemsL rt ++ c.post))) g F
      ((do
        construct_range_segment E p 0 pp K.length A.length
        let ml ← usub (A.length + B.length) A.length
        construct_range_segment E p (A.length + 1) pp (K.length + A.length) ml
        destroy_segment E p A.length
        deallocate_segment E o p
        setSizes E gp lt.length (E.segMin * 2 - 1)
        let l ← erase_single_leaf E o ⟨gp, lt.length⟩ gp (lt.length + 1)
        return ⟨⟨pp, A.length + E.segMin, E.segMin * 2 - 1⟩, l⟩ : M α Entry) m) := by
  obtain ⟨c1, c2, c3, c4, c5⟩ := hc
  simp only [List.length_cons, List.length_nil, List.length_append] at c3 c4
  have hmn := E.segMin_pos
  have hmm : 2 * E.segMin - 1 ≤ E.segMax := by unfold Env.segMin; omega
  generalize hx : objOf (c.fill (.mkNode gp (lt ++ .mkSeg pp K :: .mkSeg p (A ++ d :: B) :: rt))) al nal = x at H
  generalize hn : (elemsL (lt ++ Tree.mkSeg pp K :: .mkSeg p (A ++ d :: B) :: rt)).length = n at H
  have hsz : x.sz = n + c.out := by
    rw [← hx, ← hn]; simp only [objOf, fill_size]; simp [Tree.size, Ctx.out]; omega
  obtain ⟨m1, e1, H1⟩ := segMergePrev_ok (n := K.length) (l := A.length + B.length) (K := K) (q := pp) (o := o) (x := x)
    (f := (do
      setSizes E gp lt.length (E.segMin * 2 - 1)
      let l ← erase_single_leaf E o ⟨gp, lt.length⟩ gp (lt.length + 1)
      return ⟨⟨pp, A.length + E.segMin, E.segMin * 2 - 1⟩, l⟩ : M α Entry)) hE rfl (by omega) (by omega) rfl
    (by rw [← hx]; exact hw1)
    (H.eqv (by frame : _ = pt (.heap p) (IsSeg E w (A ++ d :: B)) + (pt (.heap pp) (IsSeg E w K) +
      (Ob o x + _))))
  have H1 := H1.eqv (by frame : _ = pt (.heap gp) (IsNode w c.hdr.1 c.hdr.2
    (keys lt ++ (K.length, pp) :: (A.length + B.length + 1, p) :: keys rt)) + _)
  obtain ⟨m2, e2, H2⟩ := nsetSize (E := E)
    (v := E.segMin * 2 - 1) (j := lt.length) (by simp) (by simp; omega) H1
  have hy : EraHyp E w x c gp (lt ++ [.mkSeg pp (K ++ (A ++ B))]) rt n := by
    refine ⟨c5, ?_, by simp; omega, by simp; omega, ?_, hsz, by rw [← hx]; exact hW, by rw [← hx]; rfl, ?_,
      by rw [← hx]; exact hw2⟩
    · rintro t' ht'
      simp only [List.mem_append, List.mem_cons, List.not_mem_nil, or_false] at ht'
      rcases ht' with (ht' | rfl) | ht'
      · exact c1 t' (by simp [ht'])
      · exact Tree.wf_zero.2 ⟨by simp; omega, by simp; omega⟩
      · exact c2 t' ht'
    · rw [← hn]; simp; omega
    · rw [← hx]; simp [objOf, Ctx.fill_addr]
  obtain ⟨res, m3, e3, h', ct, r1, r2, r3, r4, ⟨r6, r7, r8⟩, r5⟩ := erase_single_leaf_ok (E := E) (o := o) (F := F) (w := w) (g := g)
    (i := lt.length) (j := lt.length + 1) (L := lt) (R := rt) (t := .mkSeg pp (K ++ (A ++ B)))
    (dk := (A.length + B.length + 1, p)) hE.base c (m := m2) hy (by simp) rfl (by simp) (H2.eqv (by
      unfold EraMem
      simp only [lays_append, lays_cons, lays_nil, lay_mkSeg, keys_append, keys_cons, keys_nil, List.length_append,
        List.length_cons, List.length_nil,
        show key (.mkSeg pp (K ++ (A ++ B))) = (E.segMin * 2 - 1, pp) by simp [key, Tree.size]; omega,
        List.append_assoc, List.cons_append, List.nil_append, add_zero, Nat.zero_add]
      ac_rfl))
  refine ⟨m3, h', ⟨⟨pp, A.length + E.segMin, E.segMin * 2 - 1⟩, res⟩, _, e1.trans ((bind_ok e2).trans (bind_ok e3)),
    r2, ?_, ?_, ⟨by
      simp only [Ctx.fill_blocks, Tree.blocks_mkNode, Tree.blocks_mkSeg, blocksL_cons, blocksL_append, blocksL_nil, List.length_nil] at r6 ⊢
      omega, by exact r7, ?_⟩, r5.eqv ?_⟩
  · rw [Ctx.fill_elems, r3, r4]; simp
  · refine ⟨ct, _, A.length + E.segMin, rfl, by rw [r3]; simp; omega, ?_, by simp; omega⟩
    rw [r1]
    simp [entryOf, leafOf]; omega
  · refine ⟨by simp [Ctx.pre]; omega, by simp [Ctx.pre]; omega, fun hev => ?_, fun h => absurd (by simp; omega) h, fun hod _ h => ?_⟩
    · have := r8.cost hev
      simp only [Ctx.fill_pot, Ctx.pot_step, Tree.pot_seg, potL_nil, potL_cons, potL_append, List.length_nil, List.length_cons,
        List.length_append] at this ⊢
      rw [show lt.length + (0 + 1) + 1 + rt.length = lt.length + 2 + rt.length by omega]
      omega
    · rw [Ctx.slim_step] at h
      obtain ⟨h1, -, h2⟩ := h
      refine ⟨ct, _, rfl, r8.brim hod h1 ?_, by simp; omega⟩
      rcases h2 with ⟨h2, h3⟩ | ⟨h2, h3⟩
      · exact .inl ⟨h2, List.length_eq_zero_iff.1 (by simpa using h3)⟩
      · exact .inr ⟨by simpa using h2, h3⟩
  · rw [objOf_era hx.symm]
    rw [fill_size, r3, r4, fill_size]
    simp [Tree.size]; omega

end

theorem erase_single_segment_ok {h o w al nal i : Nat} {t : Tree α h} {e : Entry} (hE : E.Good)
    (hr : t.Root E) (he : At t i e) (hi : i < t.size) (hW : t.size < E.W) (hw1 : w = E.acls al) (hw2 : w = E.acls nal)
    (H : Holds g (lay E w 0 0 t + (Ob o (objOf t al nal) + F)) m) :
    (t.size = 1 ∧ (t.blocks = 1 ∧ h = 0) ∧ ∃ m', erase_single_segment E o e m = .ok ⟨⟨0, 0, 0⟩, ⟨0, 0⟩⟩ m' ∧
      Holds g (Ob o (objNil al nal) + F) m') ∨
    (∃ m' h' e', ∃ t' : Tree α h', erase_single_segment E o e m = .ok e' m' ∧ t'.Root E ∧
      t'.elems = t.elems.take i ++ t.elems.drop (i + 1) ∧ Near t' i e' ∧ ShrunkBy E t i e t' ∧
      Holds g (lay E w 0 0 t' + (Ob o (objOf t' al nal) + F)) m') := by
  obtain ⟨c, s, j, rfl, rfl, rfl, hj⟩ := he
  have hj : j < s.xs.length := by
    rcases hj with hj | ⟨hj, hp⟩
    · exact hj
    · rw [fill_size, hp] at hi
      have : s.size = s.xs.length := rfl
      simp at hi; omega
  obtain ⟨hc, hs⟩ := (Ctx.fill_root c s).1 hr
  have hsr : s.Root E := Ctx.holeOk_root hs
  rw [Tree.root_zero] at hsr
  have hsm := E.segMax_pos
  have hmn := E.segMin_pos
  have hmm : 2 * E.segMin - 1 ≤ E.segMax := by unfold Env.segMin; omega
  have hbase := hE.base
  obtain ⟨p, A, d, B, rfl, rfl⟩ : ∃ p A d B, s = .mkSeg p (A ++ d :: B) ∧ A.length = j := by
    refine ⟨s.addr, s.xs.take j, s.xs[j], s.xs.drop (j + 1), ?_, ?_⟩
    · rw [List.getElem_cons_drop, List.take_append_drop]; rfl
    · rw [List.length_take]; omega
  simp only [Tree.xs_mkSeg, List.length_append, List.length_cons] at hsr hj
  have helems : (c.fill (.mkSeg p (A ++ d :: B))).elems = (c.pre ++ A) ++ d :: (B ++ c.post) := by
    rw [Ctx.fill_elems, Tree.elems_mkSeg]; simp
  have hsize : (Tree.mkSeg p (A ++ d :: B)).size = A.length + B.length + 1 := by simp [Tree.size]; omega
  rw [del_split helems (by simp)]
  have H0 := H
  rw [Ctx.fill_lay, aassoc] at H
  have htop : c.hdr.1 = 0 ↔ c.isTop = true :=
    Ctx.isTop_hdr (H.eqv (by frame : _ = c.lay E w (Tree.mkSeg p (A ++ d :: B)).addr (Tree.mkSeg p (A ++ d :: B)).size + _))
  rw [lay_mkSeg] at H
  obtain ⟨q, hq⟩ : ∃ q, c.hdr.1 = q := ⟨_, rfl⟩
  obtain ⟨j, hj2⟩ : ∃ j, c.hdr.2 = j := ⟨_, rfl⟩
  have hentry : entryOf c (.mkSeg p (A ++ d :: B)) A.length = ⟨⟨p, A.length, A.length + B.length + 1⟩, ⟨q, j⟩⟩ := by
    simp only [entryOf, hq, hj2, Tree.addr_mkSeg, Tree.xs_mkSeg, List.length_append, List.length_cons]; rfl
  rw [hentry]
  unfold erase_single_segment
  simp only []
  by_cases hroot : A.length + B.length + 1 = 1 ∧ (E.segMin ≠ 1 ∨ q = 0)
  · left
    rw [if_pos hroot]
    have hct : c.isTop = true := by
      rcases hroot.2 with h1 | h1
      · by_contra hne
        rw [Ctx.HoleOk, if_neg hne, Tree.wf_zero] at hs
        simp at hs
        omega
      · exact htop.1 (hq.trans h1)
    cases c with
    | step => simp at hct
    | top =>
    have hA : A = [] := List.length_eq_zero_iff.1 (by omega)
    have hB : B = [] := List.length_eq_zero_iff.1 (by omega)
    subst hA hB
    simp only [Ctx.hdr_top] at hq hj2
    subst hq hj2
    refine ⟨rfl, ⟨rfl, rfl⟩, ?_⟩
    simp only [Ctx.lay, zero_add, List.nil_append] at H
    obtain ⟨m1, e1, H1⟩ := eraSegEmpty_ok (f := (pure ⟨⟨0, 0, 0⟩, ⟨0, 0⟩⟩ : M α Entry)) hw1 H
    exact ⟨m1, e1, H1⟩
  right
  rw [if_neg hroot, bind_ok (usub_ok (by omega) _), Nat.add_sub_cancel]
  by_cases hsh : A.length + B.length + 1 ≠ E.segMin ∨ q = 0
  · rw [if_pos hsh]
    obtain ⟨m1, e1, H1⟩ := segDrop_ok (n := A.length + B.length)
      (f := (do
        decrement_sizes E o q j
        return ⟨⟨p, A.length, A.length + B.length⟩, ⟨q, j⟩⟩ : M α Entry)) hE rfl (by omega) H
    obtain ⟨m2, e2, H2⟩ := decrement_in_place (E := E) (c := c) (s := .mkSeg p (A ++ d :: B))
      (s' := .mkSeg p (A ++ B)) rfl (by rw [hsize]; simp [Tree.size]) hc hW H1
    refine ⟨m2, h, ⟨⟨p, A.length, A.length + B.length⟩, ⟨q, j⟩⟩, _, e1.trans ?_, ?_, ?_, ⟨c, .mkSeg p (A ++ B), A.length, rfl, by simp, ?_, by simp⟩, ?_, H2⟩
    · rw [← hq, ← hj2, bind_ok e2]; rfl
    · rw [Ctx.fill_root]
      refine ⟨hc, ?_⟩
      unfold Ctx.HoleOk at hs ⊢
      split
      · rename_i h1
        have := htop.2 h1
        rw [Tree.root_zero]; simp; omega
      · rename_i h1
        have : c.hdr.1 ≠ 0 := fun h => h1 (htop.1 h)
        rw [if_neg h1, Tree.wf_zero] at hs
        simp at hs
        rw [Tree.wf_zero]; simp; omega
    · rw [Ctx.fill_elems]; simp
    · simp [entryOf, hq, hj2]
    · have hJ : c.joins E (A.length + B.length + 1) = (0, 0) := by
        cases c with
        | top => rw [Ctx.joins_top, if_pos (.inl rfl)]
        | step =>
          rw [Ctx.joins_step, if_pos]
          have : ¬ _ := fun e => absurd (htop.1 e) (by simp)
          left; unfold Env.least; rw [if_pos rfl]; omega
      refine ⟨c, .mkSeg p (A ++ d :: B), rfl, ?_, by simp; omega, ?_, ?_, ?_⟩
      · simp [leafOf, hq, hj2]
      · rw [show (Tree.mkSeg p (A ++ d :: B)).xs.length = A.length + B.length + 1 by simp; omega, hJ]
        simp [Ctx.fill_blocks]
      · rw [show (Tree.mkSeg p (A ++ d :: B)).xs.length = A.length + B.length + 1 by simp; omega, hJ]; rfl
      · refine ⟨by omega, by simp, fun _ => by simp [Ctx.fill_pot], fun _ h => ⟨c, _, rfl, h, by simp⟩, fun _ hm h => ?_⟩
        exfalso
        have h1 := h.not_top
        rcases hsh with h2 | h2
        · exact h2 (by simpa [Nat.add_assoc] using hm)
        · have := htop.1 (hq.trans h2)
          rw [h1] at this; cases this
  rw [if_neg hsh]
  have hbm : A.length + B.length + 1 = E.segMin := by omega
  have hne0 : q ≠ 0 := by omega
  clear hroot hsh htop
  cases c with
  | top => exact absurd hq.symm (by simpa [Ctx.hdr_top] using hne0)
  | step gp l r c =>
  simp only [Ctx.hdr_step] at hq hj2
  subst hq hj2
  have hc0 := hc
  obtain ⟨c1, c2, c3, c4, c5⟩ := hc
  have hout : ((Ctx.step gp l r c).fill (.mkSeg p (A ++ d :: B))).size =
      A.length + B.length + 1 + (elemsL l).length + (elemsL r).length + c.out := by
    rw [fill_size, hsize]; simp [Ctx.pre, Ctx.post, Ctx.out]; omega
  rcases List.eq_nil_or_concat l with rfl | ⟨lt, pv, rfl⟩
  · -- no previous sibling: use the next one
    rw [if_neg (by simp)]
    obtain ⟨nx, rt, rfl⟩ : ∃ nx rt, r = nx :: rt := by
      cases r with
      | nil => have := E.baseMin_ge; simp at c3; split at c3 <;> omega
      | cons a b => exact ⟨a, b, rfl⟩
    have hnx := c2 nx (by simp)
    rw [Tree.wf_zero] at hnx
    obtain ⟨x1, x2⟩ := hnx
    obtain ⟨z, K, hzK⟩ : ∃ z K, nx.xs = z :: K := by
      cases hk : nx.xs with
      | nil => simp [hk] at x1; omega
      | cons a b => exact ⟨a, b, rfl⟩
    obtain ⟨pp, rfl⟩ : ∃ pp, nx = .mkSeg pp (z :: K) := ⟨nx.addr, by rw [← hzK]; rfl⟩
    have hk1 : key (.mkSeg pp (z :: K)) = (K.length + 1, pp) := by simp [key, Tree.size]
    have H : Holds g (pt (.heap gp) (IsNode w c.hdr.1 c.hdr.2 ((A.length + B.length + 1, p) :: (K.length + 1, pp) ::
        keys rt)) +
      (pt (.heap p) (IsSeg E w (A ++ d :: B)) + (pt (.heap pp) (IsSeg E w (z :: K)) + (lays E w gp 2 rt +
      (c.lay E w gp (elemsL (.mkSeg p (A ++ d :: B) :: .mkSeg pp (z :: K) :: rt)).length +
      (Ob o (objOf (c.fill (.mkNode gp (.mkSeg p (A ++ d :: B) :: .mkSeg pp (z :: K) :: rt))) al nal) + F)))))) m := by
      refine H.eqv ?_
      simp only [Ctx.lay, Ctx.fill, lays_cons, lays_nil, lay_mkSeg, keys_cons, keys_nil, List.nil_append, List.length_nil,
        Nat.zero_add, zero_add, aassoc, Tree.addr_mkSeg, hsize, hk1]
      rw [show A.length + B.length + 1 + (elemsL ([] : List (Tree α 0))).length + (elemsL (.mkSeg pp (z :: K) :: rt)).length =
        (elemsL (.mkSeg p (A ++ d :: B) :: .mkSeg pp (z :: K) :: rt)).length by simp; omega]
      ac_rfl
    have hpost : B ++ (Ctx.step gp [] (.mkSeg pp (z :: K) :: rt) c).post = B ++ (z :: K ++ elemsL rt ++ c.post) := by
      simp [Ctx.post]
    rw [hpost, show (Ctx.step gp [] (.mkSeg pp (z :: K) :: rt) c).pre = c.pre by simp [Ctx.pre]]
    simp only [List.length_nil, List.length_cons, Nat.zero_add] at c3 c4 ⊢
    rw [bind_ok (nptr (a := [(A.length + B.length + 1, p)]) (k := (K.length + 1, pp)) (b := keys rt) (j := 1)
      rfl rfl (by simp; omega) H)]
    rw [bind_ok (nsize (a := [(A.length + B.length + 1, p)]) (k := (K.length + 1, pp)) (b := keys rt) (j := 1)
      rfl rfl (by simp; omega) H)]
    simp only
    by_cases hmin : K.length + 1 ≠ E.segMin
    · rw [if_pos hmin, bind_ok (usub_ok (by omega) _), Nat.add_sub_cancel]
      exact (eraSegRotNext hE hc0 hW hbm hmin H).shrunk (c := .step gp [] (.mkSeg pp (z :: K) :: rt) c) (s := .mkSeg p (A ++ d :: B)) rfl rfl (by simp [leafOf, Ctx.hdr_step]) (by simp; omega) (by
        rw [Ctx.joins_step, if_pos]
        right; unfold Env.least; rw [if_pos rfl]; simpa using hmin)
    · rw [if_neg hmin]
      exact (eraSegMergeNext hE hc0 hW hw1 hw2 hbm (by omega) H).shrunk (c := .step gp [] (.mkSeg pp (z :: K) :: rt) c) (s := .mkSeg p (A ++ d :: B)) rfl rfl (by simp [leafOf, Ctx.hdr_step]) (by simp; omega) (by
        rw [Ctx.joins_step, if_neg (by
          rw [not_or, not_not, not_not]
          unfold Env.least; rw [if_pos rfl]
          exact ⟨by simp; omega, by simp; omega⟩)]
        rw [show ([] : List (Tree α 0)).length + 1 + (Tree.mkSeg pp (z :: K) :: rt).length = rt.length + 2 by simp; omega])
  · rw [if_pos (show _ ≠ _ by simp)]
    rw [List.concat_eq_append] at *
    have hpv := c1 pv (by simp)
    rw [Tree.wf_zero] at hpv
    obtain ⟨x1, x2⟩ := hpv
    obtain ⟨pp, Q, rfl⟩ : ∃ pp Q, pv = .mkSeg pp Q := ⟨pv.addr, pv.xs, rfl⟩
    simp only [Tree.xs_mkSeg] at x1 x2
    have hk1 : key (.mkSeg pp Q) = (Q.length, pp) := by simp [key, Tree.size]
    have H : Holds g (pt (.heap gp) (IsNode w c.hdr.1 c.hdr.2 (keys lt ++ (Q.length, pp) :: (A.length + B.length + 1, p) ::
        keys r)) +
      (pt (.heap p) (IsSeg E w (A ++ d :: B)) + (pt (.heap pp) (IsSeg E w Q) + (lays E w gp 0 lt +
      (lays E w gp (lt.length + 2) r +
      (c.lay E w gp (elemsL (lt ++ .mkSeg pp Q :: .mkSeg p (A ++ d :: B) :: r)).length +
      (Ob o (objOf (c.fill (.mkNode gp (lt ++ .mkSeg pp Q :: .mkSeg p (A ++ d :: B) :: r))) al nal) + F))))))) m := by
      refine H.eqv ?_
      simp only [Ctx.lay, Ctx.fill, lays_append, lays_cons, lays_nil, lay_mkSeg, keys_append, keys_cons, keys_nil,
        List.append_assoc, List.cons_append, List.nil_append, List.length_append, List.length_cons, List.length_nil,
        Nat.zero_add, zero_add, add_zero, aassoc, Tree.addr_mkSeg, hsize, hk1]
      rw [show A.length + B.length + 1 + (elemsL (lt ++ [.mkSeg pp Q])).length + (elemsL r).length =
        (elemsL (lt ++ .mkSeg pp Q :: .mkSeg p (A ++ d :: B) :: r)).length by simp; omega]
      ac_rfl
    simp only [List.length_append, List.length_nil, List.length_cons, Nat.zero_add] at c3 c4 ⊢
    have hW : (c.fill (.mkNode gp (lt ++ .mkSeg pp Q :: .mkSeg p (A ++ d :: B) :: r))).size < E.W := by
      simpa only [Ctx.fill, List.append_assoc, List.cons_append, List.nil_append] using hW
    rw [show (Ctx.step gp (lt ++ [.mkSeg pp Q]) r c).pre = c.pre ++ elemsL lt ++ Q by simp [Ctx.pre],
      show (Ctx.step gp (lt ++ [.mkSeg pp Q]) r c).post = elemsL r ++ c.post by simp [Ctx.post], Nat.add_sub_cancel]
    rw [bind_ok (nptr (a := keys lt) (k := (Q.length, pp)) (b := (A.length + B.length + 1, p) :: keys r) (j := lt.length)
      rfl (by simp) (by simp; omega) H)]
    rw [bind_ok (nsize (a := keys lt) (k := (Q.length, pp)) (b := (A.length + B.length + 1, p) :: keys r) (j := lt.length)
      rfl (by simp) (by simp; omega) H)]
    simp only
    by_cases hmin : Q.length ≠ E.segMin
    · rw [if_pos hmin, bind_ok (usub_ok (by omega) _)]
      obtain ⟨K, z, rfl⟩ : ∃ K z, Q = K ++ [z] := snoc_of_ne (by intro e; simp [e] at x1; omega)
      simp only [List.length_append, List.length_cons, List.length_nil, Nat.zero_add, Nat.add_sub_cancel] at hmin H ⊢
      have := (eraSegRotPrev hE hc0 hW hbm hmin H).shrunk (e := ⟨⟨p, A.length, A.length + B.length + 1⟩, ⟨gp, lt.length + 1⟩⟩)
        (c := .step gp (lt ++ [.mkSeg pp (K ++ [z])]) r c) (s := .mkSeg p (A ++ d :: B)) rfl (by simp [Ctx.fill]) (by simp [leafOf, Ctx.hdr_step]) (by simp; omega) (by
        rw [Ctx.joins_step, if_pos]
        right; unfold Env.least; rw [if_pos rfl]; simpa using hmin)
      simpa only [List.append_assoc, Nat.add_assoc] using this
    · rw [if_neg hmin]
      have := (eraSegMergePrev hE hc0 hW hw1 hw2 hbm (by omega) H).shrunk (e := ⟨⟨p, A.length, A.length + B.length + 1⟩, ⟨gp, lt.length + 1⟩⟩)
        (c := .step gp (lt ++ [.mkSeg pp Q]) r c) (s := .mkSeg p (A ++ d :: B)) rfl (by simp [Ctx.fill]) (by simp [leafOf, Ctx.hdr_step]) (by simp; omega) (by
        rw [Ctx.joins_step, if_neg (by
          rw [not_or, not_not, not_not]
          unfold Env.least; rw [if_pos rfl]
          exact ⟨by simp; omega, by simp; omega⟩)]
        simp)
      simpa only [List.append_assoc, Nat.add_assoc, List.length_append] using this

end SegTree
