/-
  Reading and writing through iterators, single insertion and erasure, purge,
  on containers.
-/
import Verif.Proof.State
set_option autoImplicit false
set_option linter.unusedSimpArgs false

namespace SegTree

variable {α β γ : Type} {E : Env α} {g : Log} {F : Asrt α} {m : Mem α}

/-! ### trees that differ only in element values -/

/-- same blocks, same number of elements in every block -/
def Tree.Same : {k : Nat} → Tree α k → Tree α k → Prop
  | 0, t, t' => t.1 = t'.1 ∧ t.2.length = t'.2.length
  | _ + 1, t, t' => t.1 = t'.1 ∧ List.Forall₂ Tree.Same t.2 t'.2

theorem Tree.Same.refl : {k : Nat} → (t : Tree α k) → t.Same t
  | 0, _ => ⟨rfl, rfl⟩
  | _ + 1, _ => ⟨rfl, List.forall₂_same.2 fun c _ => Tree.Same.refl c⟩

theorem Tree.Same.addr {k : Nat} {t t' : Tree α k} (h : t.Same t') : t.addr = t'.addr := by
  cases k <;> exact h.1

theorem sameL_len {k : Nat} {l l' : List (Tree α k)} (ih : ∀ t ∈ l, ∀ t', t.Same t' → t.elems.length = t'.elems.length)
    (h : List.Forall₂ Tree.Same l l') : (elemsL l).length = (elemsL l').length := by
  induction h with
  | nil => rfl
  | cons h1 h2 ih' =>
    simp only [elemsL_cons, List.length_append]
    rw [ih _ (by simp) _ h1, ih' (fun t ht => ih t (by simp [ht]))]

theorem Tree.Same.len : {k : Nat} → {t t' : Tree α k} → t.Same t' → t.elems.length = t'.elems.length
  | 0, _, _, h => h.2
  | _ + 1, _, _, h => sameL_len (fun _ _ _ h => h.len) h.2

theorem Ctx.Same_fill {h k : Nat} (c : Ctx α h k) {t t' : Tree α k} (H : t.Same t') : (c.fill t).Same (c.fill t') := by
  induction c with
  | top => exact H
  | step a l r c ih =>
    apply ih
    refine ⟨rfl, ?_⟩
    show List.Forall₂ Tree.Same (l ++ t :: r) (l ++ t' :: r)
    refine List.rel_append (List.forall₂_same.2 fun c _ => Tree.Same.refl c)
      (.cons H (List.forall₂_same.2 fun c _ => Tree.Same.refl c))

theorem Ctx.Same_split {h k : Nat} (c : Ctx α h k) : ∀ {t : Tree α k} {u : Tree α h}, (c.fill t).Same u →
    ∃ (c' : Ctx α h k) (t' : Tree α k), c'.fill t' = u ∧ t.Same t' ∧ c'.hdr = c.hdr ∧
      c'.pre.length = c.pre.length ∧ c'.post.length = c.post.length := by
  induction c with
  | top => intro t u H; exact ⟨.top, u, rfl, H, rfl, rfl, rfl⟩
  | @step k a l r c ih =>
    intro t u H
    obtain ⟨c', t', e, hs, h1, h2, h3⟩ := ih (t := Tree.mkNode a (l ++ t :: r)) H
    have hk : List.Forall₂ Tree.Same (l ++ t :: r) t'.kids := hs.2
    have ha : t'.addr = a := hs.1.symm
    have hl : l.length ≤ t'.kids.length := by rw [← hk.length_eq]; simp
    obtain ⟨l', r', e', hl'⟩ : ∃ l' r', t'.kids = l' ++ r' ∧ l'.length = l.length :=
      ⟨t'.kids.take l.length, t'.kids.drop l.length, (List.take_append_drop _ _).symm, by simp; omega⟩
    rw [e'] at hk
    have hk1 := (List.forall₂_take_append (l ++ t :: r) l' r' hk)
    have hk2 := (List.forall₂_drop_append (l ++ t :: r) l' r' hk)
    rw [hl'] at hk1 hk2
    simp only [List.take_left, List.drop_left] at hk1 hk2
    cases hk2 with
    | @cons _ t'' _ r'' hh htl =>
      refine ⟨.step a l' r'' c', t'', ?_, hh, ?_, ?_, ?_⟩
      · rw [← e, Ctx.fill, Tree.eta1 t', ha, e']
      · simp only [Ctx.hdr, hl']
      · simp only [Ctx.pre, List.length_append, h2]
        rw [sameL_len (fun _ _ _ h => h.len) hk1]
      · simp only [Ctx.post, List.length_append, h3]
        rw [sameL_len (fun _ _ _ h => h.len) htl]

theorem At.same {h i : Nat} {t u : Tree α h} {e : Entry} (ha : At t i e) (hs : t.Same u) : At u i e := by
  obtain ⟨c, s, j, rfl, rfl, rfl, hj⟩ := ha
  obtain ⟨c', s', rfl, h1, h2, h3, h4⟩ := c.Same_split hs
  have hx : s.xs.length = s'.xs.length := h1.2
  refine ⟨c', s', j, rfl, by rw [h3], ?_, ?_⟩
  · simp only [entryOf, h2, hx, h1.addr]
  · rw [← hx]
    rcases hj with hj | ⟨hj, hp⟩
    · exact .inl hj
    · refine .inr ⟨hj, List.eq_nil_of_length_eq_zero (by rw [h4, hp]; rfl)⟩

theorem Tree.Same.trans : {k : Nat} → {t t' t'' : Tree α k} → t.Same t' → t'.Same t'' → t.Same t''
  | 0, _, _, _, h1, h2 => ⟨h1.1.trans h2.1, h1.2.trans h2.2⟩
  | k + 1, t, t', t'', h1, h2 => by
    refine ⟨h1.1.trans h2.1, ?_⟩
    have a := h1.2
    have b := h2.2
    revert a b
    generalize t.2 = x
    generalize t'.2 = y
    generalize t''.2 = z
    intro a
    induction a generalizing z with
    | nil => intro b; cases b; exact .nil
    | cons h _ ih => intro b; cases b with | cons h' b => exact .cons (h.trans h') (ih _ b)

/-- same blocks, same number of elements in every block -/
inductive St.Same : St α → St α → Prop
  | nil : St.Same .nil .nil
  | tree {h : Nat} {t t' : Tree α h} (hs : t.Same t') : St.Same (.tree t) (.tree t')

theorem St.Same.refl (s : St α) : s.Same s := by
  cases s with
  | nil => exact .nil
  | tree t => exact .tree (Tree.Same.refl t)
theorem St.Same.trans {s1 s2 s3 : St α} (h1 : s1.Same s2) (h2 : s2.Same s3) : s1.Same s3 := by
  cases h1 with
  | nil => exact h2
  | tree h1 => cases h2 with | tree h2 => exact .tree (h1.trans h2)
theorem St.At.same {s s' : St α} {i : Nat} {it : Iter} (h : s.At i it) (hs : s.Same s') : s'.At i it := by
  cases hs with
  | nil => exact h
  | tree hs => exact ⟨h.1, h.2.same hs⟩
theorem St.Same.ht {s s' : St α} (h : s.Same s') : s'.ht = s.ht := by cases h <;> rfl

/-! ### reading and writing elements -/

section
variable {o al i : Nat} {s : St α} {it : Iter}

theorem At.lt_seg {h : Nat} {t : Tree α h} {i : Nat} {e : Entry} (ha : SegTree.At t i e) (hi : i < t.elems.length) :
    ∃ (c : Ctx α h 0) (s : Tree α 0) (j : Nat), c.fill s = t ∧ c.pre.length + j = i ∧ e = entryOf c s j ∧
      j < s.xs.length := by
  obtain ⟨c, s, j, rfl, rfl, rfl, hj⟩ := ha
  refine ⟨c, s, j, rfl, rfl, rfl, ?_⟩
  rcases hj with hj | ⟨hj, hp⟩
  · exact hj
  · rw [Ctx.fill_elems, hp] at hi
    simp only [List.length_append, List.length_nil, Tree.elems_zero] at hi; omega

theorem rdElem_c (hs : s.Ok E) (ha : s.At i it) (hi : i < s.elems.length)
    (H : Holds g (cont E o al s + F) m) :
    rdElem E it.entry.seg.ptr it.entry.seg.idx m = .ok s.elems[i] m := by
  cases s with
  | nil => simp at hi
  | tree t =>
    obtain ⟨c, sg, j, hf, hp, he, hj⟩ := ha.2.lt_seg hi
    rw [he]
    subst hf
    obtain ⟨hc, hh⟩ := (Ctx.fill_root c sg).1 hs.2
    have hb : sg.xs.length ≤ E.segMax := (Tree.root_zero.1 (Ctx.holeOk_root hh)).2
    rw [cont_tree, Ctx.fill_lay, lay_zero, aassoc, aassoc] at H
    obtain ⟨sl, s1, s2, H⟩ := H.toSg
    have := s1 j hj
    rw [Nat.zero_add] at this
    simp only [entryOf]
    rw [rdElem_ok (by omega) this H]
    congr 1
    subst hp
    simp only [St.elems_tree, Ctx.fill_elems, Tree.elems_zero, List.append_assoc]
    rw [List.getElem_append_right (by omega), List.getElem_append_left (by omega)]
    congr 1; omega

theorem dereference_c (hs : s.Ok E) (ha : s.At i it) (hi : i < s.elems.length)
    (H : Holds g (cont E o al s + F) m) : dereference E it m = .ok s.elems[i] m := rdElem_c hs ha hi H

theorem wrElem_c (v : α) (hs : s.Ok E) (ha : s.At i it) (hi : i < s.elems.length)
    (H : Holds g (cont E o al s + F) m) :
    ∃ m' s', wrElem E it.entry.seg.ptr it.entry.seg.idx v m = .ok () m' ∧ s'.Ok E ∧
      s'.elems = s.elems.set i v ∧ (∀ j it, s.At j it → s'.At j it) ∧ s.Same s' ∧
      Holds g (cont E o al s' + F) m' := by
  cases s with
  | nil => simp at hi
  | @tree h t =>
    obtain ⟨c, sg, j, hf, hp, he, hj⟩ := ha.2.lt_seg hi
    rw [he]
    subst hf
    obtain ⟨hc, hh⟩ := (Ctx.fill_root c sg).1 hs.2
    have hb : sg.xs.length ≤ E.segMax := (Tree.root_zero.1 (Ctx.holeOk_root hh)).2
    rw [cont_tree, Ctx.fill_lay, lay_zero, aassoc, aassoc] at H
    obtain ⟨sl, s1, s2, H⟩ := H.toSg
    have hv : IsVal (sl j) := s1.isVal (Nat.zero_le _) (by omega)
    obtain ⟨m', e, H'⟩ := wrElem_ok v (by omega : j < E.segMax) (.inl hv) H
    have hsame : sg.Same (Tree.mkSeg sg.addr (sg.xs.set j v)) := by
      refine ⟨rfl, ?_⟩
      show sg.xs.length = (sg.xs.set j v).length
      simp
    have hel : (c.fill (Tree.mkSeg sg.addr (sg.xs.set j v))).elems = (c.fill sg).elems.set i v := by
      subst hp
      simp only [Ctx.fill_elems, Tree.elems_zero, Tree.xs_mkSeg, List.append_assoc]
      rw [List.set_append_right _ _ (by omega), List.set_append_left _ _ (by omega),
        show c.pre.length + j - c.pre.length = j by omega]
    refine ⟨m', .tree (c.fill (Tree.mkSeg sg.addr (sg.xs.set j v))), e, ⟨?_, ?_⟩, hel, ?_, .tree (c.Same_fill hsame), ?_⟩
    · have := hs.1
      simpa only [St.elems_tree, hel, List.length_set] using this
    · refine (Ctx.fill_root c _).2 ⟨hc, ?_⟩
      unfold Ctx.HoleOk at hh ⊢
      simp only [Tree.root_zero, Tree.wf_zero, Tree.xs_mkSeg, List.length_set] at hh ⊢
      exact hh
    · intro j' it' hat
      exact ⟨hat.1, hat.2.same (c.Same_fill hsame)⟩
    · have hsz : (Tree.mkSeg sg.addr (sg.xs.set j v)).size = sg.size := hsame.len.symm
      have hob : objOf (c.fill (Tree.mkSeg sg.addr (sg.xs.set j v))) al al = objOf (c.fill sg) al al := by
        unfold objOf
        rw [Ctx.fill_addr, Ctx.fill_addr, fill_size, fill_size, hsz, Tree.addr_mkSeg]
      rw [cont_tree, Ctx.fill_lay, lay_mkSeg, aassoc, aassoc, hob, hsz]
      refine H'.ofSg (xs := sg.xs.set j v) ?_ ?_
      · intro q hq
        simp only [List.length_set] at hq
        rw [Nat.zero_add]
        by_cases hqj : q = j
        · subst hqj; rw [upd_same, List.getElem_set_self]
        · rw [upd_ne hqj, List.getElem_set_ne (by omega)]
          have := s1 q hq
          rwa [Nat.zero_add] at this
      · intro q hq
        simp only [List.length_set] at hq
        rw [upd_ne (by omega)]
        exact s2 q hq

/-! ### insert one -/

theorem insert_segment_nil (v : α) (hE : E.Good) (hW : 1 < E.W) (H : Holds g (Ob o (objNil al al) + F) m) :
    (∃ m' a, insert_single_segment E o ⟨⟨0, 0, 0⟩, ⟨0, 0⟩⟩ v m = .ok ⟨⟨a, 0, 1⟩, ⟨0, 0⟩⟩ m' ∧
      Holds { g with reqs := g.reqs + 1 } (cont E o al (.tree (Tree.mkSeg a [v])) + F) m') ∨
    (∃ m', insert_single_segment E o ⟨⟨0, 0, 0⟩, ⟨0, 0⟩⟩ v m = .throw .alloc m' ∧ m'.cell = m.cell ∧
      Holds ⟨g.reqs + 1, g.fails + 1⟩ (Ob o (objNil al al) + F) m') := by
  have hsm := E.segMax_pos
  unfold insert_single_segment
  rw [if_neg (by simp), if_pos rfl]
  have ea : allocate_segment E o m = allocCell E (.seg (E.acls al) (fun _ => .raw)) m := by
    unfold allocate_segment
    rw [bind_ok (rdObj_ok H)]; rfl
  rcases allocCell_cases (E := E) (.seg (E.acls al) (fun _ => .raw)) H with ⟨a, m1, e1, H1⟩ | ⟨m1, e1, hc, H1⟩
  · rw [bind_ok (ea.trans e1)]
    obtain ⟨m2, e2, H2⟩ := setRoot_ok a (H1.eqv (by frame : _ = Ob o (objNil al al) + (_ + _)))
    rw [bind_ok e2]
    obtain ⟨m3, e3, H3⟩ := setSize_ok 1 H2
    rw [bind_ok e3]
    obtain ⟨m4, e4, H4⟩ := setHeight_ok 1 H3
    rw [bind_ok e4]
    obtain ⟨m5, e5, H5⟩ := construct_segment_ok (p := a) (w := E.acls al) (s := fun _ => .raw) v hE hsm
      (.inl rfl : Free E (Slot.raw)) (H4.eqv (by rw [← aassoc, add_comm (Ob o _), aassoc]; rfl))
    rw [bind_ok e5]
    refine .inl ⟨m5, a, rfl, ?_⟩
    rw [cont_tree, lay_mkSeg, aassoc]
    refine H5.ofSg ?_ ?_
    · rw [SArr_one, upd_same]
    · intro i hi
      simp only [List.length_cons, List.length_nil] at hi
      rw [upd_ne (by omega)]; exact .inl rfl
  · rw [bind_throw (ea.trans e1)]
    exact .inr ⟨m1, rfl, hc, H1⟩

/-- how much a container grows by an insertion at `it`: `n` blocks -/
def St.GrownBy (E : Env α) (i : Nat) (it : Iter) (n : Nat) : St α → St α → Prop
  | .nil, .tree (h := h') t' => n = 1 ∧ h' = 0 ∧ t'.pot E = 0
  | .tree t, .tree t' => SegTree.GrownBy E t i it.entry n t'
  | _, .nil => False

/-- outcome of inserting `v` at `i` -/
theorem insert_iterator_x (v : α) (hE : E.Good) (hs : s.Ok E) (ha : s.At i it) (hW : s.elems.length + 1 < E.W)
    (H : Holds g (cont E o al s + F) m) :
    Spec (insert_single_iterator E o it v) m
      (fun it' m' => ∃ s' n, s'.Ok E ∧ s'.elems = s.elems.take i ++ v :: s.elems.drop i ∧ s'.At i it' ∧
        n ≤ s.ht + 1 ∧ s.GrownBy E i it n s' ∧ Holds { g with reqs := g.reqs + n } (cont E o al s' + F) m')
      (fun e m' => e = .alloc ∧ m'.cell = m.cell ∧ ∃ n, n ≤ s.ht + 1 ∧ (s ≠ .nil → it.entry.seg.len = E.segMax) ∧
        Holds ⟨g.reqs + n, g.fails + 1⟩ (cont E o al s + F) m') := by
  unfold insert_single_iterator
  rw [hE.throws]
  simp only [Bool.false_eq_true, if_false]
  obtain ⟨e, p⟩ := it
  obtain ⟨rfl, h2⟩ := ha
  dsimp only at h2 ⊢
  cases s with
  | nil =>
    obtain ⟨rfl, rfl⟩ := h2
    rw [cont_nil] at H
    rcases insert_segment_nil v hE (by simpa using hW) H with ⟨m', a, e1, H1⟩ | ⟨m', e1, hc, H1⟩
    · refine Spec.step e1 (Spec.pure ⟨.tree (Tree.mkSeg a [v]), 1, ⟨by simpa using hW, ?_⟩, ?_, ⟨rfl, ?_⟩, by simp [St.ht], ⟨rfl, rfl, rfl⟩, H1⟩)
      · exact Tree.root_zero.2 ⟨by simp, by simpa using E.segMax_pos⟩
      · simp
      · exact At.mk_lt (c := .top) (s := Tree.mkSeg a [v]) (j := 0) (by simp) (by simp [Ctx.pre])
    · exact Spec.thr (bind_throw e1) ⟨rfl, hc, 1, by simp [St.ht], fun h => absurd rfl h, by rw [cont_nil]; exact H1⟩
  | tree t =>
    rw [cont_tree, aassoc] at H
    rcases insert_single_segment_ok v hE hs.2 h2 hW rfl rfl H with
      ⟨m', h', e', n, t', e1, k1, k2, k3, k4, k5, H1⟩ | ⟨m', n, e1, hc, h1, h2, h3, H1⟩
    · refine Spec.step e1 (Spec.pure ⟨.tree t', n, ⟨?_, k1⟩, k2, ⟨rfl, k3⟩, by simp only [St.ht]; omega, k5, ?_⟩)
      · simp only [St.elems_tree] at hW ⊢
        rw [k2]; simp; omega
      · rw [cont_tree, aassoc]; exact H1
    · refine Spec.thr (bind_throw e1) ⟨rfl, hc, n, by simp only [St.ht]; omega, fun _ => h3, ?_⟩
      rw [cont_tree, aassoc]; exact H1

theorem insert_iterator_c (v : α) (hE : E.Good) (hs : s.Ok E) (ha : s.At i it) (hW : s.elems.length + 1 < E.W)
    (H : Holds g (cont E o al s + F) m) :
    Spec (insert_single_iterator E o it v) m
      (fun it' m' => ∃ s' n, s'.Ok E ∧ s'.elems = s.elems.take i ++ v :: s.elems.drop i ∧ s'.At i it' ∧
        n ≤ s.ht + 1 ∧ Holds { g with reqs := g.reqs + n } (cont E o al s' + F) m')
      (fun e m' => e = .alloc ∧ m'.cell = m.cell ∧ ∃ n, n ≤ s.ht + 1 ∧
        Holds ⟨g.reqs + n, g.fails + 1⟩ (cont E o al s + F) m') := by
  refine (insert_iterator_x v hE hs ha hW H).mono ?_ ?_
  · rintro it' m' ⟨s', n, h1, h2, h3, h4, -, h5⟩
    exact ⟨s', n, h1, h2, h3, h4, h5⟩
  · rintro e m' ⟨h1, h2, n, h3, -, h4⟩
    exact ⟨h1, h2, n, h3, h4⟩

/-! ### erase one -/

/-- how much a container shrinks by an erasure at `it` -/
def St.ShrunkBy (E : Env α) (i : Nat) (it : Iter) : St α → St α → Prop
  | .nil, _ => False
  | .tree (h := h) t, .nil => t.size = 1 ∧ t.blocks = 1 ∧ h = 0
  | .tree t, .tree t' => SegTree.ShrunkBy E t i it.entry t'

theorem erase_single_x (hE : E.Good) (hs : s.Ok E) (ha : s.At i it) (hi : i < s.elems.length)
    (H : Holds g (cont E o al s + F) m) :
    Spec (erase_single E o it) m
      (fun it' m' => ∃ s', s'.Ok E ∧ s'.elems = s.elems.eraseIdx i ∧ s'.At i it' ∧ s.ShrunkBy E i it s' ∧
        Holds g (cont E o al s' + F) m') NoThrow := by
  obtain ⟨e, p⟩ := it
  obtain ⟨rfl, h2⟩ := ha
  dsimp only at h2 hi ⊢
  cases s with
  | nil => simp at hi
  | tree t =>
    have hi : p < t.size := hi
    have hW : t.size < E.W := hs.1
    rw [cont_tree, aassoc] at H
    unfold erase_single erase_single_iterator
    simp only [bind_assoc]
    rcases erase_single_segment_ok hE hs.2 h2 hi hW rfl rfl H with
      ⟨h1, h0, m', e1, H1⟩ | ⟨m', h', e', t', e1, k1, k2, k3, k4, H1⟩
    · refine Spec.step e1 ?_
      simp only [pure_bind, if_true]
      have hn : move_next_leaf E ⟨⟨0, 0, 0⟩, ⟨0, 0⟩⟩ m' = .ok ⟨⟨0, 0, 0⟩, ⟨0, 0⟩⟩ m' := by
        unfold move_next_leaf
        rw [if_pos rfl]; rfl
      refine Spec.step hn (Spec.pure ⟨.nil, ⟨by simp; omega, trivial⟩, ?_, ⟨rfl, by omega, rfl⟩, ⟨h1, h0⟩, ?_⟩)
      · have h1 : t.elems.length = 1 := h1
        obtain ⟨x, hx⟩ := List.length_eq_one_iff.1 h1
        have : p = 0 := by omega
        subst this
        simp [hx]
      · rw [cont_nil]; exact H1
    · have hel : t'.elems = t.elems.eraseIdx p := by rw [k2, List.eraseIdx_eq_take_drop_succ]
      have hOk : (St.tree t').Ok E := by
        refine ⟨?_, k1⟩
        have : t.elems.length < E.W := hW
        simp only [St.elems_tree, hel, List.length_eraseIdx]
        split <;> omega
      refine Spec.step e1 ?_
      simp only [pure_bind]
      obtain ⟨c, sg, j, rfl, hp, rfl, hj⟩ := k3
      obtain ⟨hc, hh⟩ := (Ctx.fill_root c sg).1 k1
      by_cases hjl : j = sg.xs.length
      · rw [if_pos (by simpa [entryOf] using hjl)]
        obtain ⟨e2, h3, h4⟩ := move_next_leaf_ok (j := j) hc H1
        refine Spec.step h3 (Spec.pure ⟨_, hOk, hel, ⟨rfl, ?_⟩, k4, by rw [cont_tree, aassoc]; exact H1⟩)
        dsimp only
        rw [← hp, hjl]; exact h4
      · rw [if_neg (by simpa [entryOf] using hjl)]
        refine Spec.pure ⟨_, hOk, hel, ⟨rfl, At.mk_lt (by omega) hp⟩, k4, by rw [cont_tree, aassoc]; exact H1⟩

theorem erase_single_c (hE : E.Good) (hs : s.Ok E) (ha : s.At i it) (hi : i < s.elems.length)
    (H : Holds g (cont E o al s + F) m) :
    Spec (erase_single E o it) m
      (fun it' m' => ∃ s', s'.Ok E ∧ s'.elems = s.elems.eraseIdx i ∧ s'.At i it' ∧
        Holds g (cont E o al s' + F) m') NoThrow := by
  refine (erase_single_x hE hs ha hi H).mono ?_ (fun _ _ h => h)
  rintro it' m' ⟨s', h1, h2, h3, -, h4⟩
  exact ⟨s', h1, h2, h3, h4⟩

/-! ### purge -/

theorem forN_destroy_ok {p w : Nat} (n : Nat) : ∀ {m : Mem α} {sl : Nat → Slot α} {i : Nat}, i + n ≤ E.segMax →
    (∀ j, i ≤ j → j < i + n → IsVal (sl j)) → Holds g (Sg p w sl + F) m →
    ∃ m' sl', forN (destroy_segment E p) n i m = .ok () m' ∧ Holds g (Sg p w sl' + F) m' ∧
      (∀ j, i ≤ j → j < i + n → sl' j = .raw) ∧ (∀ j, j < i ∨ i + n ≤ j → sl' j = sl j) := by
  induction n with
  | zero =>
    intro m sl i _ _ H
    exact ⟨m, sl, rfl, H, fun j h1 h2 => by omega, fun _ _ => rfl⟩
  | succ n ih =>
    intro m sl i hb hv H
    obtain ⟨m1, e1, H1⟩ := destroy_segment_ok (E := E) (by omega) (hv i (Nat.le_refl _) (by omega)) H
    obtain ⟨m2, sl', e2, H2, k1, k2⟩ := ih (i := i + 1) (by omega) (fun j h1 h2 => by
      rw [upd_ne (by omega)]; exact hv j (by omega) (by omega)) H1
    refine ⟨m2, sl', ?_, H2, ?_, ?_⟩
    · show (destroy_segment E p i >>= fun _ => forN (destroy_segment E p) n (i + 1)) m = _
      rw [bind_ok e1]; exact e2
    · intro j h1 h2
      by_cases hji : j = i
      · subst hji; rw [k2 j (by omega), upd_same]
      · exact k1 j (by omega) (by omega)
    · intro j hj
      rw [k2 j (by omega), upd_ne (by omega)]

theorem purge_segment_ok {w p : Nat} {x : SeqObj} {xs : List α} (hb : xs.length ≤ E.segMax)
    (hw : w = E.acls x.ealloc)
    (H : Holds g (pt (.heap p) (IsSeg E w xs) + (Ob o x + F)) m) :
    ∃ m', purge_segment E o p xs.length m = .ok () m' ∧ Holds g (Ob o x + F) m' := by
  obtain ⟨sl, s1, s2, H⟩ := H.toSg
  unfold purge_segment
  by_cases ht : E.trivDtor = true
  · rw [if_pos ht]
    exact deallocate_segment_ok hw (fun i _ => .inr ht) H
  · rw [if_neg ht]
    obtain ⟨m1, sl', e1, H1, k1, k2⟩ := forN_destroy_ok (E := E) xs.length (i := 0) (by omega)
      (fun j _ h2 => s1.isVal (Nat.zero_le _) h2) H
    rw [bind_ok e1]
    refine deallocate_segment_ok hw (fun i _ => ?_) H1
    by_cases hi : i < xs.length
    · exact .inl (k1 i (Nat.zero_le _) (by omega))
    · rw [k2 i (by omega)]; exact s2 i (by omega)

/-- purging a subtree of height `k` -/
def purgeT (E : Env α) (o : Nat) : Nat → Nat → Nat → M α Unit
  | 0, p, sz => purge_segment E o p sz
  | k + 1, p, _ => purge_node E o (k + 2) p

/-- body of the loop of `purge_node` -/
def purgeBody (E : Env α) (o k p : Nat) (i : Nat) : M α Unit := do
  let child ← ptrsAt E p i
  let sz ← sizesAt E p i
  purgeT E o k child sz
  destroy_node E p i

theorem sizesAt_skip {p i : Nat} {f : M α β} {w : Nat} {r : Node} (hi : i < E.baseMax)
    (H : Holds g (Nd p w r + F) m) : (sizesAt E p i >>= fun _ => f) m = f m := bind_ok (sizesAt_ok hi H)

theorem purge_node_eq {k w : Nat} {x : SeqObj} (t : Tree α (k + 1)) (hw : w = E.acls x.nalloc)
    (hb : t.kids.length ≤ E.baseMax)
    (ih : ∀ c ∈ t.kids, ∀ (m : Mem α) (F : Asrt α) (p i : Nat), Holds g (lay E w p i c + (Ob o x + F)) m →
      ∃ m', purgeT E o k c.addr c.size m = .ok () m' ∧ Holds g (Ob o x + F) m')
    {p i : Nat} (H : Holds g (lay E w p i t + (Ob o x + F)) m) :
    ∃ m', purge_node E o (k + 2) t.addr m = .ok () m' ∧ Holds g (Ob o x + F) m' := by
  rw [lay_succ, aassoc] at H
  obtain ⟨r, -, -, hlen, harr, H⟩ := H.toNd
  have loop : ∀ (l : List (Tree α k)) (f : Nat → M α Unit) (j : Nat) (m : Mem α), j + l.length ≤ E.baseMax →
      (∀ c ∈ l, c ∈ t.kids) → Arr r j (keys l) →
      (∀ i m F, i < E.baseMax → Holds g (Nd t.addr w r + F) m → f i m = purgeBody E o k t.addr i m) →
      Holds g (Nd t.addr w r + (lays E w t.addr j l + (Ob o x + F))) m →
      ∃ m', forN f l.length j m = .ok () m' ∧ Holds g (Nd t.addr w r + (Ob o x + F)) m' := by
    intro l
    induction l with
    | nil => intro f j m _ _ _ _ H; exact ⟨m, rfl, by simpa using H⟩
    | cons c l ihl =>
      intro f j m hb hm ha hf H
      rw [keys_cons, Arr_cons] at ha
      obtain ⟨⟨a1, a2⟩, a3⟩ := ha
      simp only [List.length_cons] at hb
      rw [lays_cons, aassoc] at H
      have e1 : ptrsAt E t.addr j m = .ok c.addr m := by rw [ptrsAt_ok (by omega) H, a2]; rfl
      have e2 : sizesAt E t.addr j m = .ok c.size m := by rw [sizesAt_ok (by omega) H, a1]; rfl
      obtain ⟨m1, e3, H1⟩ := ih c (hm c (by simp)) m _ t.addr j
        (H.eqv (by frame : _ = lay E w t.addr j c + (Ob o x + _)))
      obtain H1 := H1.eqv (by frame : _ = Nd t.addr w r + (lays E w t.addr (j + 1) l + (Ob o x + F)))
      have e4 : f j m = .ok () m1 := by
        rw [hf j m _ (by omega) H]
        unfold purgeBody
        rw [bind_ok e1, bind_ok e2, bind_ok e3]
        exact destroy_node_ok (by omega) H1
      obtain ⟨m2, e5, H2⟩ := ihl f (j + 1) m1 (by omega) (fun c hc => hm c (by simp [hc])) a3 hf H1
      refine ⟨m2, ?_, H2⟩
      show (f j >>= fun _ => forN f l.length (j + 1)) m = _
      rw [bind_ok e4]; exact e5
  have hl : r.len = t.kids.length := by rw [hlen]; simp
  cases k with
  | zero =>
    unfold purge_node
    rw [bind_ok (len_ok H), hl]
    obtain ⟨m1, e1, H1⟩ := loop t.kids (fun i => do
      let child ← ptrsAt E t.addr i
      let sz ← sizesAt E t.addr i
      purge_segment E o child sz
      destroy_node E t.addr i) 0 m (by omega) (fun c hc => hc) harr (fun i m F hi H => rfl) H
    rw [bind_ok e1]
    exact deallocate_node_ok hw H1
  | succ k =>
    unfold purge_node
    rw [bind_ok (len_ok H), hl]
    obtain ⟨m1, e1, H1⟩ := loop t.kids (fun i => do
      let child ← ptrsAt E t.addr i
      purge_node E o (k + 2) child
      destroy_node E t.addr i) 0 m (by omega) (fun c hc => hc) harr (fun i m F hi H => by
        unfold purgeBody
        rw [bind_ok (ptrsAt_ok hi H), bind_ok (ptrsAt_ok hi H), bind_ok (sizesAt_ok hi H)]; rfl) H
    rw [bind_ok e1]
    exact deallocate_node_ok hw H1

theorem purgeT_ok {w : Nat} {x : SeqObj} (hw1 : w = E.acls x.ealloc) (hw2 : w = E.acls x.nalloc) :
    {k : Nat} → (t : Tree α k) → t.Root E → ∀ (m : Mem α) (F : Asrt α) (p i : Nat),
    Holds g (lay E w p i t + (Ob o x + F)) m →
    ∃ m', purgeT E o k t.addr t.size m = .ok () m' ∧ Holds g (Ob o x + F) m'
  | 0, t, hr, m, F, p, i, H => purge_segment_ok (Tree.root_zero.1 hr).2 hw1 H
  | k + 1, t, hr, m, F, p, i, H =>
    purge_node_eq t hw2 (Tree.root_succ.1 hr).2.1
      (fun c hc m F p i H => purgeT_ok hw1 hw2 c ((Tree.root_succ.1 hr).2.2 c hc).root m F p i H) H

theorem purge_c (hs : s.Ok E) (hn : s.elems ≠ [] ∨ E.nullFree = true) (H : Holds g (cont E o al s + F) m) :
    ∃ m', purge E o m = .ok () m' ∧ Holds g (Ob o (s.obj al) + F) m' := by
  unfold purge
  rw [bind_ok (rdObj_c H)]
  cases s with
  | nil =>
    rw [cont_nil] at H
    have hn : E.nullFree = true := by simpa using hn
    refine ⟨m, ?_, H⟩
    show purge_root E o 0 0 0 m = _
    unfold purge_root purge_segment
    rw [if_pos (by omega)]
    have e' : deallocate_segment E o 0 m = .ok () m := by
      unfold deallocate_segment
      rw [bind_ok (rdObj_ok H), if_pos rfl, if_pos hn]; rfl
    by_cases ht : E.trivDtor = true
    · rw [if_pos ht]; exact e'
    · rw [if_neg ht]; exact (bind_ok rfl).trans e'
  | @tree h t =>
    rw [cont_tree, aassoc] at H
    obtain ⟨m', e, H'⟩ := purgeT_ok (x := objOf t al al) rfl rfl t hs.2 m F 0 0 H
    refine ⟨m', ?_, H'⟩
    show purge_root E o t.addr t.size (h + 1) m = _
    unfold purge_root
    cases h with
    | zero => rw [if_pos (by omega)]; exact e
    | succ h => rw [if_neg (by omega)]; exact e

theorem clear_c (hs : s.Ok E) (hn : s.elems ≠ [] ∨ E.nullFree = true) (H : Holds g (cont E o al s + F) m) :
    ∃ m', clear E o m = .ok () m' ∧ Holds g (cont E o al .nil + F) m' := by
  obtain ⟨m1, e1, H1⟩ := purge_c hs hn H
  unfold clear
  rw [bind_ok e1]
  obtain ⟨m2, e2, H2⟩ := setRoot_ok 0 H1
  rw [bind_ok e2]
  obtain ⟨m3, e3, H3⟩ := setHeight_ok 0 H2
  rw [bind_ok e3]
  obtain ⟨m4, e4, H4⟩ := setSize_ok 0 H3
  refine ⟨m4, e4, ?_⟩
  rw [cont_nil]
  simpa only [St.obj_al, St.obj_nal, objNil] using H4

theorem dtor_c (hs : s.Ok E) (hn : s.elems ≠ [] ∨ E.nullFree = true) (H : Holds g (cont E o al s + F) m) :
    ∃ m', dtor E o m = .ok () m' ∧ Holds g F m' := by
  obtain ⟨m1, e1, H1⟩ := purge_c hs hn H
  unfold dtor
  rw [bind_ok e1]
  obtain ⟨c, hc, hc'⟩ := Holds.get H1
  exact ⟨_, by simp [dropObj, hc, hc'], H1.free⟩

end

end SegTree
