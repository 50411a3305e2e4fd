/-
  Iterator movement on ghost trees.
-/
import Verif.Proof.Find
set_option autoImplicit false

namespace SegTree

variable {α : Type} {E : Env α} {g : Log} {F : Asrt α} {m : Mem α}

/-- `e` is the entry for position `i` of `t` (`i` = size: the end entry). -/
def At {h : Nat} (t : Tree α h) (i : Nat) (e : Entry) : Prop :=
  ∃ (c : Ctx α h 0) (s : Tree α 0) (j : Nat), c.fill s = t ∧ c.pre.length + j = i ∧
    e = entryOf c s j ∧ (j < s.xs.length ∨ (j = s.xs.length ∧ c.post = []))

theorem Ctx.hdr_comp {h k : Nat} (d : Ctx α h (k + 1)) (c : Ctx α (k + 1) 0) :
    (Ctx.comp d c).hdr = c.hdr := by
  cases c with
  | step a l r c => rfl

theorem entryOf_comp {h k : Nat} (d : Ctx α h (k + 1)) (c : Ctx α (k + 1) 0) (s : Tree α 0) (j : Nat) :
    entryOf (Ctx.comp d c) s j = entryOf c s j := by
  unfold entryOf; rw [Ctx.hdr_comp]

theorem fill_size {h k : Nat} (c : Ctx α h k) (t : Tree α k) :
    (c.fill t).size = c.pre.length + t.size + c.post.length := by
  simp only [Tree.size, Ctx.fill_elems, List.length_append]

theorem At.lift {h k i : Nat} {d : Ctx α h (k + 1)} {u : Tree α (k + 1)} {e : Entry} (H : At u i e)
    (hi : i < u.size ∨ d.post = []) : At (d.fill u) (d.pre.length + i) e := by
  obtain ⟨c, s, j, rfl, rfl, rfl, hj⟩ := H
  refine ⟨Ctx.comp d c, s, j, Ctx.comp_fill _ _ _, by rw [Ctx.comp_pre]; simp; omega,
    (entryOf_comp _ _ _ _).symm, ?_⟩
  rcases hj with hj | ⟨hj, hp⟩
  · exact .inl hj
  · refine .inr ⟨hj, ?_⟩
    rw [Ctx.comp_post, hp]
    rcases hi with hi | hi
    · rw [fill_size, hp] at hi
      have : s.size = s.xs.length := rfl
      simp at hi
      omega
    · simp [hi]

theorem At.exists {h : Nat} {t : Tree α h} (hr : t.Root E) {i : Nat} (hi : i ≤ t.size) : ∃ e, At t i e := by
  rcases Nat.lt_or_eq_of_le hi with hi | rfl
  · obtain ⟨c, s, j, hf, hj, he⟩ := exists_seg .top t i hi
    exact ⟨_, c, s, j, hf, he, rfl, .inl hj⟩
  · obtain ⟨c, s, rfl, hp⟩ := exists_last t hr
    refine ⟨_, c, s, s.xs.length, rfl, ?_, rfl, .inr ⟨rfl, hp⟩⟩
    rw [fill_size, hp]; rfl

theorem At.le {h : Nat} {t : Tree α h} {i : Nat} {e : Entry} (H : At t i e) : i ≤ t.size := by
  obtain ⟨c, s, j, rfl, rfl, rfl, hj⟩ := H
  rw [fill_size]
  have : s.size = s.xs.length := rfl
  omega

section
variable {k p q w i : Nat} {u : Tree α (k + 1)} {e : Entry}

theorem find_index_at (hr : u.Root E) (ha : At u i e) (hi : i < u.size)
    (H : Holds g (lay E w p q u + F) m) : find_index_node E u.addr (k + 2) i m = .ok e m := by
  obtain ⟨c, s, j, rfl, rfl, rfl, hj⟩ := ha
  obtain ⟨hc, hs⟩ := (Ctx.fill_root c s).1 hr
  rw [fill_size] at hi
  have hz : s.size = s.xs.length := rfl
  have hj : j < s.xs.length := by
    rcases hj with hj | ⟨hj, hp⟩
    · exact hj
    · rw [hp] at hi; simp at hi; omega
  exact find_index_node_ok hc hj H

theorem find_first_at (hr : u.Root E) (ha : At u 0 e)
    (H : Holds g (lay E w p q u + F) m) : find_first_node E u.addr (k + 2) m = .ok e m := by
  obtain ⟨c, s, j, rfl, h0, rfl, hj⟩ := ha
  obtain ⟨hc, hs⟩ := (Ctx.fill_root c s).1 hr
  have h1 : j = 0 := by omega
  subst h1
  have h2 : c.pre = [] := List.eq_nil_of_length_eq_zero (by omega)
  exact find_first_node_ok hc (hc.first h2) H

theorem find_last_at (hr : u.Root E) (ha : At u (u.size - 1) e)
    (H : Holds g (lay E w p q u + F) m) : find_last_node E u.addr (k + 2) m = .ok e m := by
  have h0 : 1 ≤ u.size := hr.size_pos
  obtain ⟨c, s, j, rfl, hi, rfl, hj⟩ := ha
  obtain ⟨hc, hs⟩ := (Ctx.fill_root c s).1 hr
  have h1 : 1 ≤ s.xs.length := (Ctx.holeOk_root hs).size_pos
  rw [fill_size] at hi h0
  have hz : s.size = s.xs.length := rfl
  have hj : j < s.xs.length := by
    rcases hj with hj | ⟨hj, hp⟩
    · exact hj
    · rw [hp] at hi; simp at hi; omega
  have h2 : c.post = [] := List.eq_nil_of_length_eq_zero (by omega)
  have h3 : j = s.xs.length - 1 := by omega
  subst h3
  exact find_last_node_ok hc (hc.last h2) h1 H

theorem At.at_end {h : Nat} {t : Tree α h} {e : Entry} (ha : At t t.size e) :
    ∃ (c : Ctx α h 0) (s : Tree α 0), c.fill s = t ∧ c.post = [] ∧ e = entryOf c s s.xs.length := by
  obtain ⟨c, s, j, rfl, hi, rfl, hj⟩ := ha
  rw [fill_size] at hi
  have hz : s.size = s.xs.length := rfl
  have h2 : c.post = [] := by
    rcases hj with hj | ⟨hj, hp⟩
    · exact List.eq_nil_of_length_eq_zero (by omega)
    · exact hp
  rw [h2] at hi
  refine ⟨c, s, rfl, h2, ?_⟩
  rw [show j = s.xs.length by simp at hi; omega]

theorem find_end_at (hr : u.Root E) (ha : At u u.size e)
    (H : Holds g (lay E w p q u + F) m) : find_end_node E u.addr (k + 2) m = .ok e m := by
  obtain ⟨c, s, rfl, h2, rfl⟩ := ha.at_end
  obtain ⟨hc, hs⟩ := (Ctx.fill_root c s).1 hr
  exact find_end_node_ok hc (hc.last h2) H

end

/-! ### the layout around a hole -/

section
variable {h k w : Nat}

/-- the node above the hole -/
theorem Ctx.node_at {a : Nat} {l r : List (Tree α k)} (c : Ctx α h (k + 1)) (t : Tree α k) :
    ∃ R, SegTree.lay E w 0 0 ((Ctx.step a l r c).fill t) =
      pt (.heap a) (IsNode w c.hdr.1 c.hdr.2 (keys (l ++ t :: r))) + R := by
  refine ⟨lays E w a 0 (l ++ t :: r) + c.lay E w a (Tree.mkNode a (l ++ t :: r)).size, ?_⟩
  rw [Ctx.fill, Ctx.fill_lay, lay_mkNode, Tree.addr_mkNode]
  ac_rfl

/-- the children of the node above the hole -/
theorem Ctx.kid_at {a : Nat} {l r x y : List (Tree α k)} {u : Tree α k} (c : Ctx α h (k + 1)) (t : Tree α k)
    (hk : l ++ t :: r = x ++ u :: y) :
    ∃ R, SegTree.lay E w 0 0 ((Ctx.step a l r c).fill t) = SegTree.lay E w a x.length u + R := by
  refine ⟨(Ctx.step a x y c).lay E w u.addr u.size, ?_⟩
  rw [show (Ctx.step a l r c).fill t = (Ctx.step a x y c).fill u by simp only [Ctx.fill, hk]]
  exact Ctx.fill_lay _ _

theorem Ctx.step_fill {a : Nat} {l r : List (Tree α k)} (c : Ctx α h (k + 1)) (t : Tree α k) :
    (Ctx.step a l r c).fill t = c.fill (Tree.mkNode a (l ++ t :: r)) := rfl

theorem Ctx.Ok.bound {a : Nat} {l r : List (Tree α k)} {c : Ctx α h (k + 1)} (hc : (Ctx.step a l r c).Ok E)
    (t : Tree α k) : (l ++ t :: r).length ≤ E.baseMax := by
  have := hc.2.2.2.1
  simp; omega

theorem Ctx.hdr_ne {a : Nat} {l r : List (Tree α k)} {c : Ctx α h (k + 1)} {t : Tree α k}
    (H : Holds g (SegTree.lay E w 0 0 ((Ctx.step a l r c).fill t) + F) m) : a ≠ 0 := by
  obtain ⟨R, hR⟩ := Ctx.node_at (E := E) (w := w) (a := a) (l := l) (r := r) c t
  rw [hR, add_assoc] at H
  exact H.ne0

end

/-! ### ++ -/

theorem move_next_branch_ok {h w : Nat} (e : Entry) {k : Nat} (c : Ctx α h k) : ∀ {k' : Nat} (_ : k = k' + 1)
    {t : Tree α k}, c.Ok E → Holds g (lay E w 0 0 (c.fill t) + F) m →
    ∃ e', move_next_branch E e c.hdr.1 c.hdr.2 (k + 1) m = .ok e' m ∧
      (c.post = [] → e' = e.atSegEnd) ∧
      (c.post ≠ [] → At (c.fill t) (c.pre.length + t.size) e') := by
  induction c with
  | top =>
    intro k' _ t _ H
    rw [move_next_branch]
    exact ⟨_, by simp [Ctx.hdr], fun _ => rfl, fun h => absurd rfl h⟩
  | @step k a l r c ih =>
    intro k' hk t hc H
    subst hk
    have ha := Ctx.hdr_ne H
    obtain ⟨R, hR⟩ := Ctx.node_at (E := E) (w := w) (a := a) (l := l) (r := r) c t
    have H1 := H
    rw [hR, add_assoc] at H1
    simp only [Ctx.hdr]
    rw [move_next_branch, if_neg ha]
    rw [bind_ok (nlen H1)]
    cases r with
    | nil =>
      rw [if_neg (by simp)]
      rw [bind_ok (npidx H1), bind_ok (nparent H1)]
      obtain ⟨e', h1, h2, h3⟩ := ih (k' := k' + 1) rfl (t := Tree.mkNode a (l ++ [t])) hc.2.2.2.2 H
      refine ⟨e', h1, by simpa [Ctx.post] using h2, ?_⟩
      intro hp
      have := h3 (by simpa [Ctx.post] using hp)
      rw [Ctx.step_fill]
      convert this using 1
      simp [Ctx.pre, Tree.size]; omega
    | cons u r =>
      rw [if_pos (by simp)]
      have hb := hc.bound t
      rw [bind_ok (kptr (a := l ++ [t]) (b := r) (by simp) (by simpa using hb) (by simpa using H1))]
      have hu : u.WF E := hc.2.1 u (by simp)
      obtain ⟨e', he'⟩ := At.exists (E := E) hu.root (Nat.zero_le u.size)
      obtain ⟨R', hR'⟩ := Ctx.kid_at (E := E) (w := w) (a := a) (l := l) (r := u :: r) (x := l ++ [t]) (y := r)
        (u := u) c t (by simp)
      have H2 := H
      rw [hR', add_assoc] at H2
      refine ⟨e', find_first_at hu.root he' H2, ?_, ?_⟩
      · intro hp
        simp only [Ctx.post, elemsL_cons, List.append_eq_nil_iff] at hp
        have := hu.size_pos
        rw [hp.1.1] at this
        simp at this
      · intro _
        have := he'.lift (d := Ctx.step a (l ++ [t]) r c) (.inl hu.size_pos)
        rw [Ctx.step_fill] at this ⊢
        convert this using 1
        · simp
        · simp [Ctx.pre, Tree.size]; omega

theorem At.mk_lt {h : Nat} {c : Ctx α h 0} {s : Tree α 0} {j i : Nat} (hj : j < s.xs.length)
    (hi : c.pre.length + j = i) : At (c.fill s) i (entryOf c s j) :=
  ⟨c, s, j, rfl, hi, rfl, .inl hj⟩

theorem At.mk_end {h : Nat} {c : Ctx α h 0} {s : Tree α 0} {i : Nat} (hp : c.post = [])
    (hi : c.pre.length + s.xs.length = i) : At (c.fill s) i (entryOf c s s.xs.length) :=
  ⟨c, s, _, rfl, hi, rfl, .inr ⟨rfl, hp⟩⟩

theorem entry_atSegEnd {h : Nat} {c : Ctx α h 0} {s : Tree α 0} {j : Nat} :
    (entryOf c s j).atSegEnd = entryOf c s s.xs.length := rfl

theorem Ctx.Ok.hole_size {h : Nat} {c : Ctx α h 0} {s : Tree α 0} (hh : c.HoleOk E s) : 1 ≤ s.xs.length :=
  (Ctx.holeOk_root hh).size_pos

/-- from anywhere in a segment, go to the first element after it -/
theorem move_next_leaf_ok {h w : Nat} {c : Ctx α h 0} {s : Tree α 0} {j : Nat} (hc : c.Ok E)
    (H : Holds g (lay E w 0 0 (c.fill s) + F) m) :
    ∃ e', move_next_leaf E (entryOf c s j) m = .ok e' m ∧
      At (c.fill s) (c.pre.length + s.xs.length) e' := by
  cases c with
  | top =>
    unfold move_next_leaf
    exact ⟨_, by simp [entryOf, Ctx.hdr]; rfl, At.mk_end rfl rfl⟩
  | step a l r c =>
    have ha := Ctx.hdr_ne H
    obtain ⟨R, hR⟩ := Ctx.node_at (E := E) (w := w) (a := a) (l := l) (r := r) c s
    have H1 := H
    rw [hR, add_assoc] at H1
    simp only [entryOf, Ctx.hdr]
    unfold move_next_leaf
    simp only [ha, if_false]
    rw [bind_ok (nlen H1)]
    have hb := hc.bound s
    cases r with
    | nil =>
      rw [if_neg (by simp)]
      rw [bind_ok (nparent H1), bind_ok (npidx H1)]
      obtain ⟨e', h1, h2, h3⟩ := move_next_branch_ok (entryOf (.step a l [] c) s j) c rfl
        (t := Tree.mkNode a (l ++ [s])) hc.2.2.2.2 H
      refine ⟨e', h1, ?_⟩
      by_cases hp : c.post = []
      · rw [h2 hp, entry_atSegEnd]
        exact At.mk_end (by simpa [Ctx.post] using hp) rfl
      · have := h3 hp
        rw [Ctx.step_fill]
        convert this using 1
        simp [Ctx.pre, Tree.size, Tree.elems_zero]; omega
    | cons u r =>
      rw [if_pos (by simp)]
      rw [bind_ok (kptr (a := l ++ [s]) (b := r) (by simp) (by simpa using hb) (by simpa using H1)),
        bind_ok (ksize (a := l ++ [s]) (b := r) (by simp) (by simpa using hb) (by simpa using H1))]
      have hu : u.WF E := hc.2.1 u (by simp)
      refine ⟨_, rfl, ?_⟩
      have := At.mk_lt (c := Ctx.step a (l ++ [s]) r c) (s := u) (j := 0) hu.size_pos rfl
      rw [Ctx.step_fill] at this ⊢
      convert this using 1
      · simp
      · simp [Ctx.pre, Tree.elems_zero]; omega
      · simp [entryOf, Ctx.hdr, find_first_segment]; rfl

theorem move_next_segment_ok {h w i : Nat} {t : Tree α h} {e : Entry} (hr : t.Root E) (ha : At t i e)
    (hi : i < t.size) (H : Holds g (lay E w 0 0 t + F) m) :
    ∃ e', move_next_segment E e m = .ok e' m ∧ At t (i + 1) e' := by
  obtain ⟨c, s, j, rfl, rfl, rfl, hj⟩ := ha
  obtain ⟨hc, hs⟩ := (Ctx.fill_root c s).1 hr
  rw [fill_size] at hi
  have hz : s.size = s.xs.length := rfl
  have hj : j < s.xs.length := by
    rcases hj with hj | ⟨hj, hp⟩
    · exact hj
    · rw [hp] at hi; simp at hi; omega
  unfold move_next_segment
  by_cases h1 : j + 1 = s.xs.length
  · rw [if_neg (by simpa [entryOf] using h1)]
    obtain ⟨e', h2, h3⟩ := move_next_leaf_ok (j := j) hc H
    exact ⟨e', h2, by convert h3 using 1; omega⟩
  · rw [if_pos (by simpa [entryOf] using h1)]
    exact ⟨_, rfl, At.mk_lt (j := j + 1) (by omega) (by omega)⟩

/-! ### -- -/

theorem move_prev_branch_ok {h w : Nat} {k : Nat} (c : Ctx α h k) : ∀ {k' : Nat} (_ : k = k' + 1)
    {t : Tree α k}, c.Ok E → c.pre ≠ [] → Holds g (lay E w 0 0 (c.fill t) + F) m →
    ∃ e', move_prev_branch E c.hdr.1 c.hdr.2 (k + 1) m = .ok e' m ∧
      At (c.fill t) (c.pre.length - 1) e' := by
  induction c with
  | top => intro k' _ t _ hp; exact absurd rfl hp
  | @step k a l r c ih =>
    intro k' hk t hc hp H
    subst hk
    obtain ⟨R, hR⟩ := Ctx.node_at (E := E) (w := w) (a := a) (l := l) (r := r) c t
    have H1 := H
    rw [hR, add_assoc] at H1
    have hb := hc.bound t
    simp only [Ctx.hdr]
    rw [move_prev_branch]
    rcases List.eq_nil_or_concat l with rfl | ⟨l, u, rfl⟩
    · rw [if_neg (by simp)]
      rw [bind_ok (npidx H1), bind_ok (nparent H1)]
      obtain ⟨e', h1, h2⟩ := ih (k' := k' + 1) rfl (t := Tree.mkNode a (t :: r)) hc.2.2.2.2
        (by simpa [Ctx.pre] using hp) H
      refine ⟨e', h1, ?_⟩
      rw [Ctx.step_fill]
      simpa [Ctx.pre] using h2
    · rw [List.concat_eq_append] at *
      rw [if_pos (by simp)]
      rw [bind_ok (kptr (a := l) (b := t :: r) (by simp) (by simpa using hb) (by simpa using H1))]
      have hu : u.WF E := hc.1 u (by simp)
      have hu1 : 1 ≤ u.size := hu.size_pos
      obtain ⟨e', he'⟩ := At.exists (E := E) hu.root (show u.size - 1 ≤ u.size by omega)
      obtain ⟨R', hR'⟩ := Ctx.kid_at (E := E) (w := w) (a := a) (l := l ++ [u]) (r := r) (x := l) (y := t :: r)
        (u := u) c t (by simp)
      have H2 := H
      rw [hR', add_assoc] at H2
      refine ⟨e', find_last_at hu.root he' H2, ?_⟩
      have := he'.lift (d := Ctx.step a l (t :: r) c) (.inl (by omega))
      rw [Ctx.step_fill] at this ⊢
      convert this using 1
      · simp
      · simp [Ctx.pre]; unfold Tree.size at *; omega

/-- from anywhere in a segment, go to the last element before it -/
theorem move_prev_leaf_ok {h w : Nat} {c : Ctx α h 0} {s : Tree α 0} {j : Nat} (hc : c.Ok E)
    (hp : c.pre ≠ []) (H : Holds g (lay E w 0 0 (c.fill s) + F) m) :
    ∃ e', move_prev_leaf E (entryOf c s j) m = .ok e' m ∧
      At (c.fill s) (c.pre.length - 1) e' := by
  cases c with
  | top => exact absurd rfl hp
  | step a l r c =>
    obtain ⟨R, hR⟩ := Ctx.node_at (E := E) (w := w) (a := a) (l := l) (r := r) c s
    have H1 := H
    rw [hR, add_assoc] at H1
    have hb := hc.bound s
    simp only [entryOf, Ctx.hdr]
    unfold move_prev_leaf
    dsimp only
    rcases List.eq_nil_or_concat l with rfl | ⟨l, u, rfl⟩
    · rw [if_neg (by simp)]
      rw [bind_ok (nparent H1), bind_ok (npidx H1)]
      obtain ⟨e', h1, h2⟩ := move_prev_branch_ok c rfl (t := Tree.mkNode a (s :: r)) hc.2.2.2.2
        (by simpa [Ctx.pre] using hp) H
      refine ⟨e', h1, ?_⟩
      rw [Ctx.step_fill]
      simpa [Ctx.pre] using h2
    · rw [List.concat_eq_append] at *
      rw [if_pos (by simp)]
      rw [bind_ok (kptr (a := l) (b := s :: r) (by simp) (by simpa using hb) (by simpa using H1)),
        bind_ok (ksize (a := l) (b := s :: r) (by simp) (by simpa using hb) (by simpa using H1))]
      have hu : u.WF E := hc.1 u (by simp)
      have hu1 : 1 ≤ u.xs.length := hu.size_pos
      simp only [find_last_segment, bind_assoc, pure_bind]
      rw [bind_ok (usub_ok (show 1 ≤ u.size from hu1) m)]
      refine ⟨_, rfl, ?_⟩
      have := At.mk_lt (c := Ctx.step a l (s :: r) c) (s := u) (j := u.xs.length - 1) (by omega) rfl
      rw [Ctx.step_fill] at this ⊢
      convert this using 1
      · simp
      · simp [Ctx.pre, Tree.elems_zero]; omega
      · simp [entryOf, Ctx.hdr]; exact ⟨rfl, rfl⟩

theorem move_prev_segment_ok {h w i : Nat} {t : Tree α h} {e : Entry} (hr : t.Root E) (ha : At t i e)
    (hi : 0 < i) (H : Holds g (lay E w 0 0 t + F) m) :
    ∃ e', move_prev_segment E e m = .ok e' m ∧ At t (i - 1) e' := by
  obtain ⟨c, s, j, rfl, rfl, rfl, hj⟩ := ha
  obtain ⟨hc, hs⟩ := (Ctx.fill_root c s).1 hr
  unfold move_prev_segment
  by_cases h1 : j = 0
  · subst h1
    rw [if_neg (by simp [entryOf])]
    exact move_prev_leaf_ok (j := 0) hc (by intro h; rw [h] at hi; simp at hi) H
  · rw [if_pos (by simpa [entryOf] using h1)]
    exact ⟨_, rfl, At.mk_lt (j := j - 1) (by omega) (by omega)⟩

/-! ### += and -= -/

theorem scan_next_ok {k p w q i : Nat} (r : List (Tree α k)) : ∀ {l : List (Tree α k)} {t : Tree α k} {n : Nat},
    (l ++ t :: r).length ≤ E.baseMax →
    Holds g (pt (.heap p) (IsNode w q i (keys (l ++ t :: r))) + F) m →
    (n < (elemsL r).length → ∃ r1 u r2 j, r = r1 ++ u :: r2 ∧ j < u.size ∧ n = (elemsL r1).length + j ∧
      scan_next E p l.length n m = .ok (.inl (l.length + 1 + r1.length, u.size, j)) m) ∧
    ((elemsL r).length ≤ n → scan_next E p l.length n m = .ok (.inr (n - (elemsL r).length)) m) := by
  induction r with
  | nil =>
    intro l t n hb H
    refine ⟨by simp, fun _ => ?_⟩
    rw [scan_next, bind_ok (nlen H), if_pos (by simp)]
    simp
  | cons u r ih =>
    intro l t n hb H
    have e1 : scan_next E p l.length n m = (if u.size > n then
        (pure (.inl (l.length + 1, u.size, n)) : M α _) else scan_next E p (l.length + 1) (n - u.size)) m := by
      rw [scan_next, bind_ok (nlen H), if_neg (by simp)]
      rw [bind_ok (ksize (a := l ++ [t]) (b := r) (by simp) (by simpa using hb) (by simpa using H))]
    rw [e1]
    by_cases h1 : u.size > n
    · rw [if_pos h1]
      refine ⟨fun _ => ⟨[], u, r, n, rfl, h1, by simp, by simp⟩, ?_⟩
      intro h2
      simp at h2
      unfold Tree.size at h1
      omega
    · rw [if_neg h1]
      obtain ⟨h2, h3⟩ := ih (l := l ++ [t]) (t := u) (n := n - u.size) (by simpa using hb) (by simpa using H)
      simp only [List.length_append, List.length_cons, List.length_nil, Nat.zero_add] at h2 h3
      have hz : u.elems.length = u.size := rfl
      refine ⟨?_, ?_⟩
      · intro h4
        simp at h4
        obtain ⟨r1, v, r2, j, rfl, hj, hn, hs⟩ := h2 (by omega)
        refine ⟨u :: r1, v, r2, j, rfl, hj, by simp; omega, ?_⟩
        rw [hs]
        simp; omega
      · intro h4
        simp at h4
        rw [h3 (by omega)]
        simp; omega

theorem move_next_branch_count_ok {h w : Nat} {k : Nat} (c : Ctx α h k) : ∀ {k' : Nat} (_ : k = k' + 1)
    {t : Tree α k} {n : Nat}, c.Ok E → c.HoleOk E t → Holds g (lay E w 0 0 (c.fill t) + F) m →
    ∃ e', move_next_branch_count E t.addr c.hdr.1 c.hdr.2 n (k + 1) m = .ok e' m ∧
      At (c.fill t) (c.pre.length + t.size + min n c.post.length) e' := by
  induction c with
  | top =>
    intro k' hk t n hc hh H
    subst hk
    rw [move_next_branch_count]
    simp only [Ctx.hdr, if_true]
    obtain ⟨e', he'⟩ := At.exists (E := E) (Ctx.holeOk_root hh) (Nat.le_refl t.size)
    exact ⟨e', find_end_at (Ctx.holeOk_root hh) he' H, by simpa [Ctx.pre, Ctx.post, Ctx.fill] using he'⟩
  | @step k a l r c ih =>
    intro k' hk t n hc hh H
    subst hk
    have ha := Ctx.hdr_ne H
    obtain ⟨R, hR⟩ := Ctx.node_at (E := E) (w := w) (a := a) (l := l) (r := r) c t
    have H1 := H
    rw [hR, add_assoc] at H1
    have hb := hc.bound t
    simp only [Ctx.hdr]
    rw [move_next_branch_count, if_neg ha]
    obtain ⟨h1, h2⟩ := scan_next_ok (n := n) r hb H1
    by_cases hn : n < (elemsL r).length
    · obtain ⟨r1, u, r2, j, rfl, hj, hn', hs⟩ := h1 hn
      rw [bind_ok hs]
      dsimp only
      rw [bind_ok (kptr (a := l ++ t :: r1) (b := r2) (by simp; omega) (by simpa using hb) (by simpa using H1))]
      have hu : u.WF E := hc.2.1 u (by simp)
      obtain ⟨e', he'⟩ := At.exists (E := E) hu.root (Nat.le_of_lt hj)
      obtain ⟨R', hR'⟩ := Ctx.kid_at (E := E) (w := w) (a := a) (l := l) (r := r1 ++ u :: r2) (x := l ++ t :: r1)
        (y := r2) (u := u) c t (by simp)
      have H2 := H
      rw [hR', add_assoc] at H2
      refine ⟨e', find_index_at hu.root he' hj H2, ?_⟩
      have := he'.lift (d := Ctx.step a (l ++ t :: r1) r2 c) (.inl hj)
      rw [Ctx.step_fill] at this ⊢
      convert this using 1
      · simp
      · simp [Ctx.pre, Ctx.post, Tree.size] at hn ⊢; omega
    · rw [bind_ok (h2 (by omega))]
      dsimp only
      rw [bind_ok (npidx H1), bind_ok (nparent H1)]
      obtain ⟨hc1, hh1⟩ := (Ctx.fill_root c (Tree.mkNode a (l ++ t :: r))).1
        ((Ctx.fill_root (Ctx.step a l r c) t).2 ⟨hc, hh⟩)
      obtain ⟨e', h3, h4⟩ := ih (k' := k' + 1) rfl (t := Tree.mkNode a (l ++ t :: r))
        (n := n - (elemsL r).length) hc1 hh1 H
      refine ⟨e', h3, ?_⟩
      rw [Ctx.step_fill]
      convert h4 using 1
      simp [Ctx.pre, Ctx.post, Tree.size]; omega

/-- from anywhere in a segment, go to the n-th element after it (or to the end) -/
theorem move_next_leaf_count_ok {h w n : Nat} {c : Ctx α h 0} {s : Tree α 0} {j : Nat} (hc : c.Ok E)
    (hh : c.HoleOk E s) (H : Holds g (lay E w 0 0 (c.fill s) + F) m) :
    ∃ e', move_next_leaf_count E (entryOf c s j) n m = .ok e' m ∧
      At (c.fill s) (c.pre.length + s.xs.length + min n c.post.length) e' := by
  cases c with
  | top =>
    unfold move_next_leaf_count
    exact ⟨_, by simp [entryOf, Ctx.hdr]; rfl, At.mk_end rfl (by simp [Ctx.pre, Ctx.post])⟩
  | step a l r c =>
    have ha := Ctx.hdr_ne H
    obtain ⟨R, hR⟩ := Ctx.node_at (E := E) (w := w) (a := a) (l := l) (r := r) c s
    have H1 := H
    rw [hR, add_assoc] at H1
    simp only [entryOf, Ctx.hdr]
    unfold move_next_leaf_count
    simp only [ha, if_false]
    have hb := hc.bound s
    obtain ⟨h1, h2⟩ := scan_next_ok (n := n) r hb H1
    by_cases hn : n < (elemsL r).length
    · obtain ⟨r1, u, r2, j, rfl, hj, hn', hs⟩ := h1 hn
      rw [bind_ok hs]
      dsimp only
      rw [bind_ok (kptr (a := l ++ s :: r1) (b := r2) (by simp; omega) (by simpa using hb) (by simpa using H1))]
      refine ⟨_, rfl, ?_⟩
      have := At.mk_lt (c := Ctx.step a (l ++ s :: r1) r2 c) (s := u) (j := j) hj rfl
      rw [Ctx.step_fill] at this ⊢
      convert this using 1
      · simp
      · simp [Ctx.pre, Ctx.post, Tree.elems_zero] at hn ⊢; omega
      · simp [entryOf, Ctx.hdr, find_index_segment]; exact ⟨rfl, by omega⟩
    · rw [bind_ok (h2 (by omega))]
      dsimp only
      rw [bind_ok (nparent H1), bind_ok (npidx H1)]
      obtain ⟨hc1, hh1⟩ := (Ctx.fill_root c (Tree.mkNode a (l ++ s :: r))).1
        ((Ctx.fill_root (Ctx.step a l r c) s).2 ⟨hc, hh⟩)
      obtain ⟨e', h3, h4⟩ := move_next_branch_count_ok c rfl (t := Tree.mkNode a (l ++ s :: r))
        (n := n - (elemsL r).length) hc1 hh1 H
      refine ⟨e', h3, ?_⟩
      rw [Ctx.step_fill]
      convert h4 using 1
      simp [Ctx.pre, Ctx.post, Tree.size, Tree.elems_zero]; omega

theorem move_next_segment_count_ok {h w i n : Nat} {t : Tree α h} {e : Entry} (hr : t.Root E) (ha : At t i e)
    (hi : i + n ≤ t.size) (H : Holds g (lay E w 0 0 t + F) m) :
    ∃ e', move_next_segment_count E e n m = .ok e' m ∧ At t (i + n) e' := by
  obtain ⟨c, s, j, rfl, rfl, rfl, hj⟩ := ha
  obtain ⟨hc, hs⟩ := (Ctx.fill_root c s).1 hr
  rw [fill_size] at hi
  have hz : s.size = s.xs.length := rfl
  unfold move_next_segment_count
  by_cases h1 : j + n < s.xs.length
  · rw [if_pos (by simpa [entryOf] using h1)]
    exact ⟨_, rfl, At.mk_lt (j := j + n) h1 (by omega)⟩
  · rw [if_neg (by simpa [entryOf] using h1)]
    obtain ⟨e', h2, h3⟩ := move_next_leaf_count_ok (j := j) (n := j + n - s.xs.length) hc hs H
    exact ⟨e', h2, by convert h3 using 1; omega⟩

theorem scan_prev_ok {k p w q i : Nat} (l : List (Tree α k)) : ∀ {r : List (Tree α k)} {n : Nat},
    (l ++ r).length ≤ E.baseMax → 0 < n →
    Holds g (pt (.heap p) (IsNode w q i (keys (l ++ r))) + F) m →
    (n ≤ (elemsL l).length → ∃ l1 u l2 j, l = l1 ++ u :: l2 ∧ 0 < j ∧ j ≤ u.size ∧ n = (elemsL l2).length + j ∧
      scan_prev E p l.length n m = .ok (.inl (l1.length, u.size, j)) m) ∧
    ((elemsL l).length < n → scan_prev E p l.length n m = .ok (.inr (n - (elemsL l).length)) m) := by
  induction l using List.reverseRecOn with
  | nil =>
    intro r n hb hn H
    refine ⟨by simp; omega, fun _ => ?_⟩
    rw [scan_prev, if_pos (by simp)]
    simp
  | append_singleton l u ih =>
    intro r n hb hn H
    have e1 : scan_prev E p (l ++ [u]).length n m = (if u.size ≥ n then
        (pure (.inl (l.length, u.size, n)) : M α _) else scan_prev E p l.length (n - u.size)) m := by
      rw [scan_prev, if_neg (by simp)]
      rw [show (l ++ [u]).length - 1 = l.length by simp]
      rw [bind_ok (ksize (a := l) (b := r) (by simp) (by simpa using hb) (by simpa using H))]
    rw [e1]
    have hz : u.elems.length = u.size := rfl
    by_cases h1 : u.size ≥ n
    · rw [if_pos h1]
      refine ⟨fun _ => ⟨l, u, [], n, rfl, hn, h1, by simp, rfl⟩, ?_⟩
      intro h2
      simp at h2
      omega
    · rw [if_neg h1]
      obtain ⟨h2, h3⟩ := ih (r := u :: r) (n := n - u.size) (by simpa using hb) (by omega) (by simpa using H)
      refine ⟨?_, ?_⟩
      · intro h4
        simp at h4
        obtain ⟨l1, v, l2, j, rfl, hj, hj2, hn, hs⟩ := h2 (by omega)
        refine ⟨l1, v, l2 ++ [u], j, by simp, hj, hj2, by simp; omega, hs⟩
      · intro h4
        simp at h4
        rw [h3 (by omega)]
        simp; omega

theorem move_prev_branch_count_ok {h w : Nat} {k : Nat} (c : Ctx α h k) : ∀ {k' : Nat} (_ : k = k' + 1)
    {t : Tree α k} {n : Nat}, c.Ok E → 0 < n → n ≤ c.pre.length → Holds g (lay E w 0 0 (c.fill t) + F) m →
    ∃ e', move_prev_branch_count E c.hdr.1 c.hdr.2 n (k + 1) m = .ok e' m ∧
      At (c.fill t) (c.pre.length - n) e' := by
  induction c with
  | top => intro k' _ t n _ h1 h2; simp [Ctx.pre] at h2; omega
  | @step k a l r c ih =>
    intro k' hk t n hc hn0 hn1 H
    subst hk
    obtain ⟨R, hR⟩ := Ctx.node_at (E := E) (w := w) (a := a) (l := l) (r := r) c t
    have H1 := H
    rw [hR, add_assoc] at H1
    have hb := hc.bound t
    simp only [Ctx.hdr]
    rw [move_prev_branch_count]
    obtain ⟨h1, h2⟩ := scan_prev_ok (n := n) l hb hn0 H1
    by_cases hn : n ≤ (elemsL l).length
    · obtain ⟨l1, u, l2, j, rfl, hj0, hj, hn', hs⟩ := h1 hn
      rw [bind_ok hs]
      dsimp only
      rw [bind_ok (kptr (a := l1) (b := l2 ++ t :: r) (by simp) (by simpa using hb) (by simpa using H1))]
      have hu : u.WF E := hc.1 u (by simp)
      obtain ⟨e', he'⟩ := At.exists (E := E) hu.root (show u.size - j ≤ u.size by omega)
      obtain ⟨R', hR'⟩ := Ctx.kid_at (E := E) (w := w) (a := a) (l := l1 ++ u :: l2) (r := r) (x := l1)
        (y := l2 ++ t :: r) (u := u) c t (by simp)
      have H2 := H
      rw [hR', add_assoc] at H2
      refine ⟨e', find_index_at hu.root he' (by omega) H2, ?_⟩
      have := he'.lift (d := Ctx.step a l1 (l2 ++ t :: r) c) (.inl (by omega))
      rw [Ctx.step_fill] at this ⊢
      convert this using 1
      · simp
      · simp [Ctx.pre] at hn hn' ⊢; unfold Tree.size at *; omega
    · rw [bind_ok (h2 (by omega))]
      dsimp only
      rw [bind_ok (npidx H1), bind_ok (nparent H1)]
      simp only [Ctx.pre, List.length_append] at hn1
      obtain ⟨e', h3, h4⟩ := ih (k' := k' + 1) rfl (t := Tree.mkNode a (l ++ t :: r))
        (n := n - (elemsL l).length) hc.2.2.2.2 (by omega) (by omega) H
      refine ⟨e', h3, ?_⟩
      rw [Ctx.step_fill]
      convert h4 using 1
      simp [Ctx.pre]; omega

/-- from anywhere in a segment, go to the n-th element before it -/
theorem move_prev_leaf_count_ok {h w n : Nat} {c : Ctx α h 0} {s : Tree α 0} {j : Nat} (hc : c.Ok E)
    (hn0 : 0 < n) (hn1 : n ≤ c.pre.length) (H : Holds g (lay E w 0 0 (c.fill s) + F) m) :
    ∃ e', move_prev_leaf_count E (entryOf c s j) n m = .ok e' m ∧
      At (c.fill s) (c.pre.length - n) e' := by
  cases c with
  | top => simp [Ctx.pre] at hn1; omega
  | step a l r c =>
    obtain ⟨R, hR⟩ := Ctx.node_at (E := E) (w := w) (a := a) (l := l) (r := r) c s
    have H1 := H
    rw [hR, add_assoc] at H1
    simp only [entryOf, Ctx.hdr]
    unfold move_prev_leaf_count
    dsimp only
    have hb := hc.bound s
    obtain ⟨h1, h2⟩ := scan_prev_ok (n := n) l hb hn0 H1
    by_cases hn : n ≤ (elemsL l).length
    · obtain ⟨l1, u, l2, j, rfl, hj0, hj, hn', hs⟩ := h1 hn
      rw [bind_ok hs]
      dsimp only
      rw [bind_ok (kptr (a := l1) (b := l2 ++ s :: r) (by simp) (by simpa using hb) (by simpa using H1))]
      refine ⟨_, rfl, ?_⟩
      have hz : u.size = u.xs.length := rfl
      have := At.mk_lt (c := Ctx.step a l1 (l2 ++ s :: r) c) (s := u) (j := u.size - j) (by omega) rfl
      rw [Ctx.step_fill] at this ⊢
      convert this using 1
      · simp
      · simp [Ctx.pre, Tree.elems_zero] at hn hn' ⊢; omega
      · rfl
    · rw [bind_ok (h2 (by omega))]
      dsimp only
      rw [bind_ok (nparent H1), bind_ok (npidx H1)]
      simp only [Ctx.pre, List.length_append] at hn1
      obtain ⟨e', h3, h4⟩ := move_prev_branch_count_ok c rfl (t := Tree.mkNode a (l ++ s :: r))
        (n := n - (elemsL l).length) hc.2.2.2.2 (by omega) (by omega) H
      refine ⟨e', h3, ?_⟩
      rw [Ctx.step_fill]
      convert h4 using 1
      simp [Ctx.pre]; omega

theorem move_prev_segment_count_ok {h w i n : Nat} {t : Tree α h} {e : Entry} (hr : t.Root E) (ha : At t i e)
    (hi : n ≤ i) (hn : 0 < n) (H : Holds g (lay E w 0 0 t + F) m) :
    ∃ e', move_prev_segment_count E e n m = .ok e' m ∧ At t (i - n) e' := by
  obtain ⟨c, s, j, rfl, rfl, rfl, hj⟩ := ha
  obtain ⟨hc, hs⟩ := (Ctx.fill_root c s).1 hr
  have h0 := Ctx.Ok.hole_size hs
  unfold move_prev_segment_count
  by_cases h1 : n ≤ j
  · rw [if_pos (by simpa [entryOf] using h1)]
    exact ⟨_, rfl, At.mk_lt (j := j - n) (by omega) (by omega)⟩
  · rw [if_neg (by simpa [entryOf] using h1)]
    obtain ⟨e', h2, h3⟩ := move_prev_leaf_count_ok (j := j) (n := n - j) hc (by omega) (by omega) H
    exact ⟨e', h2, by convert h3 using 1; omega⟩

end SegTree
