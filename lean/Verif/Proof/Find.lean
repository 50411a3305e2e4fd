/-
  Searching: `find_index`, `find_first`, `find_last`, `find_end` compute the
  canonical iterator entry.
-/
import Verif.Proof.Prim
set_option autoImplicit false

namespace SegTree

variable {α : Type} {E : Env α} {g : Log} {F : Asrt α} {m : Mem α}

/-! ### reading nodes -/

section
variable {p w q i : Nat} {ks : List (Nat × Nat)}

theorem nlen (H : Holds g (pt (.heap p) (IsNode w q i ks) + F) m) : len p m = .ok ks.length m := by
  obtain ⟨r, h1, h2, h3, h4, H⟩ := H.toNd
  rw [len_ok H, h3]
theorem nparent (H : Holds g (pt (.heap p) (IsNode w q i ks) + F) m) : parent p m = .ok q m := by
  obtain ⟨r, h1, h2, h3, h4, H⟩ := H.toNd
  rw [parent_ok H, h1]
theorem npidx (H : Holds g (pt (.heap p) (IsNode w q i ks) + F) m) : pidx p m = .ok i m := by
  obtain ⟨r, h1, h2, h3, h4, H⟩ := H.toNd
  rw [pidx_ok H, h2]
theorem nsize {a b : List (Nat × Nat)} {k : Nat × Nat} {j : Nat} (hk : ks = a ++ k :: b)
    (hj : j = a.length) (hb : ks.length ≤ E.baseMax)
    (H : Holds g (pt (.heap p) (IsNode w q i ks) + F) m) : sizesAt E p j m = .ok k.1 m := by
  subst hk hj
  obtain ⟨r, h1, h2, h3, h4, H⟩ := H.toNd
  rw [sizesAt_ok (by simp at hb; omega) H]
  rw [Arr_append, Arr_cons] at h4
  have := h4.2.1.1
  simp only [Nat.zero_add] at this
  rw [this]
theorem nptr {a b : List (Nat × Nat)} {k : Nat × Nat} {j : Nat} (hk : ks = a ++ k :: b)
    (hj : j = a.length) (hb : ks.length ≤ E.baseMax)
    (H : Holds g (pt (.heap p) (IsNode w q i ks) + F) m) : ptrsAt E p j m = .ok k.2 m := by
  subst hk hj
  obtain ⟨r, h1, h2, h3, h4, H⟩ := H.toNd
  rw [ptrsAt_ok (by simp at hb; omega) H]
  rw [Arr_append, Arr_cons] at h4
  have := h4.2.1.2
  simp only [Nat.zero_add] at this
  rw [this]

/-- the same, in terms of children -/
theorem ksize {k : Nat} {a b : List (Tree α k)} {t : Tree α k} {j : Nat}
    (hj : j = a.length) (hb : (a ++ t :: b).length ≤ E.baseMax)
    (H : Holds g (pt (.heap p) (IsNode w q i (keys (a ++ t :: b))) + F) m) :
    sizesAt E p j m = .ok t.size m :=
  nsize (a := keys a) (k := key t) (b := keys b) (by simp) (by simp [hj]) (by simpa using hb) H
theorem kptr {k : Nat} {a b : List (Tree α k)} {t : Tree α k} {j : Nat}
    (hj : j = a.length) (hb : (a ++ t :: b).length ≤ E.baseMax)
    (H : Holds g (pt (.heap p) (IsNode w q i (keys (a ++ t :: b))) + F) m) :
    ptrsAt E p j m = .ok t.addr m :=
  nptr (a := keys a) (k := key t) (b := keys b) (by simp) (by simp [hj]) (by simpa using hb) H
end

/-! ### one step down -/

section
variable {k p w q i : Nat}

theorem find_index_loop_ok {t : Tree α k} {b : List (Tree α k)} {j : Nat} (hj : j < t.size)
    (a' : List (Tree α k)) : ∀ (a : List (Tree α k)) (s pos : Nat),
    (a ++ (a' ++ t :: b)).length ≤ E.baseMax →
    s = ((a' ++ [t]).head (by simp)).size → pos = (elemsL a').length + j →
    Holds g (pt (.heap p) (IsNode w q i (keys (a ++ (a' ++ t :: b)))) + F) m →
    find_index_loop E p a.length s pos m = .ok (a.length + a'.length, j) m := by
  induction a' with
  | nil =>
    intro a s pos hb hs hp H
    simp at hs hp
    subst hs hp
    rw [find_index_loop, if_neg (by omega)]
    simp
  | cons u a' ih =>
    intro a s pos hb hs hp H
    simp at hs hp
    rw [find_index_loop, if_pos (by rw [hp, hs, Tree.size]; omega)]
    cases a' with
    | nil =>
      rw [show a ++ ([u] ++ t :: b) = (a ++ [u]) ++ t :: b by simp] at H hb
      rw [bind_ok (ksize (j := a.length + 1) (by simp) hb H)]
      have := ih (a ++ [u]) t.size (pos - s) (by simpa using hb) (by simp)
        (by rw [hp, hs, Tree.size]; simp) (by simpa using H)
      simpa using this
    | cons v a' =>
      rw [show a ++ (u :: v :: a' ++ t :: b) = (a ++ [u]) ++ v :: (a' ++ t :: b) by simp] at H hb
      rw [bind_ok (ksize (j := a.length + 1) (by simp) hb H)]
      have := ih (a ++ [u]) v.size (pos - s) (by simpa using hb) (by simp)
        (by rw [hp, hs, Tree.size]; simp; omega) (by simpa using H)
      rw [show (a ++ [u]).length = a.length + 1 by simp] at this
      rw [this]
      simp; omega

theorem find_index_loop_ok' {t : Tree α k} {a b : List (Tree α k)} {j : Nat} (hj : j < t.size)
    (hb : (a ++ t :: b).length ≤ E.baseMax)
    (H : Holds g (pt (.heap p) (IsNode w q i (keys (a ++ t :: b))) + F) m) {β : Type}
    (f : Nat × Nat → M α β) :
    (sizesAt E p 0 >>= fun size => find_index_loop E p 0 size ((elemsL a).length + j) >>= f) m =
      f (a.length, j) m := by
  have h0 : sizesAt E p 0 m = .ok ((a ++ [t]).head (by simp)).size m := by
    cases a with
    | nil => exact ksize (a := []) rfl hb H
    | cons u a => exact ksize (a := []) (b := a ++ t :: b) rfl hb H
  rw [bind_ok h0]
  have := find_index_loop_ok hj a [] _ _ (by simpa using hb) rfl rfl H
  simp only [List.length_nil, Nat.zero_add] at this
  rw [bind_ok this]

/-- `find_index_node` in a leaf -/
theorem find_index_leaf_ok {t : Tree α 0} {a b : List (Tree α 0)} {j : Nat} (hj : j < t.size)
    (hb : (a ++ t :: b).length ≤ E.baseMax)
    (H : Holds g (pt (.heap p) (IsNode w q i (keys (a ++ t :: b))) + F) m) :
    find_index_node E p 2 ((elemsL a).length + j) m =
      .ok { seg := ⟨t.addr, j, t.xs.length⟩, leaf := ⟨p, a.length⟩ } m := by
  unfold find_index_node
  rw [if_pos rfl]
  unfold find_index_leaf
  rw [find_index_loop_ok' hj hb H]
  dsimp only
  rw [bind_ok (kptr rfl hb H), bind_ok (ksize rfl hb H)]
  rfl

/-- `find_index_node` in a branch -/
theorem find_index_branch_ok {k : Nat} {t : Tree α (k + 1)} {a b : List (Tree α (k + 1))} {j : Nat}
    (hj : j < t.size) (hb : (a ++ t :: b).length ≤ E.baseMax)
    (H : Holds g (pt (.heap p) (IsNode w q i (keys (a ++ t :: b))) + F) m) :
    find_index_node E p (k + 3) ((elemsL a).length + j) m = find_index_node E t.addr (k + 2) j m := by
  unfold find_index_node
  rw [if_neg (by omega), find_index_branch]
  rw [find_index_loop_ok' hj hb H]
  dsimp only
  rw [bind_ok (kptr rfl hb H), bind_ok (usub_ok (by omega) m)]
  rfl

/-- `find_first_node` -/
theorem find_first_leaf_ok {t : Tree α 0} {b : List (Tree α 0)}
    (hb : (t :: b).length ≤ E.baseMax)
    (H : Holds g (pt (.heap p) (IsNode w q i (keys (t :: b))) + F) m) :
    find_first_node E p 2 m =
      .ok { seg := ⟨t.addr, 0, t.xs.length⟩, leaf := ⟨p, 0⟩ } m := by
  unfold find_first_node
  rw [if_pos rfl]
  unfold find_first_leaf
  rw [bind_ok (kptr (a := []) (j := 0) rfl hb H), bind_ok (ksize (a := []) (j := 0) rfl hb H)]
  rfl

theorem find_first_branch_ok {k : Nat} {t : Tree α (k + 1)} {b : List (Tree α (k + 1))}
    (hb : (t :: b).length ≤ E.baseMax)
    (H : Holds g (pt (.heap p) (IsNode w q i (keys (t :: b))) + F) m) :
    find_first_node E p (k + 3) m = find_first_node E t.addr (k + 2) m := by
  unfold find_first_node
  rw [if_neg (by omega), find_first_branch]
  rw [bind_ok (kptr (a := []) (j := 0) rfl hb H), bind_ok (usub_ok (by omega) m)]
  rfl

theorem find_last_leaf_ok {t : Tree α 0} {a : List (Tree α 0)} (ht : 1 ≤ t.xs.length)
    (hb : (a ++ [t]).length ≤ E.baseMax)
    (H : Holds g (pt (.heap p) (IsNode w q i (keys (a ++ [t]))) + F) m) :
    find_last_node E p 2 m =
      .ok { seg := ⟨t.addr, t.xs.length - 1, t.xs.length⟩, leaf := ⟨p, a.length⟩ } m := by
  unfold find_last_node
  rw [if_pos rfl]
  unfold find_last_leaf
  rw [bind_ok (nlen H), bind_ok (usub_ok (by simp) m)]
  rw [show (keys (a ++ [t])).length - 1 = a.length by simp]
  rw [bind_ok (kptr rfl hb H), bind_ok (ksize rfl hb H)]
  simp only [find_last_segment, bind_assoc, pure_bind]
  rw [bind_ok (usub_ok (show 1 ≤ t.size from ht) m)]
  rfl

theorem find_last_branch_ok {k : Nat} {t : Tree α (k + 1)} {a : List (Tree α (k + 1))}
    (hb : (a ++ [t]).length ≤ E.baseMax)
    (H : Holds g (pt (.heap p) (IsNode w q i (keys (a ++ [t]))) + F) m) :
    find_last_node E p (k + 3) m = find_last_node E t.addr (k + 2) m := by
  unfold find_last_node
  rw [if_neg (by omega), find_last_branch]
  rw [bind_ok (nlen H), bind_ok (usub_ok (by simp) m)]
  rw [show (keys (a ++ [t])).length - 1 = a.length by simp]
  rw [bind_ok (kptr rfl hb H), bind_ok (usub_ok (by omega) m)]
  rfl

theorem find_end_leaf_ok {t : Tree α 0} {a : List (Tree α 0)}
    (hb : (a ++ [t]).length ≤ E.baseMax)
    (H : Holds g (pt (.heap p) (IsNode w q i (keys (a ++ [t]))) + F) m) :
    find_end_node E p 2 m =
      .ok { seg := ⟨t.addr, t.xs.length, t.xs.length⟩, leaf := ⟨p, a.length⟩ } m := by
  unfold find_end_node
  rw [if_pos rfl]
  unfold find_end_leaf
  rw [bind_ok (nlen H), bind_ok (usub_ok (by simp) m)]
  rw [show (keys (a ++ [t])).length - 1 = a.length by simp]
  rw [bind_ok (kptr rfl hb H), bind_ok (ksize rfl hb H)]
  rfl

theorem find_end_branch_ok {k : Nat} {t : Tree α (k + 1)} {a : List (Tree α (k + 1))}
    (hb : (a ++ [t]).length ≤ E.baseMax)
    (H : Holds g (pt (.heap p) (IsNode w q i (keys (a ++ [t]))) + F) m) :
    find_end_node E p (k + 3) m = find_end_node E t.addr (k + 2) m := by
  unfold find_end_node
  rw [if_neg (by omega), find_end_branch]
  rw [bind_ok (nlen H), bind_ok (usub_ok (by simp) m)]
  rw [show (keys (a ++ [t])).length - 1 = a.length by simp]
  rw [bind_ok (kptr rfl hb H), bind_ok (usub_ok (by omega) m)]
  rfl

end

/-! ### whole paths -/

section
variable {h p w i : Nat}

/-- the path never leaves the last child -/
def Ctx.Last {h : Nat} : {k : Nat} → Ctx α h k → Prop
  | _, .top => True
  | _, .step _ _ r c => r = [] ∧ c.Last
/-- the path never leaves the first child -/
def Ctx.First {h : Nat} : {k : Nat} → Ctx α h k → Prop
  | _, .top => True
  | _, .step _ l _ c => l = [] ∧ c.First

theorem elemsL_pos {k : Nat} {l : List (Tree α k)} (hw : ∀ t ∈ l, Tree.WF E t) (he : elemsL l = []) :
    l = [] := by
  cases l with
  | nil => rfl
  | cons t l =>
    have h1 := (hw t (by simp)).size_pos
    have h2 : t.elems = [] := by
      have : t.elems ++ elemsL l = [] := he
      exact (List.append_eq_nil_iff.1 this).1
    rw [h2] at h1
    simp at h1

theorem Ctx.Ok.last {k : Nat} {c : Ctx α h k} (hc : c.Ok E) (hp : c.post = []) : c.Last := by
  induction c with
  | top => trivial
  | step a l r c ih =>
    simp only [Ctx.post, List.append_eq_nil_iff] at hp
    exact ⟨elemsL_pos hc.2.1 hp.1, ih hc.2.2.2.2 hp.2⟩

theorem Ctx.Ok.first {k : Nat} {c : Ctx α h k} (hc : c.Ok E) (hp : c.pre = []) : c.First := by
  induction c with
  | top => trivial
  | step a l r c ih =>
    simp only [Ctx.pre, List.append_eq_nil_iff] at hp
    exact ⟨elemsL_pos hc.1 hp.2, ih hc.2.2.2.2 hp.1⟩

theorem Ctx.Last.post {k : Nat} {c : Ctx α h k} (hc : c.Last) : c.post = [] := by
  induction c with
  | top => rfl
  | step a l r c ih => simp [Ctx.post, hc.1, ih hc.2]
theorem Ctx.First.pre {k : Nat} {c : Ctx α h k} (hc : c.First) : c.pre = [] := by
  induction c with
  | top => rfl
  | step a l r c ih => simp [Ctx.pre, hc.1, ih hc.2]

/-- layout of a path whose top records parent `p` and index `i` -/
theorem Ctx.fill_lay' {k : Nat} (c : Ctx α h k) (t : Tree α k) :
    ∃ q j R, SegTree.lay E w p i (c.fill t) = SegTree.lay E w q j t + R := by
  induction c with
  | top => exact ⟨p, i, 0, by simp [Ctx.fill]⟩
  | step a l r c ih =>
    obtain ⟨q, j, R, hR⟩ := ih (Tree.mkNode a (l ++ t :: r))
    refine ⟨a, l.length, pt (.heap a) (IsNode w q j (keys (l ++ t :: r))) + lays E w a 0 l +
      lays E w a (l.length + 1) r + R, ?_⟩
    simp only [Ctx.fill, hR, lay_mkNode, lays_append, lays_cons, Nat.zero_add]
    ac_rfl

/-- the node just above the hole of a path -/
theorem Ctx.fill_node {k a : Nat} {l r : List (Tree α k)} (c : Ctx α h (k + 1)) (t : Tree α k) :
    ∃ q j R, SegTree.lay E w p i ((Ctx.step a l r c).fill t) =
      pt (.heap a) (IsNode w q j (keys (l ++ t :: r))) + R := by
  obtain ⟨q, j, R, hR⟩ := c.fill_lay' (p := p) (i := i) (E := E) (w := w) (Tree.mkNode a (l ++ t :: r))
  exact ⟨q, j, lays E w a 0 (l ++ t :: r) + R, by simp only [Ctx.fill, hR, lay_mkNode]; ac_rfl⟩

theorem Ctx.le {k : Nat} (c : Ctx α h k) : k ≤ h := by
  induction c with
  | top => exact Nat.le_refl _
  | step a l r c ih => omega

theorem find_index_down {k : Nat} (c : Ctx α h k) : ∀ {k' : Nat} (_ : k = k' + 1)
    {t : Tree α k} {j : Nat}, c.Ok E → j < t.size →
    Holds g (lay E w p i (c.fill t) + F) m →
    find_index_node E (c.fill t).addr (h + 1) (c.pre.length + j) m =
      find_index_node E t.addr (k + 1) j m := by
  induction c with
  | top => intro k' e t j _ _ _; simp [Ctx.fill, Ctx.pre]
  | @step k a l r c ih =>
    intro k' e t j hc hj H
    subst e
    have hs := ih (k' := k' + 1) rfl (t := Tree.mkNode a (l ++ t :: r)) (j := (elemsL l).length + j)
      hc.2.2.2.2 (by simp [Tree.size] at hj ⊢; omega) H
    obtain ⟨q, j', R, hR⟩ := Ctx.fill_node (p := p) (i := i) (E := E) (w := w) (a := a) (l := l) (r := r) c t
    rw [hR, add_assoc] at H
    simp only [Ctx.fill, Ctx.pre, List.length_append, Nat.add_assoc]
    rw [hs]
    exact find_index_branch_ok hj (by have := hc.2.2.2.1; simp; omega) H

/-- `find_index_node` finds the segment at the end of any path -/
theorem find_index_node_ok {c : Ctx α (h + 1) 0} {s : Tree α 0} {j : Nat} (hc : c.Ok E)
    (hj : j < s.xs.length) (H : Holds g (lay E w p i (c.fill s) + F) m) :
    find_index_node E (c.fill s).addr (h + 2) (c.pre.length + j) m = .ok (entryOf c s j) m := by
  cases c with
  | step a l r c =>
    have hs := find_index_down c rfl (t := Tree.mkNode a (l ++ s :: r)) (j := (elemsL l).length + j)
      hc.2.2.2.2 (by simp [Tree.size, Tree.elems_zero]; omega) H
    obtain ⟨q, j', R, hR⟩ := Ctx.fill_node (p := p) (i := i) (E := E) (w := w) (a := a) (l := l) (r := r) c s
    rw [hR, add_assoc] at H
    simp only [Ctx.fill, Ctx.pre, List.length_append, Nat.add_assoc]
    rw [hs]
    exact find_index_leaf_ok hj (by have := hc.2.2.2.1; simp; omega) H

theorem find_first_down {k : Nat} (c : Ctx α h k) : ∀ {k' : Nat} (_ : k = k' + 1)
    {t : Tree α k}, c.Ok E → c.First →
    Holds g (lay E w p i (c.fill t) + F) m →
    find_first_node E (c.fill t).addr (h + 1) m = find_first_node E t.addr (k + 1) m := by
  induction c with
  | top => intro k' e t _ _ _; simp [Ctx.fill]
  | @step k a l r c ih =>
    intro k' e t hc hf H
    subst e
    have hs := ih (k' := k' + 1) rfl (t := Tree.mkNode a (l ++ t :: r)) hc.2.2.2.2 hf.2 H
    obtain ⟨q, j', R, hR⟩ := Ctx.fill_node (p := p) (i := i) (E := E) (w := w) (a := a) (l := l) (r := r) c t
    rw [hR, add_assoc] at H
    obtain ⟨rfl, hf⟩ := hf
    simp only [Ctx.fill]
    rw [hs]
    exact find_first_branch_ok (by have := hc.2.2.2.1; simp at this ⊢; omega) H

theorem find_first_node_ok {c : Ctx α (h + 1) 0} {s : Tree α 0} (hc : c.Ok E) (hf : c.First)
    (H : Holds g (lay E w p i (c.fill s) + F) m) :
    find_first_node E (c.fill s).addr (h + 2) m = .ok (entryOf c s 0) m := by
  cases c with
  | step a l r c =>
    have hs := find_first_down c rfl (t := Tree.mkNode a (l ++ s :: r)) hc.2.2.2.2 hf.2 H
    obtain ⟨q, j', R, hR⟩ := Ctx.fill_node (p := p) (i := i) (E := E) (w := w) (a := a) (l := l) (r := r) c s
    rw [hR, add_assoc] at H
    obtain ⟨rfl, hf⟩ := hf
    simp only [Ctx.fill]
    rw [hs]
    exact find_first_leaf_ok (by have := hc.2.2.2.1; simp at this ⊢; omega) H

theorem find_last_down {k : Nat} (c : Ctx α h k) : ∀ {k' : Nat} (_ : k = k' + 1)
    {t : Tree α k}, c.Ok E → c.Last →
    Holds g (lay E w p i (c.fill t) + F) m →
    find_last_node E (c.fill t).addr (h + 1) m = find_last_node E t.addr (k + 1) m := by
  induction c with
  | top => intro k' e t _ _ _; simp [Ctx.fill]
  | @step k a l r c ih =>
    intro k' e t hc hf H
    subst e
    have hs := ih (k' := k' + 1) rfl (t := Tree.mkNode a (l ++ t :: r)) hc.2.2.2.2 hf.2 H
    obtain ⟨q, j', R, hR⟩ := Ctx.fill_node (p := p) (i := i) (E := E) (w := w) (a := a) (l := l) (r := r) c t
    rw [hR, add_assoc] at H
    obtain ⟨rfl, hf⟩ := hf
    simp only [Ctx.fill]
    rw [hs]
    exact find_last_branch_ok (by have := hc.2.2.2.1; simp at this ⊢; omega) H

theorem find_last_node_ok {c : Ctx α (h + 1) 0} {s : Tree α 0} (hc : c.Ok E) (hf : c.Last)
    (hs1 : 1 ≤ s.xs.length) (H : Holds g (lay E w p i (c.fill s) + F) m) :
    find_last_node E (c.fill s).addr (h + 2) m = .ok (entryOf c s (s.xs.length - 1)) m := by
  cases c with
  | step a l r c =>
    have hs := find_last_down c rfl (t := Tree.mkNode a (l ++ s :: r)) hc.2.2.2.2 hf.2 H
    obtain ⟨q, j', R, hR⟩ := Ctx.fill_node (p := p) (i := i) (E := E) (w := w) (a := a) (l := l) (r := r) c s
    rw [hR, add_assoc] at H
    obtain ⟨rfl, hf⟩ := hf
    simp only [Ctx.fill]
    rw [hs]
    exact find_last_leaf_ok hs1 (by have := hc.2.2.2.1; simp at this ⊢; omega) H

theorem find_end_down {k : Nat} (c : Ctx α h k) : ∀ {k' : Nat} (_ : k = k' + 1)
    {t : Tree α k}, c.Ok E → c.Last →
    Holds g (lay E w p i (c.fill t) + F) m →
    find_end_node E (c.fill t).addr (h + 1) m = find_end_node E t.addr (k + 1) m := by
  induction c with
  | top => intro k' e t _ _ _; simp [Ctx.fill]
  | @step k a l r c ih =>
    intro k' e t hc hf H
    subst e
    have hs := ih (k' := k' + 1) rfl (t := Tree.mkNode a (l ++ t :: r)) hc.2.2.2.2 hf.2 H
    obtain ⟨q, j', R, hR⟩ := Ctx.fill_node (p := p) (i := i) (E := E) (w := w) (a := a) (l := l) (r := r) c t
    rw [hR, add_assoc] at H
    obtain ⟨rfl, hf⟩ := hf
    simp only [Ctx.fill]
    rw [hs]
    exact find_end_branch_ok (by have := hc.2.2.2.1; simp at this ⊢; omega) H

theorem find_end_node_ok {c : Ctx α (h + 1) 0} {s : Tree α 0} (hc : c.Ok E) (hf : c.Last)
    (H : Holds g (lay E w p i (c.fill s) + F) m) :
    find_end_node E (c.fill s).addr (h + 2) m = .ok (entryOf c s s.xs.length) m := by
  cases c with
  | step a l r c =>
    have hs := find_end_down c rfl (t := Tree.mkNode a (l ++ s :: r)) hc.2.2.2.2 hf.2 H
    obtain ⟨q, j', R, hR⟩ := Ctx.fill_node (p := p) (i := i) (E := E) (w := w) (a := a) (l := l) (r := r) c s
    rw [hR, add_assoc] at H
    obtain ⟨rfl, hf⟩ := hf
    simp only [Ctx.fill]
    rw [hs]
    exact find_end_leaf_ok (by have := hc.2.2.2.1; simp at this ⊢; omega) H

end

end SegTree
