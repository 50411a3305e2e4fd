/-
  `++` and `--` take constant amortized time: the potential of a position is
  the number of levels at which the path to it goes through the last (for
  `++`) or the first (for `--`) child.
-/
import Verif.Cost.Climb
import Verif.Proof.State2
set_option autoImplicit false

attribute [local instance] SegTree.Weights.accesses

namespace SegTree

variable {α β : Type} {E : Env α} {g : Log} {F : Asrt α} {m : Mem α}

/-- number of levels at which the hole is in the last child -/
def Ctx.trail {h : Nat} : {k : Nat} → Ctx α h k → Nat
  | _, .top => 0
  | _, .step _ _ r c => (if r.isEmpty then 1 else 0) + c.trail

/-- number of levels at which the hole is in the first child -/
def Ctx.lead {h : Nat} : {k : Nat} → Ctx α h k → Nat
  | _, .top => 0
  | _, .step _ l _ c => (if l.isEmpty then 1 else 0) + c.lead

theorem Ctx.trail_le {h k : Nat} (c : Ctx α h k) : c.trail + k ≤ h := by
  induction c with
  | top => simp [Ctx.trail]
  | step a l r c ih => simp only [Ctx.trail]; split <;> omega
theorem Ctx.lead_le {h k : Nat} (c : Ctx α h k) : c.lead + k ≤ h := by
  induction c with
  | top => simp [Ctx.lead]
  | step a l r c ih => simp only [Ctx.lead]; split <;> omega

theorem Ctx.trail_comp {h k n : Nat} (d : Ctx α h k) (c : Ctx α k n) : (Ctx.comp d c).trail = c.trail + d.trail := by
  induction c with
  | top => simp [Ctx.comp, Ctx.trail]
  | step a l r c ih => simp only [Ctx.comp, Ctx.trail, ih]; omega
theorem Ctx.lead_comp {h k n : Nat} (d : Ctx α h k) (c : Ctx α k n) : (Ctx.comp d c).lead = c.lead + d.lead := by
  induction c with
  | top => simp [Ctx.comp, Ctx.lead]
  | step a l r c ih => simp only [Ctx.comp, Ctx.lead, ih]; omega

theorem Ctx.Ok.trail_first {h k : Nat} {c : Ctx α h k} (hc : c.Ok E) (hf : c.First) : c.trail = 0 := by
  induction c with
  | top => rfl
  | step a l r c ih =>
    obtain ⟨h1, h2, h3, h4, h5⟩ := hc
    simp only [Ctx.trail, ih h5 hf.2]
    have : l = [] := hf.1
    subst this
    have := E.baseMin_ge
    cases r with
    | nil => simp at h3; split at h3 <;> omega
    | cons _ _ => simp
theorem Ctx.Ok.lead_last {h k : Nat} {c : Ctx α h k} (hc : c.Ok E) (hf : c.Last) : c.lead = 0 := by
  induction c with
  | top => rfl
  | step a l r c ih =>
    obtain ⟨h1, h2, h3, h4, h5⟩ := hc
    simp only [Ctx.lead, ih h5 hf.2]
    have : r = [] := hf.1
    subst this
    have := E.baseMin_ge
    cases l with
    | nil => simp at h3; split at h3 <;> omega
    | cons _ _ => simp

/-- `At` with the potential `a` for `++`; it is `0` at the end -/
def AtT {h : Nat} (t : Tree α h) (i : Nat) (e : Entry) (a : Nat) : Prop :=
  ∃ (c : Ctx α h 0) (s : Tree α 0) (j : Nat), c.fill s = t ∧ c.pre.length + j = i ∧
    e = entryOf c s j ∧ (j < s.xs.length ∧ c.trail ≤ a ∨ (j = s.xs.length ∧ c.post = []))

/-- `At` with the potential `a` for `--` -/
def AtL {h : Nat} (t : Tree α h) (i : Nat) (e : Entry) (a : Nat) : Prop :=
  ∃ (c : Ctx α h 0) (s : Tree α 0) (j : Nat), c.fill s = t ∧ c.pre.length + j = i ∧
    e = entryOf c s j ∧ (j < s.xs.length ∨ (j = s.xs.length ∧ c.post = [])) ∧ c.lead ≤ a

theorem At.toT {h i : Nat} {t : Tree α h} {e : Entry} (ha : At t i e) : AtT t i e h := by
  obtain ⟨c, s, j, h1, h2, h3, h4⟩ := ha
  exact ⟨c, s, j, h1, h2, h3, h4.imp (fun h => ⟨h, c.trail_le⟩) id⟩
theorem At.toL {h i : Nat} {t : Tree α h} {e : Entry} (ha : At t i e) : AtL t i e h := by
  obtain ⟨c, s, j, h1, h2, h3, h4⟩ := ha
  exact ⟨c, s, j, h1, h2, h3, h4, c.lead_le⟩
theorem AtT.at {h i a : Nat} {t : Tree α h} {e : Entry} (ha : AtT t i e a) : At t i e := by
  obtain ⟨c, s, j, h1, h2, h3, h4⟩ := ha
  exact ⟨c, s, j, h1, h2, h3, h4.imp (fun h => h.1) id⟩
theorem AtL.at {h i a : Nat} {t : Tree α h} {e : Entry} (ha : AtL t i e a) : At t i e := by
  obtain ⟨c, s, j, h1, h2, h3, h4, -⟩ := ha
  exact ⟨c, s, j, h1, h2, h3, h4⟩

theorem forall2_empty {γ δ : Type} {R : γ → δ → Prop} {l : List γ} {l' : List δ} (h : List.Forall₂ R l l') :
    l'.isEmpty = l.isEmpty := by cases h <;> rfl

/-- a tree of the same shape has the same zippers -/
theorem Ctx.Same_trail {h k : Nat} (c : Ctx α h k) : ∀ {t : Tree α k} {u : Tree α h}, (c.fill t).Same u →
    ∃ (c' : Ctx α h k) (t' : Tree α k), c'.fill t' = u ∧ t.Same t' ∧ c'.hdr = c.hdr ∧
      c'.pre.length = c.pre.length ∧ c'.post.length = c.post.length ∧ c'.trail = c.trail ∧ c'.lead = c.lead := by
  induction c with
  | top => intro t u H; exact ⟨.top, u, rfl, H, rfl, rfl, rfl, rfl, rfl⟩
  | @step k a l r c ih =>
    intro t u H
    obtain ⟨c', t', e, hs, h1, h2, h3, h4, h5⟩ := ih (t := Tree.mkNode a (l ++ t :: r)) H
    have hk : List.Forall₂ Tree.Same (l ++ t :: r) t'.kids := hs.2
    have ha : t'.addr = a := hs.1.symm
    have hl : l.length ≤ t'.kids.length := by rw [← hk.length_eq]; simp
    obtain ⟨l', r', e', hl'⟩ : ∃ l' r', t'.kids = l' ++ r' ∧ l'.length = l.length :=
      ⟨t'.kids.take l.length, t'.kids.drop l.length, (List.take_append_drop _ _).symm, by simp; omega⟩
    rw [e'] at hk
    have hk1 := (List.forall₂_take_append (l ++ t :: r) l' r' hk)
    have hk2 := (List.forall₂_drop_append (l ++ t :: r) l' r' hk)
    rw [hl'] at hk1 hk2
    simp only [List.take_left, List.drop_left] at hk1 hk2
    cases hk2 with
    | @cons _ t'' _ r'' hh htl =>
      refine ⟨.step a l' r'' c', t'', ?_, hh, ?_, ?_, ?_, ?_, ?_⟩
      · rw [← e, Ctx.fill, Tree.eta1 t', ha, e']
      · simp only [Ctx.hdr, hl']
      · simp only [Ctx.pre, List.length_append, h2]
        rw [sameL_len (fun _ _ _ h => h.len) hk1]
      · simp only [Ctx.post, List.length_append, h3]
        rw [sameL_len (fun _ _ _ h => h.len) htl]
      · simp only [Ctx.trail, h4, forall2_empty htl]
      · simp only [Ctx.lead, h5, forall2_empty hk1]

theorem AtT.same {h i a : Nat} {t u : Tree α h} {e : Entry} (ha : AtT t i e a) (hs : t.Same u) : AtT u i e a := by
  obtain ⟨c, s, j, rfl, rfl, rfl, hj⟩ := ha
  obtain ⟨c', s', rfl, h1, h2, h3, h4, h5, h6⟩ := c.Same_trail hs
  have hx : s.xs.length = s'.xs.length := h1.2
  refine ⟨c', s', j, rfl, by rw [h3], ?_, ?_⟩
  · simp only [entryOf, h2, hx, h1.addr]
  · rw [← hx, h5]
    rcases hj with hj | ⟨hj, hp⟩
    · exact .inl hj
    · refine .inr ⟨hj, List.eq_nil_of_length_eq_zero (by rw [h4, hp]; rfl)⟩

theorem AtL.same {h i a : Nat} {t u : Tree α h} {e : Entry} (ha : AtL t i e a) (hs : t.Same u) : AtL u i e a := by
  obtain ⟨c, s, j, rfl, rfl, rfl, hj, hl⟩ := ha
  obtain ⟨c', s', rfl, h1, h2, h3, h4, h5, h6⟩ := c.Same_trail hs
  have hx : s.xs.length = s'.xs.length := h1.2
  refine ⟨c', s', j, rfl, by rw [h3], ?_, ?_, by rw [h6]; exact hl⟩
  · simp only [entryOf, h2, hx, h1.addr]
  · rw [← hx]
    rcases hj with hj | ⟨hj, hp⟩
    · exact .inl hj
    · refine .inr ⟨hj, List.eq_nil_of_length_eq_zero (by rw [h4, hp]; rfl)⟩

/-! ### ++ -/

theorem At.first_T {h k : Nat} {d : Ctx α h (k + 1)} {u : Tree α (k + 1)} {e : Entry} (hu : u.Root E) (H : At u 0 e) :
    AtT (d.fill u) d.pre.length e d.trail := by
  obtain ⟨c, s, j, rfl, h0, rfl, hj⟩ := H
  obtain ⟨hc, hs⟩ := (Ctx.fill_root c s).1 hu
  have h1 : j = 0 := by omega
  subst h1
  have h2 : c.pre = [] := List.eq_nil_of_length_eq_zero (by omega)
  refine ⟨Ctx.comp d c, s, 0, Ctx.comp_fill _ _ _, by rw [Ctx.comp_pre, h2]; simp,
    (entryOf_comp _ _ _ _).symm, .inl ⟨(Ctx.holeOk_root hs).size_pos, ?_⟩⟩
  rw [Ctx.trail_comp, hc.trail_first (hc.first h2)]
  omega

theorem At.last_L {h k : Nat} {d : Ctx α h (k + 1)} {u : Tree α (k + 1)} {e : Entry} (hu : u.Root E)
    (H : At u (u.size - 1) e) : AtL (d.fill u) (d.pre.length + (u.size - 1)) e d.lead := by
  have h0 : 1 ≤ u.size := hu.size_pos
  obtain ⟨c, s, j, rfl, hi, rfl, hj⟩ := H
  obtain ⟨hc, hs⟩ := (Ctx.fill_root c s).1 hu
  have h1 : 1 ≤ s.xs.length := (Ctx.holeOk_root hs).size_pos
  rw [fill_size] at hi h0
  have hz : s.size = s.xs.length := rfl
  have hj : j < s.xs.length := by
    rcases hj with hj | ⟨hj, hp⟩
    · exact hj
    · rw [hp] at hi; simp at hi; omega
  have h2 : c.post = [] := List.eq_nil_of_length_eq_zero (by omega)
  refine ⟨Ctx.comp d c, s, j, Ctx.comp_fill _ _ _, ?_, (entryOf_comp _ _ _ _).symm, .inl hj, ?_⟩
  · rw [Ctx.comp_pre, fill_size, List.length_append]; omega
  · rw [Ctx.lead_comp, hc.lead_last (hc.last h2)]
    omega

theorem next_branch_am {h w : Nat} (e : Entry) {k : Nat} (c : Ctx α h k) : ∀ {k' : Nat} (_ : k = k' + 1)
    {t : Tree α k}, c.Ok E → Holds g (lay E w 0 0 (c.fill t) + F) m →
    ∃ e' n a, move_next_branch E e c.hdr.1 c.hdr.2 (k + 1) m = .ok e' m ∧
      (Cost.move_next_branch E e c.hdr.1 c.hdr.2 (k + 1) m).le n ∧
      (c.post = [] → e' = e.atSegEnd ∧ n ≤ 3 * c.trail) ∧
      (c.post ≠ [] → AtT (c.fill t) (c.pre.length + t.size) e' a ∧ n + 5 * a ≤ 5 * c.trail + 2 * k + 11) := by
  induction c with
  | top =>
    intro k' _ t _ H
    rw [move_next_branch, Cost.move_next_branch]
    refine ⟨e.atSegEnd, 0, 0, by simp [Ctx.hdr], ?_, fun _ => ⟨rfl, Nat.zero_le _⟩, fun h => absurd rfl h⟩
    simp only [Ctx.hdr]
    exact Nat.zero_le _
  | @step k a l r c ih =>
    intro k' hk t hc H
    subst hk
    have ha := Ctx.hdr_ne H
    obtain ⟨R, hR⟩ := Ctx.node_at (E := E) (w := w) (a := a) (l := l) (r := r) c t
    have H1 := H
    rw [hR, add_assoc] at H1
    simp only [Ctx.hdr]
    rw [move_next_branch, if_neg ha, Cost.move_next_branch, if_neg ha]
    rw [bind_ok (nlen H1)]
    cases r with
    | nil =>
      rw [if_neg (by simp)]
      rw [bind_ok (npidx H1), bind_ok (nparent H1)]
      obtain ⟨e', n, b, h1, hn, h2, h3⟩ := ih (k' := k' + 1) rfl (t := Tree.mkNode a (l ++ [t])) hc.2.2.2.2 H
      refine ⟨e', n + 3, b, h1, ?_, ?_, ?_⟩
      · refine CRes.le_step (nlen H1) ((CB.len _).run m) (by omega) ?_
        rw [if_neg (by simp)]
        refine CRes.le_step (npidx H1) ((CB.pidx _).run m) (by omega) ?_
        refine CRes.le_step (nparent H1) ((CB.parent _).run m) (by omega) ?_
        exact hn.mono (by omega)
      · intro hp
        obtain ⟨h4, h5⟩ := h2 (by simpa [Ctx.post] using hp)
        exact ⟨h4, by simp [Ctx.trail]; omega⟩
      · intro hp
        obtain ⟨h4, h5⟩ := h3 (by simpa [Ctx.post] using hp)
        refine ⟨?_, by simp [Ctx.trail]; omega⟩
        rw [Ctx.step_fill]
        convert h4 using 1
        simp [Ctx.pre, Tree.size]; omega
    | cons u r =>
      rw [if_pos (by simp)]
      have hb := hc.bound t
      have ep : ptrsAt E a (l.length + 1) m = .ok u.addr m := kptr (a := l ++ [t]) (b := r) (by simp) (by simpa using hb) (by simpa using H1)
      rw [bind_ok ep]
      have hu : u.WF E := hc.2.1 u (by simp)
      obtain ⟨e', he'⟩ := At.exists (E := E) hu.root (Nat.zero_le u.size)
      obtain ⟨R', hR'⟩ := Ctx.kid_at (E := E) (w := w) (a := a) (l := l) (r := u :: r) (x := l ++ [t]) (y := r)
        (u := u) c t (by simp)
      have H2 := H
      rw [hR', add_assoc] at H2
      refine ⟨e', 2 + (k' + 1 + 1 + 1) * 2, (Ctx.step a (l ++ [t]) r c).trail, find_first_at hu.root he' H2, ?_, ?_, ?_⟩
      · refine CRes.le_step (nlen H1) ((CB.len _).run m) (by omega) ?_
        rw [if_pos (by simp)]
        refine CRes.le_step ep ((CB.ptrsAt _ _).run m) (by omega) ?_
        exact ((CB.find_first_node _ _).run m).mono (by omega)
      · intro hp
        simp only [Ctx.post, elemsL_cons, List.append_eq_nil_iff] at hp
        have := hu.size_pos
        rw [hp.1.1] at this
        simp at this
      · intro _
        have := he'.first_T (d := Ctx.step a (l ++ [t]) r c) hu.root
        refine ⟨?_, by simp only [Ctx.trail, List.isEmpty_cons]; split <;> simp <;> omega⟩
        rw [Ctx.step_fill] at this ⊢
        convert this using 1
        · simp
        · simp [Ctx.pre, Tree.size]; omega

theorem next_leaf_am {h w : Nat} {c : Ctx α h 0} {s : Tree α 0} {j : Nat} (hc : c.Ok E)
    (H : Holds g (lay E w 0 0 (c.fill s) + F) m) :
    ∃ e' n a, move_next_leaf E (entryOf c s j) m = .ok e' m ∧ (Cost.move_next_leaf E (entryOf c s j) m).le n ∧
      AtT (c.fill s) (c.pre.length + s.xs.length) e' a ∧ n + 5 * a ≤ 5 * c.trail + 11 := by
  cases c with
  | top =>
    unfold move_next_leaf Cost.move_next_leaf
    refine ⟨entryOf .top s s.xs.length, 0, 0, by simp [entryOf, Ctx.hdr]; rfl, ?_, ⟨.top, s, _, rfl, rfl, rfl, .inr ⟨rfl, rfl⟩⟩,
      by simp [Ctx.trail]⟩
    simp only [entryOf, Ctx.hdr]
    exact Nat.zero_le _
  | step a l r c =>
    have ha := Ctx.hdr_ne H
    obtain ⟨R, hR⟩ := Ctx.node_at (E := E) (w := w) (a := a) (l := l) (r := r) c s
    have H1 := H
    rw [hR, add_assoc] at H1
    simp only [entryOf, Ctx.hdr]
    unfold move_next_leaf Cost.move_next_leaf
    simp only [ha, if_false]
    rw [bind_ok (nlen H1)]
    have hb := hc.bound s
    cases r with
    | nil =>
      rw [if_neg (by simp)]
      rw [bind_ok (nparent H1), bind_ok (npidx H1)]
      obtain ⟨e', n, b, h1, hn, h2, h3⟩ := next_branch_am (entryOf (.step a l [] c) s j) c rfl
        (t := Tree.mkNode a (l ++ [s])) hc.2.2.2.2 H
      have hcost : (((Cost.len a : C α Nat) >>= fun v => if l.length + 1 ≠ v then do
          let p ← Cost.ptrsAt E a (l.length + 1)
          let z ← Cost.sizesAt E a (l.length + 1)
          pure (⟨find_first_segment p z, ⟨a, l.length + 1⟩⟩ : Entry)
        else do
          let q ← Cost.parent a
          let i ← Cost.pidx a
          Cost.move_next_branch E (entryOf (.step a l [] c) s j) q i 2) m).le (n + 3) := by
        refine CRes.le_step (nlen H1) ((CB.len _).run m) (by omega) ?_
        rw [if_neg (by simp)]
        refine CRes.le_step (nparent H1) ((CB.parent _).run m) (by omega) ?_
        refine CRes.le_step (npidx H1) ((CB.pidx _).run m) (by omega) ?_
        exact hn.mono (by omega)
      by_cases hp : c.post = []
      · obtain ⟨h4, h5⟩ := h2 hp
        refine ⟨e', n + 3, 0, h1, hcost, ?_, by simp [Ctx.trail]; omega⟩
        rw [h4, entry_atSegEnd]
        exact ⟨_, s, _, rfl, rfl, rfl, .inr ⟨rfl, by simpa [Ctx.post] using hp⟩⟩
      · obtain ⟨h4, h5⟩ := h3 hp
        refine ⟨e', n + 3, b, h1, hcost, ?_, by simp [Ctx.trail]; omega⟩
        rw [Ctx.step_fill]
        convert h4 using 1
        simp [Ctx.pre, Tree.size, Tree.elems_zero]; omega
    | cons u r =>
      rw [if_pos (by simp)]
      have ep : ptrsAt E a (l.length + 1) m = .ok u.addr m := kptr (a := l ++ [s]) (b := r) (by simp) (by simpa using hb) (by simpa using H1)
      have es : sizesAt E a (l.length + 1) m = .ok u.size m := ksize (a := l ++ [s]) (b := r) (by simp) (by simpa using hb) (by simpa using H1)
      rw [bind_ok ep, bind_ok es]
      have hu : u.WF E := hc.2.1 u (by simp)
      refine ⟨_, 3, (Ctx.step a (l ++ [s]) r c).trail, rfl, ?_, ?_, ?_⟩
      · refine CRes.le_step (nlen H1) ((CB.len _).run m) (by omega) ?_
        rw [if_pos (by simp)]
        refine CRes.le_step ep ((CB.ptrsAt _ _).run m) (by omega) ?_
        refine CRes.le_step es ((CB.sizesAt _ _).run m) (by omega) ?_
        exact Nat.zero_le _
      · have : AtT ((Ctx.step a (l ++ [s]) r c).fill u) _ _ _ :=
          ⟨Ctx.step a (l ++ [s]) r c, u, 0, rfl, rfl, rfl, .inl ⟨hu.size_pos, Nat.le_refl _⟩⟩
        rw [Ctx.step_fill] at this ⊢
        convert this using 1
        · simp
        · simp [Ctx.pre, Tree.elems_zero]; omega
        · simp [entryOf, Ctx.hdr, find_first_segment]; rfl
      · simp only [Ctx.trail, List.isEmpty_cons]; split <;> simp <;> omega

theorem next_segment_am {h w i a : Nat} {t : Tree α h} {e : Entry} (hr : t.Root E) (ha : AtT t i e a)
    (hi : i < t.size) (H : Holds g (lay E w 0 0 t + F) m) :
    ∃ e' n b, move_next_segment E e m = .ok e' m ∧ (Cost.move_next_segment E e m).le n ∧ AtT t (i + 1) e' b ∧
      n + 5 * b ≤ 5 * a + 11 := by
  obtain ⟨c, s, j, rfl, rfl, rfl, hj⟩ := ha
  obtain ⟨hc, hs⟩ := (Ctx.fill_root c s).1 hr
  rw [fill_size] at hi
  have hz : s.size = s.xs.length := rfl
  obtain ⟨hj, htr⟩ : j < s.xs.length ∧ c.trail ≤ a := by
    rcases hj with hj | ⟨hj, hp⟩
    · exact hj
    · rw [hp] at hi; simp at hi; omega
  unfold move_next_segment Cost.move_next_segment
  by_cases h1 : j + 1 = s.xs.length
  · rw [if_neg (by simpa [entryOf] using h1), if_neg (by simpa [entryOf] using h1)]
    obtain ⟨e', n, b, h2, h3, h4, h5⟩ := next_leaf_am (j := j) hc H
    exact ⟨e', n, b, h2, h3, by convert h4 using 1; omega, by omega⟩
  · rw [if_pos (by simpa [entryOf] using h1), if_pos (by simpa [entryOf] using h1)]
    exact ⟨_, 0, c.trail, rfl, Nat.zero_le _, ⟨c, s, j + 1, rfl, by omega, rfl, .inl ⟨by omega, Nat.le_refl _⟩⟩, by omega⟩

/-! ### -- -/

theorem prev_branch_am {h w : Nat} {k : Nat} (c : Ctx α h k) : ∀ {k' : Nat} (_ : k = k' + 1)
    {t : Tree α k}, c.Ok E → c.pre ≠ [] → Holds g (lay E w 0 0 (c.fill t) + F) m →
    ∃ e' n a, move_prev_branch E c.hdr.1 c.hdr.2 (k + 1) m = .ok e' m ∧
      (Cost.move_prev_branch E c.hdr.1 c.hdr.2 (k + 1) m).le n ∧
      AtL (c.fill t) (c.pre.length - 1) e' a ∧ n + 6 * a ≤ 6 * c.lead + 3 * k + 13 := by
  induction c with
  | top => intro k' _ t _ hp; exact absurd rfl hp
  | @step k a l r c ih =>
    intro k' hk t hc hp H
    subst hk
    obtain ⟨R, hR⟩ := Ctx.node_at (E := E) (w := w) (a := a) (l := l) (r := r) c t
    have H1 := H
    rw [hR, add_assoc] at H1
    have hb := hc.bound t
    simp only [Ctx.hdr]
    rw [move_prev_branch, Cost.move_prev_branch]
    rcases List.eq_nil_or_concat l with rfl | ⟨l, u, rfl⟩
    · rw [if_neg (by simp), if_neg (by simp)]
      rw [bind_ok (npidx H1), bind_ok (nparent H1)]
      obtain ⟨e', n, b, h1, hn, h2, h3⟩ := ih (k' := k' + 1) rfl (t := Tree.mkNode a (t :: r)) hc.2.2.2.2
        (by simpa [Ctx.pre] using hp) H
      refine ⟨e', n + 2, b, h1, ?_, ?_, by simp [Ctx.lead]; omega⟩
      · refine CRes.le_step (npidx H1) ((CB.pidx _).run m) (by omega) ?_
        refine CRes.le_step (nparent H1) ((CB.parent _).run m) (by omega) ?_
        exact hn.mono (by omega)
      · rw [Ctx.step_fill]
        simpa [Ctx.pre] using h2
    · rw [List.concat_eq_append] at *
      rw [if_pos (by simp), if_pos (by simp)]
      have ep : ptrsAt E a ((l ++ [u]).length - 1) m = .ok u.addr m :=
        kptr (a := l) (b := t :: r) (by simp) (by simpa using hb) (by simpa using H1)
      rw [bind_ok ep]
      have hu : u.WF E := hc.1 u (by simp)
      have hu1 : 1 ≤ u.size := hu.size_pos
      obtain ⟨e', he'⟩ := At.exists (E := E) hu.root (show u.size - 1 ≤ u.size by omega)
      obtain ⟨R', hR'⟩ := Ctx.kid_at (E := E) (w := w) (a := a) (l := l ++ [u]) (r := r) (x := l) (y := t :: r)
        (u := u) c t (by simp)
      have H2 := H
      rw [hR', add_assoc] at H2
      refine ⟨e', 1 + (k' + 1 + 1 + 1) * 3, (Ctx.step a l (t :: r) c).lead, find_last_at hu.root he' H2, ?_, ?_, ?_⟩
      · refine CRes.le_step ep ((CB.ptrsAt _ _).run m) (by omega) ?_
        exact ((CB.find_last_node _ _).run m).mono (by omega)
      · have := he'.last_L (d := Ctx.step a l (t :: r) c) hu.root
        rw [Ctx.step_fill] at this ⊢
        convert this using 1
        · simp
        · simp [Ctx.pre]; unfold Tree.size at *; omega
      · simp only [Ctx.lead]
        rw [if_neg (by simp : ¬ (l ++ [u]).isEmpty = true)]
        split <;> omega

theorem prev_leaf_am {h w : Nat} {c : Ctx α h 0} {s : Tree α 0} {j : Nat} (hc : c.Ok E)
    (hp : c.pre ≠ []) (H : Holds g (lay E w 0 0 (c.fill s) + F) m) :
    ∃ e' n a, move_prev_leaf E (entryOf c s j) m = .ok e' m ∧ (Cost.move_prev_leaf E (entryOf c s j) m).le n ∧
      AtL (c.fill s) (c.pre.length - 1) e' a ∧ n + 6 * a ≤ 6 * c.lead + 12 := by
  cases c with
  | top => exact absurd rfl hp
  | step a l r c =>
    obtain ⟨R, hR⟩ := Ctx.node_at (E := E) (w := w) (a := a) (l := l) (r := r) c s
    have H1 := H
    rw [hR, add_assoc] at H1
    have hb := hc.bound s
    simp only [entryOf, Ctx.hdr]
    unfold move_prev_leaf Cost.move_prev_leaf
    dsimp only
    rcases List.eq_nil_or_concat l with rfl | ⟨l, u, rfl⟩
    · rw [if_neg (by simp), if_neg (by simp)]
      rw [bind_ok (nparent H1), bind_ok (npidx H1)]
      obtain ⟨e', n, b, h1, hn, h2, h3⟩ := prev_branch_am c rfl (t := Tree.mkNode a (s :: r)) hc.2.2.2.2
        (by simpa [Ctx.pre] using hp) H
      refine ⟨e', n + 2, b, h1, ?_, ?_, by simp [Ctx.lead]; omega⟩
      · refine CRes.le_step (nparent H1) ((CB.parent _).run m) (by omega) ?_
        refine CRes.le_step (npidx H1) ((CB.pidx _).run m) (by omega) ?_
        exact hn.mono (by omega)
      · rw [Ctx.step_fill]
        simpa [Ctx.pre] using h2
    · rw [List.concat_eq_append] at *
      rw [if_pos (by simp), if_pos (by simp)]
      have ep : ptrsAt E a ((l ++ [u]).length - 1) m = .ok u.addr m :=
        kptr (a := l) (b := s :: r) (by simp) (by simpa using hb) (by simpa using H1)
      have es : sizesAt E a ((l ++ [u]).length - 1) m = .ok u.size m :=
        ksize (a := l) (b := s :: r) (by simp) (by simpa using hb) (by simpa using H1)
      rw [bind_ok ep, bind_ok es]
      have hu : u.WF E := hc.1 u (by simp)
      have hu1 : 1 ≤ u.xs.length := hu.size_pos
      simp only [find_last_segment, bind_assoc, pure_bind]
      rw [bind_ok (usub_ok (show 1 ≤ u.size from hu1) m)]
      refine ⟨_, 2, (Ctx.step a l (s :: r) c).lead, rfl, ?_, ?_, ?_⟩
      · refine CRes.le_step ep ((CB.ptrsAt _ _).run m) (by omega) ?_
        refine CRes.le_step es ((CB.sizesAt _ _).run m) (by omega) ?_
        refine CRes.le_bind ((CB.find_last_segment _ _).run m) (by omega) fun _ _ _ _ => Nat.zero_le _
      · have : AtL ((Ctx.step a l (s :: r) c).fill u) _ _ _ :=
          ⟨Ctx.step a l (s :: r) c, u, u.xs.length - 1, rfl, rfl, rfl, .inl (by omega), Nat.le_refl _⟩
        rw [Ctx.step_fill] at this ⊢
        convert this using 1
        · simp
        · simp [Ctx.pre, Tree.elems_zero]; omega
        · simp [entryOf, Ctx.hdr]; exact ⟨rfl, rfl⟩
      · simp only [Ctx.lead]
        rw [if_neg (by simp : ¬ (l ++ [u]).isEmpty = true)]
        split <;> omega

theorem prev_segment_am {h w i a : Nat} {t : Tree α h} {e : Entry} (hr : t.Root E) (ha : AtL t i e a)
    (hi : 0 < i) (H : Holds g (lay E w 0 0 t + F) m) :
    ∃ e' n b, move_prev_segment E e m = .ok e' m ∧ (Cost.move_prev_segment E e m).le n ∧ AtL t (i - 1) e' b ∧
      n + 6 * b ≤ 6 * a + 12 := by
  obtain ⟨c, s, j, rfl, rfl, rfl, hj, hl⟩ := ha
  obtain ⟨hc, hs⟩ := (Ctx.fill_root c s).1 hr
  unfold move_prev_segment Cost.move_prev_segment
  by_cases h1 : j = 0
  · subst h1
    rw [if_neg (by simp [entryOf]), if_neg (by simp [entryOf])]
    obtain ⟨e', n, b, h2, h3, h4, h5⟩ := prev_leaf_am (j := 0) hc (by intro h; rw [h] at hi; simp at hi) H
    exact ⟨e', n, b, h2, h3, h4, by omega⟩
  · rw [if_pos (by simpa [entryOf] using h1), if_pos (by simpa [entryOf] using h1)]
    exact ⟨_, 0, c.lead, rfl, Nat.zero_le _, ⟨c, s, j - 1, rfl, by omega, rfl, .inl (by omega), Nat.le_refl _⟩, by omega⟩

/-! ### containers -/

/-- `St.At` with the potential for `++` -/
def St.AtT : St α → Nat → Iter → Nat → Prop
  | .nil, i, it, _ => St.nil.At (α := α) i it
  | .tree t, i, it, a => it.pos = i ∧ SegTree.AtT t i it.entry a

/-- `St.At` with the potential for `--` -/
def St.AtL : St α → Nat → Iter → Nat → Prop
  | .nil, i, it, _ => St.nil.At (α := α) i it
  | .tree t, i, it, a => it.pos = i ∧ SegTree.AtL t i it.entry a

section
variable {o al i a : Nat} {s s' : St α} {it : Iter}

theorem St.At.toT (h : s.At i it) : s.AtT i it s.ht := by
  cases s with
  | nil => exact h
  | @tree k t =>
    obtain ⟨c, q, j, h1, h2, h3, h4⟩ := h.2.toT
    exact ⟨h.1, c, q, j, h1, h2, h3, h4.imp (fun h => ⟨h.1, Nat.le_trans h.2 (Nat.le_succ k)⟩) id⟩
theorem St.At.toL (h : s.At i it) : s.AtL i it s.ht := by
  cases s with
  | nil => exact h
  | @tree k t =>
    obtain ⟨c, q, j, h1, h2, h3, h4, h5⟩ := h.2.toL
    exact ⟨h.1, c, q, j, h1, h2, h3, h4, Nat.le_trans h5 (Nat.le_succ k)⟩
theorem St.AtT.at (h : s.AtT i it a) : s.At i it := by
  cases s with
  | nil => exact h
  | tree t => exact ⟨h.1, h.2.at⟩
theorem St.AtL.at (h : s.AtL i it a) : s.At i it := by
  cases s with
  | nil => exact h
  | tree t => exact ⟨h.1, h.2.at⟩
theorem St.AtT.same (h : s.AtT i it a) (hs : s.Same s') : s'.AtT i it a := by
  cases hs with
  | nil => exact h
  | tree hs => exact ⟨h.1, h.2.same hs⟩
theorem St.AtL.same (h : s.AtL i it a) (hs : s.Same s') : s'.AtL i it a := by
  cases hs with
  | nil => exact h
  | tree hs => exact ⟨h.1, h.2.same hs⟩
theorem move_next_am (hs : s.Ok E) (ha : s.AtT i it a) (hi : i < s.elems.length)
    (H : Holds g (cont E o al s + F) m) : ∃ it' n b, move_next_iterator E it m = .ok it' m ∧
      (Cost.move_next_iterator E it m).le n ∧ s.AtT (i + 1) it' b ∧ n + 5 * b ≤ 5 * a + 11 := by
  cases s with
  | nil => simp at hi
  | tree t =>
    rw [cont_tree, aassoc] at H
    obtain ⟨e', n, b, h1, h2, h3, h4⟩ := next_segment_am hs.2 ha.2 hi H
    refine ⟨⟨e', it.pos + 1⟩, n, b, by unfold move_next_iterator; rw [bind_ok h1]; rfl, ?_, ⟨by rw [ha.1], h3⟩, h4⟩
    unfold Cost.move_next_iterator
    exact CRes.le_step h1 h2 (Nat.le_refl _) (Nat.zero_le _)

theorem move_prev_am (hs : s.Ok E) (ha : s.AtL i it a) (hi : 0 < i)
    (H : Holds g (cont E o al s + F) m) : ∃ it' n b, move_prev_iterator E it m = .ok it' m ∧
      (Cost.move_prev_iterator E it m).le n ∧ s.AtL (i - 1) it' b ∧ n + 6 * b ≤ 6 * a + 12 := by
  cases s with
  | nil => have := ha.2.1; omega
  | tree t =>
    rw [cont_tree, aassoc] at H
    obtain ⟨e', n, b, h1, h2, h3, h4⟩ := prev_segment_am hs.2 ha.2 hi H
    refine ⟨⟨e', i - 1⟩, n, b, ?_, ?_, ⟨rfl, h3⟩, h4⟩
    · unfold move_prev_iterator
      rw [ha.1, bind_ok (usub_ok (by omega) m), bind_ok h1]; rfl
    · unfold Cost.move_prev_iterator
      refine CRes.le_usub fun _ => ?_
      exact CRes.le_step h1 h2 (Nat.le_refl _) (Nat.zero_le _)

end

end SegTree
