/-
  C90: what insertions and erasures in turn cost the allocator: a constant per call if nodes
  have an even number of places, no constant if the number is odd.
-/
import Verif.Props.Shrink
import Mathlib.Tactic.Ring
set_option autoImplicit false

namespace SegTree

variable {α : Type} {E : Env α} {m m' : Mem α} {o i : Nat} {xs : List α} {it : Iter} {v : α}

/-! ### Specification -/

/-- From `m` to `m'` by `a` single insertions and `b` single erasures at any places of container
`o`, in any order, all of which return. -/
inductive Edits (E : Env α) (o : Nat) : Nat → Nat → Mem α → Mem α → Prop where
  | done {m : Mem α} : Edits E o 0 0 m m
  | insert {m m1 m' : Mem α} {a b i : Nat} {xs : List α} {it : Iter} {v : α} {x : M α Unit} :
      Contents E o m xs → i ≤ xs.length → nth E o i m = .ok it m → xs.length + 1 ≤ max_size E →
      Insertion E o i xs.length it v x → x m = .ok () m1 → Edits E o a b m1 m' → Edits E o (a + 1) b m m'
  | erase {m m1 m' : Mem α} {a b i : Nat} {xs : List α} {it : Iter} {x : M α Unit} :
      Contents E o m xs → i < xs.length → nth E o i m = .ok it m →
      Removal E o i xs.length it x → x m = .ok () m1 → Edits E o a b m1 m' → Edits E o a (b + 1) m m'

/-- `n` calls of `pop_back` -/
inductive Drops (E : Env α) (o : Nat) : Nat → Mem α → Mem α → Prop where
  | nil {m : Mem α} : Drops E o 0 m m
  | cons {m m1 m' : Mem α} {n : Nat} : pop_back E o m = .ok () m1 → Drops E o n m1 m' → Drops E o (n + 1) m m'

/-- `n` calls of `push_back`, with any elements -/
inductive Appends (E : Env α) (o : Nat) : Nat → Mem α → Mem α → Prop where
  | nil {m : Mem α} : Appends E o 0 m m
  | cons {m m1 m' : Mem α} {n : Nat} {v : α} : (push_back E o v m = .ok () m1 ∨ push_back_rv E o v m = .ok () m1) →
      Appends E o n m1 m' → Appends E o (n + 1) m m'

/-- `r` rounds of `d` calls of `pop_back` and as many of `push_back` -/
inductive Rounds (E : Env α) (o d : Nat) : Nat → Mem α → Mem α → Prop where
  | nil {m : Mem α} : Rounds E o d 0 m m
  | cons {m m1 m2 m' : Mem α} {r : Nat} : Drops E o d m m1 → Appends E o d m1 m2 → Rounds E o d r m2 m' →
      Rounds E o d (r + 1) m m'

/-- 1 if segments have an odd number of places, otherwise 2 -/
def Env.lap (E : Env α) : Nat := if E.segMax % 2 = 1 then 1 else 2

/-! ### Proofs -/

section
variable {g : Log} {F : Asrt α} {al : Nat} {s : St α}

theorem insertion_g (hE : E.Good) (hs : s.Ok E) (ha : s.At i it) (hsz : s.elems.length + 1 ≤ max_size E)
    (H : Holds g (cont E o al s + F) m) {x : M α Unit} (hx : Insertion E o i s.elems.length it v x) (hok : x m = .ok () m') :
    ∃ s' n, s'.Ok E ∧ s'.elems = s.elems.take i ++ v :: s.elems.drop i ∧ s.GrownBy E i it n s' ∧
      Holds { g with reqs := g.reqs + n } (cont E o al s' + F) m' := by
  have key : ∀ mk : M α α, Mk (CopyThrows E) v mk → Spec (emplace_single E o it mk >>= fun _ => pure ()) m
      (fun _ m' => ∃ s' n, s'.Ok E ∧ s'.elems = s.elems.take i ++ v :: s.elems.drop i ∧ s.GrownBy E i it n s' ∧
        Holds { g with reqs := g.reqs + n } (cont E o al s' + F) m') (fun _ _ => True) := by
    intro mk hm
    unfold emplace_single
    obtain ⟨m1, ht, h | ⟨h, h1⟩⟩ := hm m
    · rw [bind_assoc]
      refine Spec.step h (((insert_iterator_x v hE hs ha (max_lt hE hsz) (ht.holds H)).mono (fun _ _ h => h)
        (fun _ _ _ => trivial)).bind ?_)
      rintro jt m' ⟨s', n, hs', h1, -, -, hg, H'⟩
      exact Spec.pure ⟨s', n, hs', h1, hg, H'⟩
    · exact Spec.thr (bind_throw (bind_throw h)) trivial
  have pure' : Mk (CopyThrows E) v (pure v) := Mk.pure v
  have : Spec x m (fun _ m' => ∃ s' n, s'.Ok E ∧ s'.elems = s.elems.take i ++ v :: s.elems.drop i ∧ s.GrownBy E i it n s' ∧
        Holds { g with reqs := g.reqs + n } (cont E o al s' + F) m') (fun _ _ => True) := by
    cases hx with
    | insert => exact key _ (Mk.copy v)
    | insert_rv => exact key _ pure'
    | push_back h => subst h; exact Spec.step (find_end_c hs ha H) (key _ (Mk.copy v))
    | push_back_rv h => subst h; exact Spec.step (find_end_c hs ha H) (key _ pure')
    | push_front h => subst h; exact Spec.step (find_first_c hs ha H) (key _ (Mk.copy v))
    | push_front_rv h => subst h; exact Spec.step (find_first_c hs ha H) (key _ pure')
  exact this.ret hok

theorem removal_g (hE : E.Good) (hs : s.Ok E) (ha : s.At i it) (hi : i < s.elems.length)
    (H : Holds g (cont E o al s + F) m) {x : M α Unit} (hx : Removal E o i s.elems.length it x) :
    ∃ m' s', x m = .ok () m' ∧ s'.Ok E ∧ s'.elems = s.elems.eraseIdx i ∧ s.ShrunkBy E i it s' ∧
      Holds g (cont E o al s' + F) m' := by
  have key : ∃ m' s', (do let _ ← erase_single E o it : M α Unit) m = .ok () m' ∧ s'.Ok E ∧
      s'.elems = s.elems.eraseIdx i ∧ s.ShrunkBy E i it s' ∧ Holds g (cont E o al s' + F) m' := by
    have h1 := erase_single_x hE hs ha hi H
    unfold Spec at h1
    cases e : erase_single E o it m with
    | throw e m' => rw [e] at h1; exact h1.elim
    | ub u => rw [e] at h1; exact h1.elim
    | div => rw [e] at h1; exact h1.elim
    | ok jt m' =>
      rw [e] at h1
      obtain ⟨s', hs', hel, -, hsh, H'⟩ := h1
      exact ⟨m', s', bind_ok e, hs', hel, hsh, H'⟩
  cases hx with
  | erase => exact key
  | pop_back h =>
    obtain ⟨m', s', h1, h2⟩ := key
    refine ⟨m', s', ?_, h2⟩
    unfold pop_back
    rw [bind_ok (find_last_c hs (by rw [show s.elems.length - 1 = i by rw [← h]; rfl]; exact ha) (by omega) H)]
    exact h1
  | pop_front h =>
    subst h
    obtain ⟨m', s', h1, h2⟩ := key
    refine ⟨m', s', ?_, h2⟩
    unfold pop_front
    rw [bind_ok (find_first_c hs ha H)]
    exact h1

end

/-! #### an even number of places -/

def St.pot (E : Env α) : St α → Nat
  | .nil => 0
  | .tree t => t.pot E

theorem Env.even_of (h : E.baseMax % 2 = 0) : E.Even := by unfold Env.Even Env.baseMin; omega
theorem Env.odd_of (h : E.baseMax % 2 = 1) : E.Odd := by unfold Env.Odd Env.baseMin; omega

theorem St.GrownBy.cost {s s' : St α} {n : Nat} (h : s.GrownBy E i it n s') (he : E.Even) : s'.pot E + n ≤ s.pot E + 3 := by
  cases s' with
  | nil => cases s <;> exact h.elim
  | tree t' =>
    cases s with
    | nil => obtain ⟨rfl, -, h⟩ := h; simp only [St.pot]; omega
    | tree t =>
      obtain ⟨c, s, rfl, -, -, -, -, h⟩ := h
      exact h.cost he

theorem St.ShrunkBy.cost {s s' : St α} (h : s.ShrunkBy E i it s') (he : E.Even) : s'.pot E ≤ s.pot E + 1 := by
  cases s with
  | nil => exact h.elim
  | tree t =>
    cases s' with
    | nil => simp [St.pot]
    | tree t' =>
      obtain ⟨c, s, rfl, -, -, -, -, h⟩ := h
      exact h.cost he

theorem edits_g (hE : E.Good) (he : E.Even) {a b : Nat} (h : Edits E o a b m m') :
    ∀ {al : Nat} {s : St α} {F : Asrt α}, s.Ok E → Holds m.log (cont E o al s + F) m →
      m'.log.reqs ≤ m.log.reqs + s.pot E + 3 * a + b := by
  induction h with
  | done => intro al s F _ _; omega
  | @insert m m1 m' a b i xs it v x hc hi hn hsz hx h1 _ ih =>
    intro al s F hs H
    have hxs : xs = s.elems := hc.unique (cont_contents hs H)
    subst hxs
    obtain ⟨s', n, hs', -, hg, H'⟩ := insertion_g hE hs (at_of_nth hs H hi hn) hsz H hx h1
    have h2 := hg.cost he
    have hl := H'.log
    have h3 := ih hs' (hl ▸ H')
    rw [hl] at h3
    simp only at h3
    omega
  | @erase m m1 m' a b i xs it x hc hi hn hx h1 _ ih =>
    intro al s F hs H
    have hxs : xs = s.elems := hc.unique (cont_contents hs H)
    subst hxs
    obtain ⟨m2, s', h2, hs', -, hg, H'⟩ := removal_g hE hs (at_of_nth hs H (by omega) hn) hi H hx
    rw [h1] at h2; cases h2
    have h2 := hg.cost he
    have hl := H'.log
    have h3 := ih hs' (by rw [hl]; exact H')
    rw [hl] at h3
    omega

theorem Tree.Root.pot_le : {k : Nat} → {t : Tree α k} → t.Root E → t.pot E + 2 ≤ 2 * t.elems.length
  | 0, t, h => by have := h.size_pos; simp only [Tree.pot_seg]; omega
  | k + 1, t, h => by
    have hk : t.Root E := h
    simp only [Tree.Root] at h
    obtain ⟨h1, h2, h3⟩ := h
    have key : ∀ l : List (Tree α k), (∀ c ∈ l, c.WF E) → potL E l + 2 * l.length ≤ 2 * (elemsL l).length := by
      intro l
      induction l with
      | nil => intro _; simp
      | cons c l ih =>
        intro hl
        have e1 := ih (fun c hc => hl c (by simp [hc]))
        have e2 := (hl c (by simp)).root.pot_le
        simp only [potL_cons, elemsL_cons, List.length_append, List.length_cons]
        omega
    have := key t.2 h3
    have e3 := E.debt_le (n := t.2.length)
    have e4 : t.pot E = E.debt t.2.length + potL E t.2 := rfl
    have e5 : t.elems = elemsL t.2 := rfl
    rw [e4, e5]
    omega

/-- C90, even: if nodes have an even number of places, any program of `a` single insertions and
`b` single erasures asks for at most `3 a + b` blocks (and twice the size it started with). -/
theorem C90_even (hE : E.Good) (hr : Reach E m) (hc : Contents E o m xs) (heven : E.baseMax % 2 = 0) {a b : Nat}
    (h : Edits E o a b m m') : m'.log.reqs ≤ m.log.reqs + 2 * xs.length + 3 * a + b := by
  obtain ⟨al, s, F, hs, rfl, H⟩ := hr.cont hE hc
  have h1 := edits_g hE (Env.even_of heven) h hs H
  have h2 : s.pot E ≤ 2 * s.elems.length := by
    cases s with
    | nil => exact Nat.zero_le _
    | tree t =>
      have : t.pot E + 2 ≤ 2 * t.elems.length := Tree.Root.pot_le hs.2
      simp only [St.pot, St.elems_tree]
      omega
  omega

/-! #### an odd number of places -/

theorem Ctx.last_step {h k a : Nat} {l r : List (Tree α k)} {c : Ctx α h (k + 1)} :
    (Ctx.step a l r c).Last ↔ r = [] ∧ c.Last := by simp [Ctx.Last]
theorem Ctx.last_top {h : Nat} : (Ctx.top : Ctx α h h).Last := by simp [Ctx.Last]

theorem Ctx.Brim.last {h k : Nat} {c : Ctx α h k} (hc : c.Brim E) : c.Last := by
  induction c with
  | top => exact Ctx.last_top
  | step a l r c ih => rw [Ctx.brim_step] at hc; exact Ctx.last_step.2 ⟨hc.1, ih hc.2.2⟩

theorem Ctx.Slim.last {h k : Nat} {c : Ctx α h k} (hc : c.Slim E) : c.Last := by
  induction c with
  | top => exact Ctx.last_top
  | step a l r c ih =>
    rw [Ctx.slim_step] at hc
    obtain ⟨h1, -, h2⟩ := hc
    refine Ctx.last_step.2 ⟨h1, ?_⟩
    rcases h2 with ⟨h2, -⟩ | ⟨-, h2⟩
    · cases c with
      | top => exact Ctx.last_top
      | step => simp at h2
    · exact ih h2

theorem Ctx.last_of_post {h k : Nat} {c : Ctx α h k} (hc : c.Ok E) (hp : c.post = []) : c.Last := by
  induction c with
  | top => exact Ctx.last_top
  | step a l r c ih =>
    obtain ⟨c1, c2, c3, c4, c5⟩ := hc
    simp only [Ctx.post, List.append_eq_nil_iff] at hp
    refine Ctx.last_step.2 ⟨?_, ih c5 hp.2⟩
    cases r with
    | nil => rfl
    | cons u r =>
      have := (c2 u (by simp)).size_pos
      have h2 := hp.1
      simp only [elemsL_cons, List.append_eq_nil_iff] at h2
      rw [h2.1] at this
      simp at this

theorem Ctx.Last.inj {h k : Nat} {c c' : Ctx α h k} {t t' : Tree α k} (h1 : c.Last) (h2 : c'.Last)
    (e : c.fill t = c'.fill t') : c = c' ∧ t = t' := by
  induction c with
  | top =>
    cases c' with
    | top => exact ⟨rfl, e⟩
    | step _ _ _ c' => exact absurd c'.le (by omega)
  | step a l r c ih =>
    cases c' with
    | top => exact absurd c.le (by omega)
    | step a' l' r' c' =>
      rw [Ctx.last_step] at h1 h2
      obtain ⟨rfl, h1⟩ := h1
      obtain ⟨rfl, h2⟩ := h2
      obtain ⟨rfl, h3⟩ := ih h1 h2 e
      have h4 : (a, l ++ [t]) = (a', l' ++ [t']) := h3
      simp only [Prod.mk.injEq] at h4
      obtain ⟨rfl, h4⟩ := h4
      obtain ⟨rfl, h5⟩ := List.append_inj' h4 rfl
      cases h5
      exact ⟨rfl, rfl⟩

theorem Ctx.brim_of_need {h k : Nat} {c : Ctx α h k} (h1 : c.Last) (h2 : h + 1 ≤ c.need E + k) : c.Brim E := by
  induction c with
  | top => exact Ctx.brim_top.2 trivial
  | step a l r c ih =>
    rw [Ctx.last_step] at h1
    obtain ⟨rfl, h1⟩ := h1
    simp only [Ctx.need] at h2
    split at h2
    · rename_i hf
      exact Ctx.brim_step.2 ⟨rfl, by simpa using hf, ih h1 (by omega)⟩
    · have := c.le; omega

theorem Ctx.Brim.need {h k : Nat} {c : Ctx α h k} (h1 : c.Brim E) : c.need E + k = h + 1 := by
  induction c with
  | top => simp only [Ctx.need]; omega
  | step a l r c ih =>
    rw [Ctx.brim_step] at h1
    obtain ⟨rfl, h1, h2⟩ := h1
    simp only [Ctx.need]
    rw [if_pos (by simpa using h1)]
    have := ih h2
    omega

theorem Ctx.Slim.joins {h k : Nat} {c : Ctx α h k} (hc : c.Slim E) :
    (c.joins E (E.least k)).1 + k = h + 1 ∧ (c.joins E (E.least k)).2 = 1 := by
  induction c with
  | top => exact (Ctx.slim_top.1 hc).elim
  | @step k a l r c ih =>
    rw [Ctx.slim_step] at hc
    obtain ⟨rfl, h1, h2⟩ := hc
    rw [Ctx.joins_step, if_neg (by
      rw [not_or, not_not, not_not]
      refine ⟨rfl, ?_⟩
      unfold sibling
      simp only [List.head?_nil, Option.or_none]
      exact h1)]
    rcases h2 with ⟨h2, h3⟩ | ⟨h2, h3⟩
    · cases c with
      | top =>
        simp only [List.length_nil, h3]
        rw [Ctx.joins_top, if_neg (by omega)]
        exact ⟨by simp only; omega, rfl⟩
      | step => simp at h2
    · have := ih h3
      unfold Env.least at this
      rw [if_neg (by omega)] at this
      simp only [List.length_nil, Nat.add_zero, h2]
      exact ⟨by omega, this.2⟩

section
variable {h h' n k : Nat} {t : Tree α h} {t' : Tree α h'} {e : Entry}

theorem last_of_end {c : Ctx α h 0} {s : Tree α 0} (hr : (c.fill s).Root E) (hi : (c.fill s).size ≤ c.pre.length + s.xs.length) :
    c.Last := by
  refine Ctx.last_of_post ((Ctx.fill_root c s).1 hr).1 ?_
  have : s.size = s.xs.length := rfl
  rw [fill_size] at hi
  exact List.length_eq_zero_iff.1 (by omega)

/-- an element appended that makes the tree higher -/
theorem GrownBy.raised (hg : GrownBy E t t.size e n t') (hr : t.Root E) (ho : E.Odd) (hh : h' = h + 1) :
    t'.Slender E (E.segMax + 1 - E.segMin) := by
  obtain ⟨c, s, rfl, -, h1, h2, h3, h4⟩ := hg
  have hl := last_of_end hr h4.le
  by_cases hf : e.seg.len = E.segMax
  · obtain ⟨-, h6⟩ := h3 hf
    exact h4.split ho (h1 ▸ hf) (Ctx.brim_of_need hl (by omega))
  · have := (h2 hf).2
    omega

theorem GrownBy.roomy (hg : GrownBy E t t.size e n t') (hr : t.Root E) (hb : t.Brimming E k) (hk : k ≠ E.segMax) :
    n = 0 ∧ h' = h ∧ t'.Brimming E (k + 1) := by
  obtain ⟨c, s, rfl, -, h1, h2, h3, h4⟩ := hg
  obtain ⟨c0, s0, h5, h6, h7⟩ := hb
  obtain ⟨rfl, rfl⟩ := h6.last.inj (last_of_end hr h4.le) h5
  subst h7
  obtain ⟨rfl, rfl⟩ := h2 (h1 ▸ hk)
  exact ⟨rfl, rfl, h4.roomy hk h6⟩

theorem GrownBy.full (hg : GrownBy E t t.size e n t') (hr : t.Root E) (hb : t.Brimming E E.segMax) (ho : E.Odd) :
    n = h + 2 ∧ h' = h + 1 ∧ t'.Slender E (E.segMax + 1 - E.segMin) := by
  obtain ⟨c, s, rfl, -, h1, h2, h3, h4⟩ := hg
  obtain ⟨c0, s0, h5, h6, h7⟩ := hb
  obtain ⟨rfl, rfl⟩ := h6.last.inj (last_of_end hr h4.le) h5
  have h8 := h6.need
  obtain ⟨h9, h10⟩ := h3 (h1.trans h7)
  exact ⟨by omega, by omega, h4.split ho h7 h6⟩

theorem ShrunkBy.roomy (hg : ShrunkBy E t (t.size - 1) e t') (hr : t.Root E) (hb : t.Slender E k) (hk : k ≠ E.segMin) :
    h' = h ∧ t'.Slender E (k - 1) := by
  obtain ⟨c, s, rfl, -, -, -, h2, h4⟩ := hg
  obtain ⟨c0, s0, h5, h6, h7⟩ := hb
  obtain ⟨rfl, rfl⟩ := h6.last.inj (last_of_end hr (by have := h4.lt; omega)) h5
  subst h7
  refine ⟨?_, h4.roomy hk h6⟩
  cases c0 with
  | top => exact (Ctx.slim_top.1 h6).elim
  | step a l r c =>
    rw [Ctx.joins_step, if_pos (.inl (by unfold Env.least; rw [if_pos rfl]; exact hk))] at h2
    exact h2

theorem ShrunkBy.merge (hg : ShrunkBy E t (t.size - 1) e t') (hr : t.Root E) (hb : t.Slender E E.segMin) (ho : E.Odd) :
    h' + 1 = h ∧ t'.Brimming E (2 * E.segMin - 1) := by
  obtain ⟨c, s, rfl, -, -, -, h2, h4⟩ := hg
  obtain ⟨c0, s0, h5, h6, h7⟩ := hb
  obtain ⟨rfl, rfl⟩ := h6.last.inj (last_of_end hr (by have := h4.lt; omega)) h5
  have h8 := h6.joins.2
  unfold Env.least at h8
  rw [if_pos rfl] at h8
  rw [h7, h8] at h2
  exact ⟨h2, h4.merge ho h7 h6⟩

theorem Tree.Slender.pos (hb : t.Slender E k) : h ≠ 0 := by
  obtain ⟨c, s, -, h1, -⟩ := hb
  cases c with
  | top => exact (Ctx.slim_top.1 h1).elim
  | step a l r c => have := c.le; omega
end

section
variable {g : Log} {F : Asrt α} {al h k : Nat} {t : Tree α h}

theorem push_insertion (hp : push_back E o v m = .ok () m' ∨ push_back_rv E o v m = .ok () m') :
    ∃ x, (∀ n it, Insertion E o n n it v x) ∧ x m = .ok () m' := by
  rcases hp with h | h
  · exact ⟨_, fun _ _ => .push_back rfl, h⟩
  · exact ⟨_, fun _ _ => .push_back_rv rfl, h⟩

theorem push_g (hE : E.Good) (hs : (St.tree t).Ok E) (hsz : t.elems.length + 1 ≤ max_size E)
    (H : Holds g (cont E o al (.tree t) + F) m) (hp : push_back E o v m = .ok () m' ∨ push_back_rv E o v m = .ok () m') :
    ∃ h' e n, ∃ t' : Tree α h', (St.tree t').Ok E ∧ t'.elems = t.elems ++ [v] ∧ GrownBy E t t.size e n t' ∧
      Holds { g with reqs := g.reqs + n } (cont E o al (.tree t') + F) m' := by
  obtain ⟨x, hx, hok⟩ := push_insertion hp
  obtain ⟨it, ha⟩ := St.At.exists hs (Nat.le_refl _)
  obtain ⟨s', n, h1, h2, h3, H'⟩ := insertion_g hE hs ha hsz H (hx _ it) hok
  cases s' with
  | nil => exact h3.elim
  | tree t' => exact ⟨_, _, n, t', h1, by simpa using h2, h3, H'⟩

theorem pop_g (hE : E.Good) (hs : (St.tree t).Ok E) (hb : t.Slender E k) (H : Holds g (cont E o al (.tree t) + F) m)
    (hp : pop_back E o m = .ok () m') :
    ∃ h' e, ∃ t' : Tree α h', (St.tree t').Ok E ∧ t'.elems = t.elems.dropLast ∧ ShrunkBy E t (t.size - 1) e t' ∧
      Holds g (cont E o al (.tree t') + F) m' := by
  have hpos : 1 ≤ t.elems.length := Tree.Root.size_pos hs.2
  obtain ⟨it, ha⟩ := St.At.exists hs (i := t.elems.length - 1) (by simp only [St.elems_tree]; omega)
  obtain ⟨m1, s', h0, h1, h2, h3, H'⟩ := removal_g hE hs ha (by simp only [St.elems_tree]; omega) H
    (.pop_back (by simp only [St.elems_tree]; omega))
  rw [hp] at h0; cases h0
  cases s' with
  | nil =>
    obtain ⟨-, -, h4⟩ := h3
    exact absurd h4 hb.pos
  | tree t' =>
    refine ⟨_, _, t', h1, ?_, h3, H'⟩
    rw [St.elems_tree, St.elems_tree, List.eraseIdx_eq_dropLast (by omega)] at h2
    exact h2

end

/-- just after an append that made the tree higher: `n + 1` levels, `z` elements, `r` requests
so far -/
def Tall (E : Env α) (o n z r : Nat) (m : Mem α) : Prop :=
  ∃ al F, ∃ t : Tree α n, (St.tree t).Ok E ∧ Holds m.log (cont E o al (.tree t) + F) m ∧
    t.Slender E (E.segMax + 1 - E.segMin) ∧ t.elems.length = z ∧ m.log.reqs = r

theorem Tall.lap (hE : E.Good) (ho : E.Odd) {n z r : Nat} {m1 m2 : Mem α} (ht : Tall E o n z r m)
    (hd : Drops E o E.lap m m1) (hp : Appends E o E.lap m1 m2) : Tall E o n z (r + (n + 1)) m2 := by
  obtain ⟨al, F, t, hs, H, hsl, rfl, rfl⟩ := ht
  have hW : t.elems.length ≤ max_size E := by
    have : t.elems.length < E.W := hs.1
    unfold max_size; omega
  have hpos := E.segMin_pos
  have hn : n ≠ 0 := hsl.pos
  obtain ⟨n, rfl⟩ : ∃ q, n = q + 1 := ⟨n - 1, by omega⟩
  unfold Env.lap at hd hp
  by_cases hodd : E.segMax % 2 = 1
  · rw [if_pos hodd] at hd hp
    have hmin : 2 * E.segMin = E.segMax + 1 := by unfold Env.segMin; omega
    rw [show E.segMax + 1 - E.segMin = E.segMin by omega] at hsl
    obtain - | ⟨hd, hd'⟩ := hd
    cases hd'
    obtain - | ⟨hp, hp'⟩ := hp
    cases hp'
    obtain ⟨h1, e1, t1, hs1, el1, sh1, H1⟩ := pop_g hE hs hsl H hd
    obtain ⟨e, b1⟩ := sh1.merge hs.2 hsl ho
    obtain rfl : h1 = n := by omega
    have hlen := congrArg List.length el1
    have hne : t.elems.length ≠ 0 := by have := Tree.Root.size_pos hs.2; omega
    rw [List.length_dropLast] at hlen
    rw [show 2 * E.segMin - 1 = E.segMax by omega] at b1
    obtain ⟨h2, e2, k2, t2, hs2, el2, gr2, H2⟩ := push_g hE hs1 (by omega) H1 hp
    obtain ⟨rfl, rfl, b2⟩ := gr2.full hs1.2 b1 ho
    refine ⟨al, F, t2, hs2, H2.log ▸ H2, b2, ?_, by rw [H2.log]⟩
    rw [el2, List.length_append, hlen]
    simp only [List.length_cons, List.length_nil]
    omega
  · rw [if_neg hodd] at hd hp
    have hmin : 2 * E.segMin = E.segMax := by unfold Env.segMin; omega
    rw [show E.segMax + 1 - E.segMin = E.segMin + 1 by omega] at hsl
    obtain - | ⟨hd, hd'⟩ := hd
    obtain - | ⟨hd', hd''⟩ := hd'
    cases hd''
    obtain - | ⟨hp, hp'⟩ := hp
    obtain - | ⟨hp', hp''⟩ := hp'
    cases hp''
    obtain ⟨h1, e1, t1, hs1, el1, sh1, H1⟩ := pop_g hE hs hsl H hd
    obtain ⟨rfl, b1⟩ := sh1.roomy hs.2 hsl (by omega)
    rw [Nat.add_sub_cancel] at b1
    obtain ⟨h2, e2, t2, hs2, el2, sh2, H2⟩ := pop_g hE hs1 b1 H1 hd'
    obtain ⟨e, b2⟩ := sh2.merge hs1.2 b1 ho
    obtain rfl : h2 = n := by omega
    have hlen := congrArg List.length el1
    have hlen2 := congrArg List.length el2
    have hne : 1 ≤ t.elems.length := Tree.Root.size_pos hs.2
    have hne1 : 1 ≤ t1.elems.length := Tree.Root.size_pos hs1.2
    rw [List.length_dropLast] at hlen hlen2
    obtain ⟨h3, e3, k3, t3, hs3, el3, gr3, H3⟩ := push_g hE hs2 (by omega) H2 hp
    obtain ⟨rfl, rfl, b3⟩ := gr3.roomy hs2.2 b2 (by omega)
    have hlen3 := congrArg List.length el3
    simp only [List.length_append, List.length_cons, List.length_nil] at hlen3
    rw [show 2 * E.segMin - 1 + 1 = E.segMax by omega] at b3
    obtain ⟨h4, e4, k4, t4, hs4, el4, gr4, H4⟩ := push_g hE hs3 (by omega) H3 hp'
    obtain ⟨rfl, rfl, b4⟩ := gr4.full hs3.2 b3 ho
    refine ⟨al, F, t4, hs4, H4.log ▸ H4, b4, ?_, by rw [H4.log]; rfl⟩
    rw [el4, List.length_append]
    simp only [List.length_cons, List.length_nil]
    omega

theorem Tall.rounds (hE : E.Good) (ho : E.Odd) {n z k : Nat} (hd : Rounds E o E.lap k m m') :
    ∀ {r : Nat}, Tall E o n z r m → Tall E o n z (r + k * (n + 1)) m' := by
  induction hd with
  | nil => intro r ht; simpa using ht
  | @cons m m1 m2 m' k h1 h2 _ ih =>
    intro r ht
    have := ih (ht.lap hE ho h1 h2)
    rwa [show r + (n + 1) + k * (n + 1) = r + (k + 1) * (n + 1) by rw [Nat.add_mul]; omega] at this

theorem tall_of_raise (hE : E.Good) (hr : Reach E m) (ho : E.Odd) (hc : Contents E o m xs) (hsz : xs.length + 1 ≤ max_size E)
    {n : Nat} (hn : n ≠ 0) (h1 : height o m = .ok n m)
    (hp : push_back E o v m = .ok () m' ∨ push_back_rv E o v m = .ok () m') (h2 : height o m' = .ok (n + 1) m') :
    Tall E o n (xs.length + 1) m'.log.reqs m' := by
  obtain ⟨al, s, F, hs, rfl, H⟩ := hr.cont hE hc
  have h3 : height o m = .ok s.ht m := getHeight_c H
  rw [h3] at h1; cases h1
  cases s with
  | nil => exact absurd rfl hn
  | @tree h t =>
    obtain ⟨h', e, k, t', hs', el, gr, H'⟩ := push_g hE hs hsz H hp
    have h4 : height o m' = .ok (h' + 1) m' := getHeight_c H'
    rw [h4] at h2
    simp only [St.ht, Res.ok.injEq, and_true] at h2
    obtain rfl : h' = h + 1 := by omega
    exact ⟨al, F, t', hs', H'.log ▸ H', gr.raised hs.2 ho rfl, (congrArg List.length el).trans (by simp), rfl⟩

/-- C90, odd: if nodes have an odd number of places (as they have by default), then after a
`push_back` that made the tree higher, from `n` to `n + 1` levels, each round of one `pop_back`
and one `push_back` (two of each if segments have an even number of places) makes it lower and
higher again, and asks for `n + 1` blocks: `r` rounds ask for `r (n + 1)`. -/
theorem C90_odd (hE : E.Good) (hr : Reach E m) (hodd : E.baseMax % 2 = 1) (hc : Contents E o m xs) (hne : xs ≠ [])
    (hsz : xs.length + 1 ≤ max_size E) {n : Nat} (h1 : height o m = .ok n m)
    (hp : push_back E o v m = .ok () m' ∨ push_back_rv E o v m = .ok () m') (h2 : height o m' = .ok (n + 1) m')
    {r : Nat} {m2 : Mem α} (hR : Rounds E o E.lap r m' m2) :
    m2.log.reqs = m'.log.reqs + r * (n + 1) ∧ height o m2 = .ok (n + 1) m2 := by
  have hn : n ≠ 0 := fun h => hne ((C16_empty hE hr hc h1).1 h)
  have ho := Env.odd_of hodd
  obtain ⟨al, F, t, hs, H, -, -, h3⟩ := (tall_of_raise hE hr ho hc hsz hn h1 hp h2).rounds hE ho hR
  exact ⟨h3, getHeight_c H⟩

/-! #### no constant -/

theorem edits_mono (hE : E.Good) {a b : Nat} (h : Edits E o a b m m') :
    ∀ {al : Nat} {s : St α} {F : Asrt α}, s.Ok E → Holds m.log (cont E o al s + F) m → m.log.reqs ≤ m'.log.reqs := by
  induction h with
  | done => intro al s F _ _; exact Nat.le_refl _
  | @insert m m1 m' a b i xs it v x hc hi hn hsz hx h1 _ ih =>
    intro al s F hs H
    have hxs : xs = s.elems := hc.unique (cont_contents hs H)
    subst hxs
    obtain ⟨s', n, hs', -, hg, H'⟩ := insertion_g hE hs (at_of_nth hs H hi hn) hsz H hx h1
    have hl := H'.log
    have h3 := ih hs' (hl ▸ H')
    rw [hl] at h3
    simp only at h3
    omega
  | @erase m m1 m' a b i xs it x hc hi hn hx h1 _ ih =>
    intro al s F hs H
    have hxs : xs = s.elems := hc.unique (cont_contents hs H)
    subst hxs
    obtain ⟨m2, s', h2, hs', -, hg, H'⟩ := removal_g hE hs (at_of_nth hs H (by omega) hn) hi H hx
    rw [h1] at h2; cases h2
    have hl := H'.log
    have h3 := ih hs' (by rw [hl]; exact H')
    rwa [hl] at h3

/-- an append that makes a non-empty container higher asks for memory -/
theorem raise_reqs (hE : E.Good) (hr : Reach E m) (hc : Contents E o m xs) (hsz : xs.length + 1 ≤ max_size E) (hne : xs ≠ [])
    {n n' : Nat} (h1 : height o m = .ok n m) (hp : push_back E o v m = .ok () m' ∨ push_back_rv E o v m = .ok () m')
    (h2 : height o m' = .ok n' m') (h3 : n ≠ n') : m.log.reqs < m'.log.reqs := by
  obtain ⟨al, s, F, hs, rfl, H⟩ := hr.cont hE hc
  have h5 : height o m = .ok s.ht m := getHeight_c H
  rw [h5] at h1; cases h1
  cases s with
  | nil => exact absurd rfl hne
  | @tree hq t =>
    obtain ⟨h', e, k, t', -, -, gr, H'⟩ := push_g hE hs hsz H hp
    have h7 : height o m' = .ok (h' + 1) m' := getHeight_c H'
    rw [h7] at h2; cases h2
    obtain ⟨c, sg, -, -, -, g2, g3, -⟩ := gr
    rw [H'.log]
    simp only
    by_cases hf : e.seg.len = E.segMax
    · have := g3 hf; omega
    · exact absurd (congrArg (· + 1) (g2 hf).2.symm) h3

theorem Edits.append {a b c d : Nat} {m1 m2 m3 : Mem α} (h1 : Edits E o a b m1 m2) (h2 : Edits E o c d m2 m3) :
    Edits E o (a + c) (b + d) m1 m3 := by
  induction h1 with
  | done => simpa using h2
  | insert k1 k2 k3 k4 k5 k6 _ ih => rw [Nat.add_right_comm]; exact .insert k1 k2 k3 k4 k5 k6 (ih h2)
  | erase k1 k2 k3 k4 k5 _ ih => rw [Nat.add_right_comm _ 1]; exact .erase k1 k2 k3 k4 k5 (ih h2)

theorem pop_ex (hE : E.Good) (hr : Reach E m) (hc : Contents E o m xs) (hne : xs ≠ []) :
    ∃ m', pop_back E o m = .ok () m' ∧ Edits E o 0 1 m m' ∧ Reach E m' ∧ Contents E o m' xs.dropLast := by
  have hp : ∀ al, Un.Pre E ⟨al, xs⟩ .popBack := fun _ => hne
  have hpos := List.length_pos_iff.2 hne
  obtain ⟨it, hn⟩ := hr.nth hE hc (xs.length - 1)
  rcases hr.call hE hc .popBack hp with ⟨r, m', al, x', e, hx, hc', hA⟩ | ⟨e, m', al, x', he, hx, -⟩
  · obtain ⟨-, rfl⟩ := hx
    obtain ⟨-, u, h⟩ := unit_inv e
    exact ⟨m', h, .erase hc (by omega) hn (.pop_back (by omega)) h .done, hA.reach, hc'⟩
  · exact hx.elim

theorem push_ex (hE : E.Good) (hM : Endless E) (hr : Reach E m) (hc : Contents E o m xs) (hsz : xs.length + 1 ≤ max_size E) (v : α) :
    ∃ m', push_back_rv E o v m = .ok () m' ∧ Edits E o 1 0 m m' ∧ Reach E m' ∧ Contents E o m' (xs ++ [v]) := by
  have hp : ∀ al, Un.Pre E ⟨al, xs⟩ (.pushBackRv v) := fun _ => hsz
  obtain ⟨it, hn⟩ := hr.nth hE hc xs.length
  rcases hr.call hE hc (.pushBackRv v) hp with ⟨r, m', al, x', e, hx, hc', hA⟩ | ⟨e, m', al, x', he, hx, -⟩
  · obtain ⟨-, rfl⟩ := hx
    obtain ⟨-, u, h⟩ := unit_inv e
    exact ⟨m', h, .insert hc (Nat.le_refl _) hn hsz (.push_back_rv rfl) h .done, hA.reach, hc'⟩
  · obtain ⟨rfl, -⟩ := hx
    exact absurd he (hr.no_alloc hM (.un o (.pushBackRv v)))

theorem drops_ex (hE : E.Good) (d : Nat) : ∀ {m : Mem α} {xs : List α}, Reach E m → Contents E o m xs → d ≤ xs.length →
    ∃ m', Drops E o d m m' ∧ Edits E o 0 d m m' ∧ Reach E m' ∧ ∃ ys, Contents E o m' ys ∧ ys.length + d = xs.length := by
  induction d with
  | zero => intro m xs hr hc _; exact ⟨m, .nil, .done, hr, xs, hc, rfl⟩
  | succ d ih =>
    intro m xs hr hc hd
    obtain ⟨m1, h1, h2, h3, h4⟩ := pop_ex hE hr hc (by rintro rfl; simp at hd)
    obtain ⟨m', k1, k2, k3, ys, k4, k5⟩ := ih h3 h4 (by rw [List.length_dropLast]; omega)
    rw [List.length_dropLast] at k5
    refine ⟨m', .cons h1 k1, ?_, k3, ys, k4, by omega⟩
    have := h2.append k2
    rwa [Nat.add_comm 1 d] at this

theorem appends_ex (hE : E.Good) (hM : Endless E) (v : α) (d : Nat) : ∀ {m : Mem α} {xs : List α}, Reach E m → Contents E o m xs →
    xs.length + d ≤ max_size E →
    ∃ m', Appends E o d m m' ∧ Edits E o d 0 m m' ∧ Reach E m' ∧ ∃ ys, Contents E o m' ys ∧ ys.length = xs.length + d := by
  induction d with
  | zero => intro m xs hr hc _; exact ⟨m, .nil, .done, hr, xs, hc, rfl⟩
  | succ d ih =>
    intro m xs hr hc hd
    obtain ⟨m1, h1, h2, h3, h4⟩ := push_ex hE hM hr hc (by omega) v
    obtain ⟨m', k1, k2, k3, ys, k4, k5⟩ := ih h3 h4 (by simp; omega)
    simp at k5
    refine ⟨m', .cons (.inr h1) k1, ?_, k3, ys, k4, by omega⟩
    have := h2.append k2
    rwa [Nat.add_comm 1 d] at this

/-- such rounds return, as long as the allocator has memory -/
theorem C90_rounds (hE : E.Good) (hM : Endless E) (v : α) {d : Nat} (r : Nat) : ∀ {m : Mem α} {xs : List α}, Reach E m →
    Contents E o m xs → d ≤ xs.length → xs.length ≤ max_size E →
    ∃ m', Rounds E o d r m m' ∧ Edits E o (r * d) (r * d) m m' ∧ Reach E m' := by
  induction r with
  | zero => intro m xs hr hc _ _; exact ⟨m, .nil, by simpa using Edits.done, hr⟩
  | succ r ih =>
    intro m xs hr hc hd hW
    obtain ⟨m1, k1, k2, k3, ys, k4, k5⟩ := drops_ex hE d hr hc hd
    obtain ⟨m2, l1, l2, l3, zs, l4, l5⟩ := appends_ex hE hM v d k3 k4 (by omega)
    obtain ⟨m', n1, n2, n3⟩ := ih l3 l4 (by omega) (by omega)
    refine ⟨m', .cons k1 l1 n1, ?_, n3⟩
    have := (k2.append l2).append n2
    rwa [show 0 + d + r * d = (r + 1) * d by rw [Nat.add_mul]; omega,
      show d + 0 + r * d = (r + 1) * d by rw [Nat.add_mul]; omega] at this

/-- appending until the tree gets higher than `n` levels -/
theorem raise_ex (hE : E.Good) (hM : Endless E) (v : α) {n : Nat} (hn : n ≠ 0) (hcap : E.segMax * E.baseMax ^ (n - 1) + 1 ≤ max_size E)
    (hr : Reach E m) (hc : Contents E o m xs) {h0 : Nat} (hh : height o m = .ok h0 m) (hle : h0 ≤ n) :
    ∃ k m1 m2 ys, Edits E o k 0 m m1 ∧ Reach E m1 ∧ Contents E o m1 ys ∧ ys ≠ [] ∧ ys.length + 1 ≤ max_size E ∧
      height o m1 = .ok n m1 ∧ push_back_rv E o v m1 = .ok () m2 ∧ Edits E o 1 0 m1 m2 ∧ Reach E m2 ∧
      Contents E o m2 (ys ++ [v]) ∧ height o m2 = .ok (n + 1) m2 := by
  obtain ⟨f, hf⟩ : ∃ f, E.segMax * E.baseMax ^ (n - 1) + 1 ≤ xs.length + f := ⟨E.segMax * E.baseMax ^ (n - 1) + 1, by omega⟩
  have hsz : xs.length ≤ E.segMax * E.baseMax ^ (n - 1) := by
    refine Nat.le_trans (C16_bounds hE hr hc hh).1 (Nat.mul_le_mul_left _ (Nat.pow_le_pow_right ?_ (by omega)))
    have := E.baseMax_ge; omega
  induction f generalizing m xs h0 with
  | zero => omega
  | succ f ih =>
    obtain ⟨m1, h1, h2, h3, h4⟩ := push_ex hE hM hr hc (by omega) v
    obtain ⟨al, s, F, hs, hse, H⟩ := h3.cont hE h4
    have h5 : height o m1 = .ok s.ht m1 := getHeight_c H
    by_cases hx : s.ht ≤ n
    · have hsz' : (xs ++ [v]).length ≤ E.segMax * E.baseMax ^ (n - 1) := by
        refine Nat.le_trans (C16_bounds hE h3 h4 h5).1 (Nat.mul_le_mul_left _ (Nat.pow_le_pow_right ?_ (by omega)))
        have := E.baseMax_ge; omega
      obtain ⟨k, m2, m3, ys, k1, k2⟩ := ih h3 h4 h5 hx (by simp; omega) hsz'
      refine ⟨1 + k, m2, m3, ys, ?_, k2⟩
      simpa using h2.append k1
    · obtain ⟨it, hn'⟩ := hr.nth hE hc xs.length
      have hne : xs ≠ [] := by
        rintro rfl
        have := (C85_first hE hr hc hn' (by omega) (.push_back_rv rfl) h1).2
        rw [h5] at this
        simp only [Res.ok.injEq, and_true] at this
        omega
      have hht : s.ht ≤ h0 + 1 := by
        obtain ⟨al2, s2, F2, hs2, rfl, H2⟩ := hr.cont hE hc
        have h6 : height o m = .ok s2.ht m := getHeight_c H2
        rw [h6] at hh; cases hh
        cases s2 with
        | nil => exact absurd rfl hne
        | @tree hq t =>
          obtain ⟨h', e, k, t', -, -, gr, H'⟩ := push_g hE hs2 (show (St.tree t).elems.length + 1 ≤ _ by omega) H2 (.inr h1)
          have h7 : height o m1 = .ok (h' + 1) m1 := getHeight_c H'
          rw [h5] at h7
          simp only [Res.ok.injEq, and_true] at h7
          rw [h7]
          obtain ⟨c, sg, -, -, -, g2, g3, -⟩ := gr
          have := c.need_le (E := E)
          show h' + 1 ≤ hq + 1 + 1
          by_cases hf : e.seg.len = E.segMax
          · have := g3 hf; omega
          · have := g2 hf; omega
      obtain rfl : h0 = n := by omega
      have hq : s.ht = h0 + 1 := by omega
      exact ⟨0, m, m1, xs, .done, hr, hc, hne, by omega, hh, h1, h2, h3, h4, by rw [h5, hq]⟩

/-- C90, odd: there is no constant. For any `c` (as long as `size_type` can count the elements of
a tree that high) some program of single insertions and erasures, starting with an empty
container, asks for more than `c` blocks per call. -/
theorem C90_no_constant (hE : E.Good) (hM : Endless E) (hodd : E.baseMax % 2 = 1) (hr : Reach E m) (hc : Contents E o m [])
    (v : α) (c : Nat) (hcap : E.segMax * E.baseMax ^ (2 * E.lap * c) + 1 ≤ max_size E) :
    ∃ a b m', Edits E o a b m m' ∧ m.log.reqs + c * (a + b) < m'.log.reqs := by
  obtain ⟨al, s, F, hs, hse, H⟩ := hr.cont hE hc
  have h5 : height o m = .ok s.ht m := getHeight_c H
  have h0 : s.ht = 0 := hs.ht_zero.2 hse
  rw [h0] at h5
  obtain ⟨k, m1, m2, ys, k1, k2, k3, k4, k5, k6, k7, k8, k9, k10, k11⟩ :=
    raise_ex hE hM v (n := 2 * E.lap * c + 1) (by omega) (by simpa using hcap) hr hc h5 (by omega)
  have hlap : E.lap ≤ 2 := by unfold Env.lap; split <;> omega
  have hy := List.length_pos_iff.2 k4
  obtain ⟨m3, r1, r2, r3⟩ := C90_rounds hE hM v (d := E.lap) (c * (k + 1)) k9 k10 (by simp; omega) (by simpa using k5)
  have h6 := (C90_odd hE k2 hodd k3 k4 k5 k6 (.inr k7) k11 r1).1
  have h7 := edits_mono hE k1 hs H
  have h8 := raise_reqs hE k2 k3 k5 k4 k6 (.inr k7) k11 (by omega)
  refine ⟨_, _, m3, (k1.append k8).append r2, ?_⟩
  rw [h6]
  have e1 : c * (k + 1 + c * (k + 1) * E.lap + (0 + 0 + c * (k + 1) * E.lap)) =
      c * (k + 1) + c * (k + 1) * (2 * E.lap * c) := by ring
  have e2 : c * (k + 1) * (2 * E.lap * c + 1 + 1) = c * (k + 1) + c * (k + 1) * (2 * E.lap * c) + c * (k + 1) := by ring
  rw [e1, e2]
  omega

/-! ### Examples -/

theorem empty0_contents {E : Env α} : Contents E 0 (empty0 : Mem α) [] := ⟨rfl, fun _ h => absurd h (by simp)⟩

/-- nodes with four places -/
def fourfold : Env Nat := { demo with baseTarget := 80 }
theorem fourfold_good : fourfold.Good := ⟨by decide, fun _ => .inr rfl, by decide, by decide⟩
theorem fourfold_endless : Endless fourfold := demo_endless

-- nodes with four places: a hundred appends, then a thousand rounds, and all is within the bound
example : ∃ m m' : Mem Nat, Edits fourfold 0 2100 2000 m m' ∧ m'.log.reqs ≤ m.log.reqs + 8300 := by
  obtain ⟨m1, -, h2, h3, ys, h4, h5⟩ := appends_ex fourfold_good fourfold_endless 7 100 empty0_reach empty0_contents (by decide)
  obtain ⟨m2, -, k2, k3⟩ := C90_rounds fourfold_good fourfold_endless 7 (d := 2) 1000 h3 h4 (by rw [h5]; decide) (by rw [h5]; decide)
  have h := h2.append k2
  exact ⟨_, m2, h, by simpa using C90_even fourfold_good empty0_reach empty0_contents (by decide) h⟩

/-- the default segments and nodes of a 64-bit machine, for elements of 12 bytes -/
def usual : Env Nat := { demo with sizeofT := 12, segTarget := 1024, baseTarget := 768 }
theorem usual_good : usual.Good := ⟨by decide, fun _ => .inr rfl, by decide, by decide⟩
theorem usual_endless : Endless usual := demo_endless

example : usual.baseMax = 47 ∧ usual.segMax = 85 ∧ usual.lap = 1 := by decide

-- with the default nodes some program asks for more than five blocks per call
example : ∃ a b m', Edits usual 0 a b empty0 m' ∧ (empty0 : Mem Nat).log.reqs + 5 * (a + b) < m'.log.reqs :=
  C90_no_constant usual_good usual_endless (by decide) empty0_reach empty0_contents 7 5 (by decide)

-- from the third to the fourth level and back, a thousand times: four blocks each time
example : ∃ m m' : Mem Nat, Reach usual m ∧ Rounds usual 0 1 1000 m m' ∧ m'.log.reqs = m.log.reqs + 4000 := by
  obtain ⟨k, m1, m2, ys, -, k2, k3, k4, k5, k6, k7, -, k9, k10, k11⟩ := raise_ex usual_good usual_endless 7 (n := 3) (by decide)
    (by decide) empty0_reach empty0_contents (h0 := 0) rfl (by decide)
  obtain ⟨m3, r1, -, -⟩ := C90_rounds usual_good usual_endless 7 (d := 1) 1000 k9 k10 (by simp) (by simpa using k5)
  exact ⟨m2, m3, k9, r1, (C90_odd usual_good k2 (by decide) k3 k4 k5 k6 (.inr k7) k11 r1).1⟩

end SegTree
