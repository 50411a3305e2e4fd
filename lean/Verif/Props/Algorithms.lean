/-
  C37-C39: list-like algorithms and comparison operators.
  For the meaning of the hypotheses see the reading guide in Single.lean.
-/
import Verif.Props.Multi
set_option autoImplicit false

namespace SegTree
variable {α : Type} {E : Env α} {m m' : Mem α} {o p : Nat} {xs ys : List α}

/-! ### C37: remove_if, remove, unique -/

/-- C37: `remove_if(p)` returns and leaves exactly the elements that do not
satisfy `p`, in their order, without any allocation. -/
theorem C37_remove_if (hE : E.Good) (hr : Reach E m) (hc : Contents E o m xs) (p : α → Bool) :
    ∃ m', remove_if E o p m = .ok () m' ∧ Contents E o m' (xs.filter (fun x => !p x)) ∧ m'.log = m.log := by
  obtain ⟨al, s, F, hs, rfl, H⟩ := hr.cont hE hc
  obtain ⟨u, m', h, s', hs', he, H'⟩ := (remove_if_c (p := p) hE hs H).get
  exact ⟨m', h, he ▸ cont_contents hs' H', H'.log⟩

/-- C37: `remove(v)` with the element type's `==` -/
theorem C37_remove (hE : E.Good) (hr : Reach E m) (hc : Contents E o m xs) (eq : α → α → Bool) (v : α) :
    ∃ m', remove E o eq v m = .ok () m' ∧ Contents E o m' (xs.filter (fun x => !eq x v)) ∧ m'.log = m.log :=
  C37_remove_if hE hr hc _

/-- C37: `unique(p)` returns and leaves `dropDups p xs` (Spec.lean: the sequence
with every element equivalent to the last one kept dropped), without any
allocation. -/
theorem C37_unique (hE : E.Good) (hr : Reach E m) (hc : Contents E o m xs) (p : α → α → Bool) :
    ∃ m', unique E o p m = .ok () m' ∧ Contents E o m' (dropDups p xs) ∧ m'.log = m.log := by
  obtain ⟨al, s, F, hs, rfl, H⟩ := hr.cont hE hc
  obtain ⟨u, m', h, s', hs', he, H'⟩ := (unique_c (p := p) hE hs H).get
  rw [uniq_eq] at he
  exact ⟨m', h, he ▸ cont_contents hs' H', H'.log⟩

/-- What `dropDups` is: a subsequence in which no two neighbours are equivalent,
which starts like the original, and from which nothing was dropped if the
original has no equivalent neighbours. -/
theorem C37_dropDups (p : α → α → Bool) (xs : List α) :
    (dropDups p xs).Sublist xs ∧ (dropDups p xs).IsChain (fun a b => p a b = false) ∧
    (dropDups p xs).head? = xs.head? ∧
    (xs.IsChain (fun a b => p a b = false) → dropDups p xs = xs) := by
  have key : ∀ (xs : List α) (x : α), (dropDups.go p x xs).Sublist xs ∧
      (x :: dropDups.go p x xs).IsChain (fun a b => p a b = false) ∧
      ((x :: xs).IsChain (fun a b => p a b = false) → dropDups.go p x xs = xs) := by
    intro xs
    induction xs with
    | nil => intro x; simp [dropDups.go]
    | cons y ys ih =>
      intro x
      unfold dropDups.go
      cases hp : p x y with
      | true =>
        simp only [if_true]
        obtain ⟨h1, h2, h3⟩ := ih x
        exact ⟨h1.cons y, h2, fun hch => by simp [hp] at hch⟩
      | false =>
        simp only [Bool.false_eq_true, if_false]
        obtain ⟨h1, h2, h3⟩ := ih y
        refine ⟨h1.cons_cons y, ?_, fun hch => ?_⟩
        · simp only [List.isChain_cons_cons]; exact ⟨hp, h2⟩
        · simp only [List.isChain_cons_cons] at hch; rw [h3 hch.2]
  cases xs with
  | nil => simp [dropDups]
  | cons x xs =>
    obtain ⟨h1, h2, h3⟩ := key xs x
    exact ⟨h1.cons_cons x, h2, rfl, fun h => congrArg (x :: ·) (h3 h)⟩

/-! ### C38: reverse, sort -/

/-- C38: `reverse()` returns and reverses the sequence. -/
theorem C38_reverse (hE : E.Good) (hr : Reach E m) (hc : Contents E o m xs) :
    ∃ m', reverse E o m = .ok () m' ∧ Contents E o m' xs.reverse ∧ m'.log = m.log := by
  obtain ⟨al, s, F, hs, rfl, H⟩ := hr.cont hE hc
  obtain ⟨m', s', h, hw, H'⟩ := reverse_c hE hs H
  exact ⟨m', h, hw.elems ▸ cont_contents hw.ok H', H'.log⟩

/-- C38: `sort(comp)` with a strict weak order returns, and leaves a sorted
permutation of the sequence that is stable: every subsequence that was already
in order is still a subsequence (in particular equivalent elements keep their
order). -/
theorem C38_sort (hE : E.Good) (hr : Reach E m) (hc : Contents E o m xs) {comp : α → α → Bool}
    (hw : StrictWeak comp) :
    ∃ m' zs, sort E o comp m = .ok () m' ∧ Contents E o m' zs ∧ zs.Perm xs ∧ SortedBy comp zs ∧
      (∀ ws, SortedBy comp ws → ws.Sublist xs → ws.Sublist zs) ∧ m'.log = m.log := by
  obtain ⟨al, s, F, hs, rfl, H⟩ := hr.cont hE hc
  obtain ⟨m', s', h, hrw, H'⟩ := sort_c (comp := comp) hs H
  refine ⟨m', _, h, hrw.elems ▸ cont_contents hrw.ok H', List.mergeSort_perm _ _, ?_, fun ws h1 h2 => ?_, H'.log⟩
  · exact (List.pairwise_mergeSort hw.le_trans hw.le_total _).imp (by simp)
  · exact List.sublist_mergeSort hw.le_trans hw.le_total (h1.imp (by simp)) h2

-- the hypotheses are met: a tree of height 3 whose content is not sorted
example : ∃ (m : Mem Nat), Reach demo m ∧ Contents demo 0 m [5, 3, 9, 3, 1, 8, 8, 2, 7] ∧
    StrictWeak (fun a b : Nat => decide (a / 2 < b / 2)) := by
  obtain ⟨m, h1, h2⟩ := demo_list [5, 3, 9, 3, 1, 8, 8, 2, 7]
  exact ⟨m, h1, h2, by simp, by intro a b c; simp; omega, by intro a b c; simp; omega⟩

/-! ### C39: comparison -/

/-- C39: the comparison operators, for the element type's `==` and `<`.  None of
them modifies anything; `o` and `p` may be the same container. -/
theorem C39_compare (hE : E.Good) (hr : Reach E m) (hc : Contents E o m xs) (hd : Contents E p m ys)
    (eq lt : α → α → Bool) :
    op_eq E eq o p m = .ok (allEq eq xs ys) m ∧ op_ne E eq o p m = .ok (!allEq eq xs ys) m ∧
    op_lt E lt o p m = .ok (lexLt lt xs ys) m ∧ op_gt E lt o p m = .ok (lexLt lt ys xs) m ∧
    op_le E lt o p m = .ok (!lexLt lt ys xs) m ∧ op_ge E lt o p m = .ok (!lexLt lt xs ys) m := by
  obtain ⟨al, s, F, hs, rfl, H⟩ := hr.cont hE hc
  obtain ⟨al2, s2, F2, hs2, rfl, H2⟩ := hr.cont hE hd
  have h1 := op_eq_c (eq := eq) hs hs2 H H2
  have h2 := op_lt_c (lt := lt) hs hs2 H H2
  have h3 := op_lt_c (lt := lt) hs2 hs H2 H
  rw [eqList_eq] at h1
  rw [ltList_eq] at h2 h3
  refine ⟨h1, ?_, h2, h3, ?_, ?_⟩
  · unfold op_ne; rw [bind_ok h1]; rfl
  · unfold op_le; rw [bind_ok h3]; rfl
  · unfold op_ge; rw [bind_ok h2]; rfl

theorem allEq_iff {eq : α → α → Bool} {xs : List α} : ∀ {ys : List α}, allEq eq xs ys = true ↔
    ∃ h : xs.length = ys.length, ∀ (i : Nat) (hi : i < xs.length), eq xs[i] (ys[i]'(by omega)) = true := by
  induction xs with
  | nil => intro ys; cases ys <;> simp [allEq]
  | cons x xs ih =>
    intro ys
    cases ys with
    | nil => simp [allEq]
    | cons y ys =>
      simp only [allEq, Bool.and_eq_true, ih, List.length_cons]
      constructor
      · rintro ⟨h1, h2, h3⟩
        refine ⟨by omega, fun i hi => ?_⟩
        cases i with
        | zero => exact h1
        | succ i => exact h3 i (by omega)
      · rintro ⟨h1, h2⟩
        exact ⟨h2 0 (by omega), by omega, fun i hi => h2 (i + 1) (by omega)⟩

theorem lexLt_iff {lt : α → α → Bool} {xs : List α} : ∀ {ys : List α}, lexLt lt xs ys = true ↔
    ∃ k, (∀ i, i < k → ∃ (h1 : i < xs.length) (h2 : i < ys.length), lt xs[i] ys[i] = false ∧ lt ys[i] xs[i] = false) ∧
      ((k = xs.length ∧ k < ys.length) ∨ ∃ (h1 : k < xs.length) (h2 : k < ys.length), lt xs[k] ys[k] = true) := by
  induction xs with
  | nil =>
    intro ys
    cases ys with
    | nil => simp [lexLt]
    | cons y ys => simp only [lexLt, true_iff]; exact ⟨0, by simp, .inl ⟨rfl, by simp⟩⟩
  | cons x xs ih =>
    intro ys
    cases ys with
    | nil => simp [lexLt]
    | cons y ys =>
      unfold lexLt
      cases h1 : lt x y with
      | true =>
        simp only [if_true, true_iff]
        exact ⟨0, by simp, .inr ⟨by simp, by simp, h1⟩⟩
      | false =>
        cases h2 : lt y x with
        | true =>
          simp only [Bool.false_eq_true, if_false, if_true, false_iff]
          rintro ⟨k, h3, h4⟩
          cases k with
          | zero =>
            rcases h4 with ⟨h4, -⟩ | ⟨_, _, h4⟩
            · simp at h4
            · simp only [List.getElem_cons_zero] at h4; rw [h1] at h4; cases h4
          | succ k =>
            obtain ⟨_, _, -, h5⟩ := h3 0 (by omega)
            simp only [List.getElem_cons_zero] at h5; rw [h2] at h5; cases h5
        | false =>
          simp only [Bool.false_eq_true, if_false, ih]
          constructor
          · rintro ⟨k, h3, h4⟩
            refine ⟨k + 1, fun i hi => ?_, ?_⟩
            · cases i with
              | zero => exact ⟨by simp, by simp, h1, h2⟩
              | succ i =>
                obtain ⟨a, b, c⟩ := h3 i (by omega)
                exact ⟨by simpa using a, by simpa using b, c⟩
            · rcases h4 with ⟨h4, h5⟩ | ⟨h4, h5, h6⟩
              · exact .inl ⟨by simpa using h4, by simpa using h5⟩
              · exact .inr ⟨by simpa using h4, by simpa using h5, h6⟩
          · rintro ⟨k, h3, h4⟩
            cases k with
            | zero =>
              rcases h4 with ⟨h4, -⟩ | ⟨_, _, h4⟩
              · simp at h4
              · simp only [List.getElem_cons_zero] at h4; rw [h1] at h4; cases h4
            | succ k =>
              refine ⟨k, fun i hi => ?_, ?_⟩
              · obtain ⟨a, b, c⟩ := h3 (i + 1) (by omega)
                exact ⟨by simpa using a, by simpa using b, c⟩
              · rcases h4 with ⟨h4, h5⟩ | ⟨h4, h5, h6⟩
                · exact .inl ⟨by simpa using h4, by simpa using h5⟩
                · exact .inr ⟨by simpa using h4, by simpa using h5, h6⟩

/-- C39: what `==` and `<` mean, position by position: `==` gives true iff the
lengths agree and all positions are equal; `<` gives true iff, after a common
prefix of equivalent elements, the first sequence ends first or has the lesser
element. -/
theorem C39_meaning (hE : E.Good) (hr : Reach E m) (hc : Contents E o m xs) (hd : Contents E p m ys)
    (eq lt : α → α → Bool) :
    (op_eq E eq o p m = .ok true m ↔
      ∃ h : xs.length = ys.length, ∀ (i : Nat) (hi : i < xs.length), eq xs[i] (ys[i]'(by omega)) = true) ∧
    (op_lt E lt o p m = .ok true m ↔
      ∃ k, (∀ i, i < k → ∃ (h1 : i < xs.length) (h2 : i < ys.length),
          lt xs[i] ys[i] = false ∧ lt ys[i] xs[i] = false) ∧
        ((k = xs.length ∧ k < ys.length) ∨ ∃ (h1 : k < xs.length) (h2 : k < ys.length), lt xs[k] ys[k] = true)) := by
  obtain ⟨h1, -, h2, -⟩ := C39_compare hE hr hc hd eq lt
  rw [h1, h2, ← allEq_iff, ← lexLt_iff]
  constructor
  · constructor
    · intro h; injection h
    · intro h; rw [h]
  · constructor
    · intro h; injection h
    · intro h; rw [h]

-- the hypotheses are met: two different containers
example : ∃ (m : Mem Nat), Reach demo m ∧ Contents demo 0 m eight ∧ Contents demo 1 m [10, 11, 12, 99] := by
  obtain ⟨m, h1, -, h2, h3, -⟩ := demo_lists eight [10, 11, 12, 99] 0 2
  exact ⟨m, h1, h2, h3⟩

end SegTree
