/-
  C94: sorting and merging with a buffer: the code that `std::stable_sort` and
  `std::inplace_merge` run, whatever part of the temporary buffer they ask for they get
  (Model/Buffered.lean), does on a container's iterators what their contract says.
-/
import Verif.Model.Buffered
import Verif.Props.Sorting
set_option autoImplicit false

namespace SegTree.Sorting
variable {α : Type} {E : Env α} {comp : α → α → Bool} {m m' m1 m2 : Mem α} {o i j k l n p q : Nat}
  {xs ys A B C G X Y Z : List α} {it jt kt lt : Iter} {v x y : α}

/-! ### Lists -/

theorem merge_last_right (hw : StrictWeak comp) (hX : SortedBy comp (X ++ [x])) (hY : SortedBy comp (Y ++ [y]))
    (h : comp y x = true) : (X ++ [x]).merge (Y ++ [y]) (before comp) = X.merge (Y ++ [y]) (before comp) ++ [x] := by
  have tr : ∀ a b c, before comp a b = true → before comp b c = true → before comp a c = true := hw.le_trans
  rw [sorted_iff, List.pairwise_append] at hY
  have := merge_append (le := before comp) (x1 := X) (x2 := [x]) (y1 := Y ++ [y]) (y2 := []) (by simp) (fun a ha b hb => by
    simp only [List.mem_singleton] at ha
    subst ha
    by_contra hc
    have hby : before comp b y = true := by
      rcases List.mem_append.1 hb with hb | hb
      · exact hY.2.2 b hb y (by simp)
      · simp only [List.mem_singleton] at hb; subst hb; simp [before, hw.irrefl]
    have := tr a b y (by simpa using hc) hby
    simp [before, h] at this)
  simpa using this

theorem merge_last_left (hw : StrictWeak comp) (hX : SortedBy comp (X ++ [x])) (h : comp y x = false) :
    (X ++ [x]).merge (Y ++ [y]) (before comp) = (X ++ [x]).merge Y (before comp) ++ [y] := by
  have tr : ∀ a b c, before comp a b = true → before comp b c = true → before comp a c = true := hw.le_trans
  rw [sorted_iff, List.pairwise_append] at hX
  have := merge_append (le := before comp) (x1 := X ++ [x]) (x2 := []) (y1 := Y) (y2 := [y]) (fun a ha b hb => by
    simp only [List.mem_singleton] at hb
    subst hb
    rcases List.mem_append.1 ha with ha | ha
    · exact tr a x b (hX.2.2 a ha x (by simp)) (by simp [before, h])
    · simp only [List.mem_singleton] at ha; subst ha; simp [before, h]) (by simp)
  rw [List.append_nil, merge_nil_left] at this
  exact this

/-- the pieces of `s` elements of a sequence, each sorted -/
def runs (comp : α → α → Bool) (s : Nat) (xs : List α) : List α :=
  if xs.length ≤ s ∨ s = 0 then xs.mergeSort (before comp)
  else (xs.take s).mergeSort (before comp) ++ runs comp s (xs.drop s)
termination_by xs.length
decreasing_by simp only [List.length_drop]; omega

theorem runs_short (h : xs.length ≤ n) : runs comp n xs = xs.mergeSort (before comp) := by
  rw [runs, if_pos (.inl h)]

theorem runs_append (h : X.length = n) (h0 : 0 < n) : runs comp n (X ++ Y) = X.mergeSort (before comp) ++ runs comp n Y := by
  cases Y with
  | nil => rw [List.append_nil, runs_short (by omega), runs_short (by simp)]; simp
  | cons y Y =>
    rw [runs, if_neg (by simp; omega), List.take_left' h, List.drop_left' h]

theorem runs_length : ∀ (n : Nat) {xs : List α}, xs.length = n → ∀ {s : Nat}, (runs comp s xs).length = n := by
  intro n
  induction n using Nat.strong_induction_on with
  | _ n ih =>
  intro xs h s
  rw [runs]
  by_cases h0 : xs.length ≤ s ∨ s = 0
  · rw [if_pos h0, List.length_mergeSort, h]
  · rw [if_neg h0, List.length_append, List.length_mergeSort, ih (xs.length - s) (by omega) (by simp), List.length_take]
    omega

/-! ### To and from the buffer -/

theorem take_next (hE : E.Good) (hr : Reach E m) (hc : Contents E o m (A ++ x :: B)) (hi : i = A.length)
    (hn : nth E o i m = .ok it m) :
    ∃ m' kt, moveFrom E it.entry.seg.ptr it.entry.seg.idx m = .ok x m' ∧ move_next_iterator E it m' = .ok kt m' ∧
      nth E o (i + 1) m' = .ok kt m' ∧ Rewrote E o m m' (A ++ E.moved x :: B) := by
  obtain ⟨m1, h1, h2⟩ := take hE hr hc hi hn
  obtain ⟨kt, h3, h4⟩ := C18_next hE h2.reach h2.elems (by simp; omega) (h2.rest.iters _ _ hn)
  exact ⟨m1, kt, h1, h3, h4, h2⟩

theorem write_next (hE : E.Good) (hr : Reach E m) (hc : Contents E o m (A ++ x :: B)) (hi : i = A.length)
    (hn : nth E o i m = .ok it m) (v : α) :
    ∃ m' kt, deref_set_rv E it v m = .ok () m' ∧ move_next_iterator E it m' = .ok kt m' ∧
      nth E o (i + 1) m' = .ok kt m' ∧ Rewrote E o m m' (A ++ v :: B) := by
  obtain ⟨m1, h1, h2⟩ := write hE hr hc hi hn v
  obtain ⟨kt, h3, h4⟩ := C18_next hE h2.reach h2.elems (by simp; omega) (h2.rest.iters _ _ hn)
  exact ⟨m1, kt, h1, h3, h4, h2⟩

theorem to_buffer (hE : E.Good) : ∀ (X : List α) {A B : List α} {m : Mem α} {i j : Nat} {it jt : Iter}, Reach E m →
    Contents E o m (A ++ (X ++ B)) → i = A.length → j = A.length + X.length → nth E o i m = .ok it m →
    nth E o j m = .ok jt m →
    ∃ m' Z, move_to_buffer E it jt m = .ok X m' ∧ Z.length = X.length ∧ Rewrote E o m m' (A ++ (Z ++ B))
  | [], A, B, m, i, j, it, jt, hr, hc, hi, hj, hn, hm => by
    rw [move_to_buffer, nth_pos hE hr hc (by simp; omega) hn, nth_pos hE hr hc (by simp at hj ⊢; omega) hm,
      if_neg (by simp at hj; omega)]
    exact ⟨m, [], rfl, rfl, stay hr hc⟩
  | x :: X, A, B, m, i, j, it, jt, hr, hc, hi, hj, hn, hm => by
    simp only [List.length_cons] at hj
    rw [move_to_buffer, nth_pos hE hr hc (by simp; omega) hn, nth_pos hE hr hc (by simp; omega) hm, if_pos (by omega)]
    obtain ⟨m1, kt, e1, e2, e3, e4⟩ := take_next hE hr (A := A) (x := x) (B := X ++ B) (by simpa using hc) hi hn
    obtain ⟨m2, Z, e5, e6, e7⟩ := to_buffer hE X (A := A ++ [E.moved x]) (B := B) (i := i + 1) (j := j) e4.reach
      (by simpa using e4.elems) (by simp; omega) (by simp; omega) e3 (e4.rest.iters _ _ hm)
    exact ⟨m2, E.moved x :: Z, by rw [bind_ok e1, bind_ok e2, bind_ok e5]; rfl, by simp [e6], again e4 (by simpa using e7)⟩

theorem from_buffer (hE : E.Good) : ∀ (X : List α) {A G B : List α} {m : Mem α} {i : Nat} {it : Iter}, Reach E m →
    Contents E o m (A ++ (G ++ B)) → G.length = X.length → i = A.length → nth E o i m = .ok it m →
    ∃ m' jt, move_from_buffer E X it m = .ok jt m' ∧ nth E o (A.length + X.length) m' = .ok jt m' ∧
      Rewrote E o m m' (A ++ (X ++ B))
  | [], A, G, B, m, i, it, hr, hc, hl, hi, hn => by
    rw [List.length_nil, List.length_eq_zero_iff] at hl
    subst hl hi
    exact ⟨m, it, rfl, hn, stay hr hc⟩
  | x :: X, A, [], B, m, i, it, hr, hc, hl, hi, hn => by simp at hl
  | x :: X, A, g :: G, B, m, i, it, hr, hc, hl, hi, hn => by
    obtain ⟨m1, kt, e1, e2, e3, e4⟩ := write_next hE hr (A := A) (x := g) (B := G ++ B) (by simpa using hc) hi hn x
    obtain ⟨m2, jt, e5, e6, e7⟩ := from_buffer hE X (A := A ++ [x]) (G := G) (B := B) (i := i + 1) e4.reach
      (by simpa using e4.elems) (by simpa using hl) (by simp; omega) e3
    refine ⟨m2, jt, ?_, ?_, again e4 (by simpa using e7)⟩
    · unfold move_from_buffer
      rw [bind_ok e1, bind_ok e2, e5]
    · rw [show A.length + (x :: X).length = (A ++ [x]).length + X.length by simp; omega]; exact e6

theorem backward_from_buffer (hE : E.Good) : ∀ (R : List α) {A G B : List α} {m : Mem α} {i : Nat} {it : Iter}, Reach E m →
    Contents E o m (A ++ (G ++ B)) → G.length = R.length → i = A.length + R.length → nth E o i m = .ok it m →
    ∃ m' jt, move_backward_from_buffer E R it m = .ok jt m' ∧ nth E o A.length m' = .ok jt m' ∧
      Rewrote E o m m' (A ++ (R.reverse ++ B))
  | [], A, G, B, m, i, it, hr, hc, hl, hi, hn => by
    rw [List.length_nil, List.length_eq_zero_iff] at hl
    subst hl hi
    exact ⟨m, it, rfl, hn, stay hr hc⟩
  | x :: R, A, G, B, m, i, it, hr, hc, hl, hi, hn => by
    simp only [List.length_cons] at hl hi
    obtain ⟨G, g, rfl⟩ : ∃ G' g, G = G' ++ [g] :=
      ⟨_, _, (List.dropLast_append_getLast (by rintro rfl; simp at hl)).symm⟩
    simp only [List.length_append, List.length_cons, List.length_nil] at hl
    obtain ⟨kt, e1, e2⟩ := C18_prev hE hr hc (by omega) (by simp; omega) hn
    obtain ⟨m1, e3, e4⟩ := write hE hr (A := A ++ G) (x := g) (B := B) (by simpa using hc) (by simp; omega) e2 x
    obtain ⟨m2, jt, e5, e7, e6⟩ := backward_from_buffer hE R (A := A) (G := G) (B := x :: B) (i := i - 1) e4.reach
      (by simpa using e4.elems) (by omega) (by omega) (e4.rest.iters _ _ e2)
    refine ⟨m2, jt, ?_, e7, again e4 (by simpa using e6)⟩
    unfold move_backward_from_buffer
    rw [bind_ok e1, bind_ok e3, e5]

theorem fits_ok {c : Nat} (h : X.length ≤ c) : fits c X m = .ok X m := by unfold fits; exact congrFun (if_pos h) m

/-! ### Merging into and out of the buffer -/

theorem merge_to (hE : E.Good) : ∀ (n : Nat) {X M Y A B : List α} {m : Mem α} {i j k l : Nat} {it jt kt lt : Iter},
    X.length + Y.length = n → Reach E m → Contents E o m (A ++ (X ++ (M ++ (Y ++ B)))) → i = A.length →
    j = A.length + X.length → k = A.length + X.length + M.length → l = A.length + X.length + M.length + Y.length →
    nth E o i m = .ok it m → nth E o j m = .ok jt m → nth E o k m = .ok kt m → nth E o l m = .ok lt m →
    ∃ m' Z, merge_to_buffer E comp it jt kt lt m = .ok (X.merge Y (before comp)) m' ∧
      Z.length = X.length + M.length + Y.length ∧ Rewrote E o m m' (A ++ (Z ++ B)) := by
  intro n
  induction n with
  | zero =>
    intro X M Y A B m i j k l it jt kt lt hlen hr hc hi hj hk hl hn hm hp hq
    obtain ⟨rfl, rfl⟩ : X = [] ∧ Y = [] := ⟨List.length_eq_zero_iff.1 (by omega), List.length_eq_zero_iff.1 (by omega)⟩
    simp only [List.length_nil, Nat.add_zero, List.nil_append] at hj hk hl hc
    have hL : (A ++ (M ++ B)).length = A.length + (M.length + B.length) := by simp
    rw [merge_to_buffer, nth_pos hE hr hc (by omega) hn, nth_pos hE hr hc (by omega) hm, if_neg (by omega)]
    obtain ⟨m1, Z1, e1, e2, e3⟩ := to_buffer hE [] (A := A) (B := M ++ B) (i := i) (j := j) hr hc hi (by simpa using hj) hn hm
    obtain ⟨m2, Z2, e4, e5, e6⟩ := to_buffer hE [] (A := A ++ M) (B := B) (i := k) (j := l) e3.reach
      (by rw [List.length_nil, List.length_eq_zero_iff] at e2; subst e2; simpa using e3.elems) (by simpa using hk) (by simpa using hl)
      (e3.rest.iters _ _ hp) (e3.rest.iters _ _ hq)
    rw [List.length_nil, List.length_eq_zero_iff] at e5
    subst e5
    exact ⟨m2, M, by rw [bind_ok e1, bind_ok e4, merge_nil_left]; rfl, by simp, again e3 (by simpa using e6)⟩
  | succ n ih =>
    intro X M Y A B m i j k l it jt kt lt hlen hr hc hi hj hk hl hn hm hp hq
    have hL : (A ++ (X ++ (M ++ (Y ++ B)))).length = A.length + (X.length + (M.length + (Y.length + B.length))) := by simp
    rw [merge_to_buffer, nth_pos hE hr hc (by omega) hn, nth_pos hE hr hc (by omega) hm, nth_pos hE hr hc (by omega) hp,
      nth_pos hE hr hc (by omega) hq]
    match X, Y with
    | x :: X, y :: Y =>
      simp only [List.length_cons] at hlen hj hk hl hL
      rw [if_pos (by omega)]
      rw [bind_ok (deref hE hr (A := A ++ (x :: X ++ M)) (x := y) (B := Y ++ B) (by simpa using hc) (by simp; omega) hp),
        bind_ok (deref hE hr (A := A) (x := x) (B := X ++ (M ++ (y :: Y ++ B))) (by simpa using hc) hi hn)]
      by_cases h : comp y x = true
      · rw [if_pos h, List.cons_merge_cons_neg _ _ _ (by simp [before, h])]
        obtain ⟨m1, ct, e1, e2, e3, e4⟩ := take_next hE hr (A := A ++ (x :: X ++ M)) (x := y) (B := Y ++ B) (by simpa using hc)
          (by simp; omega) hp
        obtain ⟨m2, Z, e5, e6, e7⟩ := ih (X := x :: X) (M := M ++ [E.moved y]) (Y := Y) (A := A) (B := B) (i := i) (j := j) (k := k + 1)
          (l := l) (by simp; omega) e4.reach (by simpa using e4.elems) hi (by simp; omega) (by simp; omega) (by simp; omega)
          (e4.rest.iters _ _ hn) (e4.rest.iters _ _ hm) e3 (e4.rest.iters _ _ hq)
        exact ⟨m2, Z, by rw [bind_ok e1, bind_ok e2, bind_ok e5]; rfl, by simp at e6 ⊢; omega, again e4 e7⟩
      · rw [if_neg h, List.cons_merge_cons_pos _ _ _ (by simp [before, h])]
        obtain ⟨m1, ct, e1, e2, e3, e4⟩ := take_next hE hr (A := A) (x := x) (B := X ++ (M ++ (y :: Y ++ B))) (by simpa using hc) hi hn
        obtain ⟨m2, Z, e5, e6, e7⟩ := ih (X := X) (M := M) (Y := y :: Y) (A := A ++ [E.moved x]) (B := B) (i := i + 1) (j := j) (k := k)
          (l := l) (by simp; omega) e4.reach (by simpa using e4.elems) (by simp; omega) (by simp; omega) (by simp; omega)
          (by simp; omega) e3 (e4.rest.iters _ _ hm) (e4.rest.iters _ _ hp) (e4.rest.iters _ _ hq)
        exact ⟨m2, E.moved x :: Z, by rw [bind_ok e1, bind_ok e2, bind_ok e5]; rfl, by simp at e6 ⊢; omega,
          again e4 (by simpa using e7)⟩
    | [], Y =>
      simp only [List.length_nil, Nat.add_zero, List.nil_append] at hj hk hl hc hL
      rw [if_neg (by omega), merge_nil_left]
      obtain ⟨m1, Z1, e1, e2, e3⟩ := to_buffer hE [] (A := A) (B := M ++ (Y ++ B)) (i := i) (j := j) hr hc hi (by simpa using hj) hn hm
      rw [List.length_nil, List.length_eq_zero_iff] at e2
      subst e2
      obtain ⟨m2, Z2, e4, e5, e6⟩ := to_buffer hE Y (A := A ++ M) (B := B) (i := k) (j := l) e3.reach
        (by simpa using e3.elems) (by simp; omega) (by simp; omega) (e3.rest.iters _ _ hp) (e3.rest.iters _ _ hq)
      exact ⟨m2, M ++ Z2, by rw [bind_ok e1, bind_ok e4]; rfl, by simp [e5], again e3 (by simpa using e6)⟩
    | X, [] =>
      simp only [List.length_nil, Nat.add_zero, List.nil_append] at hl hc hL
      rw [if_neg (by omega), List.merge_right]
      obtain ⟨m1, Z1, e1, e2, e3⟩ := to_buffer hE X (A := A) (B := M ++ B) (i := i) (j := j) hr hc hi hj hn hm
      obtain ⟨m2, Z2, e4, e5, e6⟩ := to_buffer hE [] (A := A ++ (Z1 ++ M)) (B := B) (i := k) (j := l) e3.reach
        (by simpa using e3.elems) (by simp; omega) (by simp; omega) (e3.rest.iters _ _ hp) (e3.rest.iters _ _ hq)
      rw [List.length_nil, List.length_eq_zero_iff] at e5
      subst e5
      exact ⟨m2, Z1 ++ M, by rw [bind_ok e1, bind_ok e4]; simp only [List.append_nil]; rfl, by simp [e2], again e3 (by simpa using e6)⟩

theorem from_nil_left : merge_from_buffer E comp [] Y it = move_from_buffer E Y it := by
  rw [merge_from_buffer.eq_def]
  cases Y <;> exact funext fun m => bind_ok (show move_from_buffer E [] it m = .ok it m from rfl)

theorem from_nil_right : merge_from_buffer E comp X [] it =
    (do let r ← move_from_buffer E X it; move_from_buffer E [] r : M α Iter) := by
  rw [merge_from_buffer.eq_def]
  cases X <;> rfl

theorem merge_from (hE : E.Good) : ∀ (n : Nat) {X Y A G B : List α} {m : Mem α} {i : Nat} {it : Iter},
    X.length + Y.length = n → Reach E m → Contents E o m (A ++ (G ++ B)) → G.length = n → i = A.length →
    nth E o i m = .ok it m →
    ∃ m' jt, merge_from_buffer E comp X Y it m = .ok jt m' ∧ nth E o (A.length + n) m' = .ok jt m' ∧
      Rewrote E o m m' (A ++ (X.merge Y (before comp) ++ B)) := by
  intro n
  induction n with
  | zero =>
    intro X Y A G B m i it hlen hr hc hG hi hn
    obtain ⟨rfl, rfl⟩ : X = [] ∧ Y = [] := ⟨List.length_eq_zero_iff.1 (by omega), List.length_eq_zero_iff.1 (by omega)⟩
    rw [List.length_eq_zero_iff] at hG
    subst hG hi
    rw [from_nil_left]
    exact ⟨m, it, rfl, hn, stay hr (by simpa using hc)⟩
  | succ n ih =>
    intro X Y A G B m i it hlen hr hc hG hi hn
    match X, Y, G, hG with
    | x :: X, y :: Y, g :: G, hG =>
      simp only [List.length_cons] at hlen hG
      rw [merge_from_buffer.eq_def]
      dsimp only
      by_cases h : comp y x = true
      · rw [if_pos h, List.cons_merge_cons_neg _ _ _ (by simp [before, h])]
        obtain ⟨m1, ct, e1, e2, e3, e4⟩ := write_next hE hr (A := A) (x := g) (B := G ++ B) (by simpa using hc) hi hn y
        obtain ⟨m2, jt, e5, e6, e7⟩ := ih (X := x :: X) (Y := Y) (A := A ++ [y]) (G := G) (B := B) (i := i + 1) (by simp; omega)
          e4.reach (by simpa using e4.elems) (by omega) (by simp; omega) e3
        exact ⟨m2, jt, by rw [bind_ok e1, bind_ok e2, e5],
          by rw [show A.length + (n + 1) = (A ++ [y]).length + n by simp; omega]; exact e6, again e4 (by simpa using e7)⟩
      · rw [if_neg h, List.cons_merge_cons_pos _ _ _ (by simp [before, h])]
        obtain ⟨m1, ct, e1, e2, e3, e4⟩ := write_next hE hr (A := A) (x := g) (B := G ++ B) (by simpa using hc) hi hn x
        obtain ⟨m2, jt, e5, e6, e7⟩ := ih (X := X) (Y := y :: Y) (A := A ++ [x]) (G := G) (B := B) (i := i + 1) (by simp; omega)
          e4.reach (by simpa using e4.elems) (by omega) (by simp; omega) e3
        exact ⟨m2, jt, by rw [bind_ok e1, bind_ok e2, e5],
          by rw [show A.length + (n + 1) = (A ++ [x]).length + n by simp; omega]; exact e6, again e4 (by simpa using e7)⟩
    | [], Y, G, hG =>
      simp only [List.length_nil, Nat.zero_add] at hlen
      obtain ⟨m2, jt, e1, e2, e3⟩ := from_buffer hE Y (A := A) (G := G) (B := B) hr hc (by omega) hi hn
      rw [merge_nil_left, from_nil_left]
      exact ⟨m2, jt, e1, by rw [← hlen]; exact e2, e3⟩
    | x :: X, [], G, hG =>
      simp only [List.length_nil, Nat.add_zero] at hlen
      obtain ⟨m2, jt, e1, e2, e3⟩ := from_buffer hE (x :: X) (A := A) (G := G) (B := B) hr hc (by omega) hi hn
      rw [List.merge_right, from_nil_right]
      exact ⟨m2, jt, by rw [bind_ok e1]; rfl, by rw [← hlen]; exact e2, e3⟩

/-! ### The passes -/

theorem pieces (hE : E.Good) (hs : 0 < p) : ∀ (n : Nat) {X A B : List α} {m : Mem α} {i j : Nat} {it jt : Iter},
    X.length = n → Reach E m → Contents E o m (A ++ (runs comp p X ++ B)) → i = A.length → j = A.length + X.length →
    nth E o i m = .ok it m → nth E o j m = .ok jt m → 2 * (A ++ (X ++ B)).length < E.W → StrictWeak comp →
    ∃ m' Z, merge_loop_to_buffer E comp it jt p m = .ok (runs comp (2 * p) X) m' ∧ Z.length = n ∧
      Rewrote E o m m' (A ++ (Z ++ B)) := by
  intro n
  induction n using Nat.strong_induction_on with
  | _ n ih =>
  intro X A B m i j it jt hX hr hc hi hj hn hm hW hw
  have hL : (A ++ (runs comp p X ++ B)).length = A.length + (X.length + B.length) := by
    simp [runs_length (comp := comp) X.length rfl]
  simp only [List.length_append] at hW
  have hd : it_diff E jt it = (X.length : Int) := by
    rw [C20_diff hE hr hc (by omega) (by omega) hm hn (by omega)]; omega
  rw [merge_loop_to_buffer, hd]
  have srt : ∀ u v : List α, (u ++ v).mergeSort (before comp) =
      (u.mergeSort (before comp)).merge (v.mergeSort (before comp)) (before comp) := mergeSort_append hw.le_trans hw.le_total
  by_cases h : (X.length : Int) ≥ ((2 * p : Nat) : Int)
  · rw [if_pos h]
    obtain ⟨X1, X2, R, rfl, l1, l2⟩ : ∃ X1 X2 R, X = X1 ++ (X2 ++ R) ∧ X1.length = p ∧ X2.length = p :=
      ⟨X.take p, (X.drop p).take p, (X.drop p).drop p, by rw [List.take_append_drop, List.take_append_drop],
        by rw [List.length_take]; omega, by rw [List.length_take, List.length_drop]; omega⟩
    simp only [List.length_append] at hX hj hL hW
    have k1 : (X1.mergeSort (before comp)).length = p := by rw [List.length_mergeSort, l1]
    have k2 : (X2.mergeSort (before comp)).length = p := by rw [List.length_mergeSort, l2]
    have k3 : (runs comp p R).length = R.length := runs_length _ rfl
    rw [runs_append l1 hs, runs_append l2 hs] at hc
    obtain ⟨mt, e1, e2⟩ := add hE hr hc (i := i) (d := p) (by simp; omega) hn
    obtain ⟨at', e3, e4⟩ := add hE hr hc (i := i) (d := 2 * p) (by simp; omega) hn
    rw [bind_ok e1, bind_ok e3]
    obtain ⟨m1, Z1, e5, e6, e7⟩ := merge_to (comp := comp) hE _ (X := X1.mergeSort (before comp)) (M := []) (Y := X2.mergeSort (before comp))
      (A := A) (B := runs comp p R ++ B) (i := i) (j := i + p) (k := i + p) (l := i + 2 * p) rfl hr (by simpa using hc) hi
      (by omega) (by simp; omega) (by simp; omega) hn e2 e2 e4
    simp only [k1, k2, List.length_nil] at e6
    obtain ⟨m2, Z2, e8, e9, e10⟩ := ih R.length (by omega) (X := R) (A := A ++ Z1) (B := B) (i := i + 2 * p) (j := j) rfl e7.reach
      (by simpa using e7.elems) (by simp; omega) (by simp; omega) (e7.rest.iters _ _ e4) (e7.rest.iters _ _ hm)
      (by simp; omega) hw
    refine ⟨m2, Z1 ++ Z2, ?_, by simp; omega, again e7 (by simpa using e10)⟩
    rw [bind_ok e5, bind_ok e8, ← List.append_assoc, runs_append (by simp; omega) (by omega), srt]
    rfl
  · rw [if_neg h]
    rw [runs_short (n := 2 * p) (by omega)]
    by_cases hp : X.length ≤ p
    · rw [runs_short hp] at hc hL
      rw [show min ((X.length : Int)) (p : Int) = ((X.length : Nat) : Int) by omega]
      obtain ⟨mt, e1, e2⟩ := add hE hr hc (i := i) (d := X.length) (by omega) hn
      have e2' : nth E o j m = .ok mt m := by rw [hj, ← hi]; exact e2
      obtain ⟨m1, Z1, e5, e6, e7⟩ := merge_to (comp := comp) hE _ (X := X.mergeSort (before comp)) (M := []) (Y := [])
        (A := A) (B := B) (i := i) (j := j) (k := j) (l := j) rfl hr (by simpa using hc) hi
        (by simp; omega) (by simp; omega) (by simp; omega) hn e2' e2' hm
      rw [List.merge_right] at e5
      exact ⟨m1, Z1, by rw [bind_ok e1, e5], by simp at e6; omega, e7⟩
    · obtain ⟨X1, X2, rfl, l1⟩ : ∃ X1 X2, X = X1 ++ X2 ∧ X1.length = p :=
        ⟨_, _, (List.take_append_drop p X).symm, by rw [List.length_take]; omega⟩
      simp only [List.length_append] at hX hj hL hW h hp
      rw [runs_append l1 hs, runs_short (n := p) (by omega)] at hc
      have k1 : (X1.mergeSort (before comp)).length = p := by rw [List.length_mergeSort, l1]
      have k2 : (X2.mergeSort (before comp)).length = X2.length := List.length_mergeSort _
      simp only [List.length_append]
      rw [show min ((X1.length + X2.length : Nat) : Int) (p : Int) = ((p : Nat) : Int) by omega]
      obtain ⟨mt, e1, e2⟩ := add hE hr hc (i := i) (d := p) (by simp; omega) hn
      obtain ⟨m1, Z1, e5, e6, e7⟩ := merge_to (comp := comp) hE _ (X := X1.mergeSort (before comp)) (M := []) (Y := X2.mergeSort (before comp))
        (A := A) (B := B) (i := i) (j := i + p) (k := i + p) (l := j) rfl hr (by simpa using hc) hi
        (by omega) (by simp; omega) (by simp; omega) hn e2 e2 hm
      rw [← srt] at e5
      exact ⟨m1, Z1, by rw [bind_ok e1, e5], by simp [k1, k2] at e6; omega, e7⟩

theorem pieces_back (hE : E.Good) (hw : StrictWeak comp) (hs : 0 < p) : ∀ (n : Nat) {X G A B : List α} {m : Mem α} {i : Nat} {it : Iter},
    X.length = n → G.length = n → Reach E m → Contents E o m (A ++ (G ++ B)) → i = A.length →
    nth E o i m = .ok it m →
    ∃ m', merge_loop_from_buffer E comp (runs comp p X) it p m = .ok () m' ∧
      Rewrote E o m m' (A ++ (runs comp (2 * p) X ++ B)) := by
  intro n
  induction n using Nat.strong_induction_on with
  | _ n ih =>
  intro X G A B m i it hX hG hr hc hi hn
  have hL : (runs comp p X).length = X.length := runs_length _ rfl
  have srt : ∀ u v : List α, (u ++ v).mergeSort (before comp) =
      (u.mergeSort (before comp)).merge (v.mergeSort (before comp)) (before comp) := mergeSort_append hw.le_trans hw.le_total
  rw [merge_loop_from_buffer, hL]
  by_cases h : X.length ≥ 2 * p
  · rw [if_pos h]
    obtain ⟨X1, X2, R, rfl, l1, l2⟩ : ∃ X1 X2 R, X = X1 ++ (X2 ++ R) ∧ X1.length = p ∧ X2.length = p :=
      ⟨X.take p, (X.drop p).take p, (X.drop p).drop p, by rw [List.take_append_drop, List.take_append_drop],
        by rw [List.length_take]; omega, by rw [List.length_take, List.length_drop]; omega⟩
    simp only [List.length_append] at hX
    obtain ⟨G1, G2, rfl, l3⟩ : ∃ G1 G2, G = G1 ++ G2 ∧ G1.length = 2 * p :=
      ⟨_, _, (List.take_append_drop (2 * p) G).symm, by rw [List.length_take]; omega⟩
    simp only [List.length_append] at hG
    have k1 : (X1.mergeSort (before comp)).length = p := by rw [List.length_mergeSort, l1]
    have k2 : (X2.mergeSort (before comp)).length = p := by rw [List.length_mergeSort, l2]
    rw [runs_append l1 hs, runs_append l2 hs, List.take_left' k1, List.drop_left' k1, List.take_left' k2,
      ← List.append_assoc, List.drop_left' (by simp [k1, k2]; omega)]
    obtain ⟨m1, jt, e1, e2, e3⟩ := merge_from (comp := comp) hE (2 * p) (X := X1.mergeSort (before comp)) (Y := X2.mergeSort (before comp))
      (A := A) (G := G1) (B := G2 ++ B) (by omega) hr (by simpa using hc) l3 hi hn
    have k3 : ((X1.mergeSort (before comp)).merge (X2.mergeSort (before comp)) (before comp)).length = 2 * p := by
      rw [List.length_merge]; omega
    obtain ⟨m2, e4, e5⟩ := ih R.length (by omega) (X := R) (G := G2)
      (A := A ++ (X1.mergeSort (before comp)).merge (X2.mergeSort (before comp)) (before comp)) (B := B) (i := A.length + 2 * p)
      rfl (by omega) e3.reach (by simpa using e3.elems) (by simp only [List.length_append]; omega) e2
    refine ⟨m2, by rw [bind_ok e1, e4], again e3 ?_⟩
    rw [← List.append_assoc X1, runs_append (X := X1 ++ X2) (by simp; omega) (by omega), srt]
    simpa using e5
  · rw [if_neg h, runs_short (n := 2 * p) (by omega)]
    by_cases hp : X.length ≤ p
    · rw [runs_short hp, show min X.length p = X.length by omega]
      have k : (X.mergeSort (before comp)).length = X.length := List.length_mergeSort _
      rw [List.take_of_length_le (by omega), List.drop_of_length_le (by omega)]
      obtain ⟨m1, jt, e1, e2, e3⟩ := merge_from (comp := comp) hE n (X := X.mergeSort (before comp)) (Y := [])
        (A := A) (G := G) (B := B) (by simp; omega) hr hc hG hi hn
      rw [List.merge_right] at e3
      exact ⟨m1, by rw [bind_ok e1]; rfl, e3⟩
    · obtain ⟨X1, X2, rfl, l1⟩ : ∃ X1 X2, X = X1 ++ X2 ∧ X1.length = p :=
        ⟨_, _, (List.take_append_drop p X).symm, by rw [List.length_take]; omega⟩
      simp only [List.length_append] at hX h hp
      have k1 : (X1.mergeSort (before comp)).length = p := by rw [List.length_mergeSort, l1]
      have k2 : (X2.mergeSort (before comp)).length = X2.length := List.length_mergeSort _
      rw [runs_append l1 hs, runs_short (n := p) (by omega), List.length_append,
        show min (X1.length + X2.length) p = p by omega]
      rw [List.take_left' k1, List.drop_left' k1]
      obtain ⟨m1, jt, e1, e2, e3⟩ := merge_from (comp := comp) hE n (X := X1.mergeSort (before comp)) (Y := X2.mergeSort (before comp))
        (A := A) (G := G) (B := B) (by omega) hr hc hG hi hn
      rw [← srt] at e3
      exact ⟨m1, by rw [bind_ok e1]; rfl, e3⟩

theorem chunks (hE : E.Good) (hw : StrictWeak comp) (hs : 0 < p) : ∀ (n : Nat) {X A B : List α} {m : Mem α} {i j : Nat} {it jt : Iter},
    X.length = n → Reach E m → Contents E o m (A ++ (X ++ B)) → i = A.length → j = A.length + X.length →
    nth E o i m = .ok it m → nth E o j m = .ok jt m → 2 * (A ++ (X ++ B)).length < E.W →
    ∃ m', chunk_insertion_sort E comp it jt p m = .ok () m' ∧ Rewrote E o m m' (A ++ (runs comp p X ++ B)) := by
  intro n
  induction n using Nat.strong_induction_on with
  | _ n ih =>
  intro X A B m i j it jt hX hr hc hi hj hn hm hW
  have hL : (A ++ (X ++ B)).length = A.length + (X.length + B.length) := by simp
  have hd : it_diff E jt it = (X.length : Int) := by
    rw [C20_diff hE hr hc (by omega) (by omega) hm hn (by omega)]; omega
  rw [chunk_insertion_sort, hd]
  by_cases h : (X.length : Int) ≥ (p : Int)
  · rw [if_pos h]
    obtain ⟨X1, X2, rfl, l1⟩ : ∃ X1 X2, X = X1 ++ X2 ∧ X1.length = p :=
      ⟨_, _, (List.take_append_drop p X).symm, by rw [List.length_take]; omega⟩
    simp only [List.length_append] at hX hj hL hW
    obtain ⟨mt, e1, e2⟩ := add hE hr hc (i := i) (d := p) (by simp only [List.length_append]; omega) hn
    obtain ⟨m1, e3, e4⟩ := insertion (comp := comp) hE hw hr (A := A) (X := X1) (B := X2 ++ B) (by simpa using hc) hi (by omega) hn e2
    have k1 : (X1.mergeSort (before comp)).length = p := by rw [List.length_mergeSort, l1]
    obtain ⟨m2, e5, e6⟩ := ih X2.length (by omega) (X := X2) (A := A ++ X1.mergeSort (before comp)) (B := B) (i := i + p) (j := j)
      rfl e4.reach (by simpa using e4.elems) (by simp only [List.length_append]; omega) (by simp only [List.length_append]; omega)
      (e4.rest.iters _ _ e2) (e4.rest.iters _ _ hm) (by simp only [List.length_append]; omega)
    exact ⟨m2, by rw [bind_ok e1, bind_ok e3, e5], again e4 (by rw [runs_append l1 hs]; simpa using e6)⟩
  · rw [if_neg h, runs_short (by omega)]
    exact insertion (comp := comp) hE hw hr hc hi hj hn hm

theorem passes {c : Nat} (hE : E.Good) (hw : StrictWeak comp) : ∀ (d p : Nat) {X A B : List α} {m : Mem α} {i j : Nat} {it jt : Iter}, 0 < p →
    X.length - p = d → Reach E m → Contents E o m (A ++ (runs comp p X ++ B)) → i = A.length → j = A.length + X.length →
    nth E o i m = .ok it m → nth E o j m = .ok jt m → 2 * (A ++ (X ++ B)).length < E.W → X.length ≤ c →
    ∃ m', merge_passes E comp c it jt X.length p m = .ok () m' ∧ Rewrote E o m m' (A ++ (X.mergeSort (before comp) ++ B)) := by
  intro d
  induction d using Nat.strong_induction_on with
  | _ d ih =>
  intro p X A B m i j it jt hp hd hr hc hi hj hn hm hW hcap
  rw [merge_passes]
  by_cases h : p < X.length
  · rw [if_pos h]
    obtain ⟨m1, Z, e1, e2, e3⟩ := pieces hE hp _ rfl hr hc hi hj hn hm hW hw
    rw [bind_ok e1, bind_ok (fits_ok (by rw [runs_length _ rfl]; exact hcap))]
    rw [show p * 2 = 2 * p by omega]
    obtain ⟨m2, e4, e5⟩ := pieces_back (comp := comp) (p := 2 * p) hE hw (by omega) X.length rfl e2 e3.reach e3.elems hi (e3.rest.iters _ _ hn)
    have e5 := again e3 e5
    obtain ⟨m3, e6, e7⟩ := ih (X.length - 2 * p * 2) (by omega) (2 * p * 2) (by omega) rfl e5.reach
      (by rw [show 2 * p * 2 = 2 * (2 * p) by omega]; exact e5.elems) hi hj (e5.rest.iters _ _ hn) (e5.rest.iters _ _ hm) hW hcap
    exact ⟨m3, by rw [bind_ok e4, e6], again e5 e7⟩
  · rw [if_neg h]
    rw [runs_short (by omega)] at hc
    exact ⟨m, rfl, stay hr hc⟩

theorem with_buffer {c : Nat} (hE : E.Good) (hw : StrictWeak comp) (hr : Reach E m) (hc : Contents E o m (A ++ (X ++ B)))
    (hi : i = A.length) (hj : j = A.length + X.length) (hn : nth E o i m = .ok it m) (hm : nth E o j m = .ok jt m)
    (hW : 2 * (A ++ (X ++ B)).length < E.W) (hcap : X.length ≤ c) :
    ∃ m', merge_sort_with_buffer E comp c it jt m = .ok () m' ∧ Rewrote E o m m' (A ++ (X.mergeSort (before comp) ++ B)) := by
  have hL : (A ++ (X ++ B)).length = A.length + (X.length + B.length) := by simp
  obtain ⟨m1, e1, e2⟩ := chunks (comp := comp) (p := 7) hE hw (by omega) _ rfl hr hc hi hj hn hm hW
  obtain ⟨m2, e3, e4⟩ := passes (comp := comp) hE hw _ 7 (by omega) rfl e2.reach e2.elems hi hj (e2.rest.iters _ _ hn) (e2.rest.iters _ _ hm) hW hcap
  refine ⟨m2, ?_, again e2 e4⟩
  unfold merge_sort_with_buffer
  rw [bind_ok e1, C20_diff hE hr hc (by omega) (by omega) hm hn (by omega), show ((j : Int) - (i : Int)).toNat = X.length by omega, e3]

/-! ### The last merge -/

theorem forward (hE : E.Good) : ∀ (n : Nat) {X Y A G B : List α} {m : Mem α} {i j k : Nat} {it jt kt : Iter},
    X.length + Y.length = n → G.length = X.length → Reach E m → Contents E o m (A ++ (G ++ (Y ++ B))) → i = A.length →
    j = A.length + G.length → k = A.length + G.length + Y.length → nth E o i m = .ok it m → nth E o j m = .ok jt m →
    nth E o k m = .ok kt m →
    ∃ m', merge_adaptive_forward E comp X jt kt it m = .ok () m' ∧ Rewrote E o m m' (A ++ (X.merge Y (before comp) ++ B)) := by
  intro n
  induction n with
  | zero =>
    intro X Y A G B m i j k it jt kt hlen hG hr hc hi hj hk hn hm hp
    obtain ⟨rfl, rfl⟩ : X = [] ∧ Y = [] := ⟨List.length_eq_zero_iff.1 (by omega), List.length_eq_zero_iff.1 (by omega)⟩
    rw [List.length_nil, List.length_eq_zero_iff] at hG
    subst hG
    rw [merge_adaptive_forward, merge_nil_left]
    exact ⟨m, rfl, stay hr hc⟩
  | succ n ih =>
    intro X Y A G B m i j k it jt kt hlen hG hr hc hi hj hk hn hm hp
    have hL : (A ++ (G ++ (Y ++ B))).length = A.length + (G.length + (Y.length + B.length)) := by simp
    match X, G, hG with
    | [], [], hG =>
      rw [merge_adaptive_forward, merge_nil_left]
      exact ⟨m, rfl, stay hr (by simpa using hc)⟩
    | x :: X, g :: G, hG =>
      simp only [List.length_cons] at hlen hj hk hG hL
      rw [merge_adaptive_forward, nth_pos hE hr hc (by omega) hm, nth_pos hE hr hc (by omega) hp]
      cases Y with
      | nil =>
        rw [if_neg (by simp at hk; omega), List.merge_right]
        obtain ⟨m1, qt, e1, -, e2⟩ := from_buffer hE (x :: X) (A := A) (G := g :: G) (B := B) hr (by simpa using hc)
          (by simpa using hG) hi hn
        exact ⟨m1, by rw [bind_ok e1]; rfl, e2⟩
      | cons y Y =>
        simp only [List.length_cons] at hlen hk hL
        rw [if_pos (by omega), bind_ok (deref hE hr (A := A ++ g :: G) (x := y) (B := Y ++ B) (by simpa using hc) (by simp; omega) hm)]
        by_cases h : comp y x = true
        · rw [if_pos h, List.cons_merge_cons_neg _ _ _ (by simp [before, h])]
          obtain ⟨m1, e1, e2⟩ := move_down hE hr (A := A) (x := g) (B := G) (y := y) (C := Y ++ B) (by simpa using hc) hi (by omega) hn hm
          obtain ⟨jt', e3, e4⟩ := C18_next hE e2.reach e2.elems (by simp; omega) (e2.rest.iters _ _ hm)
          obtain ⟨it', e5, e6⟩ := C18_next hE e2.reach e2.elems (by simp; omega) (e2.rest.iters _ _ hn)
          obtain ⟨m2, e7, e8⟩ := ih (X := x :: X) (Y := Y) (A := A ++ [y]) (G := G ++ [E.moved y]) (B := B) (i := i + 1) (j := j + 1)
            (k := k) (by simp; omega) (by simpa using hG) e2.reach (by simpa using e2.elems) (by simp; omega) (by simp; omega)
            (by simp; omega) e6 e4 (e2.rest.iters _ _ hp)
          exact ⟨m2, by rw [bind_ok e1, bind_ok e3, bind_ok e5, e7], again e2 (by simpa using e8)⟩
        · rw [if_neg h, List.cons_merge_cons_pos _ _ _ (by simp [before, h])]
          obtain ⟨m1, it', e1, e2, e3, e4⟩ := write_next hE hr (A := A) (x := g) (B := G ++ (y :: Y ++ B)) (by simpa using hc) hi hn x
          obtain ⟨m2, e7, e8⟩ := ih (X := X) (Y := y :: Y) (A := A ++ [x]) (G := G) (B := B) (i := i + 1) (j := j)
            (k := k) (by simp; omega) (by omega) e4.reach (by simpa using e4.elems) (by simp; omega) (by simp; omega)
            (by simp; omega) e3 (e4.rest.iters _ _ hm) (e4.rest.iters _ _ hp)
          exact ⟨m2, by rw [bind_ok e1, bind_ok e2, e7], again e4 (by simpa using e8)⟩

theorem backward_loop (hE : E.Good) (hw : StrictWeak comp) : ∀ (n : Nat) {X Y A G B : List α} {x y : α} {m : Mem α} {i j k : Nat}
    {it jt kt : Iter}, X.length + Y.length = n → G.length = Y.length + 1 → Reach E m → Contents E o m (A ++ (X ++ x :: (G ++ B))) →
    i = A.length → j = A.length + X.length → k = A.length + (X.length + 1) + G.length → nth E o i m = .ok it m →
    nth E o j m = .ok jt m → nth E o k m = .ok kt m → SortedBy comp (X ++ [x]) → SortedBy comp (Y ++ [y]) →
    ∃ m', merge_backward_loop E comp it jt y Y.reverse kt m = .ok () m' ∧
      Rewrote E o m m' (A ++ ((X ++ [x]).merge (Y ++ [y]) (before comp) ++ B)) := by
  intro n
  induction n using Nat.strong_induction_on with
  | _ n ih =>
  intro X Y A G B x y m i j k it jt kt hlen hG hr hc hi hj hk hn hm hp hX hY
  obtain ⟨G, g, rfl⟩ : ∃ G' g, G = G' ++ [g] :=
    ⟨_, _, (List.dropLast_append_getLast (by rintro rfl; simp at hG)).symm⟩
  simp only [List.length_append, List.length_cons, List.length_nil] at hG hk
  have hL : (A ++ (X ++ x :: ((G ++ [g]) ++ B))).length = A.length + (X.length + (1 + (G.length + 1 + B.length))) := by simp; omega
  rw [merge_backward_loop, bind_ok (deref hE hr (A := A ++ X) (x := x) (B := (G ++ [g]) ++ B) (by simpa using hc) (by simp; omega) hm)]
  obtain ⟨rt, e1, e2⟩ := C18_prev hE hr hc (by omega) (by omega) hp
  by_cases h : comp y x = true
  · rw [if_pos h, bind_ok e1, merge_last_right hw hX hY h]
    obtain ⟨m1, e3, e4⟩ := move_up hE hr (A := A ++ X) (x := x) (B := G) (y := g) (C := B) (by simpa using hc) (by simp; omega)
      (by simp; omega) hm e2
    rw [bind_ok e3, nth_pos hE hr hc (by omega) hn, nth_pos hE hr hc (by omega) hm]
    by_cases hx : i = j
    · rw [if_pos hx]
      obtain rfl : X = [] := List.length_eq_zero_iff.1 (by omega)
      obtain ⟨m2, qt, e5, -, e6⟩ := backward_from_buffer hE (y :: Y.reverse) (A := A) (G := E.moved x :: G) (B := x :: B) (i := k - 1) e4.reach
        (by simpa using e4.elems) (by simp; omega) (by simp at hk ⊢; omega) (e4.rest.iters _ _ e2)
      exact ⟨m2, by rw [bind_ok e5]; rfl, again e4 (by rw [merge_nil_left]; simpa using e6)⟩
    · rw [if_neg hx]
      obtain ⟨X, x', rfl⟩ : ∃ X' x', X = X' ++ [x'] :=
        ⟨_, _, (List.dropLast_append_getLast (by rintro rfl; simp at hj; omega)).symm⟩
      simp only [List.length_append, List.length_cons, List.length_nil] at hlen hj hk
      obtain ⟨jt', e5, e6⟩ := C18_prev hE e4.reach e4.elems (by omega) (by simp; omega) (e4.rest.iters _ _ hm)
      obtain ⟨m2, e7, e8⟩ := ih (X.length + Y.length) (by omega) (X := X) (Y := Y) (A := A) (G := E.moved x :: G) (B := x :: B) (x := x') (y := y)
        (i := i) (j := j - 1) (k := k - 1) rfl (by simp; omega) e4.reach (by simpa using e4.elems) hi (by omega) (by simp; omega)
        (e4.rest.iters _ _ hn) e6 (e4.rest.iters _ _ e2)
        (by rw [sorted_iff, List.pairwise_append] at hX; exact sorted_iff.2 hX.1) hY
      exact ⟨m2, by rw [bind_ok e5, e7], again e4 (by simpa using e8)⟩
  · rw [if_neg h, bind_ok e1, merge_last_left hw hX (by simpa using h)]
    obtain ⟨m1, e3, e4⟩ := write hE hr (A := A ++ (X ++ x :: G)) (x := g) (B := B) (by simpa using hc) (by simp; omega) e2 y
    rw [bind_ok e3]
    rcases List.eq_nil_or_concat' Y with rfl | ⟨Y, y', rfl⟩
    · obtain rfl : G = [] := List.length_eq_zero_iff.1 (by simpa using hG)
      exact ⟨m1, rfl, ⟨by simpa using e4.elems, e4.rest, e4.reach⟩⟩
    · simp only [List.length_append, List.length_cons, List.length_nil] at hlen hG
      rw [List.reverse_append, List.reverse_singleton, List.singleton_append]
      dsimp only
      obtain ⟨m2, e7, e8⟩ := ih (X.length + Y.length) (by omega) (X := X) (Y := Y) (A := A) (G := G) (B := y :: B) (x := x) (y := y')
        (i := i) (j := j) (k := k - 1) rfl (by omega) e4.reach (by simpa using e4.elems) hi (by omega) (by omega)
        (e4.rest.iters _ _ hn) (e4.rest.iters _ _ hm) (e4.rest.iters _ _ e2) hX
        (by rw [sorted_iff, List.pairwise_append] at hY; exact sorted_iff.2 hY.1)
      exact ⟨m2, e7, again e4 (by simpa using e8)⟩

theorem adaptive {c : Nat} (hE : E.Good) (hw : StrictWeak comp) (hr : Reach E m) (hc : Contents E o m (A ++ (X ++ (Y ++ B)))) (hi : i = A.length)
    (hj : j = A.length + X.length) (hk : k = A.length + X.length + Y.length) (hn : nth E o i m = .ok it m)
    (hm : nth E o j m = .ok jt m) (hp : nth E o k m = .ok kt m) (hX : SortedBy comp X) (hY : SortedBy comp Y)
    (hcap : X.length ≤ c ∨ Y.length ≤ c) :
    ∃ m', merge_adaptive E comp c it jt kt X.length Y.length m = .ok () m' ∧
      Rewrote E o m m' (A ++ (X.merge Y (before comp) ++ B)) := by
  unfold merge_adaptive
  by_cases h : (X.length : Int) ≤ (Y.length : Int)
  · rw [if_pos h]
    obtain ⟨m1, Z, e1, e2, e3⟩ := to_buffer hE X (A := A) (B := Y ++ B) hr hc hi hj hn hm
    obtain ⟨m2, e4, e5⟩ := forward (comp := comp) hE _ (X := X) (Y := Y) (A := A) (G := Z) (B := B) rfl e2 e3.reach e3.elems hi
      (by omega) (by omega) (e3.rest.iters _ _ hn) (e3.rest.iters _ _ hm) (e3.rest.iters _ _ hp)
    exact ⟨m2, by rw [bind_ok e1, bind_ok (fits_ok (by omega)), e4], again e3 e5⟩
  · rw [if_neg h]
    have hL : (A ++ (X ++ (Y ++ B))).length = A.length + (X.length + (Y.length + B.length)) := by simp
    obtain ⟨m1, Z, e1, e2, e3⟩ := to_buffer hE Y (A := A ++ X) (B := B) hr (by simpa using hc) (by simpa using hj) (by simpa using hk) hm hp
    rw [bind_ok e1, bind_ok (fits_ok (by omega))]
    unfold merge_adaptive_backward
    rw [nth_pos hE hr hc (by omega) hn, nth_pos hE hr hc (by omega) hm, if_neg (by omega)]
    rcases List.eq_nil_or_concat' Y with rfl | ⟨Y, y, rfl⟩
    · obtain rfl : Z = [] := List.length_eq_zero_iff.1 (by simpa using e2)
      exact ⟨m1, rfl, ⟨by rw [List.merge_right]; simpa using e3.elems, e3.rest, e3.reach⟩⟩
    · rw [List.reverse_append, List.reverse_singleton, List.singleton_append]
      dsimp only
      obtain ⟨X, x, rfl⟩ : ∃ X' x, X = X' ++ [x] :=
        ⟨_, _, (List.dropLast_append_getLast (by rintro rfl; simp at h; omega)).symm⟩
      simp only [List.length_append, List.length_cons, List.length_nil] at hj hk hL e2
      obtain ⟨jt', e4, e5⟩ := C18_prev hE e3.reach e3.elems (by omega) (by simp; omega) (e3.rest.iters _ _ hm)
      obtain ⟨m2, e6, e7⟩ := backward_loop (comp := comp) hE hw _ (X := X) (Y := Y) (A := A) (G := Z) (B := B) (x := x) (y := y)
        (i := i) (j := j - 1) (k := k) rfl e2 e3.reach (by simpa using e3.elems) hi (by omega) (by omega)
        (e3.rest.iters _ _ hn) e5 (e3.rest.iters _ _ hp) hX hY
      exact ⟨m2, by rw [bind_ok e4, e6], again e3 e7⟩

theorem seeded (hE : E.Good) (hr : Reach E m) (hc : Contents E o m (A ++ (X ++ B))) (hi : i = A.length)
    (hn : nth E o i m = .ok it m) (hl : n ≤ X.length) :
    ∃ m', tmp_buffer E it n m = .ok () m' ∧ Rewrote E o m m' (A ++ (X ++ B)) := by
  unfold tmp_buffer
  by_cases h : n = 0
  · rw [if_pos h]; exact ⟨m, rfl, stay hr hc⟩
  · rw [if_neg h]
    cases X with
    | nil => simp at hl; omega
    | cons x X =>
      obtain ⟨m1, e1, e2⟩ := take hE hr (A := A) (x := x) (B := X ++ B) (by simpa using hc) hi hn
      obtain ⟨m2, e3, e4⟩ := write hE e2.reach e2.elems hi (e2.rest.iters _ _ hn) x
      exact ⟨m2, by rw [bind_ok e1, e3], again e2 (by simpa using e4)⟩

theorem adaptive_sort {c : Nat} (hE : E.Good) (hw : StrictWeak comp) (hr : Reach E m) (hc : Contents E o m (A ++ (X ++ (Y ++ B))))
    (hi : i = A.length) (hj : j = A.length + X.length) (hk : k = A.length + X.length + Y.length) (hn : nth E o i m = .ok it m)
    (hm : nth E o j m = .ok jt m) (hp : nth E o k m = .ok kt m) (hW : 2 * (A ++ (X ++ (Y ++ B))).length < E.W) (hX : X.length ≤ c)
    (hY : Y.length ≤ c) :
    ∃ m', stable_sort_adaptive E comp c it jt kt m = .ok () m' ∧
      Rewrote E o m m' (A ++ ((X ++ Y).mergeSort (before comp) ++ B)) := by
  unfold stable_sort_adaptive
  simp only [List.length_append] at hW
  have s1 : (X.mergeSort (before comp)).length = X.length := List.length_mergeSort _
  have s2 : (Y.mergeSort (before comp)).length = Y.length := List.length_mergeSort _
  obtain ⟨m2, e5, e6⟩ := with_buffer (comp := comp) (c := c) hE hw hr (A := A) (X := X) (B := Y ++ B) hc hi hj hn hm
    (by simp only [List.length_append]; omega) hX
  obtain ⟨m3, e7, e8⟩ := with_buffer (comp := comp) (c := c) hE hw e6.reach (A := A ++ X.mergeSort (before comp)) (X := Y) (B := B)
    (i := j) (j := k) (by simpa using e6.elems) (by simp only [List.length_append]; omega)
    (by simp only [List.length_append]; omega) (e6.rest.iters _ _ hm) (e6.rest.iters _ _ hp) (by simp only [List.length_append]; omega) hY
  have e9 := again e6 e8
  have c9 : Contents E o m3 (A ++ (X.mergeSort (before comp) ++ (Y.mergeSort (before comp) ++ B))) := by simpa using e9.elems
  have L9 : (A ++ (X.mergeSort (before comp) ++ (Y.mergeSort (before comp) ++ B))).length =
      A.length + (X.length + (Y.length + B.length)) := by simp only [List.length_append]; omega
  have d1 : it_diff E jt it = ((X.mergeSort (before comp)).length : Int) := by
    rw [C20_diff hE e9.reach c9 (by omega) (by omega) (e9.rest.iters _ _ hm) (e9.rest.iters _ _ hn) (by omega)]; omega
  have d2 : it_diff E kt jt = ((Y.mergeSort (before comp)).length : Int) := by
    rw [C20_diff hE e9.reach c9 (by omega) (by omega) (e9.rest.iters _ _ hp) (e9.rest.iters _ _ hm) (by omega)]; omega
  obtain ⟨m4, e10, e11⟩ := adaptive (comp := comp) (c := c) hE hw e9.reach c9 hi (j := j) (k := k) (by omega) (by omega)
    (e9.rest.iters _ _ hn) (e9.rest.iters _ _ hm) (e9.rest.iters _ _ hp)
    (sorted_iff.2 (List.pairwise_mergeSort hw.le_trans hw.le_total X))
    (sorted_iff.2 (List.pairwise_mergeSort hw.le_trans hw.le_total Y)) (by omega)
  refine ⟨m4, by rw [bind_ok e5, bind_ok e7, d1, d2, e10], again e9 ?_⟩
  rw [mergeSort_append hw.le_trans hw.le_total]
  exact e11

/-! ### A part of the buffer -/

theorem rotate_with {c : Nat} (hE : E.Good) (hr : Reach E m) (hc : Contents E o m (A ++ (X ++ (Y ++ B)))) (hi : i = A.length)
    (hj : j = A.length + X.length) (hk : k = A.length + X.length + Y.length) (hn : nth E o i m = .ok it m)
    (hm : nth E o j m = .ok jt m) (hp : nth E o k m = .ok kt m) (hW : 2 * (A ++ (X ++ (Y ++ B))).length < E.W) :
    ∃ qt m', rotate_adaptive E c it jt kt X.length Y.length m = .ok qt m' ∧ nth E o (A.length + Y.length) m' = .ok qt m' ∧
      Rewrote E o m m' (A ++ (Y ++ (X ++ B))) := by
  unfold rotate_adaptive
  by_cases h1 : X.length > Y.length ∧ Y.length ≤ c
  · rw [if_pos h1]
    by_cases h2 : Y.length ≠ 0
    · rw [if_pos h2]
      obtain ⟨m1, Z, e1, e2, e3⟩ := to_buffer hE Y (A := A ++ X) (B := B) hr (by simpa using hc) (by simpa using hj) (by simpa using hk) hm hp
      obtain ⟨m2, G, e4, e5, e6⟩ := shift_up hE X (A := A) (G := Z) (B := B) (by rintro rfl; simp at e2; omega) e3.reach
        (by simpa using e3.elems) hi hj (by omega) (e3.rest.iters _ _ hn) (e3.rest.iters _ _ hm) (e3.rest.iters _ _ hp)
      have e6 := again e3 e6
      obtain ⟨m3, qt, e7, e8, e9⟩ := from_buffer hE Y (A := A) (G := G) (B := X ++ B) e6.reach e6.elems (by omega) hi (e6.rest.iters _ _ hn)
      exact ⟨qt, m3, by rw [bind_ok e1, bind_ok (fits_ok h1.2), bind_ok e4, e7], e8, again e6 e9⟩
    · rw [if_neg h2]
      obtain rfl : Y = [] := List.length_eq_zero_iff.1 (by omega)
      exact ⟨it, m, rfl, by rw [List.length_nil, Nat.add_zero, ← hi]; exact hn, stay hr (by simpa using hc)⟩
  · rw [if_neg h1]
    by_cases h3 : X.length ≤ c
    · rw [if_pos h3]
      by_cases h2 : X.length ≠ 0
      · rw [if_pos h2]
        obtain ⟨m1, Z, e1, e2, e3⟩ := to_buffer hE X (A := A) (B := Y ++ B) hr hc hi hj hn hm
        obtain ⟨m2, G, e4, e5, e6⟩ := shift_down hE Y (A := A) (G := Z) (B := B) (by rintro rfl; simp at e2; omega) e3.reach
          e3.elems hi (by omega) (by omega) (e3.rest.iters _ _ hn) (e3.rest.iters _ _ hm) (e3.rest.iters _ _ hp)
        have e6 := again e3 e6
        obtain ⟨m3, qt, e7, e8, e9⟩ := backward_from_buffer hE X.reverse (A := A ++ Y) (G := G) (B := B) e6.reach (by simpa using e6.elems)
          (by simp; omega) (i := k) (by simp; omega) (e6.rest.iters _ _ hp)
        exact ⟨qt, m3, by rw [bind_ok e1, bind_ok (fits_ok h3), bind_ok e4, e7], by simpa using e8, again e6 (by simpa using e9)⟩
      · rw [if_neg h2]
        obtain rfl : X = [] := List.length_eq_zero_iff.1 (by omega)
        exact ⟨kt, m, rfl, by rw [show A.length + Y.length = k by simpa using hk.symm]; exact hp, stay hr (by simpa using hc)⟩
    · rw [if_neg h3]
      exact rotate hE hr hc hi hj hk hn hm hp hW

theorem merge_resize {c : Nat} (hE : E.Good) (hw : StrictWeak comp) (h0 : 0 < c) : ∀ (n : Nat) {X Y A B : List α} {m : Mem α} {i j k : Nat}
    {it jt kt : Iter}, X.length + Y.length = n → Reach E m → Contents E o m (A ++ (X ++ (Y ++ B))) →
    i = A.length → j = A.length + X.length → k = A.length + X.length + Y.length → nth E o i m = .ok it m →
    nth E o j m = .ok jt m → nth E o k m = .ok kt m → SortedBy comp X → SortedBy comp Y →
    2 * (A ++ (X ++ (Y ++ B))).length < E.W →
    ∃ m', merge_adaptive_resize E comp c it jt kt X.length Y.length m = .ok () m' ∧
      Rewrote E o m m' (A ++ (X.merge Y (before comp) ++ B)) := by
  intro n
  induction n using Nat.strong_induction_on with
  | _ n ih =>
  intro X Y A B m i j k it jt kt hlen hr hc hi hj hk hn hm hp hX hY hW
  have hl : (A ++ (X ++ (Y ++ B))).length = A.length + (X.length + (Y.length + B.length)) := by simp
  rw [merge_adaptive_resize]
  by_cases hcap : X.length ≤ c ∨ Y.length ≤ c
  · rw [if_pos hcap]
    exact adaptive hE hw hr hc hi hj hk hn hm hp hX hY hcap
  rw [if_neg hcap]
  -- the rotation and the two merges
  have key : ∀ (X1 X2 Y1 Y2 : List α), X = X1 ++ X2 → Y = Y1 ++ Y2 → (∀ a ∈ X1, ∀ b ∈ Y2, before comp a b = true) →
      (∀ a ∈ X2, ∀ b ∈ Y1, before comp a b = false) → X1.length + Y1.length < n → X2.length + Y2.length < n →
      ∀ {ct dt : Iter}, nth E o (A.length + X1.length) m = .ok ct m → nth E o (A.length + X.length + Y1.length) m = .ok dt m →
      ∃ m', (do
        let new_middle ← rotate_adaptive E c ct jt dt X2.length Y1.length
        merge_adaptive_resize E comp c it ct new_middle X1.length Y1.length
        merge_adaptive_resize E comp c new_middle dt kt X2.length Y2.length : M α Unit) m = .ok () m' ∧
        Rewrote E o m m' (A ++ (X.merge Y (before comp) ++ B)) := by
    rintro X1 X2 Y1 Y2 rfl rfl h1 h2 l1 l2 ct dt hct hdt
    simp only [List.length_append] at hW hj hk
    have sX := sorted_iff.1 hX
    have sY := sorted_iff.1 hY
    rw [List.pairwise_append] at sX sY
    obtain ⟨qt, m1, e1, e2, e3⟩ := rotate_with (c := c) hE hr (A := A ++ X1) (X := X2) (Y := Y1) (B := Y2 ++ B) (by simpa using hc)
      (by simp) (by simp; omega) (by simp; omega) hct hm hdt (by simp; omega)
    have c1 : Contents E o m1 (A ++ (X1 ++ (Y1 ++ (X2 ++ (Y2 ++ B))))) := by simpa using e3.elems
    obtain ⟨m2, e4, e5⟩ := ih _ l1 (X := X1) (Y := Y1) rfl e3.reach c1 hi rfl rfl (e3.rest.iters _ _ hn)
      (e3.rest.iters _ _ hct) (by simpa [Nat.add_assoc] using e2) (sorted_iff.2 sX.1) (sorted_iff.2 sY.1) (by simp; omega)
    have ml : (X1.merge Y1 (before comp)).length = X1.length + Y1.length := List.length_merge ..
    have e6 := again e3 e5
    obtain ⟨m3, e7, e8⟩ := ih _ l2 (X := X2) (Y := Y2) (A := A ++ X1.merge Y1 (before comp)) (B := B)
      (i := A.length + (X1.length + Y1.length)) rfl e6.reach (by simpa using e6.elems)
      (by simp) rfl rfl (e5.rest.iters _ _ (by simpa [Nat.add_assoc] using e2))
      (e6.rest.iters _ _ (by
        rw [show (A ++ X1.merge Y1 (before comp)).length + X2.length = A.length + (X1 ++ X2).length + Y1.length by simp; omega]
        exact hdt))
      (e6.rest.iters _ _ (by
        rw [show (A ++ X1.merge Y1 (before comp)).length + X2.length + Y2.length = k by simp; omega]
        exact hp)) (sorted_iff.2 sX.2.1) (sorted_iff.2 sY.2.1) (by simp; omega)
    refine ⟨m3, by rw [bind_ok e1, bind_ok e4, e7], again e6 ?_⟩
    rw [merge_append h1 h2]
    simpa using e8
  have tr : ∀ a b c, before comp a b = true → before comp b c = true → before comp a c = true := hw.le_trans
  have sX := sorted_iff.1 hX
  have sY := sorted_iff.1 hY
  by_cases h3 : Y.length < X.length
  · rw [if_pos h3]
    obtain ⟨v, X2, hv⟩ : ∃ v X2, X.drop (X.length / 2) = v :: X2 := by
      rw [List.drop_eq_getElem_cons (by omega : X.length / 2 < X.length)]; exact ⟨_, _, rfl⟩
    have hsp : X = X.take (X.length / 2) ++ v :: X2 := by rw [← hv, List.take_append_drop]
    have l1 : (X.take (X.length / 2)).length = X.length / 2 := by rw [List.length_take]; omega
    have l2 : (v :: X2).length = X.length - X.length / 2 := by rw [← hv, List.length_drop]
    obtain ⟨Y1, Y2, rfl, g1, g2⟩ := split_sorted tr hw.le_total sY (p := fun y => comp y v) (fun a b hab hb => by
      by_contra h
      have := tr v a b (by simpa [before] using h) hab
      simp [before, hb] at this)
    rw [hsp, List.pairwise_append, List.pairwise_cons] at sX
    obtain ⟨ct, e1, e2⟩ := add hE hr hc (i := i) (d := X.length / 2) (by omega) hn
    have c1 : Contents E o m ((A ++ X.take (X.length / 2)) ++ v :: (X2 ++ ((Y1 ++ Y2) ++ B))) := by
      have := hc; rw [hsp] at this; simpa using this
    rw [bind_ok e1, bind_ok (deref hE hr c1 (by simp; omega) e2)]
    obtain ⟨dt, e3, e4⟩ := bound' hE hr (A := A ++ X) (X := Y1) (Y := Y2) (B := B) (q := fun y => comp y v) (by simpa using hc)
      (by simpa using hj) (by simp at hk ⊢; omega) hm hp g1 g2 (by simp at hl ⊢; simp at hW; omega)
    unfold std_lower_bound
    rw [bind_ok e3]
    have hd : (it_diff E dt jt).toNat = Y1.length := by
      rw [C20_diff hE hr hc (by simp at hl ⊢; omega) (by omega) e4 hm hW]; simp; omega
    have e4' : nth E o (A.length + X.length + Y1.length) m = .ok dt m := by simpa [Nat.add_assoc] using e4
    have := key _ _ Y1 Y2 hsp rfl (fun a ha b hb => tr a v b (sX.2.2 a ha v (by simp)) (by simp [before, g2 b hb]))
      (fun a ha b hb => by
        by_contra h
        have hva : before comp v a = true := by
          rcases List.mem_cons.1 ha with rfl | ha
          · simp [before, hw.irrefl]
          · exact sX.2.1.1 a ha
        have := tr v a b hva (by simpa using h)
        simp [before, g1 b hb] at this) (by rw [l1]; simp only [List.length_append] at hlen hcap h3; omega)
      (by rw [l2]; simp only [List.length_append] at hlen hcap h3; omega) (ct := ct) (dt := dt)
      (by rw [l1, ← hi]; exact e2) e4'
    rw [l1, l2] at this
    simpa [hd] using this
  · rw [if_neg h3]
    obtain ⟨v, Y2, hv⟩ : ∃ v Y2, Y.drop (Y.length / 2) = v :: Y2 := by
      rw [List.drop_eq_getElem_cons (by omega : Y.length / 2 < Y.length)]; exact ⟨_, _, rfl⟩
    have hsp : Y = Y.take (Y.length / 2) ++ v :: Y2 := by rw [← hv, List.take_append_drop]
    have l1 : (Y.take (Y.length / 2)).length = Y.length / 2 := by rw [List.length_take]; omega
    have l2 : (v :: Y2).length = Y.length - Y.length / 2 := by rw [← hv, List.length_drop]
    obtain ⟨X1, X2, rfl, g1, g2⟩ := split_sorted tr hw.le_total sX (p := fun x => !comp v x) (fun a b hab hb => tr a b v hab hb)
    rw [hsp, List.pairwise_append, List.pairwise_cons] at sY
    obtain ⟨dt, e1, e2⟩ := add hE hr hc (i := j) (d := Y.length / 2) (by omega) hm
    have c1 : Contents E o m ((A ++ ((X1 ++ X2) ++ Y.take (Y.length / 2))) ++ v :: (Y2 ++ B)) := by
      have := hc; rw [hsp] at this; simpa using this
    rw [bind_ok e1, bind_ok (deref hE hr c1 (by simp at hj ⊢; omega) e2)]
    obtain ⟨ct, e3, e4⟩ := bound' hE hr (A := A) (X := X1) (Y := X2) (B := Y ++ B) (q := fun x => !comp v x) (by simpa using hc)
      hi (by simp at hj ⊢; omega) hn hm g1 g2 (by simp at hl ⊢; simp at hW; omega)
    unfold std_upper_bound
    rw [bind_ok e3]
    have hd : (it_diff E ct it).toNat = X1.length := by
      rw [C20_diff hE hr hc (by simp only [List.length_append]; omega) (by simp only [List.length_append] at hi ⊢; omega) e4 hn hW]; omega
    have := key X1 X2 _ _ rfl hsp (fun a ha b hb => by
        have h1 : before comp a v = true := by simpa [before] using g1 a ha
        rcases List.mem_cons.1 hb with rfl | hb
        · exact h1
        · exact tr a v b h1 (sY.2.1.1 b hb))
      (fun a ha b hb => by
        by_contra h
        have := tr a b v (by simpa using h) (sY.2.2 b hb v (by simp))
        simp [before] at this
        have h5 := g2 a ha
        simp [this] at h5) (by rw [l1]; simp only [List.length_append] at hlen hcap h3; omega)
      (by rw [l2]; simp only [List.length_append] at hlen hcap h3; omega) (ct := ct) (dt := dt)
      e4 (by rw [l1, ← hj]; exact e2)
    rw [l1, l2] at this
    simpa [hd] using this

theorem sort_resize {c : Nat} (hE : E.Good) (hw : StrictWeak comp) (h0 : 0 < c) : ∀ (n : Nat) {X A B : List α} {m : Mem α} {i j : Nat}
    {it jt : Iter}, X.length = n → Reach E m → Contents E o m (A ++ (X ++ B)) → i = A.length → j = A.length + X.length →
    nth E o i m = .ok it m → nth E o j m = .ok jt m → 2 * (A ++ (X ++ B)).length < E.W →
    ∃ m', stable_sort_adaptive_resize E comp c it jt m = .ok () m' ∧ Rewrote E o m m' (A ++ (X.mergeSort (before comp) ++ B)) := by
  intro n
  induction n using Nat.strong_induction_on with
  | _ n ih =>
  intro X A B m i j it jt hX hr hc hi hj hn hm hW
  have hl : (A ++ (X ++ B)).length = A.length + (X.length + B.length) := by simp
  have hd : it_diff E jt it = (X.length : Int) := by
    rw [C20_diff hE hr hc (by omega) (by omega) hm hn hW]; omega
  rw [stable_sort_adaptive_resize, hd]
  obtain ⟨kt, e1, e2⟩ := add hE hr hc (i := i) (d := (X.length + 1) / 2) (by omega) hn
  rw [show ((X.length : Int) + 1) / 2 = (((X.length + 1) / 2 : Nat) : Int) by omega, bind_ok e1]
  obtain ⟨X1, X2, rfl, l1⟩ : ∃ X1 X2, X = X1 ++ X2 ∧ X1.length = (X.length + 1) / 2 :=
    ⟨_, _, (List.take_append_drop ((X.length + 1) / 2) X).symm, by rw [List.length_take]; omega⟩
  rw [← l1] at e2 ⊢
  simp only [List.length_append] at hl hj l1 hX hW
  by_cases h : (X1.length : Int) > (c : Int)
  · rw [if_pos h]
    obtain ⟨m1, e3, e4⟩ := ih _ (by omega) (X := X1) (A := A) (B := X2 ++ B) rfl hr (by simpa using hc) hi rfl hn
      (by rw [← hi]; exact e2) (by simp only [List.length_append]; omega)
    have s1 : (X1.mergeSort (before comp)).length = X1.length := List.length_mergeSort _
    have s2 : (X2.mergeSort (before comp)).length = X2.length := List.length_mergeSort _
    obtain ⟨m2, e5, e6⟩ := ih _ (by omega) (X := X2) (A := A ++ X1.mergeSort (before comp)) (B := B) rfl e4.reach
      (by simpa using e4.elems) (i := i + X1.length) (j := j) (by rw [List.length_append]; omega)
      (by rw [List.length_append]; omega) (e4.rest.iters _ _ e2) (e4.rest.iters _ _ hm)
      (by simp only [List.length_append]; omega)
    have e6 := again e4 e6
    have c6 : Contents E o m2 (A ++ (X1.mergeSort (before comp) ++ (X2.mergeSort (before comp) ++ B))) := by simpa using e6.elems
    have hW6 : 2 * (A ++ (X1.mergeSort (before comp) ++ (X2.mergeSort (before comp) ++ B))).length < E.W := by
      simp only [List.length_append]; omega
    have l6 : (A ++ (X1.mergeSort (before comp) ++ (X2.mergeSort (before comp) ++ B))).length =
        A.length + (X1.length + (X2.length + B.length)) := by simp only [List.length_append]; omega
    have d1 : (it_diff E kt it).toNat = (X1.mergeSort (before comp)).length := by
      rw [C20_diff hE e6.reach c6 (by omega) (by omega) (e6.rest.iters _ _ e2) (e6.rest.iters _ _ hn) hW6]; omega
    have d2 : (it_diff E jt kt).toNat = (X2.mergeSort (before comp)).length := by
      rw [C20_diff hE e6.reach c6 (by omega) (by omega) (e6.rest.iters _ _ hm) (e6.rest.iters _ _ e2) hW6]; omega
    obtain ⟨m3, e7, e8⟩ := merge_resize hE hw h0 _ rfl e6.reach c6 hi (j := i + X1.length) (k := j) (by omega) (by omega)
      (e6.rest.iters _ _ hn) (e6.rest.iters _ _ e2) (e6.rest.iters _ _ hm)
      (sorted_iff.2 (List.pairwise_mergeSort hw.le_trans hw.le_total X1))
      (sorted_iff.2 (List.pairwise_mergeSort hw.le_trans hw.le_total X2)) hW6
    refine ⟨m3, by rw [bind_ok e3, bind_ok e5, d1, d2, e7], again e6 ?_⟩
    rw [mergeSort_append hw.le_trans hw.le_total]
    exact e8
  · rw [if_neg h]
    exact adaptive_sort hE hw hr (X := X1) (Y := X2) (by simpa using hc) hi (j := i + X1.length) (by omega) (k := j) (by omega)
      hn e2 hm (by simp only [List.length_append]; omega) (by omega) (by omega)

/-! ### Whatever buffer there is -/

theorem buffered {got : Nat → Nat} (hg : ∀ n, got n ≤ n) (hE : E.Good) (hw : StrictWeak comp) (hr : Reach E m)
    (hc : Contents E o m (A ++ (X ++ B))) (hi : i = A.length)
    (hj : j = A.length + X.length) (hn : nth E o i m = .ok it m) (hm : nth E o j m = .ok jt m)
    (hW : 2 * (A ++ (X ++ B)).length < E.W) :
    ∃ m', buffered_stable_sort E comp got it jt m = .ok () m' ∧ Rewrote E o m m' (A ++ (X.mergeSort (before comp) ++ B)) := by
  have hL : (A ++ (X ++ B)).length = A.length + (X.length + B.length) := by simp
  unfold buffered_stable_sort
  rw [nth_pos hE hr hc (by omega) hn, nth_pos hE hr hc (by omega) hm]
  by_cases h : i = j
  · rw [if_pos h]
    obtain rfl : X = [] := List.length_eq_zero_iff.1 (by omega)
    exact ⟨m, rfl, stay hr (by simpa using hc)⟩
  · rw [if_neg h, C20_diff hE hr hc (by omega) (by omega) hm hn (by omega),
      show (((j : Int) - (i : Int) + 1) / 2).toNat = (X.length + 1) / 2 by omega]
    have hh := hg ((X.length + 1) / 2)
    generalize got ((X.length + 1) / 2) = c at *
    obtain ⟨m1, e1, e2⟩ := seeded hE hr hc hi hn (n := c) (by omega)
    have key : ∀ {y : M α Unit}, (∃ m', y m1 = .ok () m' ∧ Rewrote E o m1 m' (A ++ (X.mergeSort (before comp) ++ B))) →
        ∃ m', (do tmp_buffer E it c; y : M α Unit) m = .ok () m' ∧ Rewrote E o m m' (A ++ (X.mergeSort (before comp) ++ B)) := by
      rintro y ⟨m', h1, h2⟩
      exact ⟨m', by rw [bind_ok e1, h1], again e2 h2⟩
    refine key ?_
    by_cases h1 : (X.length + 1) / 2 = c
    · rw [if_pos h1]
      obtain ⟨kt, e3, e4⟩ := add hE e2.reach e2.elems (i := i) (d := c) (by omega) (e2.rest.iters _ _ hn)
      obtain ⟨X1, X2, rfl, l1⟩ : ∃ X1 X2, X = X1 ++ X2 ∧ X1.length = c :=
        ⟨_, _, (List.take_append_drop c X).symm, by rw [List.length_take]; omega⟩
      simp only [List.length_append] at hj hL hW h1
      rw [bind_ok e3]
      exact adaptive_sort hE hw e2.reach (X := X1) (Y := X2) (by simpa using e2.elems) hi (j := i + c) (by omega) (k := j) (by omega)
        (e2.rest.iters _ _ hn) e4 (e2.rest.iters _ _ hm) (by simp only [List.length_append]; omega) (by omega) (by omega)
    · rw [if_neg h1]
      by_cases h2 : c = 0
      · rw [if_pos h2]
        exact stable hE hw _ rfl e2.reach e2.elems hi hj (e2.rest.iters _ _ hn) (e2.rest.iters _ _ hm) hW
      · rw [if_neg h2]
        exact sort_resize hE hw (by omega) _ rfl e2.reach e2.elems hi hj (e2.rest.iters _ _ hn) (e2.rest.iters _ _ hm) hW

theorem merged {got : Nat → Nat} (hg : ∀ n, got n ≤ n) (hE : E.Good) (hw : StrictWeak comp) (hr : Reach E m)
    (hc : Contents E o m (A ++ (X ++ (Y ++ B)))) (hi : i = A.length)
    (hj : j = A.length + X.length) (hk : k = A.length + X.length + Y.length) (hn : nth E o i m = .ok it m)
    (hm : nth E o j m = .ok jt m) (hp : nth E o k m = .ok kt m) (hX : SortedBy comp X) (hY : SortedBy comp Y)
    (hW : 2 * (A ++ (X ++ (Y ++ B))).length < E.W) :
    ∃ m', buffered_merge E comp got it jt kt m = .ok () m' ∧
      Rewrote E o m m' (A ++ (X.merge Y (before comp) ++ B)) := by
  have hL : (A ++ (X ++ (Y ++ B))).length = A.length + (X.length + (Y.length + B.length)) := by simp
  unfold buffered_merge
  rw [nth_pos hE hr hc (by omega) hn, nth_pos hE hr hc (by omega) hm, nth_pos hE hr hc (by omega) hp]
  by_cases h : i = j ∨ j = k
  · rw [if_pos h]
    refine ⟨m, rfl, stay hr ?_⟩
    rcases h with h | h
    · obtain rfl : X = [] := List.length_eq_zero_iff.1 (by omega)
      rw [merge_nil_left]; exact hc
    · obtain rfl : Y = [] := List.length_eq_zero_iff.1 (by omega)
      rw [List.merge_right]; exact hc
  · rw [if_neg h, C20_diff hE hr hc (by omega) (by omega) hm hn (by omega), C20_diff hE hr hc (by omega) (by omega) hp hm (by omega),
      show ((j : Int) - (i : Int)).toNat = X.length by omega, show ((k : Int) - (j : Int)).toNat = Y.length by omega]
    have hh := hg (min X.length Y.length)
    generalize got (min X.length Y.length) = c at *
    obtain ⟨m1, e1, e2⟩ := seeded hE hr hc hi hn (n := c) (by omega)
    have key : ∀ {y : M α Unit}, (∃ m', y m1 = .ok () m' ∧ Rewrote E o m1 m' (A ++ (X.merge Y (before comp) ++ B))) →
        ∃ m', (do tmp_buffer E it c; y : M α Unit) m = .ok () m' ∧ Rewrote E o m m' (A ++ (X.merge Y (before comp) ++ B)) := by
      rintro y ⟨m', h1, h2⟩
      exact ⟨m', by rw [bind_ok e1, h1], again e2 h2⟩
    refine key ?_
    by_cases h1 : c = min X.length Y.length
    · rw [if_pos h1]
      exact adaptive hE hw e2.reach e2.elems hi hj hk (e2.rest.iters _ _ hn) (e2.rest.iters _ _ hm) (e2.rest.iters _ _ hp) hX hY (by omega)
    · rw [if_neg h1]
      by_cases h2 : c = 0
      · rw [if_pos h2]
        exact merge_buf hE hw _ rfl e2.reach e2.elems hi hj hk (e2.rest.iters _ _ hn) (e2.rest.iters _ _ hm) (e2.rest.iters _ _ hp) hX hY hW
      · rw [if_neg h2]
        exact merge_resize hE hw (by omega) _ rfl e2.reach e2.elems hi hj hk (e2.rest.iters _ _ hn) (e2.rest.iters _ _ hm)
          (e2.rest.iters _ _ hp) hX hY hW

end SegTree.Sorting

namespace SegTree
variable {α : Type} {E : Env α} {comp : α → α → Bool} {m m' m1 m2 : Mem α} {o i j k n p q : Nat}
  {xs ys : List α} {it jt kt : Iter} {got : Nat → Nat}

/-! ### Theorems.  `got n` is the number of objects that `std::get_temporary_buffer(n)` finds
room for. -/

section
variable (hE : E.Good) (hr : Reach E m) (hc : Contents E o m xs)
include hE hr hc

/-- C94: `std::stable_sort(nth(i), nth(j), comp)`, whatever buffer it gets, returns without
undefined behaviour; the range is then a sorted permutation of what it held that is
stable, and nothing else is different. -/
theorem C94_stable_sort (hg : ∀ n, got n ≤ n) (hw : StrictWeak comp) (hij : i ≤ j) (hj : j ≤ xs.length) (hn : nth E o i m = .ok it m)
    (hm : nth E o j m = .ok jt m) (hW : 2 * xs.length < E.W) :
    ∃ m' zs, buffered_stable_sort E comp got it jt m = .ok () m' ∧ Rewrote E o m m' (xs.take i ++ zs ++ xs.drop j) ∧
      zs.Perm (slice xs i j) ∧ SortedBy comp zs ∧ ∀ ws, SortedBy comp ws → ws.Sublist (slice xs i j) → ws.Sublist zs := by
  obtain ⟨h1, h2, h3⟩ := Sorting.cut hE hr hc hij hj
  have hc' := hc
  rw [h1] at hc'
  obtain ⟨m', e1, e2⟩ := Sorting.buffered hg hE hw hr hc' h2.symm (by omega) hn hm (by rw [← h1]; exact hW)
  exact ⟨m', _, e1, by simpa using e2, List.mergeSort_perm _ _,
    Sorting.sorted_iff.2 (List.pairwise_mergeSort hw.le_trans hw.le_total _),
    fun ws h4 h5 => List.sublist_mergeSort hw.le_trans hw.le_total (Sorting.sorted_iff.1 h4) h5⟩

/-- C94: `std::inplace_merge` of two sorted neighbouring ranges, whatever buffer it gets:
they then hold, together, the stable merge of the two, sorted, and nothing else is
different. -/
theorem C94_inplace_merge (hg : ∀ n, got n ≤ n) (hw : StrictWeak comp) (hij : i ≤ j) (hjk : j ≤ k) (hk : k ≤ xs.length)
    (hn : nth E o i m = .ok it m) (hm : nth E o j m = .ok jt m) (hp : nth E o k m = .ok kt m)
    (h1 : SortedBy comp (slice xs i j)) (h2 : SortedBy comp (slice xs j k)) (hW : 2 * xs.length < E.W) :
    ∃ m' zs, buffered_merge E comp got it jt kt m = .ok () m' ∧ Rewrote E o m m' (xs.take i ++ zs ++ xs.drop k) ∧
      zs = (slice xs i j).merge (slice xs j k) (fun a b => !comp b a) ∧ SortedBy comp zs ∧
      zs.Perm (slice xs i j ++ slice xs j k) ∧ (slice xs i j).Sublist zs ∧ (slice xs j k).Sublist zs := by
  obtain ⟨g1, g2, g3⟩ := Sorting.cut hE hr hc (Nat.le_trans hij hjk) hk
  have g4 := (Sorting.cut hE hr hc hij (by omega)).2.2
  have g5 := (Sorting.cut hE hr hc hjk hk).2.2
  rw [Sorting.slice_append hij hjk hk, List.append_assoc] at g1
  have hc' := hc
  rw [g1] at hc'
  obtain ⟨m', e1, e2⟩ := Sorting.merged hg hE hw hr hc' g2.symm (by omega) (by omega) hn hm hp h1 h2 (by rw [← g1]; exact hW)
  exact ⟨m', _, e1, by simpa using e2, rfl, Sorting.merge_sorted hw h1 h2, List.merge_perm_append _,
    (sublist_merge _ _).1, (sublist_merge _ _).2⟩

/-- C94: `sort(comp)` with the library's stable sort and whatever buffer it gets returns, and
leaves the container with the sequence that `sort(comp)` by the contract of
`std::stable_sort` leaves, every iterator, the height, the allocator, all other
containers and all memory as they were. -/
theorem C94_sort (hg : ∀ n, got n ≤ n) (hw : StrictWeak comp) (hW : 2 * xs.length < E.W) :
    ∃ m1 m2 zs, sort E o comp m = .ok () m1 ∧ sort_buffered E comp got o m = .ok () m2 ∧ Contents E o m1 zs ∧ Rewrote E o m m2 zs ∧
      zs.Perm xs ∧ SortedBy comp zs ∧ ∀ ws, SortedBy comp ws → ws.Sublist xs → ws.Sublist zs := by
  obtain ⟨b, e, b1, b2, e1, e2⟩ := hr.ends hE hc
  obtain ⟨m2, h1, h2⟩ := Sorting.buffered hg hE hw hr (A := []) (X := xs) (B := []) (by simpa using hc) rfl (by simp) b2 e2
    (by simpa using hW)
  obtain ⟨al, s, F, hs, rfl, H⟩ := hr.cont hE hc
  obtain ⟨m1, s', h3, hrw, H'⟩ := sort_c (comp := comp) hs H
  refine ⟨m1, m2, _, h3, ?_, hrw.elems ▸ cont_contents hrw.ok H', by simpa using h2, List.mergeSort_perm _ _,
    Sorting.sorted_iff.2 (List.pairwise_mergeSort hw.le_trans hw.le_total _),
    fun ws h4 h5 => List.sublist_mergeSort hw.le_trans hw.le_total (Sorting.sorted_iff.1 h4) h5⟩
  unfold sort_buffered
  rw [bind_ok b1, bind_ok e1, h1]

/-- C94: `merge(other, comp)` of sorted containers with the library's merge and whatever
buffer it gets: it throws exactly when the one by contract throws, leaving the same
memory, and returns when that returns, leaving the same two sequences. -/
theorem C94_merge (hg : ∀ n, got n ≤ n) (hd : Contents E p m ys) (hne : o ≠ p) (hw : StrictWeak comp) (hsz : xs.length + ys.length ≤ max_size E)
    (hW : 2 * (xs.length + ys.length) < E.W) (h1 : SortedBy comp xs) (h2 : SortedBy comp ys) :
    (∃ m1 m2 zs, merge E o p comp m = .ok () m1 ∧ merge_buffered E comp got o p m = .ok () m2 ∧ Reach E m2 ∧
      Contents E o m1 zs ∧ Contents E o m2 zs ∧ Contents E p m1 [] ∧ Contents E p m2 [] ∧
      zs = xs.merge ys (fun a b => !comp b a) ∧ SortedBy comp zs) ∨
    (∃ m', merge E o p comp m = .throw .alloc m' ∧ merge_buffered E comp got o p m = .throw .alloc m' ∧ Reach E m') := by
  obtain ⟨-, e, -, -, e1, e2⟩ := hr.ends hE hc
  obtain ⟨f, l, f1, f2, l1, l2⟩ := hr.ends hE hd
  obtain ⟨S, al, hv, ho, -⟩ := hr.view hE hc
  obtain ⟨al2, hp⟩ : ∃ al2, S p = some ⟨al2, ys⟩ := by
    have := hv p
    cases hS : S p with
    | none => rw [hS] at this; exact absurd this (size_some hd.1)
    | some x =>
      rw [hS] at this
      exact ⟨x.alloc, by rw [hd.unique this.2]⟩
  have hop : (Op.bin o p (.spliceRange xs.length 0 ys.length)).run E m =
      (do splice_range E o e p f l; return .unit : M α (Ret α)) m := by
    have : (do let it ← nth E o xs.length; let first ← nth E p 0; let last ← nth E p ys.length
               splice_range E o it p first last : M α Unit) m = splice_range E o e p f l m := by
      rw [bind_ok e2, bind_ok f2, bind_ok l2]
    show M.bind _ _ _ = M.bind _ _ _
    unfold M.bind
    rw [this]
  have hpre : (Op.bin o p (.spliceRange xs.length 0 ys.length)).Pre E S :=
    ⟨hne, _, _, ho, hp, Nat.le_refl _, Nat.zero_le _, Nat.le_refl _, by rw [Nat.sub_zero]; exact hsz⟩
  have start1 : merge E o p comp m = (do
      splice_range E o e p f l
      let b ← begin_ E o
      let mid ← nth E o xs.length
      let e ← end_ E o
      std_inplace_merge E comp b mid e : M α Unit) m := by
    unfold merge
    rw [bind_ok (x := getSize o) hc.1, bind_ok e1, bind_ok f1, bind_ok l1]
  have start2 : merge_buffered E comp got o p m = (do
      splice_range E o e p f l
      let b ← begin_ E o
      let mid ← nth E o xs.length
      let e ← end_ E o
      buffered_merge E comp got b mid e : M α Unit) m := by
    unfold merge_buffered
    rw [bind_ok (x := getSize o) hc.1, bind_ok e1, bind_ok f1, bind_ok l1]
  rw [start1, start2]
  rcases C04_progress hE hr hv hpre with ⟨r, m1, S', k1, k2, k3⟩ | ⟨x, m1, S', k1, k2, k3⟩
  · left
    have hr1 : Reach E m1 := .ret hr hv hpre k1
    rw [hop] at k1
    obtain ⟨u, m2, k4, k5⟩ := bind_inv k1
    cases k5
    obtain ⟨c1, c2⟩ := C35_splice_range hE hr hc hd hne (Nat.le_refl _) e2 (Nat.zero_le _) (Nat.le_refl _) f2 l2
      (by rw [Nat.sub_zero]; exact hsz) k4
    have c1 : Contents E o m1 (xs ++ ys) := by simpa [slice] using c1
    have c2 : Contents E p m1 [] := by simpa using c2
    obtain ⟨b, en, b1, b2, n1, n2⟩ := hr1.ends hE c1
    obtain ⟨mid, d1⟩ := hr1.nth hE c1 xs.length
    have sl1 : slice (xs ++ ys) 0 xs.length = xs := by simp [slice]
    have sl2 : slice (xs ++ ys) xs.length (xs ++ ys).length = ys := by unfold slice; rw [List.take_length, List.drop_left]
    obtain ⟨m3, zs, q1, q2, q3, q4, -⟩ := C94_inplace_merge hE hr1 c1 hg hw (i := 0) (j := xs.length) (k := (xs ++ ys).length)
      (Nat.zero_le _) (by simp) (Nat.le_refl _) b2 d1 n2 (by rw [sl1]; exact h1) (by rw [sl2]; exact h2)
      (by simpa using hW)
    obtain ⟨al', s, F, hs, hx, H⟩ := hr1.cont hE c1
    obtain ⟨m4, s', q5, q6, H'⟩ := std_inplace_merge_c (comp := comp) hs (at_of_nth hs H (Nat.zero_le _) b2)
      (at_of_nth hs H (by rw [hx]; simp) d1) (at_of_nth hs H (Nat.le_refl _) (by rw [hx]; exact n2)) H
    have q7 : zs = xs.merge ys (fun a b => !comp b a) := by rw [q3, sl1, sl2]
    have c4 : Contents E o m4 zs := by
      rw [q7]
      have := cont_contents q6.ok H'
      rw [q6.elems, hx] at this
      simpa using this
    have c5 : Contents E p m4 [] := by
      have r1 : merge E o p comp m = .ok () m4 := by
        rw [start1, bind_ok k4, bind_ok b1, bind_ok d1, bind_ok n1, q5]
      obtain ⟨-, -, z1, -⟩ := C36_merge hE hr hc hd hne hsz r1
      exact z1
    refine ⟨m4, m3, zs, ?_, ?_, q2.reach, c4, by simpa using q2.elems, c5,
      (q2.rest.others p [] (Ne.symm hne) c2).contents c2, q7, q4⟩
    · rw [bind_ok k4, bind_ok b1, bind_ok d1, bind_ok n1, q5]
    · rw [bind_ok k4, bind_ok b1, bind_ok d1, bind_ok n1, q1]
  · right
    have hr1 : Reach E m1 := .exc hr hv hpre k1
    obtain ⟨x, y, x', y', g1, g2, ⟨rfl, -⟩, -⟩ := k2
    rw [hop] at k1
    have k4 : splice_range E o e p f l m = .throw .alloc m1 := by
      rcases h : splice_range E o e p f l m with ⟨_, m2⟩ | ⟨e2, m2⟩ | _ | _
      · rw [bind_ok h] at k1; cases k1
      · rw [bind_throw h] at k1; cases k1; rfl
      · have : (do splice_range E o e p f l; return .unit : M α (Ret α)) m = M.bind _ _ m := rfl
        rw [this] at k1; unfold M.bind at k1; rw [h] at k1; cases k1
      · have : (do splice_range E o e p f l; return .unit : M α (Ret α)) m = M.bind _ _ m := rfl
        rw [this] at k1; unfold M.bind at k1; rw [h] at k1; cases k1
    exact ⟨m1, bind_throw k4, bind_throw k4, hr1⟩

end

/-! The hypotheses are met: twenty elements by tens, and a buffer that is too small. -/

example : ∃ m : Mem Nat, Reach demo m ∧ Contents demo 0 m Sorting.twenty ∧ 2 * Sorting.twenty.length < demo.W ∧
    ∃ m2, sort_buffered demo Sorting.tens (fun n => n / 4) 0 m = .ok () m2 ∧
      ∃ zs, Contents demo 0 m2 zs ∧ [37, 34, 33].Sublist zs ∧ SortedBy Sorting.tens zs := by
  obtain ⟨m, h1, h2⟩ := demo_list Sorting.twenty
  obtain ⟨m1, m2, zs, -, h3, -, h4, -, h5, h6⟩ :=
    C94_sort (got := fun n => n / 4) demo_good h1 h2 (fun n => Nat.div_le_self n 4) Sorting.tens_weak (by decide)
  exact ⟨m, h1, h2, by decide, m2, h3, zs, h4.elems, h6 _ (by unfold SortedBy; decide) (by decide), h5⟩

-- two sorted containers, with the whole buffer
example : ∃ m : Mem Nat, Reach demo m ∧ Contents demo 0 m [9, 12, 11, 30, 75] ∧ Contents demo 1 m [1, 8, 15, 79] ∧
    SortedBy Sorting.tens [9, 12, 11, 30, 75] ∧ SortedBy Sorting.tens [1, 8, 15, 79] ∧ 2 * (5 + 4) < demo.W ∧
    ∃ m2, merge_buffered demo Sorting.tens id 0 1 m = .ok () m2 ∧
      Contents demo 0 m2 [9, 1, 8, 12, 11, 15, 30, 75, 79] := by
  obtain ⟨m, h1, -, h2, h3, -⟩ := demo_lists [9, 12, 11, 30, 75] [1, 8, 15, 79] 0 0
  have s1 : SortedBy Sorting.tens [9, 12, 11, 30, 75] := by unfold SortedBy; decide
  have s2 : SortedBy Sorting.tens [1, 8, 15, 79] := by unfold SortedBy; decide
  refine ⟨m, h1, h2, h3, s1, s2, by decide, ?_⟩
  rcases C94_merge (got := id) demo_good h1 h2 (fun n => Nat.le_refl n) h3 (by decide) Sorting.tens_weak (by decide) (by decide) s1 s2 with
    ⟨m1, m2, zs, -, h4, -, -, h5, -, -, rfl, -⟩ | ⟨m', h4, -, -⟩
  · exact ⟨m2, h4, by simpa [List.merge, Sorting.tens] using h5⟩
  · exact absurd (bind_throw h4 : (Op.bin 0 1 (.merge Sorting.tens)).run demo m = .throw .alloc m') (h1.no_alloc demo_endless (.bin 0 1 (.merge Sorting.tens)))

end SegTree
