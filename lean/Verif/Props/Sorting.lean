/-
  C93: sorting and merging in place.  `sort` and `merge` call `std::stable_sort` and
  `std::inplace_merge`; here the code these run when no buffer can be had
  (Model/Sorting.lean) is shown to do on a container's iterators what the contract
  says, and with it `std::rotate`, `std::lower_bound`, `std::upper_bound` and
  `std::reverse` on any range of any container.
-/
import Verif.Model.Sorting
import Verif.Props.Harmless
import Mathlib.Data.List.Sort
import Mathlib.Data.List.Rotate
set_option autoImplicit false

namespace SegTree.Sorting
variable {α : Type} {le : α → α → Bool}

/-! ### Lists -/

theorem merge_nil_left (ys : List α) : [].merge ys le = ys := by cases ys <;> simp

/-- two merges one after the other -/
theorem merge_append {x1 x2 y1 y2 : List α} (h1 : ∀ a ∈ x1, ∀ b ∈ y2, le a b = true)
    (h2 : ∀ a ∈ x2, ∀ b ∈ y1, le a b = false) :
    (x1 ++ x2).merge (y1 ++ y2) le = x1.merge y1 le ++ x2.merge y2 le := by
  induction x1 generalizing y1 with
  | nil =>
    rw [merge_nil_left, List.nil_append]
    induction y1 with
    | nil => rfl
    | cons b y1 ih =>
      have ih := ih (fun a ha c hc => h2 a ha c (List.mem_cons_of_mem _ hc))
      cases x2 with
      | nil => simp [merge_nil_left]
      | cons a x2 =>
        have := h2 a (by simp) b (by simp)
        rw [List.cons_append, List.cons_merge_cons_neg _ _ _ (by simp [this]), ih, List.cons_append]
  | cons a x1 ih =>
    induction y1 with
    | nil =>
      have ih := ih (y1 := []) (fun a ha c hc => h1 a (List.mem_cons_of_mem _ ha) c hc) (by simp)
      simp only [List.nil_append, List.merge_right] at ih ⊢
      cases y2 with
      | nil => simp
      | cons b y2 =>
        have := h1 a (by simp) b (by simp)
        rw [List.cons_append, List.cons_merge_cons_pos _ _ _ this, ih, List.cons_append]
    | cons b y1 ihy =>
      simp only [List.cons_append]
      by_cases h : le a b = true
      · rw [List.cons_merge_cons_pos _ _ _ h, List.cons_merge_cons_pos _ _ _ h, List.cons_append]
        have := ih (y1 := b :: y1) (fun a ha c hc => h1 a (List.mem_cons_of_mem _ ha) c hc) h2
        rw [List.cons_append] at this
        rw [this]
      · rw [List.cons_merge_cons_neg _ _ _ h, List.cons_merge_cons_neg _ _ _ h, List.cons_append]
        have := ihy (fun a ha c hc => h2 a ha c (List.mem_cons_of_mem _ hc))
        rw [List.cons_append] at this
        rw [this]

/-- one element into a sequence -/
theorem merge_one {x1 x2 : List α} {v : α} (h1 : ∀ a ∈ x1, le a v = true) (h2 : ∀ a ∈ x2, le a v = false) :
    (x1 ++ x2).merge [v] le = x1 ++ v :: x2 := by
  have e1 := merge_append (le := le) (x1 := x1) (x2 := x2) (y1 := [v]) (y2 := []) (by simp) (by simpa using h2)
  have e2 := merge_append (le := le) (x1 := x1) (x2 := []) (y1 := []) (y2 := [v]) (by simpa using h1) (by simp)
  simp only [List.append_nil, List.nil_append, List.merge_right, merge_nil_left] at e1 e2
  rw [e1, e2]; simp

/-- a place where a property ends is the only one -/
theorem split_unique {p : α → Bool} : ∀ {a b c d : List α}, a ++ b = c ++ d → (∀ x ∈ a, p x = true) → (∀ x ∈ b, p x = false) →
    (∀ x ∈ c, p x = true) → (∀ x ∈ d, p x = false) → a = c ∧ b = d
  | [], b, [], d, h, _, _, _, _ => ⟨rfl, h⟩
  | [], b, x :: c, d, h, _, h2, h3, _ => by
    subst h; have := h2 x (by simp); have := h3 x (by simp); simp_all
  | x :: a, b, [], d, h, h1, _, _, h4 => by
    rw [List.nil_append] at h; subst h; have := h1 x (by simp); have := h4 x (by simp); simp_all
  | x :: a, b, y :: c, d, h, h1, h2, h3, h4 => by
    simp only [List.cons_append, List.cons.injEq] at h
    obtain ⟨rfl, h⟩ := h
    obtain ⟨rfl, rfl⟩ := split_unique h (fun z hz => h1 z (by simp [hz])) h2 (fun z hz => h3 z (by simp [hz])) h4
    exact ⟨rfl, rfl⟩

variable (ht : ∀ a b c : α, le a b = true → le b c = true → le a c = true) (hl : ∀ a b : α, (le a b || le b a) = true)
include ht hl

theorem split_sorted {l : List α} (hs : l.Pairwise (fun a b => le a b = true)) {p : α → Bool}
    (hp : ∀ a b, le a b = true → p b = true → p a = true) :
    ∃ a b, l = a ++ b ∧ (∀ x ∈ a, p x = true) ∧ (∀ x ∈ b, p x = false) := by
  induction l with
  | nil => exact ⟨[], [], rfl, by simp, by simp⟩
  | cons x l ih =>
    obtain ⟨a, b, rfl, h1, h2⟩ := ih hs.of_cons
    rw [List.pairwise_cons] at hs
    by_cases h : p x = true
    · exact ⟨x :: a, b, rfl, by simpa [h] using h1, h2⟩
    · refine ⟨[], x :: (a ++ b), rfl, by simp, fun y hy => ?_⟩
      rcases List.mem_cons.1 hy with rfl | hy
      · simpa using h
      · have := hs.1 y hy
        by_contra hc
        exact h (hp x y this (by simpa using hc))

/-- sorting both parts and merging sorts the whole -/
theorem mergeSort_append (xs ys : List α) : (xs ++ ys).mergeSort le = (xs.mergeSort le).merge (ys.mergeSort le) le := by
  induction xs with
  | nil => simp [merge_nil_left]
  | cons a xs ih =>
    obtain ⟨l1, l2, e1, e2, e3⟩ := List.mergeSort_cons (le := le) (ht) (hl) a xs
    obtain ⟨k1, k2, f1, f2, f3⟩ := List.mergeSort_cons (le := le) (ht) (hl) a (xs ++ ys)
    have tl : ∀ {b c : α}, le b c = false → le c b = true := fun {b c} h => by have := hl b c; simpa [h] using this
    have hl2 : ∀ b ∈ l2, le a b = true := by
      have := List.pairwise_mergeSort (le := le) ht hl (a :: xs)
      rw [e1, List.pairwise_append] at this
      exact (List.pairwise_cons.1 this.2.1).1
    have hk2 : ∀ b ∈ k2, le a b = true := by
      have := List.pairwise_mergeSort (le := le) ht hl (a :: (xs ++ ys))
      rw [f1, List.pairwise_append] at this
      exact (List.pairwise_cons.1 this.2.1).1
    obtain ⟨s1, s2, g1, g2, g3⟩ := split_sorted ht hl (List.pairwise_mergeSort (le := le) ht hl ys) (p := fun b => !le a b)
      (fun b c hbc hc => by
        simp only [Bool.not_eq_true'] at hc ⊢
        by_contra hb
        have := ht a b c (by simpa using hb) hbc
        simp [this] at hc)
    simp only [Bool.not_eq_true', Bool.not_eq_false'] at g2 g3 e3 f3
    have c1 : ∀ x ∈ l1, ∀ b ∈ s2, le x b = true := fun x hx b hb => ht x a b (tl (e3 x hx)) (g3 b hb)
    have c2 : ∀ x ∈ l2, ∀ b ∈ s1, le x b = false := fun x hx b hb => by
      by_contra h
      have := ht a x b (hl2 x hx) (by simpa using h)
      simp [g2 b hb] at this
    have c3 : ∀ x ∈ a :: l2, ∀ b ∈ s1, le x b = false := fun x hx b hb => by
      rcases List.mem_cons.1 hx with rfl | hx
      · exact g2 b hb
      · exact c2 x hx b hb
    rw [e2, f2, g1, merge_append c1 c2] at ih
    have hm : ∀ {u v : List α} {x : α}, x ∈ u.merge v le → x ∈ u ∨ x ∈ v := fun h => by
      simpa using (List.merge_perm_append (le := le)).subset h
    obtain ⟨rfl, rfl⟩ := split_unique (p := fun b => !le a b) ih (by simpa using f3) (by simpa using hk2)
      (fun x hx => by rcases hm hx with h | h <;> simp [e3 x, g2 x, h])
      (fun x hx => by rcases hm hx with h | h <;> simp [hl2 x, g3 x, h])
    rw [List.cons_append, f1, e1, g1, merge_append c1 c3]
    congr 1
    cases s2 with
    | nil => simp
    | cons b s2 => rw [List.cons_merge_cons_pos _ _ _ (g3 b (by simp))]

end SegTree.Sorting

namespace SegTree
variable {α : Type} {E : Env α} {comp : α → α → Bool} {m m' m1 m2 : Mem α} {o i j k n p q : Nat}
  {xs ys A B C X Y : List α} {it jt kt : Iter} {v x y : α}

/-! ### Specification -/

/-- Between `m` and `m'` a range of container `o` was overwritten: it holds `ys` now, and
nothing else is different (see `Overwrote`). -/
structure Rewrote (E : Env α) (o : Nat) (m m' : Mem α) (ys : List α) : Prop where
  elems : Contents E o m' ys
  rest : Overwrote E o m m'
  reach : Reach E m'

/-! ### Steps -/

namespace Sorting

theorem again (h : Rewrote E o m m1 xs) (h' : Rewrote E o m1 m' ys) : Rewrote E o m m' ys :=
  ⟨h'.elems, h.rest.trans h'.rest, h'.reach⟩

theorem stay (hr : Reach E m) (hc : Contents E o m xs) : Rewrote E o m m xs := ⟨hc, .refl, hr⟩

theorem deref (hE : E.Good) (hr : Reach E m) (hc : Contents E o m (A ++ x :: B)) (hi : i = A.length)
    (hn : nth E o i m = .ok it m) : dereference E it m = .ok x m := by
  subst hi
  have := nth_deref hE hr hc (i := A.length) (by simp) hn
  simpa using this

theorem write (hE : E.Good) (hr : Reach E m) (hc : Contents E o m (A ++ x :: B)) (hi : i = A.length)
    (hn : nth E o i m = .ok it m) (v : α) :
    ∃ m', deref_set_rv E it v m = .ok () m' ∧ Rewrote E o m m' (A ++ v :: B) := by
  subst hi
  have hl : A.length < (A ++ x :: B).length := by simp
  rcases C07_write hE hr hc hl hn (v := v) (.inr (.inr rfl)) with ⟨m', h1, h2, h3, h4, h5, h6, h7⟩ | ⟨m', h1, -, -⟩
  · exact ⟨m', h1, by simpa using h2, ⟨h3, h4, h5, fun p _ hp _ => h6 p hp, h7⟩, Reach.write hE hr hc hl hn (.inr rfl) h1⟩
  · exact absurd h1 (deref_set_rv_no_throw hE hr hc hl hn)

theorem iter_move_assign_eq (hE : E.Good) : iter_move_assign E it jt =
    (do let v ← dereference E it; deref_set_rv E jt v; deref_set_rv E it (E.moved v) : M α Unit) := by
  unfold iter_move_assign move_assign_segment deref_set_rv assign_segment dereference
  simp only [hE.throws, Bool.false_eq_true, if_false]

theorem iter_swap_eq (hE : E.Good) : iter_swap E it jt =
    (do let v ← moveFrom E it.entry.seg.ptr it.entry.seg.idx; iter_move_assign E jt it; deref_set_rv E jt v : M α Unit) := rfl

/-- `std::move(*it)` -/
theorem take (hE : E.Good) (hr : Reach E m) (hc : Contents E o m (A ++ x :: B)) (hi : i = A.length)
    (hn : nth E o i m = .ok it m) :
    ∃ m', moveFrom E it.entry.seg.ptr it.entry.seg.idx m = .ok x m' ∧ Rewrote E o m m' (A ++ E.moved x :: B) := by
  obtain ⟨m', h1, h2⟩ := write hE hr hc hi hn (E.moved x)
  exact ⟨m', by rw [moveFrom_eq hE, bind_ok (deref hE hr hc hi hn), bind_ok h1]; rfl, h2⟩

/-- `*jt = std::move(*it)`, downwards or upwards -/
theorem move_up (hE : E.Good) (hr : Reach E m) (hc : Contents E o m (A ++ x :: (B ++ y :: C))) (hi : i = A.length)
    (hj : j = A.length + (B.length + 1)) (hn : nth E o i m = .ok it m) (hm : nth E o j m = .ok jt m) :
    ∃ m', iter_move_assign E it jt m = .ok () m' ∧ Rewrote E o m m' (A ++ E.moved x :: (B ++ x :: C)) := by
  obtain ⟨m1, h1, h2⟩ := write hE hr (A := A ++ x :: B) (by simpa using hc) (by simpa using hj) hm x
  obtain ⟨m2, h3, h4⟩ := write hE h2.reach (A := A) (x := x) (B := B ++ x :: C) (by simpa using h2.elems) hi
    (h2.rest.iters _ _ hn) (E.moved x)
  exact ⟨m2, by rw [iter_move_assign_eq hE, bind_ok (deref hE hr hc hi hn), bind_ok h1, h3], again h2 h4⟩

theorem move_down (hE : E.Good) (hr : Reach E m) (hc : Contents E o m (A ++ x :: (B ++ y :: C))) (hi : i = A.length)
    (hj : j = A.length + (B.length + 1)) (hn : nth E o i m = .ok it m) (hm : nth E o j m = .ok jt m) :
    ∃ m', iter_move_assign E jt it m = .ok () m' ∧ Rewrote E o m m' (A ++ y :: (B ++ E.moved y :: C)) := by
  obtain ⟨m1, h1, h2⟩ := write hE hr hc hi hn y
  obtain ⟨m2, h3, h4⟩ := write hE h2.reach (A := A ++ y :: B) (x := y) (B := C) (by simpa using h2.elems) (by simpa using hj)
    (h2.rest.iters _ _ hm) (E.moved y)
  exact ⟨m2, by
    rw [iter_move_assign_eq hE, bind_ok (deref hE hr (A := A ++ x :: B) (by simpa using hc) (by simpa using hj) hm), bind_ok h1, h3],
    again h2 (by simpa using h4)⟩

theorem swap (hE : E.Good) (hr : Reach E m) (hc : Contents E o m (A ++ x :: (B ++ y :: C))) (hi : i = A.length)
    (hj : j = A.length + (B.length + 1)) (hn : nth E o i m = .ok it m) (hm : nth E o j m = .ok jt m) :
    ∃ m', iter_swap E it jt m = .ok () m' ∧ Rewrote E o m m' (A ++ y :: (B ++ x :: C)) := by
  obtain ⟨m1, h1, h2⟩ := take hE hr hc hi hn
  obtain ⟨m2, h3, h4⟩ := move_down hE h2.reach h2.elems hi hj (h2.rest.iters _ _ hn) (h2.rest.iters _ _ hm)
  have h5 := again h2 h4
  obtain ⟨m3, h6, h7⟩ := write hE h5.reach (A := A ++ y :: B) (B := C) (by simpa using h5.elems) (by simpa using hj)
    (h5.rest.iters _ _ hm) x
  exact ⟨m3, by rw [iter_swap_eq hE, bind_ok h1, bind_ok h3, h6], again h5 (by simpa using h7)⟩

theorem add (hE : E.Good) (hr : Reach E m) (hc : Contents E o m xs) {d : Nat} (hi : i + d ≤ xs.length)
    (hn : nth E o i m = .ok it m) : ∃ jt, it_add E it (d : Int) m = .ok jt m ∧ nth E o (i + d) m = .ok jt m := by
  obtain ⟨jt, h1, h2⟩ := C19_add hE hr hc (d := (d : Int)) (by omega) (by omega) (by omega) hn
  exact ⟨jt, h1, by rwa [show ((i : Int) + (d : Int)).toNat = i + d by omega] at h2⟩

/-! ### `std::reverse` and `std::rotate` -/

theorem reverse_loop (hE : E.Good) : ∀ (n : Nat) (X : List α) {A B : List α} {m : Mem α} {i j : Nat} {it jt : Iter},
    X.length = n → Reach E m → Contents E o m (A ++ (X ++ B)) →
    i = A.length → j + 1 = A.length + X.length → nth E o i m = .ok it m → nth E o j m = .ok jt m →
    ∃ m', std_reverse_loop E it jt m = .ok () m' ∧ Rewrote E o m m' (A ++ (X.reverse ++ B)) := by
  intro n
  induction n using Nat.strong_induction_on with
  | _ n ih =>
  intro X A B m i j it jt hX hr hc hi hj hn hm
  have p1 := nth_pos hE hr hc (by simp; omega) hn
  have p2 := nth_pos hE hr hc (by simp; omega) hm
  rw [std_reverse_loop, p1, p2]
  match X, hX with
  | [], _ => rw [if_neg (by simp at hj; omega)]; exact ⟨m, rfl, stay hr (by simpa using hc)⟩
  | [x], _ => rw [if_neg (by simp at hj; omega)]; exact ⟨m, rfl, stay hr (by simpa using hc)⟩
  | x :: z :: Z, hX =>
    obtain ⟨Y, y, e⟩ : ∃ Y y, z :: Z = Y ++ [y] := ⟨_, _, (List.dropLast_append_getLast (by simp : z :: Z ≠ [])).symm⟩
    rw [e] at hX hc hj ⊢
    simp only [List.length_cons, List.length_append, List.length_nil] at hj hX
    rw [if_pos (by omega)]
    obtain ⟨m1, h1, h2⟩ := swap hE hr (B := Y) (C := B) (by simpa using hc) hi (by omega) hn hm
    have hl : (A ++ y :: (Y ++ x :: B)).length = A.length + (Y.length + B.length + 2) := by simp; omega
    obtain ⟨it', h3, h4⟩ := C18_next hE h2.reach h2.elems (by omega) (h2.rest.iters _ _ hn)
    obtain ⟨jt', h5, h6⟩ := C18_prev hE h2.reach h2.elems (by omega) (by omega) (h2.rest.iters _ _ hm)
    obtain ⟨m2, h7, h8⟩ := ih Y.length (by omega) Y (A := A ++ [y]) (B := x :: B) rfl h2.reach (by simpa using h2.elems)
      (by simp; omega) (by simp; omega) h4 h6
    exact ⟨m2, by rw [bind_ok h1, bind_ok h3, bind_ok h5, h7], again h2 (by simpa using h8)⟩

theorem reverse (hE : E.Good) (hr : Reach E m) (hc : Contents E o m (A ++ (X ++ B)))
    (hi : i = A.length) (hj : j = A.length + X.length) (hn : nth E o i m = .ok it m) (hm : nth E o j m = .ok jt m) :
    ∃ m', std_reverse E it jt m = .ok () m' ∧ Rewrote E o m m' (A ++ (X.reverse ++ B)) := by
  have hl : (A ++ (X ++ B)).length = A.length + (X.length + B.length) := by simp
  unfold std_reverse
  rw [nth_pos hE hr hc (by omega) hn, nth_pos hE hr hc (by omega) hm]
  cases X with
  | nil => rw [if_pos (by simp at hj; omega)]; exact ⟨m, rfl, stay hr (by simpa using hc)⟩
  | cons x X =>
    simp only [List.length_cons] at hj hl
    rw [if_neg (by omega)]
    obtain ⟨kt, h1, h2⟩ := C18_prev hE hr hc (by omega) (by omega) hm
    obtain ⟨m', h3, h4⟩ := reverse_loop hE _ (x :: X) rfl hr hc hi (by simp; omega) hn h2
    exact ⟨m', by rw [bind_ok h1, h3], h4⟩

theorem shift_down (hE : E.Good) : ∀ (Z : List α) {A G B : List α} {m : Mem α} {i j k : Nat} {it jt kt : Iter}, G ≠ [] → Reach E m →
    Contents E o m (A ++ (G ++ (Z ++ B))) → i = A.length → j = A.length + G.length → k = A.length + G.length + Z.length →
    nth E o i m = .ok it m → nth E o j m = .ok jt m → nth E o k m = .ok kt m →
    ∃ m' G', std_move E jt kt it m = .ok () m' ∧ G'.length = G.length ∧ Rewrote E o m m' (A ++ (Z ++ (G' ++ B)))
  | [], A, G, B, m, i, j, k, it, jt, kt, hG, hr, hc, hi, hj, hk, hn, hm, hp => by
    rw [std_move, nth_pos hE hr hc (by simp; omega) hm, nth_pos hE hr hc (by simp at hk ⊢; omega) hp, if_neg (by simp at hk; omega)]
    exact ⟨m, G, rfl, rfl, stay hr (by simpa using hc)⟩
  | z :: Z, A, [], B, m, i, j, k, it, jt, kt, hG, hr, hc, hi, hj, hk, hn, hm, hp => absurd rfl hG
  | z :: Z, A, g :: G, B, m, i, j, k, it, jt, kt, hG, hr, hc, hi, hj, hk, hn, hm, hp => by
    simp only [List.length_cons] at hj hk
    rw [std_move, nth_pos hE hr hc (by simp; omega) hm, nth_pos hE hr hc (by simp; omega) hp, if_pos (by omega)]
    obtain ⟨m1, e1, e2⟩ := move_down hE hr (A := A) (x := g) (B := G) (y := z) (C := Z ++ B) (by simpa using hc) hi (by omega) hn hm
    obtain ⟨jt', e3, e4⟩ := C18_next hE e2.reach e2.elems (by simp; omega) (e2.rest.iters _ _ hm)
    obtain ⟨it', e5, e6⟩ := C18_next hE e2.reach e2.elems (by simp; omega) (e2.rest.iters _ _ hn)
    obtain ⟨m2, G', e7, e8, e9⟩ := shift_down hE Z (A := A ++ [z]) (G := G ++ [E.moved z]) (B := B) (i := i + 1) (j := j + 1) (k := k)
      (by simp) e2.reach (by simpa using e2.elems) (by simp; omega) (by simp; omega) (by simp; omega) e6 e4 (e2.rest.iters _ _ hp)
    exact ⟨m2, G', by rw [bind_ok e1, bind_ok e3, bind_ok e5, e7], by simpa using e8, again e2 (by simpa using e9)⟩

theorem shift_up (hE : E.Good) (Z : List α) : ∀ {A G B : List α} {m : Mem α} {i j k : Nat} {it jt kt : Iter}, G ≠ [] →
    Reach E m → Contents E o m (A ++ (Z ++ (G ++ B))) → i = A.length → j = A.length + Z.length → k = A.length + Z.length + G.length →
    nth E o i m = .ok it m → nth E o j m = .ok jt m → nth E o k m = .ok kt m →
    ∃ m' G', std_move_backward E it jt kt m = .ok () m' ∧ G'.length = G.length ∧ Rewrote E o m m' (A ++ (G' ++ (Z ++ B))) := by
  induction Z using List.reverseRecOn with
  | nil =>
    intro A G B m i j k it jt kt hG hr hc hi hj hk hn hm hp
    rw [std_move_backward, nth_pos hE hr hc (by simp; omega) hn, nth_pos hE hr hc (by simp at hj ⊢; omega) hm,
      if_neg (by simp at hj; omega)]
    exact ⟨m, G, rfl, rfl, stay hr (by simpa using hc)⟩
  | append_singleton Z z ih =>
    intro A G B m i j k it jt kt hG hr hc hi hj hk hn hm hp
    obtain ⟨G, g, rfl⟩ : ∃ G' g, G = G' ++ [g] := ⟨_, _, (List.dropLast_append_getLast hG).symm⟩
    simp only [List.length_append, List.length_cons, List.length_nil] at hj hk
    have hl : (A ++ ((Z ++ [z]) ++ ((G ++ [g]) ++ B))).length = A.length + (Z.length + (G.length + B.length) + 2) := by simp; omega
    rw [std_move_backward, nth_pos hE hr hc (by omega) hn, nth_pos hE hr hc (by omega) hm, if_pos (by omega)]
    obtain ⟨kt', e1, e2⟩ := C18_prev hE hr hc (by omega) (by omega) hp
    obtain ⟨jt', e3, e4⟩ := C18_prev hE hr hc (by omega) (by omega) hm
    obtain ⟨m1, e5, e6⟩ := move_up hE hr (A := A ++ Z) (B := G) (x := z) (y := g) (C := B) (by simpa using hc)
      (by simp; omega) (by simp; omega) e4 e2
    obtain ⟨m2, G', e7, e8, e9⟩ := ih (A := A) (G := E.moved z :: G) (B := z :: B) (i := i) (j := j - 1) (k := k - 1) (by simp) e6.reach
      (by simpa using e6.elems) hi (by omega) (by simp; omega) (e6.rest.iters _ _ hn) (e6.rest.iters _ _ e4) (e6.rest.iters _ _ e2)
    exact ⟨m2, G', by rw [bind_ok e1, bind_ok e3, bind_ok e5, e7], by simpa using e8, again e6 (by simpa using e9)⟩

theorem sub (hE : E.Good) (hr : Reach E m) (hc : Contents E o m xs) {d : Nat} (hi : i ≤ xs.length) (hd : d ≤ i)
    (hn : nth E o i m = .ok it m) : ∃ jt, it_sub E it (d : Int) m = .ok jt m ∧ nth E o (i - d) m = .ok jt m := by
  obtain ⟨jt, h1, h2⟩ := C19_sub hE hr hc (d := (d : Int)) hi (by omega) (by omega) hn
  exact ⟨jt, h1, by rwa [show ((i : Int) - (d : Int)).toNat = i - d by omega] at h2⟩

theorem swap_ranges_ok (hE : E.Good) : ∀ (X Y : List α) {A C B : List α} {m : Mem α} {i j k : Nat} {it jt kt : Iter},
    X.length = Y.length → Reach E m → Contents E o m (A ++ (X ++ (C ++ (Y ++ B)))) → i = A.length → j = A.length + X.length →
    k = A.length + X.length + C.length → nth E o i m = .ok it m → nth E o j m = .ok jt m → nth E o k m = .ok kt m →
    ∃ m' lt, swap_ranges E it jt kt m = .ok lt m' ∧ Rewrote E o m m' (A ++ (Y ++ (C ++ (X ++ B))))
  | [], [], A, C, B, m, i, j, k, it, jt, kt, hX, hr, hc, hi, hj, hk, hn, hm, hp => by
    rw [swap_ranges, nth_pos hE hr hc (by simp; omega) hn, nth_pos hE hr hc (by simp at hj ⊢; omega) hm, if_neg (by simp at hj; omega)]
    exact ⟨m, kt, rfl, stay hr hc⟩
  | [], _ :: _, A, C, B, m, i, j, k, it, jt, kt, hX, hr, hc, hi, hj, hk, hn, hm, hp => by simp at hX
  | _ :: _, [], A, C, B, m, i, j, k, it, jt, kt, hX, hr, hc, hi, hj, hk, hn, hm, hp => by simp at hX
  | x :: X, y :: Y, A, C, B, m, i, j, k, it, jt, kt, hX, hr, hc, hi, hj, hk, hn, hm, hp => by
    simp only [List.length_cons] at hj hk hX
    rw [swap_ranges, nth_pos hE hr hc (by simp; omega) hn, nth_pos hE hr hc (by simp; omega) hm, if_pos (by omega)]
    obtain ⟨m1, e1, e2⟩ := swap hE hr (A := A) (x := x) (B := X ++ C) (y := y) (C := Y ++ B) (by simpa using hc) hi (by simp; omega) hn hp
    obtain ⟨it', e3, e4⟩ := C18_next hE e2.reach e2.elems (by simp; omega) (e2.rest.iters _ _ hn)
    obtain ⟨kt', e5, e6⟩ := C18_next hE e2.reach e2.elems (by simp; omega) (e2.rest.iters _ _ hp)
    obtain ⟨m2, lt, e7, e8⟩ := swap_ranges_ok hE X Y (A := A ++ [y]) (C := C ++ [x]) (B := B) (i := i + 1) (j := j) (k := k + 1)
      (by omega) e2.reach (by simpa using e2.elems) (by simp; omega) (by simp; omega) (by simp; omega) e4 (e2.rest.iters _ _ hm) e6
    exact ⟨m2, lt, by rw [bind_ok e1, bind_ok e3, bind_ok e5, e7], again e2 (by simpa using e8)⟩

theorem rotate_up_ok (hE : E.Good) : ∀ (Y : List α) {A X B : List α} {m : Mem α} {i j : Nat} {it jt : Iter}, X ≠ [] → Reach E m →
    Contents E o m (A ++ (X ++ (Y ++ B))) → i = A.length → j = A.length + X.length → nth E o i m = .ok it m → nth E o j m = .ok jt m →
    ∃ m' kt, rotate_up E it jt Y.length m = .ok kt m' ∧ nth E o (i + Y.length) m' = .ok kt m' ∧
      Rewrote E o m m' (A ++ (Y ++ (X.rotate Y.length ++ B)))
  | [], A, X, B, m, i, j, it, jt, hX, hr, hc, hi, hj, hn, hm => ⟨m, it, rfl, hn, stay hr (by simpa using hc)⟩
  | y :: Y, A, [], B, m, i, j, it, jt, hX, hr, hc, hi, hj, hn, hm => absurd rfl hX
  | y :: Y, A, x :: X, B, m, i, j, it, jt, hX, hr, hc, hi, hj, hn, hm => by
    simp only [List.length_cons] at hj
    obtain ⟨m1, e1, e2⟩ := swap hE hr (A := A) (x := x) (B := X) (y := y) (C := Y ++ B) (by simpa using hc) hi (by omega) hn hm
    obtain ⟨it', e3, e4⟩ := C18_next hE e2.reach e2.elems (by simp; omega) (e2.rest.iters _ _ hn)
    obtain ⟨jt', e5, e6⟩ := C18_next hE e2.reach e2.elems (by simp; omega) (e2.rest.iters _ _ hm)
    obtain ⟨m2, kt, e7, e8, e9⟩ := rotate_up_ok hE Y (A := A ++ [y]) (X := X ++ [x]) (B := B) (i := i + 1) (j := j + 1)
      (by simp) e2.reach (by simpa using e2.elems) (by simp; omega) (by simp; omega) e4 e6
    refine ⟨m2, kt, by rw [List.length_cons, rotate_up, bind_ok e1, bind_ok e3, bind_ok e5, e7], ?_, again e2 ?_⟩
    · rw [List.length_cons, show i + (Y.length + 1) = i + 1 + Y.length by omega]; exact e8
    · rw [List.length_cons, List.rotate_cons_succ]; simpa using e9

theorem rotate_down_ok (hE : E.Good) (X : List α) : ∀ {A Y B : List α} {m : Mem α} {i j : Nat} {it jt : Iter}, Y ≠ [] → Reach E m →
    Contents E o m (A ++ (X ++ (Y ++ B))) → i = A.length + X.length → j = A.length + X.length + Y.length →
    nth E o i m = .ok it m → nth E o j m = .ok jt m →
    ∃ m' kt Z, rotate_down E it jt X.length m = .ok kt m' ∧ nth E o A.length m' = .ok kt m' ∧ Z.rotate X.length = Y ∧
      Rewrote E o m m' (A ++ (Z ++ (X ++ B))) := by
  induction X using List.reverseRecOn with
  | nil =>
    intro A Y B m i j it jt hY hr hc hi hj hn hm
    exact ⟨m, it, Y, rfl, by simpa [hi] using hn, by simp, stay hr (by simpa using hc)⟩
  | append_singleton X x ih =>
    intro A Y B m i j it jt hY hr hc hi hj hn hm
    obtain ⟨Y, y, rfl⟩ : ∃ Y' y, Y = Y' ++ [y] := ⟨_, _, (List.dropLast_append_getLast hY).symm⟩
    simp only [List.length_append, List.length_cons, List.length_nil] at hi hj
    have hl : (A ++ ((X ++ [x]) ++ ((Y ++ [y]) ++ B))).length = A.length + (X.length + (Y.length + B.length) + 2) := by simp; omega
    obtain ⟨it', e1, e2⟩ := C18_prev hE hr hc (by omega) (by omega) hn
    obtain ⟨jt', e3, e4⟩ := C18_prev hE hr hc (by omega) (by omega) hm
    obtain ⟨m1, e5, e6⟩ := swap hE hr (A := A ++ X) (x := x) (B := Y) (y := y) (C := B) (by simpa using hc)
      (by simp; omega) (by simp; omega) e2 e4
    obtain ⟨m2, kt, Z, e7, e8, e9, e10⟩ := ih (A := A) (Y := y :: Y) (B := x :: B) (i := i - 1) (j := j - 1) (by simp) e6.reach
      (by simpa using e6.elems) (by omega) (by simp; omega) (e6.rest.iters _ _ e2) (e6.rest.iters _ _ e4)
    refine ⟨m2, kt, Z, ?_, e8, ?_, again e6 (by simpa using e10)⟩
    · rw [List.length_append, List.length_singleton, rotate_down, bind_ok e1, bind_ok e3, bind_ok e5, e7]
    · rw [List.length_append, List.length_singleton, ← List.rotate_rotate, e9]; simp

theorem rotate_loop_ok (hE : E.Good) {pod : Bool} : ∀ (n : Nat) {L A B : List α} {m : Mem α} {i k : Nat} {it : Iter},
    L.length = n → 0 < k → k < n → Reach E m → Contents E o m (A ++ (L ++ B)) → i = A.length → nth E o i m = .ok it m →
    ∃ m', rotate_loop E pod it n k m = .ok () m' ∧ Rewrote E o m m' (A ++ (L.rotate k ++ B)) := by
  intro n
  induction n using Nat.strong_induction_on with
  | _ n ih =>
  intro L A B m i k it hL h0 hk hr hc hi hn
  obtain ⟨X, Y, rfl, hX⟩ : ∃ X Y, L = X ++ Y ∧ X.length = k := ⟨L.take k, L.drop k, by simp, by simp; omega⟩
  have hY : X.length + Y.length = n := by simpa using hL
  have hrot : (X ++ Y).rotate k = Y ++ X := by rw [← hX, List.rotate_append_length_eq]
  have hl : (A ++ ((X ++ Y) ++ B)).length = A.length + (n + B.length) := by simp; omega
  have hc' : Contents E o m (A ++ (X ++ (Y ++ B))) := by simpa using hc
  have hX0 : X ≠ [] := by rintro rfl; simp at hX; omega
  have hY0 : Y ≠ [] := by rintro rfl; simp at hY; omega
  have one : (1 : Int) = ((1 : Nat) : Int) := rfl
  rw [rotate_loop, hrot]
  by_cases h1 : k < n - k
  · rw [if_pos h1]
    by_cases h2 : pod = true ∧ k = 1
    · rw [if_pos h2]
      obtain ⟨x, rfl⟩ : ∃ x, X = [x] := List.length_eq_one_iff.1 (by omega)
      simp only [List.length_singleton] at hX hY
      obtain ⟨m1, e1, e2⟩ := take hE hr (A := A) (x := x) (B := Y ++ B) (by simpa using hc) hi hn
      have hl1 : (A ++ E.moved x :: (Y ++ B)).length = A.length + (n + B.length) := by simp; omega
      have hn1 := e2.rest.iters _ _ hn
      obtain ⟨p1, e3, e4⟩ := add hE e2.reach e2.elems (d := 1) (by omega) hn1
      obtain ⟨pn, e5, e6⟩ := add hE e2.reach e2.elems (d := n) (by omega) hn1
      obtain ⟨m2, G, e7, e8, e9⟩ := shift_down hE Y (A := A) (G := [E.moved x]) (B := B) (by simp) e2.reach
        (by simpa using e2.elems) hi (by simp; omega) (by simp; omega) hn1 e4 e6
      obtain ⟨g, rfl⟩ : ∃ g, G = [g] := List.length_eq_one_iff.1 (by simpa using e8)
      have hl2 : (A ++ (Y ++ ([g] ++ B))).length = A.length + (n + B.length) := by simp; omega
      have hn2 := e9.rest.iters _ _ hn1
      obtain ⟨qn, f1, f2⟩ := add hE e9.reach e9.elems (d := n) (by omega) hn2
      obtain ⟨ql, f3, f4⟩ := sub hE e9.reach e9.elems (d := 1) (by omega) (by omega) f2
      obtain ⟨m3, f5, f6⟩ := write hE e9.reach (A := A ++ Y) (x := g) (B := B) (by simpa using e9.elems) (by simp; omega) f4 x
      exact ⟨m3, by rw [bind_ok e1, one, bind_ok e3, bind_ok e5, bind_ok e7, bind_ok f1, bind_ok f3, f5],
        again e2 (again e9 (by simpa using f6))⟩
    · rw [if_neg h2]
      obtain ⟨qt, e1, e2⟩ := add hE hr hc (d := k) (by omega) hn
      obtain ⟨m1, pt, e3, e4, e5⟩ := rotate_up_ok hE Y (B := B) hX0 hr hc' hi (by omega) hn e2
      rw [show Y.length = n - k by omega] at e3
      rw [bind_ok e1, bind_ok e3]
      have hm : n % k = Y.length % X.length := by rw [← hY, hX]; simp
      rw [← List.rotate_mod, ← hm] at e5
      by_cases h3 : n % k = 0
      · rw [if_pos h3]; rw [h3] at e5
        exact ⟨m1, rfl, by simpa using e5⟩
      · rw [if_neg h3]
        have h4 : n % k < k := Nat.mod_lt _ h0
        obtain ⟨m2, e6, e7⟩ := ih k hk (L := X.rotate (n % k)) (A := A ++ Y) (B := B) (by simpa using hX) (k := k - n % k) (by omega)
          (by omega) e5.reach (by simpa using e5.elems) (i := i + Y.length) (by simp; omega) e4
        rw [List.rotate_rotate, show n % k + (k - n % k) = X.length by omega, List.rotate_length] at e7
        exact ⟨m2, e6, again e5 (by simpa using e7)⟩
  · rw [if_neg h1]
    have hk' : n - k = Y.length := by omega
    rw [hk']
    by_cases h2 : pod = true ∧ Y.length = 1
    · rw [if_pos h2]
      obtain ⟨y, rfl⟩ : ∃ y, Y = [y] := List.length_eq_one_iff.1 h2.2
      simp only [List.length_singleton] at hk' hY
      obtain ⟨pn, e1, e2⟩ := add hE hr hc (d := n) (by omega) hn
      obtain ⟨pl, e3, e4⟩ := sub hE hr hc (d := 1) (by omega) (by omega) e2
      obtain ⟨m1, e5, e6⟩ := take hE hr (A := A ++ X) (x := y) (B := B) (by simpa using hc) (by simp; omega) e4
      have hl1 : ((A ++ X) ++ E.moved y :: B).length = A.length + (n + B.length) := by simp; omega
      have hn1 := e6.rest.iters _ _ hn
      obtain ⟨qn, f1, f2⟩ := add hE e6.reach e6.elems (d := n) (by omega) hn1
      obtain ⟨ql, f3, f4⟩ := sub hE e6.reach e6.elems (d := 1) (by omega) (by omega) f2
      obtain ⟨m2, G, e7, e8, e9⟩ := shift_up hE X (A := A) (G := [E.moved y]) (B := B) (by simp) e6.reach
        (by simpa using e6.elems) hi (by omega) (by simp; omega) hn1 f4 f2
      obtain ⟨g, rfl⟩ : ∃ g, G = [g] := List.length_eq_one_iff.1 (by simpa using e8)
      obtain ⟨m3, g5, g6⟩ := write hE e9.reach (A := A) (x := g) (B := X ++ B) (by simpa using e9.elems) hi
        (e9.rest.iters _ _ hn1) y
      exact ⟨m3, by rw [bind_ok e1, one, bind_ok e3, bind_ok e5, bind_ok f1, bind_ok f3, bind_ok f1, bind_ok e7, g5],
        again e6 (again e9 (by simpa using g6))⟩
    · rw [if_neg h2]
      obtain ⟨qt, e1, e2⟩ := add hE hr hc (d := n) (by omega) hn
      obtain ⟨pt, e3, e4⟩ := sub hE hr hc (d := Y.length) (by omega) (by omega) e2
      obtain ⟨m1, pt', Z, f1, f2, f3, f4⟩ := rotate_down_ok hE X (A := A) (Y := Y) (B := B) hY0 hr hc' (i := i + n - Y.length)
        (by omega) (by omega) e4 e2
      rw [bind_ok e1, bind_ok e3, show n - Y.length = X.length by omega, bind_ok f1]
      have hZ : Z.length = Y.length := by rw [← f3]; simp
      have hm : n % Y.length = X.length % Z.length := by rw [← hY, hZ]; simp
      rw [← List.rotate_mod, ← hm] at f3
      by_cases h3 : n % Y.length = 0
      · rw [if_pos h3]
        rw [h3, List.rotate_zero] at f3
        exact ⟨m1, rfl, by rw [← f3]; simpa using f4⟩
      · rw [if_neg h3]
        obtain ⟨m2, e6, e7⟩ := ih Y.length (by omega) (L := Z) (A := A) (B := X ++ B) hZ (k := n % Y.length) (by omega)
          (Nat.mod_lt _ (by omega)) f4.reach f4.elems rfl f2
        rw [f3] at e7
        exact ⟨m2, e6, again f4 (by simpa using e7)⟩

theorem rotate_any {pod : Bool} (hE : E.Good) (hr : Reach E m) (hc : Contents E o m (A ++ (X ++ (Y ++ B)))) (hi : i = A.length)
    (hj : j = A.length + X.length) (hk : k = A.length + X.length + Y.length) (hn : nth E o i m = .ok it m)
    (hm : nth E o j m = .ok jt m) (hp : nth E o k m = .ok kt m) (hW : 2 * (A ++ (X ++ (Y ++ B))).length < E.W) :
    ∃ qt m', rotate_random E pod it jt kt m = .ok qt m' ∧ nth E o (A.length + Y.length) m' = .ok qt m' ∧
      Rewrote E o m m' (A ++ (Y ++ (X ++ B))) := by
  have hl : (A ++ (X ++ (Y ++ B))).length = A.length + (X.length + (Y.length + B.length)) := by simp
  unfold rotate_random
  rw [nth_pos hE hr hc (by omega) hn, nth_pos hE hr hc (by omega) hm, nth_pos hE hr hc (by omega) hp]
  by_cases h1 : i = j
  · rw [if_pos h1]
    obtain rfl : X = [] := List.length_eq_zero_iff.1 (by omega)
    exact ⟨kt, m, rfl, by rw [show A.length + Y.length = k by simpa using hk.symm]; exact hp, stay hr (by simpa using hc)⟩
  rw [if_neg h1]
  by_cases h2 : k = j
  · rw [if_pos h2]
    obtain rfl : Y = [] := List.length_eq_zero_iff.1 (by omega)
    exact ⟨it, m, rfl, by rw [List.length_nil, Nat.add_zero, ← hi]; exact hn, stay hr (by simpa using hc)⟩
  rw [if_neg h2, C20_diff hE hr hc (by omega) (by omega) hp hn hW, C20_diff hE hr hc (by omega) (by omega) hm hn hW,
    C20_diff hE hr hc (by omega) (by omega) hp hm hW, show ((k : Int) - (i : Int)).toNat = X.length + Y.length by omega,
    show ((j : Int) - (i : Int)).toNat = X.length by omega, show (k : Int) - (j : Int) = ((Y.length : Nat) : Int) by omega]
  by_cases h3 : X.length = X.length + Y.length - X.length
  · rw [if_pos h3]
    obtain ⟨m1, lt, e1, e2⟩ := swap_ranges_ok hE X Y (A := A) (C := []) (B := B) (by omega) hr (by simpa using hc) hi hj
      (k := j) (by simpa using hj) hn hm hm
    exact ⟨jt, m1, by rw [bind_ok e1]; rfl, by rw [show A.length + Y.length = j by omega]; exact e2.rest.iters _ _ hm, by simpa using e2⟩
  · rw [if_neg h3]
    obtain ⟨rt, e1, e2⟩ := add hE hr hc (d := Y.length) (by omega) hn
    obtain ⟨m1, e3, e4⟩ := rotate_loop_ok (pod := pod) hE (X.length + Y.length) (L := X ++ Y) (A := A) (B := B) (by simp)
      (k := X.length) (by omega) (by omega) hr (by simpa using hc) hi hn
    rw [List.rotate_append_length_eq] at e4
    exact ⟨rt, m1, by rw [bind_ok e1, bind_ok e3]; rfl, by rw [← hi]; exact e4.rest.iters _ _ e2, by simpa using e4⟩

theorem rotate (hE : E.Good) (hr : Reach E m) (hc : Contents E o m (A ++ (X ++ (Y ++ B)))) (hi : i = A.length)
    (hj : j = A.length + X.length) (hk : k = A.length + X.length + Y.length) (hn : nth E o i m = .ok it m)
    (hm : nth E o j m = .ok jt m) (hp : nth E o k m = .ok kt m) (hW : 2 * (A ++ (X ++ (Y ++ B))).length < E.W) :
    ∃ qt m', std_rotate E it jt kt m = .ok qt m' ∧ nth E o (A.length + Y.length) m' = .ok qt m' ∧
      Rewrote E o m m' (A ++ (Y ++ (X ++ B))) :=
  rotate_any hE hr hc hi hj hk hn hm hp hW

/-! ### `std::lower_bound`, `std::upper_bound` -/

theorem bound (hE : E.Good) (hr : Reach E m) (hc : Contents E o m xs) {q : α → Bool} : ∀ (n : Nat) {i p : Nat} {it : Iter},
    i + n ≤ xs.length → i ≤ p → p ≤ i + n → nth E o i m = .ok it m →
    (∀ l (h : l < xs.length), i ≤ l → l < p → q xs[l] = true) →
    (∀ l (h : l < xs.length), p ≤ l → l < i + n → q xs[l] = false) →
    ∃ jt, bound_loop E q it n m = .ok jt m ∧ nth E o p m = .ok jt m := by
  intro n
  induction n using Nat.strong_induction_on with
  | _ n ih =>
  intro i p it hi h1 h2 hn h3 h4
  rw [bound_loop]
  by_cases h0 : 0 < n
  · rw [if_pos h0]
    obtain ⟨kt, e1, e2⟩ := add hE hr hc (d := n / 2) (i := i) (by omega) hn
    have hl : i + n / 2 < xs.length := by omega
    rw [bind_ok e1, bind_ok (nth_deref hE hr hc hl e2)]
    by_cases hp : i + n / 2 < p
    · rw [if_pos (h3 _ hl (by omega) hp)]
      obtain ⟨kt', e3, e4⟩ := C18_next hE hr hc hl e2
      obtain ⟨jt, e5, e6⟩ := ih (n - n / 2 - 1) (by omega) (i := i + n / 2 + 1) (p := p) (by omega) (by omega) (by omega) e4
        (fun l h a b => h3 l h (by omega) b) (fun l h a b => h4 l h a (by omega))
      exact ⟨jt, by rw [bind_ok e3, e5], e6⟩
    · rw [h4 _ hl (by omega) (by omega)]
      exact ih (n / 2) (by omega) (by omega) h1 (by omega) hn h3 (fun l h a b => h4 l h a (by omega))
  · rw [if_neg h0]
    have : p = i := by omega
    subst this
    exact ⟨it, rfl, hn⟩

theorem bound' (hE : E.Good) (hr : Reach E m) (hc : Contents E o m (A ++ (X ++ (Y ++ B)))) {q : α → Bool} (hi : i = A.length)
    (hk : k = A.length + (X.length + Y.length)) (hn : nth E o i m = .ok it m) (hm : nth E o k m = .ok kt m)
    (h1 : ∀ x ∈ X, q x = true) (h2 : ∀ y ∈ Y, q y = false) (hW : 2 * (A ++ (X ++ (Y ++ B))).length < E.W) :
    ∃ jt, bound_loop E q it (it_diff E kt it).toNat m = .ok jt m ∧ nth E o (A.length + X.length) m = .ok jt m := by
  have hl : (A ++ (X ++ (Y ++ B))).length = A.length + (X.length + (Y.length + B.length)) := by simp
  rw [C20_diff hE hr hc (by omega) (by omega) hm hn hW, show ((k : Int) - (i : Int)).toNat = X.length + Y.length by omega]
  refine bound hE hr hc _ (by omega) (by omega) (by omega) hn (fun l h a b => ?_) (fun l h a b => ?_)
  · apply h1
    rw [List.getElem_append_right (by omega), List.getElem_append_left (by omega)]
    exact List.getElem_mem _
  · apply h2
    rw [List.getElem_append_right (by omega), List.getElem_append_right (by omega), List.getElem_append_left (by omega)]
    exact List.getElem_mem _

/-! ### Merging -/

/-- `a` may stand before `b` -/
abbrev before (comp : α → α → Bool) : α → α → Bool := fun a b => !comp b a

theorem sorted_iff : SortedBy comp X ↔ X.Pairwise (fun a b => before comp a b = true) := by
  unfold SortedBy before; simp

theorem merge_sorted (hw : StrictWeak comp) (hX : SortedBy comp X) (hY : SortedBy comp Y) :
    SortedBy comp (X.merge Y (before comp)) := by
  rw [sorted_iff] at *
  exact List.pairwise_merge hw.le_trans hw.le_total X Y hX hY

theorem merge_buf (hE : E.Good) (hw : StrictWeak comp) : ∀ (n : Nat) {X Y A B : List α} {m : Mem α} {i j k : Nat}
    {it jt kt : Iter}, X.length + Y.length = n → Reach E m → Contents E o m (A ++ (X ++ (Y ++ B))) →
    i = A.length → j = A.length + X.length → k = A.length + X.length + Y.length → nth E o i m = .ok it m →
    nth E o j m = .ok jt m → nth E o k m = .ok kt m → SortedBy comp X → SortedBy comp Y →
    2 * (A ++ (X ++ (Y ++ B))).length < E.W →
    ∃ m', merge_without_buffer E comp it jt kt X.length Y.length m = .ok () m' ∧
      Rewrote E o m m' (A ++ (X.merge Y (before comp) ++ B)) := by
  intro n
  induction n using Nat.strong_induction_on with
  | _ n ih =>
  intro X Y A B m i j k it jt kt hlen hr hc hi hj hk hn hm hp hX hY hW
  have hl : (A ++ (X ++ (Y ++ B))).length = A.length + (X.length + (Y.length + B.length)) := by simp
  rw [merge_without_buffer]
  by_cases h0 : X.length = 0 ∨ Y.length = 0
  · rw [if_pos h0]
    refine ⟨m, rfl, stay hr ?_⟩
    rcases h0 with h0 | h0
    · rw [List.length_eq_zero_iff] at h0; subst h0; rw [merge_nil_left]; exact hc
    · rw [List.length_eq_zero_iff] at h0; subst h0; rw [List.merge_right]; exact hc
  rw [if_neg h0]
  by_cases h2 : X.length + Y.length = 2
  · rw [if_pos h2]
    match X, Y, h0, h2 with
    | [x], [y], _, _ =>
      have hc' : Contents E o m (A ++ x :: ([] ++ y :: B)) := by simpa using hc
      rw [bind_ok (deref hE hr (A := A ++ [x]) (B := B) (by simpa using hc) (by simpa using hj) hm),
        bind_ok (deref hE hr hc' hi hn)]
      by_cases h : comp y x = true
      · rw [if_pos h, List.cons_merge_cons_neg _ _ _ (by simp [before, h]), List.merge_right]
        obtain ⟨m', h1, h2⟩ := swap hE hr hc' hi (by simpa using hj) hn hm
        exact ⟨m', h1, by simpa using h2⟩
      · rw [if_neg h, List.cons_merge_cons_pos _ _ _ (by simp [before, h]), merge_nil_left]
        exact ⟨m, rfl, stay hr (by simpa using hc)⟩
    | x :: x' :: X, y :: Y, _, h2 => exfalso; simp only [List.length_cons] at h2; omega
    | [x], y :: y' :: Y, _, h2 => exfalso; simp only [List.length_cons, List.length_nil] at h2; omega
    | [], _, h0, _ => simp at h0
    | _, [], h0, _ => simp at h0
  rw [if_neg h2]
  -- the rotation and the two merges
  have key : ∀ (X1 X2 Y1 Y2 : List α), X = X1 ++ X2 → Y = Y1 ++ Y2 → (∀ a ∈ X1, ∀ b ∈ Y2, before comp a b = true) →
      (∀ a ∈ X2, ∀ b ∈ Y1, before comp a b = false) → X1.length + Y1.length < n → X2.length + Y2.length < n →
      ∀ {ct dt : Iter}, nth E o (A.length + X1.length) m = .ok ct m → nth E o (A.length + X.length + Y1.length) m = .ok dt m →
      ∃ m', (do
        let new_middle ← std_rotate E ct jt dt
        merge_without_buffer E comp it ct new_middle X1.length Y1.length
        merge_without_buffer E comp new_middle dt kt X2.length Y2.length : M α Unit) m = .ok () m' ∧
        Rewrote E o m m' (A ++ (X.merge Y (before comp) ++ B)) := by
    rintro X1 X2 Y1 Y2 rfl rfl h1 h2 l1 l2 ct dt hct hdt
    simp only [List.length_append] at hW hj hk
    have sX := sorted_iff.1 hX
    have sY := sorted_iff.1 hY
    rw [List.pairwise_append] at sX sY
    obtain ⟨qt, m1, e1, e2, e3⟩ := rotate hE hr (A := A ++ X1) (X := X2) (Y := Y1) (B := Y2 ++ B) (by simpa using hc)
      (by simp) (by simp; omega) (by simp; omega) hct hm hdt (by simp; omega)
    have c1 : Contents E o m1 (A ++ (X1 ++ (Y1 ++ (X2 ++ (Y2 ++ B))))) := by simpa using e3.elems
    obtain ⟨m2, e4, e5⟩ := ih _ l1 (X := X1) (Y := Y1) rfl e3.reach c1 hi rfl rfl (e3.rest.iters _ _ hn)
      (e3.rest.iters _ _ hct) (by simpa [Nat.add_assoc] using e2) (sorted_iff.2 sX.1) (sorted_iff.2 sY.1) (by simp; omega)
    have ml : (X1.merge Y1 (before comp)).length = X1.length + Y1.length := List.length_merge ..
    have e6 := again e3 e5
    obtain ⟨m3, e7, e8⟩ := ih _ l2 (X := X2) (Y := Y2) (A := A ++ X1.merge Y1 (before comp)) (B := B)
      (i := A.length + (X1.length + Y1.length)) rfl e6.reach (by simpa using e6.elems)
      (by simp) rfl rfl (e5.rest.iters _ _ (by simpa [Nat.add_assoc] using e2))
      (e6.rest.iters _ _ (by
        rw [show (A ++ X1.merge Y1 (before comp)).length + X2.length = A.length + (X1 ++ X2).length + Y1.length by simp; omega]
        exact hdt))
      (e6.rest.iters _ _ (by
        rw [show (A ++ X1.merge Y1 (before comp)).length + X2.length + Y2.length = k by simp; omega]
        exact hp)) (sorted_iff.2 sX.2.1) (sorted_iff.2 sY.2.1) (by simp; omega)
    refine ⟨m3, by rw [bind_ok e1, bind_ok e4, e7], again e6 ?_⟩
    rw [merge_append h1 h2]
    simpa using e8
  have tr : ∀ a b c, before comp a b = true → before comp b c = true → before comp a c = true := hw.le_trans
  have sX := sorted_iff.1 hX
  have sY := sorted_iff.1 hY
  by_cases h3 : Y.length < X.length
  · rw [if_pos h3]
    obtain ⟨v, X2, hv⟩ : ∃ v X2, X.drop (X.length / 2) = v :: X2 := by
      rw [List.drop_eq_getElem_cons (by omega : X.length / 2 < X.length)]; exact ⟨_, _, rfl⟩
    have hsp : X = X.take (X.length / 2) ++ v :: X2 := by rw [← hv, List.take_append_drop]
    have l1 : (X.take (X.length / 2)).length = X.length / 2 := by rw [List.length_take]; omega
    have l2 : (v :: X2).length = X.length - X.length / 2 := by rw [← hv, List.length_drop]
    obtain ⟨Y1, Y2, rfl, g1, g2⟩ := split_sorted tr hw.le_total sY (p := fun y => comp y v) (fun a b hab hb => by
      by_contra h
      have := tr v a b (by simpa [before] using h) hab
      simp [before, hb] at this)
    rw [hsp, List.pairwise_append, List.pairwise_cons] at sX
    obtain ⟨ct, e1, e2⟩ := add hE hr hc (i := i) (d := X.length / 2) (by omega) hn
    have c1 : Contents E o m ((A ++ X.take (X.length / 2)) ++ v :: (X2 ++ ((Y1 ++ Y2) ++ B))) := by
      have := hc; rw [hsp] at this; simpa using this
    rw [bind_ok e1, bind_ok (deref hE hr c1 (by simp; omega) e2)]
    obtain ⟨dt, e3, e4⟩ := bound' hE hr (A := A ++ X) (X := Y1) (Y := Y2) (B := B) (q := fun y => comp y v) (by simpa using hc)
      (by simpa using hj) (by simp at hk ⊢; omega) hm hp g1 g2 (by simp at hl ⊢; simp at hW; omega)
    unfold std_lower_bound
    rw [bind_ok e3]
    have hd : (it_diff E dt jt).toNat = Y1.length := by
      rw [C20_diff hE hr hc (by simp at hl ⊢; omega) (by omega) e4 hm hW]; simp; omega
    have e4' : nth E o (A.length + X.length + Y1.length) m = .ok dt m := by simpa [Nat.add_assoc] using e4
    have := key _ _ Y1 Y2 hsp rfl (fun a ha b hb => tr a v b (sX.2.2 a ha v (by simp)) (by simp [before, g2 b hb]))
      (fun a ha b hb => by
        by_contra h
        have hva : before comp v a = true := by
          rcases List.mem_cons.1 ha with rfl | ha
          · simp [before, hw.irrefl]
          · exact sX.2.1.1 a ha
        have := tr v a b hva (by simpa using h)
        simp [before, g1 b hb] at this) (by rw [l1]; simp only [List.length_append] at hlen h0 h2 h3; omega)
      (by rw [l2]; simp only [List.length_append] at hlen h0 h2 h3; omega) (ct := ct) (dt := dt)
      (by rw [l1, ← hi]; exact e2) e4'
    rw [l1, l2] at this
    simpa [hd] using this
  · rw [if_neg h3]
    obtain ⟨v, Y2, hv⟩ : ∃ v Y2, Y.drop (Y.length / 2) = v :: Y2 := by
      rw [List.drop_eq_getElem_cons (by omega : Y.length / 2 < Y.length)]; exact ⟨_, _, rfl⟩
    have hsp : Y = Y.take (Y.length / 2) ++ v :: Y2 := by rw [← hv, List.take_append_drop]
    have l1 : (Y.take (Y.length / 2)).length = Y.length / 2 := by rw [List.length_take]; omega
    have l2 : (v :: Y2).length = Y.length - Y.length / 2 := by rw [← hv, List.length_drop]
    obtain ⟨X1, X2, rfl, g1, g2⟩ := split_sorted tr hw.le_total sX (p := fun x => !comp v x) (fun a b hab hb => tr a b v hab hb)
    rw [hsp, List.pairwise_append, List.pairwise_cons] at sY
    obtain ⟨dt, e1, e2⟩ := add hE hr hc (i := j) (d := Y.length / 2) (by omega) hm
    have c1 : Contents E o m ((A ++ ((X1 ++ X2) ++ Y.take (Y.length / 2))) ++ v :: (Y2 ++ B)) := by
      have := hc; rw [hsp] at this; simpa using this
    rw [bind_ok e1, bind_ok (deref hE hr c1 (by simp at hj ⊢; omega) e2)]
    obtain ⟨ct, e3, e4⟩ := bound' hE hr (A := A) (X := X1) (Y := X2) (B := Y ++ B) (q := fun x => !comp v x) (by simpa using hc)
      hi (by simp at hj ⊢; omega) hn hm g1 g2 (by simp at hl ⊢; simp at hW; omega)
    unfold std_upper_bound
    rw [bind_ok e3]
    have hd : (it_diff E ct it).toNat = X1.length := by
      rw [C20_diff hE hr hc (by simp only [List.length_append]; omega) (by simp only [List.length_append] at hi ⊢; omega) e4 hn hW]; omega
    have := key X1 X2 _ _ rfl hsp (fun a ha b hb => by
        have h1 : before comp a v = true := by simpa [before] using g1 a ha
        rcases List.mem_cons.1 hb with rfl | hb
        · exact h1
        · exact tr a v b h1 (sY.2.1.1 b hb))
      (fun a ha b hb => by
        by_contra h
        have := tr a b v (by simpa using h) (sY.2.2 b hb v (by simp))
        simp [before] at this
        have h5 := g2 a ha
        simp [this] at h5) (by rw [l1]; simp only [List.length_append] at hlen h0 h2 h3; omega)
      (by rw [l2]; simp only [List.length_append] at hlen h0 h2 h3; omega) (ct := ct) (dt := dt)
      e4 (by rw [l1, ← hj]; exact e2)
    rw [l1, l2] at this
    simpa [hd] using this

/-! ### Insertion sort -/

theorem move_backward (hE : E.Good) (Z : List α) : ∀ {A B : List α} {h : α} {m : Mem α} {i j k : Nat} {it jt kt : Iter},
    Reach E m → Contents E o m (A ++ (Z ++ h :: B)) → i = A.length → j = A.length + Z.length → k = A.length + Z.length + 1 →
    nth E o i m = .ok it m → nth E o j m = .ok jt m → nth E o k m = .ok kt m →
    ∃ g m', std_move_backward E it jt kt m = .ok () m' ∧ Rewrote E o m m' (A ++ g :: (Z ++ B)) := by
  induction Z using List.reverseRecOn with
  | nil =>
    intro A B h m i j k it jt kt hr hc hi hj hk hn hm hp
    rw [std_move_backward, nth_pos hE hr hc (by simp; omega) hn, nth_pos hE hr hc (by simp at hj ⊢; omega) hm,
      if_neg (by simp at hj; omega)]
    exact ⟨h, m, rfl, stay hr (by simpa using hc)⟩
  | append_singleton Z z ih =>
    intro A B h m i j k it jt kt hr hc hi hj hk hn hm hp
    simp only [List.length_append, List.length_cons, List.length_nil] at hj hk
    have hl : (A ++ ((Z ++ [z]) ++ h :: B)).length = A.length + (Z.length + B.length + 2) := by simp; omega
    rw [std_move_backward, nth_pos hE hr hc (by omega) hn, nth_pos hE hr hc (by omega) hm, if_pos (by omega)]
    obtain ⟨kt', e1, e2⟩ := C18_prev hE hr hc (by omega) (by omega) hp
    obtain ⟨jt', e3, e4⟩ := C18_prev hE hr hc (by omega) (by omega) hm
    obtain ⟨m1, e5, e6⟩ := move_up hE hr (A := A ++ Z) (B := []) (x := z) (y := h) (C := B) (by simpa using hc)
      (by simp; omega) (by simp; omega) e4 e2
    obtain ⟨g, m2, e7, e8⟩ := ih (A := A) (B := z :: B) (h := E.moved z) (i := i) (j := j - 1) (k := k - 1) e6.reach
      (by simpa using e6.elems) hi (by omega) (by omega) (e6.rest.iters _ _ hn) (e6.rest.iters _ _ e4) (e6.rest.iters _ _ e2)
    exact ⟨g, m2, by rw [bind_ok e1, bind_ok e3, bind_ok e5, e7], again e6 (by simpa using e8)⟩

theorem insert_loop (hE : E.Good) (hx : comp v x = false) (Z : List α) : ∀ {A B : List α} {h : α} {m : Mem α} {i j : Nat}
    {it jt : Iter}, Reach E m → Contents E o m (A ++ x :: (Z ++ h :: B)) → (∀ z ∈ Z, comp v z = true) →
    j = A.length + Z.length → i = A.length + Z.length + 1 → nth E o i m = .ok it m → nth E o j m = .ok jt m →
    ∃ m', linear_insert_loop E comp v it jt m = .ok () m' ∧ Rewrote E o m m' (A ++ x :: v :: (Z ++ B)) := by
  induction Z using List.reverseRecOn with
  | nil =>
    intro A B h m i j it jt hr hc hz hj hi hn hm
    obtain ⟨m', h1, h2⟩ := write hE hr (A := A ++ [x]) (x := h) (B := B) (by simpa using hc) (by simpa using hi) hn v
    refine ⟨m', ?_, by simpa using h2⟩
    rw [linear_insert_loop, bind_ok (deref hE hr hc (by simpa using hj) hm), hx]
    exact h1
  | append_singleton Z z ih =>
    intro A B h m i j it jt hr hc hz hj hi hn hm
    simp only [List.length_append, List.length_cons, List.length_nil] at hj hi
    have hc' : Contents E o m ((A ++ x :: Z) ++ z :: ([] ++ h :: B)) := by simpa using hc
    rw [linear_insert_loop, bind_ok (deref hE hr hc' (by simp; omega) hm), hz z (by simp)]
    obtain ⟨m1, e1, e2⟩ := move_up hE hr hc' (by simp; omega) (by simp; omega) hm hn
    have hl : ((A ++ x :: Z) ++ E.moved z :: ([] ++ z :: B)).length = A.length + (Z.length + B.length + 3) := by
      simp; omega
    obtain ⟨bt, e3, e4⟩ := C18_prev hE e2.reach e2.elems (by omega) (by omega) (e2.rest.iters _ _ hm)
    obtain ⟨m2, e5, e6⟩ := ih (A := A) (B := z :: B) (h := E.moved z) (i := j) (j := j - 1) e2.reach (by simpa using e2.elems)
      (fun y hy => hz y (by simp [hy])) (by omega) (by omega) (e2.rest.iters _ _ hm) e4
    exact ⟨m2, by rw [if_pos rfl, bind_ok e1, bind_ok e3, e5], again e2 (by simpa using e6)⟩

theorem insert_one (hE : E.Good) (hr : Reach E m) (hc : Contents E o m (A ++ ((X ++ Y) ++ v :: B))) (hX : X ≠ [])
    (h1 : ∀ x ∈ X, comp v x = false) (h2 : ∀ y ∈ Y, comp v y = true) (hi : i = A.length + (X.length + Y.length))
    (hn : nth E o i m = .ok it m) :
    ∃ m', linear_insert E comp it m = .ok () m' ∧ Rewrote E o m m' (A ++ ((X ++ v :: Y) ++ B)) := by
  obtain ⟨X, x, rfl⟩ : ∃ X' x, X = X' ++ [x] := ⟨_, _, (List.dropLast_append_getLast hX).symm⟩
  simp only [List.length_append, List.length_cons, List.length_nil] at hi
  obtain ⟨m1, e1, e2⟩ := take hE hr (A := A ++ ((X ++ [x]) ++ Y)) (x := v) (B := B) (by simpa using hc) (by simp; omega) hn
  have hl : (A ++ ((X ++ [x]) ++ Y) ++ E.moved v :: B).length = A.length + (X.length + Y.length + B.length + 2) := by
    simp; omega
  obtain ⟨jt, e3, e4⟩ := C18_prev hE e2.reach e2.elems (by omega) (by omega) (e2.rest.iters _ _ hn)
  obtain ⟨m2, e5, e6⟩ := insert_loop (comp := comp) hE (h1 x (by simp)) Y (A := A ++ X) (B := B) (h := E.moved v) (i := i) (j := i - 1)
    e2.reach (by simpa using e2.elems) h2 (by simp; omega) (by simp; omega) (e2.rest.iters _ _ hn) e4
  exact ⟨m2, by unfold linear_insert; rw [bind_ok e1, bind_ok e3, e5], again e2 (by simpa using e6)⟩

theorem sort_loop (hE : E.Good) (hw : StrictWeak comp) : ∀ (R : List α) {P A B : List α} {m : Mem α} {i j k : Nat} {it jt kt : Iter},
    Reach E m → Contents E o m (A ++ (P.mergeSort (before comp) ++ (R ++ B))) → P ≠ [] → i = A.length → j = A.length + P.length →
    k = A.length + (P.length + R.length) → nth E o i m = .ok it m → nth E o j m = .ok jt m → nth E o k m = .ok kt m →
    ∃ m', insertion_sort_loop E comp it jt kt m = .ok () m' ∧
      Rewrote E o m m' (A ++ ((P ++ R).mergeSort (before comp) ++ B))
  | [], P, A, B, m, i, j, k, it, jt, kt, hr, hc, hP, hi, hj, hk, hn, hm, hp => by
    have hs : (P.mergeSort (before comp)).length = P.length := List.length_mergeSort _
    rw [insertion_sort_loop, nth_pos hE hr hc (by simp; omega) hm, nth_pos hE hr hc (by simp at hk ⊢; omega) hp,
      if_neg (by simp at hk; omega)]
    exact ⟨m, rfl, stay hr (by simpa using hc)⟩
  | v :: R, P, A, B, m, i, j, k, it, jt, kt, hr, hc, hP, hi, hj, hk, hn, hm, hp => by
    have tr : ∀ a b c, before comp a b = true → before comp b c = true → before comp a c = true := hw.le_trans
    have hs : (P.mergeSort (before comp)).length = P.length := List.length_mergeSort _
    have hs' : ((P ++ [v]).mergeSort (before comp)).length = P.length + 1 := by rw [List.length_mergeSort]; simp
    have hsrt : (P.mergeSort (before comp)).Pairwise (fun a b => before comp a b = true) := List.pairwise_mergeSort tr hw.le_total P
    have hone : (P ++ [v]).mergeSort (before comp) = (P.mergeSort (before comp)).merge [v] (before comp) := by
      rw [mergeSort_append tr hw.le_total, List.mergeSort_singleton]
    simp only [List.length_cons] at hk
    have hl : (A ++ (P.mergeSort (before comp) ++ (v :: R ++ B))).length = A.length + (P.length + (R.length + 1 + B.length)) := by
      simp; omega
    rw [insertion_sort_loop, nth_pos hE hr hc (by omega) hm, nth_pos hE hr hc (by omega) hp, if_pos (by omega)]
    obtain ⟨at', e1, e2⟩ := C18_next hE hr hc (by omega) hm
    -- what one turn of the loop does
    have step : ∃ m1, (do
        let x ← dereference E jt
        let y ← dereference E it
        let after ← move_next_iterator E jt
        if comp x y then
          let v ← moveFrom E jt.entry.seg.ptr jt.entry.seg.idx
          std_move_backward E it jt after
          deref_set_rv E it v
        else linear_insert E comp jt
        insertion_sort_loop E comp it after kt : M α Unit) m = insertion_sort_loop E comp it at' kt m1 ∧
        Rewrote E o m m1 (A ++ ((P ++ [v]).mergeSort (before comp) ++ (R ++ B))) := by
      generalize P.mergeSort (before comp) = Q at *
      obtain ⟨y, Q, rfl⟩ : ∃ y Q', Q = y :: Q' := by
        cases Q with
        | nil => exact absurd (List.length_eq_zero_iff.1 hs.symm) hP
        | cons y Q => exact ⟨_, _, rfl⟩
      rw [bind_ok (deref hE hr (A := A ++ y :: Q) (x := v) (B := R ++ B) (by simpa using hc) (by simp at hs ⊢; omega) hm),
        bind_ok (deref hE hr (A := A) (x := y) (B := Q ++ (v :: R ++ B)) (by simpa using hc) hi hn), bind_ok e1]
      by_cases h : comp v y = true
      · rw [if_pos h]
        obtain ⟨m1, f1, f2⟩ := take hE hr (A := A ++ y :: Q) (x := v) (B := R ++ B) (by simpa using hc) (by simp at hs ⊢; omega) hm
        obtain ⟨g, m2, f3, f4⟩ := move_backward hE (y :: Q) (A := A) (B := R ++ B) (h := E.moved v) (i := i) (j := j) (k := j + 1)
          f2.reach (by simpa using f2.elems) hi (by rw [hs]; exact hj) (by rw [hs]; omega) (f2.rest.iters _ _ hn)
          (f2.rest.iters _ _ hm) (f2.rest.iters _ _ e2)
        have f5 := again f2 f4
        obtain ⟨m3, f6, f7⟩ := write hE f5.reach f5.elems hi (f5.rest.iters _ _ hn) v
        refine ⟨m3, ?_, again f5 ?_⟩
        · rw [bind_ok f1, bind_ok f3, bind_ok f6]
        · have := merge_one (le := before comp) (x1 := []) (x2 := y :: Q) (v := v) (by simp) (fun a ha => by
            by_contra hc
            have hya : before comp y a = true := by
              rcases List.mem_cons.1 ha with rfl | ha
              · simp [before, hw.irrefl]
              · exact (List.pairwise_cons.1 hsrt).1 a ha
            have := tr y a v hya (by simpa using hc)
            simp [before, h] at this)
          rw [hone, show (y :: Q).merge [v] (before comp) = v :: y :: Q from this]
          simpa using f7
      · rw [if_neg h]
        obtain ⟨X, Y, e3, g1, g2⟩ := split_sorted tr hw.le_total hsrt (p := fun x => !comp v x)
          (fun a b hab hb => tr a b v hab hb)
        have hX : X ≠ [] := by
          rintro rfl
          have := g2 y (by rw [List.nil_append] at e3; rw [← e3]; simp)
          simp [h] at this
        rw [e3] at hc hs
        simp only [List.length_append] at hs
        obtain ⟨m1, f1, f2⟩ := insert_one (comp := comp) hE hr (v := v) (B := R ++ B) (A := A) (X := X) (Y := Y) (by simpa using hc) hX
          (fun x hx => by simpa using g1 x hx) (fun x hx => by simpa using g2 x hx) (by omega) hm
        refine ⟨m1, bind_ok f1, ?_⟩
        rw [hone, e3, merge_one g1 g2]
        exact f2
    obtain ⟨m1, f1, f2⟩ := step
    obtain ⟨m2, f3, f4⟩ := sort_loop hE hw R (P := P ++ [v]) (A := A) (B := B) (i := i) (j := j + 1) (k := k) f2.reach
      f2.elems (by simp) hi (by simp; omega) (by simp; omega) (f2.rest.iters _ _ hn) (f2.rest.iters _ _ e2)
      (f2.rest.iters _ _ hp)
    exact ⟨m2, by rw [f1, f3], again f2 (by simpa using f4)⟩

theorem insertion (hE : E.Good) (hw : StrictWeak comp) (hr : Reach E m) (hc : Contents E o m (A ++ (X ++ B)))
    (hi : i = A.length) (hj : j = A.length + X.length) (hn : nth E o i m = .ok it m) (hm : nth E o j m = .ok jt m) :
    ∃ m', insertion_sort E comp it jt m = .ok () m' ∧ Rewrote E o m m' (A ++ (X.mergeSort (before comp) ++ B)) := by
  have hl : (A ++ (X ++ B)).length = A.length + (X.length + B.length) := by simp
  unfold insertion_sort
  rw [nth_pos hE hr hc (by omega) hn, nth_pos hE hr hc (by omega) hm]
  cases X with
  | nil => rw [if_pos (by simp at hj; omega)]; exact ⟨m, rfl, stay hr (by simpa using hc)⟩
  | cons x X =>
    simp only [List.length_cons] at hj hl
    rw [if_neg (by omega)]
    obtain ⟨kt, e1, e2⟩ := C18_next hE hr hc (by omega) hn
    obtain ⟨m', e3, e4⟩ := sort_loop hE hw X (P := [x]) (A := A) (B := B) (i := i) (j := i + 1) (k := j) hr
      (by simpa using hc) (by simp) hi (by simp; omega) (by simp; omega) hn e2 hm
    exact ⟨m', by rw [bind_ok e1, e3], e4⟩

/-! ### `std::stable_sort` -/

theorem stable (hE : E.Good) (hw : StrictWeak comp) : ∀ (n : Nat) {X A B : List α} {m : Mem α} {i j : Nat} {it jt : Iter},
    X.length = n → Reach E m → Contents E o m (A ++ (X ++ B)) → i = A.length → j = A.length + X.length →
    nth E o i m = .ok it m → nth E o j m = .ok jt m → 2 * (A ++ (X ++ B)).length < E.W →
    ∃ m', inplace_stable_sort E comp it jt m = .ok () m' ∧ Rewrote E o m m' (A ++ (X.mergeSort (before comp) ++ B)) := by
  intro n
  induction n using Nat.strong_induction_on with
  | _ n ih =>
  intro X A B m i j it jt hX hr hc hi hj hn hm hW
  have hl : (A ++ (X ++ B)).length = A.length + (X.length + B.length) := by simp
  have hd : it_diff E jt it = (X.length : Int) := by
    rw [C20_diff hE hr hc (by omega) (by omega) hm hn hW]; omega
  rw [inplace_stable_sort, hd]
  by_cases h : (X.length : Int) < 15
  · rw [if_pos h]
    exact insertion hE hw hr hc hi hj hn hm
  · rw [if_neg h]
    obtain ⟨kt, e1, e2⟩ := add hE hr hc (i := i) (d := X.length / 2) (by omega) hn
    rw [show ((X.length : Int) / 2) = ((X.length / 2 : Nat) : Int) by omega, bind_ok e1]
    obtain ⟨X1, X2, rfl, l1⟩ : ∃ X1 X2, X = X1 ++ X2 ∧ X1.length = X.length / 2 :=
      ⟨_, _, (List.take_append_drop (X.length / 2) X).symm, by rw [List.length_take]; omega⟩
    rw [← l1] at e2
    simp only [List.length_append] at hl hj h l1 hX hW
    obtain ⟨m1, e3, e4⟩ := ih _ (by omega) (X := X1) (A := A) (B := X2 ++ B) rfl hr (by simpa using hc) hi rfl hn
      (by rw [← hi]; exact e2) (by simp only [List.length_append]; omega)
    have s1 : (X1.mergeSort (before comp)).length = X1.length := List.length_mergeSort _
    have s2 : (X2.mergeSort (before comp)).length = X2.length := List.length_mergeSort _
    obtain ⟨m2, e5, e6⟩ := ih _ (by omega) (X := X2) (A := A ++ X1.mergeSort (before comp)) (B := B) rfl e4.reach
      (by simpa using e4.elems) (i := i + X1.length) (j := j) (by rw [List.length_append]; omega)
      (by rw [List.length_append]; omega) (e4.rest.iters _ _ e2) (e4.rest.iters _ _ hm)
      (by simp only [List.length_append]; omega)
    have e6 := again e4 e6
    have c6 : Contents E o m2 (A ++ (X1.mergeSort (before comp) ++ (X2.mergeSort (before comp) ++ B))) := by simpa using e6.elems
    have hW6 : 2 * (A ++ (X1.mergeSort (before comp) ++ (X2.mergeSort (before comp) ++ B))).length < E.W := by
      simp only [List.length_append]; omega
    have l6 : (A ++ (X1.mergeSort (before comp) ++ (X2.mergeSort (before comp) ++ B))).length =
        A.length + (X1.length + (X2.length + B.length)) := by simp only [List.length_append]; omega
    have d1 : (it_diff E kt it).toNat = (X1.mergeSort (before comp)).length := by
      rw [C20_diff hE e6.reach c6 (by omega) (by omega) (e6.rest.iters _ _ e2) (e6.rest.iters _ _ hn) hW6]; omega
    have d2 : (it_diff E jt kt).toNat = (X2.mergeSort (before comp)).length := by
      rw [C20_diff hE e6.reach c6 (by omega) (by omega) (e6.rest.iters _ _ hm) (e6.rest.iters _ _ e2) hW6]; omega
    obtain ⟨m3, e7, e8⟩ := merge_buf hE hw _ rfl e6.reach c6 hi (j := i + X1.length) (k := j) (by omega) (by omega)
      (e6.rest.iters _ _ hn) (e6.rest.iters _ _ e2) (e6.rest.iters _ _ hm)
      (sorted_iff.2 (List.pairwise_mergeSort hw.le_trans hw.le_total X1))
      (sorted_iff.2 (List.pairwise_mergeSort hw.le_trans hw.le_total X2)) hW6
    refine ⟨m3, by rw [bind_ok e3, bind_ok e5, d1, d2, e7], again e6 ?_⟩
    rw [mergeSort_append hw.le_trans hw.le_total]
    exact e8

end Sorting

/-! ### Theorems -/

section
variable (hE : E.Good) (hr : Reach E m) (hc : Contents E o m xs)
include hE hr hc

theorem Sorting.cut (hij : i ≤ j) (hj : j ≤ xs.length) : xs = xs.take i ++ (slice xs i j ++ xs.drop j) ∧
    (xs.take i).length = i ∧ (slice xs i j).length = j - i := by
  refine ⟨?_, by rw [List.length_take]; omega, by unfold slice; rw [List.length_drop, List.length_take]; omega⟩
  have h1 : xs.take i = (xs.take j).take i := by rw [List.take_take, Nat.min_eq_left hij]
  unfold slice
  rw [h1, ← List.append_assoc, List.take_append_drop, List.take_append_drop]

omit hE hr hc in
theorem Sorting.slice_append (hij : i ≤ j) (hjk : j ≤ k) (hk : k ≤ xs.length) :
    slice xs i k = slice xs i j ++ slice xs j k := by
  unfold slice
  rw [show (xs.take j).drop i = ((xs.take k).take j).drop i by rw [List.take_take, Nat.min_eq_left hjk]]
  have : ((xs.take k).drop i) = ((xs.take k).take j).drop i ++ ((xs.take k).drop j) := by
    conv_lhs => rw [← List.take_append_drop j (xs.take k)]
    rw [List.drop_append_of_le_length (by simp; omega)]
  exact this

/-- C93: `std::reverse(nth(i), nth(j))` -/
theorem C93_reverse (hij : i ≤ j) (hj : j ≤ xs.length) (hn : nth E o i m = .ok it m) (hm : nth E o j m = .ok jt m) :
    ∃ m', std_reverse E it jt m = .ok () m' ∧
      Rewrote E o m m' (xs.take i ++ (slice xs i j).reverse ++ xs.drop j) := by
  obtain ⟨h1, h2, h3⟩ := Sorting.cut hE hr hc hij hj
  rw [h1] at hc
  obtain ⟨m', e1, e2⟩ := Sorting.reverse hE hr hc h2.symm (by omega) hn hm
  exact ⟨m', e1, by simpa using e2⟩

/-- C93: `std::rotate(nth(i), nth(j), nth(k))` exchanges the two parts and returns the
position where the first part now begins, with and without the shortcuts for `__is_pod`
types. -/
theorem C93_rotate_any (pod : Bool) (hij : i ≤ j) (hjk : j ≤ k) (hk : k ≤ xs.length) (hn : nth E o i m = .ok it m)
    (hm : nth E o j m = .ok jt m) (hp : nth E o k m = .ok kt m) (hW : 2 * xs.length < E.W) :
    ∃ qt m', rotate_random E pod it jt kt m = .ok qt m' ∧ nth E o (i + (k - j)) m' = .ok qt m' ∧
      Rewrote E o m m' (xs.take i ++ (slice xs j k ++ slice xs i j) ++ xs.drop k) := by
  obtain ⟨h1, h2, h3⟩ := Sorting.cut hE hr hc (Nat.le_trans hij hjk) hk
  have h4 := (Sorting.cut hE hr hc hij (by omega)).2.2
  have h5 := (Sorting.cut hE hr hc hjk hk).2.2
  rw [Sorting.slice_append hij hjk hk] at h1
  rw [h1, List.append_assoc] at hc hW
  obtain ⟨qt, m', e1, e2, e3⟩ := Sorting.rotate_any (pod := pod) hE hr hc h2.symm (by omega) (by omega) hn hm hp hW
  exact ⟨qt, m', e1, by rwa [h2, h5] at e2, by simpa using e3⟩

/-- C93: the same of `std::rotate` as it is called by `merge` and `sort` without a buffer -/
theorem C93_rotate (hij : i ≤ j) (hjk : j ≤ k) (hk : k ≤ xs.length) (hn : nth E o i m = .ok it m)
    (hm : nth E o j m = .ok jt m) (hp : nth E o k m = .ok kt m) (hW : 2 * xs.length < E.W) :
    ∃ qt m', std_rotate E it jt kt m = .ok qt m' ∧ nth E o (i + (k - j)) m' = .ok qt m' ∧
      Rewrote E o m m' (xs.take i ++ (slice xs j k ++ slice xs i j) ++ xs.drop k) :=
  C93_rotate_any hE hr hc E.trivCopy hij hjk hk hn hm hp hW

/-- C93: `std::lower_bound(nth(i), nth(j), v, comp)` on a sorted range returns the first
position whose element is not less than `v`. -/
theorem C93_lower_bound (hw : StrictWeak comp) (hij : i ≤ j) (hj : j ≤ xs.length) (hs : SortedBy comp (slice xs i j))
    (hn : nth E o i m = .ok it m) (hm : nth E o j m = .ok jt m) (hW : 2 * xs.length < E.W) (v : α) :
    ∃ p qt, std_lower_bound E comp it jt v m = .ok qt m ∧ nth E o p m = .ok qt m ∧ i ≤ p ∧ p ≤ j ∧
      (∀ x ∈ slice xs i p, comp x v = true) ∧ (∀ x ∈ slice xs p j, comp x v = false) := by
  obtain ⟨h1, h2, h3⟩ := Sorting.cut hE hr hc hij hj
  obtain ⟨X, Y, e, g1, g2⟩ := Sorting.split_sorted hw.le_trans hw.le_total (Sorting.sorted_iff.1 hs) (p := fun y => comp y v)
    (fun a b hab hb => by
      by_contra h
      have := hw.le_trans v a b (by simpa using h) hab
      simp [hb] at this)
  have hl : X.length + Y.length = j - i := by rw [← List.length_append, ← e, h3]
  have hc' := hc
  rw [h1, e, List.append_assoc] at hc'
  obtain ⟨qt, e1, e2⟩ := Sorting.bound' hE hr hc' (q := fun y => comp y v) h2.symm (by omega) hn hm g1 g2
    (by simp; omega)
  rw [h2] at e2
  have h4 := Sorting.slice_append (xs := xs) (i := i) (j := i + X.length) (k := j) (by omega) (by omega) hj
  have h5 := (Sorting.cut hE hr hc (i := i) (j := i + X.length) (by omega) (by omega)).2.2
  obtain ⟨k1, k2⟩ := List.append_inj (e.symm.trans h4) (by omega)
  exact ⟨i + X.length, qt, e1, e2, by omega, by omega, k1 ▸ g1, k2 ▸ g2⟩

/-- C93: `std::upper_bound(nth(i), nth(j), v, comp)` on a sorted range returns the first
position whose element is greater than `v`. -/
theorem C93_upper_bound (hw : StrictWeak comp) (hij : i ≤ j) (hj : j ≤ xs.length) (hs : SortedBy comp (slice xs i j))
    (hn : nth E o i m = .ok it m) (hm : nth E o j m = .ok jt m) (hW : 2 * xs.length < E.W) (v : α) :
    ∃ p qt, std_upper_bound E comp it jt v m = .ok qt m ∧ nth E o p m = .ok qt m ∧ i ≤ p ∧ p ≤ j ∧
      (∀ x ∈ slice xs i p, comp v x = false) ∧ (∀ x ∈ slice xs p j, comp v x = true) := by
  obtain ⟨h1, h2, h3⟩ := Sorting.cut hE hr hc hij hj
  obtain ⟨X, Y, e, g1, g2⟩ := Sorting.split_sorted hw.le_trans hw.le_total (Sorting.sorted_iff.1 hs) (p := fun y => !comp v y)
    (fun a b hab hb => hw.le_trans a b v hab hb)
  have hl : X.length + Y.length = j - i := by rw [← List.length_append, ← e, h3]
  have hc' := hc
  rw [h1, e, List.append_assoc] at hc'
  obtain ⟨qt, e1, e2⟩ := Sorting.bound' hE hr hc' (q := fun y => !comp v y) h2.symm (by omega) hn hm g1 g2
    (by simp; omega)
  rw [h2] at e2
  have h4 := Sorting.slice_append (xs := xs) (i := i) (j := i + X.length) (k := j) (by omega) (by omega) hj
  have h5 := (Sorting.cut hE hr hc (i := i) (j := i + X.length) (by omega) (by omega)).2.2
  obtain ⟨k1, k2⟩ := List.append_inj (e.symm.trans h4) (by omega)
  exact ⟨i + X.length, qt, e1, e2, by omega, by omega, fun x hx => by simpa using g1 x (k1 ▸ hx),
    fun x hx => by simpa using g2 x (k2 ▸ hx)⟩

/-- C93: the in-place stable sort of a range: it returns, the range then holds a sorted
permutation of what it held that is stable (every subsequence that was in order is
still one), and nothing else is different. -/
theorem C93_stable_sort (hw : StrictWeak comp) (hij : i ≤ j) (hj : j ≤ xs.length) (hn : nth E o i m = .ok it m)
    (hm : nth E o j m = .ok jt m) (hW : 2 * xs.length < E.W) :
    ∃ m' zs, inplace_stable_sort E comp it jt m = .ok () m' ∧ Rewrote E o m m' (xs.take i ++ zs ++ xs.drop j) ∧
      zs.Perm (slice xs i j) ∧ SortedBy comp zs ∧ ∀ ws, SortedBy comp ws → ws.Sublist (slice xs i j) → ws.Sublist zs := by
  obtain ⟨h1, h2, h3⟩ := Sorting.cut hE hr hc hij hj
  have hc' := hc
  rw [h1] at hc'
  obtain ⟨m', e1, e2⟩ := Sorting.stable hE hw _ rfl hr hc' h2.symm (by omega) hn hm (by rw [← h1]; exact hW)
  exact ⟨m', _, e1, by simpa using e2, List.mergeSort_perm _ _,
    Sorting.sorted_iff.2 (List.pairwise_mergeSort hw.le_trans hw.le_total _),
    fun ws h4 h5 => List.sublist_mergeSort hw.le_trans hw.le_total (Sorting.sorted_iff.1 h4) h5⟩

/-- C93: the in-place merge of two sorted neighbouring ranges: they then hold, together,
the stable merge of the two, sorted, and nothing else is different. -/
theorem C93_inplace_merge (hw : StrictWeak comp) (hij : i ≤ j) (hjk : j ≤ k) (hk : k ≤ xs.length) (hn : nth E o i m = .ok it m)
    (hm : nth E o j m = .ok jt m) (hp : nth E o k m = .ok kt m) (h1 : SortedBy comp (slice xs i j))
    (h2 : SortedBy comp (slice xs j k)) (hW : 2 * xs.length < E.W) :
    ∃ m' zs, inplace_merge E comp it jt kt m = .ok () m' ∧ Rewrote E o m m' (xs.take i ++ zs ++ xs.drop k) ∧
      zs = (slice xs i j).merge (slice xs j k) (fun a b => !comp b a) ∧ SortedBy comp zs ∧
      zs.Perm (slice xs i j ++ slice xs j k) ∧ (slice xs i j).Sublist zs ∧ (slice xs j k).Sublist zs := by
  obtain ⟨g1, g2, g3⟩ := Sorting.cut hE hr hc (Nat.le_trans hij hjk) hk
  have g4 := (Sorting.cut hE hr hc hij (by omega)).2.2
  have g5 := (Sorting.cut hE hr hc hjk hk).2.2
  rw [Sorting.slice_append hij hjk hk, List.append_assoc] at g1
  have hc' := hc
  rw [g1] at hc'
  suffices h : ∃ m', inplace_merge E comp it jt kt m = .ok () m' ∧
      Rewrote E o m m' (xs.take i ++ ((slice xs i j).merge (slice xs j k) (Sorting.before comp) ++ xs.drop k)) by
    obtain ⟨m', e1, e2⟩ := h
    exact ⟨m', _, e1, by simpa using e2, rfl, Sorting.merge_sorted hw h1 h2, List.merge_perm_append _,
      (sublist_merge _ _).1, (sublist_merge _ _).2⟩
  unfold inplace_merge
  rw [nth_pos hE hr hc (by omega) hn, nth_pos hE hr hc (by omega) hm, nth_pos hE hr hc hk hp]
  by_cases h0 : i = j ∨ j = k
  · rw [if_pos h0]
    refine ⟨m, rfl, Sorting.stay hr ?_⟩
    rcases h0 with rfl | rfl
    · have h6 : slice xs i i = [] := List.length_eq_zero_iff.1 (by omega)
      rw [h6] at hc' ⊢
      rw [Sorting.merge_nil_left]; exact hc'
    · have h6 : slice xs j j = [] := List.length_eq_zero_iff.1 (by omega)
      rw [h6] at hc' ⊢
      rw [List.merge_right]; exact hc'
  · rw [if_neg h0, C20_diff hE hr hc (by omega) (by omega) hm hn hW, C20_diff hE hr hc hk (by omega) hp hm hW,
      show ((j : Int) - (i : Int)).toNat = (slice xs i j).length by omega,
      show ((k : Int) - (j : Int)).toNat = (slice xs j k).length by omega]
    exact Sorting.merge_buf hE hw _ rfl hr hc' g2.symm (by omega) (by omega) hn hm hp h1 h2 (by rw [← g1]; exact hW)

/-- C93: `sort(comp)` with the in-place stable sort returns, and leaves the container with
the sequence that `sort(comp)` by the contract of `std::stable_sort` leaves, every
iterator, the height, the allocator, all other containers and all memory as they were. -/
theorem C93_sort (hw : StrictWeak comp) (hW : 2 * xs.length < E.W) :
    ∃ m1 m2 zs, sort E o comp m = .ok () m1 ∧ sort_inplace E comp o m = .ok () m2 ∧ Contents E o m1 zs ∧ Rewrote E o m m2 zs ∧
      zs.Perm xs ∧ SortedBy comp zs ∧ ∀ ws, SortedBy comp ws → ws.Sublist xs → ws.Sublist zs := by
  obtain ⟨b, e, b1, b2, e1, e2⟩ := hr.ends hE hc
  obtain ⟨m2, h1, h2⟩ := Sorting.stable hE hw _ rfl hr (A := []) (X := xs) (B := []) (by simpa using hc) rfl (by simp) b2 e2
    (by simpa using hW)
  obtain ⟨al, s, F, hs, rfl, H⟩ := hr.cont hE hc
  obtain ⟨m1, s', h3, hrw, H'⟩ := sort_c (comp := comp) hs H
  refine ⟨m1, m2, _, h3, ?_, hrw.elems ▸ cont_contents hrw.ok H', by simpa using h2, List.mergeSort_perm _ _,
    Sorting.sorted_iff.2 (List.pairwise_mergeSort hw.le_trans hw.le_total _),
    fun ws h4 h5 => List.sublist_mergeSort hw.le_trans hw.le_total (Sorting.sorted_iff.1 h4) h5⟩
  unfold sort_inplace
  rw [bind_ok b1, bind_ok e1, h1]

/-- C93: `merge(other, comp)` of sorted containers with the in-place merge: it throws
exactly when the one by contract throws, leaving the same memory, and returns when
that returns, leaving the same two sequences. -/
theorem C93_merge (hd : Contents E p m ys) (hne : o ≠ p) (hw : StrictWeak comp) (hsz : xs.length + ys.length ≤ max_size E)
    (hW : 2 * (xs.length + ys.length) < E.W) (h1 : SortedBy comp xs) (h2 : SortedBy comp ys) :
    (∃ m1 m2 zs, merge E o p comp m = .ok () m1 ∧ merge_inplace E comp o p m = .ok () m2 ∧ Reach E m2 ∧
      Contents E o m1 zs ∧ Contents E o m2 zs ∧ Contents E p m1 [] ∧ Contents E p m2 [] ∧
      zs = xs.merge ys (fun a b => !comp b a) ∧ SortedBy comp zs) ∨
    (∃ m', merge E o p comp m = .throw .alloc m' ∧ merge_inplace E comp o p m = .throw .alloc m' ∧ Reach E m') := by
  obtain ⟨-, e, -, -, e1, e2⟩ := hr.ends hE hc
  obtain ⟨f, l, f1, f2, l1, l2⟩ := hr.ends hE hd
  obtain ⟨S, al, hv, ho, -⟩ := hr.view hE hc
  obtain ⟨al2, hp⟩ : ∃ al2, S p = some ⟨al2, ys⟩ := by
    have := hv p
    cases hS : S p with
    | none => rw [hS] at this; exact absurd this (size_some hd.1)
    | some x =>
      rw [hS] at this
      exact ⟨x.alloc, by rw [hd.unique this.2]⟩
  have hop : (Op.bin o p (.spliceRange xs.length 0 ys.length)).run E m =
      (do splice_range E o e p f l; return .unit : M α (Ret α)) m := by
    have : (do let it ← nth E o xs.length; let first ← nth E p 0; let last ← nth E p ys.length
               splice_range E o it p first last : M α Unit) m = splice_range E o e p f l m := by
      rw [bind_ok e2, bind_ok f2, bind_ok l2]
    show M.bind _ _ _ = M.bind _ _ _
    unfold M.bind
    rw [this]
  have hpre : (Op.bin o p (.spliceRange xs.length 0 ys.length)).Pre E S :=
    ⟨hne, _, _, ho, hp, Nat.le_refl _, Nat.zero_le _, Nat.le_refl _, by rw [Nat.sub_zero]; exact hsz⟩
  have start1 : merge E o p comp m = (do
      splice_range E o e p f l
      let b ← begin_ E o
      let mid ← nth E o xs.length
      let e ← end_ E o
      std_inplace_merge E comp b mid e : M α Unit) m := by
    unfold merge
    rw [bind_ok (x := getSize o) hc.1, bind_ok e1, bind_ok f1, bind_ok l1]
  have start2 : merge_inplace E comp o p m = (do
      splice_range E o e p f l
      let b ← begin_ E o
      let mid ← nth E o xs.length
      let e ← end_ E o
      inplace_merge E comp b mid e : M α Unit) m := by
    unfold merge_inplace
    rw [bind_ok (x := getSize o) hc.1, bind_ok e1, bind_ok f1, bind_ok l1]
  rw [start1, start2]
  rcases C04_progress hE hr hv hpre with ⟨r, m1, S', k1, k2, k3⟩ | ⟨x, m1, S', k1, k2, k3⟩
  · left
    have hr1 : Reach E m1 := .ret hr hv hpre k1
    rw [hop] at k1
    obtain ⟨u, m2, k4, k5⟩ := bind_inv k1
    cases k5
    obtain ⟨c1, c2⟩ := C35_splice_range hE hr hc hd hne (Nat.le_refl _) e2 (Nat.zero_le _) (Nat.le_refl _) f2 l2
      (by rw [Nat.sub_zero]; exact hsz) k4
    have c1 : Contents E o m1 (xs ++ ys) := by simpa [slice] using c1
    have c2 : Contents E p m1 [] := by simpa using c2
    obtain ⟨b, en, b1, b2, n1, n2⟩ := hr1.ends hE c1
    obtain ⟨mid, d1⟩ := hr1.nth hE c1 xs.length
    have sl1 : slice (xs ++ ys) 0 xs.length = xs := by simp [slice]
    have sl2 : slice (xs ++ ys) xs.length (xs ++ ys).length = ys := by unfold slice; rw [List.take_length, List.drop_left]
    obtain ⟨m3, zs, q1, q2, q3, q4, -⟩ := C93_inplace_merge hE hr1 c1 hw (i := 0) (j := xs.length) (k := (xs ++ ys).length)
      (Nat.zero_le _) (by simp) (Nat.le_refl _) b2 d1 n2 (by rw [sl1]; exact h1) (by rw [sl2]; exact h2)
      (by simpa using hW)
    obtain ⟨al', s, F, hs, hx, H⟩ := hr1.cont hE c1
    obtain ⟨m4, s', q5, q6, H'⟩ := std_inplace_merge_c (comp := comp) hs (at_of_nth hs H (Nat.zero_le _) b2)
      (at_of_nth hs H (by rw [hx]; simp) d1) (at_of_nth hs H (Nat.le_refl _) (by rw [hx]; exact n2)) H
    have q7 : zs = xs.merge ys (fun a b => !comp b a) := by rw [q3, sl1, sl2]
    have c4 : Contents E o m4 zs := by
      rw [q7]
      have := cont_contents q6.ok H'
      rw [q6.elems, hx] at this
      simpa using this
    have c5 : Contents E p m4 [] := by
      have r1 : merge E o p comp m = .ok () m4 := by
        rw [start1, bind_ok k4, bind_ok b1, bind_ok d1, bind_ok n1, q5]
      obtain ⟨-, -, z1, -⟩ := C36_merge hE hr hc hd hne hsz r1
      exact z1
    refine ⟨m4, m3, zs, ?_, ?_, q2.reach, c4, by simpa using q2.elems, c5,
      (q2.rest.others p [] (Ne.symm hne) c2).contents c2, q7, q4⟩
    · rw [bind_ok k4, bind_ok b1, bind_ok d1, bind_ok n1, q5]
    · rw [bind_ok k4, bind_ok b1, bind_ok d1, bind_ok n1, q1]
  · right
    have hr1 : Reach E m1 := .exc hr hv hpre k1
    obtain ⟨x, y, x', y', g1, g2, ⟨rfl, -⟩, -⟩ := k2
    rw [hop] at k1
    have k4 : splice_range E o e p f l m = .throw .alloc m1 := by
      rcases h : splice_range E o e p f l m with ⟨_, m2⟩ | ⟨e2, m2⟩ | _ | _
      · rw [bind_ok h] at k1; cases k1
      · rw [bind_throw h] at k1; cases k1; rfl
      · have : (do splice_range E o e p f l; return .unit : M α (Ret α)) m = M.bind _ _ m := rfl
        rw [this] at k1; unfold M.bind at k1; rw [h] at k1; cases k1
      · have : (do splice_range E o e p f l; return .unit : M α (Ret α)) m = M.bind _ _ m := rfl
        rw [this] at k1; unfold M.bind at k1; rw [h] at k1; cases k1
    exact ⟨m1, bind_throw k4, bind_throw k4, hr1⟩

end

/-! The hypotheses are met: twenty elements, so that the sort splits and merges, by a
strict weak order in which different elements are equivalent. -/

/-- by tens -/
def Sorting.tens (a b : Nat) : Bool := decide (a / 10 < b / 10)
theorem Sorting.tens_weak : StrictWeak Sorting.tens := by
  constructor <;> simp only [Sorting.tens, decide_eq_true_eq, decide_eq_false_iff_not] <;> omega
def Sorting.twenty : List Nat := [52, 31, 9, 37, 10, 88, 86, 21, 7, 4, 90, 55, 53, 12, 11, 60, 2, 99, 34, 33]

example : ∃ m : Mem Nat, Reach demo m ∧ Contents demo 0 m Sorting.twenty ∧ 2 * Sorting.twenty.length < demo.W ∧
    ∃ m2, sort_inplace demo Sorting.tens 0 m = .ok () m2 ∧
      ∃ zs, Contents demo 0 m2 zs ∧ [37, 34, 33].Sublist zs ∧ SortedBy Sorting.tens zs := by
  obtain ⟨m, h1, h2⟩ := demo_list Sorting.twenty
  obtain ⟨m1, m2, zs, -, h3, -, h4, -, h5, h6⟩ := C93_sort demo_good h1 h2 Sorting.tens_weak (by decide)
  exact ⟨m, h1, h2, by decide, m2, h3, zs, h4.elems, h6 _ (by unfold SortedBy; decide) (by decide), h5⟩

-- two sorted containers
example : ∃ m : Mem Nat, Reach demo m ∧ Contents demo 0 m [9, 12, 11, 30, 75] ∧ Contents demo 1 m [1, 8, 15, 79] ∧
    SortedBy Sorting.tens [9, 12, 11, 30, 75] ∧ SortedBy Sorting.tens [1, 8, 15, 79] ∧ 2 * (5 + 4) < demo.W ∧
    ∃ m2, merge_inplace demo Sorting.tens 0 1 m = .ok () m2 ∧
      Contents demo 0 m2 [9, 1, 8, 12, 11, 15, 30, 75, 79] := by
  obtain ⟨m, h1, -, h2, h3, -⟩ := demo_lists [9, 12, 11, 30, 75] [1, 8, 15, 79] 0 0
  have s1 : SortedBy Sorting.tens [9, 12, 11, 30, 75] := by unfold SortedBy; decide
  have s2 : SortedBy Sorting.tens [1, 8, 15, 79] := by unfold SortedBy; decide
  refine ⟨m, h1, h2, h3, s1, s2, by decide, ?_⟩
  rcases C93_merge demo_good h1 h2 h3 (by decide) Sorting.tens_weak (by decide) (by decide) s1 s2 with
    ⟨m1, m2, zs, -, h4, -, -, h5, -, -, rfl, -⟩ | ⟨m', h4, -, -⟩
  · exact ⟨m2, h4, by simpa [List.merge, Sorting.tens] using h5⟩
  · exact absurd (bind_throw h4 : (Op.bin 0 1 (.merge Sorting.tens)).run demo m = .throw .alloc m') (h1.no_alloc demo_endless (.bin 0 1 (.merge Sorting.tens)))

-- ranges inside a container, and two sorted neighbours
example : ∃ (m : Mem Nat) (it jt kt : Iter), Reach demo m ∧ Contents demo 0 m eight ∧ nth demo 0 1 m = .ok it m ∧
    nth demo 0 4 m = .ok jt m ∧ nth demo 0 7 m = .ok kt m ∧ SortedBy Sorting.tens (slice eight 1 4) ∧
    SortedBy Sorting.tens (slice eight 4 7) ∧ 2 * eight.length < demo.W := by
  obtain ⟨m, h1, h2, -⟩ := demo_eight
  obtain ⟨it, a⟩ := h1.nth demo_good h2 1
  obtain ⟨jt, b⟩ := h1.nth demo_good h2 4
  obtain ⟨kt, c⟩ := h1.nth demo_good h2 7
  exact ⟨m, it, jt, kt, h1, h2, a, b, c, by unfold SortedBy; decide, by unfold SortedBy; decide, by decide⟩

end SegTree
