/-
  C84: the documentation's example does what it says, for all sizes and positions.
-/
import Verif.Model.Haystack
import Verif.Props.RandomTest
set_option autoImplicit false

namespace SegTree
open Generic
variable {α : Type} {E : Env α} {m m' : Mem α} {xs : List α} {o : Nat} {it jt : Iter}

/-- C84: `std::find_if` on any part of a container: an iterator to the first element that
satisfies the predicate, or the last iterator. -/
theorem C84_find (hE : E.Good) (hr : Reach E m) (hc : Contents E o m xs) (p : α → Bool) {a b : Nat} (hab : a ≤ b)
    (hb : b ≤ xs.length) (hn : nth E o a m = .ok it m) (hl : nth E o b m = .ok jt m) :
    ∃ kt, std_find_if E p it jt m = .ok kt m ∧ nth E o (a + (slice xs a b).findIdx p) m = .ok kt m := by
  have hjt := nth_pos hE hr hc hb hl
  obtain ⟨k, hk⟩ : ∃ k, a + k = b := ⟨b - a, by omega⟩
  induction k generalizing a it with
  | zero =>
    have hit := nth_pos hE hr hc (by omega) hn
    refine ⟨it, ?_, ?_⟩
    · rw [std_find_if, if_neg (by omega)]; rfl
    · rw [show slice xs a b = [] from List.drop_of_length_le (by simp; omega)]
      simpa using hn
  | succ k ih =>
    have hit := nth_pos hE hr hc (by omega) hn
    have ha : a < xs.length := by omega
    have hs : slice xs a b = xs[a] :: slice xs (a + 1) b := by
      unfold slice
      rw [List.drop_eq_getElem_cons (by simp; omega)]; simp
    rw [hs, List.findIdx_cons, std_find_if, if_pos (by omega), bind_ok (nth_deref hE hr hc ha hn)]
    by_cases hp : p xs[a]
    · exact ⟨it, by rw [if_pos hp]; rfl, by simpa [hp] using hn⟩
    · obtain ⟨it2, h1, h2⟩ := C18_next hE hr hc ha hn
      obtain ⟨kt, h3, h4⟩ := ih (by omega) h2 (by omega)
      refine ⟨kt, by rw [if_neg hp, bind_ok h1, h3], ?_⟩
      simp only [hp, cond_false]
      rw [← h4]
      congr 1; omega

/-- the index at which the needle is found: the first element that equals it -/
theorem findIdx_ins {eq : α → α → Bool} {needle : α} (hrefl : eq needle needle = true) {i : Nat} (hi : i ≤ xs.length)
    (hne : ∀ v ∈ xs, eq v needle = false) : (ins xs i [needle]).findIdx (fun v => eq v needle) = i := by
  have h1 : (ins xs i [needle]).length = xs.length + 1 := by simp [ins]; omega
  have h2 : (ins xs i [needle])[i]'(by omega) = needle := by
    unfold ins
    rw [List.getElem_append_right (by simp)]
    simp [Nat.min_eq_left hi]
  refine (List.findIdx_eq (by omega)).2 ⟨by rw [h2]; exact hrefl, fun j hj => ?_⟩
  have h3 : (ins xs i [needle])[j]'(by omega) = xs[j]'(by omega) := by
    unfold ins
    rw [List.getElem_append_left (by simp; omega)]
    simp
  rw [h3]
  exact hne _ (List.getElem_mem _)

theorem ins_eraseIdx {v : α} {i : Nat} (hi : i ≤ xs.length) : (ins xs i [v]).eraseIdx i = xs := by
  unfold ins
  rw [List.eraseIdx_append_of_length_le (by simp)]
  simp [Nat.min_eq_left hi]

/-- C84: in a container that holds no needle, the statements after the construction put
one at the given position (at the end, if the position is past it), find it there and take
it out again: the container is as before. Otherwise there is no memory, and the container
is as before. -/
theorem C84_body (hE : E.Good) (hr : Reach E m) (hc : Contents E o m xs) {eq : α → α → Bool} {needle : α}
    (hrefl : eq needle needle = true) (hne : ∀ v ∈ xs, eq v needle = false) (hmax : xs.length + 1 ≤ max_size E) (i : Nat) :
    (∃ m', haystack_body E eq o i needle m = .ok (some (min i xs.length)) m' ∧ Contents E o m' xs ∧ After E o m m') ∨
    (∃ m', haystack_body E eq o i needle m = .throw .alloc m' ∧ Contents E o m' xs ∧ After E o m m') := by
  obtain ⟨it, hit⟩ := hr.nth hE hc i
  -- a position past the end is the end
  have hn : nth E o (min i xs.length) m = .ok it m := by
    by_cases h : i ≤ xs.length
    · rwa [Nat.min_eq_left h]
    · rw [Nat.min_eq_right (by omega)]
      obtain ⟨b, e, -, -, h3, h4⟩ := hr.ends hE hc
      obtain ⟨jt, h5, h6⟩ := (C05_access (i := i) hE hr hc).2.2.1 (by omega)
      rw [hit] at h5; cases h5
      rw [h3] at h6; cases h6
      exact h4
  have hi : min i xs.length ≤ xs.length := Nat.min_le_right _ _
  generalize min i xs.length = j at hn hi
  unfold haystack_body
  rw [bind_ok hit]
  rcases hr.call hE hc (.insertRv j needle) (fun _ => ⟨hi, hmax⟩) with
    ⟨r, m1, al, x', h1, ⟨rfl, rfl⟩, h2, h3⟩ | ⟨e, m1, al, x', h1, ⟨rfl, rfl⟩, h2, h3⟩
  · obtain ⟨jt, h4, -⟩ := pos_inv h1
    rw [bind_ok hn] at h4
    have hl : (ins xs j [needle]).length = xs.length + 1 := by simp [ins]; omega
    obtain ⟨b, e, k1, k2, k3, k4⟩ := h3.reach.ends hE h2
    obtain ⟨kt, g1, g2⟩ := C84_find hE h3.reach h2 (fun v => eq v needle) (Nat.zero_le _) (Nat.le_refl _) k2 k4
    have hs : slice (ins xs j [needle]) 0 (ins xs j [needle]).length = ins xs j [needle] := by simp [slice]
    simp only at g1 g2
    rw [hs, findIdx_ins hrefl hi hne, Nat.zero_add] at g2
    have hk := nth_pos hE h3.reach h2 (by simp only [hl]; omega) g2
    have he := nth_pos hE h3.reach h2 (Nat.le_refl _) k4
    simp only [hl] at he
    rcases h3.reach.call hE h2 (.erase j) (fun _ => by show j < _; simp only [hl]; omega) with
      ⟨r, m2, al, x', q1, ⟨rfl, rfl⟩, q2, q3⟩ | ⟨e, m1, al, x', -, q, -⟩
    · obtain ⟨lt, q4, -⟩ := pos_inv q1
      rw [bind_ok g2] at q4
      refine .inl ⟨m2, ?_, ?_, h3.trans q3⟩
      · rw [bind_ok h4, bind_ok k1, bind_ok k3, bind_ok g1, if_pos (by omega), bind_ok q4]
        show Res.ok (some kt.pos) m2 = _
        rw [hk]
      · have := ins_eraseIdx (v := needle) hi
        rw [← this]; exact q2
    · exact q.elim
  · have h4 := pos_inv_throw h1
    rw [bind_ok hn] at h4
    exact .inr ⟨m1, bind_throw h4, h2, h3⟩

/-- C84: the whole program, for every amount of hay, every position, every element type and
allocator: it finds the needle where it was put, or fails for lack of memory (or because
copying hay failed); in all cases nothing is left of it and everything else is as before. -/
theorem C84_program (hE : E.Good) (hr : Reach E m) {S : Bank α} (hv : View E m S) (ho : S o = none) (hnull : E.nullFree = true)
    {eq : α → α → Bool} {hay needle : α} (hrefl : eq needle needle = true) (hne : eq hay needle = false) {n : Nat}
    (hmax : n + 1 ≤ max_size E) (i al : Nat) :
    (∃ m', haystack_main E eq o al n i hay needle m = .ok (some (min i n)) m' ∧ View E m' S ∧ Reach E m') ∨
    (∃ e m', haystack_main E eq o al n i hay needle m = .throw e m' ∧ Blame E [hay] e ∧ View E m' S ∧ Reach E m') := by
  unfold haystack_main
  rcases hr.op hE hv (op := .new o (.fill al n hay)) ⟨ho, by omega, hnull⟩ with
    ⟨r, m0, S', h1, h2, h3, h4⟩ | ⟨e, m0, S', h1, h2, h3, h4⟩
  · obtain ⟨-, x, hx, rfl⟩ := h2
    cases hx
    obtain ⟨-, u, h5⟩ := unit_inv h1
    have hc0 : Contents E o m0 (List.replicate n hay) := by have := h3 o; rw [upd_self] at this; exact this.2
    have hend : ∀ m1, After E o m0 m1 → ∃ m2, dtor E o m1 = .ok () m2 ∧ View E m2 S ∧ Reach E m2 := by
      intro m1 ha
      obtain ⟨x, hx⟩ := ha.others _ h3
      rw [upd_twice] at hx
      rcases ha.reach.op hE hx (op := .dtor o) ⟨x, upd_self, .inr hnull⟩ with
        ⟨r, m2, S', h1, ⟨-, rfl⟩, h3, h4⟩ | ⟨e, m2, S', h1, h2, -⟩
      · obtain ⟨-, u, h5⟩ := unit_inv h1
        refine ⟨m2, h5, ?_, h4⟩
        rwa [upd_twice, upd_id ho] at h3
      · exact h2.elim
    rw [bind_ok h5]
    rcases C84_body (needle := needle) hE h4 hc0 hrefl (fun v hv => by rw [List.eq_of_mem_replicate hv]; exact hne)
      (by simpa using hmax) i with ⟨m1, g1, g2, g3⟩ | ⟨m1, g1, g2, g3⟩
    · obtain ⟨m2, k1, k2, k3⟩ := hend m1 g3
      refine .inl ⟨m2, ?_, k2, k3⟩
      rw [List.length_replicate] at g1
      rw [bind_ok (catch_ok g1), bind_ok k1]
      rfl
    · obtain ⟨m2, k1, k2, k3⟩ := hend m1 g3
      refine .inr ⟨.alloc, m2, bind_throw ?_, .inl rfl, k2, k3⟩
      unfold M.onThrow
      simp only [g1, k1]
  · obtain ⟨h2, rfl⟩ := h2
    exact .inr ⟨e, m0, bind_throw (unit_inv_throw h1), h2, h3, h4⟩

-- the program of the documentation
example : ∃ m', haystack_main demo (· == ·) 0 0 100000 33333 1 2 noMem = .ok (some 33333) m' ∧ View demo m' (fun _ => none) ∨
    haystack_main demo (· == ·) 0 0 100000 33333 1 2 noMem = .throw .alloc m' ∧ View demo m' (fun _ => none) := by
  rcases C84_program (S := fun _ => none) (o := 0) (eq := (· == ·)) (hay := 1) (needle := 2) (n := 100000) demo_good .init
    (fun _ => rfl) rfl rfl rfl rfl (by decide) 33333 0 with ⟨m', h1, h2, -⟩ | ⟨e, m', h1, h, h2, -⟩
  · exact ⟨m', .inl ⟨h1, h2⟩⟩
  · cases demo_blame (by decide) h
    exact ⟨m', .inr ⟨h1, h2⟩⟩

end SegTree
