/-
  C18-C23: iterator movement, random access, comparison, reverse iteration,
  segment-wise iteration.

  Every theorem is about an arbitrary reachable memory `m`, a container `o` in it
  that holds `xs`, and iterators `nth(i)` of it; results are stated to be equal
  to `nth(...)` *in every field*, so that they can be used in any later call.
-/
import Verif.Props.Single
set_option autoImplicit false

namespace SegTree
variable {α : Type} {E : Env α} {m m' : Mem α} {o i j : Nat} {xs : List α} {v : α} {it jt kt : Iter} {e : Exn}

/-! ### C18: ++ and -- -/

/-- C18: `++nth(i)` is `nth(i+1)` -/
theorem C18_next (hE : E.Good) (hr : Reach E m) (hc : Contents E o m xs) (hi : i < xs.length)
    (hn : nth E o i m = .ok it m) :
    ∃ jt, move_next_iterator E it m = .ok jt m ∧ nth E o (i + 1) m = .ok jt m := by
  obtain ⟨al, s, F, hs, rfl, H⟩ := hr.cont hE hc
  obtain ⟨jt, h1, h2⟩ := move_next_c hs (at_of_nth hs H (Nat.le_of_lt hi) hn) hi H
  exact ⟨jt, h1, nth_c hs h2 H⟩

/-- C18: `--nth(i)` is `nth(i-1)` -/
theorem C18_prev (hE : E.Good) (hr : Reach E m) (hc : Contents E o m xs) (h0 : 0 < i) (hi : i ≤ xs.length)
    (hn : nth E o i m = .ok it m) :
    ∃ jt, move_prev_iterator E it m = .ok jt m ∧ nth E o (i - 1) m = .ok jt m := by
  obtain ⟨al, s, F, hs, rfl, H⟩ := hr.cont hE hc
  obtain ⟨jt, h1, h2⟩ := move_prev_c hs (at_of_nth hs H hi hn) h0 H
  exact ⟨jt, h1, nth_c hs h2 H⟩

/-- C18: `++` and `--` are inverse -/
theorem C18_inverse (hE : E.Good) (hr : Reach E m) (hc : Contents E o m xs) (hi : i ≤ xs.length)
    (hn : nth E o i m = .ok it m) :
    (i < xs.length → (do move_prev_iterator E (← move_next_iterator E it) : M α Iter) m = .ok it m) ∧
    (0 < i → (do move_next_iterator E (← move_prev_iterator E it) : M α Iter) m = .ok it m) := by
  refine ⟨fun h => ?_, fun h => ?_⟩
  · obtain ⟨jt, h1, h2⟩ := C18_next hE hr hc h hn
    obtain ⟨kt, h3, h4⟩ := C18_prev hE hr hc (Nat.succ_pos i) h h2
    change nth E o i m = _ at h4
    rw [hn] at h4
    cases h4
    rw [bind_ok h1]; exact h3
  · obtain ⟨jt, h1, h2⟩ := C18_prev hE hr hc h hi hn
    obtain ⟨kt, h3, h4⟩ := C18_next hE hr hc (by omega) h2
    rw [Nat.sub_add_cancel h, hn] at h4
    cases h4
    rw [bind_ok h1]; exact h3

/-- C18: `begin()` is `nth(0)`, `end()` is `nth(n)` and `penultimate()` is
`nth(n-1)`, in every field -/
theorem C18_ends (hE : E.Good) (hr : Reach E m) (hc : Contents E o m xs) :
    (∃ it, begin_ E o m = .ok it m ∧ nth E o 0 m = .ok it m) ∧
    (∃ it, end_ E o m = .ok it m ∧ nth E o xs.length m = .ok it m) ∧
    (xs ≠ [] → ∃ it, penultimate E o m = .ok it m ∧ nth E o (xs.length - 1) m = .ok it m) := by
  obtain ⟨al, s, F, hs, rfl, H⟩ := hr.cont hE hc
  obtain ⟨b, hb⟩ := St.At.exists hs (Nat.zero_le _)
  obtain ⟨en, hen⟩ := St.At.exists hs (Nat.le_refl _)
  obtain ⟨p, hp⟩ := St.At.exists hs (by omega : s.elems.length - 1 ≤ _)
  exact ⟨⟨b, find_first_c hs hb H, nth_c hs hb H⟩, ⟨en, find_end_c hs hen H, nth_c hs hen H⟩,
    fun h => ⟨p, find_last_c hs hp (List.length_pos_iff.2 h) H, nth_c hs hp H⟩⟩

/-- `k` times `out.push_back(*it); ++it;` -/
def walk (E : Env α) : Nat → Iter → M α (List α × Iter)
  | 0, it => pure ([], it)
  | k + 1, it => do
    let v ← dereference E it
    let it ← move_next_iterator E it
    let (vs, it) ← walk E k it
    return (v :: vs, it)

/-- `k` times `--it; out.push_back(*it);` -/
def walk_back (E : Env α) : Nat → Iter → M α (List α × Iter)
  | 0, it => pure ([], it)
  | k + 1, it => do
    let it ← move_prev_iterator E it
    let v ← dereference E it
    let (vs, it) ← walk_back E k it
    return (v :: vs, it)

/-- C18: `k` increments from `nth(i)` visit the elements `i`, ..., `i+k-1` and
reach `nth(i+k)`; in particular `n` increments of `begin()` visit the whole
sequence and reach `end()` -/
theorem C18_walk (hE : E.Good) (hr : Reach E m) (hc : Contents E o m xs) {k : Nat} (hk : i + k ≤ xs.length)
    (hn : nth E o i m = .ok it m) :
    ∃ jt, walk E k it m = .ok ((xs.drop i).take k, jt) m ∧ nth E o (i + k) m = .ok jt m := by
  obtain ⟨al, s, F, hs, rfl, H⟩ := hr.cont hE hc
  suffices ∀ k i it, s.At i it → i + k ≤ s.elems.length →
      ∃ jt, walk E k it m = .ok ((s.elems.drop i).take k, jt) m ∧ s.At (i + k) jt by
    obtain ⟨jt, h1, h2⟩ := this k i it (at_of_nth hs H (by omega) hn) hk
    exact ⟨jt, h1, nth_c hs h2 H⟩
  intro k
  induction k with
  | zero => intro i it ha _; exact ⟨it, rfl, ha⟩
  | succ k ih =>
    intro i it ha hk
    obtain ⟨it1, h1, h2⟩ := move_next_c hs ha (by omega) H
    obtain ⟨jt, h3, h4⟩ := ih (i + 1) it1 h2 (by omega)
    refine ⟨jt, ?_, by rw [show i + (k + 1) = i + 1 + k by omega]; exact h4⟩
    unfold walk
    rw [bind_ok (dereference_c hs ha (by omega) H), bind_ok h1, bind_ok h3]
    rw [List.drop_eq_getElem_cons (by omega : i < s.elems.length)]; rfl

/-- C18: `k` decrements from `nth(i)` visit the elements `i-1`, `i-2`, ..., `i-k`
and reach `nth(i-k)` -/
theorem C18_walk_back (hE : E.Good) (hr : Reach E m) (hc : Contents E o m xs) {k : Nat} (hk : k ≤ i)
    (hi : i ≤ xs.length) (hn : nth E o i m = .ok it m) :
    ∃ jt, walk_back E k it m = .ok ((xs.take i).reverse.take k, jt) m ∧ nth E o (i - k) m = .ok jt m := by
  obtain ⟨al, s, F, hs, rfl, H⟩ := hr.cont hE hc
  suffices ∀ k i it, s.At i it → k ≤ i → i ≤ s.elems.length →
      ∃ jt, walk_back E k it m = .ok ((s.elems.take i).reverse.take k, jt) m ∧ s.At (i - k) jt by
    obtain ⟨jt, h1, h2⟩ := this k i it (at_of_nth hs H (by omega) hn) hk hi
    exact ⟨jt, h1, nth_c hs h2 H⟩
  intro k
  induction k with
  | zero => intro i it ha _ _; exact ⟨it, rfl, ha⟩
  | succ k ih =>
    intro i it ha hk hi
    obtain ⟨it1, h1, h2⟩ := move_prev_c hs ha (by omega) H
    obtain ⟨jt, h3, h4⟩ := ih (i - 1) it1 h2 (by omega) (by omega)
    refine ⟨jt, ?_, by rw [show i - (k + 1) = i - 1 - k by omega]; exact h4⟩
    unfold walk_back
    rw [bind_ok h1, bind_ok (dereference_c hs h2 (by omega) H), bind_ok h3]
    obtain ⟨q, rfl⟩ : ∃ q, i = q + 1 := ⟨i - 1, by omega⟩
    simp only [Nat.add_sub_cancel]
    show Res.ok _ _ = _
    rw [List.take_succ_eq_append_getElem (by omega : q < s.elems.length), List.reverse_append]
    rfl

/-- C18: `for (it = begin(); it != end(); ++it) out.push_back(*it);` gives the
sequence -/
theorem C18_traverse (hE : E.Good) (hr : Reach E m) (hc : Contents E o m xs) :
    (do read_range E (← begin_ E o) (← end_ E o) : M α (List α)) m = .ok xs m := by
  obtain ⟨al, s, F, hs, rfl, H⟩ := hr.cont hE hc
  obtain ⟨b, hb⟩ := St.At.exists hs (Nat.zero_le _)
  obtain ⟨en, hen⟩ := St.At.exists hs (Nat.le_refl _)
  unfold begin_ end_
  rw [bind_ok (find_first_c hs hb H), bind_ok (find_end_c hs hen H),
    read_range_c hs hen H s.elems.length hb (by omega)]
  simp

-- the hypotheses are met: in a tree of height 3
example : ∃ (m : Mem Nat) (it : Iter), Reach demo m ∧ Contents demo 0 m eight ∧ nth demo 0 5 m = .ok it m ∧
    0 < 5 ∧ 5 < eight.length ∧ ∃ jt, walk demo 2 it m = .ok ([16, 17], jt) m := by
  obtain ⟨m, h1, h2, -⟩ := demo_eight
  obtain ⟨it, h3⟩ := h1.nth demo_good h2 5
  obtain ⟨jt, h4, -⟩ := C18_walk demo_good h1 h2 (k := 2) (by decide) h3
  exact ⟨m, it, h1, h2, h3, by decide, by decide, jt, h4⟩

/-! ### C19: jumps -/

/-- C19: `nth(i) + d` and `nth(i) += d` -/
theorem C19_add (hE : E.Good) (hr : Reach E m) (hc : Contents E o m xs) {d : Int} (hi : i ≤ xs.length)
    (h0 : 0 ≤ (i : Int) + d) (h1 : (i : Int) + d ≤ xs.length) (hn : nth E o i m = .ok it m) :
    ∃ jt, it_add E it d m = .ok jt m ∧ nth E o ((i : Int) + d).toNat m = .ok jt m := by
  obtain ⟨al, s, F, hs, rfl, H⟩ := hr.cont hE hc
  obtain ⟨jt, h2, h3⟩ := it_add_c hs (at_of_nth hs H hi hn) h0 h1 H
  exact ⟨jt, h2, nth_c hs h3 H⟩

/-- C19: `static_traits::move_next_iterator_count`, which nothing in the header calls, is `+` -/
theorem C19_next (hE : E.Good) (hr : Reach E m) (hc : Contents E o m xs) {d : Nat} (hd : 0 < d) (h1 : i + d ≤ xs.length)
    (hn : nth E o i m = .ok it m) :
    ∃ jt, move_next_iterator_count E it d m = .ok jt m ∧ nth E o (i + d) m = .ok jt m := by
  obtain ⟨al, s, F, hs, rfl, H⟩ := hr.cont hE hc
  have hi := at_of_nth hs H (by omega) hn
  obtain ⟨e', h2, h3⟩ := move_next_count_c (n := d) hs hi hd h1 H
  refine ⟨_, bind_ok h2, nth_c hs ?_ H⟩
  rw [hi.pos]; exact h3

/-- C19: `static_traits::move_prev_iterator_count`, which `insert` and `append` use -/
theorem C19_prev (hE : E.Good) (hr : Reach E m) (hc : Contents E o m xs) {d : Nat} (hi : i ≤ xs.length) (hd : d ≤ i)
    (hn : nth E o i m = .ok it m) :
    ∃ jt, move_prev_iterator_count E it d m = .ok jt m ∧ nth E o (i - d) m = .ok jt m := by
  obtain ⟨al, s, F, hs, rfl, H⟩ := hr.cont hE hc
  obtain ⟨jt, h2, h3⟩ := move_prev_iterator_count_c hs (at_of_nth hs H hi hn) hd H
  exact ⟨jt, h2, nth_c hs h3 H⟩

/-- C19: `nth(i) - d` and `nth(i) -= d` -/
theorem C19_sub (hE : E.Good) (hr : Reach E m) (hc : Contents E o m xs) {d : Int} (hi : i ≤ xs.length)
    (h0 : 0 ≤ (i : Int) - d) (h1 : (i : Int) - d ≤ xs.length) (hn : nth E o i m = .ok it m) :
    ∃ jt, it_sub E it d m = .ok jt m ∧ nth E o ((i : Int) - d).toNat m = .ok jt m := by
  obtain ⟨al, s, F, hs, rfl, H⟩ := hr.cont hE hc
  obtain ⟨jt, h2, h3⟩ := it_sub_c hs (at_of_nth hs H hi hn) h0 h1 H
  exact ⟨jt, h2, nth_c hs h3 H⟩

/-- C19: `nth(i)[d]` is element `i+d` -/
theorem C19_index (hE : E.Good) (hr : Reach E m) (hc : Contents E o m xs) {d : Int} (hi : i ≤ xs.length)
    (h0 : 0 ≤ (i : Int) + d) (h1 : ((i : Int) + d).toNat < xs.length) (hn : nth E o i m = .ok it m) :
    it_index E it d m = .ok xs[((i : Int) + d).toNat] m := by
  obtain ⟨al, s, F, hs, rfl, H⟩ := hr.cont hE hc
  exact it_index_c hs (at_of_nth hs H hi hn) h0 (by omega) H

-- the hypotheses of C19_next and C19_prev are met: from 1 to 6 and back
example : ∃ (m : Mem Nat) (it jt : Iter), Reach demo m ∧ Contents demo 0 m eight ∧ nth demo 0 1 m = .ok it m ∧
    nth demo 0 6 m = .ok jt m ∧ move_next_iterator_count demo it 5 m = .ok jt m ∧
    move_prev_iterator_count demo jt 5 m = .ok it m := by
  obtain ⟨m, h1, h2, -⟩ := demo_eight
  obtain ⟨it, h3⟩ := h1.nth demo_good h2 1
  obtain ⟨jt, h4, h5⟩ := C19_next demo_good h1 h2 (d := 5) (by decide) (by decide) h3
  obtain ⟨kt, h6, h7⟩ := C19_prev demo_good h1 h2 (d := 5) (by decide) (by decide) h5
  have : kt = it := by
    have h8 : nth demo 0 1 m = .ok kt m := h7
    rw [h3] at h8; cases h8; rfl
  subst this
  exact ⟨m, kt, jt, h1, h2, h3, h5, h4, h6⟩

-- the hypotheses are met: nth(6) - 5 and nth(1)[4] in a tree of height 3
example : ∃ (m : Mem Nat) (it jt kt : Iter), Reach demo m ∧ Contents demo 0 m eight ∧ nth demo 0 6 m = .ok it m ∧
    nth demo 0 1 m = .ok kt m ∧ it_add demo it (-5) m = .ok kt m ∧ it_sub demo kt (-5) m = .ok jt m ∧
    it_index demo kt 4 m = .ok 16 m := by
  obtain ⟨m, h1, h2, -⟩ := demo_eight
  obtain ⟨it, h3⟩ := h1.nth demo_good h2 6
  obtain ⟨kt, h4⟩ := h1.nth demo_good h2 1
  obtain ⟨kt', h5, h6⟩ := C19_add demo_good h1 h2 (d := -5) (by decide) (by decide) (by decide) h3
  have : kt' = kt := by
    have h7 : nth demo 0 1 m = .ok kt' m := h6
    rw [h4] at h7; cases h7; rfl
  subst this
  obtain ⟨jt, h8, -⟩ := C19_sub demo_good h1 h2 (d := -5) (by decide) (by decide) (by decide) h4
  exact ⟨m, it, jt, kt', h1, h2, h3, h4, h5, h8,
    C19_index demo_good h1 h2 (d := 4) (by decide) (by decide) (by decide) h4⟩

/-! ### C20: differences and comparisons -/

/-- C20: the difference of two iterators is the difference of their positions.
`difference_type` must be able to represent it. -/
theorem C20_diff (hE : E.Good) (hr : Reach E m) (hc : Contents E o m xs) (hi : i ≤ xs.length) (hj : j ≤ xs.length)
    (hn : nth E o i m = .ok it m) (hnj : nth E o j m = .ok jt m) (hW : 2 * xs.length < E.W) :
    it_diff E it jt = (i : Int) - (j : Int) := by
  obtain ⟨al, s, F, hs, rfl, H⟩ := hr.cont hE hc
  exact it_diff_c (at_of_nth hs H hi hn) (at_of_nth hs H hj hnj) hW

/-- C20: the comparison operators compare positions, and `index_of(nth(i))` is `i` -/
theorem C20_compare (hE : E.Good) (hr : Reach E m) (hc : Contents E o m xs) (hi : i ≤ xs.length) (hj : j ≤ xs.length)
    (hn : nth E o i m = .ok it m) (hnj : nth E o j m = .ok jt m) :
    (it_eq it jt = true ↔ i = j) ∧ (it_ne it jt = true ↔ i ≠ j) ∧ (it_lt it jt = true ↔ i < j) ∧
    (it_gt it jt = true ↔ j < i) ∧ (it_le it jt = true ↔ i ≤ j) ∧ (it_ge it jt = true ↔ j ≤ i) ∧
    index_of it = i := by
  obtain ⟨al, s, F, hs, rfl, H⟩ := hr.cont hE hc
  have h1 := (at_of_nth hs H hi hn).pos
  have h2 := (at_of_nth hs H hj hnj).pos
  simp [it_eq, it_ne, it_lt, it_gt, it_le, it_ge, index_of, h1, h2]

/-- C20: iterators of one container that compare equal are identical (and so
interchangeable in every call), and only then do they denote the same position -/
theorem C20_identical (hE : E.Good) (hr : Reach E m) (hc : Contents E o m xs) (hi : i ≤ xs.length) (hj : j ≤ xs.length)
    (hn : nth E o i m = .ok it m) (hnj : nth E o j m = .ok jt m) : it_eq it jt = true ↔ it = jt := by
  rw [(C20_compare hE hr hc hi hj hn hnj).1]
  constructor
  · rintro rfl; rw [hn] at hnj; cases hnj; rfl
  · rintro rfl
    have h1 := (C20_compare hE hr hc hi hj hn hnj).2.2.2.2.2.2
    have h2 := (C20_compare hE hr hc hj hi hnj hn).2.2.2.2.2.2
    omega

-- the hypotheses are met
example : ∃ (m : Mem Nat) (it jt : Iter), Reach demo m ∧ Contents demo 0 m eight ∧ nth demo 0 6 m = .ok it m ∧
    nth demo 0 8 m = .ok jt m ∧ it_diff demo it jt = -2 := by
  obtain ⟨m, h1, h2, -⟩ := demo_eight
  obtain ⟨it, h3⟩ := h1.nth demo_good h2 6
  obtain ⟨jt, h4⟩ := h1.nth demo_good h2 8
  exact ⟨m, it, jt, h1, h2, h3, h4, C20_diff demo_good h1 h2 (by decide) (by decide) h3 h4 (by decide)⟩

/-! ### C21: reverse iteration -/

/-- `for (r = first; r != last; ++r) out.push_back(*r);` for reverse iterators
with bases `first` and `last` (`std::reverse_iterator`: `*r` is `*--tmp`, `++r`
is `--base`). -/
def rev_range (E : Env α) (first last : Iter) : M α (List α) :=
  if it_ne first last then do
    let v ← rev_deref E first
    let first ← move_prev_iterator E first
    let vs ← rev_range E first last
    return v :: vs
  else pure []
partial_fixpoint

/-- C21: the traversal from `rbegin()` to `rend()` visits the elements in reverse
order.  (`rbegin()` has the base `end()` and `rend()` the base `begin()`.) -/
theorem C21_reverse (hE : E.Good) (hr : Reach E m) (hc : Contents E o m xs) :
    (do rev_range E (← end_ E o) (← begin_ E o) : M α (List α)) m = .ok xs.reverse m := by
  obtain ⟨al, s, F, hs, rfl, H⟩ := hr.cont hE hc
  obtain ⟨b, hb⟩ := St.At.exists hs (Nat.zero_le _)
  obtain ⟨en, hen⟩ := St.At.exists hs (Nat.le_refl _)
  unfold begin_ end_
  rw [bind_ok (find_end_c hs hen H), bind_ok (find_first_c hs hb H)]
  suffices ∀ i it, s.At i it → rev_range E it b m = .ok (s.elems.take i).reverse m by
    rw [this _ _ hen]; simp
  intro i
  induction i with
  | zero =>
    intro it ha
    rw [rev_range, if_neg (by simp [it_ne, ha.pos, hb.pos])]; rfl
  | succ i ih =>
    intro it ha
    obtain ⟨jt, h1, h2⟩ := move_prev_c hs ha (Nat.succ_pos i) H
    have hlt : i < s.elems.length := by have := ha.le; omega
    rw [rev_range, if_pos (by simp [it_ne, ha.pos, hb.pos])]
    unfold rev_deref
    rw [bind_ok (f := _) (x := (move_prev_iterator E it >>= fun a => dereference E a))
      (by rw [bind_ok h1]; exact dereference_c hs h2 hlt H), bind_ok h1, bind_ok (ih _ h2)]
    show Res.ok _ _ = _
    rw [List.take_succ_eq_append_getElem hlt, List.reverse_append]; rfl

/-- C21: a single reverse step: for `0 < i`, `*reverse_iterator(nth(i))` is element `i-1` -/
theorem C21_deref (hE : E.Good) (hr : Reach E m) (hc : Contents E o m xs) (hi : i + 1 ≤ xs.length)
    (hn : nth E o (i + 1) m = .ok it m) : rev_deref E it m = .ok xs[i] m := by
  obtain ⟨al, s, F, hs, rfl, H⟩ := hr.cont hE hc
  obtain ⟨jt, h1, h2⟩ := move_prev_c hs (at_of_nth hs H hi hn) (Nat.succ_pos i) H
  unfold rev_deref
  rw [bind_ok h1]
  exact dereference_c hs h2 (by omega) H

example : ∃ m : Mem Nat, Reach demo m ∧ Contents demo 0 m eight ∧
    (do rev_range demo (← end_ demo 0) (← begin_ demo 0) : M Nat (List Nat)) m
      = .ok [18, 17, 16, 15, 14, 12, 11, 10] m := by
  obtain ⟨m, h1, h2, -⟩ := demo_eight
  exact ⟨m, h1, h2, C21_reverse demo_good h1 h2⟩

/-! ### C22: segments -/

/-- the position `q` of the segment of a valid iterator -/
theorem St.At.seg_at {s : St α} (ha : s.At i it) {q : Nat} (hq : q < it.entry.seg.len) :
    s.At (i - it.entry.seg.idx + q)
      ⟨⟨{ it.entry.seg with idx := q }, it.entry.leaf⟩, i - it.entry.seg.idx + q⟩ := by
  cases s with
  | nil => obtain ⟨h1, rfl, h3⟩ := ha; rw [h3] at hq; simp at hq
  | tree t =>
    obtain ⟨h1, c, sg, j, rfl, rfl, h2, h3⟩ := ha
    rw [h2] at hq ⊢
    simp only [entryOf] at hq ⊢
    rw [show c.pre.length + j - j + q = c.pre.length + q by omega]
    exact ⟨rfl, At.mk_lt hq rfl⟩

theorem St.At.seg_len_le {s : St α} (ha : s.At i it) (hs : s.Ok E) : it.entry.seg.len ≤ E.segMax := by
  cases s with
  | nil => obtain ⟨h1, rfl, h3⟩ := ha; rw [h3]; exact Nat.zero_le _
  | tree t =>
    obtain ⟨h1, c, sg, j, rfl, rfl, h2, h3⟩ := ha
    obtain ⟨hc, hh⟩ := (Ctx.fill_root c sg).1 hs.2
    rw [h2]
    exact (Tree.root_zero.1 (Ctx.holeOk_root hh)).2

/-- C22: for an iterator `it = nth(i)` that is not `end()`, the objects in
`[it.begin(), it.end())` are consecutive elements of the sequence, `it.current()`
among them: with `k = i - (current() - begin())`, the `q`-th object of the
segment is element `k + q` of the container, and it is where `nth(k+q)` points. -/
theorem C22_block (hE : E.Good) (hr : Reach E m) (hc : Contents E o m xs) (hi : i < xs.length)
    (hn : nth E o i m = .ok it m) :
    ∃ k len, k ≤ i ∧ i < k + len ∧ k + len ≤ xs.length ∧
      it.segBegin = (it.entry.seg.ptr, 0) ∧ it.current = (it.entry.seg.ptr, i - k) ∧
      it.segEnd = (it.entry.seg.ptr, len) ∧
      ∀ q (_ : q < len) (hl : k + q < xs.length), rdElem E it.entry.seg.ptr q m = .ok xs[k + q] m ∧
        ∃ jt, nth E o (k + q) m = .ok jt m ∧ jt.current = (it.entry.seg.ptr, q) ∧
          jt.segBegin = it.segBegin ∧ jt.segEnd = it.segEnd := by
  obtain ⟨al, s, F, hs, rfl, H⟩ := hr.cont hE hc
  have ha := at_of_nth hs H (Nat.le_of_lt hi) hn
  obtain ⟨h1, h2, h3, h4⟩ := ha.seg_range
  have h4 := h4 hi
  refine ⟨i - it.entry.seg.idx, it.entry.seg.len, by omega, by omega, h3, rfl, ?_, rfl, ?_⟩
  · unfold Iter.current
    rw [show i - (i - it.entry.seg.idx) = it.entry.seg.idx by omega]
  · intro q hq hl
    obtain ⟨_, h5⟩ := ha.seg_elems hs H hq
    exact ⟨h5, _, nth_c hs (ha.seg_at hq) H, rfl, rfl, rfl⟩

/-- C22: `it.after_segment()` is the iterator to the first element after the
segment (`end()` if there is none) -/
theorem C22_after (hE : E.Good) (hr : Reach E m) (hc : Contents E o m xs) (hi : i ≤ xs.length)
    (hn : nth E o i m = .ok it m) :
    ∃ jt, move_after_segment E it m = .ok jt m ∧
      nth E o (i - it.entry.seg.idx + it.entry.seg.len) m = .ok jt m := by
  obtain ⟨al, s, F, hs, rfl, H⟩ := hr.cont hE hc
  obtain ⟨jt, h1, h2⟩ := after_segment_c hs (at_of_nth hs H hi hn) H
  exact ⟨jt, h1, nth_c hs h2 H⟩

/-- C22: `it.before_segment()` is the iterator to the last element before the
segment, if there is one -/
theorem C22_before (hE : E.Good) (hr : Reach E m) (hc : Contents E o m xs) (hi : i ≤ xs.length)
    (hn : nth E o i m = .ok it m) (hb : it.entry.seg.idx < i) :
    ∃ jt, move_before_segment E it m = .ok jt m ∧ nth E o (i - it.entry.seg.idx - 1) m = .ok jt m := by
  obtain ⟨al, s, F, hs, rfl, H⟩ := hr.cont hE hc
  obtain ⟨jt, h1, h2⟩ := before_segment_c hs (at_of_nth hs H hi hn) hb H
  exact ⟨jt, h1, nth_c hs h2 H⟩

/-- the objects `q`, ..., `len-1` of the segment at `p` -/
def read_block (E : Env α) (p : Nat) (q : Nat) : (n : Nat) → M α (List α)
  | 0 => pure []
  | n + 1 => do
    let v ← rdElem E p q
    let vs ← read_block E p (q + 1) n
    return v :: vs

/-- Segment-wise traversal: `for (it = first; it != last; it =
it.after_segment()) for (p = it.begin(); p != it.end(); ++p) out.push_back(*p);` -/
def segment_range (E : Env α) (first last : Iter) : M α (List α) :=
  if it_ne first last then do
    let vs ← read_block E first.entry.seg.ptr 0 first.entry.seg.len
    let first ← move_after_segment E first
    let ws ← segment_range E first last
    return vs ++ ws
  else pure []
partial_fixpoint

theorem read_block_c {g : Log} {F : Asrt α} {al : Nat} {s : St α} (hs : s.Ok E) (ha : s.At i it)
    (H : Holds g (cont E o al s + F) m) (n : Nat) : ∀ q, q + n = it.entry.seg.len →
    read_block E it.entry.seg.ptr q n m =
      .ok ((s.elems.drop (i - it.entry.seg.idx + q)).take n) m := by
  induction n with
  | zero => intro q _; rfl
  | succ n ih =>
    intro q hq
    obtain ⟨hl, h1⟩ := ha.seg_elems hs H (q := q) (by omega)
    unfold read_block
    rw [bind_ok h1, bind_ok (ih (q + 1) (by omega)), List.drop_eq_getElem_cons hl]
    rw [show i - it.entry.seg.idx + (q + 1) = i - it.entry.seg.idx + q + 1 by omega]; rfl

/-- C22: the segment-wise traversal from `begin()` to `end()` visits every element
exactly once, in order -/
theorem C22_traverse (hE : E.Good) (hr : Reach E m) (hc : Contents E o m xs) :
    (do segment_range E (← begin_ E o) (← end_ E o) : M α (List α)) m = .ok xs m := by
  obtain ⟨al, s, F, hs, rfl, H⟩ := hr.cont hE hc
  obtain ⟨b, hb⟩ := St.At.exists hs (Nat.zero_le _)
  obtain ⟨en, hen⟩ := St.At.exists hs (Nat.le_refl _)
  unfold begin_ end_
  rw [bind_ok (find_first_c hs hb H), bind_ok (find_end_c hs hen H)]
  -- an iterator reached by the loop is at the start of its segment, or `end()`
  suffices ∀ n i it, s.elems.length - i ≤ n → s.At i it → (i < s.elems.length → it.entry.seg.idx = 0) →
      segment_range E it en m = .ok (s.elems.drop i) m by
    have h0 := hb.seg_range.1
    rw [this _ 0 b (Nat.le_refl _) hb (by omega)]; simp
  intro n
  induction n with
  | zero =>
    intro i it hn ha _
    have := ha.le
    rw [segment_range, if_neg (by simp [it_ne, ha.pos, hen.pos]; omega), List.drop_of_length_le (by omega)]; rfl
  | succ n ih =>
    intro i it hn ha h0
    have hle := ha.le
    by_cases hi : i < s.elems.length
    · have h0 := h0 hi
      obtain ⟨h1, h2, h3, h4⟩ := ha.seg_range
      have h4 := h4 hi
      obtain ⟨jt, g1, g2⟩ := after_segment_c hs ha H
      rw [h0, Nat.sub_zero] at g2 h3
      rw [segment_range, if_pos (by simp [it_ne, ha.pos, hen.pos]; omega),
        bind_ok (read_block_c hs ha H _ 0 (by omega)), bind_ok g1,
        bind_ok (ih (i + it.entry.seg.len) jt (by omega) g2 ?_), h0]
      · simp only [Nat.sub_zero, Nat.add_zero]
        show Res.ok _ _ = _
        rw [← List.drop_drop, List.take_append_drop]
      · -- the segment after the block starts where the block ends
        intro hlt
        by_contra hne
        obtain ⟨k1, k2, k3, k4⟩ := g2.seg_range
        have k4 := k4 hlt
        have a1 := ha.seg_at (q := it.entry.seg.len - 1) (by omega)
        have a2 := g2.seg_at (q := jt.entry.seg.idx - 1) (by omega)
        rw [show i + it.entry.seg.len - jt.entry.seg.idx + (jt.entry.seg.idx - 1)
          = i - it.entry.seg.idx + (it.entry.seg.len - 1) by omega] at a2
        have he := a1.unique hs a2 H
        simp only [Iter.mk.injEq, Entry.mk.injEq, SegE.mk.injEq] at he
        omega
    · rw [segment_range, if_neg (by simp [it_ne, ha.pos, hen.pos]; omega), List.drop_of_length_le (by omega)]; rfl

-- the hypotheses are met: a container of several segments
example : ∃ (m : Mem Nat) (it : Iter), Reach demo m ∧ Contents demo 0 m eight ∧ nth demo 0 5 m = .ok it m ∧
    it.entry.seg.idx < 5 ∧
    (do segment_range demo (← begin_ demo 0) (← end_ demo 0) : M Nat (List Nat)) m = .ok eight m := by
  obtain ⟨m, h1, h2, -⟩ := demo_eight
  obtain ⟨it, h3⟩ := h1.nth demo_good h2 5
  refine ⟨m, it, h1, h2, h3, ?_, C22_traverse demo_good h1 h2⟩
  obtain ⟨al, s, F, hs, he, H⟩ := h1.cont demo_good h2
  have ha := at_of_nth hs H (by rw [he]; decide) h3
  have hi : 5 < s.elems.length := by rw [he]; decide
  have := ha.seg_range.2.2.2 hi
  have h2 := St.At.seg_len_le ha hs
  have : demo.segMax = 2 := by decide
  omega

/-! ### C23: after_segment(count), before_segment(count) -/

/-- C23 (first half): `it.after_segment(c)` is `it.after_segment()` advanced by
`c`.  For `before_segment(count)` see `C23_before_count` (Props/Defects). -/
theorem C23_after_count (hE : E.Good) (hr : Reach E m) (hc : Contents E o m xs) (hi : i ≤ xs.length)
    (hn : nth E o i m = .ok it m) {c : Nat} (hb : i - it.entry.seg.idx + it.entry.seg.len + c ≤ xs.length) :
    ∃ jt kt, move_after_segment E it m = .ok jt m ∧ it_add E jt c m = .ok kt m ∧
      move_after_segment_count E it c m = .ok kt m ∧
      nth E o (i - it.entry.seg.idx + it.entry.seg.len + c) m = .ok kt m := by
  obtain ⟨al, s, F, hs, rfl, H⟩ := hr.cont hE hc
  have ha := at_of_nth hs H hi hn
  obtain ⟨jt, h1, h2⟩ := after_segment_c hs ha H
  obtain ⟨kt, h3, h4⟩ := it_add_c (d := (c : Int)) hs h2 (by omega) (by omega) H
  obtain ⟨lt, h5, h6⟩ := after_segment_count_c hs ha hb H
  rw [show (((i - it.entry.seg.idx + it.entry.seg.len : Nat) : Int) + (c : Int)).toNat
    = i - it.entry.seg.idx + it.entry.seg.len + c by omega] at h4
  cases h4.unique hs h6 H
  exact ⟨jt, kt, h1, h3, h5, nth_c hs h4 H⟩

end SegTree
