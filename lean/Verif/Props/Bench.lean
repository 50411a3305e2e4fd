/-
  C60-C62: the repository's own programs (/repo/common, /repo/bench) do with a
  container what they are meant to do.
-/
import Verif.Props.Random
import Verif.Props.Generic
import Verif.Props.Algorithms
import Verif.Props.Iterators
set_option autoImplicit false

namespace SegTree
open Bench
variable {α β γ : Type} {E : Env α} {m m' : Mem α} {o i j n W count sz : Nat} {xs ys vs : List α} {v : α}
  {d : InsertionData α} {G : Rng} {bits : Nat → α}

/-! ### the test data -/

/-- data for single insertions: every index is a position of the sequence built so far -/
structure Bench.InsertionData.Single (d : InsertionData α) : Prop where
  len : d.ordered.length = d.indexes.length
  le : ∀ i (h : i < d.indexes.length), d.indexes[i] ≤ i

/-- data for the insertion of blocks of `size` elements -/
structure Bench.InsertionData.Ranged (d : InsertionData α) (size : Nat) : Prop where
  len : d.ordered.length = d.indexes.length * size
  le : ∀ i (h : i < d.indexes.length), d.indexes[i] ≤ i * size

/-- C60: generating data for single insertions, from any random numbers, gives
as many indexes as asked for, each a valid position when its turn comes, and the
engine's elements in order -/
theorem C60_generate_single (h : make_insertion_data_single W G bits count = some d) :
    d.indexes.length = count ∧ d.ordered = (List.range count).map bits ∧ d.Single := by
  have key : ∀ (left i k : Nat) (d0 : InsertionData α), d0.indexes.length = i → d0.ordered = (List.range i).map bits →
      (∀ j (h : j < d0.indexes.length), d0.indexes[j] ≤ j) →
      make_single_loop W G bits left i k d0 = some d →
      d.indexes.length = i + left ∧ d.ordered = (List.range (i + left)).map bits ∧
        ∀ j (h : j < d.indexes.length), d.indexes[j] ≤ j := by
    intro left
    induction left with
    | zero => intro i k d0 h1 h2 h3 h; cases h; exact ⟨h1, h2, h3⟩
    | succ left ih =>
      intro i k d0 h1 h2 h3 h
      unfold make_single_loop at h
      obtain ⟨⟨r, k'⟩, hr, h⟩ := Option.bind_eq_some_iff.1 h
      have hlt := C59_bounded (Nat.succ_pos i) hr
      have := ih (i + 1) k' _ (by simp [h1]) (by simp [h2, List.range_succ]) (by
        intro j hj
        simp only [List.length_append, List.length_cons, List.length_nil] at hj
        rw [List.getElem_append]
        split
        · exact h3 _ _
        · simp only [List.getElem_singleton]; omega) h
      rw [show i + (left + 1) = i + 1 + left by omega]
      exact this
  obtain ⟨h1, h2, h3⟩ := key count 0 0 ⟨[], []⟩ rfl rfl (fun j hj => by cases hj) h
  rw [Nat.zero_add] at h1 h2
  exact ⟨h1, h2, by rw [h1, h2]; simp, h3⟩

/-- C60: the same for blocks -/
theorem C60_generate_range {size : Nat} (h : make_insertion_data_range W G bits count size = some d) :
    d.indexes.length = count ∧ d.ordered = (List.range (count * size)).map bits ∧ d.Ranged size := by
  have key : ∀ (left i k : Nat) (d0 : InsertionData α), d0.indexes.length = i →
      d0.ordered = (List.range (i * size)).map bits →
      (∀ j (h : j < d0.indexes.length), d0.indexes[j] ≤ j * size) →
      make_range_loop W G bits size left i k d0 = some d →
      d.indexes.length = i + left ∧ d.ordered = (List.range ((i + left) * size)).map bits ∧
        ∀ j (h : j < d.indexes.length), d.indexes[j] ≤ j * size := by
    intro left
    induction left with
    | zero => intro i k d0 h1 h2 h3 h; cases h; exact ⟨h1, h2, h3⟩
    | succ left ih =>
      intro i k d0 h1 h2 h3 h
      unfold make_range_loop at h
      obtain ⟨⟨r, k'⟩, hr, h⟩ := Option.bind_eq_some_iff.1 h
      have hlt := C59_bounded (Nat.succ_pos (i * size)) hr
      have := ih (i + 1) k' _ (by simp [h1]) (by
          rw [Nat.succ_mul, List.range_add]
          simp [h2]) (by
        intro j hj
        simp only [List.length_append, List.length_cons, List.length_nil] at hj
        rw [List.getElem_append]
        split
        · exact h3 _ _
        · rename_i hj2
          have : j = i := by omega
          subst this
          simp only [List.getElem_singleton]; omega) h
      rw [show i + (left + 1) = i + 1 + left by omega]
      exact this
  obtain ⟨h1, h2, h3⟩ := key count 0 0 ⟨[], []⟩ rfl (by simp) (fun j hj => by cases hj) h
  rw [Nat.zero_add] at h1 h2
  exact ⟨h1, h2, by rw [h1, h2]; simp, h3⟩

/-! ### insert and erase again -/

/-- the sequence after the first `n` insertions -/
def Bench.InsertionData.single (d : InsertionData α) : Nat → List α
  | 0 => []
  | n + 1 => match d.indexes[n]?, d.ordered[n]? with
    | some p, some v => ins (d.single n) p [v]
    | _, _ => d.single n

/-- the sequence after the first `n` blocks -/
def Bench.InsertionData.ranged (d : InsertionData α) (size : Nat) : Nat → List α
  | 0 => []
  | n + 1 => match d.indexes[n]? with
    | some p => ins (d.ranged size n) p (slice d.ordered (n * size) ((n + 1) * size))
    | none => d.ranged size n

theorem length_ins (h : i ≤ xs.length) : (ins xs i ys).length = xs.length + ys.length := by
  simp only [ins, List.length_append, List.length_take, List.length_drop]; omega

theorem erase_ins (h : i ≤ xs.length) : (ins xs i [v]).eraseIdx i = xs := by
  have hl : (xs.take i).length = i := by simp [h]
  unfold ins
  rw [List.eraseIdx_append_of_length_le (by omega), hl, Nat.sub_self]
  simp

theorem cut_ins (h : i ≤ xs.length) : (ins xs i ys).take i ++ (ins xs i ys).drop (i + ys.length) = xs := by
  have hl : (xs.take i).length = i := by simp [h]
  unfold ins
  rw [List.take_append_of_le_length (by omega), List.take_of_length_le (by omega), ← List.append_assoc,
    List.drop_left' (by simp [hl]), List.take_append_drop]

theorem single_succ (hd : d.Single) (h : n < d.indexes.length) :
    d.single (n + 1) = ins (d.single n) d.indexes[n] [d.ordered[n]'(by have := hd.len; omega)] := by
  have h2 : n < d.ordered.length := by have := hd.len; omega
  rw [Bench.InsertionData.single, List.getElem?_eq_getElem h, List.getElem?_eq_getElem h2]

theorem single_length (hd : d.Single) : ∀ n, n ≤ d.indexes.length → (d.single n).length = n
  | 0, _ => rfl
  | n + 1, h => by
    have ih := single_length hd n (by omega)
    have := hd.le n (by omega)
    rw [single_succ hd (by omega), length_ins (by omega), ih]
    rfl

theorem insert_single_loop_c (hE : E.Good) (hd : d.Single) (hmax : d.indexes.length ≤ max_size E) :
    ∀ (left i : Nat) (m : Mem α), i + left = d.indexes.length → Reach E m → Contents E o m (d.single i) →
    (∃ m', insert_single_loop E o d left i m = .ok () m' ∧ After E o m m' ∧ Contents E o m' (d.single d.indexes.length)) ∨
    (∃ e m', insert_single_loop E o d left i m = .throw e m' ∧ Blame E d.ordered e ∧ After E o m m' ∧
      ∃ k < d.indexes.length, Contents E o m' (d.single k)) := by
  intro left
  induction left with
  | zero =>
    intro i m hi hr hc
    rw [Nat.add_zero] at hi
    subst hi
    exact .inl ⟨m, rfl, .refl hr hc hE, hc⟩
  | succ left ih =>
    intro i m hi hr hc
    have h1 : i < d.indexes.length := by omega
    have h2 : i < d.ordered.length := by have := hd.len; omega
    have hl := single_length hd i (by omega)
    have hle := hd.le i h1
    unfold insert_single_loop
    rw [List.getElem?_eq_getElem h1, List.getElem?_eq_getElem h2]
    rcases hr.insertAt (v := d.ordered[i]) hE hc (i := d.indexes[i]) (by omega) (by omega)
      (insert_single_loop E o d left (i + 1)) with ⟨m', h3, h4, h5⟩ | ⟨e, m', h3, h4, h5, h6⟩
    · simp only [h3]
      rw [← single_succ hd h1] at h4
      rcases ih (i + 1) m' (by omega) h5.reach h4 with ⟨m2, g1, g2, g3⟩ | ⟨e, m2, g1, g2, g3, g4⟩
      · exact .inl ⟨m2, g1, h5.trans g2, g3⟩
      · exact .inr ⟨e, m2, g1, g2, h5.trans g3, g4⟩
    · refine .inr ⟨e, m', h3, ?_, h6, i, h1, h5⟩
      rcases h4 with rfl | ⟨rfl, w, hw, ht⟩
      · exact .inl rfl
      · simp only [List.mem_singleton] at hw
        subst hw
        exact .inr ⟨rfl, _, List.getElem_mem _, ht⟩

theorem erase_single_loop_c (hE : E.Good) (hd : d.Single) :
    ∀ (n : Nat) (m : Mem α), n + 1 ≤ d.indexes.length → Reach E m → Contents E o m (d.single (n + 1)) →
    ∃ m', erase_single_loop E o d (n + 1) m = .ok () m' ∧ After E o m m' ∧ Contents E o m' (d.single 1) := by
  intro n
  induction n with
  | zero => intro m _ hr hc; exact ⟨m, rfl, .refl hr hc hE, hc⟩
  | succ n ih =>
    intro m hn hr hc
    have hl := single_length hd (n + 1) (by omega)
    have hle := hd.le (n + 1) (by omega)
    unfold erase_single_loop
    rw [List.getElem?_eq_getElem (by omega : n + 1 < d.indexes.length)]
    rw [single_succ hd (by omega)] at hc
    obtain ⟨m', h1, h2, h3⟩ := hr.eraseAt hE hc (i := d.indexes[n + 1]) (by rw [length_ins (by omega)]; simp; omega)
      (erase_single_loop E o d (n + 1))
    simp only [h1]
    rw [erase_ins (by omega)] at h2
    obtain ⟨m2, g1, g2, g3⟩ := ih m' (by omega) h3.reach h2
    exact ⟨m2, g1, h3.trans g2, g3⟩

/-- C60: `insert_single` builds the sequence the data describe (or stops at an
exception, with the sequence so far), and `erase_single` takes it down again
to exactly the first element. -/
theorem C60_single (hE : E.Good) (hr : Reach E m) (hc : Contents E o m []) (hd : d.Single)
    (hmax : d.indexes.length ≤ max_size E) :
    (∃ m1, insert_single E o d m = .ok () m1 ∧ Contents E o m1 (d.single d.indexes.length) ∧ After E o m m1 ∧
      ∀ h : 0 < d.ordered.length, ∃ m2, Bench.erase_single E o d m1 = .ok () m2 ∧
        Contents E o m2 [d.ordered[0]] ∧ After E o m m2) ∨
    (∃ e m1, insert_single E o d m = .throw e m1 ∧ Blame E d.ordered e ∧ After E o m m1 ∧
      ∃ k < d.indexes.length, Contents E o m1 (d.single k)) := by
  rcases insert_single_loop_c hE hd hmax d.indexes.length 0 m (by omega) hr hc with ⟨m1, h1, h2, h3⟩ | h
  · refine .inl ⟨m1, h1, h3, h2, fun h => ?_⟩
    have hl := hd.len
    obtain ⟨c, e⟩ : ∃ c, d.indexes.length = c + 1 := ⟨d.indexes.length - 1, by omega⟩
    obtain ⟨m2, h4, h5, h6⟩ := erase_single_loop_c hE hd c m1 (by omega) h2.reach (e ▸ h3)
    refine ⟨m2, ?_, ?_, h2.trans h5⟩
    · unfold Bench.erase_single
      rw [e]
      exact h4
    · rw [single_succ hd (by omega)] at h6
      have h0 : d.indexes[0]'(by omega) = 0 := by have := hd.le 0 (by omega); omega
      rw [h0] at h6
      exact h6
  · exact .inr h

theorem ranged_succ (h : n < d.indexes.length) :
    d.ranged sz (n + 1) = ins (d.ranged sz n) d.indexes[n] (slice d.ordered (n * sz) ((n + 1) * sz)) := by
  rw [Bench.InsertionData.ranged, List.getElem?_eq_getElem h]

theorem slice_block (hd : d.Ranged sz) (h : n < d.indexes.length) :
    (slice d.ordered (n * sz) ((n + 1) * sz)).length = sz ∧ n * sz + sz ≤ d.ordered.length ∧
    (d.ordered.drop (n * sz)).take sz = slice d.ordered (n * sz) ((n + 1) * sz) := by
  have h1 : (n + 1) * sz ≤ d.ordered.length := by rw [hd.len]; exact Nat.mul_le_mul_right _ h
  rw [Nat.succ_mul] at h1
  refine ⟨?_, h1, ?_⟩
  · simp only [slice, List.length_drop, List.length_take, Nat.succ_mul]; omega
  · simp only [slice, Nat.succ_mul, List.drop_take]
    congr 1
    omega

theorem ranged_length (hd : d.Ranged sz) : ∀ n, n ≤ d.indexes.length → (d.ranged sz n).length = n * sz
  | 0, _ => by simp [Bench.InsertionData.ranged]
  | n + 1, h => by
    have ih := ranged_length hd n (by omega)
    have := hd.le n (by omega)
    rw [ranged_succ (by omega), length_ins (by omega), ih, (slice_block hd h).1, Nat.succ_mul]

theorem insert_range_loop_c (hE : E.Good) (hd : d.Ranged sz) (hmax : d.ordered.length ≤ max_size E) :
    ∀ (left i : Nat) (m : Mem α), i + left = d.indexes.length → Reach E m → Contents E o m (d.ranged sz i) →
    (∃ m', insert_range_loop E o d sz left i (i * sz) m = .ok () m' ∧ After E o m m' ∧
      Contents E o m' (d.ranged sz d.indexes.length)) ∨
    (∃ e m', insert_range_loop E o d sz left i (i * sz) m = .throw e m' ∧ Blame E d.ordered e ∧ After E o m m' ∧
      ∃ k, ∃ h : k < d.indexes.length, ∃ j < sz,
        Contents E o m' (ins (d.ranged sz k) d.indexes[k] (slice d.ordered (k * sz) (k * sz + j)))) := by
  intro left
  induction left with
  | zero =>
    intro i m hi hr hc
    rw [Nat.add_zero] at hi
    subst hi
    exact .inl ⟨m, rfl, .refl hr hc hE, hc⟩
  | succ left ih =>
    intro i m hi hr hc
    have h1 : i < d.indexes.length := by omega
    have hl := ranged_length hd i (by omega)
    have hle := hd.le i h1
    obtain ⟨hb1, hb2, hb3⟩ := slice_block hd h1
    unfold insert_range_loop
    rw [List.getElem?_eq_getElem h1]
    simp only [if_pos hb2]
    rw [hb3]
    rcases hr.insertListAt (vs := slice d.ordered (i * sz) ((i + 1) * sz)) hE hc (i := d.indexes[i]) (by omega)
      (by omega) (insert_range_loop E o d sz left (i + 1) (i * sz + sz)) with ⟨m', h3, h4, h5⟩ | ⟨e, m', h3, h4, ⟨k, hk, h5⟩, h6⟩
    · simp only [h3]
      rw [← ranged_succ h1] at h4
      rw [← Nat.succ_mul]
      rcases ih (i + 1) m' (by omega) h5.reach h4 with ⟨m2, g1, g2, g3⟩ | ⟨e, m2, g1, g2, g3, g4⟩
      · exact .inl ⟨m2, g1, h5.trans g2, g3⟩
      · exact .inr ⟨e, m2, g1, g2, h5.trans g3, g4⟩
    · refine .inr ⟨e, m', h3, ?_, h6, i, h1, k, by omega, ?_⟩
      · rcases h4 with rfl | ⟨rfl, w, hw, ht⟩
        · exact .inl rfl
        · exact .inr ⟨rfl, w, List.mem_of_mem_take (List.mem_of_mem_drop hw), ht⟩
      · have : slice d.ordered (i * sz) (i * sz + k) = (slice d.ordered (i * sz) ((i + 1) * sz)).take k := by
          rw [← hb3, List.take_take, Nat.min_eq_left (by omega)]
          simp only [slice, List.drop_take]
          congr 1
          omega
        rw [this]
        exact h5

theorem erase_range_loop_c (hE : E.Good) (hd : d.Ranged sz) :
    ∀ (n : Nat) (m : Mem α), n + 1 ≤ d.indexes.length → Reach E m → Contents E o m (d.ranged sz (n + 1)) →
    ∃ m', erase_range_loop E o d sz (n + 1) m = .ok () m' ∧ After E o m m' ∧ Contents E o m' (d.ranged sz 1) := by
  intro n
  induction n with
  | zero => intro m _ hr hc; exact ⟨m, rfl, .refl hr hc hE, hc⟩
  | succ n ih =>
    intro m hn hr hc
    have hl := ranged_length hd (n + 1) (by omega)
    have hle := hd.le (n + 1) (by omega)
    have hb := (slice_block hd (by omega : n + 1 < d.indexes.length)).1
    unfold erase_range_loop
    rw [List.getElem?_eq_getElem (by omega : n + 1 < d.indexes.length)]
    rw [ranged_succ (by omega)] at hc
    have hlen := length_ins (ys := slice d.ordered ((n + 1) * sz) ((n + 1 + 1) * sz)) (show d.indexes[n + 1] ≤ (d.ranged sz (n + 1)).length by omega)
    obtain ⟨it, hn1⟩ := hr.nth hE hc d.indexes[n + 1]
    obtain ⟨jt, hj1, hj2⟩ := C19_add hE hr hc (d := (sz : Int)) (by omega) (by omega) (by omega) hn1
    rw [show ((d.indexes[n + 1] : Int) + (sz : Int)).toNat = d.indexes[n + 1] + sz by omega] at hj2
    obtain ⟨m', h1, h2, h3⟩ := hr.eraseRangeAt hE hc (by omega) (by omega) hn1 hj2 (erase_range_loop E o d sz (n + 1))
    simp only [bind_ok hn1, bind_ok hj1, h1]
    have hcut := cut_ins (ys := slice d.ordered ((n + 1) * sz) ((n + 1 + 1) * sz)) (show d.indexes[n + 1] ≤ (d.ranged sz (n + 1)).length by omega)
    rw [hb] at hcut
    rw [hcut] at h2
    obtain ⟨m2, g1, g2, g3⟩ := ih m' (by omega) h3.reach h2
    exact ⟨m2, g1, h3.trans g2, g3⟩

/-- C60: `insert_range` and `erase_range` likewise, for blocks of at least one
element -/
theorem C60_range (hE : E.Good) (hr : Reach E m) (hc : Contents E o m []) (hd : d.Ranged sz) (hsz : 0 < sz)
    (h0 : 0 < d.ordered.length) (hmax : d.ordered.length ≤ max_size E) :
    (∃ m1, insert_range E o d m = .ok () m1 ∧ Contents E o m1 (d.ranged sz d.indexes.length) ∧ After E o m m1 ∧
      ∃ m2, Bench.erase_range E o d m1 = .ok () m2 ∧ Contents E o m2 [d.ordered[0]] ∧ After E o m m2) ∨
    (∃ e m1, insert_range E o d m = .throw e m1 ∧ Blame E d.ordered e ∧ After E o m m1 ∧
      ∃ k, ∃ h : k < d.indexes.length, ∃ j < sz,
        Contents E o m1 (ins (d.ranged sz k) d.indexes[k] (slice d.ordered (k * sz) (k * sz + j)))) := by
  have hlen := hd.len
  have hcount : 0 < d.indexes.length := by
    rcases Nat.eq_zero_or_pos d.indexes.length with h | h
    · rw [h] at hlen; omega
    · exact h
  have hdiv : d.ordered.length / d.indexes.length = sz := by
    rw [hlen, Nat.mul_div_cancel_left _ hcount]
  unfold insert_range
  rw [if_neg (by omega), hdiv]
  have key := insert_range_loop_c (o := o) hE hd hmax d.indexes.length 0 m (by omega) hr hc
  rw [Nat.zero_mul] at key
  rcases key with ⟨m1, h1, h2, h3⟩ | h
  · refine .inl ⟨m1, h1, h3, h2, ?_⟩
    obtain ⟨c, e⟩ : ∃ c, d.indexes.length = c + 1 := ⟨d.indexes.length - 1, by omega⟩
    obtain ⟨m2, h4, h5', h6⟩ := erase_range_loop_c hE hd c m1 (by omega) h2.reach (e ▸ h3)
    have h5 := h5'.reach
    have hl := ranged_length hd 1 (by omega)
    rw [Nat.one_mul] at hl
    obtain ⟨it, hn1⟩ := h5.nth hE h6 1
    obtain ⟨-, ⟨en, he1, he2⟩, -⟩ := C18_ends hE h5 h6
    obtain ⟨m3, h7, h8, h9⟩ := h5.eraseRangeAt hE h6 (by omega) (Nat.le_refl _) hn1 he2 (pure ())
    refine ⟨m3, ?_, ?_, (h2.trans h5').trans h9⟩
    · unfold Bench.erase_range
      rw [if_neg (by omega), hdiv, e, bind_ok h4, bind_ok hn1, bind_ok he1]
      exact h7
    · rw [List.drop_length, List.append_nil] at h8
      have : (d.ranged sz 1).take 1 = [d.ordered[0]] := by
        rw [ranged_succ hcount]
        have h0' : d.indexes[0] = 0 := by have := hd.le 0 hcount; omega
        rw [h0']
        simp only [Bench.InsertionData.ranged, ins, slice, List.take_nil, List.nil_append, List.drop_nil,
          List.append_nil, Nat.zero_mul, List.drop_zero, Nat.zero_add, Nat.one_mul, List.take_take]
        rw [Nat.min_eq_left hsz]
        obtain ⟨x, l, e⟩ := List.exists_cons_of_length_pos h0
        simp [e]
      rwa [this] at h8
  · exact .inr h

/-! ### summing up -/

/-- the sum of the elements, in `std::uint64_t` -/
def total (val : α → Nat) (xs : List α) : Nat := (xs.map val).sum % 2 ^ 64

/-- every `d`-th element from the front: elements 0, d, 2d, ... of those blocks
of `d` that are complete -/
def strideFwd (d : Nat) (xs : List α) : List α := (List.range (xs.length / d)).filterMap fun k => xs[k * d]?

/-- every `d`-th element from the back: elements n-d, n-2d, ... -/
def strideBwd (d : Nat) (xs : List α) : List α :=
  (List.range (xs.length / d)).filterMap fun k => xs[xs.length - (k + 1) * d]?

example : strideFwd 3 [10, 11, 12, 13, 14, 15, 16, 17] = [10, 13] ∧
    strideBwd 3 [10, 11, 12, 13, 14, 15, 16, 17] = [15, 12] := by decide

variable {val : α → Nat} {accu : Nat} {it jt : Iter}

theorem addU64_lt {a b : Nat} : addU64 a b < 2 ^ 64 := Nat.mod_lt _ (by decide)

theorem addU64_mod {a b c : Nat} : (addU64 a b + c) % 2 ^ 64 = (a + (b + c)) % 2 ^ 64 := by
  unfold addU64
  rw [Nat.mod_add_mod, Nat.add_assoc]

theorem acc_forward_loop_c (hE : E.Good) (hr : Reach E m) (hc : Contents E o m xs)
    (hlast : nth E o xs.length m = .ok jt m) : ∀ (k i : Nat) (it : Iter) (accu : Nat), i + k = xs.length → accu < 2 ^ 64 →
    nth E o i m = .ok it m →
    acc_forward_loop E val it jt accu m = .ok ((accu + ((xs.drop i).map val).sum) % 2 ^ 64) m := by
  have hjt := nth_pos hE hr hc (Nat.le_refl _) hlast
  intro k
  induction k with
  | zero =>
    intro i it accu hi ha hn
    have hit := nth_pos hE hr hc (by omega) hn
    rw [acc_forward_loop, if_neg (by omega), List.drop_of_length_le (by omega)]
    show Res.ok accu m = _
    rw [List.map_nil, List.sum_nil, Nat.add_zero, Nat.mod_eq_of_lt ha]
  | succ k ih =>
    intro i it accu hi ha hn
    have hit := nth_pos hE hr hc (by omega) hn
    obtain ⟨it2, h1, h2⟩ := C18_next hE hr hc (by omega) hn
    rw [acc_forward_loop, if_pos (by omega), bind_ok (nth_deref hE hr hc (by omega) hn), bind_ok h1,
      ih (i + 1) it2 _ (by omega) addU64_lt h2, addU64_mod, List.drop_eq_getElem_cons (by omega : i < xs.length),
      List.map_cons, List.sum_cons]

theorem acc_backward_loop_c (hE : E.Good) (hr : Reach E m) (hc : Contents E o m xs)
    (hfirst : nth E o 0 m = .ok it m) : ∀ (i : Nat) (jt : Iter) (accu : Nat), i ≤ xs.length → accu < 2 ^ 64 →
    nth E o i m = .ok jt m →
    acc_backward_loop E val it jt accu m = .ok ((accu + ((xs.take i).map val).sum) % 2 ^ 64) m := by
  have hit := nth_pos hE hr hc (Nat.zero_le _) hfirst
  intro i
  induction i with
  | zero =>
    intro jt accu hi ha hn
    have hjt := nth_pos hE hr hc (by omega) hn
    rw [acc_backward_loop, if_neg (by omega)]
    show Res.ok accu m = _
    rw [List.take_zero, List.map_nil, List.sum_nil, Nat.add_zero, Nat.mod_eq_of_lt ha]
  | succ i ih =>
    intro jt accu hi ha hn
    have hjt := nth_pos hE hr hc (by omega) hn
    obtain ⟨it2, h1, h2⟩ := C18_prev hE hr hc (by omega) hi hn
    rw [Nat.add_sub_cancel] at h2
    rw [acc_backward_loop, if_pos (by omega), bind_ok h1, bind_ok (nth_deref hE hr hc (by omega) h2),
      ih it2 _ (by omega) addU64_lt h2, addU64_mod, List.take_succ_eq_append_getElem (by omega : i < xs.length),
      List.map_append, List.sum_append, List.map_singleton, List.sum_singleton, Nat.add_comm (val _)]

/-- C61: `accumulate_forward` and `accumulate_backward` return the sum of the
elements and change nothing -/
theorem C61_accumulate (hE : E.Good) (hr : Reach E m) (hc : Contents E o m xs) (val : α → Nat) :
    accumulate_forward E val o m = .ok (total val xs) m ∧ accumulate_backward E val o m = .ok (total val xs) m := by
  obtain ⟨b, e, h1, h2, h3, h4⟩ := hr.ends hE hc
  constructor
  · unfold accumulate_forward
    rw [bind_ok h1, bind_ok h3, acc_forward_loop_c hE hr hc h4 xs.length 0 b 0 (by omega) (by decide) h2,
      List.drop_zero, Nat.zero_add]
    rfl
  · unfold accumulate_backward
    rw [bind_ok h1, bind_ok h3, acc_backward_loop_c hE hr hc h2 xs.length e 0 (Nat.le_refl _) (by decide) h4,
      List.take_length, Nat.zero_add]
    rfl

theorem acc_forward_by_loop_c (hE : E.Good) (hr : Reach E m) (hc : Contents E o m xs) {d : Nat} (hd : 0 < d) :
    ∀ (q i : Nat) (it : Iter) (left accu : Nat), i + left = xs.length → left / d = q → accu < 2 ^ 64 →
    nth E o i m = .ok it m →
    acc_forward_by_loop E val d it left accu m =
      .ok ((accu + (((List.range q).filterMap fun k => xs[i + k * d]?).map val).sum) % 2 ^ 64) m := by
  intro q
  induction q with
  | zero =>
    intro i it left accu hi hq ha hn
    have : left < d := (Nat.div_eq_zero_iff_lt hd).1 hq
    rw [acc_forward_by_loop, if_neg (by omega)]
    show Res.ok accu m = _
    rw [List.range_zero, List.filterMap_nil, List.map_nil, List.sum_nil, Nat.add_zero, Nat.mod_eq_of_lt ha]
  | succ q ih =>
    intro i it left accu hi hq ha hn
    have hle : d ≤ left := by
      by_contra hlt
      rw [Nat.div_eq_of_lt (by omega)] at hq
      omega
    have hq' : (left - d) / d = q := by
      rw [Nat.div_eq_sub_div hd hle] at hq
      omega
    obtain ⟨it2, h1, h2⟩ := C19_add hE hr hc (d := (d : Int)) (by omega) (by omega) (by omega) hn
    rw [show ((i : Int) + (d : Int)).toNat = i + d by omega] at h2
    rw [acc_forward_by_loop, if_pos hle, bind_ok (nth_deref hE hr hc (by omega) hn), bind_ok h1,
      ih (i + d) it2 (left - d) _ (by omega) hq' addU64_lt h2, addU64_mod]
    rw [List.range_succ_eq_map, List.filterMap_cons]
    simp only [Nat.zero_mul, Nat.add_zero, List.getElem?_eq_getElem (by omega : i < xs.length), List.map_cons, List.sum_cons,
      List.filterMap_map, Function.comp_def, Nat.succ_mul]
    simp only [Nat.add_assoc, Nat.add_comm d]

theorem acc_backward_by_loop_c (hE : E.Good) (hr : Reach E m) (hc : Contents E o m xs) {d : Nat} (hd : 0 < d) :
    ∀ (q : Nat) (it : Iter) (left accu : Nat), left ≤ xs.length → left / d = q → accu < 2 ^ 64 →
    nth E o left m = .ok it m →
    acc_backward_by_loop E val d it left accu m =
      .ok ((accu + (((List.range q).filterMap fun k => xs[left - (k + 1) * d]?).map val).sum) % 2 ^ 64) m := by
  intro q
  induction q with
  | zero =>
    intro it left accu hi hq ha hn
    have : left < d := (Nat.div_eq_zero_iff_lt hd).1 hq
    rw [acc_backward_by_loop, if_neg (by omega)]
    show Res.ok accu m = _
    rw [List.range_zero, List.filterMap_nil, List.map_nil, List.sum_nil, Nat.add_zero, Nat.mod_eq_of_lt ha]
  | succ q ih =>
    intro it left accu hi hq ha hn
    have hle : d ≤ left := by
      by_contra hlt
      rw [Nat.div_eq_of_lt (by omega)] at hq
      omega
    have hq' : (left - d) / d = q := by
      rw [Nat.div_eq_sub_div hd hle] at hq
      omega
    obtain ⟨it2, h1, h2⟩ := C19_sub hE hr hc (d := (d : Int)) (by omega) (by omega) (by omega) hn
    rw [show ((left : Int) - (d : Int)).toNat = left - d by omega] at h2
    rw [acc_backward_by_loop, if_pos hle, bind_ok h1, bind_ok (nth_deref hE hr hc (by omega) h2),
      ih it2 (left - d) _ (by omega) hq' addU64_lt h2, addU64_mod]
    rw [List.range_succ_eq_map, List.filterMap_cons]
    simp only [Nat.zero_mul, Nat.zero_add, List.getElem?_eq_getElem (by omega : left - d < xs.length), List.map_cons,
      List.sum_cons, List.filterMap_map, Function.comp_def, Nat.succ_mul, Nat.sub_sub]
    simp only [Nat.add_assoc, Nat.add_comm d]

/-- C61: jumping by a distance sums every `distance`-th element of the complete
blocks, from the front or from the back -/
theorem C61_accumulate_by (hE : E.Good) (hr : Reach E m) (hc : Contents E o m xs) (val : α → Nat) {distance : Nat}
    (hd : 0 < distance) :
    accumulate_forward_by E val o distance m = .ok (total val (strideFwd distance xs)) m ∧
    accumulate_backward_by E val o distance m = .ok (total val (strideBwd distance xs)) m := by
  obtain ⟨b, e, h1, h2, h3, h4⟩ := hr.ends hE hc
  constructor
  · unfold accumulate_forward_by
    rw [bind_ok hc.1, bind_ok h1, acc_forward_by_loop_c hE hr hc hd _ 0 b _ 0 (Nat.zero_add _) rfl (by decide) h2]
    simp only [Nat.zero_add]
    rfl
  · unfold accumulate_backward_by
    rw [bind_ok hc.1, bind_ok h3, acc_backward_by_loop_c hE hr hc hd _ e _ 0 (Nat.le_refl _) rfl (by decide) h4, Nat.zero_add]
    rfl

/-- C61: the distance has to be positive: with distance 0 the loops never end
(unless the container is empty, when they read an element that does not exist) -/
theorem C61_zero (hE : E.Good) (hr : Reach E m) (hc : Contents E o m xs) (hne : xs ≠ []) (val : α → Nat) :
    accumulate_forward_by E val o 0 m = .div := by
  obtain ⟨b, e, h1, h2, h3, h4⟩ := hr.ends hE hc
  have hpos := List.length_pos_iff.2 hne
  obtain ⟨it2, h5, h6⟩ := C19_add hE hr hc (d := 0) (by omega) (by omega) (by omega) h2
  rw [show ((0 : Nat) + (0 : Int)).toNat = 0 by rfl, h2] at h6
  cases h6
  have hd := nth_deref hE hr hc hpos h2
  have key : ∀ left accu, acc_forward_by_loop E val 0 b left accu m = .div := by
    refine acc_forward_by_loop.fixpoint_induct E val 0 (fun f => ∀ left accu, f b left accu m = .div) ?_ ?_
    · refine Lean.Order.admissible_apply (fun _ (g : Nat → Nat → M α Nat) => ∀ left accu, g left accu m = .div) b ?_
      refine Lean.Order.admissible_pi _ fun left => ?_
      refine Lean.Order.admissible_apply (fun _ (g : Nat → M α Nat) => ∀ accu, g accu m = .div) left ?_
      refine Lean.Order.admissible_pi _ fun accu => ?_
      refine Lean.Order.admissible_apply (fun _ (g : M α Nat) => g m = .div) accu ?_
      exact Lean.Order.admissible_apply (fun _ (r : Res α Nat) => r = .div) m (Lean.Order.admissible_flatOrder _ rfl)
    · intro f ih left accu
      dsimp only
      rw [if_pos (Nat.zero_le _), bind_ok hd]
      have h5' : it_add E b ((0 : Nat) : Int) m = .ok b m := h5
      rw [bind_ok h5']
      exact ih _ _
  unfold accumulate_forward_by
  rw [bind_ok hc.1, bind_ok h1]
  exact key _ _

/-- C60: the whole program, for any random numbers: generate data for `count`
insertions, insert, take down.  What is left is the first element generated; an
exception can only come from the allocator or from copying an element, and leaves
a usable container. -/
theorem C60_program (hE : E.Good) (hr : Reach E m) (hc : Contents E o m []) (hcount : 0 < count)
    (hmax : count ≤ max_size E) (hd : make_insertion_data_single W G bits count = some d) :
    (∃ m2, (do insert_single E o d; Bench.erase_single E o d : M α Unit) m = .ok () m2 ∧
      Contents E o m2 [bits 0] ∧ After E o m m2) ∨
    (∃ e m1, (do insert_single E o d; Bench.erase_single E o d : M α Unit) m = .throw e m1 ∧
      Blame E ((List.range count).map bits) e ∧ After E o m m1 ∧ ∃ ys, Contents E o m1 ys ∧ ys.length < count) := by
  obtain ⟨h1, h2, h3⟩ := C60_generate_single hd
  rcases C60_single hE hr hc h3 (h1 ▸ hmax) with ⟨m1, h4, -, -, h5⟩ | ⟨e, m1, h4, h5, h6, k, hk, h7⟩
  · obtain ⟨m2, h6, h7, h8⟩ := h5 (by rw [h2]; simp; omega)
    refine .inl ⟨m2, by rw [bind_ok h4]; exact h6, ?_, h8⟩
    simpa [h2] using h7
  · refine .inr ⟨e, m1, bind_throw h4, h2 ▸ h5, h6, _, h7, ?_⟩
    rw [single_length h3 k (by omega)]
    omega

/-- the hypotheses are met: an engine that counts, five insertions into an empty
container -/
example : ∃ (m : Mem Nat) (d : InsertionData Nat), Reach demo m ∧ Contents demo 0 m [] ∧
    make_insertion_data_single (2 ^ 64) ⟨0, 2 ^ 32 - 1, fun k => k + 7⟩ (fun j => 100 + j) 5 = some d ∧
    d.indexes = [0, 0, 0, 2, 1] ∧ d.ordered = [100, 101, 102, 103, 104] ∧ d.single 5 = [102, 104, 101, 103, 100] := by
  obtain ⟨m, h1, h2⟩ := demo_list []
  refine ⟨m, ⟨[0, 0, 0, 2, 1], [100, 101, 102, 103, 104]⟩, h1, h2, ?_, rfl, rfl, rfl⟩
  have hb : ∀ ub k, threshold (2 ^ 64) ⟨0, 2 ^ 32 - 1, fun k => k + 7⟩ ub ≤ k + 7 →
      bounded_rand (2 ^ 64) ⟨0, 2 ^ 32 - 1, fun k => k + 7⟩ ub k = some ((k + 7) % ub, k + 1) := fun ub k h => by
    rw [bounded_rand]; exact if_pos h
  unfold make_insertion_data_single
  simp only [make_single_loop]
  rw [hb 1 0 (by decide)]; simp only [Option.bind_eq_bind, Option.bind_some]
  rw [hb 2 1 (by decide)]; simp only [Option.bind_some]
  rw [hb 3 2 (by decide)]; simp only [Option.bind_some]
  rw [hb 4 3 (by decide)]; simp only [Option.bind_some]
  rw [hb 5 4 (by decide)]; simp only [Option.bind_some]
  rfl

/-- the hypotheses of C61 are met -/
example : ∃ (m : Mem Nat), Reach demo m ∧ Contents demo 0 m eight ∧
    accumulate_forward demo id 0 m = .ok 113 m ∧ accumulate_backward_by demo id 0 3 m = .ok (16 + 12) m := by
  obtain ⟨m, h1, h2, -⟩ := demo_eight
  exact ⟨m, h1, h2, (C61_accumulate demo_good h1 h2 id).1, (C61_accumulate_by demo_good h1 h2 id (by decide)).2⟩

/-! ### the scope guard -/

/-- no guard yet -/
def noGuards : Guards := ⟨fun _ => none, []⟩

/-- the functions a program makes guards for -/
def made : List GuardOp → List Nat
  | [] => []
  | .make _ f :: ops => f :: made ops
  | _ :: ops => made ops

/-- the functions whose guard is dismissed while it is armed -/
def dismissed (s : Guards) : List GuardOp → List Nat
  | [] => []
  | op :: ops =>
    let rest := match op.run s with
      | some s' => dismissed s' ops
      | none => []
    match op with
    | .dismiss g => match s.guard g with
      | some (true, f) => f :: rest
      | _ => rest
    | _ => rest

/-- `L` lists the guards that are armed, with their functions -/
def Armed (s : Guards) (L : List (Nat × Nat)) : Prop :=
  (L.map Prod.fst).Nodup ∧ ∀ g f, (g, f) ∈ L ↔ s.guard g = some (true, f)

/-- taking the guard `g` off the list -/
theorem Armed.split {s : Guards} {L : List (Nat × Nat)} (h : Armed s L) {g f : Nat} (hg : s.guard g = some (true, f)) :
    ∃ L', L.Perm ((g, f) :: L') ∧ (L'.map Prod.fst).Nodup ∧ g ∉ L'.map Prod.fst := by
  have hm := (h.2 g f).2 hg
  obtain ⟨a, b, rfl⟩ := List.append_of_mem hm
  have hp : (a ++ (g, f) :: b).Perm ((g, f) :: (a ++ b)) := List.perm_middle
  refine ⟨a ++ b, hp, ?_⟩
  have h1 := (hp.map Prod.fst).nodup_iff.1 h.1
  rw [List.map_cons, List.nodup_cons] at h1
  exact ⟨h1.2, h1.1⟩

theorem guard_step {s s1 : Guards} {L : List (Nat × Nat)} {op : GuardOp} (h : Armed s L) (hr : op.run s = some s1) :
    ∃ L1, Armed s1 L1 ∧ (s1.log ++ L1.map Prod.snd ++ dismissed s [op]).Perm (s.log ++ L.map Prod.snd ++ made [op]) := by
  have dis0 : (∀ g, op ≠ .dismiss g) → dismissed s [op] = [] := by
    intro hne
    cases op with
    | dismiss g => exact absurd rfl (hne g)
    | _ => simp only [dismissed]; split <;> rfl
  cases op with
  | make g f =>
    simp only [GuardOp.run] at hr
    split at hr
    · rename_i hg
      cases hr
      refine ⟨(g, f) :: L, ⟨?_, ?_⟩, ?_⟩
      · rw [List.map_cons, List.nodup_cons]
        refine ⟨fun hm => ?_, h.1⟩
        obtain ⟨⟨a, b⟩, h1, rfl⟩ := List.mem_map.1 hm
        rw [(h.2 a b).1 h1] at hg
        cases hg
      · intro g' f'
        simp only [List.mem_cons, Prod.mk.injEq, upd]
        by_cases e : g' = g
        · subst e
          simp only [if_true, true_and, Option.some.injEq, Prod.mk.injEq]
          constructor
          · rintro (rfl | h1)
            · rfl
            · rw [(h.2 _ _).1 h1] at hg; cases hg
          · rintro rfl; exact .inl rfl
        · simp only [e, false_and, false_or, if_false]
          exact h.2 _ _
      · rw [dis0 (by intro g h; cases h)]
        simp only [made, List.map_cons, List.append_nil]
        have : (s.log ++ f :: L.map Prod.snd).Perm (f :: (s.log ++ L.map Prod.snd)) := List.perm_middle
        exact this.trans (by rw [← List.singleton_append]; exact List.perm_append_comm)
    · cases hr
  | move g other =>
    simp only [GuardOp.run] at hr
    split at hr
    · rename_i b f hg ho
      cases hr
      have hne : g ≠ other := by rintro rfl; rw [hg] at ho; cases ho
      rw [dis0 (by intro g h; cases h)]
      simp only [made, List.append_nil]
      cases b with
      | false =>
        refine ⟨L, ⟨h.1, ?_⟩, .refl _⟩
        intro g' f'
        rw [h.2]
        simp only [upd]
        by_cases e : g' = other
        · subst e; simp [ho]
        · by_cases e2 : g' = g
          · subst e2; simp [hg, e]
          · simp [e, e2]
      | true =>
        obtain ⟨L', hp, hnd, hnot⟩ := h.split ho
        refine ⟨(g, f) :: L', ⟨?_, ?_⟩, ?_⟩
        · rw [List.map_cons, List.nodup_cons]
          refine ⟨fun hm => ?_, hnd⟩
          obtain ⟨⟨a, b⟩, h1, rfl⟩ := List.mem_map.1 hm
          rw [(h.2 a b).1 (hp.mem_iff.2 (List.mem_cons_of_mem _ h1))] at hg
          cases hg
        · intro g' f'
          have h2 := h.2 g' f'
          rw [hp.mem_iff] at h2
          simp only [List.mem_cons, Prod.mk.injEq, upd] at h2 ⊢
          by_cases e : g' = other
          · subst e
            have : (g', f') ∉ L' := fun hm => hnot (List.mem_map.2 ⟨_, hm, rfl⟩)
            simp [this, hne.symm]
          · by_cases e2 : g' = g
            · subst e2
              rw [hg] at h2
              simp only [e, false_and, false_or] at h2
              simp only [e, if_false, if_true, true_and, Option.some.injEq, Prod.mk.injEq]
              constructor
              · rintro (rfl | h1)
                · rfl
                · exact absurd (h2.1 h1) (by simp)
              · rintro rfl; exact .inl rfl
            · simp only [e, e2, false_and, false_or, if_false] at h2 ⊢
              exact h2
        · exact ((hp.map Prod.snd).symm).append_left _
    · cases hr
  | dismiss g =>
    simp only [GuardOp.run] at hr
    split at hr
    · rename_i b f hg
      cases hr
      have hd : dismissed s [.dismiss g] = if b then [f] else [] := by
        simp only [dismissed, GuardOp.run, hg]
        cases b <;> rfl
      rw [hd]
      simp only [made, List.append_nil]
      cases b with
      | false =>
        simp only [Bool.false_eq_true, if_false, List.append_nil]
        refine ⟨L, ⟨h.1, ?_⟩, .refl _⟩
        intro g' f'
        rw [h.2]
        simp only [upd]
        by_cases e : g' = g
        · subst e; simp [hg]
        · simp [e]
      | true =>
        obtain ⟨L', hp, hnd, hnot⟩ := h.split hg
        refine ⟨L', ⟨hnd, ?_⟩, ?_⟩
        · intro g' f'
          have h2 := h.2 g' f'
          rw [hp.mem_iff] at h2
          simp only [List.mem_cons, Prod.mk.injEq, upd] at h2 ⊢
          by_cases e : g' = g
          · subst e
            have : (g', f') ∉ L' := fun hm => hnot (List.mem_map.2 ⟨_, hm, rfl⟩)
            simp [this]
          · simp only [e, false_and, false_or, if_false] at h2 ⊢
            exact h2
        · simp only [if_true]
          refine List.Perm.trans ?_ (((hp.map Prod.snd).symm).append_left _)
          rw [List.append_assoc]
          exact List.Perm.append_left _ (List.perm_append_comm)
    · cases hr
  | destroy g =>
    simp only [GuardOp.run] at hr
    split at hr
    · rename_i b f hg
      cases hr
      rw [dis0 (by intro g h; cases h)]
      simp only [made, List.append_nil]
      cases b with
      | false =>
        refine ⟨L, ⟨h.1, ?_⟩, .refl _⟩
        intro g' f'
        rw [h.2]
        simp only [upd]
        by_cases e : g' = g
        · subst e; simp [hg]
        · simp [e]
      | true =>
        obtain ⟨L', hp, hnd, hnot⟩ := h.split hg
        refine ⟨L', ⟨hnd, ?_⟩, ?_⟩
        · intro g' f'
          have h2 := h.2 g' f'
          rw [hp.mem_iff] at h2
          simp only [List.mem_cons, Prod.mk.injEq, upd] at h2 ⊢
          by_cases e : g' = g
          · subst e
            have : (g', f') ∉ L' := fun hm => hnot (List.mem_map.2 ⟨_, hm, rfl⟩)
            simp [this]
          · simp only [e, false_and, false_or, if_false] at h2 ⊢
            exact h2
        · simp only [if_true]
          refine List.Perm.trans ?_ (((hp.map Prod.snd).symm).append_left _)
          rw [List.append_assoc]
          exact .refl _
    · cases hr

/-- C62: whatever a program does with scope guards - handing them on by move
construction any number of times - once all guards are gone, every function ran
exactly once, except those whose guard was dismissed while armed, which never
ran. -/
theorem C62_guard {ops : List GuardOp} {s : Guards} (h : runGuards noGuards ops = some s)
    (hend : ∀ g, s.guard g = none) : (s.log ++ dismissed noGuards ops).Perm (made ops) := by
  have key : ∀ (ops : List GuardOp) (s0 s : Guards) (L : List (Nat × Nat)), Armed s0 L → runGuards s0 ops = some s →
      ∃ L1, Armed s L1 ∧ (s.log ++ L1.map Prod.snd ++ dismissed s0 ops).Perm (s0.log ++ L.map Prod.snd ++ made ops) := by
    intro ops
    induction ops with
    | nil => intro s0 s L hL h; cases h; exact ⟨L, hL, .refl _⟩
    | cons op ops ih =>
      intro s0 s L hL h
      obtain ⟨s1, h1, h2⟩ := Option.bind_eq_some_iff.1 h
      obtain ⟨L1, hL1, hp1⟩ := guard_step hL h1
      obtain ⟨L2, hL2, hp2⟩ := ih s1 s L1 hL1 h2
      refine ⟨L2, hL2, ?_⟩
      have e1 : (dismissed s0 (op :: ops)).Perm (dismissed s0 [op] ++ dismissed s1 ops) := by
        simp only [dismissed, h1]
        cases op with
        | dismiss g =>
          simp only
          split <;> simp
        | _ => simp
      have e2 : made (op :: ops) = made [op] ++ made ops := by cases op <;> rfl
      rw [e2]
      have a1 := (e1.append_left (s.log ++ L2.map Prod.snd))
      have a2 : (s.log ++ L2.map Prod.snd ++ (dismissed s0 [op] ++ dismissed s1 ops)).Perm
          (s.log ++ L2.map Prod.snd ++ dismissed s1 ops ++ dismissed s0 [op]) := by
        rw [List.append_assoc (s.log ++ L2.map Prod.snd)]
        exact List.Perm.append_left _ List.perm_append_comm
      have a3 := hp2.append_right (dismissed s0 [op])
      have a4 : (s1.log ++ L1.map Prod.snd ++ made ops ++ dismissed s0 [op]).Perm
          (s1.log ++ L1.map Prod.snd ++ dismissed s0 [op] ++ made ops) := by
        rw [List.append_assoc, List.append_assoc (s1.log ++ L1.map Prod.snd)]
        exact List.Perm.append_left _ List.perm_append_comm
      have a5 := hp1.append_right (made ops)
      have := (((a1.trans a2).trans a3).trans a4).trans a5
      rw [List.append_assoc (s0.log ++ L.map Prod.snd)] at this
      exact this
  obtain ⟨L1, hL1, hp⟩ := key ops noGuards s [] ⟨List.nodup_nil, fun g f => by simp [noGuards]⟩ h
  have : L1 = [] := by
    cases L1 with
    | nil => rfl
    | cons x l =>
      have := (hL1.2 x.1 x.2).1 (by simp)
      rw [hend] at this
      cases this
  subst this
  simpa [noGuards] using hp

/-- a program that returns a guard from a function and dismisses another one -/
example : ∃ s, runGuards noGuards [.make 0 7, .move 1 0, .destroy 0, .make 2 8, .move 3 1, .dismiss 2, .destroy 2,
      .destroy 1, .destroy 3] = some s ∧ (∀ g, s.guard g = none) ∧ s.log = [7] := by
  refine ⟨_, rfl, fun g => ?_, rfl⟩
  simp only [noGuards, upd]
  repeat' split
  all_goals rfl

end SegTree
