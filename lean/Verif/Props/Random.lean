/-
  C59: the repository's random numbers in a range, common/common.hpp `bounded_rand`.
-/
import Verif.Model.Bench
import Mathlib.Data.Nat.Count
import Mathlib.Data.Nat.Periodic
set_option autoImplicit false

namespace SegTree
open Bench
variable {W ub k v k' : Nat} {G : Rng}

/-- `bounded_rand` with bound `ub` lets the number `x` through and maps it to `v`:
called on an engine that only returns `x` it returns `v` after one number -/
def Serves (W : Nat) (G : Rng) (ub x v : Nat) : Prop :=
  bounded_rand W ⟨G.min, G.max, fun _ => x⟩ ub 0 = some (v, 1)

theorem threshold_lt (hub : 0 < ub) : threshold W G ub < ub := Nat.mod_lt _ hub

/-- for a bound the engine covers, the threshold is the remainder of the range -/
theorem threshold_eq (hub : 0 < ub) (hle : ub ≤ G.range) (hW : G.range ≤ W) : threshold W G ub = G.range % ub := by
  unfold threshold
  rcases Nat.lt_or_eq_of_le hW with h | h
  · rw [Nat.mod_eq_of_lt h, show G.range + (W - ub) = (G.range - ub) + W by omega, Nat.add_mod_right,
      Nat.mod_eq_of_lt (by omega : G.range - ub < W), Nat.mod_eq_sub_mod hle]
  · rw [h, Nat.mod_self, Nat.zero_add, Nat.mod_eq_of_lt (by omega : W - ub < W)]
    exact (Nat.mod_eq_sub_mod (h ▸ hle)).symm

/-- the result is the remainder of the first number that reaches the threshold -/
theorem bounded_rand_first (W : Nat) (G : Rng) (ub k v k' : Nat) :
    bounded_rand W G ub k = some (v, k') ↔
      ∃ j, k ≤ j ∧ k' = j + 1 ∧ v = (G.draw j - G.min) % ub ∧ threshold W G ub ≤ G.draw j - G.min ∧
        ∀ i, k ≤ i → i < j → G.draw i - G.min < threshold W G ub := by
  constructor
  · have key : ∀ (k : Nat) (p : Nat × Nat), bounded_rand W G ub k = some p →
        ∃ j, k ≤ j ∧ p.2 = j + 1 ∧ p.1 = (G.draw j - G.min) % ub ∧ threshold W G ub ≤ G.draw j - G.min ∧
          ∀ i, k ≤ i → i < j → G.draw i - G.min < threshold W G ub := by
      apply bounded_rand.partial_correctness
      intro f ih k p h
      dsimp only at h
      split at h
      · rename_i ht
        cases h
        exact ⟨k, Nat.le_refl _, rfl, rfl, ht, fun i h1 h2 => by omega⟩
      · rename_i ht
        obtain ⟨j, h1, h2, h3, h4, h5⟩ := ih _ _ h
        refine ⟨j, by omega, h2, h3, h4, fun i hi hj => ?_⟩
        by_cases e : i = k
        · subst e; omega
        · exact h5 i (by omega) hj
    exact key k (v, k')
  · rintro ⟨j, h1, rfl, rfl, h4, h5⟩
    obtain ⟨d, rfl⟩ : ∃ d, j = k + d := ⟨j - k, by omega⟩
    clear h1
    induction d generalizing k with
    | zero =>
      rw [bounded_rand]
      exact if_pos h4
    | succ d ih =>
      rw [bounded_rand]
      have := h5 k (Nat.le_refl _) (by omega)
      rw [if_neg (by omega)]
      have := ih (k := k + 1) (by rw [show k + 1 + d = k + (d + 1) by omega]; exact h4)
        (fun i hi hj => h5 i (by omega) (by omega))
      rw [show k + 1 + d = k + (d + 1) by omega] at this
      exact this

theorem serves_iff {x : Nat} : Serves W G ub x v ↔ threshold W G ub ≤ x - G.min ∧ v = (x - G.min) % ub := by
  unfold Serves
  rw [bounded_rand_first]
  constructor
  · rintro ⟨j, -, h1, h2, h3, -⟩; exact ⟨h3, h2⟩
  · rintro ⟨h1, h2⟩; exact ⟨0, Nat.le_refl _, rfl, h2, h1, fun i h3 h4 => by omega⟩

/-- C59: what `bounded_rand` returns is decided by the first number it lets
through; it goes on from the number after that -/
theorem C59_first (W : Nat) (G : Rng) (ub k v k' : Nat) :
    bounded_rand W G ub k = some (v, k') ↔
      ∃ j, k ≤ j ∧ k' = j + 1 ∧ Serves W G ub (G.draw j) v ∧
        ∀ i, k ≤ i → i < j → ∀ w, ¬ Serves W G ub (G.draw i) w := by
  rw [bounded_rand_first]
  simp only [serves_iff]
  constructor
  · rintro ⟨j, h1, h2, h3, h4, h5⟩
    exact ⟨j, h1, h2, ⟨h4, h3⟩, fun i hi hj w hw => by have := h5 i hi hj; omega⟩
  · rintro ⟨j, h1, h2, ⟨h4, h3⟩, h5⟩
    refine ⟨j, h1, h2, h3, h4, fun i hi hj => ?_⟩
    by_contra h
    exact h5 i hi hj _ ⟨by omega, rfl⟩

/-- C59: the result is below the bound -/
theorem C59_bounded (hub : 0 < ub) (h : bounded_rand W G ub k = some (v, k')) : v < ub := by
  obtain ⟨j, -, -, rfl, -⟩ := (bounded_rand_first W G ub k v k').1 h
  exact Nat.mod_lt _ hub

theorem accepted_card (hub : 0 < ub) (hle : ub ≤ G.range) (hW : G.range ≤ W) (hv : v < ub) :
    ((Finset.range G.range).filter fun r => threshold W G ub ≤ r ∧ r % ub = v).card = G.range / ub := by
  have hthr := threshold_eq hub hle hW
  have hdm := Nat.div_add_mod G.range ub
  have : ((Finset.range G.range).filter fun r => threshold W G ub ≤ r ∧ r % ub = v) =
      (Finset.Ico (G.range % ub) (G.range % ub + (G.range / ub) * ub)).filter (fun r => r % ub = v) := by
    ext r
    simp only [Finset.mem_filter, Finset.mem_range, Finset.mem_Ico, hthr]
    rw [Nat.mul_comm] at hdm
    constructor
    · rintro ⟨h1, h2, h3⟩; exact ⟨⟨h2, by omega⟩, h3⟩
    · rintro ⟨⟨h1, h2⟩, h3⟩; exact ⟨by omega, h1, h3⟩
  rw [this]
  generalize G.range % ub = t
  generalize G.range / ub = q
  induction q with
  | zero => simp
  | succ q ih =>
    rw [← Finset.Ico_union_Ico_eq_Ico (b := t + q * ub) (by omega) (by rw [Nat.succ_mul]; omega),
      Finset.filter_union, Finset.card_union_of_disjoint, ih]
    · have := Nat.filter_Ico_card_eq_of_periodic (t + q * ub) ub (fun r => r % ub = v) (fun x => by simp)
      rw [show t + (q + 1) * ub = t + q * ub + ub by rw [Nat.succ_mul]; omega, this, Nat.count_eq_card_filter_range]
      congr 1
      rw [show (Finset.range ub).filter (fun r => r % ub = v) = {v} from ?_]
      · rfl
      · ext r
        simp only [Finset.mem_filter, Finset.mem_range, Finset.mem_singleton]
        constructor
        · rintro ⟨h1, h2⟩; rwa [Nat.mod_eq_of_lt h1] at h2
        · rintro rfl; exact ⟨hv, Nat.mod_eq_of_lt hv⟩
    · refine Finset.disjoint_filter_filter ?_
      exact Finset.Ico_disjoint_Ico_consecutive _ _ _

open Classical in
/-- C59: no result is favoured: of the numbers from `min()` to `max()` the same
number lead to each result, as long as the bound does not exceed the engine's
range.  (`W`: number of values of the result type.) -/
theorem C59_uniform (hmin : G.min ≤ G.max) (hub : 0 < ub) (hle : ub ≤ G.max - G.min + 1)
    (hW : G.max - G.min + 1 ≤ W) (hv : v < ub) :
    ((Finset.Icc G.min G.max).filter fun x => Serves W G ub x v).card = (G.max - G.min + 1) / ub := by
  refine Eq.trans ?_ (accepted_card (G := G) hub hle hW hv)
  refine Finset.card_bij (fun x _ => x - G.min) ?_ ?_ ?_
  · intro x hx
    simp only [Finset.mem_filter, Finset.mem_Icc, serves_iff] at hx
    simp only [Finset.mem_filter, Finset.mem_range, Rng.range]
    omega
  · intro x hx y hy h
    simp only [Finset.mem_filter, Finset.mem_Icc] at hx hy
    omega
  · intro r hr
    simp only [Finset.mem_filter, Finset.mem_range, Rng.range] at hr
    refine ⟨r + G.min, ?_, by omega⟩
    simp only [Finset.mem_filter, Finset.mem_Icc, serves_iff, Nat.add_sub_cancel]
    omega

open Classical in
/-- C59: less than half of the numbers from `min()` to `max()` are rejected, and
as soon as another one is drawn the loop ends -/
theorem C59_ends (hub : 0 < ub) (hle : ub ≤ G.max - G.min + 1) (hW : G.max - G.min + 1 ≤ W) :
    2 * ((Finset.Icc G.min G.max).filter fun x => ¬ ∃ v, Serves W G ub x v).card < G.max - G.min + 1 ∧
    ((∃ j v, k ≤ j ∧ Serves W G ub (G.draw j) v) → ∃ v k', bounded_rand W G ub k = some (v, k')) := by
  constructor
  · have hc : ((Finset.Icc G.min G.max).filter fun x => ¬ ∃ v, Serves W G ub x v).card ≤ threshold W G ub := by
      rw [← Finset.card_range (threshold W G ub)]
      refine Finset.card_le_card_of_injOn (fun x => x - G.min) ?_ ?_
      · intro x hx
        simp only [Finset.coe_filter, Finset.mem_Icc, Set.mem_ofPred_eq, serves_iff] at hx
        simp only [Finset.coe_range, Set.mem_Iio]
        by_contra h
        exact hx.2 ⟨_, by omega, rfl⟩
      · intro x hx y hy h
        simp only [Finset.coe_filter, Finset.mem_Icc, Set.mem_ofPred_eq] at hx hy h
        omega
    rw [threshold_eq hub hle hW] at hc
    change _ ≤ (G.max - G.min + 1) % ub at hc
    have h1 := Nat.div_add_mod (G.max - G.min + 1) ub
    have h2 := Nat.mod_lt (G.max - G.min + 1) hub
    have h3 : 1 ≤ (G.max - G.min + 1) / ub := Nat.div_pos hle hub
    have h4 : ub * 1 ≤ ub * ((G.max - G.min + 1) / ub) := Nat.mul_le_mul_left _ h3
    omega
  · rintro ⟨j, v, h1, h2⟩
    have hP : ∃ d, threshold W G ub ≤ G.draw (k + d) - G.min :=
      ⟨j - k, by rw [show k + (j - k) = j by omega]; exact (serves_iff.1 h2).1⟩
    refine ⟨_, _, (bounded_rand_first W G ub k _ _).2 ⟨k + Nat.find hP, by omega, rfl, rfl, Nat.find_spec hP, fun i hi hj => ?_⟩⟩
    have := Nat.find_min hP (m := i - k) (by omega)
    rw [show k + (i - k) = i by omega] at this
    omega

/-- C59: a bound beyond the engine's range is not served: with an engine of `R`
numbers, results from `R` up never come (`bounded_rand(mt19937, n)` for `n > 2^32`) -/
theorem C59_range (hdraw : ∀ j, G.min ≤ G.draw j ∧ G.draw j ≤ G.max) (h : bounded_rand W G ub k = some (v, k')) :
    v < G.max - G.min + 1 := by
  obtain ⟨j, -, -, rfl, -⟩ := (bounded_rand_first W G ub k v k').1 h
  have := hdraw j
  have := Nat.mod_le (G.draw j - G.min) ub
  omega

/-- the hypotheses are met: an engine returning 0..9, the bound 4; the numbers 0
and 1 are rejected, 3 and 7 give 3 -/
example : let G : Rng := ⟨0, 9, fun k => k⟩
    bounded_rand 256 G 4 0 = some (2, 3) ∧ Serves 256 G 4 3 3 ∧ Serves 256 G 4 7 3 ∧ ∀ v, ¬ Serves 256 G 4 1 v := by
  refine ⟨(bounded_rand_first _ _ _ _ _ _).2 ⟨2, by decide, rfl, rfl, by decide, ?_⟩, serves_iff.2 (by decide),
    serves_iff.2 (by decide), fun v h => absurd (serves_iff.1 h).1 (by decide)⟩
  intro i h1 h2
  have : i = 0 ∨ i = 1 := by omega
  rcases this with rfl | rfl <;> decide

end SegTree
