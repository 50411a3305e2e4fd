/-
  C82: the checksum with which the repository's tests and benchmarks compare
  containers detects every corruption of up to 64 consecutive bits.
-/
import Verif.Model.Checksum
import Mathlib.Data.Nat.Notation
set_option autoImplicit false

namespace SegTree
open Bench
variable {α : Type}

/-! ### The remainder -/

theorem crc_bit_low (s : BitVec 64) (b : Bool) : (crc_bit s b).getLsbD 0 = (s.msb != b) := by
  unfold crc_bit
  split
  · next h => rw [h]; simp [poly]
  · next h => simp [h]

/-- the bits above the lowest, but for the polynomial -/
theorem crc_bit_high (s : BitVec 64) (b : Bool) (i : Nat) (hi : i + 1 < 64) :
    (crc_bit s b).getLsbD (i + 1) = (s.getLsbD i ^^ ((s.msb != b) && poly.getLsbD (i + 1))) := by
  unfold crc_bit
  split
  · next h => rw [h]; simp [hi, BitVec.getLsbD_eq_getElem (by omega : i < 64)]
  · next h => simp [h, hi, BitVec.getLsbD_eq_getElem (by omega : i < 64)]

/-- the same message after two different remainders leaves two different remainders -/
theorem crc_bit_inj {s t : BitVec 64} {b : Bool} (h : crc_bit s b = crc_bit t b) : s = t := by
  have h0 : (s.msb != b) = (t.msb != b) := by rw [← crc_bit_low, ← crc_bit_low, h]
  have hm : s.msb = t.msb := by
    revert h0; cases s.msb <;> cases t.msb <;> cases b <;> decide
  apply BitVec.eq_of_getLsbD_eq
  intro i hi
  by_cases hl : i + 1 < 64
  · have h1 := crc_bit_high s b i hl
    have h2 := crc_bit_high t b i hl
    rw [h, h2, h0] at h1
    revert h1
    cases s.getLsbD i <;> cases t.getLsbD i <;> cases ((t.msb != b) && poly.getLsbD (i + 1)) <;> decide
  · have : i = 63 := by omega
    subst this
    simpa [BitVec.msb_eq_getLsbD_last] using hm

theorem crc_fold_inj (r : List Bool) : ∀ {s t : BitVec 64}, r.foldl crc_bit s = r.foldl crc_bit t → s = t := by
  induction r with
  | nil => exact fun h => h
  | cons b r ih => exact fun h => crc_bit_inj (ih h)

/-- messages of at most 64 bits: equal remainders at the end mean that the remainders
at the start agree in the bits that have not been shifted out -/
theorem crc_back : ∀ (x y : List Bool) (s t : BitVec 64), x.length = y.length → x.length ≤ 64 →
    x.foldl crc_bit s = y.foldl crc_bit t → ∀ i, i + x.length < 64 → s.getLsbD i = t.getLsbD i := by
  intro x
  induction x with
  | nil =>
    intro y s t hl _ h i _
    cases y with
    | nil => exact congrArg (·.getLsbD i) h
    | cons _ _ => cases hl
  | cons a x ih =>
    intro y s t hl h64 h i hi
    cases y with
    | nil => cases hl
    | cons b y =>
      simp only [List.length_cons] at hl h64 hi
      have key := ih y (crc_bit s a) (crc_bit t b) (by omega) (by omega) h
      have h0 := key 0 (by omega)
      rw [crc_bit_low, crc_bit_low] at h0
      have h1 := key (i + 1) (by omega)
      rw [crc_bit_high s a i (by omega), crc_bit_high t b i (by omega), h0] at h1
      revert h1
      cases s.getLsbD i <;> cases t.getLsbD i <;> cases ((t.msb != b) && poly.getLsbD (i + 1)) <;> decide

/-- from the same remainder, different messages of at most 64 bits leave different
remainders -/
theorem crc_burst : ∀ (x y : List Bool) (s : BitVec 64), x.length = y.length → x.length ≤ 64 →
    x.foldl crc_bit s = y.foldl crc_bit s → x = y := by
  intro x
  induction x with
  | nil =>
    intro y s hl _ _
    cases y with
    | nil => rfl
    | cons _ _ => cases hl
  | cons a x ih =>
    intro y s hl h64 h
    cases y with
    | nil => cases hl
    | cons b y =>
      simp only [List.length_cons] at hl h64
      have h0 := crc_back x y (crc_bit s a) (crc_bit s b) (by omega) (by omega) h 0 (by omega)
      rw [crc_bit_low, crc_bit_low] at h0
      have hab : a = b := by revert h0; cases s.msb <;> cases a <;> cases b <;> decide
      subst hab
      rw [ih y _ (by omega) (by omega) h]

/-- C82: two messages that differ, but only within 64 consecutive bits, have different
checksums. -/
theorem C82_burst (l r x y : List Bool) (hl : x.length = y.length) (h64 : x.length ≤ 64)
    (h : crc (l ++ x ++ r) = crc (l ++ y ++ r)) : x = y := by
  unfold crc at h
  simp only [List.foldl_append] at h
  exact crc_burst x y _ hl h64 (crc_fold_inj r h)

/-! ### Sequences of elements -/

theorem byte_bits_length (b : BitVec 8) : (byte_bits b).length = 8 := by simp [byte_bits]

theorem byte_bits_inj {a b : BitVec 8} (h : byte_bits a = byte_bits b) : a = b := by
  apply BitVec.eq_of_getMsbD_eq
  intro i hi
  have := congrArg (·[i]?) h
  simpa [byte_bits, hi] using this

theorem flatMap_length {β γ : Type} {f : β → List γ} {k : Nat} (hf : ∀ v, (f v).length = k) :
    ∀ l : List β, (l.flatMap f).length = l.length * k := by
  intro l
  induction l with
  | nil => simp
  | cons v l ih => simp [hf, ih, Nat.succ_mul, Nat.add_comm]

theorem flatMap_inj {β γ : Type} {f : β → List γ} {k : Nat} (hf : ∀ v, (f v).length = k)
    (hi : ∀ v w, f v = f w → v = w) : ∀ l l' : List β, l.length = l'.length → l.flatMap f = l'.flatMap f → l = l' := by
  intro l
  induction l with
  | nil =>
    intro l' hl _
    cases l' with
    | nil => rfl
    | cons _ _ => cases hl
  | cons v l ih =>
    intro l' hl h
    cases l' with
    | nil => cases hl
    | cons w l' =>
      rw [List.flatMap_cons, List.flatMap_cons] at h
      obtain ⟨h1, h2⟩ := List.append_inj h (by rw [hf, hf])
      rw [hi _ _ h1, ih l' (by simpa using hl) h2]

/-- C82: elements of `k` bytes each, which their bytes determine. If one sequence is
obtained from another by replacing some neighbouring elements, of at most eight bytes
together, by others, and the checksums agree, then nothing was replaced. -/
theorem C82_detects {bytes : α → List (BitVec 8)} {k : Nat} (hk : ∀ v, (bytes v).length = k)
    (hb : ∀ v w, bytes v = bytes w → v = w) {l r us vs : List α} (hl : us.length = vs.length)
    (h8 : us.length * k ≤ 8)
    (h : make_checksum_unsigned bytes (l ++ us ++ r) = make_checksum_unsigned bytes (l ++ vs ++ r)) : us = vs := by
  unfold make_checksum_unsigned at h
  simp only [List.flatMap_append] at h
  have h1 := C82_burst _ _ _ _ (by
    rw [flatMap_length byte_bits_length, flatMap_length byte_bits_length, flatMap_length hk, flatMap_length hk, hl]) (by
    rw [flatMap_length byte_bits_length, flatMap_length hk]; omega) h
  have h2 := flatMap_inj byte_bits_length (fun _ _ => byte_bits_inj) _ _ (by
    rw [flatMap_length hk, flatMap_length hk, hl]) h1
  exact flatMap_inj hk hb _ _ hl h2

/-- C82, for one element: a sequence of unsigned integers (of at most 64 bits) with
one element changed has a different checksum. -/
theorem C82_element {bytes : α → List (BitVec 8)} {k : Nat} (hk : ∀ v, (bytes v).length = k) (h8 : k ≤ 8)
    (hb : ∀ v w, bytes v = bytes w → v = w) {xs : List α} {i : Nat} (hi : i < xs.length) {v : α} (hv : v ≠ xs[i]) :
    make_checksum_unsigned bytes (xs.set i v) ≠ make_checksum_unsigned bytes xs := by
  intro h
  have h1 : xs.set i v = xs.take i ++ [v] ++ xs.drop (i + 1) := by
    rw [List.set_eq_take_append_cons_drop, if_pos hi]; simp
  have h2 : xs = xs.take i ++ [xs[i]] ++ xs.drop (i + 1) := by
    rw [List.append_assoc, List.singleton_append, List.getElem_cons_drop, List.take_append_drop]
  rw [h1] at h
  conv at h => rhs; rw [h2]
  have := C82_detects hk hb (us := [v]) (vs := [xs[i]]) rfl (by simpa using h8) h
  simp only [List.cons.injEq, and_true] at this
  exact hv this

/-- C82: what it does not detect: a lost (or an additional) zero at the front, because
the remainder starts with zero. -/
theorem C82_leading_zeros {bytes : α → List (BitVec 8)} {z : α} (hz : ∀ b ∈ bytes z, b = 0#8) (xs : List α) :
    make_checksum_unsigned bytes (z :: xs) = make_checksum_unsigned bytes xs := by
  have h0 : crc_bit 0#64 false = 0#64 := by decide
  have h1 : ∀ l : List Bool, (∀ b ∈ l, b = false) → l.foldl crc_bit 0#64 = 0#64 := by
    intro l
    induction l with
    | nil => intro _; rfl
    | cons b l ih =>
      intro h
      have hb : b = false := h b List.mem_cons_self
      subst hb
      rw [List.foldl_cons, h0]
      exact ih fun b hb => h b (List.mem_cons_of_mem _ hb)
  unfold make_checksum_unsigned crc
  rw [List.flatMap_cons, List.flatMap_append, List.foldl_append]
  congr 1
  apply h1
  intro b hb
  rw [List.mem_flatMap] at hb
  obtain ⟨c, hc, hb⟩ := hb
  rw [hz c hc] at hb
  revert hb
  simp [byte_bits]

/-! ### Examples -/

/-- `std::uint8_t` -/
def u8 (v : BitVec 8) : List (BitVec 8) := [v]

/-- `std::uint64_t` on a little-endian machine -/
def u64 (v : BitVec 64) : List (BitVec 8) := (List.range 8).map fun i => v.extractLsb' (8 * i) 8

theorem u64_length (v : BitVec 64) : (u64 v).length = 8 := by simp [u64]

theorem u64_inj (v w : BitVec 64) (h : u64 v = u64 w) : v = w := by
  apply BitVec.eq_of_getLsbD_eq
  intro i hi
  have h1 := congrArg (·[i / 8]?) h
  have h2 : i / 8 < 8 := by omega
  simp only [u64, List.getElem?_map, List.getElem?_range h2, Option.map_some, Option.some.injEq] at h1
  have h3 := congrArg (·.getLsbD (i % 8)) h1
  have h4 : i % 8 < 8 := by omega
  simp only [BitVec.getLsbD_extractLsb', h4, decide_true, Bool.true_and, Nat.div_add_mod] at h3
  exact h3

-- the model computes the published check value of this CRC (CRC-64/ECMA-182)
example : make_checksum_unsigned u8 [0x31#8, 0x32#8, 0x33#8, 0x34#8, 0x35#8, 0x36#8, 0x37#8, 0x38#8, 0x39#8] =
    0x6C40DF5F0B497347#64 := by decide +kernel

example (xs : List (BitVec 64)) (i : Nat) (hi : i < xs.length) (v : BitVec 64) (hv : v ≠ xs[i]) :
    make_checksum_unsigned u64 (xs.set i v) ≠ make_checksum_unsigned u64 xs :=
  C82_element u64_length (Nat.le_refl 8) u64_inj hi hv

-- two neighbouring bytes exchanged
example (l r : List (BitVec 8)) (v w : BitVec 8) (hvw : v ≠ w) :
    make_checksum_unsigned u8 (l ++ [v, w] ++ r) ≠ make_checksum_unsigned u8 (l ++ [w, v] ++ r) := fun h => hvw <| by
  have := C82_detects (k := 1) (fun _ => rfl) (fun a b h => by simpa [u8] using h) (us := [v, w]) (vs := [w, v]) rfl
    (Nat.le_of_ble_eq_true rfl) h
  exact (List.cons.inj this).1

-- 64 bits is sharp: two elements changed together may go unnoticed
example : make_checksum_unsigned u64 [0x0100000000000000#64, 0x9336EAA9EBE1F042#64] = make_checksum_unsigned u64 [0#64, 0#64] := by
  decide +kernel

example : make_checksum_unsigned u64 [0#64, 5#64] = make_checksum_unsigned u64 [5#64] :=
  C82_leading_zeros (by decide) [5#64]

end SegTree
