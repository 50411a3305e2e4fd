/-
  Model of the checksums of the repository's tests and benchmarks, and of the programs
  that compute the expected ones with a `std::vector`: `make_checksum_unsigned` of
  /repo/common/common.hpp, /repo/common/generate_single.hpp, generate_range.hpp.

  Simplifications: `boost::crc_optimal` is modelled by the definition of a CRC (the
  remainder is updated bit by bit, most significant bit of a byte first) rather than
  by its table; `bytes` gives the object representation of an element; a
  `std::vector` is a list and has all the memory it needs; the seed is replaced by
  what is made from it, a stream of numbers and a stream of elements.
-/
import Verif.Model.Bench
set_option autoImplicit false

namespace SegTree
namespace Bench

variable {α : Type}

/-- the truncated polynomial, common/common.hpp 78 -/
def poly : BitVec 64 := 0x42F0E1EBA9EA3693#64

/-- one bit: if the bit shifted out of the remainder differs from the bit of the
message, the polynomial is subtracted; common/common.hpp 78-79 -/
def crc_bit (rem : BitVec 64) (b : Bool) : BitVec 64 :=
  if rem.msb != b then (rem <<< 1) ^^^ poly else rem <<< 1

/-- a byte, most significant bit first (`ReflectIn` is false); common/common.hpp 78-79 -/
def byte_bits (b : BitVec 8) : List Bool := (List.range 8).map b.getMsbD

/-- `crc_optimal` started with remainder 0, and `process_block`, `checksum` (no final
exclusive or, no reflection): common/common.hpp 78-80 -/
def crc (bits : List Bool) : BitVec 64 := bits.foldl crc_bit 0#64

/-- `make_checksum_unsigned`, common/common.hpp 76-81 -/
def make_checksum_unsigned (bytes : α → List (BitVec 8)) (xs : List α) : BitVec 64 :=
  crc ((xs.flatMap bytes).flatMap byte_bits)

/-- `container.insert(begin() + p, first, last)` for a `std::vector`; undefined past the end -/
def vec_insert (xs : List α) (p : Nat) (ys : List α) : Option (List α) :=
  if p ≤ xs.length then some (xs.take p ++ (ys ++ xs.drop p)) else none

/-- the loop of `insert_single` for a vector, common/single.hpp 10-12 -/
def vec_insert_single_loop (d : InsertionData α) : (left i : Nat) → List α → Option (List α)
  | 0, _, xs => some xs
  | left + 1, i, xs => do
    let p ← d.indexes[i]?
    let v ← d.ordered[i]?
    let xs ← vec_insert xs p [v]
    vec_insert_single_loop d left (i + 1) xs

/-- the loop of `insert_range` for a vector, common/range.hpp 13-17 -/
def vec_insert_range_loop (d : InsertionData α) (size : Nat) : (left i first : Nat) → List α → Option (List α)
  | 0, _, _, xs => some xs
  | left + 1, i, first, xs => do
    let p ← d.indexes[i]?
    if first + size ≤ d.ordered.length then do
      let xs ← vec_insert xs p ((d.ordered.drop first).take size)
      vec_insert_range_loop d size left (i + 1) (first + size) xs
    else none

/-- `generate_single`, common/generate_single.hpp 15-20: the checksum it prints -/
def generate_single (bytes : α → List (BitVec 8)) (W : Nat) (G : Rng) (bits : Nat → α) (count : Nat) :
    Option (BitVec 64) := do
  let d ← make_insertion_data_single W G bits count
  let xs ← vec_insert_single_loop d d.indexes.length 0 []
  return make_checksum_unsigned bytes xs

/-- `generate_range`, common/generate_range.hpp 15-21: the checksum it prints -/
def generate_range (bytes : α → List (BitVec 8)) (W : Nat) (G : Rng) (bits : Nat → α) (count size : Nat) :
    Option (BitVec 64) := do
  let d ← make_insertion_data_range W G bits count size
  if d.indexes.length = 0 then none
  else do
    let xs ← vec_insert_range_loop d (d.ordered.length / d.indexes.length) d.indexes.length 0 0 []
    return make_checksum_unsigned bytes xs

end Bench
end SegTree
