/-
  Model of the repository's randomised tests: `test_iterator`, `test_single`,
  `test_range`, `test_single_retry` of /repo/test/test_sequence.cpp.

  A test program answers whether all its `BOOST_CHECK`s hold.

  Simplifications: the test data are an argument (they come from
  `make_insertion_data_*`, Model/Bench); the `std::vector` is a list, its allocations
  and copies never fail (the tests use `std::uint64_t`).
-/
import Verif.Model.Checksum
import Verif.Model.Retry
set_option autoImplicit false

namespace SegTree
namespace Bench

variable {α : Type}

/-! ### `common/iterator.hpp` for a `std::vector`; an iterator is an offset -/

/-- `*it` for an iterator of a vector -/
def vecAt (xs : List α) (i : Nat) : M α α :=
  match xs[i]? with
  | some v => pure v
  | none => M.ub .oob

/-- `accumulate_forward` for a vector, common/iterator.hpp 12-15 -/
def vec_forward_loop (val : α → Nat) (xs : List α) (first last accu : Nat) : M α Nat :=
  if first ≠ last then do
    let v ← vecAt xs first
    vec_forward_loop val xs (first + 1) last (addU64 accu (val v))
  else pure accu
partial_fixpoint

/-- `accumulate_forward_by` for a vector, common/iterator.hpp 26-30 -/
def vec_forward_by_loop (val : α → Nat) (xs : List α) (distance first left accu : Nat) : M α Nat :=
  if left ≥ distance then do
    let v ← vecAt xs first
    vec_forward_by_loop val xs distance (first + distance) (left - distance) (addU64 accu (val v))
  else pure accu
partial_fixpoint

/-- `accumulate_backward` for a vector, common/iterator.hpp 41-44 -/
def vec_backward_loop (val : α → Nat) (xs : List α) (first last accu : Nat) : M α Nat :=
  if first ≠ last then do
    let last ← usub last 1
    let v ← vecAt xs last
    vec_backward_loop val xs first last (addU64 accu (val v))
  else pure accu
partial_fixpoint

/-- `accumulate_backward_by` for a vector, common/iterator.hpp 54-58 -/
def vec_backward_by_loop (val : α → Nat) (xs : List α) (distance it left accu : Nat) : M α Nat :=
  if left ≥ distance then do
    let it ← usub it distance
    let v ← vecAt xs it
    vec_backward_by_loop val xs distance it (left - distance) (addU64 accu (val v))
  else pure accu
partial_fixpoint

variable (E : Env α)

/-- `std::vector<T> inserted{first, last};`, test_sequence.cpp 719, 740, 825 -/
def read_vector (first last : Iter) : M α (List α) :=
  if first.pos ≠ last.pos then do
    let v ← dereference E first
    let first ← move_next_iterator E first
    let vs ← read_vector first last
    return v :: vs
  else pure []
partial_fixpoint

/-- the `BOOST_CHECK`s of `test_iterator` with a stride, test_sequence.cpp 680-693 and 697-710 -/
def check_by (val : α → Nat) (o : Nat) (data : List α) (distance : Nat) : M α Bool := do
  let a ← vec_forward_by_loop val data distance 0 data.length 0
  let b ← accumulate_forward_by E val o distance
  let c ← vec_backward_by_loop val data distance data.length data.length 0
  let d ← accumulate_backward_by E val o distance
  return a == b && c == d

/-- `test_iterator`, test_sequence.cpp 676-711 (the checks have no effects: their
order does not matter) -/
def test_iterator (val : α → Nat) (o : Nat) (data : List α) : M α Bool := do
  let a ← vec_forward_loop val data 0 data.length 0
  let b ← accumulate_forward E val o
  let c ← vec_backward_loop val data 0 data.length 0
  let d ← accumulate_backward E val o
  let e1 ← check_by E val o data 1
  let e10 ← check_by E val o data 10
  let e100 ← check_by E val o data 100
  let e1000 ← check_by E val o data 1000
  let e10000 ← check_by E val o data 10000
  return a == b && c == d && e1 && e10 && e100 && e1000 && e10000

/-- what `test_single`, `test_range` and `test_single_retry` have in common,
test_sequence.cpp 713-725, 734-746, 819-830: a container (built by `insert` and taken
down by `erase`) as a local variable, destroyed at the end of the block however it is
left -/
def test_random (bytes : α → List (BitVec 8)) (val : α → Nat) (eq : α → α → Bool) (o al : Nat) (insert erase : M α Unit)
    (d : InsertionData α) (checksum : BitVec 64) : M α Bool := do
  ctor o al
  let ok ← M.onThrow (do
      insert
      let first ← begin_ E o
      let last ← end_ E o
      let inserted ← read_vector E first last
      let sum := checksum == make_checksum_unsigned bytes inserted
      let ok ← test_iterator E val o inserted
      erase
      let n ← size o
      let v ← index_op E o 0
      let w ← vecAt d.ordered 0
      return sum && ok && n == 1 && eq v w) (dtor E o)
  dtor E o
  return ok

/-- `test_single`, test_sequence.cpp 713-725 -/
def test_single (bytes : α → List (BitVec 8)) (val : α → Nat) (eq : α → α → Bool) (o al : Nat) (d : InsertionData α)
    (checksum : BitVec 64) : M α Bool :=
  test_random E bytes val eq o al (insert_single E o d) (erase_single E o d) d checksum

/-- `test_range`, test_sequence.cpp 734-746 -/
def test_range (bytes : α → List (BitVec 8)) (val : α → Nat) (eq : α → α → Bool) (o al : Nat) (d : InsertionData α)
    (checksum : BitVec 64) : M α Bool :=
  test_random E bytes val eq o al (insert_range E o d) (erase_range E o d) d checksum

/-- `test_single_retry`, test_sequence.cpp 819-830 -/
def test_single_retry (catches : Exn → Bool) (bytes : α → List (BitVec 8)) (val : α → Nat) (eq : α → α → Bool) (o al : Nat)
    (d : InsertionData α) (checksum : BitVec 64) : M α Bool :=
  test_random E bytes val eq o al (insert_single_retry E catches o d) (erase_single E o d) d checksum

/-- what `bench_single` and `bench_range` have in common, bench/single.hpp 21-30,
bench/range.hpp 22-31: like the tests, but the first check that fails (`verify`,
bench/common.hpp 49-56) throws `std::runtime_error`, which ends the program (`false`)
after the container has been destroyed. `bench_iterator`, bench/iterator.hpp 10-59,
makes the same comparisons as `test_iterator`, which have no effects. -/
def bench_random (bytes : α → List (BitVec 8)) (val : α → Nat) (eq : α → α → Bool) (o al : Nat) (insert erase : M α Unit)
    (d : InsertionData α) (checksum : BitVec 64) : M α Bool := do
  ctor o al
  let ok ← M.onThrow (do
      insert
      let first ← begin_ E o
      let last ← end_ E o
      let inserted ← read_vector E first last
      if checksum != make_checksum_unsigned bytes inserted then return false
      else do
        let ok ← test_iterator E val o inserted
        if !ok then return false
        else do
          erase
          let n ← size o
          if n != 1 then return false
          else do
            let v ← index_op E o 0
            let w ← vecAt d.ordered 0
            return eq v w) (dtor E o)
  dtor E o
  return ok

/-- `bench_single`, bench/single.hpp 10-31 (the arguments have been parsed) -/
def bench_single (bytes : α → List (BitVec 8)) (val : α → Nat) (eq : α → α → Bool) (o al : Nat) (d : InsertionData α)
    (checksum : BitVec 64) : M α Bool :=
  bench_random E bytes val eq o al (insert_single E o d) (erase_single E o d) d checksum

/-- `bench_range`, bench/range.hpp 10-32 -/
def bench_range (bytes : α → List (BitVec 8)) (val : α → Nat) (eq : α → α → Bool) (o al : Nat) (d : InsertionData α)
    (checksum : BitVec 64) : M α Bool :=
  bench_random E bytes val eq o al (insert_range E o d) (erase_range E o d) d checksum

end Bench
end SegTree
