/-
  Model of the repository's own users of the container: the helpers in /repo/common
  and /repo/bench that build, traverse and take down a container.

  Simplifications: the Mersenne twister, the clock and the printing are not modelled
  (for the CRC see Model/Checksum); a random engine is an arbitrary stream of numbers.
  `std::vector`s of test data are lists.
-/
import Verif.Model.Api
set_option autoImplicit false

namespace SegTree
namespace Bench

variable {α : Type}

/-- `insertion_data`, common/common.hpp 14-18 -/
structure InsertionData (α : Type) where
  indexes : List Nat
  ordered : List α

/-! ### Random numbers -/

/-- A random engine: `Rng::min()`, `Rng::max()` and the numbers that successive
calls return (an arbitrary stream). -/
structure Rng where
  min : Nat
  max : Nat
  draw : Nat → Nat

/-- `Rng::max() - Rng::min() + Result(1)`, as a number: how many values the
engine can return -/
def Rng.range (G : Rng) : Nat := G.max - G.min + 1

/-- the local `threshold`, common/common.hpp 68-69: unsigned arithmetic modulo
`W` (the number of values of type `Result`) -/
def threshold (W : Nat) (G : Rng) (ub : Nat) : Nat := (G.range % W + (W - ub)) % W % ub

/-- `bounded_rand`, common/common.hpp 66-74, when the next number the engine
returns is `draw k`: the result and the index of the number after that; no result
if the loop does not end -/
def bounded_rand (W : Nat) (G : Rng) (ub : Nat) (k : Nat) : Option (Nat × Nat) :=
  let r := G.draw k - G.min
  if threshold W G ub ≤ r then some (r % ub, k + 1)
  else bounded_rand W G ub (k + 1)
partial_fixpoint

/-- the loop of `make_insertion_data_single`, common/single.hpp 35-38; `bits j` is
what the `j`-th call of `bits_engine()` returns -/
def make_single_loop (W : Nat) (G : Rng) (bits : Nat → α) :
    (left i k : Nat) → InsertionData α → Option (InsertionData α)
  | 0, _, _, d => some d
  | left + 1, i, k, d => do
    let (r, k) ← bounded_rand W G (i + 1) k
    make_single_loop W G bits left (i + 1) k ⟨d.indexes ++ [r], d.ordered ++ [bits i]⟩

/-- `make_insertion_data_single`, common/single.hpp 25-41 -/
def make_insertion_data_single (W : Nat) (G : Rng) (bits : Nat → α) (count : Nat) : Option (InsertionData α) :=
  make_single_loop W G bits count 0 0 ⟨[], []⟩

/-- the outer loop of `make_insertion_data_range`, common/range.hpp 44-48 (the
inner loop pushes `size` numbers) -/
def make_range_loop (W : Nat) (G : Rng) (bits : Nat → α) (size : Nat) :
    (left i k : Nat) → InsertionData α → Option (InsertionData α)
  | 0, _, _, d => some d
  | left + 1, i, k, d => do
    let ordered := d.ordered ++ (List.range size).map (fun j => bits (i * size + j))
    let (r, k) ← bounded_rand W G (i * size + 1) k
    make_range_loop W G bits size left (i + 1) k ⟨d.indexes ++ [r], ordered⟩

/-- `make_insertion_data_range`, common/range.hpp 34-51 -/
def make_insertion_data_range (W : Nat) (G : Rng) (bits : Nat → α) (count size : Nat) : Option (InsertionData α) :=
  make_range_loop W G bits size count 0 0 ⟨[], []⟩

/-! ### Building and taking down -/

variable (E : Env α)

/-- the loop of `insert_single`, common/single.hpp 10-12 (`nth` is the member
function, common/common.hpp 32-36; `reserve` does nothing, 62-64) -/
def insert_single_loop (o : Nat) (d : InsertionData α) : (left i : Nat) → M α Unit
  | 0, _ => pure ()
  | left + 1, i =>
    match d.indexes[i]?, d.ordered[i]? with
    | some p, some v => do
      let it ← nth E o p
      let _ ← insert E o it v
      insert_single_loop o d left (i + 1)
    | _, _ => M.ub .oob

/-- `insert_single`, common/single.hpp 6-13 -/
def insert_single (o : Nat) (d : InsertionData α) : M α Unit :=
  insert_single_loop E o d d.indexes.length 0

/-- the loop of `erase_single`, common/single.hpp 19-22 (with `count` 0 the
decrement wraps and the index is out of bounds) -/
def erase_single_loop (o : Nat) (d : InsertionData α) : (count : Nat) → M α Unit
  | 0 => M.ub .oob
  | 1 => pure ()
  | count + 2 =>
    match d.indexes[count + 1]? with
    | some p => do
      let it ← nth E o p
      let _ ← erase E o it
      erase_single_loop o d (count + 1)
    | none => M.ub .oob

/-- `erase_single`, common/single.hpp 15-23 -/
def erase_single (o : Nat) (d : InsertionData α) : M α Unit :=
  erase_single_loop E o d d.indexes.length

/-- the loop of `insert_range`, common/range.hpp 13-17; `first` is the offset of
the pointer of that name -/
def insert_range_loop (o : Nat) (d : InsertionData α) (size : Nat) : (left i first : Nat) → M α Unit
  | 0, _, _ => pure ()
  | left + 1, i, first =>
    match d.indexes[i]? with
    | some p =>
      if first + size ≤ d.ordered.length then do
        let it ← nth E o p
        let _ ← insert_list E o it ((d.ordered.drop first).take size)
        insert_range_loop o d size left (i + 1) (first + size)
      else M.ub .oob
    | none => M.ub .oob

/-- `insert_range`, common/range.hpp 6-18 (division by zero if there is no index) -/
def insert_range (o : Nat) (d : InsertionData α) : M α Unit :=
  if d.indexes.length = 0 then M.ub .access
  else insert_range_loop E o d (d.ordered.length / d.indexes.length) d.indexes.length 0 0

/-- the loop of `erase_range`, common/range.hpp 25-30 -/
def erase_range_loop (o : Nat) (d : InsertionData α) (size : Nat) : (count : Nat) → M α Unit
  | 0 => M.ub .oob
  | 1 => pure ()
  | count + 2 =>
    match d.indexes[count + 1]? with
    | some p => do
      let first ← nth E o p
      let last ← it_add E first size
      let _ ← erase_rng E o first last
      erase_range_loop o d size (count + 1)
    | none => M.ub .oob

/-- `erase_range`, common/range.hpp 20-32 -/
def erase_range (o : Nat) (d : InsertionData α) : M α Unit :=
  if d.indexes.length = 0 then M.ub .access
  else do
    erase_range_loop E o d (d.ordered.length / d.indexes.length) d.indexes.length
    let first ← nth E o 1
    let last ← end_ E o
    let _ ← erase_rng E o first last

/-! ### Traversing -/

/-- `std::uint64_t` addition; `val` is the conversion of an element -/
def addU64 (a b : Nat) : Nat := (a + b) % 2 ^ 64

/-- the loop of `accumulate_forward`, common/iterator.hpp 12-15 -/
def acc_forward_loop (val : α → Nat) (first last : Iter) (accu : Nat) : M α Nat :=
  if first.pos ≠ last.pos then do
    let v ← dereference E first
    let first ← move_next_iterator E first
    acc_forward_loop val first last (addU64 accu (val v))
  else pure accu
partial_fixpoint

/-- `accumulate_forward`, common/iterator.hpp 6-18 -/
def accumulate_forward (val : α → Nat) (o : Nat) : M α Nat := do
  let first ← begin_ E o
  let last ← end_ E o
  acc_forward_loop E val first last 0

/-- the loop of `accumulate_forward_by`, common/iterator.hpp 26-30 -/
def acc_forward_by_loop (val : α → Nat) (distance : Nat) (first : Iter) (left accu : Nat) : M α Nat :=
  if left ≥ distance then do
    let v ← dereference E first
    let first ← it_add E first distance
    acc_forward_by_loop val distance first (left - distance) (addU64 accu (val v))
  else pure accu
partial_fixpoint

/-- `accumulate_forward_by`, common/iterator.hpp 20-33 -/
def accumulate_forward_by (val : α → Nat) (o distance : Nat) : M α Nat := do
  let left ← size o
  let first ← begin_ E o
  acc_forward_by_loop E val distance first left 0

/-- the loop of `accumulate_backward`, common/iterator.hpp 41-44 -/
def acc_backward_loop (val : α → Nat) (first last : Iter) (accu : Nat) : M α Nat :=
  if first.pos ≠ last.pos then do
    let last ← move_prev_iterator E last
    let v ← dereference E last
    acc_backward_loop val first last (addU64 accu (val v))
  else pure accu
partial_fixpoint

/-- `accumulate_backward`, common/iterator.hpp 35-46 -/
def accumulate_backward (val : α → Nat) (o : Nat) : M α Nat := do
  let first ← begin_ E o
  let last ← end_ E o
  acc_backward_loop E val first last 0

/-- the loop of `accumulate_backward_by`, common/iterator.hpp 54-58 -/
def acc_backward_by_loop (val : α → Nat) (distance : Nat) (it : Iter) (left accu : Nat) : M α Nat :=
  if left ≥ distance then do
    let it ← it_sub E it distance
    let v ← dereference E it
    acc_backward_by_loop val distance it (left - distance) (addU64 accu (val v))
  else pure accu
partial_fixpoint

/-- `accumulate_backward_by`, common/iterator.hpp 48-61 -/
def accumulate_backward_by (val : α → Nat) (o distance : Nat) : M α Nat := do
  let left ← size o
  let it ← end_ E o
  acc_backward_by_loop E val distance it left 0

/-! ### The scope guard of the benchmarks -/

/-- The guards of a run: for each one that exists, its `active_` and its `f_`
(functions are numbered); and the functions that ran, in order. -/
structure Guards where
  guard : Nat → Option (Bool × Nat)
  log : List Nat

/-- what a program can do with guards -/
inductive GuardOp where
  /-- `scope_guard(F&&)`, bench/common.hpp 16 -/
  | make (g f : Nat)
  /-- `scope_guard(scope_guard&&)`, bench/common.hpp 18-21 -/
  | move (g other : Nat)
  /-- `dismiss`, bench/common.hpp 27 -/
  | dismiss (g : Nat)
  /-- `~scope_guard`, bench/common.hpp 23-25 -/
  | destroy (g : Nat)

/-- one step; no result if a guard is used that does not exist, or a guard is
made where one exists -/
def GuardOp.run (s : Guards) : GuardOp → Option Guards
  | .make g f => match s.guard g with
    | none => some { s with guard := upd s.guard g (some (true, f)) }
    | some _ => none
  | .move g other => match s.guard g, s.guard other with
    | none, some (b, f) => some { s with guard := upd (upd s.guard g (some (b, f))) other (some (false, f)) }
    | _, _ => none
  | .dismiss g => match s.guard g with
    | some (_, f) => some { s with guard := upd s.guard g (some (false, f)) }
    | none => none
  | .destroy g => match s.guard g with
    | some (b, f) => some { guard := upd s.guard g none, log := if b then s.log ++ [f] else s.log }
    | none => none

/-- a program -/
def runGuards (s : Guards) : List GuardOp → Option Guards
  | [] => some s
  | op :: ops => do runGuards (← op.run s) ops

end Bench
end SegTree
