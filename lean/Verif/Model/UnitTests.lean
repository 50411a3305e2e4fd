/-
  The deterministic tests of test/test_sequence.cpp, 61-674, with arbitrary values in
  place of the literals: `n k` stands for the number (or word) `k` of the test.  Some tests
  have a second block that does the same with `std::string`: it is the same model
  function, for another element type.  A test gives back whether all its `BOOST_CHECK`s
  hold.  The `const&` views of the tests run the same model functions as the containers.
-/
import Verif.Model.Api
set_option autoImplicit false

namespace SegTree
namespace Tests

variable {α : Type} (E : Env α)

/-- a container as a local variable: destroyed at the end of the block however it is left -/
def local_ (o : Nat) (construct : M α Unit) (block : M α Bool) : M α Bool := do
  construct
  let ok ← M.onThrow block (dtor E o)
  dtor E o
  return ok

/-- `std::equal(first, last, b)` for an iterator `b` of an initializer list; reading past
the end of the list is undefined -/
def std_equal (eq : α → α → Bool) (first last : Iter) : List α → M α Bool
  | [] => if first.pos ≠ last.pos then M.ub .oob else pure true
  | v :: vs => if first.pos ≠ last.pos then do
      let w ← dereference E first
      if eq w v then
        let first ← move_next_iterator E first
        std_equal eq first last vs
      else pure false
    else pure true

/-- `check_contents(a, b)`, test_sequence.cpp 50-54 -/
def check_contents (eq : α → α → Bool) (o : Nat) (b : List α) : M α Bool := do
  let n ← size o
  let first ← begin_ E o
  let last ← end_ E o
  let same ← std_equal E eq first last b
  return n == b.length && same

/-- `check_contents(a)`, test_sequence.cpp 56-60 -/
def check_empty (o : Nat) : M α Bool := do
  let n ← size o
  let first ← begin_ E o
  let last ← end_ E o
  return n == 0 && it_eq first last

/-- `BOOST_CHECK_EXCEPTION(x, std::out_of_range, check_exception<std::out_of_range>)` -/
def out_of_range (x : M α α) : M α Bool := fun m =>
  match x m with
  | .ok _ m' => .ok false m'
  | .throw .range m' => .ok true m'
  | .throw _ m' => .ok false m'
  | .ub k => .ub k
  | .div => .div

/-! The containers `c1`, `c2`, ... of a test are the objects `c 1`, `c 2`, ...; `al` is the
default-constructed allocator. -/

variable (eq : α → α → Bool) (c : Nat → Nat) (al : Nat) (n : Nat → α)

/-- `test_construct_alloc`, test_sequence.cpp 61-66 -/
def test_construct_alloc (tag : Nat) : M α Bool :=
  local_ E (c 1) (ctor (c 1) tag) do
  let r1 ← check_empty E (c 1)
  let r2 ← (do pure ((← get_allocator (c 1)) == tag))
  return r1 && r2

/-- `test_construct_default`, test_sequence.cpp 68-71 -/
def test_construct_default : M α Bool :=
  local_ E (c 1) (ctor (c 1) al) do
  let r1 ← check_empty E (c 1)
  return r1

/-- `test_construct_count`, test_sequence.cpp 73-76 -/
def test_construct_count : M α Bool :=
  local_ E (c 1) (ctor_count E (c 1) al 10 (copyVal E (n 3))) do
  let r1 ← check_contents E eq (c 1) [n 3, n 3, n 3, n 3, n 3, n 3, n 3, n 3, n 3, n 3]
  return r1

/-- `test_construct_range`, test_sequence.cpp 78-82 -/
def test_construct_range : M α Bool :=
  local_ E (c 1) (ctor_range E (listSrc E) (c 1) al [n 0, n 1, n 2, n 3, n 4]) do
  let r1 ← check_contents E eq (c 1) [n 0, n 1, n 2, n 3, n 4]
  return r1

/-- `test_construct_copy`, test_sequence.cpp 84-89 -/
def test_construct_copy : M α Bool :=
  local_ E (c 1) (ctor_range E (listSrc E) (c 1) al [n 0, n 1, n 2, n 3, n 4]) do
  local_ E (c 2) (ctor_copy E (c 2) (c 1)) do
  let r1 ← check_contents E eq (c 2) [n 0, n 1, n 2, n 3, n 4]
  return r1

/-- `test_construct_copy_alloc`, test_sequence.cpp 91-98 -/
def test_construct_copy_alloc (tag : Nat) : M α Bool :=
  local_ E (c 1) (ctor_range E (listSrc E) (c 1) al [n 0, n 1, n 2, n 3, n 4]) do
  local_ E (c 2) (ctor_copy_alloc E (c 2) (c 1) tag) do
  let r1 ← check_contents E eq (c 2) [n 0, n 1, n 2, n 3, n 4]
  let r2 ← (do pure ((← get_allocator (c 2)) == tag))
  return r1 && r2

/-- `test_construct_move`, test_sequence.cpp 100-106 -/
def test_construct_move : M α Bool :=
  local_ E (c 1) (ctor_range E (listSrc E) (c 1) al [n 0, n 1, n 2, n 3, n 4]) do
  local_ E (c 2) (ctor_move (c 2) (c 1)) do
  let r1 ← check_empty E (c 1)
  let r2 ← check_contents E eq (c 2) [n 0, n 1, n 2, n 3, n 4]
  return r1 && r2

/-- `test_construct_move_alloc`, test_sequence.cpp 108-116 -/
def test_construct_move_alloc (tag : Nat) : M α Bool :=
  local_ E (c 1) (ctor_range E (listSrc E) (c 1) al [n 0, n 1, n 2, n 3, n 4]) do
  local_ E (c 2) (ctor_move_alloc E (c 2) (c 1) tag) do
  let r1 ← check_empty E (c 1)
  let r2 ← check_contents E eq (c 2) [n 0, n 1, n 2, n 3, n 4]
  let r3 ← (do pure ((← get_allocator (c 2)) == tag))
  return r1 && r2 && r3

/-- `test_construct_ilist`, test_sequence.cpp 118-122 -/
def test_construct_ilist : M α Bool :=
  local_ E (c 1) (ctor_range E (listSrc E) (c 1) al [n 0, n 1, n 2, n 3, n 4]) do
  let r1 ← check_contents E eq (c 1) [n 0, n 1, n 2, n 3, n 4]
  return r1

/-- `test_operator_assign`, test_sequence.cpp 124-134 -/
def test_operator_assign : M α Bool :=
  local_ E (c 1) (ctor_range E (listSrc E) (c 1) al [n 0, n 1, n 2, n 3, n 4]) do
  local_ E (c 2) (ctor_range E (listSrc E) (c 2) al [n 5, n 4, n 3]) do
  local_ E (c 3) (ctor (c 3) al) do
  let _ ← assign_copy E (c 3) (c 1)
  let r1 ← check_contents E eq (c 3) [n 0, n 1, n 2, n 3, n 4]
  let _ ← assign_copy E (c 3) (c 2)
  let r2 ← check_contents E eq (c 3) [n 5, n 4, n 3]
  return r1 && r2

/-- `test_operator_move_assign`, test_sequence.cpp 136-148 -/
def test_operator_move_assign : M α Bool :=
  local_ E (c 1) (ctor_range E (listSrc E) (c 1) al [n 0, n 1, n 2, n 3, n 4]) do
  local_ E (c 2) (ctor_range E (listSrc E) (c 2) al [n 5, n 4, n 3]) do
  local_ E (c 3) (ctor (c 3) al) do
  let _ ← assign_move E (c 3) (c 1)
  let r1 ← check_contents E eq (c 3) [n 0, n 1, n 2, n 3, n 4]
  let r2 ← check_empty E (c 1)
  let _ ← assign_move E (c 3) (c 2)
  let r3 ← check_contents E eq (c 3) [n 5, n 4, n 3]
  let r4 ← check_empty E (c 2)
  return r1 && r2 && r3 && r4

/-- `test_operator_assign_ilist`, test_sequence.cpp 150-158 -/
def test_operator_assign_ilist : M α Bool :=
  local_ E (c 1) (ctor (c 1) al) do
  let _ ← assign_list E (c 1) [n 0, n 1, n 2, n 3, n 4]
  let r1 ← check_contents E eq (c 1) [n 0, n 1, n 2, n 3, n 4]
  let _ ← assign_list E (c 1) [n 5, n 4, n 3]
  let r2 ← check_contents E eq (c 1) [n 5, n 4, n 3]
  return r1 && r2

/-- `test_assign_count`, test_sequence.cpp 160-166 -/
def test_assign_count : M α Bool :=
  local_ E (c 1) (ctor_range E (listSrc E) (c 1) al [n 0, n 1, n 2, n 3, n 4]) do
  let _ ← assign_fill E (c 1) 10 (n 0)
  let r1 ← check_contents E eq (c 1) [n 0, n 0, n 0, n 0, n 0, n 0, n 0, n 0, n 0, n 0]
  let _ ← assign_fill E (c 1) 5 (n 1)
  let r2 ← check_contents E eq (c 1) [n 1, n 1, n 1, n 1, n 1]
  return r1 && r2

/-- `test_assign_range`, test_sequence.cpp 168-173 -/
def test_assign_range : M α Bool :=
  local_ E (c 1) (ctor (c 1) al) do
  let _ ← assign_list E (c 1) [n 0, n 1, n 2, n 3, n 4]
  let r1 ← check_contents E eq (c 1) [n 0, n 1, n 2, n 3, n 4]
  return r1

/-- `test_assign_ilist`, test_sequence.cpp 175-180 -/
def test_assign_ilist : M α Bool :=
  local_ E (c 1) (ctor (c 1) al) do
  let _ ← assign_list E (c 1) [n 0, n 1, n 2, n 3, n 4]
  let r1 ← check_contents E eq (c 1) [n 0, n 1, n 2, n 3, n 4]
  return r1

/-- `test_get_allocator`, test_sequence.cpp 182-186 -/
def test_get_allocator (tag : Nat) : M α Bool :=
  local_ E (c 1) (ctor (c 1) tag) do
  let r1 ← (do pure ((← get_allocator (c 1)) == tag))
  return r1

/-- `test_at`, test_sequence.cpp 193-203 -/
def test_at : M α Bool :=
  local_ E (c 1) (ctor_range E (listSrc E) (c 1) al [n 0]) do
  let r1 ← (do pure (eq (← at_ E (c 1) 0) (n 0)))
  let r2 ← out_of_range (at_ E (c 1) 1)
  let r3 ← (do pure (eq (← at_ E (c 1) 0) (n 0)))
  let r4 ← out_of_range (at_ E (c 1) 1)
  return r1 && r2 && r3 && r4

/-- `test_operator_index`, test_sequence.cpp 205-213 -/
def test_operator_index : M α Bool :=
  local_ E (c 1) (ctor_range E (listSrc E) (c 1) al [n 0, n 1]) do
  let r1 ← (do pure (eq (← index_op E (c 1) 0) (n 0)))
  let r2 ← (do pure (eq (← index_op E (c 1) 1) (n 1)))
  let r3 ← (do pure (eq (← index_op E (c 1) 0) (n 0)))
  let r4 ← (do pure (eq (← index_op E (c 1) 1) (n 1)))
  return r1 && r2 && r3 && r4

/-- `test_front`, test_sequence.cpp 215-221 -/
def test_front : M α Bool :=
  local_ E (c 1) (ctor_range E (listSrc E) (c 1) al [n 0, n 1]) do
  let r1 ← (do pure (eq (← front E (c 1)) (n 0)))
  let r2 ← (do pure (eq (← front E (c 1)) (n 0)))
  return r1 && r2

/-- `test_back`, test_sequence.cpp 223-229 -/
def test_back : M α Bool :=
  local_ E (c 1) (ctor_range E (listSrc E) (c 1) al [n 0, n 1]) do
  let r1 ← (do pure (eq (← back E (c 1)) (n 1)))
  let r2 ← (do pure (eq (← back E (c 1)) (n 1)))
  return r1 && r2

/-- `test_begin`, test_sequence.cpp 231-239 -/
def test_begin : M α Bool :=
  local_ E (c 1) (ctor_range E (listSrc E) (c 1) al [n 0, n 1]) do
  let r1 ← (do pure (eq (← dereference E (← begin_ E (c 1))) (n 0)))
  let r2 ← (do pure (eq (← dereference E (← begin_ E (c 1))) (n 0)))
  let r3 ← (do pure (eq (← dereference E (← begin_ E (c 1))) (n 0)))
  let r4 ← (do pure (eq (← dereference E (← begin_ E (c 1))) (n 0)))
  return r1 && r2 && r3 && r4

/-- `test_end`, test_sequence.cpp 241-249 -/
def test_end : M α Bool :=
  local_ E (c 1) (ctor_range E (listSrc E) (c 1) al [n 0, n 1]) do
  let r1 ← (do pure (eq (← dereference E (← it_sub E (← end_ E (c 1)) 1)) (n 1)))
  let r2 ← (do pure (eq (← dereference E (← it_sub E (← end_ E (c 1)) 1)) (n 1)))
  let r3 ← (do pure (eq (← dereference E (← it_sub E (← end_ E (c 1)) 1)) (n 1)))
  let r4 ← (do pure (eq (← dereference E (← it_sub E (← end_ E (c 1)) 1)) (n 1)))
  return r1 && r2 && r3 && r4

/-- `test_rbegin`, test_sequence.cpp 251-259 -/
def test_rbegin : M α Bool :=
  local_ E (c 1) (ctor_range E (listSrc E) (c 1) al [n 0, n 1]) do
  let r1 ← (do pure (eq (← rev_deref E (← end_ E (c 1))) (n 1)))
  let r2 ← (do pure (eq (← rev_deref E (← end_ E (c 1))) (n 1)))
  let r3 ← (do pure (eq (← rev_deref E (← end_ E (c 1))) (n 1)))
  let r4 ← (do pure (eq (← rev_deref E (← end_ E (c 1))) (n 1)))
  return r1 && r2 && r3 && r4

/-- `test_rend`, test_sequence.cpp 261-269; `rend() - 1` is the reverse iterator with base `begin() + 1` -/
def test_rend : M α Bool :=
  local_ E (c 1) (ctor_range E (listSrc E) (c 1) al [n 0, n 1]) do
  let r1 ← (do pure (eq (← rev_deref E (← it_add E (← begin_ E (c 1)) 1)) (n 0)))
  let r2 ← (do pure (eq (← rev_deref E (← it_add E (← begin_ E (c 1)) 1)) (n 0)))
  let r3 ← (do pure (eq (← rev_deref E (← it_add E (← begin_ E (c 1)) 1)) (n 0)))
  let r4 ← (do pure (eq (← rev_deref E (← it_add E (← begin_ E (c 1)) 1)) (n 0)))
  return r1 && r2 && r3 && r4

/-- `test_penultimate`, test_sequence.cpp 271-279 -/
def test_penultimate : M α Bool :=
  local_ E (c 1) (ctor_range E (listSrc E) (c 1) al [n 0, n 1]) do
  let r1 ← (do pure (eq (← dereference E (← penultimate E (c 1))) (n 1)))
  let r2 ← (do pure (eq (← dereference E (← penultimate E (c 1))) (n 1)))
  let r3 ← (do pure (eq (← dereference E (← penultimate E (c 1))) (n 1)))
  let r4 ← (do pure (eq (← dereference E (← penultimate E (c 1))) (n 1)))
  return r1 && r2 && r3 && r4

/-- `test_nth`, test_sequence.cpp 281-289 -/
def test_nth : M α Bool :=
  local_ E (c 1) (ctor_range E (listSrc E) (c 1) al [n 0, n 1]) do
  let r1 ← (do pure (eq (← dereference E (← nth E (c 1) 0)) (n 0)))
  let r2 ← (do pure (eq (← dereference E (← nth E (c 1) 1)) (n 1)))
  let r3 ← (do pure (eq (← dereference E (← nth E (c 1) 0)) (n 0)))
  let r4 ← (do pure (eq (← dereference E (← nth E (c 1) 1)) (n 1)))
  return r1 && r2 && r3 && r4

/-- `test_index_of`, test_sequence.cpp 291-301 -/
def test_index_of : M α Bool :=
  local_ E (c 1) (ctor_range E (listSrc E) (c 1) al [n 0, n 1]) do
  let r1 ← (do pure (index_of (← nth E (c 1) 0) == 0))
  let r2 ← (do pure (index_of (← nth E (c 1) 1) == 1))
  let r3 ← (do pure (index_of (← nth E (c 1) 2) == 2))
  let r4 ← (do pure (index_of (← nth E (c 1) 0) == 0))
  let r5 ← (do pure (index_of (← nth E (c 1) 1) == 1))
  let r6 ← (do pure (index_of (← nth E (c 1) 2) == 2))
  return r1 && r2 && r3 && r4 && r5 && r6

/-- `test_empty`, test_sequence.cpp 303-308 -/
def test_empty : M α Bool :=
  local_ E (c 1) (ctor (c 1) al) do
  let r1 ← (do pure ((← empty (c 1)) == true))
  local_ E (c 2) (ctor_range E (listSrc E) (c 2) al [n 0]) do
  let r2 ← (do pure ((← empty (c 2)) == false))
  return r1 && r2

/-- `test_size`, test_sequence.cpp 310-317 -/
def test_size : M α Bool :=
  local_ E (c 1) (ctor (c 1) al) do
  let r1 ← (do pure ((← size (c 1)) == 0))
  local_ E (c 2) (ctor_range E (listSrc E) (c 2) al [n 0]) do
  let r2 ← (do pure ((← size (c 2)) == 1))
  local_ E (c 3) (ctor_range E (listSrc E) (c 3) al [n 0, n 1, n 2, n 3, n 4]) do
  let r3 ← (do pure ((← size (c 3)) == 5))
  return r1 && r2 && r3

/-- `test_height`, test_sequence.cpp 319-324 -/
def test_height : M α Bool :=
  local_ E (c 1) (ctor (c 1) al) do
  let r1 ← (do pure ((← height (c 1)) == 0))
  local_ E (c 2) (ctor_range E (listSrc E) (c 2) al [n 0]) do
  let r2 ← (do pure ((← height (c 2)) == 1))
  return r1 && r2

/-- `test_max_size`, test_sequence.cpp 326-329 -/
def test_max_size : M α Bool :=
  local_ E (c 1) (ctor (c 1) al) do
  let r1 ← (do pure (max_size E == E.W - 1))
  return r1

/-- `test_clear`, test_sequence.cpp 331-335 -/
def test_clear : M α Bool :=
  local_ E (c 1) (ctor_range E (listSrc E) (c 1) al [n 0, n 1, n 2, n 3, n 4]) do
  let _ ← clear E (c 1)
  let r1 ← check_empty E (c 1)
  return r1

/-- `test_insert_lvalue`, test_sequence.cpp 337-345; both blocks (`uint64_t` and `std::string`): the values are arbitrary -/
def test_insert_lvalue : M α Bool :=
  local_ E (c 1) (ctor_range E (listSrc E) (c 1) al [n 0, n 1, n 2, n 4]) do
  let _ ← (do insert E (c 1) (← nth E (c 1) 3) (n 3))
  let r1 ← check_contents E eq (c 1) [n 0, n 1, n 2, n 3, n 4]
  return r1

/-- `test_insert_rvalue`, test_sequence.cpp 347-352 -/
def test_insert_rvalue : M α Bool :=
  local_ E (c 1) (ctor_range E (listSrc E) (c 1) al [n 0, n 1, n 2, n 4]) do
  let _ ← (do insert_rv E (c 1) (← nth E (c 1) 3) (n 3))
  let r1 ← check_contents E eq (c 1) [n 0, n 1, n 2, n 3, n 4]
  return r1

/-- `test_insert_lvalue_count`, test_sequence.cpp 354-358 -/
def test_insert_lvalue_count : M α Bool :=
  local_ E (c 1) (ctor_range E (listSrc E) (c 1) al [n 0, n 1, n 2, n 4]) do
  let _ ← (do insert_fill E (c 1) (← nth E (c 1) 3) 3 (n 3))
  let r1 ← check_contents E eq (c 1) [n 0, n 1, n 2, n 3, n 3, n 3, n 4]
  return r1

/-- `test_insert_range`, test_sequence.cpp 360-365 -/
def test_insert_range : M α Bool :=
  local_ E (c 1) (ctor_range E (listSrc E) (c 1) al [n 0, n 1, n 2, n 6]) do
  let _ ← (do insert_list E (c 1) (← nth E (c 1) 3) [n 3, n 4, n 5])
  let r1 ← check_contents E eq (c 1) [n 0, n 1, n 2, n 3, n 4, n 5, n 6]
  return r1

/-- `test_insert_ilist`, test_sequence.cpp 367-372 -/
def test_insert_ilist : M α Bool :=
  local_ E (c 1) (ctor_range E (listSrc E) (c 1) al [n 0, n 1, n 2, n 6]) do
  let _ ← (do insert_list E (c 1) (← nth E (c 1) 3) [n 3, n 4, n 5])
  let r1 ← check_contents E eq (c 1) [n 0, n 1, n 2, n 3, n 4, n 5, n 6]
  return r1

/-- `test_emplace_default`, test_sequence.cpp 374-377; first block of `test_emplace`: `n 0` is the value-initialised element -/
def test_emplace_default : M α Bool :=
  local_ E (c 1) (ctor_range E (listSrc E) (c 1) al [n 0, n 1, n 2, n 4]) do
  let _ ← (do insert_rv E (c 1) (← nth E (c 1) 3) (n 0))
  let r1 ← check_contents E eq (c 1) [n 0, n 1, n 2, n 0, n 4]
  return r1

/-- `test_emplace`, test_sequence.cpp 379-381; second block of `test_emplace` -/
def test_emplace : M α Bool :=
  local_ E (c 1) (ctor_range E (listSrc E) (c 1) al [n 0, n 1, n 2, n 4]) do
  let _ ← (do insert_rv E (c 1) (← nth E (c 1) 3) (n 3))
  let r1 ← check_contents E eq (c 1) [n 0, n 1, n 2, n 3, n 4]
  return r1

/-- `test_erase`, test_sequence.cpp 384-408; both blocks (`uint64_t` and `std::string`): the values are arbitrary -/
def test_erase : M α Bool :=
  local_ E (c 1) (ctor_range E (listSrc E) (c 1) al [n 0, n 1, n 2, n 3, n 4]) do
  let _ ← (do erase E (c 1) (← nth E (c 1) 3))
  let r1 ← check_contents E eq (c 1) [n 0, n 1, n 2, n 4]
  let _ ← (do erase E (c 1) (← nth E (c 1) 1))
  let r2 ← check_contents E eq (c 1) [n 0, n 2, n 4]
  let _ ← (do erase E (c 1) (← nth E (c 1) 2))
  let r3 ← check_contents E eq (c 1) [n 0, n 2]
  let _ ← (do erase E (c 1) (← nth E (c 1) 0))
  let r4 ← check_contents E eq (c 1) [n 2]
  let _ ← (do erase E (c 1) (← nth E (c 1) 0))
  let r5 ← check_empty E (c 1)
  return r1 && r2 && r3 && r4 && r5

/-- `test_erase_range`, test_sequence.cpp 410-414 -/
def test_erase_range : M α Bool :=
  local_ E (c 1) (ctor_range E (listSrc E) (c 1) al [n 0, n 1, n 2, n 3, n 4]) do
  let _ ← (do erase_rng E (c 1) (← nth E (c 1) 1) (← nth E (c 1) 4))
  let r1 ← check_contents E eq (c 1) [n 0, n 4]
  return r1

/-- `test_push_back_lvalue`, test_sequence.cpp 416-421 -/
def test_push_back_lvalue : M α Bool :=
  local_ E (c 1) (ctor (c 1) al) do
  let _ ← push_back E (c 1) (n 0)
  let _ ← push_back E (c 1) (n 1)
  let r1 ← check_contents E eq (c 1) [n 0, n 1]
  return r1

/-- `test_push_back_rvalue`, test_sequence.cpp 423-437; both blocks (`uint64_t` and `std::string`): the values are arbitrary -/
def test_push_back_rvalue : M α Bool :=
  local_ E (c 1) (ctor (c 1) al) do
  let _ ← push_back_rv E (c 1) (n 0)
  let _ ← push_back_rv E (c 1) (n 1)
  let r1 ← check_contents E eq (c 1) [n 0, n 1]
  return r1

/-- `test_emplace_back`, test_sequence.cpp 439-449; both blocks (`uint64_t` and `std::string`): the values are arbitrary; `n 0` is the value-initialised element -/
def test_emplace_back : M α Bool :=
  local_ E (c 1) (ctor (c 1) al) do
  let _ ← push_back_rv E (c 1) (n 0)
  let _ ← push_back_rv E (c 1) (n 1)
  let r1 ← check_contents E eq (c 1) [n 0, n 1]
  return r1

/-- `test_pop_back`, test_sequence.cpp 451-456 -/
def test_pop_back : M α Bool :=
  local_ E (c 1) (ctor_range E (listSrc E) (c 1) al [n 0, n 1, n 2, n 3, n 4]) do
  let _ ← pop_back E (c 1)
  let _ ← pop_back E (c 1)
  let r1 ← check_contents E eq (c 1) [n 0, n 1, n 2]
  return r1

/-- `test_push_front_lvalue`, test_sequence.cpp 458-463 -/
def test_push_front_lvalue : M α Bool :=
  local_ E (c 1) (ctor (c 1) al) do
  let _ ← push_front E (c 1) (n 1)
  let _ ← push_front E (c 1) (n 0)
  let r1 ← check_contents E eq (c 1) [n 0, n 1]
  return r1

/-- `test_push_front_rvalue`, test_sequence.cpp 465-479; both blocks (`uint64_t` and `std::string`): the values are arbitrary -/
def test_push_front_rvalue : M α Bool :=
  local_ E (c 1) (ctor (c 1) al) do
  let _ ← push_front_rv E (c 1) (n 1)
  let _ ← push_front_rv E (c 1) (n 0)
  let r1 ← check_contents E eq (c 1) [n 0, n 1]
  return r1

/-- `test_emplace_front`, test_sequence.cpp 481-491; both blocks (`uint64_t` and `std::string`): the values are arbitrary; `n 0` is the value-initialised element -/
def test_emplace_front : M α Bool :=
  local_ E (c 1) (ctor (c 1) al) do
  let _ ← push_front_rv E (c 1) (n 1)
  let _ ← push_front_rv E (c 1) (n 0)
  let r1 ← check_contents E eq (c 1) [n 0, n 1]
  return r1

/-- `test_pop_front`, test_sequence.cpp 493-498 -/
def test_pop_front : M α Bool :=
  local_ E (c 1) (ctor_range E (listSrc E) (c 1) al [n 0, n 1, n 2, n 3, n 4]) do
  let _ ← pop_front E (c 1)
  let _ ← pop_front E (c 1)
  let r1 ← check_contents E eq (c 1) [n 2, n 3, n 4]
  return r1

/-- `test_resize_default`, test_sequence.cpp 500-506; `n 0` is the value-initialised element -/
def test_resize_default : M α Bool :=
  local_ E (c 1) (ctor_range E (listSrc E) (c 1) al [n 0, n 1, n 2, n 3, n 4]) do
  let _ ← resize E (c 1) 10 (n 0)
  let r1 ← check_contents E eq (c 1) [n 0, n 1, n 2, n 3, n 4, n 0, n 0, n 0, n 0, n 0]
  let _ ← resize E (c 1) 5 (n 0)
  let r2 ← check_contents E eq (c 1) [n 0, n 1, n 2, n 3, n 4]
  return r1 && r2

/-- `test_resize_value`, test_sequence.cpp 508-514 -/
def test_resize_value : M α Bool :=
  local_ E (c 1) (ctor_range E (listSrc E) (c 1) al [n 0, n 1, n 2, n 3, n 4]) do
  let _ ← resize E (c 1) 10 (n 1)
  let r1 ← check_contents E eq (c 1) [n 0, n 1, n 2, n 3, n 4, n 1, n 1, n 1, n 1, n 1]
  let _ ← resize E (c 1) 5 (n 1)
  let r2 ← check_contents E eq (c 1) [n 0, n 1, n 2, n 3, n 4]
  return r1 && r2

/-- `test_swap_member`, test_sequence.cpp 516-524 -/
def test_swap_member : M α Bool :=
  local_ E (c 1) (ctor_range E (listSrc E) (c 1) al [n 0, n 1, n 2, n 3, n 4]) do
  local_ E (c 2) (ctor_range E (listSrc E) (c 2) al [n 4, n 3, n 2, n 1, n 0]) do
  let _ ← swap E (c 1) (c 2)
  let r1 ← check_contents E eq (c 1) [n 4, n 3, n 2, n 1, n 0]
  let r2 ← check_contents E eq (c 2) [n 0, n 1, n 2, n 3, n 4]
  return r1 && r2

/-- `test_swap_free`, test_sequence.cpp 526-534; `swap(a, b)` is `a.swap(b)`, seq.hpp 3766-3770 -/
def test_swap_free : M α Bool :=
  local_ E (c 1) (ctor_range E (listSrc E) (c 1) al [n 0, n 1, n 2, n 3, n 4]) do
  local_ E (c 2) (ctor_range E (listSrc E) (c 2) al [n 4, n 3, n 2, n 1, n 0]) do
  let _ ← swap E (c 1) (c 2)
  let r1 ← check_contents E eq (c 1) [n 4, n 3, n 2, n 1, n 0]
  let r2 ← check_contents E eq (c 2) [n 0, n 1, n 2, n 3, n 4]
  return r1 && r2

/-- `test_splice_lvalue`, test_sequence.cpp 536-549; both blocks (`uint64_t` and `std::string`): the values are arbitrary -/
def test_splice_lvalue : M α Bool :=
  local_ E (c 1) (ctor_range E (listSrc E) (c 1) al [n 0, n 1, n 2, n 3, n 4]) do
  local_ E (c 2) (ctor_range E (listSrc E) (c 2) al [n 5, n 6, n 7, n 8, n 9]) do
  let _ ← (do splice E (c 1) (← nth E (c 1) 3) (c 2))
  let r1 ← check_contents E eq (c 1) [n 0, n 1, n 2, n 5, n 6, n 7, n 8, n 9, n 3, n 4]
  let r2 ← check_empty E (c 2)
  return r1 && r2

/-- `test_splice_rvalue`, test_sequence.cpp 551-564; both blocks (`uint64_t` and `std::string`): the values are arbitrary; `splice(pos, seq&&, ...)` forwards to the lvalue overload -/
def test_splice_rvalue : M α Bool :=
  local_ E (c 1) (ctor_range E (listSrc E) (c 1) al [n 0, n 1, n 2, n 3, n 4]) do
  local_ E (c 2) (ctor_range E (listSrc E) (c 2) al [n 5, n 6, n 7, n 8, n 9]) do
  let _ ← (do splice E (c 1) (← nth E (c 1) 3) (c 2))
  let r1 ← check_contents E eq (c 1) [n 0, n 1, n 2, n 5, n 6, n 7, n 8, n 9, n 3, n 4]
  let r2 ← check_empty E (c 2)
  return r1 && r2

/-- `test_splice_single_lvalue`, test_sequence.cpp 566-578; both blocks (`uint64_t` and `std::string`): the values are arbitrary -/
def test_splice_single_lvalue : M α Bool :=
  local_ E (c 1) (ctor_range E (listSrc E) (c 1) al [n 0, n 1, n 2, n 3, n 4]) do
  local_ E (c 2) (ctor_range E (listSrc E) (c 2) al [n 5, n 6, n 7, n 8, n 9]) do
  let _ ← (do splice_one E (c 1) (← nth E (c 1) 3) (c 2) (← nth E (c 2) 3))
  let r1 ← check_contents E eq (c 1) [n 0, n 1, n 2, n 8, n 3, n 4]
  let r2 ← check_contents E eq (c 2) [n 5, n 6, n 7, n 9]
  return r1 && r2

/-- `test_splice_single_rvalue`, test_sequence.cpp 580-592; both blocks (`uint64_t` and `std::string`): the values are arbitrary; `splice(pos, seq&&, ...)` forwards to the lvalue overload -/
def test_splice_single_rvalue : M α Bool :=
  local_ E (c 1) (ctor_range E (listSrc E) (c 1) al [n 0, n 1, n 2, n 3, n 4]) do
  local_ E (c 2) (ctor_range E (listSrc E) (c 2) al [n 5, n 6, n 7, n 8, n 9]) do
  let _ ← (do splice_one E (c 1) (← nth E (c 1) 3) (c 2) (← nth E (c 2) 3))
  let r1 ← check_contents E eq (c 1) [n 0, n 1, n 2, n 8, n 3, n 4]
  let r2 ← check_contents E eq (c 2) [n 5, n 6, n 7, n 9]
  return r1 && r2

/-- `test_splice_range_lvalue`, test_sequence.cpp 594-607; both blocks (`uint64_t` and `std::string`): the values are arbitrary -/
def test_splice_range_lvalue : M α Bool :=
  local_ E (c 1) (ctor_range E (listSrc E) (c 1) al [n 0, n 1, n 2, n 3, n 4]) do
  local_ E (c 2) (ctor_range E (listSrc E) (c 2) al [n 5, n 6, n 7, n 8, n 9]) do
  let _ ← (do splice_range E (c 1) (← nth E (c 1) 3) (c 2) (← nth E (c 2) 1) (← nth E (c 2) 4))
  let r1 ← check_contents E eq (c 1) [n 0, n 1, n 2, n 6, n 7, n 8, n 3, n 4]
  let r2 ← check_contents E eq (c 2) [n 5, n 9]
  return r1 && r2

/-- `test_splice_range_rvalue`, test_sequence.cpp 609-622; both blocks (`uint64_t` and `std::string`): the values are arbitrary; `splice(pos, seq&&, ...)` forwards to the lvalue overload -/
def test_splice_range_rvalue : M α Bool :=
  local_ E (c 1) (ctor_range E (listSrc E) (c 1) al [n 0, n 1, n 2, n 3, n 4]) do
  local_ E (c 2) (ctor_range E (listSrc E) (c 2) al [n 5, n 6, n 7, n 8, n 9]) do
  let _ ← (do splice_range E (c 1) (← nth E (c 1) 3) (c 2) (← nth E (c 2) 1) (← nth E (c 2) 4))
  let r1 ← check_contents E eq (c 1) [n 0, n 1, n 2, n 6, n 7, n 8, n 3, n 4]
  let r2 ← check_contents E eq (c 2) [n 5, n 9]
  return r1 && r2

/-- `test_splice_merge_lvalue`, test_sequence.cpp 624-630 -/
def test_splice_merge_lvalue (lt : α → α → Bool) : M α Bool :=
  local_ E (c 1) (ctor_range E (listSrc E) (c 1) al [n 0, n 1, n 2, n 10, n 20, n 21, n 30]) do
  local_ E (c 2) (ctor_range E (listSrc E) (c 2) al [n 1, n 3, n 4, n 5, n 22, n 29, n 31]) do
  let _ ← merge E (c 1) (c 2) lt
  let r1 ← check_contents E eq (c 1) [n 0, n 1, n 1, n 2, n 3, n 4, n 5, n 10, n 20, n 21, n 22, n 29, n 30, n 31]
  let r2 ← check_empty E (c 2)
  return r1 && r2

/-- `test_splice_merge_rvalue`, test_sequence.cpp 632-638 -/
def test_splice_merge_rvalue (lt : α → α → Bool) : M α Bool :=
  local_ E (c 1) (ctor_range E (listSrc E) (c 1) al [n 0, n 1, n 2, n 10, n 20, n 21, n 30]) do
  local_ E (c 2) (ctor_range E (listSrc E) (c 2) al [n 1, n 3, n 4, n 5, n 22, n 29, n 31]) do
  let _ ← merge E (c 1) (c 2) lt
  let r1 ← check_contents E eq (c 1) [n 0, n 1, n 1, n 2, n 3, n 4, n 5, n 10, n 20, n 21, n 22, n 29, n 30, n 31]
  let r2 ← check_empty E (c 2)
  return r1 && r2

/-- `test_remove`, test_sequence.cpp 640-644 -/
def test_remove : M α Bool :=
  local_ E (c 1) (ctor_range E (listSrc E) (c 1) al [n 0, n 1, n 2, n 3, n 4, n 4, n 3, n 2, n 1, n 0]) do
  let _ ← remove E (c 1) eq (n 2)
  let r1 ← check_contents E eq (c 1) [n 0, n 1, n 3, n 4, n 4, n 3, n 1, n 0]
  return r1

/-- `test_remove_if`, test_sequence.cpp 646-650 -/
def test_remove_if (big : α → Bool) : M α Bool :=
  local_ E (c 1) (ctor_range E (listSrc E) (c 1) al [n 0, n 1, n 2, n 3, n 4, n 4, n 3, n 2, n 1, n 0]) do
  let _ ← remove_if E (c 1) big
  let r1 ← check_contents E eq (c 1) [n 0, n 1, n 1, n 0]
  return r1

/-- `test_reverse`, test_sequence.cpp 652-656 -/
def test_reverse : M α Bool :=
  local_ E (c 1) (ctor_range E (listSrc E) (c 1) al [n 0, n 1, n 2, n 3, n 4]) do
  let _ ← reverse E (c 1)
  let r1 ← check_contents E eq (c 1) [n 4, n 3, n 2, n 1, n 0]
  return r1

/-- `test_unique`, test_sequence.cpp 658-662 -/
def test_unique : M α Bool :=
  local_ E (c 1) (ctor_range E (listSrc E) (c 1) al [n 0, n 1, n 1, n 2, n 2, n 2, n 3, n 4]) do
  let _ ← unique E (c 1) eq
  let r1 ← check_contents E eq (c 1) [n 0, n 1, n 2, n 3, n 4]
  return r1

/-- `test_sort`, test_sequence.cpp 664-668 -/
def test_sort (lt : α → α → Bool) : M α Bool :=
  local_ E (c 1) (ctor_range E (listSrc E) (c 1) al [n 3, n 0, n 4, n 1, n 2]) do
  let _ ← sort E (c 1) lt
  let r1 ← check_contents E eq (c 1) [n 0, n 1, n 2, n 3, n 4]
  return r1

/-- `test_sort_predicate`, test_sequence.cpp 670-674 -/
def test_sort_predicate (lt : α → α → Bool) : M α Bool :=
  local_ E (c 1) (ctor_range E (listSrc E) (c 1) al [n 3, n 0, n 4, n 1, n 2]) do
  let _ ← sort E (c 1) (fun a b => lt b a)
  let r1 ← check_contents E eq (c 1) [n 4, n 3, n 2, n 1, n 0]
  return r1

/-- all of them, in the order they are registered by `BOOST_AUTO_TEST_CASE`, test_sequence.cpp 61-674 (`test_traits`, 840-847, concerns types only) -/
def suite (tag : Nat) (lt : α → α → Bool) (big : α → Bool) : List (M α Bool) := [
  test_construct_alloc E c tag,
  test_construct_default E c al,
  test_construct_count E eq c al n,
  test_construct_range E eq c al n,
  test_construct_copy E eq c al n,
  test_construct_copy_alloc E eq c al n tag,
  test_construct_move E eq c al n,
  test_construct_move_alloc E eq c al n tag,
  test_construct_ilist E eq c al n,
  test_operator_assign E eq c al n,
  test_operator_move_assign E eq c al n,
  test_operator_assign_ilist E eq c al n,
  test_assign_count E eq c al n,
  test_assign_range E eq c al n,
  test_assign_ilist E eq c al n,
  test_get_allocator E c tag,
  test_at E eq c al n,
  test_operator_index E eq c al n,
  test_front E eq c al n,
  test_back E eq c al n,
  test_begin E eq c al n,
  test_end E eq c al n,
  test_rbegin E eq c al n,
  test_rend E eq c al n,
  test_penultimate E eq c al n,
  test_nth E eq c al n,
  test_index_of E c al n,
  test_empty E c al n,
  test_size E c al n,
  test_height E c al n,
  test_max_size E c al,
  test_clear E c al n,
  test_insert_lvalue E eq c al n,
  test_insert_rvalue E eq c al n,
  test_insert_lvalue_count E eq c al n,
  test_insert_range E eq c al n,
  test_insert_ilist E eq c al n,
  test_emplace_default E eq c al n,
  test_emplace E eq c al n,
  test_erase E eq c al n,
  test_erase_range E eq c al n,
  test_push_back_lvalue E eq c al n,
  test_push_back_rvalue E eq c al n,
  test_emplace_back E eq c al n,
  test_pop_back E eq c al n,
  test_push_front_lvalue E eq c al n,
  test_push_front_rvalue E eq c al n,
  test_emplace_front E eq c al n,
  test_pop_front E eq c al n,
  test_resize_default E eq c al n,
  test_resize_value E eq c al n,
  test_swap_member E eq c al n,
  test_swap_free E eq c al n,
  test_splice_lvalue E eq c al n,
  test_splice_rvalue E eq c al n,
  test_splice_single_lvalue E eq c al n,
  test_splice_single_rvalue E eq c al n,
  test_splice_range_lvalue E eq c al n,
  test_splice_range_rvalue E eq c al n,
  test_splice_merge_lvalue E eq c al n lt,
  test_splice_merge_rvalue E eq c al n lt,
  test_remove E eq c al n,
  test_remove_if E eq c al n big,
  test_reverse E eq c al n,
  test_unique E eq c al n,
  test_sort E eq c al n lt,
  test_sort_predicate E eq c al n lt]

/-- run tests one after the other, until a check fails or an exception is thrown -/
def run_tests : List (M α Bool) → M α Bool
  | [] => pure true
  | t :: ts => do
    let ok ← t
    if ok then run_tests ts else pure false

end Tests
end SegTree
