/-
  Model of the repository's client that retries: `insert_single_retry` of
  /repo/test/test_sequence.cpp.

  Simplification: `catch (retry_exception const&)` is a predicate on the three
  kinds of exception of the model.
-/
import Verif.Model.Bench
set_option autoImplicit false

namespace SegTree
namespace Bench

variable {α : Type}

/-- `while (true) { try { x; break; } catch (C const&) {} }`, test_sequence.cpp
808-815; `catches e`: the handler's type matches `e` -/
def retry (catches : Exn → Bool) (x : M α Unit) (m : Mem α) : Res α Unit :=
  match x m with
  | .ok _ m' => .ok () m'
  | .throw e m' => if catches e then retry catches x m' else .throw e m'
  | .ub k => .ub k
  | .div => .div
partial_fixpoint

variable (E : Env α)

/-- `container.insert(nth(container, p), v);`, test_sequence.cpp 810 -/
def insert_at (o p : Nat) (v : α) : M α Unit := do
  let it ← nth E o p
  let _ ← insert E o it v

/-- the loop of `insert_single_retry`, test_sequence.cpp 807-816 -/
def insert_single_retry_loop (catches : Exn → Bool) (o : Nat) (d : InsertionData α) : (left i : Nat) → M α Unit
  | 0, _ => pure ()
  | left + 1, i =>
    match d.indexes[i]?, d.ordered[i]? with
    | some p, some v => do
      retry catches (insert_at E o p v)
      insert_single_retry_loop catches o d left (i + 1)
    | _, _ => M.ub .oob

/-- `insert_single_retry`, test_sequence.cpp 803-817 (`reserve` does nothing) -/
def insert_single_retry (catches : Exn → Bool) (o : Nat) (d : InsertionData α) : M α Unit :=
  insert_single_retry_loop E catches o d d.indexes.length 0

end Bench
end SegTree
