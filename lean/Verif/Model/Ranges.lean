/-
  Input ranges in general (the `InputIt` template parameter of
  `insert(pos, first, last)`, seq.hpp 3143-3150, `assign(first, last)`, 2532-2537,
  and `seq(first, last, alloc)`, 2349-2360).
-/
import Verif.Model.Api
set_option autoImplicit false

namespace SegTree

/-- A user-supplied input range: any state machine.  `done` is `first == last`,
`deref` is `value_type(*first)` (or `*first`, when it is assigned), `incr` is
`++first`; both may throw (`none`).  Simplification: neither looks at, or
changes, the container (or any other memory of the library). -/
structure Stream (α σ : Type) where
  done : σ → Bool
  deref : σ → Option α
  incr : σ → Option σ

/-- the range as a source for `emplace_range` (seq.hpp 2146-2157) and
`assign_range` (seq.hpp 2194-2213) -/
def Stream.src {α σ : Type} (Z : Stream α σ) : Src α σ where
  done := Z.done
  read st := match Z.deref st with
    | some v => pure v
    | none => M.throw .elem
  next st := match Z.incr st with
    | some st' => pure st'
    | none => M.throw .elem

end SegTree
