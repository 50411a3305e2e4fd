/-
  Elements built by a constructor of the user's: the `Args&&...` template
  parameters of `emplace`, `emplace_back`, `emplace_front` (seq.hpp 3184-3187,
  3260-3263, 3315-3318) and of `emplace_count` and `resize_count` with no arguments
  (`seq(count, alloc)`, 2344-2347, and `resize(count)`, 3346).
-/
import Verif.Model.Api
set_option autoImplicit false

namespace SegTree
variable {α : Type} (E : Env α)

/-- One evaluation of `value_type(std::forward<Args>(args)...)`, seq.hpp 2131: it
gives a value or throws.  Simplification: the constructor does not change the
container (or any other memory of the library); it may look at it. -/
def construct : Option α → M α α
  | some v => pure v
  | none => M.throw .elem

/-- `emplace(pos, args...)`, seq.hpp 3184-3187; `r` is what the constructor does -/
def emplace (o : Nat) (it : Iter) (r : Option α) : M α Iter := emplace_single E o it (construct r)

/-- `emplace_back(args...)`, seq.hpp 3260-3263 -/
def emplace_back (o : Nat) (r : Option α) : M α Unit := do
  let _ ← emplace_single E o (← find_end E o) (construct r)

/-- `emplace_front(args...)`, seq.hpp 3315-3318 -/
def emplace_front (o : Nat) (r : Option α) : M α Unit := do
  let _ ← emplace_single E o (← find_first E o) (construct r)

/-- the loop of `emplace_count`, seq.hpp 2138-2141, from `i` on; the constructor
need not do the same each time: `mk i` is its `i`-th evaluation -/
def emplace_each_loop (o : Nat) (mk : Nat → M α α) : (n i : Nat) → Iter → M α Iter
  | 0, _, it => pure it
  | n + 1, i, it => do
    let it ← emplace_single E o it (mk i)
    let it ← move_next_iterator E it
    emplace_each_loop o mk n (i + 1) it

/-- `emplace_count`, seq.hpp 2135-2144 -/
def emplace_each (o : Nat) (it : Iter) (count : Nat) (mk : Nat → M α α) : M α Iter := do
  let it ← emplace_each_loop E o mk count 0 it
  move_prev_iterator_count E it count

/-- `resize(count)`, seq.hpp 3346, with `resize_count`, 2215-2225 -/
def resize_each (o count : Nat) (f : Nat → Option α) : M α Unit := do
  let sz ← getSize o
  if sz = count then pure ()
  else
    let last ← find_end E o
    if count < sz then
      let first ← find_index E o count
      let _ ← erase_range E o first last
    else
      let _ ← emplace_each E o last (count - sz) (fun i => construct (f i))

/-- `seq(count, alloc)`, seq.hpp 2344-2347 -/
def ctor_each (o alloc count : Nat) (f : Nat → Option α) : M α Unit :=
  delegating E o alloc (do
    let it ← find_end E o
    let _ ← emplace_each E o it count (fun i => construct (f i)))

end SegTree
