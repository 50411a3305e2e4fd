/-
  Calls whose arguments refer to the container itself: a reference to one of its
  elements as the value (the value is then read again each time the code uses it),
  or a range of its own elements.
-/
import Verif.Model.Api
set_option autoImplicit false

namespace SegTree
section
variable {α : Type} (E : Env α)

/-- `push_back(*src)`, `src` into the container itself, seq.hpp 3234, 3260-3263 -/
def push_back_alias (o : Nat) (src : Iter) : M α Unit := do
  let _ ← emplace_single E o (← find_end E o) (do copyVal E (← dereference E src))

/-- `push_front(*src)`, `src` into the container itself, seq.hpp 3289, 3315-3318 -/
def push_front_alias (o : Nat) (src : Iter) : M α Unit := do
  let _ ← emplace_single E o (← find_first E o) (do copyVal E (← dereference E src))

/-- `assign(count, *src)`, `src` into the container itself, seq.hpp 2516, 2174-2192 -/
def assign_fill_alias (o count : Nat) (src : Iter) : M α Unit := assign_count E o count (dereference E src)

/-- `resize(count, *src)`, `src` into the container itself, seq.hpp 3361-3363, 2215-2225 -/
def resize_alias (o count : Nat) (src : Iter) : M α Unit :=
  resize_count E o count (do copyVal E (← dereference E src))

/-- `assign(first, last)` with iterators into the container itself, seq.hpp
2534-2537, 2194-2213 -/
def assign_self_range (o : Nat) (first last : Iter) : M α Unit := assign_range E (copySrc E last) o first

/-- `std::find(first, last, *src)` -/
def std_find_alias (eq : α → α → Bool) (src first last : Iter) : M α Iter :=
  if first.pos ≠ last.pos then do
    let v ← dereference E first
    let w ← dereference E src
    if eq v w then pure first
    else std_find_alias eq src (← move_next_iterator E first) last
  else pure first
partial_fixpoint

/-- `for (auto i = first; ++i != last;) if (!(*i == *src)) *first++ = std::move(*i);` -/
def std_remove_alias_loop (eq : α → α → Bool) (src first i last : Iter) : M α Iter := do
  let i ← move_next_iterator E i
  if i.pos ≠ last.pos then
    let v ← dereference E i
    let w ← dereference E src
    if eq v w then std_remove_alias_loop eq src first i last
    else
      iter_move_assign E i first
      let first ← move_next_iterator E first
      std_remove_alias_loop eq src first i last
  else pure first
partial_fixpoint

/-- `remove(*src)`, `src` into the container itself, seq.hpp 3571-3573, with the
reference implementation of `std::remove` -/
def remove_alias (o : Nat) (eq : α → α → Bool) (src : Iter) : M α Unit := do
  let b ← begin_ E o
  let e ← end_ E o
  let first ← std_find_alias E eq src b e
  let first ← if first.pos ≠ e.pos then std_remove_alias_loop E eq src first first e else pure first
  let e ← end_ E o
  let _ ← erase_range E o first e

end
end SegTree
