/-
  Model of the example program of the documentation: /repo/doc/segmented_tree.qbk 48-66,
  "needle in a haystack".

  Simplifications: the sizes and strings of the program are arguments; the temporaries
  made of string literals are there from the start; what is printed is the result.
-/
import Verif.Model.Api
set_option autoImplicit false

namespace SegTree

variable {α : Type} (E : Env α)

/-- the statements after the first, segmented_tree.qbk 56-63: answers the index found -/
def haystack_body (eq : α → α → Bool) (o i : Nat) (needle : α) : M α (Option Nat) := do
  let pos ← nth E o i
  let _ ← insert_rv E o pos needle
  let first ← begin_ E o
  let last ← end_ E o
  let it ← std_find_if E (fun v => eq v needle) first last
  if it.pos ≠ last.pos then do
    let index := index_of it
    let _ ← erase E o it
    return some index
  else return none

/-- `main`, segmented_tree.qbk 54-64, with the destructor of the local variable -/
def haystack_main (eq : α → α → Bool) (o al n i : Nat) (hay needle : α) : M α (Option Nat) := do
  ctor_count E o al n (copyVal E hay)
  let r ← M.onThrow (haystack_body E eq o i needle) (dtor E o)
  dtor E o
  return r

end SegTree
