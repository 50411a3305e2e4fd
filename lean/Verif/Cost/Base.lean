/-
  Counting the work of the model's functions.

  `C α β` is `M α β` (Model/Base.lean) with a counter: every access to a node,
  a segment or a `seq` object, and every call of the allocator, adds its weight.
  Cost/Model.lean is a copy of the model over `C`; Cost/Sim.lean proves that
  forgetting the counter gives the model back.
-/
import Verif.Model.Api
set_option autoImplicit false

namespace SegTree

open Lean.Order

/-- What the counter counts: the cost of each of the machine's primitives. -/
class Weights where
  /-- reading a node -/
  rdNode : Nat
  /-- writing a node -/
  wrNode : Nat
  /-- reading a segment (an element, or its slots) -/
  rdSlots : Nat
  /-- writing a segment: constructing, assigning or destroying one element, or one block copy -/
  wrSlots : Nat
  /-- reading a `seq` object -/
  rdObj : Nat
  /-- writing (or creating, or ending the lifetime of) a `seq` object -/
  wrObj : Nat
  /-- `allocate` -/
  alloc : Nat
  /-- `deallocate` -/
  free : Nat
  /-- every element copied by a block copy (`memcpy`, `memmove`) -/
  copy : Nat

/-- count every access -/
@[reducible] def Weights.accesses : Weights := ⟨1, 1, 1, 1, 1, 1, 1, 1, 1⟩

/-- count what changes the memory: every write and every allocator call -/
@[reducible] def Weights.writes : Weights := ⟨0, 1, 0, 1, 0, 1, 1, 1, 1⟩

/-- count the elements constructed, assigned or destroyed -/
@[reducible] def Weights.elements : Weights := ⟨0, 0, 0, 1, 0, 0, 0, 0, 1⟩

/-- Outcome of a run together with the number `n` of accesses it made. -/
inductive CRes (α β : Type) where
  | ok (v : β) (m : Mem α) (n : Nat)
  | throw (e : Exn) (m : Mem α) (n : Nat)
  | ub (k : UB)
  | div

namespace CRes
variable {α β : Type}

/-- forget the count -/
def erase : CRes α β → Res α β
  | .ok v m _ => .ok v m
  | .throw e m _ => .throw e m
  | .ub k => .ub k
  | .div => .div

/-- `n` more accesses were made before -/
def add (n : Nat) : CRes α β → CRes α β
  | .ok v m k => .ok v m (n + k)
  | .throw e m k => .throw e m (n + k)
  | .ub k => .ub k
  | .div => .div

/-- the run made at most `k` accesses -/
def le (k : Nat) : CRes α β → Prop
  | .ok _ _ n => n ≤ k
  | .throw _ _ n => n ≤ k
  | _ => True

end CRes

instance {α β : Type} : Lean.Order.PartialOrder (CRes α β) :=
  inferInstanceAs (Lean.Order.PartialOrder (FlatOrder (CRes.div (α := α) (β := β))))
noncomputable instance {α β : Type} : CCPO (CRes α β) :=
  inferInstanceAs (CCPO (FlatOrder (CRes.div (α := α) (β := β))))

/-- A C++ statement that counts its accesses. -/
def C (α β : Type) : Type := Mem α → CRes α β

namespace C
variable {α β γ : Type}

protected def pure (v : β) : C α β := fun m => .ok v m 0

protected def bind (x : C α β) (f : β → C α γ) : C α γ := fun m =>
  match x m with
  | .ok v m' n => (f v m').add n
  | .throw e m' n => .throw e m' n
  | .ub k => .ub k
  | .div => .div

instance : Monad (C α) where
  pure := C.pure
  bind := C.bind

instance : Lean.Order.PartialOrder (C α β) :=
  inferInstanceAs (Lean.Order.PartialOrder (Mem α → CRes α β))
noncomputable instance : CCPO (C α β) :=
  inferInstanceAs (CCPO (Mem α → CRes α β))

instance : MonoBind (C α) where
  bind_mono_left := by
    intro β γ a₁ a₂ f h m
    specialize h m
    show FlatOrder.rel _ _
    change FlatOrder.rel (a₁ m) (a₂ m) at h
    simp only [Bind.bind, C.bind]
    generalize a₁ m = x at h
    generalize a₂ m = y at h
    cases h with
    | bot => exact .bot
    | refl => exact .refl
  bind_mono_right := by
    intro β γ a f₁ f₂ h m
    show FlatOrder.rel _ _
    simp only [Bind.bind, C.bind]
    cases a m with
    | ok v m' n =>
      have := h v m'
      change FlatOrder.rel (f₁ v m') (f₂ v m') at this
      simp only
      generalize f₁ v m' = x at this
      generalize f₂ v m' = y at this
      cases this with
      | bot => exact .bot
      | refl => exact .refl
    | _ => exact .refl

def ub (k : UB) : C α β := fun _ => .ub k
def throw (e : Exn) : C α β := fun m => .throw e m 0

/-- `M.onThrow` with counts -/
def onThrow (body : C α β) (handler : C α Unit) : C α β := fun m =>
  match body m with
  | .ok v m' n => .ok v m' n
  | .throw e m' n =>
    match handler m' with
    | .ok _ m'' k => .throw e m'' (n + k)
    | .throw e' m'' k => .throw e' m'' (n + k)
    | .ub k => .ub k
    | .div => .div
  | .ub k => .ub k
  | .div => .div

/-- a primitive of the machine, at cost `c` -/
def lift (c : Nat) (x : M α β) : C α β := fun m =>
  match x m with
  | .ok v m' => .ok v m' c
  | .throw e m' => .throw e m' c
  | .ub k => .ub k
  | .div => .div

/-- `n` accesses -/
def tick (n : Nat) : C α Unit := fun m => .ok () m n

end C

/-- `y` is the counting version of `x`: wherever `x` terminates, `y` has the
same outcome and leaves the same memory. -/
class Sim {α β : Type} (x : M α β) (y : C α β) : Prop where
  run : ∀ m, x m = .div ∨ (y m).erase = x m

end SegTree
