/-
  Moves that throw at arbitrary moments.

  In Model/Base.lean whether a move throws is a function of the value moved.
  `N α β` is `M α β` with the number of moves made so far, and `Moves` decides for
  each move, by its number and the value, whether it throws.  Rough/Model.lean is
  a copy of the model over `N`.
-/
import Verif.Proof.Calm
set_option autoImplicit false

namespace SegTree

open Lean.Order

/-- which moves throw: an arbitrary function of the number of the move and of the
value moved -/
class Moves (α : Type) where
  fails : Nat → α → Bool

/-- Outcome of a run, with the number of moves attempted so far. -/
inductive NRes (α β : Type) where
  | ok (v : β) (m : Mem α) (k : Nat)
  | throw (e : Exn) (m : Mem α) (k : Nat)
  | ub (u : UB)
  | div

/-- forget the count -/
def NRes.erase {α β : Type} : NRes α β → Res α β
  | .ok v m _ => .ok v m
  | .throw e m _ => .throw e m
  | .ub u => .ub u
  | .div => .div

instance {α β : Type} : Lean.Order.PartialOrder (NRes α β) :=
  inferInstanceAs (Lean.Order.PartialOrder (FlatOrder (NRes.div (α := α) (β := β))))
noncomputable instance {α β : Type} : CCPO (NRes α β) :=
  inferInstanceAs (CCPO (FlatOrder (NRes.div (α := α) (β := β))))

/-- A C++ statement in a program whose moves may throw at any moment; the first
argument is the number of moves attempted before it. -/
def N (α β : Type) : Type := Nat → Mem α → NRes α β

namespace N
variable {α β γ : Type}

protected def pure (v : β) : N α β := fun k m => .ok v m k

protected def bind (x : N α β) (f : β → N α γ) : N α γ := fun k m =>
  match x k m with
  | .ok v m' k' => f v k' m'
  | .throw e m' k' => .throw e m' k'
  | .ub u => .ub u
  | .div => .div

instance : Monad (N α) where
  pure := N.pure
  bind := N.bind

instance : Lean.Order.PartialOrder (N α β) :=
  inferInstanceAs (Lean.Order.PartialOrder (Nat → Mem α → NRes α β))
noncomputable instance : CCPO (N α β) :=
  inferInstanceAs (CCPO (Nat → Mem α → NRes α β))

instance : MonoBind (N α) where
  bind_mono_left := by
    intro β γ a₁ a₂ f h k m
    specialize h k m
    show FlatOrder.rel _ _
    change FlatOrder.rel (a₁ k m) (a₂ k m) at h
    simp only [Bind.bind, N.bind]
    generalize a₁ k m = x at h
    generalize a₂ k m = y at h
    cases h with
    | bot => exact .bot
    | refl => exact .refl
  bind_mono_right := by
    intro β γ a f₁ f₂ h k m
    show FlatOrder.rel _ _
    simp only [Bind.bind, N.bind]
    cases a k m with
    | ok v m' n => exact h v n m'
    | _ => exact .refl

def ub (u : UB) : N α β := fun _ _ => .ub u
def throw (e : Exn) : N α β := fun k m => .throw e m k

/-- `M.onThrow` -/
def onThrow (body : N α β) (handler : N α Unit) : N α β := fun k m =>
  match body k m with
  | .ok v m' n => .ok v m' n
  | .throw e m' n =>
    match handler n m' with
    | .ok _ m'' n' => .throw e m'' n'
    | .throw e' m'' n' => .throw e' m'' n'
    | .ub u => .ub u
    | .div => .div
  | .ub u => .ub u
  | .div => .div

/-- a statement that moves nothing -/
def lift (x : M α β) : N α β := fun k m =>
  match x m with
  | .ok v m' => .ok v m' k
  | .throw e m' => .throw e m' k
  | .ub u => .ub u
  | .div => .div

end N

/-- the next move, of `v`, throws (trivially copyable values never do) -/
def Rough.fails {α : Type} [Moves α] (E : Env α) (v : α) : N α Bool := fun k m =>
  .ok (!E.trivCopy && Moves.fails k v) m (k + 1)

end SegTree
