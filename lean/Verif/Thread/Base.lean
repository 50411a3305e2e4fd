/-
  One thread among others.

  `T α β` is `M α β` (Model/Base.lean) for a thread that shares its memory with
  others, executed up to a given number of accesses to memory.  Every access acts on
  the memory as the other threads have left it at that moment (`env k` for the k-th
  access), and is checked: an access to a location the thread has no right to is an
  outcome of its own, `race`; if somebody else has changed what belongs to the thread
  the outcome is `torn`.  Thread/Model.lean is a copy of the model over `T`,
  Thread/Machine.lean puts threads together.
-/
import Verif.Model.Api
set_option autoImplicit false

namespace SegTree

open Lean.Order

/-- The state of a thread. -/
structure Th (α : Type) where
  /-- the memory after the thread's last access, with the thread's own log and count of
  element copies -/
  mem : Mem α
  /-- the locations that belong to the thread -/
  own : Loc → Bool
  /-- the locations all threads may read and none may write (never changes) -/
  lent : Loc → Bool
  /-- what the memory is when the thread makes its k-th access (never changes) -/
  env : Nat → Loc → Option (Cell α)
  /-- the number of accesses made -/
  step : Nat
  /-- the number of accesses after which the thread is stopped (never changes) -/
  limit : Nat

/-- Outcome of a run. -/
inductive TRes (α β : Type) where
  | ok (v : β) (s : Th α)
  | throw (e : Exn) (s : Th α)
  | ub (u : UB)
  /-- the thread is about to access memory and has used up its accesses -/
  | paused (s : Th α)
  /-- the thread accesses `l`, which it may not read, or writes it, which it may not:
  a data race -/
  | race (l : Loc)
  /-- something that belongs to the thread, or is lent, was changed by others -/
  | torn
  /-- the storage `l` handed to the thread (by its allocator, or by its program for
  a new `seq` object) is in use by somebody else -/
  | taken (l : Loc)
  | div

instance {α β : Type} : Lean.Order.PartialOrder (TRes α β) :=
  inferInstanceAs (Lean.Order.PartialOrder (FlatOrder (TRes.div (α := α) (β := β))))
noncomputable instance {α β : Type} : CCPO (TRes α β) :=
  inferInstanceAs (CCPO (FlatOrder (TRes.div (α := α) (β := β))))

/-- A C++ statement executed by a thread among others. -/
def T (α β : Type) : Type := Th α → TRes α β

namespace T
variable {α β γ : Type}

protected def pure (v : β) : T α β := fun s => .ok v s

protected def bind (x : T α β) (f : β → T α γ) : T α γ := fun s =>
  match x s with
  | .ok v s' => f v s'
  | .throw e s' => .throw e s'
  | .ub u => .ub u
  | .paused s => .paused s
  | .race l => .race l
  | .torn => .torn
  | .taken l => .taken l
  | .div => .div

instance : Monad (T α) where
  pure := T.pure
  bind := T.bind

instance : Lean.Order.PartialOrder (T α β) :=
  inferInstanceAs (Lean.Order.PartialOrder (Th α → TRes α β))
noncomputable instance : CCPO (T α β) :=
  inferInstanceAs (CCPO (Th α → TRes α β))

instance : MonoBind (T α) where
  bind_mono_left := by
    intro β γ a₁ a₂ f h s
    specialize h s
    show FlatOrder.rel _ _
    change FlatOrder.rel (a₁ s) (a₂ s) at h
    simp only [Bind.bind, T.bind]
    generalize a₁ s = x at h
    generalize a₂ s = y at h
    cases h with
    | bot => exact .bot
    | refl => exact .refl
  bind_mono_right := by
    intro β γ a f₁ f₂ h s
    show FlatOrder.rel _ _
    simp only [Bind.bind, T.bind]
    cases a s with
    | ok v s' => exact h v s'
    | _ => exact .refl

def ub (u : UB) : T α β := fun _ => .ub u
def throw (e : Exn) : T α β := fun s => .throw e s

/-- `M.onThrow` -/
def onThrow (body : T α β) (handler : T α Unit) : T α β := fun s =>
  match body s with
  | .ok v s' => .ok v s'
  | .throw e s' =>
    match handler s' with
    | .ok _ s'' => .throw e s''
    | .throw e' s'' => .throw e' s''
    | .ub u => .ub u
    | .paused s => .paused s
    | .race l => .race l
    | .torn => .torn
    | .taken l => .taken l
    | .div => .div
  | .ub u => .ub u
  | .paused s => .paused s
  | .race l => .race l
  | .torn => .torn
  | .taken l => .taken l
  | .div => .div

/-- `try { body } catch (...) {}`, recording the exception -/
def attempt (body : T α β) : T α (β ⊕ Exn) := fun s =>
  match body s with
  | .ok v s' => .ok (.inl v) s'
  | .throw e s' => .ok (.inr e) s'
  | .ub u => .ub u
  | .paused s => .paused s
  | .race l => .race l
  | .torn => .torn
  | .taken l => .taken l
  | .div => .div

/-- perform `x` in the memory the thread finds; if it returns, the thread owns `own`
afterwards -/
def perform (x : M α β) (s : Th α) (own : Loc → Bool) : TRes α β :=
  match x { s.mem with cell := s.env s.step } with
  | .ok v m => .ok v { s with mem := m, own := own, step := s.step + 1 }
  | .throw e m => .throw e { s with mem := m, step := s.step + 1 }
  | .ub u => .ub u
  | .div => .div

open Classical in
/-- the next access, if the thread may make it and finds its memory as it left it -/
noncomputable def access (act : Th α → TRes α β) : T α β := fun s =>
  if s.limit ≤ s.step then .paused s
  else if ∀ l, s.own l = true ∨ s.lent l = true → s.env s.step l = s.mem.cell l then act s
  else .torn

/-- a reading access to `l` -/
noncomputable def reads (l : Loc) (x : M α β) : T α β := access fun s =>
  if s.own l || s.lent l then perform x s s.own else .race l

/-- a writing access to `l` -/
noncomputable def writes (l : Loc) (x : M α β) : T α β := access fun s =>
  if s.own l && !s.lent l then perform x s s.own else .race l

/-- an access that gives `l` back -/
noncomputable def releases (l : Loc) (x : M α β) : T α β := access fun s =>
  if s.own l && !s.lent l then perform x s (upd s.own l false) else .race l

/-- an access that takes the storage the thread is offered (at the null address:
a request that fails) -/
noncomputable def acquires (offer : Log → Loc) (x : M α β) : T α β := access fun s =>
  let l := offer s.mem.log
  if l = .heap 0 ∨ s.own l = true then perform x s s.own
  else if (s.env s.step l).isSome || s.lent l then .taken l
  else perform x s (upd s.own l true)

/-- no access to memory others know of -/
noncomputable def local_ (x : M α β) : T α β := access fun s => perform x s s.own

end T

/-- `T.attempt` for a program that runs alone -/
def M.attempt {α β : Type} (body : M α β) : M α (β ⊕ Exn) := fun m =>
  match body m with
  | .ok v m' => .ok (.inl v) m'
  | .throw e m' => .ok (.inr e) m'
  | .ub u => .ub u
  | .div => .div

end SegTree
