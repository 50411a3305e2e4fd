/-
  The machine the model of `seq.hpp` runs on: memory, outcomes, the monad of
  C++ statements, and the template / environment parameters.

  Every definition cites the lines of
  /repo/include/boost/segmented_tree/seq.hpp (abbreviated `seq.hpp`) it models.
-/
set_option autoImplicit false

namespace SegTree

open Lean.Order

/-! ### Undefined behaviour and exceptions are distinct outcomes -/

/-- Reasons for which the model stops with "the C++ program has no defined
meaning here" (or, for `wrap`, "an unsigned subtraction that the code relies on
not wrapping has wrapped": defined in C++, but rejected by the model so that a
theorem saying "no UB outcome" also says "no unintended wrap-around"). -/
inductive UB where
  /-- access through a null, dangling or wrongly typed pointer -/
  | access
  /-- array index outside `segment_max` / `base_max` -/
  | oob
  /-- reading, assigning or destroying an element slot that holds no object -/
  | raw
  /-- constructing over a live object of non-trivially-destructible type -/
  | overwrite
  /-- deallocating a segment that still holds live objects -/
  | leak
  /-- deallocating through an allocator that does not compare equal to the one
      that allocated, or deallocating null when the allocator forbids it -/
  | badFree
  /-- unintended unsigned wrap-around -/
  | wrap
  deriving DecidableEq, Repr

/-- C++ exceptions that can leave the container's functions. -/
inductive Exn where
  /-- thrown by `allocate` -/
  | alloc
  /-- thrown by a constructor / assignment of the element type -/
  | elem
  /-- `std::out_of_range` thrown by `at` -/
  | range
  deriving DecidableEq, Repr

/-! ### Memory -/

/-- Locations: heap addresses handed out by the allocator (0 is `nullptr`) and
the `seq` objects themselves (named by the user). -/
inductive Loc where
  | heap (a : Nat)
  | obj (o : Nat)
  deriving DecidableEq, Repr

/-- One element slot of a segment: raw storage or a constructed object. -/
inductive Slot (α : Type) where
  | raw
  | val (v : α)
  deriving DecidableEq, Repr

/-- `struct node`, seq.hpp 121-139.  The two `std::array`s of `base_max`
entries are functions; accesses are bounds-checked by the primitives below. -/
structure Node where
  parent : Nat
  pidx : Nat
  len : Nat
  sizes : Nat → Nat
  ptrs : Nat → Nat

/-- The data members of `seq`, seq.hpp 1176-1188: `root_`, `size_pair_.sz`,
`height_pair_.ht`, and the two allocator base classes (element allocator and
rebound node allocator; allocator values are natural numbers). -/
structure SeqObj where
  root : Nat
  sz : Nat
  ht : Nat
  ealloc : Nat
  nalloc : Nat
  deriving DecidableEq, Repr

/-- What a live location holds.  Heap cells remember the equivalence class
`owner` of the allocator they came from. -/
inductive Cell (α : Type) where
  | seg (owner : Nat) (slots : Nat → Slot α)
  | node (owner : Nat) (n : Node)
  | obj (s : SeqObj)

/-- Bookkeeping of the environment: number of calls made to `allocate` so far
and how many of them failed (used to index the allocator oracle and to state
properties; no code reads it). -/
structure Log where
  reqs : Nat
  fails : Nat
  deriving DecidableEq, Repr

/-- The memory: which locations are live and what they hold, plus the
allocation log and the number of element copies attempted so far (used to index
the environment's `cthrow`; no code reads it). -/
structure Mem (α : Type) where
  cell : Loc → Option (Cell α)
  log : Log
  ticks : Nat

/-- Pointwise update of a function (one location, one array entry). -/
def upd {κ β : Type} [DecidableEq κ] (f : κ → β) (k : κ) (v : β) : κ → β :=
  fun k' => if k' = k then v else f k'

def Mem.set {α : Type} (m : Mem α) (l : Loc) (c : Cell α) : Mem α :=
  { m with cell := upd m.cell l (some c) }

/-- one more copy has been attempted -/
def Mem.tick {α : Type} (m : Mem α) : Mem α := { m with ticks := m.ticks + 1 }

def Mem.erase {α : Type} (m : Mem α) (l : Loc) : Mem α :=
  { m with cell := upd m.cell l none }

/-! ### Template parameters and environment -/

/-- Everything the code is parameterised by: the template arguments (through
the sizes they determine), the traits of the element type and allocator type,
the behaviour of the element's move operations, and the allocator's behaviour.
All theorems quantify over it. -/
structure Env (α : Type) where
  /-- `sizeof(T)` -/
  sizeofT : Nat
  /-- `segment_target`, in bytes -/
  segTarget : Nat
  /-- `base_target`, in bytes -/
  baseTarget : Nat
  /-- `sizeof(node_base)`, seq.hpp 80-84 -/
  sizeofNodeBase : Nat
  /-- `sizeof(node_data)`, seq.hpp 86-89 -/
  sizeofNodeData : Nat
  /-- the modulus of `size_type` (2^64 for `std::allocator` on LP64) -/
  W : Nat
  /-- `std::is_trivially_copyable<T>` -/
  trivCopy : Bool
  /-- `std::is_trivially_destructible<T>` -/
  trivDtor : Bool
  /-- `Alloc` is `std::allocator<T>` or has no `construct(T*, T&&)` of its own
      (`is_alloc_move_construct_default`, seq.hpp 41-55 and 1393-1399) -/
  defConstruct : Bool
  /-- the allocator accepts `deallocate(nullptr, n)` -/
  nullFree : Bool
  /-- `propagate_on_container_{copy_assignment,move_assignment,swap}` -/
  pocca : Bool
  pocma : Bool
  pocs : Bool
  /-- allocators `a`, `b` compare equal iff `acls a = acls b` -/
  acls : Nat → Nat
  /-- `select_on_container_copy_construction` -/
  selectCopy : Nat → Nat
  /-- value left in an object that has been moved from -/
  mv : α → α
  /-- moving (constructing or assigning from an rvalue of) this value throws -/
  mthrow : α → Bool
  /-- the n-th copy of the program (construction or assignment from an lvalue),
      being one of this value, throws -/
  cthrow : Nat → α → Bool
  /-- answer of the allocator to the n-th request: an address, 0 = failure -/
  oracle : Nat → Nat
  /-- garbage found in a freshly allocated node -/
  junk : Nat → Node

namespace Env
variable {α : Type} (E : Env α)

/-- `segment_free`, seq.hpp 92 -/
def segFree : Nat := E.segTarget
/-- `node_size`, seq.hpp 94 -/
def nodeSize : Nat := E.sizeofNodeBase
/-- `base_free`, seq.hpp 96-98 -/
def baseFree : Nat := if E.nodeSize > E.baseTarget then 0 else E.baseTarget - E.nodeSize
/-- `segment_fit`, seq.hpp 100-102 -/
def segFit : Nat := E.segFree / E.sizeofT
/-- `base_fit`, seq.hpp 104-106 -/
def baseFit : Nat := E.baseFree / E.sizeofNodeData
/-- `segment_max`, seq.hpp 108-110 -/
def segMax : Nat := if E.segFit > 1 then E.segFit else 1
/-- `base_max`, seq.hpp 112-114 -/
def baseMax : Nat := if E.baseFit > 3 then E.baseFit else 3
/-- `segment_min`, seq.hpp 116 -/
def segMin : Nat := (E.segMax + 1) / 2
/-- `base_min`, seq.hpp 118 -/
def baseMin : Nat := (E.baseMax + 1) / 2

/-- unsigned addition of `size_type` -/
def wadd (a b : Nat) : Nat := (a + b) % E.W
/-- `~x + 1` in `size_type` -/
def wneg (a : Nat) : Nat := (E.W - a % E.W) % E.W
/-- unsigned subtraction of `size_type` -/
def wsub (a b : Nat) : Nat := E.wadd a (E.wneg b)

/-- value of an object of type `T` after being moved from; trivially copyable
types are copied. -/
def moved (v : α) : α := if E.trivCopy then v else E.mv v

end Env

/-! ### Outcomes and statements -/

/-- Outcome of running a C++ statement: normal completion, an exception (with
the memory at the throw), undefined behaviour, or divergence. -/
inductive Res (α β : Type) where
  | ok (v : β) (m : Mem α)
  | throw (e : Exn) (m : Mem α)
  | ub (k : UB)
  | div

instance {α β : Type} : Lean.Order.PartialOrder (Res α β) :=
  inferInstanceAs (Lean.Order.PartialOrder (FlatOrder (Res.div (α := α) (β := β))))
noncomputable instance {α β : Type} : CCPO (Res α β) :=
  inferInstanceAs (CCPO (FlatOrder (Res.div (α := α) (β := β))))

/-- A C++ statement / expression over the memory. -/
def M (α β : Type) : Type := Mem α → Res α β

namespace M
variable {α β γ : Type}

protected def pure (v : β) : M α β := fun m => .ok v m

protected def bind (x : M α β) (f : β → M α γ) : M α γ := fun m =>
  match x m with
  | .ok v m' => f v m'
  | .throw e m' => .throw e m'
  | .ub k => .ub k
  | .div => .div

instance : Monad (M α) where
  pure := M.pure
  bind := M.bind

instance : Lean.Order.PartialOrder (M α β) :=
  inferInstanceAs (Lean.Order.PartialOrder (Mem α → Res α β))
noncomputable instance : CCPO (M α β) :=
  inferInstanceAs (CCPO (Mem α → Res α β))

instance : MonoBind (M α) where
  bind_mono_left := by
    intro β γ a₁ a₂ f h m
    specialize h m
    show FlatOrder.rel _ _
    change FlatOrder.rel (a₁ m) (a₂ m) at h
    simp only [Bind.bind, M.bind]
    generalize a₁ m = x at h
    generalize a₂ m = y at h
    cases h with
    | bot => exact .bot
    | refl => exact .refl
  bind_mono_right := by
    intro β γ a f₁ f₂ h m
    show FlatOrder.rel _ _
    simp only [Bind.bind, M.bind]
    cases a m with
    | ok v m' => exact h v m'
    | _ => exact .refl

/-- the program is undefined here -/
def ub (k : UB) : M α β := fun _ => .ub k
/-- `throw e` -/
def throw (e : Exn) : M α β := fun m => .throw e m

/-- `try { body } catch (...) { handler; throw; }` as in seq.hpp 1573-1599. -/
def onThrow (body : M α β) (handler : M α Unit) : M α β := fun m =>
  match body m with
  | .ok v m' => .ok v m'
  | .throw e m' =>
    match handler m' with
    | .ok _ m'' => .throw e m''
    | .throw e' m'' => .throw e' m''
    | .ub k => .ub k
    | .div => .div
  | .ub k => .ub k
  | .div => .div

end M

/-- Unsigned subtraction the code relies on not wrapping. -/
def usub {α : Type} (a b : Nat) : M α Nat :=
  if b ≤ a then pure (a - b) else M.ub .wrap

/-! ### Memory primitives -/

section Prim
variable {α : Type} (E : Env α)

/-- read a whole `node` through a pointer -/
def rdNode (p : Nat) : M α Node := fun m =>
  match m.cell (.heap p) with
  | some (.node _ n) => .ok n m
  | _ => .ub .access

/-- overwrite a `node` through a pointer -/
def wrNode (p : Nat) (n : Node) : M α Unit := fun m =>
  match m.cell (.heap p) with
  | some (.node w _) => .ok () (m.set (.heap p) (.node w n))
  | _ => .ub .access

/-- `p->length()`, seq.hpp 134 -/
def len (p : Nat) : M α Nat := do return (← rdNode p).len
/-- `p->length(v)`: stored in a `uint16_t`, seq.hpp 136-138 -/
def setLen (p v : Nat) : M α Unit := do wrNode p { (← rdNode p) with len := v % 65536 }
/-- `p->parent_pointer` -/
def parent (p : Nat) : M α Nat := do return (← rdNode p).parent
/-- `p->parent_pointer = v` -/
def setParent (p v : Nat) : M α Unit := do wrNode p { (← rdNode p) with parent := v }
/-- `p->parent_index()`, seq.hpp 128 -/
def pidx (p : Nat) : M α Nat := do return (← rdNode p).pidx
/-- `p->parent_index(v)`: stored in a `uint16_t`, seq.hpp 130-132 -/
def setPidx (p v : Nat) : M α Unit := do wrNode p { (← rdNode p) with pidx := v % 65536 }

/-- `p->sizes[i]` -/
def sizesAt (p i : Nat) : M α Nat := do
  let n ← rdNode p
  if i < E.baseMax then pure (n.sizes i) else M.ub .oob
/-- `p->sizes[i] = v` -/
def setSizes (p i v : Nat) : M α Unit := do
  let n ← rdNode p
  if i < E.baseMax then wrNode p { n with sizes := upd n.sizes i v } else M.ub .oob
/-- `p->pointers[i]` -/
def ptrsAt (p i : Nat) : M α Nat := do
  let n ← rdNode p
  if i < E.baseMax then pure (n.ptrs i) else M.ub .oob
/-- `p->pointers[i] = v` -/
def setPtrs (p i v : Nat) : M α Unit := do
  let n ← rdNode p
  if i < E.baseMax then wrNode p { n with ptrs := upd n.ptrs i v } else M.ub .oob

/-- the slots of the segment at `p` -/
def rdSlots (p : Nat) : M α (Nat → Slot α) := fun m =>
  match m.cell (.heap p) with
  | some (.seg _ s) => .ok s m
  | _ => .ub .access
/-- overwrite the slots of the segment at `p` -/
def wrSlots (p : Nat) (s : Nat → Slot α) : M α Unit := fun m =>
  match m.cell (.heap p) with
  | some (.seg w _) => .ok () (m.set (.heap p) (.seg w s))
  | _ => .ub .access

/-- read the object `p[i]` -/
def rdElem (p i : Nat) : M α α := do
  let s ← rdSlots p
  if i < E.segMax then
    match s i with
    | .val v => pure v
    | .raw => M.ub .raw
  else M.ub .oob

/-- change the value of the live object `p[i]`.  Assigning to storage that
holds no object is undefined unless `T` is trivially copyable. -/
def wrElem (p i : Nat) (v : α) : M α Unit := do
  let s ← rdSlots p
  if i < E.segMax then
    match s i with
    | .val _ => wrSlots p (upd s i (.val v))
    | .raw => if E.trivCopy then wrSlots p (upd s i (.val v)) else M.ub .raw
  else M.ub .oob

/-- the `seq` object named `o` -/
def rdObj (o : Nat) : M α SeqObj := fun m =>
  match m.cell (.obj o) with
  | some (.obj s) => .ok s m
  | _ => .ub .access
/-- overwrite the `seq` object named `o` -/
def wrObj (o : Nat) (s : SeqObj) : M α Unit := fun m =>
  match m.cell (.obj o) with
  | some (.obj _) => .ok () (m.set (.obj o) (.obj s))
  | _ => .ub .access

/-- `get_root()` etc., seq.hpp 1191-1200 -/
def getRoot (o : Nat) : M α Nat := do return (← rdObj o).root
def getSize (o : Nat) : M α Nat := do return (← rdObj o).sz
def getHeight (o : Nat) : M α Nat := do return (← rdObj o).ht
def setRoot (o v : Nat) : M α Unit := do wrObj o { (← rdObj o) with root := v }
def setSize (o v : Nat) : M α Unit := do wrObj o { (← rdObj o) with sz := v }
def setHeight (o v : Nat) : M α Unit := do wrObj o { (← rdObj o) with ht := v }

/-- One call to an allocator's `allocate`.  The n-th call of the program gets
the answer `oracle n`; null, or an address that is still live, counts as a
failure (so every behaviour of a correct allocator, including address reuse
after deallocation, is some oracle, and no oracle breaks the contract). -/
def allocCell (c : Cell α) : M α Nat := fun m =>
  let a := E.oracle m.log.reqs
  if a = 0 ∨ (m.cell (.heap a)).isSome then
    .throw .alloc { m with log := ⟨m.log.reqs + 1, m.log.fails + 1⟩ }
  else .ok a ({ m with log := { m.log with reqs := m.log.reqs + 1 } }.set (.heap a) c)

end Prim

end SegTree
