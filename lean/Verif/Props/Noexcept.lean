/-
  C66: where exceptions come from.  Nothing is assumed here about the memory
  (it need not be reachable), about the element type (its moves may throw) or
  about the configuration: what is claimed holds for the program text itself.
-/
import Verif.Props.Spec
import Verif.Props.Defects
import Verif.Proof.Raises
set_option autoImplicit false
set_option linter.unusedVariables false
set_option synthInstance.maxSize 2000
set_option synthInstance.maxHeartbeats 400000

namespace SegTree
variable {α β : Type} {E : Env α} {o p : Nat}

/-! ### Specification -/

/-- no exception leaves the call, whatever the memory is -/
def Never (x : M α β) : Prop := ∀ m e m', x m ≠ .throw e m'

/-- whatever the memory is, an exception that leaves the call is one of `T` -/
def Only (T : Exn → Prop) (x : M α β) : Prop := ∀ m e m', x m = .throw e m' → T e

/-- moving `v` throws -/
def MoveThrows (E : Env α) (v : α) : Prop := E.trivCopy = false ∧ E.mthrow v = true

/-- The places an exception can start: an allocation, a move of an element, a
copy of an element, a bounds check. -/
inductive Source where
  | alloc | move | copy | range

/-- what a source throws, and what it takes for it to throw at all -/
def Source.Cause (E : Env α) : Source → Exn → Prop
  | .alloc, e => e = .alloc
  | .move, e => e = .elem ∧ ∃ v, MoveThrows E v
  | .copy, e => e = .elem ∧ ∃ v, CopyThrows E v
  | .range, e => e = .range

/-- what can throw in a call on one container -/
def Un.may : Un α → List Source
  | .at_ _ => [.range]
  | .size | .empty | .getAlloc | .index _ | .front | .back | .nth _ | .begin_ | .end_ | .penultimate | .clear
  | .selfSwap => []
  | .set _ _ | .setIt _ _ => [.copy]
  | .setRv _ _ | .erase _ | .eraseRange _ _ | .popBack | .popFront | .removeIf _ | .remove _ _ | .unique _ | .reverse
  | .sort _ => [.move]
  | .insertRv _ _ | .pushBackRv _ | .pushFrontRv _ | .selfMove => [.alloc, .move]
  | .insert _ _ | .insertSelf _ _ | .insertFill _ _ _ | .insertList _ _ | .pushBack _ | .pushFront _ | .resize _ _
  | .assignFill _ _ | .assignList _ | .selfAssign => [.alloc, .move, .copy]

/-- what can throw in a call on two containers -/
def Bin.may : Bin α → List Source
  | .swap | .eq _ | .ne _ | .lt _ | .le _ | .gt _ | .ge _ => []
  | .assignMove | .splice _ | .spliceRange _ _ _ | .merge _ => [.alloc, .move]
  | .assignCopy | .spliceOne _ _ | .insertRange _ _ _ | .assignRange _ _ => [.alloc, .move, .copy]

/-- what can throw in a constructor -/
def New.may : New α → List Source
  | .empty _ => []
  | .fill _ _ _ | .list _ _ => [.alloc, .move, .copy]

/-- what can throw in a constructor from another container -/
def New2.may : New2 → List Source
  | .move => []
  | .moveAlloc _ => [.alloc, .move]
  | .copy | .copyAlloc _ | .range _ _ _ => [.alloc, .move, .copy]

/-- what can throw in a call -/
def Op.may : Op α → List Source
  | .un _ c => c.may
  | .bin _ _ c => c.may
  | .new _ c => c.may
  | .new2 _ _ c => c.may
  | .dtor _ => []

/-! ### Proofs -/

/-- `s` is in the list -/
class Has (s : Source) (l : List Source) : Prop where
  out : s ∈ l
instance {s : Source} {l : List Source} : Has s (s :: l) := ⟨List.mem_cons_self⟩
instance {s t : Source} {l : List Source} [h : Has s l] : Has s (t :: l) := ⟨List.mem_cons_of_mem _ h.out⟩

/-- one of the sources of the list is the cause of `e` -/
def Caused (E : Env α) (l : List Source) (e : Exn) : Prop := ∃ s ∈ l, s.Cause E e

theorem moveThrows_iff (v : α) : E.throws v = true ↔ MoveThrows E v := by
  unfold Env.throws MoveThrows; simp
theorem copyThrows_of {n : Nat} {v : α} (h : (!E.trivCopy && E.cthrow n v) = true) : CopyThrows E v := by
  simp only [Bool.and_eq_true, Bool.not_eq_true'] at h
  exact ⟨h.1, n, h.2⟩

section
variable {l : List Source}
instance [h : Has .alloc l] : OnAlloc (Caused E l) := ⟨⟨_, h.out, rfl⟩⟩
instance [h : Has .range l] : OnRange (Caused E l) := ⟨⟨_, h.out, rfl⟩⟩
instance [h : Has .move l] : OnMove E (Caused E l) :=
  ⟨fun v hv => ⟨_, h.out, rfl, v, (moveThrows_iff v).1 hv⟩⟩
instance [h : Has .copy l] : OnCopy E (Caused E l) :=
  ⟨fun n v hv => ⟨_, h.out, rfl, v, copyThrows_of hv⟩⟩
end

namespace Raises
variable {T : Exn → Prop}
open Un in
instance un_unit (x : M α β) [Raises T x] : Raises T (Un.unit x) := by unfold Un.unit; infer_instance
instance un_pos (x : M α Iter) [Raises T x] : Raises T (Un.pos x) := by unfold Un.pos; infer_instance
instance un_val (x : M α α) [Raises T x] : Raises T (Un.val x) := by unfold Un.val; infer_instance
instance un_num (x : M α Nat) [Raises T x] : Raises T (Un.num x) := by unfold Un.num; infer_instance
instance un_flag (x : M α Bool) [Raises T x] : Raises T (Un.flag x) := by unfold Un.flag; infer_instance

instance read_range (first last : Iter) : Raises T (SegTree.read_range E first last) := by
  revert first
  refine SegTree.read_range.fixpoint_induct E last (fun f => ∀ first, Raises T (f first)) adm1 ?_
  intro f ih first
  raises
instance write_range (first : Iter) (l : List α) : Raises T (SegTree.write_range E first l) := by
  induction l generalizing first with
  | nil => unfold SegTree.write_range; infer_instance
  | cons v l ih => unfold SegTree.write_range; infer_instance
instance std_inplace_merge (comp : α → α → Bool) (a b c : Iter) : Raises T (SegTree.std_inplace_merge E comp a b c) := by
  unfold SegTree.std_inplace_merge; infer_instance
instance std_stable_sort (comp : α → α → Bool) (a b : Iter) : Raises T (SegTree.std_stable_sort E comp a b) := by
  unfold SegTree.std_stable_sort; infer_instance
instance merge (comp : α → α → Bool) [OnAlloc T] [OnMove E T] : Raises T (SegTree.merge E o p comp) := by
  unfold SegTree.merge; infer_instance
instance sort (comp : α → α → Bool) : Raises T (SegTree.sort E o comp) := by
  unfold SegTree.sort; infer_instance
end Raises

theorem Only.of {T : Exn → Prop} (x : M α β) [h : Raises T x] : Only T x := fun _ _ _ hx => h.throws hx

theorem Never.of (x : M α β) [h : Raises (fun _ => False) x] : Never x := fun _ _ _ hx => h.throws hx

/-! ### C66 -/

/-- C66: for every call of the interface, in every memory and with every
element type, an exception that leaves the call was started by one of the
sources listed for that call -/
theorem C66_sources (c : Op α) {m m' : Mem α} {e : Exn} (h : c.run E m = .throw e m') :
    ∃ s ∈ c.may, s.Cause E e := by
  suffices Raises (Caused E c.may) (c.run E) from this.throws h
  cases c with
  | un o c => cases c <;> (simp only [Op.may, Op.run, Un.may, Un.run]; infer_instance)
  | bin o p c => cases c <;> (simp only [Op.may, Op.run, Bin.may, Bin.run]; infer_instance)
  | new o c => cases c <;> (simp only [Op.may, Op.run, New.may, New.run]; infer_instance)
  | new2 o p c => cases c <;> (simp only [Op.may, Op.run, New2.may, New2.run]; infer_instance)
  | dtor o => simp only [Op.may, Op.run]; infer_instance

/-- C66: the functions declared `noexcept`, and the ones that only read, never
throw -/
theorem C66_noexcept :
    Never (begin_ E o) ∧ Never (end_ E o) ∧ Never (penultimate E o) ∧ (∀ i, Never (nth E o i)) ∧
    Never (empty (α := α) o) ∧ Never (size (α := α) o) ∧ Never (height (α := α) o) ∧ Never (get_allocator (α := α) o) ∧
    Never (clear E o) ∧ Never (dtor E o) ∧ Never (swap E o p) ∧
    (∀ al, Never (ctor (α := α) o al)) ∧ Never (ctor_move (α := α) o p) :=
  ⟨.of _, .of _, .of _, fun _ => .of _, .of _, .of _, .of _, .of _, .of _, .of _, .of _, fun _ => .of _, .of _⟩

/-- C66: iterators, element access and comparisons never throw -/
theorem C66_readers (it : Iter) (f : α → α → Bool) :
    Never (dereference E it) ∧ Never (move_next_iterator E it) ∧ Never (move_prev_iterator E it) ∧
    (∀ d, Never (it_add E it d)) ∧ (∀ d, Never (it_sub E it d)) ∧ (∀ d, Never (it_index E it d)) ∧
    (∀ i, Never (index_op E o i)) ∧ Never (front E o) ∧ Never (back E o) ∧
    Never (op_eq E f o p) ∧ Never (op_ne E f o p) ∧ Never (op_lt E f o p) ∧ Never (op_le E f o p) ∧
    Never (op_gt E f o p) ∧ Never (op_ge E f o p) :=
  ⟨.of _, .of _, .of _, fun _ => .of _, fun _ => .of _, fun _ => .of _, fun _ => .of _, .of _, .of _, .of _, .of _, .of _,
    .of _, .of _, .of _⟩

/-- C66: move assignment never throws if the allocator propagates on move
assignment -/
theorem C66_move_pocma (h : E.pocma = true) : Never (assign_move E o p) := by
  unfold assign_move move_assign
  simp only [h, if_true]
  exact .of _

/-- C66: nor if the two allocators compare equal -/
theorem C66_move_equal {m : Mem α} {s t : SeqObj} (hs : m.cell (.obj o) = some (.obj s))
    (ht : m.cell (.obj p) = some (.obj t)) (ha : E.acls s.ealloc = E.acls t.ealloc) (e : Exn) (m' : Mem α) :
    assign_move E o p m ≠ .throw e m' := by
  intro h
  have hst : Never (move_assign_steal E o p) := .of _
  unfold assign_move move_assign at h
  split at h
  · exact hst _ _ _ h
  · simp only [Bind.bind, M.bind, rdObj, hs, ht] at h
    rw [if_neg (fun h => h ha)] at h
    exact hst _ _ _ h

/-- C66: erasing needs no memory and throws only if moving an element throws -/
theorem C66_erase (it jt : Iter) :
    Only (fun e => e = .elem ∧ ∃ v, MoveThrows E v) (erase E o it) ∧
    Only (fun e => e = .elem ∧ ∃ v, MoveThrows E v) (erase_rng E o it jt) := by
  have : OnMove E (fun e => e = .elem ∧ ∃ v, MoveThrows E v) := ⟨fun v hv => ⟨rfl, v, (moveThrows_iff v).1 hv⟩⟩
  exact ⟨.of _, .of _⟩

/-- C66: inserting an rvalue never copies an element -/
theorem C66_insert_rv (it : Iter) (v : α) :
    Only (fun e => e = .alloc ∨ e = .elem ∧ ∃ w, MoveThrows E w) (insert_rv E o it v) := by
  have : OnMove E (fun e => e = .alloc ∨ e = .elem ∧ ∃ w, MoveThrows E w) :=
    ⟨fun v hv => .inr ⟨rfl, v, (moveThrows_iff v).1 hv⟩⟩
  have : OnAlloc (fun e => e = .alloc ∨ e = .elem ∧ ∃ w, MoveThrows E w) := ⟨.inl rfl⟩
  exact .of _

/-! ### The hypotheses are met -/

/-- every source occurs: the bounds check of `at` on an empty container -/
example : (Op.un 0 (.at_ 0) : Op Nat).run rough empty0 = .throw .range empty0 := by
  rfl

/-- a move that throws during `erase` -/
example : ∃ m it m', Reach rough m ∧ nth rough 0 0 m = .ok it m ∧ erase rough 0 it m = .throw .elem m' :=
  let ⟨m, m', it, h1, _, h3, h4, _⟩ := C44_erase_not_strong
  ⟨m, it, m', h1, h3, h4⟩

/-- two containers with equal allocators -/
example : ∃ (m : Mem Nat) (s t : SeqObj), m.cell (.obj 0) = some (.obj s) ∧ m.cell (.obj 1) = some (.obj t) ∧
    rough.acls s.ealloc = rough.acls t.ealloc :=
  ⟨(empty0.set (.obj 1) (.obj ⟨0, 0, 0, 0, 0⟩)), ⟨0, 0, 0, 0, 0⟩, ⟨0, 0, 0, 0, 0⟩, rfl, rfl, rfl⟩

/-- and an allocation that fails -/
example : (Op.un 0 (.pushBackRv 5) : Op Nat).run { rough with oracle := fun _ => 0 } empty0 =
    .throw .alloc { (empty0 : Mem Nat) with log := ⟨1, 1⟩ } := by
  rfl

end SegTree
