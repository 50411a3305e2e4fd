/-
  Relations between the memory before and after a program, whatever it does in
  between (`Traced P x`): `P.ok m m'` if it returns, `P.exc e m m'` if it throws.
  Used for counting: which programs copy elements, how often, and what becomes of
  a copy that throws.
-/
import Verif.Proof.Throws
set_option autoImplicit false

namespace SegTree
open Lean.Order
variable {α β γ : Type} {E : Env α}

/-- nothing was copied and the allocator was not asked -/
def Mem.calm (m m' : Mem α) : Prop := m'.ticks = m.ticks ∧ m'.log = m.log

/-- a relation for programs that return and one for programs that throw -/
structure Proto (α : Type) where
  ok : Mem α → Mem α → Prop
  exc : Exn → Mem α → Mem α → Prop
  frame : ∀ {m m'}, Mem.calm m m' → ok m m'
  trans : ∀ {m1 m2 m3}, ok m1 m2 → ok m2 m3 → ok m1 m3
  left : ∀ {e m1 m2 m3}, ok m1 m2 → exc e m2 m3 → exc e m1 m3
  right : ∀ {e m1 m2 m3}, exc e m1 m2 → Mem.calm m2 m3 → exc e m1 m3

/-- nothing is copied, the allocator is not asked, nothing is thrown -/
def Proto.calm (α : Type) : Proto α where
  ok := Mem.calm
  exc _ _ _ := False
  frame h := h
  trans h1 h2 := ⟨h2.1.trans h1.1, h2.2.trans h1.2⟩
  left _ h := h
  right h _ := h

variable {P : Proto α}

def Res.traced (P : Proto α) (m : Mem α) : Res α β → Prop
  | .ok _ m' => P.ok m m'
  | .throw e m' => P.exc e m m'
  | _ => True

/-- in every memory, the memory before and after `x` are related by `P` -/
class Traced (P : Proto α) (x : M α β) : Prop where
  run : ∀ m, (x m).traced P m

/-- what `P` says of a move of an element that throws -/
class AtMove (E : Env α) (P : Proto α) : Prop where
  exc : ∀ v m, E.throws v = true → P.exc .elem m m
/-- what `P` says of a copy of an element -/
class AtCopy (E : Env α) (P : Proto α) : Prop where
  ok : ∀ v m, E.trivCopy = false → E.cthrow m.ticks v = false → P.ok m m.tick
  exc : ∀ v m, E.trivCopy = false → E.cthrow m.ticks v = true → P.exc .elem m m.tick
/-- what `P` says of a request to the allocator -/
class AtAlloc (E : Env α) (P : Proto α) : Prop where
  ok : ∀ (m m' : Mem α), m'.ticks = m.ticks → m'.log = ⟨m.log.reqs + 1, m.log.fails⟩ → P.ok m m'
  exc : ∀ (m m' : Mem α), m'.ticks = m.ticks → m'.log = ⟨m.log.reqs + 1, m.log.fails + 1⟩ → P.exc .alloc m m'
/-- what `P` says of the bounds check -/
class AtRange (P : Proto α) : Prop where
  exc : ∀ m, P.exc .range m m

theorem Traced.returns {x : M α β} (h : Traced P x) {m : Mem α} {v : β} {m' : Mem α} (hx : x m = .ok v m') :
    P.ok m m' := by
  have := h.run m
  rwa [hx] at this
theorem Traced.throws {x : M α β} (h : Traced P x) {m : Mem α} {e : Exn} {m' : Mem α} (hx : x m = .throw e m') :
    P.exc e m m' := by
  have := h.run m
  rwa [hx] at this

namespace Traced

instance pure (v : β) : Traced P (Pure.pure v : M α β) := ⟨fun _ => P.frame ⟨rfl, rfl⟩⟩
instance ub (u : UB) : Traced P (M.ub u : M α β) := ⟨fun _ => trivial⟩

instance bind {x : M α β} {f : β → M α γ} [h : Traced P x] [hf : ∀ v, Traced P (f v)] : Traced P (x >>= f) := by
  refine ⟨fun m => ?_⟩
  have h1 := h.run m
  show Res.traced P m (M.bind x f m)
  unfold M.bind
  cases e : x m with
  | ok v m' =>
    rw [e] at h1
    have h2 := (hf v).run m'
    dsimp only
    cases e2 : f v m' with
    | ok w m2 => rw [e2] at h2; exact P.trans h1 h2
    | throw w m2 => rw [e2] at h2; exact P.left h1 h2
    | ub _ => trivial
    | div => trivial
  | throw v m' => rw [e] at h1; exact h1
  | ub _ => trivial
  | div => trivial

instance onThrow {x : M α β} {h : M α Unit} [hx : Traced P x] [hh : Traced (Proto.calm α) h] : Traced P (M.onThrow x h) := by
  refine ⟨fun m => ?_⟩
  have h1 := hx.run m
  unfold M.onThrow
  cases e : x m with
  | ok v m' => rw [e] at h1; exact h1
  | throw ex m' =>
    rw [e] at h1
    have h2 := hh.run m'
    dsimp only
    cases e2 : h m' with
    | ok v m2 => rw [e2] at h2; exact P.right h1 h2
    | throw v m2 => rw [e2] at h2; exact h2.elim
    | ub _ => trivial
    | div => trivial
  | ub _ => trivial
  | div => trivial

theorem admissible : Lean.Order.admissible (fun x : M α β => Traced P x) := by
  have : (fun x : M α β => Traced P x) = fun x => ∀ m, (x m).traced P m := by
    funext x; exact propext ⟨fun h => h.run, fun h => ⟨h⟩⟩
  rw [this]
  apply admissible_pi
  intro m
  exact admissible_apply (fun m (r : Res α β) => r.traced P m) m (admissible_flatOrder _ trivial)


instance ite {c : Prop} [Decidable c] {x y : M α β} [hx : Traced P x] [hy : Traced P y] :
    Traced P (if c then x else y) := by
  split
  · exact hx
  · exact hy

section
variable {ι1 ι2 ι3 ι4 ι5 ι6 : Type}
theorem adm1 : Lean.Order.admissible (fun f : ι1 → M α β => ∀ a, Traced P (f a)) :=
  admissible_pi _ fun a => admissible_apply (fun _ y => Traced P y) a admissible
theorem adm2 : Lean.Order.admissible (fun f : ι1 → ι2 → M α β => ∀ a1 a2, Traced P (f a1 a2)) :=
  admissible_pi _ fun a => admissible_apply (fun (_ : ι1) (f : ι2 → M α β) => ∀ a2, Traced P (f a2)) a adm1
theorem adm3 : Lean.Order.admissible (fun f : ι1 → ι2 → ι3 → M α β => ∀ a1 a2 a3, Traced P (f a1 a2 a3)) :=
  admissible_pi _ fun a => admissible_apply
    (fun (_ : ι1) (f : ι2 → ι3 → M α β) => ∀ a2 a3, Traced P (f a2 a3)) a adm2
theorem adm4 : Lean.Order.admissible (fun f : ι1 → ι2 → ι3 → ι4 → M α β => ∀ a1 a2 a3 a4, Traced P (f a1 a2 a3 a4)) :=
  admissible_pi _ fun a => admissible_apply
    (fun (_ : ι1) (f : ι2 → ι3 → ι4 → M α β) => ∀ a2 a3 a4, Traced P (f a2 a3 a4)) a adm3
theorem adm5 :
    Lean.Order.admissible (fun f : ι1 → ι2 → ι3 → ι4 → ι5 → M α β => ∀ a1 a2 a3 a4 a5, Traced P (f a1 a2 a3 a4 a5)) :=
  admissible_pi _ fun a => admissible_apply
    (fun (_ : ι1) (f : ι2 → ι3 → ι4 → ι5 → M α β) => ∀ a2 a3 a4 a5, Traced P (f a2 a3 a4 a5)) a adm4
theorem adm6 : Lean.Order.admissible
    (fun f : ι1 → ι2 → ι3 → ι4 → ι5 → ι6 → M α β => ∀ a1 a2 a3 a4 a5 a6, Traced P (f a1 a2 a3 a4 a5 a6)) :=
  admissible_pi _ fun a => admissible_apply
    (fun (_ : ι1) (f : ι2 → ι3 → ι4 → ι5 → ι6 → M α β) => ∀ a2 a3 a4 a5 a6, Traced P (f a2 a3 a4 a5 a6)) a adm5
end

instance forN (g : Nat → M α Unit) (n i : Nat) [hg : ∀ i, Traced P (g i)] : Traced P (SegTree.forN g n i) := by
  induction n generalizing i with
  | zero => exact pure _
  | succ n ih => exact bind (hf := fun _ => ih _)

instance usub (a b : Nat) : Traced P (SegTree.usub a b : M α Nat) := by
  unfold SegTree.usub; infer_instance

instance range_loop (step : Nat → Nat → M α Nat) (src last dst acc : Nat) [hs : ∀ i j, Traced P (step i j)] :
    Traced P (SegTree.range_loop step src last dst acc) := by
  revert src dst acc
  refine SegTree.range_loop.fixpoint_induct step last (fun f => ∀ src dst acc, Traced P (f src dst acc)) adm3 ?_
  intro f ih src dst acc
  dsimp only
  infer_instance

instance forward_loop (step : Nat → Nat → M α Unit) (first src dst : Nat) [hs : ∀ i j, Traced P (step i j)] :
    Traced P (SegTree.forward_loop step first src dst) := by
  revert src dst
  refine SegTree.forward_loop.fixpoint_induct step first (fun f => ∀ src dst, Traced P (f src dst)) adm2 ?_
  intro f ih src dst
  dsimp only
  infer_instance

instance backward_loop (step : Nat → Nat → M α Unit) (src dst last : Nat) [hs : ∀ i j, Traced P (step i j)] :
    Traced P (SegTree.backward_loop step src dst last) := by
  revert src dst
  refine SegTree.backward_loop.fixpoint_induct step last (fun f => ∀ src dst, Traced P (f src dst)) adm2 ?_
  intro f ih src dst
  dsimp only
  infer_instance

/-- a move of an element -/
instance moves (v : α) (x : M α β) [h : AtMove E P] [hx : Traced P x] :
    Traced P (if E.throws v = true then M.throw .elem else x) := by
  split
  · rename_i hv; exact ⟨fun m => h.exc v m hv⟩
  · exact hx

instance copyVal (v : α) [h : AtCopy E P] : Traced P (SegTree.copyVal E v) := by
  refine ⟨fun m => ?_⟩
  unfold SegTree.copyVal
  split
  · exact P.frame ⟨rfl, rfl⟩
  · rename_i h1
    split
    · rename_i h2; exact h.exc v m (by simpa using h1) h2
    · rename_i h2; exact h.ok v m (by simpa using h1) (by simpa using h2)

instance rangeCheck [h : AtRange P] : Traced P (M.throw .range : M α β) := ⟨fun m => h.exc m⟩

instance allocCell (c : Cell α) [h : AtAlloc E P] : Traced P (SegTree.allocCell E c) := by
  refine ⟨fun m => ?_⟩
  unfold SegTree.allocCell
  dsimp only
  split
  · exact h.exc _ _ rfl rfl
  · exact h.ok _ _ rfl rfl

set_option synthInstance.maxSize 2000
set_option synthInstance.maxHeartbeats 400000

macro "traced" : tactic => `(tactic| repeat' first
  | infer_instance
  | (intro _)
  | dsimp (failIfUnchanged := true) only
  | (refine @Traced.bind _ _ _ _ _ _ ?_ ?_)
  | (refine @Traced.moves _ _ _ _ _ _ ?_ ?_)
  | split)

end Traced
end SegTree
