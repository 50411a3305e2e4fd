/-
  Which exceptions a program can raise, in every memory (`Raises T x`: every
  exception that leaves `x` is one of `T`), and the four places where an
  exception starts: the allocator, a move of an element, a copy of an element,
  and the bounds check of `at`.
-/
import Verif.Model.Api
set_option autoImplicit false

namespace SegTree
open Lean.Order
variable {α β γ : Type} {E : Env α} {T : Exn → Prop}

/-- an exception that leaves the program is one of `T` -/
def Res.raises (T : Exn → Prop) : Res α β → Prop
  | .throw e _ => T e
  | _ => True

/-- in every memory, an exception that leaves `x` is one of `T` -/
class Raises (T : Exn → Prop) (x : M α β) : Prop where
  run : ∀ m, (x m).raises T

/-- moves of elements may raise -/
class OnMove (E : Env α) (T : Exn → Prop) : Prop where
  out : ∀ v, E.throws v = true → T .elem
/-- copies of elements may raise -/
class OnCopy (E : Env α) (T : Exn → Prop) : Prop where
  out : ∀ n v, (!E.trivCopy && E.cthrow n v) = true → T .elem
/-- the allocator may raise -/
class OnAlloc (T : Exn → Prop) : Prop where
  out : T .alloc
/-- the bounds check may raise -/
class OnRange (T : Exn → Prop) : Prop where
  out : T .range

theorem Raises.throws {x : M α β} (h : Raises T x) {m : Mem α} {e : Exn} {m' : Mem α} (hx : x m = .throw e m') :
    T e := by
  have := h.run m
  rwa [hx] at this

namespace Raises

instance pure (v : β) : Raises T (Pure.pure v : M α β) := ⟨fun _ => trivial⟩
instance ub (u : UB) : Raises T (M.ub u : M α β) := ⟨fun _ => trivial⟩

instance ite {c : Prop} [Decidable c] {x y : M α β} [hx : Raises T x] [hy : Raises T y] :
    Raises T (if c then x else y) := by
  split
  · exact hx
  · exact hy

instance bind {x : M α β} {f : β → M α γ} [h : Raises T x] [hf : ∀ v, Raises T (f v)] : Raises T (x >>= f) := by
  refine ⟨fun m => ?_⟩
  have h1 := h.run m
  show Res.raises T (M.bind x f m)
  unfold M.bind
  cases e : x m with
  | ok v m' => exact (hf v).run m'
  | throw v m' => rw [e] at h1; exact h1
  | ub _ => trivial
  | div => trivial

instance onThrow {x : M α β} {h : M α Unit} [hx : Raises T x] [hh : Raises T h] : Raises T (M.onThrow x h) := by
  refine ⟨fun m => ?_⟩
  have h1 := hx.run m
  unfold M.onThrow
  cases e : x m with
  | ok v m' => trivial
  | throw ex m' =>
    rw [e] at h1
    have h2 := hh.run m'
    simp only
    cases e2 : h m' with
    | ok v m2 => exact h1
    | throw v m2 => rw [e2] at h2; exact h2
    | ub _ => trivial
    | div => trivial
  | ub _ => trivial
  | div => trivial

theorem admissible : Lean.Order.admissible (fun x : M α β => Raises T x) := by
  have : (fun x : M α β => Raises T x) = fun x => ∀ m, (x m).raises T := by
    funext x; exact propext ⟨fun h => h.run, fun h => ⟨h⟩⟩
  rw [this]
  apply admissible_pi
  intro m
  exact admissible_apply (fun _ (r : Res α β) => r.raises T) m (admissible_flatOrder _ trivial)

section
variable {ι1 ι2 ι3 ι4 ι5 ι6 : Type}
theorem adm1 : Lean.Order.admissible (fun f : ι1 → M α β => ∀ a, Raises T (f a)) :=
  admissible_pi _ fun a => admissible_apply (fun _ y => Raises T y) a admissible
theorem adm2 : Lean.Order.admissible (fun f : ι1 → ι2 → M α β => ∀ a1 a2, Raises T (f a1 a2)) :=
  admissible_pi _ fun a => admissible_apply (fun (_ : ι1) (f : ι2 → M α β) => ∀ a2, Raises T (f a2)) a adm1
theorem adm3 : Lean.Order.admissible (fun f : ι1 → ι2 → ι3 → M α β => ∀ a1 a2 a3, Raises T (f a1 a2 a3)) :=
  admissible_pi _ fun a => admissible_apply
    (fun (_ : ι1) (f : ι2 → ι3 → M α β) => ∀ a2 a3, Raises T (f a2 a3)) a adm2
theorem adm4 : Lean.Order.admissible (fun f : ι1 → ι2 → ι3 → ι4 → M α β => ∀ a1 a2 a3 a4, Raises T (f a1 a2 a3 a4)) :=
  admissible_pi _ fun a => admissible_apply
    (fun (_ : ι1) (f : ι2 → ι3 → ι4 → M α β) => ∀ a2 a3 a4, Raises T (f a2 a3 a4)) a adm3
theorem adm5 :
    Lean.Order.admissible (fun f : ι1 → ι2 → ι3 → ι4 → ι5 → M α β => ∀ a1 a2 a3 a4 a5, Raises T (f a1 a2 a3 a4 a5)) :=
  admissible_pi _ fun a => admissible_apply
    (fun (_ : ι1) (f : ι2 → ι3 → ι4 → ι5 → M α β) => ∀ a2 a3 a4 a5, Raises T (f a2 a3 a4 a5)) a adm4
theorem adm6 : Lean.Order.admissible
    (fun f : ι1 → ι2 → ι3 → ι4 → ι5 → ι6 → M α β => ∀ a1 a2 a3 a4 a5 a6, Raises T (f a1 a2 a3 a4 a5 a6)) :=
  admissible_pi _ fun a => admissible_apply
    (fun (_ : ι1) (f : ι2 → ι3 → ι4 → ι5 → ι6 → M α β) => ∀ a2 a3 a4 a5 a6, Raises T (f a2 a3 a4 a5 a6)) a adm5
end

instance forN (g : Nat → M α Unit) (n i : Nat) [hg : ∀ i, Raises T (g i)] : Raises T (SegTree.forN g n i) := by
  induction n generalizing i with
  | zero => exact pure _
  | succ n ih => exact bind (hf := fun _ => ih _)

instance usub (a b : Nat) : Raises T (SegTree.usub a b : M α Nat) := by
  unfold SegTree.usub; infer_instance

instance range_loop (step : Nat → Nat → M α Nat) (src last dst acc : Nat) [hs : ∀ i j, Raises T (step i j)] :
    Raises T (SegTree.range_loop step src last dst acc) := by
  revert src dst acc
  refine SegTree.range_loop.fixpoint_induct step last (fun f => ∀ src dst acc, Raises T (f src dst acc)) adm3 ?_
  intro f ih src dst acc
  dsimp only
  infer_instance

instance forward_loop (step : Nat → Nat → M α Unit) (first src dst : Nat) [hs : ∀ i j, Raises T (step i j)] :
    Raises T (SegTree.forward_loop step first src dst) := by
  revert src dst
  refine SegTree.forward_loop.fixpoint_induct step first (fun f => ∀ src dst, Raises T (f src dst)) adm2 ?_
  intro f ih src dst
  dsimp only
  infer_instance

instance backward_loop (step : Nat → Nat → M α Unit) (src dst last : Nat) [hs : ∀ i j, Raises T (step i j)] :
    Raises T (SegTree.backward_loop step src dst last) := by
  revert src dst
  refine SegTree.backward_loop.fixpoint_induct step last (fun f => ∀ src dst, Raises T (f src dst)) adm2 ?_
  intro f ih src dst
  dsimp only
  infer_instance

/-- a move of an element: the exception starts here -/
instance moves (v : α) (x : M α β) [h : OnMove E T] [hx : Raises T x] :
    Raises T (if E.throws v = true then M.throw .elem else x) := by
  split
  · rename_i hv; exact ⟨fun _ => h.out v hv⟩
  · exact hx

instance copyVal (v : α) [h : OnCopy E T] : Raises T (SegTree.copyVal E v) := by
  refine ⟨fun m => ?_⟩
  unfold SegTree.copyVal
  split
  · trivial
  · split
    · rename_i h1 h2; exact h.out m.ticks v (by simp [h1, h2])
    · trivial

instance rangeCheck [h : OnRange T] : Raises T (M.throw .range : M α β) := ⟨fun _ => h.out⟩

instance allocCell (c : Cell α) [h : OnAlloc T] : Raises T (SegTree.allocCell E c) := by
  refine ⟨fun m => ?_⟩
  unfold SegTree.allocCell
  dsimp only
  split
  · exact h.out
  · trivial

set_option synthInstance.maxSize 2000
set_option synthInstance.maxHeartbeats 400000

macro "raises" : tactic => `(tactic| repeat' first
  | infer_instance
  | (intro _)
  | dsimp (failIfUnchanged := true) only
  | (refine @Raises.bind _ _ _ _ _ _ ?_ ?_)
  | (refine @Raises.moves _ _ _ _ _ _ ?_ ?_)
  | split)

end Raises
end SegTree
