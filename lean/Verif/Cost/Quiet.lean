/-
  Programs that make no counted access at all (`Quiet`), in every memory.  With
  the weights `writes` these are the programs that write nothing; with the
  weights `elements`, the programs that touch no element.
-/
import Verif.Cost.Sim
set_option autoImplicit false

namespace SegTree
open Lean.Order
variable {α β γ : Type} {E : Env α} {ro : Bool}

/-- the count is zero and, if `ro`, the memory is that at the start -/
def CRes.quiet (ro : Bool) (m : Mem α) : CRes α β → Prop
  | .ok _ m' n => n = 0 ∧ (ro = true → m' = m)
  | .throw _ m' n => n = 0 ∧ (ro = true → m' = m)
  | _ => True

/-- a program that makes no counted access and, if `ro`, leaves the memory as it was -/
class Quiet (ro : Bool) (x : C α β) : Prop where
  run : ∀ m, (x m).quiet ro m

namespace Quiet

instance pure (v : β) : Quiet ro (Pure.pure v : C α β) := ⟨fun _ => ⟨rfl, fun _ => rfl⟩⟩
instance ub (u : UB) : Quiet ro (C.ub u : C α β) := ⟨fun _ => trivial⟩
instance thr (e : Exn) : Quiet ro (C.throw e : C α β) := ⟨fun _ => ⟨rfl, fun _ => rfl⟩⟩
theorem tick0 {n : Nat} (h : n = 0) : Quiet ro (C.tick n : C α Unit) := ⟨fun _ => ⟨h, fun _ => rfl⟩⟩

theorem lift0 {c : Nat} {x : M α β} (hc : c = 0)
    (h : ro = true → ∀ m, (∀ v m', x m = .ok v m' → m' = m) ∧ ∀ e m', x m = .throw e m' → m' = m) :
    Quiet ro (C.lift c x) := by
  refine ⟨fun m => ?_⟩
  unfold C.lift
  cases e : x m with
  | ok v m' => exact ⟨hc, fun hr => (h hr m).1 _ _ e⟩
  | throw ex m' => exact ⟨hc, fun hr => (h hr m).2 _ _ e⟩
  | ub _ => trivial
  | div => trivial

instance ite {c : Prop} [Decidable c] {x y : C α β} [hx : Quiet ro x] [hy : Quiet ro y] :
    Quiet ro (if c then x else y) := by
  split
  · exact hx
  · exact hy

instance bind {x : C α β} {f : β → C α γ} [h : Quiet ro x] [hf : ∀ v, Quiet ro (f v)] : Quiet ro (x >>= f) := by
  refine ⟨fun m => ?_⟩
  have h1 := h.run m
  show CRes.quiet ro m (C.bind x f m)
  unfold C.bind
  cases e : x m with
  | ok v m' n =>
    rw [e] at h1
    have h2 := (hf v).run m'
    obtain ⟨rfl, h1⟩ := h1
    simp only
    cases e2 : f v m' with
    | ok w m2 k => rw [e2] at h2; exact ⟨by rw [h2.1], fun hr => (h2.2 hr).trans (h1 hr)⟩
    | throw w m2 k => rw [e2] at h2; exact ⟨by rw [h2.1], fun hr => (h2.2 hr).trans (h1 hr)⟩
    | ub _ => trivial
    | div => trivial
  | throw v m' n => rw [e] at h1; exact h1
  | ub _ => trivial
  | div => trivial

instance onThrow {x : C α β} {h : C α Unit} [hx : Quiet ro x] [hh : Quiet ro h] : Quiet ro (C.onThrow x h) := by
  refine ⟨fun m => ?_⟩
  have h1 := hx.run m
  unfold C.onThrow
  cases e : x m with
  | ok v m' n => rw [e] at h1; exact h1
  | throw ex m' n =>
    rw [e] at h1
    have h2 := hh.run m'
    obtain ⟨rfl, h1⟩ := h1
    simp only
    cases e2 : h m' with
    | ok v m2 k => rw [e2] at h2; exact ⟨by rw [h2.1], fun hr => (h2.2 hr).trans (h1 hr)⟩
    | throw v m2 k => rw [e2] at h2; exact ⟨by rw [h2.1], fun hr => (h2.2 hr).trans (h1 hr)⟩
    | ub _ => trivial
    | div => trivial
  | ub _ => trivial
  | div => trivial

theorem admissible : Lean.Order.admissible (fun x : C α β => Quiet ro x) := by
  have : (fun x : C α β => Quiet ro x) = fun x => ∀ m, (x m).quiet ro m := by
    funext x; exact propext ⟨fun h => h.run, fun h => ⟨h⟩⟩
  rw [this]
  apply admissible_pi
  intro m
  exact admissible_apply (fun m (r : CRes α β) => r.quiet ro m) m (admissible_flatOrder _ trivial)

section
variable {ι1 ι2 ι3 ι4 ι5 ι6 ι7 : Type}
theorem adm1 : Lean.Order.admissible (fun f : ι1 → C α β => ∀ a, Quiet ro (f a)) :=
  admissible_pi _ fun a => admissible_apply (fun _ y => Quiet ro y) a admissible
theorem adm2 : Lean.Order.admissible (fun f : ι1 → ι2 → C α β => ∀ a1 a2, Quiet ro (f a1 a2)) :=
  admissible_pi _ fun a => admissible_apply (fun (_ : ι1) (f : ι2 → C α β) => ∀ a2, Quiet ro (f a2)) a adm1
theorem adm3 : Lean.Order.admissible (fun f : ι1 → ι2 → ι3 → C α β => ∀ a1 a2 a3, Quiet ro (f a1 a2 a3)) :=
  admissible_pi _ fun a => admissible_apply
    (fun (_ : ι1) (f : ι2 → ι3 → C α β) => ∀ a2 a3, Quiet ro (f a2 a3)) a adm2
theorem adm4 : Lean.Order.admissible (fun f : ι1 → ι2 → ι3 → ι4 → C α β => ∀ a1 a2 a3 a4, Quiet ro (f a1 a2 a3 a4)) :=
  admissible_pi _ fun a => admissible_apply
    (fun (_ : ι1) (f : ι2 → ι3 → ι4 → C α β) => ∀ a2 a3 a4, Quiet ro (f a2 a3 a4)) a adm3
theorem adm5 :
    Lean.Order.admissible (fun f : ι1 → ι2 → ι3 → ι4 → ι5 → C α β => ∀ a1 a2 a3 a4 a5, Quiet ro (f a1 a2 a3 a4 a5)) :=
  admissible_pi _ fun a => admissible_apply
    (fun (_ : ι1) (f : ι2 → ι3 → ι4 → ι5 → C α β) => ∀ a2 a3 a4 a5, Quiet ro (f a2 a3 a4 a5)) a adm4
theorem adm6 : Lean.Order.admissible
    (fun f : ι1 → ι2 → ι3 → ι4 → ι5 → ι6 → C α β => ∀ a1 a2 a3 a4 a5 a6, Quiet ro (f a1 a2 a3 a4 a5 a6)) :=
  admissible_pi _ fun a => admissible_apply
    (fun (_ : ι1) (f : ι2 → ι3 → ι4 → ι5 → ι6 → C α β) => ∀ a2 a3 a4 a5 a6, Quiet ro (f a2 a3 a4 a5 a6)) a adm5
end

section
variable [Weights]
theorem forN {g : Nat → C α Unit} (hg : ∀ i, Quiet ro (g i)) (n i : Nat) : Quiet ro (Cost.forN g n i) := by
  induction n generalizing i with
  | zero => exact pure _
  | succ n ih => exact bind (hf := fun _ => ih _)

instance range_loop (step : Nat → Nat → C α Nat) (src last dst acc : Nat) [hs : ∀ i j, Quiet ro (step i j)] :
    Quiet ro (Cost.range_loop step src last dst acc) := by
  revert src dst acc
  refine Cost.range_loop.fixpoint_induct step last (fun f => ∀ src dst acc, Quiet ro (f src dst acc)) adm3 ?_
  intro f ih src dst acc
  dsimp only
  infer_instance

instance forward_loop (step : Nat → Nat → C α Unit) (first src dst : Nat) [hs : ∀ i j, Quiet ro (step i j)] 
    [∀ a b : Nat, Quiet ro (Cost.usub a b : C α Nat)] :
    Quiet ro (Cost.forward_loop step first src dst) := by
  revert src dst
  refine Cost.forward_loop.fixpoint_induct step first (fun f => ∀ src dst, Quiet ro (f src dst)) adm2 ?_
  intro f ih src dst
  dsimp only
  infer_instance

instance backward_loop (step : Nat → Nat → C α Unit) (src dst last : Nat) [hs : ∀ i j, Quiet ro (step i j)] :
    Quiet ro (Cost.backward_loop step src dst last) := by
  revert src dst
  refine Cost.backward_loop.fixpoint_induct step last (fun f => ∀ src dst, Quiet ro (f src dst)) adm2 ?_
  intro f ih src dst
  dsimp only
  infer_instance

instance usub (a b : Nat) : Quiet ro (Cost.usub a b : C α Nat) := by
  refine lift0 rfl fun _ m => ?_
  by_cases h : b ≤ a
  · rw [show (SegTree.usub a b : M α Nat) = Pure.pure (a - b) from if_pos h]
    constructor
    · intro v m' h; cases h; rfl
    · intro e m' h; cases h
  · rw [show (SegTree.usub a b : M α Nat) = M.ub .wrap from if_neg h]
    constructor
    · intro v m' h; cases h
    · intro e m' h; cases h
end

set_option synthInstance.maxSize 2000
set_option synthInstance.maxHeartbeats 400000

macro "quiet" : tactic => `(tactic| repeat' first
  | infer_instance
  | (intro _)
  | dsimp (failIfUnchanged := true) only
  | (refine @Quiet.bind _ _ _ _ _ _ ?_ ?_)
  | split)

end Quiet
end SegTree
