/-
  GENERATED by tools/gen_cost.py: the counting copy of every function erases to
  the model's function.
-/
import Verif.Cost.Model
set_option autoImplicit false

namespace SegTree
open Lean.Order

variable {α β γ : Type} [Weights] {E : Env α}

theorem CRes.erase_add (n : Nat) (r : CRes α β) : (r.add n).erase = r.erase := by
  cases r <;> rfl

/-- counting version of an input range -/
class SimSrc {σ : Type} (S : SegTree.Src α σ) (T : Cost.Src α σ) : Prop where
  done : ∀ x, T.done x = S.done x
  read : ∀ x, Sim (S.read x) (T.read x)
  next : ∀ x, Sim (S.next x) (T.next x)

namespace Sim

instance pure (v : β) : Sim (Pure.pure v : M α β) (Pure.pure v : C α β) := ⟨fun _ => .inr rfl⟩
instance ub (k : UB) : Sim (M.ub k : M α β) (C.ub k : C α β) := ⟨fun _ => .inr rfl⟩
instance thr (e : Exn) : Sim (M.throw e : M α β) (C.throw e : C α β) := ⟨fun _ => .inr rfl⟩
theorem lift (c : Nat) (x : M α β) : Sim x (C.lift c x) := by
  refine ⟨fun m => .inr ?_⟩
  unfold C.lift
  cases x m <;> rfl
instance ite {c : Prop} [Decidable c] {x y : M α β} {x' y' : C α β} [Sim x x'] [Sim y y'] :
    Sim (if c then x else y) (if c then x' else y') := by
  split <;> assumption

instance bind {x : M α β} {f : β → M α γ} {y : C α β} {g : β → C α γ} [h : Sim x y] [hf : ∀ v, Sim (f v) (g v)] :
    Sim (x >>= f) (y >>= g) := by
  refine ⟨fun m => ?_⟩
  show M.bind x f m = _ ∨ (C.bind y g m).erase = M.bind x f m
  unfold M.bind C.bind
  rcases h.run m with hm | hm
  · left; rw [hm]
  · cases hy : y m with
    | ok v m1 n =>
      rw [hy] at hm
      simp only [CRes.erase] at hm
      rw [← hm]
      simp only [CRes.erase_add]
      exact (hf v).run m1
    | throw e m1 n => rw [hy] at hm; simp only [CRes.erase] at hm; rw [← hm]; exact .inr rfl
    | ub k => rw [hy] at hm; simp only [CRes.erase] at hm; rw [← hm]; exact .inr rfl
    | div => rw [hy] at hm; simp only [CRes.erase] at hm; rw [← hm]; exact .inl rfl

theorem tickBind {x : M α γ} {g : Unit → C α γ} (n : Nat) [h : Sim x (g ())] : Sim x (C.tick n >>= g) := by
  refine ⟨fun m => ?_⟩
  show _ ∨ (C.bind (C.tick n) g m).erase = _
  simp only [C.bind, C.tick, CRes.erase_add]
  exact h.run m

instance onThrow {x : M α β} {h : M α Unit} {x' : C α β} {h' : C α Unit} [hx : Sim x x'] [hh : Sim h h'] :
    Sim (M.onThrow x h) (C.onThrow x' h') := by
  refine ⟨fun m => ?_⟩
  unfold M.onThrow C.onThrow
  rcases hx.run m with hm | hm
  · left; rw [hm]
  · cases hy : x' m with
    | ok v m1 n => rw [hy] at hm; simp only [CRes.erase] at hm; rw [← hm]; exact .inr rfl
    | throw e m1 n =>
      rw [hy] at hm; simp only [CRes.erase] at hm; rw [← hm]
      simp only
      rcases hh.run m1 with hk | hk
      · left; rw [hk]
      · cases hz : h' m1 with
        | ok v m2 k => rw [hz] at hk; simp only [CRes.erase] at hk; rw [← hk]; exact .inr rfl
        | throw e2 m2 k => rw [hz] at hk; simp only [CRes.erase] at hk; rw [← hk]; exact .inr rfl
        | ub k => rw [hz] at hk; simp only [CRes.erase] at hk; rw [← hk]; exact .inr rfl
        | div => rw [hz] at hk; simp only [CRes.erase] at hk; rw [← hk]; exact .inl rfl
    | ub k => rw [hy] at hm; simp only [CRes.erase] at hm; rw [← hm]; exact .inr rfl
    | div => rw [hy] at hm; simp only [CRes.erase] at hm; rw [← hm]; exact .inl rfl

theorem admissible (y : C α β) : Lean.Order.admissible (fun x : M α β => Sim x y) := by
  have : (fun x : M α β => Sim x y) = fun x => ∀ m, x m = .div ∨ (y m).erase = x m := by
    funext x; exact propext ⟨fun h => h.run, fun h => ⟨h⟩⟩
  rw [this]
  apply admissible_pi
  intro m
  exact admissible_apply (fun m r => r = .div ∨ (y m).erase = r) m (admissible_flatOrder _ (.inl rfl))

section
variable {ι1 ι2 ι3 ι4 ι5 ι6 ι7 : Type}
theorem adm1 (g : ι1 → C α β) : Lean.Order.admissible (fun f : ι1 → M α β => ∀ a, Sim (f a) (g a)) :=
  admissible_pi _ fun a => admissible_apply (fun a y => Sim y (g a)) a (admissible _)
theorem adm2 (g : ι1 → ι2 → C α β) :
    Lean.Order.admissible (fun f : ι1 → ι2 → M α β => ∀ a1 a2, Sim (f a1 a2) (g a1 a2)) :=
  admissible_pi _ fun a => admissible_apply (fun (a : ι1) (f : ι2 → M α β) => ∀ a2, Sim (f a2) (g a a2)) a (adm1 _)
theorem adm3 (g : ι1 → ι2 → ι3 → C α β) :
    Lean.Order.admissible (fun f : ι1 → ι2 → ι3 → M α β => ∀ a1 a2 a3, Sim (f a1 a2 a3) (g a1 a2 a3)) :=
  admissible_pi _ fun a => admissible_apply
    (fun (a : ι1) (f : ι2 → ι3 → M α β) => ∀ a2 a3, Sim (f a2 a3) (g a a2 a3)) a (adm2 _)
theorem adm4 (g : ι1 → ι2 → ι3 → ι4 → C α β) :
    Lean.Order.admissible (fun f : ι1 → ι2 → ι3 → ι4 → M α β => ∀ a1 a2 a3 a4, Sim (f a1 a2 a3 a4) (g a1 a2 a3 a4)) :=
  admissible_pi _ fun a => admissible_apply
    (fun (a : ι1) (f : ι2 → ι3 → ι4 → M α β) => ∀ a2 a3 a4, Sim (f a2 a3 a4) (g a a2 a3 a4)) a (adm3 _)
theorem adm5 (g : ι1 → ι2 → ι3 → ι4 → ι5 → C α β) :
    Lean.Order.admissible (fun f : ι1 → ι2 → ι3 → ι4 → ι5 → M α β =>
      ∀ a1 a2 a3 a4 a5, Sim (f a1 a2 a3 a4 a5) (g a1 a2 a3 a4 a5)) :=
  admissible_pi _ fun a => admissible_apply
    (fun (a : ι1) (f : ι2 → ι3 → ι4 → ι5 → M α β) => ∀ a2 a3 a4 a5, Sim (f a2 a3 a4 a5) (g a a2 a3 a4 a5)) a (adm4 _)
theorem adm6 (g : ι1 → ι2 → ι3 → ι4 → ι5 → ι6 → C α β) :
    Lean.Order.admissible (fun f : ι1 → ι2 → ι3 → ι4 → ι5 → ι6 → M α β =>
      ∀ a1 a2 a3 a4 a5 a6, Sim (f a1 a2 a3 a4 a5 a6) (g a1 a2 a3 a4 a5 a6)) :=
  admissible_pi _ fun a => admissible_apply
    (fun (a : ι1) (f : ι2 → ι3 → ι4 → ι5 → ι6 → M α β) =>
      ∀ a2 a3 a4 a5 a6, Sim (f a2 a3 a4 a5 a6) (g a a2 a3 a4 a5 a6)) a (adm5 _)
end

set_option synthInstance.maxSize 2000
set_option synthInstance.maxHeartbeats 200000

/-- walk through both programs in parallel -/
macro "sim" : tactic => `(tactic| repeat' first
  | infer_instance
  | (intro (_ : Nat))
  | dsimp (failIfUnchanged := true) only
  | (refine Sim.bind (h := ?_) (hf := ?_))
  | (refine Sim.onThrow (hx := ?_) (hh := ?_))
  | (split <;> simp (failIfUnchanged := true) only [*, ↓reduceIte])
  | split
  | intro _)

