/-
  A run with moves that may throw at any moment does what the run without such
  moves does, or ends in an element exception (`Lag`, as `Same` in Proof/Calm).
-/
import Verif.Rough.Model
set_option autoImplicit false
set_option linter.unusedSectionVars false

namespace SegTree
open Lean.Order
variable {α β γ : Type} [Moves α] {E : Env α} {dir : Bool}

class Lag (dir : Bool) (x : N α β) (y : M α β) : Prop where
  run : ∀ k m, (x k m).erase = y m ∨ (∃ m' n, x k m = .throw .elem m' n) ∨ (if dir then x k m = .div else y m = .div)

class LagSrc (dir : Bool) {σ : Type} (S : Rough.Src α σ) (T : SegTree.Src α σ) : Prop where
  done : ∀ x, T.done x = S.done x
  read : ∀ x, Lag dir (S.read x) (T.read x)
  next : ∀ x, Lag dir (S.next x) (T.next x)

namespace Lag

instance pure (v : β) : Lag dir (Pure.pure v : N α β) (Pure.pure v) := ⟨fun _ _ => .inl rfl⟩
instance ub (u : UB) : Lag dir (N.ub u : N α β) (M.ub u) := ⟨fun _ _ => .inl rfl⟩
instance thr (e : Exn) : Lag dir (N.throw e : N α β) (M.throw e) := ⟨fun _ _ => .inl rfl⟩
theorem lift (x : M α β) : Lag dir (N.lift x) x :=
  ⟨fun k m => .inl (by unfold N.lift; cases x m <;> rfl)⟩

instance ite {c : Prop} [Decidable c] {x y : N α β} {x' y' : M α β} [hx : Lag dir x x'] [hy : Lag dir y y'] :
    Lag dir (if c then x else y) (if c then x' else y') := by
  split <;> assumption

instance bind {x : N α β} {y : M α β} {f : β → N α γ} {g : β → M α γ} [h : Lag dir x y] [hf : ∀ v, Lag dir (f v) (g v)] :
    Lag dir (x >>= f) (y >>= g) := by
  refine ⟨fun k m => ?_⟩
  show (N.bind x f k m).erase = M.bind y g m ∨ (∃ m' n, N.bind x f k m = _) ∨
    (if dir then N.bind x f k m = _ else M.bind y g m = _)
  unfold M.bind N.bind
  rcases h.run k m with hm | ⟨m', n, hm⟩ | hm
  · rw [← hm]
    cases x k m with
    | ok v m1 n => exact (hf v).run n m1
    | throw e m1 n => exact .inl rfl
    | ub k => exact .inl rfl
    | div => exact .inl rfl
  · right; left; rw [hm]; exact ⟨_, _, rfl⟩
  · right; right; cases dir <;> simp only [Bool.false_eq_true, if_false, if_true] at hm ⊢ <;> rw [hm]

instance moves (v : α) {x : N α β} {y : M α β} [h : Lag dir x y] :
    Lag dir (Rough.fails E v >>= fun b => if b = true then N.throw .elem else x)
      (if E.calm.throws v = true then M.throw .elem else y) := by
  have h0 : E.calm.throws v = false := by simp [Env.throws, Env.calm]
  have e : (if E.calm.throws v = true then M.throw .elem else y) = y := by rw [h0]; rfl
  rw [e]
  refine ⟨fun k m => ?_⟩
  show (N.bind _ _ k m).erase = _ ∨ (∃ m' n, N.bind _ _ k m = _) ∨ (if dir then N.bind _ _ k m = _ else _)
  unfold N.bind Rough.fails
  simp only
  split
  · exact .inr (.inl ⟨_, _, rfl⟩)
  · exact h.run _ _

/-- programs that make no move -/
class Exact (x : N α β) (y : M α β) : Prop where
  run : ∀ k m, (x k m).erase = y m
instance Exact.lift (x : M α β) : Exact (N.lift x) x := ⟨fun k m => by unfold N.lift; cases x m <;> rfl⟩
instance Exact.pure (v : β) : Exact (Pure.pure v : N α β) (Pure.pure v) := ⟨fun _ _ => rfl⟩
instance Exact.bind {x : N α β} {y : M α β} {f : β → N α γ} {g : β → M α γ} [h : Exact x y] [hf : ∀ v, Exact (f v) (g v)] :
    Exact (x >>= f) (y >>= g) := by
  refine ⟨fun k m => ?_⟩
  show (N.bind x f k m).erase = M.bind y g m
  unfold M.bind N.bind
  rw [← h.run k m]
  cases x k m with
  | ok v m1 n => exact (hf v).run n m1
  | throw e m1 n => rfl
  | ub k => rfl
  | div => rfl

theorem onThrow {x : N α β} {y : M α β} {h : N α Unit} {h' : M α Unit} (hx : Exact x y) (hh : Lag dir h h') :
    Lag dir (N.onThrow x h) (M.onThrow y h') := by
  refine ⟨fun k m => ?_⟩
  unfold M.onThrow N.onThrow
  rw [← hx.run k m]
  cases x k m with
  | ok v m1 n => exact .inl rfl
  | throw e m1 n =>
    simp only [NRes.erase]
    rcases hh.run n m1 with hk | ⟨m2, n2, hk⟩ | hk
    · rw [← hk]; cases h n m1 <;> exact .inl rfl
    · right; left; rw [hk]; exact ⟨_, _, rfl⟩
    · right; right; cases dir <;> simp only [Bool.false_eq_true, if_false, if_true] at hk ⊢ <;> rw [hk]
  | ub k => exact .inl rfl
  | div => exact .inl rfl

theorem admL (y : M α β) : Lean.Order.admissible (fun x : N α β => Lag true x y) := by
  have : (fun x : N α β => Lag true x y) =
      fun x => ∀ k m, (x k m).erase = y m ∨ (∃ m' n, x k m = .throw .elem m' n) ∨ x k m = .div := by
    funext x; exact propext ⟨fun h => h.run, fun h => ⟨h⟩⟩
  rw [this]
  apply admissible_pi
  intro k
  refine admissible_apply (fun k (f : Mem α → NRes α β) => ∀ m, (f m).erase = y m ∨ (∃ m' n, f m = .throw .elem m' n) ∨ f m = .div) k ?_
  apply admissible_pi
  intro m
  exact admissible_apply (fun m (r : NRes α β) => r.erase = y m ∨ (∃ m' n, r = .throw .elem m' n) ∨ r = .div) m
    (admissible_flatOrder _ (.inr (.inr rfl)))

theorem admR (x : N α β) : Lean.Order.admissible (fun y : M α β => Lag false x y) := by
  have : (fun y : M α β => Lag false x y) =
      fun y => ∀ m k, (x k m).erase = y m ∨ (∃ m' n, x k m = .throw .elem m' n) ∨ y m = .div := by
    funext y; exact propext ⟨fun h m k => h.run k m, fun h => ⟨fun k m => h m k⟩⟩
  rw [this]
  apply admissible_pi
  intro m
  refine admissible_apply (fun m (r : Res α β) => ∀ k, (x k m).erase = r ∨ (∃ m' n, x k m = .throw .elem m' n) ∨ r = .div) m ?_
  exact admissible_flatOrder _ (fun k => .inr (.inr rfl))

section
variable {ι1 ι2 ι3 ι4 ι5 ι6 : Type}
theorem adm1 {P : ι1 → N α β → Prop} (h : ∀ a, Lean.Order.admissible (P a)) :
    Lean.Order.admissible (fun f : ι1 → N α β => ∀ a, P a (f a)) :=
  admissible_pi _ fun a => admissible_apply P a (h a)
theorem adm2 {P : ι1 → ι2 → N α β → Prop} (h : ∀ a b, Lean.Order.admissible (P a b)) :
    Lean.Order.admissible (fun f : ι1 → ι2 → N α β => ∀ a b, P a b (f a b)) :=
  admissible_pi _ fun a => admissible_apply (fun a (f : ι2 → N α β) => ∀ b, P a b (f b)) a (adm1 (h a))
theorem adm3 {P : ι1 → ι2 → ι3 → N α β → Prop} (h : ∀ a b c, Lean.Order.admissible (P a b c)) :
    Lean.Order.admissible (fun f : ι1 → ι2 → ι3 → N α β => ∀ a b c, P a b c (f a b c)) :=
  admissible_pi _ fun a => admissible_apply (fun a (f : ι2 → ι3 → N α β) => ∀ b c, P a b c (f b c)) a (adm2 (h a))
theorem adm4 {P : ι1 → ι2 → ι3 → ι4 → N α β → Prop} (h : ∀ a b c d, Lean.Order.admissible (P a b c d)) :
    Lean.Order.admissible (fun f : ι1 → ι2 → ι3 → ι4 → N α β => ∀ a b c d, P a b c d (f a b c d)) :=
  admissible_pi _ fun a => admissible_apply
    (fun a (f : ι2 → ι3 → ι4 → N α β) => ∀ b c d, P a b c d (f b c d)) a (adm3 (h a))
theorem adm5 {P : ι1 → ι2 → ι3 → ι4 → ι5 → N α β → Prop} (h : ∀ a b c d e, Lean.Order.admissible (P a b c d e)) :
    Lean.Order.admissible (fun f : ι1 → ι2 → ι3 → ι4 → ι5 → N α β => ∀ a b c d e, P a b c d e (f a b c d e)) :=
  admissible_pi _ fun a => admissible_apply
    (fun a (f : ι2 → ι3 → ι4 → ι5 → N α β) => ∀ b c d e, P a b c d e (f b c d e)) a (adm4 (h a))
theorem adm6 {P : ι1 → ι2 → ι3 → ι4 → ι5 → ι6 → N α β → Prop}
    (h : ∀ a b c d e f, Lean.Order.admissible (P a b c d e f)) :
    Lean.Order.admissible (fun f : ι1 → ι2 → ι3 → ι4 → ι5 → ι6 → N α β => ∀ a b c d e g, P a b c d e g (f a b c d e g)) :=
  admissible_pi _ fun a => admissible_apply
    (fun a (f : ι2 → ι3 → ι4 → ι5 → ι6 → N α β) => ∀ b c d e g, P a b c d e g (f b c d e g)) a (adm5 (h a))
end

instance forN (f : Nat → N α Unit) (g : Nat → M α Unit) (n i : Nat) [hf : ∀ i, Lag dir (f i) (g i)] :
    Lag dir (Rough.forN f n i) (SegTree.forN g n i) := by
  induction n generalizing i with
  | zero => exact pure _
  | succ n ih => exact bind (hf := fun _ => ih _)

instance range_loop (step : Nat → Nat → N α Nat) (step0 : Nat → Nat → M α Nat) (src last dst acc : Nat)
    [hs : ∀ i j, Lag dir (step i j) (step0 i j)] :
    Lag dir (Rough.range_loop step src last dst acc) (SegTree.range_loop step0 src last dst acc) := by
  revert src dst acc
  cases dir
  · refine SegTree.range_loop.fixpoint_induct step0 last (fun f => ∀ src dst acc,
      Lag false (Rough.range_loop step src last dst acc) (f src dst acc)) (Same.adm3 fun _ _ _ => admR _) ?_
    intro f ih src dst acc
    unfold Rough.range_loop; infer_instance
  · refine Rough.range_loop.fixpoint_induct step last (fun f => ∀ src dst acc,
      Lag true (f src dst acc) (SegTree.range_loop step0 src last dst acc)) (adm3 fun _ _ _ => admL _) ?_
    intro f ih src dst acc
    unfold SegTree.range_loop; infer_instance

instance forward_loop (step : Nat → Nat → N α Unit) (step0 : Nat → Nat → M α Unit) (first src dst : Nat)
    [hs : ∀ i j, Lag dir (step i j) (step0 i j)] [hu : ∀ a b, Lag dir (Rough.usub a b : N α Nat) (SegTree.usub a b)] :
    Lag dir (Rough.forward_loop step first src dst) (SegTree.forward_loop step0 first src dst) := by
  revert src dst
  cases dir
  · refine SegTree.forward_loop.fixpoint_induct step0 first (fun f => ∀ src dst,
      Lag false (Rough.forward_loop step first src dst) (f src dst)) (Same.adm2 fun _ _ => admR _) ?_
    intro f ih src dst
    unfold Rough.forward_loop; infer_instance
  · refine Rough.forward_loop.fixpoint_induct step first (fun f => ∀ src dst,
      Lag true (f src dst) (SegTree.forward_loop step0 first src dst)) (adm2 fun _ _ => admL _) ?_
    intro f ih src dst
    unfold SegTree.forward_loop; infer_instance

instance backward_loop (step : Nat → Nat → N α Unit) (step0 : Nat → Nat → M α Unit) (src dst last : Nat)
    [hs : ∀ i j, Lag dir (step i j) (step0 i j)] :
    Lag dir (Rough.backward_loop step src dst last) (SegTree.backward_loop step0 src dst last) := by
  revert src dst
  cases dir
  · refine SegTree.backward_loop.fixpoint_induct step0 last (fun f => ∀ src dst,
      Lag false (Rough.backward_loop step src dst last) (f src dst)) (Same.adm2 fun _ _ => admR _) ?_
    intro f ih src dst
    unfold Rough.backward_loop; infer_instance
  · refine Rough.backward_loop.fixpoint_induct step last (fun f => ∀ src dst,
      Lag true (f src dst) (SegTree.backward_loop step0 src dst last)) (adm2 fun _ _ => admL _) ?_
    intro f ih src dst
    unfold SegTree.backward_loop; infer_instance

instance usub (a b : Nat) : Lag dir (Rough.usub a b : N α Nat) (SegTree.usub a b) := lift _

set_option synthInstance.maxSize 2000
set_option synthInstance.maxHeartbeats 400000

/-- walk through both programs in parallel -/
macro "lag" : tactic => `(tactic| ((try uncalm); repeat' first
  | contradiction
  | infer_instance
  | (intro (_ : Nat))
  | dsimp (failIfUnchanged := true) only
  | (refine Lag.moves (h := ?_) _)
  | (refine Lag.bind (h := ?_) (hf := ?_))
  | (refine Lag.ite (hx := ?_) (hy := ?_))
  | (refine Lag.onThrow ?_ ?_)
  | (split <;> simp (failIfUnchanged := true) only [*, ↓reduceIte])
  | split
  | intro _))

end Lag
end SegTree
