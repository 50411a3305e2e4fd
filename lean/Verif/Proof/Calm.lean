/-
  Two runs of the same program: with an element type whose moves may throw, and
  with the same type made non-throwing (`E.calm`).  `Same d x y`: in every memory
  the two runs agree, or the first ends in an element exception; the parameter
  says on which side a non-terminating run is tolerated while a loop is being
  unfolded.
-/
import Verif.Proof.Raises
set_option autoImplicit false

namespace SegTree
open Lean.Order
variable {α β γ : Type} {E : Env α} {d : Bool}

/-- the same configuration with an element type whose moves never throw -/
def Env.calm (E : Env α) : Env α := { E with mthrow := fun _ => false }

namespace Calm
theorem sizeofT : E.calm.sizeofT = E.sizeofT := rfl
theorem segTarget : E.calm.segTarget = E.segTarget := rfl
theorem baseTarget : E.calm.baseTarget = E.baseTarget := rfl
theorem sizeofNodeBase : E.calm.sizeofNodeBase = E.sizeofNodeBase := rfl
theorem sizeofNodeData : E.calm.sizeofNodeData = E.sizeofNodeData := rfl
theorem W : E.calm.W = E.W := rfl
theorem trivCopy : E.calm.trivCopy = E.trivCopy := rfl
theorem trivDtor : E.calm.trivDtor = E.trivDtor := rfl
theorem defConstruct : E.calm.defConstruct = E.defConstruct := rfl
theorem nullFree : E.calm.nullFree = E.nullFree := rfl
theorem pocca : E.calm.pocca = E.pocca := rfl
theorem pocma : E.calm.pocma = E.pocma := rfl
theorem pocs : E.calm.pocs = E.pocs := rfl
theorem acls : E.calm.acls = E.acls := rfl
theorem selectCopy : E.calm.selectCopy = E.selectCopy := rfl
theorem mv : E.calm.mv = E.mv := rfl
theorem cthrow : E.calm.cthrow = E.cthrow := rfl
theorem oracle : E.calm.oracle = E.oracle := rfl
theorem junk : E.calm.junk = E.junk := rfl
theorem segFree : E.calm.segFree = E.segFree := rfl
theorem nodeSize : E.calm.nodeSize = E.nodeSize := rfl
theorem baseFree : E.calm.baseFree = E.baseFree := rfl
theorem segFit : E.calm.segFit = E.segFit := rfl
theorem baseFit : E.calm.baseFit = E.baseFit := rfl
theorem segMax : E.calm.segMax = E.segMax := rfl
theorem baseMax : E.calm.baseMax = E.baseMax := rfl
theorem segMin : E.calm.segMin = E.segMin := rfl
theorem baseMin : E.calm.baseMin = E.baseMin := rfl
theorem wadd : E.calm.wadd = E.wadd := rfl
theorem wneg : E.calm.wneg = E.wneg := rfl
theorem wsub : E.calm.wsub = E.wsub := rfl
theorem moved : E.calm.moved = E.moved := rfl
theorem toSize : SegTree.toSize E.calm = SegTree.toSize E := rfl
theorem toDiff : SegTree.toDiff E.calm = SegTree.toDiff E := rfl
theorem difference : SegTree.difference E.calm = SegTree.difference E := rfl
theorem max_size : SegTree.max_size E.calm = SegTree.max_size E := rfl
theorem allRaw : SegTree.allRaw E.calm = SegTree.allRaw E := rfl
theorem it_diff : SegTree.it_diff E.calm = SegTree.it_diff E := rfl
end Calm

/-- the two configurations differ in nothing but the moves -/
macro "uncalm" : tactic => `(tactic| simp only [Calm.sizeofT, Calm.segTarget, Calm.baseTarget, Calm.sizeofNodeBase, Calm.sizeofNodeData, Calm.W, Calm.trivCopy, Calm.trivDtor, Calm.defConstruct, Calm.nullFree, Calm.pocca, Calm.pocma, Calm.pocs, Calm.acls, Calm.selectCopy, Calm.mv, Calm.cthrow, Calm.oracle, Calm.junk, Calm.segFree, Calm.nodeSize, Calm.baseFree, Calm.segFit, Calm.baseFit, Calm.segMax, Calm.baseMax, Calm.segMin, Calm.baseMin, Calm.wadd, Calm.wneg, Calm.wsub, Calm.moved, Calm.toSize, Calm.toDiff, Calm.difference, Calm.max_size, Calm.allRaw, Calm.it_diff])

/-- `x` does what `y` does, or ends in an element exception -/
class Same (d : Bool) (x y : M α β) : Prop where
  run : ∀ m, x m = y m ∨ (∃ m', x m = .throw .elem m') ∨ (if d then x m = .div else y m = .div)

class SameSrc (d : Bool) {σ : Type} (S T : Src α σ) : Prop where
  done : ∀ x, T.done x = S.done x
  read : ∀ x, Same d (S.read x) (T.read x)
  next : ∀ x, Same d (S.next x) (T.next x)

namespace Same

theorem refl (x : M α β) : Same d x x := ⟨fun _ => .inl rfl⟩
instance pure (v : β) : Same d (Pure.pure v : M α β) (Pure.pure v) := refl _
instance ub (k : UB) : Same d (M.ub k : M α β) (M.ub k) := refl _
instance thr (e : Exn) : Same d (M.throw e : M α β) (M.throw e) := refl _

instance ite {c : Prop} [Decidable c] {x y x' y' : M α β} [hx : Same d x x'] [hy : Same d y y'] :
    Same d (if c then x else y) (if c then x' else y') := by
  split <;> assumption

instance moves (v : α) {x y : M α β} [h : Same d x y] :
    Same d (if E.throws v = true then M.throw .elem else x) (if E.calm.throws v = true then M.throw .elem else y) := by
  have h0 : E.calm.throws v = false := by simp [Env.throws, Env.calm]
  have e : (if E.calm.throws v = true then M.throw .elem else y) = y := by rw [h0]; rfl
  rw [e]
  split
  · exact ⟨fun m => .inr (.inl ⟨m, rfl⟩)⟩
  · exact h

instance bind {x y : M α β} {f g : β → M α γ} [h : Same d x y] [hf : ∀ v, Same d (f v) (g v)] :
    Same d (x >>= f) (y >>= g) := by
  refine ⟨fun m => ?_⟩
  show M.bind x f m = M.bind y g m ∨ (∃ m', M.bind x f m = _) ∨ (if d then M.bind x f m = _ else M.bind y g m = _)
  unfold M.bind
  rcases h.run m with hm | ⟨m', hm⟩ | hm
  · rw [hm]
    cases y m with
    | ok v m1 => exact (hf v).run m1
    | throw e m1 => exact .inl rfl
    | ub k => exact .inl rfl
    | div => exact .inl rfl
  · right; left; rw [hm]; exact ⟨_, rfl⟩
  · right; right; cases d <;> simp only [Bool.false_eq_true, if_false, if_true] at hm ⊢ <;> rw [hm]

instance : OnAlloc (fun x => x ≠ Exn.elem) := ⟨by decide⟩

theorem onThrow {x y : M α β} {h h' : M α Unit} (hx : Same d x y) (hh : Same d h h') (hr : Raises (· ≠ .elem) x) :
    Same d (M.onThrow x h) (M.onThrow y h') := by
  refine ⟨fun m => ?_⟩
  unfold M.onThrow
  rcases hx.run m with hm | ⟨m', hm⟩ | hm
  · rw [hm]
    cases y m with
    | ok v m1 => exact .inl rfl
    | throw e m1 =>
      simp only
      rcases hh.run m1 with hk | ⟨m2, hk⟩ | hk
      · rw [hk]; exact .inl rfl
      · right; left; rw [hk]; exact ⟨_, rfl⟩
      · right; right; cases d <;> simp only [Bool.false_eq_true, if_false, if_true] at hk ⊢ <;> rw [hk]
    | ub k => exact .inl rfl
    | div => exact .inl rfl
  · exact absurd rfl (hr.throws hm)
  · right; right; cases d <;> simp only [Bool.false_eq_true, if_false, if_true] at hm ⊢ <;> rw [hm]

theorem admL (y : M α β) : Lean.Order.admissible (fun x : M α β => Same true x y) := by
  have : (fun x : M α β => Same true x y) =
      fun x => ∀ m, x m = y m ∨ (∃ m', x m = .throw .elem m') ∨ x m = .div := by
    funext x; exact propext ⟨fun h => h.run, fun h => ⟨h⟩⟩
  rw [this]
  apply admissible_pi
  intro m
  exact admissible_apply (fun m r => r = y m ∨ (∃ m', r = .throw .elem m') ∨ r = .div) m
    (admissible_flatOrder _ (.inr (.inr rfl)))

theorem admR (x : M α β) : Lean.Order.admissible (fun y : M α β => Same false x y) := by
  have : (fun y : M α β => Same false x y) =
      fun y => ∀ m, x m = y m ∨ (∃ m', x m = .throw .elem m') ∨ y m = .div := by
    funext y; exact propext ⟨fun h => h.run, fun h => ⟨h⟩⟩
  rw [this]
  apply admissible_pi
  intro m
  exact admissible_apply (fun m r => x m = r ∨ (∃ m', x m = .throw .elem m') ∨ r = .div) m
    (admissible_flatOrder _ (.inr (.inr rfl)))

section
variable {ι1 ι2 ι3 ι4 ι5 ι6 : Type}
theorem adm1 {P : ι1 → M α β → Prop} (h : ∀ a, Lean.Order.admissible (P a)) :
    Lean.Order.admissible (fun f : ι1 → M α β => ∀ a, P a (f a)) :=
  admissible_pi _ fun a => admissible_apply P a (h a)
theorem adm2 {P : ι1 → ι2 → M α β → Prop} (h : ∀ a b, Lean.Order.admissible (P a b)) :
    Lean.Order.admissible (fun f : ι1 → ι2 → M α β => ∀ a b, P a b (f a b)) :=
  admissible_pi _ fun a => admissible_apply (fun a (f : ι2 → M α β) => ∀ b, P a b (f b)) a (adm1 (h a))
theorem adm3 {P : ι1 → ι2 → ι3 → M α β → Prop} (h : ∀ a b c, Lean.Order.admissible (P a b c)) :
    Lean.Order.admissible (fun f : ι1 → ι2 → ι3 → M α β => ∀ a b c, P a b c (f a b c)) :=
  admissible_pi _ fun a => admissible_apply (fun a (f : ι2 → ι3 → M α β) => ∀ b c, P a b c (f b c)) a (adm2 (h a))
theorem adm4 {P : ι1 → ι2 → ι3 → ι4 → M α β → Prop} (h : ∀ a b c d, Lean.Order.admissible (P a b c d)) :
    Lean.Order.admissible (fun f : ι1 → ι2 → ι3 → ι4 → M α β => ∀ a b c d, P a b c d (f a b c d)) :=
  admissible_pi _ fun a => admissible_apply
    (fun a (f : ι2 → ι3 → ι4 → M α β) => ∀ b c d, P a b c d (f b c d)) a (adm3 (h a))
theorem adm5 {P : ι1 → ι2 → ι3 → ι4 → ι5 → M α β → Prop} (h : ∀ a b c d e, Lean.Order.admissible (P a b c d e)) :
    Lean.Order.admissible (fun f : ι1 → ι2 → ι3 → ι4 → ι5 → M α β => ∀ a b c d e, P a b c d e (f a b c d e)) :=
  admissible_pi _ fun a => admissible_apply
    (fun a (f : ι2 → ι3 → ι4 → ι5 → M α β) => ∀ b c d e, P a b c d e (f b c d e)) a (adm4 (h a))
theorem adm6 {P : ι1 → ι2 → ι3 → ι4 → ι5 → ι6 → M α β → Prop}
    (h : ∀ a b c d e f, Lean.Order.admissible (P a b c d e f)) :
    Lean.Order.admissible (fun f : ι1 → ι2 → ι3 → ι4 → ι5 → ι6 → M α β => ∀ a b c d e g, P a b c d e g (f a b c d e g)) :=
  admissible_pi _ fun a => admissible_apply
    (fun a (f : ι2 → ι3 → ι4 → ι5 → ι6 → M α β) => ∀ b c d e g, P a b c d e g (f b c d e g)) a (adm5 (h a))
end

instance forN (f g : Nat → M α Unit) (n i : Nat) [hf : ∀ i, Same d (f i) (g i)] :
    Same d (SegTree.forN f n i) (SegTree.forN g n i) := by
  induction n generalizing i with
  | zero => exact pure _
  | succ n ih => exact bind (hf := fun _ => ih _)

instance usub (a b : Nat) : Same d (SegTree.usub a b : M α Nat) (SegTree.usub a b) := refl _

/-- the loops of the segment operations: a step on each side -/
instance range_loop (step step0 : Nat → Nat → M α Nat) (src last dst acc : Nat)
    [hs : ∀ i j, Same d (step i j) (step0 i j)] :
    Same d (SegTree.range_loop step src last dst acc) (SegTree.range_loop step0 src last dst acc) := by
  revert src dst acc
  cases d
  · refine SegTree.range_loop.fixpoint_induct step0 last (fun f => ∀ src dst acc,
      Same false (SegTree.range_loop step src last dst acc) (f src dst acc)) (adm3 fun _ _ _ => admR _) ?_
    intro f ih src dst acc
    unfold SegTree.range_loop; infer_instance
  · refine SegTree.range_loop.fixpoint_induct step last (fun f => ∀ src dst acc,
      Same true (f src dst acc) (SegTree.range_loop step0 src last dst acc)) (adm3 fun _ _ _ => admL _) ?_
    intro f ih src dst acc
    unfold SegTree.range_loop; infer_instance

instance forward_loop (step step0 : Nat → Nat → M α Unit) (first src dst : Nat)
    [hs : ∀ i j, Same d (step i j) (step0 i j)] :
    Same d (SegTree.forward_loop step first src dst) (SegTree.forward_loop step0 first src dst) := by
  revert src dst
  cases d
  · refine SegTree.forward_loop.fixpoint_induct step0 first (fun f => ∀ src dst,
      Same false (SegTree.forward_loop step first src dst) (f src dst)) (adm2 fun _ _ => admR _) ?_
    intro f ih src dst
    unfold SegTree.forward_loop; infer_instance
  · refine SegTree.forward_loop.fixpoint_induct step first (fun f => ∀ src dst,
      Same true (f src dst) (SegTree.forward_loop step0 first src dst)) (adm2 fun _ _ => admL _) ?_
    intro f ih src dst
    unfold SegTree.forward_loop; infer_instance

instance backward_loop (step step0 : Nat → Nat → M α Unit) (src dst last : Nat)
    [hs : ∀ i j, Same d (step i j) (step0 i j)] :
    Same d (SegTree.backward_loop step src dst last) (SegTree.backward_loop step0 src dst last) := by
  revert src dst
  cases d
  · refine SegTree.backward_loop.fixpoint_induct step0 last (fun f => ∀ src dst,
      Same false (SegTree.backward_loop step src dst last) (f src dst)) (adm2 fun _ _ => admR _) ?_
    intro f ih src dst
    unfold SegTree.backward_loop; infer_instance
  · refine SegTree.backward_loop.fixpoint_induct step last (fun f => ∀ src dst,
      Same true (f src dst) (SegTree.backward_loop step0 src dst last)) (adm2 fun _ _ => admL _) ?_
    intro f ih src dst
    unfold SegTree.backward_loop; infer_instance

set_option synthInstance.maxSize 2000
set_option synthInstance.maxHeartbeats 400000

/-- walk through both programs in parallel -/
macro "calm" : tactic => `(tactic| ((try uncalm); repeat' first
  | contradiction
  | infer_instance
  | (intro (_ : Nat))
  | dsimp (failIfUnchanged := true) only
  | (refine Same.bind (h := ?_) (hf := ?_))
  | (refine Same.ite (hx := ?_) (hy := ?_))
  | (refine Same.moves (h := ?_) _)
  | (refine Same.onThrow ?_ ?_ ?_)
  | (split <;> simp (failIfUnchanged := true) only [*, ↓reduceIte])
  | split
  | intro _))

end Same
end SegTree
