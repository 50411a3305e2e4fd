/-
  An insertion that throws `bad_alloc` makes no request after the one that was
  refused.
-/
import Verif.Proof.Supply
import Verif.Proof.CopyCount
import Verif.Proof.Raises
set_option autoImplicit false

namespace SegTree
open Lean.Order
variable {α β γ : Type} {E : Env α}

/-- the last request made between `m` and `m'` was refused: null, or an address in
use when it was made -/
def LastRefused (E : Env α) (m m' : Mem α) : Prop :=
  ∃ m1, Ext E m m1 ∧ m1.log.reqs + 1 = m'.log.reqs ∧
    (E.oracle m1.log.reqs = 0 ∨ Live m1 (E.oracle m1.log.reqs))

/-- what is thrown when memory runs out comes from the last request -/
class Last (E : Env α) (x : M α β) : Prop where
  run : ∀ m m', x m = .throw .alloc m' → LastRefused E m m'

namespace Last

instance quiet {x : M α β} [h : Raises (fun e => e ≠ .alloc) x] : Last E x :=
  ⟨fun _ _ hx => absurd rfl (h.throws hx)⟩

instance bind {x : M α β} {f : β → M α γ} [hp : Pres E x] [hx : Last E x] [hf : ∀ v, Last E (f v)] : Last E (x >>= f) := by
  refine ⟨fun m m' h => ?_⟩
  change M.bind x f m = _ at h
  unfold M.bind at h
  have h1 := hp.run m
  cases e : x m with
  | ok v m1 =>
    rw [e] at h h1
    obtain ⟨m2, h2, h3, h4⟩ := (hf v).run _ _ h
    exact ⟨m2, Ext.trans h1 h2, h3, h4⟩
  | throw ex m1 => rw [e] at h; cases h; exact hx.run _ _ e
  | ub k => rw [e] at h; cases h
  | div => rw [e] at h; cases h

instance onThrow {x : M α β} {h : M α Unit} [hx : Last E x] [hh : Traced (Proto.calm α) h] : Last E (M.onThrow x h) := by
  refine ⟨fun m m' he => ?_⟩
  unfold M.onThrow at he
  cases e : x m with
  | ok v m1 => rw [e] at he; cases he
  | throw ex m1 =>
    rw [e] at he
    simp only at he
    have h2 := hh.run m1
    cases e2 : h m1 with
    | ok v m2 =>
      rw [e2] at he h2; cases he
      obtain ⟨m3, h3, h4, h5⟩ := hx.run _ _ e
      refine ⟨m3, h3, ?_, h5⟩
      rw [h4, h2.2]
    | throw v m2 => rw [e2] at h2; exact h2.elim
    | ub k => rw [e2] at he; cases he
    | div => rw [e2] at he; cases he
  | ub k => rw [e] at he; cases he
  | div => rw [e] at he; cases he

theorem admissible : Lean.Order.admissible (fun x : M α β => Last E x) := by
  have : (fun x : M α β => Last E x) = fun x => ∀ m, (fun r : Res α β => ∀ m', r = .throw .alloc m' → LastRefused E m m') (x m) := by
    funext x; exact propext ⟨fun h => h.run, fun h => ⟨h⟩⟩
  rw [this]
  apply admissible_pi
  intro m
  refine admissible_apply (fun m (r : Res α β) => ∀ m', r = .throw .alloc m' → LastRefused E m m') m (admissible_flatOrder _ ?_)
  intro m' h
  cases h

instance allocCell (c : Cell α) : Last E (SegTree.allocCell E c) := by
  refine ⟨fun m m' h => ?_⟩
  unfold SegTree.allocCell at h
  simp only at h
  split at h
  · next hc => cases h; exact ⟨m, Ext.refl, rfl, hc⟩
  · cases h
instance allocNodeCell (w : Nat) : Last E (SegTree.allocNodeCell E w) :=
  ⟨fun m m' h => (allocCell _).run m m' h⟩

variable (o : Nat)

instance : OnMove E (fun e => e ≠ .alloc) := ⟨fun _ _ => by decide⟩
instance : OnCopy E (fun e => e ≠ .alloc) := ⟨fun _ _ _ => by decide⟩

instance allocate_segment : Last E (SegTree.allocate_segment E o) := by
  unfold SegTree.allocate_segment; infer_instance
instance allocate_node : Last E (SegTree.allocate_node E o) := by
  unfold SegTree.allocate_node; infer_instance

instance ite {c : Prop} [Decidable c] {x y : M α β} [hx : Last E x] [hy : Last E y] : Last E (if c then x else y) := by
  split
  · exact hx
  · exact hy

instance alloc_nodes_loop (p seg alloc : Nat) : Last E (SegTree.alloc_nodes_loop E o p seg alloc) := by
  revert p alloc
  refine SegTree.alloc_nodes_loop.fixpoint_induct E o seg (fun f => ∀ p alloc, Last E (f p alloc)) ?_ ?_
  · exact admissible_pi _ fun p => admissible_apply (fun (_ : Nat) (f : Nat → M α Nat) => ∀ a, Last E (f a)) p
      (admissible_pi _ fun a => admissible_apply (fun (_ : Nat) (y : M α Nat) => Last E y) a admissible)
  · intro f ih p alloc
    infer_instance
instance alloc_nodes_single (p seg : Nat) : Last E (SegTree.alloc_nodes_single E o p seg) := by
  unfold SegTree.alloc_nodes_single; infer_instance

instance insert_single_segment (entry : Entry) (v : α) : Last E (SegTree.insert_single_segment E o entry v) := by
  unfold SegTree.insert_single_segment
  dsimp only
  split
  · exact Last.quiet (h := by raises)
  split
  · exact Last.bind (hf := fun _ => Last.quiet (h := by raises))
  split
  · exact Last.quiet (h := by raises)
  · exact Last.bind (hf := fun _ => Last.bind (hf := fun _ => Last.quiet (h := by raises)))
instance insert_single_iterator (it : Iter) (v : α) : Last E (SegTree.insert_single_iterator E o it v) := by
  unfold SegTree.insert_single_iterator
  split
  · exact ⟨fun _ _ h => by cases h⟩
  · infer_instance
instance copyVal (v : α) : Last E (SegTree.copyVal E v) := ⟨fun m m' h => by
  unfold SegTree.copyVal at h
  split at h
  · cases h
  · split at h <;> cases h⟩
instance emplace_single (it : Iter) (mk : M α α) [Pres E mk] [Last E mk] : Last E (SegTree.emplace_single E o it mk) := by
  unfold SegTree.emplace_single; infer_instance

end Last

/-- C10/C15 refined: the refused request is the last one -/
instance lastInsert (o : Nat) (it : Iter) (v : α) : Last E (insert E o it v) := by
  unfold insert; infer_instance

end SegTree
