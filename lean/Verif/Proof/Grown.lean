/-
  What an insertion that returns does to the set of allocated blocks: it frees
  none of them, and adds exactly one for every request it makes.  A structural
  fact about every function on the success path of an insertion; the handlers of
  `try`/`catch` do not run on that path and are not looked at.
-/
import Verif.Proof.Fresh
import Mathlib.Data.List.Nodup
set_option autoImplicit false

namespace SegTree
open Lean.Order

variable {α β γ : Type} {E : Env α} {m m1 m' : Mem α}

/-- from `m` to `m'` the allocator granted exactly the blocks `L`, refused
nothing, and nothing was freed -/
structure Granted (L : List Nat) (m m' : Mem α) : Prop where
  nodup : L.Nodup
  reqs : m'.log.reqs = m.log.reqs + L.length
  fails : m'.log.fails = m.log.fails
  fresh : ∀ a ∈ L, ¬ Live m a
  live : ∀ a, Live m' a ↔ Live m a ∨ a ∈ L

theorem Granted.nil (h1 : m'.log = m.log) (h2 : ∀ a, Live m' a ↔ Live m a) : Granted [] m m' :=
  ⟨List.nodup_nil, by rw [h1]; rfl, by rw [h1], nofun, fun a => by rw [h2]; simp⟩

theorem Granted.append {L L' : List Nat} (h1 : Granted L m m1) (h2 : Granted L' m1 m') : Granted (L ++ L') m m' := by
  refine ⟨?_, ?_, h2.fails.trans h1.fails, ?_, ?_⟩
  · rw [List.nodup_append]
    refine ⟨h1.nodup, h2.nodup, ?_⟩
    rintro a ha _ hb rfl
    exact h2.fresh a hb ((h1.live a).2 (.inr ha))
  · rw [h2.reqs, h1.reqs, List.length_append]; omega
  · intro a ha
    rcases List.mem_append.1 ha with ha | ha
    · exact h1.fresh a ha
    · exact fun hl => h2.fresh a ha ((h1.live a).2 (.inl hl))
  · intro a
    rw [h2.live, h1.live, List.mem_append, or_assoc]

/-- a call that returns only adds blocks -/
class Grows (x : M α β) : Prop where
  run : ∀ {m v m'}, x m = .ok v m' → ∃ L, Granted L m m'

namespace Grows

theorem still {x : M α β} (h : ∀ {m v m'}, x m = .ok v m' → m'.log = m.log ∧ ∀ a, Live m' a ↔ Live m a) : Grows x :=
  ⟨fun hx => ⟨[], .nil (h hx).1 (h hx).2⟩⟩
theorem same {x : M α β} (h : ∀ {m v m'}, x m = .ok v m' → m' = m) : Grows x :=
  still fun hx => by rw [h hx]; exact ⟨rfl, fun _ => Iff.rfl⟩
instance pure (v : β) : Grows (Pure.pure v : M α β) := same fun h => by cases h; rfl
instance pure' (v : β) : Grows (M.pure v : M α β) := same fun h => by cases h; rfl
instance ub (k : UB) : Grows (M.ub k : M α β) := same nofun
instance thr (e : Exn) : Grows (M.throw e : M α β) := same nofun
instance ite {c : Prop} [Decidable c] {x y : M α β} [Grows x] [Grows y] : Grows (if c then x else y) := by
  split <;> assumption

instance bind {x : M α β} {f : β → M α γ} [h : Grows x] [hf : ∀ v, Grows (f v)] : Grows (x >>= f) := by
  refine ⟨fun {m v m'} hx => ?_⟩
  change M.bind x f m = _ at hx
  unfold M.bind at hx
  cases e : x m with
  | ok w m1 =>
    rw [e] at hx
    obtain ⟨L, h1⟩ := h.run e
    obtain ⟨L', h2⟩ := (hf w).run hx
    exact ⟨_, h1.append h2⟩
  | throw _ _ => rw [e] at hx; cases hx
  | ub _ => rw [e] at hx; cases hx
  | div => rw [e] at hx; cases hx

instance onThrow {x : M α β} {h : M α Unit} [hx : Grows x] : Grows (M.onThrow x h) := by
  refine ⟨fun {m v m'} he => ?_⟩
  unfold M.onThrow at he
  cases e : x m with
  | ok w m1 => rw [e] at he; cases he; exact hx.run e
  | throw _ _ =>
    rw [e] at he
    simp only at he
    split at he <;> cases he
  | ub _ => rw [e] at he; cases he
  | div => rw [e] at he; cases he

theorem admissible : Lean.Order.admissible (fun x : M α β => Grows x) := by
  have : (fun x : M α β => Grows x) = fun x => ∀ m v m', x m = .ok v m' → ∃ L, Granted L m m' := by
    funext x; exact propext ⟨fun h _ _ _ => h.run, fun h => ⟨h _ _ _⟩⟩
  rw [this]
  apply admissible_pi
  intro m
  exact admissible_apply (fun (m : Mem α) (r : Res α β) => ∀ v m', r = .ok v m' → ∃ L, Granted L m m') m (admissible_flatOrder _ nofun)

/-! ### Primitives -/

theorem live_set_iff {l : Loc} {c : Cell α} {a : Nat} (h : (m.cell l).isSome = true) : Live (m.set l c) a ↔ Live m a := by
  refine ⟨live_set h, fun ha => ?_⟩
  unfold Live Mem.set upd at *
  simp only
  split
  · rfl
  · exact ha
theorem live_set_obj_iff {o : Nat} {c : Cell α} {a : Nat} : Live (m.set (.obj o) c) a ↔ Live m a := by
  unfold Live Mem.set upd; simp

instance rdNode (p : Nat) : Grows (rdNode p : M α Node) := same fun h => by
  unfold SegTree.rdNode at h; split at h <;> cases h; rfl
instance wrNode (p : Nat) (n : Node) : Grows (wrNode p n : M α Unit) := still fun h => by
  unfold SegTree.wrNode at h; split at h
  · next e => cases h; exact ⟨rfl, fun a => live_set_iff (by rw [e]; rfl)⟩
  · cases h
instance rdSlots (p : Nat) : Grows (rdSlots p : M α _) := same fun h => by
  unfold SegTree.rdSlots at h; split at h <;> cases h; rfl
instance wrSlots (p : Nat) (s : Nat → Slot α) : Grows (wrSlots p s) := still fun h => by
  unfold SegTree.wrSlots at h; split at h
  · next e => cases h; exact ⟨rfl, fun a => live_set_iff (by rw [e]; rfl)⟩
  · cases h
instance rdObj (o : Nat) : Grows (rdObj o : M α SeqObj) := same fun h => by
  unfold SegTree.rdObj at h; split at h <;> cases h; rfl
instance wrObj (o : Nat) (s : SeqObj) : Grows (wrObj o s : M α Unit) := still fun h => by
  unfold SegTree.wrObj at h; split at h
  · next e => cases h; exact ⟨rfl, fun a => live_set_iff (by rw [e]; rfl)⟩
  · cases h
instance usub (a b : Nat) : Grows (usub a b : M α Nat) := by
  unfold SegTree.usub; split
  · exact pure _
  · exact ub _
instance allocCell (c : Cell α) : Grows (allocCell E c) := ⟨fun {m v m'} h => by
  unfold SegTree.allocCell at h
  simp only at h
  split at h
  · cases h
  · next hn =>
    cases h
    rw [not_or] at hn
    refine ⟨[E.oracle m.log.reqs], ⟨by simp, rfl, rfl, ?_, ?_⟩⟩
    · intro a ha hl
      rw [List.mem_singleton] at ha
      exact hn.2 (ha ▸ hl)
    · intro a
      unfold Live Mem.set upd
      by_cases e : a = E.oracle m.log.reqs
      · simp [e]
      · simp [e]⟩
instance allocNodeCell (w : Nat) : Grows (allocNodeCell E w) := ⟨fun h => (allocCell _).run h⟩
instance ctor (o al : Nat) : Grows (ctor o al : M α Unit) := still fun h => by
  unfold SegTree.ctor at h; split at h
  · cases h
  · cases h; exact ⟨rfl, fun a => live_set_obj_iff⟩

/-! ### All functions -/

section
variable {ι1 ι2 ι3 ι4 ι5 ι6 ι7 ι8 : Type}
set_option synthInstance.maxSize 2000
set_option synthInstance.maxHeartbeats 200000
theorem adm1 : Lean.Order.admissible (fun f : ι1 → M α β => ∀ a, Grows (f a)) :=
  admissible_pi _ fun a => admissible_apply (fun _ y => Grows y) a Grows.admissible
theorem adm2 : Lean.Order.admissible (fun f : ι1 → ι2 → M α β => ∀ a1 a2, Grows (f a1 a2)) :=
  admissible_pi _ fun a => admissible_apply (fun (_ : ι1) (f : ι2 → M α β) => ∀ a2, Grows (f a2)) a adm1
theorem adm3 : Lean.Order.admissible (fun f : ι1 → ι2 → ι3 → M α β => ∀ a1 a2 a3, Grows (f a1 a2 a3)) :=
  admissible_pi _ fun a => admissible_apply (fun (_ : ι1) (f : ι2 → ι3 → M α β) => ∀ a2 a3, Grows (f a2 a3)) a adm2
theorem adm4 : Lean.Order.admissible (fun f : ι1 → ι2 → ι3 → ι4 → M α β => ∀ a1 a2 a3 a4, Grows (f a1 a2 a3 a4)) :=
  admissible_pi _ fun a => admissible_apply (fun (_ : ι1) (f : ι2 → ι3 → ι4 → M α β) => ∀ a2 a3 a4, Grows (f a2 a3 a4)) a adm3
theorem adm5 : Lean.Order.admissible (fun f : ι1 → ι2 → ι3 → ι4 → ι5 → M α β => ∀ a1 a2 a3 a4 a5, Grows (f a1 a2 a3 a4 a5)) :=
  admissible_pi _ fun a => admissible_apply (fun (_ : ι1) (f : ι2 → ι3 → ι4 → ι5 → M α β) => ∀ a2 a3 a4 a5, Grows (f a2 a3 a4 a5)) a adm4
theorem adm6 : Lean.Order.admissible (fun f : ι1 → ι2 → ι3 → ι4 → ι5 → ι6 → M α β => ∀ a1 a2 a3 a4 a5 a6, Grows (f a1 a2 a3 a4 a5 a6)) :=
  admissible_pi _ fun a => admissible_apply (fun (_ : ι1) (f : ι2 → ι3 → ι4 → ι5 → ι6 → M α β) => ∀ a2 a3 a4 a5 a6, Grows (f a2 a3 a4 a5 a6)) a adm5
end

macro "grows" : tactic => `(tactic| repeat' first | infer_instance | (intro (_ : Nat)) | dsimp (failIfUnchanged := true) only | (refine Grows.bind (h := ?_) (hf := ?_)) | (refine Grows.onThrow (hx := ?_)) | split | intro _)

instance len (p : Nat) : Grows (SegTree.len p : M α Nat) := by
  unfold SegTree.len; grows
instance setLen (p : Nat) (v : Nat) : Grows (SegTree.setLen p v : M α Unit) := by
  unfold SegTree.setLen; grows
instance parent (p : Nat) : Grows (SegTree.parent p : M α Nat) := by
  unfold SegTree.parent; grows
instance setParent (p : Nat) (v : Nat) : Grows (SegTree.setParent p v : M α Unit) := by
  unfold SegTree.setParent; grows
instance pidx (p : Nat) : Grows (SegTree.pidx p : M α Nat) := by
  unfold SegTree.pidx; grows
instance setPidx (p : Nat) (v : Nat) : Grows (SegTree.setPidx p v : M α Unit) := by
  unfold SegTree.setPidx; grows
instance sizesAt (p : Nat) (i : Nat) : Grows (SegTree.sizesAt E p i : M α Nat) := by
  unfold SegTree.sizesAt; grows
instance setSizes (p : Nat) (i : Nat) (v : Nat) : Grows (SegTree.setSizes E p i v : M α Unit) := by
  unfold SegTree.setSizes; grows
instance ptrsAt (p : Nat) (i : Nat) : Grows (SegTree.ptrsAt E p i : M α Nat) := by
  unfold SegTree.ptrsAt; grows
instance setPtrs (p : Nat) (i : Nat) (v : Nat) : Grows (SegTree.setPtrs E p i v : M α Unit) := by
  unfold SegTree.setPtrs; grows
instance rdElem (p : Nat) (i : Nat) : Grows (SegTree.rdElem E p i : M α α) := by
  unfold SegTree.rdElem; grows
instance wrElem (p : Nat) (i : Nat) (v : α) : Grows (SegTree.wrElem E p i v : M α Unit) := by
  unfold SegTree.wrElem; grows
instance getRoot (o : Nat) : Grows (SegTree.getRoot o : M α Nat) := by
  unfold SegTree.getRoot; grows
instance getSize (o : Nat) : Grows (SegTree.getSize o : M α Nat) := by
  unfold SegTree.getSize; grows
instance getHeight (o : Nat) : Grows (SegTree.getHeight o : M α Nat) := by
  unfold SegTree.getHeight; grows
instance setRoot (o : Nat) (v : Nat) : Grows (SegTree.setRoot o v : M α Unit) := by
  unfold SegTree.setRoot; grows
instance setSize (o : Nat) (v : Nat) : Grows (SegTree.setSize o v : M α Unit) := by
  unfold SegTree.setSize; grows
instance setHeight (o : Nat) (v : Nat) : Grows (SegTree.setHeight o v : M α Unit) := by
  unfold SegTree.setHeight; grows
instance find_index_loop (p : Nat) (index : Nat) (size : Nat) (pos : Nat) : Grows (SegTree.find_index_loop E p index size pos : M α (Nat × Nat)) := by
  revert index size pos
  refine SegTree.find_index_loop.fixpoint_induct E p (fun f => ∀ (index : Nat) (size : Nat) (pos : Nat), Grows (f index size pos)) adm3 ?_
  intro f ih index size pos
  grows
instance find_index_leaf (p : Nat) (pos : Nat) : Grows (SegTree.find_index_leaf E p pos : M α Entry) := by
  unfold SegTree.find_index_leaf; grows
instance find_index_branch (p : Nat) (ht : Nat) (pos : Nat) : Grows (SegTree.find_index_branch E p ht pos : M α Entry) := by
  revert p ht pos
  refine SegTree.find_index_branch.fixpoint_induct E (fun f => ∀ (p : Nat) (ht : Nat) (pos : Nat), Grows (f p ht pos)) adm3 ?_
  intro f ih p ht pos
  grows
instance find_index_node (p : Nat) (ht : Nat) (pos : Nat) : Grows (SegTree.find_index_node E p ht pos : M α Entry) := by
  unfold SegTree.find_index_node; grows
instance find_index_root (p : Nat) (sz : Nat) (ht : Nat) (pos : Nat) : Grows (SegTree.find_index_root E p sz ht pos : M α Iter) := by
  unfold SegTree.find_index_root; grows
instance find_first_leaf (p : Nat) : Grows (SegTree.find_first_leaf E p : M α Entry) := by
  unfold SegTree.find_first_leaf; grows
instance find_first_branch (p : Nat) (ht : Nat) : Grows (SegTree.find_first_branch E p ht : M α Entry) := by
  revert p ht
  refine SegTree.find_first_branch.fixpoint_induct E (fun f => ∀ (p : Nat) (ht : Nat), Grows (f p ht)) adm2 ?_
  intro f ih p ht
  grows
instance find_first_node (p : Nat) (ht : Nat) : Grows (SegTree.find_first_node E p ht : M α Entry) := by
  unfold SegTree.find_first_node; grows
instance find_first_root (p : Nat) (sz : Nat) (ht : Nat) : Grows (SegTree.find_first_root E p sz ht : M α Iter) := by
  unfold SegTree.find_first_root; grows
instance find_last_segment (p : Nat) (sz : Nat) : Grows (SegTree.find_last_segment p sz : M α SegE) := by
  unfold SegTree.find_last_segment; grows
instance find_last_leaf (p : Nat) : Grows (SegTree.find_last_leaf E p : M α Entry) := by
  unfold SegTree.find_last_leaf; grows
instance find_last_branch (p : Nat) (ht : Nat) : Grows (SegTree.find_last_branch E p ht : M α Entry) := by
  revert p ht
  refine SegTree.find_last_branch.fixpoint_induct E (fun f => ∀ (p : Nat) (ht : Nat), Grows (f p ht)) adm2 ?_
  intro f ih p ht
  grows
instance find_last_node (p : Nat) (ht : Nat) : Grows (SegTree.find_last_node E p ht : M α Entry) := by
  unfold SegTree.find_last_node; grows
instance find_last_root (p : Nat) (sz : Nat) (ht : Nat) : Grows (SegTree.find_last_root E p sz ht : M α Iter) := by
  unfold SegTree.find_last_root; grows
instance find_end_leaf (p : Nat) : Grows (SegTree.find_end_leaf E p : M α Entry) := by
  unfold SegTree.find_end_leaf; grows
instance find_end_branch (p : Nat) (ht : Nat) : Grows (SegTree.find_end_branch E p ht : M α Entry) := by
  revert p ht
  refine SegTree.find_end_branch.fixpoint_induct E (fun f => ∀ (p : Nat) (ht : Nat), Grows (f p ht)) adm2 ?_
  intro f ih p ht
  grows
instance find_end_node (p : Nat) (ht : Nat) : Grows (SegTree.find_end_node E p ht : M α Entry) := by
  unfold SegTree.find_end_node; grows
instance find_end_root (p : Nat) (sz : Nat) (ht : Nat) : Grows (SegTree.find_end_root E p sz ht : M α Iter) := by
  unfold SegTree.find_end_root; grows
instance move_next_branch (e : Entry) (p : Nat) (index : Nat) (child_ht : Nat) : Grows (SegTree.move_next_branch E e p index child_ht : M α Entry) := by
  revert p index child_ht
  refine SegTree.move_next_branch.fixpoint_induct E e (fun f => ∀ (p : Nat) (index : Nat) (child_ht : Nat), Grows (f p index child_ht)) adm3 ?_
  intro f ih p index child_ht
  grows
instance move_next_leaf (e : Entry) : Grows (SegTree.move_next_leaf E e : M α Entry) := by
  unfold SegTree.move_next_leaf; grows
instance move_next_segment (e : Entry) : Grows (SegTree.move_next_segment E e : M α Entry) := by
  unfold SegTree.move_next_segment; grows
instance move_next_iterator (it : Iter) : Grows (SegTree.move_next_iterator E it : M α Iter) := by
  unfold SegTree.move_next_iterator; grows
instance move_prev_branch (p : Nat) (index : Nat) (child_ht : Nat) : Grows (SegTree.move_prev_branch E p index child_ht : M α Entry) := by
  revert p index child_ht
  refine SegTree.move_prev_branch.fixpoint_induct E (fun f => ∀ (p : Nat) (index : Nat) (child_ht : Nat), Grows (f p index child_ht)) adm3 ?_
  intro f ih p index child_ht
  grows
instance move_prev_leaf (e : Entry) : Grows (SegTree.move_prev_leaf E e : M α Entry) := by
  unfold SegTree.move_prev_leaf; grows
instance move_prev_segment (e : Entry) : Grows (SegTree.move_prev_segment E e : M α Entry) := by
  unfold SegTree.move_prev_segment; grows
instance move_prev_iterator (it : Iter) : Grows (SegTree.move_prev_iterator E it : M α Iter) := by
  unfold SegTree.move_prev_iterator; grows
instance scan_next (p : Nat) (index : Nat) (count : Nat) : Grows (SegTree.scan_next E p index count : M α (Nat × Nat × Nat ⊕ Nat)) := by
  revert index count
  refine SegTree.scan_next.fixpoint_induct E p (fun f => ∀ (index : Nat) (count : Nat), Grows (f index count)) adm2 ?_
  intro f ih index count
  grows
instance move_next_branch_count (base : Nat) (p : Nat) (index : Nat) (count : Nat) (child_ht : Nat) : Grows (SegTree.move_next_branch_count E base p index count child_ht : M α Entry) := by
  revert base p index count child_ht
  refine SegTree.move_next_branch_count.fixpoint_induct E (fun f => ∀ (base : Nat) (p : Nat) (index : Nat) (count : Nat) (child_ht : Nat), Grows (f base p index count child_ht)) adm5 ?_
  intro f ih base p index count child_ht
  grows
instance move_next_leaf_count (e : Entry) (count : Nat) : Grows (SegTree.move_next_leaf_count E e count : M α Entry) := by
  unfold SegTree.move_next_leaf_count; grows
instance move_next_segment_count (e : Entry) (count : Nat) : Grows (SegTree.move_next_segment_count E e count : M α Entry) := by
  unfold SegTree.move_next_segment_count; grows
instance move_next_iterator_count (it : Iter) (count : Nat) : Grows (SegTree.move_next_iterator_count E it count : M α Iter) := by
  unfold SegTree.move_next_iterator_count; grows
instance scan_prev (p : Nat) (index : Nat) (count : Nat) : Grows (SegTree.scan_prev E p index count : M α (Nat × Nat × Nat ⊕ Nat)) := by
  revert index count
  refine SegTree.scan_prev.fixpoint_induct E p (fun f => ∀ (index : Nat) (count : Nat), Grows (f index count)) adm2 ?_
  intro f ih index count
  grows
instance move_prev_branch_count (p : Nat) (index : Nat) (count : Nat) (child_ht : Nat) : Grows (SegTree.move_prev_branch_count E p index count child_ht : M α Entry) := by
  revert p index count child_ht
  refine SegTree.move_prev_branch_count.fixpoint_induct E (fun f => ∀ (p : Nat) (index : Nat) (count : Nat) (child_ht : Nat), Grows (f p index count child_ht)) adm4 ?_
  intro f ih p index count child_ht
  grows
instance move_prev_leaf_count (e : Entry) (count : Nat) : Grows (SegTree.move_prev_leaf_count E e count : M α Entry) := by
  unfold SegTree.move_prev_leaf_count; grows
instance move_prev_segment_count (e : Entry) (count : Nat) : Grows (SegTree.move_prev_segment_count E e count : M α Entry) := by
  unfold SegTree.move_prev_segment_count; grows
instance move_prev_iterator_count (it : Iter) (count : Nat) : Grows (SegTree.move_prev_iterator_count E it count : M α Iter) := by
  unfold SegTree.move_prev_iterator_count; grows
instance move_iterator_count (it : Iter) (diff : Int) : Grows (SegTree.move_iterator_count E it diff : M α Iter) := by
  unfold SegTree.move_iterator_count; grows
instance dereference (it : Iter) : Grows (SegTree.dereference E it : M α α) := by
  unfold SegTree.dereference; grows
instance dereference_count (it : Iter) (diff : Int) : Grows (SegTree.dereference_count E it diff : M α α) := by
  unfold SegTree.dereference_count; grows
instance move_after_segment (it : Iter) : Grows (SegTree.move_after_segment E it : M α Iter) := by
  unfold SegTree.move_after_segment; grows
instance move_after_segment_count (it : Iter) (count : Nat) : Grows (SegTree.move_after_segment_count E it count : M α Iter) := by
  unfold SegTree.move_after_segment_count; grows
instance move_before_segment (it : Iter) : Grows (SegTree.move_before_segment E it : M α Iter) := by
  unfold SegTree.move_before_segment; grows
instance move_before_segment_count (it : Iter) (count : Nat) : Grows (SegTree.move_before_segment_count E it count : M α Iter) := by
  unfold SegTree.move_before_segment_count; grows
instance allocate_segment (o : Nat) : Grows (SegTree.allocate_segment E o : M α Nat) := by
  unfold SegTree.allocate_segment; grows
instance allocate_node (o : Nat) : Grows (SegTree.allocate_node E o : M α Nat) := by
  unfold SegTree.allocate_node; grows
instance destroy_segment (p : Nat) (i : Nat) : Grows (SegTree.destroy_segment E p i : M α Unit) := by
  unfold SegTree.destroy_segment; grows
instance destroy_node (p : Nat) (i : Nat) : Grows (SegTree.destroy_node E p i : M α Unit) := by
  unfold SegTree.destroy_node; grows
instance forN (f : Nat → M α Unit) (n : Nat) (i : Nat) [hf : ∀ i, Grows (f i)] : Grows (SegTree.forN f n i) := by
  induction n generalizing i with
  | zero => exact pure _
  | succ n ih => exact bind (hf := fun _ => ih _)
instance construct_segment (p : Nat) (i : Nat) (v : α) : Grows (SegTree.construct_segment E p i v : M α Unit) := by
  unfold SegTree.construct_segment; grows
instance construct_leaf (p : Nat) (i : Nat) (csz : Nat) (child : Nat) : Grows (SegTree.construct_leaf E p i csz child : M α Nat) := by
  unfold SegTree.construct_leaf; grows
instance construct_branch (p : Nat) (i : Nat) (csz : Nat) (child : Nat) : Grows (SegTree.construct_branch E p i csz child : M α Nat) := by
  unfold SegTree.construct_branch; grows
instance assign_segment (p : Nat) (i : Nat) (v : α) : Grows (SegTree.assign_segment E p i v : M α Unit) := by
  unfold SegTree.assign_segment; grows
instance assign_leaf (p : Nat) (i : Nat) (csz : Nat) (child : Nat) : Grows (SegTree.assign_leaf E p i csz child : M α Nat) := by
  unfold SegTree.assign_leaf; grows
instance assign_branch (p : Nat) (i : Nat) (csz : Nat) (child : Nat) : Grows (SegTree.assign_branch E p i csz child : M α Nat) := by
  unfold SegTree.assign_branch; grows
instance move_assign_segment (src : Nat) (si : Nat) (dst : Nat) (di : Nat) : Grows (SegTree.move_assign_segment E src si dst di : M α Unit) := by
  unfold SegTree.move_assign_segment; grows
instance move_assign_leaf (src : Nat) (si : Nat) (dst : Nat) (di : Nat) : Grows (SegTree.move_assign_leaf E src si dst di : M α Nat) := by
  unfold SegTree.move_assign_leaf; grows
instance move_assign_branch (src : Nat) (si : Nat) (dst : Nat) (di : Nat) : Grows (SegTree.move_assign_branch E src si dst di : M α Nat) := by
  unfold SegTree.move_assign_branch; grows
instance move_segment (src : Nat) (si : Nat) (dst : Nat) (di : Nat) : Grows (SegTree.move_segment E src si dst di : M α Unit) := by
  unfold SegTree.move_segment; grows
instance move_leaf (src : Nat) (si : Nat) (dst : Nat) (di : Nat) : Grows (SegTree.move_leaf E src si dst di : M α Nat) := by
  unfold SegTree.move_leaf; grows
instance move_branch (src : Nat) (si : Nat) (dst : Nat) (di : Nat) : Grows (SegTree.move_branch E src si dst di : M α Nat) := by
  unfold SegTree.move_branch; grows
instance range_loop (step : Nat → Nat → M α Nat) (src : Nat) (last : Nat) (dst : Nat) (acc : Nat) [hs : ∀ a b, Grows (step a b)] : Grows (SegTree.range_loop step src last dst acc : M α Nat) := by
  revert src dst acc
  refine SegTree.range_loop.fixpoint_induct step last (fun f => ∀ (src : Nat) (dst : Nat) (acc : Nat), Grows (f src dst acc)) adm3 ?_
  intro f ih src dst acc
  grows
instance forward_loop (step : Nat → Nat → M α Unit) (first : Nat) (src : Nat) (dst : Nat) [hs : ∀ a b, Grows (step a b)] : Grows (SegTree.forward_loop step first src dst : M α Unit) := by
  revert src dst
  refine SegTree.forward_loop.fixpoint_induct step first (fun f => ∀ (src : Nat) (dst : Nat), Grows (f src dst)) adm2 ?_
  intro f ih src dst
  grows
instance backward_loop (step : Nat → Nat → M α Unit) (src : Nat) (dst : Nat) (last : Nat) [hs : ∀ a b, Grows (step a b)] : Grows (SegTree.backward_loop step src dst last : M α Unit) := by
  revert src dst
  refine SegTree.backward_loop.fixpoint_induct step last (fun f => ∀ (src : Nat) (dst : Nat), Grows (f src dst)) adm2 ?_
  intro f ih src dst
  grows
instance memcpy_segment (src : Nat) (si : Nat) (dst : Nat) (di : Nat) (n : Nat) : Grows (SegTree.memcpy_segment E src si dst di n : M α Unit) := by
  unfold SegTree.memcpy_segment; grows
instance construct_range_segment (src : Nat) (si : Nat) (dst : Nat) (di : Nat) (count : Nat) : Grows (SegTree.construct_range_segment E src si dst di count : M α Unit) := by
  unfold SegTree.construct_range_segment; grows
instance construct_range_leaf (src : Nat) (si : Nat) (dst : Nat) (di : Nat) (count : Nat) : Grows (SegTree.construct_range_leaf E src si dst di count : M α Nat) := by
  unfold SegTree.construct_range_leaf; grows
instance construct_range_branch (src : Nat) (si : Nat) (dst : Nat) (di : Nat) (count : Nat) : Grows (SegTree.construct_range_branch E src si dst di count : M α Nat) := by
  unfold SegTree.construct_range_branch; grows
instance assign_forward_segment (p : Nat) (length : Nat) (index : Nat) (distance : Nat) : Grows (SegTree.assign_forward_segment E p length index distance : M α Unit) := by
  unfold SegTree.assign_forward_segment; grows
instance assign_forward_leaf (p : Nat) (length : Nat) (index : Nat) (distance : Nat) : Grows (SegTree.assign_forward_leaf E p length index distance : M α Unit) := by
  unfold SegTree.assign_forward_leaf; grows
instance assign_forward_branch (p : Nat) (length : Nat) (index : Nat) (distance : Nat) : Grows (SegTree.assign_forward_branch E p length index distance : M α Unit) := by
  unfold SegTree.assign_forward_branch; grows
instance assign_backward_segment (p : Nat) (length : Nat) (index : Nat) (distance : Nat) : Grows (SegTree.assign_backward_segment E p length index distance : M α Unit) := by
  unfold SegTree.assign_backward_segment; grows
instance assign_backward_leaf (p : Nat) (length : Nat) (index : Nat) (distance : Nat) : Grows (SegTree.assign_backward_leaf E p length index distance : M α Unit) := by
  unfold SegTree.assign_backward_leaf; grows
instance assign_backward_branch (p : Nat) (length : Nat) (index : Nat) (distance : Nat) : Grows (SegTree.assign_backward_branch E p length index distance : M α Unit) := by
  unfold SegTree.assign_backward_branch; grows
instance update_sizes (o : Nat) (p : Nat) (index : Nat) (sz : Nat) : Grows (SegTree.update_sizes E o p index sz : M α Unit) := by
  revert p index
  refine SegTree.update_sizes.fixpoint_induct E o sz (fun f => ∀ (p : Nat) (index : Nat), Grows (f p index)) adm2 ?_
  intro f ih p index
  grows
instance increment_sizes (o : Nat) (p : Nat) (index : Nat) : Grows (SegTree.increment_sizes E o p index : M α Unit) := by
  unfold SegTree.increment_sizes; grows
instance decrement_sizes (o : Nat) (p : Nat) (index : Nat) : Grows (SegTree.decrement_sizes E o p index : M α Unit) := by
  unfold SegTree.decrement_sizes; grows
instance alloc_nodes_loop (o : Nat) (p : Nat) (segment_alloc : Nat) (alloc : Nat) : Grows (SegTree.alloc_nodes_loop E o p segment_alloc alloc : M α Nat) := by
  revert p alloc
  refine SegTree.alloc_nodes_loop.fixpoint_induct E o segment_alloc (fun f => ∀ (p : Nat) (alloc : Nat), Grows (f p alloc)) adm2 ?_
  intro f ih p alloc
  grows
instance alloc_nodes_single (o : Nat) (p : Nat) (segment_alloc : Nat) : Grows (SegTree.alloc_nodes_single E o p segment_alloc : M α Nat) := by
  unfold SegTree.alloc_nodes_single; grows
instance insert_single_branch (o : Nat) (base : Nat) (p : Nat) (index : Nat) (alloc : Nat) (child_pointer : Nat) (child_size : Nat) : Grows (SegTree.insert_single_branch E o base p index alloc child_pointer child_size : M α Unit) := by
  revert base p index alloc child_pointer child_size
  refine SegTree.insert_single_branch.fixpoint_induct E o (fun f => ∀ (base : Nat) (p : Nat) (index : Nat) (alloc : Nat) (child_pointer : Nat) (child_size : Nat), Grows (f base p index alloc child_pointer child_size)) adm6 ?_
  intro f ih base p index alloc child_pointer child_size
  grows
instance insert_single_leaf (o : Nat) (entry : Entry) (base : Nat) (p : Nat) (index : Nat) (alloc : Nat) (child_pointer : Nat) (child_size : Nat) : Grows (SegTree.insert_single_leaf E o entry base p index alloc child_pointer child_size : M α Entry) := by
  unfold SegTree.insert_single_leaf; grows
instance insert_single_segment (o : Nat) (entry : Entry) (value : α) : Grows (SegTree.insert_single_segment E o entry value : M α Entry) := by
  unfold SegTree.insert_single_segment; grows
instance insert_single_iterator (o : Nat) (it : Iter) (value : α) : Grows (SegTree.insert_single_iterator E o it value : M α Iter) := by
  unfold SegTree.insert_single_iterator; grows
instance find_index (o : Nat) (pos : Nat) : Grows (SegTree.find_index E o pos : M α Iter) := by
  unfold SegTree.find_index; grows
instance find_first (o : Nat) : Grows (SegTree.find_first E o : M α Iter) := by
  unfold SegTree.find_first; grows
instance find_last (o : Nat) : Grows (SegTree.find_last E o : M α Iter) := by
  unfold SegTree.find_last; grows
instance find_end (o : Nat) : Grows (SegTree.find_end E o : M α Iter) := by
  unfold SegTree.find_end; grows
instance copyVal (v : α) : Grows (SegTree.copyVal E v : M α α) := still fun h => by
  unfold SegTree.copyVal at h; split at h
  · cases h; exact ⟨rfl, fun _ => Iff.rfl⟩
  · split at h
    · cases h
    · cases h; exact ⟨rfl, fun _ => Iff.rfl⟩
instance copyAssign (p : Nat) (i : Nat) (v : α) : Grows (SegTree.copyAssign E p i v : M α Unit) := by
  unfold SegTree.copyAssign; grows
instance moveFrom (p : Nat) (i : Nat) : Grows (SegTree.moveFrom E p i : M α α) := by
  unfold SegTree.moveFrom; grows
instance emplace_single (o : Nat) (it : Iter) (mk : M α α) [hmk : Grows mk] : Grows (SegTree.emplace_single E o it mk : M α Iter) := by
  unfold SegTree.emplace_single; grows

/-- the source of a range only does what functions may -/
class _root_.SegTree.GrowsS {σ : Type} (S : Src α σ) : Prop where
  read : ∀ st, Grows (S.read st)
  next : ∀ st, Grows (S.next st)
instance srcRead {σ : Type} {S : Src α σ} [h : GrowsS S] (st : σ) : Grows (S.read st) := h.read st
instance srcNext {σ : Type} {S : Src α σ} [h : GrowsS S] (st : σ) : Grows (S.next st) := h.next st
instance emplace_count_loop (o : Nat) (mk : M α α) [hmk : Grows mk] : ∀ (n : Nat) (it : Iter), Grows (SegTree.emplace_count_loop E o mk n it)
  | 0, it => pure _
  | n + 1, it => by
    have ih := fun it => emplace_count_loop o mk n it
    unfold SegTree.emplace_count_loop; grows
instance emplace_count (o : Nat) (it : Iter) (count : Nat) (mk : M α α) [hmk : Grows mk] : Grows (SegTree.emplace_count E o it count mk : M α Iter) := by
  unfold SegTree.emplace_count; grows
instance emplace_range_loop {σ : Type} (S : Src α σ) (o : Nat) (it : Iter) (first : σ) (count : Nat) [hS : GrowsS S] : Grows (SegTree.emplace_range_loop E S o it first count : M α (Iter × Nat)) := by
  revert it first count
  refine SegTree.emplace_range_loop.fixpoint_induct E S o (fun f => ∀ (it : Iter) (first : σ) (count : Nat), Grows (f it first count)) adm3 ?_
  intro f ih it first count
  grows
instance emplace_range {σ : Type} (S : Src α σ) (o : Nat) (it : Iter) (first : σ) [hS : GrowsS S] : Grows (SegTree.emplace_range E S o it first : M α Iter) := by
  unfold SegTree.emplace_range; grows

instance listSrc : GrowsS (SegTree.listSrc E) := ⟨fun l => by
    cases l
    · exact ub _
    · exact copyVal _, fun _ => pure _⟩
instance copySrc (last : Iter) : GrowsS (SegTree.copySrc E last) := ⟨fun _ => inferInstanceAs (Grows (_ >>= _)), fun _ => move_next_iterator _⟩
instance moveSrc (last : Iter) : GrowsS (SegTree.moveSrc E last) := ⟨fun _ => moveFrom _ _, fun _ => move_next_iterator _⟩

instance delegating (o : Nat) (alloc : Nat) (body : M α Unit) [hb : Grows body] : Grows (SegTree.delegating E o alloc body : M α Unit) := by
  unfold SegTree.delegating; grows
instance ctor_count (o : Nat) (alloc : Nat) (count : Nat) (mk : M α α) [hmk : Grows mk] : Grows (SegTree.ctor_count E o alloc count mk : M α Unit) := by
  unfold SegTree.ctor_count; grows
instance ctor_range {σ : Type} (S : Src α σ) (o : Nat) (alloc : Nat) (first : σ) [hS : GrowsS S] : Grows (SegTree.ctor_range E S o alloc first : M α Unit) := by
  unfold SegTree.ctor_range; grows
instance ctor_copy_alloc (o : Nat) (other : Nat) (alloc : Nat) : Grows (SegTree.ctor_copy_alloc E o other alloc : M α Unit) := by
  unfold SegTree.ctor_copy_alloc; grows
instance ctor_copy (o : Nat) (other : Nat) : Grows (SegTree.ctor_copy E o other : M α Unit) := by
  unfold SegTree.ctor_copy; grows
instance ctor_move (o : Nat) (other : Nat) : Grows (SegTree.ctor_move o other : M α Unit) := by
  unfold SegTree.ctor_move; grows
instance at_ (o : Nat) (pos : Nat) : Grows (SegTree.at_ E o pos : M α α) := by
  unfold SegTree.at_; grows
instance index_op (o : Nat) (pos : Nat) : Grows (SegTree.index_op E o pos : M α α) := by
  unfold SegTree.index_op; grows
instance index_set (o : Nat) (pos : Nat) (v : α) : Grows (SegTree.index_set E o pos v : M α Unit) := by
  unfold SegTree.index_set; grows
instance deref_set (it : Iter) (v : α) : Grows (SegTree.deref_set E it v : M α Unit) := by
  unfold SegTree.deref_set; grows
instance deref_set_rv (it : Iter) (v : α) : Grows (SegTree.deref_set_rv E it v : M α Unit) := by
  unfold SegTree.deref_set_rv; grows
instance front (o : Nat) : Grows (SegTree.front E o : M α α) := by
  unfold SegTree.front; grows
instance back (o : Nat) : Grows (SegTree.back E o : M α α) := by
  unfold SegTree.back; grows
instance begin_ (o : Nat) : Grows (SegTree.begin_ E o : M α Iter) := by
  unfold SegTree.begin_; grows
instance penultimate (o : Nat) : Grows (SegTree.penultimate E o : M α Iter) := by
  unfold SegTree.penultimate; grows
instance end_ (o : Nat) : Grows (SegTree.end_ E o : M α Iter) := by
  unfold SegTree.end_; grows
instance rev_deref (it : Iter) : Grows (SegTree.rev_deref E it : M α α) := by
  unfold SegTree.rev_deref; grows
instance nth (o : Nat) (pos : Nat) : Grows (SegTree.nth E o pos : M α Iter) := by
  unfold SegTree.nth; grows
instance empty (o : Nat) : Grows (SegTree.empty o : M α Bool) := by
  unfold SegTree.empty; grows
instance size (o : Nat) : Grows (SegTree.size o : M α Nat) := by
  unfold SegTree.size; grows
instance height (o : Nat) : Grows (SegTree.height o : M α Nat) := by
  unfold SegTree.height; grows
instance get_allocator (o : Nat) : Grows (SegTree.get_allocator o : M α Nat) := by
  unfold SegTree.get_allocator; grows
instance insert (o : Nat) (it : Iter) (v : α) : Grows (SegTree.insert E o it v : M α Iter) := by
  unfold SegTree.insert; grows
instance insert_rv (o : Nat) (it : Iter) (v : α) : Grows (SegTree.insert_rv E o it v : M α Iter) := by
  unfold SegTree.insert_rv; grows
instance insert_alias (o : Nat) (it : Iter) (src : Iter) : Grows (SegTree.insert_alias E o it src : M α Iter) := by
  unfold SegTree.insert_alias; grows
instance insert_fill (o : Nat) (it : Iter) (count : Nat) (v : α) : Grows (SegTree.insert_fill E o it count v : M α Iter) := by
  unfold SegTree.insert_fill; grows
instance insert_fill_alias (o : Nat) (it : Iter) (count : Nat) (src : Iter) : Grows (SegTree.insert_fill_alias E o it count src : M α Iter) := by
  unfold SegTree.insert_fill_alias; grows
instance insert_list (o : Nat) (it : Iter) (vs : List α) : Grows (SegTree.insert_list E o it vs : M α Iter) := by
  unfold SegTree.insert_list; grows
instance push_back (o : Nat) (v : α) : Grows (SegTree.push_back E o v : M α Unit) := by
  unfold SegTree.push_back; grows
instance push_back_rv (o : Nat) (v : α) : Grows (SegTree.push_back_rv E o v : M α Unit) := by
  unfold SegTree.push_back_rv; grows
instance push_front_rv (o : Nat) (v : α) : Grows (SegTree.push_front_rv E o v : M α Unit) := by
  unfold SegTree.push_front_rv; grows
instance push_front (o : Nat) (v : α) : Grows (SegTree.push_front E o v : M α Unit) := by
  unfold SegTree.push_front; grows
instance read_range (first : Iter) (last : Iter) : Grows (SegTree.read_range E first last : M α (List α)) := by
  revert first
  refine SegTree.read_range.fixpoint_induct E last (fun f => ∀ (first : Iter), Grows (f first)) adm1 ?_
  intro f ih first
  grows
instance write_range : ∀ (l : List α) (first : Iter), Grows (SegTree.write_range E first l)
  | [], _ => pure _
  | v :: l, first => by
    have ih := write_range l
    unfold SegTree.write_range; grows
instance std_inplace_merge (comp : α → α → Bool) (first : Iter) (mid : Iter) (last : Iter) : Grows (SegTree.std_inplace_merge E comp first mid last : M α Unit) := by
  unfold SegTree.std_inplace_merge; grows
instance std_stable_sort (comp : α → α → Bool) (first : Iter) (last : Iter) : Grows (SegTree.std_stable_sort E comp first last : M α Unit) := by
  unfold SegTree.std_stable_sort; grows
instance std_find_if (p : α → Bool) (first : Iter) (last : Iter) : Grows (SegTree.std_find_if E p first last : M α Iter) := by
  revert first
  refine SegTree.std_find_if.fixpoint_induct E p last (fun f => ∀ (first : Iter), Grows (f first)) adm1 ?_
  intro f ih first
  grows
instance iter_move_assign (src : Iter) (dst : Iter) : Grows (SegTree.iter_move_assign E src dst : M α Unit) := by
  unfold SegTree.iter_move_assign; grows
instance std_remove_loop (p : α → Bool) (first : Iter) (i : Iter) (last : Iter) : Grows (SegTree.std_remove_loop E p first i last : M α Iter) := by
  revert first i
  refine SegTree.std_remove_loop.fixpoint_induct E p last (fun f => ∀ (first : Iter) (i : Iter), Grows (f first i)) adm2 ?_
  intro f ih first i
  grows
instance std_remove_if (p : α → Bool) (first : Iter) (last : Iter) : Grows (SegTree.std_remove_if E p first last : M α Iter) := by
  unfold SegTree.std_remove_if; grows
instance iter_swap (a : Iter) (b : Iter) : Grows (SegTree.iter_swap E a b : M α Unit) := by
  unfold SegTree.iter_swap; grows
instance std_reverse_loop (first : Iter) (last : Iter) : Grows (SegTree.std_reverse_loop E first last : M α Unit) := by
  revert first last
  refine SegTree.std_reverse_loop.fixpoint_induct E (fun f => ∀ (first : Iter) (last : Iter), Grows (f first last)) adm2 ?_
  intro f ih first last
  grows
instance std_reverse (first : Iter) (last : Iter) : Grows (SegTree.std_reverse E first last : M α Unit) := by
  unfold SegTree.std_reverse; grows
instance reverse (o : Nat) : Grows (SegTree.reverse E o : M α Unit) := by
  unfold SegTree.reverse; grows
instance std_unique_loop (p : α → α → Bool) (result : Iter) (first : Iter) (last : Iter) : Grows (SegTree.std_unique_loop E p result first last : M α Iter) := by
  revert result first
  refine SegTree.std_unique_loop.fixpoint_induct E p last (fun f => ∀ (result : Iter) (first : Iter), Grows (f result first)) adm2 ?_
  intro f ih result first
  grows
instance std_unique (p : α → α → Bool) (first : Iter) (last : Iter) : Grows (SegTree.std_unique E p first last : M α Iter) := by
  unfold SegTree.std_unique; grows
instance std_equal (eq : α → α → Bool) (first1 : Iter) (last1 : Iter) (first2 : Iter) : Grows (SegTree.std_equal E eq first1 last1 first2 : M α Bool) := by
  revert first1 first2
  refine SegTree.std_equal.fixpoint_induct E eq last1 (fun f => ∀ (first1 : Iter) (first2 : Iter), Grows (f first1 first2)) adm2 ?_
  intro f ih first1 first2
  grows
instance op_eq (eq : α → α → Bool) (a : Nat) (b : Nat) : Grows (SegTree.op_eq E eq a b : M α Bool) := by
  unfold SegTree.op_eq; grows
instance op_ne (eq : α → α → Bool) (a : Nat) (b : Nat) : Grows (SegTree.op_ne E eq a b : M α Bool) := by
  unfold SegTree.op_ne; grows
instance std_lex (lt : α → α → Bool) (first1 : Iter) (last1 : Iter) (first2 : Iter) (last2 : Iter) : Grows (SegTree.std_lex E lt first1 last1 first2 last2 : M α Bool) := by
  revert first1 first2
  refine SegTree.std_lex.fixpoint_induct E lt last1 last2 (fun f => ∀ (first1 : Iter) (first2 : Iter), Grows (f first1 first2)) adm2 ?_
  intro f ih first1 first2
  grows
instance op_lt (lt : α → α → Bool) (a : Nat) (b : Nat) : Grows (SegTree.op_lt E lt a b : M α Bool) := by
  unfold SegTree.op_lt; grows
instance op_le (lt : α → α → Bool) (a : Nat) (b : Nat) : Grows (SegTree.op_le E lt a b : M α Bool) := by
  unfold SegTree.op_le; grows
instance op_gt (lt : α → α → Bool) (a : Nat) (b : Nat) : Grows (SegTree.op_gt E lt a b : M α Bool) := by
  unfold SegTree.op_gt; grows
instance op_ge (lt : α → α → Bool) (a : Nat) (b : Nat) : Grows (SegTree.op_ge E lt a b : M α Bool) := by
  unfold SegTree.op_ge; grows
instance it_add (it : Iter) (d : Int) : Grows (SegTree.it_add E it d : M α Iter) := by
  unfold SegTree.it_add; grows
instance it_sub (it : Iter) (d : Int) : Grows (SegTree.it_sub E it d : M α Iter) := by
  unfold SegTree.it_sub; grows
instance it_index (it : Iter) (d : Int) : Grows (SegTree.it_index E it d : M α α) := by
  unfold SegTree.it_index; grows

end Grows

end SegTree
