/-
  GENERATED by tools/gen_cost.py: the counting copy of every function erases to
  the model's function.
-/
import Verif.Cost.Model
set_option autoImplicit false

namespace SegTree
open Lean.Order

variable {α β γ : Type} [Weights] {E : Env α}

theorem CRes.erase_add (n : Nat) (r : CRes α β) : (r.add n).erase = r.erase := by
  cases r <;> rfl

/-- counting version of an input range -/
class SimSrc {σ : Type} (S : SegTree.Src α σ) (T : Cost.Src α σ) : Prop where
  done : ∀ x, T.done x = S.done x
  read : ∀ x, Sim (S.read x) (T.read x)
  next : ∀ x, Sim (S.next x) (T.next x)

namespace Sim

instance pure (v : β) : Sim (Pure.pure v : M α β) (Pure.pure v : C α β) := ⟨fun _ => .inr rfl⟩
instance ub (k : UB) : Sim (M.ub k : M α β) (C.ub k : C α β) := ⟨fun _ => .inr rfl⟩
instance thr (e : Exn) : Sim (M.throw e : M α β) (C.throw e : C α β) := ⟨fun _ => .inr rfl⟩
theorem lift (c : Nat) (x : M α β) : Sim x (C.lift c x) := by
  refine ⟨fun m => .inr ?_⟩
  unfold C.lift
  cases x m <;> rfl
instance ite {c : Prop} [Decidable c] {x y : M α β} {x' y' : C α β} [Sim x x'] [Sim y y'] :
    Sim (if c then x else y) (if c then x' else y') := by
  split <;> assumption

instance bind {x : M α β} {f : β → M α γ} {y : C α β} {g : β → C α γ} [h : Sim x y] [hf : ∀ v, Sim (f v) (g v)] :
    Sim (x >>= f) (y >>= g) := by
  refine ⟨fun m => ?_⟩
  show M.bind x f m = _ ∨ (C.bind y g m).erase = M.bind x f m
  unfold M.bind C.bind
  rcases h.run m with hm | hm
  · left; rw [hm]
  · cases hy : y m with
    | ok v m1 n =>
      rw [hy] at hm
      simp only [CRes.erase] at hm
      rw [← hm]
      simp only [CRes.erase_add]
      exact (hf v).run m1
    | throw e m1 n => rw [hy] at hm; simp only [CRes.erase] at hm; rw [← hm]; exact .inr rfl
    | ub k => rw [hy] at hm; simp only [CRes.erase] at hm; rw [← hm]; exact .inr rfl
    | div => rw [hy] at hm; simp only [CRes.erase] at hm; rw [← hm]; exact .inl rfl

theorem tickBind {x : M α γ} {g : Unit → C α γ} (n : Nat) [h : Sim x (g ())] : Sim x (C.tick n >>= g) := by
  refine ⟨fun m => ?_⟩
  show _ ∨ (C.bind (C.tick n) g m).erase = _
  simp only [C.bind, C.tick, CRes.erase_add]
  exact h.run m

instance onThrow {x : M α β} {h : M α Unit} {x' : C α β} {h' : C α Unit} [hx : Sim x x'] [hh : Sim h h'] :
    Sim (M.onThrow x h) (C.onThrow x' h') := by
  refine ⟨fun m => ?_⟩
  unfold M.onThrow C.onThrow
  rcases hx.run m with hm | hm
  · left; rw [hm]
  · cases hy : x' m with
    | ok v m1 n => rw [hy] at hm; simp only [CRes.erase] at hm; rw [← hm]; exact .inr rfl
    | throw e m1 n =>
      rw [hy] at hm; simp only [CRes.erase] at hm; rw [← hm]
      simp only
      rcases hh.run m1 with hk | hk
      · left; rw [hk]
      · cases hz : h' m1 with
        | ok v m2 k => rw [hz] at hk; simp only [CRes.erase] at hk; rw [← hk]; exact .inr rfl
        | throw e2 m2 k => rw [hz] at hk; simp only [CRes.erase] at hk; rw [← hk]; exact .inr rfl
        | ub k => rw [hz] at hk; simp only [CRes.erase] at hk; rw [← hk]; exact .inr rfl
        | div => rw [hz] at hk; simp only [CRes.erase] at hk; rw [← hk]; exact .inl rfl
    | ub k => rw [hy] at hm; simp only [CRes.erase] at hm; rw [← hm]; exact .inr rfl
    | div => rw [hy] at hm; simp only [CRes.erase] at hm; rw [← hm]; exact .inl rfl

theorem admissible (y : C α β) : Lean.Order.admissible (fun x : M α β => Sim x y) := by
  have : (fun x : M α β => Sim x y) = fun x => ∀ m, x m = .div ∨ (y m).erase = x m := by
    funext x; exact propext ⟨fun h => h.run, fun h => ⟨h⟩⟩
  rw [this]
  apply admissible_pi
  intro m
  exact admissible_apply (fun m r => r = .div ∨ (y m).erase = r) m (admissible_flatOrder _ (.inl rfl))

section
variable {ι1 ι2 ι3 ι4 ι5 ι6 ι7 : Type}
theorem adm1 (g : ι1 → C α β) : Lean.Order.admissible (fun f : ι1 → M α β => ∀ a, Sim (f a) (g a)) :=
  admissible_pi _ fun a => admissible_apply (fun a y => Sim y (g a)) a (admissible _)
theorem adm2 (g : ι1 → ι2 → C α β) :
    Lean.Order.admissible (fun f : ι1 → ι2 → M α β => ∀ a1 a2, Sim (f a1 a2) (g a1 a2)) :=
  admissible_pi _ fun a => admissible_apply (fun (a : ι1) (f : ι2 → M α β) => ∀ a2, Sim (f a2) (g a a2)) a (adm1 _)
theorem adm3 (g : ι1 → ι2 → ι3 → C α β) :
    Lean.Order.admissible (fun f : ι1 → ι2 → ι3 → M α β => ∀ a1 a2 a3, Sim (f a1 a2 a3) (g a1 a2 a3)) :=
  admissible_pi _ fun a => admissible_apply
    (fun (a : ι1) (f : ι2 → ι3 → M α β) => ∀ a2 a3, Sim (f a2 a3) (g a a2 a3)) a (adm2 _)
theorem adm4 (g : ι1 → ι2 → ι3 → ι4 → C α β) :
    Lean.Order.admissible (fun f : ι1 → ι2 → ι3 → ι4 → M α β => ∀ a1 a2 a3 a4, Sim (f a1 a2 a3 a4) (g a1 a2 a3 a4)) :=
  admissible_pi _ fun a => admissible_apply
    (fun (a : ι1) (f : ι2 → ι3 → ι4 → M α β) => ∀ a2 a3 a4, Sim (f a2 a3 a4) (g a a2 a3 a4)) a (adm3 _)
theorem adm5 (g : ι1 → ι2 → ι3 → ι4 → ι5 → C α β) :
    Lean.Order.admissible (fun f : ι1 → ι2 → ι3 → ι4 → ι5 → M α β =>
      ∀ a1 a2 a3 a4 a5, Sim (f a1 a2 a3 a4 a5) (g a1 a2 a3 a4 a5)) :=
  admissible_pi _ fun a => admissible_apply
    (fun (a : ι1) (f : ι2 → ι3 → ι4 → ι5 → M α β) => ∀ a2 a3 a4 a5, Sim (f a2 a3 a4 a5) (g a a2 a3 a4 a5)) a (adm4 _)
theorem adm6 (g : ι1 → ι2 → ι3 → ι4 → ι5 → ι6 → C α β) :
    Lean.Order.admissible (fun f : ι1 → ι2 → ι3 → ι4 → ι5 → ι6 → M α β =>
      ∀ a1 a2 a3 a4 a5 a6, Sim (f a1 a2 a3 a4 a5 a6) (g a1 a2 a3 a4 a5 a6)) :=
  admissible_pi _ fun a => admissible_apply
    (fun (a : ι1) (f : ι2 → ι3 → ι4 → ι5 → ι6 → M α β) =>
      ∀ a2 a3 a4 a5 a6, Sim (f a2 a3 a4 a5 a6) (g a a2 a3 a4 a5 a6)) a (adm5 _)
end

set_option synthInstance.maxSize 2000
set_option synthInstance.maxHeartbeats 200000

/-- walk through both programs in parallel -/
macro "sim" : tactic => `(tactic| repeat' first
  | infer_instance
  | (intro (_ : Nat))
  | dsimp (failIfUnchanged := true) only
  | (refine Sim.bind (h := ?_) (hf := ?_))
  | (refine Sim.onThrow (hx := ?_) (hh := ?_))
  | (split <;> simp (failIfUnchanged := true) only [*, ↓reduceIte])
  | split
  | intro _)

instance usub (a b : Nat) : Sim (SegTree.usub a b : M α Nat) (Cost.usub a b) := Sim.lift _ _
instance rdNode (p : Nat) : Sim (SegTree.rdNode p : M α Node) (Cost.rdNode p) := Sim.lift _ _
instance wrNode (p : Nat) (n : Node) : Sim (SegTree.wrNode p n : M α Unit) (Cost.wrNode p n) := Sim.lift _ _
instance len (p : Nat) : Sim (SegTree.len p : M α Nat) (Cost.len p) := by
  unfold SegTree.len Cost.len; sim
instance setLen (p : Nat) (v : Nat) : Sim (SegTree.setLen p v : M α Unit) (Cost.setLen p v) := by
  unfold SegTree.setLen Cost.setLen; sim
instance parent (p : Nat) : Sim (SegTree.parent p : M α Nat) (Cost.parent p) := by
  unfold SegTree.parent Cost.parent; sim
instance setParent (p : Nat) (v : Nat) : Sim (SegTree.setParent p v : M α Unit) (Cost.setParent p v) := by
  unfold SegTree.setParent Cost.setParent; sim
instance pidx (p : Nat) : Sim (SegTree.pidx p : M α Nat) (Cost.pidx p) := by
  unfold SegTree.pidx Cost.pidx; sim
instance setPidx (p : Nat) (v : Nat) : Sim (SegTree.setPidx p v : M α Unit) (Cost.setPidx p v) := by
  unfold SegTree.setPidx Cost.setPidx; sim
instance sizesAt (p : Nat) (i : Nat) : Sim (SegTree.sizesAt E p i : M α Nat) (Cost.sizesAt E p i) := by
  unfold SegTree.sizesAt Cost.sizesAt; sim
instance setSizes (p : Nat) (i : Nat) (v : Nat) : Sim (SegTree.setSizes E p i v : M α Unit) (Cost.setSizes E p i v) := by
  unfold SegTree.setSizes Cost.setSizes; sim
instance ptrsAt (p : Nat) (i : Nat) : Sim (SegTree.ptrsAt E p i : M α Nat) (Cost.ptrsAt E p i) := by
  unfold SegTree.ptrsAt Cost.ptrsAt; sim
instance setPtrs (p : Nat) (i : Nat) (v : Nat) : Sim (SegTree.setPtrs E p i v : M α Unit) (Cost.setPtrs E p i v) := by
  unfold SegTree.setPtrs Cost.setPtrs; sim
instance rdSlots (p : Nat) : Sim (SegTree.rdSlots p : M α (Nat → Slot α)) (Cost.rdSlots p) := Sim.lift _ _
instance wrSlots (p : Nat) (s : Nat → Slot α) : Sim (SegTree.wrSlots p s : M α Unit) (Cost.wrSlots p s) := Sim.lift _ _
instance rdElem (p : Nat) (i : Nat) : Sim (SegTree.rdElem E p i : M α α) (Cost.rdElem E p i) := by
  unfold SegTree.rdElem Cost.rdElem; sim
instance wrElem (p : Nat) (i : Nat) (v : α) : Sim (SegTree.wrElem E p i v : M α Unit) (Cost.wrElem E p i v) := by
  unfold SegTree.wrElem Cost.wrElem; sim
instance rdObj (o : Nat) : Sim (SegTree.rdObj o : M α SeqObj) (Cost.rdObj o) := Sim.lift _ _
instance wrObj (o : Nat) (s : SeqObj) : Sim (SegTree.wrObj o s : M α Unit) (Cost.wrObj o s) := Sim.lift _ _
instance getRoot (o : Nat) : Sim (SegTree.getRoot o : M α Nat) (Cost.getRoot o) := by
  unfold SegTree.getRoot Cost.getRoot; sim
instance getSize (o : Nat) : Sim (SegTree.getSize o : M α Nat) (Cost.getSize o) := by
  unfold SegTree.getSize Cost.getSize; sim
instance getHeight (o : Nat) : Sim (SegTree.getHeight o : M α Nat) (Cost.getHeight o) := by
  unfold SegTree.getHeight Cost.getHeight; sim
instance setRoot (o : Nat) (v : Nat) : Sim (SegTree.setRoot o v : M α Unit) (Cost.setRoot o v) := by
  unfold SegTree.setRoot Cost.setRoot; sim
instance setSize (o : Nat) (v : Nat) : Sim (SegTree.setSize o v : M α Unit) (Cost.setSize o v) := by
  unfold SegTree.setSize Cost.setSize; sim
instance setHeight (o : Nat) (v : Nat) : Sim (SegTree.setHeight o v : M α Unit) (Cost.setHeight o v) := by
  unfold SegTree.setHeight Cost.setHeight; sim
instance allocCell (c : Cell α) : Sim (SegTree.allocCell E c : M α Nat) (Cost.allocCell E c) := Sim.lift _ _
instance find_index_loop (p : Nat) (index : Nat) (size : Nat) (pos : Nat) : Sim (SegTree.find_index_loop E p index size pos : M α (Nat × Nat)) (Cost.find_index_loop E p index size pos) := by
  revert index size pos
  refine SegTree.find_index_loop.fixpoint_induct E p (fun f => ∀ (index : Nat) (size : Nat) (pos : Nat), Sim (f index size pos) (Cost.find_index_loop E p index size pos)) (adm3 _) ?_
  intro f ih index size pos
  unfold Cost.find_index_loop; sim
instance find_index_leaf (p : Nat) (pos : Nat) : Sim (SegTree.find_index_leaf E p pos : M α Entry) (Cost.find_index_leaf E p pos) := by
  unfold SegTree.find_index_leaf Cost.find_index_leaf; sim
instance find_index_branch (p : Nat) (ht : Nat) (pos : Nat) : Sim (SegTree.find_index_branch E p ht pos : M α Entry) (Cost.find_index_branch E p ht pos) := by
  revert p ht pos
  refine SegTree.find_index_branch.fixpoint_induct E (fun f => ∀ (p : Nat) (ht : Nat) (pos : Nat), Sim (f p ht pos) (Cost.find_index_branch E p ht pos)) (adm3 _) ?_
  intro f ih p ht pos
  unfold Cost.find_index_branch; sim
instance find_index_node (p : Nat) (ht : Nat) (pos : Nat) : Sim (SegTree.find_index_node E p ht pos : M α Entry) (Cost.find_index_node E p ht pos) := by
  unfold SegTree.find_index_node Cost.find_index_node; sim
instance find_index_root (p : Nat) (sz : Nat) (ht : Nat) (pos : Nat) : Sim (SegTree.find_index_root E p sz ht pos : M α Iter) (Cost.find_index_root E p sz ht pos) := by
  unfold SegTree.find_index_root Cost.find_index_root; sim
instance find_first_leaf (p : Nat) : Sim (SegTree.find_first_leaf E p : M α Entry) (Cost.find_first_leaf E p) := by
  unfold SegTree.find_first_leaf Cost.find_first_leaf; sim
instance find_first_branch (p : Nat) (ht : Nat) : Sim (SegTree.find_first_branch E p ht : M α Entry) (Cost.find_first_branch E p ht) := by
  revert p ht
  refine SegTree.find_first_branch.fixpoint_induct E (fun f => ∀ (p : Nat) (ht : Nat), Sim (f p ht) (Cost.find_first_branch E p ht)) (adm2 _) ?_
  intro f ih p ht
  unfold Cost.find_first_branch; sim
instance find_first_node (p : Nat) (ht : Nat) : Sim (SegTree.find_first_node E p ht : M α Entry) (Cost.find_first_node E p ht) := by
  unfold SegTree.find_first_node Cost.find_first_node; sim
instance find_first_root (p : Nat) (sz : Nat) (ht : Nat) : Sim (SegTree.find_first_root E p sz ht : M α Iter) (Cost.find_first_root E p sz ht) := by
  unfold SegTree.find_first_root Cost.find_first_root; sim
instance find_last_segment (p : Nat) (sz : Nat) : Sim (SegTree.find_last_segment p sz : M α SegE) (Cost.find_last_segment p sz) := by
  unfold SegTree.find_last_segment Cost.find_last_segment; sim
instance find_last_leaf (p : Nat) : Sim (SegTree.find_last_leaf E p : M α Entry) (Cost.find_last_leaf E p) := by
  unfold SegTree.find_last_leaf Cost.find_last_leaf; sim
instance find_last_branch (p : Nat) (ht : Nat) : Sim (SegTree.find_last_branch E p ht : M α Entry) (Cost.find_last_branch E p ht) := by
  revert p ht
  refine SegTree.find_last_branch.fixpoint_induct E (fun f => ∀ (p : Nat) (ht : Nat), Sim (f p ht) (Cost.find_last_branch E p ht)) (adm2 _) ?_
  intro f ih p ht
  unfold Cost.find_last_branch; sim
instance find_last_node (p : Nat) (ht : Nat) : Sim (SegTree.find_last_node E p ht : M α Entry) (Cost.find_last_node E p ht) := by
  unfold SegTree.find_last_node Cost.find_last_node; sim
instance find_last_root (p : Nat) (sz : Nat) (ht : Nat) : Sim (SegTree.find_last_root E p sz ht : M α Iter) (Cost.find_last_root E p sz ht) := by
  unfold SegTree.find_last_root Cost.find_last_root; sim
instance find_end_leaf (p : Nat) : Sim (SegTree.find_end_leaf E p : M α Entry) (Cost.find_end_leaf E p) := by
  unfold SegTree.find_end_leaf Cost.find_end_leaf; sim
instance find_end_branch (p : Nat) (ht : Nat) : Sim (SegTree.find_end_branch E p ht : M α Entry) (Cost.find_end_branch E p ht) := by
  revert p ht
  refine SegTree.find_end_branch.fixpoint_induct E (fun f => ∀ (p : Nat) (ht : Nat), Sim (f p ht) (Cost.find_end_branch E p ht)) (adm2 _) ?_
  intro f ih p ht
  unfold Cost.find_end_branch; sim
instance find_end_node (p : Nat) (ht : Nat) : Sim (SegTree.find_end_node E p ht : M α Entry) (Cost.find_end_node E p ht) := by
  unfold SegTree.find_end_node Cost.find_end_node; sim
instance find_end_root (p : Nat) (sz : Nat) (ht : Nat) : Sim (SegTree.find_end_root E p sz ht : M α Iter) (Cost.find_end_root E p sz ht) := by
  unfold SegTree.find_end_root Cost.find_end_root; sim
instance move_next_branch (e : Entry) (p : Nat) (index : Nat) (child_ht : Nat) : Sim (SegTree.move_next_branch E e p index child_ht : M α Entry) (Cost.move_next_branch E e p index child_ht) := by
  revert p index child_ht
  refine SegTree.move_next_branch.fixpoint_induct E e (fun f => ∀ (p : Nat) (index : Nat) (child_ht : Nat), Sim (f p index child_ht) (Cost.move_next_branch E e p index child_ht)) (adm3 _) ?_
  intro f ih p index child_ht
  unfold Cost.move_next_branch; sim
instance move_next_leaf (e : Entry) : Sim (SegTree.move_next_leaf E e : M α Entry) (Cost.move_next_leaf E e) := by
  unfold SegTree.move_next_leaf Cost.move_next_leaf; sim
instance move_next_segment (e : Entry) : Sim (SegTree.move_next_segment E e : M α Entry) (Cost.move_next_segment E e) := by
  unfold SegTree.move_next_segment Cost.move_next_segment; sim
instance move_next_iterator (it : Iter) : Sim (SegTree.move_next_iterator E it : M α Iter) (Cost.move_next_iterator E it) := by
  unfold SegTree.move_next_iterator Cost.move_next_iterator; sim
instance move_prev_branch (p : Nat) (index : Nat) (child_ht : Nat) : Sim (SegTree.move_prev_branch E p index child_ht : M α Entry) (Cost.move_prev_branch E p index child_ht) := by
  revert p index child_ht
  refine SegTree.move_prev_branch.fixpoint_induct E (fun f => ∀ (p : Nat) (index : Nat) (child_ht : Nat), Sim (f p index child_ht) (Cost.move_prev_branch E p index child_ht)) (adm3 _) ?_
  intro f ih p index child_ht
  unfold Cost.move_prev_branch; sim
instance move_prev_leaf (e : Entry) : Sim (SegTree.move_prev_leaf E e : M α Entry) (Cost.move_prev_leaf E e) := by
  unfold SegTree.move_prev_leaf Cost.move_prev_leaf; sim
instance move_prev_segment (e : Entry) : Sim (SegTree.move_prev_segment E e : M α Entry) (Cost.move_prev_segment E e) := by
  unfold SegTree.move_prev_segment Cost.move_prev_segment; sim
instance move_prev_iterator (it : Iter) : Sim (SegTree.move_prev_iterator E it : M α Iter) (Cost.move_prev_iterator E it) := by
  unfold SegTree.move_prev_iterator Cost.move_prev_iterator; sim
instance scan_next (p : Nat) (index : Nat) (count : Nat) : Sim (SegTree.scan_next E p index count : M α ((Nat × Nat × Nat) ⊕ Nat)) (Cost.scan_next E p index count) := by
  revert index count
  refine SegTree.scan_next.fixpoint_induct E p (fun f => ∀ (index : Nat) (count : Nat), Sim (f index count) (Cost.scan_next E p index count)) (adm2 _) ?_
  intro f ih index count
  unfold Cost.scan_next; sim
instance move_next_branch_count (base : Nat) (p : Nat) (index : Nat) (count : Nat) (child_ht : Nat) : Sim (SegTree.move_next_branch_count E base p index count child_ht : M α Entry) (Cost.move_next_branch_count E base p index count child_ht) := by
  revert base p index count child_ht
  refine SegTree.move_next_branch_count.fixpoint_induct E (fun f => ∀ (base : Nat) (p : Nat) (index : Nat) (count : Nat) (child_ht : Nat), Sim (f base p index count child_ht) (Cost.move_next_branch_count E base p index count child_ht)) (adm5 _) ?_
  intro f ih base p index count child_ht
  unfold Cost.move_next_branch_count; sim
instance move_next_leaf_count (e : Entry) (count : Nat) : Sim (SegTree.move_next_leaf_count E e count : M α Entry) (Cost.move_next_leaf_count E e count) := by
  unfold SegTree.move_next_leaf_count Cost.move_next_leaf_count; sim
instance move_next_segment_count (e : Entry) (count : Nat) : Sim (SegTree.move_next_segment_count E e count : M α Entry) (Cost.move_next_segment_count E e count) := by
  unfold SegTree.move_next_segment_count Cost.move_next_segment_count; sim
instance move_next_iterator_count (it : Iter) (count : Nat) : Sim (SegTree.move_next_iterator_count E it count : M α Iter) (Cost.move_next_iterator_count E it count) := by
  unfold SegTree.move_next_iterator_count Cost.move_next_iterator_count; sim
instance scan_prev (p : Nat) (index : Nat) (count : Nat) : Sim (SegTree.scan_prev E p index count : M α ((Nat × Nat × Nat) ⊕ Nat)) (Cost.scan_prev E p index count) := by
  revert index count
  refine SegTree.scan_prev.fixpoint_induct E p (fun f => ∀ (index : Nat) (count : Nat), Sim (f index count) (Cost.scan_prev E p index count)) (adm2 _) ?_
  intro f ih index count
  unfold Cost.scan_prev; sim
instance move_prev_branch_count (p : Nat) (index : Nat) (count : Nat) (child_ht : Nat) : Sim (SegTree.move_prev_branch_count E p index count child_ht : M α Entry) (Cost.move_prev_branch_count E p index count child_ht) := by
  revert p index count child_ht
  refine SegTree.move_prev_branch_count.fixpoint_induct E (fun f => ∀ (p : Nat) (index : Nat) (count : Nat) (child_ht : Nat), Sim (f p index count child_ht) (Cost.move_prev_branch_count E p index count child_ht)) (adm4 _) ?_
  intro f ih p index count child_ht
  unfold Cost.move_prev_branch_count; sim
instance move_prev_leaf_count (e : Entry) (count : Nat) : Sim (SegTree.move_prev_leaf_count E e count : M α Entry) (Cost.move_prev_leaf_count E e count) := by
  unfold SegTree.move_prev_leaf_count Cost.move_prev_leaf_count; sim
instance move_prev_segment_count (e : Entry) (count : Nat) : Sim (SegTree.move_prev_segment_count E e count : M α Entry) (Cost.move_prev_segment_count E e count) := by
  unfold SegTree.move_prev_segment_count Cost.move_prev_segment_count; sim
instance move_prev_iterator_count (it : Iter) (count : Nat) : Sim (SegTree.move_prev_iterator_count E it count : M α Iter) (Cost.move_prev_iterator_count E it count) := by
  unfold SegTree.move_prev_iterator_count Cost.move_prev_iterator_count; sim
instance move_iterator_count (it : Iter) (diff : Int) : Sim (SegTree.move_iterator_count E it diff : M α Iter) (Cost.move_iterator_count E it diff) := by
  unfold SegTree.move_iterator_count Cost.move_iterator_count; sim
instance dereference (it : Iter) : Sim (SegTree.dereference E it : M α α) (Cost.dereference E it) := by
  unfold SegTree.dereference Cost.dereference; sim
instance dereference_count (it : Iter) (diff : Int) : Sim (SegTree.dereference_count E it diff : M α α) (Cost.dereference_count E it diff) := by
  unfold SegTree.dereference_count Cost.dereference_count; sim
instance move_after_segment (it : Iter) : Sim (SegTree.move_after_segment E it : M α Iter) (Cost.move_after_segment E it) := by
  unfold SegTree.move_after_segment Cost.move_after_segment; sim
instance move_after_segment_count (it : Iter) (count : Nat) : Sim (SegTree.move_after_segment_count E it count : M α Iter) (Cost.move_after_segment_count E it count) := by
  unfold SegTree.move_after_segment_count Cost.move_after_segment_count; sim
instance move_before_segment (it : Iter) : Sim (SegTree.move_before_segment E it : M α Iter) (Cost.move_before_segment E it) := by
  unfold SegTree.move_before_segment Cost.move_before_segment; sim
instance move_before_segment_count (it : Iter) (count : Nat) : Sim (SegTree.move_before_segment_count E it count : M α Iter) (Cost.move_before_segment_count E it count) := by
  unfold SegTree.move_before_segment_count Cost.move_before_segment_count; sim
instance allocate_segment (o : Nat) : Sim (SegTree.allocate_segment E o : M α Nat) (Cost.allocate_segment E o) := by
  unfold SegTree.allocate_segment Cost.allocate_segment; sim
instance allocNodeCell (w : Nat) : Sim (SegTree.allocNodeCell E w : M α Nat) (Cost.allocNodeCell E w) := Sim.lift _ _
instance allocate_node (o : Nat) : Sim (SegTree.allocate_node E o : M α Nat) (Cost.allocate_node E o) := by
  unfold SegTree.allocate_node Cost.allocate_node; sim
instance destroy_segment (p : Nat) (i : Nat) : Sim (SegTree.destroy_segment E p i : M α Unit) (Cost.destroy_segment E p i) := by
  unfold SegTree.destroy_segment Cost.destroy_segment; sim
instance destroy_node (p : Nat) (i : Nat) : Sim (SegTree.destroy_node E p i : M α Unit) (Cost.destroy_node E p i) := by
  unfold SegTree.destroy_node Cost.destroy_node; sim
instance freeSeg (a p : Nat) : Sim (SegTree.freeSeg E a p : M α Unit) (Cost.freeSeg E a p) := Sim.lift _ _
instance freeNode (a p : Nat) : Sim (SegTree.freeNode a p : M α Unit) (Cost.freeNode a p) := Sim.lift _ _
instance deallocate_segment (o : Nat) (p : Nat) : Sim (SegTree.deallocate_segment E o p : M α Unit) (Cost.deallocate_segment E o p) := by
  unfold SegTree.deallocate_segment Cost.deallocate_segment; sim
instance deallocate_node (o : Nat) (p : Nat) : Sim (SegTree.deallocate_node E o p : M α Unit) (Cost.deallocate_node E o p) := by
  unfold SegTree.deallocate_node Cost.deallocate_node; sim
instance forN (f : Nat → M α Unit) (g : Nat → C α Unit) (n i : Nat) [hf : ∀ i, Sim (f i) (g i)] :
    Sim (SegTree.forN f n i) (Cost.forN g n i) := by
  induction n generalizing i with
  | zero => exact pure _
  | succ n ih => exact bind (hf := fun _ => ih _)
instance purge_segment (o : Nat) (p : Nat) (sz : Nat) : Sim (SegTree.purge_segment E o p sz : M α Unit) (Cost.purge_segment E o p sz) := by
  unfold SegTree.purge_segment Cost.purge_segment; sim
instance purge_node (o : Nat) : ∀ (ht p : Nat), Sim (SegTree.purge_node E o ht p) (Cost.purge_node E o ht p)
  | 0, _ => ub _
  | 1, _ => ub _
  | 2, p => by unfold SegTree.purge_node Cost.purge_node; sim
  | ht + 3, p => by
    have ih := purge_node o (ht + 2)
    unfold SegTree.purge_node Cost.purge_node; sim
instance purge_root (o : Nat) (p : Nat) (sz : Nat) (ht : Nat) : Sim (SegTree.purge_root E o p sz ht : M α Unit) (Cost.purge_root E o p sz ht) := by
  unfold SegTree.purge_root Cost.purge_root; sim
instance purge (o : Nat) : Sim (SegTree.purge E o : M α Unit) (Cost.purge E o) := by
  unfold SegTree.purge Cost.purge; sim
instance construct_segment (p : Nat) (i : Nat) (v : α) : Sim (SegTree.construct_segment E p i v : M α Unit) (Cost.construct_segment E p i v) := by
  unfold SegTree.construct_segment Cost.construct_segment; sim
instance construct_leaf (p : Nat) (i : Nat) (csz : Nat) (child : Nat) : Sim (SegTree.construct_leaf E p i csz child : M α Nat) (Cost.construct_leaf E p i csz child) := by
  unfold SegTree.construct_leaf Cost.construct_leaf; sim
instance construct_branch (p : Nat) (i : Nat) (csz : Nat) (child : Nat) : Sim (SegTree.construct_branch E p i csz child : M α Nat) (Cost.construct_branch E p i csz child) := by
  unfold SegTree.construct_branch Cost.construct_branch; sim
instance assign_segment (p : Nat) (i : Nat) (v : α) : Sim (SegTree.assign_segment E p i v : M α Unit) (Cost.assign_segment E p i v) := by
  unfold SegTree.assign_segment Cost.assign_segment; sim
instance assign_leaf (p : Nat) (i : Nat) (csz : Nat) (child : Nat) : Sim (SegTree.assign_leaf E p i csz child : M α Nat) (Cost.assign_leaf E p i csz child) := by
  unfold SegTree.assign_leaf Cost.assign_leaf; sim
instance assign_branch (p : Nat) (i : Nat) (csz : Nat) (child : Nat) : Sim (SegTree.assign_branch E p i csz child : M α Nat) (Cost.assign_branch E p i csz child) := by
  unfold SegTree.assign_branch Cost.assign_branch; sim
instance move_assign_segment (src : Nat) (si : Nat) (dst : Nat) (di : Nat) : Sim (SegTree.move_assign_segment E src si dst di : M α Unit) (Cost.move_assign_segment E src si dst di) := by
  unfold SegTree.move_assign_segment Cost.move_assign_segment; sim
instance move_assign_leaf (src : Nat) (si : Nat) (dst : Nat) (di : Nat) : Sim (SegTree.move_assign_leaf E src si dst di : M α Nat) (Cost.move_assign_leaf E src si dst di) := by
  unfold SegTree.move_assign_leaf Cost.move_assign_leaf; sim
instance move_assign_branch (src : Nat) (si : Nat) (dst : Nat) (di : Nat) : Sim (SegTree.move_assign_branch E src si dst di : M α Nat) (Cost.move_assign_branch E src si dst di) := by
  unfold SegTree.move_assign_branch Cost.move_assign_branch; sim
instance move_segment (src : Nat) (si : Nat) (dst : Nat) (di : Nat) : Sim (SegTree.move_segment E src si dst di : M α Unit) (Cost.move_segment E src si dst di) := by
  unfold SegTree.move_segment Cost.move_segment; sim
instance move_leaf (src : Nat) (si : Nat) (dst : Nat) (di : Nat) : Sim (SegTree.move_leaf E src si dst di : M α Nat) (Cost.move_leaf E src si dst di) := by
  unfold SegTree.move_leaf Cost.move_leaf; sim
instance move_branch (src : Nat) (si : Nat) (dst : Nat) (di : Nat) : Sim (SegTree.move_branch E src si dst di : M α Nat) (Cost.move_branch E src si dst di) := by
  unfold SegTree.move_branch Cost.move_branch; sim
instance range_loop (step : Nat → Nat → M α Nat) (stepc : Nat → Nat → C α Nat) (src last dst acc : Nat)
    [hs : ∀ i j, Sim (step i j) (stepc i j)] :
    Sim (SegTree.range_loop step src last dst acc) (Cost.range_loop stepc src last dst acc) := by
  revert src dst acc
  refine SegTree.range_loop.fixpoint_induct step last (fun f => ∀ src dst acc, Sim (f src dst acc)
    (Cost.range_loop stepc src last dst acc)) (adm3 _) ?_
  intro f ih src dst acc
  unfold Cost.range_loop; sim
instance forward_loop (step : Nat → Nat → M α Unit) (stepc : Nat → Nat → C α Unit) (first src dst : Nat)
    [hs : ∀ i j, Sim (step i j) (stepc i j)] :
    Sim (SegTree.forward_loop step first src dst) (Cost.forward_loop stepc first src dst) := by
  revert src dst
  refine SegTree.forward_loop.fixpoint_induct step first (fun f => ∀ src dst, Sim (f src dst)
    (Cost.forward_loop stepc first src dst)) (adm2 _) ?_
  intro f ih src dst
  unfold Cost.forward_loop; sim
instance backward_loop (step : Nat → Nat → M α Unit) (stepc : Nat → Nat → C α Unit) (src dst last : Nat)
    [hs : ∀ i j, Sim (step i j) (stepc i j)] :
    Sim (SegTree.backward_loop step src dst last) (Cost.backward_loop stepc src dst last) := by
  revert src dst
  refine SegTree.backward_loop.fixpoint_induct step last (fun f => ∀ src dst, Sim (f src dst)
    (Cost.backward_loop stepc src dst last)) (adm2 _) ?_
  intro f ih src dst
  unfold Cost.backward_loop; sim
instance memcpy_segment (src si dst di n : Nat) :
    Sim (SegTree.memcpy_segment E src si dst di n : M α Unit) (Cost.memcpy_segment E src si dst di n) := by
  unfold SegTree.memcpy_segment Cost.memcpy_segment
  refine Sim.bind (hf := fun s => Sim.bind (hf := fun d => ?_))
  split
  · exact tickBind _
  · infer_instance
instance construct_range_segment (src : Nat) (si : Nat) (dst : Nat) (di : Nat) (count : Nat) : Sim (SegTree.construct_range_segment E src si dst di count : M α Unit) (Cost.construct_range_segment E src si dst di count) := by
  unfold SegTree.construct_range_segment Cost.construct_range_segment; sim
instance construct_range_leaf (src : Nat) (si : Nat) (dst : Nat) (di : Nat) (count : Nat) : Sim (SegTree.construct_range_leaf E src si dst di count : M α Nat) (Cost.construct_range_leaf E src si dst di count) := by
  unfold SegTree.construct_range_leaf Cost.construct_range_leaf; sim
instance construct_range_branch (src : Nat) (si : Nat) (dst : Nat) (di : Nat) (count : Nat) : Sim (SegTree.construct_range_branch E src si dst di count : M α Nat) (Cost.construct_range_branch E src si dst di count) := by
  unfold SegTree.construct_range_branch Cost.construct_range_branch; sim
instance assign_forward_segment (p : Nat) (length : Nat) (index : Nat) (distance : Nat) : Sim (SegTree.assign_forward_segment E p length index distance : M α Unit) (Cost.assign_forward_segment E p length index distance) := by
  unfold SegTree.assign_forward_segment Cost.assign_forward_segment; sim
instance assign_forward_leaf (p : Nat) (length : Nat) (index : Nat) (distance : Nat) : Sim (SegTree.assign_forward_leaf E p length index distance : M α Unit) (Cost.assign_forward_leaf E p length index distance) := by
  unfold SegTree.assign_forward_leaf Cost.assign_forward_leaf; sim
instance assign_forward_branch (p : Nat) (length : Nat) (index : Nat) (distance : Nat) : Sim (SegTree.assign_forward_branch E p length index distance : M α Unit) (Cost.assign_forward_branch E p length index distance) := by
  unfold SegTree.assign_forward_branch Cost.assign_forward_branch; sim
instance assign_backward_segment (p : Nat) (length : Nat) (index : Nat) (distance : Nat) : Sim (SegTree.assign_backward_segment E p length index distance : M α Unit) (Cost.assign_backward_segment E p length index distance) := by
  unfold SegTree.assign_backward_segment Cost.assign_backward_segment; sim
instance assign_backward_leaf (p : Nat) (length : Nat) (index : Nat) (distance : Nat) : Sim (SegTree.assign_backward_leaf E p length index distance : M α Unit) (Cost.assign_backward_leaf E p length index distance) := by
  unfold SegTree.assign_backward_leaf Cost.assign_backward_leaf; sim
instance assign_backward_branch (p : Nat) (length : Nat) (index : Nat) (distance : Nat) : Sim (SegTree.assign_backward_branch E p length index distance : M α Unit) (Cost.assign_backward_branch E p length index distance) := by
  unfold SegTree.assign_backward_branch Cost.assign_backward_branch; sim
instance update_sizes (o : Nat) (p : Nat) (index : Nat) (sz : Nat) : Sim (SegTree.update_sizes E o p index sz : M α Unit) (Cost.update_sizes E o p index sz) := by
  revert p index
  refine SegTree.update_sizes.fixpoint_induct E o sz (fun f => ∀ (p : Nat) (index : Nat), Sim (f p index) (Cost.update_sizes E o p index sz)) (adm2 _) ?_
  intro f ih p index
  unfold Cost.update_sizes; sim
instance increment_sizes (o : Nat) (p : Nat) (index : Nat) : Sim (SegTree.increment_sizes E o p index : M α Unit) (Cost.increment_sizes E o p index) := by
  unfold SegTree.increment_sizes Cost.increment_sizes; sim
instance decrement_sizes (o : Nat) (p : Nat) (index : Nat) : Sim (SegTree.decrement_sizes E o p index : M α Unit) (Cost.decrement_sizes E o p index) := by
  unfold SegTree.decrement_sizes Cost.decrement_sizes; sim
instance free_chain (o : Nat) (alloc : Nat) : Sim (SegTree.free_chain E o alloc : M α Unit) (Cost.free_chain E o alloc) := by
  revert alloc
  refine SegTree.free_chain.fixpoint_induct E o (fun f => ∀ (alloc : Nat), Sim (f alloc) (Cost.free_chain E o alloc)) (adm1 _) ?_
  intro f ih alloc
  unfold Cost.free_chain; sim
instance alloc_catch (o : Nat) (segment_alloc : Nat) (alloc : Nat) : Sim (SegTree.alloc_catch E o segment_alloc alloc : M α Unit) (Cost.alloc_catch E o segment_alloc alloc) := by
  unfold SegTree.alloc_catch Cost.alloc_catch; sim
instance alloc_nodes_loop (o : Nat) (p : Nat) (segment_alloc : Nat) (alloc : Nat) : Sim (SegTree.alloc_nodes_loop E o p segment_alloc alloc : M α Nat) (Cost.alloc_nodes_loop E o p segment_alloc alloc) := by
  revert p alloc
  refine SegTree.alloc_nodes_loop.fixpoint_induct E o segment_alloc (fun f => ∀ (p : Nat) (alloc : Nat), Sim (f p alloc) (Cost.alloc_nodes_loop E o p segment_alloc alloc)) (adm2 _) ?_
  intro f ih p alloc
  unfold Cost.alloc_nodes_loop; sim
instance alloc_nodes_single (o : Nat) (p : Nat) (segment_alloc : Nat) : Sim (SegTree.alloc_nodes_single E o p segment_alloc : M α Nat) (Cost.alloc_nodes_single E o p segment_alloc) := by
  unfold SegTree.alloc_nodes_single Cost.alloc_nodes_single; sim
instance insert_single_branch (o : Nat) (base : Nat) (p : Nat) (index : Nat) (alloc : Nat) (child_pointer : Nat) (child_size : Nat) : Sim (SegTree.insert_single_branch E o base p index alloc child_pointer child_size : M α Unit) (Cost.insert_single_branch E o base p index alloc child_pointer child_size) := by
  revert base p index alloc child_pointer child_size
  refine SegTree.insert_single_branch.fixpoint_induct E o (fun f => ∀ (base : Nat) (p : Nat) (index : Nat) (alloc : Nat) (child_pointer : Nat) (child_size : Nat), Sim (f base p index alloc child_pointer child_size) (Cost.insert_single_branch E o base p index alloc child_pointer child_size)) (adm6 _) ?_
  intro f ih base p index alloc child_pointer child_size
  unfold Cost.insert_single_branch; sim
instance insert_single_leaf (o : Nat) (entry : Entry) (base : Nat) (p : Nat) (index : Nat) (alloc : Nat) (child_pointer : Nat) (child_size : Nat) : Sim (SegTree.insert_single_leaf E o entry base p index alloc child_pointer child_size : M α Entry) (Cost.insert_single_leaf E o entry base p index alloc child_pointer child_size) := by
  unfold SegTree.insert_single_leaf Cost.insert_single_leaf; sim
instance insert_single_segment (o : Nat) (entry : Entry) (value : α) : Sim (SegTree.insert_single_segment E o entry value : M α Entry) (Cost.insert_single_segment E o entry value) := by
  unfold SegTree.insert_single_segment Cost.insert_single_segment; sim
instance insert_single_iterator (o : Nat) (it : Iter) (value : α) : Sim (SegTree.insert_single_iterator E o it value : M α Iter) (Cost.insert_single_iterator E o it value) := by
  unfold SegTree.insert_single_iterator Cost.insert_single_iterator; sim
instance erase_single_branch (o : Nat) (p : Nat) (index : Nat) : Sim (SegTree.erase_single_branch E o p index : M α Unit) (Cost.erase_single_branch E o p index) := by
  revert p index
  refine SegTree.erase_single_branch.fixpoint_induct E o (fun f => ∀ (p : Nat) (index : Nat), Sim (f p index) (Cost.erase_single_branch E o p index)) (adm2 _) ?_
  intro f ih p index
  unfold Cost.erase_single_branch; sim
instance erase_single_leaf (o : Nat) (entry : LeafE) (p : Nat) (index : Nat) : Sim (SegTree.erase_single_leaf E o entry p index : M α LeafE) (Cost.erase_single_leaf E o entry p index) := by
  unfold SegTree.erase_single_leaf Cost.erase_single_leaf; sim
instance erase_single_segment (o : Nat) (entry : Entry) : Sim (SegTree.erase_single_segment E o entry : M α Entry) (Cost.erase_single_segment E o entry) := by
  unfold SegTree.erase_single_segment Cost.erase_single_segment; sim
instance erase_single_iterator (o : Nat) (it : Iter) : Sim (SegTree.erase_single_iterator E o it : M α Iter) (Cost.erase_single_iterator E o it) := by
  unfold SegTree.erase_single_iterator Cost.erase_single_iterator; sim
instance find_index (o : Nat) (pos : Nat) : Sim (SegTree.find_index E o pos : M α Iter) (Cost.find_index E o pos) := by
  unfold SegTree.find_index Cost.find_index; sim
instance find_first (o : Nat) : Sim (SegTree.find_first E o : M α Iter) (Cost.find_first E o) := by
  unfold SegTree.find_first Cost.find_first; sim
instance find_last (o : Nat) : Sim (SegTree.find_last E o : M α Iter) (Cost.find_last E o) := by
  unfold SegTree.find_last Cost.find_last; sim
instance find_end (o : Nat) : Sim (SegTree.find_end E o : M α Iter) (Cost.find_end E o) := by
  unfold SegTree.find_end Cost.find_end; sim
instance steal (o : Nat) (other : Nat) : Sim (SegTree.steal o other : M α Unit) (Cost.steal o other) := by
  unfold SegTree.steal Cost.steal; sim
instance copyVal (v : α) : Sim (SegTree.copyVal E v : M α α) (Cost.copyVal E v) := Sim.lift _ _
instance copyAssign (p : Nat) (i : Nat) (v : α) : Sim (SegTree.copyAssign E p i v : M α Unit) (Cost.copyAssign E p i v) := by
  unfold SegTree.copyAssign Cost.copyAssign; sim
instance moveFrom (p : Nat) (i : Nat) : Sim (SegTree.moveFrom E p i : M α α) (Cost.moveFrom E p i) := by
  unfold SegTree.moveFrom Cost.moveFrom; sim
instance emplace_single (o : Nat) (it : Iter) {mk : M α α} {mkc : C α α} [Sim mk mkc] : Sim (SegTree.emplace_single E o it mk : M α Iter) (Cost.emplace_single E o it mkc) := by
  unfold SegTree.emplace_single Cost.emplace_single; sim
instance emplace_count_loop (o : Nat) {mk : M α α} {mkc : C α α} [Sim mk mkc] (n : Nat) (it : Iter) :
    Sim (SegTree.emplace_count_loop E o mk n it) (Cost.emplace_count_loop E o mkc n it) := by
  induction n generalizing it with
  | zero => exact pure _
  | succ n ih => unfold SegTree.emplace_count_loop Cost.emplace_count_loop; sim
instance emplace_count (o : Nat) (it : Iter) (count : Nat) {mk : M α α} {mkc : C α α} [Sim mk mkc] : Sim (SegTree.emplace_count E o it count mk : M α Iter) (Cost.emplace_count E o it count mkc) := by
  unfold SegTree.emplace_count Cost.emplace_count; sim
instance emplace_range_loop {σ : Type} {S : SegTree.Src α σ} {Sc : Cost.Src α σ} [hS : SimSrc S Sc] (o : Nat)
    (it : Iter) (first : σ) (count : Nat) :
    Sim (SegTree.emplace_range_loop E S o it first count) (Cost.emplace_range_loop E Sc o it first count) := by
  have hr := hS.read
  have hn := hS.next
  revert it first count
  refine SegTree.emplace_range_loop.fixpoint_induct E S o (fun f => ∀ it first count, Sim (f it first count)
    (Cost.emplace_range_loop E Sc o it first count)) (adm3 _) ?_
  intro f ih it first count
  unfold Cost.emplace_range_loop
  rw [hS.done]
  sim
instance emplace_range {σ : Type} {S : SegTree.Src α σ} {Sc : Cost.Src α σ} [SimSrc S Sc] (o : Nat) (it : Iter) (first : σ) : Sim (SegTree.emplace_range E S o it first : M α Iter) (Cost.emplace_range E Sc o it first) := by
  unfold SegTree.emplace_range Cost.emplace_range; sim
instance listSrc : SimSrc (SegTree.listSrc E) (Cost.listSrc E) where
  done _ := rfl
  read l := by cases l <;> (simp only [SegTree.listSrc, Cost.listSrc]; infer_instance)
  next l := by simp only [SegTree.listSrc, Cost.listSrc]; infer_instance
instance copySrc (last : Iter) : SimSrc (SegTree.copySrc E last) (Cost.copySrc E last) where
  done _ := rfl
  read it := by simp only [SegTree.copySrc, Cost.copySrc]; infer_instance
  next it := by simp only [SegTree.copySrc, Cost.copySrc]; infer_instance
instance moveSrc (last : Iter) : SimSrc (SegTree.moveSrc E last) (Cost.moveSrc E last) where
  done _ := rfl
  read it := by simp only [SegTree.moveSrc, Cost.moveSrc]; infer_instance
  next it := by simp only [SegTree.moveSrc, Cost.moveSrc]; infer_instance
instance erase_single (o : Nat) (it : Iter) : Sim (SegTree.erase_single E o it : M α Iter) (Cost.erase_single E o it) := by
  unfold SegTree.erase_single Cost.erase_single; sim
instance erase_range (o : Nat) (first : Iter) (last : Iter) : Sim (SegTree.erase_range E o first last : M α Iter) (Cost.erase_range E o first last) := by
  revert last
  refine SegTree.erase_range.fixpoint_induct E o first (fun f => ∀ (last : Iter), Sim (f last) (Cost.erase_range E o first last)) (adm1 _) ?_
  intro f ih last
  unfold Cost.erase_range; sim
instance assign_count_loop (o : Nat) {src : M α α} {srcc : C α α} [Sim src srcc] (count : Nat) (first : Iter) (last : Iter) : Sim (SegTree.assign_count_loop E o src count first last : M α Unit) (Cost.assign_count_loop E o srcc count first last) := by
  revert count first
  refine SegTree.assign_count_loop.fixpoint_induct E o src last (fun f => ∀ (count : Nat) (first : Iter), Sim (f count first) (Cost.assign_count_loop E o srcc count first last)) (adm2 _) ?_
  intro f ih count first
  unfold Cost.assign_count_loop; sim
instance assign_count (o : Nat) (count : Nat) {src : M α α} {srcc : C α α} [Sim src srcc] : Sim (SegTree.assign_count E o count src : M α Unit) (Cost.assign_count E o count srcc) := by
  unfold SegTree.assign_count Cost.assign_count; sim
instance assign_range_loop {σ : Type} {S : SegTree.Src α σ} {Sc : Cost.Src α σ} [hS : SimSrc S Sc] (o : Nat)
    (source : σ) (first last : Iter) :
    Sim (SegTree.assign_range_loop E S o source first last) (Cost.assign_range_loop E Sc o source first last) := by
  have hr := hS.read
  have hn := hS.next
  revert source first
  refine SegTree.assign_range_loop.fixpoint_induct E S o last (fun f => ∀ source first, Sim (f source first)
    (Cost.assign_range_loop E Sc o source first last)) (adm2 _) ?_
  intro f ih source first
  unfold Cost.assign_range_loop
  rw [hS.done]
  sim
instance assign_range {σ : Type} {S : SegTree.Src α σ} {Sc : Cost.Src α σ} [SimSrc S Sc] (o : Nat) (source : σ) : Sim (SegTree.assign_range E S o source : M α Unit) (Cost.assign_range E Sc o source) := by
  unfold SegTree.assign_range Cost.assign_range; sim
instance resize_count (o : Nat) (count : Nat) {mk : M α α} {mkc : C α α} [Sim mk mkc] : Sim (SegTree.resize_count E o count mk : M α Unit) (Cost.resize_count E o count mkc) := by
  unfold SegTree.resize_count Cost.resize_count; sim
instance clear (o : Nat) : Sim (SegTree.clear E o : M α Unit) (Cost.clear E o) := by
  unfold SegTree.clear Cost.clear; sim
instance copy_assign_alloc (o : Nat) (other : Nat) : Sim (SegTree.copy_assign_alloc E o other : M α Unit) (Cost.copy_assign_alloc E o other) := by
  unfold SegTree.copy_assign_alloc Cost.copy_assign_alloc; sim
instance move_assign_alloc (o : Nat) (other : Nat) : Sim (SegTree.move_assign_alloc E o other : M α Unit) (Cost.move_assign_alloc E o other) := by
  unfold SegTree.move_assign_alloc Cost.move_assign_alloc; sim
instance move_assign_steal (o : Nat) (other : Nat) : Sim (SegTree.move_assign_steal E o other : M α Unit) (Cost.move_assign_steal E o other) := by
  unfold SegTree.move_assign_steal Cost.move_assign_steal; sim
instance move_assign (o : Nat) (other : Nat) : Sim (SegTree.move_assign E o other : M α Unit) (Cost.move_assign E o other) := by
  unfold SegTree.move_assign Cost.move_assign; sim
instance ctor (o alloc : Nat) : Sim (SegTree.ctor o alloc : M α Unit) (Cost.ctor o alloc) := Sim.lift _ _
instance dropObj (o : Nat) : Sim (SegTree.dropObj o : M α Unit) (Cost.dropObj o) := Sim.lift _ _
instance dtor (o : Nat) : Sim (SegTree.dtor E o : M α Unit) (Cost.dtor E o) := by
  unfold SegTree.dtor Cost.dtor; sim
instance delegating (o : Nat) (alloc : Nat) {body : M α Unit} {bodyc : C α Unit} [Sim body bodyc] : Sim (SegTree.delegating E o alloc body : M α Unit) (Cost.delegating E o alloc bodyc) := by
  unfold SegTree.delegating Cost.delegating; sim
instance ctor_count (o : Nat) (alloc : Nat) (count : Nat) {mk : M α α} {mkc : C α α} [Sim mk mkc] : Sim (SegTree.ctor_count E o alloc count mk : M α Unit) (Cost.ctor_count E o alloc count mkc) := by
  unfold SegTree.ctor_count Cost.ctor_count; sim
instance ctor_range {σ : Type} {S : SegTree.Src α σ} {Sc : Cost.Src α σ} [SimSrc S Sc] (o : Nat) (alloc : Nat) (first : σ) : Sim (SegTree.ctor_range E S o alloc first : M α Unit) (Cost.ctor_range E Sc o alloc first) := by
  unfold SegTree.ctor_range Cost.ctor_range; sim
instance ctor_copy_alloc (o : Nat) (other : Nat) (alloc : Nat) : Sim (SegTree.ctor_copy_alloc E o other alloc : M α Unit) (Cost.ctor_copy_alloc E o other alloc) := by
  unfold SegTree.ctor_copy_alloc Cost.ctor_copy_alloc; sim
instance ctor_copy (o : Nat) (other : Nat) : Sim (SegTree.ctor_copy E o other : M α Unit) (Cost.ctor_copy E o other) := by
  unfold SegTree.ctor_copy Cost.ctor_copy; sim
instance ctor_move (o : Nat) (other : Nat) : Sim (SegTree.ctor_move o other : M α Unit) (Cost.ctor_move o other) := by
  unfold SegTree.ctor_move Cost.ctor_move; sim
instance ctor_move_alloc (o : Nat) (other : Nat) (alloc : Nat) : Sim (SegTree.ctor_move_alloc E o other alloc : M α Unit) (Cost.ctor_move_alloc E o other alloc) := by
  unfold SegTree.ctor_move_alloc Cost.ctor_move_alloc; sim
instance assign_copy (o : Nat) (other : Nat) : Sim (SegTree.assign_copy E o other : M α Unit) (Cost.assign_copy E o other) := by
  unfold SegTree.assign_copy Cost.assign_copy; sim
instance assign_move (o : Nat) (other : Nat) : Sim (SegTree.assign_move E o other : M α Unit) (Cost.assign_move E o other) := by
  unfold SegTree.assign_move Cost.assign_move; sim
instance assign_list (o : Nat) (vs : List α) : Sim (SegTree.assign_list E o vs : M α Unit) (Cost.assign_list E o vs) := by
  unfold SegTree.assign_list Cost.assign_list; sim
instance assign_fill (o : Nat) (count : Nat) (v : α) : Sim (SegTree.assign_fill E o count v : M α Unit) (Cost.assign_fill E o count v) := by
  unfold SegTree.assign_fill Cost.assign_fill; sim
instance at_ (o : Nat) (pos : Nat) : Sim (SegTree.at_ E o pos : M α α) (Cost.at_ E o pos) := by
  unfold SegTree.at_ Cost.at_; sim
instance index_op (o : Nat) (pos : Nat) : Sim (SegTree.index_op E o pos : M α α) (Cost.index_op E o pos) := by
  unfold SegTree.index_op Cost.index_op; sim
instance index_set (o : Nat) (pos : Nat) (v : α) : Sim (SegTree.index_set E o pos v : M α Unit) (Cost.index_set E o pos v) := by
  unfold SegTree.index_set Cost.index_set; sim
instance deref_set (it : Iter) (v : α) : Sim (SegTree.deref_set E it v : M α Unit) (Cost.deref_set E it v) := by
  unfold SegTree.deref_set Cost.deref_set; sim
instance deref_set_rv (it : Iter) (v : α) : Sim (SegTree.deref_set_rv E it v : M α Unit) (Cost.deref_set_rv E it v) := by
  unfold SegTree.deref_set_rv Cost.deref_set_rv; sim
instance front (o : Nat) : Sim (SegTree.front E o : M α α) (Cost.front E o) := by
  unfold SegTree.front Cost.front; sim
instance back (o : Nat) : Sim (SegTree.back E o : M α α) (Cost.back E o) := by
  unfold SegTree.back Cost.back; sim
instance begin_ (o : Nat) : Sim (SegTree.begin_ E o : M α Iter) (Cost.begin_ E o) := by
  unfold SegTree.begin_ Cost.begin_; sim
instance penultimate (o : Nat) : Sim (SegTree.penultimate E o : M α Iter) (Cost.penultimate E o) := by
  unfold SegTree.penultimate Cost.penultimate; sim
instance end_ (o : Nat) : Sim (SegTree.end_ E o : M α Iter) (Cost.end_ E o) := by
  unfold SegTree.end_ Cost.end_; sim
instance rev_deref (it : Iter) : Sim (SegTree.rev_deref E it : M α α) (Cost.rev_deref E it) := by
  unfold SegTree.rev_deref Cost.rev_deref; sim
instance nth (o : Nat) (pos : Nat) : Sim (SegTree.nth E o pos : M α Iter) (Cost.nth E o pos) := by
  unfold SegTree.nth Cost.nth; sim
instance empty (o : Nat) : Sim (SegTree.empty o : M α Bool) (Cost.empty o) := by
  unfold SegTree.empty Cost.empty; sim
instance size (o : Nat) : Sim (SegTree.size o : M α Nat) (Cost.size o) := by
  unfold SegTree.size Cost.size; sim
instance height (o : Nat) : Sim (SegTree.height o : M α Nat) (Cost.height o) := by
  unfold SegTree.height Cost.height; sim
instance get_allocator (o : Nat) : Sim (SegTree.get_allocator o : M α Nat) (Cost.get_allocator o) := by
  unfold SegTree.get_allocator Cost.get_allocator; sim
instance insert (o : Nat) (it : Iter) (v : α) : Sim (SegTree.insert E o it v : M α Iter) (Cost.insert E o it v) := by
  unfold SegTree.insert Cost.insert; sim
instance insert_rv (o : Nat) (it : Iter) (v : α) : Sim (SegTree.insert_rv E o it v : M α Iter) (Cost.insert_rv E o it v) := by
  unfold SegTree.insert_rv Cost.insert_rv; sim
instance insert_alias (o : Nat) (it : Iter) (src : Iter) : Sim (SegTree.insert_alias E o it src : M α Iter) (Cost.insert_alias E o it src) := by
  unfold SegTree.insert_alias Cost.insert_alias; sim
instance insert_fill (o : Nat) (it : Iter) (count : Nat) (v : α) : Sim (SegTree.insert_fill E o it count v : M α Iter) (Cost.insert_fill E o it count v) := by
  unfold SegTree.insert_fill Cost.insert_fill; sim
instance insert_fill_alias (o : Nat) (it : Iter) (count : Nat) (src : Iter) : Sim (SegTree.insert_fill_alias E o it count src : M α Iter) (Cost.insert_fill_alias E o it count src) := by
  unfold SegTree.insert_fill_alias Cost.insert_fill_alias; sim
instance insert_list (o : Nat) (it : Iter) (vs : List α) : Sim (SegTree.insert_list E o it vs : M α Iter) (Cost.insert_list E o it vs) := by
  unfold SegTree.insert_list Cost.insert_list; sim
instance erase (o : Nat) (it : Iter) : Sim (SegTree.erase E o it : M α Iter) (Cost.erase E o it) := by
  unfold SegTree.erase Cost.erase; sim
instance erase_rng (o : Nat) (first : Iter) (last : Iter) : Sim (SegTree.erase_rng E o first last : M α Iter) (Cost.erase_rng E o first last) := by
  unfold SegTree.erase_rng Cost.erase_rng; sim
instance push_back (o : Nat) (v : α) : Sim (SegTree.push_back E o v : M α Unit) (Cost.push_back E o v) := by
  unfold SegTree.push_back Cost.push_back; sim
instance push_back_rv (o : Nat) (v : α) : Sim (SegTree.push_back_rv E o v : M α Unit) (Cost.push_back_rv E o v) := by
  unfold SegTree.push_back_rv Cost.push_back_rv; sim
instance pop_back (o : Nat) : Sim (SegTree.pop_back E o : M α Unit) (Cost.pop_back E o) := by
  unfold SegTree.pop_back Cost.pop_back; sim
instance push_front (o : Nat) (v : α) : Sim (SegTree.push_front E o v : M α Unit) (Cost.push_front E o v) := by
  unfold SegTree.push_front Cost.push_front; sim
instance push_front_rv (o : Nat) (v : α) : Sim (SegTree.push_front_rv E o v : M α Unit) (Cost.push_front_rv E o v) := by
  unfold SegTree.push_front_rv Cost.push_front_rv; sim
instance pop_front (o : Nat) : Sim (SegTree.pop_front E o : M α Unit) (Cost.pop_front E o) := by
  unfold SegTree.pop_front Cost.pop_front; sim
instance resize (o : Nat) (count : Nat) (v : α) : Sim (SegTree.resize E o count v : M α Unit) (Cost.resize E o count v) := by
  unfold SegTree.resize Cost.resize; sim
instance swap (o : Nat) (other : Nat) : Sim (SegTree.swap E o other : M α Unit) (Cost.swap E o other) := by
  unfold SegTree.swap Cost.swap; sim
instance splice (o : Nat) (pos : Iter) (other : Nat) : Sim (SegTree.splice E o pos other : M α Unit) (Cost.splice E o pos other) := by
  unfold SegTree.splice Cost.splice; sim
instance splice_one (o : Nat) (pos : Iter) (other : Nat) (it : Iter) : Sim (SegTree.splice_one E o pos other it : M α Unit) (Cost.splice_one E o pos other it) := by
  unfold SegTree.splice_one Cost.splice_one; sim
instance splice_range (o : Nat) (pos : Iter) (other : Nat) (first : Iter) (last : Iter) : Sim (SegTree.splice_range E o pos other first last : M α Unit) (Cost.splice_range E o pos other first last) := by
  unfold SegTree.splice_range Cost.splice_range; sim
instance std_find_if (p : α → Bool) (first : Iter) (last : Iter) : Sim (SegTree.std_find_if E p first last : M α Iter) (Cost.std_find_if E p first last) := by
  revert first
  refine SegTree.std_find_if.fixpoint_induct E p last (fun f => ∀ (first : Iter), Sim (f first) (Cost.std_find_if E p first last)) (adm1 _) ?_
  intro f ih first
  unfold Cost.std_find_if; sim
instance iter_move_assign (src : Iter) (dst : Iter) : Sim (SegTree.iter_move_assign E src dst : M α Unit) (Cost.iter_move_assign E src dst) := by
  unfold SegTree.iter_move_assign Cost.iter_move_assign; sim
instance std_remove_loop (p : α → Bool) (first : Iter) (i : Iter) (last : Iter) : Sim (SegTree.std_remove_loop E p first i last : M α Iter) (Cost.std_remove_loop E p first i last) := by
  revert first i
  refine SegTree.std_remove_loop.fixpoint_induct E p last (fun f => ∀ (first : Iter) (i : Iter), Sim (f first i) (Cost.std_remove_loop E p first i last)) (adm2 _) ?_
  intro f ih first i
  unfold Cost.std_remove_loop; sim
instance std_remove_if (p : α → Bool) (first : Iter) (last : Iter) : Sim (SegTree.std_remove_if E p first last : M α Iter) (Cost.std_remove_if E p first last) := by
  unfold SegTree.std_remove_if Cost.std_remove_if; sim
instance remove_if (o : Nat) (p : α → Bool) : Sim (SegTree.remove_if E o p : M α Unit) (Cost.remove_if E o p) := by
  unfold SegTree.remove_if Cost.remove_if; sim
instance remove (o : Nat) (eq : α → α → Bool) (v : α) : Sim (SegTree.remove E o eq v : M α Unit) (Cost.remove E o eq v) := by
  unfold SegTree.remove Cost.remove; sim
instance iter_swap (a : Iter) (b : Iter) : Sim (SegTree.iter_swap E a b : M α Unit) (Cost.iter_swap E a b) := by
  unfold SegTree.iter_swap Cost.iter_swap; sim
instance std_reverse_loop (first : Iter) (last : Iter) : Sim (SegTree.std_reverse_loop E first last : M α Unit) (Cost.std_reverse_loop E first last) := by
  revert first last
  refine SegTree.std_reverse_loop.fixpoint_induct E (fun f => ∀ (first : Iter) (last : Iter), Sim (f first last) (Cost.std_reverse_loop E first last)) (adm2 _) ?_
  intro f ih first last
  unfold Cost.std_reverse_loop; sim
instance std_reverse (first : Iter) (last : Iter) : Sim (SegTree.std_reverse E first last : M α Unit) (Cost.std_reverse E first last) := by
  unfold SegTree.std_reverse Cost.std_reverse; sim
instance reverse (o : Nat) : Sim (SegTree.reverse E o : M α Unit) (Cost.reverse E o) := by
  unfold SegTree.reverse Cost.reverse; sim
instance std_unique_loop (p : α → α → Bool) (result : Iter) (first : Iter) (last : Iter) : Sim (SegTree.std_unique_loop E p result first last : M α Iter) (Cost.std_unique_loop E p result first last) := by
  revert result first
  refine SegTree.std_unique_loop.fixpoint_induct E p last (fun f => ∀ (result : Iter) (first : Iter), Sim (f result first) (Cost.std_unique_loop E p result first last)) (adm2 _) ?_
  intro f ih result first
  unfold Cost.std_unique_loop; sim
instance std_unique (p : α → α → Bool) (first : Iter) (last : Iter) : Sim (SegTree.std_unique E p first last : M α Iter) (Cost.std_unique E p first last) := by
  unfold SegTree.std_unique Cost.std_unique; sim
instance unique (o : Nat) (p : α → α → Bool) : Sim (SegTree.unique E o p : M α Unit) (Cost.unique E o p) := by
  unfold SegTree.unique Cost.unique; sim
instance std_equal (eq : α → α → Bool) (first1 : Iter) (last1 : Iter) (first2 : Iter) : Sim (SegTree.std_equal E eq first1 last1 first2 : M α Bool) (Cost.std_equal E eq first1 last1 first2) := by
  revert first1 first2
  refine SegTree.std_equal.fixpoint_induct E eq last1 (fun f => ∀ (first1 : Iter) (first2 : Iter), Sim (f first1 first2) (Cost.std_equal E eq first1 last1 first2)) (adm2 _) ?_
  intro f ih first1 first2
  unfold Cost.std_equal; sim
instance op_eq (eq : α → α → Bool) (a : Nat) (b : Nat) : Sim (SegTree.op_eq E eq a b : M α Bool) (Cost.op_eq E eq a b) := by
  unfold SegTree.op_eq Cost.op_eq; sim
instance op_ne (eq : α → α → Bool) (a : Nat) (b : Nat) : Sim (SegTree.op_ne E eq a b : M α Bool) (Cost.op_ne E eq a b) := by
  unfold SegTree.op_ne Cost.op_ne; sim
instance std_lex (lt : α → α → Bool) (first1 : Iter) (last1 : Iter) (first2 : Iter) (last2 : Iter) : Sim (SegTree.std_lex E lt first1 last1 first2 last2 : M α Bool) (Cost.std_lex E lt first1 last1 first2 last2) := by
  revert first1 first2
  refine SegTree.std_lex.fixpoint_induct E lt last1 last2 (fun f => ∀ (first1 : Iter) (first2 : Iter), Sim (f first1 first2) (Cost.std_lex E lt first1 last1 first2 last2)) (adm2 _) ?_
  intro f ih first1 first2
  unfold Cost.std_lex; sim
instance op_lt (lt : α → α → Bool) (a : Nat) (b : Nat) : Sim (SegTree.op_lt E lt a b : M α Bool) (Cost.op_lt E lt a b) := by
  unfold SegTree.op_lt Cost.op_lt; sim
instance op_le (lt : α → α → Bool) (a : Nat) (b : Nat) : Sim (SegTree.op_le E lt a b : M α Bool) (Cost.op_le E lt a b) := by
  unfold SegTree.op_le Cost.op_le; sim
instance op_gt (lt : α → α → Bool) (a : Nat) (b : Nat) : Sim (SegTree.op_gt E lt a b : M α Bool) (Cost.op_gt E lt a b) := by
  unfold SegTree.op_gt Cost.op_gt; sim
instance op_ge (lt : α → α → Bool) (a : Nat) (b : Nat) : Sim (SegTree.op_ge E lt a b : M α Bool) (Cost.op_ge E lt a b) := by
  unfold SegTree.op_ge Cost.op_ge; sim
instance it_add (it : Iter) (d : Int) : Sim (SegTree.it_add E it d : M α Iter) (Cost.it_add E it d) := by
  unfold SegTree.it_add Cost.it_add; sim
instance it_sub (it : Iter) (d : Int) : Sim (SegTree.it_sub E it d : M α Iter) (Cost.it_sub E it d) := by
  unfold SegTree.it_sub Cost.it_sub; sim
instance it_index (it : Iter) (d : Int) : Sim (SegTree.it_index E it d : M α α) (Cost.it_index E it d) := by
  unfold SegTree.it_index Cost.it_index; sim

end Sim
end SegTree
