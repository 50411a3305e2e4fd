/-
  Bounds on the number of accesses that hold in every memory: straight-line
  code, loops inside one node or segment, and descents of a given height.
-/
import Verif.Cost.Sim
import Mathlib.Tactic.Ring
set_option autoImplicit false

attribute [local instance] SegTree.Weights.accesses

namespace SegTree
open Lean.Order

variable {α β γ : Type} {E : Env α} {m : Mem α}

theorem CRes.le.mono {r : CRes α β} {a b : Nat} (h : r.le a) (hab : a ≤ b) : r.le b := by
  cases r with
  | ok v m n => exact Nat.le_trans h hab
  | throw e m n => exact Nat.le_trans h hab
  | ub k => trivial
  | div => trivial

theorem CRes.le.add {r : CRes α β} {a n : Nat} (h : r.le a) : (r.add n).le (n + a) := by
  cases r with
  | ok v m k => exact Nat.add_le_add_left h n
  | throw e m k => exact Nat.add_le_add_left h n
  | ub k => trivial
  | div => trivial

/-- `x`, started in any memory, makes at most `k` accesses -/
class CB (x : C α β) (k : outParam Nat) : Prop where
  run : ∀ m, (x m).le k

/-- what a counted run does to memory, through the model -/
theorem Sim.ok {x : M α β} {y : C α β} (s : Sim x y) {v : β} {m' : Mem α} (h : x m = .ok v m') :
    ∃ n, y m = .ok v m' n := by
  rcases s.run m with e | e
  · rw [h] at e; cases e
  · rw [h] at e
    cases hy : y m with
    | ok w m2 n => rw [hy] at e; cases e; exact ⟨n, rfl⟩
    | throw _ _ _ => rw [hy] at e; cases e
    | ub _ => rw [hy] at e; cases e
    | div => rw [hy] at e; cases e

theorem Sim.thrown {x : M α β} {y : C α β} (s : Sim x y) {ex : Exn} {m' : Mem α} (h : x m = .throw ex m') :
    ∃ n, y m = .throw ex m' n := by
  rcases s.run m with e | e
  · rw [h] at e; cases e
  · rw [h] at e
    cases hy : y m with
    | throw w m2 n => rw [hy] at e; cases e; exact ⟨n, rfl⟩
    | ok _ _ _ => rw [hy] at e; cases e
    | ub _ => rw [hy] at e; cases e
    | div => rw [hy] at e; cases e

/-- rule of sequential composition in a given memory -/
theorem CRes.le_bind {x : C α β} {f : β → C α γ} {a k : Nat} (h : (x m).le a) (hk : a ≤ k)
    (hf : ∀ v m' n, x m = .ok v m' n → (f v m').le (k - a)) : ((x >>= f) m).le k := by
  show CRes.le k (C.bind x f m)
  unfold C.bind
  cases hx : x m with
  | ok v m' n =>
    rw [hx] at h
    have h : n ≤ a := h
    exact (hf v m' n hx).add.mono (by omega)
  | throw e m' n =>
    rw [hx] at h
    have h : n ≤ a := h
    exact Nat.le_trans h hk
  | ub _ => trivial
  | div => trivial

/-- the same when the model tells what `x` returns -/
theorem CRes.le_step {x : M α β} {y : C α β} [s : Sim x y] {f : β → C α γ} {a k : Nat} {v : β} {m' : Mem α}
    (e : x m = .ok v m') (h : (y m).le a) (hk : a ≤ k) (hf : (f v m').le (k - a)) : ((y >>= f) m).le k := by
  refine CRes.le_bind h hk ?_
  intro v' m'' n h'
  obtain ⟨n', e'⟩ := s.ok e
  rw [e'] at h'
  cases h'
  exact hf

theorem CRes.le_throw {x : M α β} {y : C α β} [s : Sim x y] {f : β → C α γ} {a : Nat} {ex : Exn} {m' : Mem α}
    (e : x m = .throw ex m') (h : (y m).le a) : ((y >>= f) m).le a := by
  refine CRes.le_bind h (Nat.le_refl _) ?_
  intro v' m'' n h'
  obtain ⟨n', e'⟩ := s.thrown e
  rw [e'] at h'
  cases h'

namespace CB

theorem of {x : C α β} {a b : Nat} (h : CB x a) (hab : a ≤ b) : CB x b := ⟨fun m => (h.run m).mono hab⟩

theorem pureLe (v : β) (k : Nat) : CB (Pure.pure v : C α β) k := ⟨fun _ => Nat.zero_le _⟩
theorem ubLe (u : UB) (k : Nat) : CB (C.ub u : C α β) k := ⟨fun _ => trivial⟩
theorem thrLe (e : Exn) (k : Nat) : CB (C.throw e : C α β) k := ⟨fun _ => Nat.zero_le _⟩
instance pure (v : β) : CB (Pure.pure v : C α β) 0 := pureLe v 0
instance ub (u : UB) : CB (C.ub u : C α β) 0 := ubLe u 0
instance thr (e : Exn) : CB (C.throw e : C α β) 0 := thrLe e 0
theorem lift (c : Nat) (x : M α β) : CB (C.lift c x) c := by
  refine ⟨fun m => ?_⟩
  unfold C.lift
  cases x m with
  | ok _ _ => exact Nat.le_refl _
  | throw _ _ => exact Nat.le_refl _
  | ub _ => trivial
  | div => trivial
instance tick (n : Nat) : CB (C.tick n : C α Unit) n := ⟨fun _ => Nat.le_refl _⟩
instance ite {c : Prop} [Decidable c] {x y : C α β} {a b : Nat} [hx : CB x a] [hy : CB y b] :
    CB (if c then x else y) (max a b) := by
  split
  · exact of hx (Nat.le_max_left _ _)
  · exact of hy (Nat.le_max_right _ _)

/-- sequential composition against a budget -/
theorem step {x : C α β} {f : β → C α γ} {a k : Nat} (h : CB x a) (hk : a ≤ k) (hf : ∀ v, CB (f v) (k - a)) :
    CB (x >>= f) k := ⟨fun m => CRes.le_bind (h.run m) hk fun v m' _ _ => (hf v).run m'⟩

instance bind {x : C α β} {f : β → C α γ} {a b : Nat} [h : CB x a] [hf : ∀ v, CB (f v) b] : CB (x >>= f) (a + b) :=
  step h (Nat.le_add_right _ _) fun v => of (hf v) (by omega)

instance onThrow {x : C α β} {h : C α Unit} {a b : Nat} [hx : CB x a] [hh : CB h b] : CB (C.onThrow x h) (a + b) := by
  refine ⟨fun m => ?_⟩
  have h1 := hx.run m
  unfold C.onThrow
  cases e : x m with
  | ok v m' n => rw [e] at h1; exact Nat.le_trans h1 (Nat.le_add_right _ _)
  | throw ex m' n =>
    rw [e] at h1
    have h1 : n ≤ a := h1
    have h2 := hh.run m'
    simp only
    cases e2 : h m' with
    | ok v m'' k => rw [e2] at h2; have h2 : k ≤ b := h2; show n + k ≤ a + b; omega
    | throw v m'' k => rw [e2] at h2; have h2 : k ≤ b := h2; show n + k ≤ a + b; omega
    | ub _ => trivial
    | div => trivial
  | ub _ => trivial
  | div => trivial

theorem admissible (k : Nat) : Lean.Order.admissible (fun x : C α β => CB x k) := by
  have : (fun x : C α β => CB x k) = fun x => ∀ m, (x m).le k := by
    funext x; exact propext ⟨fun h => h.run, fun h => ⟨h⟩⟩
  rw [this]
  apply admissible_pi
  intro m
  exact admissible_apply (fun _ (r : CRes α β) => r.le k) m (admissible_flatOrder _ trivial)

section
variable {ι1 ι2 ι3 ι4 : Type}
theorem adm1 (k : ι1 → Nat) : Lean.Order.admissible (fun f : ι1 → C α β => ∀ a, CB (f a) (k a)) :=
  admissible_pi _ fun a => admissible_apply (fun a y => CB y (k a)) a (admissible _)
theorem adm2 (k : ι1 → ι2 → Nat) :
    Lean.Order.admissible (fun f : ι1 → ι2 → C α β => ∀ a1 a2, CB (f a1 a2) (k a1 a2)) :=
  admissible_pi _ fun a => admissible_apply (fun (a : ι1) (f : ι2 → C α β) => ∀ a2, CB (f a2) (k a a2)) a (adm1 _)
theorem adm3 (k : ι1 → ι2 → ι3 → Nat) :
    Lean.Order.admissible (fun f : ι1 → ι2 → ι3 → C α β => ∀ a1 a2 a3, CB (f a1 a2 a3) (k a1 a2 a3)) :=
  admissible_pi _ fun a => admissible_apply
    (fun (a : ι1) (f : ι2 → ι3 → C α β) => ∀ a2 a3, CB (f a2 a3) (k a a2 a3)) a (adm2 _)
end

set_option synthInstance.maxSize 2000
set_option synthInstance.maxHeartbeats 400000

/-- spend the budget along a program -/
macro "cb" : tactic => `(tactic| repeat' first
  | (intro (_ : Nat))
  | exact CB.pureLe _ _
  | exact CB.ubLe _ _
  | exact CB.thrLe _ _
  | (refine CB.of (by infer_instance) ?_; omega)
  | dsimp (failIfUnchanged := true) only
  | (refine CB.step (by infer_instance) ?_ ?_)
  | omega
  | split
  | intro _)

/-! ### Machine -/

instance usub [Weights] (a b : Nat) : CB (Cost.usub a b : C α Nat) 0 := lift _ _
instance rdNode (p : Nat) : CB (Cost.rdNode p : C α Node) 1 := lift _ _
instance wrNode (p : Nat) (n : Node) : CB (Cost.wrNode p n : C α Unit) 1 := lift _ _
instance rdSlots (p : Nat) : CB (Cost.rdSlots p : C α (Nat → Slot α)) 1 := lift _ _
instance wrSlots (p : Nat) (s : Nat → Slot α) : CB (Cost.wrSlots p s : C α Unit) 1 := lift _ _
instance rdObj (o : Nat) : CB (Cost.rdObj o : C α SeqObj) 1 := lift _ _
instance wrObj (o : Nat) (s : SeqObj) : CB (Cost.wrObj o s : C α Unit) 1 := lift _ _
instance allocCell (c : Cell α) : CB (Cost.allocCell E c) 1 := lift _ _
instance allocNodeCell (w : Nat) : CB (Cost.allocNodeCell E w) 1 := lift _ _
instance freeSeg (a p : Nat) : CB (Cost.freeSeg E a p) 1 := lift _ _
instance freeNode (a p : Nat) : CB (Cost.freeNode a p : C α Unit) 1 := lift _ _
instance ctor (o al : Nat) : CB (Cost.ctor o al : C α Unit) 1 := lift _ _
instance dropObj (o : Nat) : CB (Cost.dropObj o : C α Unit) 1 := lift _ _

instance len (p : Nat) : CB (Cost.len p : C α Nat) 1 := by unfold Cost.len; cb
instance setLen (p v : Nat) : CB (Cost.setLen p v : C α Unit) 2 := by unfold Cost.setLen; cb
instance parent (p : Nat) : CB (Cost.parent p : C α Nat) 1 := by unfold Cost.parent; cb
instance setParent (p v : Nat) : CB (Cost.setParent p v : C α Unit) 2 := by unfold Cost.setParent; cb
instance pidx (p : Nat) : CB (Cost.pidx p : C α Nat) 1 := by unfold Cost.pidx; cb
instance setPidx (p v : Nat) : CB (Cost.setPidx p v : C α Unit) 2 := by unfold Cost.setPidx; cb
instance sizesAt (p i : Nat) : CB (Cost.sizesAt E p i) 1 := by unfold Cost.sizesAt; cb
instance setSizes (p i v : Nat) : CB (Cost.setSizes E p i v) 2 := by unfold Cost.setSizes; cb
instance ptrsAt (p i : Nat) : CB (Cost.ptrsAt E p i) 1 := by unfold Cost.ptrsAt; cb
instance setPtrs (p i v : Nat) : CB (Cost.setPtrs E p i v) 2 := by unfold Cost.setPtrs; cb
instance rdElem (p i : Nat) : CB (Cost.rdElem E p i) 1 := by unfold Cost.rdElem; cb
instance wrElem (p i : Nat) (v : α) : CB (Cost.wrElem E p i v) 2 := by unfold Cost.wrElem; cb
instance getRoot (o : Nat) : CB (Cost.getRoot o : C α Nat) 1 := by unfold Cost.getRoot; cb
instance getSize (o : Nat) : CB (Cost.getSize o : C α Nat) 1 := by unfold Cost.getSize; cb
instance getHeight (o : Nat) : CB (Cost.getHeight o : C α Nat) 1 := by unfold Cost.getHeight; cb
instance setRoot (o v : Nat) : CB (Cost.setRoot o v : C α Unit) 2 := by unfold Cost.setRoot; cb
instance setSize (o v : Nat) : CB (Cost.setSize o v : C α Unit) 2 := by unfold Cost.setSize; cb
instance setHeight (o v : Nat) : CB (Cost.setHeight o v : C α Unit) 2 := by unfold Cost.setHeight; cb

/-! ### Searching inside a node, and descending -/

/-- never completes: undefined (or diverging) in every memory -/
def Dead (x : C α β) : Prop := ∀ m k, (x m).le k ∧ ∀ v m' n, x m ≠ .ok v m' n

theorem deadBind {x : C α β} {f : β → C α γ} {k : Nat} (hd : Dead x) : CB (x >>= f) k :=
  ⟨fun m => CRes.le_bind (hd m 0).1 (Nat.zero_le _) fun v m' n e => absurd e ((hd m 0).2 v m' n)⟩

theorem dead_node [Weights] {p : Nat} {x : Node → C α β} (h : ∀ n, ∃ u, x n = C.ub u) : Dead (Cost.rdNode p >>= x) := by
  intro m k
  show CRes.le k (C.bind (Cost.rdNode p) x m) ∧ ∀ v m' n, C.bind (Cost.rdNode p) x m ≠ _
  simp only [C.bind, Cost.rdNode, C.lift, SegTree.rdNode]
  rcases m.cell (.heap p) with _ | ⟨_ | ⟨_, nd⟩ | _⟩
  · exact ⟨trivial, by simp⟩
  · exact ⟨trivial, by simp⟩
  · obtain ⟨u, hu⟩ := h nd
    simp only [hu, C.ub, CRes.add]
    exact ⟨trivial, by simp⟩
  · exact ⟨trivial, by simp⟩
theorem dead_slots [Weights] {p : Nat} {x : (Nat → Slot α) → C α β} (h : ∀ n, ∃ u, x n = C.ub u) :
    Dead (Cost.rdSlots p >>= x) := by
  intro m k
  show CRes.le k (C.bind (Cost.rdSlots p) x m) ∧ ∀ v m' n, C.bind (Cost.rdSlots p) x m ≠ _
  simp only [C.bind, Cost.rdSlots, C.lift, SegTree.rdSlots]
  rcases m.cell (.heap p) with _ | ⟨⟨_, nd⟩ | _ | _⟩
  · exact ⟨trivial, by simp⟩
  · obtain ⟨u, hu⟩ := h nd
    simp only [hu, C.ub, CRes.add]
    exact ⟨trivial, by simp⟩
  · exact ⟨trivial, by simp⟩
  · exact ⟨trivial, by simp⟩

theorem sizesAt_dead [Weights] {p i : Nat} (h : ¬ i < E.baseMax) : Dead (Cost.sizesAt E p i) := by
  unfold Cost.sizesAt
  exact dead_node fun n => ⟨_, if_neg h⟩
theorem ptrsAt_dead [Weights] {p i : Nat} (h : ¬ i < E.baseMax) : Dead (Cost.ptrsAt E p i) := by
  unfold Cost.ptrsAt
  exact dead_node fun n => ⟨_, if_neg h⟩
theorem rdElem_dead [Weights] {p i : Nat} (h : ¬ i < E.segMax) : Dead (Cost.rdElem E p i) := by
  unfold Cost.rdElem
  exact dead_slots fun n => ⟨_, if_neg h⟩
theorem usub_dead [Weights] {a b : Nat} (h : ¬ b ≤ a) : Dead (Cost.usub a b : C α Nat) := by
  intro m k
  simp only [Cost.usub, SegTree.usub, C.lift, if_neg h, M.ub]
  exact ⟨trivial, by simp⟩
theorem Dead.bindL {x : C α β} {f : β → C α γ} (h : Dead x) : Dead (x >>= f) := by
  intro m k
  refine ⟨(deadBind h).run m, ?_⟩
  intro v m' n
  show C.bind x f m ≠ _
  unfold C.bind
  have := h m 0
  cases e : x m with
  | ok w m1 n1 => exact absurd e (this.2 _ _ _)
  | throw _ _ _ => simp
  | ub _ => simp
  | div => simp

theorem find_index_loop' (p : Nat) : ∀ index size pos, CB (Cost.find_index_loop E p index size pos) (E.baseMax - index) := by
  refine Cost.find_index_loop.fixpoint_induct E p (fun f => ∀ index size pos, CB (f index size pos) (E.baseMax - index))
    (adm3 (fun i _ _ => E.baseMax - i)) ?_
  intro f ih index size pos
  dsimp only
  split
  · by_cases hi : index + 1 < E.baseMax
    · refine step (sizesAt _ _) (by omega) fun v => ?_
      exact of (ih _ _ _) (by omega)
    · exact deadBind (sizesAt_dead hi)
  · exact pureLe _ _
instance find_index_loop (p index size pos : Nat) : CB (Cost.find_index_loop E p index size pos) E.baseMax :=
  of (find_index_loop' p index size pos) (by omega)
instance find_index_leaf (p pos : Nat) : CB (Cost.find_index_leaf E p pos) (E.baseMax + 3) := by
  unfold Cost.find_index_leaf; cb

/-- `usub` in sequence: the subtraction did not wrap -/
theorem usubBind [Weights] {a b k : Nat} {f : Nat → C α β} (h : b ≤ a → CB (f (a - b)) k) : CB (Cost.usub a b >>= f) k := by
  by_cases hb : b ≤ a
  · refine ⟨fun m => ?_⟩
    refine CRes.le_step (x := SegTree.usub a b) (v := a - b) (m' := m) ?_ ((usub a b).run m) (Nat.zero_le _) ((h hb).run m)
    simp only [SegTree.usub, if_pos hb]; rfl
  · exact deadBind (usub_dead hb)

/-- budget arithmetic for one level of a descent -/
theorem level {h c : Nat} (hh : 1 ≤ h) : (h + 1) * c = (h - 1 + 1) * c + c := by
  obtain ⟨k, rfl⟩ : ∃ k, h = k + 1 := ⟨h - 1, by omega⟩
  simp; ring

theorem find_index_branch : ∀ p ht pos, CB (Cost.find_index_branch E p ht pos) ((ht + 1) * (E.baseMax + 3)) := by
  refine Cost.find_index_branch.fixpoint_induct E (fun f => ∀ p ht pos, CB (f p ht pos) ((ht + 1) * (E.baseMax + 3)))
    (adm3 (fun _ ht _ => (ht + 1) * (E.baseMax + 3))) ?_
  intro f ih p ht pos
  dsimp only
  have h1 : E.baseMax + 3 ≤ (ht + 1) * (E.baseMax + 3) := Nat.le_mul_of_pos_left _ (by omega)
  refine step (sizesAt _ _) (by omega) fun size => step (find_index_loop _ _ _ _) (by omega) fun v => ?_
  refine step (ptrsAt _ _) (by omega) fun child => usubBind fun hh => ?_
  rw [level hh]
  split
  · have : E.baseMax + 3 ≤ (ht - 1 + 1) * (E.baseMax + 3) := Nat.le_mul_of_pos_left _ (by omega)
    exact of (find_index_leaf _ _) (by omega)
  · exact of (ih _ _ _) (by omega)
theorem find_index_node (p ht pos : Nat) : CB (Cost.find_index_node E p ht pos) ((ht + 1) * (E.baseMax + 3)) := by
  unfold Cost.find_index_node
  split
  · have : E.baseMax + 3 ≤ (ht + 1) * (E.baseMax + 3) := Nat.le_mul_of_pos_left _ (by omega)
    exact of (find_index_leaf _ _) (by omega)
  · exact find_index_branch _ _ _
theorem find_index_root (p sz ht pos : Nat) : CB (Cost.find_index_root E p sz ht pos) ((ht + 1) * (E.baseMax + 3)) := by
  unfold Cost.find_index_root
  split
  · exact pureLe _ _
  · exact step (find_index_node _ _ _) (Nat.le_refl _) fun _ => pureLe _ _

instance find_first_leaf (p : Nat) : CB (Cost.find_first_leaf E p) 2 := by unfold Cost.find_first_leaf; cb
theorem find_first_branch : ∀ p ht, CB (Cost.find_first_branch E p ht) ((ht + 1) * 2) := by
  refine Cost.find_first_branch.fixpoint_induct E (fun f => ∀ p ht, CB (f p ht) ((ht + 1) * 2))
    (adm2 (fun _ ht => (ht + 1) * 2)) ?_
  intro f ih p ht
  dsimp only
  refine step (ptrsAt _ _) (by omega) fun child => usubBind fun hh => ?_
  split
  · exact of (find_first_leaf _) (by omega)
  · exact of (ih _ _) (by omega)
theorem find_first_node (p ht : Nat) : CB (Cost.find_first_node E p ht) ((ht + 1) * 2) := by
  unfold Cost.find_first_node
  split
  · exact of (find_first_leaf _) (by omega)
  · exact find_first_branch _ _
theorem find_first_root (p sz ht : Nat) : CB (Cost.find_first_root E p sz ht) ((ht + 1) * 2) := by
  unfold Cost.find_first_root
  split
  · exact pureLe _ _
  · exact step (find_first_node _ _) (Nat.le_refl _) fun _ => pureLe _ _

instance find_last_segment (p sz : Nat) : CB (Cost.find_last_segment p sz : C α SegE) 0 := by
  unfold Cost.find_last_segment; cb
instance find_last_leaf (p : Nat) : CB (Cost.find_last_leaf E p) 3 := by unfold Cost.find_last_leaf; cb
theorem find_last_branch : ∀ p ht, CB (Cost.find_last_branch E p ht) ((ht + 1) * 3) := by
  refine Cost.find_last_branch.fixpoint_induct E (fun f => ∀ p ht, CB (f p ht) ((ht + 1) * 3))
    (adm2 (fun _ ht => (ht + 1) * 3)) ?_
  intro f ih p ht
  dsimp only
  refine step (len _) (by omega) fun l => step (usub _ _) (by omega) fun i => step (ptrsAt _ _) (by omega) fun child =>
    usubBind fun hh => ?_
  split
  · exact of (find_last_leaf _) (by omega)
  · exact of (ih _ _) (by omega)
theorem find_last_node (p ht : Nat) : CB (Cost.find_last_node E p ht) ((ht + 1) * 3) := by
  unfold Cost.find_last_node
  split
  · exact of (find_last_leaf _) (by omega)
  · exact find_last_branch _ _
theorem find_last_root (p sz ht : Nat) : CB (Cost.find_last_root E p sz ht) ((ht + 1) * 3) := by
  unfold Cost.find_last_root
  refine step (usub _ _) (by omega) fun pos => ?_
  split
  · exact step (find_last_segment _ _) (by omega) fun _ => pureLe _ _
  · exact step (find_last_node _ _) (Nat.le_refl _) fun _ => pureLe _ _

instance find_end_leaf (p : Nat) : CB (Cost.find_end_leaf E p) 3 := by unfold Cost.find_end_leaf; cb
theorem find_end_branch : ∀ p ht, CB (Cost.find_end_branch E p ht) ((ht + 1) * 3) := by
  refine Cost.find_end_branch.fixpoint_induct E (fun f => ∀ p ht, CB (f p ht) ((ht + 1) * 3))
    (adm2 (fun _ ht => (ht + 1) * 3)) ?_
  intro f ih p ht
  dsimp only
  refine step (len _) (by omega) fun l => step (usub _ _) (by omega) fun i => step (ptrsAt _ _) (by omega) fun child =>
    usubBind fun hh => ?_
  split
  · exact of (find_end_leaf _) (by omega)
  · exact of (ih _ _) (by omega)
theorem find_end_node (p ht : Nat) : CB (Cost.find_end_node E p ht) ((ht + 1) * 3) := by
  unfold Cost.find_end_node
  split
  · exact of (find_end_leaf _) (by omega)
  · exact find_end_branch _ _
theorem find_end_root (p sz ht : Nat) : CB (Cost.find_end_root E p sz ht) ((ht + 1) * 3) := by
  unfold Cost.find_end_root
  split
  · exact pureLe _ _
  · exact step (find_end_node _ _) (Nat.le_refl _) fun _ => pureLe _ _

theorem scan_next' (p : Nat) : ∀ index count, CB (Cost.scan_next E p index count) (2 * (E.baseMax - index) + 1) := by
  refine Cost.scan_next.fixpoint_induct E p (fun f => ∀ index count, CB (f index count) (2 * (E.baseMax - index) + 1))
    (adm2 (fun i _ => 2 * (E.baseMax - i) + 1)) ?_
  intro f ih index count
  dsimp only
  refine step (len _) (by omega) fun l => ?_
  split
  · exact pureLe _ _
  · by_cases hi : index + 1 < E.baseMax
    · refine step (sizesAt _ _) (by omega) fun v => ?_
      split
      · exact pureLe _ _
      · exact of (ih _ _) (by omega)
    · exact deadBind (sizesAt_dead hi)
instance scan_next (p index count : Nat) : CB (Cost.scan_next E p index count) (2 * E.baseMax + 1) :=
  of (scan_next' p index count) (by omega)

theorem scan_prev' (p : Nat) : ∀ index count, CB (Cost.scan_prev E p index count) (min index E.baseMax) := by
  refine Cost.scan_prev.fixpoint_induct E p (fun f => ∀ index count, CB (f index count) (min index E.baseMax))
    (adm2 (fun i _ => min i E.baseMax)) ?_
  intro f ih index count
  dsimp only
  split
  · exact pureLe _ _
  · by_cases hi : index - 1 < E.baseMax
    · refine step (sizesAt _ _) (by omega) fun v => ?_
      split
      · exact pureLe _ _
      · exact of (ih _ _) (by omega)
    · exact deadBind (sizesAt_dead hi)
instance scan_prev (p index count : Nat) : CB (Cost.scan_prev E p index count) E.baseMax :=
  of (scan_prev' p index count) (by omega)

/-! ### Blocks: allocation, construction, shifting -/

instance allocate_segment (o : Nat) : CB (Cost.allocate_segment E o) 2 := by unfold Cost.allocate_segment; cb
instance allocate_node (o : Nat) : CB (Cost.allocate_node E o) 2 := by unfold Cost.allocate_node; cb
instance destroy_segment (p i : Nat) : CB (Cost.destroy_segment E p i) 2 := by unfold Cost.destroy_segment; cb
instance destroy_node (p i : Nat) : CB (Cost.destroy_node E p i) 1 := by unfold Cost.destroy_node; cb
instance deallocate_segment (o p : Nat) : CB (Cost.deallocate_segment E o p) 2 := by unfold Cost.deallocate_segment; cb
instance deallocate_node (o p : Nat) : CB (Cost.deallocate_node E o p) 2 := by unfold Cost.deallocate_node; cb
instance construct_segment (p i : Nat) (v : α) : CB (Cost.construct_segment E p i v) 2 := by
  unfold Cost.construct_segment; cb
instance construct_leaf (p i s c : Nat) : CB (Cost.construct_leaf E p i s c) 4 := by unfold Cost.construct_leaf; cb
instance construct_branch (p i s c : Nat) : CB (Cost.construct_branch E p i s c) 8 := by unfold Cost.construct_branch; cb
instance assign_segment (p i : Nat) (v : α) : CB (Cost.assign_segment E p i v) 2 := by unfold Cost.assign_segment; cb
instance assign_leaf (p i s c : Nat) : CB (Cost.assign_leaf E p i s c) 4 := by unfold Cost.assign_leaf; cb
instance assign_branch (p i s c : Nat) : CB (Cost.assign_branch E p i s c) 8 := by unfold Cost.assign_branch; cb
instance move_assign_segment (s i d j : Nat) : CB (Cost.move_assign_segment E s i d j) 5 := by
  unfold Cost.move_assign_segment; cb
instance move_assign_leaf (s i d j : Nat) : CB (Cost.move_assign_leaf E s i d j) 6 := by
  unfold Cost.move_assign_leaf; cb
instance move_assign_branch (s i d j : Nat) : CB (Cost.move_assign_branch E s i d j) 10 := by
  unfold Cost.move_assign_branch; cb
instance move_segment (s i d j : Nat) : CB (Cost.move_segment E s i d j) 5 := by unfold Cost.move_segment; cb
instance move_leaf (s i d j : Nat) : CB (Cost.move_leaf E s i d j) 6 := by unfold Cost.move_leaf; cb
instance move_branch (s i d j : Nat) : CB (Cost.move_branch E s i d j) 10 := by unfold Cost.move_branch; cb

/-- a loop whose step reads entry `f` of an array of `B` entries -/
theorem range_loop [Weights] {B c last : Nat} {stp : Nat → Nat → C α Nat} (h1 : ∀ f t, CB (stp f t) c)
    (h2 : ∀ f t, ¬ f < B → Dead (stp f t)) :
    ∀ src dst acc, CB (Cost.range_loop stp src last dst acc) ((B - src) * c) := by
  refine Cost.range_loop.fixpoint_induct stp last (fun f => ∀ src dst acc, CB (f src dst acc) ((B - src) * c))
    (adm3 (fun s _ _ => (B - s) * c)) ?_
  intro f ih src dst acc
  dsimp only
  split
  · by_cases hb : src < B
    · have : (B - src) * c = (B - (src + 1)) * c + c := by
        obtain ⟨d, rfl⟩ : ∃ d, B = src + 1 + d := ⟨B - (src + 1), by omega⟩
        rw [show src + 1 + d - src = d + 1 by omega, show src + 1 + d - (src + 1) = d by omega]; ring
      refine step (h1 _ _) (by omega) fun v => ?_
      exact of (ih _ _ _) (by omega)
    · exact deadBind (h2 _ _ hb)
  · exact pureLe _ _

theorem backward_loop [Weights] {B c last : Nat} {stp : Nat → Nat → C α Unit} (h1 : ∀ f t, CB (stp f t) c)
    (h2 : ∀ f t, ¬ f < B → Dead (stp f t)) :
    ∀ src dst, CB (Cost.backward_loop stp src dst last) ((B - src) * c) := by
  refine Cost.backward_loop.fixpoint_induct stp last (fun f => ∀ src dst, CB (f src dst) ((B - src) * c))
    (adm2 (fun s _ => (B - s) * c)) ?_
  intro f ih src dst
  dsimp only
  split
  · by_cases hb : src < B
    · have : (B - src) * c = (B - (src + 1)) * c + c := by
        obtain ⟨d, rfl⟩ : ∃ d, B = src + 1 + d := ⟨B - (src + 1), by omega⟩
        rw [show src + 1 + d - src = d + 1 by omega, show src + 1 + d - (src + 1) = d by omega]; ring
      refine step (h1 _ _) (by omega) fun v => ?_
      exact of (ih _ _) (by omega)
    · exact deadBind (h2 _ _ hb)
  · exact pureLe _ _

theorem forward_loop [Weights] {B c first : Nat} {stp : Nat → Nat → C α Unit} (h1 : ∀ f t, CB (stp f t) c)
    (h2 : ∀ f t, ¬ f < B → Dead (stp f t)) :
    ∀ src dst, CB (Cost.forward_loop stp first src dst) (min src B * c) := by
  refine Cost.forward_loop.fixpoint_induct stp first (fun f => ∀ src dst, CB (f src dst) (min src B * c))
    (adm2 (fun s _ => min s B * c)) ?_
  intro f ih src dst
  dsimp only
  split
  · refine usubBind fun hs => usubBind fun hd => ?_
    by_cases hb : src - 1 < B
    · have : min src B * c = min (src - 1) B * c + c := by
        rw [Nat.min_eq_left (by omega), Nat.min_eq_left (by omega)]
        obtain ⟨d, rfl⟩ : ∃ d, src = d + 1 := ⟨src - 1, by omega⟩
        simp; ring
      refine step (h1 _ _) (by omega) fun v => ?_
      exact of (ih _ _) (by omega)
    · exact deadBind (h2 _ _ hb)
  · exact pureLe _ _

instance memcpy_segment (s i d j n : Nat) : CB (Cost.memcpy_segment E s i d j n) (E.segMax + 3) := by
  unfold Cost.memcpy_segment
  refine step (rdSlots _) (by omega) fun _ => step (rdSlots _) (by omega) fun _ => ?_
  split
  · refine step (a := n) ?_ (by omega) fun _ => of (wrSlots _ _) (by omega)
    have := tick (α := α) (n * Weights.copy)
    rwa [show n * Weights.copy = n from Nat.mul_one n] at this ⊢
  · exact ubLe _ _

instance construct_range_segment (s i d j n : Nat) : CB (Cost.construct_range_segment E s i d j n) (7 * E.segMax + 3) := by
  unfold Cost.construct_range_segment
  split
  · exact of (memcpy_segment _ _ _ _ _) (by omega)
  · refine step (range_loop (B := E.segMax) (c := 7) (fun f t => ?_) (fun f t h => ?_) _ _ _) ?_ fun _ => pureLe _ _
    · cb
    · exact (rdElem_dead h).bindL
    · have := Nat.sub_le E.segMax i
      omega
instance construct_range_leaf (s i d j n : Nat) : CB (Cost.construct_range_leaf E s i d j n) (6 * E.baseMax) := by
  unfold Cost.construct_range_leaf
  refine of (range_loop (B := E.baseMax) (c := 6) (fun f t => inferInstance) (fun f t h => ?_) _ _ _) (by omega)
  unfold Cost.move_assign_leaf; exact (sizesAt_dead h).bindL
instance construct_range_branch (s i d j n : Nat) : CB (Cost.construct_range_branch E s i d j n) (10 * E.baseMax) := by
  unfold Cost.construct_range_branch
  refine of (range_loop (B := E.baseMax) (c := 10) (fun f t => inferInstance) (fun f t h => ?_) _ _ _) (by omega)
  unfold Cost.move_assign_branch; exact (sizesAt_dead h).bindL

instance assign_forward_segment (p l i d : Nat) : CB (Cost.assign_forward_segment E p l i d) (5 * E.segMax + 3) := by
  unfold Cost.assign_forward_segment
  split
  · exact step (usub _ _) (by omega) fun _ => of (memcpy_segment _ _ _ _ _) (by omega)
  · refine of (forward_loop (B := E.segMax) (c := 5) (fun f t => inferInstance) (fun f t h => ?_) _ _) (by omega)
    unfold Cost.move_assign_segment; exact (rdElem_dead h).bindL
instance assign_forward_leaf (p l i d : Nat) : CB (Cost.assign_forward_leaf E p l i d) (6 * E.baseMax) := by
  unfold Cost.assign_forward_leaf
  refine of (forward_loop (B := E.baseMax) (c := 6) (fun f t => by cb) (fun f t h => ?_) _ _) (by omega)
  unfold Cost.move_assign_leaf; exact (sizesAt_dead h).bindL.bindL
instance assign_forward_branch (p l i d : Nat) : CB (Cost.assign_forward_branch E p l i d) (10 * E.baseMax) := by
  unfold Cost.assign_forward_branch
  refine of (forward_loop (B := E.baseMax) (c := 10) (fun f t => by cb) (fun f t h => ?_) _ _) (by omega)
  unfold Cost.move_assign_branch; exact (sizesAt_dead h).bindL.bindL

instance assign_backward_segment (p l i d : Nat) : CB (Cost.assign_backward_segment E p l i d) (5 * E.segMax + 3) := by
  unfold Cost.assign_backward_segment
  split
  · exact step (usub _ _) (by omega) fun _ => of (memcpy_segment _ _ _ _ _) (by omega)
  · refine of (backward_loop (B := E.segMax) (c := 5) (fun f t => inferInstance) (fun f t h => ?_) _ _) (by omega)
    unfold Cost.move_assign_segment; exact (rdElem_dead h).bindL
instance assign_backward_leaf (p l i d : Nat) : CB (Cost.assign_backward_leaf E p l i d) (6 * E.baseMax) := by
  unfold Cost.assign_backward_leaf
  refine of (backward_loop (B := E.baseMax) (c := 6) (fun f t => by cb) (fun f t h => ?_) _ _) (by omega)
  unfold Cost.move_assign_leaf; exact (sizesAt_dead h).bindL.bindL
instance assign_backward_branch (p l i d : Nat) : CB (Cost.assign_backward_branch E p l i d) (10 * E.baseMax) := by
  unfold Cost.assign_backward_branch
  refine of (backward_loop (B := E.baseMax) (c := 10) (fun f t => by cb) (fun f t h => ?_) _ _) (by omega)
  unfold Cost.move_assign_branch; exact (sizesAt_dead h).bindL.bindL

instance copyVal (v : α) : CB (Cost.copyVal E v) 0 := lift _ _
instance copyAssign (p i : Nat) (v : α) : CB (Cost.copyAssign E p i v) 2 := by unfold Cost.copyAssign; cb
instance moveFrom (p i : Nat) : CB (Cost.moveFrom E p i) 3 := by unfold Cost.moveFrom; cb
instance dereference (it : Iter) : CB (Cost.dereference E it) 1 := by unfold Cost.dereference; cb

end CB
end SegTree
