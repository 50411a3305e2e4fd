/-
  Bounds for the functions that climb: they follow parent pointers, so their
  cost depends on the length of the path to the root.
-/
import Verif.Cost.Bound
import Verif.Proof.State
set_option autoImplicit false

attribute [local instance] SegTree.Weights.accesses

namespace SegTree
open Lean.Order

variable {α β γ : Type} {E : Env α} {m : Mem α}

/-- the parent pointers lead from `p` to null in `k` steps -/
inductive Up (m : Mem α) : Nat → Nat → Prop
  | zero (h : ∀ w n, m.cell (.heap 0) ≠ some (.node w n)) : Up m 0 0
  | step {p k w : Nat} {n : Node} (hp : p ≠ 0) (hc : m.cell (.heap p) = some (.node w n)) (h : Up m n.parent k) :
      Up m p (k + 1)

/-- the path of a zipper is such a chain -/
theorem Ctx.up {g : Log} {w h k : Nat} (c : Ctx α h k) : ∀ {F : Asrt α} {a s : Nat}, Holds g (c.lay E w a s + F) m →
    ∃ d, d + k = h ∧ Up m c.hdr.1 d := by
  induction c with
  | top =>
    intro F a s H
    exact ⟨0, by omega, .zero (by simp [H.null])⟩
  | @step k b l r c ih =>
    intro F a s H
    simp only [Ctx.lay, aassoc] at H
    have hb := H.ne0
    obtain ⟨cl, hc, hn⟩ := H.get
    obtain ⟨d, hd, hu⟩ := ih (H.eqv (by frame : _ = c.lay E w b (s + (elemsL l).length + (elemsL r).length) + _))
    refine ⟨d + 1, by omega, ?_⟩
    obtain ⟨nd, rfl, h1, h2, h3, h4⟩ := hn
    rw [← h1] at hu
    exact .step hb hc hu

theorem At.up {g : Log} {w h i : Nat} {t : Tree α h} {e : Entry} {F : Asrt α} (ha : SegTree.At t i e)
    (H : Holds g (lay E w 0 0 t + F) m) : Up m e.leaf.ptr h := by
  obtain ⟨c, s, j, rfl, rfl, rfl, -⟩ := ha
  rw [Ctx.fill_lay, aassoc] at H
  obtain ⟨d, hd, hu⟩ := c.up (H.eqv (by frame : _ = c.lay E w s.addr s.size + _))
  obtain rfl : d = h := by omega
  exact hu

theorem St.At.up {g : Log} {o al i : Nat} {s : St α} {it : Iter} {F : Asrt α} (ha : s.At i it)
    (H : Holds g (cont E o al s + F) m) : ∃ d, d ≤ s.ht ∧ Up m it.entry.leaf.ptr d := by
  cases s with
  | nil =>
    refine ⟨0, by omega, ?_⟩
    rw [ha.2.2]
    exact .zero (by simp [H.null])
  | @tree h t =>
    rw [cont_tree, aassoc] at H
    exact ⟨h, by simp [St.ht], SegTree.At.up ha.2 H⟩

/-- a subtraction that did not wrap -/
theorem CRes.le_usub {a b k : Nat} {f : Nat → C α β} (h : b ≤ a → (f (a - b) m).le k) :
    ((Cost.usub a b >>= f) m).le k := by
  by_cases hb : b ≤ a
  · exact CRes.le_step (usub_ok hb m) ((CB.usub a b).run m) (Nat.zero_le _) (h hb)
  · exact (CB.deadBind (CB.usub_dead hb)).run m

/-! #### functions that only read -/

/-- leaves the memory alone -/
class RO (x : C α β) : Prop where
  run : ∀ m v m' n, x m = .ok v m' n → m' = m

namespace RO
instance pure (v : β) : RO (Pure.pure v : C α β) := ⟨by intro m w m' n h; cases h; rfl⟩
instance ub (u : UB) : RO (C.ub u : C α β) := ⟨by intro m w m' n h; cases h⟩
instance thr (e : Exn) : RO (C.throw e : C α β) := ⟨by intro m w m' n h; cases h⟩
instance ite {c : Prop} [Decidable c] {x y : C α β} [hx : RO x] [hy : RO y] : RO (if c then x else y) := by
  split <;> assumption
instance bind {x : C α β} {f : β → C α γ} [hx : RO x] [hf : ∀ v, RO (f v)] : RO (x >>= f) := by
  refine ⟨fun m v m' n h => ?_⟩
  change C.bind x f m = _ at h
  unfold C.bind at h
  cases e : x m with
  | ok w m1 k =>
    rw [e] at h
    simp only at h
    cases e2 : f w m1 with
    | ok w2 m2 k2 =>
      rw [e2] at h
      cases h
      rw [(hf w).run _ _ _ _ e2, hx.run _ _ _ _ e]
    | throw _ _ _ => rw [e2] at h; cases h
    | ub _ => rw [e2] at h; cases h
    | div => rw [e2] at h; cases h
  | throw _ _ _ => rw [e] at h; cases h
  | ub _ => rw [e] at h; cases h
  | div => rw [e] at h; cases h
instance usub (a b : Nat) : RO (Cost.usub a b : C α Nat) := by
  refine ⟨fun m v m' n h => ?_⟩
  simp only [Cost.usub, C.lift, SegTree.usub] at h
  by_cases hb : b ≤ a
  · simp only [if_pos hb, Pure.pure, M.pure] at h; cases h; rfl
  · simp only [if_neg hb, M.ub] at h; cases h
instance rdNode (p : Nat) : RO (Cost.rdNode p : C α Node) := by
  refine ⟨fun m v m' n h => ?_⟩
  simp only [Cost.rdNode, C.lift, SegTree.rdNode] at h
  rcases hc : m.cell (.heap p) with _ | ⟨_ | ⟨_, nd⟩ | _⟩ <;> rw [hc] at h <;> cases h
  rfl
instance len (p : Nat) : RO (Cost.len p : C α Nat) := by unfold Cost.len; infer_instance
instance sizesAt (p i : Nat) : RO (Cost.sizesAt E p i) := by unfold Cost.sizesAt; infer_instance
theorem admissible : Lean.Order.admissible (fun x : C α β => RO x) := by
  have : (fun x : C α β => RO x) = fun x => ∀ m, ∀ v m' n, x m = .ok v m' n → m' = m := by
    funext x; exact propext ⟨fun h => h.run, fun h => ⟨h⟩⟩
  rw [this]
  apply admissible_pi
  intro m
  exact admissible_apply (fun m (r : CRes α β) => ∀ v m' n, r = .ok v m' n → m' = m) m
    (admissible_flatOrder _ (by intro v m' n h; cases h))
theorem adm2 {ι1 ι2 : Type} : Lean.Order.admissible (fun f : ι1 → ι2 → C α β => ∀ a b, RO (f a b)) :=
  admissible_pi _ fun a => admissible_apply (fun (_ : ι1) (f : ι2 → C α β) => ∀ b, RO (f b)) a
    (admissible_pi _ fun b => admissible_apply (fun (_ : ι2) (f : C α β) => RO f) b admissible)
instance scan_next (p i c : Nat) : RO (Cost.scan_next E p i c) := by
  revert i c
  refine Cost.scan_next.fixpoint_induct E p (fun f => ∀ i c, RO (f i c)) adm2 ?_
  intro f ih i c
  infer_instance
instance scan_prev (p i c : Nat) : RO (Cost.scan_prev E p i c) := by
  revert i c
  refine Cost.scan_prev.fixpoint_induct E p (fun f => ∀ i c, RO (f i c)) adm2 ?_
  intro f ih i c
  infer_instance
end RO

namespace Up
variable {p k w : Nat} {n : Node}

/-! #### reading a node of the chain -/

theorem rd (hc : m.cell (.heap p) = some (.node w n)) : SegTree.rdNode p m = .ok n m := by
  simp [SegTree.rdNode, hc]
theorem len (hc : m.cell (.heap p) = some (.node w n)) : SegTree.len p m = .ok n.len m := bind_ok (rd hc)
theorem parent (hc : m.cell (.heap p) = some (.node w n)) : SegTree.parent p m = .ok n.parent m := bind_ok (rd hc)
theorem pidx (hc : m.cell (.heap p) = some (.node w n)) : SegTree.pidx p m = .ok n.pidx m := bind_ok (rd hc)

theorem null {f : Node → C α β} {K : Nat} (h : ∀ w n, m.cell (.heap 0) ≠ some (.node w n)) :
    ((Cost.rdNode 0 >>= f) m).le K := by
  show CRes.le K (C.bind (Cost.rdNode 0) f m)
  simp only [C.bind, Cost.rdNode, C.lift, SegTree.rdNode]
  rcases hc : m.cell (.heap 0) with _ | ⟨_ | ⟨_, nd⟩ | _⟩
  · trivial
  · trivial
  · exact absurd hc (h _ _)
  · trivial

theorem null_pidx {f : Nat → C α β} {K : Nat} (h : ∀ w n, m.cell (.heap 0) ≠ some (.node w n)) :
    ((Cost.pidx 0 >>= f) m).le K := by
  have := null (f := fun n => (Pure.pure n.pidx : C α Nat)) (K := 0) h
  refine CRes.le_bind (a := 0) this (Nat.zero_le _) ?_
  intro v m' k e
  exfalso
  change C.bind (Cost.rdNode 0) _ m = _ at e
  simp only [C.bind, Cost.rdNode, C.lift, SegTree.rdNode] at e
  rcases hc : m.cell (.heap 0) with _ | ⟨_ | ⟨_, nd⟩ | _⟩
  · cases e
  · cases e
  · exact absurd hc (h _ _)
  · cases e

/-! #### moving -/

theorem move_next_branch {e : Entry} : ∀ {k p : Nat}, Up m p k → ∀ idx cht,
    (Cost.move_next_branch E e p idx cht m).le (5 * k + 2 * cht + 2) := by
  intro k
  induction k with
  | zero =>
    intro p hu idx cht
    cases hu
    unfold Cost.move_next_branch
    rw [if_pos rfl]
    exact Nat.zero_le _
  | succ k ih =>
    intro p hu idx cht
    cases hu with
    | step hp hc hu =>
      unfold Cost.move_next_branch
      rw [if_neg hp]
      refine CRes.le_step (len hc) ((CB.len p).run m) (by omega) ?_
      split
      · refine CRes.le_bind ((CB.ptrsAt p _).run m) (by omega) fun v m' n _ => ?_
        exact ((CB.find_first_node v cht).run m').mono (by omega)
      · refine CRes.le_step (pidx hc) ((CB.pidx p).run m) (by omega) ?_
        refine CRes.le_step (parent hc) ((CB.parent p).run m) (by omega) ?_
        exact (ih hu _ _).mono (by omega)

theorem move_next_leaf {e : Entry} (hu : Up m e.leaf.ptr k) : (Cost.move_next_leaf E e m).le (5 * k + 9) := by
  unfold Cost.move_next_leaf
  split
  · exact Nat.zero_le _
  · next hp =>
    generalize e.leaf.ptr = q at hu hp
    cases hu with
    | zero h => exact absurd rfl hp
    | step hp hc hu =>
      refine CRes.le_step (len hc) ((CB.len _).run m) (by omega) ?_
      split
      · refine CRes.le_bind ((CB.ptrsAt _ _).run m) (by omega) fun v m' n _ => ?_
        refine CRes.le_bind ((CB.sizesAt _ _).run _) (by omega) fun v m' n _ => ?_
        exact Nat.zero_le _
      · refine CRes.le_step (parent hc) ((CB.parent _).run m) (by omega) ?_
        refine CRes.le_step (pidx hc) ((CB.pidx _).run m) (by omega) ?_
        exact (move_next_branch hu _ _).mono (by omega)

theorem move_next_segment {e : Entry} (hu : Up m e.leaf.ptr k) : (Cost.move_next_segment E e m).le (5 * k + 9) := by
  unfold Cost.move_next_segment
  split
  · exact Nat.zero_le _
  · exact move_next_leaf hu

theorem move_next_iterator {it : Iter} (hu : Up m it.entry.leaf.ptr k) :
    (Cost.move_next_iterator E it m).le (5 * k + 9) := by
  unfold Cost.move_next_iterator
  exact CRes.le_bind (move_next_segment hu) (Nat.le_refl _) fun v m' n _ => Nat.zero_le _

theorem move_prev_branch : ∀ {k p : Nat}, Up m p k → ∀ idx cht,
    (Cost.move_prev_branch E p idx cht m).le (5 * k + 3 * cht + 5) := by
  intro k
  induction k with
  | zero =>
    intro p hu idx cht
    cases hu with
    | zero h =>
      unfold Cost.move_prev_branch
      split
      · refine CRes.le_bind ((CB.ptrsAt _ _).run m) (by omega) fun v m' n _ => ?_
        exact ((CB.find_last_node v cht).run m').mono (by omega)
      · exact null_pidx h
  | succ k ih =>
    intro p hu idx cht
    cases hu with
    | step hp hc hu =>
      unfold Cost.move_prev_branch
      split
      · refine CRes.le_bind ((CB.ptrsAt p _).run m) (by omega) fun v m' n _ => ?_
        exact ((CB.find_last_node v cht).run m').mono (by omega)
      · refine CRes.le_step (pidx hc) ((CB.pidx p).run m) (by omega) ?_
        refine CRes.le_step (parent hc) ((CB.parent p).run m) (by omega) ?_
        exact (ih hu _ _).mono (by omega)

theorem null_parent {f : Nat → C α β} {K : Nat} (h : ∀ w n, m.cell (.heap 0) ≠ some (.node w n)) :
    ((Cost.parent 0 >>= f) m).le K := by
  have := null (f := fun n => (Pure.pure n.parent : C α Nat)) (K := 0) h
  refine CRes.le_bind (a := 0) this (Nat.zero_le _) ?_
  intro v m' k e
  exfalso
  change C.bind (Cost.rdNode 0) _ m = _ at e
  simp only [C.bind, Cost.rdNode, C.lift, SegTree.rdNode] at e
  rcases hc : m.cell (.heap 0) with _ | ⟨_ | ⟨_, nd⟩ | _⟩
  · cases e
  · cases e
  · exact absurd hc (h _ _)
  · cases e

theorem move_prev_leaf {e : Entry} (hu : Up m e.leaf.ptr k) : (Cost.move_prev_leaf E e m).le (5 * k + 11) := by
  unfold Cost.move_prev_leaf
  split
  · refine CRes.le_bind ((CB.ptrsAt _ _).run m) (by omega) fun v m' n _ => ?_
    refine CRes.le_bind ((CB.sizesAt _ _).run _) (by omega) fun v m' n _ => ?_
    refine CRes.le_bind ((CB.find_last_segment _ _).run _) (by omega) fun v m' n _ => ?_
    exact Nat.zero_le _
  · generalize hq : e.leaf.ptr = q at hu
    cases hu with
    | zero h => exact null_parent h
    | step hp hc hu =>
      refine CRes.le_step (parent hc) ((CB.parent _).run m) (by omega) ?_
      refine CRes.le_step (pidx hc) ((CB.pidx _).run m) (by omega) ?_
      exact (move_prev_branch hu _ _).mono (by omega)

theorem move_prev_segment {e : Entry} (hu : Up m e.leaf.ptr k) : (Cost.move_prev_segment E e m).le (5 * k + 11) := by
  unfold Cost.move_prev_segment
  split
  · exact Nat.zero_le _
  · exact move_prev_leaf hu

theorem move_prev_iterator {it : Iter} (hu : Up m it.entry.leaf.ptr k) :
    (Cost.move_prev_iterator E it m).le (5 * k + 11) := by
  unfold Cost.move_prev_iterator
  exact CRes.le_usub fun _ => CRes.le_bind (move_prev_segment hu) (Nat.le_refl _) fun v m' n _ => Nat.zero_le _

theorem move_next_branch_count : ∀ {k p : Nat}, Up m p k → ∀ base idx count cht,
    (Cost.move_next_branch_count E base p idx count cht m).le
      (k * (2 * E.baseMax + 3) + (k + cht + 1) * (E.baseMax + 3) + 1) := by
  intro k
  induction k with
  | zero =>
    intro p hu base idx count cht
    cases hu
    unfold Cost.move_next_branch_count
    rw [if_pos rfl]
    have : (cht + 1) * 3 ≤ (cht + 1) * (E.baseMax + 3) := Nat.mul_le_mul_left _ (by omega)
    refine ((CB.find_end_node base cht).run m).mono ?_
    rw [Nat.zero_add]; omega
  | succ k ih =>
    intro p hu base idx count cht
    cases hu with
    | step hp hc hu =>
      unfold Cost.move_next_branch_count
      rw [if_neg hp]
      have e1 : (k + 1) * (2 * E.baseMax + 3) = k * (2 * E.baseMax + 3) + (2 * E.baseMax + 3) := by ring
      have e2 : (k + 1 + cht + 1) * (E.baseMax + 3) = (k + 1) * (E.baseMax + 3) + (cht + 1) * (E.baseMax + 3) := by ring
      have e3 : (k + (cht + 1) + 1) * (E.baseMax + 3) = (k + 1 + cht + 1) * (E.baseMax + 3) := by ring
      refine CRes.le_bind ((CB.scan_next p idx count).run m) (by omega) fun v m' n hv => ?_
      obtain rfl := (RO.scan_next p idx count).run _ _ _ _ hv
      rcases v with ⟨i, sz, c⟩ | c
      · refine CRes.le_bind ((CB.ptrsAt p i).run _) (by omega) fun v m' n _ => ?_
        exact ((CB.find_index_node v cht c).run m').mono (by omega)
      · refine CRes.le_step (pidx hc) ((CB.pidx p).run _) (by omega) ?_
        refine CRes.le_step (parent hc) ((CB.parent p).run _) (by omega) ?_
        exact (ih hu _ _ _ _).mono (by omega)

/-- cost of a counted move over `k` levels -/
def countCost (E : Env α) (k : Nat) : Nat := (k + 3) * (3 * E.baseMax + 6)

theorem count_le {E : Env α} (k : Nat) : k * (2 * E.baseMax + 3) + (k + 2 + 1) * (E.baseMax + 3) + 1 + (2 * E.baseMax + 3) ≤
    countCost E k := by
  unfold countCost; ring_nf; omega

theorem move_next_leaf_count {e : Entry} {count : Nat} (hu : Up m e.leaf.ptr k) :
    (Cost.move_next_leaf_count E e count m).le (countCost E k) := by
  have hb := count_le (E := E) k
  unfold Cost.move_next_leaf_count
  split
  · exact Nat.zero_le _
  · next hp =>
    generalize e.leaf.ptr = q at hu hp
    refine CRes.le_bind ((CB.scan_next _ _ count).run m) (by omega) fun v m' n hv => ?_
    obtain rfl := (RO.scan_next _ _ count).run _ _ _ _ hv
    rcases v with ⟨i, sz, c⟩ | c
    · refine CRes.le_bind ((CB.ptrsAt q i).run _) (by omega) fun v m' n _ => ?_
      exact Nat.zero_le _
    · cases hu with
      | zero h => exact absurd rfl hp
      | @step _ k w n hp hc hu =>
        have hb := count_le (E := E) k
        have e : countCost E (k + 1) = countCost E k + (3 * E.baseMax + 6) := by unfold countCost; ring
        refine CRes.le_step (parent hc) ((CB.parent _).run _) (by omega) ?_
        refine CRes.le_step (pidx hc) ((CB.pidx _).run _) (by omega) ?_
        exact (move_next_branch_count hu _ _ _ _).mono (by omega)

theorem move_next_segment_count {e : Entry} {count : Nat} (hu : Up m e.leaf.ptr k) :
    (Cost.move_next_segment_count E e count m).le (countCost E k) := by
  unfold Cost.move_next_segment_count
  split
  · exact Nat.zero_le _
  · exact move_next_leaf_count hu

theorem move_next_iterator_count {it : Iter} {count : Nat} (hu : Up m it.entry.leaf.ptr k) :
    (Cost.move_next_iterator_count E it count m).le (countCost E k) := by
  unfold Cost.move_next_iterator_count
  exact CRes.le_bind (move_next_segment_count hu) (Nat.le_refl _) fun v m' n _ => Nat.zero_le _

theorem move_prev_branch_count : ∀ {k p : Nat}, Up m p k → ∀ idx count cht,
    (Cost.move_prev_branch_count E p idx count cht m).le
      (k * (2 * E.baseMax + 3) + (k + cht + 1) * (E.baseMax + 3) + E.baseMax + 1) := by
  intro k
  induction k with
  | zero =>
    intro p hu idx count cht
    unfold Cost.move_prev_branch_count
    refine CRes.le_bind ((CB.scan_prev p idx count).run m) (by omega) fun v m' n hv => ?_
    obtain rfl := (RO.scan_prev p idx count).run _ _ _ _ hv
    rcases v with ⟨i, sz, c⟩ | c
    · refine CRes.le_bind ((CB.ptrsAt p i).run _) (by omega) fun v m' n _ => ?_
      exact ((CB.find_index_node v cht _).run m').mono (by rw [Nat.zero_add]; omega)
    · cases hu with
      | zero h => exact null_pidx h
  | succ k ih =>
    intro p hu idx count cht
    cases hu with
    | step hp hc hu =>
      unfold Cost.move_prev_branch_count
      have e1 : (k + 1) * (2 * E.baseMax + 3) = k * (2 * E.baseMax + 3) + (2 * E.baseMax + 3) := by ring
      have e2 : (k + 1 + cht + 1) * (E.baseMax + 3) = (k + 1) * (E.baseMax + 3) + (cht + 1) * (E.baseMax + 3) := by ring
      have e3 : (k + (cht + 1) + 1) * (E.baseMax + 3) = (k + 1 + cht + 1) * (E.baseMax + 3) := by ring
      refine CRes.le_bind ((CB.scan_prev p idx count).run m) (by omega) fun v m' n hv => ?_
      obtain rfl := (RO.scan_prev p idx count).run _ _ _ _ hv
      rcases v with ⟨i, sz, c⟩ | c
      · refine CRes.le_bind ((CB.ptrsAt p i).run _) (by omega) fun v m' n _ => ?_
        exact ((CB.find_index_node v cht _).run m').mono (by omega)
      · refine CRes.le_step (pidx hc) ((CB.pidx p).run _) (by omega) ?_
        refine CRes.le_step (parent hc) ((CB.parent p).run _) (by omega) ?_
        exact (ih hu _ _ _).mono (by omega)

theorem move_prev_leaf_count {e : Entry} {count : Nat} (hu : Up m e.leaf.ptr k) :
    (Cost.move_prev_leaf_count E e count m).le (countCost E k) := by
  have hb := count_le (E := E) k
  unfold Cost.move_prev_leaf_count
  generalize e.leaf.ptr = q at hu
  refine CRes.le_bind ((CB.scan_prev _ _ count).run m) (by omega) fun v m' n hv => ?_
  obtain rfl := (RO.scan_prev _ _ count).run _ _ _ _ hv
  rcases v with ⟨i, sz, c⟩ | c
  · refine CRes.le_bind ((CB.ptrsAt q i).run _) (by omega) fun v m' n _ => ?_
    exact Nat.zero_le _
  · cases hu with
    | zero h => exact null_parent h
    | @step _ k w n hp hc hu =>
      have hb := count_le (E := E) k
      have e : countCost E (k + 1) = countCost E k + (3 * E.baseMax + 6) := by unfold countCost; ring
      refine CRes.le_step (parent hc) ((CB.parent _).run _) (by omega) ?_
      refine CRes.le_step (pidx hc) ((CB.pidx _).run _) (by omega) ?_
      exact (move_prev_branch_count hu _ _ _).mono (by omega)

theorem move_prev_segment_count {e : Entry} {count : Nat} (hu : Up m e.leaf.ptr k) :
    (Cost.move_prev_segment_count E e count m).le (countCost E k) := by
  unfold Cost.move_prev_segment_count
  split
  · exact Nat.zero_le _
  · exact move_prev_leaf_count hu

theorem move_prev_iterator_count {it : Iter} {count : Nat} (hu : Up m it.entry.leaf.ptr k) :
    (Cost.move_prev_iterator_count E it count m).le (countCost E k) := by
  unfold Cost.move_prev_iterator_count
  refine CRes.le_bind (move_prev_segment_count hu) (Nat.le_refl _) fun v m' n _ => ?_
  exact CRes.le_usub fun _ => Nat.zero_le _

theorem move_iterator_count {it : Iter} {d : Int} (hu : Up m it.entry.leaf.ptr k) :
    (Cost.move_iterator_count E it d m).le (countCost E k) := by
  unfold Cost.move_iterator_count
  split
  · exact CRes.le_bind (move_next_segment_count hu) (Nat.le_refl _) fun v m' n _ => Nat.zero_le _
  · split
    · exact CRes.le_bind (move_prev_segment_count hu) (Nat.le_refl _) fun v m' n _ => Nat.zero_le _
    · exact Nat.zero_le _

/-! #### writing along the chain -/

/-- every node is still there with the same parent -/
def Keeps (m m' : Mem α) : Prop :=
  (∀ p w n, m.cell (.heap p) = some (.node w n) → ∃ w' n', m'.cell (.heap p) = some (.node w' n') ∧ n'.parent = n.parent) ∧
  ((∀ w n, m.cell (.heap 0) ≠ some (.node w n)) → ∀ w n, m'.cell (.heap 0) ≠ some (.node w n))

theorem congr {m' : Mem α} (hk : Keeps m m') (hu : Up m p k) : Up m' p k := by
  induction hu with
  | zero h => exact .zero (hk.2 h)
  | step hp hc _ ih =>
    obtain ⟨w', n', hc', e⟩ := hk.1 _ _ _ hc
    exact .step hp hc' (e ▸ ih)

theorem keeps_node {n' : Node} (hc : m.cell (.heap p) = some (.node w n)) (e : n'.parent = n.parent) :
    Keeps m (m.set (.heap p) (.node w n')) := by
  constructor
  · intro q w1 n1 h1
    by_cases hq : q = p
    · subst hq
      rw [hc] at h1; cases h1
      exact ⟨w, n', by simp [Mem.set, upd], e⟩
    · exact ⟨w1, n1, by simp [Mem.set, upd, hq, h1], rfl⟩
  · intro h w1 n1
    by_cases hq : (0 : Nat) = p
    · subst hq; exact absurd hc (h _ _)
    · simp only [Mem.set, upd, Loc.heap.injEq, if_neg hq]; exact h _ _

theorem keeps_obj {o : Nat} {x : Cell α} : Keeps m (m.set (.obj o) x) := by
  constructor
  · intro q w1 n1 h1
    exact ⟨w1, n1, by simp [Mem.set, upd, h1], rfl⟩
  · intro h w1 n1
    simp only [Mem.set, upd, reduceCtorEq, if_false]; exact h _ _

theorem keeps_log {g : Log} : Keeps m { m with log := g } := ⟨fun _ w n h => ⟨w, n, h, rfl⟩, fun h => h⟩

theorem keeps_alloc {g : Log} {a : Nat} {x : Cell α} (ha : m.cell (.heap a) = none) (h0 : a ≠ 0) :
    Keeps m ({ m with log := g }.set (.heap a) x) := by
  constructor
  · intro q w1 n1 h1
    have hq : q ≠ a := by rintro rfl; rw [ha] at h1; cases h1
    exact ⟨w1, n1, by simp [Mem.set, upd, hq, h1], rfl⟩
  · intro h w1 n1
    have : ¬ (0 : Nat) = a := fun e => h0 e.symm
    simp only [Mem.set, upd, Loc.heap.injEq, if_neg this]; exact h _ _

theorem setSizes_run {i v : Nat} (hc : m.cell (.heap p) = some (.node w n)) (hi : i < E.baseMax) :
    SegTree.setSizes E p i v m = .ok () (m.set (.heap p) (.node w { n with sizes := upd n.sizes i v })) := by
  unfold SegTree.setSizes
  rw [bind_ok (rd hc), if_pos hi]
  simp [SegTree.wrNode, hc]

theorem update_sizes {o sz : Nat} : ∀ {k : Nat} {m : Mem α} {p : Nat}, Up m p k → ∀ idx,
    (Cost.update_sizes E o p idx sz m).le (5 * k + 3) := by
  intro k
  induction k with
  | zero =>
    intro m p hu idx
    cases hu
    unfold Cost.update_sizes
    rw [if_neg (by simp)]
    refine CRes.le_bind ((CB.getSize o).run m) (by omega) fun v m' n _ => ?_
    exact ((CB.setSize o _).run m').mono (by omega)
  | succ k ih =>
    intro m p hu idx
    cases hu with
    | @step _ k w n hp hc hu =>
      unfold Cost.update_sizes
      rw [if_pos hp]
      by_cases hi : idx < E.baseMax
      · refine CRes.le_step (x := SegTree.sizesAt E p idx) (v := n.sizes idx) (m' := m) ?_ ((CB.sizesAt p idx).run m)
          (by omega) ?_
        · unfold SegTree.sizesAt; rw [bind_ok (rd hc), if_pos hi]; rfl
        refine CRes.le_step (setSizes_run (v := E.wadd (n.sizes idx) sz) hc hi) ((CB.setSizes p idx _).run m) (by omega) ?_
        have hc' : (m.set (.heap p) (.node w { n with sizes := upd n.sizes idx (E.wadd (n.sizes idx) sz) })).cell (.heap p) =
          some (.node w { n with sizes := upd n.sizes idx (E.wadd (n.sizes idx) sz) }) := by simp [Mem.set, upd]
        refine CRes.le_step (pidx hc') ((CB.pidx p).run _) (by omega) ?_
        refine CRes.le_step (parent hc') ((CB.parent p).run _) (by omega) ?_
        have h := ih (hu.congr (keeps_node (n' := { n with sizes := upd n.sizes idx (E.wadd (n.sizes idx) sz) }) hc rfl)) n.pidx
        exact h.mono (by omega)
      · exact (CB.deadBind (CB.sizesAt_dead hi)).run m

theorem increment_sizes {o idx : Nat} (hu : Up m p k) : (Cost.increment_sizes E o p idx m).le (5 * k + 3) :=
  update_sizes hu idx
theorem decrement_sizes {o idx : Nat} (hu : Up m p k) : (Cost.decrement_sizes E o p idx m).le (5 * k + 3) :=
  update_sizes hu idx

theorem det {k' : Nat} (h : Up m p k) (h' : Up m p k') : k = k' := by
  induction h generalizing k' with
  | zero h => cases h' with
    | zero _ => rfl
    | step hp _ _ => exact absurd rfl hp
  | step hp hc _ ih => cases h' with
    | zero _ => exact absurd rfl hp
    | step _ hc' h' => rw [hc] at hc'; cases hc'; rw [ih h']

theorem erase {a j : Nat} (hu : Up m p k) (ha : Up m a j) (hlt : k < j) : Up (m.erase (.heap a)) p k := by
  induction hu with
  | zero h =>
    refine .zero ?_
    intro w n
    simp only [Mem.erase, upd]
    split
    · simp
    · exact h _ _
  | @step p k w n hp hc hu ih =>
    have hne : p ≠ a := by
      rintro rfl
      have := ha.det (.step hp hc hu)
      omega
    exact .step (w := w) (n := n) hp (by simp [Mem.erase, upd, hne, hc]) (ih (by omega))

theorem free_chain {o : Nat} : ∀ {k : Nat} {m : Mem α} {p : Nat}, Up m p k → (Cost.free_chain E o p m).le (3 * k) := by
  intro k
  induction k with
  | zero =>
    intro m p hu
    cases hu
    unfold Cost.free_chain
    rw [if_neg (by simp)]
    exact Nat.zero_le _
  | succ k ih =>
    intro m p hu
    have hu' := hu
    cases hu with
    | @step _ k w n hp hc hu =>
      unfold Cost.free_chain
      rw [if_pos hp]
      refine CRes.le_step (parent hc) ((CB.parent p).run m) (by omega) ?_
      refine CRes.le_bind ((CB.deallocate_node o p).run m) (by omega) fun v m' j hv => ?_
      have hm : m' = m.erase (.heap p) := by
        have hs : Sim (SegTree.deallocate_node E o p) (Cost.deallocate_node E o p) := inferInstance
        have e := hs.run m
        rw [hv] at e
        have e : SegTree.deallocate_node E o p m = .div ∨ Res.ok v m' = SegTree.deallocate_node E o p m := e
        unfold SegTree.deallocate_node at e
        change M.bind (rdObj o) _ m = .div ∨ _ = M.bind (rdObj o) _ m at e
        simp only [M.bind, SegTree.rdObj] at e
        rcases ho : m.cell (.obj o) with _ | ⟨_ | _ | x⟩ <;> rw [ho] at e <;> simp only [freeNode, hc] at e
        · simp at e
        · simp at e
        · simp at e
        · split at e
          · simp at e
          · simp at e; exact e
      subst hm
      exact (ih (hu.erase hu' (by omega))).mono (by omega)

theorem alloc_catch {o seg a j : Nat} (ha : Up m a j) : (Cost.alloc_catch E o seg a m).le (3 * j + 2) := by
  unfold Cost.alloc_catch
  refine CRes.le_bind ((CB.deallocate_segment o seg).run m) (by omega) fun v m' n hv => ?_
  refine (free_chain (k := j) ?_).mono (by omega)
  have hs : Sim (SegTree.deallocate_segment E o seg) (Cost.deallocate_segment E o seg) := inferInstance
  have e := hs.run m
  rw [hv] at e
  have e : SegTree.deallocate_segment E o seg m = .div ∨ Res.ok v m' = SegTree.deallocate_segment E o seg m := e
  unfold SegTree.deallocate_segment at e
  change M.bind (rdObj o) _ m = .div ∨ _ = M.bind (rdObj o) _ m at e
  simp only [M.bind, SegTree.rdObj] at e
  rcases ho : m.cell (.obj o) with _ | ⟨_ | _ | x⟩ <;> rw [ho] at e
  · simp at e
  · simp at e
  · simp at e
  · simp only at e
    split at e
    · split at e
      · simp at e; rw [e]; exact ha
      · simp [M.ub] at e
    · simp only [freeSeg] at e
      rcases hc : m.cell (.heap seg) with _ | ⟨⟨w, s⟩ | _ | _⟩ <;> rw [hc] at e
      · simp at e
      · simp only at e
        split at e
        · simp at e
        · split at e
          · simp at e
            subst e
            refine ha.congr ⟨?_, ?_⟩
            · intro q w1 n1 h1
              have hq : q ≠ seg := by rintro rfl; rw [hc] at h1; cases h1
              exact ⟨w1, n1, by simp [Mem.erase, upd, hq, h1], rfl⟩
            · intro h w1 n1
              simp only [Mem.erase, upd]
              split
              · simp
              · exact h _ _
          · simp at e
      · simp at e
      · simp at e


theorem allocate_node_cases (o : Nat) (m : Mem α) :
    (∃ b g w nd, SegTree.allocate_node E o m = .ok b (({ m with log := g } : Mem α).set (.heap b) (.node w nd)) ∧ b ≠ 0 ∧
      m.cell (.heap b) = none) ∨
    (∃ g, SegTree.allocate_node E o m = .throw .alloc { m with log := g }) ∨
    (∃ u, SegTree.allocate_node E o m = .ub u) := by
  unfold SegTree.allocate_node
  change (∃ b g w nd, M.bind (rdObj o) _ m = _ ∧ _) ∨ (∃ g, M.bind (rdObj o) _ m = _) ∨ (∃ u, M.bind (rdObj o) _ m = _)
  simp only [M.bind, SegTree.rdObj]
  rcases m.cell (.obj o) with _ | ⟨_ | _ | x⟩
  · exact .inr (.inr ⟨_, rfl⟩)
  · exact .inr (.inr ⟨_, rfl⟩)
  · exact .inr (.inr ⟨_, rfl⟩)
  · simp only [SegTree.allocNodeCell, SegTree.allocCell]
    split
    · exact .inr (.inl ⟨_, rfl⟩)
    · rename_i h
      simp only [not_or, Bool.not_eq_true, Option.isSome_eq_false_iff, Option.isNone_iff_eq_none] at h
      exact .inl ⟨_, _, _, _, rfl, h.1, h.2⟩

/-- one allocation of a node, with the handler that gives everything back -/
theorem alloc_one {o seg a j K : Nat} {f : Nat → C α β} (ha : Up m a j) (hK : 3 * j ≤ K)
    (hf : ∀ b m', Keeps m m' → Up m' b (j + 1) → (f b m').le K) :
    ((C.onThrow (Cost.allocate_node E o) (Cost.alloc_catch E o seg a) >>= fun temp =>
      Cost.setParent temp a >>= fun _ => f temp) m).le (K + 4) := by
  have hc := (CB.allocate_node (E := E) o).run m
  have hs : Sim (SegTree.allocate_node E o) (Cost.allocate_node E o) := inferInstance
  rcases allocate_node_cases (E := E) o m with ⟨b, g, w, nd, e, hb, hn⟩ | ⟨g, e⟩ | ⟨u, e⟩
  · obtain ⟨n, hn'⟩ := hs.ok e
    rw [hn'] at hc
    have hc : n ≤ 2 := hc
    have e1 : C.onThrow (Cost.allocate_node E o) (Cost.alloc_catch E o seg a) m =
        .ok b (({ m with log := g } : Mem α).set (.heap b) (.node w nd)) n := by
      unfold C.onThrow; rw [hn']
    refine CRes.le_bind (a := 2) (by rw [e1]; exact hc) (by omega) ?_
    rintro v m' n' h
    rw [e1] at h; cases h
    have hcell : (({ m with log := g } : Mem α).set (.heap b) (.node w nd)).cell (.heap b) = some (.node w nd) := by
      simp [Mem.set, upd]
    have e2 : SegTree.setParent b a (({ m with log := g } : Mem α).set (.heap b) (.node w nd)) =
        .ok () ((({ m with log := g } : Mem α).set (.heap b) (.node w nd)).set (.heap b) (.node w { nd with parent := a })) := by
      unfold SegTree.setParent
      rw [bind_ok (rd hcell)]
      simp [SegTree.wrNode, hcell]
    refine CRes.le_step e2 ((CB.setParent _ _).run _) (by omega) ?_
    have hk : Keeps m ((({ m with log := g } : Mem α).set (.heap b) (.node w nd)).set (.heap b) (.node w { nd with parent := a })) := by
      have := keeps_alloc (g := g) (x := .node w { nd with parent := a }) hn hb
      have e : ∀ (f : Loc → Option (Cell α)) (a : Loc) (x y : Option (Cell α)), upd (upd f a x) a y = upd f a y := by
        intro f a x y; funext b; simp only [upd]; split <;> rfl
      simpa [Mem.set, e] using this
    refine (hf _ _ hk ?_).mono (by omega)
    exact .step (w := w) (n := { nd with parent := a }) hb (by simp [Mem.set, upd]) (ha.congr hk)
  · obtain ⟨n, hn'⟩ := hs.thrown e
    rw [hn'] at hc
    have hc : n ≤ 2 := hc
    have h2 := alloc_catch (E := E) (o := o) (seg := seg) (m := { m with log := g }) (ha.congr keeps_log)
    refine CRes.le_bind (a := 3 * j + 4) ?_ (by omega) ?_
    · unfold C.onThrow; rw [hn']
      dsimp only
      cases e3 : Cost.alloc_catch E o seg a { m with log := g } with
      | ok _ _ k => rw [e3] at h2; have h2 : k ≤ _ := h2; show n + k ≤ _; omega
      | throw _ _ k => rw [e3] at h2; have h2 : k ≤ _ := h2; show n + k ≤ _; omega
      | ub _ => trivial
      | div => trivial
    · intro v m' k h
      unfold C.onThrow at h; rw [hn'] at h
      dsimp only at h
      cases e3 : Cost.alloc_catch E o seg a { m with log := g } <;> rw [e3] at h <;> simp at h
  · rcases hs.run m with h | h
    · rw [e] at h; cases h
    · rw [e] at h
      refine CRes.le_bind (a := 0) ?_ (by omega) ?_
      · unfold C.onThrow
        cases hy : Cost.allocate_node E o m <;> rw [hy] at h <;> simp_all [CRes.erase, CRes.le]
      · intro v m' k h'
        unfold C.onThrow at h'
        cases hy : Cost.allocate_node E o m <;> rw [hy] at h <;> simp_all [CRes.erase]

theorem alloc_nodes_loop {o seg : Nat} : ∀ {k : Nat} {m : Mem α} {p a j : Nat}, Up m p k → Up m a j →
    (Cost.alloc_nodes_loop E o p seg a m).le (3 * j + 9 * k + 4) := by
  intro k
  induction k with
  | zero =>
    intro m p a j hp ha
    cases hp
    rw [Cost.alloc_nodes_loop, if_pos rfl]
    exact (alloc_one (K := 3 * j) ha (Nat.le_refl _) fun b m' _ _ => Nat.zero_le _).mono (by omega)
  | succ k ih =>
    intro m p a j hp ha
    cases hp with
    | @step _ k w n hp hc hu =>
      rw [Cost.alloc_nodes_loop, if_neg hp]
      refine CRes.le_bind (a := 1) ((CB.len p).run m) (by omega) fun v m' n' hv => ?_
      obtain rfl : m' = m := by
        have hs : Sim (SegTree.len p : M α Nat) (Cost.len p) := inferInstance
        have h := hs.run m
        rw [hv] at h
        unfold SegTree.len at h
        rw [bind_ok (rd hc)] at h
        rcases h with h | h <;> simp [CRes.erase] at h
        exact h.2
      split
      · exact Nat.zero_le _
      · refine (alloc_one (K := 3 * (j + 1) + 9 * k + 5) ha (by omega) fun b m2 hk hb => ?_).mono (by omega)
        obtain ⟨w', n2, hc', hp'⟩ := hk.1 _ _ _ hc
        refine CRes.le_step (parent hc') ((CB.parent p).run _) (by omega) ?_
        refine (ih (hp' ▸ hu.congr hk) hb).mono (by omega)

theorem alloc_nodes_single {o p seg k : Nat} (hp : Up m p k) (h0 : Up m 0 0) :
    (Cost.alloc_nodes_single E o p seg m).le (9 * k + 4) := by
  unfold Cost.alloc_nodes_single
  exact (alloc_nodes_loop hp h0).mono (by omega)

end Up
end SegTree
