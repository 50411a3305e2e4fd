/-
  How many elements a call constructs, assigns or destroys, in every memory: the
  weights are `elements`.  Functions that touch none come from Cost/Elem.lean.
-/
import Verif.Cost.Elem
import Verif.Cost.Bound
set_option autoImplicit false
set_option synthInstance.maxSize 2000
set_option synthInstance.maxHeartbeats 400000

attribute [local instance] SegTree.Weights.elements

namespace SegTree
variable {α β γ : Type} {E : Env α}

namespace Moves

/-- a program that touches no element -/
theorem quiet {x : C α β} [h : Quiet false x] : CB x 0 := by
  refine ⟨fun m => ?_⟩
  have h1 := h.run m
  cases e : x m with
  | ok v m' n => rw [e] at h1; exact Nat.le_of_eq h1.1
  | throw v m' n => rw [e] at h1; exact Nat.le_of_eq h1.1
  | ub _ => trivial
  | div => trivial

attribute [local instance 50] quiet

instance wrSlots (p : Nat) (s : Nat → Slot α) : CB (Cost.wrSlots p s : C α Unit) 1 := CB.lift _ _
instance wrElem (p i : Nat) (v : α) : CB (Cost.wrElem E p i v) 1 := by unfold Cost.wrElem; cb
instance construct_segment (p i : Nat) (v : α) : CB (Cost.construct_segment E p i v) 1 := by
  unfold Cost.construct_segment; cb
instance destroy_segment (p i : Nat) : CB (Cost.destroy_segment E p i) 1 := by unfold Cost.destroy_segment; cb
instance assign_segment (p i : Nat) (v : α) : CB (Cost.assign_segment E p i v) 1 := by
  unfold Cost.assign_segment; cb
instance move_assign_segment (s i d j : Nat) : CB (Cost.move_assign_segment E s i d j) 2 := by
  unfold Cost.move_assign_segment; cb
instance move_segment (s i d j : Nat) : CB (Cost.move_segment E s i d j) 2 := by unfold Cost.move_segment; cb

instance memcpy_segment (s i d j n : Nat) : CB (Cost.memcpy_segment E s i d j n) (E.segMax + 1) := by
  unfold Cost.memcpy_segment
  refine CB.step (a := 0) inferInstance (by omega) fun _ => CB.step (a := 0) inferInstance (by omega) fun _ => ?_
  split
  · refine CB.step (a := n) ?_ (by omega) fun _ => CB.of (wrSlots _ _) (by omega)
    have := CB.tick (α := α) (n * Weights.copy)
    rwa [show n * Weights.copy = n from Nat.mul_one n] at this ⊢
  · exact CB.ubLe _ _

instance construct_range_segment (s i d j n : Nat) : CB (Cost.construct_range_segment E s i d j n) (3 * E.segMax + 1) := by
  unfold Cost.construct_range_segment
  split
  · exact CB.of (memcpy_segment _ _ _ _ _) (by omega)
  · refine CB.step (CB.range_loop (B := E.segMax) (c := 3) (fun f t => ?_) (fun f t h => ?_) _ _ _) ?_ fun _ => CB.pureLe _ _
    · cb
    · exact (CB.rdElem_dead h).bindL
    · have := Nat.sub_le E.segMax i
      omega
instance assign_forward_segment (p l i d : Nat) : CB (Cost.assign_forward_segment E p l i d) (2 * E.segMax + 1) := by
  unfold Cost.assign_forward_segment
  split
  · exact CB.step (CB.usub _ _) (by omega) fun _ => CB.of (memcpy_segment _ _ _ _ _) (by omega)
  · refine CB.of (CB.forward_loop (B := E.segMax) (c := 2) (fun f t => inferInstance) (fun f t h => ?_) _ _) (by omega)
    unfold Cost.move_assign_segment; exact (CB.rdElem_dead h).bindL
instance assign_backward_segment (p l i d : Nat) : CB (Cost.assign_backward_segment E p l i d) (2 * E.segMax + 1) := by
  unfold Cost.assign_backward_segment
  split
  · exact CB.step (CB.usub _ _) (by omega) fun _ => CB.of (memcpy_segment _ _ _ _ _) (by omega)
  · refine CB.of (CB.backward_loop (B := E.segMax) (c := 2) (fun f t => inferInstance) (fun f t h => ?_) _ _) (by omega)
    unfold Cost.move_assign_segment; exact (CB.rdElem_dead h).bindL

/-! ### one insertion, one erasure -/

instance insert_single_segment (o : Nat) (e : Entry) (v : α) :
    CB (Cost.insert_single_segment E o e v) (6 * E.segMax + 6) := by
  unfold Cost.insert_single_segment
  cb
instance insert_single_iterator (o : Nat) (it : Iter) (v : α) :
    CB (Cost.insert_single_iterator E o it v) (6 * E.segMax + 6) := by
  unfold Cost.insert_single_iterator
  cb
instance erase_single_segment (o : Nat) (e : Entry) :
    CB (Cost.erase_single_segment E o e) (6 * E.segMax + 6) := by
  unfold Cost.erase_single_segment
  cb
instance erase_single_iterator (o : Nat) (it : Iter) :
    CB (Cost.erase_single_iterator E o it) (6 * E.segMax + 6) := by
  unfold Cost.erase_single_iterator
  cb

instance moveFrom (p i : Nat) : CB (Cost.moveFrom E p i) 1 := by unfold Cost.moveFrom; cb
instance copyAssign (p i : Nat) (v : α) : CB (Cost.copyAssign E p i v) 1 := by unfold Cost.copyAssign; cb

/-- the bound of one insertion or erasure -/
def one (E : Env α) : Nat := 6 * E.segMax + 7

theorem emplace_single (o : Nat) (it : Iter) (mk : C α α) {k : Nat} (hk : k ≤ 1) (h : CB mk k) :
    CB (Cost.emplace_single E o it mk) (one E) := by
  unfold Cost.emplace_single one
  refine CB.step h (by omega) fun v => CB.of (insert_single_iterator _ _ _) (by omega)
instance erase_single (o : Nat) (it : Iter) : CB (Cost.erase_single E o it) (one E) := by
  unfold Cost.erase_single one
  cb

instance insert (o : Nat) (it : Iter) (v : α) : CB (Cost.insert E o it v) (one E) :=
  emplace_single _ _ _ (Nat.zero_le _) inferInstance
instance insert_rv (o : Nat) (it : Iter) (v : α) : CB (Cost.insert_rv E o it v) (one E) :=
  emplace_single _ _ _ (Nat.zero_le _) inferInstance
instance insert_alias (o : Nat) (it src : Iter) : CB (Cost.insert_alias E o it src) (one E) :=
  emplace_single _ _ _ (Nat.zero_le _) inferInstance
instance erase (o : Nat) (it : Iter) : CB (Cost.erase E o it) (one E) := erase_single _ _
instance push_back (o : Nat) (v : α) : CB (Cost.push_back E o v) (one E) := by
  unfold Cost.push_back
  refine CB.step (a := 0) inferInstance (by omega) fun _ => ?_
  refine CB.step (emplace_single _ _ _ (Nat.zero_le _) inferInstance) (by omega) fun _ => CB.pureLe _ _
instance push_back_rv (o : Nat) (v : α) : CB (Cost.push_back_rv E o v) (one E) := by
  unfold Cost.push_back_rv
  refine CB.step (a := 0) inferInstance (by omega) fun _ => ?_
  refine CB.step (emplace_single _ _ _ (Nat.zero_le _) inferInstance) (by omega) fun _ => CB.pureLe _ _
instance push_front (o : Nat) (v : α) : CB (Cost.push_front E o v) (one E) := by
  unfold Cost.push_front
  refine CB.step (a := 0) inferInstance (by omega) fun _ => ?_
  refine CB.step (emplace_single _ _ _ (Nat.zero_le _) inferInstance) (by omega) fun _ => CB.pureLe _ _
instance push_front_rv (o : Nat) (v : α) : CB (Cost.push_front_rv E o v) (one E) := by
  unfold Cost.push_front_rv
  refine CB.step (a := 0) inferInstance (by omega) fun _ => ?_
  refine CB.step (emplace_single _ _ _ (Nat.zero_le _) inferInstance) (by omega) fun _ => CB.pureLe _ _
instance pop_back (o : Nat) : CB (Cost.pop_back E o) (one E) := by
  unfold Cost.pop_back
  cb
instance pop_front (o : Nat) : CB (Cost.pop_front E o) (one E) := by
  unfold Cost.pop_front
  cb
instance index_set (o i : Nat) (v : α) : CB (Cost.index_set E o i v) 1 := by unfold Cost.index_set; cb
instance deref_set (it : Iter) (v : α) : CB (Cost.deref_set E it v) 1 := by unfold Cost.deref_set; cb
instance deref_set_rv (it : Iter) (v : α) : CB (Cost.deref_set_rv E it v) 1 := by unfold Cost.deref_set_rv; cb
instance iter_swap (a b : Iter) : CB (Cost.iter_swap E a b) 6 := by unfold Cost.iter_swap; cb
instance iter_move_assign (a b : Iter) : CB (Cost.iter_move_assign E a b) 2 := by unfold Cost.iter_move_assign; cb

/-! ### several -/

theorem emplace_count_loop (o : Nat) (mk : C α α) {k : Nat} (hk : k ≤ 1) (h : CB mk k) : ∀ (n : Nat) (it : Iter),
    CB (Cost.emplace_count_loop E o mk n it) (n * one E)
  | 0, it => CB.pureLe _ _
  | n + 1, it => by
    unfold Cost.emplace_count_loop
    have h1 : (n + 1) * one E = n * one E + one E := Nat.succ_mul _ _
    refine CB.step (emplace_single _ _ _ hk h) (by omega) fun _ => ?_
    refine CB.step (a := 0) inferInstance (by omega) fun _ => ?_
    exact CB.of (emplace_count_loop o mk hk h n _) (by omega)
theorem emplace_count (o : Nat) (it : Iter) (n : Nat) (mk : C α α) {k : Nat} (hk : k ≤ 1) (h : CB mk k) :
    CB (Cost.emplace_count E o it n mk) (n * one E) := by
  unfold Cost.emplace_count
  refine CB.step (emplace_count_loop o mk hk h n it) (by omega) fun _ => ?_
  exact CB.of (a := 0) inferInstance (by omega)
theorem insert_fill (o : Nat) (it : Iter) (n : Nat) (v : α) : CB (Cost.insert_fill E o it n v) (n * one E) :=
  emplace_count _ _ _ _ (Nat.zero_le _) inferInstance

theorem emplace_range_loop (o : Nat) : ∀ (vs : List α) (it : Iter) (c : Nat),
    CB (Cost.emplace_range_loop E (Cost.listSrc E) o it vs c) (vs.length * one E)
  | [], it, c => by
    rw [Cost.emplace_range_loop]
    exact CB.pureLe _ _
  | v :: vs, it, c => by
    rw [Cost.emplace_range_loop]
    have h1 : (v :: vs).length * one E = vs.length * one E + one E := Nat.succ_mul _ _
    refine CB.of (b := (v :: vs).length * one E) (a := (v :: vs).length * one E) ?_ (Nat.le_refl _)
    show CB (do
      let it ← Cost.emplace_single E o it (Cost.copyVal E v)
      let first ← (Pure.pure vs : C α (List α))
      let it ← Cost.move_next_iterator E it
      Cost.emplace_range_loop E (Cost.listSrc E) o it first (c + 1)) _
    refine CB.step (emplace_single _ _ _ (Nat.zero_le _) inferInstance) (by omega) fun it' => ?_
    refine ⟨fun m => ?_⟩
    refine CRes.le_bind (a := 0) (Nat.le_refl _) (by omega) ?_
    rintro _ _ _ ⟨⟩
    have := CB.step (f := fun it => Cost.emplace_range_loop E (Cost.listSrc E) o it vs (c + 1)) (a := 0)
      (k := (v :: vs).length * one E - one E - 0)
      (inferInstance : CB (Cost.move_next_iterator E it') 0) (by omega) fun _ => CB.of (emplace_range_loop o vs _ _) (by omega)
    exact this.run _
theorem insert_list (o : Nat) (it : Iter) (vs : List α) : CB (Cost.insert_list E o it vs) (vs.length * one E) := by
  unfold Cost.insert_list Cost.emplace_range
  refine CB.step (emplace_range_loop o vs it 0) (by omega) fun _ => ?_
  exact CB.of (a := 0) inferInstance (by omega)

/-- inversion of a sequence that returned -/
theorem bind_ok {x : C α β} {f : β → C α γ} {m m' : Mem α} {v : γ} {n : Nat} (h : (x >>= f) m = .ok v m' n) :
    ∃ w m1 n1 n2, x m = .ok w m1 n1 ∧ f w m1 = .ok v m' n2 := by
  change C.bind x f m = _ at h
  unfold C.bind at h
  cases e : x m with
  | ok w m1 n1 =>
    rw [e] at h
    cases e2 : f w m1 with
    | ok u m2 n2 =>
      simp only [e2] at h
      cases h
      exact ⟨w, m1, n1, n2, rfl, e2⟩
    | throw _ _ _ => simp only [e2] at h; cases h
    | ub _ => simp only [e2] at h; cases h
    | div => simp only [e2] at h; cases h
  | throw _ _ _ => rw [e] at h; cases h
  | ub _ => rw [e] at h; cases h
  | div => rw [e] at h; cases h

theorem usub_ok {a b c : Nat} {m m' : Mem α} {n : Nat} (h : (Cost.usub a b : C α Nat) m = .ok c m' n) : b ≤ a ∧ c = a - b := by
  unfold Cost.usub C.lift SegTree.usub at h
  by_cases hb : b ≤ a
  · rw [if_pos hb] at h
    cases h
    exact ⟨hb, rfl⟩
  · rw [if_neg hb] at h
    cases h

theorem move_prev_pos {it jt : Iter} {m m' : Mem α} {n : Nat} (h : Cost.move_prev_iterator E it m = .ok jt m' n) :
    1 ≤ it.pos ∧ jt.pos = it.pos - 1 := by
  unfold Cost.move_prev_iterator at h
  obtain ⟨w, m1, n1, n2, h1, h2⟩ := bind_ok h
  obtain ⟨w', m1', n1', n2', h3, h4⟩ := bind_ok h2
  cases h4
  exact usub_ok h1

theorem erase_single_pos {o : Nat} {it jt : Iter} {m m' : Mem α} {n : Nat} (h : Cost.erase_single E o it m = .ok jt m' n) :
    jt.pos = it.pos := by
  unfold Cost.erase_single at h
  obtain ⟨w, m1, n1, n2, h1, h2⟩ := bind_ok h
  have hw : w.pos = it.pos := by
    unfold Cost.erase_single_iterator at h1
    obtain ⟨w', m1', n1', n2', h3, h4⟩ := bind_ok h1
    cases h4
    rfl
  split at h2
  · obtain ⟨w', m1', n1', n2', h3, h4⟩ := bind_ok h2
    cases h4
    exact hw
  · cases h2
    exact hw

theorem erase_range (o : Nat) (first : Iter) : ∀ (d : Nat) (last : Iter), last.pos = first.pos + d →
    CB (Cost.erase_range E o first last) (d * one E)
  | 0, last, hd => by
    rw [Cost.erase_range, if_neg (by omega)]
    exact CB.pureLe _ _
  | d + 1, last, hd => by
    have h1 : (d + 1) * one E = d * one E + one E := Nat.succ_mul _ _
    rw [Cost.erase_range, if_pos (by omega)]
    refine ⟨fun m => ?_⟩
    refine CRes.le_bind (a := 0) ((inferInstance : CB (Cost.move_prev_iterator E last) 0).run m) (by omega) ?_
    intro l2 m2 n2 e2
    refine CRes.le_bind ((erase_single o l2).run m2) (by omega) ?_
    intro l3 m3 n3 e3
    have h2 := move_prev_pos e2
    have h3 := erase_single_pos e3
    exact (erase_range o first d l3 (by omega)).run m3 |>.mono (by omega)

instance steal (o a : Nat) : CB (Cost.steal o a : C α Unit) 0 := inferInstance
instance swap (o a : Nat) : CB (Cost.swap E o a : C α Unit) 0 := inferInstance
instance ctor_move (o a : Nat) : CB (Cost.ctor_move o a : C α Unit) 0 := inferInstance

/-! ### clearing a container of trivially destructible elements -/

theorem purge_segment_triv (ht : E.trivDtor = true) (o p sz : Nat) : Quiet false (Cost.purge_segment E o p sz) := by
  unfold Cost.purge_segment
  rw [if_pos ht]
  infer_instance
theorem purge_node_triv (ht : E.trivDtor = true) (o : Nat) : ∀ h p, Quiet false (Cost.purge_node E o h p)
  | 0, _ => Quiet.ub _
  | 1, _ => Quiet.ub _
  | 2, p => by
    unfold Cost.purge_node
    have h1 := purge_segment_triv ht o
    have h2 : ∀ e, Quiet false (Cost.forN (fun i => do
      let child ← Cost.ptrsAt E p i
      let sz ← Cost.sizesAt E p i
      Cost.purge_segment E o child sz
      Cost.destroy_node E p i) e 0) := fun e => Quiet.forN (fun i => inferInstance) e 0
    infer_instance
  | h + 3, p => by
    unfold Cost.purge_node
    have h1 := purge_node_triv ht o (h + 2)
    have h2 : ∀ e, Quiet false (Cost.forN (fun i => do
      let child ← Cost.ptrsAt E p i
      Cost.purge_node E o (h + 2) child
      Cost.destroy_node E p i) e 0) := fun e => Quiet.forN (fun i => inferInstance) e 0
    infer_instance
theorem purge_triv (ht : E.trivDtor = true) (o : Nat) : Quiet false (Cost.purge E o) := by
  unfold Cost.purge Cost.purge_root
  have h1 := purge_node_triv ht o
  have h2 := purge_segment_triv ht o
  infer_instance
theorem clear_triv (ht : E.trivDtor = true) (o : Nat) : CB (Cost.clear E o) 0 := by
  unfold Cost.clear
  have h := purge_triv ht o
  exact quiet
theorem dtor_triv (ht : E.trivDtor = true) (o : Nat) : CB (Cost.dtor E o) 0 := by
  unfold Cost.dtor
  have h := purge_triv ht o
  exact quiet
theorem move_assign_steal_triv (ht : E.trivDtor = true) (o a : Nat) : CB (Cost.move_assign_steal E o a) 0 := by
  unfold Cost.move_assign_steal
  have h := purge_triv ht o
  exact quiet

end Moves
end SegTree
