/-
  Bounds for the removal of one element.
-/
import Verif.Cost.Ins
import Verif.Proof.EraSeg
set_option autoImplicit false
set_option synthInstance.maxSize 2000
set_option synthInstance.maxHeartbeats 400000

attribute [local instance] SegTree.Weights.accesses

namespace SegTree
open Lean.Order

variable {α β γ δ : Type} {E : Env α} {g : Log} {F : Asrt α} {m : Mem α}

/-! ### `update_sizes` moves no node -/

/-- chains of parents after the run were there before -/
class KP (x : M α β) : Prop where
  run : ∀ m v m', x m = .ok v m' → ∀ p k, Up m' p k → Up m p k

namespace KP
instance pure (v : β) : KP (Pure.pure v : M α β) := ⟨by intro m w m' h; cases h; exact fun _ _ h => h⟩
instance ub (u : UB) : KP (M.ub u : M α β) := ⟨by intro m w m' h; cases h⟩
instance ite {c : Prop} [Decidable c] {x y : M α β} [hx : KP x] [hy : KP y] : KP (if c then x else y) := by
  split <;> assumption
instance bind {x : M α β} {f : β → M α γ} [hx : KP x] [hf : ∀ v, KP (f v)] : KP (x >>= f) := by
  refine ⟨fun m v m' h => ?_⟩
  change M.bind x f m = _ at h
  unfold M.bind at h
  cases e : x m with
  | ok w m1 =>
    rw [e] at h
    exact fun p k hu => hx.run _ _ _ e p k ((hf w).run _ _ _ h p k hu)
  | throw _ _ => rw [e] at h; cases h
  | ub _ => rw [e] at h; cases h
  | div => rw [e] at h; cases h
instance rdNode (p : Nat) : KP (rdNode p : M α Node) := by
  refine ⟨fun m v m' h => ?_⟩
  unfold SegTree.rdNode at h
  split at h <;> cases h
  exact fun _ _ h => h
instance rdObj (p : Nat) : KP (rdObj p : M α SeqObj) := by
  refine ⟨fun m v m' h => ?_⟩
  unfold SegTree.rdObj at h
  split at h <;> cases h
  exact fun _ _ h => h
instance wrObj (p : Nat) (s : SeqObj) : KP (wrObj p s : M α Unit) := by
  refine ⟨fun m v m' h => ?_⟩
  unfold SegTree.wrObj at h
  split at h <;> cases h
  intro q k hu
  refine hu.congr ⟨?_, ?_⟩
  · intro a w n ha
    exact ⟨w, n, by simpa [Mem.set, upd] using ha, rfl⟩
  · intro h0 w n
    simpa [Mem.set, upd] using h0 w n
instance setSizes (p i v : Nat) : KP (setSizes E p i v) := by
  refine ⟨fun m r m' h => ?_⟩
  unfold SegTree.setSizes at h
  change M.bind (SegTree.rdNode p) _ m = _ at h
  simp only [M.bind, SegTree.rdNode] at h
  rcases hc : m.cell (.heap p) with _ | ⟨_ | ⟨w, nd⟩ | _⟩ <;> rw [hc] at h <;> simp only at h <;> try cases h
  split at h
  · simp only [SegTree.wrNode, hc] at h
    cases h
    intro q k hu
    refine hu.congr ⟨?_, ?_⟩
    · intro a w1 n1 ha
      by_cases hq : a = p
      · subst hq
        simp only [Mem.set, upd, if_true, Option.some.injEq, Cell.node.injEq] at ha
        obtain ⟨rfl, rfl⟩ := ha
        exact ⟨_, _, hc, rfl⟩
      · simp only [Mem.set, upd, Loc.heap.injEq, if_neg hq] at ha
        exact ⟨w1, n1, ha, rfl⟩
    · intro h0 w1 n1 hn
      by_cases hq : (0 : Nat) = p
      · subst hq
        exact h0 _ _ (by simp [Mem.set, upd]; exact ⟨rfl, rfl⟩)
      · exact h0 w1 n1 (by simp only [Mem.set, upd, Loc.heap.injEq, if_neg hq]; exact hn)
  · cases h
instance sizesAt (p i : Nat) : KP (sizesAt E p i) := by unfold SegTree.sizesAt; infer_instance
instance parent (p : Nat) : KP (parent p : M α Nat) := by unfold SegTree.parent; infer_instance
instance pidx (p : Nat) : KP (pidx p : M α Nat) := by unfold SegTree.pidx; infer_instance
instance getSize (o : Nat) : KP (getSize o : M α Nat) := by unfold SegTree.getSize; infer_instance
instance setSize (o v : Nat) : KP (setSize o v : M α Unit) := by unfold SegTree.setSize; infer_instance

theorem admissible : Lean.Order.admissible (fun x : M α β => KP x) := by
  have : (fun x : M α β => KP x) = fun x => ∀ m, ∀ v m', x m = .ok v m' → ∀ p k, Up m' p k → Up m p k := by
    funext x; exact propext ⟨fun h => h.run, fun h => ⟨h⟩⟩
  rw [this]
  apply admissible_pi
  intro m
  exact admissible_apply (fun m (r : Res α β) => ∀ v m', r = .ok v m' → ∀ p k, Up m' p k → Up m p k) m
    (admissible_flatOrder _ (by intro v m' h; cases h))

instance update_sizes (o sz p i : Nat) : KP (update_sizes E o p i sz) := by
  revert p i
  refine update_sizes.fixpoint_induct E o sz (fun f => ∀ p i, KP (f p i))
    (admissible_pi _ fun a => admissible_apply (fun (_ : Nat) (f : Nat → M α Unit) => ∀ b, KP (f b)) a
      (admissible_pi _ fun b => admissible_apply (fun (_ : Nat) (f : M α Unit) => KP f) b admissible)) ?_
  intro f ih p i
  infer_instance
instance decrement_sizes (o p i : Nat) : KP (decrement_sizes E o p i) := by
  unfold SegTree.decrement_sizes; infer_instance
end KP

theorem M.bind_ok_inv {x : M α β} {f : β → M α γ} {v : γ} {m' : Mem α} (h : (x >>= f) m = .ok v m') :
    ∃ w m1, x m = .ok w m1 ∧ f w m1 = .ok v m' := by
  change M.bind x f m = _ at h
  unfold M.bind at h
  cases e : x m with
  | ok w m1 => rw [e] at h; exact ⟨w, m1, rfl, h⟩
  | throw _ _ => rw [e] at h; cases h
  | ub _ => rw [e] at h; cases h
  | div => rw [e] at h; cases h

/-- a block followed by `decrement_sizes` from the parent just read -/
theorem decAfter0 {X : M α β} {Y : C α β} {a o q i d K : Nat} {r : γ} {mf : Mem α} [Sim X Y] [hb : CB Y a]
    (e : (X >>= fun _ => decrement_sizes E o q i >>= fun _ => pure r) m = .ok r mf) (hu : Up mf q d)
    (hK : a + 5 * d + 3 ≤ K) :
    ((Y >>= fun _ => Cost.decrement_sizes E o q i >>= fun _ => pure r) m).le K := by
  obtain ⟨w, m1, e1, e2⟩ := M.bind_ok_inv e
  refine CRes.le_step e1 (hb.run m) (by omega) ?_
  obtain ⟨_, m2, e2, e3⟩ := M.bind_ok_inv e2
  cases e3
  have hu1 := (KP.decrement_sizes o q i).run _ _ _ e2 _ _ hu
  exact CRes.le_bind (Up.decrement_sizes hu1) (by omega) fun _ _ _ _ => Nat.zero_le _

/-- a block followed by `decrement_sizes` from the parent of `q` -/
theorem decAfter {X : M α β} {Y : C α β} {a o q d K : Nat} {r : γ} {mf : Mem α} [Sim X Y] [hb : CB Y a]
    (e : (X >>= fun _ => parent q >>= fun p => pidx q >>= fun i => decrement_sizes E o p i >>= fun _ => pure r) m =
      .ok r mf) (hu : Up mf q d) (hK : a + 5 * d + 5 ≤ K) :
    ((Y >>= fun _ => Cost.parent q >>= fun p => Cost.pidx q >>= fun i => Cost.decrement_sizes E o p i >>= fun _ =>
      pure r) m).le K := by
  obtain ⟨w, m1, e1, e2⟩ := M.bind_ok_inv e
  refine CRes.le_step e1 (hb.run m) (by omega) ?_
  have hu1 : Up m1 q d := by
    refine (?_ : KP (parent q >>= fun p => pidx q >>= fun i => decrement_sizes E o p i >>= fun _ => (pure r : M α γ))).run
      _ _ _ e2 _ _ hu
    infer_instance
  cases hu1 with
  | zero h => exact Up.null_parent h
  | @step _ k w n hp hc hu' =>
    refine CRes.le_step (Up.parent hc) ((CB.parent q).run _) (by omega) ?_
    refine CRes.le_step (Up.pidx hc) ((CB.pidx q).run _) (by omega) ?_
    exact CRes.le_bind (Up.decrement_sizes hu') (by omega) fun _ _ _ _ => Nat.zero_le _

/-! ### the blocks of `erase_single_branch` and `erase_single_leaf` -/

def eraShiftP (E : Env α) (k p l index : Nat) : M α Unit := do
  abwd E k p l index 1
  destroy_node E p l
  setLen p l

def eraRotPrevP (E : Env α) (k p index gp j pp plen : Nat) : M α Unit := do
  let pl ← usub plen 1
  afwd E k p index 0 1
  let sz ← mas E k pp pl p 0
  destroy_node E pp pl
  let s ← sizesAt E gp (j - 1)
  let s ← usub s sz
  setSizes E gp (j - 1) s
  let s ← sizesAt E gp j
  let d ← usub sz 1
  setSizes E gp j (s + d)
  setLen pp pl

def eraMergePrevP (E : Env α) (k o p index gp j pp plen l : Nat) : M α Unit := do
  let s1 ← crange E k p 0 pp plen index
  let ml ← usub l index
  let s2 ← crange E k p (index + 1) pp (plen + index) ml
  destroy_node E p index
  deallocate_node E o p
  setLen pp (plen + l)
  let s ← sizesAt E gp (j - 1)
  setSizes E gp (j - 1) (s + (s1 + s2))

def eraRotNextP (E : Env α) (k p index gp j np nlen l : Nat) : M α Unit := do
  let nl ← usub nlen 1
  abwd E k p l index 1
  let sz ← mas E k np 0 p l
  abwd E k np nl 0 1
  destroy_node E np nl
  let s ← sizesAt E gp (j + 1)
  let s ← usub s sz
  setSizes E gp (j + 1) s
  let s ← sizesAt E gp j
  let d ← usub sz 1
  setSizes E gp j (s + d)
  setLen np nl

def eraMergeNextP (E : Env α) (k o p index gp j np nlen l : Nat) : M α Unit := do
  abwd E k p l index 1
  let s1 ← mas E k np 0 p l
  destroy_node E np 0
  let nl ← usub nlen 1
  let s2 ← crange E k np 1 p (l + 1) nl
  deallocate_node E o np
  setLen p (l + nlen)
  let s ← sizesAt E gp j
  let d ← usub (s1 + s2) 1
  setSizes E gp j (s + d)

namespace Cost

def masG (E : Env α) (k a i b j : Nat) : C α Nat :=
  if k = 0 then move_assign_leaf E a i b j else move_assign_branch E a i b j
def crangeG (E : Env α) (k a i b j n : Nat) : C α Nat :=
  if k = 0 then construct_range_leaf E a i b j n else construct_range_branch E a i b j n
def afwdG (E : Env α) (k p a b c : Nat) : C α Unit :=
  if k = 0 then assign_forward_leaf E p a b c else assign_forward_branch E p a b c
def abwdG (E : Env α) (k p a b c : Nat) : C α Unit :=
  if k = 0 then assign_backward_leaf E p a b c else assign_backward_branch E p a b c

def eraRoot (E : Env α) (k o p index : Nat) : C α Unit := do
  let other ← ptrsAt E p (index ^^^ 1)
  destroy_node E p 0
  destroy_node E p 1
  deallocate_node E o p
  setRoot o other
  if k = 0 then do
    let s ← getSize o
    let s ← usub s 1
    setSize o s
    setHeight o 1
  else do
    setParent other 0
    setPidx other 0
    let s ← getSize o
    let s ← usub s 1
    setSize o s
    let h ← getHeight o
    let h ← usub h 1
    setHeight o h

def eraShiftP (E : Env α) (k p l index : Nat) : C α Unit := do
  abwdG E k p l index 1
  destroy_node E p l
  setLen p l

def eraRotPrevP (E : Env α) (k p index gp j pp plen : Nat) : C α Unit := do
  let pl ← usub plen 1
  afwdG E k p index 0 1
  let sz ← masG E k pp pl p 0
  destroy_node E pp pl
  let s ← sizesAt E gp (j - 1)
  let s ← usub s sz
  setSizes E gp (j - 1) s
  let s ← sizesAt E gp j
  let d ← usub sz 1
  setSizes E gp j (s + d)
  setLen pp pl

def eraMergePrevP (E : Env α) (k o p index gp j pp plen l : Nat) : C α Unit := do
  let s1 ← crangeG E k p 0 pp plen index
  let ml ← usub l index
  let s2 ← crangeG E k p (index + 1) pp (plen + index) ml
  destroy_node E p index
  deallocate_node E o p
  setLen pp (plen + l)
  let s ← sizesAt E gp (j - 1)
  setSizes E gp (j - 1) (s + (s1 + s2))

def eraRotNextP (E : Env α) (k p index gp j np nlen l : Nat) : C α Unit := do
  let nl ← usub nlen 1
  abwdG E k p l index 1
  let sz ← masG E k np 0 p l
  abwdG E k np nl 0 1
  destroy_node E np nl
  let s ← sizesAt E gp (j + 1)
  let s ← usub s sz
  setSizes E gp (j + 1) s
  let s ← sizesAt E gp j
  let d ← usub sz 1
  setSizes E gp j (s + d)
  setLen np nl

def eraMergeNextP (E : Env α) (k o p index gp j np nlen l : Nat) : C α Unit := do
  abwdG E k p l index 1
  let s1 ← masG E k np 0 p l
  destroy_node E np 0
  let nl ← usub nlen 1
  let s2 ← crangeG E k np 1 p (l + 1) nl
  deallocate_node E o np
  setLen p (l + nlen)
  let s ← sizesAt E gp j
  let d ← usub (s1 + s2) 1
  setSizes E gp j (s + d)

/-- `erase_single_leaf` (`k = 0`) and `erase_single_branch` (`k > 0`), by blocks -/
def eraGen (E : Env α) (k o : Nat) (entry : LeafE) (p index : Nat) : C α LeafE :=
  parent p >>= fun q => pidx p >>= fun j => len p >>= fun length =>
  if length = 2 ∧ (E.baseMin ≠ 2 ∨ q = 0) then
    eraRoot E k o p index >>= fun _ => pure ⟨0, 0⟩
  else usub length 1 >>= fun l =>
    if length ≠ E.baseMin ∨ q = 0 then
      eraShiftP E k p l index >>= fun _ => decrement_sizes E o q j >>= fun _ => pure entry
    else if j ≠ 0 then
      ptrsAt E q (j - 1) >>= fun pp => len pp >>= fun plen =>
      if plen ≠ E.baseMin then
        eraRotPrevP E k p index q j pp plen >>= fun _ => parent q >>= fun q' => pidx q >>= fun i' =>
        decrement_sizes E o q' i' >>= fun _ => pure { entry with idx := entry.idx + 1 }
      else
        eraMergePrevP E k o p index q j pp plen l >>= fun _ => erase_single_branch E o q j >>= fun _ =>
        pure { ptr := pp, idx := entry.idx + plen }
    else
      ptrsAt E q (j + 1) >>= fun np => len np >>= fun nlen =>
      if nlen ≠ E.baseMin then
        eraRotNextP E k p index q j np nlen l >>= fun _ => parent q >>= fun q' => pidx q >>= fun i' =>
        decrement_sizes E o q' i' >>= fun _ => pure entry
      else
        eraMergeNextP E k o p index q j np nlen l >>= fun _ => erase_single_branch E o q (j + 1) >>= fun _ =>
        pure entry

theorem erase_single_leaf_eq {o p index : Nat} {entry : LeafE} :
    Cost.erase_single_leaf E o entry p index = eraGen E 0 o entry p index := by
  unfold erase_single_leaf eraGen eraRoot eraShiftP eraRotPrevP eraMergePrevP eraRotNextP eraMergeNextP masG crangeG
    afwdG abwdG
  simp only [if_true, C.ite_bind, C.bind_assoc, C.pure_bind]

theorem bind_pure_unit (x : C α Unit) : (x >>= fun _ => pure ()) = x := by
  funext m
  show C.bind x (fun _ => C.pure ()) m = _
  unfold C.bind C.pure
  cases x m <;> rfl

theorem erase_single_branch_eq (k : Nat) {o p index : Nat} (entry : LeafE) :
    Cost.erase_single_branch E o p index = (eraGen E (k + 1) o entry p index >>= fun _ => pure ()) := by
  rw [erase_single_branch]
  unfold eraGen eraRoot eraShiftP eraRotPrevP eraMergePrevP eraRotNextP eraMergeNextP masG crangeG
    afwdG abwdG
  simp only [Nat.add_eq_zero_iff, Nat.one_ne_zero, and_false, if_false, C.ite_bind, C.bind_assoc, C.pure_bind,
    bind_pure_unit]

end Cost

namespace Sim
instance masG (k a i b j : Nat) : Sim (SegTree.mas E k a i b j) (Cost.masG E k a i b j) := by
  unfold Cost.masG; cases k <;> simp only [if_true, Nat.add_eq_zero_iff, Nat.one_ne_zero, and_false, if_false] <;> infer_instance
instance crangeG (k a i b j n : Nat) : Sim (SegTree.crange E k a i b j n) (Cost.crangeG E k a i b j n) := by
  unfold Cost.crangeG; cases k <;> simp only [if_true, Nat.add_eq_zero_iff, Nat.one_ne_zero, and_false, if_false] <;> infer_instance
instance afwdG (k p a b c : Nat) : Sim (SegTree.afwd E k p a b c) (Cost.afwdG E k p a b c) := by
  unfold Cost.afwdG; cases k <;> simp only [if_true, Nat.add_eq_zero_iff, Nat.one_ne_zero, and_false, if_false] <;> infer_instance
instance abwdG (k p a b c : Nat) : Sim (SegTree.abwd E k p a b c) (Cost.abwdG E k p a b c) := by
  unfold Cost.abwdG; cases k <;> simp only [if_true, Nat.add_eq_zero_iff, Nat.one_ne_zero, and_false, if_false] <;> infer_instance
instance eraShiftP (k p l i : Nat) : Sim (SegTree.eraShiftP E k p l i) (Cost.eraShiftP E k p l i) := by
  unfold SegTree.eraShiftP Cost.eraShiftP; infer_instance
instance eraRotPrevP (k p i gp j pp n : Nat) : Sim (SegTree.eraRotPrevP E k p i gp j pp n) (Cost.eraRotPrevP E k p i gp j pp n) := by
  unfold SegTree.eraRotPrevP Cost.eraRotPrevP; infer_instance
instance eraMergePrevP (k o p i gp j pp n l : Nat) :
    Sim (SegTree.eraMergePrevP E k o p i gp j pp n l) (Cost.eraMergePrevP E k o p i gp j pp n l) := by
  unfold SegTree.eraMergePrevP Cost.eraMergePrevP; infer_instance
instance eraRotNextP (k p i gp j pp n l : Nat) :
    Sim (SegTree.eraRotNextP E k p i gp j pp n l) (Cost.eraRotNextP E k p i gp j pp n l) := by
  unfold SegTree.eraRotNextP Cost.eraRotNextP; infer_instance
instance eraMergeNextP (k o p i gp j pp n l : Nat) :
    Sim (SegTree.eraMergeNextP E k o p i gp j pp n l) (Cost.eraMergeNextP E k o p i gp j pp n l) := by
  unfold SegTree.eraMergeNextP Cost.eraMergeNextP; infer_instance
end Sim

namespace CB
instance masG (k a i b j : Nat) : CB (Cost.masG E k a i b j) 10 := by
  unfold Cost.masG; split
  · exact of (move_assign_leaf _ _ _ _) (by omega)
  · exact move_assign_branch _ _ _ _
instance crangeG (k a i b j n : Nat) : CB (Cost.crangeG E k a i b j n) (10 * E.baseMax) := by
  unfold Cost.crangeG; split
  · exact of (construct_range_leaf _ _ _ _ _) (by omega)
  · exact construct_range_branch _ _ _ _ _
instance afwdG (k p a b c : Nat) : CB (Cost.afwdG E k p a b c) (10 * E.baseMax) := by
  unfold Cost.afwdG; split
  · exact of (assign_forward_leaf _ _ _ _) (by omega)
  · exact assign_forward_branch _ _ _ _
instance abwdG (k p a b c : Nat) : CB (Cost.abwdG E k p a b c) (10 * E.baseMax) := by
  unfold Cost.abwdG; split
  · exact of (assign_backward_leaf _ _ _ _) (by omega)
  · exact assign_backward_branch _ _ _ _
instance eraRoot (k o p i : Nat) : CB (Cost.eraRoot E k o p i) 17 := by
  unfold Cost.eraRoot; cb
instance eraShiftP (k p l i : Nat) : CB (Cost.eraShiftP E k p l i) (10 * E.baseMax + 3) := by
  unfold Cost.eraShiftP; cb
instance eraRotPrevP (k p i gp j pp n : Nat) : CB (Cost.eraRotPrevP E k p i gp j pp n) (10 * E.baseMax + 19) := by
  unfold Cost.eraRotPrevP; cb
instance eraMergePrevP (k o p i gp j pp n l : Nat) : CB (Cost.eraMergePrevP E k o p i gp j pp n l) (20 * E.baseMax + 8) := by
  unfold Cost.eraMergePrevP; cb
instance eraRotNextP (k p i gp j pp n l : Nat) : CB (Cost.eraRotNextP E k p i gp j pp n l) (20 * E.baseMax + 19) := by
  unfold Cost.eraRotNextP; cb
instance eraMergeNextP (k o p i gp j pp n l : Nat) : CB (Cost.eraMergeNextP E k o p i gp j pp n l) (20 * E.baseMax + 18) := by
  unfold Cost.eraMergeNextP; cb
end CB

/-- in the memory of a filled context, the parents of the hole -/
theorem up_of_fill {w h k : Nat} {c : Ctx α h k} {t : Tree α k} (H : Holds g (lay E w 0 0 (c.fill t) + F) m) :
    ∃ d, d + k = h ∧ Up m c.hdr.1 d := by
  rw [Ctx.fill_lay, aassoc] at H
  exact c.up (H.eqv (by frame : _ = c.lay E w t.addr t.size + _))

/-- what one step of the removal may cost -/
def eraStep (E : Env α) : Nat := 20 * E.baseMax + 40

theorem eraGen_le {o w : Nat} (hb : E.baseMax < 65536) (n : Nat) : ∀ {h k : Nat} (c : Ctx α h (k + 1)), h ≤ k + n →
    ∀ {m : Mem α} {F : Asrt α} {x : SeqObj} {p S : Nat} {A B : List (Tree α k)} {dk : Nat × Nat} {entry : LeafE},
    EraHyp E w x c p A B S →
    Holds g (EraMem E w c p A B dk S + (Ob o x + F)) m →
    (Cost.eraGen E k o entry p A.length m).le (n * eraStep E) := by
  induction n with
  | zero =>
    intro h k c hn
    have := c.le
    omega
  | succ n ih =>
  intro h k c hn m F x p S A B dk entry hy H
  have hhi := hy.hi
  have hlo := hy.lo
  have hge := E.baseMax_ge
  have hmn := E.baseMin_ge
  have hmm : 2 * E.baseMin - 1 ≤ E.baseMax := by unfold Env.baseMin; omega
  have hK : (n + 1) * eraStep E = n * eraStep E + (20 * E.baseMax + 40) := by unfold eraStep; ring
  have hK5 : 5 * n ≤ n * eraStep E := by
    rw [Nat.mul_comm]; exact Nat.mul_le_mul_left _ (by unfold eraStep; omega)
  have htop : c.hdr.1 = 0 ↔ c.isTop = true := by
    unfold EraMem at H
    exact Ctx.isTop_hdr (F := pt (.heap p) (IsNode w c.hdr.1 c.hdr.2 (keys A ++ dk :: keys B)) + (lays E w p 0 A +
      (lays E w p (A.length + 1) B + (Ob o x + F)))) (H.eqv (by frame))
  obtain ⟨q, hq⟩ : ∃ q, c.hdr.1 = q := ⟨_, rfl⟩
  obtain ⟨j, hj⟩ : ∃ j, c.hdr.2 = j := ⟨_, rfl⟩
  have H0 : Holds g (pt (.heap p) (IsNode w q j (keys A ++ dk :: keys B)) + (lays E w p 0 A +
      (lays E w p (A.length + 1) B + (c.lay E w p S + (Ob o x + F))))) m := by
    subst hq hj
    unfold EraMem at H
    exact H.eqv (by frame)
  unfold Cost.eraGen
  refine CRes.le_step (nparent H0) ((CB.parent p).run m) (by omega) ?_
  refine CRes.le_step (npidx H0) ((CB.pidx p).run m) (by omega) ?_
  refine CRes.le_step (nlen H0) ((CB.len p).run m) (by omega) ?_
  have hkl : (keys A ++ dk :: keys B).length = A.length + B.length + 1 := by simp; omega
  rw [hkl]
  by_cases hroot : A.length + B.length + 1 = 2 ∧ (E.baseMin ≠ 2 ∨ q = 0)
  · rw [if_pos hroot]
    exact CRes.le_bind ((CB.eraRoot k o p _).run m) (by omega) fun _ _ _ _ => Nat.zero_le _
  rw [if_neg hroot]
  refine CRes.le_usub fun _ => ?_
  by_cases hsh : A.length + B.length + 1 ≠ E.baseMin ∨ q = 0
  · rw [if_pos hsh]
    obtain ⟨m1, e1, H1⟩ := eraShift_ok (f := (pure entry : M α LeafE)) (l := A.length + B.length + 1 - 1) hb hy (by omega) H
    rw [hq, hj] at e1
    obtain ⟨d, hd, hu⟩ := up_of_fill H1
    rw [hq] at hu
    refine decAfter0 (X := eraShiftP E k p (A.length + B.length + 1 - 1) A.length) (d := d) (mf := m1) ?_ hu (by omega)
    unfold eraShiftP
    simp only [bind_assoc]
    exact e1
  rw [if_neg hsh]
  have hbm : A.length + B.length + 1 = E.baseMin := by omega
  have hne0 : q ≠ 0 := by omega
  clear hroot hsh hlo htop
  have hcok := hy.cok
  have hal := hy.al
  have hbnd := hy.bnd
  have hsz := hy.sz
  have hrt := hy.root
  have hS := hy.size
  have hht := hy.ht
  cases c with
  | top => exact absurd hq.symm (by simpa [Ctx.hdr_top] using hne0)
  | step gp l r c =>
  simp only [Ctx.hdr_step] at hq hj
  subst hq hj
  obtain ⟨c1, c2, c3, c4, c5⟩ := hcok
  rw [Ctx.out_step] at hsz
  rcases List.eq_nil_or_concat l with rfl | ⟨lt, pv, rfl⟩
  · -- no previous sibling: use the next one
    rw [if_neg (by simp)]
    obtain ⟨nx, rt, rfl⟩ : ∃ nx rt, r = nx :: rt := by
      cases r with
      | nil => simp at c3; split at c3 <;> omega
      | cons a b => exact ⟨a, b, rfl⟩
    have hnx := c2 nx (by simp)
    rw [Tree.wf_succ] at hnx
    obtain ⟨x1, x2, x3⟩ := hnx
    obtain ⟨z, K, hzK⟩ : ∃ z K, nx.kids = z :: K := by
      cases hk : nx.kids with
      | nil => simp [hk] at x1; omega
      | cons a b => exact ⟨a, b, rfl⟩
    obtain ⟨pp, rfl⟩ : ∃ pp, nx = .mkNode pp (z :: K) := ⟨nx.addr, by rw [← hzK]; rfl⟩
    simp only [Tree.kids_mkNode, List.length_cons] at x1 x2 x3
    simp only [List.length_nil, List.length_cons] at c3 c4
    have hz := x3 z (by simp)
    simp only [Ctx.lay, lays_cons, lays_nil, lay_mkNode, keys_cons, keys_nil, List.nil_append, List.length_nil,
      Nat.zero_add, zero_add, aassoc] at H0 ⊢
    have Hg := H0.eqv (by frame : _ = pt (.heap gp) (IsNode w c.hdr.1 c.hdr.2
      ((S, p) :: key (.mkNode pp (z :: K)) :: keys rt)) + _)
    have Hn := H0.eqv (by frame : _ = pt (.heap pp) (IsNode w gp 1 (key z :: keys K)) + _)
    refine CRes.le_step (nptr (E := E) (a := [(S, p)]) (k := (key (.mkNode pp (z :: K) : Tree α (k + 1)))) (b := keys rt) (j := 1) rfl rfl
      (by simp; omega) Hg) ((CB.ptrsAt _ _).run m) (by omega) ?_
    simp only [show (key (.mkNode pp (z :: K) : Tree α (k + 1))).2 = pp from rfl]
    refine CRes.le_step (nlen Hn) ((CB.len _).run m) (by omega) ?_
    simp only [keys_length, List.length_cons]
    by_cases hmin : K.length + 1 ≠ E.baseMin
    · rw [if_pos hmin]
      obtain ⟨m1, e1, H1⟩ := eraRotNext_ok (f := (pure entry : M α LeafE)) (l := A.length + B.length + 1 - 1) hb hy (by omega)
        hz (by omega) H
      obtain ⟨d, hd, hu⟩ := up_of_fill H1
      refine decAfter (X := eraRotNextP E k p A.length gp 0 pp (K.length + 1) (A.length + B.length + 1 - 1)) (d := d) (mf := m1) ?_ hu (by omega)
      unfold eraRotNextP
      simp only [bind_assoc, Nat.zero_add]
      exact e1
    · rw [if_neg hmin]
      obtain ⟨m1, e1, H1⟩ := eraMergeNext_ok (f := (pure () : M α Unit))
        (l := A.length + B.length + 1 - 1) hb hy (by omega)
        hz (by omega) H
      have hy1 : EraHyp E w x c gp [.mkNode p (A ++ B ++ z :: K)] rt
          (S + (elemsL ([] : List (Tree α (k + 1)))).length + (elemsL (.mkNode pp (z :: K) :: rt)).length) := by
        refine ⟨c5, ?_, by simp; omega, by simp; omega, ?_, by omega, hbnd, hht, hrt, hal⟩
        · rintro t' ht'
          rcases List.mem_cons.1 ht' with rfl | ht'
          · refine Tree.wf_succ.2 ⟨by simp; omega, by simp; omega, ?_⟩
            intro a ha
            simp only [Tree.kids_mkNode, List.mem_append, List.mem_cons] at ha
            have := hy.wf a
            simp only [List.mem_append] at this
            rcases ha with ha | rfl | ha
            · exact this ha
            · exact hz
            · exact x3 a (by simp [ha])
          · exact c2 t' (by simp_all)
        · simp; omega
      have e2 : eraMergeNextP E k o p A.length gp 0 pp (K.length + 1) (A.length + B.length + 1 - 1) m = .ok () m1 := by
        rw [← bind_pure_unit (x := eraMergeNextP E k o p A.length gp 0 pp (K.length + 1) (A.length + B.length + 1 - 1))]
        unfold eraMergeNextP
        simp only [bind_assoc, Nat.zero_add]
        exact e1
      refine CRes.le_step e2 ((CB.eraMergeNextP _ _ _ _ _ _ _ _ _).run m) (by omega) ?_
      have := ih c (by omega) (entry := ⟨gp, 0⟩) hy1 H1
      rw [Cost.erase_single_branch_eq k ⟨gp, 0⟩, C.bind_assoc]
      simp only [List.length_nil, List.length_cons, Nat.zero_add] at this
      exact CRes.le_bind this (by omega) fun _ _ _ _ => Nat.zero_le _
  · -- a previous sibling
    simp only [List.concat_eq_append, List.length_append, List.length_cons, List.length_nil] at *
    rw [if_pos (show _ ≠ _ by simp)]
    have hpv := c1 pv (by simp)
    rw [Tree.wf_succ] at hpv
    obtain ⟨x1, x2, x3⟩ := hpv
    obtain ⟨pp, Q, rfl⟩ : ∃ pp Q, pv = .mkNode pp Q := ⟨pv.addr, pv.kids, rfl⟩
    simp only [Tree.kids_mkNode] at x1 x2 x3
    simp only [Ctx.lay, lays_append, lays_cons, lays_nil, lay_mkNode, keys_append, keys_cons, keys_nil, List.append_assoc,
      List.cons_append, List.nil_append, List.length_nil, Nat.zero_add, zero_add, add_zero, Nat.add_sub_cancel, aassoc] at H0 ⊢
    have Hg := H0.eqv (by frame : _ = pt (.heap gp) (IsNode w c.hdr.1 c.hdr.2
      (keys lt ++ key (.mkNode pp Q) :: (S, p) :: keys r)) + _)
    have Hn := H0.eqv (by frame : _ = pt (.heap pp) (IsNode w gp lt.length (keys Q)) + _)
    refine CRes.le_step (nptr (E := E) (a := keys lt) (k := (key (.mkNode pp Q : Tree α (k + 1)))) (b := (S, p) :: keys r) (j := lt.length)
      rfl (by simp) (by simp; omega) Hg) ((CB.ptrsAt _ _).run m) (by omega) ?_
    simp only [show (key (.mkNode pp Q : Tree α (k + 1))).2 = pp from rfl]
    refine CRes.le_step (nlen Hn) ((CB.len _).run m) (by omega) ?_
    simp only [keys_length]
    by_cases hmin : Q.length ≠ E.baseMin
    · rw [if_pos hmin]
      obtain ⟨K, z, rfl⟩ : ∃ K z, Q = K ++ [z] := snoc_of_ne (by intro e; simp [e] at x1; omega)
      simp only [List.length_append, List.length_cons, List.length_nil, Nat.zero_add] at x1 x2 hmin ⊢
      have hz := x3 z (by simp)
      obtain ⟨m1, e1, H1⟩ := eraRotPrev_ok (f := (pure { entry with idx := entry.idx + 1 } : M α LeafE)) hb hy (by omega)
        hz H
      obtain ⟨d, hd, hu⟩ := up_of_fill H1
      refine decAfter (X := eraRotPrevP E k p A.length gp (lt.length + 1) pp (K.length + 1)) (d := d) (mf := m1) ?_ hu (by omega)
      unfold eraRotPrevP
      simp only [bind_assoc, Nat.add_sub_cancel]
      exact e1
    · rw [if_neg hmin]
      obtain ⟨m1, e1, H1⟩ := eraMergePrev_ok (K := Q)
        (f := (pure () : M α Unit))
        (l := A.length + B.length) hb hy (by omega) (by omega) H
      have hy1 : EraHyp E w x c gp (lt ++ [.mkNode pp (Q ++ (A ++ B))]) r
          (S + (elemsL (lt ++ [.mkNode pp Q])).length + (elemsL r).length) := by
        refine ⟨c5, ?_, by simp; omega, by simp; omega, ?_, by omega, hbnd, hht, hrt, hal⟩
        · rintro t' ht'
          simp only [List.mem_append, List.mem_cons, List.not_mem_nil, or_false] at ht'
          rcases ht' with (ht' | rfl) | ht'
          · exact c1 t' (by simp [ht'])
          · refine Tree.wf_succ.2 ⟨by simp; omega, by simp; omega, ?_⟩
            intro a ha
            simp only [Tree.kids_mkNode, List.mem_append] at ha
            rcases ha with ha | ha
            · exact x3 a ha
            · exact hy.wf a (by simpa using ha)
          · exact c2 t' ht'
        · simp; omega
      have e2 : eraMergePrevP E k o p A.length gp (lt.length + 1) pp Q.length (A.length + B.length) m = .ok () m1 := by
        rw [← bind_pure_unit (x := eraMergePrevP E k o p A.length gp (lt.length + 1) pp Q.length (A.length + B.length))]
        unfold eraMergePrevP
        simp only [bind_assoc, Nat.add_sub_cancel]
        exact e1
      refine CRes.le_step e2 ((CB.eraMergePrevP _ _ _ _ _ _ _ _ _).run m) (by omega) ?_
      have := ih c (by omega) (entry := ⟨gp, 0⟩) hy1 H1
      rw [Cost.erase_single_branch_eq k ⟨gp, 0⟩, C.bind_assoc]
      simp only [List.length_append, List.length_cons, List.length_nil, Nat.zero_add] at this
      exact CRes.le_bind this (by omega) fun _ _ _ _ => Nat.zero_le _

theorem erase_single_leaf_le {o w h : Nat} (hb : E.baseMax < 65536) (c : Ctx α h 1) {x : SeqObj} {p S j : Nat}
    {A B : List (Tree α 0)} {dk : Nat × Nat} {entry : LeafE}
    (hy : EraHyp E w x c p A B S) (hj : j = A.length)
    (H : Holds g (EraMem E w c p A B dk S + (Ob o x + F)) m) :
    (Cost.erase_single_leaf E o entry p j m).le (h * eraStep E) := by
  subst hj
  rw [Cost.erase_single_leaf_eq]
  exact eraGen_le hb h c (by omega) hy H

end SegTree
