/-
  Bounds for the insertion of one element.
-/
import Verif.Cost.Climb
import Verif.Proof.InsSeg
set_option autoImplicit false
set_option synthInstance.maxSize 2000
set_option synthInstance.maxHeartbeats 400000

attribute [local instance] SegTree.Weights.accesses

namespace SegTree

variable {α β γ δ : Type} {E : Env α} {g : Log} {F : Asrt α} {m : Mem α}

theorem CRes.add_add (r : CRes α β) (a b : Nat) : (r.add a).add b = r.add (b + a) := by
  cases r <;> simp [CRes.add, Nat.add_assoc]
theorem CRes.add_zero' (r : CRes α β) : r.add 0 = r := by cases r <;> simp [CRes.add]

namespace C
theorem bind_assoc (x : C α β) (f : β → C α γ) (g : γ → C α δ) : (x >>= f) >>= g = x >>= fun v => f v >>= g := by
  funext m
  show C.bind (C.bind x f) g m = C.bind x (fun v => C.bind (f v) g) m
  simp only [C.bind]
  cases x m with
  | ok v m' n =>
    simp only
    cases f v m' with
    | ok w m2 k => exact (CRes.add_add _ _ _).symm
    | _ => rfl
  | _ => rfl
theorem pure_bind (v : β) (f : β → C α γ) : (pure v : C α β) >>= f = f v := by
  funext m
  show C.bind (C.pure v) f m = _
  simp [C.bind, C.pure, CRes.add_zero']
theorem ite_bind {c : Prop} [Decidable c] {a b : C α β} {f : β → C α γ} :
    (if c then a else b) >>= f = if c then a >>= f else b >>= f := by split <;> rfl
end C

/-! ### the generic shifting steps -/
namespace Sim
instance asgLC (p i s c : Nat) : Sim (SegTree.asg E 0 p i s c) (Cost.construct_leaf E p i s c) := by
  rw [← construct_leaf_eq]; infer_instance
instance asgLA (p i s c : Nat) : Sim (SegTree.asg E 0 p i s c) (Cost.assign_leaf E p i s c) := by
  rw [← assign_leaf_eq]; infer_instance
instance asgBC (k p i s c : Nat) : Sim (SegTree.asg E (k + 1) p i s c) (Cost.construct_branch E p i s c) := by
  rw [← construct_branch_eq]; infer_instance
instance asgBA (k p i s c : Nat) : Sim (SegTree.asg E (k + 1) p i s c) (Cost.assign_branch E p i s c) := by
  rw [← assign_branch_eq]; infer_instance
instance masLM (a i b j : Nat) : Sim (SegTree.mas E 0 a i b j) (Cost.move_leaf E a i b j) := by
  rw [← move_leaf_eq]; infer_instance
instance masLA (a i b j : Nat) : Sim (SegTree.mas E 0 a i b j) (Cost.move_assign_leaf E a i b j) := by
  rw [← move_assign_leaf_eq]; infer_instance
instance masBM (k a i b j : Nat) : Sim (SegTree.mas E (k + 1) a i b j) (Cost.move_branch E a i b j) := by
  rw [← move_branch_eq]; infer_instance
instance masBA (k a i b j : Nat) : Sim (SegTree.mas E (k + 1) a i b j) (Cost.move_assign_branch E a i b j) := by
  rw [← move_assign_branch_eq]; infer_instance
instance crangeL (a i b j n : Nat) : Sim (SegTree.crange E 0 a i b j n) (Cost.construct_range_leaf E a i b j n) := by
  rw [← construct_range_leaf_eq]; infer_instance
instance crangeB (k a i b j n : Nat) :
    Sim (SegTree.crange E (k + 1) a i b j n) (Cost.construct_range_branch E a i b j n) := by
  rw [← construct_range_branch_eq]; infer_instance
instance afwdL (p a b c : Nat) : Sim (SegTree.afwd E 0 p a b c) (Cost.assign_forward_leaf E p a b c) := by
  rw [← assign_forward_leaf_eq]; infer_instance
instance afwdB (k p a b c : Nat) : Sim (SegTree.afwd E (k + 1) p a b c) (Cost.assign_forward_branch E p a b c) := by
  rw [← assign_forward_branch_eq]; infer_instance
instance abwdL (p a b c : Nat) : Sim (SegTree.abwd E 0 p a b c) (Cost.assign_backward_leaf E p a b c) := by
  rw [← assign_backward_leaf_eq]; infer_instance
instance abwdB (k p a b c : Nat) : Sim (SegTree.abwd E (k + 1) p a b c) (Cost.assign_backward_branch E p a b c) := by
  rw [← assign_backward_branch_eq]; infer_instance
end Sim

/-! ### the blocks of `insert_single_branch` and `insert_single_leaf` -/

/-- `length = p->length; sizes[index-1] -= child_size - 1` -/
def insHead (E : Env α) (p index csz : Nat) : M α Nat := do
  let length ← len p
  let im ← usub index 1
  let s ← sizesAt E p im
  let d ← usub csz 1
  let s ← usub s d
  setSizes E p im s
  pure length

/-- shift inside a node with room, and the parent coordinates -/
def insFit (E : Env α) (k p length index child csz : Nat) : M α (Nat × Nat) := do
  insRoom E k p length index child csz
  setLen p (length + 1)
  let q ← parent p
  let i ← pidx p
  pure (q, i)

/-- split of a full node: next reserve node, size of the new node, parent coordinates -/
def insFull (E : Env α) (k p alloc length index child csz : Nat) : M α (Nat × Nat × Nat × Nat) := do
  let next ← parent alloc
  let s ← insSplit E k p alloc length index child csz
  setLen p ((E.baseMax + 1) / 2)
  setLen alloc (E.baseMax + 1 - (E.baseMax + 1) / 2)
  let i ← pidx p
  let q ← parent p
  pure (next, s, i, q)

namespace Cost
variable (E)

def insHead (p index csz : Nat) : C α Nat := do
  let length ← len p
  let im ← usub index 1
  let s ← sizesAt E p im
  let d ← usub csz 1
  let s ← usub s d
  setSizes E p im s
  pure length

def insRoomB (p length index child csz : Nat) : C α Unit :=
  if index ≠ length then do
    let lm ← usub length 1
    let _ ← move_branch E p lm p length
    assign_forward_branch E p lm index 1
    let _ ← assign_branch E p index csz child
  else do
    let _ ← construct_branch E p index csz child

def insRoomL (p length index child csz : Nat) : C α Unit :=
  if index ≠ length then do
    let lm ← usub length 1
    let _ ← move_leaf E p lm p length
    assign_forward_leaf E p lm index 1
    let _ ← assign_leaf E p index csz child
  else do
    let _ ← construct_leaf E p index csz child

def insSplitB (p alloc length index child csz : Nat) : C α Nat :=
  if index < (E.baseMax + 1) / 2 then do
    let s1 ← move_branch E p ((E.baseMax + 1) / 2 - 1) alloc 0
    let s2 ← construct_range_branch E p ((E.baseMax + 1) / 2 - 1 + 1) alloc 1
      (E.baseMax + 1 - (E.baseMax + 1) / 2 - 1)
    assign_forward_branch E p ((E.baseMax + 1) / 2 - 1) index 1
    let _ ← assign_branch E p index csz child
    pure (s1 + s2)
  else do
    let move_length ← usub length index
    let s1 ← construct_range_branch E p ((E.baseMax + 1) / 2) alloc 0 (index - (E.baseMax + 1) / 2)
    let s2 ← construct_range_branch E p index alloc (index - (E.baseMax + 1) / 2 + 1) move_length
    let s3 ← construct_branch E alloc (index - (E.baseMax + 1) / 2) csz child
    pure (s1 + s2 + s3)

def insSplitL (p alloc length index child csz : Nat) : C α Nat :=
  if index < (E.baseMax + 1) / 2 then do
    let s1 ← move_leaf E p ((E.baseMax + 1) / 2 - 1) alloc 0
    let s2 ← construct_range_leaf E p ((E.baseMax + 1) / 2 - 1 + 1) alloc 1
      (E.baseMax + 1 - (E.baseMax + 1) / 2 - 1)
    assign_forward_leaf E p ((E.baseMax + 1) / 2 - 1) index 1
    let _ ← assign_leaf E p index csz child
    pure (s1 + s2)
  else do
    let move_length ← usub length index
    let s1 ← construct_range_leaf E p ((E.baseMax + 1) / 2) alloc 0 (index - (E.baseMax + 1) / 2)
    let s2 ← construct_range_leaf E p index alloc (index - (E.baseMax + 1) / 2 + 1) move_length
    let s3 ← construct_leaf E alloc (index - (E.baseMax + 1) / 2) csz child
    pure (s1 + s2 + s3)

def insFitB (p length index child csz : Nat) : C α (Nat × Nat) := do
  insRoomB E p length index child csz
  setLen p (length + 1)
  let q ← parent p
  let i ← pidx p
  pure (q, i)

def insFitL (p length index child csz : Nat) : C α (Nat × Nat) := do
  insRoomL E p length index child csz
  setLen p (length + 1)
  let q ← parent p
  let i ← pidx p
  pure (q, i)

def insFullB (p alloc length index child csz : Nat) : C α (Nat × Nat × Nat × Nat) := do
  let next ← parent alloc
  let s ← insSplitB E p alloc length index child csz
  setLen p ((E.baseMax + 1) / 2)
  setLen alloc (E.baseMax + 1 - (E.baseMax + 1) / 2)
  let i ← pidx p
  let q ← parent p
  pure (next, s, i, q)

/-- the order of the last two reads differs from the branch version -/
def insFullL (p alloc length index child csz : Nat) : C α (Nat × Nat × Nat × Nat) := do
  let next ← parent alloc
  let s ← insSplitL E p alloc length index child csz
  setLen p ((E.baseMax + 1) / 2)
  setLen alloc (E.baseMax + 1 - (E.baseMax + 1) / 2)
  let q ← parent p
  let i ← pidx p
  pure (next, s, i, q)

def insTopB (o base alloc child csz : Nat) : C α Unit := do
  setParent alloc 0
  setPidx alloc 0
  setLen alloc 2
  let sz ← getSize o
  let d ← usub sz csz
  let _ ← construct_branch E alloc 0 (d + 1) base
  let _ ← construct_branch E alloc 1 csz child
  setRoot o alloc
  let h ← getHeight o
  setHeight o (h + 1)
  let sz ← getSize o
  setSize o (E.wadd sz 1)

def insTopL (o base alloc child csz : Nat) : C α Unit := do
  setParent alloc 0
  setPidx alloc 0
  setLen alloc 2
  let sz ← getSize o
  let d ← usub sz csz
  let _ ← construct_leaf E alloc 0 (d + 1) base
  let _ ← construct_leaf E alloc 1 csz child
  setRoot o alloc
  setHeight o 2
  let sz ← getSize o
  setSize o (E.wadd sz 1)

variable {E}

theorem insert_single_branch_eq {o base p index alloc child csz : Nat} :
    Cost.insert_single_branch E o base p index alloc child csz =
    (if p = 0 then insTopB E o base alloc child csz
    else insHead E p index csz >>= fun length =>
      if length ≠ E.baseMax then insFitB E p length index child csz >>= fun r => increment_sizes E o r.1 r.2
      else insFullB E p alloc length index child csz >>= fun r =>
        insert_single_branch E o p r.2.2.2 (r.2.2.1 + 1) r.1 alloc r.2.1) := by
  conv => lhs; rw [insert_single_branch]
  unfold insTopB insHead insFitB insFullB insRoomB insSplitB
  simp only [C.ite_bind, C.bind_assoc, C.pure_bind]

theorem insert_single_leaf_eq {o base p index alloc child csz : Nat} {entry : Entry} :
    Cost.insert_single_leaf E o entry base p index alloc child csz =
    (if p = 0 then insTopL E o base alloc child csz >>= fun _ =>
      pure { entry with leaf := { entry.leaf with ptr := alloc } }
    else insHead E p index csz >>= fun length =>
      if length ≠ E.baseMax then insFitL E p length index child csz >>= fun r =>
        increment_sizes E o r.1 r.2 >>= fun _ => pure entry
      else insFullL E p alloc length index child csz >>= fun r =>
        insert_single_branch E o p r.2.2.2 (r.2.2.1 + 1) r.1 alloc r.2.1 >>= fun _ =>
        pure (if entry.leaf.idx ≥ (E.baseMax + 1) / 2 then
          { entry with leaf := { ptr := alloc, idx := entry.leaf.idx - (E.baseMax + 1) / 2 } }
        else entry)) := by
  unfold insert_single_leaf insTopL insHead insFitL insFullL insRoomL insSplitL
  simp only [C.ite_bind, C.bind_assoc, C.pure_bind]

end Cost

theorem rd_comm {p : Nat} {f : Nat → Nat → M α β} :
    (pidx p >>= fun i => parent p >>= fun q => f i q) = (parent p >>= fun q => pidx p >>= fun i => f i q) := by
  funext m
  unfold pidx parent rdNode
  simp only [Bind.bind, M.bind, Pure.pure, M.pure]
  rcases h : m.cell (.heap p) with _ | ⟨_ | _ | _⟩ <;> simp [h]

namespace Sim
instance insHead (p i s : Nat) : Sim (SegTree.insHead E p i s) (Cost.insHead E p i s) := by
  unfold SegTree.insHead Cost.insHead; infer_instance
instance insFitB (k p l i c s : Nat) : Sim (SegTree.insFit E (k + 1) p l i c s) (Cost.insFitB E p l i c s) := by
  unfold SegTree.insFit Cost.insFitB SegTree.insRoom Cost.insRoomB; infer_instance
instance insFitL (p l i c s : Nat) : Sim (SegTree.insFit E 0 p l i c s) (Cost.insFitL E p l i c s) := by
  unfold SegTree.insFit Cost.insFitL SegTree.insRoom Cost.insRoomL; infer_instance
instance insFullB (k p a l i c s : Nat) : Sim (SegTree.insFull E (k + 1) p a l i c s) (Cost.insFullB E p a l i c s) := by
  unfold SegTree.insFull Cost.insFullB SegTree.insSplit Cost.insSplitB; infer_instance
instance insFullL (p a l i c s : Nat) : Sim (SegTree.insFull E 0 p a l i c s) (Cost.insFullL E p a l i c s) := by
  unfold SegTree.insFull Cost.insFullL SegTree.insSplit Cost.insSplitL
  simp only [rd_comm]
  infer_instance
end Sim

namespace CB
instance insHead (p i s : Nat) : CB (Cost.insHead E p i s) 4 := by unfold Cost.insHead; cb
instance insFitB (p l i c s : Nat) : CB (Cost.insFitB E p l i c s) (10 * E.baseMax + 22) := by
  unfold Cost.insFitB Cost.insRoomB; cb
instance insFitL (p l i c s : Nat) : CB (Cost.insFitL E p l i c s) (6 * E.baseMax + 14) := by
  unfold Cost.insFitL Cost.insRoomL; cb
instance insFullB (p a l i c s : Nat) : CB (Cost.insFullB E p a l i c s) (20 * E.baseMax + 25) := by
  unfold Cost.insFullB Cost.insSplitB; cb
instance insFullL (p a l i c s : Nat) : CB (Cost.insFullL E p a l i c s) (12 * E.baseMax + 17) := by
  unfold Cost.insFullL Cost.insSplitL; cb
instance insTopB (o b a c s : Nat) : CB (Cost.insTopB E o b a c s) 31 := by unfold Cost.insTopB; cb
instance insTopL (o b a c s : Nat) : CB (Cost.insTopL E o b a c s) 22 := by unfold Cost.insTopL; cb
end CB


/-! ### the cascade -/

theorem insHead_run {h k o w q j b : Nat} {l r : List (Tree α k)} {c : Ctx α h (k + 1)} {t1 u : Tree α k}
    {S : Nat} {x : SeqObj} {as : List Nat}
    (hc : (Ctx.step b l r c).Ok E) (hS : S + 1 = t1.size + u.size)
    (ht : 1 ≤ t1.size) (hu : 1 ≤ u.size)
    (H : Holds g (lay E w b l.length t1 + (lay E w q j u + ((Ctx.step b l r c).lay E w t1.addr S +
      (chain w as + (Ob o x + F))))) m) :
    ∃ m1 nd, insHead E b (l.length + 1) u.size m = .ok (l.length + 1 + r.length) m1 ∧
      nd.parent = c.hdr.1 ∧ nd.pidx = c.hdr.2 ∧ nd.len = l.length + 1 + r.length ∧
      Arr nd 0 (keys ((l ++ [t1]) ++ r)) ∧
      Holds g (Nd b w nd + (lays E w b 0 ((l ++ [t1]) ++ r) + (lay E w q j u +
        (c.lay E w b (S + (elemsL l).length + (elemsL r).length) + (chain w as + (Ob o x + F)))))) m1 :=
  insHead_ok (f := pure) hc hS ht hu H

/-- after the shift in a node with room, the path above is intact -/
theorem insFit_run {h k o w q j b : Nat} {l r : List (Tree α k)} {c : Ctx α h (k + 1)} {t1 u : Tree α k}
    {s : Nat} {x : SeqObj} {nd : Node} (hE : E.Good) (hfull : l.length + 1 + r.length ≠ E.baseMax)
    (hle : l.length + 1 + r.length ≤ E.baseMax)
    (n1 : nd.parent = c.hdr.1) (n2 : nd.pidx = c.hdr.2) (n4 : Arr nd 0 (keys ((l ++ [t1]) ++ r)))
    (H : Holds g (Nd b w nd + (lays E w b 0 ((l ++ [t1]) ++ r) + (lay E w q j u +
        (c.lay E w b s + (Ob o x + F))))) m) :
    ∃ m', insFit E k b (l.length + 1 + r.length) (l.length + 1) u.addr u.size m = .ok (c.hdr.1, c.hdr.2) m' ∧
      ∃ F', Holds g (c.lay E w b s + F') m' := by
  have hb := hE.base
  unfold insFit
  obtain ⟨m2, nd', e2, p1, p2, p3, p4, H2⟩ := insRoom_ok (E := E) hb
    (A := l ++ [t1]) (B := r) (n := l.length + 1 + r.length) (by simp; omega) (by simp) n4
    (H.eqv (by frame : _ = Nd b w nd + (lays E w b 0 (l ++ [t1] ++ r) + (lay E w q j u + _))))
  simp only [List.length_append, List.length_cons, List.length_nil, Nat.zero_add] at e2
  rw [bind_ok e2]
  obtain ⟨m3, e3, H3⟩ := setLen_ok (v := l.length + 1 + r.length + 1) (by omega) H2
  rw [bind_ok e3]
  rw [bind_ok (parent_ok H3), bind_ok (pidx_ok H3)]
  simp only
  rw [p1, p2, n1, n2]
  exact ⟨m3, rfl, _, H3.eqv (by frame : _ = c.lay E w b s + _)⟩

/-- the split of a full node -/
theorem insFull_run {h k o w q j b a : Nat} {l r : List (Tree α k)} {c : Ctx α h (k + 1)} {t1 u : Tree α k}
    {S : Nat} {x : SeqObj} {nd : Node} {as : List Nat} (hE : E.Good) (hfull : l.length + 1 + r.length = E.baseMax)
    (hc : (Ctx.step b l r c).Ok E) (h1 : t1.WF E) (h2 : u.WF E) (hS : S + 1 = t1.size + u.size)
    (n1 : nd.parent = c.hdr.1) (n2 : nd.pidx = c.hdr.2) (n4 : Arr nd 0 (keys ((l ++ [t1]) ++ r)))
    (H1 : Holds g (Nd b w nd + (lays E w b 0 ((l ++ [t1]) ++ r) + (lay E w q j u +
        (c.lay E w b (S + (elemsL l).length + (elemsL r).length) + (chain w (a :: as) + (Ob o x + F)))))) m) :
    ∃ m', ∃ X Y : List (Tree α k), ∃ q' j' : Nat,
      insFull E k b a (l.length + 1 + r.length) (l.length + 1) u.addr u.size m =
        .ok (as.headD 0, (Tree.mkNode a Y).size, c.hdr.2, c.hdr.1) m' ∧
      S + (elemsL l).length + (elemsL r).length + 1 = (Tree.mkNode b X).size + (Tree.mkNode a Y).size ∧
      (Tree.mkNode b X).WF E ∧ (Tree.mkNode a Y).WF E ∧
      Holds g (lay E w c.hdr.1 c.hdr.2 (.mkNode b X) + (lay E w q' j' (.mkNode a Y) +
        (c.lay E w b (S + (elemsL l).length + (elemsL r).length) + (chain w as + (Ob o x + F))))) m' := by
  have hb := hE.base
  have hle := hc.2.2.2.1
  simp only [chain_cons, aassoc] at H1
  obtain ⟨c0, ⟨ra, rfl, hra⟩, -, H1⟩ := (H1.eqv (by frame : _ = pt (.heap a) _ + _)).exact
  have H1 : Holds g (Nd a w ra + _) m := H1
  unfold insFull
  rw [bind_ok (parent_ok H1), hra]
  obtain ⟨X, Y, m2, nd', ra', hXY, hX, e2, p1, p2, p3, p4, H2⟩ := insSplit_ok (E := E) hb
    (A := l ++ [t1]) (B := r) (by simp; omega) n4
    (H1.eqv (by frame : _ = Nd b w nd + (Nd a w ra + (lays E w b 0 (l ++ [t1] ++ r) + (lay E w q j u + _)))))
  simp only [List.length_append, List.length_cons, List.length_nil, Nat.zero_add] at e2
  rw [hfull, bind_ok e2]
  have hXYe : (elemsL X).length + (elemsL Y).length = (elemsL l).length + t1.size + (u.size + (elemsL r).length) := by
    have := congrArg (fun z => (elemsL z).length) hXY
    simp only [elemsL_append, elemsL_cons, elemsL_nil, List.length_append, List.append_nil] at this
    simp only [Tree.size]; omega
  have hXYl : X.length + Y.length = E.baseMax + 1 := by
    have := congrArg List.length hXY
    simp at this; omega
  have hwf : ∀ t ∈ X ++ Y, t.WF E := by
    rw [hXY]
    intro t ht
    simp only [List.mem_append, List.mem_cons, List.not_mem_nil, or_false] at ht
    rcases ht with (ht | rfl) | rfl | ht
    · exact hc.1 t ht
    · exact h1
    · exact h2
    · exact hc.2.1 t ht
  obtain ⟨m3, e3, H3⟩ := setLen_ok (v := (E.baseMax + 1) / 2) (by omega) H2
  rw [bind_ok e3]
  obtain ⟨m4, e4, H4⟩ := setLen_ok (v := E.baseMax + 1 - (E.baseMax + 1) / 2) (by omega)
    (H3.eqv (by frame : _ = Nd a w ra' + _))
  rw [bind_ok e4]
  have H4 := H4.ofNd (q := ra'.parent) (i := ra'.pidx) (ks := keys Y) rfl rfl (by simp; omega) p4
  have H4 := H4.eqv (by frame : _ = Nd b w _ + _)
  rw [bind_ok (pidx_ok H4), bind_ok (parent_ok H4)]
  simp only
  rw [p1, p2, n1, n2]
  have H4 := H4.ofNd (q := c.hdr.1) (i := c.hdr.2) (ks := keys X) (by simp [p1, n1]) (by simp [p2, n2]) (by simp; omega) p3
  refine ⟨m4, X, Y, ra'.parent, ra'.pidx, ?_, ?_, ?_, ?_, ?_⟩
  · simp [Tree.size]
  · simp only [Tree.size, Tree.elems_mkNode] at hXYe hS ⊢; omega
  · exact Tree.wf_succ.2 ⟨by unfold Env.baseMin; simp; omega, by simp; omega,
      fun t ht => hwf t (List.mem_append.2 (.inl ht))⟩
  · exact Tree.wf_succ.2 ⟨by unfold Env.baseMin; simp; omega, by simp; omega,
      fun t ht => hwf t (List.mem_append.2 (.inr ht))⟩
  · exact H4.eqv (by simp only [lay_mkNode]; ac_rfl)

theorem insert_single_branch_le {h o w : Nat} (hE : E.Good) {k : Nat} (c : Ctx α h k) :
    ∀ {m : Mem α} {F : Asrt α} {x : SeqObj} {S q j d : Nat} {t1 u : Tree α k} {as : List Nat}, 1 ≤ k → d + k = h →
    c.Ok E → as.length = c.need E → S + 1 = t1.size + u.size → t1.WF E → u.WF E →
    Holds g (lay E w c.hdr.1 c.hdr.2 t1 + (lay E w q j u + (c.lay E w t1.addr S +
      (chain w as + (Ob o x + F))))) m →
    (Cost.insert_single_branch E o t1.addr c.hdr.1 (c.hdr.2 + 1) (as.headD 0) u.addr u.size m).le
      ((d + 1) * (20 * E.baseMax + 45)) := by
  induction c with
  | top =>
    intro m F x S q j d t1 u as hk hd _ has hS h1 h2 H
    rw [Ctx.hdr_top, Cost.insert_single_branch_eq, if_pos rfl]
    have : 31 ≤ (d + 1) * (20 * E.baseMax + 45) :=
      Nat.le_trans (by omega) (Nat.le_mul_of_pos_left _ (Nat.succ_pos d))
    exact ((CB.insTopB _ _ _ _ _).run m).mono this
  | @step k b l r c ih =>
    intro m F x S q j d t1 u as hk hd hc has hS h1 h2 H
    obtain ⟨k, rfl⟩ : ∃ k', k = k' + 1 := ⟨k - 1, by omega⟩
    have hp1 : 1 ≤ t1.size := h1.size_pos
    have hp2 : 1 ≤ u.size := h2.size_pos
    have hcle := c.le
    obtain ⟨d, rfl⟩ : ∃ d', d = d' + 1 := ⟨d - 1, by omega⟩
    have hb0 : b ≠ 0 := by
      simp only [Ctx.lay, aassoc] at H
      exact Holds.ne0 (H.eqv (by frame : _ = pt (.heap b) (IsNode w c.hdr.1 c.hdr.2 (keys l ++ (S, t1.addr) :: keys r)) + _))
    simp only [Ctx.hdr] at H ⊢
    have hlev : (d + 1 + 1) * (20 * E.baseMax + 45) = (d + 1) * (20 * E.baseMax + 45) + (20 * E.baseMax + 45) := by ring
    rw [Cost.insert_single_branch_eq, if_neg hb0, hlev]
    obtain ⟨m1, nd, e1, n1, n2, n3, n4, H1⟩ := insHead_run (E := E) hc hS hp1 hp2 H
    refine CRes.le_step e1 ((CB.insHead _ _ _).run m) (by omega) ?_
    have hc' := hc.2.2.2.2
    have hle := hc.2.2.2.1
    simp only [Ctx.need] at has
    by_cases hfull : l.length + 1 + r.length = E.baseMax
    · rw [if_neg (by simpa using hfull)]
      rw [if_pos hfull] at has
      obtain ⟨a, as, rfl⟩ : ∃ a as', as = a :: as' := by
        cases as with
        | nil => simp at has
        | cons a as => exact ⟨a, as, rfl⟩
      simp only [List.length_cons, Nat.add_right_cancel_iff] at has
      obtain ⟨m2, X, Y, q', j', e2, s1, wf1, wf2, H2⟩ := insFull_run (E := E) hE hfull hc h1 h2 hS n1 n2 n4 H1
      simp only [List.headD_cons]
      refine CRes.le_step e2 ((CB.insFullB _ _ _ _ _ _).run m1) (by omega) ?_
      have := ih (x := x) (d := d) (as := as) (by omega) (by omega) hc' has s1 wf1 wf2 H2
      exact this.mono (by omega)
    · rw [if_pos hfull]
      rw [if_neg hfull] at has
      obtain rfl := List.length_eq_zero_iff.1 has
      simp only [chain_nil, zero_add] at H1
      obtain ⟨m2, e2, F', H2⟩ := insFit_run (E := E) hE hfull hle n1 n2 n4 H1
      refine CRes.le_step e2 ((CB.insFitB _ _ _ _ _).run m1) (by omega) ?_
      obtain ⟨d', hd', hu⟩ := c.up H2
      refine (Up.increment_sizes hu).mono ?_
      have : 5 * (d + 1) ≤ (d + 1) * (20 * E.baseMax + 45) := by
        rw [Nat.mul_comm]; exact Nat.mul_le_mul_left _ (by omega)
      omega

theorem insert_single_leaf_le {h o w : Nat} (hE : E.Good) (c : Ctx α h 0)
    {x : SeqObj} {S q j : Nat} {t1 u : Tree α 0} {as : List Nat} {e : Entry}
    (hc : c.Ok E) (has : as.length = c.need E) (hS : S + 1 = t1.size + u.size) (h1 : t1.WF E) (h2 : u.WF E)
    (H : Holds g (lay E w c.hdr.1 c.hdr.2 t1 + (lay E w q j u + (c.lay E w t1.addr S +
      (chain w as + (Ob o x + F))))) m) :
    (Cost.insert_single_leaf E o e t1.addr c.hdr.1 (c.hdr.2 + 1) (as.headD 0) u.addr u.size m).le
      ((h + 1) * (20 * E.baseMax + 45)) := by
  have hp1 : 1 ≤ t1.size := h1.size_pos
  have hp2 : 1 ≤ u.size := h2.size_pos
  cases c with
  | top =>
    rw [Ctx.hdr_top, Cost.insert_single_leaf_eq, if_pos rfl]
    refine CRes.le_bind ((CB.insTopL _ _ _ _ _).run m) (by omega) fun _ _ _ _ => Nat.zero_le _
  | step b l r c =>
    have hcle := c.le
    obtain ⟨d, rfl⟩ : ∃ d', h = d' + 1 := ⟨h - 1, by omega⟩
    have hb0 : b ≠ 0 := by
      simp only [Ctx.lay, aassoc] at H
      exact Holds.ne0 (H.eqv (by frame : _ = pt (.heap b) (IsNode w c.hdr.1 c.hdr.2 (keys l ++ (S, t1.addr) :: keys r)) + _))
    simp only [Ctx.hdr_step] at H ⊢
    have hlev : (d + 1 + 1) * (20 * E.baseMax + 45) = (d + 1) * (20 * E.baseMax + 45) + (20 * E.baseMax + 45) := by ring
    rw [Cost.insert_single_leaf_eq, if_neg hb0, hlev]
    obtain ⟨m1, nd, e1, n1, n2, n3, n4, H1⟩ := insHead_run (E := E) hc hS hp1 hp2 H
    refine CRes.le_step e1 ((CB.insHead _ _ _).run m) (by omega) ?_
    have hc' := hc.2.2.2.2
    have hle := hc.2.2.2.1
    simp only [Ctx.need] at has
    by_cases hfull : l.length + 1 + r.length = E.baseMax
    · rw [if_neg (by simpa using hfull)]
      rw [if_pos hfull] at has
      obtain ⟨a, as, rfl⟩ : ∃ a as', as = a :: as' := by
        cases as with
        | nil => simp at has
        | cons a as => exact ⟨a, as, rfl⟩
      simp only [List.length_cons, Nat.add_right_cancel_iff] at has
      obtain ⟨m2, X, Y, q', j', e2, s1, wf1, wf2, H2⟩ := insFull_run (E := E) hE hfull hc h1 h2 hS n1 n2 n4 H1
      simp only [List.headD_cons]
      refine CRes.le_step e2 ((CB.insFullL _ _ _ _ _ _).run m1) (by omega) ?_
      have := insert_single_branch_le hE c (x := x) (d := d) (as := as) (by omega) (by omega) hc' has s1 wf1 wf2 H2
      exact CRes.le_bind this (by omega) fun _ _ _ _ => Nat.zero_le _
    · rw [if_pos hfull]
      rw [if_neg hfull] at has
      obtain rfl := List.length_eq_zero_iff.1 has
      simp only [chain_nil, zero_add] at H1
      obtain ⟨m2, e2, F', H2⟩ := insFit_run (E := E) hE hfull hle n1 n2 n4 H1
      refine CRes.le_step e2 ((CB.insFitL _ _ _ _ _).run m1) (by omega) ?_
      obtain ⟨d', hd', hu⟩ := c.up H2
      have : 5 * (d + 1) ≤ (d + 1) * (20 * E.baseMax + 45) := by
        rw [Nat.mul_comm]; exact Nat.mul_le_mul_left _ (by omega)
      exact CRes.le_bind (Up.increment_sizes hu) (by omega) fun _ _ _ _ => Nat.zero_le _


/-! ### segment level -/

/-- shift inside a segment with room -/
def segRoom (E : Env α) (p length index : Nat) (value : α) : M α Unit := do
  let lm ← usub length 1
  move_segment E p lm p length
  assign_forward_segment E p lm index 1
  assign_segment E p index value
  pure ()

namespace Cost
variable (E)

def segRoom (p length index : Nat) (value : α) : C α Unit := do
  let lm ← usub length 1
  move_segment E p lm p length
  assign_forward_segment E p lm index 1
  assign_segment E p index value
  pure ()

def segSplit (p alloc index length : Nat) (value : α) (entry : Entry) : C α Entry :=
  if index < (E.segMax + 1) / 2 then do
    move_segment E p ((E.segMax + 1) / 2 - 1) alloc 0
    construct_range_segment E p ((E.segMax + 1) / 2 - 1 + 1) alloc 1 (E.segMax + 1 - (E.segMax + 1) / 2 - 1)
    assign_forward_segment E p ((E.segMax + 1) / 2 - 1) index 1
    assign_segment E p index value
    pure { entry with seg := { entry.seg with len := (E.segMax + 1) / 2 } }
  else do
    let move_length ← usub length index
    construct_range_segment E p ((E.segMax + 1) / 2) alloc 0 (index - (E.segMax + 1) / 2)
    construct_range_segment E p index alloc (index - (E.segMax + 1) / 2 + 1) move_length
    construct_segment E alloc (index - (E.segMax + 1) / 2) value
    pure { entry with
      seg := { ptr := alloc, idx := index - (E.segMax + 1) / 2, len := E.segMax + 1 - (E.segMax + 1) / 2 }
      leaf := { entry.leaf with idx := entry.leaf.idx + 1 } }

def segNew (o j : Nat) (leaf : LeafE) (value : α) : C α Entry := do
  let alloc ← allocate_segment E o
  setRoot o alloc
  setSize o 1
  setHeight o 1
  construct_segment E alloc 0 value
  return ⟨⟨alloc, j, 1⟩, leaf⟩

variable {E}

theorem insert_single_segment_eq {o p j n lp li : Nat} {value : α} :
    Cost.insert_single_segment E o ⟨⟨p, j, n⟩, ⟨lp, li⟩⟩ value =
    (if j ≠ n ∧ n ≠ E.segMax then segRoom E p n j value >>= fun _ =>
      increment_sizes E o lp li >>= fun _ => pure ⟨⟨p, j, n + 1⟩, ⟨lp, li⟩⟩
    else if p = 0 then segNew E o j ⟨lp, li⟩ value
    else if n ≠ E.segMax then construct_segment E p j value >>= fun _ =>
      increment_sizes E o lp li >>= fun _ => pure ⟨⟨p, j, n + 1⟩, ⟨lp, li⟩⟩
    else allocate_segment E o >>= fun alloc =>
      alloc_nodes_single E o lp alloc >>= fun leaf_alloc =>
      segSplit E p alloc j n value ⟨⟨p, j, n⟩, ⟨lp, li⟩⟩ >>= fun entry' =>
      insert_single_leaf E o entry' p lp (li + 1) leaf_alloc alloc (E.segMax + 1 - (E.segMax + 1) / 2)) := by
  unfold Cost.insert_single_segment segRoom segNew segSplit
  simp only [C.ite_bind, C.bind_assoc, C.pure_bind]

end Cost

instance Sim.segRoom (p n j : Nat) (v : α) : Sim (SegTree.segRoom E p n j v) (Cost.segRoom E p n j v) := by
  unfold SegTree.segRoom Cost.segRoom; infer_instance
instance Sim.segSplit (p a j n : Nat) (v : α) (e : Entry) :
    Sim (SegTree.segSplit E p a j n v e) (Cost.segSplit E p a j n v e) := by
  unfold SegTree.segSplit Cost.segSplit; infer_instance

namespace CB
instance segRoom (p n j : Nat) (v : α) : CB (Cost.segRoom E p n j v) (5 * E.segMax + 10) := by
  unfold Cost.segRoom; cb
instance segSplit (p a j n : Nat) (v : α) (e : Entry) : CB (Cost.segSplit E p a j n v e) (14 * E.segMax + 13) := by
  unfold Cost.segSplit; cb
instance segNew (o j : Nat) (l : LeafE) (v : α) : CB (Cost.segNew E o j l v) 10 := by
  unfold Cost.segNew; cb
end CB

theorem CRes.le_thrown {x : C α β} {f : β → C α γ} {k : Nat} (h : (x m).le k)
    (hn : ∀ v m' n, x m ≠ .ok v m' n) : ((x >>= f) m).le k :=
  CRes.le_bind h (Nat.le_refl _) fun v m' n e => absurd e (hn v m' n)

theorem Sim.not_ok {x : M α β} {y : C α β} (s : Sim x y) {e : Exn} {m1 : Mem α} (h : x m = .throw e m1) :
    ∀ v m' n, y m ≠ .ok v m' n := by
  intro v m' n hy
  obtain ⟨k, e⟩ := s.thrown h
  rw [e] at hy; cases hy

/-- what one insertion into a tree of `h + 1` levels may cost -/
def insCost (E : Env α) (h : Nat) : Nat := (h + 1) * (20 * E.baseMax + 54) + 14 * E.segMax + 25

theorem insCost_mono {h h' : Nat} (hh : h ≤ h') : insCost E h ≤ insCost E h' := by
  unfold insCost
  have := Nat.mul_le_mul_right (20 * E.baseMax + 54) (Nat.succ_le_succ hh)
  simp only [Nat.succ_eq_add_one] at this
  omega

theorem insert_single_segment_le {h o w al nal i : Nat} {t : Tree α h} {e : Entry} (v : α) (hE : E.Good)
    (hr : t.Root E) (he : At t i e) (hw1 : w = E.acls al) (hw2 : w = E.acls nal)
    (H : Holds g (lay E w 0 0 t + (Ob o (objOf t al nal) + F)) m) :
    (Cost.insert_single_segment E o e v m).le (insCost E h) := by
  have H0 := H
  have hu0 : Up m e.leaf.ptr h := At.up he H
  obtain ⟨c, s, j, rfl, rfl, rfl, hj⟩ := he
  obtain ⟨hc, hs⟩ := (Ctx.fill_root c s).1 hr
  have hsr : s.Root E := Ctx.holeOk_root hs
  rw [Tree.root_zero] at hsr
  obtain ⟨A, B, hAB, rfl⟩ : ∃ A B, s.xs = A ++ B ∧ A.length = j :=
    ⟨_, _, (List.take_append_drop j s.xs).symm, by rw [List.length_take]; omega⟩
  have hlen : s.xs.length = A.length + B.length := by rw [hAB]; simp
  rw [Ctx.fill_lay, lay_zero, aassoc] at H
  have hp0 := Holds.ne0 H
  obtain ⟨sl, sl1, sl2, H⟩ := H.toSg
  rw [hAB] at sl1
  simp only [entryOf] at hu0 ⊢
  rw [Cost.insert_single_segment_eq]
  have hb1 : 5 * h + 3 ≤ insCost E h ∧ 5 * E.segMax + 5 * h + 25 ≤ insCost E h := by
    unfold insCost
    have : 54 * (h + 1) ≤ (h + 1) * (20 * E.baseMax + 54) := by
      rw [Nat.mul_comm]; exact Nat.mul_le_mul_left _ (by omega)
    omega
  by_cases hfull : s.xs.length = E.segMax
  · rw [if_neg (by simp [hfull]), if_neg hp0, if_neg (by simp [hfull])]
    have hb2 : insCost E h = (h + 1) * (20 * E.baseMax + 45) + 9 * h + 14 * E.segMax + 34 := by
      unfold insCost; ring
    have ea : allocate_segment E o m = allocCell E (.seg w (fun _ => .raw)) m := by
      unfold allocate_segment
      rw [bind_ok (rdObj_ok (H0.eqv (by frame : _ = Ob o _ + _))), hw1]; rfl
    have H0' := H0
    rw [Ctx.fill_lay, aassoc] at H0'
    have hpin := H0'.toEx
    rcases allocCell_cases (E := E) (.seg w (fun _ => .raw)) hpin with ⟨b, m1, e1, H1⟩ | ⟨m1, e1, hce, H1⟩
    rotate_left
    · refine CRes.le_bind ((CB.allocate_segment o).run m) (by omega) fun v' m' n' hv => absurd hv ?_
      exact Sim.not_ok inferInstance (ea.trans e1) _ _ _
    refine CRes.le_step (ea.trans e1) ((CB.allocate_segment o).run m) (by omega) ?_
    have hu1 : Up m1 c.hdr.1 h := by
      have HF := H0'.ofEx (A := Sg b w (fun _ => .raw)) H1
      obtain ⟨d, hd, hu⟩ := c.up (HF.eqv (by frame : _ = c.lay E w s.addr s.size + _))
      obtain rfl : d = h := by omega
      exact hu
    have hz : Up m1 0 0 := .zero (by simp [H1.null])
    have hcn := Up.alloc_nodes_single (E := E) (o := o) (seg := b) hu1 hz
    unfold Cost.alloc_nodes_single at hcn ⊢
    rcases alloc_nodes_loop_ok (E := E) (o := o) (w := w) (seg := b) (x := objOf (c.fill s) al nal) (m0 := m) (L0 := g)
      (F0 := lay E w c.hdr.1 c.hdr.2 s + F) (a := s.addr) (s := s.size) hw2 hw1 c [] (by ac_rfl) H0'
      (by rw [chain_nil, zero_add]; exact H1) with ⟨as, m2, e2, has, H2⟩ | ⟨m2, n, e2, n1, n2, H2⟩
    rotate_left
    · simp only [List.headD_nil] at e2
      refine CRes.le_bind hcn (by omega) fun v' m' n' hv => absurd hv ?_
      exact Sim.not_ok inferInstance e2 _ _ _
    simp only [List.headD_nil] at e2
    refine CRes.le_step e2 hcn (by omega) ?_
    rw [← aassoc] at H2
    have H2 := H0'.ofEx H2
    rw [aassoc, lay_zero] at H2
    obtain ⟨sl, sl1, sl2, H2⟩ := (H2.eqv (by frame : _ = pt (.heap s.addr) (IsSeg E w s.xs) + (Sg b w (fun _ => .raw) + _))).toSg
    rw [hAB] at sl1
    obtain ⟨X, Y, m3, sx, sy, hXY, hX, e3, x1, x2, y1, y2, H3⟩ := segSplit_ok (E := E) (v := v)
      (e := ⟨⟨s.addr, A.length, s.xs.length⟩, ⟨c.hdr.1, c.hdr.2⟩⟩) hE (by omega) sl1
      (fun i hi => sl2 i (by omega)) (fun _ => .inl rfl) H2
    rw [← hfull] at e3
    refine CRes.le_step e3 ((CB.segSplit _ _ _ _ _ _).run m2) (by omega) ?_
    have hXYl : X.length + Y.length = E.segMax + 1 := by
      have := congrArg List.length hXY
      simp at this; omega
    have hpos := E.segMax_pos
    have H3 := (H3.ofSg (E := E) x1 x2).eqv (by frame : _ = Sg b w sy + _)
    have H3 := H3.ofSg (E := E) y1 y2
    have hfin := insert_single_leaf_le (E := E) hE c (x := objOf (c.fill s) al nal)
      (S := s.size) (q := 0) (j := 0) (t1 := .mkSeg s.addr X) (u := .mkSeg b Y) (as := as) (F := F)
      (e := if A.length < X.length then
          ⟨⟨s.addr, A.length, X.length⟩, ⟨c.hdr.1, c.hdr.2⟩⟩
         else ⟨⟨b, A.length - X.length, Y.length⟩, ⟨c.hdr.1, c.hdr.2 + 1⟩⟩)
      hc (by simpa using has)
      (by simp only [Tree.size, Tree.elems_zero, Tree.xs_mkSeg]; omega)
      (Tree.wf_zero.2 ⟨by unfold Env.segMin; simp; omega, by simp; omega⟩)
      (Tree.wf_zero.2 ⟨by unfold Env.segMin; simp; omega, by simp; omega⟩)
      (H3.eqv (by simp only [lay_mkSeg, Tree.addr_mkSeg]; ac_rfl))
    rw [show E.segMax + 1 - (E.segMax + 1) / 2 = (Tree.mkSeg b Y).size by
        simp only [Tree.size, Tree.elems_mkSeg]; omega]
    exact hfin.mono (by omega)
  · have hend : ∀ m1 K, (∃ F', Holds g (c.lay E w s.addr s.size + F') m1) → 5 * h + 3 ≤ K →
        ((Cost.increment_sizes E o c.hdr.1 c.hdr.2 >>= fun _ =>
          (pure ⟨⟨s.addr, A.length, s.xs.length + 1⟩, ⟨c.hdr.1, c.hdr.2⟩⟩ : C α Entry)) m1).le K := by
      rintro m1 K ⟨F', H1⟩ hK
      obtain ⟨d, hd, hu⟩ := c.up H1
      exact CRes.le_bind (Up.increment_sizes hu) (by omega) fun _ _ _ _ => Nat.zero_le _
    by_cases hB : B = []
    · subst hB
      simp only [List.append_nil] at *
      rw [if_neg (by simp [hlen]), if_neg hp0, if_pos hfull]
      obtain ⟨m1, e1, H1⟩ := construct_segment_ok (E := E) (i := A.length) v hE (by simp at hlen; omega)
        (sl2 _ (by simp [hlen])) H
      refine CRes.le_step e1 ((CB.construct_segment _ _ _).run m) (by omega) ?_
      exact hend m1 _ ⟨_, H1.eqv (by frame)⟩ (by omega)
    · have hBp : 1 ≤ B.length := by
        rcases B with _ | ⟨_, _⟩
        · exact absurd rfl hB
        · simp
      rw [if_pos ⟨by omega, hfull⟩]
      obtain ⟨m1, s1, e1, a1, a2, H1⟩ := segRoom_ok (E := E) (v := v) (n := s.xs.length)
        (f := pure ()) hE hB hlen (by omega) sl1 sl2 H
      have e1 : segRoom E s.addr s.xs.length A.length v m = .ok () m1 := e1
      refine CRes.le_step e1 ((CB.segRoom _ _ _ _).run m) (by omega) ?_
      exact hend m1 _ ⟨_, H1.eqv (by frame)⟩ (by omega)

end SegTree
