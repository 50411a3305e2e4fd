/-
  Single erasure above segment level: `erase_single_{branch,leaf}`.
-/
import Verif.Proof.Ins
set_option autoImplicit false
set_option linter.unusedSimpArgs false

namespace SegTree

variable {α : Type} {E : Env α} {g : Log} {F : Asrt α} {m : Mem α}

/-- the last statements of the root-collapse branch -/
def eraRoot (E : Env α) (k o p index : Nat) : M α Unit := do
  let other ← ptrsAt E p (index ^^^ 1)
  destroy_node E p 0
  destroy_node E p 1
  deallocate_node E o p
  setRoot o other
  if k = 0 then do
    let s ← getSize o
    let s ← usub s 1
    setSize o s
    setHeight o 1
  else do
    setParent other 0
    setPidx other 0
    let s ← getSize o
    let s ← usub s 1
    setSize o s
    let h ← getHeight o
    let h ← usub h 1
    setHeight o h

/-- `erase_single_leaf` (`k = 0`) and `erase_single_branch` (`k > 0`) at once -/
def eraGen (E : Env α) (k o : Nat) (entry : LeafE) (p index : Nat) : M α LeafE := do
  let parent_pointer ← parent p
  let parent_index ← pidx p
  let length ← len p
  if length = 2 ∧ (E.baseMin ≠ 2 ∨ parent_pointer = 0) then do
    eraRoot E k o p index
    return ⟨0, 0⟩
  else do
    let l ← usub length 1
    if length ≠ E.baseMin ∨ parent_pointer = 0 then do
      abwd E k p l index 1
      destroy_node E p l
      setLen p l
      decrement_sizes E o parent_pointer parent_index
      return entry
    else if parent_index ≠ 0 then do
      let prev_pointer ← ptrsAt E parent_pointer (parent_index - 1)
      let prev_length ← len prev_pointer
      if prev_length ≠ E.baseMin then do
        let pl ← usub prev_length 1
        afwd E k p index 0 1
        let sz ← mas E k prev_pointer pl p 0
        destroy_node E prev_pointer pl
        let s ← sizesAt E parent_pointer (parent_index - 1)
        let s ← usub s sz
        setSizes E parent_pointer (parent_index - 1) s
        let s ← sizesAt E parent_pointer parent_index
        let d ← usub sz 1
        setSizes E parent_pointer parent_index (s + d)
        setLen prev_pointer pl
        let q ← parent parent_pointer
        let i ← pidx parent_pointer
        decrement_sizes E o q i
        return { entry with idx := entry.idx + 1 }
      else do
        let s1 ← crange E k p 0 prev_pointer prev_length index
        let ml ← usub l index
        let s2 ← crange E k p (index + 1) prev_pointer (prev_length + index) ml
        destroy_node E p index
        deallocate_node E o p
        setLen prev_pointer (prev_length + l)
        let s ← sizesAt E parent_pointer (parent_index - 1)
        setSizes E parent_pointer (parent_index - 1) (s + (s1 + s2))
        erase_single_branch E o parent_pointer parent_index
        return { ptr := prev_pointer, idx := entry.idx + prev_length }
    else do
      let next_pointer ← ptrsAt E parent_pointer (parent_index + 1)
      let next_length ← len next_pointer
      if next_length ≠ E.baseMin then do
        let nl ← usub next_length 1
        abwd E k p l index 1
        let sz ← mas E k next_pointer 0 p l
        abwd E k next_pointer nl 0 1
        destroy_node E next_pointer nl
        let s ← sizesAt E parent_pointer (parent_index + 1)
        let s ← usub s sz
        setSizes E parent_pointer (parent_index + 1) s
        let s ← sizesAt E parent_pointer parent_index
        let d ← usub sz 1
        setSizes E parent_pointer parent_index (s + d)
        setLen next_pointer nl
        let q ← parent parent_pointer
        let i ← pidx parent_pointer
        decrement_sizes E o q i
        return entry
      else do
        abwd E k p l index 1
        let s1 ← mas E k next_pointer 0 p l
        destroy_node E next_pointer 0
        let nl ← usub next_length 1
        let s2 ← crange E k next_pointer 1 p (l + 1) nl
        deallocate_node E o next_pointer
        setLen p (l + next_length)
        let s ← sizesAt E parent_pointer parent_index
        let d ← usub (s1 + s2) 1
        setSizes E parent_pointer parent_index (s + d)
        erase_single_branch E o parent_pointer (parent_index + 1)
        return entry

theorem erase_single_leaf_eq {o p index : Nat} {entry : LeafE} :
    erase_single_leaf E o entry p index = eraGen E 0 o entry p index := by
  unfold erase_single_leaf eraGen eraRoot
  simp only [if_true, ite_bind, bind_assoc, pure_bind, move_assign_leaf_eq, assign_backward_leaf_eq,
    assign_forward_leaf_eq, construct_range_leaf_eq]

theorem erase_single_branch_eq (k : Nat) {o p index : Nat} {entry : LeafE} :
    erase_single_branch E o p index = (eraGen E (k + 1) o entry p index >>= fun _ => pure ()) := by
  rw [erase_single_branch]
  unfold eraGen eraRoot
  simp only [Nat.add_eq_zero_iff, Nat.one_ne_zero, and_false, if_false, ite_bind, bind_assoc, pure_bind, move_assign_branch_eq k, assign_backward_branch_eq k,
    assign_forward_branch_eq k, construct_range_branch_eq k, bind_pure_unit]

/-! ### blocks, and how many of them go -/

/-- number of blocks of a tree -/
def Tree.blocks : {k : Nat} → Tree α k → Nat
  | 0, _ => 1
  | _ + 1, t => 1 + (t.2.map Tree.blocks).sum

def blocksL {k : Nat} (l : List (Tree α k)) : Nat := (l.map Tree.blocks).sum

@[simp] theorem blocksL_nil {k : Nat} : blocksL ([] : List (Tree α k)) = 0 := rfl
@[simp] theorem blocksL_cons {k : Nat} (t : Tree α k) (l : List (Tree α k)) :
    blocksL (t :: l) = t.blocks + blocksL l := by simp [blocksL]
@[simp] theorem blocksL_append {k : Nat} (l r : List (Tree α k)) : blocksL (l ++ r) = blocksL l + blocksL r := by
  simp [blocksL]
@[simp] theorem Tree.blocks_mkSeg (a : Nat) (ys : List α) : (Tree.mkSeg a ys).blocks = 1 := rfl
@[simp] theorem Tree.blocks_mkNode {k : Nat} (a : Nat) (ks : List (Tree α k)) :
    (Tree.mkNode a ks).blocks = 1 + blocksL ks := rfl

/-- number of blocks outside the hole -/
def Ctx.blocks {h : Nat} : {k : Nat} → Ctx α h k → Nat
  | _, .top => 0
  | _, .step _ l r c => 1 + blocksL l + blocksL r + c.blocks

@[simp] theorem Ctx.blocks_top {h : Nat} : (Ctx.top : Ctx α h h).blocks = 0 := by simp [Ctx.blocks]
@[simp] theorem Ctx.blocks_step {h k a : Nat} {l r : List (Tree α k)} {c : Ctx α h (k + 1)} :
    (Ctx.step a l r c).blocks = 1 + blocksL l + blocksL r + c.blocks := by simp [Ctx.blocks]

theorem Ctx.fill_blocks {h k : Nat} (c : Ctx α h k) (t : Tree α k) : (c.fill t).blocks = c.blocks + t.blocks := by
  induction c with
  | top => simp [Ctx.fill]
  | step a l r c ih => simp [Ctx.fill, ih]; omega

/-- the sibling used for balancing: the previous one, or the next one if there is none -/
def sibling {k : Nat} (l r : List (Tree α k)) : Option (Tree α k) := l.getLast?.or r.head?

@[simp] theorem sibling_nil {k : Nat} {t : Tree α k} {r : List (Tree α k)} : sibling [] (t :: r) = some t := rfl
@[simp] theorem sibling_snoc {k : Nat} {t : Tree α k} {l r : List (Tree α k)} : sibling (l ++ [t]) r = some t := by
  simp [sibling]

/-- blocks freed, and levels lost, when a block of width `n` in the hole loses an entry -/
def Ctx.joins (E : Env α) {h : Nat} : {k : Nat} → Ctx α h k → Nat → Nat × Nat
  | _, .top, n => if h = 0 ∨ n ≠ 2 then (0, 0) else (1, 1)
  | k, .step _ l r c, n =>
    if n ≠ E.least k ∨ (sibling l r).map Tree.width ≠ some (E.least k) then (0, 0)
    else ((c.joins E (l.length + 1 + r.length)).1 + 1, (c.joins E (l.length + 1 + r.length)).2)

theorem Ctx.joins_top {k n : Nat} : (Ctx.top : Ctx α k k).joins E n = if k = 0 ∨ n ≠ 2 then (0, 0) else (1, 1) := by
  simp [Ctx.joins]
theorem Ctx.joins_step {h k a n : Nat} {l r : List (Tree α k)} {c : Ctx α h (k + 1)} :
    (Ctx.step a l r c).joins E n = if n ≠ E.least k ∨ (sibling l r).map Tree.width ≠ some (E.least k) then (0, 0)
    else ((c.joins E (l.length + 1 + r.length)).1 + 1, (c.joins E (l.length + 1 + r.length)).2) := by
  simp [Ctx.joins]

/-! ### specification -/

/-- what `eraGen` is entitled to assume: node `p` in the hole of `c` holds the
children `A`, a dead entry and `B`, and records one element too many -/
structure EraHyp (E : Env α) {h k : Nat} (w : Nat) (x : SeqObj) (c : Ctx α h (k + 1)) (p : Nat)
    (A B : List (Tree α k)) (S : Nat) : Prop where
  cok : c.Ok E
  wf : ∀ t ∈ A ++ B, t.WF E
  lo : (if c.isTop then 2 else E.baseMin) ≤ A.length + 1 + B.length
  hi : A.length + 1 + B.length ≤ E.baseMax
  size : S = (elemsL A).length + (elemsL B).length + 1
  sz : x.sz = S + c.out
  bnd : x.sz < E.W
  ht : x.ht = h + 1
  root : x.root = c.rootAddr p
  al : w = E.acls x.nalloc

/-- the memory `eraGen` starts in -/
def EraMem (E : Env α) {h k : Nat} (w : Nat) (c : Ctx α h (k + 1)) (p : Nat) (A B : List (Tree α k))
    (dk : Nat × Nat) (S : Nat) : Asrt α :=
  pt (.heap p) (IsNode w c.hdr.1 c.hdr.2 (keys A ++ dk :: keys B)) +
    (lays E w p 0 A + (lays E w p (A.length + 1) B + c.lay E w p S))

/-- how the widths of the nodes change when a node with the children `L`, one more, a
dead one and `R` in the hole of `c` loses the dead one; `ct` is the path to the one -/
structure EraShape (E : Env α) {h h' k : Nat} (c : Ctx α h (k + 1)) (L R : List (Tree α k)) (ct : Ctx α h' k) : Prop where
  cost : E.Even → ct.pot E ≤ c.pot E + E.debt (L.length + 2 + R.length) + potL E L + potL E R + 1
  brim : E.Odd → R = [] → (c.isTop = true ∧ L = [] ∨ L.length + 2 = E.baseMin ∧ c.Slim E) → ct.Brim E

/-- the outcome, for the remaining child `t` -/
def EraPost (E : Env α) {h k : Nat} (o w : Nat) (x : SeqObj) (c : Ctx α h (k + 1))
    (L R : List (Tree α k)) (t : Tree α k) (g : Log) (F : Asrt α) (res : LeafE) (m : Mem α) : Prop :=
  ∃ h', ∃ ct : Ctx α h' k, res = leafOf ct.hdr ∧ (ct.fill t).Root E ∧ ct.pre = c.pre ++ elemsL L ∧
    ct.post = elemsL R ++ c.post ∧
    (ct.blocks + (c.joins E (L.length + 2 + R.length)).1 = c.blocks + 1 + blocksL L + blocksL R ∧
      h' + (c.joins E (L.length + 2 + R.length)).2 = h ∧ EraShape E c L R ct) ∧
    Holds g (lay E w 0 0 (ct.fill t) +
      (Ob o { x with root := (ct.fill t).addr, sz := x.sz - 1, ht := h' + 1 } + F)) m

theorem Ctx.isTop_hdr {h k w a s : Nat} {c : Ctx α h k} (H : Holds g (c.lay E w a s + F) m) :
    c.hdr.1 = 0 ↔ c.isTop = true := by
  cases c with
  | top => simp [Ctx.hdr_top]
  | step b l r c =>
    simp only [Ctx.lay, aassoc] at H
    have := Holds.ne0 H
    simp [Ctx.hdr_step, this]

theorem fill_wf_root {h k p : Nat} {c : Ctx α h (k + 1)} {K : List (Tree α k)} (hc : c.Ok E)
    (hw : ∀ t ∈ K, t.WF E) (h1 : (if c.isTop then 2 else E.baseMin) ≤ K.length) (h2 : K.length ≤ E.baseMax) :
    (c.fill (.mkNode p K)).Root E := by
  rw [Ctx.fill_root]
  refine ⟨hc, ?_⟩
  unfold Ctx.HoleOk
  split
  · rename_i h; rw [if_pos h] at h1
    exact Tree.root_succ.2 ⟨h1, h2, hw⟩
  · rename_i h; rw [if_neg h] at h1
    exact Tree.wf_succ.2 ⟨h1, h2, hw⟩

/-- a node that survives: the post-condition from the new tree -/
theorem eraPost_of_fill {h k o w p : Nat} {x : SeqObj} {c cn : Ctx α h (k + 1)} {L R L' R' : List (Tree α k)}
    {t : Tree α k} (hr : (cn.fill (.mkNode p (L' ++ t :: R'))).Root E) (hx : x.ht = h + 1)
    (hroot : x.root = cn.rootAddr p) (hpre : cn.pre ++ elemsL L' = c.pre ++ elemsL L)
    (hpost : elemsL R' ++ cn.post = elemsL R ++ c.post)
    (hj : c.joins E (L.length + 2 + R.length) = (0, 0))
    (hbl : cn.blocks + blocksL L' + blocksL R' = c.blocks + blocksL L + blocksL R)
    (hsp : EraShape E c L R (.step p L' R' cn))
    (H : Holds g (lay E w 0 0 (cn.fill (.mkNode p (L' ++ t :: R'))) + (Ob o { x with sz := x.sz - 1 } + F)) m) :
    EraPost E o w x c L R t g F ⟨p, L'.length⟩ m := by
  refine ⟨h, .step p L' R' cn, rfl, hr, hpre, hpost, ⟨by rw [hj, Ctx.blocks_step]; simp only; omega, by rw [hj]; rfl, hsp⟩, ?_⟩
  refine H.eqv ?_
  have : ((Ctx.step p L' R' cn).fill t).addr = x.root := by rw [Ctx.fill_addr, hroot]; rfl
  rw [this, ← hx]
  rfl

theorem eraRoot_ok {k o w p : Nat} {x : SeqObj} {t : Tree α k} {A B : List (Tree α k)} {dk : Nat × Nat}
    (hb : E.baseMax < 65536) (hAB : A ++ B = [t]) (hal : w = E.acls x.nalloc) (hs : 1 ≤ x.sz) (hh : x.ht = k + 2)
    (H : Holds g (pt (.heap p) (IsNode w 0 0 (keys A ++ dk :: keys B)) + (lays E w p 0 A +
      (lays E w p (A.length + 1) B + (Ob o x + F)))) m) :
    ∃ m', eraRoot E k o p A.length m = .ok () m' ∧
      Holds g (lay E w 0 0 t + (Ob o { x with root := t.addr, sz := x.sz - 1, ht := k + 1 } + F)) m' := by
  have hge := E.baseMax_ge
  obtain ⟨j, hj, hlay⟩ : ∃ j, (A.length ^^^ 1 = j ∧ j < 2 ∧ ∀ nd : Node, Arr nd 0 (keys A ++ dk :: keys B) →
      nd.ptrs j = t.addr) ∧ lays E w p 0 A + lays E w p (A.length + 1) B = lay E w p j t := by
    rcases List.append_eq_singleton_iff.1 hAB with ⟨rfl, rfl⟩ | ⟨rfl, rfl⟩
    · refine ⟨1, ⟨by simp, by omega, ?_⟩, by simp⟩
      intro nd hn
      simp only [keys_nil, keys_cons, List.nil_append, Arr_cons] at hn
      exact hn.2.1.2
    · refine ⟨0, ⟨by simp, by omega, ?_⟩, by simp⟩
      intro nd hn
      simp only [keys_nil, keys_cons, List.cons_append, Arr_cons] at hn
      exact hn.1.2
  obtain ⟨hj1, hj2, hj3⟩ := hj
  have H := H.eqv (by
    rw [← aassoc (lays E w p 0 A), hlay] :
      _ = pt (.heap p) (IsNode w 0 0 (keys A ++ dk :: keys B)) + (lay E w p j t + (Ob o x + F)))
  obtain ⟨nd, -, -, -, n4, H⟩ := H.toNd
  unfold eraRoot
  rw [hj1, bind_ok (ptrsAt_ok (by omega) H), hj3 nd n4]
  rw [bind_ok (destroy_node_ok (by omega) H), bind_ok (destroy_node_ok (by omega) H)]
  obtain ⟨m1, e1, H⟩ := deallocate_node_ok hal (H.eqv (by frame : _ = Nd p w nd + (Ob o x + _)))
  rw [bind_ok e1]
  obtain ⟨m2, e2, H⟩ := setRoot_ok t.addr H
  rw [bind_ok e2]
  cases k with
  | zero =>
    rw [if_pos rfl]
    rw [bind_ok (getSize_ok H), bind_ok (usub_ok hs _)]
    obtain ⟨m3, e3, H⟩ := setSize_ok (x.sz - 1) H
    rw [bind_ok e3]
    obtain ⟨m4, e4, H⟩ := setHeight_ok 1 H
    refine ⟨m4, e4, H.eqv ?_⟩
    rw [lay_hdr0 t p j 0 0]
    ac_rfl
  | succ k =>
    rw [if_neg (by simp)]
    rw [lay_succ] at H
    simp only [aassoc] at H
    obtain ⟨nt, t1, t2, t3, t4, H⟩ := (H.eqv (by frame : _ = pt (.heap t.addr) (IsNode w p j (keys t.kids)) + _)).toNd
    obtain ⟨m3, e3, H⟩ := setParent_ok 0 H
    rw [bind_ok e3]
    obtain ⟨m4, e4, H⟩ := setPidx_ok (v := 0) (by omega) H
    rw [bind_ok e4]
    have H := H.ofNd (q := 0) (i := 0) (ks := keys t.kids) rfl rfl t3 t4
    have H := H.eqv (by frame : _ = Ob o { x with root := t.addr } + _)
    rw [bind_ok (getSize_ok H), bind_ok (usub_ok hs _)]
    obtain ⟨m5, e5, H⟩ := setSize_ok (x.sz - 1) H
    rw [bind_ok e5, bind_ok (getHeight_ok H)]
    rw [bind_ok (usub_ok (by simp only; omega) _)]
    obtain ⟨m6, e6, H⟩ := setHeight_ok (x.ht - 1) H
    refine ⟨m6, e6, H.eqv ?_⟩
    rw [lay_succ, show x.ht - 1 = k + 1 + 1 by omega]
    ac_rfl

/-- the shift in place -/
theorem eraShift_ok {h k o w p l : Nat} {x : SeqObj} {c : Ctx α h (k + 1)} {A B : List (Tree α k)}
    {dk : Nat × Nat} {S : Nat} {β : Type} {f : M α β} (hb : E.baseMax < 65536)
    (hy : EraHyp E w x c p A B S) (hl : l = A.length + B.length)
    (H : Holds g (EraMem E w c p A B dk S + (Ob o x + F)) m) :
    ∃ m', (abwd E k p l A.length 1 >>= fun _ => destroy_node E p l >>= fun _ => setLen p l >>= fun _ =>
        decrement_sizes E o c.hdr.1 c.hdr.2 >>= fun _ => f) m = f m' ∧
      Holds g (lay E w 0 0 (c.fill (.mkNode p (A ++ B))) + (Ob o { x with sz := x.sz - 1 } + F)) m' := by
  have hhi := hy.hi
  unfold EraMem at H
  simp only [aassoc] at H
  obtain ⟨nd, n1, n2, n3, n4, H⟩ := H.toNd
  rw [Arr_append, Arr_cons] at n4
  simp only [keys_length, Nat.zero_add] at n4
  obtain ⟨n4, -, n5⟩ := n4
  obtain ⟨m1, e1, H⟩ := abwd_ok (E := E) (n := l) hb B hl (by omega) n5
    (H.eqv (by frame : _ = Nd p w nd + (lays E w p (A.length + 1) B + _)))
  rw [bind_ok e1, bind_ok (destroy_node_ok (by omega) H)]
  obtain ⟨m2, e2, H⟩ := setLen_ok (v := l) (by omega) H
  rw [bind_ok e2]
  have H := H.ofNd (q := c.hdr.1) (i := c.hdr.2) (ks := keys (A ++ B)) n1 n2 (by simp [hl]) (by
    rw [Arr_len, keys_append, Arr_append]
    simp only [keys_length, Nat.zero_add]
    exact ⟨(Arr_put_disj (by simp)).2 n4, Arr_put_same _ _ _⟩)
  obtain ⟨m3, e3, H⟩ := decrement_sizes_ok (E := E) (x := x) hy.cok hy.sz (by have := hy.size; omega) hy.bnd
    (H.eqv (by frame : _ = c.lay E w p S + (Ob o x + _)))
  rw [bind_ok e3]
  refine ⟨m3, rfl, H.eqv ?_⟩
  rw [Ctx.fill_lay, lay_mkNode, lays_append]
  rw [show (Tree.mkNode p (A ++ B)).size = S - 1 by simp [Tree.size, hy.size], Tree.addr_mkNode, Nat.zero_add]
  ac_rfl

/-! ### rotations and merges -/

section
variable {h k o w p gp l : Nat} {x : SeqObj} {c : Ctx α h (k + 2)} {A B K : List (Tree α k)} {z : Tree α k}
  {lt rt : List (Tree α (k + 1))} {dk : Nat × Nat} {S pp : Nat} {β : Type} {f : M α β}

theorem eraRotPrev_ok (hb : E.baseMax < 65536)
    (hy : EraHyp E w x (Ctx.step gp (lt ++ [.mkNode pp (K ++ [z])]) rt c) p A B S)
    (hK : K.length + 1 ≤ E.baseMax) (hz : z.WF E)
    (H : Holds g (EraMem E w (Ctx.step gp (lt ++ [.mkNode pp (K ++ [z])]) rt c) p A B dk S + (Ob o x + F)) m) :
    ∃ m', (usub (K.length + 1) 1 >>= fun pl => afwd E k p A.length 0 1 >>= fun _ =>
        mas E k pp pl p 0 >>= fun sz => destroy_node E pp pl >>= fun _ =>
        sizesAt E gp lt.length >>= fun s => usub s sz >>= fun s => setSizes E gp lt.length s >>= fun _ =>
        sizesAt E gp (lt.length + 1) >>= fun s => usub sz 1 >>= fun d =>
        setSizes E gp (lt.length + 1) (s + d) >>= fun _ => setLen pp pl >>= fun _ =>
        parent gp >>= fun q => pidx gp >>= fun i => decrement_sizes E o q i >>= fun _ => f) m = f m' ∧
      Holds g (lay E w 0 0 ((Ctx.step gp (lt ++ [.mkNode pp K]) rt c).fill (.mkNode p (z :: (A ++ B)))) +
        (Ob o { x with sz := x.sz - 1 } + F)) m' := by
  have hhi := hy.hi
  have hgp := hy.cok.2.2.2.1
  simp only [List.length_append, List.length_cons, List.length_nil] at hgp
  have hzp : 1 ≤ z.size := hz.size_pos
  have hS := hy.size
  unfold EraMem at H
  simp only [Ctx.lay, Ctx.hdr_step, lays_append, lays_cons, lays_nil, lay_mkNode, add_zero, keys_append, keys_cons,
    keys_nil, aassoc, List.append_assoc, List.cons_append, List.nil_append, List.length_append, List.length_cons,
    List.length_nil, Nat.zero_add] at H
  obtain ⟨nd, n1, n2, n3, n4, H⟩ := H.toNd
  rw [Arr_append, Arr_cons] at n4
  simp only [keys_length, Nat.zero_add] at n4
  obtain ⟨n4, -, n5⟩ := n4
  rw [bind_ok (usub_ok (by omega) m), Nat.add_sub_cancel]
  obtain ⟨m1, e1, H⟩ := afwd_ok (E := E) (i := 0) (n := A.length) hb A (by omega) (by omega) n4
    (H.eqv (by frame : _ = Nd p w nd + (lays E w p 0 A + _)))
  rw [bind_ok e1]
  obtain ⟨np, p1, p2, p3, p4, H⟩ := (H.eqv (by frame : _ = pt (.heap pp) (IsNode w gp lt.length (keys K ++ [key z])) + _)).toNd
  rw [Arr_append] at p4
  simp only [keys_length, Nat.zero_add] at p4
  obtain ⟨m2, e2, H⟩ := mas_diff (E := E) (t := z) (si := K.length) (di := 0) (by omega) (by omega) hb p4.2
    (H.eqv (by frame : _ = Nd p w _ + (Nd pp w np + (lay E w pp K.length z + _))))
  rw [bind_ok e2, bind_ok (destroy_node_ok (by omega) (H.eqv (by frame : _ = Nd pp w np + _)))]
  have H := H.ofNd (q := gp) (i := lt.length + 1) (ks := keys (z :: (A ++ B))) n1 n2 (by simp at n3 ⊢; omega) (by
    simp only [keys_cons, keys_append, Arr_cons, Arr_append, keys_length, Nat.zero_add]
    refine ⟨Arr_one.1 (Arr_put_same _ _ _), ?_, ?_⟩
    · exact (Arr_put_disj (by simp)).2 (Arr_put_same _ _ _)
    · rw [Nat.add_comm 1]
      exact (Arr_put_disj (by simp)).2 ((Arr_put_disj (by simp; omega)).2 n5))
  have H := H.eqv (by frame : _ = pt (.heap gp) (IsNode w c.hdr.1 c.hdr.2
    (keys lt ++ key (.mkNode pp (K ++ [z])) :: (S, p) :: keys rt)) + _)
  rw [bind_ok (nsize (a := keys lt) (k := key (.mkNode pp (K ++ [z]))) (b := (S, p) :: keys rt) rfl (by simp)
    (by simp; omega) H)]
  have hks : (key (.mkNode pp (K ++ [z]) : Tree α (k + 1))).1 = (elemsL K).length + z.size := by
    simp [key, Tree.size]
  rw [hks, bind_ok (usub_ok (by omega) _), Nat.add_sub_cancel]
  obtain ⟨m3, e3, H⟩ := nsetSize (E := E) (v := (elemsL K).length) (j := lt.length) (by simp) (by simp; omega) H
  rw [bind_ok e3]
  have H := H.eqv (by rw [List.append_cons] : _ = pt (.heap gp) (IsNode w c.hdr.1 c.hdr.2
    ((keys lt ++ [((elemsL K).length, (key (.mkNode pp (K ++ [z]) : Tree α (k + 1))).2)]) ++ (S, p) :: keys rt)) + _)
  rw [bind_ok (nsize (a := keys lt ++ [((elemsL K).length, (key (.mkNode pp (K ++ [z]) : Tree α (k + 1))).2)])
    (k := (S, p)) (b := keys rt) rfl (by simp) (by simp; omega) H)]
  rw [bind_ok (usub_ok hzp _)]
  obtain ⟨m4, e4, H⟩ := nsetSize (E := E) (v := S + (z.size - 1)) (j := lt.length + 1) (by simp) (by simp; omega) H
  simp only at e4 ⊢
  rw [bind_ok e4]
  obtain ⟨m5, e5, H⟩ := setLen_ok (v := K.length) (by omega) (H.eqv (by frame : _ = Nd pp w np + _))
  rw [bind_ok e5]
  have H := H.ofNd (q := gp) (i := lt.length) (ks := keys K) p1 p2 (by simp) p4.1
  have H := H.eqv (by frame : _ = pt (.heap gp) (IsNode w c.hdr.1 c.hdr.2
    ((keys lt ++ [((elemsL K).length, (key (.mkNode pp (K ++ [z]) : Tree α (k + 1))).2)]) ++ (S + (z.size - 1), p) :: keys rt)) + _)
  rw [bind_ok (nparent H), bind_ok (npidx H)]
  have hsz := hy.sz
  rw [Ctx.out_step] at hsz
  obtain ⟨m6, e6, H⟩ := decrement_sizes_ok (E := E) (x := x) (c := c) (a := gp)
    (s := S + (elemsL (lt ++ [.mkNode pp (K ++ [z])])).length + (elemsL rt).length)
    hy.cok.2.2.2.2 (by omega) (by omega) hy.bnd
    (H.eqv (by frame : _ = c.lay E w gp _ + (Ob o x + _)))
  rw [bind_ok e6]
  refine ⟨m6, rfl, H.eqv ?_⟩
  simp only [Ctx.fill, Ctx.fill_lay, lay_mkNode, lays_append, lays_cons, lays_nil, keys_append, keys_cons, keys_nil,
    List.append_assoc, List.cons_append, List.nil_append, List.length_append, List.length_cons, List.length_nil,
    Nat.zero_add, add_zero, aassoc, Tree.addr_mkNode, key]
  simp only [show ∀ q, (Tree.mkNode q (z :: (A ++ B))).size = S + (z.size - 1) by
      intro q; simp [Tree.size] at hzp ⊢; omega,
    show ∀ q, (Tree.mkNode q (lt ++ .mkNode pp K :: .mkNode p (z :: (A ++ B)) :: rt)).size =
      S + (elemsL (lt ++ [.mkNode pp (K ++ [z])])).length + (elemsL rt).length - 1 by
      intro q; simp [Tree.size] at hzp ⊢; omega,
    show (Tree.mkNode pp K : Tree α (k + 1)).size = (elemsL K).length from rfl]
  ac_rfl

theorem eraMergePrev_ok (hb : E.baseMax < 65536)
    (hy : EraHyp E w x (Ctx.step gp (lt ++ [.mkNode pp K]) rt c) p A B S)
    (hK : K.length + A.length + B.length ≤ E.baseMax) (hl : l = A.length + B.length)
    (H : Holds g (EraMem E w (Ctx.step gp (lt ++ [.mkNode pp K]) rt c) p A B dk S + (Ob o x + F)) m) :
    ∃ m', (crange E k p 0 pp K.length A.length >>= fun s1 => usub l A.length >>= fun ml =>
        crange E k p (A.length + 1) pp (K.length + A.length) ml >>= fun s2 =>
        destroy_node E p A.length >>= fun _ => deallocate_node E o p >>= fun _ =>
        setLen pp (K.length + l) >>= fun _ => sizesAt E gp lt.length >>= fun s =>
        setSizes E gp lt.length (s + (s1 + s2)) >>= fun _ => f) m = f m' ∧
      Holds g (EraMem E w c gp (lt ++ [.mkNode pp (K ++ (A ++ B))]) rt (S, p)
        (S + (elemsL (lt ++ [.mkNode pp K])).length + (elemsL rt).length) + (Ob o x + F)) m' := by
  have hhi := hy.hi
  have hgp := hy.cok.2.2.2.1
  simp only [List.length_append, List.length_cons, List.length_nil] at hgp
  have hS := hy.size
  unfold EraMem at H ⊢
  simp only [Ctx.lay, Ctx.hdr_step, lays_append, lays_cons, lays_nil, lay_mkNode, add_zero, keys_append, keys_cons,
    keys_nil, aassoc, List.append_assoc, List.cons_append, List.nil_append, List.length_append, List.length_cons,
    List.length_nil, Nat.zero_add] at H
  obtain ⟨nd, n1, n2, n3, n4, H⟩ := H.toNd
  rw [Arr_append, Arr_cons] at n4
  simp only [keys_length, Nat.zero_add] at n4
  obtain ⟨n4, -, n5⟩ := n4
  obtain ⟨np, p1, p2, p3, p4, H⟩ := (H.eqv (by frame : _ = pt (.heap pp) (IsNode w gp lt.length (keys K)) + _)).toNd
  obtain ⟨m1, e1, H⟩ := crange_ok (E := E) (si := 0) (di := K.length) (n := A.length) hb A rfl (by omega) (by omega) n4
    (H.eqv (by frame : _ = Nd pp w np + (Nd p w nd + (lays E w p 0 A + _))))
  rw [bind_ok e1, bind_ok (usub_ok (by omega) _)]
  obtain ⟨m2, e2, H⟩ := crange_ok (E := E) (si := A.length + 1) (di := K.length + A.length) (n := l - A.length) hb B
    (by omega) (by omega) (by omega) n5
    (H.eqv (by frame : _ = Nd pp w _ + (Nd p w nd + (lays E w p (A.length + 1) B + _))))
  rw [bind_ok e2, bind_ok (destroy_node_ok (by omega) (H.eqv (by frame : _ = Nd p w nd + _)))]
  obtain ⟨m3, e3, H⟩ := deallocate_node_ok hy.al (H.eqv (by frame : _ = Nd p w nd + (Ob o x + _)))
  rw [bind_ok e3]
  obtain ⟨m4, e4, H⟩ := setLen_ok (v := K.length + l) (by omega) (H.eqv (by frame : _ = Nd pp w _ + _))
  rw [bind_ok e4]
  have H := H.ofNd (q := gp) (i := lt.length) (ks := keys (K ++ (A ++ B))) p1 p2 (by simp [hl]) (by
    rw [Arr_len]
    simp only [keys_append, Arr_append, keys_length, Nat.zero_add]
    refine ⟨?_, ?_, ?_⟩
    · exact (Arr_put_disj (by simp)).2 ((Arr_put_disj (by simp)).2 p4)
    · exact (Arr_put_disj (by simp)).2 (Arr_put_same _ _ _)
    · exact Arr_put_same _ _ _)
  have H := H.eqv (by frame : _ = pt (.heap gp) (IsNode w c.hdr.1 c.hdr.2
    (keys lt ++ key (.mkNode pp K) :: (S, p) :: keys rt)) + _)
  rw [bind_ok (nsize (a := keys lt) (k := key (.mkNode pp K)) (b := (S, p) :: keys rt) rfl (by simp)
    (by simp; omega) H)]
  have hks : (key (.mkNode pp K : Tree α (k + 1))).1 = (elemsL K).length := by
    simp [key, Tree.size]
  rw [hks]
  obtain ⟨m5, e5, H⟩ := nsetSize (E := E) (v := (elemsL K).length + ((elemsL A).length + (elemsL B).length))
    (j := lt.length) (by simp) (by simp; omega) H
  rw [bind_ok e5]
  refine ⟨m5, rfl, H.eqv ?_⟩
  simp only [lay_mkNode, lays_append, lays_cons, lays_nil, keys_append, keys_cons, keys_nil,
    List.append_assoc, List.cons_append, List.nil_append, List.length_append, List.length_cons, List.length_nil,
    Nat.zero_add, add_zero, aassoc, Tree.addr_mkNode, key]
  simp only [show ∀ q, (Tree.mkNode q (K ++ (A ++ B))).size =
      (elemsL K).length + ((elemsL A).length + (elemsL B).length) by
      intro q; simp [Tree.size]]
  ac_rfl

theorem eraRotNext_ok (hb : E.baseMax < 65536)
    (hy : EraHyp E w x (Ctx.step gp [] (.mkNode pp (z :: K) :: rt) c) p A B S)
    (hK : K.length + 1 ≤ E.baseMax) (hz : z.WF E) (hl : l = A.length + B.length)
    (H : Holds g (EraMem E w (Ctx.step gp [] (.mkNode pp (z :: K) :: rt) c) p A B dk S + (Ob o x + F)) m) :
    ∃ m', (usub (K.length + 1) 1 >>= fun nl => abwd E k p l A.length 1 >>= fun _ =>
        mas E k pp 0 p l >>= fun sz => abwd E k pp nl 0 1 >>= fun _ => destroy_node E pp nl >>= fun _ =>
        sizesAt E gp 1 >>= fun s => usub s sz >>= fun s => setSizes E gp 1 s >>= fun _ =>
        sizesAt E gp 0 >>= fun s => usub sz 1 >>= fun d =>
        setSizes E gp 0 (s + d) >>= fun _ => setLen pp nl >>= fun _ =>
        parent gp >>= fun q => pidx gp >>= fun i => decrement_sizes E o q i >>= fun _ => f) m = f m' ∧
      Holds g (lay E w 0 0 ((Ctx.step gp [] (.mkNode pp K :: rt) c).fill (.mkNode p (A ++ B ++ [z]))) +
        (Ob o { x with sz := x.sz - 1 } + F)) m' := by
  have hhi := hy.hi
  have hgp := hy.cok.2.2.2.1
  simp only [List.length_append, List.length_cons, List.length_nil] at hgp
  have hzp : 1 ≤ z.size := hz.size_pos
  have hS := hy.size
  unfold EraMem at H
  simp only [Ctx.lay, Ctx.hdr_step, lays_append, lays_cons, lays_nil, lay_mkNode, add_zero, keys_append, keys_cons,
    keys_nil, aassoc, List.append_assoc, List.cons_append, List.nil_append, List.length_append, List.length_cons,
    List.length_nil, Nat.zero_add, zero_add] at H
  obtain ⟨nd, n1, n2, n3, n4, H⟩ := H.toNd
  rw [Arr_append, Arr_cons] at n4
  simp only [keys_length, Nat.zero_add] at n4
  obtain ⟨n4, -, n5⟩ := n4
  rw [bind_ok (usub_ok (by omega) m), Nat.add_sub_cancel]
  obtain ⟨m1, e1, H⟩ := abwd_ok (E := E) (i := A.length) (n := l) hb B (by omega) (by omega) n5
    (H.eqv (by frame : _ = Nd p w nd + (lays E w p (A.length + 1) B + _)))
  rw [bind_ok e1]
  obtain ⟨np, p1, p2, p3, p4, H⟩ := (H.eqv (by frame : _ = pt (.heap pp) (IsNode w gp 1 (key z :: keys K)) + _)).toNd
  rw [Arr_cons, ← Arr_one] at p4
  obtain ⟨m2, e2, H⟩ := mas_diff (E := E) (t := z) (si := 0) (di := l) (by omega) (by omega) hb p4.1
    (H.eqv (by frame : _ = Nd p w _ + (Nd pp w np + (lay E w pp 0 z + _))))
  rw [bind_ok e2]
  obtain ⟨m2', e2', H⟩ := abwd_ok (E := E) (i := 0) (n := K.length) hb K (by omega) (by omega) p4.2
    (H.eqv (by frame : _ = Nd pp w np + (lays E w pp 1 K + _)))
  rw [bind_ok e2', bind_ok (destroy_node_ok (by omega) (H.eqv (by frame : _ = Nd pp w _ + _)))]
  have H := (H.eqv (by frame : _ = Nd p w (putArr (putArr nd A.length (keys B)) l [key z]) + _)).ofNd (q := gp) (i := 0)
    (ks := keys (A ++ B ++ [z])) n1 n2
    (by simp at n3 ⊢; omega) (by
      simp only [keys_cons, keys_nil, keys_append, Arr_cons, Arr_append, keys_length, Nat.zero_add, List.length_append, ← hl]
      refine ⟨⟨?_, ?_⟩, Arr_one.1 (Arr_put_same _ _ _), ?_⟩
      · exact (Arr_put_disj (by simp; omega)).2 ((Arr_put_disj (by simp)).2 n4)
      · exact (Arr_put_disj (by simp; omega)).2 (Arr_put_same _ _ _)
      · intro j hj; simp at hj)
  have H := H.eqv (by frame : _ = pt (.heap gp) (IsNode w c.hdr.1 c.hdr.2
    ((S, p) :: key (.mkNode pp (z :: K)) :: keys rt)) + _)
  rw [bind_ok (nsize (a := [(S, p)]) (k := key (.mkNode pp (z :: K))) (b := keys rt) rfl (by simp)
    (by simp; omega) H)]
  have hks : (key (.mkNode pp (z :: K) : Tree α (k + 1))).1 = z.size + (elemsL K).length := by
    simp [key, Tree.size]
  rw [hks, bind_ok (usub_ok (by omega) _), Nat.add_sub_cancel_left]
  obtain ⟨m3, e3, H⟩ := nsetSize (E := E) (a := [(S, p)]) (k := key (.mkNode pp (z :: K)))
    (b := keys rt) (v := (elemsL K).length) (j := 1) (by simp) (by simp; omega) H
  simp only [List.cons_append, List.nil_append] at H
  rw [bind_ok e3]
  rw [bind_ok (nsize (a := []) (k := (S, p)) (b := ((elemsL K).length, (key (.mkNode pp (z :: K) : Tree α (k + 1))).2) :: keys rt) rfl (by simp) (by simp; omega) H)]
  rw [bind_ok (usub_ok hzp _)]
  obtain ⟨m4, e4, H⟩ := nsetSize (E := E) (a := []) (k := (S, p))
    (v := S + (z.size - 1)) (j := 0) (by simp) (by simp; omega) H
  simp only [List.nil_append] at H e4 ⊢
  rw [bind_ok e4]
  obtain ⟨m5, e5, H⟩ := setLen_ok (v := K.length) (by omega) (H.eqv (by frame : _ = Nd pp w _ + _))
  rw [bind_ok e5]
  have H := H.ofNd (q := gp) (i := 1) (ks := keys K) p1 p2 (by simp) (Arr_put_same _ _ _)
  have H := H.eqv (by frame : _ = pt (.heap gp) (IsNode w c.hdr.1 c.hdr.2
    ((S + (z.size - 1), p) :: ((elemsL K).length, (key (.mkNode pp (z :: K) : Tree α (k + 1))).2) :: keys rt)) + _)
  rw [bind_ok (nparent H), bind_ok (npidx H)]
  have hsz := hy.sz
  rw [Ctx.out_step] at hsz
  obtain ⟨m6, e6, H⟩ := decrement_sizes_ok (E := E) (x := x) (c := c) (a := gp)
    (s := S + (elemsL ([] : List (Tree α (k + 1)))).length + (elemsL (Tree.mkNode pp (z :: K) :: rt)).length)
    hy.cok.2.2.2.2 (by omega) (by omega) hy.bnd
    (H.eqv (by frame : _ = c.lay E w gp _ + (Ob o x + _)))
  rw [bind_ok e6]
  refine ⟨m6, rfl, H.eqv ?_⟩
  simp only [Ctx.fill, Ctx.fill_lay, lay_mkNode, lays_append, lays_cons, lays_nil, keys_append, keys_cons, keys_nil,
    List.append_assoc, List.cons_append, List.nil_append, List.length_append, List.length_cons, List.length_nil,
    Nat.zero_add, zero_add, add_zero, aassoc, Tree.addr_mkNode, key, hl]
  simp only [show ∀ q, (Tree.mkNode q (A ++ (B ++ [z]))).size = S + (z.size - 1) by
      intro q; simp [Tree.size] at hzp ⊢; omega,
    show ∀ q, (Tree.mkNode q (.mkNode p (A ++ (B ++ [z])) :: .mkNode pp K :: rt)).size =
      S + (elemsL ([] : List (Tree α (k + 1)))).length + (elemsL (Tree.mkNode pp (z :: K) :: rt)).length - 1 by
      intro q; simp [Tree.size] at hzp ⊢; omega,
    show (Tree.mkNode pp K : Tree α (k + 1)).size = (elemsL K).length from rfl]
  ac_rfl

theorem eraMergeNext_ok (hb : E.baseMax < 65536)
    (hy : EraHyp E w x (Ctx.step gp [] (.mkNode pp (z :: K) :: rt) c) p A B S)
    (hK : A.length + B.length + 1 + K.length ≤ E.baseMax) (hz : z.WF E) (hl : l = A.length + B.length)
    (H : Holds g (EraMem E w (Ctx.step gp [] (.mkNode pp (z :: K) :: rt) c) p A B dk S + (Ob o x + F)) m) :
    ∃ m', (abwd E k p l A.length 1 >>= fun _ => mas E k pp 0 p l >>= fun s1 => destroy_node E pp 0 >>= fun _ =>
        usub (K.length + 1) 1 >>= fun nl => crange E k pp 1 p (l + 1) nl >>= fun s2 =>
        deallocate_node E o pp >>= fun _ => setLen p (l + (K.length + 1)) >>= fun _ =>
        sizesAt E gp 0 >>= fun s => usub (s1 + s2) 1 >>= fun d => setSizes E gp 0 (s + d) >>= fun _ => f) m = f m' ∧
      Holds g (EraMem E w c gp [.mkNode p (A ++ B ++ z :: K)] rt (key (.mkNode pp (z :: K) : Tree α (k + 1)))
        (S + (elemsL ([] : List (Tree α (k + 1)))).length + (elemsL (.mkNode pp (z :: K) :: rt)).length) +
          (Ob o x + F)) m' := by
  have hhi := hy.hi
  have hgp := hy.cok.2.2.2.1
  simp only [List.length_append, List.length_cons, List.length_nil] at hgp
  have hzp : 1 ≤ z.size := hz.size_pos
  have hS := hy.size
  unfold EraMem at H ⊢
  simp only [Ctx.lay, Ctx.hdr_step, lays_append, lays_cons, lays_nil, lay_mkNode, add_zero, keys_append, keys_cons,
    keys_nil, aassoc, List.append_assoc, List.cons_append, List.nil_append, List.length_append, List.length_cons,
    List.length_nil, Nat.zero_add, zero_add] at H
  obtain ⟨nd, n1, n2, n3, n4, H⟩ := H.toNd
  rw [Arr_append, Arr_cons] at n4
  simp only [keys_length, Nat.zero_add] at n4
  obtain ⟨n4, -, n5⟩ := n4
  obtain ⟨m1, e1, H⟩ := abwd_ok (E := E) (i := A.length) (n := l) hb B (by omega) (by omega) n5
    (H.eqv (by frame : _ = Nd p w nd + (lays E w p (A.length + 1) B + _)))
  rw [bind_ok e1]
  obtain ⟨np, p1, p2, p3, p4, H⟩ := (H.eqv (by frame : _ = pt (.heap pp) (IsNode w gp 1 (key z :: keys K)) + _)).toNd
  rw [Arr_cons, ← Arr_one] at p4
  obtain ⟨m2, e2, H⟩ := mas_diff (E := E) (t := z) (si := 0) (di := l) (by omega) (by omega) hb p4.1
    (H.eqv (by frame : _ = Nd p w _ + (Nd pp w np + (lay E w pp 0 z + _))))
  rw [bind_ok e2, bind_ok (destroy_node_ok (by omega) (H.eqv (by frame : _ = Nd pp w _ + _))),
    bind_ok (usub_ok (by omega) _), Nat.add_sub_cancel]
  obtain ⟨m2', e2', H⟩ := crange_ok (E := E) (si := 1) (di := l + 1) (n := K.length) hb K rfl (by omega) (by omega) p4.2
    (H.eqv (by frame : _ = Nd p w _ + (Nd pp w np + (lays E w pp 1 K + _))))
  rw [bind_ok e2']
  obtain ⟨m3, e3, H⟩ := deallocate_node_ok hy.al (H.eqv (by frame : _ = Nd pp w np + (Ob o x + _)))
  rw [bind_ok e3]
  obtain ⟨m4, e4, H⟩ := setLen_ok (v := l + (K.length + 1)) (by omega) (H.eqv (by frame : _ = Nd p w _ + _))
  rw [bind_ok e4]
  have H := H.ofNd (q := gp) (i := 0) (ks := keys (A ++ B ++ z :: K)) n1 n2
    (by simp; omega) (by
      rw [Arr_len]
      simp only [keys_cons, keys_nil, keys_append, Arr_cons, Arr_append, keys_length, Nat.zero_add, List.length_append, ← hl]
      refine ⟨⟨?_, ?_⟩, Arr_one.1 ?_, Arr_put_same _ _ _⟩
      · exact (Arr_put_disj (by simp; omega)).2 ((Arr_put_disj (by simp; omega)).2 ((Arr_put_disj (by simp)).2 n4))
      · exact (Arr_put_disj (by simp; omega)).2 ((Arr_put_disj (by simp; omega)).2 (Arr_put_same _ _ _))
      · exact (Arr_put_disj (by simp)).2 (Arr_put_same _ _ _))
  have H := H.eqv (by frame : _ = pt (.heap gp) (IsNode w c.hdr.1 c.hdr.2
    ((S, p) :: key (.mkNode pp (z :: K)) :: keys rt)) + _)
  rw [bind_ok (nsize (a := []) (k := (S, p)) (b := key (.mkNode pp (z :: K)) :: keys rt) rfl (by simp)
    (by simp; omega) H)]
  rw [bind_ok (usub_ok (by omega) _)]
  obtain ⟨m5, e5, H⟩ := nsetSize (E := E) (a := []) (k := (S, p))
    (v := S + (z.size + (elemsL K).length - 1)) (j := 0) (by simp) (by simp; omega) H
  simp only [List.nil_append] at H e5 ⊢
  rw [bind_ok e5]
  refine ⟨m5, rfl, H.eqv ?_⟩
  simp only [lay_mkNode, lays_append, lays_cons, lays_nil, keys_append, keys_cons, keys_nil,
    List.append_assoc, List.cons_append, List.nil_append, List.length_append, List.length_cons, List.length_nil,
    Nat.zero_add, zero_add, add_zero, aassoc, Tree.addr_mkNode, key, hl]
  simp only [show ∀ q, (Tree.mkNode q (A ++ (B ++ z :: K))).size = S + (z.size + (elemsL K).length - 1) by
      intro q; simp [Tree.size] at hzp ⊢; omega]
  ac_rfl
end

theorem eraGen_ok {o w : Nat} (hb : E.baseMax < 65536) (n : Nat) : ∀ {h k : Nat} (c : Ctx α h (k + 1)), h ≤ k + n →
    ∀ {m : Mem α} {F : Asrt α} {x : SeqObj} {p S : Nat} {A B L R : List (Tree α k)} {dk : Nat × Nat} {t : Tree α k},
    EraHyp E w x c p A B S → A ++ B = L ++ t :: R →
    Holds g (EraMem E w c p A B dk S + (Ob o x + F)) m →
    ∃ res m', eraGen E k o ⟨p, L.length⟩ p A.length m = .ok res m' ∧ EraPost E o w x c L R t g F res m' := by
  induction n with
  | zero =>
    intro h k c hn
    have := c.le
    omega
  | succ n ih =>
  intro h k c hn m F x p S A B L R dk t hy hAB H
  have hhi := hy.hi
  have hlo := hy.lo
  have hge := E.baseMax_ge
  have hmn := E.baseMin_ge
  have hmm : 2 * E.baseMin - 1 ≤ E.baseMax := by unfold Env.baseMin; omega
  have hlen : A.length + B.length = L.length + 1 + R.length := by
    have := congrArg List.length hAB; simp at this; omega
  have htop : c.hdr.1 = 0 ↔ c.isTop = true := by
    unfold EraMem at H
    exact Ctx.isTop_hdr (F := pt (.heap p) (IsNode w c.hdr.1 c.hdr.2 (keys A ++ dk :: keys B)) + (lays E w p 0 A +
      (lays E w p (A.length + 1) B + (Ob o x + F)))) (H.eqv (by frame))
  obtain ⟨q, hq⟩ : ∃ q, c.hdr.1 = q := ⟨_, rfl⟩
  obtain ⟨j, hj⟩ : ∃ j, c.hdr.2 = j := ⟨_, rfl⟩
  have H0 : Holds g (pt (.heap p) (IsNode w q j (keys A ++ dk :: keys B)) + (lays E w p 0 A +
      (lays E w p (A.length + 1) B + (c.lay E w p S + (Ob o x + F))))) m := by
    subst hq hj
    unfold EraMem at H
    exact H.eqv (by frame)
  unfold eraGen
  rw [bind_ok (nparent H0), bind_ok (npidx H0), bind_ok (nlen H0)]
  have hkl : (keys A ++ dk :: keys B).length = A.length + B.length + 1 := by simp; omega
  rw [hkl]
  by_cases hroot : A.length + B.length + 1 = 2 ∧ (E.baseMin ≠ 2 ∨ q = 0)
  · rw [if_pos hroot]
    have hct : c.isTop = true := by
      rcases hroot.2 with h1 | h1
      · by_contra hne
        rw [if_neg hne] at hlo
        omega
      · exact htop.1 (hq.trans h1)
    cases c with
    | step => simp at hct
    | top =>
    have hL : L = [] := List.length_eq_zero_iff.1 (by omega)
    have hR : R = [] := List.length_eq_zero_iff.1 (by omega)
    subst hL hR
    simp only [Ctx.hdr_top] at hq hj
    subst hq hj
    simp only [Ctx.lay, zero_add] at H0
    have hsz := hy.sz
    have hS := hy.size
    obtain ⟨m1, e1, H1⟩ := eraRoot_ok hb hAB hy.al (by omega) hy.ht H0
    rw [bind_ok e1]
    refine ⟨_, m1, rfl, k, .top, by simp [Ctx.hdr_top, leafOf], ?_, rfl, rfl, ?_, ?_⟩
    · exact (hy.wf t (by simp [hAB])).root
    · simp only [Ctx.joins_top, Ctx.blocks_top, blocksL_nil]
      refine ⟨by simp, by simp, fun _ => by simp, fun _ _ _ => Ctx.brim_top.2 trivial⟩
    · exact H1.eqv (by simp only [Ctx.fill])
  rw [if_neg hroot, bind_ok (usub_ok (by omega) _)]
  by_cases hsh : A.length + B.length + 1 ≠ E.baseMin ∨ q = 0
  · rw [if_pos hsh]
    obtain ⟨m1, e1, H1⟩ := eraShift_ok (f := (pure ⟨p, L.length⟩ : M α LeafE)) (l := A.length + B.length + 1 - 1) hb hy (by omega) H
    rw [hq, hj] at e1
    rw [e1]
    refine ⟨_, m1, rfl, ?_⟩
    rw [hAB] at H1
    refine eraPost_of_fill ?_ hy.ht hy.root rfl rfl ?_ rfl ?_ H1
    rotate_left
    swap
    · refine ⟨fun _ => ?_, fun _ hR hc => ?_⟩
      · have := E.debt_dec (n := L.length + 1 + R.length) (by omega)
        rw [Ctx.pot_step, show L.length + 2 + R.length = L.length + 1 + R.length + 1 by omega]
        omega
      · exfalso
        subst hR
        simp only [List.length_nil] at *
        rcases hc with ⟨h1, rfl⟩ | ⟨h1, h2⟩
        · have := htop.2 h1
          simp only [List.length_nil] at *
          omega
        · have h3 : c.isTop = false := h2.not_top
          rcases hsh with h | h
          · omega
          · have := htop.1 (by omega)
            rw [h3] at this; cases this
    · cases c with
      | top => rw [Ctx.joins_top, if_pos]; have := htop.2 rfl; omega
      | step =>
        rw [Ctx.joins_step, if_pos]
        have : ¬ _ := fun e => absurd (htop.1 e) (by simp)
        left; unfold Env.least; rw [if_neg (by omega)]; omega
    refine fill_wf_root hy.cok (by rw [← hAB]; exact hy.wf) ?_ (by simp; omega)
    simp only [List.length_append, List.length_cons]
    split at hlo
    · rename_i h1
      rw [if_pos h1]
      have := htop.2 h1
      omega
    · rename_i h1
      rw [if_neg h1]
      have : c.hdr.1 ≠ 0 := fun e => h1 (htop.1 e)
      omega
  rw [if_neg hsh]
  have hbm : A.length + B.length + 1 = E.baseMin := by omega
  have hne0 : q ≠ 0 := by omega
  clear hroot hsh hlo htop
  have hcok := hy.cok
  have hal := hy.al
  have hbnd := hy.bnd
  have hsz := hy.sz
  have hrt := hy.root
  have hS := hy.size
  have hht := hy.ht
  cases c with
  | top => exact absurd hq.symm (by simpa [Ctx.hdr_top] using hne0)
  | step gp l r c =>
  simp only [Ctx.hdr_step] at hq hj
  subst hq hj
  obtain ⟨c1, c2, c3, c4, c5⟩ := hcok
  rw [Ctx.out_step] at hsz
  rcases List.eq_nil_or_concat l with rfl | ⟨lt, pv, rfl⟩
  · -- no previous sibling: use the next one
    rw [if_neg (by simp)]
    obtain ⟨nx, rt, rfl⟩ : ∃ nx rt, r = nx :: rt := by
      cases r with
      | nil => simp at c3; split at c3 <;> omega
      | cons a b => exact ⟨a, b, rfl⟩
    have hnx := c2 nx (by simp)
    rw [Tree.wf_succ] at hnx
    obtain ⟨x1, x2, x3⟩ := hnx
    obtain ⟨z, K, hzK⟩ : ∃ z K, nx.kids = z :: K := by
      cases hk : nx.kids with
      | nil => simp [hk] at x1; omega
      | cons a b => exact ⟨a, b, rfl⟩
    obtain ⟨pp, rfl⟩ : ∃ pp, nx = .mkNode pp (z :: K) := ⟨nx.addr, by rw [← hzK]; rfl⟩
    simp only [Tree.kids_mkNode, List.length_cons] at x1 x2 x3
    simp only [List.length_nil, List.length_cons] at c3 c4
    have hz := x3 z (by simp)
    simp only [Ctx.lay, lays_cons, lays_nil, lay_mkNode, keys_cons, keys_nil, List.nil_append, List.length_nil,
      Nat.zero_add, zero_add, aassoc] at H0 ⊢
    have Hg := H0.eqv (by frame : _ = pt (.heap gp) (IsNode w c.hdr.1 c.hdr.2
      ((S, p) :: key (.mkNode pp (z :: K)) :: keys rt)) + _)
    have Hn := H0.eqv (by frame : _ = pt (.heap pp) (IsNode w gp 1 (key z :: keys K)) + _)
    rw [bind_ok (nptr (a := [(S, p)]) (k := (key (.mkNode pp (z :: K) : Tree α (k + 1)))) (b := keys rt) (j := 1) rfl rfl
      (by simp; omega) Hg)]
    simp only [show (key (.mkNode pp (z :: K) : Tree α (k + 1))).2 = pp from rfl]
    rw [bind_ok (nlen Hn)]
    simp only [keys_length, List.length_cons]
    by_cases hmin : K.length + 1 ≠ E.baseMin
    · rw [if_pos hmin]
      obtain ⟨m1, e1, H1⟩ := eraRotNext_ok (f := (pure ⟨p, L.length⟩ : M α LeafE)) (l := A.length + B.length + 1 - 1) hb hy (by omega)
        hz (by omega) H
      refine ⟨_, m1, e1, ?_⟩
      rw [hAB, List.append_assoc, List.cons_append] at H1
      have hok : (Ctx.step gp [] (.mkNode pp K :: rt) c).Ok E := by
        refine ⟨by simp, ?_, by simpa using c3, by simpa using c4, c5⟩
        rintro t' ht'
        rcases List.mem_cons.1 ht' with rfl | ht'
        · exact Tree.wf_succ.2 ⟨by simp; omega, by simp; omega, fun a ha => x3 a (by simp_all)⟩
        · exact c2 t' (by simp [ht'])
      refine eraPost_of_fill (cn := Ctx.step gp [] (.mkNode pp K :: rt) c) ?_ hht hrt rfl ?_ ?_ ?_ ?_ H1
      · refine fill_wf_root hok ?_ (by simp; omega) (by simp; omega)
        intro a ha
        simp only [List.mem_append, List.mem_cons, List.not_mem_nil, or_false] at ha
        have hA := hy.wf
        rw [hAB] at hA
        rcases ha with ha | ha | ha | rfl
        · exact hA a (by simp [ha])
        · exact hA a (by simp [ha])
        · exact hA a (by simp [ha])
        · exact hz
      · simp [Ctx.post]
      · rw [Ctx.joins_step, if_pos]
        right; unfold Env.least; rw [if_neg (by omega)]; simpa using hmin
      · simp; omega
      · refine ⟨fun _ => ?_, fun _ _ hc => ?_⟩
        · have := E.debt_dec (n := K.length) (by omega)
          simp only [Ctx.pot_step, potL_nil, potL_cons, potL_append, Tree.pot_mkNode, List.length_append, List.length_cons,
            List.length_nil]
          rw [show L.length + 1 + (R.length + (0 + 1)) = L.length + 2 + R.length by omega]
          omega
        · rcases hc with ⟨h1, -⟩ | ⟨-, h1⟩
          · simp at h1
          · simp [Ctx.slim_step] at h1
    · rw [if_neg hmin]
      obtain ⟨m1, e1, H1⟩ := eraMergeNext_ok (f := erase_single_branch E o gp 1 >>= fun _ => (pure ⟨p, L.length⟩ : M α LeafE))
        (l := A.length + B.length + 1 - 1) hb hy (by omega)
        hz (by omega) H
      have hy1 : EraHyp E w x c gp [.mkNode p (A ++ B ++ z :: K)] rt
          (S + (elemsL ([] : List (Tree α (k + 1)))).length + (elemsL (.mkNode pp (z :: K) :: rt)).length) := by
        refine ⟨c5, ?_, by simp; omega, by simp; omega, ?_, by omega, hbnd, hht, hrt, hal⟩
        · rintro t' ht'
          rcases List.mem_cons.1 ht' with rfl | ht'
          · refine Tree.wf_succ.2 ⟨by simp; omega, by simp; omega, ?_⟩
            intro a ha
            simp only [Tree.kids_mkNode, List.mem_append, List.mem_cons] at ha
            have := hy.wf a
            simp only [List.mem_append] at this
            rcases ha with ha | rfl | ha
            · exact this ha
            · exact hz
            · exact x3 a (by simp [ha])
          · exact c2 t' (by simp_all)
        · simp; omega
      obtain ⟨res, m2, e2, h', ct, -, r2, r3, r4, ⟨r6, r7, r8⟩, r5⟩ := ih c (by omega) (L := []) (R := rt)
        (t := .mkNode p (A ++ B ++ z :: K)) hy1 (by simp) H1
      simp only [List.length_nil, List.length_cons] at e2
      have ef : (erase_single_branch E o gp 1 >>= fun _ => (pure ⟨p, L.length⟩ : M α LeafE)) m1 = .ok ⟨p, L.length⟩ m2 := by
        rw [erase_single_branch_eq k (entry := ⟨gp, 0⟩), bind_assoc, bind_ok e2]
        rfl
      refine ⟨_, m2, e1.trans ef, h', .step p L (R ++ z :: K) ct, rfl, ?_, ?_, ?_, ?_, ?_⟩
      · simpa only [Ctx.fill, hAB, List.append_assoc, List.cons_append] using r2
      · simp [Ctx.pre, r3]
      · simp [Ctx.post, r4]
      · rw [Ctx.joins_step, if_neg (by
          rw [not_or, not_not, not_not]
          unfold Env.least; rw [if_neg (by omega)]
          exact ⟨by omega, by simp; omega⟩)]
        rw [show ([] : List (Tree α (k + 1))).length + 2 + rt.length =
          ([] : List (Tree α (k + 1))).length + 1 + (Tree.mkNode pp (z :: K) :: rt).length by simp; omega] at r6 r7
        refine ⟨?_, r7, fun hev => ?_, fun _ _ hc => ?_⟩
        · simp only [Ctx.blocks_step, blocksL_nil, blocksL_cons, blocksL_append, Tree.blocks_mkNode] at r6 ⊢
          omega
        · have h1 := r8.cost hev
          unfold Env.Even at hev
          have h2 : E.debt (L.length + 1 + (R.length + (K.length + 1))) = 0 := by
            unfold Env.debt; rw [if_neg (by omega), if_neg (by omega)]
          simp only [Ctx.pot_step, potL_nil, potL_cons, potL_append, Tree.pot_mkNode, List.length_append, List.length_cons,
            List.length_nil] at h1 ⊢
          rw [h2, show 0 + 1 + (rt.length + 1) = 0 + 2 + rt.length by omega]
          omega
        · rcases hc with ⟨h1, -⟩ | ⟨-, h1⟩
          · simp at h1
          · simp [Ctx.slim_step] at h1
      · simpa only [Ctx.fill, hAB, List.append_assoc, List.cons_append] using r5
  · -- a previous sibling
    simp only [List.concat_eq_append, List.length_append, List.length_cons, List.length_nil] at *
    rw [if_pos (show _ ≠ _ by simp)]
    have hpv := c1 pv (by simp)
    rw [Tree.wf_succ] at hpv
    obtain ⟨x1, x2, x3⟩ := hpv
    obtain ⟨pp, Q, rfl⟩ : ∃ pp Q, pv = .mkNode pp Q := ⟨pv.addr, pv.kids, rfl⟩
    simp only [Tree.kids_mkNode] at x1 x2 x3
    simp only [Ctx.lay, lays_append, lays_cons, lays_nil, lay_mkNode, keys_append, keys_cons, keys_nil, List.append_assoc,
      List.cons_append, List.nil_append, List.length_nil, Nat.zero_add, zero_add, add_zero, Nat.add_sub_cancel, aassoc] at H0 ⊢
    have Hg := H0.eqv (by frame : _ = pt (.heap gp) (IsNode w c.hdr.1 c.hdr.2
      (keys lt ++ key (.mkNode pp Q) :: (S, p) :: keys r)) + _)
    have Hn := H0.eqv (by frame : _ = pt (.heap pp) (IsNode w gp lt.length (keys Q)) + _)
    rw [bind_ok (nptr (a := keys lt) (k := (key (.mkNode pp Q : Tree α (k + 1)))) (b := (S, p) :: keys r) (j := lt.length)
      rfl (by simp) (by simp; omega) Hg)]
    simp only [show (key (.mkNode pp Q : Tree α (k + 1))).2 = pp from rfl]
    rw [bind_ok (nlen Hn)]
    simp only [keys_length]
    by_cases hmin : Q.length ≠ E.baseMin
    · rw [if_pos hmin]
      obtain ⟨K, z, rfl⟩ : ∃ K z, Q = K ++ [z] := snoc_of_ne (by intro e; simp [e] at x1; omega)
      simp only [List.length_append, List.length_cons, List.length_nil, Nat.zero_add] at x1 x2 hmin ⊢
      have hz := x3 z (by simp)
      obtain ⟨m1, e1, H1⟩ := eraRotPrev_ok (f := (pure ⟨p, L.length + 1⟩ : M α LeafE)) hb hy (by omega)
        hz H
      refine ⟨_, m1, e1, ?_⟩
      rw [hAB] at H1
      have hok : (Ctx.step gp (lt ++ [.mkNode pp K]) r c).Ok E := by
        refine ⟨?_, c2, by simpa using c3, by simpa using c4, c5⟩
        rintro t' ht'
        simp only [List.mem_append, List.mem_cons, List.not_mem_nil, or_false] at ht'
        rcases ht' with ht' | rfl
        · exact c1 t' (by simp [ht'])
        · exact Tree.wf_succ.2 ⟨by simp; omega, by simp; omega, fun a ha => x3 a (by simp_all)⟩
      refine eraPost_of_fill (cn := Ctx.step gp (lt ++ [.mkNode pp K]) r c) (L' := z :: L) ?_ hht hrt ?_ ?_ ?_ ?_ ?_ H1
      · refine fill_wf_root hok ?_ (by simp; omega) (by simp; omega)
        intro a ha
        simp only [List.mem_append, List.mem_cons] at ha
        have hA := hy.wf
        rw [hAB] at hA
        rcases ha with (rfl | ha) | ha | ha
        · exact hz
        · exact hA a (by simp [ha])
        · exact hA a (by simp [ha])
        · exact hA a (by simp [ha])
      · simp [Ctx.pre]
      · simp [Ctx.post]
      · rw [Ctx.joins_step, if_pos]
        right; unfold Env.least; rw [if_neg (by omega)]; simpa using hmin
      · simp; omega
      · refine ⟨fun _ => ?_, fun _ _ hc => ?_⟩
        · have := E.debt_dec (n := K.length) (by omega)
          simp only [Ctx.pot_step, potL_nil, potL_cons, potL_append, Tree.pot_mkNode, List.length_append, List.length_cons,
            List.length_nil, Nat.zero_add]
          rw [show L.length + 1 + 1 + R.length = L.length + 2 + R.length by omega]
          omega
        · rcases hc with ⟨h1, -⟩ | ⟨-, h1⟩
          · simp at h1
          · simp [Ctx.slim_step, Env.least] at h1
            omega
    · rw [if_neg hmin]
      obtain ⟨m1, e1, H1⟩ := eraMergePrev_ok (K := Q)
        (f := erase_single_branch E o gp (lt.length + 1) >>= fun _ => (pure ⟨pp, L.length + Q.length⟩ : M α LeafE))
        (l := A.length + B.length + 1 - 1) hb hy (by omega) (by omega) H
      have hy1 : EraHyp E w x c gp (lt ++ [.mkNode pp (Q ++ (A ++ B))]) r
          (S + (elemsL (lt ++ [.mkNode pp Q])).length + (elemsL r).length) := by
        refine ⟨c5, ?_, by simp; omega, by simp; omega, ?_, by omega, hbnd, hht, hrt, hal⟩
        · rintro t' ht'
          simp only [List.mem_append, List.mem_cons, List.not_mem_nil, or_false] at ht'
          rcases ht' with (ht' | rfl) | ht'
          · exact c1 t' (by simp [ht'])
          · refine Tree.wf_succ.2 ⟨by simp; omega, by simp; omega, ?_⟩
            intro a ha
            simp only [Tree.kids_mkNode, List.mem_append] at ha
            rcases ha with ha | ha
            · exact x3 a ha
            · exact hy.wf a (by simpa using ha)
          · exact c2 t' ht'
        · simp; omega
      obtain ⟨res, m2, e2, h', ct, -, r2, r3, r4, ⟨r6, r7, r8⟩, r5⟩ := ih c (by omega) (L := lt) (R := r)
        (t := .mkNode pp (Q ++ (A ++ B))) hy1 (by simp) H1
      simp only [List.length_append, List.length_cons, List.length_nil, Nat.zero_add] at e2
      have ef : (erase_single_branch E o gp (lt.length + 1) >>= fun _ => (pure ⟨pp, L.length + Q.length⟩ : M α LeafE)) m1 = .ok ⟨pp, L.length + Q.length⟩ m2 := by
        rw [erase_single_branch_eq k (entry := ⟨gp, lt.length⟩), bind_assoc, bind_ok e2]
        rfl
      refine ⟨_, m2, e1.trans ef, h', .step pp (Q ++ L) R ct, ?_, ?_, ?_, ?_, ?_, ?_⟩
      · simp [Ctx.hdr_step, leafOf, Nat.add_comm]
      · simpa only [Ctx.fill, hAB, List.append_assoc, List.cons_append] using r2
      · simp [Ctx.pre, r3]
      · simp [Ctx.post, r4]
      · rw [Ctx.joins_step, if_neg (by
          rw [not_or, not_not, not_not]
          unfold Env.least; rw [if_neg (by omega)]
          exact ⟨by omega, by simp; omega⟩)]
        rw [show lt.length + 2 + r.length = (lt ++ [Tree.mkNode pp Q]).length + 1 + r.length by simp] at r6 r7
        refine ⟨?_, r7, fun hev => ?_, fun hod hR hc => ?_⟩
        · simp only [Ctx.blocks_step, blocksL_nil, blocksL_cons, blocksL_append, Tree.blocks_mkNode] at r6 ⊢
          have hbl := congrArg blocksL hAB
          simp only [blocksL_cons, blocksL_append] at hbl
          omega
        · have h1 := r8.cost hev
          unfold Env.Even at hev
          have h2 : E.debt (Q.length + L.length + 1 + R.length) = 0 := by
            unfold Env.debt; rw [if_neg (by omega), if_neg (by omega)]
          simp only [Ctx.pot_step, potL_nil, potL_cons, potL_append, Tree.pot_mkNode, List.length_append, List.length_cons,
            List.length_nil] at h1 ⊢
          rw [h2, show lt.length + (0 + 1) + 1 + r.length = lt.length + 2 + r.length by omega]
          omega
        · subst hR
          rcases hc with ⟨h1, -⟩ | ⟨h0, h1⟩
          · simp at h1
          · rw [Ctx.slim_step] at h1
            obtain ⟨h1, -, h2⟩ := h1
            rw [Ctx.brim_step]
            unfold Env.Odd at hod
            refine ⟨rfl, by simp; omega, r8.brim hod h1 ?_⟩
            rcases h2 with ⟨h2, h3⟩ | ⟨h2, h3⟩
            · exact .inl ⟨h2, List.length_eq_zero_iff.1 (by simpa using h3)⟩
            · exact .inr ⟨by simpa using h2, h3⟩
      · simpa only [Ctx.fill, hAB, List.append_assoc, List.cons_append] using r5

theorem erase_single_leaf_ok {o w h : Nat} (hb : E.baseMax < 65536) (c : Ctx α h 1) {x : SeqObj} {p S i j : Nat}
    {A B L R : List (Tree α 0)} {dk : Nat × Nat} {t : Tree α 0}
    (hy : EraHyp E w x c p A B S) (hAB : A ++ B = L ++ t :: R) (hi : i = L.length) (hj : j = A.length)
    (H : Holds g (EraMem E w c p A B dk S + (Ob o x + F)) m) :
    ∃ res m', erase_single_leaf E o ⟨p, i⟩ p j m = .ok res m' ∧ EraPost E o w x c L R t g F res m' := by
  subst hi hj
  rw [erase_single_leaf_eq]
  exact eraGen_ok hb h c (by omega) hy hAB H

end SegTree
