/-
  Ghost trees of uniform height, their zippers, and their heap layout.
-/
import Verif.Proof.Logic
import Verif.Model.Static
set_option autoImplicit false

namespace SegTree

variable {α : Type}

/-- A tree of height `k` with the addresses of its blocks: height 0 is a
segment with its elements, height `k+1` a node with its children. -/
def Tree (α : Type) : Nat → Type
  | 0 => Nat × List α
  | k + 1 => Nat × List (Tree α k)

namespace Tree

def mkSeg (a : Nat) (xs : List α) : Tree α 0 := (a, xs)
def mkNode {k : Nat} (a : Nat) (ks : List (Tree α k)) : Tree α (k + 1) := (a, ks)

def addr : {k : Nat} → Tree α k → Nat
  | 0, t => t.1
  | _ + 1, t => t.1

def elems : {k : Nat} → Tree α k → List α
  | 0, t => t.2
  | _ + 1, t => t.2.flatMap elems

def xs (t : Tree α 0) : List α := t.2
def kids {k : Nat} (t : Tree α (k + 1)) : List (Tree α k) := t.2

def size {k : Nat} (t : Tree α k) : Nat := t.elems.length

@[simp] theorem addr_mkSeg (a : Nat) (ys : List α) : (mkSeg a ys).addr = a := rfl
@[simp] theorem elems_mkSeg (a : Nat) (ys : List α) : (mkSeg a ys).elems = ys := rfl
@[simp] theorem xs_mkSeg (a : Nat) (ys : List α) : (mkSeg a ys).xs = ys := rfl
@[simp] theorem addr_mkNode {k : Nat} (a : Nat) (ks : List (Tree α k)) : (mkNode a ks).addr = a := rfl
@[simp] theorem kids_mkNode {k : Nat} (a : Nat) (ks : List (Tree α k)) : (mkNode a ks).kids = ks := rfl
theorem eta0 (t : Tree α 0) : t = mkSeg t.addr t.xs := rfl
theorem eta1 {k : Nat} (t : Tree α (k + 1)) : t = mkNode t.addr t.kids := rfl
theorem elems_zero (t : Tree α 0) : t.elems = t.xs := rfl

end Tree

/-- elements of a list of trees -/
def elemsL {k : Nat} (l : List (Tree α k)) : List α := l.flatMap Tree.elems

@[simp] theorem elemsL_nil {k : Nat} : elemsL ([] : List (Tree α k)) = [] := rfl
@[simp] theorem elemsL_cons {k : Nat} (t : Tree α k) (l : List (Tree α k)) :
    elemsL (t :: l) = t.elems ++ elemsL l := by simp [elemsL]
@[simp] theorem elemsL_append {k : Nat} (l r : List (Tree α k)) :
    elemsL (l ++ r) = elemsL l ++ elemsL r := by simp [elemsL]
@[simp] theorem Tree.elems_mkNode {k : Nat} (a : Nat) (ks : List (Tree α k)) :
    (Tree.mkNode a ks).elems = elemsL ks := rfl
theorem Tree.elems_succ {k : Nat} (t : Tree α (k + 1)) : t.elems = elemsL t.kids := rfl

/-- what a node records about a child -/
def key {k : Nat} (t : Tree α k) : Nat × Nat := (t.size, t.addr)
def keys {k : Nat} (l : List (Tree α k)) : List (Nat × Nat) := l.map key

@[simp] theorem keys_nil {k : Nat} : keys ([] : List (Tree α k)) = [] := rfl
@[simp] theorem keys_cons {k : Nat} (t : Tree α k) (l : List (Tree α k)) :
    keys (t :: l) = key t :: keys l := rfl
@[simp] theorem keys_append {k : Nat} (l r : List (Tree α k)) :
    keys (l ++ r) = keys l ++ keys r := by simp [keys]
@[simp] theorem keys_length {k : Nat} (l : List (Tree α k)) : (keys l).length = l.length := by
  simp [keys]

section Layout
variable (E : Env α) (w : Nat)

/-- slots from `i` on hold exactly the values `xs` -/
def SArr (s : Nat → Slot α) (i : Nat) (xs : List α) : Prop :=
  ∀ j (h : j < xs.length), s (i + j) = .val xs[j]

/-- free slot: raw, or the type has a trivial destructor -/
def Free (x : Slot α) : Prop := x = .raw ∨ E.trivDtor = true

/-- a segment cell holding exactly `xs` -/
def IsSeg (xs : List α) (c : Cell α) : Prop :=
  ∃ s, c = .seg w s ∧ SArr s 0 xs ∧ ∀ i, xs.length ≤ i → Free E (s i)

/-- entries `i..` of a node's arrays are `ks` -/
def Arr (n : Node) (i : Nat) (ks : List (Nat × Nat)) : Prop :=
  ∀ j (h : j < ks.length), n.sizes (i + j) = ks[j].1 ∧ n.ptrs (i + j) = ks[j].2

/-- a node cell recording the children `ks` -/
def IsNode (p i : Nat) (ks : List (Nat × Nat)) (c : Cell α) : Prop :=
  ∃ n, c = .node w n ∧ n.parent = p ∧ n.pidx = i ∧ n.len = ks.length ∧ Arr n 0 ks

/-- layout of consecutive children -/
def layL {k : Nat} (f : Nat → Tree α k → Asrt α) : Nat → List (Tree α k) → Asrt α
  | _, [] => 0
  | i, t :: ts => f i t + layL f (i + 1) ts

/-- heap layout of a tree whose root records parent `p` and index `i` -/
def lay : {k : Nat} → (p i : Nat) → Tree α k → Asrt α
  | 0, _, _, t => pt (.heap t.1) (IsSeg E w t.2)
  | _ + 1, p, i, t =>
    pt (.heap t.1) (IsNode w p i (keys t.2)) + layL (fun j c => lay t.1 j c) 0 t.2

/-- heap layout of children `l` of node `p` starting at index `i` -/
def lays {k : Nat} (p i : Nat) (l : List (Tree α k)) : Asrt α :=
  layL (fun j c => lay E w p j c) i l

variable {E w}

theorem lay_zero {p i : Nat} (t : Tree α 0) :
    lay E w p i t = pt (.heap t.addr) (IsSeg E w t.xs) := rfl
theorem lay_mkSeg {p i a : Nat} {ys : List α} :
    lay E w p i (Tree.mkSeg a ys) = pt (.heap a) (IsSeg E w ys) := rfl
theorem lay_succ {k p i : Nat} (t : Tree α (k + 1)) :
    lay E w p i t = pt (.heap t.addr) (IsNode w p i (keys t.kids)) + lays E w t.addr 0 t.kids := rfl
theorem lay_mkNode {k p i a : Nat} {ks : List (Tree α k)} :
    lay E w p i (Tree.mkNode a ks) = pt (.heap a) (IsNode w p i (keys ks)) + lays E w a 0 ks := rfl

@[simp] theorem lays_nil {k p i : Nat} : lays E w p i ([] : List (Tree α k)) = 0 := rfl
@[simp] theorem lays_cons {k p i : Nat} (t : Tree α k) (l : List (Tree α k)) :
    lays E w p i (t :: l) = lay E w p i t + lays E w p (i + 1) l := rfl

@[simp] theorem lays_append {k p i : Nat} (l r : List (Tree α k)) :
    lays E w p i (l ++ r) = lays E w p i l + lays E w p (i + l.length) r := by
  induction l generalizing i with
  | nil => simp
  | cons t l ih =>
    simp only [List.cons_append, lays_cons, ih, List.length_cons]
    rw [show i + 1 + l.length = i + (l.length + 1) by omega, add_assoc]

theorem lay_hdr0 (t : Tree α 0) (p i p' i' : Nat) : lay E w p i t = lay E w p' i' t := rfl

theorem lays_hdr0 (l : List (Tree α 0)) (p i p' i' : Nat) : lays E w p i l = lays E w p' i' l := by
  induction l generalizing i i' with
  | nil => rfl
  | cons t l ih => simp only [lays_cons]; rw [lay_hdr0 t p i p' i', ih (i + 1) (i' + 1)]

end Layout

/-! ### Zippers -/

/-- A path from a subtree of height `k` up to the root of a tree of height `h`. -/
inductive Ctx (α : Type) (h : Nat) : Nat → Type
  | top : Ctx α h h
  | step {k : Nat} (a : Nat) (l r : List (Tree α k)) (c : Ctx α h (k + 1)) : Ctx α h k

namespace Ctx
variable {h k : Nat}

/-- parent pointer and index that the hole's root must record -/
def hdr : {k : Nat} → Ctx α h k → Nat × Nat
  | _, top => (0, 0)
  | _, step a l _ _ => (a, l.length)

def pre : {k : Nat} → Ctx α h k → List α
  | _, top => []
  | _, step _ l _ c => c.pre ++ elemsL l

def post : {k : Nat} → Ctx α h k → List α
  | _, top => []
  | _, step _ _ r c => elemsL r ++ c.post

def fill : {k : Nat} → Ctx α h k → Tree α k → Tree α h
  | _, top, t => t
  | _, step a l r c, t => c.fill (Tree.mkNode a (l ++ t :: r))

def rootAddr : {k : Nat} → Ctx α h k → Nat → Nat
  | _, top, a => a
  | _, step b _ _ c, _ => c.rootAddr b

/-- number of elements outside the hole -/
def out (c : Ctx α h k) : Nat := c.pre.length + c.post.length

def isTop : {k : Nat} → Ctx α h k → Bool
  | _, top => true
  | _, step _ _ _ _ => false

@[simp] theorem isTop_top : (top : Ctx α h h).isTop = true := by simp [isTop]
@[simp] theorem isTop_step (a : Nat) (l r : List (Tree α k)) (c : Ctx α h (k + 1)) :
    (step a l r c).isTop = false := by simp [isTop]

/-- layout of the path, recording address `a` and size `s` for the hole -/
def lay (E : Env α) (w : Nat) : {k : Nat} → Ctx α h k → (a s : Nat) → Asrt α
  | _, top, _, _ => 0
  | _, step b l r c, a, s =>
    pt (.heap b) (IsNode w c.hdr.1 c.hdr.2 (keys l ++ (s, a) :: keys r)) +
      (lays E w b 0 l + (lays E w b (l.length + 1) r +
        c.lay E w b (s + (elemsL l).length + (elemsL r).length)))

theorem fill_elems (c : Ctx α h k) (t : Tree α k) :
    (c.fill t).elems = c.pre ++ t.elems ++ c.post := by
  induction c with
  | top => simp [fill, pre, post]
  | step a l r c ih => simp [fill, pre, post, ih]

theorem fill_addr (c : Ctx α h k) (t : Tree α k) : (c.fill t).addr = c.rootAddr t.addr := by
  induction c with
  | top => rfl
  | step a l r c ih => simp [fill, rootAddr, ih]

theorem fill_lay {E : Env α} {w : Nat} (c : Ctx α h k) (t : Tree α k) :
    SegTree.lay E w 0 0 (c.fill t) =
      SegTree.lay E w c.hdr.1 c.hdr.2 t + c.lay E w t.addr t.size := by
  induction c with
  | top => simp [fill, hdr, lay]
  | step a l r c ih =>
    simp only [fill, hdr, ih, lay, lay_mkNode, keys_append, keys_cons, lays_append,
      lays_cons, Tree.addr_mkNode, key, Nat.zero_add]
    rw [show (Tree.mkNode a (l ++ t :: r)).size = t.size + (elemsL l).length + (elemsL r).length by
      simp [Tree.size]; omega]
    ac_rfl

/-- composition: a path inside the hole of another path -/
def comp {j : Nat} (d : Ctx α h k) : Ctx α k j → Ctx α h j
  | top => d
  | step a l r c => step a l r (comp d c)

theorem comp_fill {j : Nat} (d : Ctx α h k) (c : Ctx α k j) (t : Tree α j) :
    (comp d c).fill t = d.fill (c.fill t) := by
  induction c with
  | top => rfl
  | step a l r c ih => simp only [comp, fill, ih]

theorem comp_pre {j : Nat} (d : Ctx α h k) (c : Ctx α k j) : (comp d c).pre = d.pre ++ c.pre := by
  induction c with
  | top => simp [comp, pre]
  | step a l r c ih => simp [comp, pre, ih]

theorem comp_post {j : Nat} (d : Ctx α h k) (c : Ctx α k j) : (comp d c).post = c.post ++ d.post := by
  induction c with
  | top => simp [comp, post]
  | step a l r c ih => simp [comp, post, ih]

end Ctx

/-! ### Well-formedness -/

/-- node and segment capacities are respected: the root block holds at least
`ms` elements / `mb` children, every other block is at least half full -/
def Tree.Fill (E : Env α) : {k : Nat} → (ms mb : Nat) → Tree α k → Prop
  | 0, ms, _, t => ms ≤ t.2.length ∧ t.2.length ≤ E.segMax
  | _ + 1, _, mb, t => mb ≤ t.2.length ∧ t.2.length ≤ E.baseMax ∧
      ∀ c ∈ t.2, Tree.Fill E E.segMin E.baseMin c

/-- a non-root block and everything below it -/
def Tree.WF (E : Env α) {k : Nat} (t : Tree α k) : Prop := Tree.Fill E E.segMin E.baseMin t
/-- a whole tree -/
def Tree.Root (E : Env α) {k : Nat} (t : Tree α k) : Prop := Tree.Fill E 1 2 t

theorem Tree.wf_zero {E : Env α} {t : Tree α 0} :
    t.WF E ↔ E.segMin ≤ t.xs.length ∧ t.xs.length ≤ E.segMax := Iff.rfl
theorem Tree.wf_succ {E : Env α} {k : Nat} {t : Tree α (k + 1)} :
    t.WF E ↔ E.baseMin ≤ t.kids.length ∧ t.kids.length ≤ E.baseMax ∧ ∀ c ∈ t.kids, c.WF E := Iff.rfl
theorem Tree.root_zero {E : Env α} {t : Tree α 0} :
    t.Root E ↔ 1 ≤ t.xs.length ∧ t.xs.length ≤ E.segMax := Iff.rfl
theorem Tree.root_succ {E : Env α} {k : Nat} {t : Tree α (k + 1)} :
    t.Root E ↔ 2 ≤ t.kids.length ∧ t.kids.length ≤ E.baseMax ∧ ∀ c ∈ t.kids, c.WF E := Iff.rfl

/-- capacities along a path; siblings are well formed -/
def Ctx.Ok (E : Env α) {h : Nat} : {k : Nat} → Ctx α h k → Prop
  | _, .top => True
  | _, .step _ l r c =>
    (∀ t ∈ l, Tree.WF E t) ∧ (∀ t ∈ r, Tree.WF E t) ∧
    (if c.isTop then 2 else E.baseMin) ≤ l.length + 1 + r.length ∧
    l.length + 1 + r.length ≤ E.baseMax ∧ c.Ok E

/-- what the subtree in the hole has to satisfy -/
def Ctx.HoleOk (E : Env α) {h k : Nat} (c : Ctx α h k) (t : Tree α k) : Prop :=
  if c.isTop then t.Root E else t.WF E

namespace Env
variable (E : Env α)
theorem segMax_pos : 1 ≤ E.segMax := by unfold segMax; split <;> omega
theorem baseMax_ge : 3 ≤ E.baseMax := by unfold baseMax; split <;> omega
theorem segMin_pos : 1 ≤ E.segMin := by have := E.segMax_pos; unfold segMin; omega
theorem baseMin_ge : 2 ≤ E.baseMin := by have := E.baseMax_ge; unfold baseMin; omega
theorem segMin_le : E.segMin ≤ E.segMax := by have := E.segMax_pos; unfold segMin; omega
theorem baseMin_le : E.baseMin ≤ E.baseMax := by have := E.baseMax_ge; unfold baseMin; omega
end Env

theorem Tree.WF.root {E : Env α} {k : Nat} {t : Tree α k} (h : t.WF E) : t.Root E := by
  cases k with
  | zero =>
    have := E.segMin_pos
    exact ⟨by have := h.1; omega, h.2⟩
  | succ k =>
    have := E.baseMin_ge
    exact ⟨by have := h.1; omega, h.2⟩

theorem Ctx.holeOk_root {E : Env α} {h k : Nat} {c : Ctx α h k} {t : Tree α k} (hh : c.HoleOk E t) :
    t.Root E := by
  unfold Ctx.HoleOk at hh
  split at hh
  · exact hh
  · exact hh.root

theorem Ctx.fill_root {E : Env α} {h k : Nat} (c : Ctx α h k) (t : Tree α k) :
    (c.fill t).Root E ↔ c.Ok E ∧ c.HoleOk E t := by
  induction c with
  | top => simp [Ctx.fill, Ctx.Ok, Ctx.HoleOk]
  | @step k a l r c ih =>
    simp only [Ctx.fill, ih]
    cases hc : c.isTop <;>
      simp only [Ctx.Ok, Ctx.HoleOk, hc, Ctx.isTop_step, if_true, Bool.false_eq_true, if_false,
        Tree.wf_succ, Tree.root_succ, Tree.kids_mkNode, List.length_append, List.length_cons,
        List.mem_append, List.mem_cons] <;>
      constructor
    all_goals
      rintro ⟨h1, h2⟩
    · obtain ⟨h2, h3, h4⟩ := h2
      exact ⟨⟨fun t ht => h4 t (.inl ht), fun t ht => h4 t (.inr (.inr ht)), by omega, by omega, h1⟩,
        h4 t (.inr (.inl rfl))⟩
    · obtain ⟨h3, h4, h5, h6, h7⟩ := h1
      refine ⟨h7, by omega, by omega, ?_⟩
      rintro c (hc | rfl | hc)
      · exact h3 c hc
      · exact h2
      · exact h4 c hc
    · obtain ⟨h2, h3, h4⟩ := h2
      exact ⟨⟨fun t ht => h4 t (.inl ht), fun t ht => h4 t (.inr (.inr ht)), by omega, by omega, h1⟩,
        h4 t (.inr (.inl rfl))⟩
    · obtain ⟨h3, h4, h5, h6, h7⟩ := h1
      refine ⟨h7, by omega, by omega, ?_⟩
      rintro c (hc | rfl | hc)
      · exact h3 c hc
      · exact h2
      · exact h4 c hc

theorem Tree.Root.size_pos {E : Env α} : {k : Nat} → {t : Tree α k} → t.Root E → 1 ≤ t.elems.length
  | 0, t, h => by have := h.1; exact this
  | k + 1, t, h => by
    rw [Tree.root_succ] at h
    obtain ⟨h1, -, h3⟩ := h
    rw [Tree.elems_succ]
    cases hk : t.kids with
    | nil => simp [hk] at h1
    | cons c cs =>
      have := (h3 c (by simp [hk])).root.size_pos
      simp; omega

theorem Tree.WF.size_pos {E : Env α} {k : Nat} {t : Tree α k} (h : t.WF E) : 1 ≤ t.elems.length :=
  h.root.size_pos

/-! ### Decompositions -/

/-- Locate position `i` of a list of trees. -/
theorem exists_kid {k : Nat} (l : List (Tree α k)) (i : Nat) (hi : i < (elemsL l).length) :
    ∃ a t b j, l = a ++ t :: b ∧ j < t.elems.length ∧ i = (elemsL a).length + j := by
  induction l generalizing i with
  | nil => simp at hi
  | cons t l ih =>
    by_cases h : i < t.elems.length
    · exact ⟨[], t, l, i, rfl, h, by simp⟩
    · obtain ⟨a, t', b, j, rfl, hj, he⟩ := ih (i - t.elems.length) (by simp at hi; omega)
      exact ⟨t :: a, t', b, j, rfl, hj, by simp; omega⟩

/-- Every position inside the hole lies in some segment below. -/
theorem exists_seg {h : Nat} : {k : Nat} → (C : Ctx α h k) → (t : Tree α k) → (i : Nat) →
    i < t.elems.length → ∃ (c : Ctx α k 0) (s : Tree α 0) (j : Nat),
      c.fill s = t ∧ j < s.xs.length ∧ c.pre.length + j = i
  | 0, _, t, i, hi => ⟨.top, t, i, rfl, hi, by simp [Ctx.pre]⟩
  | k + 1, C, t, i, hi => by
    obtain ⟨a, t', b, j, hk, hj, he⟩ := exists_kid t.kids i hi
    obtain ⟨c, s, j', hf, hj', he'⟩ := exists_seg (.step t.addr a b C) t' j hj
    refine ⟨Ctx.comp (.step t.addr a b .top) c, s, j', ?_, hj', ?_⟩
    · rw [Ctx.comp_fill, hf, Ctx.fill, ← hk]; rfl
    · rw [Ctx.comp_pre]; simp [Ctx.pre]; omega

/-- the last segment of a non-empty tree -/
theorem exists_last {E : Env α} : {k : Nat} → (t : Tree α k) → t.Root E →
    ∃ (c : Ctx α k 0) (s : Tree α 0), c.fill s = t ∧ c.post = []
  | 0, t, _ => ⟨.top, t, rfl, rfl⟩
  | k + 1, t, h => by
    rw [Tree.root_succ] at h
    obtain ⟨h1, -, h3⟩ := h
    have hne : t.kids ≠ [] := by intro e; simp [e] at h1
    obtain ⟨c, s, hf, hp⟩ := exists_last (t.kids.getLast hne) (h3 _ (List.getLast_mem hne)).root
    refine ⟨Ctx.comp (.step t.addr t.kids.dropLast [] .top) c, s, ?_, ?_⟩
    · rw [Ctx.comp_fill, hf, Ctx.fill, List.dropLast_append_getLast]; rfl
    · rw [Ctx.comp_post, hp]; simp [Ctx.post]

/-- the iterator entry for offset `off` of segment `t` at the end of path `c` -/
def entryOf {h : Nat} (c : Ctx α h 0) (t : Tree α 0) (off : Nat) : Entry :=
  { seg := ⟨t.addr, off, t.xs.length⟩, leaf := ⟨c.hdr.1, c.hdr.2⟩ }

end SegTree
