/-
  Specifications of the memory primitives and of the operations on the entries
  of a node, for leaves (`k = 0`) and branches (`k > 0`) at once.
-/
import Verif.Proof.Ghost
import Verif.Model.Core
import Mathlib.Data.List.Induction
set_option autoImplicit false

namespace SegTree

variable {α : Type} {E : Env α} {g : Log} {F : Asrt α} {m : Mem α}

/-- the node at `p` is exactly `r` -/
def Nd (p w : Nat) (r : Node) : Asrt α := pt (.heap p) (· = .node w r)
/-- the segment at `p` has exactly the slots `s` -/
def Sg (p w : Nat) (s : Nat → Slot α) : Asrt α := pt (.heap p) (· = .seg w s)
/-- the `seq` object `o` is exactly `s` -/
def Ob (o : Nat) (s : SeqObj) : Asrt α := pt (.obj o) (· = .obj s)

theorem Holds.toNd {p w q i : Nat} {ks : List (Nat × Nat)}
    (H : Holds g (pt (.heap p) (IsNode w q i ks) + F) m) :
    ∃ r, r.parent = q ∧ r.pidx = i ∧ r.len = ks.length ∧ Arr r 0 ks ∧ Holds g (Nd p w r + F) m := by
  obtain ⟨c, ⟨r, rfl, h1, h2, h3, h4⟩, -, h⟩ := H.exact
  exact ⟨r, h1, h2, h3, h4, h⟩

theorem Holds.ofNd {p w q i : Nat} {r : Node} {ks : List (Nat × Nat)}
    (H : Holds g (Nd p w r + F) m) (h1 : r.parent = q) (h2 : r.pidx = i) (h3 : r.len = ks.length)
    (h4 : Arr r 0 ks) : Holds g (pt (.heap p) (IsNode w q i ks) + F) m :=
  H.weaken (fun _ hc => ⟨r, hc, h1, h2, h3, h4⟩)

theorem Holds.toSg {p w : Nat} {xs : List α} (H : Holds g (pt (.heap p) (IsSeg E w xs) + F) m) :
    ∃ s, SArr s 0 xs ∧ (∀ i, xs.length ≤ i → Free E (s i)) ∧ Holds g (Sg p w s + F) m := by
  obtain ⟨c, ⟨s, rfl, h1, h2⟩, -, h⟩ := H.exact
  exact ⟨s, h1, h2, h⟩

theorem Holds.ofSg {p w : Nat} {s : Nat → Slot α} {xs : List α} (H : Holds g (Sg p w s + F) m)
    (h1 : SArr s 0 xs) (h2 : ∀ i, xs.length ≤ i → Free E (s i)) :
    Holds g (pt (.heap p) (IsSeg E w xs) + F) m :=
  H.weaken (fun _ hc => ⟨s, hc, h1, h2⟩)

/-! ### nodes -/

section
variable {p w : Nat} {r : Node}

theorem rdNode_ok (H : Holds g (Nd p w r + F) m) : rdNode p m = .ok r m := by
  obtain ⟨c, hc, rfl⟩ := Holds.get H
  simp [rdNode, hc]

theorem wrNode_ok (r' : Node) (H : Holds g (Nd p w r + F) m) :
    ∃ m', wrNode p r' m = .ok () m' ∧ Holds g (Nd p w r' + F) m' := by
  obtain ⟨c, hc, rfl⟩ := Holds.get H
  exact ⟨_, by simp [wrNode, hc], H.write rfl⟩

theorem len_ok (H : Holds g (Nd p w r + F) m) : len p m = .ok r.len m := by
  unfold len; rw [bind_ok (rdNode_ok H)]; rfl
theorem parent_ok (H : Holds g (Nd p w r + F) m) : parent p m = .ok r.parent m := by
  unfold parent; rw [bind_ok (rdNode_ok H)]; rfl
theorem pidx_ok (H : Holds g (Nd p w r + F) m) : pidx p m = .ok r.pidx m := by
  unfold pidx; rw [bind_ok (rdNode_ok H)]; rfl
theorem sizesAt_ok {i : Nat} (hi : i < E.baseMax) (H : Holds g (Nd p w r + F) m) :
    sizesAt E p i m = .ok (r.sizes i) m := by
  unfold sizesAt; rw [bind_ok (rdNode_ok H)]; simp [hi]
theorem ptrsAt_ok {i : Nat} (hi : i < E.baseMax) (H : Holds g (Nd p w r + F) m) :
    ptrsAt E p i m = .ok (r.ptrs i) m := by
  unfold ptrsAt; rw [bind_ok (rdNode_ok H)]; simp [hi]

theorem setLen_ok {v : Nat} (hv : v < 65536) (H : Holds g (Nd p w r + F) m) :
    ∃ m', setLen p v m = .ok () m' ∧ Holds g (Nd p w { r with len := v } + F) m' := by
  unfold setLen; rw [bind_ok (rdNode_ok H), Nat.mod_eq_of_lt hv]; exact wrNode_ok _ H
theorem setParent_ok (v : Nat) (H : Holds g (Nd p w r + F) m) :
    ∃ m', setParent p v m = .ok () m' ∧ Holds g (Nd p w { r with parent := v } + F) m' := by
  unfold setParent; rw [bind_ok (rdNode_ok H)]; exact wrNode_ok _ H
theorem setPidx_ok {v : Nat} (hv : v < 65536) (H : Holds g (Nd p w r + F) m) :
    ∃ m', setPidx p v m = .ok () m' ∧ Holds g (Nd p w { r with pidx := v } + F) m' := by
  unfold setPidx; rw [bind_ok (rdNode_ok H), Nat.mod_eq_of_lt hv]; exact wrNode_ok _ H
theorem setSizes_ok {i : Nat} (v : Nat) (hi : i < E.baseMax) (H : Holds g (Nd p w r + F) m) :
    ∃ m', setSizes E p i v m = .ok () m' ∧
      Holds g (Nd p w { r with sizes := upd r.sizes i v } + F) m' := by
  unfold setSizes; rw [bind_ok (rdNode_ok H)]; simp only [hi, if_true]; exact wrNode_ok _ H
theorem setPtrs_ok {i : Nat} (v : Nat) (hi : i < E.baseMax) (H : Holds g (Nd p w r + F) m) :
    ∃ m', setPtrs E p i v m = .ok () m' ∧
      Holds g (Nd p w { r with ptrs := upd r.ptrs i v } + F) m' := by
  unfold setPtrs; rw [bind_ok (rdNode_ok H)]; simp only [hi, if_true]; exact wrNode_ok _ H
theorem destroy_node_ok {i : Nat} (hi : i < E.baseMax) (H : Holds g (Nd p w r + F) m) :
    destroy_node E p i m = .ok () m := by
  unfold destroy_node; rw [bind_ok (ptrsAt_ok hi H)]; rfl

end

/-! ### the `seq` object -/

section
variable {o : Nat} {x : SeqObj}

theorem rdObj_ok (H : Holds g (Ob o x + F) m) : rdObj o m = .ok x m := by
  obtain ⟨c, hc, rfl⟩ := Holds.get H
  simp [rdObj, hc]
theorem wrObj_ok (x' : SeqObj) (H : Holds g (Ob o x + F) m) :
    ∃ m', wrObj o x' m = .ok () m' ∧ Holds g (Ob o x' + F) m' := by
  obtain ⟨c, hc, rfl⟩ := Holds.get H
  exact ⟨_, by simp [wrObj, hc], H.write rfl⟩
theorem getRoot_ok (H : Holds g (Ob o x + F) m) : getRoot o m = .ok x.root m := by
  unfold getRoot; rw [bind_ok (rdObj_ok H)]; rfl
theorem getSize_ok (H : Holds g (Ob o x + F) m) : getSize o m = .ok x.sz m := by
  unfold getSize; rw [bind_ok (rdObj_ok H)]; rfl
theorem getHeight_ok (H : Holds g (Ob o x + F) m) : getHeight o m = .ok x.ht m := by
  unfold getHeight; rw [bind_ok (rdObj_ok H)]; rfl
theorem setRoot_ok (v : Nat) (H : Holds g (Ob o x + F) m) :
    ∃ m', setRoot o v m = .ok () m' ∧ Holds g (Ob o { x with root := v } + F) m' := by
  unfold setRoot; rw [bind_ok (rdObj_ok H)]; exact wrObj_ok _ H
theorem setSize_ok (v : Nat) (H : Holds g (Ob o x + F) m) :
    ∃ m', setSize o v m = .ok () m' ∧ Holds g (Ob o { x with sz := v } + F) m' := by
  unfold setSize; rw [bind_ok (rdObj_ok H)]; exact wrObj_ok _ H
theorem setHeight_ok (v : Nat) (H : Holds g (Ob o x + F) m) :
    ∃ m', setHeight o v m = .ok () m' ∧ Holds g (Ob o { x with ht := v } + F) m' := by
  unfold setHeight; rw [bind_ok (rdObj_ok H)]; exact wrObj_ok _ H

end

/-! ### allocation and deallocation of blocks -/

theorem allocCell_cases (c : Cell α) (H : Holds g F m) :
    (∃ a m', allocCell E c m = .ok a m' ∧
      Holds { g with reqs := g.reqs + 1 } (pt (.heap a) (· = c) + F) m') ∨
    (∃ m', allocCell E c m = .throw .alloc m' ∧ m'.cell = m.cell ∧
      Holds ⟨g.reqs + 1, g.fails + 1⟩ F m') := by
  by_cases h : E.oracle m.log.reqs = 0 ∨ (m.cell (.heap (E.oracle m.log.reqs))).isSome
  · refine .inr ⟨{ m with log := ⟨m.log.reqs + 1, m.log.fails + 1⟩ }, by
      simp only [allocCell, h, if_true], rfl, ?_⟩
    rw [← H.log]; exact H.relog
  · refine .inl ⟨E.oracle m.log.reqs, _, by simp only [allocCell, h, if_false]; rfl, ?_⟩
    rw [not_or] at h
    have h2 : m.cell (.heap (E.oracle m.log.reqs)) = none := by simpa using h.2
    rw [← H.log]
    exact H.alloc h2 (by simpa using h.1) rfl

theorem deallocate_node_ok {o p w : Nat} {x : SeqObj} {r : Node} (hw : w = E.acls x.nalloc)
    (H : Holds g (Nd p w r + (Ob o x + F)) m) :
    ∃ m', deallocate_node E o p m = .ok () m' ∧ Holds g (Ob o x + F) m' := by
  have e := rdObj_ok (H.eqv (by frame : _ = Ob o x + (_ + _)))
  obtain ⟨c, hc, rfl⟩ := Holds.get H
  unfold deallocate_node
  rw [bind_ok e]
  exact ⟨_, by simp [freeNode, hc, hw], H.free⟩

/-! ### node arrays -/

/-- write `ks` into the arrays of `r` from index `i` on -/
def putArr (r : Node) (i : Nat) (ks : List (Nat × Nat)) : Node :=
  { r with
    sizes := fun j => if i ≤ j ∧ j < i + ks.length then (ks.getD (j - i) (0, 0)).1 else r.sizes j
    ptrs := fun j => if i ≤ j ∧ j < i + ks.length then (ks.getD (j - i) (0, 0)).2 else r.ptrs j }

@[simp] theorem putArr_parent (r : Node) (i : Nat) (ks : List (Nat × Nat)) :
    (putArr r i ks).parent = r.parent := rfl
@[simp] theorem putArr_pidx (r : Node) (i : Nat) (ks : List (Nat × Nat)) :
    (putArr r i ks).pidx = r.pidx := rfl
@[simp] theorem putArr_len (r : Node) (i : Nat) (ks : List (Nat × Nat)) :
    (putArr r i ks).len = r.len := rfl

theorem putArr_sizes (r : Node) (i : Nat) (ks : List (Nat × Nat)) (j : Nat) :
    (putArr r i ks).sizes j =
      if i ≤ j ∧ j < i + ks.length then (ks.getD (j - i) (0, 0)).1 else r.sizes j := rfl
theorem putArr_ptrs (r : Node) (i : Nat) (ks : List (Nat × Nat)) (j : Nat) :
    (putArr r i ks).ptrs j =
      if i ≤ j ∧ j < i + ks.length then (ks.getD (j - i) (0, 0)).2 else r.ptrs j := rfl

theorem Node.ext' {a b : Node} (h1 : a.parent = b.parent) (h2 : a.pidx = b.pidx) (h3 : a.len = b.len)
    (h4 : ∀ j, a.sizes j = b.sizes j) (h5 : ∀ j, a.ptrs j = b.ptrs j) : a = b := by
  cases a; cases b
  simp only at *
  subst h1 h2 h3
  rw [funext h4, funext h5]

@[simp] theorem putArr_nil (r : Node) (i : Nat) : putArr r i [] = r := by
  apply Node.ext' <;> intros <;> simp [putArr_sizes, putArr_ptrs]

theorem putArr_one (r : Node) (i s a : Nat) :
    putArr r i [(s, a)] = { r with sizes := upd r.sizes i s, ptrs := upd r.ptrs i a } := by
  apply Node.ext' <;> intros <;> simp only [putArr_parent, putArr_pidx, putArr_len, putArr_sizes,
    putArr_ptrs, upd, List.length_cons, List.length_nil]
  all_goals
    rename_i j
    by_cases h : j = i
    · subst h; simp
    · rw [if_neg (by omega), if_neg h]

theorem putArr_cons (r : Node) (i : Nat) (k : Nat × Nat) (ks : List (Nat × Nat)) :
    putArr r i (k :: ks) = putArr (putArr r i [k]) (i + 1) ks := by
  apply Node.ext' <;> intros <;> simp only [putArr_parent, putArr_pidx, putArr_len, putArr_sizes,
    putArr_ptrs, List.length_cons, List.length_nil]
  all_goals
    rename_i j
    by_cases h1 : i = j
    · subst h1; simp
    · by_cases h2 : i < j ∧ j < i + (ks.length + 1)
      · rw [if_pos (by omega), if_pos (by omega)]
        rw [show j - i = (j - (i + 1)) + 1 by omega]; simp
      · rw [if_neg (by omega), if_neg (by omega), if_neg (by omega)]

theorem putArr_snoc (r : Node) (i : Nat) (k : Nat × Nat) (ks : List (Nat × Nat)) :
    putArr r i (ks ++ [k]) = putArr (putArr r (i + ks.length) [k]) i ks := by
  apply Node.ext' <;> intros <;> simp only [putArr_parent, putArr_pidx, putArr_len, putArr_sizes,
    putArr_ptrs, List.length_append, List.length_cons, List.length_nil]
  all_goals
    rename_i j
    by_cases h2 : i ≤ j ∧ j < i + ks.length
    · rw [if_pos (by omega), if_pos (by omega)]
      rw [List.getD_eq_getElem?_getD, List.getD_eq_getElem?_getD, List.getElem?_append_left (by omega)]
    · rw [if_neg h2]
      by_cases h3 : j = i + ks.length
      · subst h3; simp
      · rw [if_neg (by omega), if_neg (by omega)]

theorem Arr.nil (r : Node) (i : Nat) : Arr r i [] := by intro j h; simp at h

theorem Arr_cons {r : Node} {i : Nat} {k : Nat × Nat} {ks : List (Nat × Nat)} :
    Arr r i (k :: ks) ↔ (r.sizes i = k.1 ∧ r.ptrs i = k.2) ∧ Arr r (i + 1) ks := by
  constructor
  · intro h
    refine ⟨h 0 (by simp), ?_⟩
    intro j hj
    have := h (j + 1) (by simpa using hj)
    simpa [Nat.add_assoc, Nat.add_comm 1 j] using this
  · rintro ⟨h1, h2⟩ j hj
    cases j with
    | zero => simpa using h1
    | succ j =>
      have := h2 j (by simpa using hj)
      simpa [Nat.add_assoc, Nat.add_comm 1 j] using this

theorem Arr_append {r : Node} {i : Nat} {a b : List (Nat × Nat)} :
    Arr r i (a ++ b) ↔ Arr r i a ∧ Arr r (i + a.length) b := by
  induction a generalizing i with
  | nil => simp [Arr.nil]
  | cons x a ih =>
    simp only [List.cons_append, Arr_cons, ih, List.length_cons, and_assoc]
    rw [show i + 1 + a.length = i + (a.length + 1) by omega]

theorem Arr_congr {r r' : Node} {i : Nat} {ks : List (Nat × Nat)}
    (h : ∀ j, i ≤ j → j < i + ks.length → r'.sizes j = r.sizes j ∧ r'.ptrs j = r.ptrs j)
    (hr : Arr r i ks) : Arr r' i ks := by
  intro j hj
  obtain ⟨h1, h2⟩ := h (i + j) (by omega) (by omega)
  obtain ⟨h3, h4⟩ := hr j hj
  exact ⟨h1.trans h3, h2.trans h4⟩

theorem Arr_put_same (r : Node) (i : Nat) (ks : List (Nat × Nat)) : Arr (putArr r i ks) i ks := by
  intro j hj
  simp only [putArr_sizes, putArr_ptrs]
  rw [if_pos (by omega), if_pos (by omega), Nat.add_sub_cancel_left, List.getD_eq_getElem?_getD,
    List.getElem?_eq_getElem hj]
  exact ⟨rfl, rfl⟩

theorem Arr_put_disj {r : Node} {i j : Nat} {ks ls : List (Nat × Nat)}
    (h : j + ls.length ≤ i ∨ i + ks.length ≤ j) : Arr (putArr r i ks) j ls ↔ Arr r j ls := by
  constructor <;> apply Arr_congr <;> intro l h1 h2 <;> simp only [putArr_sizes, putArr_ptrs] <;>
    constructor <;> rw [if_neg (by omega)]

@[simp] theorem Arr_len {r : Node} {v i : Nat} {ks : List (Nat × Nat)} :
    Arr { r with len := v } i ks ↔ Arr r i ks := Iff.rfl
@[simp] theorem Arr_parent {r : Node} {v i : Nat} {ks : List (Nat × Nat)} :
    Arr { r with parent := v } i ks ↔ Arr r i ks := Iff.rfl
@[simp] theorem Arr_pidx {r : Node} {v i : Nat} {ks : List (Nat × Nat)} :
    Arr { r with pidx := v } i ks ↔ Arr r i ks := Iff.rfl

theorem Arr_setSize {r : Node} {v i : Nat} {ks : List (Nat × Nat)} {j : Nat}
    (h : j < i ∨ i + ks.length ≤ j) :
    Arr { r with sizes := upd r.sizes j v } i ks ↔ Arr r i ks := by
  constructor <;> apply Arr_congr <;> intro l h1 h2 <;> simp only [upd] <;> rw [if_neg (by omega)] <;>
    simp

theorem Arr_one {r : Node} {i : Nat} {k : Nat × Nat} :
    Arr r i [k] ↔ r.sizes i = k.1 ∧ r.ptrs i = k.2 := by
  rw [Arr_cons]; simp [Arr.nil]

/-! ### entries: assign, move, ranges, shifts -/

/-- `assign_leaf` / `assign_branch`, by the height of the children -/
def asg (E : Env α) (k p i csz child : Nat) : M α Nat :=
  if k = 0 then assign_leaf E p i csz child else assign_branch E p i csz child

theorem asg_ok {k p w wt q j i csz : Nat} {r : Node} {t : Tree α k} (hi : i < E.baseMax)
    (hb : E.baseMax < 65536) (H : Holds g (Nd p w r + (lay E wt q j t + F)) m) :
    ∃ m', asg E k p i csz t.addr m = .ok csz m' ∧
      Holds g (Nd p w (putArr r i [(csz, t.addr)]) + (lay E wt p i t + F)) m' := by
  cases k with
  | zero =>
    unfold asg assign_leaf
    rw [if_pos rfl]
    obtain ⟨m1, e1, H1⟩ := setSizes_ok csz hi H
    rw [bind_ok e1]
    obtain ⟨m2, e2, H2⟩ := setPtrs_ok t.addr hi H1
    rw [bind_ok e2]
    refine ⟨m2, rfl, ?_⟩
    rw [putArr_one, lay_hdr0 t p i q j]
    exact H2
  | succ k =>
    unfold asg assign_branch
    rw [if_neg (by simp)]
    obtain ⟨m1, e1, H1⟩ := setSizes_ok csz hi H
    rw [bind_ok e1]
    rw [lay_succ, add_assoc] at H1
    obtain ⟨rt, h1, h2, h3, h4, H1⟩ := (H1.eqv (by frame)).toNd (p := t.addr)
    obtain ⟨m2, e2, H2⟩ := setParent_ok p H1
    rw [bind_ok e2]
    obtain ⟨m3, e3, H3⟩ := setPidx_ok (v := i) (by omega) H2
    rw [bind_ok e3]
    have H3 := H3.ofNd (q := p) (i := i) (ks := keys t.kids) rfl rfl h3 h4
    obtain ⟨m4, e4, H4⟩ := setPtrs_ok (p := p) t.addr hi (H3.eqv (by frame))
    rw [bind_ok e4]
    refine ⟨m4, rfl, ?_⟩
    rw [putArr_one, lay_succ]
    exact H4.eqv (by frame)

theorem assign_leaf_eq {p i csz child : Nat} : assign_leaf E p i csz child = asg E 0 p i csz child := rfl
theorem construct_leaf_eq {p i csz child : Nat} : construct_leaf E p i csz child = asg E 0 p i csz child := rfl
theorem assign_branch_eq (k : Nat) {p i csz child : Nat} :
    assign_branch E p i csz child = asg E (k + 1) p i csz child := rfl
theorem construct_branch_eq (k : Nat) {p i csz child : Nat} :
    construct_branch E p i csz child = asg E (k + 1) p i csz child := rfl

/-- `move_assign_leaf` / `move_assign_branch` -/
def mas (E : Env α) (k src si dst di : Nat) : M α Nat := do
  let csz ← sizesAt E src si
  let child ← ptrsAt E src si
  asg E k dst di csz child

theorem move_assign_leaf_eq {src si dst di : Nat} :
    move_assign_leaf E src si dst di = mas E 0 src si dst di := rfl
theorem move_assign_branch_eq (k : Nat) {src si dst di : Nat} :
    move_assign_branch E src si dst di = mas E (k + 1) src si dst di := rfl
theorem move_leaf_eq {src si dst di : Nat} :
    move_leaf E src si dst di = mas E 0 src si dst di := by
  simp [move_leaf, mas, asg, construct_leaf, assign_leaf]
theorem move_branch_eq (k : Nat) {src si dst di : Nat} :
    move_branch E src si dst di = mas E (k + 1) src si dst di := by
  simp [move_branch, mas, asg, construct_branch, assign_branch]

section
variable {k p w wt q j : Nat} {r : Node} {t : Tree α k}

theorem mas_same {si di : Nat} (hs : si < E.baseMax) (hd : di < E.baseMax) (hb : E.baseMax < 65536)
    (ha : Arr r si [key t]) (H : Holds g (Nd p w r + (lay E wt q j t + F)) m) :
    ∃ m', mas E k p si p di m = .ok t.size m' ∧
      Holds g (Nd p w (putArr r di [key t]) + (lay E wt p di t + F)) m' := by
  rw [Arr_one] at ha
  unfold mas
  rw [bind_ok (sizesAt_ok hs H), bind_ok (ptrsAt_ok hs H), ha.1, ha.2]
  exact asg_ok hd hb H

theorem mas_diff {src ws : Nat} {rs : Node} {si di : Nat} (hs : si < E.baseMax) (hd : di < E.baseMax)
    (hb : E.baseMax < 65536) (ha : Arr rs si [key t])
    (H : Holds g (Nd p w r + (Nd src ws rs + (lay E wt q j t + F))) m) :
    ∃ m', mas E k src si p di m = .ok t.size m' ∧
      Holds g (Nd p w (putArr r di [key t]) + (Nd src ws rs + (lay E wt p di t + F))) m' := by
  rw [Arr_one] at ha
  have H1 := H.eqv (by frame : _ = Nd src ws rs + _)
  unfold mas
  rw [bind_ok (sizesAt_ok hs H1), bind_ok (ptrsAt_ok hs H1), ha.1, ha.2]
  obtain ⟨m', e, H'⟩ := asg_ok hd hb (H.eqv (by frame : _ = Nd p w r + (lay E wt q j t + _)))
  exact ⟨m', e, H'.eqv (by frame)⟩

end

/-- `construct_range_leaf` / `construct_range_branch` -/
def crange (E : Env α) (k src si dst di count : Nat) : M α Nat :=
  range_loop (fun f t => mas E k src f dst t) si (si + count) di 0

theorem construct_range_leaf_eq {src si dst di n : Nat} :
    construct_range_leaf E src si dst di n = crange E 0 src si dst di n := rfl
theorem construct_range_branch_eq (k : Nat) {src si dst di n : Nat} :
    construct_range_branch E src si dst di n = crange E (k + 1) src si dst di n := rfl

theorem range_mas_ok {k p w wt q : Nat} {rs : Node} {src ws : Nat} (hb : E.baseMax < 65536)
    (l : List (Tree α k)) : ∀ {m : Mem α} {F : Asrt α} {r : Node} {si di j acc : Nat},
    si + l.length ≤ E.baseMax → di + l.length ≤ E.baseMax → Arr rs si (keys l) →
    Holds g (Nd p w r + (Nd src ws rs + (lays E wt q j l + F))) m →
    ∃ m', range_loop (fun f t => mas E k src f p t) si (si + l.length) di acc m =
        .ok (acc + (elemsL l).length) m' ∧
      Holds g (Nd p w (putArr r di (keys l)) + (Nd src ws rs + (lays E wt p di l + F))) m' := by
  induction l with
  | nil =>
    intro m F r si di j acc _ _ _ H
    rw [range_loop]
    simp only [List.length_nil, Nat.add_zero, ne_eq, not_true_eq_false, if_false]
    exact ⟨m, rfl, by simpa using H⟩
  | cons t l ih =>
    intro m F r si di j acc hs hd ha H
    simp only [List.length_cons] at hs hd
    rw [range_loop, if_pos (by simp)]
    simp only [keys_cons, Arr_cons] at ha
    rw [lays_cons, add_assoc] at H
    obtain ⟨m1, e1, H1⟩ := mas_diff (si := si) (di := di) (by omega) (by omega) hb (Arr_one.2 ha.1) H
    rw [bind_ok e1]
    obtain ⟨m2, e2, H2⟩ := ih (acc := acc + t.size) (di := di + 1) (by omega) (by omega) ha.2
      (H1.eqv (by frame : _ = Nd p w _ + (Nd src ws rs + (lays E wt q (j + 1) l + _))))
    refine ⟨m2, ?_, ?_⟩
    · rw [show si + (t :: l).length = si + 1 + l.length by simp; omega, e2]
      simp [Tree.size]; omega
    · rw [keys_cons, putArr_cons, lays_cons]
      exact H2.eqv (by frame)

theorem crange_ok {k p w wt q : Nat} {rs r : Node} {src ws si di j n : Nat} (hb : E.baseMax < 65536)
    (l : List (Tree α k)) (hn : n = l.length)
    (hs : si + l.length ≤ E.baseMax) (hd : di + l.length ≤ E.baseMax) (ha : Arr rs si (keys l))
    (H : Holds g (Nd p w r + (Nd src ws rs + (lays E wt q j l + F))) m) :
    ∃ m', crange E k src si p di n m = .ok (elemsL l).length m' ∧
      Holds g (Nd p w (putArr r di (keys l)) + (Nd src ws rs + (lays E wt p di l + F))) m' := by
  subst hn
  have := range_mas_ok (acc := 0) hb l hs hd ha H
  rwa [Nat.zero_add] at this

/-- `assign_forward_leaf` / `assign_forward_branch` -/
def afwd (E : Env α) (k p length index distance : Nat) : M α Unit :=
  forward_loop (fun f t => do let _ ← mas E k p f p t) index length (length + distance)

theorem assign_forward_leaf_eq {p a b c : Nat} :
    assign_forward_leaf E p a b c = afwd E 0 p a b c := rfl
theorem assign_forward_branch_eq (k : Nat) {p a b c : Nat} :
    assign_forward_branch E p a b c = afwd E (k + 1) p a b c := rfl

theorem forward_mas_ok {k p w wt q : Nat} (hb : E.baseMax < 65536)
    (l : List (Tree α k)) : ∀ {m : Mem α} {F : Asrt α} {r : Node} {i j : Nat},
    i + l.length + 1 ≤ E.baseMax → Arr r i (keys l) →
    Holds g (Nd p w r + (lays E wt q j l + F)) m →
    ∃ m', forward_loop (fun f t => do let _ ← mas E k p f p t) i (i + l.length) (i + l.length + 1) m =
        .ok () m' ∧
      Holds g (Nd p w (putArr r (i + 1) (keys l)) + (lays E wt p (i + 1) l + F)) m' := by
  induction l using List.reverseRecOn with
  | nil =>
    intro m F r i j _ _ H
    rw [forward_loop]
    simp only [List.length_nil, Nat.add_zero, ne_eq, not_true_eq_false, if_false]
    exact ⟨m, rfl, by simpa using H⟩
  | append_singleton l t ih =>
    intro m F r i j hs ha H
    simp only [List.length_append, List.length_cons, List.length_nil] at hs ⊢
    rw [forward_loop, if_pos (by omega)]
    rw [bind_ok (usub_ok (by omega) m), bind_ok (usub_ok (by omega) m)]
    rw [show i + (l.length + (0 + 1)) - 1 = i + l.length by omega,
      show i + (l.length + (0 + 1)) + 1 - 1 = i + l.length + 1 by omega]
    simp only [keys_append, keys_cons, keys_nil, Arr_append, keys_length] at ha
    simp only [lays_append, lays_cons, lays_nil, add_zero, add_assoc] at H
    obtain ⟨m1, e1, H1⟩ := mas_same (si := i + l.length) (di := i + l.length + 1) (by omega) (by omega)
      hb ha.2 (H.eqv (by frame : _ = Nd p w r + (lay E wt q _ t + _)))
    simp only [bind_assoc, pure_bind]
    rw [bind_ok e1]
    obtain ⟨m2, e2, H2⟩ := ih (i := i) (by omega) ((Arr_put_disj (i := i + l.length + 1) (ks := [key t]) (by simp)).2 ha.1)
      (H1.eqv (by frame : _ = Nd p w _ + (lays E wt q j l + _)))
    refine ⟨m2, e2, ?_⟩
    simp only [keys_append, keys_cons, keys_nil, putArr_snoc, keys_length, lays_append,
      lays_cons, lays_nil]
    rw [show i + 1 + l.length = i + l.length + 1 by omega]
    exact H2.eqv (by frame)

theorem afwd_ok {k p w wt q : Nat} {r : Node} {i j n : Nat} (hb : E.baseMax < 65536)
    (l : List (Tree α k)) (hn : n = i + l.length)
    (hs : i + l.length + 1 ≤ E.baseMax) (ha : Arr r i (keys l))
    (H : Holds g (Nd p w r + (lays E wt q j l + F)) m) :
    ∃ m', afwd E k p n i 1 m = .ok () m' ∧
      Holds g (Nd p w (putArr r (i + 1) (keys l)) + (lays E wt p (i + 1) l + F)) m' := by
  subst hn
  exact forward_mas_ok hb l hs ha H

/-- `assign_backward_leaf` / `assign_backward_branch` -/
def abwd (E : Env α) (k p length index distance : Nat) : M α Unit :=
  backward_loop (fun f t => do let _ ← mas E k p f p t) (index + distance) index length

theorem assign_backward_leaf_eq {p a b c : Nat} :
    assign_backward_leaf E p a b c = abwd E 0 p a b c := rfl
theorem assign_backward_branch_eq (k : Nat) {p a b c : Nat} :
    assign_backward_branch E p a b c = abwd E (k + 1) p a b c := rfl

theorem backward_mas_ok {k p w wt q : Nat} (hb : E.baseMax < 65536)
    (l : List (Tree α k)) : ∀ {m : Mem α} {F : Asrt α} {r : Node} {i j : Nat},
    i + l.length + 1 ≤ E.baseMax → Arr r (i + 1) (keys l) →
    Holds g (Nd p w r + (lays E wt q j l + F)) m →
    ∃ m', backward_loop (fun f t => do let _ ← mas E k p f p t) (i + 1) i (i + l.length) m =
        .ok () m' ∧
      Holds g (Nd p w (putArr r i (keys l)) + (lays E wt p i l + F)) m' := by
  induction l with
  | nil =>
    intro m F r i j _ _ H
    rw [backward_loop]
    simp only [List.length_nil, Nat.add_zero, ne_eq, not_true_eq_false, if_false]
    exact ⟨m, rfl, by simpa using H⟩
  | cons t l ih =>
    intro m F r i j hs ha H
    simp only [List.length_cons] at hs ⊢
    rw [backward_loop, if_pos (by omega)]
    simp only [keys_cons, Arr_cons] at ha
    simp only [lays_cons, add_assoc] at H
    obtain ⟨m1, e1, H1⟩ := mas_same (si := i + 1) (di := i) (by omega) (by omega)
      hb (Arr_one.2 ha.1) H
    simp only [bind_assoc, pure_bind]
    rw [bind_ok e1]
    obtain ⟨m2, e2, H2⟩ := ih (i := i + 1) (by omega) ((Arr_put_disj (i := i) (ks := [key t]) (by simp)).2 ha.2)
      (H1.eqv (by frame : _ = Nd p w _ + (lays E wt q _ l + _)))
    refine ⟨m2, ?_, ?_⟩
    · rw [show i + (l.length + 1) = i + 1 + l.length by omega]; exact e2
    · rw [keys_cons, putArr_cons, lays_cons]
      exact H2.eqv (by frame)

theorem abwd_ok {k p w wt q : Nat} {r : Node} {i j n : Nat} (hb : E.baseMax < 65536)
    (l : List (Tree α k)) (hn : n = i + l.length)
    (hs : i + l.length + 1 ≤ E.baseMax) (ha : Arr r (i + 1) (keys l))
    (H : Holds g (Nd p w r + (lays E wt q j l + F)) m) :
    ∃ m', abwd E k p n i 1 m = .ok () m' ∧
      Holds g (Nd p w (putArr r i (keys l)) + (lays E wt p i l + F)) m' := by
  subst hn
  exact backward_mas_ok hb l hs ha H

end SegTree
