/-
  Single insertion: `insert_single_{branch,leaf,segment,iterator}`.
-/
import Verif.Proof.Alloc
set_option autoImplicit false

namespace SegTree

variable {α : Type} {E : Env α} {g : Log} {F : Asrt α} {m : Mem α}

theorem ite_bind {β γ : Type} {c : Prop} [Decidable c] {a b : M α β} {f : β → M α γ} :
    ((if c then a else b) >>= f) = if c then a >>= f else b >>= f := by
  split <;> rfl

/-! ### pieces shared by leaves and branches -/

/-- the part of the insertion that fills a new root -/
def insTop (E : Env α) (k o base alloc child csz : Nat) : M α Unit := do
  setParent alloc 0
  setPidx alloc 0
  setLen alloc 2
  let sz ← getSize o
  let d ← usub sz csz
  let _ ← asg E k alloc 0 (d + 1) base
  let _ ← asg E k alloc 1 csz child
  setRoot o alloc

/-- insertion of an entry into a node with room -/
def insRoom (E : Env α) (k p length index child csz : Nat) : M α Unit :=
  if index ≠ length then do
    let lm ← usub length 1
    let _ ← mas E k p lm p length
    afwd E k p lm index 1
    let _ ← asg E k p index csz child
  else do
    let _ ← asg E k p index csz child

/-- insertion of an entry into a full node, distributing over `p` and `alloc` -/
def insSplit (E : Env α) (k p alloc length index child csz : Nat) : M α Nat :=
  if index < (E.baseMax + 1) / 2 then do
    let s1 ← mas E k p ((E.baseMax + 1) / 2 - 1) alloc 0
    let s2 ← crange E k p ((E.baseMax + 1) / 2 - 1 + 1) alloc 1
      (E.baseMax + 1 - (E.baseMax + 1) / 2 - 1)
    afwd E k p ((E.baseMax + 1) / 2 - 1) index 1
    let _ ← asg E k p index csz child
    pure (s1 + s2)
  else do
    let move_length ← usub length index
    let s1 ← crange E k p ((E.baseMax + 1) / 2) alloc 0 (index - (E.baseMax + 1) / 2)
    let s2 ← crange E k p index alloc (index - (E.baseMax + 1) / 2 + 1) move_length
    let s3 ← asg E k alloc (index - (E.baseMax + 1) / 2) csz child
    pure (s1 + s2 + s3)

theorem insert_single_branch_eq (k : Nat) {o base p index alloc child csz : Nat} :
    insert_single_branch E o base p index alloc child csz =
    (if p = 0 then do
      insTop E (k + 1) o base alloc child csz
      let h ← getHeight o
      setHeight o (h + 1)
      let sz ← getSize o
      setSize o (E.wadd sz 1)
    else do
      let length ← len p
      let im ← usub index 1
      let s ← sizesAt E p im
      let d ← usub csz 1
      let s ← usub s d
      setSizes E p im s
      if length ≠ E.baseMax then do
        insRoom E (k + 1) p length index child csz
        setLen p (length + 1)
        let q ← parent p
        let i ← pidx p
        increment_sizes E o q i
      else do
        let next_alloc ← parent alloc
        let alloc_size ← insSplit E (k + 1) p alloc length index child csz
        setLen p ((E.baseMax + 1) / 2)
        setLen alloc (E.baseMax + 1 - (E.baseMax + 1) / 2)
        let i ← pidx p
        let q ← parent p
        insert_single_branch E o p q (i + 1) next_alloc alloc alloc_size) := by
  conv => lhs; rw [insert_single_branch]
  unfold insTop insRoom insSplit
  simp only [ite_bind, bind_assoc, pure_bind, move_branch_eq k, construct_branch_eq k,
    assign_branch_eq k, assign_forward_branch_eq k, construct_range_branch_eq k]

theorem insert_single_leaf_eq {o base p index alloc child csz : Nat} {entry : Entry} :
    insert_single_leaf E o entry base p index alloc child csz =
    (if p = 0 then do
      insTop E 0 o base alloc child csz
      setHeight o 2
      let sz ← getSize o
      setSize o (E.wadd sz 1)
      return { entry with leaf := { entry.leaf with ptr := alloc } }
    else do
      let length ← len p
      let im ← usub index 1
      let s ← sizesAt E p im
      let d ← usub csz 1
      let s ← usub s d
      setSizes E p im s
      if length ≠ E.baseMax then do
        insRoom E 0 p length index child csz
        setLen p (length + 1)
        let q ← parent p
        let i ← pidx p
        increment_sizes E o q i
        return entry
      else do
        let next_alloc ← parent alloc
        let alloc_size ← insSplit E 0 p alloc length index child csz
        setLen p ((E.baseMax + 1) / 2)
        setLen alloc (E.baseMax + 1 - (E.baseMax + 1) / 2)
        let q ← parent p
        let i ← pidx p
        insert_single_branch E o p q (i + 1) next_alloc alloc alloc_size
        return (if entry.leaf.idx ≥ (E.baseMax + 1) / 2 then
          { entry with leaf := { ptr := alloc, idx := entry.leaf.idx - (E.baseMax + 1) / 2 } }
        else entry)) := by
  unfold insert_single_leaf insTop insRoom insSplit
  simp only [ite_bind, bind_assoc, pure_bind, move_leaf_eq, construct_leaf_eq,
    assign_leaf_eq, assign_forward_leaf_eq, construct_range_leaf_eq]

/-! ### specifications of the pieces -/

theorem snoc_of_ne {β : Type} {l : List β} (h : l ≠ []) : ∃ a x, l = a ++ [x] :=
  ⟨l.dropLast, l.getLast h, (List.dropLast_append_getLast h).symm⟩

theorem insRoom_ok {k p w wt q j n : Nat} {r : Node} {A B : List (Tree α k)} {u : Tree α k}
    (hb : E.baseMax < 65536) (hn : A.length + B.length + 1 ≤ E.baseMax) (hl : n = A.length + B.length)
    (ha : Arr r 0 (keys (A ++ B)))
    (H : Holds g (Nd p w r + (lays E wt p 0 (A ++ B) + (lay E wt q j u + F))) m) :
    ∃ m' r', insRoom E k p n A.length u.addr u.size m = .ok () m' ∧
      r'.parent = r.parent ∧ r'.pidx = r.pidx ∧ r'.len = r.len ∧ Arr r' 0 (keys (A ++ u :: B)) ∧
      Holds g (Nd p w r' + (lays E wt p 0 (A ++ u :: B) + F)) m' := by
  unfold insRoom
  rcases eq_or_ne B [] with rfl | hB
  · simp at hl hn
    rw [if_neg (by simp [hl])]
    obtain ⟨m1, e1, H1⟩ := asg_ok (E := E) (i := A.length) (csz := u.size) (by omega) hb
      (H.eqv (by frame : _ = Nd p w r + (lay E wt q j u + _)))
    rw [bind_ok e1]
    refine ⟨m1, putArr r A.length [key u], rfl, rfl, rfl, rfl, ?_, ?_⟩
    · simp only [List.append_nil] at ha
      simp only [keys_append, keys_cons, keys_nil, Arr_append, keys_length, Nat.zero_add]
      exact ⟨(Arr_put_disj (by simp)).2 ha, Arr_put_same _ _ _⟩
    · refine H1.eqv ?_
      simp only [lays_append, lays_cons, lays_nil, add_zero, Nat.zero_add, key]
      ac_rfl
  · obtain ⟨B, z, rfl⟩ := snoc_of_ne hB
    simp only [List.length_append, List.length_cons, List.length_nil] at hn hl
    simp only [keys_append, keys_cons, keys_nil, Arr_append, keys_length, Nat.zero_add] at ha
    obtain ⟨ha1, ha2, ha3⟩ := ha
    simp only [lays_append, lays_cons, lays_nil, add_zero, Nat.zero_add, aassoc] at H
    rw [if_pos (by omega), bind_ok (usub_ok (by omega) m)]
    obtain ⟨m1, e1, H1⟩ := mas_same (E := E) (t := z) (si := n - 1) (di := n) (by omega) (by omega) hb
      (by rw [show n - 1 = A.length + B.length by omega]; exact ha3)
      (H.eqv (by frame : _ = Nd p w r + (lay E wt p (A.length + B.length) z + _)))
    rw [bind_ok e1]
    have hd1 : Arr (putArr r n [key z]) 0 (keys A) := (Arr_put_disj (by simp; omega)).2 ha1
    have hd2 : Arr (putArr r n [key z]) A.length (keys B) := (Arr_put_disj (by simp; omega)).2 ha2
    obtain ⟨m2, e2, H2⟩ := afwd_ok (E := E) (n := n - 1) hb B (by omega) (by omega) hd2
      (H1.eqv (by frame : _ = Nd p w _ + (lays E wt p A.length B + _)))
    rw [bind_ok e2]
    obtain ⟨m3, e3, H3⟩ := asg_ok (E := E) (i := A.length) (csz := u.size) (by omega) hb
      (H2.eqv (by frame : _ = Nd p w _ + (lay E wt q j u + _)))
    rw [bind_ok e3]
    refine ⟨m3, putArr (putArr (putArr r n [key z]) (A.length + 1) (keys B)) A.length [key u],
      rfl, rfl, rfl, rfl, ?_, ?_⟩
    · simp only [keys_append, keys_cons, keys_nil, Arr_append, Arr_cons, keys_length, Nat.zero_add]
      refine ⟨?_, ?_, ?_, ?_, Arr.nil _ _⟩
      · refine (Arr_put_disj (by simp)).2 ((Arr_put_disj (by simp)).2 hd1)
      · exact Arr_one.1 (Arr_put_same _ _ _)
      · refine (Arr_put_disj (by simp)).2 (Arr_put_same _ _ _)
      · rw [← Arr_one (k := key z)]
        refine (Arr_put_disj (by simp)).2 ((Arr_put_disj (by simp)).2 ?_)
        rw [show A.length + 1 + B.length = n by omega]
        exact Arr_put_same _ _ _
    · refine H3.eqv ?_
      simp only [lays_append, lays_cons, lays_nil, add_zero, Nat.zero_add, key]
      rw [show A.length + 1 + B.length = n by omega]
      ac_rfl

theorem insSplit_ok {k p w b wb wt q j : Nat} {r rb : Node} {A B : List (Tree α k)} {u : Tree α k}
    (hb : E.baseMax < 65536) (hn : A.length + B.length = E.baseMax)
    (ha : Arr r 0 (keys (A ++ B)))
    (H : Holds g (Nd p w r + (Nd b wb rb + (lays E wt p 0 (A ++ B) + (lay E wt q j u + F)))) m) :
    ∃ X Y m' r' rb', X ++ Y = A ++ u :: B ∧ X.length = (E.baseMax + 1) / 2 ∧
      insSplit E k p b E.baseMax A.length u.addr u.size m = .ok (elemsL Y).length m' ∧
      r'.parent = r.parent ∧ r'.pidx = r.pidx ∧ Arr r' 0 (keys X) ∧ Arr rb' 0 (keys Y) ∧
      Holds g (Nd p w r' + (Nd b wb rb' + (lays E wt p 0 X + (lays E wt b 0 Y + F)))) m' := by
  have hge := E.baseMax_ge
  unfold insSplit
  by_cases hi : A.length < (E.baseMax + 1) / 2
  · rw [if_pos hi]
    obtain ⟨B1, z, B2, rfl, hB1⟩ : ∃ B1 z B2, B = B1 ++ z :: B2 ∧
        A.length + B1.length = (E.baseMax + 1) / 2 - 1 := by
      have hlt : (E.baseMax + 1) / 2 - 1 - A.length < B.length := by omega
      refine ⟨B.take ((E.baseMax + 1) / 2 - 1 - A.length), B[(E.baseMax + 1) / 2 - 1 - A.length],
        B.drop ((E.baseMax + 1) / 2 - 1 - A.length + 1), ?_, ?_⟩
      · rw [List.getElem_cons_drop, List.take_append_drop]
      · rw [List.length_take]; omega
    simp only [List.length_append, List.length_cons] at hn
    simp only [keys_append, keys_cons, Arr_append, Arr_cons, keys_length, Nat.zero_add] at ha
    obtain ⟨ha1, ha2, ha3, ha4⟩ := ha
    simp only [lays_append, lays_cons, Nat.zero_add, aassoc] at H
    rw [← hB1]
    obtain ⟨m1, e1, H1⟩ := mas_diff (E := E) (t := z) (di := 0) (si := A.length + B1.length) (by omega)
      (by omega) hb (Arr_one.2 ha3)
      (H.eqv (by frame : _ = Nd b wb rb + (Nd p w r + (lay E wt p (A.length + B1.length) z + _))))
    rw [bind_ok e1]
    obtain ⟨m2, e2, H2⟩ := crange_ok (E := E) (si := A.length + B1.length + 1) (di := 1) hb B2
      (n := E.baseMax + 1 - (E.baseMax + 1) / 2 - 1) (by omega) (by omega) (by omega) ha4
      (H1.eqv (by frame : _ = Nd b wb _ + (Nd p w r + (lays E wt p (A.length + B1.length + 1) B2 + _))))
    rw [bind_ok e2]
    obtain ⟨m3, e3, H3⟩ := afwd_ok (E := E) (n := A.length + B1.length) hb B1 rfl (by omega) ha2
      (H2.eqv (by frame : _ = Nd p w _ + (lays E wt p A.length B1 + _)))
    rw [bind_ok e3]
    obtain ⟨m4, e4, H4⟩ := asg_ok (E := E) (i := A.length) (csz := u.size) (by omega) hb
      (H3.eqv (by frame : _ = Nd p w _ + (lay E wt q j u + _)))
    rw [bind_ok e4]
    refine ⟨A ++ u :: B1, z :: B2, m4, putArr (putArr r (A.length + 1) (keys B1)) A.length [key u],
      putArr (putArr rb 0 [key z]) 1 (keys B2), by simp, by simp; omega, ?_, rfl, rfl, ?_, ?_, ?_⟩
    · simp [Tree.size]
    rotate_left 2
    · refine H4.eqv ?_
      simp only [lays_append, lays_cons, Nat.zero_add, key]
      ac_rfl
    · simp only [keys_append, keys_cons, Arr_append, Arr_cons, keys_length, Nat.zero_add]
      refine ⟨?_, ?_, ?_⟩
      · refine (Arr_put_disj (by simp)).2 ((Arr_put_disj (by simp)).2 ha1)
      · exact Arr_one.1 (Arr_put_same _ _ _)
      · exact (Arr_put_disj (by simp)).2 (Arr_put_same _ _ _)
    · simp only [keys_cons, Arr_cons]
      refine ⟨?_, Arr_put_same _ _ _⟩
      rw [← Arr_one (k := key z)]
      exact (Arr_put_disj (by simp)).2 (Arr_put_same _ _ _)
  · rw [if_neg hi]
    obtain ⟨A1, A2, rfl, hA1⟩ : ∃ A1 A2, A = A1 ++ A2 ∧ A1.length = (E.baseMax + 1) / 2 :=
      ⟨_, _, (List.take_append_drop ((E.baseMax + 1) / 2) A).symm, by rw [List.length_take]; omega⟩
    simp only [List.length_append] at hn hi ⊢
    simp only [keys_append, Arr_append, keys_length, List.length_append, Nat.zero_add] at ha
    obtain ⟨⟨ha1, ha2⟩, ha3⟩ := ha
    simp only [lays_append, List.length_append, Nat.zero_add, aassoc] at H
    rw [bind_ok (usub_ok (by omega) m)]
    rw [show A1.length + A2.length - (E.baseMax + 1) / 2 = A2.length by omega, ← hA1]
    obtain ⟨m1, e1, H1⟩ := crange_ok (E := E) (si := A1.length) (di := 0) hb A2
      (n := A2.length) rfl (by omega) (by omega) ha2
      (H.eqv (by frame : _ = Nd b wb _ + (Nd p w r + (lays E wt p A1.length A2 + _))))
    rw [bind_ok e1]
    obtain ⟨m2, e2, H2⟩ := crange_ok (E := E) (si := A1.length + A2.length) (di := A2.length + 1) hb B
      (n := E.baseMax - (A1.length + A2.length)) (by omega) (by omega) (by omega) ha3
      (H1.eqv (by frame : _ = Nd b wb _ + (Nd p w r + (lays E wt p (A1.length + A2.length) B + _))))
    rw [bind_ok e2]
    obtain ⟨m4, e4, H4⟩ := asg_ok (E := E) (i := A2.length) (csz := u.size) (by omega) hb
      (H2.eqv (by frame : _ = Nd b wb _ + (lay E wt q j u + _)))
    rw [bind_ok e4]
    refine ⟨A1, A2 ++ u :: B, m4, r,
      putArr (putArr (putArr rb 0 (keys A2)) (A2.length + 1) (keys B)) A2.length [key u],
      by simp, by simp, ?_, rfl, rfl, ha1, ?_, ?_⟩
    · simp [Tree.size]; omega
    rotate_left
    · refine H4.eqv ?_
      simp only [lays_append, lays_cons, Nat.zero_add, key]
      ac_rfl
    · simp only [keys_append, keys_cons, Arr_append, Arr_cons, keys_length, Nat.zero_add]
      refine ⟨?_, ?_, ?_⟩
      · exact (Arr_put_disj (by simp)).2 ((Arr_put_disj (by simp)).2 (Arr_put_same _ _ _))
      · exact Arr_one.1 (Arr_put_same _ _ _)
      · exact (Arr_put_disj (by simp)).2 (Arr_put_same _ _ _)

theorem insTop_ok {k o w b wb q j q' j' : Nat} {rb : Node} {t1 u : Tree α k} {x : SeqObj}
    (hb : E.baseMax < 65536) (hs : x.sz + 1 = t1.size + u.size) (hu : 1 ≤ t1.size)
    (H : Holds g (Nd b wb rb + (lay E w q j t1 + (lay E w q' j' u + (Ob o x + F)))) m) :
    ∃ m', insTop E k o t1.addr b u.addr u.size m = .ok () m' ∧
      Holds g (pt (.heap b) (IsNode wb 0 0 (keys [t1, u])) + (lays E w b 0 [t1, u] +
        (Ob o { x with root := b } + F))) m' := by
  have hge := E.baseMax_ge
  unfold insTop
  obtain ⟨m1, e1, H⟩ := setParent_ok 0 H
  rw [bind_ok e1]
  obtain ⟨m1, e1, H⟩ := setPidx_ok (v := 0) (by omega) H
  rw [bind_ok e1]
  obtain ⟨m1, e1, H⟩ := setLen_ok (v := 2) (by omega) H
  rw [bind_ok e1]
  rw [bind_ok (getSize_ok (H.eqv (by frame : _ = Ob o x + _)))]
  rw [bind_ok (usub_ok (by omega) _)]
  rw [show x.sz - u.size + 1 = t1.size by omega]
  obtain ⟨m1, e1, H⟩ := asg_ok (E := E) (i := 0) (csz := t1.size) (by omega) hb H
  rw [bind_ok e1]
  obtain ⟨m1, e1, H⟩ := asg_ok (E := E) (i := 1) (csz := u.size) (by omega) hb
    (H.eqv (by frame : _ = Nd b wb _ + (lay E w q' j' u + _)))
  rw [bind_ok e1]
  obtain ⟨m1, e1, H⟩ := setRoot_ok b (H.eqv (by frame : _ = Ob o x + _))
  refine ⟨m1, e1, ?_⟩
  have H := (H.eqv (by frame : _ = Nd b wb _ + _)).ofNd (q := 0) (i := 0) (ks := keys [t1, u]) rfl rfl rfl (by
    simp only [keys_cons, keys_nil, Arr_cons]
    refine ⟨?_, ?_, Arr.nil _ _⟩
    · rw [← Arr_one (k := key t1)]
      exact (Arr_put_disj (by simp)).2 (Arr_put_same _ _ _)
    · exact Arr_one.1 (Arr_put_same _ _ _))
  refine H.eqv ?_
  simp only [lays_cons, lays_nil]
  abel

/-! ### the cascade -/

/-- what later requests the width `n` of a node may cause: a full node is going to be
split, a node at the minimum to be merged -/
def Env.debt (E : Env α) (n : Nat) : Nat := if n = E.baseMax then 2 else if n ≤ E.baseMin then 1 else 0

theorem Env.debt_le {n : Nat} : E.debt n ≤ 2 := by unfold Env.debt; split <;> (try split) <;> omega

/-- the debts of all nodes of a tree -/
def Tree.pot (E : Env α) : {k : Nat} → Tree α k → Nat
  | 0, _ => 0
  | _ + 1, t => E.debt t.2.length + (t.2.map (Tree.pot E)).sum

def potL (E : Env α) {k : Nat} (l : List (Tree α k)) : Nat := (l.map (Tree.pot E)).sum

@[simp] theorem potL_nil {k : Nat} : potL E ([] : List (Tree α k)) = 0 := rfl
@[simp] theorem potL_cons {k : Nat} (t : Tree α k) (l : List (Tree α k)) : potL E (t :: l) = t.pot E + potL E l := by simp [potL]
@[simp] theorem potL_append {k : Nat} (l r : List (Tree α k)) : potL E (l ++ r) = potL E l + potL E r := by simp [potL]
@[simp] theorem Tree.pot_seg (t : Tree α 0) : t.pot E = 0 := rfl
@[simp] theorem Tree.pot_mkNode {k : Nat} (a : Nat) (ks : List (Tree α k)) : (Tree.mkNode a ks).pot E = E.debt ks.length + potL E ks := rfl

/-- the debts of the nodes outside the hole -/
def Ctx.pot (E : Env α) {h : Nat} : {k : Nat} → Ctx α h k → Nat
  | _, .top => 0
  | _, .step _ l r c => E.debt (l.length + 1 + r.length) + potL E l + potL E r + c.pot E

@[simp] theorem Ctx.pot_top {h : Nat} : (Ctx.top : Ctx α h h).pot E = 0 := by simp [Ctx.pot]
@[simp] theorem Ctx.pot_step {h k a : Nat} {l r : List (Tree α k)} {c : Ctx α h (k + 1)} :
    (Ctx.step a l r c).pot E = E.debt (l.length + 1 + r.length) + potL E l + potL E r + c.pot E := by simp [Ctx.pot]

theorem Ctx.fill_pot {h k : Nat} (c : Ctx α h k) (t : Tree α k) : (c.fill t).pot E = c.pot E + t.pot E := by
  induction c with
  | top => simp [Ctx.fill]
  | step a l r c ih => simp [Ctx.fill, ih]; rw [show l.length + (r.length + 1) = l.length + 1 + r.length by omega]; omega

/-- elements of a segment, children of a node -/
def Tree.width : {k : Nat} → Tree α k → Nat
  | 0, t => t.2.length
  | _ + 1, t => t.2.length

@[simp] theorem Tree.width_mkSeg (a : Nat) (ys : List α) : (Tree.mkSeg a ys).width = ys.length := rfl
@[simp] theorem Tree.width_mkNode {k : Nat} (a : Nat) (ks : List (Tree α k)) : (Tree.mkNode a ks).width = ks.length := rfl

def Env.least (E : Env α) (k : Nat) : Nat := if k = 0 then E.segMin else E.baseMin

/-- nodes have room for an even number of children -/
def Env.Even (E : Env α) : Prop := E.baseMax = 2 * E.baseMin

/-- nodes have room for an odd number of children -/
def Env.Odd (E : Env α) : Prop := E.baseMax + 1 = 2 * E.baseMin

theorem Env.debt_dec {n : Nat} (h : n < E.baseMax) : E.debt n ≤ E.debt (n + 1) + 1 := by
  unfold Env.debt; rw [if_neg (by omega)]; split <;> omega

/-- the hole is the last place in the tree, and all nodes above are full -/
def Ctx.Brim (E : Env α) {h : Nat} : {k : Nat} → Ctx α h k → Prop
  | _, .top => True
  | _, .step _ l r c => r = [] ∧ l.length + 1 = E.baseMax ∧ c.Brim E

@[simp] theorem Ctx.brim_top {h : Nat} : (Ctx.top : Ctx α h h).Brim E ↔ True := by simp [Ctx.Brim]
theorem Ctx.brim_step {h k a : Nat} {l r : List (Tree α k)} {c : Ctx α h (k + 1)} :
    (Ctx.step a l r c).Brim E ↔ r = [] ∧ l.length + 1 = E.baseMax ∧ c.Brim E := by simp [Ctx.Brim]

/-- the hole is the last place in the tree, all nodes above are as narrow as they may be,
and so are their siblings to the left and the one to the left of the hole -/
def Ctx.Slim (E : Env α) {h : Nat} : {k : Nat} → Ctx α h k → Prop
  | _, .top => False
  | k, .step _ l r c => r = [] ∧ l.getLast?.map Tree.width = some (E.least k) ∧
      (c.isTop = true ∧ l.length = 1 ∨ l.length + 1 = E.baseMin ∧ c.Slim E)

theorem Ctx.slim_top {h : Nat} : (Ctx.top : Ctx α h h).Slim E ↔ False := by simp [Ctx.Slim]
theorem Ctx.slim_step {h k a : Nat} {l r : List (Tree α k)} {c : Ctx α h (k + 1)} :
    (Ctx.step a l r c).Slim E ↔ r = [] ∧ l.getLast?.map Tree.width = some (E.least k) ∧
      (c.isTop = true ∧ l.length = 1 ∨ l.length + 1 = E.baseMin ∧ c.Slim E) := by simp [Ctx.Slim]

theorem Ctx.Slim.not_top {h k : Nat} {c : Ctx α h k} (hc : c.Slim E) : c.isTop = false := by
  cases c with
  | top => exact (Ctx.slim_top.1 hc).elim
  | step => rfl

/-- `cl`, `cr` are the paths to `t1` and `u` in the tree obtained by putting `t1`
in the hole of `c` and `u` right after it -/
structure InsCtx (E : Env α) {h h' k : Nat} (c : Ctx α h k) (t1 u : Tree α k) (cl cr : Ctx α h' k) :
    Prop where
  eq : cl.fill t1 = cr.fill u
  root : (cl.fill t1).Root E
  lpre : cl.pre = c.pre
  lpost : cl.post = u.elems ++ c.post
  rpre : cr.pre = c.pre ++ t1.elems
  rpost : cr.post = c.post
  /-- one level more if all nodes above were full -/
  tall : h' = h + (c.need E + k - h)
  /-- the nodes that are split pay for the nodes that are added -/
  cost : E.Even → (cl.fill t1).pot E + c.need E ≤ c.pot E + t1.pot E + u.pot E + 2
  /-- full nodes with an odd number of children are split into nodes at the minimum -/
  slim : E.Odd → c.Brim E → t1.width = E.least k → cr.Slim E

theorem split_ctx {h k b b0 : Nat} {cl cr : Ctx α h (k + 1)} {X Y l r : List (Tree α k)} {t : Tree α k}
    {P Q : List α} (heq : cl.fill (.mkNode b X) = cr.fill (.mkNode b0 Y)) (e : X ++ Y = l ++ t :: r)
    (h1 : cl.pre = P) (h2 : cl.post = elemsL Y ++ Q) (h3 : cr.pre = P ++ elemsL X) (h4 : cr.post = Q) :
    ∃ ct : Ctx α h k, ct.fill t = cl.fill (.mkNode b X) ∧ ct.pre = P ++ elemsL l ∧
      ct.post = elemsL r ++ Q ∧
      ct.hdr = (if l.length < X.length then (b, l.length) else (b0, l.length - X.length)) ∧
      (X.length ≤ l.length → ct = .step b0 (l.drop X.length) r cr) := by
  rcases List.append_eq_append_iff.1 e with ⟨a', rfl, rfl⟩ | ⟨c', rfl, hc⟩
  · exact ⟨.step b0 a' r cr, by rw [heq]; rfl, by simp [Ctx.pre, h3], by simp [Ctx.post, h4],
      by simp [Ctx.hdr], fun _ => by simp⟩
  · cases c' with
    | nil =>
      simp only [List.nil_append] at hc
      subst hc
      exact ⟨.step b0 [] r cr, by rw [heq]; rfl, by simp [Ctx.pre, h3], by simp [Ctx.post, h4],
        by simp [Ctx.hdr], fun _ => by simp⟩
    | cons y c' =>
      simp only [List.cons_append, List.cons.injEq] at hc
      obtain ⟨rfl, rfl⟩ := hc
      exact ⟨.step b l c' cl, rfl, by simp [Ctx.pre, h1], by simp [Ctx.post, h2], by simp [Ctx.hdr],
        fun h => absurd h (by simp)⟩

theorem InsCtx.split {h h' k b b0 : Nat} {c : Ctx α h (k + 1)} {cl cr : Ctx α h' (k + 1)}
    {X Y l r : List (Tree α k)} {t1 u : Tree α k} (H : InsCtx E c (.mkNode b X) (.mkNode b0 Y) cl cr)
    (e : X ++ Y = l ++ t1 :: u :: r) (hfull : l.length + 1 + r.length = E.baseMax)
    (hX : X.length = (E.baseMax + 1) / 2) :
    ∃ cl2 cr2 : Ctx α h' k, InsCtx E (.step b l r c) t1 u cl2 cr2 ∧
      cl2.fill t1 = cl.fill (.mkNode b X) ∧
      cl2.hdr = (if l.length < X.length then (b, l.length) else (b0, l.length - X.length)) ∧
      cr2.hdr = (if l.length + 1 < X.length then (b, l.length + 1) else (b0, l.length + 1 - X.length)) := by
  obtain ⟨cl2, l1, l2, l3, l4, -⟩ := split_ctx (Q := c.post) H.eq e H.lpre
    (by simpa using H.lpost) (by simpa using H.rpre) (by simpa using H.rpost)
  obtain ⟨cr2, r1, r2, r3, r4, r5⟩ := split_ctx (l := l ++ [t1]) (r := r) (t := u) (Q := c.post) H.eq
    (by simpa using e) H.lpre (by simpa using H.lpost) (by simpa using H.rpre) (by simpa using H.rpost)
  refine ⟨cl2, cr2, ⟨by rw [l1, r1], by rw [l1]; exact H.root, ?_, ?_, ?_, ?_, ?_, fun hev => ?_, fun hod hbr hw => ?_⟩, l1, l4, by simpa using r4⟩
  · rw [l2]; rfl
  · rw [l3]; simp [Ctx.post]
  · rw [r2]; simp [Ctx.pre]
  · rw [r3]; rfl
  · have := H.tall
    rw [Ctx.need, if_pos hfull]; omega
  · have h1 := H.cost hev
    have h2 := congrArg (potL E) e
    have h3 := congrArg List.length e
    unfold Env.Even at hev
    have h4 := E.baseMax_ge
    simp only [potL_append, potL_cons, List.length_append, List.length_cons, Tree.pot_mkNode] at h1 h2 h3
    have h5 : E.debt X.length = 1 := by unfold Env.debt; rw [if_neg (by omega), if_pos (by omega)]
    have h6 : E.debt Y.length = 0 := by unfold Env.debt; rw [if_neg (by omega), if_neg (by omega)]
    have h7 : E.debt (l.length + 1 + r.length) = 2 := by unfold Env.debt; rw [if_pos hfull]
    rw [l1, Ctx.need, if_pos hfull, Ctx.pot_step, h7]
    rw [h5, h6] at h1
    omega
  · rw [Ctx.brim_step] at hbr
    obtain ⟨rfl, h1, h2⟩ := hbr
    have h3 := congrArg List.length e
    simp only [List.length_append, List.length_cons, List.length_nil] at h3
    unfold Env.Odd at hod
    have h4 := E.baseMin_ge
    rw [r5 (by simp; omega), Ctx.slim_step]
    refine ⟨rfl, ?_, .inr ⟨by simp; omega, H.slim hod h2 ?_⟩⟩
    · rw [List.drop_append_of_le_length (by omega)]
      simp [hw]
    · simp only [Tree.width_mkNode, Env.least]
      rw [if_neg (by omega)]; omega

theorem InsCtx.top {k b : Nat} {t1 u : Tree α k} (h1 : t1.WF E) (h2 : u.WF E) :
    InsCtx E (.top : Ctx α k k) t1 u (.step b [] [u] (.top : Ctx α (k + 1) (k + 1))) (.step b [t1] [] .top) := by
  have := E.baseMax_ge
  refine ⟨rfl, ?_, by simp [Ctx.pre], by simp [Ctx.post], by simp [Ctx.pre], by simp [Ctx.post], by simp [Ctx.need], fun hev => ?_,
    fun _ _ hw => by rw [Ctx.slim_step]; exact ⟨rfl, by simp [hw], .inl ⟨rfl, rfl⟩⟩⟩
  rotate_left
  · unfold Env.Even at hev
    have : E.debt 2 = 1 := by unfold Env.debt; rw [if_neg (by omega), if_pos (by omega)]
    simp [Ctx.fill, Ctx.need, this]
    omega
  simp only [Ctx.fill, Tree.root_succ, Tree.kids_mkNode]
  refine ⟨by simp, by simp; omega, ?_⟩
  intro c hc
  simp at hc
  rcases hc with rfl | rfl <;> assumption

theorem InsCtx.room {h k b : Nat} {l r : List (Tree α k)} {c : Ctx α h (k + 1)} {t1 u : Tree α k}
    (h1 : t1.WF E) (h2 : u.WF E) (hc : (Ctx.step b l r c).Ok E)
    (hl : l.length + 1 + r.length ≠ E.baseMax) :
    InsCtx E (.step b l r c) t1 u (.step b l (u :: r) c) (.step b (l ++ [t1]) r c) := by
  refine ⟨by simp [Ctx.fill], ?_, by simp [Ctx.pre], by simp [Ctx.post], by simp [Ctx.pre],
    by simp [Ctx.post], by have := c.need_le (E := E); rw [Ctx.need, if_neg hl]; omega, fun hev => ?_,
    fun _ hbr _ => by rw [Ctx.brim_step] at hbr; exact absurd (by rw [hbr.1]; simpa using hbr.2.1) hl⟩
  rotate_left
  · have h1 := E.debt_le (n := l.length + 1 + (u :: r).length)
    rw [Ctx.need, if_neg hl, Ctx.fill_pot]
    simp only [Ctx.pot_step, potL_cons]
    omega
  rw [Ctx.fill_root]
  obtain ⟨a1, a2, a3, a4, a5⟩ := hc
  refine ⟨⟨a1, ?_, ?_, ?_, a5⟩, ?_⟩
  · intro t ht
    rcases List.mem_cons.1 ht with rfl | ht
    · exact h2
    · exact a2 t ht
  · simp; omega
  · simp; omega
  · unfold Ctx.HoleOk; simp [h1]

/-- what is known after `sizes[index-1] -= child_size - 1` -/
theorem insHead_ok {h k o w q j b : Nat} {l r : List (Tree α k)} {c : Ctx α h (k + 1)} {t1 u : Tree α k}
    {β : Type} {f : Nat → M α β} {S : Nat} {x : SeqObj} {as : List Nat}
    (hc : (Ctx.step b l r c).Ok E) (hS : S + 1 = t1.size + u.size)
    (ht : 1 ≤ t1.size) (hu : 1 ≤ u.size)
    (H : Holds g (lay E w b l.length t1 + (lay E w q j u + ((Ctx.step b l r c).lay E w t1.addr S +
      (chain w as + (Ob o x + F))))) m) :
    ∃ m1 nd, (len b >>= fun length => usub (l.length + 1) 1 >>= fun im => sizesAt E b im >>= fun s =>
        usub u.size 1 >>= fun d => usub s d >>= fun s => setSizes E b im s >>= fun _ => f length) m =
        f (l.length + 1 + r.length) m1 ∧
      nd.parent = c.hdr.1 ∧ nd.pidx = c.hdr.2 ∧ nd.len = l.length + 1 + r.length ∧
      Arr nd 0 (keys ((l ++ [t1]) ++ r)) ∧
      Holds g (Nd b w nd + (lays E w b 0 ((l ++ [t1]) ++ r) + (lay E w q j u +
        (c.lay E w b (S + (elemsL l).length + (elemsL r).length) + (chain w as + (Ob o x + F)))))) m1 := by
  have hb := hc.2.2.2.1
  simp only [Ctx.lay, aassoc] at H
  have H := H.eqv (by frame : _ = pt (.heap b) (IsNode w c.hdr.1 c.hdr.2 (keys l ++ (S, t1.addr) :: keys r)) + _)
  rw [bind_ok (nlen H)]
  rw [bind_ok (usub_ok (by omega) _)]
  rw [bind_ok (nsize (a := keys l) (k := (S, t1.addr)) (b := keys r) rfl (by simp) (by simp; omega) H)]
  rw [bind_ok (usub_ok (by omega) _), bind_ok (usub_ok (by simp only; omega) _)]
  obtain ⟨m1, e1, H1⟩ := nsetSize (E := E) (v := S - (u.size - 1)) (j := l.length) (by simp) (by simp; omega) H
  rw [show l.length + 1 - 1 = l.length by omega, bind_ok e1]
  obtain ⟨nd, n1, n2, n3, n4, H1⟩ := H1.toNd
  refine ⟨m1, nd, ?_, n1, n2, ?_, ?_, ?_⟩
  · congr 1; simp; omega
  · simp at n3; omega
  · rw [show S - (u.size - 1) = t1.size by omega] at n4
    simpa [key] using n4
  · refine H1.eqv ?_
    simp only [lays_append, lays_cons, lays_nil, add_zero, Nat.zero_add, List.length_append,
      List.length_cons, List.length_nil]
    ac_rfl

theorem insert_single_branch_ok {h o w : Nat} (hE : E.Good) {k : Nat} (c : Ctx α h k) :
    ∀ {m : Mem α} {F : Asrt α} {x : SeqObj} {S q j : Nat} {t1 u : Tree α k} {as : List Nat}, 1 ≤ k →
    c.Ok E → as.length = c.need E → S + 1 = t1.size + u.size → t1.WF E → u.WF E →
    x.sz = S + c.out → x.sz + 1 < E.W → x.ht = h + 1 → x.root = c.rootAddr t1.addr →
    Holds g (lay E w c.hdr.1 c.hdr.2 t1 + (lay E w q j u + (c.lay E w t1.addr S +
      (chain w as + (Ob o x + F))))) m →
    ∃ m' h', ∃ cl cr : Ctx α h' k,
      insert_single_branch E o t1.addr c.hdr.1 (c.hdr.2 + 1) (as.headD 0) u.addr u.size m = .ok () m' ∧
      InsCtx E c t1 u cl cr ∧
      Holds g (lay E w 0 0 (cl.fill t1) +
        (Ob o { x with root := (cl.fill t1).addr, sz := x.sz + 1, ht := h' + 1 } + F)) m' := by
  have hb := hE.base
  induction c with
  | top =>
    intro m F x S q j t1 u as hk _ has hS h1 h2 hx hW hht hr H
    obtain ⟨h, rfl⟩ : ∃ h', h = h' + 1 := ⟨h - 1, by omega⟩
    simp only [Ctx.need] at has
    obtain ⟨a, rfl⟩ := List.length_eq_one_iff.1 has
    simp only [Ctx.hdr, Ctx.lay, zero_add, chain_cons, chain_nil, List.headD_cons, List.headD_nil,
      aassoc] at H ⊢
    have hp1 := h1.size_pos
    have hp2 := h2.size_pos
    have hx' : x.sz = S := by simp [hx, Ctx.out, Ctx.pre, Ctx.post]
    rw [insert_single_branch_eq h, if_pos rfl]
    have H := H.eqv (by frame : _ = pt (.heap a) _ + (lay E w 0 0 t1 + (lay E w q j u + (Ob o x + _))))
    obtain ⟨c0, ⟨r0, rfl, hr0⟩, -, H⟩ := H.exact
    obtain ⟨m1, e1, H1⟩ := insTop_ok (E := E) hb (by omega) (by unfold Tree.size; omega)
      (H : Holds g (Nd a w r0 + _) m)
    rw [bind_ok e1]
    have H1 := H1.eqv (by frame : _ = Ob o { x with root := a } + _)
    rw [bind_ok (getHeight_ok H1)]
    obtain ⟨m2, e2, H2⟩ := setHeight_ok (x.ht + 1) H1
    rw [bind_ok e2, bind_ok (getSize_ok H2)]
    simp only
    rw [Env.wadd_one hW]
    obtain ⟨m3, e3, H3⟩ := setSize_ok (x.sz + 1) H2
    refine ⟨m3, h + 2, .step a [] [u] .top, .step a [t1] [] .top, e3, InsCtx.top h1 h2, ?_⟩
    refine H3.eqv ?_
    simp only [Ctx.fill, lay_mkNode, List.nil_append, Tree.addr_mkNode, hht, add_zero]
    ac_rfl
  | @step k b l r c ih =>
    intro m F x S q j t1 u as hk hc has hS h1 h2 hx hW hht hr H
    obtain ⟨k, rfl⟩ : ∃ k', k = k' + 1 := ⟨k - 1, by omega⟩
    have hp1 : 1 ≤ t1.size := h1.size_pos
    have hp2 : 1 ≤ u.size := h2.size_pos
    have hb0 : b ≠ 0 := by
      simp only [Ctx.lay, aassoc] at H
      exact Holds.ne0 (H.eqv (by frame : _ = pt (.heap b) (IsNode w c.hdr.1 c.hdr.2 (keys l ++ (S, t1.addr) :: keys r)) + _))
    simp only [Ctx.hdr] at H ⊢
    rw [insert_single_branch_eq k, if_neg hb0]
    obtain ⟨m1, nd, e1, n1, n2, n3, n4, H1⟩ := insHead_ok (E := E) hc hS hp1 hp2 H
    rw [e1]
    have hc' := hc.2.2.2.2
    have hle := hc.2.2.2.1
    rw [Ctx.out_step] at hx
    simp only [Ctx.need] at has
    by_cases hfull : l.length + 1 + r.length = E.baseMax
    · rw [if_neg (by simpa using hfull)]
      rw [if_pos hfull] at has
      obtain ⟨a, as, rfl⟩ : ∃ a as', as = a :: as' := by
        cases as with
        | nil => simp at has
        | cons a as => exact ⟨a, as, rfl⟩
      simp only [List.length_cons, Nat.add_right_cancel_iff] at has
      simp only [chain_cons, List.headD_cons, aassoc] at H1 ⊢
      obtain ⟨c0, ⟨ra, rfl, hra⟩, -, H1⟩ := (H1.eqv (by frame : _ = pt (.heap a) _ + _)).exact
      have H1 : Holds g (Nd a w ra + _) m1 := H1
      rw [bind_ok (parent_ok H1), hra]
      obtain ⟨X, Y, m2, nd', ra', hXY, hX, e2, p1, p2, p3, p4, H2⟩ := insSplit_ok (E := E) hb
        (A := l ++ [t1]) (B := r) (by simp; omega) n4
        (H1.eqv (by frame : _ = Nd b w nd + (Nd a w ra + (lays E w b 0 (l ++ [t1] ++ r) + (lay E w q j u + _)))))
      simp only [List.length_append, List.length_cons, List.length_nil, Nat.zero_add] at e2
      rw [hfull, bind_ok e2]
      have hXYe : (elemsL X).length + (elemsL Y).length = (elemsL l).length + t1.size + (u.size + (elemsL r).length) := by
        have := congrArg (fun z => (elemsL z).length) hXY
        simp only [elemsL_append, elemsL_cons, elemsL_nil, List.length_append, List.append_nil] at this
        simp only [Tree.size]; omega
      have hXYl : X.length + Y.length = E.baseMax + 1 := by
        have := congrArg List.length hXY
        simp at this; omega
      have hwf : ∀ t ∈ X ++ Y, t.WF E := by
        rw [hXY]
        intro t ht
        simp only [List.mem_append, List.mem_cons, List.not_mem_nil, or_false] at ht
        rcases ht with (ht | rfl) | rfl | ht
        · exact hc.1 t ht
        · exact h1
        · exact h2
        · exact hc.2.1 t ht
      obtain ⟨m3, e3, H3⟩ := setLen_ok (v := (E.baseMax + 1) / 2) (by omega) H2
      rw [bind_ok e3]
      obtain ⟨m4, e4, H4⟩ := setLen_ok (v := E.baseMax + 1 - (E.baseMax + 1) / 2) (by omega)
        (H3.eqv (by frame : _ = Nd a w ra' + _))
      rw [bind_ok e4]
      have H4 := H4.ofNd (q := ra'.parent) (i := ra'.pidx) (ks := keys Y) rfl rfl (by simp; omega) p4
      have H4 := H4.eqv (by frame : _ = Nd b w _ + _)
      rw [bind_ok (pidx_ok H4), bind_ok (parent_ok H4)]
      simp only
      rw [p1, p2, n1, n2]
      have H4 := H4.ofNd (q := c.hdr.1) (i := c.hdr.2) (ks := keys X) (by simp [p1, n1]) (by simp [p2, n2]) (by simp; omega) p3
      obtain ⟨m5, h', cl, cr, e5, I5, H5⟩ := ih (x := x) (S := S + (elemsL l).length + (elemsL r).length)
        (t1 := .mkNode b X) (u := .mkNode a Y) (as := as) (q := ra'.parent) (j := ra'.pidx)
        (F := F) (by omega) hc' has
        (by simp only [Tree.size, Tree.elems_mkNode] at hXYe hS ⊢; omega)
        (Tree.wf_succ.2 ⟨by unfold Env.baseMin; simp; omega, by simp; omega,
          fun t ht => hwf t (List.mem_append.2 (.inl ht))⟩)
        (Tree.wf_succ.2 ⟨by unfold Env.baseMin; simp; omega, by simp; omega,
          fun t ht => hwf t (List.mem_append.2 (.inr ht))⟩)
        (by omega) hW hht (by rw [hr]; rfl)
        (H4.eqv (by simp only [lay_mkNode, Tree.addr_mkNode]; ac_rfl))
      obtain ⟨cl2, cr2, I6, hf, -, -⟩ := I5.split (l := l) (r := r) (t1 := t1) (u := u) (by rw [hXY]; simp) hfull (by omega)
      refine ⟨m5, h', cl2, cr2, e5, I6, ?_⟩
      rw [hf]
      exact H5
    · rw [if_pos hfull]
      rw [if_neg hfull] at has
      obtain rfl := List.length_eq_zero_iff.1 has
      simp only [chain_nil, zero_add] at H1
      obtain ⟨m2, nd', e2, p1, p2, p3, p4, H2⟩ := insRoom_ok (E := E) hb
        (A := l ++ [t1]) (B := r) (n := l.length + 1 + r.length) (by simp; omega) (by simp) n4
        (H1.eqv (by frame : _ = Nd b w nd + (lays E w b 0 (l ++ [t1] ++ r) + (lay E w q j u + _))))
      simp only [List.length_append, List.length_cons, List.length_nil, Nat.zero_add] at e2
      rw [bind_ok e2]
      obtain ⟨m3, e3, H3⟩ := setLen_ok (v := l.length + 1 + r.length + 1) (by omega) H2
      rw [bind_ok e3]
      rw [bind_ok (parent_ok H3), bind_ok (pidx_ok H3)]
      simp only
      rw [p1, p2, n1, n2]
      have H3 := H3.ofNd (q := c.hdr.1) (i := c.hdr.2) (ks := keys (l ++ [t1] ++ u :: r)) (by simp [p1, n1])
        (by simp [p2, n2]) (by simp; omega) p4
      obtain ⟨m4, e4, H4⟩ := increment_sizes_ok (E := E) (x := x) hc' (by omega) hW
        (H3.eqv (by frame : _ = c.lay E w b (S + (elemsL l).length + (elemsL r).length) + (Ob o x + _)))
      refine ⟨m4, h, .step b l (u :: r) c, .step b (l ++ [t1]) r c, e4, InsCtx.room h1 h2 hc hfull, ?_⟩
      refine H4.eqv ?_
      simp only [Ctx.fill]
      rw [Ctx.fill_lay, Ctx.fill_addr, lay_mkNode]
      simp only [Tree.addr_mkNode, List.append_assoc, List.cons_append, List.nil_append]
      rw [show (Tree.mkNode b (l ++ t1 :: u :: r)).size = S + (elemsL l).length + (elemsL r).length + 1 by
        simp [Tree.size] at hS ⊢; omega]
      rw [← hht, show c.rootAddr b = x.root from hr.symm]
      ac_rfl

theorem Ctx.hdr_top {h : Nat} : (Ctx.top : Ctx α h h).hdr = (0, 0) := rfl
theorem Ctx.hdr_step {h k a : Nat} {l r : List (Tree α k)} {c : Ctx α h (k + 1)} :
    (Ctx.step a l r c).hdr = (a, l.length) := rfl

/-- a `leaf_entry` from the pair recorded by a path -/
def leafOf (x : Nat × Nat) : LeafE := ⟨x.1, x.2⟩

theorem insert_single_leaf_ok {h o w : Nat} (hE : E.Good) (c : Ctx α h 0)
    {x : SeqObj} {S q j : Nat} {t1 u : Tree α 0} {as : List Nat} {sg : SegE} {d : Nat}
    (hc : c.Ok E) (has : as.length = c.need E) (hS : S + 1 = t1.size + u.size) (h1 : t1.WF E) (h2 : u.WF E)
    (hx : x.sz = S + c.out) (hW : x.sz + 1 < E.W) (hht : x.ht = h + 1) (hr : x.root = c.rootAddr t1.addr)
    (hd : d = 0 ∨ d = 1)
    (H : Holds g (lay E w c.hdr.1 c.hdr.2 t1 + (lay E w q j u + (c.lay E w t1.addr S +
      (chain w as + (Ob o x + F))))) m) :
    ∃ m' h', ∃ cl cr : Ctx α h' 0,
      insert_single_leaf E o ⟨sg, ⟨c.hdr.1, c.hdr.2 + d⟩⟩ t1.addr c.hdr.1 (c.hdr.2 + 1) (as.headD 0) u.addr u.size m =
        .ok ⟨sg, leafOf (if d = 0 then cl.hdr else cr.hdr)⟩ m' ∧
      InsCtx E c t1 u cl cr ∧
      Holds g (lay E w 0 0 (cl.fill t1) +
        (Ob o { x with root := (cl.fill t1).addr, sz := x.sz + 1, ht := h' + 1 } + F)) m' := by
  have hb := hE.base
  have hp1 : 1 ≤ t1.size := h1.size_pos
  have hp2 : 1 ≤ u.size := h2.size_pos
  cases c with
  | top =>
    simp only [Ctx.need] at has
    obtain ⟨a, rfl⟩ := List.length_eq_one_iff.1 has
    simp only [Ctx.hdr_top, Ctx.lay, zero_add, chain_cons, chain_nil, List.headD_cons, List.headD_nil,
      aassoc] at H ⊢
    have hx' : x.sz = S := by simp [hx, Ctx.out, Ctx.pre, Ctx.post]
    rw [insert_single_leaf_eq, if_pos rfl]
    have H := H.eqv (by frame : _ = pt (.heap a) _ + (lay E w 0 0 t1 + (lay E w q j u + (Ob o x + _))))
    obtain ⟨c0, ⟨r0, rfl, hr0⟩, -, H⟩ := H.exact
    obtain ⟨m1, e1, H1⟩ := insTop_ok (E := E) hb (by omega) hp1
      (H : Holds g (Nd a w r0 + _) m)
    rw [bind_ok e1]
    have H1 := H1.eqv (by frame : _ = Ob o { x with root := a } + _)
    obtain ⟨m2, e2, H2⟩ := setHeight_ok 2 H1
    rw [bind_ok e2, bind_ok (getSize_ok H2)]
    simp only
    rw [Env.wadd_one hW]
    obtain ⟨m3, e3, H3⟩ := setSize_ok (x.sz + 1) H2
    rw [bind_ok e3]
    refine ⟨m3, 1, .step a [] [u] .top, .step a [t1] [] .top, ?_, InsCtx.top h1 h2, ?_⟩
    · rcases hd with rfl | rfl <;> simp [leafOf, Ctx.hdr]
    · refine H3.eqv ?_
      simp only [Ctx.fill, lay_mkNode, List.nil_append, Tree.addr_mkNode, add_zero]
      ac_rfl
  | step b l r c =>
    have hb0 : b ≠ 0 := by
      simp only [Ctx.lay, aassoc] at H
      exact Holds.ne0 (H.eqv (by frame : _ = pt (.heap b) (IsNode w c.hdr.1 c.hdr.2 (keys l ++ (S, t1.addr) :: keys r)) + _))
    simp only [Ctx.hdr_step] at H ⊢
    rw [insert_single_leaf_eq, if_neg hb0]
    obtain ⟨m1, nd, e1, n1, n2, n3, n4, H1⟩ := insHead_ok (E := E) hc hS hp1 hp2 H
    rw [e1]
    have hc' := hc.2.2.2.2
    have hle := hc.2.2.2.1
    rw [Ctx.out_step] at hx
    simp only [Ctx.need] at has
    by_cases hfull : l.length + 1 + r.length = E.baseMax
    · rw [if_neg (by simpa using hfull)]
      rw [if_pos hfull] at has
      obtain ⟨a, as, rfl⟩ : ∃ a as', as = a :: as' := by
        cases as with
        | nil => simp at has
        | cons a as => exact ⟨a, as, rfl⟩
      simp only [List.length_cons, Nat.add_right_cancel_iff] at has
      simp only [chain_cons, List.headD_cons, aassoc] at H1 ⊢
      obtain ⟨c0, ⟨ra, rfl, hra⟩, -, H1⟩ := (H1.eqv (by frame : _ = pt (.heap a) _ + _)).exact
      have H1 : Holds g (Nd a w ra + _) m1 := H1
      rw [bind_ok (parent_ok H1), hra]
      obtain ⟨X, Y, m2, nd', ra', hXY, hX, e2, p1, p2, p3, p4, H2⟩ := insSplit_ok (E := E) hb
        (A := l ++ [t1]) (B := r) (by simp; omega) n4
        (H1.eqv (by frame : _ = Nd b w nd + (Nd a w ra + (lays E w b 0 (l ++ [t1] ++ r) + (lay E w q j u + _)))))
      simp only [List.length_append, List.length_cons, List.length_nil, Nat.zero_add] at e2
      rw [hfull, bind_ok e2]
      have hXYe : (elemsL X).length + (elemsL Y).length = (elemsL l).length + t1.size + (u.size + (elemsL r).length) := by
        have := congrArg (fun z => (elemsL z).length) hXY
        simp only [elemsL_append, elemsL_cons, elemsL_nil, List.length_append, List.append_nil] at this
        simp only [Tree.size]; omega
      have hXYl : X.length + Y.length = E.baseMax + 1 := by
        have := congrArg List.length hXY
        simp at this; omega
      have hwf : ∀ t ∈ X ++ Y, t.WF E := by
        rw [hXY]
        intro t ht
        simp only [List.mem_append, List.mem_cons, List.not_mem_nil, or_false] at ht
        rcases ht with (ht | rfl) | rfl | ht
        · exact hc.1 t ht
        · exact h1
        · exact h2
        · exact hc.2.1 t ht
      obtain ⟨m3, e3, H3⟩ := setLen_ok (v := (E.baseMax + 1) / 2) (by omega) H2
      rw [bind_ok e3]
      obtain ⟨m4, e4, H4⟩ := setLen_ok (v := E.baseMax + 1 - (E.baseMax + 1) / 2) (by omega)
        (H3.eqv (by frame : _ = Nd a w ra' + _))
      rw [bind_ok e4]
      have H4 := H4.ofNd (q := ra'.parent) (i := ra'.pidx) (ks := keys Y) rfl rfl (by simp; omega) p4
      have H4 := H4.eqv (by frame : _ = Nd b w _ + _)
      rw [bind_ok (parent_ok H4), bind_ok (pidx_ok H4)]
      simp only
      rw [p1, p2, n1, n2]
      have H4 := H4.ofNd (q := c.hdr.1) (i := c.hdr.2) (ks := keys X) (by simp [p1, n1]) (by simp [p2, n2]) (by simp; omega) p3
      obtain ⟨m5, h', cl, cr, e5, I5, H5⟩ := insert_single_branch_ok hE c (x := x) (S := S + (elemsL l).length + (elemsL r).length)
        (t1 := .mkNode b X) (u := .mkNode a Y) (as := as) (q := ra'.parent) (j := ra'.pidx)
        (F := F) (by omega) hc' has
        (by simp only [Tree.size, Tree.elems_mkNode] at hXYe hS ⊢; omega)
        (Tree.wf_succ.2 ⟨by unfold Env.baseMin; simp; omega, by simp; omega,
          fun t ht => hwf t (List.mem_append.2 (.inl ht))⟩)
        (Tree.wf_succ.2 ⟨by unfold Env.baseMin; simp; omega, by simp; omega,
          fun t ht => hwf t (List.mem_append.2 (.inr ht))⟩)
        (by omega) hW hht (by rw [hr]; rfl)
        (H4.eqv (by simp only [lay_mkNode, Tree.addr_mkNode]; ac_rfl))
      obtain ⟨cl2, cr2, I6, hf, hl1, hl2⟩ := I5.split (l := l) (r := r) (t1 := t1) (u := u) (by rw [hXY]; simp) hfull (by omega)
      have e5' : insert_single_branch E o b c.hdr.1 (c.hdr.2 + 1) (as.headD 0) a (elemsL Y).length m4 =
        .ok () m5 := e5
      rw [bind_ok e5']
      refine ⟨m5, h', cl2, cr2, ?_, I6, ?_⟩
      · rw [hl1, hl2, ← hX]
        rcases hd with rfl | rfl
        · by_cases hlt : l.length < X.length
          · rw [if_neg (by simpa using hlt)]; simp [leafOf, hlt]
          · rw [if_pos (by simpa using hlt)]; simp [leafOf, hlt]
        · by_cases hlt : l.length + 1 < X.length
          · rw [if_neg (by simpa using hlt)]; simp [leafOf, hlt]
          · rw [if_pos (by simpa using hlt)]; simp [leafOf, hlt]
      · rw [hf]
        exact H5
    · rw [if_pos hfull]
      rw [if_neg hfull] at has
      obtain rfl := List.length_eq_zero_iff.1 has
      simp only [chain_nil, zero_add] at H1
      obtain ⟨m2, nd', e2, p1, p2, p3, p4, H2⟩ := insRoom_ok (E := E) hb
        (A := l ++ [t1]) (B := r) (n := l.length + 1 + r.length) (by simp; omega) (by simp) n4
        (H1.eqv (by frame : _ = Nd b w nd + (lays E w b 0 (l ++ [t1] ++ r) + (lay E w q j u + _))))
      simp only [List.length_append, List.length_cons, List.length_nil, Nat.zero_add] at e2
      rw [bind_ok e2]
      obtain ⟨m3, e3, H3⟩ := setLen_ok (v := l.length + 1 + r.length + 1) (by omega) H2
      rw [bind_ok e3]
      rw [bind_ok (parent_ok H3), bind_ok (pidx_ok H3)]
      simp only
      rw [p1, p2, n1, n2]
      have H3 := H3.ofNd (q := c.hdr.1) (i := c.hdr.2) (ks := keys (l ++ [t1] ++ u :: r)) (by simp [p1, n1])
        (by simp [p2, n2]) (by simp; omega) p4
      obtain ⟨m4, e4, H4⟩ := increment_sizes_ok (E := E) (x := x) hc' (by omega) hW
        (H3.eqv (by frame : _ = c.lay E w b (S + (elemsL l).length + (elemsL r).length) + (Ob o x + _)))
      rw [bind_ok e4]
      refine ⟨m4, h, .step b l (u :: r) c, .step b (l ++ [t1]) r c, ?_, InsCtx.room h1 h2 hc hfull, ?_⟩
      · rcases hd with rfl | rfl <;> simp [leafOf, Ctx.hdr]
      refine H4.eqv ?_
      simp only [Ctx.fill]
      rw [Ctx.fill_lay, Ctx.fill_addr, lay_mkNode]
      simp only [Tree.addr_mkNode, List.append_assoc, List.cons_append, List.nil_append]
      rw [show (Tree.mkNode b (l ++ t1 :: u :: r)).size = S + (elemsL l).length + (elemsL r).length + 1 by
        simp [Tree.size] at hS ⊢; omega]
      rw [← hht, show c.rootAddr b = x.root from hr.symm]
      ac_rfl

end SegTree
