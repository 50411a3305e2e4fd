/-
  Single insertion at segment level, and its summary on whole trees.
-/
import Verif.Proof.Ins
set_option autoImplicit false

namespace SegTree

variable {α : Type} {E : Env α} {g : Log} {F : Asrt α} {m : Mem α}

theorem SArr_upd {s : Nat → Slot α} {i j : Nat} {x : Slot α} {xs : List α} (h : j < i ∨ i + xs.length ≤ j) :
    SArr (upd s j x) i xs ↔ SArr s i xs := by
  constructor <;> apply SArr_congr <;> intro l h1 h2 <;> simp only [upd] <;> rw [if_neg (by omega)]

theorem SArr_one {s : Nat → Slot α} {i : Nat} {x : α} : SArr s i [x] ↔ s i = .val x := by
  rw [SArr_cons]; simp [SArr.nil]

/-- insertion in the middle of a segment with room -/
theorem segRoom_ok {p w n : Nat} {s : Nat → Slot α} {A B : List α} {v : α} {β : Type} {f : M α β} (hE : E.Good)
    (hB : B ≠ []) (hn : n = A.length + B.length) (hl : n < E.segMax) (ha : SArr s 0 (A ++ B))
    (hf : ∀ i, n ≤ i → Free E (s i)) (H : Holds g (Sg p w s + F) m) :
    ∃ m' s', (usub n 1 >>= fun lm => move_segment E p lm p n >>= fun _ =>
        assign_forward_segment E p lm A.length 1 >>= fun _ => assign_segment E p A.length v >>= fun _ => f) m =
        f m' ∧ SArr s' 0 (A ++ v :: B) ∧ (∀ i, n + 1 ≤ i → Free E (s' i)) ∧
      Holds g (Sg p w s' + F) m' := by
  obtain ⟨B, z, rfl⟩ := snoc_of_ne hB
  simp only [List.length_append, List.length_cons, List.length_nil, Nat.zero_add] at hn
  simp only [SArr_append, SArr_one, Nat.zero_add] at ha
  obtain ⟨ha1, ha2, ha3⟩ := ha
  rw [bind_ok (usub_ok (by omega) m)]
  rw [show n - 1 = A.length + B.length by omega]
  obtain ⟨m1, e1, H1⟩ := move_segment_same (E := E) (si := A.length + B.length) (di := n) hE (by omega) hl
    (by omega) ha3 (hf n (Nat.le_refl _)) H
  rw [bind_ok e1]
  generalize hs1 : upd (upd s n (.val z)) (A.length + B.length) (.val (E.moved z)) = s1 at H1
  have k1 : SArr s1 0 A := by
    rw [← hs1]; exact (SArr_upd (by omega)).2 ((SArr_upd (by omega)).2 ha1)
  have k2 : SArr s1 A.length B := by
    rw [← hs1]; exact (SArr_upd (by omega)).2 ((SArr_upd (by omega)).2 ha2)
  have k3 : s1 n = .val z := by rw [← hs1, upd_ne (by omega), upd_same]
  have k4 : IsVal (s1 (A.length + B.length)) := ⟨E.moved z, by rw [← hs1, upd_same]⟩
  have k5 : ∀ i, n + 1 ≤ i → s1 i = s i := by
    intro i hi; rw [← hs1, upd_ne (by omega), upd_ne (by omega)]
  have kv : ∀ j, A.length ≤ j → j ≤ A.length + B.length → IsVal (s1 j) := by
    intro j h1 h2
    rcases Nat.lt_or_eq_of_le h2 with h2 | rfl
    · exact k2.isVal h1 h2
    · exact k4
  obtain ⟨m2, s2, e2, H2, l1, l2⟩ := assign_forward_segment_ok (E := E) (i := A.length) hE B rfl (by omega) k2
    (fun j h1 h2 => .inl (kv j (by omega) h2)) H1
  rw [bind_ok e2]
  obtain ⟨m3, e3, H3⟩ := assign_segment_ok (E := E) (i := A.length) v hE (by omega)
    (.inl (l2.vals _ (kv _ (Nat.le_refl _) (by omega)))) H2
  rw [bind_ok e3]
  refine ⟨m3, _, rfl, ?_, ?_, H3⟩
  · simp only [SArr_append, SArr_cons, Nat.zero_add]
    refine ⟨?_, upd_same, (SArr_upd (by omega)).2 l1, ?_, SArr.nil _ _⟩
    · exact (SArr_upd (by omega)).2 (SArr_congr (fun j _ h => l2.outside j (by omega)) k1)
    · rw [upd_ne (by omega), l2.outside _ (by omega), show A.length + 1 + B.length = n by omega, k3]
  · intro i hi
    rw [upd_ne (by omega), l2.outside _ (by omega), k5 i hi]
    exact hf i (by omega)

/-- the two ways of distributing a full segment and a new element -/
def segSplit (E : Env α) (p alloc index length : Nat) (value : α) (entry : Entry) : M α Entry :=
  if index < (E.segMax + 1) / 2 then do
    move_segment E p ((E.segMax + 1) / 2 - 1) alloc 0
    construct_range_segment E p ((E.segMax + 1) / 2 - 1 + 1) alloc 1 (E.segMax + 1 - (E.segMax + 1) / 2 - 1)
    assign_forward_segment E p ((E.segMax + 1) / 2 - 1) index 1
    assign_segment E p index value
    pure { entry with seg := { entry.seg with len := (E.segMax + 1) / 2 } }
  else do
    let move_length ← usub length index
    construct_range_segment E p ((E.segMax + 1) / 2) alloc 0 (index - (E.segMax + 1) / 2)
    construct_range_segment E p index alloc (index - (E.segMax + 1) / 2 + 1) move_length
    construct_segment E alloc (index - (E.segMax + 1) / 2) value
    pure { entry with
      seg := { ptr := alloc, idx := index - (E.segMax + 1) / 2, len := E.segMax + 1 - (E.segMax + 1) / 2 }
      leaf := { entry.leaf with idx := entry.leaf.idx + 1 } }

theorem segSplit_ok {p w b : Nat} {s sb : Nat → Slot α} {A B : List α} {v : α} {e : Entry} (hE : E.Good)
    (hn : A.length + B.length = E.segMax) (ha : SArr s 0 (A ++ B))
    (hf : ∀ i, E.segMax ≤ i → Free E (s i)) (hfb : ∀ i, Free E (sb i))
    (H : Holds g (Sg p w s + (Sg b w sb + F)) m) :
    ∃ X Y m' s' sb', X ++ Y = A ++ v :: B ∧ X.length = (E.segMax + 1) / 2 ∧
      segSplit E p b A.length E.segMax v e m = .ok
        (if A.length < X.length then { e with seg := { e.seg with len := X.length } }
         else { seg := ⟨b, A.length - X.length, Y.length⟩, leaf := { e.leaf with idx := e.leaf.idx + 1 } }) m' ∧
      SArr s' 0 X ∧ (∀ i, X.length ≤ i → Free E (s' i)) ∧
      SArr sb' 0 Y ∧ (∀ i, Y.length ≤ i → Free E (sb' i)) ∧
      Holds g (Sg p w s' + (Sg b w sb' + F)) m' := by
  have hpos := E.segMax_pos
  unfold segSplit
  by_cases hi : A.length < (E.segMax + 1) / 2
  · rw [if_pos hi]
    obtain ⟨B1, z, B2, rfl, hB1⟩ : ∃ B1 z B2, B = B1 ++ z :: B2 ∧
        A.length + B1.length = (E.segMax + 1) / 2 - 1 := by
      have hlt : (E.segMax + 1) / 2 - 1 - A.length < B.length := by omega
      refine ⟨B.take ((E.segMax + 1) / 2 - 1 - A.length), B[(E.segMax + 1) / 2 - 1 - A.length],
        B.drop ((E.segMax + 1) / 2 - 1 - A.length + 1), ?_, ?_⟩
      · rw [List.getElem_cons_drop, List.take_append_drop]
      · rw [List.length_take]; omega
    simp only [List.length_append, List.length_cons] at hn
    simp only [SArr_append, SArr_cons, Nat.zero_add] at ha
    obtain ⟨ha1, ha2, ha3, ha4⟩ := ha
    rw [← hB1]
    obtain ⟨m1, e1, H1⟩ := move_segment_diff (E := E) (di := 0) (si := A.length + B1.length) hE (by omega)
      (by omega) ha3 (hfb 0) (H.eqv (by frame : _ = Sg b w sb + (Sg p w s + _)))
    rw [bind_ok e1]
    obtain ⟨m2, sb2, s2, e2, H2, l1, l2, l3⟩ := construct_range_segment_ok (E := E) (si := A.length + B1.length + 1)
      (di := 1) (n := E.segMax + 1 - (E.segMax + 1) / 2 - 1) hE B2 (by omega) (by omega) (by omega)
      ((SArr_upd (by omega)).2 ha4) (fun i _ _ => by rw [upd_ne (by omega)]; exact hfb i) H1
    rw [bind_ok e2]
    have q1 : SArr s2 0 A := SArr_congr (fun j _ h => by
      rw [l3.outside j (by omega), upd_ne (by omega)]) ha1
    have q2 : SArr s2 A.length B1 := SArr_congr (fun j _ h => by
      rw [l3.outside j (by omega), upd_ne (by omega)]) ha2
    have q3 : IsVal (s2 (A.length + B1.length)) := ⟨E.moved z, by
      rw [l3.outside _ (by omega), upd_same]⟩
    have kv : ∀ j, A.length ≤ j → j ≤ A.length + B1.length → IsVal (s2 j) := by
      intro j h1 h2
      rcases Nat.lt_or_eq_of_le h2 with h2 | rfl
      · exact q2.isVal h1 h2
      · exact q3
    obtain ⟨m3, s3, e3, H3, k1, k2⟩ := assign_forward_segment_ok (E := E) (i := A.length) hE B1 rfl (by omega) q2
      (fun j h1 h2 => .inl (kv j (by omega) h2)) (H2.eqv (by frame : _ = Sg p w s2 + _))
    rw [bind_ok e3]
    obtain ⟨m4, e4, H4⟩ := assign_segment_ok (E := E) (i := A.length) v hE (by omega)
      (.inl (k2.vals _ (kv _ (Nat.le_refl _) (by omega)))) H3
    rw [bind_ok e4]
    have hX : (A ++ v :: B1).length = (E.segMax + 1) / 2 := by simp; omega
    refine ⟨A ++ v :: B1, z :: B2, m4, upd s3 A.length (.val v), sb2, by simp, hX, ?_, ?_, ?_, ?_, ?_,
      H4.eqv (by frame)⟩
    · rw [if_pos (by omega), hX]; rfl
    · simp only [SArr_append, SArr_cons, Nat.zero_add]
      refine ⟨?_, upd_same, (SArr_upd (by omega)).2 k1⟩
      exact (SArr_upd (by omega)).2 (SArr_congr (fun j _ h => k2.outside j (by omega)) q1)
    · intro i hi
      rw [hX] at hi
      rw [upd_ne (by omega), k2.outside _ (by omega)]
      by_cases h : i < E.segMax
      · exact l3.inside i (by omega) (by omega)
      · rw [l3.outside i (by omega), upd_ne (by omega)]
        exact hf i (by omega)
    · rw [SArr_cons]
      refine ⟨?_, l1⟩
      rw [l2 0 (by omega), upd_same]
    · intro i hi
      simp only [List.length_cons] at hi
      rw [l2 i (by omega), upd_ne (by omega)]
      exact hfb i
  · rw [if_neg hi]
    obtain ⟨A1, A2, rfl, hA1⟩ : ∃ A1 A2, A = A1 ++ A2 ∧ A1.length = (E.segMax + 1) / 2 :=
      ⟨_, _, (List.take_append_drop ((E.segMax + 1) / 2) A).symm, by rw [List.length_take]; omega⟩
    simp only [List.length_append] at hn hi ⊢
    simp only [SArr_append, List.length_append, Nat.zero_add] at ha
    obtain ⟨⟨ha1, ha2⟩, ha3⟩ := ha
    rw [bind_ok (usub_ok (by omega) m)]
    rw [show A1.length + A2.length - (E.segMax + 1) / 2 = A2.length by omega, ← hA1]
    obtain ⟨m1, sb1, s1, e1, H1, l1, l2, l3⟩ := construct_range_segment_ok (E := E) (si := A1.length)
      (di := 0) (n := A2.length) hE A2 rfl (by omega) (by omega) ha2 (fun i _ _ => hfb i)
      (H.eqv (by frame : _ = Sg b w sb + (Sg p w s + _)))
    rw [bind_ok e1]
    obtain ⟨m2, sb2, s2, e2, H2, k1, k2, k3⟩ := construct_range_segment_ok (E := E) (si := A1.length + A2.length)
      (di := A2.length + 1) (n := E.segMax - (A1.length + A2.length)) hE B (by omega) (by omega) (by omega)
      (SArr_congr (fun j h _ => l3.outside j (by omega)) ha3)
      (fun i _ _ => by rw [l2 i (by omega)]; exact hfb i) H1
    rw [bind_ok e2]
    obtain ⟨m3, e3, H3⟩ := construct_segment_ok (E := E) (i := A2.length) v hE (by omega)
      (by rw [k2 _ (by omega), l2 _ (by omega)]; exact hfb _) H2
    rw [bind_ok e3]
    refine ⟨A1, A2 ++ v :: B, m3, s2, upd sb2 A2.length (.val v), by simp, rfl, ?_, ?_, ?_, ?_, ?_,
      H3.eqv (by frame)⟩
    · rw [if_neg (by omega)]
      simp only [pure_app, List.length_append, List.length_cons, Nat.add_sub_cancel_left]
      rw [show E.segMax + 1 - A1.length = A2.length + (B.length + 1) by omega]
    · exact SArr_congr (fun j _ h => by rw [k3.outside j (by omega), l3.outside j (by omega)]) ha1
    · intro i hi
      by_cases h1 : i < A1.length + A2.length
      · rw [k3.outside i (by omega)]
        exact l3.inside i (by omega) (by omega)
      · by_cases h2 : i < E.segMax
        · exact k3.inside i (by omega) (by omega)
        · rw [k3.outside i (by omega), l3.outside i (by omega)]
          exact hf i (by omega)
    · simp only [SArr_append, SArr_cons, Nat.zero_add]
      refine ⟨?_, upd_same, (SArr_upd (by omega)).2 k1⟩
      exact (SArr_upd (by omega)).2 (SArr_congr (fun j _ h => k2 j (by omega)) l1)
    · intro i hi
      simp only [List.length_append, List.length_cons] at hi
      rw [upd_ne (by omega), k2 i (by omega), l2 i (by omega)]
      exact hfb i

theorem insert_single_segment_eq {o p j n lp li : Nat} {value : α} :
    insert_single_segment E o ⟨⟨p, j, n⟩, ⟨lp, li⟩⟩ value =
    (if j ≠ n ∧ n ≠ E.segMax then do
      let lm ← usub n 1
      move_segment E p lm p n
      assign_forward_segment E p lm j 1
      assign_segment E p j value
      increment_sizes E o lp li
      return ⟨⟨p, j, n + 1⟩, ⟨lp, li⟩⟩
    else if p = 0 then do
      let alloc ← allocate_segment E o
      setRoot o alloc
      setSize o 1
      setHeight o 1
      construct_segment E alloc 0 value
      return ⟨⟨alloc, j, 1⟩, ⟨lp, li⟩⟩
    else if n ≠ E.segMax then do
      construct_segment E p j value
      increment_sizes E o lp li
      return ⟨⟨p, j, n + 1⟩, ⟨lp, li⟩⟩
    else do
      let alloc ← allocate_segment E o
      let leaf_alloc ← alloc_nodes_single E o lp alloc
      let entry' ← segSplit E p alloc j n value ⟨⟨p, j, n⟩, ⟨lp, li⟩⟩
      insert_single_leaf E o entry' p lp (li + 1) leaf_alloc alloc
        (E.segMax + 1 - (E.segMax + 1) / 2)) := by
  unfold insert_single_segment segSplit
  simp only [ite_bind, bind_assoc, pure_bind]

/-! ### summary on whole trees -/

theorem ins_split {xs P Q : List α} {i : Nat} (v : α) (h : xs = P ++ Q) (hi : i = P.length) :
    xs.take i ++ v :: xs.drop i = P ++ v :: Q := by
  subst h hi; simp

/-- the `seq` object that owns the tree `t` -/
def objOf {h : Nat} (t : Tree α h) (al nal : Nat) : SeqObj := ⟨t.addr, t.size, h + 1, al, nal⟩

theorem increment_in_place {h o w al nal : Nat} {c : Ctx α h 0} {s s' : Tree α 0}
    (ha : s'.addr = s.addr) (hs : s'.size = s.size + 1) (hc : c.Ok E)
    (hW : (c.fill s).size + 1 < E.W)
    (H : Holds g (lay E w 0 0 s' + (c.lay E w s.addr s.size + (Ob o (objOf (c.fill s) al nal) + F))) m) :
    ∃ m', increment_sizes E o c.hdr.1 c.hdr.2 m = .ok () m' ∧
      Holds g (lay E w 0 0 (c.fill s') + (Ob o (objOf (c.fill s') al nal) + F)) m' := by
  obtain ⟨m', e, H'⟩ := increment_sizes_ok (E := E) (x := objOf (c.fill s) al nal) hc
    (by simp only [objOf, fill_size, Ctx.out]; omega) hW
    (H.eqv (by frame : _ = c.lay E w s.addr s.size + (Ob o (objOf (c.fill s) al nal) + _)))
  refine ⟨m', e, H'.eqv ?_⟩
  rw [Ctx.fill_lay, ha, hs, lay_hdr0 s' 0 0 c.hdr.1 c.hdr.2]
  have : objOf (c.fill s') al nal = { objOf (c.fill s) al nal with sz := (objOf (c.fill s) al nal).sz + 1 } := by
    simp only [objOf, Ctx.fill_addr, ha, fill_size, hs, SeqObj.mk.injEq, and_true, true_and]
    omega
  rw [this]
  ac_rfl

/-- the last segment has `n` elements and the nodes above it are full -/
def Tree.Brimming (E : Env α) {h : Nat} (t : Tree α h) (n : Nat) : Prop :=
  ∃ (c : Ctx α h 0) (s : Tree α 0), c.fill s = t ∧ c.Brim E ∧ s.xs.length = n

/-- the last segment has `n` elements and the nodes above it are as narrow as they may be, and
so are their siblings -/
def Tree.Slender (E : Env α) {h : Nat} (t : Tree α h) (n : Nat) : Prop :=
  ∃ (c : Ctx α h 0) (s : Tree α 0), c.fill s = t ∧ c.Slim E ∧ s.xs.length = n

/-- how the widths of the nodes change when an insertion at `i`, in the segment `s` in the hole
of `c`, asks for `n` blocks and leads to `t'` -/
structure InsShape (E : Env α) {h h' : Nat} (c : Ctx α h 0) (s : Tree α 0) (i n : Nat) (t' : Tree α h') : Prop where
  ge : c.pre.length ≤ i
  le : i ≤ c.pre.length + s.xs.length
  cost : E.Even → t'.pot E + n ≤ (c.fill s).pot E + 3
  roomy : s.xs.length ≠ E.segMax → c.Brim E → t'.Brimming E (s.xs.length + 1)
  split : E.Odd → s.xs.length = E.segMax → c.Brim E → t'.Slender E (E.segMax + 1 - E.segMin)

/-- how much a tree grows by an insertion at `e`: by nothing if the segment has room,
otherwise by `n` blocks, and by a level if all nodes above are full -/
def GrownBy (E : Env α) {h h' : Nat} (t : Tree α h) (i : Nat) (e : Entry) (n : Nat) (t' : Tree α h') : Prop :=
  ∃ (c : Ctx α h 0) (s : Tree α 0), t = c.fill s ∧ e.leaf.ptr = c.hdr.1 ∧ e.seg.len = s.xs.length ∧ (e.seg.len ≠ E.segMax → n = 0 ∧ h' = h) ∧
    (e.seg.len = E.segMax → n = 1 + c.need E ∧ h' = h + (c.need E - h)) ∧ InsShape E c s i n t'

/-- `insert_single_segment` on a non-empty tree -/
theorem insert_single_segment_ok {h o w al nal i : Nat} {t : Tree α h} {e : Entry} (v : α) (hE : E.Good)
    (hr : t.Root E) (he : At t i e) (hW : t.size + 1 < E.W) (hw1 : w = E.acls al) (hw2 : w = E.acls nal)
    (H : Holds g (lay E w 0 0 t + (Ob o (objOf t al nal) + F)) m) :
    (∃ m' h' e' n, ∃ t' : Tree α h', insert_single_segment E o e v m = .ok e' m' ∧ t'.Root E ∧
      t'.elems = t.elems.take i ++ v :: t.elems.drop i ∧ At t' i e' ∧ n ≤ h + 2 ∧ GrownBy E t i e n t' ∧
      Holds { g with reqs := g.reqs + n } (lay E w 0 0 t' + (Ob o (objOf t' al nal) + F)) m') ∨
    (∃ m' n, insert_single_segment E o e v m = .throw .alloc m' ∧ m'.cell = m.cell ∧ 1 ≤ n ∧ n ≤ h + 2 ∧ e.seg.len = E.segMax ∧
      Holds ⟨g.reqs + n, g.fails + 1⟩ (lay E w 0 0 t + (Ob o (objOf t al nal) + F)) m') := by
  have H0 := H
  obtain ⟨c, s, j, rfl, rfl, rfl, hj⟩ := he
  obtain ⟨hc, hs⟩ := (Ctx.fill_root c s).1 hr
  have hsr : s.Root E := Ctx.holeOk_root hs
  rw [Tree.root_zero] at hsr
  obtain ⟨A, B, hAB, rfl⟩ : ∃ A B, s.xs = A ++ B ∧ A.length = j :=
    ⟨_, _, (List.take_append_drop j s.xs).symm, by rw [List.length_take]; omega⟩
  have hlen : s.xs.length = A.length + B.length := by rw [hAB]; simp
  have helems : (c.fill s).elems = (c.pre ++ A) ++ (B ++ c.post) := by
    rw [Ctx.fill_elems, Tree.elems_zero, hAB]; simp
  rw [ins_split v helems (by simp)]
  rw [Ctx.fill_lay, lay_zero, aassoc] at H
  have hp0 := Holds.ne0 H
  obtain ⟨sl, sl1, sl2, H⟩ := H.toSg
  rw [hAB] at sl1
  simp only [entryOf]
  rw [insert_single_segment_eq]
  by_cases hfull : s.xs.length = E.segMax
  · -- split
    rw [if_neg (by simp [hfull]), if_neg hp0, if_neg (by simp [hfull])]
    -- allocation of the segment
    have ea : allocate_segment E o m = allocCell E (.seg w (fun _ => .raw)) m := by
      unfold allocate_segment
      rw [bind_ok (rdObj_ok (H0.eqv (by frame : _ = Ob o _ + _))), hw1]; rfl
    have H0' := H0
    rw [Ctx.fill_lay, aassoc] at H0'
    have hpin := H0'.toEx
    rcases allocCell_cases (E := E) (.seg w (fun _ => .raw)) hpin with ⟨b, m1, e1, H1⟩ | ⟨m1, e1, hce, H1⟩
    rotate_left
    · right
      refine ⟨m1, 1, bind_throw (by rw [ea, e1]), hce, Nat.le_refl _, by omega, hfull, ?_⟩
      have := H0'.ofEx (A := 0) (by simpa using H1)
      rw [zero_add] at this
      refine this.eqv ?_
      rw [Ctx.fill_lay, aassoc]
    rw [bind_ok (ea.trans e1)]
    unfold alloc_nodes_single
    rcases alloc_nodes_loop_ok (E := E) (o := o) (w := w) (seg := b) (x := objOf (c.fill s) al nal) (m0 := m) (L0 := g)
      (F0 := lay E w c.hdr.1 c.hdr.2 s + F) (a := s.addr) (s := s.size) hw2 hw1 c [] (by ac_rfl) H0'
      (by rw [chain_nil, zero_add]; exact H1) with ⟨as, m2, e2, has, H2⟩ | ⟨m2, n, e2, n1, n2, H2⟩
    rotate_left
    · right
      refine ⟨m2, 1 + n, bind_throw e2, Holds.exCell H0' H2, by omega, by have := c.need_le (E := E); omega, hfull, ?_⟩
      have := H0'.ofEx (A := 0) (by simpa using H2)
      rw [zero_add] at this
      rw [← Nat.add_assoc]
      refine this.eqv ?_
      rw [Ctx.fill_lay, aassoc]
    left
    simp only [List.headD_nil] at e2
    rw [bind_ok e2]
    rw [← aassoc] at H2
    have H2 := H0'.ofEx H2
    rw [aassoc, lay_zero] at H2
    obtain ⟨sl, sl1, sl2, H2⟩ := (H2.eqv (by frame : _ = pt (.heap s.addr) (IsSeg E w s.xs) + (Sg b w (fun _ => .raw) + _))).toSg
    rw [hAB] at sl1
    obtain ⟨X, Y, m3, sx, sy, hXY, hX, e3, x1, x2, y1, y2, H3⟩ := segSplit_ok (E := E) (v := v)
      (e := ⟨⟨s.addr, A.length, s.xs.length⟩, ⟨c.hdr.1, c.hdr.2⟩⟩) hE (by omega) sl1
      (fun i hi => sl2 i (by omega)) (fun _ => .inl rfl) H2
    rw [← hfull] at e3
    rw [bind_ok e3]
    have hXYl : X.length + Y.length = E.segMax + 1 := by
      have := congrArg List.length hXY
      simp at this; omega
    have hpos := E.segMax_pos
    have H3 := (H3.ofSg (E := E) x1 x2).eqv (by frame : _ = Sg b w sy + _)
    have H3 := H3.ofSg (E := E) y1 y2
    obtain ⟨d, hd, hd'⟩ : ∃ d, (d = 0 ∨ d = 1) ∧ ((d = 0) ↔ A.length < X.length) := by
      by_cases h : A.length < X.length
      · exact ⟨0, .inl rfl, by simp [h]⟩
      · exact ⟨1, .inr rfl, by simp [h]⟩
    obtain ⟨m4, h', cl, cr, e4, I, H4⟩ := insert_single_leaf_ok (E := E) hE c (x := objOf (c.fill s) al nal)
      (S := s.size) (q := 0) (j := 0) (t1 := .mkSeg s.addr X) (u := .mkSeg b Y) (as := as)
      (sg := if d = 0 then ⟨s.addr, A.length, X.length⟩ else ⟨b, A.length - X.length, Y.length⟩) (d := d) (F := F)
      hc (by simpa using has)
      (by simp only [Tree.size, Tree.elems_zero, Tree.xs_mkSeg]; omega)
      (Tree.wf_zero.2 ⟨by unfold Env.segMin; simp; omega, by simp; omega⟩)
      (Tree.wf_zero.2 ⟨by unfold Env.segMin; simp; omega, by simp; omega⟩)
      (by simp only [objOf, fill_size, Ctx.out]; omega) hW rfl
      (by simp only [objOf, Ctx.fill_addr]; rfl) hd
      (H3.eqv (by simp only [lay_mkSeg, Tree.addr_mkSeg]; ac_rfl))
    have hobj : ({ objOf (c.fill s) al nal with
        root := (cl.fill (.mkSeg s.addr X)).addr
        sz := (objOf (c.fill s) al nal).sz + 1
        ht := h' + 1 } : SeqObj) =
        objOf (cl.fill (.mkSeg s.addr X)) al nal := by
      have e1 := fill_size c s
      have e2 := fill_size cl (.mkSeg s.addr X)
      rw [I.lpre, I.lpost] at e2
      simp only [Tree.size, Tree.elems_zero, Tree.xs_mkSeg, List.length_append] at e1 e2
      simp only [objOf, SeqObj.mk.injEq, true_and, and_true, Tree.size]
      omega
    rw [hobj] at H4
    have hshape : InsShape E c s (c.pre.length + A.length) (1 + c.need E) (cl.fill (.mkSeg s.addr X)) := by
      refine ⟨by omega, by rw [hAB]; simp, fun hev => ?_, fun hne => absurd hfull hne, fun hod _ hbr => ?_⟩
      · have := I.cost hev
        simp only [Ctx.fill_pot, Tree.pot_seg] at this ⊢
        omega
      · have hmin : X.length = E.segMin := by unfold Env.segMin; omega
        refine ⟨cr, .mkSeg b Y, I.eq.symm, I.slim hod hbr (by simp [Env.least, hmin]), ?_⟩
        simp only [Tree.xs_mkSeg]; omega
    refine ⟨m4, h', ⟨(if d = 0 then ⟨s.addr, A.length, X.length⟩ else ⟨b, A.length - X.length, Y.length⟩),
        leafOf (if d = 0 then cl.hdr else cr.hdr)⟩, 1 + c.need E, cl.fill (.mkSeg s.addr X), ?_, I.root, ?_, ?_,
      by have := c.need_le (E := E); omega,
      ⟨c, s, rfl, rfl, rfl, fun hn => absurd hfull hn, fun _ => ⟨rfl, by have := I.tall; omega⟩, hshape⟩, (show g.reqs + 1 + c.need E = g.reqs + (1 + c.need E) by omega) ▸ H4⟩
    · rw [show E.segMax + 1 - (E.segMax + 1) / 2 = (Tree.mkSeg b Y).size by
        simp only [Tree.size, Tree.elems_mkSeg]; omega]
      rw [← e4]
      rcases hd with rfl | rfl
      · rw [if_pos (hd'.1 rfl)]; rfl
      · rw [if_neg (fun h => by have := hd'.2 h; omega)]; rfl
    · rw [Ctx.fill_elems, I.lpre, I.lpost]
      simp only [Tree.elems_mkSeg]
      have : X ++ (Y ++ c.post) = A ++ (v :: B ++ c.post) := by
        rw [← List.append_assoc, hXY]; simp
      simp only [List.append_assoc]
      rw [this]
      simp
    · rcases hd with rfl | rfl
      · refine ⟨cl, .mkSeg s.addr X, A.length, rfl, by rw [I.lpre], ?_, .inl (hd'.1 rfl)⟩
        simp [entryOf, leafOf]
      · have hge : ¬ A.length < X.length := fun h => by have := hd'.2 h; omega
        refine ⟨cr, .mkSeg b Y, A.length - X.length, I.eq.symm, ?_, ?_, .inl ?_⟩
        · rw [I.rpre]; simp; omega
        · simp [entryOf, leafOf]
        · simp; omega
  · left
    have hs' : ∀ m1, Holds g (pt (.heap s.addr) (IsSeg E w (A ++ v :: B)) +
        (c.lay E w s.addr s.size + (Ob o (objOf (c.fill s) al nal) + F))) m1 →
        ∃ m', (increment_sizes E o c.hdr.1 c.hdr.2 >>= fun _ =>
          (pure ⟨⟨s.addr, A.length, s.xs.length + 1⟩, ⟨c.hdr.1, c.hdr.2⟩⟩ : M α Entry)) m1 =
            .ok (entryOf c (.mkSeg s.addr (A ++ v :: B)) A.length) m' ∧
          Holds { g with reqs := g.reqs + 0 } (lay E w 0 0 (c.fill (.mkSeg s.addr (A ++ v :: B))) +
            (Ob o (objOf (c.fill (.mkSeg s.addr (A ++ v :: B))) al nal) + F)) m' := by
      intro m1 H1
      obtain ⟨m2, e2, H2⟩ := increment_in_place (E := E) (c := c) (s := s) (s' := .mkSeg s.addr (A ++ v :: B)) (m := m1)
        rfl (by simp only [Tree.size, Tree.elems_zero, Tree.xs_mkSeg, hAB]; simp; omega) hc hW H1
      rw [bind_ok e2]
      refine ⟨m2, ?_, H2⟩
      simp [entryOf, hlen]; omega
    have hroot : (c.fill (.mkSeg s.addr (A ++ v :: B))).Root E := by
      rw [Ctx.fill_root]
      refine ⟨hc, ?_⟩
      unfold Ctx.HoleOk at hs ⊢
      split
      · rw [Tree.root_zero]; simp; omega
      · rename_i hh
        rw [if_neg hh, Tree.wf_zero] at hs
        rw [Tree.wf_zero]; simp; omega
    have hel : (c.fill (.mkSeg s.addr (A ++ v :: B))).elems = c.pre ++ A ++ v :: (B ++ c.post) := by
      rw [Ctx.fill_elems]; simp
    have hat : At (c.fill (.mkSeg s.addr (A ++ v :: B))) (c.pre.length + A.length)
        (entryOf c (.mkSeg s.addr (A ++ v :: B)) A.length) :=
      ⟨c, _, A.length, rfl, rfl, rfl, .inl (by simp)⟩
    have hshape : InsShape E c s (c.pre.length + A.length) 0 (c.fill (.mkSeg s.addr (A ++ v :: B))) := by
      refine ⟨by omega, by rw [hAB]; simp, fun hev => ?_, fun _ hbr => ?_, fun _ h => absurd h hfull⟩
      · simp only [Ctx.fill_pot, Tree.pot_seg]
        omega
      · exact ⟨c, _, rfl, hbr, by rw [hAB]; simp; omega⟩
    by_cases hB : B = []
    · subst hB
      simp only [List.append_nil] at *
      rw [if_neg (by simp [hlen]), if_neg hp0, if_pos hfull]
      obtain ⟨m1, e1, H1⟩ := construct_segment_ok (E := E) (i := A.length) v hE (by simp at hlen; omega)
        (sl2 _ (by simp [hlen])) H
      rw [bind_ok e1]
      have H1 := H1.ofSg (E := E) (xs := A ++ [v])
        (by rw [SArr_append, SArr_one]; exact ⟨(SArr_upd (by omega)).2 sl1, by simp [upd]⟩)
        (by
          intro i hi
          simp only [List.length_append, List.length_cons, List.length_nil] at hi hlen
          rw [upd_ne (by omega)]; exact sl2 i (by omega))
      obtain ⟨m2, e2, H2⟩ := hs' m1 H1
      exact ⟨m2, h, _, 0, _, e2, hroot, hel, hat, by omega, ⟨c, s, rfl, rfl, rfl, fun _ => ⟨rfl, rfl⟩, fun hn => absurd hn hfull, hshape⟩, H2⟩
    · have hBp : 1 ≤ B.length := by
        rcases B with _ | ⟨_, _⟩
        · exact absurd rfl hB
        · simp
      rw [if_pos ⟨by omega, hfull⟩]
      obtain ⟨m1, s1, e1, a1, a2, H1⟩ := segRoom_ok (E := E) (v := v) (n := s.xs.length)
        (f := increment_sizes E o c.hdr.1 c.hdr.2 >>= fun _ =>
          (pure ⟨⟨s.addr, A.length, s.xs.length + 1⟩, ⟨c.hdr.1, c.hdr.2⟩⟩ : M α Entry))
        hE hB hlen (by omega) sl1 sl2 H
      obtain ⟨m2, e2, H2⟩ := hs' m1 (H1.ofSg (E := E) a1 (by intro i hi; simp at hi; exact a2 i (by omega)))
      exact ⟨m2, h, _, 0, _, e1.trans e2, hroot, hel, hat, by omega, ⟨c, s, rfl, rfl, rfl, fun _ => ⟨rfl, rfl⟩, fun hn => absurd hn hfull, hshape⟩, H2⟩

end SegTree
