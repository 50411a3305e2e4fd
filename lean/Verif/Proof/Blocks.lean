/-
  The blocks of a container, found by following pointers in the memory, are the
  subtrees of its ghost tree.
-/
import Verif.Proof.Use
import Mathlib.Data.List.Perm.Subperm
set_option autoImplicit false

namespace SegTree
variable {α : Type} {E : Env α} {g : Log} {F : Asrt α} {m m' : Mem α}

/-- addresses of a tree -/
def Tree.addrs : {k : Nat} → Tree α k → List Nat
  | 0, t => [t.1]
  | _ + 1, t => t.1 :: t.2.flatMap Tree.addrs

theorem lays_locs {k w p : Nat} {L : List (Tree α k)}
    (ih : ∀ c ∈ L, ∀ p i, (lay E w p i c).map Prod.fst = ((c.addrs.map Loc.heap : List Loc) : Multiset Loc)) : ∀ j,
    (lays E w p j L).map Prod.fst = (((L.flatMap Tree.addrs).map Loc.heap : List Loc) : Multiset Loc) := by
  induction L with
  | nil => intro j; simp
  | cons c L ihL =>
    intro j
    rw [lays_cons, Multiset.map_add, ih c (by simp), ihL (fun c hc => ih c (by simp [hc]))]
    simp

theorem lay_locs {w : Nat} : {k : Nat} → (t : Tree α k) → ∀ p i,
    (lay E w p i t).map Prod.fst = ((t.addrs.map Loc.heap : List Loc) : Multiset Loc)
  | 0, t, p, i => by
    rw [lay_zero]; simp [pt, Tree.addrs, Tree.addr]
  | k + 1, t, p, i => by
    rw [lay_succ, Multiset.map_add, lays_locs (fun c _ => lay_locs c)]
    simp [pt, Tree.addrs, Tree.addr, Tree.kids]

/-- every address is that of some subtree -/
theorem Tree.addrs_sub : {k : Nat} → (t : Tree α k) → ∀ a ∈ t.addrs, ∃ (j : Nat) (c : Ctx α k j) (u : Tree α j),
    c.fill u = t ∧ u.addr = a
  | 0, t, a, h => by
    simp only [Tree.addrs, List.mem_singleton] at h
    exact ⟨0, .top, t, rfl, h.symm⟩
  | k + 1, t, a, h => by
    simp only [Tree.addrs, List.mem_cons, List.mem_flatMap] at h
    rcases h with h | ⟨u, hu, h⟩
    · exact ⟨_, .top, t, rfl, h.symm⟩
    · obtain ⟨j, c, v, h1, h2⟩ := Tree.addrs_sub u a h
      obtain ⟨l, r, hl⟩ := List.append_of_mem hu
      refine ⟨j, Ctx.comp (.step t.addr l r .top) c, v, ?_, h2⟩
      rw [Ctx.comp_fill, h1]
      simp only [Ctx.fill]
      rw [← hl]; rfl

theorem Ctx.addr_mem {h k : Nat} (c : Ctx α h k) (u : Tree α k) : ∀ a ∈ u.addrs, a ∈ (c.fill u).addrs := by
  induction c with
  | top => intro a h; exact h
  | step b l r c ih =>
    intro a h
    refine ih _ a ?_
    simp only [Tree.mkNode, Tree.addrs, List.mem_cons, List.mem_flatMap]
    exact .inr ⟨u, by simp, h⟩

theorem Tree.addr_mem : {k : Nat} → (t : Tree α k) → t.addr ∈ t.addrs
  | 0, t => by simp [Tree.addrs, Tree.addr]
  | _ + 1, t => by simp [Tree.addrs, Tree.addr]

section
variable {o al h k : Nat} {t : Tree α h}

theorem sub_node (H : Holds g (cont E o al (.tree t) + F) m) {c : Ctx α h (k + 1)} {u : Tree α (k + 1)}
    (hu : c.fill u = t) : ∃ n, m.cell (.heap u.addr) = some (.node (E.acls al) n) ∧ n.parent = c.hdr.1 ∧
      n.pidx = c.hdr.2 ∧ n.len = u.kids.length ∧ Arr n 0 (keys u.kids) := by
  subst hu
  rw [cont_tree, Ctx.fill_lay, lay_succ] at H
  obtain ⟨d, hd, n, rfl, h1, h2, h3, h4⟩ := (H.eqv (by ac_rfl : _ = pt (.heap u.addr)
    (IsNode (E.acls al) c.hdr.1 c.hdr.2 (keys u.kids)) + (lays E (E.acls al) u.addr 0 u.kids +
      (c.lay E (E.acls al) u.addr u.size + (Ob o (objOf (c.fill u) al al) + F))))).get
  exact ⟨n, hd, h1, h2, by rw [h3, keys_length], h4⟩

theorem sub_seg (H : Holds g (cont E o al (.tree t) + F) m) {c : Ctx α h 0} {u : Tree α 0}
    (hu : c.fill u = t) : ∃ s, m.cell (.heap u.addr) = some (.seg (E.acls al) s) ∧ SArr s 0 u.xs ∧
      ∀ i, u.xs.length ≤ i → Free E (s i) := by
  subst hu
  rw [cont_tree, Ctx.fill_lay, lay_zero] at H
  obtain ⟨d, hd, n, rfl, h1, h2⟩ := (H.eqv (by ac_rfl : _ = pt (.heap u.addr)
    (IsSeg E (E.acls al) u.xs) + (c.lay E (E.acls al) u.addr u.size + (Ob o (objOf (c.fill u) al al) + F)))).get
  exact ⟨n, hd, h1, h2⟩

theorem cont_cell {s : St α} (H : Holds g (cont E o al s + F) m) : m.cell (.obj o) = some (.obj (s.obj al)) := by
  have h := rdObj_c H
  unfold rdObj at h
  split at h
  · rename_i x hx; cases h; exact hx
  · cases h

/-- following pointers finds exactly the subtrees -/
theorem block_iff (H : Holds g (cont E o al (.tree t) + F) m) {a sz : Nat} :
    Block m o k a sz ↔ ∃ (c : Ctx α h k) (u : Tree α k), c.fill u = t ∧ u.addr = a ∧ u.size = sz := by
  constructor
  · intro hb
    induction hb with
    | @root s k h1 h2 =>
      rw [cont_cell H] at h1
      cases h1
      have : h = k := by simpa [St.obj, objOf] using h2
      subst this
      exact ⟨.top, t, rfl, rfl, rfl⟩
    | @child k a sz w i n hb hc hi ih =>
      obtain ⟨c, u, hu, rfl, -⟩ := ih
      obtain ⟨n', hn, -, -, hl, ha⟩ := sub_node H hu
      rw [hc] at hn
      cases hn
      rw [hl] at hi
      obtain ⟨h1, h2⟩ := ha i (by rw [keys_length]; exact hi)
      refine ⟨.step u.addr (u.kids.take i) (u.kids.drop (i + 1)) c, u.kids[i], ?_, ?_, ?_⟩
      · rw [← hu]
        simp only [Ctx.fill]
        congr 1
        conv_rhs => rw [Tree.eta1 u]
        congr 1
        rw [← List.drop_eq_getElem_cons, List.take_append_drop]
      · rw [show n.ptrs i = n.ptrs (0 + i) by simp, h2]; simp [keys, key]
      · rw [show n.sizes i = n.sizes (0 + i) by simp, h1]; simp [keys, key]
  · rintro ⟨c, u, hu, rfl, rfl⟩
    induction c with
    | top =>
      change u = t at hu
      subst hu
      exact Block.root (cont_cell H) rfl
    | @step k b l r c ih =>
      have hu' : c.fill (Tree.mkNode b (l ++ u :: r)) = t := hu
      obtain ⟨n, hn, -, -, hl, ha⟩ := sub_node H hu'
      simp only [Tree.kids_mkNode, List.length_append, List.length_cons] at hl
      have hb := ih (Tree.mkNode b (l ++ u :: r)) hu'
      obtain ⟨h1, h2⟩ := ha l.length (by simp)
      have := Block.child (i := l.length) hb hn (by omega)
      rw [show n.ptrs l.length = n.ptrs (0 + l.length) by simp, h2,
        show n.sizes l.length = n.sizes (0 + l.length) by simp, h1] at this
      simpa [keys, key] using this

theorem block_nil (H : Holds g (cont E o al .nil + F) m) {a sz : Nat} : ¬ Block m o k a sz := by
  intro hb
  induction hb with
  | root h1 h2 =>
    rw [cont_cell H] at h1; cases h1
    simp [St.obj, objNil] at h2
  | child _ _ _ ih => exact ih

theorem block_obj {o h a sz : Nat} (hb : Block m o h a sz) : m.cell (.obj o) ≠ none := by
  induction hb with
  | root h1 _ => rw [h1]; exact (nomatch ·)
  | child _ _ _ ih => exact ih

/-- the heap cells of a container are its blocks -/
theorem block_loc {s : St α} (H : Holds g (cont E o al s + F) m) {a : Nat} :
    Loc.heap a ∈ (cont E o al s).map Prod.fst ↔ ∃ k sz, Block m o k a sz := by
  cases s with
  | nil =>
    rw [cont_nil]
    constructor
    · intro h; simp [Ob, pt] at h
    · rintro ⟨k, sz, hb⟩; exact absurd hb (block_nil H)
  | tree t =>
    rw [cont_tree, Multiset.map_add, lay_locs]
    constructor
    · intro h
      rw [Multiset.mem_add] at h
      rcases h with h | h
      · simp only [Multiset.mem_coe, List.mem_map, Loc.heap.injEq] at h
        obtain ⟨b, hb, rfl⟩ := h
        obtain ⟨j, c, u, h1, h2⟩ := Tree.addrs_sub t b hb
        exact ⟨j, u.size, (block_iff H).2 ⟨c, u, h1, h2, rfl⟩⟩
      · simp [Ob, pt] at h
    · rintro ⟨k, sz, hb⟩
      obtain ⟨c, u, hu, rfl, -⟩ := (block_iff H).1 hb
      rw [Multiset.mem_add]
      left
      simp only [Multiset.mem_coe, List.mem_map, Loc.heap.injEq, exists_eq_right]
      rw [← hu]
      exact c.addr_mem u _ u.addr_mem

end

/-- in a memory that represents a bank, the heap cells are the blocks of its
containers -/
theorem Rep.heap {S : Bank α} {A : Asrt α} (h : Rep E S A) {a : Nat} (ha : Loc.heap a ∈ A.map Prod.fst) :
    ∃ o s al A', S o = some ⟨al, s.elems⟩ ∧ s.Ok E ∧ A = cont E o al s + A' ∧ Loc.heap a ∈ (cont E o al s).map Prod.fst := by
  induction h with
  | nil => simp at ha
  | @cons S A o al s hr hn hs ih =>
    rw [Multiset.map_add, Multiset.mem_add] at ha
    rcases ha with ha | ha
    · exact ⟨o, s, al, A, upd_self, hs, rfl, ha⟩
    · obtain ⟨o', s', al', A', h1, h2, h3, h4⟩ := ih ha
      have hne : o' ≠ o := by rintro rfl; rw [hn] at h1; cases h1
      exact ⟨o', s', al', cont E o al s + A', by rw [upd_ne hne]; exact h1, h2, by rw [h3]; ac_rfl, h4⟩

/-- a container of a reachable memory with at least one block -/
theorem Reach.block (hE : E.Good) (h : Reach E m) {o k a sz : Nat} (hb : Block m o k a sz) :
    ∃ al hh, ∃ (t : Tree α hh), ∃ F, (St.tree t).Ok E ∧ Holds m.log (SegTree.cont E o al (.tree t) + F) m ∧
      ∃ (c : Ctx α hh k) (u : Tree α k), c.fill u = t ∧ u.addr = a ∧ u.size = sz := by
  obtain ⟨S, A, hR, H⟩ := h.inv hE
  cases ho : S o with
  | none => exact absurd (H.dead (hR.dead ho)) (block_obj hb)
  | some x =>
    obtain ⟨s, A', -, hs, rfl, -⟩ := hR.split ho
    cases s with
    | nil => exact absurd hb (block_nil H)
    | tree t => exact ⟨_, _, t, A', hs, H, (block_iff H).1 hb⟩

/-! ### Counting -/

/-- addresses of the segments of a tree -/
def Tree.segAddrs : {k : Nat} → Tree α k → List Nat
  | 0, t => [t.1]
  | _ + 1, t => t.2.flatMap Tree.segAddrs

theorem Ctx.segAddr_mem {h k : Nat} (c : Ctx α h k) (u : Tree α k) : ∀ a ∈ u.segAddrs, a ∈ (c.fill u).segAddrs := by
  induction c with
  | top => intro a h; exact h
  | step b l r c ih =>
    intro a h
    refine ih _ a ?_
    simp only [Tree.mkNode, Tree.segAddrs, List.mem_flatMap]
    exact ⟨u, by simp, h⟩

theorem segAddrs_len {n : Nat} {k : Nat} {L : List (Tree α k)}
    (ih : ∀ c ∈ L, c.segAddrs.length * n ≤ c.elems.length) :
    (L.flatMap Tree.segAddrs).length * n ≤ (elemsL L).length := by
  induction L with
  | nil => simp
  | cons c L ihL =>
    have h1 := ih c (by simp)
    have h2 := ihL (fun c hc => ih c (by simp [hc]))
    simp only [List.flatMap_cons, List.length_append, elemsL_cons, Nat.add_mul]
    omega

theorem Tree.WF.segAddrs : {k : Nat} → {t : Tree α k} → t.WF E → t.segAddrs.length * E.segMin ≤ t.elems.length
  | 0, t, h => by
    have := h.1
    simp only [Tree.segAddrs, List.length_singleton, Nat.one_mul]; exact this
  | _ + 1, t, h => by
    rw [Tree.wf_succ] at h
    exact segAddrs_len (fun c hc => Tree.WF.segAddrs (h.2.2 c hc))

theorem addrs_len {k : Nat} {L : List (Tree α k)}
    (ih : ∀ c ∈ L, c.addrs.length + 1 ≤ 2 * c.segAddrs.length) :
    (L.flatMap Tree.addrs).length + L.length ≤ 2 * (L.flatMap Tree.segAddrs).length := by
  induction L with
  | nil => simp
  | cons c L ihL =>
    have h1 := ih c (by simp)
    have h2 := ihL (fun c hc => ih c (by simp [hc]))
    simp only [List.flatMap_cons, List.length_append, List.length_cons]
    omega

theorem Tree.Root.addrs : {k : Nat} → {t : Tree α k} → t.Root E → t.addrs.length + 1 ≤ 2 * t.segAddrs.length
  | 0, t, h => by simp [Tree.addrs, Tree.segAddrs]
  | _ + 1, t, h => by
    rw [Tree.root_succ] at h
    have h1 := addrs_len (fun c hc => Tree.Root.addrs (h.2.2 c hc).root)
    have h2 := h.1
    simp only [Tree.addrs, Tree.segAddrs, List.length_cons]
    have : t.kids = t.2 := rfl
    rw [this] at h1 h2
    omega

end SegTree
