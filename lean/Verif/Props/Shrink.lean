/-
  C86: what an erasure gives back to the allocator, and when the tree gets lower.
-/
import Verif.Props.Room
set_option autoImplicit false

namespace SegTree

variable {α : Type} {E : Env α} {m m' : Mem α} {o i : Nat} {xs : List α} {it : Iter}

/-! ### Specification -/

/-- the entry of the same node that is used for balancing: the one before `i`, or the
one after it if `i` is the first -/
def besides (i : Nat) : Nat := if i = 0 then 1 else i - 1

/-- Removing a child from the node at `p`, by the rules of the documentation (section
"Erasing"): it frees `k` nodes and takes `f` levels off the tree. -/
inductive Joins (E : Env α) (m : Mem α) : (p k f : Nat) → Prop where
  /-- a root with two children is replaced by the other child -/
  | drop {p w : Nat} {n : Node} : m.cell (.heap p) = some (.node w n) → n.parent = 0 → n.len = 2 → Joins E m p 1 1
  /-- any other root only gets shorter -/
  | root {p w : Nat} {n : Node} : m.cell (.heap p) = some (.node w n) → n.parent = 0 → 2 < n.len → Joins E m p 0 0
  /-- so does a node above the minimum -/
  | room {p w : Nat} {n : Node} : m.cell (.heap p) = some (.node w n) → n.parent ≠ 0 → E.baseMin < n.len →
      Joins E m p 0 0
  /-- a node at its minimum takes a child from a sibling above the minimum -/
  | steal {p w v u : Nat} {n q s : Node} : m.cell (.heap p) = some (.node w n) → n.parent ≠ 0 → n.len = E.baseMin →
      m.cell (.heap n.parent) = some (.node v q) → m.cell (.heap (q.ptrs (besides n.pidx))) = some (.node u s) →
      E.baseMin < s.len → Joins E m p 0 0
  /-- otherwise it is merged with that sibling, and its parent loses a child -/
  | merge {p w v u k f : Nat} {n q s : Node} : m.cell (.heap p) = some (.node w n) → n.parent ≠ 0 → n.len = E.baseMin →
      m.cell (.heap n.parent) = some (.node v q) → m.cell (.heap (q.ptrs (besides n.pidx))) = some (.node u s) →
      s.len = E.baseMin → Joins E m n.parent k f → Joins E m p (k + 1) f

/-- Erasing the element at `it`, by the same rules: it frees `k` blocks and takes `f`
levels off the tree. -/
inductive Frees (E : Env α) (m : Mem α) (it : Iter) : (k f : Nat) → Prop where
  /-- the last element of the container -/
  | last : it.entry.leaf.ptr = 0 → it.segLength = 1 → Frees E m it 1 1
  /-- an element of the only segment -/
  | only : it.entry.leaf.ptr = 0 → 1 < it.segLength → Frees E m it 0 0
  /-- a segment above the minimum -/
  | room : it.entry.leaf.ptr ≠ 0 → E.segMin < it.segLength → Frees E m it 0 0
  /-- a segment at its minimum takes an element from a sibling above the minimum -/
  | steal {v : Nat} {q : Node} : it.entry.leaf.ptr ≠ 0 → it.segLength = E.segMin →
      m.cell (.heap it.entry.leaf.ptr) = some (.node v q) → E.segMin < q.sizes (besides it.entry.leaf.idx) →
      Frees E m it 0 0
  /-- otherwise it is merged with that sibling, and the node above loses a child -/
  | merge {v k f : Nat} {q : Node} : it.entry.leaf.ptr ≠ 0 → it.segLength = E.segMin →
      m.cell (.heap it.entry.leaf.ptr) = some (.node v q) → q.sizes (besides it.entry.leaf.idx) = E.segMin →
      Joins E m it.entry.leaf.ptr k f → Frees E m it (k + 1) f

/-- all ways to erase the element at position `i` of a container of `n` elements -/
inductive Removal (E : Env α) (o i n : Nat) (it : Iter) : M α Unit → Prop where
  | erase : Removal E o i n it (do let _ ← erase E o it)
  | pop_back (h : i + 1 = n) : Removal E o i n it (pop_back E o)
  | pop_front (h : i = 0) : Removal E o i n it (pop_front E o)

/-- Between `m` and `m'` container `o` gave back exactly the blocks `L`; nothing else was
freed, nothing was requested. -/
structure Returned (o : Nat) (L : List Nat) (m m' : Mem α) : Prop where
  distinct : L.Nodup
  freed : ∀ a ∈ L, Owns m o a ∧ m'.cell (.heap a) = none
  kept : ∀ a, a ∉ L → (m'.cell (.heap a) = none ↔ m.cell (.heap a) = none)
  owned : ∀ a, Owns m' o a ↔ Owns m o a ∧ a ∉ L
  log : m'.log = m.log

/-! ### Proofs -/

theorem Joins.unique {p k f k' f' : Nat} (h1 : Joins E m p k f) (h2 : Joins E m p k' f') : k = k' ∧ f = f' := by
  induction h1 generalizing k' f' with
  | drop h3 h4 h5 =>
    cases h2 with
    | drop => exact ⟨rfl, rfl⟩
    | root g3 _ g5 => rw [h3] at g3; cases g3; omega
    | room g3 g4 | steal g3 g4 | merge g3 g4 => rw [h3] at g3; cases g3; exact absurd h4 g4
  | root h3 h4 h5 =>
    cases h2 with
    | drop g3 _ g5 => rw [h3] at g3; cases g3; omega
    | root => exact ⟨rfl, rfl⟩
    | room g3 g4 | steal g3 g4 | merge g3 g4 => rw [h3] at g3; cases g3; exact absurd h4 g4
  | room h3 h4 h5 =>
    cases h2 with
    | drop g3 g4 | root g3 g4 => rw [h3] at g3; cases g3; exact absurd g4 h4
    | room => exact ⟨rfl, rfl⟩
    | steal => exact ⟨rfl, rfl⟩
    | merge g3 _ g5 => rw [h3] at g3; cases g3; omega
  | steal h3 h4 h5 h6 h7 h8 =>
    cases h2 with
    | drop g3 g4 | root g3 g4 => rw [h3] at g3; cases g3; exact absurd g4 h4
    | room => exact ⟨rfl, rfl⟩
    | steal => exact ⟨rfl, rfl⟩
    | merge g3 _ _ g6 g7 g8 =>
      rw [h3] at g3; cases g3
      rw [h6] at g6; cases g6
      rw [h7] at g7; cases g7
      omega
  | merge h3 h4 h5 h6 h7 h8 _ ih =>
    cases h2 with
    | drop g3 g4 | root g3 g4 => rw [h3] at g3; cases g3; exact absurd g4 h4
    | room g3 _ g5 => rw [h3] at g3; cases g3; omega
    | steal g3 _ _ g6 g7 g8 =>
      rw [h3] at g3; cases g3
      rw [h6] at g6; cases g6
      rw [h7] at g7; cases g7
      omega
    | merge g3 _ _ _ _ _ g9 =>
      rw [h3] at g3; cases g3
      obtain ⟨rfl, rfl⟩ := ih g9
      exact ⟨rfl, rfl⟩

theorem Frees.unique {k f k' f' : Nat} (h1 : Frees E m it k f) (h2 : Frees E m it k' f') : k = k' ∧ f = f' := by
  have hmn := E.segMin_pos
  cases h1 with
  | last h3 h4 => cases h2 <;> first | exact ⟨rfl, rfl⟩ | (exfalso; omega)
  | only h3 h4 => cases h2 <;> first | exact ⟨rfl, rfl⟩ | (exfalso; omega)
  | room h3 h4 => cases h2 <;> first | exact ⟨rfl, rfl⟩ | (exfalso; omega)
  | steal h3 h4 h5 h6 =>
    cases h2 with
    | last | only => exfalso; omega
    | room | steal => exact ⟨rfl, rfl⟩
    | merge _ _ g5 g6 => rw [h5] at g5; cases g5; omega
  | merge h3 h4 h5 h6 h7 =>
    cases h2 with
    | last | only | room => exfalso; omega
    | steal _ _ g5 g6 => rw [h5] at g5; cases g5; omega
    | merge _ _ _ _ g7 =>
      obtain ⟨rfl, rfl⟩ := h7.unique g7
      exact ⟨rfl, rfl⟩

theorem Joins.le {p k f : Nat} (h : Joins E m p k f) : f ≤ 1 ∧ f ≤ k := by
  induction h with
  | drop => exact ⟨Nat.le_refl _, Nat.le_refl _⟩
  | root | room | steal => exact ⟨Nat.zero_le _, Nat.le_refl _⟩
  | merge _ _ _ _ _ _ _ ih => exact ⟨ih.1, by omega⟩

theorem Frees.le {k f : Nat} (h : Frees E m it k f) : f ≤ 1 ∧ f ≤ k := by
  cases h with
  | last => exact ⟨Nat.le_refl _, Nat.le_refl _⟩
  | only | room | steal => exact ⟨Nat.zero_le _, Nat.le_refl _⟩
  | merge _ _ _ _ h => exact ⟨h.le.1, by have := h.le; omega⟩

theorem Ctx.joins_le {h k : Nat} (c : Ctx α h k) : ∀ n, (c.joins E n).1 + k ≤ h + 1 := by
  induction c with
  | top => intro n; rw [Ctx.joins_top]; split <;> simp only <;> omega
  | step b l r c ih =>
    intro n
    have := c.le
    rw [Ctx.joins_step]
    split
    · simp; omega
    · have := ih (l.length + 1 + r.length)
      simp only; omega

/-- the sibling of the hole as the node above records it -/
theorem sibling_key {k p S : Nat} {l r : List (Tree α k)} (hlr : 1 ≤ l.length + r.length) {n : Node}
    (hn : Arr n 0 (keys l ++ (S, p) :: keys r)) :
    ∃ t, sibling l r = some t ∧ t ∈ l ++ r ∧ n.ptrs (besides l.length) = t.addr ∧ n.sizes (besides l.length) = t.size := by
  rcases List.eq_nil_or_concat l with rfl | ⟨lt, t, rfl⟩
  · cases r with
    | nil => simp at hlr
    | cons t r =>
      have := hn 1 (by simp)
      exact ⟨t, rfl, by simp, by simpa [besides, key] using this.2, by simpa [besides, key] using this.1⟩
  · have := hn lt.length (by simp)
    rw [List.concat_eq_append] at *
    refine ⟨t, by simp, by simp, ?_, ?_⟩
    · simpa [besides, key] using this.2
    · simpa [besides, key] using this.1

/-- where the subtree `t` of a list lies in its layout -/
theorem lays_mem {k w p j : Nat} {l : List (Tree α k)} {t : Tree α k} (ht : t ∈ l) :
    ∃ i F, lays E w p j l = lay E w p i t + F := by
  obtain ⟨a, b, rfl⟩ := List.append_of_mem ht
  rw [lays_append, lays_cons]
  exact ⟨j + a.length, lays E w p j a + lays E w p (j + a.length + 1) b, by ac_rfl⟩

theorem Ctx.joins_mem {h k : Nat} {g : Log} {w : Nat} (c : Ctx α h k) : ∀ {p S n : Nat} {nd : Node} {F : Asrt α}, 0 < k →
    c.Ok E → (if c.isTop then 2 else E.baseMin) ≤ n → m.cell (.heap p) = some (.node w nd) → nd.parent = c.hdr.1 →
    nd.pidx = c.hdr.2 → nd.len = n → Holds g (c.lay E w p S + F) m →
    Joins E m p (c.joins E n).1 (c.joins E n).2 := by
  induction c with
  | top =>
    intro p S n nd F hk hc hn h1 h2 h3 h4 H
    rw [Ctx.joins_top]
    simp only [Ctx.isTop_top, if_true] at hn
    split
    · exact .root h1 h2 (by omega)
    · exact .drop h1 h2 (by omega)
  | @step k b l r c ih =>
    intro p S n nd F hk hc hn h1 h2 h3 h4 H
    obtain ⟨k, rfl⟩ : ∃ j, k = j + 1 := ⟨k - 1, by omega⟩
    obtain ⟨c1, c2, c3, c4, c5⟩ := id hc
    simp only [Ctx.hdr_step] at h2 h3
    simp only [Ctx.isTop_step, Bool.false_eq_true, if_false] at hn
    simp only [Ctx.lay, aassoc] at H
    have Hb := H.eqv (by frame : _ = pt (.heap b) (IsNode w c.hdr.1 c.hdr.2 (keys l ++ (S, p) :: keys r)) + _)
    have hb : b ≠ 0 := Holds.ne0 Hb
    obtain ⟨cl, hcl, nb, rfl, n1, n2, n3, n4⟩ := Hb.get
    have hl : nb.len = l.length + 1 + r.length := by rw [n3]; simp; omega
    have hge := E.baseMin_ge
    obtain ⟨t, t1, t2, t3, -⟩ := sibling_key (by split at c3 <;> omega) n4
    obtain ⟨F', hF'⟩ : ∃ F', lays E w b 0 l + lays E w b (l.length + 1) r = SegTree.lay E w b (besides l.length) t + F' := by
      rcases List.eq_nil_or_concat l with rfl | ⟨lt, t', rfl⟩
      · cases r with
        | nil => simp at t2
        | cons t' r =>
          rw [sibling_nil] at t1; cases t1
          exact ⟨_, by simp [besides]; rfl⟩
      · rw [List.concat_eq_append] at *
        rw [sibling_snoc] at t1; cases t1
        refine ⟨lays E w b 0 lt + lays E w b ((lt ++ [t]).length + 1) r, ?_⟩
        simp only [lays_append, lays_cons, lays_nil, besides, List.length_append, List.length_cons, List.length_nil]
        simp
        ac_rfl
    have Ht := H.eqv (by rw [← aassoc (lays E w b 0 l), hF', lay_succ] : _ =
      pt (.heap b) (IsNode w c.hdr.1 c.hdr.2 (keys l ++ (S, p) :: keys r)) +
        (pt (.heap t.addr) (IsNode w b (besides l.length) (keys t.kids)) + lays E w t.addr 0 t.kids + F' +
          (c.lay E w b (S + (elemsL l).length + (elemsL r).length) + F)))
    simp only [aassoc] at Ht
    have Ht := Ht.eqv (by frame : _ = pt (.heap t.addr) (IsNode w b (besides l.length) (keys t.kids)) + _)
    obtain ⟨ct, hct, nt, rfl, -, -, t5, -⟩ := Ht.get
    rw [keys_length] at t5
    have htw : t.WF E := by
      rcases List.mem_append.1 t2 with h | h
      · exact c1 t h
      · exact c2 t h
    rw [Tree.wf_succ] at htw
    have hw : t.width = t.kids.length := rfl
    rw [Ctx.joins_step, t1]
    subst h2
    rw [← t3, ← h3] at hct
    by_cases hmin : n = E.baseMin
    · by_cases hs : nt.len = E.baseMin
      · rw [if_neg (by
          rw [not_or, not_not, not_not]
          unfold Env.least; rw [if_neg (by omega)]
          exact ⟨hmin, by simp only [Option.map_some]; rw [hw, ← t5, hs]⟩)]
        refine .merge h1 hb (h4.trans hmin) hcl hct hs ?_
        exact ih (by omega) c5 c3 hcl n1 n2 hl (H.eqv (by frame : _ = c.lay E w _ _ + _))
      · rw [if_pos (by
          right; unfold Env.least; rw [if_neg (by omega)]
          simp only [Option.map_some, ne_eq, Option.some.injEq]; omega)]
        exact .steal h1 hb (h4.trans hmin) hcl hct (by omega)
    · rw [if_pos (by left; unfold Env.least; rw [if_neg (by omega)]; exact hmin)]
      exact .room h1 hb (by omega)

theorem frees_mem {h h' : Nat} {g : Log} {w : Nat} {F : Asrt α} {t : Tree α h} {t' : Tree α h'} (hr : t.Root E)
    {i : Nat} (hs : ShrunkBy E t i it.entry t') (h2 : 2 ≤ t.size) (H : Holds g (lay E w 0 0 t + F) m) :
    ∃ k f, Frees E m it k f ∧ t'.blocks + k = t.blocks ∧ h' + f = h ∧ k ≤ h + 1 := by
  obtain ⟨c, s, rfl, h3, h4, h5, h6, -⟩ := hs
  refine ⟨_, _, ?_, h5, h6, c.joins_le _⟩
  have hl : it.segLength = s.xs.length := h4
  rw [Ctx.fill_root] at hr
  obtain ⟨hc, hh⟩ := hr
  rw [Ctx.fill_lay, aassoc] at H
  have hp : it.entry.leaf.ptr = c.hdr.1 := by rw [h3]; rfl
  have hi : it.entry.leaf.idx = c.hdr.2 := by rw [h3]; rfl
  cases c with
  | top =>
    rw [Ctx.joins_top, if_pos (.inl rfl)]
    refine .only hp ?_
    rw [hl]
    exact h2
  | step b l r c =>
    obtain ⟨c1, c2, c3, c4, c5⟩ := id hc
    simp only [Ctx.hdr_step] at hp hi
    simp only [Ctx.lay, aassoc] at H
    have Hb := H.eqv (by frame : _ = pt (.heap b) (IsNode w c.hdr.1 c.hdr.2 (keys l ++ (s.size, s.addr) :: keys r)) + _)
    have hb : b ≠ 0 := Holds.ne0 Hb
    obtain ⟨cl, hcl, nb, rfl, n1, n2, n3, n4⟩ := Hb.get
    have hnl : nb.len = l.length + 1 + r.length := by rw [n3]; simp; omega
    have hge := E.baseMin_ge
    obtain ⟨u, t1, t2, -, t4⟩ := sibling_key (by split at c3 <;> omega) n4
    have hu : u.WF E := by
      rcases List.mem_append.1 t2 with h | h
      · exact c1 u h
      · exact c2 u h
    rw [Tree.wf_zero] at hu
    have hw : u.width = u.xs.length := rfl
    have hz : u.size = u.xs.length := rfl
    unfold Ctx.HoleOk at hh
    rw [if_neg (by simp), Tree.wf_zero] at hh
    rw [Ctx.joins_step, t1]
    rw [← hp] at hcl
    have hb' : it.entry.leaf.ptr ≠ 0 := hp ▸ hb
    rw [← hi] at t4
    by_cases hmin : s.xs.length = E.segMin
    · by_cases hs : u.xs.length = E.segMin
      · rw [if_neg (by
          rw [not_or, not_not, not_not]
          unfold Env.least; rw [if_pos rfl]
          exact ⟨hmin, by simp only [Option.map_some]; rw [hw, hs]⟩)]
        refine .merge hb' (hl.trans hmin) hcl (by omega) ?_
        exact c.joins_mem (by omega) c5 c3 hcl n1 n2 hnl
          (by rw [hp]; exact H.eqv (by frame : _ = c.lay E w b _ + _))
      · rw [if_pos (by
          right; unfold Env.least; rw [if_pos rfl]
          simp only [Option.map_some, ne_eq, Option.some.injEq]; omega)]
        exact .steal hb' (hl.trans hmin) hcl (by omega)
    · rw [if_pos (by left; unfold Env.least; rw [if_pos rfl]; exact hmin)]
      exact .room hb' (by omega)

/-- the addresses of a container's blocks -/
def St.addrs : St α → List Nat
  | .nil => []
  | .tree t => t.addrs

def St.blocks : St α → Nat
  | .nil => 0
  | .tree t => t.blocks

theorem Tree.addrs_length : {k : Nat} → (t : Tree α k) → t.addrs.length = t.blocks
  | 0, _ => rfl
  | k + 1, t => by
    simp only [Tree.addrs, Tree.blocks, List.length_cons, List.length_flatMap]
    rw [Nat.add_comm]
    congr 2
    refine List.map_congr_left fun u _ => ?_
    exact Tree.addrs_length u

theorem St.addrs_length (s : St α) : s.addrs.length = s.blocks := by
  cases s with
  | nil => rfl
  | tree t => exact t.addrs_length

theorem St.addrs_locs {g : Log} {F : Asrt α} {al : Nat} {s : St α} (H : Holds g (cont E o al s + F) m) :
    s.addrs.Nodup ∧ ∀ a, Owns m o a ↔ a ∈ s.addrs := by
  cases s with
  | nil =>
    refine ⟨List.nodup_nil, fun a => ?_⟩
    simp only [St.addrs, List.not_mem_nil, iff_false]
    rintro ⟨h, sz, hb⟩
    exact block_nil H hb
  | tree t =>
    refine ⟨?_, fun a => ⟨fun ⟨h, sz, hb⟩ => addr_block H hb, fun ha => ?_⟩⟩
    · have := H.nodup
      rw [cont_tree, aassoc, Multiset.map_add, lay_locs, Multiset.nodup_add] at this
      exact List.Nodup.of_map _ (Multiset.coe_nodup.1 this.1)
    · refine (block_loc H).1 ?_
      rw [cont_tree, Multiset.map_add, lay_locs, Multiset.mem_add]
      exact .inl (by simpa [St.addrs] using ha)

theorem returned_of {g : Log} {F : Asrt α} {al k : Nat} {s s' : St α} (H : Holds g (cont E o al s + F) m)
    (H' : Holds g (cont E o al s' + F) m') (hx : Ext E m m') (hk : s'.blocks + k = s.blocks) :
    ∃ L, Returned o L m m' ∧ L.length = k := by
  obtain ⟨d1, o1⟩ := St.addrs_locs H
  obtain ⟨d2, o2⟩ := St.addrs_locs H'
  have hlog : m'.log = m.log := H'.log.trans H.log.symm
  have b1 := fun a => block_loc H (a := a)
  have b2 := fun a => block_loc H' (a := a)
  have hlive : ∀ a, Live m' a → Live m a := by
    intro a ha
    rcases hx.live a ha with h | ⟨j, h1, h2, -⟩
    · exact h
    · rw [hlog] at h2; omega
  have n1 := H.nodup
  have n2 := H'.nodup
  rw [Multiset.map_add, Multiset.nodup_add] at n1 n2
  have l1 := fun a => H.live_iff (a := a)
  have l2 := fun a => H'.live_iff (a := a)
  simp only [Multiset.map_add, Multiset.mem_add] at l1 l2
  have hsub : ∀ a, Owns m' o a → Owns m o a := by
    intro a ha
    have h1 := (b2 a).2 ha
    rcases (l1 a).1 (hlive a ((l2 a).2 (.inl h1))) with h | h
    · exact (b1 a).1 h
    · exact absurd h (Multiset.disjoint_left.1 n2.2.2 h1)
  classical
  refine ⟨s.addrs.filter (fun a => a ∉ s'.addrs), ⟨d1.filter _, ?_, ?_, ?_, hlog⟩, ?_⟩
  · intro a ha
    obtain ⟨h1, h2⟩ := List.mem_filter.1 ha
    have h2 : a ∉ s'.addrs := by simpa using h2
    refine ⟨(o1 a).2 h1, ?_⟩
    by_contra hne
    rcases (l2 a).1 (live_ne.2 hne) with h | h
    · exact h2 ((o2 a).1 ((b2 a).1 h))
    · exact Multiset.disjoint_left.1 n1.2.2 ((b1 a).2 ((o1 a).2 h1)) h
  · intro a ha
    have h3 : Live m' a ↔ Live m a := by
      refine ⟨hlive a, fun h => ?_⟩
      rcases (l1 a).1 h with h4 | h4
      · refine (l2 a).2 (.inl ((b2 a).2 ((o2 a).2 ?_)))
        by_contra hne
        exact ha (List.mem_filter.2 ⟨(o1 a).1 ((b1 a).1 h4), by simpa using hne⟩)
      · exact (l2 a).2 (.inr h4)
    rw [live_ne, live_ne] at h3
    exact not_iff_not.1 h3
  · intro a
    rw [o2, o1, List.mem_filter]
    constructor
    · intro h
      exact ⟨(o1 a).1 (hsub a ((o2 a).2 h)), fun ⟨_, h2⟩ => by simp [h] at h2⟩
    · rintro ⟨h1, h2⟩
      by_contra hne
      exact h2 ⟨h1, by simpa using hne⟩
  · have h1 : (s.addrs.filter (fun a => a ∈ s'.addrs)).length = s'.addrs.length := by
      refine List.Perm.length_eq ((List.perm_ext_iff_of_nodup (d1.filter _) d2).2 fun a => ?_)
      rw [List.mem_filter]
      refine ⟨fun h => by simpa using h.2, fun h => ⟨(o1 a).1 (hsub a ((o2 a).2 h)), by simpa using h⟩⟩
    have h2 := List.length_eq_length_filter_add (l := s.addrs) (fun a => decide (a ∈ s'.addrs))
    rw [h1, s.addrs_length, s'.addrs_length] at h2
    have h3 : (s.addrs.filter (fun a => !decide (a ∈ s'.addrs))) = s.addrs.filter (fun a => a ∉ s'.addrs) := by
      congr 1; funext a; simp
    rw [h3] at h2
    omega

/-- C86: erasing one element (by `erase`, `pop_back` or `pop_front`) returns; it gives back
exactly the blocks the documentation's rules name, and the height falls exactly when they say
so. -/
theorem C86_erase (hE : E.Good) (hr : Reach E m) (hc : Contents E o m xs) (hi : i < xs.length)
    (hn : nth E o i m = .ok it m) {x : M α Unit} (hx : Removal E o i xs.length it x) {n : Nat}
    (hh : height o m = .ok n m) :
    ∃ m' k f L, x m = .ok () m' ∧ Frees E m it k f ∧ (∀ k' f', Frees E m it k' f' → k' = k ∧ f' = f) ∧
      Returned o L m m' ∧ L.length = k ∧ k ≤ n ∧ f ≤ n ∧ height o m' = .ok (n - f) m' := by
  obtain ⟨al, s, F, hs, rfl, H⟩ := hr.cont hE hc
  have ha := at_of_nth hs H (by omega) hn
  have h2 : height o m = .ok s.ht m := getHeight_c H
  rw [h2] at hh; cases hh
  have key : ∃ m', (do let _ ← erase_single E o it : M α Unit) m = .ok () m' ∧ ∃ k f L, Frees E m it k f ∧
      Returned o L m m' ∧ L.length = k ∧ k ≤ s.ht ∧ f ≤ s.ht ∧ height o m' = .ok (s.ht - f) m' := by
    have h1 := erase_single_x hE hs ha hi H
    have hp := (Pres.erase_single (E := E) o it).run m
    unfold Spec at h1
    cases e : erase_single E o it m with
    | throw e m' => rw [e] at h1; exact h1.elim
    | ub u => rw [e] at h1; exact h1.elim
    | div => rw [e] at h1; exact h1.elim
    | ok jt m' =>
      rw [e] at h1 hp
      obtain ⟨s', hs', hel, -, hsh, H'⟩ := h1
      refine ⟨m', bind_ok e, ?_⟩
      have hh' : height o m' = .ok s'.ht m' := getHeight_c H'
      have hrest : ∀ k f, Frees E m it k f → s'.blocks + k = s.blocks → s'.ht + f = s.ht → k ≤ s.ht → ∃ k f L, Frees E m it k f ∧
          Returned o L m m' ∧ L.length = k ∧ k ≤ s.ht ∧ f ≤ s.ht ∧ height o m' = .ok (s.ht - f) m' := by
        intro k f h3 h4 h5 h8
        obtain ⟨L, h6, h7⟩ := returned_of H H' hp h4
        exact ⟨k, f, L, h3, h6, h7, h8, by omega, by rw [hh']; congr 1; omega⟩
      cases s with
      | nil => exact hsh.elim
      | @tree h t =>
        cases s' with
        | nil =>
          obtain ⟨h3, h4, rfl⟩ := hsh
          obtain ⟨e2, p⟩ := it
          obtain ⟨rfl, hat⟩ := ha
          obtain ⟨c, sg, j, hf, -, he2, -⟩ := hat
          dsimp only at he2
          have hlen : sg.xs.length = 1 ∧ c.hdr.1 = 0 := by
            cases c with
            | top =>
              refine ⟨?_, rfl⟩
              rw [← hf] at h3; exact h3
            | step _ _ _ c => exact absurd c.le (by omega)
          refine hrest 1 1 (.last ?_ ?_) (by simp [St.blocks, h4]) rfl (Nat.le_refl _)
          · rw [he2]; exact hlen.2
          · rw [he2]; exact hlen.1
        | @tree h' t' =>
          have hpos : 1 ≤ t'.size := Tree.Root.size_pos hs'.2
          have hsz : t'.size + 1 = t.size := by
            have := congrArg List.length hel
            simp only [St.elems_tree, List.length_eraseIdx] at this hi
            rw [if_pos hi] at this
            simp only [Tree.size]
            omega
          have H0 := H
          rw [cont_tree, aassoc] at H0
          obtain ⟨k, f, h3, h4, h5, h6⟩ := frees_mem hs.2 hsh (by rw [← hsz]; exact Nat.succ_le_succ hpos) H0
          exact hrest k f h3 h4 (by simp only [St.ht]; omega) h6
  have fin : ∃ m', x m = .ok () m' ∧ ∃ k f L, Frees E m it k f ∧
      Returned o L m m' ∧ L.length = k ∧ k ≤ s.ht ∧ f ≤ s.ht ∧ height o m' = .ok (s.ht - f) m' := by
    cases hx with
    | erase => exact key
    | pop_back h =>
      obtain ⟨m', h1, h2⟩ := key
      refine ⟨m', ?_, h2⟩
      unfold pop_back
      rw [bind_ok (find_last_c hs (by rw [show s.elems.length - 1 = i by rw [← h]; rfl]; exact ha) (by omega) H)]
      exact h1
    | pop_front h =>
      subst h
      obtain ⟨m', h1, h2⟩ := key
      refine ⟨m', ?_, h2⟩
      unfold pop_front
      rw [bind_ok (find_first_c hs ha H)]
      exact h1
  obtain ⟨m', h1, k, f, L, h3, h4⟩ := fin
  exact ⟨m', k, f, L, h1, h3, fun k' f' h => h.unique h3, h4⟩

/-- C86: an erasure in a segment above the minimum gives back nothing, anywhere, and keeps the
height. -/
theorem C86_room (hE : E.Good) (hr : Reach E m) (hc : Contents E o m xs) (hi : i < xs.length)
    (hn : nth E o i m = .ok it m) {x : M α Unit} (hx : Removal E o i xs.length it x) (hroom : E.segMin < it.segLength)
    {n : Nat} (hh : height o m = .ok n m) :
    ∃ m', x m = .ok () m' ∧ (∀ a, m'.cell (.heap a) = none ↔ m.cell (.heap a) = none) ∧
      (∀ a, Owns m' o a ↔ Owns m o a) ∧ height o m' = .ok n m' := by
  obtain ⟨m', k, f, L, h1, -, h3, h4, h5, -, -, h6⟩ := C86_erase hE hr hc hi hn hx hh
  have := E.segMin_pos
  have h0 : Frees E m it 0 0 := by
    by_cases hp : it.entry.leaf.ptr = 0
    · exact .only hp (by omega)
    · exact .room hp hroom
  obtain ⟨rfl, rfl⟩ := h3 _ _ h0
  have hL : L = [] := List.length_eq_zero_iff.1 h5
  subst hL
  exact ⟨m', h1, fun a => h4.kept a (by simp), fun a => by simp [h4.owned], h6⟩

/-- C86: an erasure gives back at most `height()` blocks and takes off at most one level; a
container keeps its height if it gives back none. -/
theorem C86_bound (hE : E.Good) (hr : Reach E m) (hc : Contents E o m xs) (hi : i < xs.length)
    (hn : nth E o i m = .ok it m) {x : M α Unit} (hx : Removal E o i xs.length it x) {n : Nat}
    (hh : height o m = .ok n m) :
    ∃ m' n' L, x m = .ok () m' ∧ Returned o L m m' ∧ L.length ≤ n ∧ height o m' = .ok n' m' ∧ n' ≤ n ∧ n ≤ n' + 1 ∧
      (L = [] → n' = n) := by
  obtain ⟨m', k, f, L, h1, h2, -, h4, h5, h6, h7, h8⟩ := C86_erase hE hr hc hi hn hx hh
  have := h2.le
  refine ⟨m', n - f, L, h1, h4, by omega, h8, by omega, by omega, ?_⟩
  rintro rfl
  simp at h5
  omega

/-! ### Examples -/

-- an element of the only segment: nothing is freed
example : ∃ m', pop_back demo 0 (oneSeg [1, 2]) = .ok () m' ∧
    (∀ a, m'.cell (.heap a) = none ↔ (oneSeg [1, 2]).cell (.heap a) = none) ∧
    (∀ a, Owns m' 0 a ↔ Owns (oneSeg [1, 2]) 0 a) ∧ height 0 m' = .ok 1 m' :=
  C86_room (i := 1) (it := ⟨⟨⟨1, 1, 2⟩, ⟨0, 0⟩⟩, 1⟩) demo_good demo_12 (oneSeg_contents (by decide)) (by decide) rfl
    (.pop_back rfl) (by decide) (n := 1) rfl

theorem popped (hE : E.Good) (hr : Reach E m) (hc : Contents E o m xs) (hne : xs ≠ []) {n : Nat}
    (hh : height o m = .ok n m) :
    ∃ m' it k f, nth E o (xs.length - 1) m = .ok it m ∧ Frees E m it k f ∧ Reach E m' ∧ Contents E o m' xs.dropLast ∧
      height o m' = .ok (n - f) m' := by
  have hl : 0 < xs.length := List.length_pos_iff.2 hne
  obtain ⟨it, hn⟩ := hr.nth hE hc (xs.length - 1)
  obtain ⟨m', k, f, L, h1, h2, -, -, -, -, -, h8⟩ := C86_erase hE hr hc (i := xs.length - 1) (by omega) hn
    (.pop_back (by omega)) hh
  rcases hr.call hE hc .popBack (fun _ => hne) with ⟨r, m2, al, x', e, hm, hcm, hA⟩ | ⟨e, m2, al, x', he, hx, -⟩
  · obtain ⟨-, u, h⟩ := unit_inv e
    rw [h1] at h; cases h
    refine ⟨m', it, k, f, hn, h2, hA.reach, ?_, h8⟩
    rw [hm.2] at hcm; exact hcm
  · exact hx.elim

-- a tree of height three, emptied: one of the erasures on the way drops a root with two children
theorem demo_drop : ∀ (l : Nat) {m : Mem Nat} {xs : List Nat} {n : Nat}, xs.length = l → Reach demo m → Contents demo 0 m xs →
    height 0 m = .ok n m → 2 ≤ n → ∃ (m : Mem Nat) (it : Iter) (xs : List Nat) (k n : Nat), Reach demo m ∧ Contents demo 0 m xs ∧
      xs ≠ [] ∧ nth demo 0 (xs.length - 1) m = .ok it m ∧ Frees demo m it k 1 ∧ height 0 m = .ok n m ∧ 2 ≤ n := by
  intro l
  induction l with
  | zero =>
    intro m xs n h1 hr hc hh hn
    have := (C16_empty demo_good hr hc hh).2 (List.length_eq_zero_iff.1 h1)
    omega
  | succ l ih =>
    intro m xs n h1 hr hc hh hn
    have hne : xs ≠ [] := by rintro rfl; simp at h1
    obtain ⟨m', it, k, f, h2, h3, h4, h5, h6⟩ := popped demo_good hr hc hne hh
    have hf := h3.le.1
    by_cases h0 : f = 0
    · subst h0
      exact ih (by rw [List.length_dropLast]; omega) h4 h5 h6 hn
    · obtain rfl : f = 1 := by omega
      exact ⟨m, it, xs, k, n, hr, hc, hne, h2, h3, hh, hn⟩

example : ∃ (m : Mem Nat) (it : Iter) (xs : List Nat) (k n : Nat), Reach demo m ∧ Contents demo 0 m xs ∧
    xs ≠ [] ∧ nth demo 0 (xs.length - 1) m = .ok it m ∧ Frees demo m it k 1 ∧ height 0 m = .ok n m ∧ 2 ≤ n := by
  obtain ⟨m, hr, hc, n, hh, hn⟩ := demo_eight
  exact demo_drop 8 rfl hr hc hh (by omega)

end SegTree
