/-
  `iterator_t` (seq.hpp 502-700, 878-925) on containers, and the block structure
  of segments; balance (heights) and occupancy.
-/
import Verif.Proof.Algo
set_option autoImplicit false
set_option linter.unusedSimpArgs false

namespace SegTree

variable {α β γ : Type} {E : Env α} {g : Log} {F : Asrt α} {m : Mem α} {o al : Nat}

section
variable {s : St α} {i j : Nat} {it jt first last : Iter}

/-! ### signed jumps -/

theorem Env.toSize_pos {d : Nat} (h : d < E.W) : toSize E (d : Int) = d := by
  unfold toSize
  rw [← Int.natCast_emod, Nat.mod_eq_of_lt h]; simp

theorem Env.toSize_neg {d : Nat} (h0 : 0 < d) (h : d < E.W) : toSize E (-(d : Int)) = E.W - d := by
  unfold toSize
  have : (-(d : Int)) % (E.W : Int) = ((E.W - d : Nat) : Int) := by
    rw [show (-(d : Int)) = ((E.W - d : Nat) : Int) + (E.W : Int) * (-1) by omega, Int.add_mul_emod_self_left,
      ← Int.natCast_emod, Nat.mod_eq_of_lt (by omega)]
  rw [this]; simp

theorem it_add_c {d : Int} (hs : s.Ok E) (ha : s.At i it) (h0 : 0 ≤ (i : Int) + d)
    (h1 : (i : Int) + d ≤ s.elems.length) (H : Holds g (cont E o al s + F) m) :
    ∃ it', it_add E it d m = .ok it' m ∧ s.At ((i : Int) + d).toNat it' := by
  unfold it_add move_iterator_count
  have hW := hs.1
  have hle := ha.le
  rcases Int.lt_trichotomy d 0 with hd | hd | hd
  · obtain ⟨n, rfl⟩ : ∃ n : Nat, d = -(n : Int) := ⟨d.natAbs, by omega⟩
    have hn : 0 < n := by omega
    rw [Env.toSize_neg hn (by omega)]
    rw [if_neg (by omega), if_pos (by omega)]
    obtain ⟨e', h2, h3⟩ := move_prev_count_c (n := n) hs ha (by omega) H
    have hneg : E.wneg (E.W - n) = n := by
      unfold Env.wneg
      rw [Nat.mod_eq_of_lt (by omega : E.W - n < E.W), Nat.mod_eq_of_lt (by omega)]; omega
    rw [hneg, bind_ok h2]
    refine ⟨_, rfl, ?_⟩
    have : E.wadd it.pos (E.W - n) = i - n := by
      unfold Env.wadd
      rw [ha.pos, show i + (E.W - n) = (i - n) + E.W by omega, Nat.add_mod_right, Nat.mod_eq_of_lt (by omega)]
    rw [this, show ((i : Int) + -(n : Int)).toNat = i - n by omega]
    exact h3
  · subst hd
    rw [if_neg (by omega), if_neg (by omega)]
    refine ⟨_, rfl, ?_⟩
    rw [show ((i : Int) + 0).toNat = i by omega]
    have : E.wadd it.pos (toSize E 0) = it.pos := by
      rw [show (0 : Int) = ((0 : Nat) : Int) by rfl, Env.toSize_pos (by omega)]
      unfold Env.wadd
      rw [ha.pos, Nat.add_zero, Nat.mod_eq_of_lt (by omega)]
    rw [this]; exact ha
  · obtain ⟨n, rfl⟩ : ∃ n : Nat, d = (n : Int) := ⟨d.toNat, by omega⟩
    have hn : 0 < n := by omega
    rw [Env.toSize_pos (by omega)]
    rw [if_pos (by omega)]
    obtain ⟨e', h2, h3⟩ := move_next_count_c (n := n) hs ha hn (by omega) H
    rw [bind_ok h2]
    refine ⟨_, rfl, ?_⟩
    have : E.wadd it.pos n = i + n := by
      unfold Env.wadd
      rw [ha.pos, Nat.mod_eq_of_lt (by omega)]
    rw [this, show ((i : Int) + (n : Int)).toNat = i + n by omega]
    exact h3

theorem it_sub_c {d : Int} (hs : s.Ok E) (ha : s.At i it) (h0 : 0 ≤ (i : Int) - d)
    (h1 : (i : Int) - d ≤ s.elems.length) (H : Holds g (cont E o al s + F) m) :
    ∃ it', it_sub E it d m = .ok it' m ∧ s.At ((i : Int) - d).toNat it' := by
  have := it_add_c (d := -d) hs ha (by omega) (by omega) H
  rwa [← Int.sub_eq_add_neg] at this

theorem it_index_c {d : Int} (hs : s.Ok E) (ha : s.At i it) (h0 : 0 ≤ (i : Int) + d)
    (h1 : (i : Int) + d < s.elems.length) (H : Holds g (cont E o al s + F) m) :
    it_index E it d m = .ok (s.elems[((i : Int) + d).toNat]'(by omega)) m := by
  unfold it_index dereference_count
  obtain ⟨it', e, ha'⟩ := it_add_c hs ha h0 (by omega) H
  unfold it_add at e
  rw [bind_ok e]
  exact rdElem_c hs ha' (by omega) H

theorem it_diff_c (ha : s.At i it) (hb : s.At j jt) (hW : 2 * s.elems.length < E.W) :
    it_diff E it jt = (i : Int) - j := by
  unfold it_diff difference toDiff
  have := ha.le
  have := hb.le
  rw [ha.pos, hb.pos]
  by_cases h : i > j
  · rw [if_pos h, if_pos (by omega)]; omega
  · rw [if_neg h, if_pos (by omega)]; omega

/-! ### segments -/

/-- where the segment of a valid iterator lies in the sequence -/
theorem St.At.seg_range (ha : s.At i it) :
    it.entry.seg.idx ≤ i ∧ it.entry.seg.idx ≤ it.entry.seg.len ∧
    i - it.entry.seg.idx + it.entry.seg.len ≤ s.elems.length ∧
    (i < s.elems.length → it.entry.seg.idx < it.entry.seg.len) := by
  cases s with
  | nil =>
    obtain ⟨h1, rfl, h3⟩ := ha
    rw [h3]; simp
  | tree t =>
    obtain ⟨h1, c, sg, j, rfl, rfl, h2, h3⟩ := ha
    rw [h2]
    simp only [entryOf, St.elems_tree, Ctx.fill_elems, List.length_append, Tree.elems_zero]
    refine ⟨by omega, by omega, by omega, ?_⟩
    intro h
    rcases h3 with h3 | ⟨h3, h4⟩
    · exact h3
    · rw [h4] at h; simp at h; omega

/-- the block of consecutive elements an iterator's segment holds -/
theorem St.At.seg_elems (hs : s.Ok E) (ha : s.At i it) (H : Holds g (cont E o al s + F) m) {q : Nat}
    (hq : q < it.entry.seg.len) :
    ∃ h : i - it.entry.seg.idx + q < s.elems.length,
      rdElem E it.entry.seg.ptr q m = .ok (s.elems[i - it.entry.seg.idx + q]) m := by
  have hr := ha.seg_range
  refine ⟨by omega, ?_⟩
  cases s with
  | nil =>
    obtain ⟨h1, rfl, h3⟩ := ha
    rw [h3] at hq; simp at hq
  | tree t =>
    obtain ⟨h1, c, sg, j, rfl, rfl, h2, h3⟩ := ha
    have hj : it.entry.seg.idx = j := by rw [h2]; rfl
    rw [h2] at hq
    have hat : (St.tree (c.fill sg)).At (c.pre.length + q) ⟨entryOf c sg q, c.pre.length + q⟩ :=
      ⟨rfl, At.mk_lt (by simpa [entryOf] using hq) rfl⟩
    have hlt : c.pre.length + q < (St.tree (c.fill sg)).elems.length := by
      simp only [entryOf] at hq
      simp only [St.elems_tree, Ctx.fill_elems, List.length_append, Tree.elems_zero]; omega
    have := rdElem_c hs hat hlt H
    have hp : it.entry.seg.ptr = sg.addr := by rw [h2]; rfl
    simp only [entryOf] at this
    rw [hp, this]
    congr 2; omega

theorem after_segment_c (hs : s.Ok E) (ha : s.At i it) (H : Holds g (cont E o al s + F) m) :
    ∃ it', move_after_segment E it m = .ok it' m ∧
      s.At (i - it.entry.seg.idx + it.entry.seg.len) it' := by
  have hr := ha.seg_range
  unfold move_after_segment
  rw [bind_ok (usub_ok hr.2.1 m)]
  cases s with
  | nil =>
    obtain ⟨h1, rfl, h3⟩ := ha
    rw [h3]
    refine ⟨_, rfl, ?_, ?_⟩
    · rw [h1]; simp
    · exact ⟨rfl, rfl⟩
  | tree t =>
    obtain ⟨h1, c, sg, j, rfl, rfl, h2, h3⟩ := ha
    obtain ⟨hc, hh⟩ := (Ctx.fill_root c sg).1 hs.2
    rw [cont_tree, aassoc] at H
    obtain ⟨e', h4, h5⟩ := move_next_leaf_ok (j := j) hc H
    rw [h2, bind_ok h4]
    refine ⟨_, rfl, ?_, ?_⟩
    · show it.pos + _ = _
      rw [h1]
      simp only [entryOf] at hr ⊢; rw [h2] at hr; simp only [entryOf] at hr; omega
    · simp only [entryOf]
      rw [show c.pre.length + j - j + sg.xs.length = c.pre.length + sg.xs.length by omega]
      exact h5

theorem after_segment_count_c {n : Nat} (hs : s.Ok E) (ha : s.At i it)
    (hn : i - it.entry.seg.idx + it.entry.seg.len + n ≤ s.elems.length) (H : Holds g (cont E o al s + F) m) :
    ∃ it', move_after_segment_count E it n m = .ok it' m ∧
      s.At (i - it.entry.seg.idx + it.entry.seg.len + n) it' := by
  have hr := ha.seg_range
  unfold move_after_segment_count
  rw [bind_ok (usub_ok hr.2.1 m)]
  cases s with
  | nil =>
    obtain ⟨h1, rfl, h3⟩ := ha
    rw [h3] at hn ⊢
    simp at hn
    subst hn
    refine ⟨_, rfl, ?_, ?_⟩
    · rw [h1]; simp
    · exact ⟨rfl, rfl⟩
  | tree t =>
    obtain ⟨h1, c, sg, j, rfl, rfl, h2, h3⟩ := ha
    obtain ⟨hc, hh⟩ := (Ctx.fill_root c sg).1 hs.2
    rw [cont_tree, aassoc] at H
    obtain ⟨e', h4, h5⟩ := move_next_leaf_count_ok (j := j) (n := n) hc hh H
    rw [h2] at hn
    simp only [entryOf, St.elems_tree, Ctx.fill_elems, List.length_append, Tree.elems_zero] at hn
    rw [h2, bind_ok h4]
    refine ⟨_, rfl, ?_, ?_⟩
    · show it.pos + _ = _
      rw [h1]
      simp only [entryOf] at hr ⊢; rw [h2] at hr; simp only [entryOf] at hr; omega
    · simp only [entryOf]
      rw [show c.pre.length + j - j + sg.xs.length + n = c.pre.length + sg.xs.length + min n c.post.length by omega]
      exact h5

theorem before_segment_c (hs : s.Ok E) (ha : s.At i it) (hp : it.entry.seg.idx < i)
    (H : Holds g (cont E o al s + F) m) :
    ∃ it', move_before_segment E it m = .ok it' m ∧ s.At (i - it.entry.seg.idx - 1) it' := by
  unfold move_before_segment
  rw [ha.pos, bind_ok (usub_ok (by omega) m)]
  cases s with
  | nil =>
    obtain ⟨h1, rfl, h3⟩ := ha
    omega
  | tree t =>
    obtain ⟨h1, c, sg, j, rfl, rfl, h2, h3⟩ := ha
    obtain ⟨hc, hh⟩ := (Ctx.fill_root c sg).1 hs.2
    rw [cont_tree, aassoc] at H
    rw [h2] at hp ⊢
    simp only [entryOf] at hp
    have hpre : c.pre ≠ [] := by intro h; rw [h] at hp; simp at hp
    obtain ⟨e', h4, h5⟩ := move_prev_leaf_ok (j := j) hc hpre H
    rw [bind_ok h4]
    refine ⟨_, rfl, ?_, ?_⟩
    · simp only [entryOf]; omega
    · simp only [entryOf]
      rw [show c.pre.length + j - j - 1 = c.pre.length - 1 by omega]
      exact h5

/-- what `before_segment(count)` really does: the entry denotes one position,
the cached position another -/
theorem before_segment_count_c {n : Nat} (hs : s.Ok E) (ha : s.At i it) (hn0 : 0 < n)
    (hn : n ≤ i - it.entry.seg.idx) (H : Holds g (cont E o al s + F) m) :
    ∃ it' jt, move_before_segment_count E it n m = .ok it' m ∧ s.At (i - it.entry.seg.idx - n) jt ∧
      it'.entry = jt.entry ∧ it'.pos = (i - it.entry.seg.idx - 1 + n) % E.W := by
  unfold move_before_segment_count
  have hr := ha.seg_range
  have hW := hs.1
  have hle := ha.le
  cases s with
  | nil =>
    obtain ⟨h1, rfl, h3⟩ := ha
    omega
  | tree t =>
    have hpos := ha.pos
    obtain ⟨h1, c, sg, j, rfl, rfl, h2, h3⟩ := ha
    obtain ⟨hc, hh⟩ := (Ctx.fill_root c sg).1 hs.2
    rw [cont_tree, aassoc] at H
    rw [h2] at hn hr ⊢
    simp only [entryOf] at hn hr
    obtain ⟨e', h4, h5⟩ := move_prev_leaf_count_ok (j := j) (n := n) hc hn0 (by omega) H
    rw [bind_ok h4]
    refine ⟨_, ⟨e', c.pre.length + j - j - n⟩, rfl, ⟨rfl, ?_⟩, rfl, ?_⟩
    · simp only [entryOf]
      rw [show c.pre.length + j - j - n = c.pre.length - n by omega]
      exact h5
    · simp only [entryOf]
      rw [h1]
      unfold Env.wsub
      have key : ∀ a b : Nat, b ≤ E.W → E.wadd a (E.wneg b) = (a + (E.W - b)) % E.W := by
        intro a b hb
        unfold Env.wadd Env.wneg
        rcases Nat.lt_or_eq_of_le hb with hb | rfl
        · rw [Nat.mod_eq_of_lt hb, Nat.add_mod_mod]
        · simp
      rw [key (j + 1) n (by omega)]
      have hb : (j + 1 + (E.W - n)) % E.W ≤ E.W := Nat.le_of_lt (Nat.mod_lt _ (by omega))
      rw [key _ _ hb]
      by_cases hjn : n ≤ j + 1
      · have : (j + 1 + (E.W - n)) % E.W = (j + 1 - n) % E.W := by
          rw [show j + 1 + (E.W - n) = j + 1 - n + E.W by omega, Nat.add_mod_right]
        rw [this]
        by_cases hlt : j + 1 - n < E.W
        · rw [Nat.mod_eq_of_lt hlt, show c.pre.length + j + (E.W - (j + 1 - n)) = c.pre.length + j - j - 1 + n + E.W by omega,
            Nat.add_mod_right]
        · exfalso
          simp only [St.elems_tree, Ctx.fill_elems, List.length_append, Tree.elems_zero] at hW hle
          omega
      · have : (j + 1 + (E.W - n)) % E.W = j + 1 + (E.W - n) := Nat.mod_eq_of_lt (by omega)
        rw [this]
        rw [show c.pre.length + j + (E.W - (j + 1 + (E.W - n))) = c.pre.length + j - j - 1 + n by omega]

end

/-! ### balance -/

/-- least number of elements of a non-root subtree of height `k` -/
def minSize (E : Env α) (k : Nat) : Nat := E.baseMin ^ k * E.segMin
def maxSize (E : Env α) (k : Nat) : Nat := E.baseMax ^ k * E.segMax

theorem elemsL_ge {k n : Nat} {l : List (Tree α k)} (h : ∀ t ∈ l, n ≤ t.elems.length) :
    l.length * n ≤ (elemsL l).length := by
  induction l with
  | nil => simp
  | cons t l ih =>
    have h1 := h t (by simp)
    have h2 := ih (fun t ht => h t (by simp [ht]))
    simp only [List.length_cons, elemsL_cons, List.length_append]
    rw [Nat.add_mul]; omega
theorem elemsL_le {k n : Nat} {l : List (Tree α k)} (h : ∀ t ∈ l, t.elems.length ≤ n) :
    (elemsL l).length ≤ l.length * n := by
  induction l with
  | nil => simp
  | cons t l ih =>
    have h1 := h t (by simp)
    have h2 := ih (fun t ht => h t (by simp [ht]))
    simp only [List.length_cons, elemsL_cons, List.length_append]
    rw [Nat.add_mul]; omega

theorem Tree.WF.ge : {k : Nat} → {t : Tree α k} → t.WF E → minSize E k ≤ t.elems.length
  | 0, t, h => by
    have := h.1
    simp only [minSize, Nat.pow_zero, Nat.one_mul]; exact this
  | k + 1, t, h => by
    rw [Tree.wf_succ] at h
    have := elemsL_ge (fun c hc => (h.2.2 c hc).ge)
    rw [Tree.elems_succ]
    refine Nat.le_trans ?_ this
    simp only [minSize]
    rw [Nat.pow_succ, Nat.mul_right_comm, Nat.mul_comm t.kids.length]
    exact Nat.mul_le_mul_left _ h.1

theorem Tree.Root.le : {k : Nat} → {t : Tree α k} → t.Root E → t.elems.length ≤ maxSize E k
  | 0, t, h => by
    have := h.2
    simp only [maxSize, Nat.pow_zero, Nat.one_mul]; exact this
  | k + 1, t, h => by
    rw [Tree.root_succ] at h
    have := elemsL_le (fun c hc => (h.2.2 c hc).root.le)
    rw [Tree.elems_succ]
    refine Nat.le_trans this ?_
    simp only [maxSize]
    rw [Nat.pow_succ, Nat.mul_right_comm, Nat.mul_comm t.kids.length]
    exact Nat.mul_le_mul_left _ h.2.1

theorem St.Ok.ht_zero {s : St α} (hs : s.Ok E) : s.ht = 0 ↔ s.elems = [] := by
  cases s with
  | nil => simp [St.ht]
  | tree t =>
    have := Tree.Root.size_pos hs.2
    simp only [St.ht, St.elems_tree]
    constructor
    · intro h; omega
    · intro h; rw [h] at this; simp at this

theorem St.Ok.size_le {s : St α} (hs : s.Ok E) : s.elems.length ≤ E.baseMax ^ (s.ht - 1) * E.segMax := by
  cases s with
  | nil => simp
  | tree t => exact Tree.Root.le hs.2

theorem St.Ok.size_ge {s : St α} (hs : s.Ok E) (h2 : 2 ≤ s.ht) :
    2 * (E.baseMin ^ (s.ht - 2) * E.segMin) ≤ s.elems.length := by
  cases s with
  | nil => simp [St.ht] at h2
  | @tree h t =>
    cases h with
    | zero => simp [St.ht] at h2
    | succ h =>
      have hr := Tree.root_succ.1 hs.2
      have := elemsL_ge (fun c hc => (hr.2.2 c hc).ge)
      simp only [St.ht, St.elems_tree, Tree.elems_succ]
      refine Nat.le_trans ?_ this
      exact Nat.mul_le_mul_right _ hr.1

/-! ### occupancy -/

/-- addresses and contents of the segments of a tree, left to right -/
def Tree.segs : {k : Nat} → Tree α k → List (Nat × List α)
  | 0, t => [(t.1, t.2)]
  | _ + 1, t => t.2.flatMap Tree.segs

def St.segs : St α → List (Nat × List α)
  | nil => []
  | tree t => t.segs

end SegTree
