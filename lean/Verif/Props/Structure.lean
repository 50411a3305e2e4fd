/-
  C16, C17, C40, C41 (positive part), C46, C47, C48: the shape of the tree, its
  occupancy, the constants, the cached sizes, iterator stability.

  `Block m o h a sz` (Props/Spec.lean) says that following the root pointer and
  the child pointers of container `o` in the raw memory `m` leads to the block at
  address `a`, `h` levels above the segments, whose recorded size is `sz`.
-/
import Verif.Props.Iterators
import Verif.Proof.Blocks
set_option autoImplicit false

namespace SegTree
variable {α : Type} {E : Env α} {m m' : Mem α} {o i j n h a sz : Nat} {xs : List α} {v : α} {it jt kt : Iter} {e : Exn}

/-! ### C40: the constants -/

/-- C40: for all template arguments the capacities make sense: a full block plus
one splits into two blocks that are at least minimal and at most full, and a
minimal block that has lost an element merges with a minimal sibling into a block
that is at most full. -/
theorem C40_constants (E : Env α) :
    1 ≤ E.segMax ∧ 3 ≤ E.baseMax ∧ 1 ≤ E.segMin ∧ 2 ≤ E.baseMin ∧ E.segMin ≤ E.segMax ∧ E.baseMin ≤ E.baseMax ∧
    -- a split leaves `min` in one half and the rest in the other
    E.segMin ≤ E.segMax + 1 - E.segMin ∧ E.segMax + 1 - E.segMin ≤ E.segMax ∧
    E.baseMin ≤ E.baseMax + 1 - E.baseMin ∧ E.baseMax + 1 - E.baseMin ≤ E.baseMax ∧
    -- a merge
    E.segMin + (E.segMin - 1) ≤ E.segMax ∧ E.baseMin + (E.baseMin - 1) ≤ E.baseMax := by
  have h1 := E.segMax_pos
  have h2 := E.baseMax_ge
  unfold Env.segMin Env.baseMin
  omega

/-- C40: a segment does not exceed the byte target unless a single element
already does, and uses it as well as possible -/
theorem C40_segment_bytes (E : Env α) (h : 0 < E.sizeofT) :
    E.segMax * E.sizeofT ≤ max E.segTarget E.sizeofT ∧
    (E.sizeofT ≤ E.segTarget → E.segTarget < (E.segMax + 1) * E.sizeofT) := by
  have key : E.segTarget / E.sizeofT * E.sizeofT ≤ E.segTarget := Nat.div_mul_le_self _ _
  have key2 := Nat.lt_div_mul_add h (a := E.segTarget)
  unfold Env.segMax Env.segFit Env.segFree
  split
  · rename_i hf
    refine ⟨by omega, fun _ => ?_⟩
    rw [Nat.add_mul, Nat.one_mul]; exact key2
  · rename_i hf
    refine ⟨by omega, fun hh => ?_⟩
    have h1 : 1 ≤ E.segTarget / E.sizeofT := (Nat.one_le_div_iff h).2 hh
    have h2 : E.segTarget / E.sizeofT = 1 := by omega
    rw [h2] at key2
    omega

/-- C40: a node does not exceed the byte target unless three children already do -/
theorem C40_node_bytes (E : Env α) :
    E.sizeofNodeBase + E.baseMax * E.sizeofNodeData
      ≤ max E.baseTarget (E.sizeofNodeBase + 3 * E.sizeofNodeData) := by
  have key : E.baseFree / E.sizeofNodeData * E.sizeofNodeData ≤ E.baseFree := Nat.div_mul_le_self _ _
  unfold Env.baseMax Env.baseFit
  split
  · rename_i hf
    have : E.baseFree ≠ 0 := by intro h0; rw [h0] at hf; simp at hf
    unfold Env.baseFree Env.nodeSize at *
    split at this
    · exact absurd rfl this
    · rename_i h1
      rw [if_neg h1] at key ⊢
      omega
  · omega

-- the small configuration, and the default one (seq_fwd.hpp 13: 1024 and 768 bytes; 4-byte
-- elements, LP64)
example : demo.segMax = 2 ∧ demo.baseMax = 3 := by decide
example : (({ demo with segTarget := 1024, baseTarget := 768 } : Env Nat).segMax,
    ({ demo with segTarget := 1024, baseTarget := 768 } : Env Nat).baseMax) = (256, 47) := by decide

/-! ### C16: balance -/

/-- C16: `height()` is 0 iff the container is empty -/
theorem C16_empty (hE : E.Good) (hr : Reach E m) (hc : Contents E o m xs) (hh : height o m = .ok n m) :
    n = 0 ↔ xs = [] := by
  obtain ⟨al, s, F, hs, rfl, H⟩ := hr.cont hE hc
  have h1 : height o m = .ok s.ht m := getHeight_c H
  rw [h1] at hh; cases hh
  exact hs.ht_zero

/-- C16: a tree of height `n` holds at most `segment_max * base_max^(n-1)`
elements, and from height 2 on at least `2 * base_min^(n-2) * segment_min` -/
theorem C16_bounds (hE : E.Good) (hr : Reach E m) (hc : Contents E o m xs) (hh : height o m = .ok n m) :
    xs.length ≤ E.segMax * E.baseMax ^ (n - 1) ∧ (2 ≤ n → 2 * E.baseMin ^ (n - 2) * E.segMin ≤ xs.length) := by
  obtain ⟨al, s, F, hs, rfl, H⟩ := hr.cont hE hc
  have h1 : height o m = .ok s.ht m := getHeight_c H
  rw [h1] at hh; cases hh
  exact ⟨by rw [Nat.mul_comm]; exact hs.size_le, fun h2 => by rw [Nat.mul_assoc]; exact hs.size_ge h2⟩

/-- C16: the height is logarithmic in the size: `2^(height()-1) <= size()` -/
theorem C16_log (hE : E.Good) (hr : Reach E m) (hc : Contents E o m xs) (hh : height o m = .ok n m) (hn : n ≠ 0) :
    2 ^ (n - 1) ≤ xs.length := by
  have hne : xs ≠ [] := fun h => hn ((C16_empty hE hr hc hh).2 h)
  have hpos := List.length_pos_iff.2 hne
  by_cases h2 : 2 ≤ n
  · refine Nat.le_trans ?_ ((C16_bounds hE hr hc hh).2 h2)
    have h3 : 2 ^ (n - 2) ≤ E.baseMin ^ (n - 2) := Nat.pow_le_pow_left E.baseMin_ge _
    obtain ⟨q, rfl⟩ : ∃ q, n = q + 2 := ⟨n - 2, by omega⟩
    simp only [Nat.add_sub_cancel] at *
    rw [show q + 2 - 1 = q + 1 by omega, Nat.pow_succ, Nat.mul_comm (2 ^ q)]
    exact Nat.le_trans (Nat.mul_le_mul_left 2 h3) (Nat.le_mul_of_pos_right _ E.segMin_pos)
  · have : n = 1 := by omega
    subst this
    exact hpos

-- the hypotheses are met: 8 elements in a tree of height at least 3
example : ∃ (m : Mem Nat) (n : Nat), Reach demo m ∧ Contents demo 0 m eight ∧ height 0 m = .ok n m ∧ 3 ≤ n := by
  obtain ⟨m, h1, h2, n, h3, h4⟩ := demo_eight
  exact ⟨m, n, h1, h2, h3, h4⟩

/-! ### C17: occupancy -/

section
variable {al k : Nat} {g : Log} {F : Asrt α} {s : St α}

theorem Block.tree (H : Holds g (cont E o al s + F) m) (hb : Block m o h a sz) :
    ∃ hh, ∃ t : Tree α hh, s = .tree t := by
  cases s with
  | nil => exact absurd hb (block_nil H)
  | tree t => exact ⟨_, t, rfl⟩

theorem Ctx.isTop_iff {hh : Nat} (c : Ctx α hh k) : c.isTop = true → hh = k := by
  cases c with
  | top => intro _; rfl
  | step => simp

end

/-- C17: a segment holds at least one and at most `segment_max` elements, and at
least `segment_min` if it is not the only block; exactly the first `sz` slots
hold objects (the rest are raw, or of a type whose objects need no destruction). -/
theorem C17_segment (hE : E.Good) (hr : Reach E m) (hh : height o m = .ok n m) (hb : Block m o 0 a sz) :
    1 ≤ sz ∧ sz ≤ E.segMax ∧ (2 ≤ n → E.segMin ≤ sz) ∧
    ∃ w slots, m.cell (.heap a) = some (.seg w slots) ∧ (∀ q < sz, ∃ v, slots q = .val v) ∧
      (E.trivDtor = false → ∀ q, sz ≤ q → slots q = .raw) := by
  obtain ⟨al, hh', t, F, hs, H, c, u, hu, rfl, rfl⟩ := hr.block hE hb
  have h1 : height o m = .ok (hh' + 1) m := getHeight_c H
  rw [h1] at hh; cases hh
  have hroot := hs.2
  rw [← hu] at hroot
  obtain ⟨-, hok⟩ := (Ctx.fill_root c u).1 hroot
  have hr0 := Tree.root_zero.1 (Ctx.holeOk_root hok)
  refine ⟨hr0.1, hr0.2, fun h2 => ?_, ?_⟩
  · have : c.isTop = false := by
      cases ht : c.isTop with
      | false => rfl
      | true => have := c.isTop_iff ht; omega
    unfold Ctx.HoleOk at hok
    rw [this] at hok
    exact (Tree.wf_zero.1 hok).1
  · obtain ⟨sl, h2, h3, h4⟩ := sub_seg H hu
    refine ⟨_, sl, h2, fun q hq => ?_, fun htd q hq => ?_⟩
    · have := h3 q hq
      rw [Nat.zero_add] at this
      exact ⟨_, this⟩
    · rcases h4 q hq with h | h
      · exact h
      · rw [htd] at h; cases h

/-- C17: a node has at most `base_max` children, at least `base_min` unless it is
the root, which has at least two -/
theorem C17_node (hE : E.Good) (hr : Reach E m) (hh : height o m = .ok n m) (hb : Block m o (h + 1) a sz) :
    ∃ w nd, m.cell (.heap a) = some (.node w nd) ∧ 2 ≤ nd.len ∧ nd.len ≤ E.baseMax ∧
      (h + 2 < n → E.baseMin ≤ nd.len) := by
  obtain ⟨al, hh', t, F, hs, H, c, u, hu, rfl, rfl⟩ := hr.block hE hb
  have h1 : height o m = .ok (hh' + 1) m := getHeight_c H
  rw [h1] at hh; cases hh
  have hroot := hs.2
  rw [← hu] at hroot
  obtain ⟨-, hok⟩ := (Ctx.fill_root c u).1 hroot
  have hr0 := Tree.root_succ.1 (Ctx.holeOk_root hok)
  obtain ⟨nd, h2, -, -, h3, -⟩ := sub_node H hu
  refine ⟨_, nd, h2, by rw [h3]; exact hr0.1, by rw [h3]; exact hr0.2.1, fun hlt => ?_⟩
  have : c.isTop = false := by
    cases ht : c.isTop with
    | false => rfl
    | true => have := c.isTop_iff ht; omega
  unfold Ctx.HoleOk at hok
  rw [this] at hok
  rw [h3]
  exact (Tree.wf_succ.1 hok).1

theorem segAddr_block {al hh : Nat} {g : Log} {F : Asrt α} {t : Tree α hh} (H : Holds g (cont E o al (.tree t) + F) m)
    (hb : Block m o 0 a sz) : a ∈ t.segAddrs := by
  obtain ⟨c, u, hu, rfl, -⟩ := (block_iff H).1 hb
  rw [← hu]
  exact c.segAddr_mem u _ (List.mem_singleton.2 rfl)

theorem addr_block {al hh : Nat} {g : Log} {F : Asrt α} {t : Tree α hh} (H : Holds g (cont E o al (.tree t) + F) m)
    (hb : Block m o h a sz) : a ∈ t.addrs := by
  obtain ⟨c, u, hu, rfl, -⟩ := (block_iff H).1 hb
  rw [← hu]
  exact c.addr_mem u _ u.addr_mem

theorem Tree.Root.segAddrs {k : Nat} {t : Tree α (k + 1)} (h : t.Root E) :
    t.segAddrs.length * E.segMin ≤ t.elems.length := by
  rw [Tree.root_succ] at h
  exact segAddrs_len (fun c hc => Tree.WF.segAddrs (h.2.2 c hc))

/-- C17: in a container of height at least 2, the number of segments times
`segment_min` is at most the number of elements; so at least half of the element
storage (up to rounding) is in use. -/
theorem C17_count (hE : E.Good) (hr : Reach E m) (hc : Contents E o m xs) (hh : height o m = .ok n m) (h2 : 2 ≤ n)
    (L : List Nat) (hd : L.Nodup) (hL : ∀ a ∈ L, ∃ sz, Block m o 0 a sz) :
    L.length * E.segMin ≤ xs.length ∧ L.length * E.segMax ≤ 2 * xs.length := by
  have key : L.length * E.segMin ≤ xs.length := by
    obtain ⟨al, s, F, hs, rfl, H⟩ := hr.cont hE hc
    have h1 : height o m = .ok s.ht m := getHeight_c H
    rw [h1] at hh; cases hh
    cases s with
    | nil => simp [St.ht] at h2
    | @tree k t =>
      cases k with
      | zero => simp [St.ht] at h2
      | succ k =>
        have hsub : L ⊆ t.segAddrs := fun a ha => by
          obtain ⟨sz, hb⟩ := hL a ha
          exact segAddr_block H hb
        have hle := (List.subperm_of_subset hd hsub).length_le
        exact Nat.le_trans (Nat.mul_le_mul_right _ hle) (Tree.Root.segAddrs hs.2)
  refine ⟨key, ?_⟩
  have : E.segMax ≤ 2 * E.segMin := by unfold Env.segMin; omega
  calc L.length * E.segMax ≤ L.length * (2 * E.segMin) := Nat.mul_le_mul_left _ this
    _ = 2 * (L.length * E.segMin) := by rw [Nat.mul_left_comm]
    _ ≤ 2 * xs.length := Nat.mul_le_mul_left _ key

/-- C48: the total number of blocks (segments and nodes) is less than twice the
number of segments, so memory is linear in the number of elements: in a container
of height at least 2, `(blocks + 1) * segment_min <= 2 * size()`; a container of
height at most 1 has at most one block. -/
theorem C48_blocks (hE : E.Good) (hr : Reach E m) (hc : Contents E o m xs) (hh : height o m = .ok n m)
    (L : List Nat) (hd : L.Nodup) (hL : ∀ a ∈ L, ∃ h sz, Block m o h a sz) :
    (n ≤ 1 → L.length ≤ n) ∧ (2 ≤ n → (L.length + 1) * E.segMin ≤ 2 * xs.length) := by
  obtain ⟨al, s, F, hs, rfl, H⟩ := hr.cont hE hc
  have h1 : height o m = .ok s.ht m := getHeight_c H
  rw [h1] at hh; cases hh
  cases s with
  | nil =>
    have : L = [] := by
      cases L with
      | nil => rfl
      | cons a L => obtain ⟨h, sz, hb⟩ := hL a (by simp); exact absurd hb (block_nil H)
    subst this
    exact ⟨fun _ => Nat.zero_le _, fun h2 => by simp [St.ht] at h2⟩
  | @tree k t =>
    have hsub : L ⊆ t.addrs := fun a ha => by
      obtain ⟨h, sz, hb⟩ := hL a ha
      exact addr_block H hb
    have hle := (List.subperm_of_subset hd hsub).length_le
    have htot := Tree.Root.addrs hs.2
    cases k with
    | zero =>
      refine ⟨fun _ => by simpa [Tree.addrs, St.ht] using hle, fun h2 => by simp [St.ht] at h2⟩
    | succ k =>
      refine ⟨fun h2 => by simp [St.ht] at h2, fun _ => ?_⟩
      have h3 := Tree.Root.segAddrs hs.2
      calc (L.length + 1) * E.segMin ≤ (2 * t.segAddrs.length) * E.segMin := Nat.mul_le_mul_right _ (by omega)
        _ = 2 * (t.segAddrs.length * E.segMin) := by rw [Nat.mul_assoc]
        _ ≤ 2 * t.elems.length := Nat.mul_le_mul_left _ h3

/-! ### C41 (positive), C46: the fields of the nodes are exact -/

/-- C46: the cached sizes are exact: `size()` is the size recorded for the root,
the size recorded for a node is the sum of those it records for its children (for
a segment see `C17_segment`). -/
theorem C46_sizes (hE : E.Good) (hr : Reach E m) (hb : Block m o (h + 1) a sz) :
    ∃ w nd, m.cell (.heap a) = some (.node w nd) ∧
      sz = ((List.range nd.len).map nd.sizes).sum := by
  obtain ⟨al, hh', t, F, hs, H, c, u, hu, rfl, rfl⟩ := hr.block hE hb
  obtain ⟨nd, h2, -, -, h3, h4⟩ := sub_node H hu
  refine ⟨_, nd, h2, ?_⟩
  have hk : (List.range nd.len).map nd.sizes = u.kids.map Tree.size := by
    refine List.ext_getElem (by simp [h3]) fun q hq1 hq2 => ?_
    have hq : q < u.kids.length := by simpa using hq2
    have := (h4 q (by rw [keys_length]; exact hq)).1
    rw [Nat.zero_add] at this
    simp [this, keys, key]
  rw [hk]
  have : ∀ L : List (Tree α h), (elemsL L).length = (L.map Tree.size).sum := by
    intro L
    induction L with
    | nil => rfl
    | cons x L ih => simp [Tree.size] at ih ⊢; exact ih
  exact this u.kids

/-- C46: no size ever reaches the modulus of `size_type`: every recorded size is
at most `size()`, and `size() <= max_size()` -/
theorem C46_max_size (hE : E.Good) (hr : Reach E m) (hc : Contents E o m xs) :
    xs.length ≤ max_size E ∧ ∀ h a sz, Block m o h a sz → sz ≤ xs.length := by
  obtain ⟨al, s, F, hs, rfl, H⟩ := hr.cont hE hc
  refine ⟨by have := hs.1; unfold max_size; omega, fun h a sz hb => ?_⟩
  obtain ⟨hh', t, rfl⟩ := hb.tree H
  obtain ⟨c, u, rfl, -, rfl⟩ := (block_iff H).1 hb
  simp only [St.elems_tree, Ctx.fill_elems, List.length_append, Tree.size]
  omega

/-- C46: the root's recorded size is `size()` -/
theorem C46_root (hE : E.Good) (hr : Reach E m) (hc : Contents E o m xs) (hh : height o m = .ok (h + 1) m) :
    (∃ a, Block m o h a xs.length) ∧ ∀ a sz, Block m o h a sz → sz = xs.length := by
  obtain ⟨al, s, F, hs, rfl, H⟩ := hr.cont hE hc
  have h1 : height o m = .ok s.ht m := getHeight_c H
  rw [h1] at hh
  have hht : s.ht = h + 1 := by cases hs' : s.ht <;> rw [hs'] at hh <;> cases hh; rfl
  cases s with
  | nil => simp [St.ht] at hht
  | @tree k t =>
    have : k = h := by simpa [St.ht] using hht
    subst this
    refine ⟨⟨t.addr, (block_iff H).2 ⟨.top, t, rfl, rfl, rfl⟩⟩, fun a sz hb => ?_⟩
    obtain ⟨c, u, hu, rfl, rfl⟩ := (block_iff H).1 hb
    cases c with
    | top => cases hu; rfl
    | step a l r c => have := c.le; omega

/-- C41 (positive part): as long as `base_max < 65536` (part of `Good`), the
16-bit fields hold the true values: the length of a node is at most `base_max`
and is not truncated, and child `q` of the node at `a` records the parent `a` and
the index `q`; the root records no parent. -/
theorem C41_fields (hE : E.Good) (hr : Reach E m) (hb : Block m o (h + 1) a sz) :
    ∃ w nd, m.cell (.heap a) = some (.node w nd) ∧ nd.len < 65536 ∧ nd.pidx < 65536 ∧
      (height o m = .ok (h + 2) m → nd.parent = 0) ∧
      (0 < h → ∀ q < nd.len, ∃ w' nd', m.cell (.heap (nd.ptrs q)) = some (.node w' nd') ∧ nd'.parent = a ∧ nd'.pidx = q) := by
  obtain ⟨al, hh', t, F, hs, H, c, u, hu, rfl, rfl⟩ := hr.block hE hb
  obtain ⟨nd, h2, h3, h3', h4, h5⟩ := sub_node H hu
  have hroot := hs.2
  rw [← hu] at hroot
  obtain ⟨hcok, hok⟩ := (Ctx.fill_root c u).1 hroot
  have hr0 := Tree.root_succ.1 (Ctx.holeOk_root hok)
  have hbase := hE.base
  refine ⟨_, nd, h2, by rw [h4]; omega, ?_, ?_, ?_⟩
  · rw [h3']
    cases c with
    | top => simp [Ctx.hdr]
    | step b l r c =>
      have := hcok.2.2.2.1
      simp only [Ctx.hdr]; omega
  · intro hh
    have h1 : height o m = .ok (hh' + 1) m := getHeight_c H
    rw [h1] at hh
    rw [h3]
    cases c with
    | top => rfl
    | step b l r c =>
      have := c.le
      cases hh; omega
  · intro h0 q hq
    obtain ⟨k, rfl⟩ : ∃ k, h = k + 1 := ⟨h - 1, by omega⟩
    rw [h4] at hq
    have hp := (h5 q (by rw [keys_length]; exact hq)).2
    rw [Nat.zero_add] at hp
    have hp : nd.ptrs q = (u.kids[q]).addr := by rw [hp]; simp [keys, key]
    obtain ⟨nd', g1, g2, g3, -⟩ := sub_node H (c := .step u.addr (u.kids.take q) (u.kids.drop (q + 1)) c)
      (u := u.kids[q]) (by
        rw [← hu]
        simp only [Ctx.fill]
        congr 1
        conv_rhs => rw [Tree.eta1 u]
        congr 1
        rw [← List.drop_eq_getElem_cons, List.take_append_drop])
    refine ⟨_, nd', by rw [hp]; exact g1, by rw [g2]; rfl, ?_⟩
    rw [g3]
    simp only [Ctx.hdr, List.length_take]
    omega

-- the hypotheses are met: the root of the tree of height 3 is a node whose
-- children are nodes whose children are segments
example : ∃ (m : Mem Nat) (n a b c s1 s2 s3 : Nat), Reach demo m ∧ Contents demo 0 m eight ∧ height 0 m = .ok (n + 3) m ∧
    Block m 0 (n + 2) a s1 ∧ Block m 0 (n + 1) b s2 ∧ Block m 0 n c s3 := by
  obtain ⟨m, h1, h2, n, h3, h4⟩ := demo_eight
  obtain ⟨k, rfl⟩ : ∃ k, n = k + 3 := ⟨n - 3, by omega⟩
  obtain ⟨a, hb⟩ := (C46_root demo_good h1 h2 (h := k + 2) h3).1
  obtain ⟨w, nd, g1, g2, -⟩ := C17_node demo_good h1 h3 hb
  have hb2 := Block.child (i := 0) hb g1 (by omega)
  obtain ⟨w', nd', g3, g4, -⟩ := C17_node demo_good h1 h3 hb2
  have hb3 := Block.child (i := 0) hb2 g3 (by omega)
  exact ⟨m, k, _, _, _, _, _, _, h1, h2, h3, hb, hb2, hb3⟩

/-! ### C47: iterator stability -/

/-- C47: writing elements (`s[i] = v`, `*it = v`, `*it = move(v)`), `reverse` and
`sort` keep every iterator valid, in every field, at its position, and keep the
height; they make no allocation request. -/
theorem C47_iterators (hE : E.Good) (hr : Reach E m) (hc : Contents E o m xs)
    (hop : (∃ v, i < xs.length ∧ index_set E o i v m = .ok () m') ∨
      (∃ v, i < xs.length ∧ nth E o i m = .ok it m ∧ deref_set E it v m = .ok () m') ∨
      (∃ v, i < xs.length ∧ nth E o i m = .ok it m ∧ deref_set_rv E it v m = .ok () m') ∨
      reverse E o m = .ok () m' ∨ (∃ comp, sort E o comp m = .ok () m')) :
    (∀ q qt, nth E o q m = .ok qt m → nth E o q m' = .ok qt m') ∧
    (∀ k, height o m = .ok k m → height o m' = .ok k m') ∧ m'.log = m.log := by
  obtain ⟨al, s, F, hs, rfl, H⟩ := hr.cont hE hc
  have key : ∃ s' ys, Rew E s s' ys ∧ ys.length = s.elems.length ∧ Holds m.log (cont E o al s' + F) m' := by
    rcases hop with ⟨v, hi, h⟩ | ⟨v, hi, hn, h⟩ | ⟨v, hi, hn, h⟩ | h | ⟨comp, h⟩
    · obtain ⟨s', h1, h2⟩ := (index_set_c hs hi H).ret h; exact ⟨s', _, h1, by simp, h2⟩
    · obtain ⟨s', h1, h2⟩ := (deref_set_c hs (at_of_nth hs H (Nat.le_of_lt hi) hn) hi H).ret h
      exact ⟨s', _, h1, by simp, h2⟩
    · obtain ⟨m1, s', h0, h1, h2⟩ := deref_set_rv_c (v := v) hE hs (at_of_nth hs H (Nat.le_of_lt hi) hn) hi H
      rw [h0] at h; cases h; exact ⟨s', _, h1, by simp, h2⟩
    · obtain ⟨m1, s', h0, h1, h2⟩ := reverse_c hE hs H
      rw [h0] at h; cases h; exact ⟨s', _, h1, by simp, h2⟩
    · obtain ⟨m1, s', h0, h1, h2⟩ := sort_c (comp := comp) hs H
      rw [h0] at h; cases h; exact ⟨s', _, h1, by simp, h2⟩
  obtain ⟨s', ys, hrw, hlen, H'⟩ := key
  rw [← hrw.elems] at hlen
  refine ⟨fun q qt hq => ?_, fun k hk => ?_, H'.log⟩
  · rcases Nat.le_total q s.elems.length with h | h
    · exact nth_c hrw.ok (hrw.at_ _ _ (at_of_nth hs H h hq)) H'
    · obtain ⟨en, hen⟩ := St.At.exists hs (Nat.le_refl _)
      rw [nth_ge_c hs hen h H] at hq; cases hq
      exact nth_ge_c hrw.ok (by rw [hlen]; exact hrw.at_ _ _ hen) (by omega) H'
  · have h1 : height o m = .ok s.ht m := getHeight_c H
    rw [h1] at hk; cases hk
    rw [← hrw.ht]
    exact getHeight_c H'

-- the hypotheses are met: reversing 8 elements in a tree of height 3
example : ∃ (m m' : Mem Nat), Reach demo m ∧ Contents demo 0 m eight ∧ reverse demo 0 m = .ok () m' ∧
    Contents demo 0 m' eight.reverse := by
  obtain ⟨m, h1, h2, -⟩ := demo_eight
  obtain ⟨r, m', al, x', h3, ⟨-, rfl⟩, h4, -⟩ := demo_un h1 h2 .reverse (fun _ => trivial) (fun _ _ _ hx => hx.elim)
  obtain ⟨-, ⟨⟩, h5⟩ := unit_inv h3
  exact ⟨m, m', h1, h2, h5, h4⟩

end SegTree
