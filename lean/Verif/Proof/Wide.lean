/-
  What happens when a node has more than 65535 children (C41): one segment per
  element, `push_back` repeated.
-/
import Verif.Proof.Eval
set_option autoImplicit false

namespace SegTree
variable {α : Type} {E : Env α} {m : Mem α} {v : α} {n : Nat}

/-- A configuration whose nodes can have 65536 children or more, with one element
per segment and an endless allocator. -/
structure Env.Wide (E : Env α) (v : α) : Prop where
  seg : E.segMax = 1
  base : 65536 ≤ E.baseMax
  size : 65536 < E.W
  oracle : ∀ n, E.oracle n = n + 1
  copy : ∀ n, E.cthrow n v = false
  move : ∀ v, E.mthrow v = false

/-- address of the `i`-th segment -/
def addr (i : Nat) : Nat := if i < 2 then i + 1 else i + 2

/-- container 0 after `n` calls `push_back(v)`, n ≥ 2 -/
structure WideAt (E : Env α) (v : α) (n : Nat) (m : Mem α) : Prop where
  obj : m.cell (.obj 0) = some (.obj ⟨3, n, 2, 0, 0⟩)
  objs : ∀ o, o ≠ 0 → m.cell (.obj o) = none
  node : ∃ nd, m.cell (.heap 3) = some (.node (E.acls 0) nd) ∧ nd.parent = 0 ∧ nd.len = n % 65536 ∧
    ∀ i, i < n → nd.sizes i = 1 ∧ nd.ptrs i = addr i
  seg : ∀ i, i < n → ∃ f, m.cell (.heap (addr i)) = some (.seg (E.acls 0) f) ∧ f 0 = .val v
  free : ∀ a, n + 2 ≤ a → m.cell (.heap a) = none
  reqs : m.log.reqs = n + 1

theorem addr_ne (i : Nat) : addr i ≠ 3 := by unfold addr; split <;> omega
theorem addr_inj {i j : Nat} (h : addr i = addr j) : i = j := by
  unfold addr at h; split at h <;> split at h <;> omega
theorem addr_lt {i : Nat} (h : i < n) (h2 : 2 ≤ n) : addr i < n + 2 := by unfold addr; split <;> omega
theorem addr_eq (h2 : 2 ≤ n) : addr n = n + 2 := by unfold addr; split <;> omega

theorem rdObj_at {o : Nat} {s : SeqObj} (h : m.cell (.obj o) = some (.obj s)) : rdObj o m = .ok s m := by
  unfold rdObj; rw [h]
theorem rdNode_at {p w : Nat} {nd : Node} (h : m.cell (.heap p) = some (.node w nd)) : rdNode p m = .ok nd m := by
  unfold rdNode; rw [h]
theorem wrNode_at {p w : Nat} {nd nd' : Node} (h : m.cell (.heap p) = some (.node w nd)) :
    wrNode p nd' m = .ok () (m.set (.heap p) (.node w nd')) := by
  unfold wrNode; rw [h]

theorem Env.Wide.copied (hE : E.Wide v) (m : Mem α) : ∃ m', Ticked m m' ∧ copyVal E v m = .ok v m' := by
  by_cases ht : E.trivCopy = true
  · exact ⟨m, .refl m, by unfold copyVal; rw [if_pos ht]⟩
  · exact ⟨m.tick, .tick m, by unfold copyVal; rw [if_neg ht, hE.copy]; rfl⟩

theorem WideAt.ticked {m' : Mem α} (h : WideAt E v n m) (ht : Ticked m m') : WideAt E v n m' := by
  obtain ⟨h1, h2, h3, h4, h5, h6⟩ := h
  have hc := ht.cell
  exact ⟨by rw [hc]; exact h1, by rw [hc]; exact h2, by rw [hc]; exact h3, by rw [hc]; exact h4, by rw [hc]; exact h5,
    by rw [ht.log]; exact h6⟩

/-- the position of `end()` -/
theorem WideAt.find_end (h : WideAt E v n m) (hE : E.Wide v) (h2 : 2 ≤ n) (hn : n < 65536) :
    SegTree.find_end E 0 m = .ok ⟨⟨⟨addr (n - 1), 1, 1⟩, ⟨3, n - 1⟩⟩, n⟩ m := by
  obtain ⟨nd, h3, h4, h5, h6⟩ := h.node
  have hb := hE.base
  obtain ⟨g1, g2⟩ := h6 (n - 1) (by omega)
  refine run_step (rdObj_at h.obj) ?_
  refine run_neg (by show ¬ (2 < 2); omega) ?_
  refine run_step (v := ⟨⟨addr (n - 1), 1, 1⟩, ⟨3, n - 1⟩⟩) (m' := m) ?_ rfl
  refine run_pos rfl ?_
  refine run_step (x := len 3) (v := n) (m' := m) (run_step (rdNode_at h3) ?_) ?_
  · show Res.ok nd.len m = _
    rw [h5, Nat.mod_eq_of_lt hn]
  refine run_step (x := usub n 1) (v := n - 1) (m' := m) (run_pos (by omega) rfl) ?_
  refine run_step (v := addr (n - 1)) (m' := m) (run_step (rdNode_at h3) (run_pos (by omega) ?_)) ?_
  · show Res.ok _ m = _; rw [g2]
  refine run_step (v := 1) (m' := m) (run_step (rdNode_at h3) (run_pos (by omega) ?_)) rfl
  show Res.ok _ m = _; rw [g1]

/-- once a node has 65536 children its length reads 0 and `end()` is undefined -/
theorem WideAt.end_ub (h : WideAt E v 65536 m) : SegTree.find_end E 0 m = .ub .wrap := by
  obtain ⟨nd, h3, h4, h5, h6⟩ := h.node
  refine run_step (rdObj_at h.obj) ?_
  refine run_neg (by show ¬ (2 < 2); omega) ?_
  refine run_ub (run_pos rfl ?_)
  refine run_step (x := len 3) (v := 0) (m' := m) (run_step (rdNode_at h3) ?_) ?_
  · show Res.ok nd.len m = _
    rw [h5]
  exact run_ub (run_neg (by omega) rfl)

theorem WideAt.find_index (h : WideAt E v n m) (hE : E.Wide v) (hn : n ≤ 65536) {i : Nat} (hi : i < n) :
    SegTree.find_index E 0 i m = .ok ⟨⟨⟨addr i, 0, 1⟩, ⟨3, i⟩⟩, i⟩ m := by
  obtain ⟨nd, h3, h4, h5, h6⟩ := h.node
  have hb := hE.base
  have hsz : ∀ k, k < n → sizesAt E 3 k m = .ok 1 m := by
    intro k hk
    refine run_step (rdNode_at h3) (run_pos (by omega) ?_)
    show Res.ok _ m = _; rw [(h6 k hk).1]
  have hloop : ∀ p k, k + p < n → find_index_loop E 3 k 1 p m = .ok (k + p, 0) m := by
    intro p
    induction p with
    | zero =>
      intro k hk
      rw [find_index_loop]
      exact run_neg (by omega) rfl
    | succ p ih =>
      intro k hk
      rw [find_index_loop]
      refine run_pos (by omega) (run_step (hsz (k + 1) (by omega)) ?_)
      rw [show p + 1 - 1 = p by omega, ih (k + 1) (by omega), show k + 1 + p = k + (p + 1) by omega]
  refine run_step (rdObj_at h.obj) ?_
  refine run_neg (by show ¬ (2 < 2); omega) ?_
  refine run_step (v := ⟨⟨addr i, 0, 1⟩, ⟨3, i⟩⟩) (m' := m) ?_ rfl
  refine run_pos rfl ?_
  refine run_step (hsz 0 (by omega)) ?_
  have := hloop i 0 (by omega)
  rw [Nat.zero_add] at this
  refine run_step this ?_
  refine run_step (v := addr i) (m' := m) (run_step (rdNode_at h3) (run_pos (by omega) ?_)) ?_
  · show Res.ok _ m = _; rw [(h6 i hi).2]
  exact run_step (hsz i hi) rfl

theorem WideAt.contents (h : WideAt E v n m) (hE : E.Wide v) (hn : n ≤ 65536) :
    Contents E 0 m (List.replicate n v) := by
  refine ⟨?_, fun i hi => ?_⟩
  · rw [List.length_replicate]
    exact run_step (rdObj_at h.obj) rfl
  · rw [List.length_replicate] at hi
    rw [List.getElem_replicate]
    obtain ⟨f, g1, g2⟩ := h.seg i hi
    refine run_step (run_step (rdObj_at h.obj) rfl) (run_neg (by show ¬ (n ≤ i); omega) ?_)
    refine run_step (h.find_index hE hn hi) ?_
    refine run_step (x := rdSlots (addr i)) (v := f) (m' := m) (by unfold rdSlots; rw [g1]) ?_
    refine run_pos (by rw [hE.seg]; exact Nat.one_pos) ?_
    simp only [g2]
    rfl

theorem WideAt.view (h : WideAt E v n m) (hE : E.Wide v) (hn : n ≤ 65536) :
    View E m (upd (fun _ => none) 0 (some ⟨0, List.replicate n v⟩)) := by
  intro o
  by_cases ho : o = 0
  · subst ho
    rw [upd_self]
    exact ⟨run_step (rdObj_at h.obj) rfl, h.contents hE hn⟩
  · rw [upd_ne ho]
    exact h.objs o ho

/-! ### one more `push_back` -/

theorem set_same {l : Loc} {c : Cell α} (h : m.cell l = some c) : m.set l c = m := by
  cases m with
  | mk cell log =>
    simp only [Mem.set, Mem.mk.injEq, and_true]
    funext k
    unfold upd
    split
    · next hk => subst hk; exact h.symm
    · rfl

theorem construct_range_zero {src dst si di w w' : Nat} {f g : Nat → Slot α}
    (h1 : m.cell (.heap src) = some (.seg w f)) (h2 : m.cell (.heap dst) = some (.seg w' g)) :
    construct_range_segment E src si dst di 0 m = .ok () m := by
  unfold construct_range_segment
  by_cases h : (E.trivCopy && E.defConstruct) = true
  · refine run_pos h ?_
    refine run_step (x := rdSlots src) (v := f) (m' := m) (by unfold rdSlots; rw [h1]) ?_
    refine run_step (x := rdSlots dst) (v := g) (m' := m) (by unfold rdSlots; rw [h2]) ?_
    refine run_pos (.inl rfl) ?_
    have : copySlots f si g di 0 = g := by
      funext i; unfold copySlots; rw [if_neg (by omega)]
    rw [this]
    unfold wrSlots
    rw [h2]
    simp only [set_same h2]
  · refine run_neg h ?_
    refine run_step (v := 0) (m' := m) ?_ rfl
    rw [range_loop]
    exact run_neg (by simp) rfl

theorem WideAt.push {mo : Mem α} (h0 : WideAt E v n mo) (hE : E.Wide v) (h2 : 2 ≤ n) (hn : n < 65536) :
    ∃ m', push_back E 0 v mo = .ok () m' ∧ WideAt E v (n + 1) m' := by
  obtain ⟨m, ht0, hcv⟩ := hE.copied mo
  have h := h0.ticked ht0
  obtain ⟨nd, h3, h4, h5, h6⟩ := h.node
  obtain ⟨f, g1, g2⟩ := h.seg (n - 1) (by omega)
  have hb := hE.base
  have hseg := hE.seg
  have hW := hE.size
  have hne : addr (n - 1) ≠ n + 2 := by
    have := addr_lt (n := n) (i := n - 1) (by omega) h2; omega
  have hne0 : addr (n - 1) ≠ 0 := by unfold addr; split <;> omega
  have hne3 := addr_ne (n - 1)
  have hthr : E.throws v = false := by unfold Env.throws; rw [hE.move]; simp
  have hlen : ∀ {m : Mem α} {nd : Node}, m.cell (.heap 3) = some (.node (E.acls 0) nd) → nd.len = n % 65536 →
      len 3 m = .ok n m := by
    intro m nd h3 h5
    refine run_step (rdNode_at h3) ?_
    show Res.ok nd.len m = _
    rw [h5, Nat.mod_eq_of_lt hn]
  -- the segment
  let m1 : Mem α := ({ m with log := { m.log with reqs := m.log.reqs + 1 } }.set (.heap (n + 2))
    (.seg (E.acls 0) (fun _ => .raw)))
  have c1 : ∀ l, l ≠ .heap (n + 2) → m1.cell l = m.cell l := fun l hl => if_neg hl
  have c1' : m1.cell (.heap (n + 2)) = some (.seg (E.acls 0) (fun _ => .raw)) := if_pos rfl
  let m2 := m1.set (.heap (n + 2)) (.seg (E.acls 0) (upd (fun _ => .raw) 0 (.val v)))
  have c2 : ∀ l, l ≠ .heap (n + 2) → m2.cell l = m.cell l := fun l hl => (if_neg hl).trans (c1 l hl)
  have c2' : m2.cell (.heap (n + 2)) = some (.seg (E.acls 0) (upd (fun _ => .raw) 0 (.val v))) := if_pos rfl
  have c23 : m2.cell (.heap 3) = some (.node (E.acls 0) nd) := by
    rw [c2 _ (by intro h; injection h; omega), h3]
  -- the node, step by step
  let nd1 : Node := { nd with sizes := upd nd.sizes (n - 1) 1 }
  let nd2 : Node := { nd1 with sizes := upd nd1.sizes n 1 }
  let nd3 : Node := { nd2 with ptrs := upd nd2.ptrs n (n + 2) }
  let nd4 : Node := { nd3 with len := (n + 1) % 65536 }
  let m3 := m2.set (.heap 3) (.node (E.acls 0) nd1)
  let m4 := m3.set (.heap 3) (.node (E.acls 0) nd2)
  let m5 := m4.set (.heap 3) (.node (E.acls 0) nd3)
  let m6 := m5.set (.heap 3) (.node (E.acls 0) nd4)
  have c6 : ∀ l, l ≠ .heap 3 → m6.cell l = m2.cell l := fun l hl =>
    (if_neg hl).trans ((if_neg hl).trans ((if_neg hl).trans (if_neg hl)))
  have c6' : m6.cell (.heap 3) = some (.node (E.acls 0) nd4) := by
    show upd m5.cell (.heap 3) (some (.node (E.acls 0) nd4)) (.heap 3) = _
    rw [upd_self]
  have c6o : m6.cell (.obj 0) = some (.obj ⟨3, n, 2, 0, 0⟩) := by
    rw [c6 _ (by simp), c2 _ (by simp), h.obj]
  let m7 := m6.set (.obj 0) (.obj ⟨3, n + 1, 2, 0, 0⟩)
  have c7 : ∀ l, l ≠ .obj 0 → m7.cell l = m6.cell l := fun l hl => if_neg hl
  refine ⟨m7, ?_, ?_⟩
  · refine run_step (h0.find_end hE h2 hn) ?_
    refine run_step (v := ⟨⟨⟨n + 2, 0, 1⟩, ⟨3, n⟩⟩, n⟩) (m' := m7) ?_ rfl
    refine run_step hcv ?_
    refine run_neg (by rw [hthr]; simp) ?_
    refine run_step (v := ⟨⟨n + 2, 0, 1⟩, ⟨3, n⟩⟩) (m' := m7) ?_ rfl
    refine run_neg hne0 ?_
    refine run_neg (by rw [hseg]; simp) ?_
    refine run_step (v := n + 2) (m' := m1) ?_ ?_
    · refine run_step (rdObj_at h.obj) ?_
      have horac : E.oracle m.log.reqs = n + 2 := by rw [hE.oracle, h.reqs]
      show allocCell E _ m = _
      unfold allocCell
      simp only [horac]
      rw [if_neg (by rw [h.free (n + 2) (Nat.le_refl _)]; simp)]
    have hl1 : len 3 m1 = .ok n m1 := hlen ((c1 _ (by intro h; injection h; omega)).trans h3) h5
    refine run_step (v := 0) (m' := m1) ?_ ?_
    · show alloc_nodes_loop E 0 3 (n + 2) 0 m1 = _
      rw [alloc_nodes_loop]
      refine run_neg (by omega) (run_step hl1 (run_pos (by omega) rfl))
    have s1 : m1.cell (.heap (addr (n - 1))) = some (.seg (E.acls 0) f) :=
      (c1 _ (by intro h; injection h; omega)).trans g1
    simp only [hseg]
    refine run_neg (by omega) ?_
    refine run_step (x := usub 1 1) (v := 0) (m' := m1) (run_pos (by omega) rfl) ?_
    refine run_step (v := ()) (m' := m1) (construct_range_zero s1 c1') ?_
    refine run_step (v := ()) (m' := m1) (construct_range_zero s1 c1') ?_
    refine run_step (v := ()) (m' := m2) ?_ ?_
    · refine run_neg (by rw [hthr]; simp) ?_
      refine run_step (x := rdSlots (n + 2)) (v := fun _ => .raw) (m' := m1) (by unfold rdSlots; rw [c1']) ?_
      refine run_pos (by rw [hseg]; exact Nat.one_pos) ?_
      show wrSlots (n + 2) _ m1 = _
      unfold wrSlots; rw [c1']
    refine run_step rfl ?_
    refine run_neg (by show ¬ (3 = 0); omega) ?_
    refine run_step (hlen c23 h5) ?_
    refine run_step (x := usub (n - 1 + 1) 1) (v := n - 1) (m' := m2) (run_pos (by omega) rfl) ?_
    refine run_step (v := 1) (m' := m2) (run_step (rdNode_at c23) (run_pos (by omega) ?_)) ?_
    · show Res.ok _ m2 = _; rw [(h6 (n - 1) (by omega)).1]
    refine run_step (v := 0) (m' := m2) (run_pos (by omega) rfl) ?_
    refine run_step (v := 1) (m' := m2) (run_pos (by omega) rfl) ?_
    refine run_step (v := ()) (m' := m3) (run_step (rdNode_at c23) (run_pos (by omega) (wrNode_at c23))) ?_
    have cell3 : ∀ (m : Mem α) (nd : Node), (m.set (.heap 3) (.node (E.acls 0) nd)).cell (.heap 3)
        = some (.node (E.acls 0) nd) := by
      intro m nd
      simp [Mem.set]
    refine run_pos (by omega) ?_
    refine run_neg (by show ¬ (n - 1 + 1 ≠ n); omega) ?_
    simp only [show n - 1 + 1 = n by omega]
    refine run_step (v := 1) (m' := m5) ?_ ?_
    · refine run_step (v := ()) (m' := m4)
        (run_step (rdNode_at (cell3 _ _)) (run_pos (by omega) (wrNode_at (cell3 _ _)))) ?_
      exact run_step (v := ()) (m' := m5)
        (run_step (rdNode_at (cell3 _ _)) (run_pos (by omega) (wrNode_at (cell3 _ _)))) rfl
    refine run_step (v := ()) (m' := m6)
        (run_step (rdNode_at (cell3 _ _)) (wrNode_at (cell3 _ _))) ?_
    refine run_step (v := 0) (m' := m6) (run_step (rdNode_at (cell3 _ _)) ?_) ?_
    · show Res.ok nd.parent m6 = _
      rw [h4]
    refine run_step (v := nd.pidx) (m' := m6) (run_step (rdNode_at (cell3 _ _)) rfl) ?_
    refine run_step (v := ()) (m' := m7) ?_ rfl
    show update_sizes E 0 0 nd.pidx 1 m6 = _
    rw [update_sizes]
    refine run_neg (by simp) ?_
    refine run_step (v := n) (m' := m6) (run_step (rdObj_at c6o) rfl) ?_
    refine run_step (rdObj_at c6o) ?_
    have hw : E.wadd n 1 = n + 1 := by unfold Env.wadd; rw [Nat.mod_eq_of_lt (by omega)]
    rw [hw]
    unfold wrObj
    rw [c6o]
  · have o0 : ∀ l, l ≠ .obj 0 → l ≠ .heap 3 → l ≠ .heap (n + 2) → m7.cell l = m.cell l := by
      intro l l1 l2 l3
      rw [c7 l l1, c6 l l2, c2 l l3]
    refine ⟨?_, ?_, ⟨nd4, ?_, h4, rfl, ?_⟩, ?_, ?_, ?_⟩
    · simp [m7, Mem.set]
    · intro o ho
      rw [o0 _ (by simpa using ho) (by simp) (by simp)]
      exact h.objs o ho
    · rw [c7 _ (by simp), c6']
    · intro i hi
      show upd (upd nd.sizes (n - 1) 1) n 1 i = 1 ∧ upd nd.ptrs n (n + 2) i = addr i
      by_cases hin : i = n
      · subst hin
        rw [upd_self, upd_self, addr_eq h2]; exact ⟨rfl, rfl⟩
      · rw [upd_ne hin, upd_ne hin]
        obtain ⟨q1, q2⟩ := h6 i (by omega)
        refine ⟨?_, q2⟩
        by_cases hi2 : i = n - 1
        · rw [hi2, upd_self]
        · rw [upd_ne hi2, q1]
    · intro i hi
      by_cases hin : i = n
      · subst hin
        refine ⟨upd (fun _ => .raw) 0 (.val v), ?_, upd_self⟩
        rw [addr_eq h2, c7 _ (by simp), c6 _ (by intro h; injection h; omega), c2']
      · obtain ⟨f, q1, q2⟩ := h.seg i (by omega)
        refine ⟨f, ?_, q2⟩
        have := addr_lt (n := n) (i := i) (by omega) h2
        rw [o0 _ (by simp) (by intro h; injection h with h; exact addr_ne i h) (by intro h; injection h; omega)]
        exact q1
    · intro a ha
      rw [o0 _ (by simp) (by intro h; injection h; omega) (by intro h; injection h; omega)]
      exact h.free a (by omega)
    · show m.log.reqs + 1 = _
      rw [h.reqs]

/-! ### the first two -/

/-- container 0 after construction -/
structure Wide0 (m : Mem α) : Prop where
  obj : m.cell (.obj 0) = some (.obj ⟨0, 0, 0, 0, 0⟩)
  objs : ∀ o, o ≠ 0 → m.cell (.obj o) = none
  free : ∀ a, m.cell (.heap a) = none
  reqs : m.log.reqs = 0

/-- container 0 after one `push_back(v)` -/
structure Wide1 (E : Env α) (v : α) (m : Mem α) : Prop where
  obj : m.cell (.obj 0) = some (.obj ⟨1, 1, 1, 0, 0⟩)
  objs : ∀ o, o ≠ 0 → m.cell (.obj o) = none
  seg : ∃ f, m.cell (.heap 1) = some (.seg (E.acls 0) f) ∧ f 0 = .val v
  free : ∀ a, 2 ≤ a → m.cell (.heap a) = none
  reqs : m.log.reqs = 1

theorem Wide0.ticked {m' : Mem α} (h : Wide0 m) (ht : Ticked m m') : Wide0 m' := by
  obtain ⟨h1, h2, h3, h4⟩ := h
  have hc := ht.cell
  exact ⟨by rw [hc]; exact h1, by rw [hc]; exact h2, by rw [hc]; exact h3, by rw [ht.log]; exact h4⟩

theorem Wide1.ticked {m' : Mem α} (h : Wide1 E v m) (ht : Ticked m m') : Wide1 E v m' := by
  obtain ⟨h1, h2, h3, h4, h5⟩ := h
  have hc := ht.cell
  exact ⟨by rw [hc]; exact h1, by rw [hc]; exact h2, by rw [hc]; exact h3, by rw [hc]; exact h4, by rw [ht.log]; exact h5⟩

theorem Wide0.view (h : Wide0 m) : View E m (upd (fun _ => none) 0 (some ⟨0, []⟩)) := by
  intro o
  by_cases ho : o = 0
  · subst ho
    rw [upd_self]
    exact ⟨run_step (rdObj_at h.obj) rfl, run_step (rdObj_at h.obj) rfl, fun i hi => absurd hi (Nat.not_lt_zero _)⟩
  · rw [upd_ne ho]
    exact h.objs o ho

theorem Wide1.view (h : Wide1 E v m) (hE : E.Wide v) : View E m (upd (fun _ => none) 0 (some ⟨0, [v]⟩)) := by
  intro o
  by_cases ho : o = 0
  · subst ho
    rw [upd_self]
    refine ⟨run_step (rdObj_at h.obj) rfl, run_step (rdObj_at h.obj) rfl, fun i hi => ?_⟩
    have : i = 0 := by simpa using hi
    subst this
    obtain ⟨f, g1, g2⟩ := h.seg
    refine run_step (run_step (rdObj_at h.obj) rfl) (run_neg (by show ¬ (1 ≤ 0); omega) ?_)
    refine run_step (run_step (rdObj_at h.obj) rfl) ?_
    refine run_step (x := rdSlots 1) (v := f) (m' := m) (by unfold rdSlots; rw [g1]) ?_
    refine run_pos (by rw [hE.seg]; exact Nat.one_pos) ?_
    show (match f 0 with | .val v => pure v | .raw => M.ub .raw : M α α) m = _
    rw [g2]
    rfl
  · rw [upd_ne ho]
    exact h.objs o ho

theorem Wide0.push {mo : Mem α} (h0 : Wide0 mo) (hE : E.Wide v) : ∃ m', push_back E 0 v mo = .ok () m' ∧ Wide1 E v m' := by
  obtain ⟨m, ht0, hcv⟩ := hE.copied mo
  have h := h0.ticked ht0
  have hthr : E.throws v = false := by unfold Env.throws; rw [hE.move]; simp
  let m1 : Mem α := ({ m with log := { m.log with reqs := m.log.reqs + 1 } }.set (.heap 1)
    (.seg (E.acls 0) (fun _ => .raw)))
  have c1 : m1.cell (.obj 0) = some (.obj ⟨0, 0, 0, 0, 0⟩) := h.obj
  let m2 := m1.set (.obj 0) (.obj ⟨1, 0, 0, 0, 0⟩)
  let m3 := m2.set (.obj 0) (.obj ⟨1, 1, 0, 0, 0⟩)
  let m4 := m3.set (.obj 0) (.obj ⟨1, 1, 1, 0, 0⟩)
  have c4 : m4.cell (.heap 1) = some (.seg (E.acls 0) (fun _ => .raw)) := rfl
  let m5 := m4.set (.heap 1) (.seg (E.acls 0) (upd (fun _ => .raw) 0 (.val v)))
  refine ⟨m5, ?_, rfl, ?_, ⟨_, rfl, rfl⟩, ?_, ?_⟩
  · refine run_step (run_step (rdObj_at h0.obj) (run_pos (by show (0 < 2); omega) rfl)) ?_
    refine run_step (v := ⟨⟨⟨1, 0, 1⟩, ⟨0, 0⟩⟩, 0⟩) (m' := m5) ?_ rfl
    refine run_step hcv ?_
    refine run_neg (by rw [hthr]; simp) ?_
    refine run_step (v := ⟨⟨1, 0, 1⟩, ⟨0, 0⟩⟩) (m' := m5) ?_ rfl
    refine run_step (v := 1) (m' := m1) ?_ ?_
    · refine run_step (rdObj_at h.obj) ?_
      have horac : E.oracle m.log.reqs = 1 := by rw [hE.oracle, h.reqs]
      show allocCell E _ m = _
      unfold allocCell
      simp only [horac]
      rw [if_neg (by rw [h.free 1]; simp)]
    refine run_step (v := ()) (m' := m2) (run_step (rdObj_at c1) (by unfold wrObj; rw [c1])) ?_
    refine run_step (v := ()) (m' := m3) rfl ?_
    refine run_step (v := ()) (m' := m4) rfl ?_
    refine run_step (v := ()) (m' := m5) ?_ rfl
    refine run_neg (by rw [hthr]; simp) ?_
    refine run_step (x := rdSlots 1) (v := fun _ => .raw) (m' := m4) rfl ?_
    refine run_pos (by rw [hE.seg]; exact Nat.one_pos) ?_
    rfl
  · intro o ho
    have : m5.cell (.obj o) = m.cell (.obj o) := by
      simp [m5, m4, m3, m2, m1, Mem.set, upd, ho]
    rw [this]; exact h.objs o ho
  · intro a ha
    have : m5.cell (.heap a) = m.cell (.heap a) := by
      simp [m5, m4, m3, m2, m1, Mem.set, upd, show a ≠ 1 by omega]
    rw [this]; exact h.free a
  · show m.log.reqs + 1 = 1
    rw [h.reqs]

theorem Wide1.push {mo : Mem α} (h0 : Wide1 E v mo) (hE : E.Wide v) : ∃ m', push_back E 0 v mo = .ok () m' ∧ WideAt E v 2 m' := by
  obtain ⟨m, ht0, hcv⟩ := hE.copied mo
  have h := h0.ticked ht0
  have hthr : E.throws v = false := by unfold Env.throws; rw [hE.move]; simp
  have hseg := hE.seg
  have hb := hE.base
  have hW := hE.size
  obtain ⟨f, g1, g2⟩ := h.seg
  let m1 : Mem α := ({ m with log := { m.log with reqs := m.log.reqs + 1 } }.set (.heap 2)
    (.seg (E.acls 0) (fun _ => .raw)))
  let nd0 := E.junk 2
  let m2 : Mem α := ({ m1 with log := { m1.log with reqs := m1.log.reqs + 1 } }.set (.heap 3) (.node (E.acls 0) nd0))
  let nd1 : Node := { nd0 with parent := 0 }
  let m3 := m2.set (.heap 3) (.node (E.acls 0) nd1)
  let m4 := m3.set (.heap 2) (.seg (E.acls 0) (upd (fun _ => .raw) 0 (.val v)))
  let m5 := m4.set (.heap 3) (.node (E.acls 0) nd1)
  let nd2 : Node := { nd1 with pidx := 0 }
  let m6 := m5.set (.heap 3) (.node (E.acls 0) nd2)
  let nd3 : Node := { nd2 with len := 2 }
  let m7 := m6.set (.heap 3) (.node (E.acls 0) nd3)
  let nd4 : Node := { nd3 with sizes := upd nd3.sizes 0 1 }
  let m8 := m7.set (.heap 3) (.node (E.acls 0) nd4)
  let nd5 : Node := { nd4 with ptrs := upd nd4.ptrs 0 1 }
  let m9 := m8.set (.heap 3) (.node (E.acls 0) nd5)
  let nd6 : Node := { nd5 with sizes := upd nd5.sizes 1 1 }
  let m10 := m9.set (.heap 3) (.node (E.acls 0) nd6)
  let nd7 : Node := { nd6 with ptrs := upd nd6.ptrs 1 2 }
  let m11 := m10.set (.heap 3) (.node (E.acls 0) nd7)
  let m12 := m11.set (.obj 0) (.obj ⟨3, 1, 1, 0, 0⟩)
  let m13 := m12.set (.obj 0) (.obj ⟨3, 1, 2, 0, 0⟩)
  let m14 := m13.set (.obj 0) (.obj ⟨3, 2, 2, 0, 0⟩)
  have o1 : m1.cell (.obj 0) = some (.obj ⟨1, 1, 1, 0, 0⟩) := h.obj
  have o7 : m7.cell (.obj 0) = some (.obj ⟨1, 1, 1, 0, 0⟩) := h.obj
  have o11 : m11.cell (.obj 0) = some (.obj ⟨1, 1, 1, 0, 0⟩) := h.obj
  have s3 : m3.cell (.heap 1) = some (.seg (E.acls 0) f) := g1
  have s3' : m3.cell (.heap 2) = some (.seg (E.acls 0) (fun _ => .raw)) := rfl
  have hlt : ∀ i, i < 2 → i < E.baseMax := by intro i hi; omega
  refine ⟨m14, ?_, rfl, ?_, ⟨nd7, rfl, rfl, rfl, ?_⟩, ?_, ?_, ?_⟩
  · refine run_step (run_step (rdObj_at h0.obj) (run_pos (by show (1 < 2); omega) rfl)) ?_
    refine run_step (v := ⟨⟨⟨2, 0, 1⟩, ⟨3, 1⟩⟩, 1⟩) (m' := m14) ?_ rfl
    refine run_step hcv ?_
    refine run_neg (by rw [hthr]; simp) ?_
    refine run_step (v := ⟨⟨2, 0, 1⟩, ⟨3, 1⟩⟩) (m' := m14) ?_ rfl
    refine run_neg (by rw [hseg]; simp [find_end_segment]) ?_
    refine run_step (v := 2) (m' := m1) ?_ ?_
    · refine run_step (rdObj_at h.obj) ?_
      have horac : E.oracle m.log.reqs = 2 := by rw [hE.oracle, h.reqs]
      show allocCell E _ m = _
      unfold allocCell
      simp only [horac]
      rw [if_neg (by rw [h.free 2 (by omega)]; simp)]
    refine run_step (v := 3) (m' := m3) ?_ ?_
    · show alloc_nodes_loop E 0 0 2 0 m1 = _
      rw [alloc_nodes_loop]
      refine run_pos rfl (run_step (v := 3) (m' := m2) (run_try ?_) (run_step (v := ()) (m' := m3) rfl rfl))
      refine run_step (rdObj_at o1) ?_
      have horac : E.oracle m1.log.reqs = 3 := by rw [hE.oracle]; show m.log.reqs + 1 + 1 = 3; rw [h.reqs]
      have hj : m1.log.reqs = 2 := by show m.log.reqs + 1 = 2; rw [h.reqs]
      show allocCell E (.node _ (E.junk m1.log.reqs)) m1 = _
      unfold allocCell
      simp only [horac]
      have : m1.cell (.heap 3) = none := (by exact h.free 3 (by omega))
      have hnd : E.junk m1.log.reqs = nd0 := by rw [hj]
      rw [this, if_neg (by simp), hnd]
    simp only [hseg]
    refine run_step (x := usub 1 1) (v := 0) (m' := m3) (run_pos (by omega) rfl) ?_
    refine run_step (v := ()) (m' := m3) (construct_range_zero s3 s3') ?_
    refine run_step (v := ()) (m' := m3) (construct_range_zero s3 s3') ?_
    refine run_step (v := ()) (m' := m4) ?_ ?_
    · refine run_neg (by rw [hthr]; simp) ?_
      refine run_step (x := rdSlots 2) (v := fun _ => .raw) (m' := m3) rfl ?_
      exact run_pos (by rw [hseg]; exact Nat.one_pos) rfl
    refine run_step rfl ?_
    refine run_step (v := ()) (m' := m5) rfl ?_
    refine run_step (v := ()) (m' := m6) rfl ?_
    refine run_step (v := ()) (m' := m7) rfl ?_
    refine run_step (v := 1) (m' := m7) (run_step (rdObj_at o7) rfl) ?_
    refine run_step (v := 0) (m' := m7) (run_pos (by omega) rfl) ?_
    refine run_step (v := 1) (m' := m9) ?_ ?_
    · exact run_step (v := ()) (m' := m8) (run_step rfl (run_pos (hlt 0 (by omega)) rfl))
        (run_step (v := ()) (m' := m9) (run_step rfl (run_pos (hlt 0 (by omega)) rfl)) rfl)
    refine run_step (v := 1) (m' := m11) ?_ ?_
    · exact run_step (v := ()) (m' := m10) (run_step rfl (run_pos (hlt 1 (by omega)) rfl))
        (run_step (v := ()) (m' := m11) (run_step rfl (run_pos (hlt 1 (by omega)) rfl)) rfl)
    refine run_step (v := ()) (m' := m12) (run_step (rdObj_at o11) (by unfold wrObj; rw [o11])) ?_
    refine run_step (v := ()) (m' := m13) rfl ?_
    refine run_step (v := 1) (m' := m13) rfl ?_
    have hw : E.wadd 1 1 = 2 := by unfold Env.wadd; rw [Nat.mod_eq_of_lt (by omega)]
    rw [hw]
    refine run_step (v := ()) (m' := m14) rfl ?_
    rfl
  · intro o ho
    have : m14.cell (.obj o) = m.cell (.obj o) := by
      simp [m14, m13, m12, m11, m10, m9, m8, m7, m6, m5, m4, m3, m2, m1, Mem.set, upd, ho]
    rw [this]; exact h.objs o ho
  · intro i hi
    have : i = 0 ∨ i = 1 := by omega
    rcases this with rfl | rfl <;> exact ⟨rfl, rfl⟩
  · intro i hi
    have : i = 0 ∨ i = 1 := by omega
    rcases this with rfl | rfl
    · exact ⟨f, g1, g2⟩
    · exact ⟨_, rfl, rfl⟩
  · intro a ha
    have : m14.cell (.heap a) = m.cell (.heap a) := by
      simp [m14, m13, m12, m11, m10, m9, m8, m7, m6, m5, m4, m3, m2, m1, Mem.set, upd, show a ≠ 2 by omega,
        show a ≠ 3 by omega]
    rw [this]; exact h.free a (by omega)
  · show m.log.reqs + 1 + 1 = 3
    rw [h.reqs]

/-! ### reachability -/

theorem wide_reach (hE : E.Wide v) : ∀ n, 2 ≤ n → n ≤ 65536 → ∃ m, Reach E m ∧ WideAt E v n m := by
  have hW := hE.size
  intro n
  induction n with
  | zero => intro h; omega
  | succ n ih =>
    intro h2 hn
    rcases Nat.lt_or_ge n 2 with hlt | hge
    · have : n = 1 := by omega
      subst this
      let m0 : Mem α := noMem.set (.obj 0) (.obj ⟨0, 0, 0, 0, 0⟩)
      have h0 : Wide0 m0 := ⟨rfl, fun o ho => by simp [m0, noMem, Mem.set, upd, ho], fun a => rfl, rfl⟩
      have r0 : Reach E m0 := .ret (op := .new 0 (.empty 0)) (r := .unit) .init view_init ⟨rfl, trivial⟩ rfl
      obtain ⟨m1, p1, h1⟩ := h0.push hE
      have r1 : Reach E m1 := .ret (op := .un 0 (.pushBack v)) (r := .unit) r0 h0.view
        ⟨⟨0, []⟩, upd_self, by show 0 + 1 ≤ E.W - 1; omega⟩ (run_step p1 rfl)
      obtain ⟨m2, p2, h2⟩ := h1.push hE
      exact ⟨m2, .ret (op := .un 0 (.pushBack v)) (r := .unit) r1 (h1.view hE)
        ⟨⟨0, [v]⟩, upd_self, by show 1 + 1 ≤ E.W - 1; omega⟩ (run_step p2 rfl), h2⟩
    · obtain ⟨m, r, h⟩ := ih hge (by omega)
      obtain ⟨m', p, h'⟩ := h.push hE hge (by omega)
      exact ⟨m', .ret (op := .un 0 (.pushBack v)) (r := .unit) r (h.view hE (by omega))
        ⟨⟨0, List.replicate n v⟩, upd_self, by show (List.replicate n v).length + 1 ≤ E.W - 1; rw [List.length_replicate]; omega⟩
        (run_step p rfl), h'⟩

end SegTree
