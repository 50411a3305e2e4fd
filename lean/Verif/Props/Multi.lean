/-
  C13 (copies), C30-C32, C34 (memory), C35, C36: calls on two containers.
  For the meaning of the hypotheses see the reading guide in Single.lean.
-/
import Verif.Proof.Footprint
import Verif.Props.History
import Mathlib.Data.List.Sort
set_option autoImplicit false

namespace SegTree
variable {α : Type} {E : Env α} {m m' m'' : Mem α} {o p i j a b al al2 : Nat} {xs ys : List α} {S : Bank α} {op : Op α}
  {it jt kt first last : Iter} {e : Exn}

/-! ### C34: the memory of other containers -/

/-- C34: a call leaves every cell of the containers it does not name alone: the
object itself and every block of its tree. -/
theorem C34_memory (hE : E.Good) (hr : Reach E m) (hv : View E m S) (hp : op.Pre E S)
    (hout : (∃ r, op.run E m = .ok r m') ∨ ∃ e, op.run E m = .throw e m') {o : Nat} (ho : o ∉ op.objs) :
    m'.cell (.obj o) = m.cell (.obj o) ∧ ∀ h a sz, Block m o h a sz → m'.cell (.heap a) = m.cell (.heap a) := by
  obtain ⟨S0, A, hR, H⟩ := hr.inv hE
  cases (hR.view H).unique hv
  have := op_cells hE op hR H hp
  rcases hout with ⟨r, h⟩ | ⟨e, h⟩
  · exact this.ret h o ho
  · exact this.exc h o ho

theorem Unchanged.trans {m1 m2 m3 : Mem α} (h1 : Unchanged E o m1 m2) (h2 : Unchanged E o m2 m3)
    (hd : ∃ xs, Contents E o m1 xs) : Unchanged E o m1 m3 := by
  obtain ⟨xs, hd⟩ := hd
  refine ⟨fun n h => h2.1 n (h1.1 n h), fun n h => h2.2.1 n (h1.2.1 n h), fun a h => h2.2.2.1 a (h1.2.2.1 a h),
    fun i it h => ⟨(h2.2.2.2.1 i it (h1.2.2.2.1 i it h).1).1, fun n hn hi v hv => ?_⟩,
    fun i v h => h2.2.2.2.2.1 i v (h1.2.2.2.2.1 i v h), fun h => h2.2.2.2.2.2 (h1.2.2.2.2.2 h)⟩
  have h3 := h1.2.2.2.1 i it h
  exact (h2.2.2.2.1 i it h3.1).2 n (h1.1 n hn) hi v (h3.2 n hn hi v hv)

theorem Unchanged.contents (h : Unchanged E o m m') (hc : Contents E o m xs) : Contents E o m' xs :=
  ⟨h.1 _ hc.1, fun i hi => h.2.2.2.2.1 i _ (hc.2 i hi)⟩

/-- C34, over whole histories: a container that no call of a history names is
unchanged by it. -/
theorem C34_history (hE : E.Good) (hr : Reach E m) (hc : Contents E p m ys) {h : Hist α} (hx : Exec E m h m')
    (hno : ∀ op r, (op, r) ∈ h → p ∉ op.objs) : Unchanged E p m m' := by
  induction hx with
  | nil =>
    exact ⟨fun _ h => h, fun _ h => h, fun _ h => h, fun _ _ h => ⟨h, fun _ _ _ _ h => h⟩, fun _ _ h => h, fun h => h⟩
  | ret hv hp hrun _ ih =>
    have h1 := C34_others hE hr hv hp (.inl ⟨_, hrun⟩) (hno _ _ (List.mem_cons_self ..))
    exact h1.trans (ih (.ret hr hv hp hrun) (h1.contents hc) fun op r h => hno op r (List.mem_cons_of_mem _ h)) ⟨ys, hc⟩
  | exc hv hp hrun _ ih =>
    have h1 := C34_others hE hr hv hp (.inr ⟨_, hrun⟩) (hno _ _ (List.mem_cons_self ..))
    exact h1.trans (ih (.exc hr hv hp hrun) (h1.contents hc) fun op r h => hno op r (List.mem_cons_of_mem _ h)) ⟨ys, hc⟩

/-! ### C30: copies -/

/-- C30: copy construction.  The new container holds the source's sequence and
has the allocator `select_on_container_copy_construction` gives; the source is
unchanged, and the two share no block. -/
theorem C30_copy_ctor (hE : E.Good) (hr : Reach E m) (hd : Contents E p m ys) (ho : m.cell (.obj o) = none)
    (ha : get_allocator p m = .ok al2 m) (hn : E.nullFree = true) (h : ctor_copy E o p m = .ok () m') :
    Contents E o m' ys ∧ Contents E p m' ys ∧ Unchanged E p m m' ∧
    get_allocator o m' = .ok (E.selectCopy al2) m' ∧
    (∀ h h' a sz sz', Block m' o h a sz → ¬ Block m' p h' a sz') := by
  obtain ⟨al, s2, F, hs2, rfl, H⟩ := hr.cont hE hd
  rw [get_allocator_c H] at ha; cases ha
  obtain ⟨s', r, hs', he, H'⟩ := (ctor_copy_c hE hn hs2 ho H).ret h
  have H2 := H'.eqv (by ac_rfl : _ = cont E p al2 s2 + (cont E o (E.selectCopy al2) s' + F))
  refine ⟨he ▸ cont_contents hs' H', cont_contents hs2 H2, cont_unchanged hs2 H H2, get_allocator_c H', ?_⟩
  intro h h' a sz sz' hb hb'
  have h1 := (block_loc H').2 ⟨h, sz, hb⟩
  have h2 := (block_loc H2).2 ⟨h', sz', hb'⟩
  have hnd := H'.nodup
  rw [Multiset.map_add, Multiset.nodup_add] at hnd
  exact Multiset.disjoint_left.1 hnd.2.2 h1 (by rw [Multiset.map_add, Multiset.mem_add]; exact .inl h2)

/-- C30: copy construction with an allocator -/
theorem C30_copy_ctor_alloc (hE : E.Good) (hr : Reach E m) (hd : Contents E p m ys) (ho : m.cell (.obj o) = none)
    (hn : E.nullFree = true) (h : ctor_copy_alloc E o p al m = .ok () m') :
    Contents E o m' ys ∧ Contents E p m' ys ∧ Unchanged E p m m' ∧ get_allocator o m' = .ok al m' := by
  obtain ⟨al2, s2, F, hs2, rfl, H⟩ := hr.cont hE hd
  obtain ⟨s', r, hs', he, H'⟩ := (ctor_copy_alloc_c hE hn hs2 ho H).ret h
  have H2 := H'.eqv (by ac_rfl : _ = cont E p al2 s2 + (cont E o al s' + F))
  exact ⟨he ▸ cont_contents hs' H', cont_contents hs2 H2, cont_unchanged hs2 H H2, get_allocator_c H'⟩

/-- C30: copy assignment.  `hn`: an empty destination whose allocator has to be
replaced needs an allocator that tolerates `deallocate(nullptr)` (C45). -/
theorem C30_copy_assign (hE : E.Good) (hr : Reach E m) (hc : Contents E o m xs) (hd : Contents E p m ys)
    (hne : o ≠ p) (hn : xs ≠ [] ∨ E.nullFree = true) (h : assign_copy E o p m = .ok () m') :
    Contents E o m' ys ∧ Contents E p m' ys ∧ Unchanged E p m m' ∧
    ∀ al al2, get_allocator o m = .ok al m → get_allocator p m = .ok al2 m →
      get_allocator o m' = .ok (if E.pocca then al2 else al) m' := by
  obtain ⟨al, s, al2, s2, F, hs, rfl, hs2, rfl, H⟩ := hr.cont2 hE hc hd hne
  obtain ⟨s', r, hs', he, H'⟩ := (assign_copy_c hE hs hs2 (fun _ _ => hn) H).ret h
  have H1 := H.eqv (by ac_rfl : _ = cont E p al2 s2 + (cont E o al s + F))
  have H2 := H'.eqv (by ac_rfl : _ = cont E p al2 s2 + (cont E o (if E.pocca then al2 else al) s' + F))
  refine ⟨he ▸ cont_contents hs' H', cont_contents hs2 H2, cont_unchanged hs2 H1 H2, fun al' al2' h1 h2 => ?_⟩
  rw [get_allocator_c H] at h1; cases h1
  rw [get_allocator_c H1] at h2; cases h2
  exact get_allocator_c H'

/-- C30: self copy assignment does nothing at all -/
theorem C30_self : assign_copy E o o m = .ok () m := assign_copy_self

/-- C30: independence.  After a copy construction, any further history that does
not name the source leaves the source as it was, and any that does not name the
copy leaves the copy as it was. -/
theorem C30_independent (hE : E.Good) (hr : Reach E m) (hd : Contents E p m ys) (ho : m.cell (.obj o) = none)
    (hn : E.nullFree = true) (h : ctor_copy E o p m = .ok () m') {hist : Hist α} (hx : Exec E m' hist m'') :
    ((∀ op r, (op, r) ∈ hist → p ∉ op.objs) → Contents E p m'' ys) ∧
    ((∀ op r, (op, r) ∈ hist → o ∉ op.objs) → Contents E o m'' ys) := by
  obtain ⟨S, al, hv, hS, ha⟩ := hr.view hE hd
  have ho' : S o = none := by
    have := hv o
    cases hso : S o with
    | none => rfl
    | some x => rw [hso] at this; exact absurd ho (alloc_some this.1)
  have hr' : Reach E m' := .ret (op := .new2 o p .copy) (r := .unit) hr hv ⟨ho', _, hS, hn⟩ (by
    show Un.unit _ _ = _
    unfold Un.unit
    rw [bind_ok h]; rfl)
  obtain ⟨h1, h2, -⟩ := C30_copy_ctor hE hr hd ho ha hn h
  exact ⟨fun hno => (C34_history hE hr' h2 hx hno).contents h2, fun hno => (C34_history hE hr' h1 hx hno).contents h1⟩

/-- C13: a copy constructor that throws leaves the whole memory as it was. -/
theorem C13_copy_ctor (hE : E.Good) (hr : Reach E m) (hd : Contents E p m ys) (ho : m.cell (.obj o) = none)
    (hn : E.nullFree = true) (h : ctor_copy E o p m = .throw e m' ∨ ctor_copy_alloc E o p al m = .throw e m') :
    m'.cell = m.cell := by
  obtain ⟨al2, s2, F, hs2, rfl, H⟩ := hr.cont hE hd
  rcases h with h | h
  · exact ((ctor_copy_c hE hn hs2 ho H).exc h).1
  · exact ((ctor_copy_alloc_c hE hn hs2 ho H).exc h).1

/-- C13: so does a constructor from a range of another container. -/
theorem C13_range_ctor (hE : E.Good) (hr : Reach E m) (hd : Contents E p m ys) (ho : m.cell (.obj o) = none)
    (hn : E.nullFree = true) (hab : a ≤ b) (hb : b ≤ ys.length)
    (hf : nth E p a m = .ok first m) (hl : nth E p b m = .ok last m)
    (h : ctor_range E (copySrc E last) o al first m = .throw e m') : m'.cell = m.cell := by
  obtain ⟨al2, s2, F, hs2, rfl, H⟩ := hr.cont hE hd
  have hla := at_of_nth hs2 H hb hl
  have hfi := at_of_nth hs2 H (Nat.le_trans hab hb) hf
  obtain ⟨X, F', HX, hent, hF, -, hpin, -⟩ := H.pin
  obtain ⟨g', X', k, hk, hmid, -, H'⟩ :=
    (ctor_range_c (X := X) (vs := slice s2.elems a b) hE (copySrc_ok (X0 := X) hs2 hla) hn
      ⟨rfl, hent, a, hfi, hab, rfl⟩ (by rw [slice_length hb]; have := hs2.1; omega) ho HX).exc h
  rw [copySrc_mid hmid] at H'
  exact hpin _ _ H'

-- the hypotheses of the copy theorems are met
example : ∃ (m m1 m2 m3 : Mem Nat), Reach demo m ∧ Contents demo 0 m eight ∧ Contents demo 1 m [1, 2, 3] ∧
    m.cell (.obj 2) = none ∧ get_allocator 1 m = .ok 2 m ∧ ctor_copy demo 2 1 m = .ok () m1 ∧
    ctor_copy_alloc demo 2 1 7 m = .ok () m2 ∧ assign_copy demo 0 1 m = .ok () m3 := by
  obtain ⟨m, h1, hv, h2, h3, -, h4⟩ := demo_lists eight [1, 2, 3] 0 2
  have hS : ∀ c : New2, c.Pre demo (⟨2, [1, 2, 3]⟩ : Obj Nat) → (Op.new2 2 1 c : Op Nat).Pre demo
      (upd (upd (fun _ => none) 0 (some ⟨0, eight⟩)) 1 (some ⟨2, [1, 2, 3]⟩)) :=
    fun c hc => ⟨rfl, ⟨2, [1, 2, 3]⟩, rfl, hc⟩
  obtain ⟨r, m1, S1, h5, -⟩ := demo_op (op := .new2 2 1 .copy) h1 hv (hS _ rfl)
    (by rintro e S' ⟨y, y', hy, hb, -⟩; cases hy; exact demo_blame (by decide) hb.1)
  obtain ⟨r, m2, S2, h6, -⟩ := demo_op (op := .new2 2 1 (.copyAlloc 7)) h1 hv (hS _ rfl)
    (by rintro e S' ⟨y, y', hy, hb, -⟩; cases hy; exact demo_blame (by decide) hb.1)
  obtain ⟨r, m3, S3, h7, -⟩ := demo_op (op := .bin 0 1 .assignCopy) h1 hv
    ⟨by decide, ⟨0, eight⟩, ⟨2, [1, 2, 3]⟩, rfl, rfl, fun h => absurd h (by decide)⟩
    (by rintro e S' ⟨x, y, x', y', hx, hy, hb, -⟩; cases hx; cases hy; exact demo_blame (by decide) hb.1)
  obtain ⟨-, u, h5⟩ := unit_inv h5
  obtain ⟨-, u, h6⟩ := unit_inv h6
  obtain ⟨-, u, h7⟩ := unit_inv h7
  have h8 := hv 2
  exact ⟨m, m1, m2, m3, h1, h2, h3, h8, h4, h5, h6, h7⟩

/-! ### C31: moves -/

theorem same_nth {g g' : Log} {F F' : Asrt α} {al al2 : Nat} {s : St α} (hs : s.Ok E)
    (H : Holds g (cont E p al s + F) m) (H' : Holds g' (cont E o al2 s + F') m') (hi : nth E p i m = .ok it m) :
    nth E o i m' = .ok it m' := by
  obtain ⟨jt, h3, h4⟩ := nth_any_c (i := i) hs H
  rw [h3] at hi; cases hi
  obtain ⟨kt, h5, h6⟩ := nth_any_c (i := i) hs H'
  rw [St.At.unique hs h6 h4 H'] at h5
  exact h5


/-- C31: move construction returns; the new container has the source's sequence
and allocator, and every iterator of the source is, in every field (so at the
same addresses), the corresponding iterator of the new container; the source is
left empty with its allocator; no heap cell changes and no allocation is made. -/
theorem C31_move_ctor (hE : E.Good) (hr : Reach E m) (hd : Contents E p m ys) (ho : m.cell (.obj o) = none)
    (ha : get_allocator p m = .ok al2 m) :
    ∃ m', ctor_move o p m = .ok () m' ∧ Contents E o m' ys ∧ Contents E p m' [] ∧
      get_allocator o m' = .ok al2 m' ∧ get_allocator p m' = .ok al2 m' ∧
      (∀ i it, nth E p i m = .ok it m → nth E o i m' = .ok it m') ∧
      (∀ a, m'.cell (.heap a) = m.cell (.heap a)) ∧ m'.log = m.log := by
  obtain ⟨al, s2, F, hs2, rfl, H⟩ := hr.cont hE hd
  rw [get_allocator_c H] at ha; cases ha
  obtain ⟨m', h, H'⟩ := ctor_move_c ho H
  have H2 := H'.eqv (by ac_rfl : _ = cont E p al2 .nil + (cont E o al2 s2 + F))
  have hs0 : (St.nil : St α).Ok E := .nil hE.wpos
  obtain ⟨h1, h2⟩ := HeapSame.ctor_move o p _ _ _ h
  refine ⟨m', h, cont_contents hs2 H', cont_contents hs0 H2, get_allocator_c H', get_allocator_c H2, fun i it hi => ?_, h1, h2⟩
  exact same_nth hs2 H H' hi

/-- C31: move assignment when the allocators propagate or are equal.  The
destination gets the source's sequence, with every iterator (so every address)
preserved; the source is left empty; no allocation is made, no cell of the
source's blocks changes, and the old blocks of the destination are freed. -/
theorem C31_move_assign (hE : E.Good) (hr : Reach E m) (hc : Contents E o m xs) (hd : Contents E p m ys)
    (hne : o ≠ p) (ha : get_allocator o m = .ok al m) (ha2 : get_allocator p m = .ok al2 m)
    (hw : E.pocma = true ∨ E.acls al = E.acls al2) (hn : xs ≠ [] ∨ E.nullFree = true) :
    ∃ m', assign_move E o p m = .ok () m' ∧ Contents E o m' ys ∧ Contents E p m' [] ∧
      get_allocator o m' = .ok (if E.pocma then al2 else al) m' ∧ get_allocator p m' = .ok al2 m' ∧
      (∀ i it, nth E p i m = .ok it m → nth E o i m' = .ok it m') ∧
      (∀ h a sz, Block m p h a sz → m'.cell (.heap a) = m.cell (.heap a)) ∧
      (∀ h a sz, Block m o h a sz → m'.cell (.heap a) = none) ∧ m'.log = m.log := by
  obtain ⟨al', s, al2', s2, F, hs, rfl, hs2, rfl, H⟩ := hr.cont2 hE hc hd hne
  have H1 := H.eqv (by ac_rfl : _ = cont E p al2' s2 + (cont E o al' s + F))
  rw [get_allocator_c H] at ha; cases ha
  rw [get_allocator_c H1] at ha2; cases ha2
  obtain ⟨m', h, H'⟩ := assign_move_steal_c hs hw hn H
  have H2 := H'.eqv (by ac_rfl : _ = cont E p al2 .nil + (cont E o (if E.pocma then al2 else al) s2 + F))
  have hs0 : (St.nil : St α).Ok E := .nil hE.wpos
  -- what `purge` leaves alone
  obtain ⟨F', HF, hent, hloc, hpin⟩ := H.pinR
  obtain ⟨m1, hp1, Hp1⟩ := purge_c hs hn HF
  have hsteal : move_assign_steal E o p m = .ok () m' := by
    have h' := h
    unfold assign_move move_assign at h'
    cases hpo : E.pocma with
    | true => simpa [hpo] using h'
    | false =>
      simp only [hpo, Bool.false_eq_true, if_false] at h'
      rw [bind_ok (rdObj_c H), bind_ok (rdObj_c H1)] at h'
      have : E.acls al = E.acls al2 := by simpa [hpo] using hw
      simpa [St.obj_al, this] using h'
  have hrest : (∀ a, m'.cell (.heap a) = m1.cell (.heap a)) ∧ m'.log = m1.log := by
    unfold move_assign_steal at hsteal
    rw [bind_ok hp1] at hsteal
    exact ((HeapSame.move_assign_alloc o p).bind fun _ => .steal o p) _ _ _ hsteal
  refine ⟨m', h, cont_contents hs2 H', cont_contents hs0 H2, get_allocator_c H', get_allocator_c H2, fun i it hi => ?_,
    fun hh a sz hb => ?_, fun hh a sz hb => ?_, H'.log⟩
  · exact same_nth hs2 H1 H' hi
  · rw [hrest.1]
    refine hpin _ _ _ Hp1 _ ?_
    rw [Multiset.map_add, Multiset.mem_add]
    exact .inl ((block_loc H1).2 ⟨hh, sz, hb⟩)
  · rw [hrest.1]
    have hm := (block_loc H).2 ⟨hh, sz, hb⟩
    refine Hp1.dead fun hx => ?_
    rw [Multiset.map_add, Multiset.mem_add, hloc] at hx
    rcases hx with hx | hx
    · simp [Ob, pt] at hx
    · have hnd := H.nodup
      rw [Multiset.map_add, Multiset.nodup_add] at hnd
      exact Multiset.disjoint_left.1 hnd.2.2 hm hx

/-- C31: move assignment element by element, when the allocators differ and do
not propagate: the destination gets the source's values; the source keeps its
size, with moved-from values. -/
theorem C31_move_assign_elems (hE : E.Good) (hr : Reach E m) (hc : Contents E o m xs) (hd : Contents E p m ys)
    (hne : o ≠ p) (ha : get_allocator o m = .ok al m) (ha2 : get_allocator p m = .ok al2 m)
    (hp : E.pocma = false) (hw : E.acls al ≠ E.acls al2) (h : assign_move E o p m = .ok () m') :
    Contents E o m' ys ∧ Contents E p m' (ys.map E.moved) ∧
    get_allocator o m' = .ok al m' ∧ get_allocator p m' = .ok al2 m' := by
  obtain ⟨al', s, al2', s2, F, hs, rfl, hs2, rfl, H⟩ := hr.cont2 hE hc hd hne
  have H1 := H.eqv (by ac_rfl : _ = cont E p al2' s2 + (cont E o al' s + F))
  rw [get_allocator_c H] at ha; cases ha
  rw [get_allocator_c H1] at ha2; cases ha2
  obtain ⟨s', s2', r, hs', he, hs2', he2, H'⟩ := (assign_move_elems_c hE hs hs2 hp hw H).ret h
  have H2 := H'.eqv (by ac_rfl : _ = cont E p al2 s2' + (cont E o al s' + F))
  exact ⟨he ▸ cont_contents hs' H', he2 ▸ cont_contents hs2' H2, get_allocator_c H', get_allocator_c H2⟩

/-- C31: move construction with an allocator equal to the source's steals the
blocks; with another one it moves the elements. -/
theorem C31_move_ctor_alloc (hE : E.Good) (hr : Reach E m) (hd : Contents E p m ys) (ho : m.cell (.obj o) = none)
    (ha : get_allocator p m = .ok al2 m) (hn : E.nullFree = true) :
    (E.acls al = E.acls al2 → ∃ m', ctor_move_alloc E o p al m = .ok () m' ∧ Contents E o m' ys ∧ Contents E p m' [] ∧
      (∀ i it, nth E p i m = .ok it m → nth E o i m' = .ok it m') ∧ m'.log = m.log) ∧
    (E.acls al ≠ E.acls al2 → ∀ m', ctor_move_alloc E o p al m = .ok () m' → Contents E o m' ys ∧
      Contents E p m' (ys.map E.moved)) := by
  obtain ⟨al', s2, F, hs2, rfl, H⟩ := hr.cont hE hd
  rw [get_allocator_c H] at ha; cases ha
  obtain ⟨k1, k2⟩ := ctor_move_alloc_c (al := al) hE hn hs2 ho H
  refine ⟨fun hw => ?_, fun hw m' h => ?_⟩
  · obtain ⟨m', h, H'⟩ := k1 hw
    have H2 := H'.eqv (by ac_rfl : _ = cont E p al2 .nil + (cont E o al s2 + F))
    refine ⟨m', h, cont_contents hs2 H', cont_contents (.nil hE.wpos) H2, fun i it hi => ?_, H'.log⟩
    exact same_nth hs2 H H' hi
  · obtain ⟨s', s2', r, hs', he, hs2', he2, H'⟩ := (k2 hw).ret h
    have H2 := H'.eqv (by ac_rfl : _ = cont E p al2 s2' + (cont E o al s' + F))
    exact ⟨he ▸ cont_contents hs' H', he2 ▸ cont_contents hs2' H2⟩

/-- C31: a trivially copyable value is not changed by being moved from: when the
elements are moved one by one the source then keeps its whole sequence. -/
theorem C31_move_trivial (hE : E.Good) (hr : Reach E m) (ht : E.trivCopy = true) (hd : Contents E p m ys)
    (hn : E.nullFree = true) (ha2 : get_allocator p m = .ok al2 m) :
    (∀ o xs al m', o ≠ p → Contents E o m xs → get_allocator o m = .ok al m → E.pocma = false →
      E.acls al ≠ E.acls al2 → assign_move E o p m = .ok () m' → Contents E o m' ys ∧ Contents E p m' ys) ∧
    (∀ o al m', m.cell (.obj o) = none → E.acls al ≠ E.acls al2 → ctor_move_alloc E o p al m = .ok () m' →
      Contents E o m' ys ∧ Contents E p m' ys) := by
  have hm : ys.map E.moved = ys := List.map_id'' (fun v => by simp [Env.moved, ht]) ys
  constructor
  · intro o xs al m' hne hc ha hp hw h
    obtain ⟨h1, h2, -⟩ := C31_move_assign_elems hE hr hc hd hne ha ha2 hp hw h
    exact ⟨h1, hm ▸ h2⟩
  · intro o al m' ho hw h
    obtain ⟨h1, h2⟩ := (C31_move_ctor_alloc (al := al) hE hr hd ho ha2 hn).2 hw m' h
    exact ⟨h1, hm ▸ h2⟩

-- the hypotheses are met (allocators 0 and 1 are equal, 0 and 2 are not)
example : ∃ m : Mem Nat, Reach demo m ∧ Contents demo 0 m eight ∧ Contents demo 1 m [1, 2, 3] ∧
    m.cell (.obj 2) = none ∧ get_allocator 0 m = .ok 0 m ∧ get_allocator 1 m = .ok 1 m ∧ demo.acls 0 = demo.acls 1 := by
  obtain ⟨m, h1, hv, h2, h3, h4, h5⟩ := demo_lists eight [1, 2, 3] 0 1
  exact ⟨m, h1, h2, h3, hv 2, h4, h5, rfl⟩
example : ∃ m m' : Mem Nat, Reach demo m ∧ Contents demo 0 m eight ∧ Contents demo 1 m [1, 2, 3] ∧
    get_allocator 0 m = .ok 0 m ∧ get_allocator 1 m = .ok 2 m ∧ demo.acls 0 ≠ demo.acls 2 ∧
    assign_move demo 0 1 m = .ok () m' := by
  obtain ⟨m, h1, hv, h2, h3, h4, h5⟩ := demo_lists eight [1, 2, 3] 0 2
  obtain ⟨r, m3, S3, h7, -⟩ := demo_op (op := .bin 0 1 .assignMove) h1 hv
    ⟨by decide, ⟨0, eight⟩, ⟨2, [1, 2, 3]⟩, rfl, rfl, fun _ => .inr rfl⟩
    (by rintro e S' ⟨x, y, x', y', hx, hy, hb, -⟩; exact hb.1)
  obtain ⟨-, u, h7⟩ := unit_inv h7
  exact ⟨m, m3, h1, h2, h3, h4, h5, by decide, h7⟩

/-- `demo` with an element type that is trivially copyable -/
def podType : Env Nat := { demo with trivCopy := true, trivDtor := true, cthrow := fun _ _ => false }
theorem podType_good : podType.Good where
  triv := by decide
  nothrow _ := .inl rfl
  base := by decide
  wpos := by decide
theorem podType_endless : Endless podType := ⟨fun n => Nat.succ_ne_zero n, fun _ _ h => Nat.succ.inj h⟩
theorem podType_op {m : Mem Nat} {S : Bank Nat} {op : Op Nat} (h : Reach podType m) (hv : View podType m S)
    (hp : op.Pre podType S) (hx : ∀ e S', op.Exc podType S e S' → e = .alloc) :
    ∃ r m' S', op.run podType m = .ok r m' ∧ op.Ok podType S r S' ∧ View podType m' S' ∧ Reach podType m' := by
  rcases h.op podType_good hv hp with ⟨r, m', S', h1, h2, h3, h4⟩ | ⟨e, m', S', h1, h2, h3, h4⟩
  · exact ⟨r, m', S', h1, h2, h3, h4⟩
  · cases hx e S' h2
    exact absurd h1 (h.no_alloc podType_endless op)
theorem podType_add {m : Mem Nat} {S : Bank Nat} (h : Reach podType m) (hv : View podType m S) (o al : Nat) (ho : S o = none)
    (vs : List Nat) (hl : vs.length ≤ max_size podType) :
    ∃ m', Reach podType m' ∧ View podType m' (upd S o (some ⟨al, vs⟩)) := by
  obtain ⟨r, m', S', -, h2, h3, h4⟩ := podType_op (op := .new o (.list al vs)) h hv ⟨ho, hl, rfl⟩
    (fun e S' hx => hx.1.elim id fun hb => by simp [podType, CopyThrows] at hb)
  obtain ⟨-, x, hx, rfl⟩ := h2
  cases hx
  exact ⟨m', h4, h3⟩
-- a trivially copyable element type, two containers whose allocators differ
example : ∃ m m' : Mem Nat, podType.trivCopy = true ∧ Reach podType m ∧ Contents podType 0 m eight ∧
    Contents podType 1 m [1, 2, 3] ∧ assign_move podType 0 1 m = .ok () m' ∧
    Contents podType 0 m' [1, 2, 3] ∧ Contents podType 1 m' [1, 2, 3] := by
  obtain ⟨m, h1, hv⟩ := podType_add .init view_init 0 0 rfl eight (by decide)
  obtain ⟨m, h1, hv⟩ := podType_add h1 hv 1 2 (by simp [upd]) [1, 2, 3] (by decide)
  have h3 := hv 0
  have h4 := hv 1
  rw [upd_self] at h4
  rw [upd_ne (by decide), upd_self] at h3
  obtain ⟨r, m3, S3, h7, -⟩ := podType_op (op := .bin 0 1 .assignMove) h1 hv
    ⟨by decide, ⟨0, eight⟩, ⟨2, [1, 2, 3]⟩, rfl, rfl, fun _ => .inr rfl⟩
    (by rintro e S' ⟨x, y, x', y', hx, hy, hb, -⟩; exact hb.1)
  obtain ⟨-, u, h7⟩ := unit_inv h7
  exact ⟨m, m3, rfl, h1, h3.2, h4.2, h7,
    (C31_move_trivial podType_good h1 rfl h4.2 rfl h4.1).1 0 eight 0 m3 (by decide) h3.2 h3.1 rfl (by decide) h7⟩

/-! ### C32: swap -/

/-- C32: `swap` returns and exchanges the sequences; the allocators are exchanged
iff they propagate; every iterator of one container is, in every field, the
corresponding iterator of the other afterwards; no heap cell changes and no
allocation is made. -/
theorem C32_swap (hE : E.Good) (hr : Reach E m) (hc : Contents E o m xs) (hd : Contents E p m ys)
    (hne : o ≠ p) (ha : get_allocator o m = .ok al m) (ha2 : get_allocator p m = .ok al2 m)
    (hw : E.pocs = true ∨ E.acls al = E.acls al2) :
    ∃ m', swap E o p m = .ok () m' ∧ Contents E o m' ys ∧ Contents E p m' xs ∧
      get_allocator o m' = .ok (if E.pocs then al2 else al) m' ∧
      get_allocator p m' = .ok (if E.pocs then al else al2) m' ∧
      (∀ i it, nth E o i m = .ok it m → nth E p i m' = .ok it m') ∧
      (∀ i it, nth E p i m = .ok it m → nth E o i m' = .ok it m') ∧
      (∀ a, m'.cell (.heap a) = m.cell (.heap a)) ∧ m'.log = m.log := by
  obtain ⟨al', s, al2', s2, F, hs, rfl, hs2, rfl, H⟩ := hr.cont2 hE hc hd hne
  have H1 := H.eqv (by ac_rfl : _ = cont E p al2' s2 + (cont E o al' s + F))
  rw [get_allocator_c H] at ha; cases ha
  rw [get_allocator_c H1] at ha2; cases ha2
  obtain ⟨m', h, H'⟩ := swap_c hw H
  have H2 := H'.eqv (by ac_rfl : _ = cont E p (if E.pocs then al else al2) s + (cont E o (if E.pocs then al2 else al) s2 + F))
  obtain ⟨h1, h2⟩ := HeapSame.swap o p _ _ _ h
  refine ⟨m', h, cont_contents hs2 H', cont_contents hs H2, get_allocator_c H', get_allocator_c H2, fun i it hi => ?_,
    fun i it hi => ?_, h1, h2⟩
  · exact same_nth hs H H2 hi
  · exact same_nth hs2 H1 H' hi

/-- C32: swapping a container with itself changes nothing -/
theorem C32_self (hE : E.Good) (hr : Reach E m) (hc : Contents E o m xs) :
    ∃ m', swap E o o m = .ok () m' ∧ Unchanged E o m m' ∧ (∀ a, m'.cell (.heap a) = m.cell (.heap a)) := by
  obtain ⟨al, s, F, hs, rfl, H⟩ := hr.cont hE hc
  obtain ⟨m', h, H'⟩ := swap_self_c H
  exact ⟨m', h, cont_unchanged hs H H', (HeapSame.swap o o _ _ _ h).1⟩

/-! ### C35: splice -/

/-- C35: `splice(nth(i), other)` -/
theorem C35_splice (hE : E.Good) (hr : Reach E m) (hc : Contents E o m xs) (hd : Contents E p m ys)
    (hne : o ≠ p) (hi : i ≤ xs.length) (hit : nth E o i m = .ok it m) (hn : ys ≠ [] ∨ E.nullFree = true)
    (hsz : xs.length + ys.length ≤ max_size E) (h : splice E o it p m = .ok () m') :
    Contents E o m' (xs.take i ++ ys ++ xs.drop i) ∧ Contents E p m' [] ∧
    (∀ al, get_allocator o m = .ok al m → get_allocator o m' = .ok al m') ∧
    (∀ al, get_allocator p m = .ok al m → get_allocator p m' = .ok al m') := by
  obtain ⟨al, s, al2, s2, F, hs, rfl, hs2, rfl, H⟩ := hr.cont2 hE hc hd hne
  have H1 := H.eqv (by ac_rfl : _ = cont E p al2 s2 + (cont E o al s + F))
  obtain ⟨s', r, hs', he, H'⟩ := (splice_c hE hs hs2 (at_of_nth hs H hi hit) hn (max_lt hE hsz) H).ret h
  have H2 := H'.eqv (by ac_rfl : _ = cont E p al2 .nil + (cont E o al s' + F))
  rw [List.append_assoc]
  refine ⟨he ▸ cont_contents hs' H', cont_contents (.nil hE.wpos) H2, fun al' h1 => ?_, fun al' h1 => ?_⟩
  · rw [get_allocator_c H] at h1; cases h1; exact get_allocator_c H'
  · rw [get_allocator_c H1] at h1; cases h1; exact get_allocator_c H2

/-- C35: `splice(nth(i), other, nth(j))` moves one element -/
theorem C35_splice_one (hE : E.Good) (hr : Reach E m) (hc : Contents E o m xs) (hd : Contents E p m ys)
    (hne : o ≠ p) (hi : i ≤ xs.length) (hit : nth E o i m = .ok it m) (hj : j < ys.length)
    (hjt : nth E p j m = .ok jt m) (hsz : xs.length + 1 ≤ max_size E) (h : splice_one E o it p jt m = .ok () m') :
    Contents E o m' (xs.take i ++ ys[j] :: xs.drop i) ∧ Contents E p m' (ys.take j ++ ys.drop (j + 1)) := by
  obtain ⟨al, s, al2, s2, F, hs, rfl, hs2, rfl, H⟩ := hr.cont2 hE hc hd hne
  have H1 := H.eqv (by ac_rfl : _ = cont E p al2 s2 + (cont E o al s + F))
  obtain ⟨s', s2', r, hs', hs2', he, he2, H'⟩ := (splice_one_c hE hs hs2 (at_of_nth hs H hi hit)
    (at_of_nth hs2 H1 (Nat.le_of_lt hj) hjt) hj (max_lt hE hsz) H).ret h
  have H2 := H'.eqv (by ac_rfl : _ = cont E p al2 s2' + (cont E o al s' + F))
  rw [← List.eraseIdx_eq_take_drop_succ]
  exact ⟨he ▸ cont_contents hs' H', he2 ▸ cont_contents hs2' H2⟩

/-- C35: `splice(nth(i), other, nth(a), nth(b))` moves the range -/
theorem C35_splice_range (hE : E.Good) (hr : Reach E m) (hc : Contents E o m xs) (hd : Contents E p m ys)
    (hne : o ≠ p) (hi : i ≤ xs.length) (hit : nth E o i m = .ok it m) (hab : a ≤ b) (hb : b ≤ ys.length)
    (hf : nth E p a m = .ok first m) (hl : nth E p b m = .ok last m) (hsz : xs.length + (b - a) ≤ max_size E)
    (h : splice_range E o it p first last m = .ok () m') :
    Contents E o m' (xs.take i ++ slice ys a b ++ xs.drop i) ∧ Contents E p m' (ys.take a ++ ys.drop b) := by
  obtain ⟨al, s, al2, s2, F, hs, rfl, hs2, rfl, H⟩ := hr.cont2 hE hc hd hne
  have H1 := H.eqv (by ac_rfl : _ = cont E p al2 s2 + (cont E o al s + F))
  obtain ⟨s', s2', r, hs', hs2', he, he2, H'⟩ := (splice_range_c hE hs hs2 (at_of_nth hs H hi hit)
    (at_of_nth hs2 H1 (Nat.le_trans hab hb) hf) (at_of_nth hs2 H1 hb hl) hab (max_lt hE hsz) H).ret h
  have H2 := H'.eqv (by ac_rfl : _ = cont E p al2 s2' + (cont E o al s' + F))
  rw [List.append_assoc]
  exact ⟨he ▸ cont_contents hs' H', he2 ▸ cont_contents hs2' H2⟩

-- the hypotheses are met
example : ∃ (m m1 m2 m3 : Mem Nat) (it jt first last : Iter), Reach demo m ∧ Contents demo 0 m eight ∧
    Contents demo 1 m [1, 2, 3, 4, 5] ∧ nth demo 0 3 m = .ok it m ∧ nth demo 1 2 m = .ok jt m ∧
    nth demo 1 1 m = .ok first m ∧ nth demo 1 4 m = .ok last m ∧ splice demo 0 it 1 m = .ok () m1 ∧
    splice_one demo 0 it 1 jt m = .ok () m2 ∧ splice_range demo 0 it 1 first last m = .ok () m3 := by
  obtain ⟨m, h1, hv, h2, h3, -⟩ := demo_lists eight [1, 2, 3, 4, 5] 0 2
  obtain ⟨it, hit⟩ := h1.nth demo_good h2 3
  obtain ⟨jt, hjt⟩ := h1.nth demo_good h3 2
  obtain ⟨first, hf⟩ := h1.nth demo_good h3 1
  obtain ⟨last, hl⟩ := h1.nth demo_good h3 4
  obtain ⟨r, m1, S1, h5, -⟩ := demo_op (op := .bin 0 1 (.splice 3)) h1 hv
    ⟨by decide, ⟨0, eight⟩, ⟨2, [1, 2, 3, 4, 5]⟩, rfl, rfl, (by decide : 3 ≤ eight.length), .inr rfl,
      (by decide : eight.length + 5 ≤ max_size demo)⟩
    (by rintro e S' ⟨x, y, x', y', hx, hy, hb, -⟩; exact hb.1)
  obtain ⟨r, m2, S2, h6, -⟩ := demo_op (op := .bin 0 1 (.spliceOne 3 2)) h1 hv
    ⟨by decide, ⟨0, eight⟩, ⟨2, [1, 2, 3, 4, 5]⟩, rfl, rfl, (by decide : 3 ≤ eight.length),
      (by decide : 2 < [1, 2, 3, 4, 5].length), (by decide : eight.length + 1 ≤ max_size demo)⟩
    (by
      rintro e S' ⟨x, y, x', y', hx, hy, hb, -⟩; cases hx; cases hy
      obtain ⟨⟨h, hb⟩, -⟩ := hb
      exact demo_blame (vs := [3]) (by decide) hb)
  obtain ⟨r, m3, S3, h7, -⟩ := demo_op (op := .bin 0 1 (.spliceRange 3 1 4)) h1 hv
    ⟨by decide, ⟨0, eight⟩, ⟨2, [1, 2, 3, 4, 5]⟩, rfl, rfl, (by decide : 3 ≤ eight.length), by decide,
      (by decide : 4 ≤ [1, 2, 3, 4, 5].length), (by decide : eight.length + (4 - 1) ≤ max_size demo)⟩
    (by rintro e S' ⟨x, y, x', y', hx, hy, hb, -⟩; exact hb.1)
  obtain ⟨-, u, h5⟩ := unit_inv h5
  obtain ⟨-, u, h6⟩ := unit_inv h6
  obtain ⟨-, u, h7⟩ := unit_inv h7
  rw [bind_ok hit] at h5 h6 h7
  rw [bind_ok hjt] at h6
  rw [bind_ok hf, bind_ok hl] at h7
  exact ⟨m, m1, m2, m3, it, jt, first, last, h1, h2, h3, hit, hjt, hf, hl, h5, h6, h7⟩

/-! ### C36: merge -/

/-- `comp` is a strict weak order, as the standard requires of comparators -/
structure StrictWeak (comp : α → α → Bool) : Prop where
  irrefl : ∀ a, comp a a = false
  trans : ∀ a b c, comp a b = true → comp b c = true → comp a c = true
  incomp : ∀ a b c, comp a b = false → comp b a = false → comp b c = false → comp c b = false →
    comp a c = false ∧ comp c a = false

/-- sorted: no element is less than an earlier one -/
def SortedBy (comp : α → α → Bool) (l : List α) : Prop := l.Pairwise (fun a b => comp b a = false)

theorem sublist_merge {le : α → α → Bool} (xs ys : List α) :
    xs.Sublist (xs.merge ys le) ∧ ys.Sublist (xs.merge ys le) := by
  induction xs, ys using List.merge.induct (le := le) with
  | case1 ys => simp
  | case2 xs => simp
  | case3 x xs y ys h ih =>
    rw [List.cons_merge_cons_pos _ _ _ h]
    exact ⟨ih.1.cons_cons x, ih.2.cons x⟩
  | case4 x xs y ys h ih =>
    rw [List.cons_merge_cons_neg _ _ _ h]
    exact ⟨ih.1.cons y, ih.2.cons_cons y⟩

theorem StrictWeak.le_trans {comp : α → α → Bool} (h : StrictWeak comp) (a b c : α) :
    (!comp b a) = true → (!comp c b) = true → (!comp c a) = true := by
  simp only [Bool.not_eq_true']
  intro h1 h2
  by_contra hc
  rw [Bool.not_eq_false] at hc
  cases hab : comp a b with
  | true => rw [h.trans c a b hc hab] at h2; cases h2
  | false =>
    cases hbc : comp b c with
    | true => rw [h.trans b c a hbc hc] at h1; cases h1
    | false => rw [(h.incomp a b c hab h1 hbc h2).2] at hc; cases hc

theorem StrictWeak.le_total {comp : α → α → Bool} (h : StrictWeak comp) (a b : α) :
    ((!comp b a) || (!comp a b)) = true := by
  cases h1 : comp b a with
  | false => rfl
  | true =>
    cases h2 : comp a b with
    | false => rfl
    | true =>
      have := h.trans a b a h2 h1
      rw [h.irrefl] at this
      cases this

/-- C36: `merge(other, comp)` empties `other` and leaves a permutation of both
sequences in which each sequence's elements keep their order; it is the stable
merge (`List.merge` takes from `xs` unless the head of `ys` is less). -/
theorem C36_merge (hE : E.Good) (hr : Reach E m) (hc : Contents E o m xs) (hd : Contents E p m ys)
    (hne : o ≠ p) (hsz : xs.length + ys.length ≤ max_size E) {comp : α → α → Bool}
    (h : merge E o p comp m = .ok () m') :
    ∃ zs, Contents E o m' zs ∧ Contents E p m' [] ∧ zs = xs.merge ys (fun a b => !comp b a) ∧
      zs.Perm (xs ++ ys) ∧ xs.Sublist zs ∧ ys.Sublist zs := by
  obtain ⟨al, s, al2, s2, F, hs, rfl, hs2, rfl, H⟩ := hr.cont2 hE hc hd hne
  obtain ⟨s', s2', r, hs', hs2', he, he2, H'⟩ := (merge_c hE hs hs2 (max_lt hE hsz) H).ret h
  have H2 := H'.eqv (by ac_rfl : _ = cont E p al2 s2' + (cont E o al s' + F))
  refine ⟨_, he ▸ cont_contents hs' H', he2 ▸ cont_contents hs2' H2, rfl, List.merge_perm_append _, (sublist_merge _ _).1, (sublist_merge _ _).2⟩

/-- C36: merging two sorted sequences gives a sorted one. -/
theorem C36_sorted (hE : E.Good) (hr : Reach E m) (hc : Contents E o m xs) (hd : Contents E p m ys)
    (hne : o ≠ p) (hsz : xs.length + ys.length ≤ max_size E) {comp : α → α → Bool} (hw : StrictWeak comp)
    (hxs : SortedBy comp xs) (hys : SortedBy comp ys) (h : merge E o p comp m = .ok () m') :
    ∃ zs, Contents E o m' zs ∧ SortedBy comp zs := by
  obtain ⟨zs, h1, -, h2, -⟩ := C36_merge hE hr hc hd hne hsz h
  refine ⟨zs, h1, ?_⟩
  have := List.pairwise_merge (le := fun a b => !comp b a) hw.le_trans hw.le_total xs ys
    (hxs.imp (by simp)) (hys.imp (by simp))
  rw [h2]
  exact this.imp (by simp)

-- the hypotheses are met: merging two sorted containers by `<`
example : StrictWeak (fun a b : Nat => decide (a < b)) where
  irrefl := by simp
  trans := by intro a b c; simp; omega
  incomp := by intro a b c; simp; omega
example : ∃ (m m' : Mem Nat), Reach demo m ∧ Contents demo 0 m eight ∧ Contents demo 1 m [1, 12, 20] ∧
    SortedBy (fun a b : Nat => decide (a < b)) eight ∧ SortedBy (fun a b : Nat => decide (a < b)) [1, 12, 20] ∧
    merge demo 0 1 (fun a b => decide (a < b)) m = .ok () m' := by
  obtain ⟨m, h1, hv, h2, h3, -⟩ := demo_lists eight [1, 12, 20] 0 2
  obtain ⟨r, m1, S1, h5, -⟩ := demo_op (op := .bin 0 1 (.merge (fun a b => decide (a < b)))) h1 hv
    ⟨by decide, ⟨0, eight⟩, ⟨2, [1, 12, 20]⟩, rfl, rfl, (by decide : eight.length + 3 ≤ max_size demo)⟩
    (by rintro e S' ⟨x, y, x', y', hx, hy, hb, -⟩; exact hb.1)
  obtain ⟨-, u, h5⟩ := unit_inv h5
  exact ⟨m, m1, h1, h2, h3, by unfold SortedBy eight; decide, by unfold SortedBy; decide, h5⟩

end SegTree
