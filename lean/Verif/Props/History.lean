/-
  C04, C08, C09, C12-C14, C33, C34: whole programs.

  A program is a list of calls; `Exec` runs the modelled code on them, `Model`
  runs plain lists.
-/
import Verif.Proof.Blocks
import Verif.Props.Single
set_option autoImplicit false

namespace SegTree
variable {α : Type} {E : Env α} {m m' : Mem α} {S : Bank α} {op : Op α}

/-! ### Histories -/

/-- how a call ended -/
inductive Outcome (α : Type) where
  | ret (r : Ret α)
  | exc (e : Exn)

/-- a history: calls and how they ended -/
abbrev Hist (α : Type) := List (Op α × Outcome α)

/-- Executions of the implementation: each call is made in a memory that looks
like a bank on which the call's precondition holds. -/
inductive Exec (E : Env α) : Mem α → Hist α → Mem α → Prop where
  | nil {m : Mem α} : Exec E m [] m
  | ret {m m' m'' : Mem α} {S : Bank α} {op : Op α} {r : Ret α} {h : Hist α} : View E m S → op.Pre E S →
      op.run E m = .ok r m' → Exec E m' h m'' → Exec E m ((op, .ret r) :: h) m''
  | exc {m m' m'' : Mem α} {S : Bank α} {op : Op α} {e : Exn} {h : Hist α} : View E m S → op.Pre E S →
      op.run E m = .throw e m' → Exec E m' h m'' → Exec E m ((op, .exc e) :: h) m''

/-- The same history on plain lists: what each call returns, and what each
container holds afterwards, is given by the specification alone. -/
inductive Model (E : Env α) : Bank α → Hist α → Bank α → Prop where
  | nil {S : Bank α} : Model E S [] S
  | ret {S S' S'' : Bank α} {op : Op α} {r : Ret α} {h : Hist α} : op.Pre E S → op.Ok E S r S' →
      Model E S' h S'' → Model E S ((op, .ret r) :: h) S''
  | exc {S S' S'' : Bank α} {op : Op α} {e : Exn} {h : Hist α} : op.Pre E S → op.Exc E S e S' →
      Model E S' h S'' → Model E S ((op, .exc e) :: h) S''

theorem step_ret (hE : E.Good) (hr : Reach E m) (hv : View E m S) (hp : op.Pre E S) {r : Ret α}
    (h : op.run E m = .ok r m') : ∃ S', op.Ok E S r S' ∧ View E m' S' := by
  rcases hr.op hE hv hp with ⟨r1, m1, S', h1, h2, h3, -⟩ | ⟨e, m1, S', h1, -⟩
  · rw [h] at h1; cases h1; exact ⟨S', h2, h3⟩
  · rw [h] at h1; cases h1
theorem step_exc (hE : E.Good) (hr : Reach E m) (hv : View E m S) (hp : op.Pre E S) {e : Exn}
    (h : op.run E m = .throw e m') : ∃ S', op.Exc E S e S' ∧ View E m' S' := by
  rcases hr.op hE hv hp with ⟨r1, m1, S', h1, -⟩ | ⟨e, m1, S', h1, h2, h3, -⟩
  · rw [h] at h1; cases h1
  · rw [h] at h1; cases h1; exact ⟨S', h2, h3⟩

/-- C04: every execution is a history of the plain-list model, and what the
containers look like afterwards is what the model says. -/
theorem C04_simulation (hE : E.Good) {h : Hist α} (hx : Exec E noMem h m) :
    ∃ S, Model E (fun _ => none) h S ∧ View E m S := by
  have key : ∀ {m0 : Mem α} {h : Hist α} {m : Mem α}, Exec E m0 h m → ∀ {S0 : Bank α}, Reach E m0 → View E m0 S0 →
      ∃ S, Model E S0 h S ∧ View E m S := by
    intro m0 h m hx
    induction hx with
    | nil => intro S0 _ hv; exact ⟨S0, .nil, hv⟩
    | ret hv hp hrun _ ih =>
      intro S0 hr hv0
      cases hv.unique hv0
      obtain ⟨S', h1, h2⟩ := step_ret hE hr hv hp hrun
      obtain ⟨S, h3, h4⟩ := ih (.ret hr hv hp hrun) h2
      exact ⟨S, .ret hp h1 h3, h4⟩
    | exc hv hp hrun _ ih =>
      intro S0 hr hv0
      cases hv.unique hv0
      obtain ⟨S', h1, h2⟩ := step_exc hE hr hv hp hrun
      obtain ⟨S, h3, h4⟩ := ih (.exc hr hv hp hrun) h2
      exact ⟨S, .exc hp h1 h3, h4⟩
  exact key hx .init view_init

/-- C04: the model determines what a call that returns gives back and leaves
behind, so by `C04_simulation` the returned values of an execution are those of
the model. -/
theorem C04_deterministic {r r' : Ret α} {S1 S2 : Bank α} (h1 : op.Ok E S r S1) (h2 : op.Ok E S r' S2) :
    r = r' ∧ S1 = S2 := by
  cases op with
  | un o c =>
    obtain ⟨x, x1, hx, h1, rfl⟩ := h1
    obtain ⟨y, y1, hy, h2, rfl⟩ := h2
    rw [hx] at hy; cases hy
    cases c <;> simp only [Un.Ok] at h1 h2
    case at_ => obtain ⟨⟨_, rfl⟩, rfl⟩ := h1; obtain ⟨⟨_, rfl⟩, rfl⟩ := h2; exact ⟨rfl, rfl⟩
    case index => obtain ⟨⟨_, rfl⟩, rfl⟩ := h1; obtain ⟨⟨_, rfl⟩, rfl⟩ := h2; exact ⟨rfl, rfl⟩
    case front => obtain ⟨⟨_, rfl⟩, rfl⟩ := h1; obtain ⟨⟨_, rfl⟩, rfl⟩ := h2; exact ⟨rfl, rfl⟩
    case back => obtain ⟨⟨_, rfl⟩, rfl⟩ := h1; obtain ⟨⟨_, rfl⟩, rfl⟩ := h2; exact ⟨rfl, rfl⟩
    case insertSelf => obtain ⟨rfl, _, rfl⟩ := h1; obtain ⟨rfl, _, rfl⟩ := h2; exact ⟨rfl, rfl⟩
    all_goals
      obtain ⟨rfl, rfl⟩ := h1; obtain ⟨rfl, rfl⟩ := h2; exact ⟨rfl, rfl⟩
  | bin o p c =>
    obtain ⟨x, y, x1, y1, hx, hy, h1, rfl⟩ := h1
    obtain ⟨x', y', x2, y2, hx', hy', h2, rfl⟩ := h2
    rw [hx] at hx'; cases hx'
    rw [hy] at hy'; cases hy'
    cases c <;> simp only [Bin.Ok] at h1 h2
    case assignMove =>
      obtain ⟨rfl, rfl, h3, h4⟩ := h1
      obtain ⟨rfl, rfl, h5, h6⟩ := h2
      by_cases h : E.pocma = true ∨ SameAlloc E x.alloc y.alloc
      · rw [h3 h, h5 h]; exact ⟨rfl, rfl⟩
      · rw [h4 h, h6 h]; exact ⟨rfl, rfl⟩
    case spliceOne =>
      obtain ⟨rfl, ⟨_, rfl⟩, rfl⟩ := h1; obtain ⟨rfl, ⟨_, rfl⟩, rfl⟩ := h2; exact ⟨rfl, rfl⟩
    all_goals
      obtain ⟨rfl, rfl, rfl⟩ := h1; obtain ⟨rfl, rfl, rfl⟩ := h2; exact ⟨rfl, rfl⟩
  | new o c =>
    obtain ⟨rfl, x1, h1, rfl⟩ := h1
    obtain ⟨rfl, x2, h2, rfl⟩ := h2
    cases c <;> simp only [New.Ok] at h1 h2 <;> subst h1 <;> subst h2 <;> exact ⟨rfl, rfl⟩
  | new2 o p c =>
    obtain ⟨rfl, y, x1, y1, hy, h1, rfl⟩ := h1
    obtain ⟨rfl, y', x2, y2, hy', h2, rfl⟩ := h2
    rw [hy] at hy'; cases hy'
    cases c <;> simp only [New2.Ok] at h1 h2
    case moveAlloc al =>
      obtain ⟨rfl, h3, h4⟩ := h1
      obtain ⟨rfl, h5, h6⟩ := h2
      by_cases h : SameAlloc E al y.alloc
      · rw [h3 h, h5 h]; exact ⟨rfl, rfl⟩
      · rw [h4 h, h6 h]; exact ⟨rfl, rfl⟩
    all_goals
      obtain ⟨rfl, rfl⟩ := h1; obtain ⟨rfl, rfl⟩ := h2; exact ⟨rfl, rfl⟩
  | dtor o =>
    obtain ⟨rfl, rfl⟩ := h1
    obtain ⟨rfl, rfl⟩ := h2
    exact ⟨rfl, rfl⟩

/-- C04: whenever the model's precondition holds the call can be made: it
returns or throws, as the model says, and the history can go on. -/
theorem C04_progress (hE : E.Good) (hr : Reach E m) (hv : View E m S) (hp : op.Pre E S) :
    (∃ r m' S', op.run E m = .ok r m' ∧ op.Ok E S r S' ∧ View E m' S') ∨
    (∃ e m' S', op.run E m = .throw e m' ∧ op.Exc E S e S' ∧ View E m' S') := by
  rcases hr.op hE hv hp with ⟨r, m', S', h1, h2, h3, -⟩ | ⟨e, m', S', h1, h2, h3, -⟩
  · exact .inl ⟨r, m', S', h1, h2, h3⟩
  · exact .inr ⟨e, m', S', h1, h2, h3⟩

/-- the reachable memories are the memories of executions -/
theorem reach_iff_exec : Reach E m ↔ ∃ h, Exec E noMem h m := by
  constructor
  · have snoc : ∀ {m0 m1 m2 : Mem α} {h1 h2 : Hist α}, Exec E m0 h1 m1 → Exec E m1 h2 m2 → Exec E m0 (h1 ++ h2) m2 := by
      intro m0 m1 m2 h1 h2 hx
      induction hx with
      | nil => exact id
      | ret a b c _ ih => exact fun k => .ret a b c (ih k)
      | exc a b c _ ih => exact fun k => .exc a b c (ih k)
    intro h
    induction h with
    | init => exact ⟨[], .nil⟩
    | ret _ hv hp hrun ih => obtain ⟨h, ih⟩ := ih; exact ⟨_, snoc ih (.ret hv hp hrun .nil)⟩
    | exc _ hv hp hrun ih => obtain ⟨h, ih⟩ := ih; exact ⟨_, snoc ih (.exc hv hp hrun .nil)⟩
  · rintro ⟨h, hx⟩
    have : ∀ {m0 : Mem α} {h : Hist α} {m : Mem α}, Exec E m0 h m → Reach E m0 → Reach E m := by
      intro m0 h m hx
      induction hx with
      | nil => exact id
      | ret a b c _ ih => exact fun k => ih (.ret k a b c)
      | exc a b c _ ih => exact fun k => ih (.exc k a b c)
    exact this hx .init

-- a concrete history: construct, insert, an insertion whose copy throws, read
example : ∃ m r, Exec demo noMem [(.new 0 (.list 0 eight), .ret .unit), (.un 0 (.insert 3 42), .ret (.pos 3)),
    (.un 0 (.pushBack 13), .exc .elem), (.un 0 (.at_ 3), .ret r)] m := by
  obtain ⟨r1, m1, S1, g1, g2, g3, g4⟩ := demo_op (op := .new 0 (.list 0 eight)) .init view_init
    ⟨rfl, (by decide : eight.length ≤ max_size demo), rfl⟩ (fun e S' hx => demo_blame (by decide) hx.1)
  obtain ⟨rfl, x, hx, rfl⟩ := g2
  cases hx
  obtain ⟨r2, m2, S2, k1, k2, k3, k4⟩ := demo_op (op := .un 0 (.insert 3 42)) g4 g3
    ⟨_, upd_self, (by decide : 3 ≤ eight.length), (by decide : eight.length + 1 ≤ max_size demo)⟩
    (by rintro e S' ⟨x, x', hx, hb, -⟩; exact demo_blame (by decide) hb.1)
  obtain ⟨x, x', hx, ⟨rfl, rfl⟩, rfl⟩ := k2
  rw [upd_self] at hx; cases hx
  rw [upd_twice] at k3
  have hc : Contents demo 0 m2 (ins eight 3 [42]) := by have := k3 0; rw [upd_self] at this; exact this.2
  have h13 := (C11_copy_throws (it := ⟨⟨⟨0, 0, 0⟩, ⟨0, 0⟩⟩, 0⟩) (v := 13) demo_good k4 hc rfl rfl).2.1
  have h13' : (Op.un 0 (.pushBack 13)).run demo m2 = .throw .elem m2.tick := bind_throw h13
  have k3' : View demo m2.tick (upd (fun _ => none) 0 (some ⟨0, ins eight 3 [42]⟩)) := by
    rcases k4.op (op := .un 0 (.pushBack 13)) demo_good k3 ⟨_, upd_self, (by decide : (ins eight 3 [42]).length + 1 ≤ max_size demo)⟩
      with ⟨r, m', S', l1, -⟩ | ⟨e, m', S', l1, l2, l3, -⟩
    · rw [h13'] at l1; cases l1
    · rw [h13'] at l1; cases l1
      obtain ⟨x, x', hx, ⟨-, rfl⟩, rfl⟩ := l2
      rw [upd_self] at hx; cases hx
      rw [upd_twice] at l3; exact l3
  have hc' : Contents demo 0 m2.tick (ins eight 3 [42]) := by have := k3' 0; rw [upd_self] at this; exact this.2
  have hat : (Op.un 0 (.at_ 3)).run demo m2.tick = .ok (.val 42) m2.tick := bind_ok (hc'.2 3 (by decide))
  exact ⟨m2.tick, .val 42, .ret view_init ⟨rfl, (by decide : eight.length ≤ max_size demo), rfl⟩ g1
    (.ret g3 ⟨_, upd_self, (by decide : 3 ≤ eight.length), (by decide : eight.length + 1 ≤ max_size demo)⟩ k1
    (.exc k3 ⟨_, upd_self, (by decide : (ins eight 3 [42]).length + 1 ≤ max_size demo)⟩ h13'
    (.ret k3' ⟨_, upd_self, trivial⟩ hat .nil)))⟩

/-! ### C08: no undefined behaviour, termination -/

/-- C08: a call made within its precondition terminates and meets none of the
kinds of undefined behaviour of the machine (`UB`: bad pointers, array bounds,
object lifetimes, leaked objects, bad deallocation, unintended wrap-around). -/
theorem C08_no_ub (hE : E.Good) (hr : Reach E m) (hv : View E m S) (hp : op.Pre E S) :
    op.run E m ≠ .div ∧ ∀ k, op.run E m ≠ .ub k := by
  rcases hr.op hE hv hp with ⟨r, m', S', h1, -⟩ | ⟨e, m', S', h1, -⟩ <;> rw [h1] <;>
    exact ⟨(nomatch ·), fun _ => (nomatch ·)⟩

/-! ### C09: no leak -/

/-- C09: the live allocations are exactly the blocks of the live containers,
each belonging to one container only. -/
theorem C09_no_leak (hE : E.Good) (hr : Reach E m) {a : Nat} :
    (m.cell (.heap a) ≠ none ↔ ∃ o h sz, Block m o h a sz) ∧
    (∀ o h sz o' h' sz', Block m o h a sz → Block m o' h' a sz' → o = o') := by
  obtain ⟨S, A, hR, H⟩ := hr.inv hE
  refine ⟨⟨fun h => ?_, ?_⟩, ?_⟩
  · obtain ⟨o, s, al, A', -, hs, rfl, ha⟩ := hR.heap (H.full _ (Option.isSome_iff_ne_none.2 h))
    obtain ⟨k, sz, hb⟩ := (block_loc H).1 ha
    exact ⟨o, k, sz, hb⟩
  · rintro ⟨o, k, sz, hb⟩
    obtain ⟨al, hh, t, F, -, H', -⟩ := hr.block hE hb
    have := (block_loc H').2 ⟨k, sz, hb⟩
    rw [Multiset.mem_map] at this
    obtain ⟨x, hx, hxa⟩ := this
    obtain ⟨c, hc, -⟩ := H'.sat x (Multiset.mem_add.2 (.inl hx))
    rw [hxa] at hc; rw [hc]; exact (nomatch ·)
  · intro o h sz o' h' sz' hb hb'
    by_contra hne
    cases ho : S o with
    | none => exact absurd (H.dead (hR.dead ho)) (block_obj hb)
    | some x =>
      cases hp : S o' with
      | none => exact absurd (H.dead (hR.dead hp)) (block_obj hb')
      | some y =>
        obtain ⟨s, A', -, hs, rfl, hR'⟩ := hR.split ho
        obtain ⟨s2, A'', -, hs2, rfl, -⟩ := hR'.split (by rw [upd_ne (fun e => hne e.symm)]; exact hp)
        have h1 := (block_loc H).2 ⟨h, sz, hb⟩
        have H2 := H.eqv (by ac_rfl : _ = cont E o' y.alloc s2 + (cont E o x.alloc s + A''))
        have h2 := (block_loc H2).2 ⟨h', sz', hb'⟩
        have hnd := H.nodup
        rw [Multiset.map_add, Multiset.nodup_add] at hnd
        refine Multiset.disjoint_left.1 hnd.2.2 h1 ?_
        rw [Multiset.map_add, Multiset.mem_add]
        exact .inl h2

/-- C09: once all containers have been destroyed, nothing is allocated. -/
theorem C09_all_freed (hE : E.Good) (hr : Reach E m) (h : ∀ o, m.cell (.obj o) = none) (a : Nat) :
    m.cell (.heap a) = none := by
  by_contra hc
  obtain ⟨o, k, sz, hb⟩ := ((C09_no_leak hE hr (a := a)).1).1 hc
  exact absurd (h o) (block_obj hb)

/-- C33: every block of a container came from an allocator equal to the one the
container has now, through which it will be deallocated; and it is a segment or
a node according to its height.  (That deallocation through an unequal allocator
never happens is part of C08: it is the undefined behaviour `badFree`.) -/
theorem C33_owner (hE : E.Good) (hr : Reach E m) {o h a sz al : Nat} (hb : Block m o h a sz)
    (ha : get_allocator o m = .ok al m) :
    (h = 0 → ∃ s, m.cell (.heap a) = some (.seg (E.acls al) s)) ∧
    (0 < h → ∃ n, m.cell (.heap a) = some (.node (E.acls al) n)) := by
  obtain ⟨al', hh, t, F, -, H, c, u, hu, rfl, -⟩ := hr.block hE hb
  rw [get_allocator_c H] at ha; cases ha
  cases h with
  | zero =>
    obtain ⟨s, hs, -⟩ := sub_seg H hu
    exact ⟨fun _ => ⟨s, hs⟩, fun h => absurd h (by omega)⟩
  | succ h =>
    obtain ⟨n, hn, -⟩ := sub_node H hu
    exact ⟨fun h => absurd h (by omega), fun _ => ⟨n, hn⟩⟩

-- a reachable container has blocks: the root of the tree of 8 elements is a node
example : ∃ (m : Mem Nat) (h a sz : Nat), Reach demo m ∧ Block m 0 (h + 2) a sz ∧ get_allocator 0 m = .ok 0 m := by
  obtain ⟨m, h1, hv, h2, -, h4, -⟩ := demo_lists eight [] 0 0
  obtain ⟨al, s, F, hs, he, H⟩ := h1.cont demo_good h2
  have h3 := demo_height h1 h2 (getHeight_c H) (by decide)
  have hb : Block m 0 _ _ _ := Block.root (h := (s.ht - 3) + 2) (cont_cell H) (by rw [St.obj_ht]; omega)
  exact ⟨m, _, _, _, h1, hb, h4⟩
-- and after its destruction nothing is allocated
example : ∃ (m : Mem Nat), Reach demo m ∧ (∀ o, m.cell (.obj o) = none) ∧ m.log.reqs ≠ 0 := by
  obtain ⟨m, h1, h2⟩ := demo_add .init view_init 0 0 rfl eight (by decide) (by decide)
  have hc : Contents demo 0 m eight := by have := h2 0; rw [upd_self] at this; exact this.2
  have hq : m.log.reqs ≠ 0 := by
    intro h0
    obtain ⟨al, s, F, hs, he, H⟩ := h1.cont demo_good hc
    have h3 := demo_height h1 hc (getHeight_c H) (by decide)
    have hb : Block m 0 _ _ _ := Block.root (h := s.ht - 1) (cont_cell H) (by rw [St.obj_ht]; omega)
    have hl := ((C09_no_leak demo_good h1).1).2 ⟨0, _, _, hb⟩
    obtain ⟨k, hk, -⟩ := h1.live (Option.isSome_iff_ne_none.2 hl)
    omega
  have hcl : Clearable demo ⟨0, eight⟩ := .inl (by decide)
  obtain ⟨S, A, hR, H⟩ := h1.inv demo_good
  cases (hR.view H).unique h2
  have hd := op_c demo_good (.dtor 0) hR H ⟨_, upd_self, hcl⟩
  rcases hd.cases with ⟨r, m', g1, S', ⟨-, rfl⟩, hI, hl, -⟩ | ⟨e, m', g1, S', hx, -⟩
  · refine ⟨m', .ret h1 h2 (op := .dtor 0) ⟨_, upd_self, hcl⟩ g1, ?_, ?_⟩
    · intro o
      have := hI.view o
      rw [upd_twice, upd_id rfl] at this
      exact this
    · rw [hl.2.2 trivial]; exact hq
  · exact absurd hx id

/-! ### C34: other containers -/

/-- C34: a call changes only the containers it names: every other container
keeps its elements, size, height and allocator, and all its iterators stay
valid, in every field, and refer to the same elements. -/
theorem C34_others (hE : E.Good) (hr : Reach E m) (hv : View E m S) (hp : op.Pre E S)
    (hout : (∃ r, op.run E m = .ok r m') ∨ ∃ e, op.run E m = .throw e m') {o : Nat} (ho : o ∉ op.objs) :
    Unchanged E o m m' := by
  obtain ⟨S0, A, hR, H⟩ := hr.inv hE
  cases (hR.view H).unique hv
  have := op_c hE op hR H hp
  rcases hout with ⟨r, h⟩ | ⟨e, h⟩
  · obtain ⟨-, -, -, -, h⟩ := this.ret h; exact h o ho
  · obtain ⟨-, -, -, -, h⟩ := this.exc h; exact h o ho

-- the hypotheses are met: inserting in container 0 beside container 1
example : ∃ (m m' : Mem Nat) (S : Bank Nat), Reach demo m ∧ View demo m S ∧ Op.Pre demo S (.un 0 (.insert 2 42)) ∧
    (∃ r, Op.run demo (.un 0 (.insert 2 42)) m = .ok r m') ∧ 1 ∉ (Op.un 0 (Un.insert 2 42)).objs ∧
    Contents demo 1 m [1, 2, 3] := by
  obtain ⟨m, h1, hv, h2, h3, -⟩ := demo_lists eight [1, 2, 3] 0 0
  have hp : Op.Pre demo (upd (upd (fun _ => none) 0 (some ⟨0, eight⟩)) 1 (some ⟨0, [1, 2, 3]⟩))
      (.un 0 (.insert 2 42)) := ⟨⟨0, eight⟩, by rw [upd_ne (by decide), upd_self],
    (by decide : 2 ≤ eight.length), (by decide : eight.length + 1 ≤ max_size demo)⟩
  obtain ⟨r, m', S', g1, -⟩ := demo_op h1 hv hp
    (by rintro e S' ⟨x, x', hx, hb, -⟩; exact demo_blame (by decide) hb.1)
  exact ⟨m, m', _, h1, hv, hp, ⟨r, g1⟩, by decide, h3⟩

/-! ### C12, C13, C14: exceptions -/

/-- C12 (every call): after an exception every container is still valid: the
memory still looks like a bank of containers, related to the bank before as
`Op.Exc` says, and it is reachable, so that every theorem of this development
applies to it (all operations keep working, nothing leaked). -/
theorem C12_basic (hE : E.Good) (hr : Reach E m) (hv : View E m S) (hp : op.Pre E S) {e : Exn}
    (h : op.run E m = .throw e m') : Reach E m' ∧ ∃ S', op.Exc E S e S' ∧ View E m' S' :=
  ⟨.exc hr hv hp h, step_exc hE hr hv hp h⟩

/-- C12: a fill insertion that throws has inserted a proper prefix of the new elements. -/
theorem C12_insert_fill (hE : E.Good) (hr : Reach E m) {o i n : Nat} {xs : List α} {v : α} {it : Iter} {e : Exn}
    (hc : Contents E o m xs) (hi : i ≤ xs.length) (hn : nth E o i m = .ok it m) (hsz : xs.length + n ≤ max_size E)
    (h : insert_fill E o it n v m = .throw e m') :
    ∃ k < n, Contents E o m' (xs.take i ++ List.replicate k v ++ xs.drop i) := by
  obtain ⟨al, s, F, hs, rfl, H⟩ := hr.cont hE hc
  obtain ⟨s', g', k, hk, h1, h2, -, H'⟩ :=
    (emplace_count_c hE (Mk.copy v) hs (at_of_nth hs H hi hn) (max_lt hE hsz) H).exc h
  refine ⟨k, hk, ?_⟩
  rw [List.append_assoc, ← h2]; exact cont_contents h1 H'

/-- C12: a range insertion that throws has inserted a proper prefix of the new elements. -/
theorem C12_insert_list (hE : E.Good) (hr : Reach E m) {o i : Nat} {xs vs : List α} {it : Iter} {e : Exn}
    (hc : Contents E o m xs) (hi : i ≤ xs.length) (hn : nth E o i m = .ok it m)
    (hsz : xs.length + vs.length ≤ max_size E) (h : insert_list E o it vs m = .throw e m') :
    ∃ k < vs.length, Contents E o m' (xs.take i ++ vs.take k ++ xs.drop i) := by
  obtain ⟨al, s, F, hs, rfl, H⟩ := hr.cont hE hc
  obtain ⟨s', X', g', k, hk, h1, h2, ⟨st, v, ws, -, hX⟩, -, H'⟩ :=
    (emplace_range_c (X := 0) (vs := vs) hE listSrc_ok hs (at_of_nth hs H hi hn) ⟨rfl, rfl⟩ (max_lt hE hsz)
      (by simpa using H)).exc h
  have hX : X' = 0 := by rcases hX with hX | hX <;> exact hX.2.2
  subst hX
  refine ⟨k, hk, ?_⟩
  rw [List.append_assoc, ← h2]; exact cont_contents h1 (by simpa using H')

-- both are met: inserting copies 1, 13 in a tree of height 3 throws at the second element
example : ∃ (m m' : Mem Nat) (it : Iter) (e : Exn), Reach demo m ∧ Contents demo 0 m eight ∧ nth demo 0 3 m = .ok it m ∧
    insert_list demo 0 it [1, 13] m = .throw e m' := by
  obtain ⟨m, h1, h2, -⟩ := demo_eight
  obtain ⟨S, al, hv, ho, -⟩ := h1.view demo_good h2
  obtain ⟨it, h3⟩ := h1.nth demo_good h2 3
  rcases h1.op (op := .un 0 (.insertList 3 [1, 13])) demo_good hv ⟨_, ho, (by decide : 3 ≤ eight.length),
    (by decide : eight.length + 2 ≤ max_size demo)⟩ with ⟨r, m', S', g1, g2, g3, g4⟩ | ⟨e, m', S', g1, g2, g3, g4⟩
  · exfalso
    obtain ⟨it', g5, -⟩ := pos_inv g1
    obtain ⟨jt, m1, h4, h5⟩ := bind_inv g5
    rw [h3] at h4; cases h4
    unfold insert_list emplace_range at h5
    obtain ⟨a, m2, h6, -⟩ := bind_inv h5
    rw [emplace_range_loop.eq_1] at h6
    simp only [listSrc, List.isEmpty_cons, Bool.false_eq_true] at h6
    obtain ⟨b, m3, -, h7⟩ := bind_inv h6
    rw [pure_bind] at h7
    obtain ⟨b2, m4, -, h8⟩ := bind_inv h7
    rw [emplace_range_loop.eq_1] at h8
    simp only [List.tail_cons, List.isEmpty_cons, Bool.false_eq_true] at h8
    obtain ⟨b3, m5, h9, -⟩ := bind_inv h8
    obtain ⟨b4, m6, h10, -⟩ := bind_inv h9
    cases h10
  · have g5 := pos_inv_throw g1
    rw [bind_ok h3] at g5
    exact ⟨m, m', it, e, h1, h2, h3, g5⟩

/-- C13: a fill, range / list, copy or move constructor that throws leaves the
memory exactly as it was (only the allocator's counters moved), except that the
move constructor with an unequal allocator, which moves element by element, has
moved some elements of its source. -/
theorem C13_ctor (hE : E.Good) (hr : Reach E m) (hv : View E m S) {o : Nat} {c : New α}
    (hp : (Op.new o c).Pre E S) {e : Exn} (h : c.run E o m = .throw e m') : m'.cell = m.cell := by
  obtain ⟨S0, A, hR, H⟩ := hr.inv hE
  cases (hR.view H).unique hv
  exact ((new_c hE c hp.2 (H.dead (hR.dead hp.1)) H).exc h).1

/-- C14: `bad_alloc` leaves a call only if the allocator refused a request
during it; a call that returns has had no request refused. -/
theorem C14_alloc (hE : E.Good) (hr : Reach E m) (hv : View E m S) (hp : op.Pre E S) :
    (∀ m', op.run E m = .throw .alloc m' → m'.log.fails = m.log.fails + 1) ∧
    (∀ e m', op.run E m = .throw e m' → e ≠ .alloc → m'.log.fails = m.log.fails) ∧
    (∀ r m', op.run E m = .ok r m' → m'.log.fails = m.log.fails) := by
  obtain ⟨S0, A, hR, H⟩ := hr.inv hE
  cases (hR.view H).unique hv
  have key := op_c hE op hR H hp
  refine ⟨fun m' h => ?_, fun e m' h he => ?_, fun r m' h => ?_⟩
  · obtain ⟨-, -, -, h, -⟩ := key.exc h; exact h.1 rfl
  · obtain ⟨-, -, -, h, -⟩ := key.exc h; exact h.2.1 he
  · obtain ⟨-, -, -, h, -⟩ := key.ret h; exact h.1

/-- calls that never throw, whatever the allocator and the element type do -/
def Op.NeverThrows : Op α → Prop
  | .un _ c => match c with
    | .erase _ | .eraseRange _ _ | .popBack | .popFront | .clear | .size | .empty | .getAlloc | .index _
    | .front | .back | .nth _ | .begin_ | .end_ | .penultimate | .setRv _ _ | .reverse | .sort _ | .removeIf _
    | .remove _ _ | .unique _ | .selfAssign | .selfMove | .selfSwap => True
    | _ => False
  | .bin _ _ c => match c with
    | .swap | .eq _ | .ne _ | .lt _ | .le _ | .gt _ | .ge _ => True
    | _ => False
  | .new _ c => match c with
    | .empty _ => True
    | _ => False
  | .new2 _ _ c => c = .move
  | .dtor _ => True

/-- C14: erasing, clearing, swapping, destroying, move constructing, reading and
reordering never throw and never call `allocate`. -/
theorem C14_never (hE : E.Good) (hr : Reach E m) (hv : View E m S) (hp : op.Pre E S) (hn : op.NeverThrows) :
    ∃ r m', op.run E m = .ok r m' ∧ m'.log = m.log := by
  obtain ⟨S0, A, hR, H⟩ := hr.inv hE
  cases (hR.view H).unique hv
  have hq : op.Quiet := by
    cases op with
    | un o c => cases c <;> first | exact trivial | exact hn.elim
    | bin o p c => cases c <;> first | exact trivial | exact hn.elim
    | new o c => cases c <;> first | exact trivial | exact hn.elim
    | new2 o p c => exact hn
    | dtor o => trivial
  rcases (op_c hE op hR H hp).cases with ⟨r, m', h, -, -, -, hl, -⟩ | ⟨e, m', h, S', hx, -⟩
  · exact ⟨r, m', h, hl.2.2 hq⟩
  · exfalso
    cases op with
    | un o c =>
      obtain ⟨x, x', -, hx, -⟩ := hx
      cases c <;> first | exact hx.elim | exact hn.elim
    | bin o p c =>
      obtain ⟨x, y, x', y', -, -, hx, -⟩ := hx
      cases c <;> first | exact hx.elim | exact hn.elim
    | new o c =>
      obtain ⟨hx, -⟩ := hx
      cases c <;> first | exact hx.elim | exact hn.elim
    | new2 o p c =>
      obtain ⟨y, y', -, hx, -⟩ := hx
      cases hn; exact hx.elim
    | dtor o => exact hx.elim

/-- C14: reading at an index never allocates either, even when it throws. -/
theorem C14_quiet (hE : E.Good) (hr : Reach E m) (hv : View E m S) (hp : op.Pre E S) (hq : op.Quiet)
    (hout : (∃ r, op.run E m = .ok r m') ∨ ∃ e, op.run E m = .throw e m') : m'.log = m.log := by
  obtain ⟨S0, A, hR, H⟩ := hr.inv hE
  cases (hR.view H).unique hv
  rcases hout with ⟨r, h⟩ | ⟨e, h⟩
  · obtain ⟨-, -, -, h, -⟩ := (op_c hE op hR H hp).ret h; exact h.2.2 hq
  · obtain ⟨-, -, -, h, -⟩ := (op_c hE op hR H hp).exc h; exact h.2.2 hq

/-- C14: with an allocator that always finds a fresh block, no call ever throws
`bad_alloc`. -/
theorem C14_endless (hr : Reach E m) (hf : (∀ n, E.oracle n ≠ 0) ∧ ∀ n k, E.oracle n = E.oracle k → n = k) :
    op.run E m ≠ .throw .alloc m' := hr.no_alloc hf op

-- C13 is met: a list constructor that throws at its second element
example : ∃ (m' : Mem Nat) (e : Exn), Reach demo noMem ∧ View demo noMem (fun _ => none) ∧
    (Op.new 0 (New.list 0 [1, 13])).Pre demo (fun _ => none) ∧ (New.list 0 [1, 13]).run demo 0 noMem = .throw e m' := by
  have hp : (Op.new 0 (New.list 0 [1, 13])).Pre demo (fun _ => none) := ⟨rfl, (by decide : 2 ≤ max_size demo), rfl⟩
  rcases Reach.op (op := .new 0 (.list 0 [1, 13])) demo_good .init view_init hp with
    ⟨r, m', S', g1, g2, g3, g4⟩ | ⟨e, m', S', g1, g2, g3, g4⟩
  · exfalso
    obtain ⟨-, u, h1⟩ := unit_inv g1
    obtain ⟨u, m1, h2, h3⟩ := bind_inv h1
    unfold M.onThrow at h3
    split at h3
    · rename_i w m2 h4
      obtain ⟨it, m3, -, h4⟩ := bind_inv h4
      obtain ⟨a, m3, h6, -⟩ := bind_inv h4
      obtain ⟨a, m2, h6, -⟩ := bind_inv h6
      rw [emplace_range_loop.eq_1] at h6
      simp only [listSrc, List.isEmpty_cons, Bool.false_eq_true] at h6
      obtain ⟨b, m3, -, h7⟩ := bind_inv h6
      rw [pure_bind] at h7
      obtain ⟨b2, m4, -, h8⟩ := bind_inv h7
      rw [emplace_range_loop.eq_1] at h8
      simp only [List.tail_cons, List.isEmpty_cons, Bool.false_eq_true] at h8
      obtain ⟨b3, m5, h9, -⟩ := bind_inv h8
      obtain ⟨b4, m6, h10, -⟩ := bind_inv h9
      cases h10
    · rename_i h4
      split at h3 <;> cases h3
    · cases h3
    · cases h3
  · exact ⟨m', e, .init, view_init, hp, g1⟩
-- C14 is met: erasing from a tree of height 3
example : ∃ (m : Mem Nat) (S : Bank Nat), Reach demo m ∧ View demo m S ∧ Op.Pre demo S (.un 0 (.erase 3)) ∧
    (Op.un 0 (Un.erase (α := Nat) 3)).NeverThrows := by
  obtain ⟨m, h1, h2⟩ := demo_add .init view_init 0 0 rfl eight (by decide) (by decide)
  exact ⟨m, _, h1, h2, ⟨_, upd_self, (by decide : 3 < eight.length)⟩, trivial⟩

end SegTree
