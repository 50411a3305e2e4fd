/-
  C69: moves that throw at arbitrary moments.  C68 with the exceptions of moves
  decided by an arbitrary oracle that may answer differently for two moves of the
  same value (a move constructor that allocates, say); and what goes wrong in the
  library when it does: a failing `push_back` on an empty container and a failing
  constructor.
-/
import Verif.Rough.Sim
import Verif.Props.Rough
import Verif.Props.Defects
set_option autoImplicit false
set_option linter.unusedSectionVars false

namespace SegTree
variable {α β : Type} {E : Env α} {m m' : Mem α} {S : Bank α} {op : Op α} {o p : Nat}

/-! ### Specification -/

/-- The memories of a program in which moves may have thrown at any moment (the
oracle `O` may differ from call to call) but no call has ended in an element
exception so far. -/
inductive Unhurt (E : Env α) : Mem α → Prop where
  | init : Unhurt E noMem
  | ret {m m' : Mem α} {S : Bank α} {op : Op α} {r : Ret α} (O : Moves α) {k n : Nat} :
      Unhurt E m → View E m S → op.Pre E S → ¬ op.inStd → op.rough E k m = .ok r m' n → Unhurt E m'
  | exc {m m' : Mem α} {S : Bank α} {op : Op α} {e : Exn} (O : Moves α) {k n : Nat} :
      Unhurt E m → View E m S → op.Pre E S → ¬ op.inStd → e ≠ .elem → op.rough E k m = .throw e m' n → Unhurt E m'

/-! ### Proofs -/

section
variable [Moves α]

theorem Lag.both {x : N α β} {y : M α β} (h : ∀ d, Lag d x y) (k : Nat) (m : Mem α) :
    (x k m).erase = y m ∨ ∃ m' n, x k m = .throw .elem m' n := by
  rcases (h true).run k m with h1 | h1 | h1
  · exact .inl h1
  · exact .inr h1
  · rcases (h false).run k m with h2 | h2 | h2
    · exact .inl h2
    · exact .inr h2
    · simp only [if_true] at h1
      simp only [Bool.false_eq_true, if_false] at h2
      exact .inl (by rw [h1, h2]; rfl)

namespace Lag
variable {d : Bool}
instance un_unit {x : N α β} {y : M α β} [Lag d x y] : Lag d (Rough.Un.unit x) (Un.unit y) := by
  unfold Rough.Un.unit Un.unit; infer_instance
instance un_pos {x : N α Iter} {y : M α Iter} [Lag d x y] : Lag d (Rough.Un.pos x) (Un.pos y) := by
  unfold Rough.Un.pos Un.pos; infer_instance
instance un_val {x : N α α} {y : M α α} [Lag d x y] : Lag d (Rough.Un.val x) (Un.val y) := by
  unfold Rough.Un.val Un.val; infer_instance
instance un_num {x : N α Nat} {y : M α Nat} [Lag d x y] : Lag d (Rough.Un.num x) (Un.num y) := by
  unfold Rough.Un.num Un.num; infer_instance
instance un_flag {x : N α Bool} {y : M α Bool} [Lag d x y] : Lag d (Rough.Un.flag x) (Un.flag y) := by
  unfold Rough.Un.flag Un.flag; infer_instance
end Lag

/-- the run failed because of an element: by its exception, or by an undefined or
endless destruction of what had been made -/
def FailsN (x : NRes α β) : Prop := (∃ m' n, x = .throw .elem m' n) ∨ (∃ u, x = .ub u) ∨ x = .div

theorem delegating_lag {al : Nat} {x : N α Unit} {y : M α Unit} (h : ∀ d, Lag d x y) (k : Nat) (m : Mem α) :
    (Rough.delegating E o al x k m).erase = delegating E.calm o al y m ∨ FailsN (Rough.delegating E o al x k m) := by
  unfold Rough.delegating delegating
  show (N.bind _ _ _ _).erase = M.bind _ _ _ ∨ FailsN (N.bind _ _ _ _)
  unfold N.bind M.bind Rough.ctor N.lift
  cases ctor (α := α) o al m with
  | ok v m1 =>
    show (N.onThrow _ _ k m1).erase = M.onThrow _ _ m1 ∨ FailsN (N.onThrow _ _ k m1)
    unfold M.onThrow N.onThrow
    have hd : ∀ n m2, (Rough.dtor E o n m2).erase = dtor E.calm o m2 ∨ ∃ m' n', Rough.dtor E o n m2 = .throw .elem m' n' :=
      Lag.both (fun _ => inferInstance)
    rcases Lag.both h k m1 with h1 | ⟨m2, n, h1⟩
    · rw [← h1]
      cases x k m1 with
      | ok v m2 n => exact .inl rfl
      | throw e m2 n =>
        simp only [NRes.erase]
        rcases hd n m2 with h2 | ⟨m3, n3, h2⟩
        · left; rw [← h2]; cases Rough.dtor E o n m2 <;> rfl
        · right; rw [h2]; exact .inl ⟨_, _, rfl⟩
      | ub u => exact .inl rfl
      | div => exact .inl rfl
    · right
      rw [h1]
      simp only
      rcases hd n m2 with h2 | ⟨m3, n3, h2⟩
      · have hn : Raises (fun _ => False) (dtor E.calm o) := inferInstance
        cases hx : Rough.dtor E o n m2 with
        | ok v m3 n3 => exact .inl ⟨_, _, rfl⟩
        | throw e m3 n3 =>
          rw [hx] at h2
          exact (hn.throws h2.symm).elim
        | ub u => exact .inr (.inl ⟨u, rfl⟩)
        | div => exact .inr (.inr rfl)
      · rw [h2]; exact .inl ⟨_, _, rfl⟩
  | throw e m1 => exact .inl rfl
  | ub u => exact .inl rfl
  | div => exact .inl rfl

theorem failsN_unit {x : N α β} {y : M α β} {k : Nat} (h : (x k m).erase = y m ∨ FailsN (x k m)) :
    (Rough.Un.unit x k m).erase = Un.unit y m ∨ FailsN (Rough.Un.unit x k m) := by
  unfold Rough.Un.unit Un.unit
  show (N.bind _ _ _ _).erase = M.bind _ _ _ ∨ FailsN (N.bind _ _ _ _)
  unfold N.bind M.bind
  rcases h with h | ⟨m', n, h⟩ | ⟨u, h⟩ | h
  · rw [← h]; cases x k m <;> exact .inl rfl
  · rw [h]; exact .inr (.inl ⟨_, _, rfl⟩)
  · rw [h]; exact .inr (.inr (.inl ⟨_, rfl⟩))
  · rw [h]; exact .inr (.inr (.inr rfl))

theorem failsN_bind {γ : Type} {x : N α γ} {y : M α γ} {f : γ → N α β} {g : γ → M α β} {k : Nat} (h : ∀ d, Lag d x y)
    (hf : ∀ v k m, (f v k m).erase = g v m ∨ FailsN (f v k m)) :
    ((x >>= f) k m).erase = (y >>= g) m ∨ FailsN ((x >>= f) k m) := by
  show (N.bind _ _ _ _).erase = M.bind _ _ _ ∨ FailsN (N.bind _ _ _ _)
  unfold N.bind M.bind
  rcases Lag.both h k m with h1 | ⟨m', n, h1⟩
  · rw [← h1]
    cases x k m with
    | ok v m1 n => exact hf v n m1
    | throw e m1 => exact .inl rfl
    | ub u => exact .inl rfl
    | div => exact .inl rfl
  · rw [h1]; exact .inr (.inl ⟨_, _, rfl⟩)

theorem op_lag (hs : ¬ op.inStd) (hb : ¬ op.builds) (d : Bool) : Lag d (op.rough E) (op.run E.calm) := by
  cases op with
  | un o c =>
    cases c <;> first | exact absurd trivial hs | (simp only [Op.run, Un.run, Op.rough, Un.rough]; infer_instance)
  | bin o p c =>
    cases c <;> first | exact absurd trivial hs | (simp only [Op.run, Bin.run, Op.rough, Bin.rough]; infer_instance)
  | new o c =>
    cases c <;> first | exact absurd trivial hb | (simp only [Op.run, New.run, Op.rough, New.rough]; infer_instance)
  | new2 o p c =>
    cases c <;> first | exact absurd trivial hb | (simp only [Op.run, New2.run, Op.rough, New2.rough]; infer_instance)
  | dtor o => simp only [Op.run, Op.rough]; infer_instance

theorem op_builds_lag (hb : op.builds) (k : Nat) (m : Mem α) :
    (op.rough E k m).erase = op.run E.calm m ∨ FailsN (op.rough E k m) := by
  cases op with
  | un o c => exact hb.elim
  | bin o p c => exact hb.elim
  | dtor o => exact hb.elim
  | new o c =>
    cases c with
    | empty => exact hb.elim
    | fill al n v => exact failsN_unit (delegating_lag (fun _ => inferInstance) k m)
    | list al vs => exact failsN_unit (delegating_lag (fun _ => inferInstance) k m)
  | new2 o p c =>
    cases c with
    | move => exact hb.elim
    | copy =>
      refine failsN_unit (failsN_bind (fun _ => inferInstance) fun v k m => ?_)
      exact delegating_lag (fun _ => inferInstance) k m
    | copyAlloc al => exact failsN_unit (delegating_lag (fun _ => inferInstance) k m)
    | moveAlloc al => exact failsN_unit (delegating_lag (fun _ => by lag) k m)
    | range al a b =>
      refine failsN_unit (failsN_bind (fun _ => inferInstance) fun v k m =>
        failsN_bind (fun _ => inferInstance) fun w k m => ?_)
      exact delegating_lag (fun _ => inferInstance) k m

theorem op_moments (hs : ¬ op.inStd) (k : Nat) (m : Mem α) :
    (op.rough E k m).erase = op.run E.calm m ∨ FailsN (op.rough E k m) := by
  by_cases hb : op.builds
  · exact op_builds_lag hb k m
  · rcases Lag.both (op_lag (E := E) hs hb) k m with h | h
    · exact .inl h
    · exact .inr (.inl h)
end

theorem Unhurt.reach (h : Unhurt E m) : Reach E.calm m := by
  induction h with
  | init => exact .init
  | ret O _ hv hp hs hrun ih =>
    rcases op_moments (E := E) hs _ _ with h | ⟨_, _, h⟩ | ⟨_, h⟩ | h
    · rw [hrun] at h; exact .ret ih (view_calm.2 hv) hp h.symm
    all_goals rw [hrun] at h; cases h
  | exc O _ hv hp hs he hrun ih =>
    rcases op_moments (E := E) hs _ _ with h | ⟨_, _, h⟩ | ⟨_, h⟩ | h
    · rw [hrun] at h; exact .exc ih (view_calm.2 hv) hp h.symm
    all_goals rw [hrun] at h; cases h
    exact absurd rfl he

/-! ### C69 -/

/-- the call in any memory that calls of a program without throwing moves can produce -/
theorem Reach.rough_call [Moves α] (hE : E.Sound) (hr : Reach E.calm m) (hv : View E m S) (hp : op.Pre E S) (hs : ¬ op.inStd)
    (hb : ¬ op.builds) (k : Nat) :
    (∃ r m' n S', op.rough E k m = .ok r m' n ∧ op.Ok E S r S' ∧ View E m' S') ∨
    (∃ e m' n S', op.rough E k m = .throw e m' n ∧ op.Exc E S e S' ∧ View E m' S') ∨
    ∃ m' n, op.rough E k m = .throw .elem m' n := by
  rcases Lag.both (op_lag (E := E) hs hb) k m with h | h
  · rcases C04_progress hE.calm hr (view_calm.2 hv) (op := op) hp with ⟨r, m', S', h1, h2, h3⟩ | ⟨e, m', S', h1, h2, h3⟩
    · rw [h1] at h
      cases hx : op.rough E k m with
      | ok r1 m1 n => rw [hx] at h; cases h; exact .inl ⟨r, m', n, S', rfl, h2, view_calm.1 h3⟩
      | throw e1 m1 n => rw [hx] at h; cases h
      | ub u => rw [hx] at h; cases h
      | div => rw [hx] at h; cases h
    · rw [h1] at h
      cases hx : op.rough E k m with
      | ok r1 m1 n => rw [hx] at h; cases h
      | throw e1 m1 n => rw [hx] at h; cases h; exact .inr (.inl ⟨e, m', n, S', rfl, h2, view_calm.1 h3⟩)
      | ub u => rw [hx] at h; cases h
      | div => rw [hx] at h; cases h
  · exact .inr (.inr h)

/-- C69: whichever moves throw, a call (other than a constructor) within its
precondition, in a program in which no call has ended in an element exception,
returns what is specified, or fails as specified, or ends in an element exception -/
theorem C69_call [Moves α] (hE : E.Sound) (hr : Unhurt E m) (hv : View E m S) (hp : op.Pre E S) (hs : ¬ op.inStd)
    (hb : ¬ op.builds) (k : Nat) :
    (∃ r m' n S', op.rough E k m = .ok r m' n ∧ op.Ok E S r S' ∧ View E m' S') ∨
    (∃ e m' n S', op.rough E k m = .throw e m' n ∧ op.Exc E S e S' ∧ View E m' S') ∨
    ∃ m' n, op.rough E k m = .throw .elem m' n :=
  hr.reach.rough_call hE hv hp hs hb k

/-- the call in any memory that calls of a program without throwing moves can produce -/
theorem Reach.rough_returns [Moves α] (hE : E.Sound) (hr : Reach E.calm m) (hv : View E m S) (hp : op.Pre E S) (hs : ¬ op.inStd)
    {r : Ret α} {k n : Nat} (h : op.rough E k m = .ok r m' n) : ∃ S', op.Ok E S r S' ∧ View E m' S' := by
  have h0 : op.run E.calm m = .ok r m' := by
    rcases op_moments (E := E) hs k m with h1 | ⟨_, _, h1⟩ | ⟨_, h1⟩ | h1
    · rw [h] at h1; exact h1.symm
    all_goals rw [h] at h1; cases h1
  rcases C04_progress hE.calm hr (view_calm.2 hv) (op := op) hp with ⟨r', m1, S', h1, h2, h3⟩ | ⟨e, m1, S', h1, h2, h3⟩
  · rw [h0] at h1; cases h1; exact ⟨S', h2, view_calm.1 h3⟩
  · rw [h0] at h1; cases h1

/-- C69: a call of any kind, constructors included, that returns has done what is
specified -/
theorem C69_returns [Moves α] (hE : E.Sound) (hr : Unhurt E m) (hv : View E m S) (hp : op.Pre E S) (hs : ¬ op.inStd)
    {r : Ret α} {k n : Nat} (h : op.rough E k m = .ok r m' n) : ∃ S', op.Ok E S r S' ∧ View E m' S' :=
  hr.reach.rough_returns hE hv hp hs h

/-- the call in any memory that calls of a program without throwing moves can produce -/
theorem Reach.rough_fails [Moves α] (hE : E.Sound) (hr : Reach E.calm m) (hv : View E m S) (hp : op.Pre E S) (hs : ¬ op.inStd)
    {e : Exn} (he : e ≠ .elem) {k n : Nat} (h : op.rough E k m = .throw e m' n) :
    ∃ S', op.Exc E S e S' ∧ View E m' S' := by
  have h0 : op.run E.calm m = .throw e m' := by
    rcases op_moments (E := E) hs k m with h1 | ⟨_, _, h1⟩ | ⟨_, h1⟩ | h1
    · rw [h] at h1; exact h1.symm
    all_goals rw [h] at h1; cases h1
    exact absurd rfl he
  rcases C04_progress hE.calm hr (view_calm.2 hv) (op := op) hp with ⟨r', m1, S', h1, h2, h3⟩ | ⟨e, m1, S', h1, h2, h3⟩
  · rw [h0] at h1; cases h1
  · rw [h0] at h1; cases h1; exact ⟨S', h2, view_calm.1 h3⟩

/-- C69: a call of any kind, constructors included, that throws something else
than an element's exception has failed as specified -/
theorem C69_fails [Moves α] (hE : E.Sound) (hr : Unhurt E m) (hv : View E m S) (hp : op.Pre E S) (hs : ¬ op.inStd)
    {e : Exn} (he : e ≠ .elem) {k n : Nat} (h : op.rough E k m = .throw e m' n) :
    ∃ S', op.Exc E S e S' ∧ View E m' S' :=
  hr.reach.rough_fails hE hv hp hs he h

/-! ### What goes wrong when a move throws -/

section
variable {m1 : Mem α} {v : α}

theorem empty_obj (hE : E.Sound) (hr : Unhurt E m) (hc : Contents E o m []) :
    ∃ al, m.cell (.obj o) = some (.obj (objNil al al)) := by
  obtain ⟨al, s, F, hs, he, H⟩ := hr.reach.cont hE.calm (contents_calm.2 hc)
  cases s with
  | tree t => exact absurd he (by have := Tree.Root.size_pos hs.2; intro h; rw [St.elems_tree] at h; rw [h] at this; simp at this)
  | nil =>
    have := rdObj_c H
    unfold rdObj at this
    refine ⟨al, ?_⟩
    cases hx : m.cell (.obj o) with
    | none => simp [hx] at this
    | some c => cases c <;> simp_all [St.obj]

/-- what a failed first insertion leaves: the object says one element, its segment holds none -/
structure Husk (E : Env α) (o : Nat) (m : Mem α) : Prop where
  obj : ∃ a al, m.cell (.obj o) = some (.obj ⟨a, 1, 1, al, al⟩) ∧ m.cell (.heap a) = some (.seg (E.acls al) fun _ => .raw)

theorem alloc_fits {al : Nat} (hx : m.cell (.obj o) = some (.obj (objNil al al))) (h : push_back_rv E.calm o v m = .ok () m1) :
    E.oracle m.log.reqs ≠ 0 ∧ m.cell (.heap (E.oracle m.log.reqs)) = none := by
  by_contra hn
  have : push_back_rv E.calm o v m = .throw .alloc { m with log := ⟨m.log.reqs + 1, m.log.fails + 1⟩ } := by
    have hc : E.oracle m.log.reqs = 0 ∨ (m.cell (.heap (E.oracle m.log.reqs))).isSome := by
      by_contra h2; push Not at h2; exact hn ⟨h2.1, by simpa using h2.2⟩
    simp [push_back_rv, find_end, find_end_root, find_end_segment, rdObj, Bind.bind, M.bind, hx, objNil, emplace_single, pure, M.pure, insert_single_iterator, insert_single_segment,
      Env.throws, Env.calm, allocate_segment, allocCell, hc]
  rw [this] at h; cases h

theorem first_hurt [Moves α] {al k : Nat} (hx : m.cell (.obj o) = some (.obj (objNil al al)))
    (hA : E.oracle m.log.reqs ≠ 0 ∧ m.cell (.heap (E.oracle m.log.reqs)) = none)
    (ht : E.trivCopy = false) (hk : Moves.fails k v = false) (hk1 : Moves.fails (k + 1) v = true) :
    ∃ m', Rough.find_end E o k m = .ok ⟨⟨⟨0, 0, 0⟩, ⟨0, 0⟩⟩, 0⟩ m k ∧
      Rough.insert_single_iterator E o ⟨⟨⟨0, 0, 0⟩, ⟨0, 0⟩⟩, 0⟩ v k m = .throw .elem m' (k + 2) ∧ Husk E o m' := by
  obtain ⟨h1, h2⟩ := hA
  simp [Rough.find_end, Rough.find_end_root, find_end_segment, Rough.rdObj, rdObj, Bind.bind, N.bind, N.lift, hx,
    objNil, pure, N.pure, Rough.insert_single_iterator, Rough.insert_single_segment, Rough.fails,
    Rough.allocate_segment, Rough.allocCell, allocCell, h1, h2, ht, hk, hk1, Rough.setRoot, Rough.setSize,
    Rough.setHeight, Rough.wrObj, wrObj, Mem.set, upd, Rough.construct_segment, N.throw]
  exact ⟨E.oracle m.log.reqs, al, by simp [upd], by simp [upd]⟩

theorem Husk.size (h : Husk E o m) : size o m = .ok 1 m := by
  obtain ⟨a, al, h1, h2⟩ := h
  simp [SegTree.size, getSize, rdObj, Bind.bind, M.bind, pure, M.pure, h1]
theorem Husk.at (h : Husk E o m) : at_ E o 0 m = .ub .raw := by
  obtain ⟨a, al, h1, h2⟩ := h
  have : 0 < E.segMax := E.segMax_pos
  simp [at_, getSize, rdObj, Bind.bind, M.bind, pure, M.pure, h1, find_index, find_index_root, find_index_segment,
    dereference, rdElem, rdSlots, h2, this, M.ub]
theorem Husk.dtor [Moves α] (h : Husk E o m) (hd : E.trivDtor = false) (k : Nat) : Rough.dtor E o k m = .ub .raw := by
  obtain ⟨a, al, h1, h2⟩ := h
  have : 0 < E.segMax := E.segMax_pos
  simp [Rough.dtor, Rough.purge, Rough.purge_root, Rough.purge_segment, Rough.rdObj, Rough.rdSlots, N.lift, rdObj,
    rdSlots, Bind.bind, N.bind, pure, N.pure, h1, hd, Rough.forN, h2, Rough.destroy_segment, this]
  rfl

/-- C69: `push_back` (documented as strong) on an empty container: if the call
would succeed with no move throwing, and the second of its two moves throws, the
container says it has one element, reading it is undefined, and so is destroying
the container -/
theorem C69_push_back_broken [Moves α] (hE : E.Sound) (hr : Unhurt E m) (hc : Contents E o m [])
    (ht : E.trivCopy = false) (hs : push_back_rv E.calm o v m = .ok () m1) {k : Nat}
    (hk : Moves.fails k v = false) (hk1 : Moves.fails (k + 1) v = true) :
    ∃ m', Rough.push_back_rv E o v k m = .throw .elem m' (k + 2) ∧ size o m' = .ok 1 m' ∧ at_ E o 0 m' = .ub .raw ∧
      (E.trivDtor = false → ∀ j, Rough.dtor E o j m' = .ub .raw) := by
  obtain ⟨al, hx⟩ := empty_obj hE hr hc
  obtain ⟨m', h1, h2, h3⟩ := first_hurt hx (alloc_fits hx hs) ht hk hk1
  refine ⟨m', ?_, h3.size, h3.at, fun hd => h3.dtor hd⟩
  simp [Rough.push_back_rv, Bind.bind, N.bind, h1, Rough.emplace_single, pure, N.pure, h2]

/-- C69: `seq(n + 1, v)`, if it would succeed with no move throwing and its second
move throws, is undefined -/
theorem C69_ctor_ub [Moves α] {al n : Nat} (hr : m.cell (.obj o) = none) 
    (ht : E.trivCopy = false) (hd : E.trivDtor = false) (hs : ctor_count E.calm o al (n + 1) (copyVal E.calm v) m = .ok () m1) {k : Nat}
    (hk : Moves.fails k v = false) (hk1 : Moves.fails (k + 1) v = true) :
    Rough.ctor_count E o al (n + 1) (N.lift (copyVal E v)) k m = .ub .raw := by
  have hcv : E.cthrow m.ticks v = false := by
    by_contra h
    have h : E.cthrow m.ticks v = true := by simpa using h
    simp [ctor_count, delegating, ctor, hr, Bind.bind, M.bind, M.onThrow, emplace_count, emplace_count_loop, emplace_single, copyVal, M.throw, Env.calm, ht, h,
      find_end, find_end_root, find_end_segment, rdObj, Mem.set, upd_self, pure, M.pure] at hs
    split at hs <;> cases hs
  have hA : E.oracle m.log.reqs ≠ 0 ∧ m.cell (.heap (E.oracle m.log.reqs)) = none := by
    by_contra hn
    have hc : E.oracle m.log.reqs = 0 ∨ (m.cell (.heap (E.oracle m.log.reqs))).isSome := by
      by_contra h2; push Not at h2; exact hn ⟨h2.1, by simpa using h2.2⟩
    simp [ctor_count, delegating, ctor, hr, Bind.bind, M.bind, M.onThrow, emplace_count, emplace_count_loop, emplace_single, copyVal, Mem.tick, Env.calm, ht, hcv,
      find_end, find_end_root, find_end_segment, rdObj, Mem.set, pure, M.pure, insert_single_iterator, insert_single_segment,
      Env.throws, allocate_segment, allocCell, upd, hc] at hs
    split at hs <;> cases hs
  let m0 : Mem α := m.set (.obj o) (.obj (objNil al al))
  obtain ⟨-, h1, -, -⟩ := first_hurt (m := m0) (o := o) (v := v) (k := k) (al := al) (by simp [m0, Mem.set, upd_self])
    (by simp [m0, Mem.set, upd]; exact hA) ht hk hk1
  obtain ⟨m', -, h2, h3⟩ := first_hurt (m := m0.tick) (o := o) (v := v) (k := k) (al := al) (by simp [m0, Mem.set, Mem.tick, upd_self])
    (by simp [m0, Mem.set, Mem.tick, upd]; exact hA) ht hk hk1
  have h0 : Rough.ctor (α := α) o al k m = .ok () m0 k := by
    simp [Rough.ctor, N.lift, ctor, hr, m0, objNil]
  have hc : N.lift (copyVal E v) k m0 = .ok v m0.tick k := by
    simp [N.lift, copyVal, ht, m0, Mem.set, hcv, Mem.tick]
  simp [Rough.ctor_count, Rough.delegating, Bind.bind, N.bind, h0, N.onThrow, h1, Rough.emplace_count, Rough.emplace_count_loop, Rough.emplace_single, h2, h3.dtor hd, hc]
end


/-! ### the hypotheses are met -/

section
set_option maxRecDepth 100000
set_option linter.unusedTactic false
/-- the `j`-th move throws -/
abbrev ora (j : Nat) : Moves Nat := ⟨fun k _ => k == j⟩

theorem demo_sound : demo.Sound := ⟨by decide, by decide, by decide⟩

theorem empty0_unhurt {E : Env Nat} : Unhurt E (empty0 : Mem Nat) :=
  .ret (op := .new 0 (.empty 0)) (r := .unit) (k := 0) (n := 0) (ora 0) .init view_init ⟨rfl, trivial⟩ (by simp [Op.inStd]) rfl
theorem empty0_none {E : Env Nat} : Contents E 0 (empty0 : Mem Nat) [] := by
  have := (empty0_wide (α := Nat)).view (E := E) 0
  rw [upd_self] at this; exact this.2

theorem demo_push : push_back_rv demo.calm 0 5 empty0 = .ok () (oneSeg [5]) := by
  refine Eq.trans (b := .ok _ ?_) (by go) ?_
  rotate_left
  congr 1
  mem_eq

example : ∃ m', @Rough.push_back_rv Nat (ora 1) demo 0 5 0 empty0 = .throw .elem m' 2 ∧ size 0 m' = .ok 1 m' ∧
    at_ demo 0 0 m' = .ub .raw ∧ Rough.dtor demo 0 2 m' = .ub .raw := by
  let _ := ora 1
  obtain ⟨m', h1, h2, h3, h4⟩ := C69_push_back_broken (k := 0) demo_sound empty0_unhurt empty0_none rfl demo_push rfl rfl
  exact ⟨m', h1, h2, h3, h4 rfl 2⟩

example : @Rough.ctor_count Nat (ora 1) demo 0 0 3 (N.lift (copyVal demo 5)) 0 noMem = .ub .raw := by
  let _ := ora 1
  obtain ⟨m, h⟩ : ∃ m, ctor_count demo.calm 0 0 3 (copyVal demo.calm 5) noMem = .ok () m := by
    obtain ⟨r, m, S, h, -⟩ := demo_op (op := .new 0 (.fill 0 3 5)) .init view_init
      ⟨rfl, show 3 ≤ max_size demo by decide, rfl⟩ (fun e S' hx => demo_blame (vs := [5]) (by decide) hx.1)
    exact ⟨m, (unit_inv h).2.choose_spec⟩
  exact C69_ctor_ub (k := 0) rfl rfl rfl h rfl rfl

/-- a memory of a program in which the third move will throw -/
theorem demo_unhurt : Unhurt demo (oneSeg [5] 1) := by
  refine .ret (op := .un 0 (.pushBack 5)) (r := .unit) (k := 0) (n := 2) (ora 2) empty0_unhurt empty0_wide.view
    ⟨_, upd_self, show 1 ≤ max_size demo by decide⟩ (fun h => h) ?_
  refine Eq.trans (b := .ok _ ?_ _) (by with_unfolding_all rfl) ?_
  rotate_left
  congr 1
  mem_eq

/-- C69 applies to the next call, in which it does -/
example : ∃ m', @Op.rough Nat (ora 2) demo (.un 0 (.insert 0 6)) 2 (oneSeg [5] 1) = .throw .elem m' 3 := ⟨_, by with_unfolding_all rfl⟩
example : (Op.un 0 (.insert 0 6) : Op Nat).Pre demo (upd (fun _ => none) 0 (some ⟨0, [5]⟩)) ∧
    ¬ (Op.un 0 (.insert 0 6) : Op Nat).inStd ∧ ¬ (Op.un 0 (.insert 0 6) : Op Nat).builds ∧
    View demo (oneSeg [5] 1) (upd (fun _ => none) 0 (some ⟨0, [5]⟩)) :=
  ⟨⟨_, upd_self, ⟨Nat.zero_le _, show 2 ≤ max_size demo by decide⟩⟩, fun h => h, fun h => h, oneSeg_view (by decide)⟩

end

end SegTree
