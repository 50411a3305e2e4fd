/-
  C68: element types whose moves may throw.  Every other property assumes that
  moving an element does not throw (`Env.Good`).  Here that assumption is dropped:
  as long as no call has ended in an element exception, a container of such a type
  is indistinguishable from one of a non-throwing type, so that everything proved
  about those holds of it; and the next call, too, either does exactly what is
  specified or ends in an element exception (C44 shows what can be left then).
-/
import Verif.Proof.CalmAll
import Verif.Props.Noexcept
import Verif.Props.History
set_option autoImplicit false

namespace SegTree
variable {α β : Type} {E : Env α} {m m' : Mem α} {S : Bank α} {op : Op α} {o p : Nat}

/-! ### Specification -/

/-- the assumptions of `Env.Good` except that moves may throw -/
structure Env.Sound (E : Env α) : Prop where
  triv : E.trivCopy = true → E.trivDtor = true
  base : E.baseMax < 65536
  wpos : 0 < E.W

/-- a call of `sort` or `merge`: they move elements inside the standard library,
where the model knows the result but not the moves -/
def Op.inStd : Op α → Prop
  | .un _ (.sort _) => True
  | .bin _ _ (.merge _) => True
  | _ => False

/-- a call that makes a container, other than the default and move constructors:
if it fails, it destroys what it has made so far -/
def Op.builds : Op α → Prop
  | .new _ (.fill _ _ _) | .new _ (.list _ _) => True
  | .new2 _ _ .move => False
  | .new2 _ _ _ => True
  | _ => False

/-- The memories of a program in which, so far, no call has ended in an element
exception (calls may have failed for lack of memory or out of range). -/
inductive Steady (E : Env α) : Mem α → Prop where
  | init : Steady E noMem
  | ret {m m' : Mem α} {S : Bank α} {op : Op α} {r : Ret α} :
      Steady E m → View E m S → op.Pre E S → ¬ op.inStd → op.run E m = .ok r m' → Steady E m'
  | exc {m m' : Mem α} {S : Bank α} {op : Op α} {e : Exn} :
      Steady E m → View E m S → op.Pre E S → ¬ op.inStd → e ≠ .elem → op.run E m = .throw e m' → Steady E m'

/-! ### Proofs -/

theorem Env.Sound.calm (h : E.Sound) : E.calm.Good := ⟨h.triv, fun _ => .inr rfl, h.base, h.wpos⟩

/-- the first run is the second, or ends in an element exception -/
theorem Same.both {x y : M α β} (h : ∀ d, Same d x y) (m : Mem α) : x m = y m ∨ ∃ m', x m = .throw .elem m' := by
  rcases (h true).run m with h1 | h1 | h1
  · exact .inl h1
  · exact .inr h1
  · rcases (h false).run m with h2 | h2 | h2
    · exact .inl h2
    · exact .inr h2
    · simp only [if_true] at h1
      simp only [Bool.false_eq_true, if_false] at h2
      exact .inl (h1.trans h2.symm)

theorem Same.eq {x y : M α β} (h : ∀ d, Same d x y) (hr : Raises (· ≠ .elem) x) : x = y := by
  funext m
  rcases Same.both h m with h1 | ⟨m', h1⟩
  · exact h1
  · exact absurd rfl (hr.throws h1)

instance : OnRange (fun x => x ≠ Exn.elem) := ⟨by decide⟩

namespace Same
variable {d : Bool}
instance un_unit {x y : M α β} [Same d x y] : Same d (Un.unit x) (Un.unit y) := by unfold Un.unit; infer_instance
instance un_pos {x y : M α Iter} [Same d x y] : Same d (Un.pos x) (Un.pos y) := by unfold Un.pos; infer_instance
instance un_val {x y : M α α} [Same d x y] : Same d (Un.val x) (Un.val y) := by unfold Un.val; infer_instance
instance un_num {x y : M α Nat} [Same d x y] : Same d (Un.num x) (Un.num y) := by unfold Un.num; infer_instance
instance un_flag {x y : M α Bool} [Same d x y] : Same d (Un.flag x) (Un.flag y) := by unfold Un.flag; infer_instance
end Same

theorem at_calm (i : Nat) : at_ E.calm o i = at_ E o i := (Same.eq (fun _ => inferInstance) inferInstance).symm
theorem dtor_calm : dtor E o = dtor E.calm o := Same.eq (fun _ => inferInstance) inferInstance

theorem contents_calm {xs : List α} : Contents E.calm o m xs ↔ Contents E o m xs := by
  unfold Contents; simp only [at_calm]
theorem view_calm : View E.calm m S ↔ View E m S := by
  unfold View; simp only [contents_calm]

/-- a constructor: the run with moves that may throw is the other one unless it
fails because of an element -/
theorem delegating_calm {al : Nat} {x y : M α Unit} (h : ∀ d, Same d x y) (m : Mem α) :
    delegating E o al x m = delegating E.calm o al y m ∨ (∃ m', delegating E o al x m = .throw .elem m') ∨
      (∃ u, delegating E o al x m = .ub u) ∨ delegating E o al x m = .div := by
  unfold delegating
  show M.bind _ _ _ = M.bind _ _ _ ∨ (∃ m', M.bind _ _ _ = _) ∨ (∃ u, M.bind _ _ _ = _) ∨ M.bind _ _ _ = _
  unfold M.bind
  cases ctor (α := α) o al m with
  | ok v m1 =>
    show M.onThrow _ _ m1 = M.onThrow _ _ m1 ∨ (∃ m', M.onThrow _ _ m1 = _) ∨ (∃ u, M.onThrow _ _ m1 = _) ∨
      M.onThrow _ _ m1 = _
    unfold M.onThrow
    rcases Same.both h m1 with h1 | ⟨m2, h1⟩
    · left; rw [h1, dtor_calm]
    · right
      rw [h1]
      simp only
      have hn : Raises (fun _ => False) (dtor E o) := inferInstance
      cases hd : dtor E o m2 with
      | ok v m3 => exact .inl ⟨m3, rfl⟩
      | throw e m3 => exact (hn.throws hd).elim
      | ub u => exact .inr (.inl ⟨u, rfl⟩)
      | div => exact .inr (.inr rfl)
  | throw e m1 => exact .inl rfl
  | ub u => exact .inl rfl
  | div => exact .inl rfl

/-- what follows a call, if it returns or throws something else than an element's
exception -/
def Fails (x : Res α β) : Prop := (∃ m', x = .throw .elem m') ∨ (∃ u, x = .ub u) ∨ x = .div

theorem fails_unit {x y : M α β} (h : x m = y m ∨ Fails (x m)) : Un.unit x m = Un.unit y m ∨ Fails (Un.unit x m) := by
  unfold Un.unit
  show M.bind _ _ _ = M.bind _ _ _ ∨ Fails (M.bind _ _ _)
  unfold M.bind
  rcases h with h | ⟨m', h⟩ | ⟨u, h⟩ | h
  · rw [h]; exact .inl rfl
  · rw [h]; exact .inr (.inl ⟨_, rfl⟩)
  · rw [h]; exact .inr (.inr (.inl ⟨_, rfl⟩))
  · rw [h]; exact .inr (.inr (.inr rfl))

theorem fails_bind {γ : Type} {x y : M α γ} {f g : γ → M α β} (h : x = y) (hf : ∀ v m, f v m = g v m ∨ Fails (f v m)) :
    (x >>= f) m = (y >>= g) m ∨ Fails ((x >>= f) m) := by
  show M.bind _ _ _ = M.bind _ _ _ ∨ Fails (M.bind _ _ _)
  unfold M.bind
  rw [h]
  cases y m with
  | ok v m1 => exact hf v m1
  | throw e m1 => exact .inl rfl
  | ub u => exact .inl rfl
  | div => exact .inl rfl

theorem nth_calm (i : Nat) : nth E o i = nth E.calm o i := Same.eq (fun _ => inferInstance) inferInstance

theorem op_same (hs : ¬ op.inStd) (hb : ¬ op.builds) (d : Bool) : Same d (op.run E) (op.run E.calm) := by
  cases op with
  | un o c =>
    cases c <;> first | exact absurd trivial hs | (simp only [Op.run, Un.run]; infer_instance)
  | bin o p c =>
    cases c <;> first | exact absurd trivial hs | (simp only [Op.run, Bin.run]; infer_instance)
  | new o c => cases c <;> first | exact absurd trivial hb | (simp only [Op.run, New.run]; infer_instance)
  | new2 o p c => cases c <;> first | exact absurd trivial hb | (simp only [Op.run, New2.run]; infer_instance)
  | dtor o => simp only [Op.run]; infer_instance

/-- a constructor -/
theorem op_builds (hb : op.builds) (m : Mem α) : op.run E m = op.run E.calm m ∨ Fails (op.run E m) := by
  cases op with
  | un o c => exact hb.elim
  | bin o p c => exact hb.elim
  | dtor o => exact hb.elim
  | new o c =>
    cases c with
    | empty => exact hb.elim
    | fill al n v => exact fails_unit (delegating_calm (fun _ => inferInstance) m)
    | list al vs => exact fails_unit (delegating_calm (fun _ => inferInstance) m)
  | new2 o p c =>
    cases c with
    | move => exact hb.elim
    | copy =>
      refine fails_unit (fails_bind rfl fun v m => ?_)
      exact delegating_calm (fun _ => inferInstance) m
    | copyAlloc al => exact fails_unit (delegating_calm (fun _ => inferInstance) m)
    | moveAlloc al => exact fails_unit (delegating_calm (fun _ => by calm) m)
    | range al a b =>
      refine fails_unit (fails_bind (nth_calm _) fun v m => fails_bind (nth_calm _) fun w m => ?_)
      exact delegating_calm (fun _ => inferInstance) m

theorem op_calm (hs : ¬ op.inStd) (m : Mem α) : op.run E m = op.run E.calm m ∨ Fails (op.run E m) := by
  by_cases hb : op.builds
  · exact op_builds hb m
  · rcases Same.both (op_same (E := E) hs hb) m with h | h
    · exact .inl h
    · exact .inr (.inl h)

theorem Steady.reach (h : Steady E m) : Reach E.calm m := by
  induction h with
  | init => exact .init
  | ret _ hv hp hs hrun ih =>
    rcases op_calm (E := E) hs _ with h | ⟨_, h⟩ | ⟨_, h⟩ | h
    · exact .ret ih (view_calm.2 hv) hp (h ▸ hrun)
    all_goals rw [hrun] at h; cases h
  | exc _ hv hp hs he hrun ih =>
    rcases op_calm (E := E) hs _ with h | ⟨_, h⟩ | ⟨_, h⟩ | h
    · exact .exc ih (view_calm.2 hv) hp (h ▸ hrun)
    all_goals rw [hrun] at h; cases h
    exact absurd rfl he

/-! ### C68 -/

/-- C68: a call other than a constructor, whatever the memory, does what it does
for the same type made non-throwing, or ends in an element exception -/
theorem C68_same (hs : ¬ op.inStd) (hb : ¬ op.builds) (m : Mem α) :
    op.run E m = op.run E.calm m ∨ ∃ m', op.run E m = .throw .elem m' :=
  Same.both (op_same hs hb) m

/-- C68: as long as no call has ended in an element exception, the memory is one
that a program using a non-throwing type reaches, and each container looks the
same to both -/
theorem C68_reach (h : Steady E m) : Reach E.calm m ∧ ∀ o xs, Contents E o m xs ↔ Contents E.calm o m xs :=
  ⟨h.reach, fun _ _ => contents_calm.symm⟩

/-- C68: in such a memory every call (other than a constructor) within its
precondition returns what is specified, or fails as specified (for lack of memory,
out of range, because a copy throws), or ends in an element exception; it is
defined and terminates -/
theorem C68_call (hE : E.Sound) (hr : Steady E m) (hv : View E m S) (hp : op.Pre E S) (hs : ¬ op.inStd)
    (hb : ¬ op.builds) :
    (∃ r m' S', op.run E m = .ok r m' ∧ op.Ok E S r S' ∧ View E m' S') ∨
    (∃ e m' S', op.run E m = .throw e m' ∧ op.Exc E S e S' ∧ View E m' S') ∨
    ∃ m', op.run E m = .throw .elem m' := by
  rcases C68_same (E := E) hs hb m with h | h
  · rcases C04_progress hE.calm hr.reach (view_calm.2 hv) (op := op) hp with ⟨r, m', S', h1, h2, h3⟩ | ⟨e, m', S', h1, h2, h3⟩
    · exact .inl ⟨r, m', S', h.trans h1, h2, view_calm.1 h3⟩
    · exact .inr (.inl ⟨e, m', S', h.trans h1, h2, view_calm.1 h3⟩)
  · exact .inr (.inr h)

/-- C68: a call of any kind, constructors included, that returns has done what is
specified -/
theorem C68_returns (hE : E.Sound) (hr : Steady E m) (hv : View E m S) (hp : op.Pre E S) (hs : ¬ op.inStd) {r : Ret α}
    (h : op.run E m = .ok r m') : ∃ S', op.Ok E S r S' ∧ View E m' S' := by
  have h0 : op.run E.calm m = .ok r m' := by
    rcases op_calm (E := E) hs m with h1 | ⟨_, h1⟩ | ⟨_, h1⟩ | h1
    · exact h1 ▸ h
    all_goals rw [h] at h1; cases h1
  rcases C04_progress hE.calm hr.reach (view_calm.2 hv) (op := op) hp with ⟨r', m1, S', h1, h2, h3⟩ | ⟨e, m1, S', h1, h2, h3⟩
  · rw [h0] at h1; cases h1; exact ⟨S', h2, view_calm.1 h3⟩
  · rw [h0] at h1; cases h1

/-- C68: a call of any kind, constructors included, that throws something else
than an element's exception has failed as specified -/
theorem C68_fails (hE : E.Sound) (hr : Steady E m) (hv : View E m S) (hp : op.Pre E S) (hs : ¬ op.inStd) {e : Exn}
    (he : e ≠ .elem) (h : op.run E m = .throw e m') : ∃ S', op.Exc E S e S' ∧ View E m' S' := by
  have h0 : op.run E.calm m = .throw e m' := by
    rcases op_calm (E := E) hs m with h1 | ⟨_, h1⟩ | ⟨_, h1⟩ | h1
    · exact h1 ▸ h
    all_goals rw [h] at h1; cases h1
    exact absurd rfl he
  rcases C04_progress hE.calm hr.reach (view_calm.2 hv) (op := op) hp with ⟨r', m1, S', h1, h2, h3⟩ | ⟨e, m1, S', h1, h2, h3⟩
  · rw [h0] at h1; cases h1
  · rw [h0] at h1; cases h1; exact ⟨S', h2, view_calm.1 h3⟩

/-- C68: reading, clearing, destroying and swapping containers do not depend on
whether moves throw -/
theorem C68_quiet (f : α → α → Bool) (it : Iter) (i : Nat) (d : Int) :
    begin_ E o = begin_ E.calm o ∧ end_ E o = end_ E.calm o ∧ nth E o i = nth E.calm o i ∧
    at_ E o i = at_ E.calm o i ∧ index_op E o i = index_op E.calm o i ∧
    dereference E it = dereference E.calm it ∧ it_add E it d = it_add E.calm it d ∧
    clear E o = clear E.calm o ∧ dtor E o = dtor E.calm o ∧ swap E o p = swap E.calm o p ∧
    op_eq E f o p = op_eq E.calm f o p ∧ op_lt E f o p = op_lt E.calm f o p := by
  refine ⟨?_, ?_, ?_, ?_, ?_, ?_, ?_, ?_, ?_, ?_, ?_, ?_⟩ <;> exact Same.eq (fun _ => inferInstance) inferInstance

/-! ### The hypotheses are met -/

theorem rough_sound : rough.Sound := ⟨by decide, by decide, by decide⟩

theorem steady_op {E : Env Nat} {xs ys : List Nat} {t t' : Nat} {c : Un Nat} (hr : Steady E (oneSeg xs t)) (hl : xs.length ≤ E.segMax)
    (hp : c.Pre E ⟨0, xs⟩) (hs : ¬ (Op.un 0 c).inStd) (h : c.run E 0 (oneSeg xs t) = .ok Ret.unit (oneSeg ys t')) :
    Steady E (oneSeg ys t') :=
  .ret (op := .un 0 c) hr (oneSeg_view hl) ⟨_, upd_self, hp⟩ hs h

section
set_option maxRecDepth 100000
set_option linter.unusedTactic false

theorem rough_step {x : M Nat Unit} {m m' : Mem Nat} (h : x m = .ok () m') : Un.unit x m = .ok Ret.unit m' :=
  run_step (r := .ok Ret.unit m') h rfl

/-- moving 7 throws; [7, 2, 3] has been built without moving it (7 was copied over
the first element) -/
theorem rough_steady : Steady rough (oneSeg [7, 2, 3] 4) := by
  have h0 : Steady rough (empty0 : Mem Nat) :=
    .ret (op := .new 0 (.empty 0)) (r := .unit) .init view_init ⟨rfl, trivial⟩ (fun h => h) rfl
  have v0 : View rough (empty0 : Mem Nat) (upd (fun _ => none) 0 (some ⟨0, []⟩)) := empty0_wide.view
  have hm : ∀ n, n < 10 → n + 1 ≤ max_size rough := by decide
  have h1 : Steady rough (oneSeg [1] 1) :=
    .ret (op := .un 0 (.pushBack 1)) (r := .unit) h0 v0 ⟨_, upd_self, hm 0 (by decide)⟩ (fun h => h)
      (rough_step (by go_eq))
  have h2 : Steady rough (oneSeg [1, 2] 2) :=
    steady_op (c := .pushBack 2) h1 (by decide) (hm 1 (by decide)) (fun h => h) (rough_step (by go_eq))
  have h3 : Steady rough (oneSeg [1, 2, 3] 3) :=
    steady_op (c := .pushBack 3) h2 (by decide) (hm 2 (by decide)) (fun h => h) (rough_step (by go_eq))
  exact steady_op (c := .set 0 7) h3 (by decide) (show 0 < 3 by decide) (fun h => h) (rough_step (by go_eq))

/-- the next call is one of the three: here `push_back` returns (7 is not moved) -/
example : ∃ m', push_back rough 0 4 (oneSeg [7, 2, 3] 4) = .ok () m' ∧ m' = oneSeg [7, 2, 3, 4] 5 :=
  ⟨_, by go_eq, rfl⟩

/-- and here erasing the second element (only 3 is moved) is as specified -/
example : ∃ S', (Op.un 0 (.erase 1)).Ok rough (upd (fun _ => none) 0 (some ⟨0, [7, 2, 3]⟩)) (.pos 1) S' ∧
    S' = upd (upd (fun _ => none) 0 (some ⟨0, [7, 2, 3]⟩)) 0 (some ⟨0, [7, 3]⟩) :=
  ⟨_, ⟨_, _, upd_self, ⟨rfl, rfl⟩, rfl⟩, rfl⟩

/-- erasing the first element and inserting in front move 7 or not, and both are
calls to which C68 applies -/
example : ∃ S, View rough (oneSeg [7, 2, 3] 4) S ∧ (Op.un 0 (.erase 0)).Pre rough S ∧
    (Op.un 0 (.insert 0 5)).Pre rough S ∧ ¬ (Op.un 0 (.insert 0 5)).inStd ∧ ¬ (Op.un 0 (.insert 0 5)).builds :=
  ⟨_, oneSeg_view (by decide), ⟨_, upd_self, show 0 < 3 by decide⟩,
    ⟨_, upd_self, ⟨Nat.zero_le _, show 4 ≤ max_size rough by decide⟩⟩, fun h => h, fun h => h⟩

/-- a constructor of two copies of 5 -/
example : (Op.new 0 (.fill 0 2 5) : Op Nat).builds ∧ (Op.new 0 (.fill 0 2 5)).Pre rough (fun _ => none) ∧
    (Op.new 0 (.fill 0 2 5)).run rough noMem = .ok .unit (oneSeg [5, 5] 2) :=
  ⟨trivial, ⟨rfl, show 2 ≤ max_size rough by decide, rfl⟩, rough_step (by go_eq)⟩
end

end SegTree
