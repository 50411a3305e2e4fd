/-
  What a call does for a thread that owns the memory `m` and may read, but not write,
  the memory `L` lent to all threads.

  A call that names only containers of the thread is the call of the model in `m`
  (`Op.run`).  A `const` call is the call of the model in `m` and `L` together.  A call
  that copies from a lent container is the same sequence of calls of the model, those
  that read the lent container being made in `L`.
-/
import Verif.Thread.Ops
set_option autoImplicit false
set_option synthInstance.maxSize 2000
set_option synthInstance.maxHeartbeats 400000

namespace SegTree

variable {α β : Type}

/-- `x` in the memory `f m`; whatever it does there, here nothing changes -/
def M.within (f : Mem α → Mem α) (x : M α β) : M α β := fun m =>
  match x (f m) with
  | .ok v _ => .ok v m
  | .throw e _ => .throw e m
  | .ub u => .ub u
  | .div => .div

/-- `x` in the memory `L` -/
abbrev M.glance (L : Mem α) (x : M α β) : M α β := M.within (fun _ => L) x

/-- `m` and `L` together -/
def Mem.join (m L : Mem α) : Mem α := { m with cell := fun l => (m.cell l).or (L.cell l) }

/-- `copySrc` (Model/Api.lean), of a lent container -/
def lentSrc (E : Env α) (L : Mem α) (last : Iter) : Src α Iter where
  done it := decide (it.pos = last.pos)
  read it := do copyVal E (← M.glance L (dereference E it))
  next it := M.glance L (move_next_iterator E it)

/-- `copy_assign_alloc` (Model/Api.lean, seq.hpp 2227-2243) from a lent container -/
def copy_assign_alloc_lent (E : Env α) (L : Mem α) (o other : Nat) : M α Unit := do
  if E.pocca then
    let s ← rdObj o
    let t ← M.glance L (rdObj other)
    if E.acls s.ealloc ≠ E.acls t.ealloc then SegTree.clear E o
    let s ← rdObj o
    wrObj o { s with ealloc := t.ealloc, nalloc := t.nalloc }
  else pure ()

/-- the calls that copy from `p` (`Bin.run`, Props/Spec.lean), with `p` lent; the others
are not `const` in `p` -/
def Bin.lent (E : Env α) (L : Mem α) (o p : Nat) : Bin α → M α (Ret α)
  | .assignCopy => Un.unit (do
      -- `operator=(seq const&)`, seq.hpp 2445-2451
      if o ≠ p then
        copy_assign_alloc_lent E L o p
        let first ← M.glance L (find_first E p)
        let last ← M.glance L (find_end E p)
        assign_range E (lentSrc E L last) o first
      else pure ())
  | .insertRange i a b => Un.pos (do
      let it ← nth E o i
      let first ← M.glance L (nth E p a)
      let last ← M.glance L (nth E p b)
      emplace_range E (lentSrc E L last) o it first)
  | .assignRange a b => Un.unit (do
      let first ← M.glance L (nth E p a)
      let last ← M.glance L (nth E p b)
      assign_range E (lentSrc E L last) o first)
  | c => c.run E o p

/-- the constructors that copy from `p` (`New2.run`, Props/Spec.lean), with `p` lent -/
def New2.lent (E : Env α) (L : Mem α) (o p : Nat) : New2 → M α (Ret α)
  | .copy => Un.unit (do
      -- seq.hpp 2367-2371
      let t ← M.glance L (rdObj p)
      delegating E o (E.selectCopy t.ealloc) (do
        let it ← find_end E o
        let first ← M.glance L (find_first E p)
        let last ← M.glance L (find_end E p)
        let _ ← emplace_range E (lentSrc E L last) o it first))
  | .copyAlloc al => Un.unit (
      -- seq.hpp 2378-2380
      delegating E o al (do
        let it ← find_end E o
        let first ← M.glance L (find_first E p)
        let last ← M.glance L (find_end E p)
        let _ ← emplace_range E (lentSrc E L last) o it first))
  | .range al a b => Un.unit (do
      let first ← M.glance L (nth E p a)
      let last ← M.glance L (nth E p b)
      ctor_range E (lentSrc E L last) o al first)
  | c => c.run E o p

/-- the call, for a thread with the memory `L` lent to it -/
def Op.beside (E : Env α) (L : Mem α) (op : Op α) : M α (Ret α) :=
  if op.isConst then M.within (fun m => m.join L) (op.run E)
  else match op with
  | .bin o p c => if (L.cell (.obj p)).isSome then c.lent E L o p else c.run E o p
  | .new2 o p c => if (L.cell (.obj p)).isSome then c.lent E L o p else c.run E o p
  | op => op.run E

variable {E : Env α} {L : Mem α}

theorem Thr.within {f : Mem α → Mem α} {x : M α β} {y : T α β} (hx : Looks x y)
    (hf : ∀ (s : Th α) m, s.Part L m → s.Shows (f m)) : Thr L (M.within f x) y := by
  refine ⟨fun m => ?_⟩
  unfold M.within
  rcases hx.run (f m) with (hm | ⟨u, hm⟩) | ⟨N, hN⟩
  · rw [hm]; exact .inl (.inl rfl)
  · rw [hm]; exact .inl (.inr ⟨_, rfl⟩)
  · refine .inr ⟨N, fun s hp => ?_⟩
    have := hN s (hf s m hp)
    have hpart : ∀ s', s.Reads N s' → s'.Part L m ∧ s.Leads N s' := fun s' h =>
      ⟨⟨fun l hl => (h.shown l (.inl (h.own ▸ hl))).trans (hp.mine l (h.own ▸ hl)), fun l hl => hp.rest l (h.own ▸ hl),
        h.log.trans hp.log, h.ticks.trans hp.ticks, fun l hl => by rw [h.lent]; exact hp.sep l (h.own ▸ hl),
        fun l hl => (h.shown l (.inr (h.lent ▸ hl))).trans (hp.lends l (h.lent ▸ hl)), fun l hl => hp.whole l (h.lent ▸ hl)⟩,
        h.lent, h.env, h.limit, h.step, fun l hl => h.shown l (.inr hl)⟩
    generalize hr : x (f m) = r at this
    generalize y s = r' at this
    cases this with
    | torn => exact .torn _
    | paused s' _ h => exact .paused _ _ h
    | ok v s' h => exact .ok _ _ _ (hpart s' h).1 (hpart s' h).2
    | throw v s' h => exact .throw _ _ _ (hpart s' h).1 (hpart s' h).2

instance Thr.glance {x : M α β} {y : T α β} [hx : Looks x y] : Thr L (M.glance L x) y :=
  .within hx fun s m hp l hl => by
    by_cases h : s.lent l = true
    · exact ⟨.inr h, hp.lends l h⟩
    · exact absurd (hp.whole l (by simpa using h)) hl

theorem Thr.joined {x : M α β} {y : T α β} (hx : Looks x y) : Thr L (M.within (fun m => m.join L) x) y :=
  .within hx fun s m hp l hl => by
    unfold Mem.join at hl ⊢
    dsimp only at hl ⊢
    by_cases h1 : s.own l = true
    · have : L.cell l = none := hp.whole l (hp.sep l h1)
      rw [this, Option.or_none]
      exact ⟨.inl h1, hp.mine l h1⟩
    · rw [hp.rest l (by simpa using h1), Option.none_or] at hl ⊢
      by_cases h : s.lent l = true
      · exact ⟨.inr h, hp.lends l h⟩
      · exact absurd (hp.whole l (by simpa using h)) hl

instance ThrSrc.lent (last : Iter) : ThrSrc L (lentSrc E L last) (Thread.copySrc E last) where
  done _ := rfl
  read it := by simp only [lentSrc, Thread.copySrc]; infer_instance
  next it := by simp only [lentSrc, Thread.copySrc]; infer_instance

instance Thr.copyAssignLent (o p : Nat) : Thr L (copy_assign_alloc_lent E L o p) (Thread.copy_assign_alloc E o p) := by
  unfold copy_assign_alloc_lent Thread.copy_assign_alloc; thr

instance Thr.binLent (o p : Nat) (c : Bin α) : Thr L (c.lent E L o p) (c.among E o p) := by
  cases c <;> first
    | exact Thr.opBin o p _
    | (unfold Bin.lent Bin.among; first | (unfold Un.unit Thread.Un.unit; unfold Thread.assign_copy; thr; done) | (unfold Un.unit Thread.Un.unit; thr; done) | (unfold Un.pos Thread.Un.pos; thr; done))
instance Thr.new2Lent (o p : Nat) (c : New2) : Thr L (c.lent E L o p) (c.among E o p) := by
  cases c <;> first
    | exact Thr.opNew2 o p _
    | (unfold New2.lent New2.among Un.unit Thread.Un.unit; first | (unfold Thread.ctor_copy Thread.ctor_copy_alloc; thr; done) | (unfold Thread.ctor_copy_alloc; thr; done) | (thr; done))

instance Thr.beside (op : Op α) : Thr L (op.beside E L) (op.among E) := by
  unfold Op.beside
  split
  · rename_i h; exact .joined (Looks.op h)
  · split
    · show Thr L _ (Bin.among E _ _ _)
      split <;> infer_instance
    · show Thr L _ (New2.among E _ _ _)
      split <;> infer_instance
    · infer_instance

end SegTree
