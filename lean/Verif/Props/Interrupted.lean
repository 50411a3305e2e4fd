/-
  C88: algorithms of the standard library, `sort` and `merge`, when moves throw at
  arbitrary moments.  C63 and C64 say that an algorithm does on containers what it
  does on arrays; here the same is proved when any of the moves it makes may throw.
  A move that throws has no effect, so the containers stay intact whatever the
  algorithm does then, and all that is proved about containers goes on to hold.
-/
import Verif.Props.Generic
import Verif.Props.Moments
set_option autoImplicit false

namespace SegTree
open Generic (Cmd Resp Next Algo Arrays Vars Kept)
variable {α σ β : Type} {E : Env α} {m m' : Mem α} {A A' : Arrays α} {V V' : Vars} {o p i r k k' n : Nat} {xs ys : List α}
  {v : α} {it : Iter}

/-! ### Specification -/

/-- the value that a command moves: `*r = std::move(x)` and `T x = std::move(*r)` -/
def Generic.Arrays.moves (A : Arrays α) : Cmd α → Option α
  | .write _ v => some v
  | .take r => do
    let (o, i) ← A.var r
    let xs ← A.elems o
    xs[i]?
  | _ => none

/-- One step on arrays after `k` moves.  If the move throws then nothing changes
and the algorithm sees the exception. -/
def Generic.Arrays.stepN [Moves α] (E : Env α) (A : Arrays α) (k : Nat) (c : Cmd α) : Option (Resp α × Arrays α × Nat) := do
  let (x, A') ← A.step E c
  match A.moves c with
  | none => some (x, A', k)
  | some v => if !E.trivCopy && Moves.fails k v then some (.threw, A, k + 1) else some (x, A', k + 1)

/-- up to `n` steps of an algorithm on arrays -/
def Generic.Algo.onArraysN [Moves α] (E : Env α) (P : Algo α σ) : Nat → σ → Arrays α → Nat → Option (σ × Arrays α × Nat)
  | 0, s, A, k => some (s, A, k)
  | n + 1, s, A, k =>
    match P.next s with
    | .step c => do
      let (r, A, k) ← A.stepN E k c
      P.onArraysN E n (P.then_ s r) A k
    | _ => some (s, A, k)

/-- `try { return x; } catch (...) { return nothing; }` -/
def N.attempt (x : N α β) : N α (Option β) := fun k m =>
  match x k m with
  | .ok v m' k' => .ok (some v) m' k'
  | .throw _ m' k' => .ok none m' k'
  | .ub u => .ub u
  | .div => .div

/-- One step with the iterators of the model; only the steps that move an element
can throw. -/
def Generic.stepN [Moves α] (E : Env α) (V : Vars) : Cmd α → N α (Resp α × Vars)
  | .write r v =>
    match V r with
    | some it => do
      match ← N.attempt (Rough.deref_set_rv E it v) with
      | some _ => pure (.unit, V)
      | none => pure (.threw, V)
    | none => N.ub .access
  | .take r =>
    match V r with
    | some it => do
      match ← N.attempt (Rough.moveFrom E it.entry.seg.ptr it.entry.seg.idx) with
      | some v => pure (.val v, V)
      | none => pure (.threw, V)
    | none => N.ub .access
  | c => N.lift (Generic.step E V c)

/-- up to `n` steps of an algorithm on containers -/
def Generic.Algo.onSeqsN [Moves α] (E : Env α) (P : Algo α σ) : Nat → σ → Vars → N α (σ × Vars)
  | 0, s, V => pure (s, V)
  | n + 1, s, V =>
    match P.next s with
    | .step c => do
      let (r, V) ← Generic.stepN E V c
      P.onSeqsN E n (P.then_ s r) V
    | _ => pure (s, V)

/-! ### Proofs -/

theorem N.bind_ok {γ : Type} {x : N α β} {f : β → N α γ} {w : β} (h : x k m = .ok w m' k') : (x >>= f) k m = f w k' m' := by
  show N.bind x f k m = _
  unfold N.bind; rw [h]

theorem N.bind_lift {γ : Type} {x : M α β} {f : β → N α γ} {w : β} (h : x m = .ok w m') :
    (N.lift x >>= f) k m = f w k m' := N.bind_ok (by unfold N.lift; rw [h])

theorem dereference_calm : dereference E it = dereference E.calm it := Same.eq (fun _ => inferInstance) inferInstance
theorem begin_calm : begin_ E o = begin_ E.calm o := Same.eq (fun _ => inferInstance) inferInstance
theorem end_calm : end_ E o = end_ E.calm o := Same.eq (fun _ => inferInstance) inferInstance

theorem unchanged_calm : Unchanged E.calm o m m' ↔ Unchanged E o m m' := by
  unfold Unchanged; simp only [at_calm, ← nth_calm, ← dereference_calm]

theorem Generic.same_calm : Generic.Same E.calm m A V ↔ Generic.Same E m A V :=
  ⟨fun h => ⟨fun p ys hp => contents_calm.1 (h.elems p ys hp), fun r p i hv => by rw [nth_calm]; exact h.var r p i hv, h.copies⟩,
   fun h => ⟨fun p ys hp => contents_calm.2 (h.elems p ys hp), fun r p i hv => by rw [← nth_calm]; exact h.var r p i hv, h.copies⟩⟩

theorem Generic.kept_calm : Kept E.calm A m m' ↔ Kept E A m m' :=
  ⟨fun h => ⟨fun p ys hp hc => unchanged_calm.1 (h.others p ys hp (contents_calm.2 hc)), h.height, h.alloc, h.log⟩,
   fun h => ⟨fun p ys hp hc => unchanged_calm.2 (h.others p ys hp (contents_calm.1 hc)), h.height, h.alloc, h.log⟩⟩

theorem Generic.arrays_step_calm (c : Cmd α) : A.step E.calm c = A.step E c := by cases c <;> rfl

theorem Generic.step_calm {c : Cmd α} (h1 : ∀ r v, c ≠ .write r v) (h2 : ∀ r, c ≠ .take r) :
    Generic.step E V c = Generic.step E.calm V c := by
  cases c with
  | write r v => exact absurd rfl (h1 r v)
  | take r => exact absurd rfl (h2 r)
  | next r | prev r =>
    simp only [Generic.step]
    congr 1; funext it; congr 1
    exact Same.eq (fun _ => inferInstance) inferInstance
  | add r d =>
    simp only [Generic.step]
    congr 1; funext it; congr 1
    exact Same.eq (fun _ => inferInstance) inferInstance
  | readAt r d =>
    simp only [Generic.step]
    congr 1; funext it; congr 1
    exact Same.eq (fun _ => inferInstance) inferInstance
  | read r =>
    simp only [Generic.step]
    congr 1
  | _ => rfl

theorem wrElem_lift : Rough.wrElem E p i v = N.lift (wrElem E p i v) := by
  funext k m
  simp only [Rough.wrElem, wrElem, Bind.bind, N.bind, M.bind, N.lift, Rough.rdSlots]
  cases rdSlots p m with
  | ok w m1 =>
    simp only
    by_cases h1 : i < E.segMax
    · simp only [if_pos h1]
      cases w i with
      | val u => rfl
      | raw => by_cases h2 : E.trivCopy = true <;> simp only [h2] <;> rfl
    · simp only [if_neg h1]; rfl
  | _ => rfl

theorem rdElem_lift : Rough.rdElem E p i = N.lift (rdElem E p i) := by
  funext k m
  simp only [Rough.rdElem, rdElem, Bind.bind, N.bind, M.bind, N.lift, Rough.rdSlots]
  cases rdSlots p m with
  | ok w m1 =>
    simp only
    by_cases h1 : i < E.segMax
    · simp only [if_pos h1]
      cases w i <;> rfl
    · simp only [if_neg h1]; rfl
  | _ => rfl

/-- one step -/
theorem Generic.stepN_same [Moves α] (hE : E.Sound) (hr : Reach E.calm m) (h : Generic.Same E m A V) {c : Cmd α} {x : Resp α}
    (hs : A.stepN E k c = some (x, A', k')) :
    ∃ V' m', Generic.stepN E V c k m = .ok (x, V') m' k' ∧ Reach E.calm m' ∧ Generic.Same E m' A' V' ∧ Kept E A m m' ∧
      ∀ p, A'.elems p = none ↔ A.elems p = none := by
  obtain ⟨⟨y, B⟩, h1, h2⟩ := Option.bind_eq_some_iff.1 hs
  obtain ⟨V1, m1, e1, e2, e3, e4⟩ := Generic.step_same hE.calm hr (Generic.same_calm.2 h) (by rw [Generic.arrays_step_calm]; exact h1)
  have hd := Generic.Arrays.step_dom h1
  by_cases hw : (∃ r v, c = .write r v) ∨ ∃ r, c = .take r
  · rcases hw with ⟨r, v, rfl⟩ | ⟨r, rfl⟩
    · obtain ⟨it, hV⟩ : ∃ it, V r = some it := by
        obtain ⟨⟨o, i⟩, g1, -⟩ := Option.bind_eq_some_iff.1 h1
        obtain ⟨_, it, _, _, g2, _⟩ := h.var _ _ _ g1
        exact ⟨it, g2⟩
      simp only [Generic.step, Generic.use_some hV] at e1
      simp only [Generic.Arrays.moves] at h2
      have e5 : Rough.deref_set_rv E it v k m = if (!E.trivCopy && Moves.fails k v) = true then .throw .elem m (k + 1)
          else N.lift (deref_set_rv E.calm it v) (k + 1) m := by
        unfold Rough.deref_set_rv Rough.assign_segment
        rw [N.bind_ok (show Rough.fails E v k m = .ok _ m (k + 1) from rfl)]
        split
        · rfl
        · rw [wrElem_lift]
          have : deref_set_rv E.calm it v = wrElem E it.entry.seg.ptr it.entry.seg.idx v := by
            unfold deref_set_rv assign_segment
            rw [if_neg (by simp [Env.throws, Env.calm])]; rfl
          rw [this]
      cases hf : (!E.trivCopy && Moves.fails k v)
      · rw [hf] at h2 e5
        simp only [Bool.false_eq_true, if_false] at h2 e5
        cases h2
        obtain ⟨u, m2, f1, f2⟩ := bind_inv e1
        cases f2
        refine ⟨V, m1, ?_, e2, Generic.same_calm.1 e3, Generic.kept_calm.1 e4, hd⟩
        simp only [Generic.stepN, hV]
        rw [N.bind_ok (w := some u) (m' := m1) (k' := k + 1) (by unfold N.attempt N.lift at *; rw [e5]; simp only [f1])]
        rfl
      · rw [hf] at h2 e5
        simp only [if_true] at h2 e5
        cases h2
        refine ⟨V, m, ?_, hr, h, .refl, fun _ => Iff.rfl⟩
        simp only [Generic.stepN, hV]
        rw [N.bind_ok (w := none) (m' := m) (k' := k + 1) (by unfold N.attempt; rw [e5])]
        rfl
    · obtain ⟨⟨o, i⟩, g1, g5⟩ := Option.bind_eq_some_iff.1 h1
      obtain ⟨xs, g6, g7⟩ := Option.bind_eq_some_iff.1 g5
      obtain ⟨v, g8, g9⟩ := Option.bind_eq_some_iff.1 g7
      obtain ⟨xs', it, g10, g11, hV, g12⟩ := h.var _ _ _ g1
      obtain ⟨hi, hxi⟩ := List.getElem?_eq_some_iff.1 g8
      have hmv : A.moves (.take r) = some v := by simp [Generic.Arrays.moves, g1, g6, g8]
      rw [hmv] at h2
      simp only at h2
      simp only [Generic.step, Generic.use_some hV] at e1
      have hd' : rdElem E it.entry.seg.ptr it.entry.seg.idx m = .ok v m := by
        have := nth_deref hE.calm hr (contents_calm.2 (h.elems _ _ g6)) hi (by rw [← nth_calm]; exact g12)
        rw [hxi] at this
        exact this
      have e5 : Rough.moveFrom E it.entry.seg.ptr it.entry.seg.idx k m =
          if (!E.trivCopy && Moves.fails k v) = true then .throw .elem m (k + 1)
          else N.lift (moveFrom E.calm it.entry.seg.ptr it.entry.seg.idx) (k + 1) m := by
        unfold Rough.moveFrom
        rw [rdElem_lift, N.bind_lift hd', N.bind_ok (show Rough.fails E v k m = .ok _ m (k + 1) from rfl)]
        split
        · rfl
        · rw [wrElem_lift]
          have : moveFrom E.calm it.entry.seg.ptr it.entry.seg.idx m =
              (do wrElem E it.entry.seg.ptr it.entry.seg.idx (E.moved v); return v : M α α) m := by
            unfold moveFrom
            rw [bind_ok (show rdElem E.calm it.entry.seg.ptr it.entry.seg.idx m = .ok v m from hd')]
            rw [if_neg (by simp [Env.throws, Env.calm])]
            rfl
          show _ = N.lift _ _ _
          unfold N.lift
          rw [this]
          cases hw : wrElem E it.entry.seg.ptr it.entry.seg.idx (E.moved v) m <;>
            simp [Bind.bind, N.bind, M.bind, hw, Pure.pure, N.pure, M.pure]
      cases hf : (!E.trivCopy && Moves.fails k v)
      · rw [hf] at h2 e5
        simp only [Bool.false_eq_true, if_false] at h2 e5
        cases h2
        obtain ⟨u, m2, f1, f2⟩ := bind_inv e1
        cases f2
        refine ⟨V, m1, ?_, e2, Generic.same_calm.1 e3, Generic.kept_calm.1 e4, hd⟩
        simp only [Generic.stepN, hV]
        rw [N.bind_ok (w := some u) (m' := m1) (k' := k + 1) (by unfold N.attempt N.lift at *; rw [e5]; simp only [f1])]
        rfl
      · rw [hf] at h2 e5
        simp only [if_true] at h2 e5
        cases h2
        refine ⟨V, m, ?_, hr, h, .refl, fun _ => Iff.rfl⟩
        simp only [Generic.stepN, hV]
        rw [N.bind_ok (w := none) (m' := m) (k' := k + 1) (by unfold N.attempt; rw [e5])]
        rfl
  · have hw1 : ∀ r v, c ≠ .write r v := fun r v e => hw (.inl ⟨r, v, e⟩)
    have hw2 : ∀ r, c ≠ .take r := fun r e => hw (.inr ⟨r, e⟩)
    have hm : A.moves c = none := by
      cases c <;> first | rfl | exact absurd rfl (hw1 _ _) | exact absurd rfl (hw2 _)
    rw [hm] at h2
    cases h2
    refine ⟨V1, m1, ?_, e2, Generic.same_calm.1 e3, Generic.kept_calm.1 e4, hd⟩
    have : Generic.stepN E V c = N.lift (Generic.step E V c) := by
      cases c <;> first | rfl | exact absurd rfl (hw1 _ _) | exact absurd rfl (hw2 _)
    rw [this, Generic.step_calm hw1 hw2]
    unfold N.lift; rw [e1]

/-! ### C88 -/

/-- C88: any number of steps of any algorithm, any of whose moves may throw at any
moment: what it does on containers is what it does on arrays, as in C63.  Whatever
it does after an exception (put elements back, give up), the containers it has and
those it was not given are intact. -/
theorem C88_algorithm [Moves α] (hE : E.Sound) (P : Algo α σ) (n : Nat) (s s' : σ) (hr : Reach E.calm m)
    (h : Generic.Same E m A V) (hp : P.onArraysN E n s A k = some (s', A', k')) :
    ∃ V' m', P.onSeqsN E n s V k m = .ok (s', V') m' k' ∧ Generic.Same E m' A' V' ∧ Kept E A m m' ∧ Reach E.calm m' := by
  induction n generalizing s A V m k with
  | zero => cases hp; exact ⟨V, m, rfl, h, .refl, hr⟩
  | succ n ih =>
    unfold Generic.Algo.onArraysN at hp
    unfold Generic.Algo.onSeqsN
    cases hc : P.next s with
    | ret => rw [hc] at hp; cases hp; exact ⟨V, m, rfl, h, .refl, hr⟩
    | raise => rw [hc] at hp; cases hp; exact ⟨V, m, rfl, h, .refl, hr⟩
    | step c =>
      rw [hc] at hp
      obtain ⟨⟨x, A1, k1⟩, h1, h2⟩ := Option.bind_eq_some_iff.1 hp
      obtain ⟨V1, m1, e1, e2, e3, e4, e5⟩ := Generic.stepN_same hE hr h h1
      obtain ⟨V2, m2, f1, f2, f3, f4⟩ := ih _ e2 e3 h2
      refine ⟨V2, m2, ?_, f2, e4.trans e5 f3, f4⟩
      dsimp only
      rw [N.bind_ok e1]
      exact f1

/-- `algorithm(c.begin(), c.end());` -/
def Generic.runWholeN [Moves α] (E : Env α) (P : Algo α σ) (n : Nat) (s : σ) (o : Nat) : N α Unit := do
  let b ← N.lift (begin_ E o)
  let e ← N.lift (end_ E o)
  let (s, _) ← P.onSeqsN E n s (Generic.range b e)
  match P.next s with
  | .ret _ => pure ()
  | .raise => N.throw .elem
  | .step _ => fun _ _ => .div

/-- C88: `sort()`, `reverse()` and the like, with any implementation of the standard
algorithm, when comparisons and moves throw at any moment: the elements of the
container end up as those of an array would, and all containers stay intact. -/
theorem C88_whole [Moves α] (hE : E.Sound) (P : Algo α σ) {n : Nat} {s s' : σ} (hr : Reach E.calm m)
    (hc : Contents E o m xs) (hp : P.onArraysN E n s (Generic.whole o xs m.ticks) k = some (s', A', k'))
    (hy : A'.elems o = some ys) :
    ∃ m', Contents E o m' ys ∧ Reach E.calm m' ∧ Kept E (Generic.whole o xs m.ticks) m m' ∧
      ((∃ r, P.next s' = .ret r) → Generic.runWholeN E P n s o k m = .ok () m' k') ∧
      (P.next s' = .raise → Generic.runWholeN E P n s o k m = .throw .elem m' k') := by
  obtain ⟨b, e, h1, h2, h3⟩ := C63_range hE.calm hr (contents_calm.2 hc)
  rw [← begin_calm] at h1
  rw [← end_calm] at h2
  obtain ⟨V', m', h4, h5, h6, h7⟩ := C88_algorithm hE P n s s' hr (Generic.same_calm.1 h3) hp
  refine ⟨m', h5.elems _ _ hy, h7, h6, ?_, ?_⟩
  · rintro ⟨r, hx⟩
    unfold Generic.runWholeN
    rw [N.bind_lift h1, N.bind_lift h2, N.bind_ok h4]
    simp only [hx]; rfl
  · intro hx
    unfold Generic.runWholeN
    rw [N.bind_lift h1, N.bind_lift h2, N.bind_ok h4]
    simp only [hx]; rfl

/-- one array, with its beginning in variable 0, its end in variable 1 and index
`mid` in variable 2 -/
def Generic.halves (o : Nat) (xs : List α) (mid copies : Nat) : Arrays α :=
  ⟨fun p => if p = o then some xs else none,
    fun r => if r = 0 then some (o, 0) else if r = 1 then some (o, xs.length) else if r = 2 then some (o, mid) else none, copies⟩

/-- `merge(other)`, seq.hpp 3433-3438, with any implementation of
`std::inplace_merge` -/
def Generic.runMergeN [Moves α] (E : Env α) (P : Algo α σ) (n : Nat) (s : σ) (o other : Nat) : N α Unit := do
  let sz ← N.lift (getSize o)
  let e ← N.lift (end_ E o)
  let f ← N.lift (begin_ E other)
  let l ← N.lift (end_ E other)
  Rough.splice_range E o e other f l
  let b ← N.lift (begin_ E o)
  let mid ← N.lift (nth E o sz)
  let e ← N.lift (end_ E o)
  let (s, _) ← P.onSeqsN E n s (fun r => if r = 0 then some b else if r = 1 then some e else if r = 2 then some mid else none)
  match P.next s with
  | .ret _ => pure ()
  | .raise => N.throw .elem
  | .step _ => fun _ _ => .div

theorem N.bind_throw {γ : Type} {x : N α β} {f : β → N α γ} {e : Exn} (h : x k m = .throw e m' k') :
    (x >>= f) k m = .throw e m' k' := by
  show N.bind x f k m = _
  unfold N.bind; rw [h]

/-- C88: `o.merge(p)`, when moves throw at any moment.  Either moving the elements
over fails (by a move: nothing is said then; or for lack of memory, and then `o`
has some of the elements of `p`); or `o` holds the elements of both, one after the
other, `p` is empty, and from there on `o` ends up as an array would and `p` stays
empty, whatever throws. -/
theorem C88_merge [Moves α] (hE : E.Sound) (P : Algo α σ) (n : Nat) (s : σ) (hr : Reach E.calm m)
    (hc : Contents E o m xs) (hd : Contents E p m ys) (hne : o ≠ p) (hsz : xs.length + ys.length ≤ max_size E) (k : Nat) :
    (∃ m' k', Generic.runMergeN E P n s o p k m = .throw .elem m' k') ∨
    (∃ m' k' q, Generic.runMergeN E P n s o p k m = .throw .alloc m' k' ∧ q < ys.length ∧ Contents E o m' (xs ++ ys.take q) ∧
      Contents E p m' (movedFrom E 0 (q + 1) ys) ∧ Reach E.calm m') ∨
    (∃ m1 k1, Contents E o m1 (xs ++ ys) ∧ Contents E p m1 [] ∧ Reach E.calm m1 ∧
      ∀ s' A' k' zs, P.onArraysN E n s (Generic.halves o (xs ++ ys) xs.length m1.ticks) k1 = some (s', A', k') →
        A'.elems o = some zs →
        ∃ m', Contents E o m' zs ∧ Contents E p m' [] ∧ Reach E.calm m' ∧
          ((∃ r, P.next s' = .ret r) → Generic.runMergeN E P n s o p k m = .ok () m' k') ∧
          (P.next s' = .raise → Generic.runMergeN E P n s o p k m = .throw .elem m' k')) := by
  have hc' := contents_calm.2 hc
  have hd' := contents_calm.2 hd
  obtain ⟨-, e, -, -, e1, e2⟩ := hr.ends hE.calm hc'
  obtain ⟨f, l, f1, f2, l1, l2⟩ := hr.ends hE.calm hd'
  rw [← end_calm] at e1 l1
  rw [← begin_calm] at f1
  have hstart : Generic.runMergeN E P n s o p k m = (do
      Rough.splice_range E o e p f l
      let b ← N.lift (begin_ E o)
      let mid ← N.lift (nth E o xs.length)
      let e ← N.lift (end_ E o)
      let (s, _) ← P.onSeqsN E n s (fun r => if r = 0 then some b else if r = 1 then some e else if r = 2 then some mid else none)
      match P.next s with
      | .ret _ => pure ()
      | .raise => N.throw .elem
      | .step _ => fun _ _ => .div) k m := by
    unfold Generic.runMergeN
    rw [N.bind_lift (x := getSize o) hc.1, N.bind_lift e1, N.bind_lift f1, N.bind_lift l1]
  rw [hstart]
  rcases Lag.both (fun d => (inferInstance : Lag d (Rough.splice_range E o e p f l) (splice_range E.calm o e p f l))) k m with h | ⟨m', k', h⟩
  · obtain ⟨S, al, hv, ho, -⟩ := hr.view hE.calm hc'
    obtain ⟨al2, hp⟩ : ∃ al2, S p = some ⟨al2, ys⟩ := by
      have := hv p
      cases hS : S p with
      | none => rw [hS] at this; exact absurd this (size_some hd'.1)
      | some x =>
        rw [hS] at this
        exact ⟨x.alloc, by rw [hd'.unique this.2]⟩
    have hop : (Op.bin o p (.spliceRange xs.length 0 ys.length)).run E.calm m =
        (do splice_range E.calm o e p f l; return .unit : M α (Ret α)) m := by
      have : (do let it ← nth E.calm o xs.length; let first ← nth E.calm p 0; let last ← nth E.calm p ys.length
                 splice_range E.calm o it p first last : M α Unit) m = splice_range E.calm o e p f l m := by
        rw [bind_ok e2, bind_ok f2, bind_ok l2]
      show M.bind _ _ _ = M.bind _ _ _
      unfold M.bind
      rw [this]
    have hpre : (Op.bin o p (.spliceRange xs.length 0 ys.length)).Pre E.calm S :=
      ⟨hne, _, _, ho, hp, Nat.le_refl _, Nat.zero_le _, Nat.le_refl _, by rw [Nat.sub_zero]; exact hsz⟩
    have after : ∀ {m1 : Mem α} {S' : Bank α} {x' y' : Obj α}, View E.calm m1 S' →
        S' = upd (upd S p (some y')) o (some x') → Contents E o m1 x'.elems ∧ Contents E p m1 y'.elems := by
      rintro m1 _ x' y' h1 rfl
      have h2 := h1 o
      have h3 := h1 p
      rw [upd_self] at h2
      rw [upd_ne (Ne.symm hne), upd_self] at h3
      exact ⟨contents_calm.1 h2.2, contents_calm.1 h3.2⟩
    right
    rcases C04_progress hE.calm hr hv hpre with ⟨r, m1, S', h1, h2, h3⟩ | ⟨x, m1, S', h1, h2, h3⟩
    · right
      have hr1 : Reach E.calm m1 := .ret hr hv hpre h1
      obtain ⟨x, y, x', y', g1, g2, ⟨-, g3, g4⟩, g5⟩ := h2
      rw [ho] at g1; cases g1
      rw [hp] at g2; cases g2
      obtain ⟨k1, k2⟩ := after h3 g5
      have k3 : Contents E o m1 (xs ++ ys) := by rw [g3] at k1; simpa [ins, slice] using k1
      have k4 : Contents E p m1 [] := by rw [g4] at k2; simpa using k2
      rw [hop] at h1
      obtain ⟨u, m2, h4, h5⟩ := bind_inv h1
      cases h5
      rw [h4] at h
      obtain ⟨k', hk⟩ : ∃ k', Rough.splice_range E o e p f l k m = .ok u m1 k' := by
        cases hx : Rough.splice_range E o e p f l k m with
        | ok r2 m2 n2 => rw [hx] at h; cases h; exact ⟨n2, rfl⟩
        | throw e2 m2 n2 => rw [hx] at h; cases h
        | ub u2 => rw [hx] at h; cases h
        | div => rw [hx] at h; cases h
      refine ⟨m1, k', k3, k4, hr1, fun s' A' k2 zs ha hz => ?_⟩
      obtain ⟨b, en, b1, b2, n1, n2⟩ := hr1.ends hE.calm (contents_calm.2 k3)
      obtain ⟨mid, d1⟩ := hr1.nth hE.calm (contents_calm.2 k3) xs.length
      have hsame : Generic.Same E m1 (Generic.halves o (xs ++ ys) xs.length m1.ticks)
          (fun r => if r = 0 then some b else if r = 1 then some en else if r = 2 then some mid else none) := by
        refine Generic.same_calm.1 ⟨fun q ws hq => ?_, fun r q i hq => ?_, rfl⟩
        · simp only [Generic.halves] at hq
          split at hq
          · rename_i h; subst h; cases hq; exact contents_calm.2 k3
          · cases hq
        · simp only [Generic.halves] at hq
          split at hq
          · cases hq; exact ⟨_, b, if_pos rfl, Nat.zero_le _, by simp [*], b2⟩
          · split at hq
            · cases hq; exact ⟨_, en, if_pos rfl, Nat.le_refl _, by simp [*], n2⟩
            · split at hq
              · cases hq; exact ⟨_, mid, if_pos rfl, by simp, by simp [*], d1⟩
              · cases hq
      obtain ⟨V', m', t1, t2, t3, t4⟩ := C88_algorithm hE P n s s' hr1 hsame ha
      refine ⟨m', t2.elems _ _ hz, (t3.others p [] (if_neg (Ne.symm hne)) k4).contents k4, t4, ?_, ?_⟩
      · rintro ⟨r, hx⟩
        rw [N.bind_ok hk, N.bind_lift (by rw [begin_calm]; exact b1), N.bind_lift (by rw [nth_calm]; exact d1),
          N.bind_lift (by rw [end_calm]; exact n1), N.bind_ok t1]
        simp only [hx]; rfl
      · intro hx
        rw [N.bind_ok hk, N.bind_lift (by rw [begin_calm]; exact b1), N.bind_lift (by rw [nth_calm]; exact d1),
          N.bind_lift (by rw [end_calm]; exact n1), N.bind_ok t1]
        simp only [hx]; rfl
    · left
      have hr1 : Reach E.calm m1 := .exc hr hv hpre h1
      obtain ⟨x, y, x', y', g1, g2, ⟨rfl, q, hq, g3, g4⟩, g5⟩ := h2
      rw [ho] at g1; cases g1
      rw [hp] at g2; cases g2
      obtain ⟨k1, k2⟩ := after h3 g5
      rw [hop] at h1
      have h4 : splice_range E.calm o e p f l m = .throw .alloc m1 := by
        rcases bind_inv_throw h1 with h4 | ⟨u, m2, -, h5⟩
        · exact h4
        · cases h5
      rw [h4] at h
      obtain ⟨k', hk⟩ : ∃ k', Rough.splice_range E o e p f l k m = .throw .alloc m1 k' := by
        cases hx : Rough.splice_range E o e p f l k m with
        | ok r2 m2 n2 => rw [hx] at h; cases h
        | throw e2 m2 n2 => rw [hx] at h; cases h; exact ⟨n2, rfl⟩
        | ub u2 => rw [hx] at h; cases h
        | div => rw [hx] at h; cases h
      refine ⟨m1, k', q, N.bind_throw hk, by simpa using hq, ?_, ?_, hr1⟩
      · rw [g3] at k1; simpa [ins, slice] using k1
      · rw [g4] at k2; rw [Nat.zero_add] at k2; exact k2
  · left
    rw [N.bind_throw h]
    exact ⟨m', k', rfl⟩

/-! ### Programs -/

/-- The memories of a program in which moves may have thrown at any moment, and
element exceptions may have come out of algorithms on containers (`sort`,
`std::rotate`, ..., a part of one included) but not out of other calls. -/
inductive Intact (E : Env α) : Mem α → Prop where
  | init : Intact E noMem
  | ret {m m' : Mem α} {S : Bank α} {op : Op α} {r : Ret α} (O : Moves α) {k n : Nat} :
      Intact E m → View E m S → op.Pre E S → ¬ op.inStd → op.rough E k m = .ok r m' n → Intact E m'
  | exc {m m' : Mem α} {S : Bank α} {op : Op α} {e : Exn} (O : Moves α) {k n : Nat} :
      Intact E m → View E m S → op.Pre E S → ¬ op.inStd → e ≠ .elem → op.rough E k m = .throw e m' n → Intact E m'
  | algo {m m' : Mem α} {A A' : Arrays α} {V V' : Vars} (O : Moves α) {σ : Type} (P : Algo α σ) {s s' t : σ} {n k k' l : Nat} :
      Intact E m → Generic.Same E m A V → P.onArraysN E n s A k = some (s', A', k') →
      P.onSeqsN E n s V k m = .ok (t, V') m' l → Intact E m'

theorem Intact.reach (hE : E.Sound) (h : Intact E m) : Reach E.calm m := by
  induction h with
  | init => exact .init
  | ret O _ hv hp hs hrun ih =>
    rcases op_moments (E := E) hs _ _ with h | ⟨_, _, h⟩ | ⟨_, h⟩ | h
    · rw [hrun] at h; exact .ret ih (view_calm.2 hv) hp h.symm
    all_goals rw [hrun] at h; cases h
  | exc O _ hv hp hs he hrun ih =>
    rcases op_moments (E := E) hs _ _ with h | ⟨_, _, h⟩ | ⟨_, h⟩ | h
    · rw [hrun] at h; exact .exc ih (view_calm.2 hv) hp h.symm
    all_goals rw [hrun] at h; cases h
    exact absurd rfl he
  | algo O P _ hsame ha hrun ih =>
    obtain ⟨V', m', h1, -, -, h2⟩ := C88_algorithm hE P _ _ _ ih hsame ha
    rw [hrun] at h1
    cases h1
    exact h2

theorem Unhurt.intact (h : Unhurt E m) : Intact E m := by
  induction h with
  | init => exact .init
  | ret O _ hv hp hs hrun ih => exact .ret O ih hv hp hs hrun
  | exc O _ hv hp hs he hrun ih => exact .exc O ih hv hp hs he hrun

/-- C88: after algorithms that were interrupted by exceptions, too, a call within its
precondition returns what is specified, or fails as specified, or ends in an
element exception -/
theorem C88_call [Moves α] {S : Bank α} {op : Op α} (hE : E.Sound) (hr : Intact E m) (hv : View E m S) (hp : op.Pre E S)
    (hs : ¬ op.inStd) (hb : ¬ op.builds) (k : Nat) :
    (∃ r m' n S', op.rough E k m = .ok r m' n ∧ op.Ok E S r S' ∧ View E m' S') ∨
    (∃ e m' n S', op.rough E k m = .throw e m' n ∧ op.Exc E S e S' ∧ View E m' S') ∨
    ∃ m' n, op.rough E k m = .throw .elem m' n :=
  (hr.reach hE).rough_call hE hv hp hs hb k

/-! ### Concrete cases -/

/-- an algorithm that lets the exceptions of moves and copies out -/
def Generic.Algo.letOut (P : Algo α σ) : Algo α (Option σ) where
  next
    | some s => P.next s
    | none => .raise
  then_
    | some _, .threw => none
    | some s, r => some (P.then_ s r)
    | none, _ => none

/-- only the move with number 2 throws -/
@[instance_reducible] def third : Moves Nat := ⟨fun k _ => k == 2⟩

/-- `reverse()` of eight elements when the third move, which puts the last element
at the front, throws: the two elements on their way are lost, the container is
intact -/
example : ∃ (m m' : Mem Nat), Contents demo 0 m eight ∧ Reach demo.calm m ∧
    @Generic.runWholeN _ _ third demo Generic.reverse.letOut 40 (some .test) 0 0 m = .throw .elem m' 3 ∧
    Contents demo 0 m' [demo.moved 10, 11, 12, 14, 15, 16, 17, demo.moved 18] ∧ Reach demo.calm m' := by
  obtain ⟨m, h1, h2, -⟩ := demo_eight
  have hr : Reach demo.calm m := h1
  obtain ⟨m', h3, h4, -, -, h5⟩ := @C88_whole _ _ demo m _ 0 0 3 eight [demo.moved 10, 11, 12, 14, 15, 16, 17, demo.moved 18]
    third demo_sound Generic.reverse.letOut 40 (some .test) none hr h2 rfl rfl
  exact ⟨m, m', h2, hr, h5 rfl, h3, h4⟩

/-- no move throws -/
@[instance_reducible] def never : Moves Nat := ⟨fun _ _ => false⟩

/-- C88_merge of [10, 14] and [11], with `std::reverse` in place of a merge: if
memory suffices, the first container ends up with [11, 14, 10] -/
example : ∃ m, Contents demo 0 m [10, 14] ∧ Contents demo 1 m [11] ∧ Reach demo.calm m ∧
    ((∃ x m' k', @Generic.runMergeN _ _ never demo Generic.reverse 40 .test 0 1 0 m = .throw x m' k') ∨
     ∃ m' k', @Generic.runMergeN _ _ never demo Generic.reverse 40 .test 0 1 0 m = .ok () m' k' ∧ Contents demo 0 m' [11, 14, 10] ∧
      Contents demo 1 m' []) := by
  obtain ⟨m, h1, -, h2, h3, -⟩ := demo_lists [10, 14] [11] 0 0
  have hr : Reach demo.calm m := h1
  refine ⟨m, h2, h3, hr, ?_⟩
  rcases @C88_merge _ _ demo m 0 1 _ _ never demo_sound Generic.reverse 40 .test hr h2 h3 (by decide) (by decide) 0 with
    ⟨m', k', h⟩ | ⟨m', k', q, h, -⟩ | ⟨m1, k1, -, -, -, h⟩
  · exact .inl ⟨_, _, _, h⟩
  · exact .inl ⟨_, _, _, h⟩
  · obtain ⟨m', h4, h5, -, h6, -⟩ := h .ret _ _ [11, 14, 10] rfl rfl
    exact .inr ⟨m', _, h6 ⟨_, rfl⟩, h4, h5⟩

/-- `auto x = std::move(*first); *first = std::move(x);` -/
def rewrite : Algo Nat (Option (Option Nat)) where
  next
    | none => .step (.take 0)
    | some (some v) => .step (.write 0 v)
    | some none => .ret 0
  then_
    | none, .val v => some (some v)
    | _, _ => some none

/-- an intact container after the second of two moves has thrown -/
example : ∃ m', Intact demo m' ∧ Contents demo 0 m' [demo.moved 5] := by
  let _ := ora 1
  have h0 : Intact demo (oneSeg [5] 1) := demo_unhurt.intact
  have hc : Contents demo 0 (oneSeg [5] 1) [5] := by
    have := oneSeg_view (E := demo) (xs := [5]) (t := 1) (by decide) 0
    rw [upd_self] at this; exact this.2
  have hr := h0.reach demo_sound
  obtain ⟨b, e, -, -, h1⟩ := C63_range (E := demo) demo_good hr hc
  obtain ⟨A', ha, hA⟩ : ∃ A', rewrite.letOut.onArraysN demo 5 (some none) (Generic.whole 0 [5] (oneSeg [5] 1 : Mem Nat).ticks) 0 =
      some (none, A', 2) ∧ A'.elems 0 = some [demo.moved 5] := ⟨_, rfl, rfl⟩
  obtain ⟨V', m', h2, h3, -, h4⟩ := C88_algorithm demo_sound rewrite.letOut 5 (some none) none hr h1 ha
  exact ⟨m', .algo _ rewrite.letOut h0 h1 ha h2, h3.elems 0 _ hA⟩

end SegTree
