/-
  C63: generic algorithms.  An algorithm of the standard library (or of the user)
  that works on random access iterators does on containers exactly what it does on
  plain arrays, where an iterator is an index.
-/
import Verif.Proof.Client
import Verif.Props.Iterators
import Verif.Props.Multi
import Verif.Props.Algorithms
set_option autoImplicit false

namespace SegTree
namespace Generic

variable {α σ : Type}

/-- What an algorithm can do with the iterators it holds in variables. -/
inductive Cmd (α : Type) where
  /-- `dst = src;` -/
  | copy (dst src : Nat)
  /-- `++r;` -/
  | next (r : Nat)
  /-- `--r;` -/
  | prev (r : Nat)
  /-- `r += d;` -/
  | add (r : Nat) (d : Int)
  /-- look at `*r` -/
  | read (r : Nat)
  /-- look at `r[d]` -/
  | readAt (r : Nat) (d : Int)
  /-- `*r = std::move(x);` where `x` holds `v` -/
  | write (r : Nat) (v : α)
  /-- `*r = x;` where `x` holds `v` -/
  | assign (r : Nat) (v : α)
  /-- `T x = std::move(*r);` -/
  | take (r : Nat)
  /-- `a == b` -/
  | eq (a b : Nat)
  /-- `a < b` -/
  | lt (a b : Nat)
  /-- `a - b` -/
  | diff (a b : Nat)

/-- What it learns. -/
inductive Resp (α : Type) where
  | unit
  /-- the copy assignment threw -/
  | threw
  | val (v : α)
  | flag (b : Bool)
  | num (d : Int)

/-- What an algorithm does next: another step, return with its result in variable
`r`, or let out an exception (that a predicate or comparison of the user threw). -/
inductive Next (α : Type) where
  | step (c : Cmd α)
  | ret (r : Nat)
  | raise

/-- An algorithm with local state `σ`; what it does after a step may depend on what
it learnt. -/
structure Algo (α σ : Type) where
  next : σ → Next α
  then_ : σ → Resp α → σ

/-! ### On arrays -/

/-- some arrays, and the variables: each iterator is an array and an index -/
structure Arrays (α : Type) where
  elems : Nat → Option (List α)
  var : Nat → Option (Nat × Nat)
  /-- copies made so far: they decide whether the next one throws -/
  copies : Nat

/-- One step on arrays; no result if the step is not allowed: `++` at the end,
`--` at the beginning, a jump out of the array, access at the end, comparison of
iterators of different arrays, a difference that `difference_type` cannot hold. -/
def Arrays.step (E : Env α) (A : Arrays α) : Cmd α → Option (Resp α × Arrays α)
  | .copy dst src => do
    let x ← A.var src
    some (.unit, { A with var := upd A.var dst (some x) })
  | .next r => do
    let (o, i) ← A.var r
    let xs ← A.elems o
    if i < xs.length then some (.unit, { A with var := upd A.var r (some (o, i + 1)) }) else none
  | .prev r => do
    let (o, i) ← A.var r
    if 0 < i then some (.unit, { A with var := upd A.var r (some (o, i - 1)) }) else none
  | .add r d => do
    let (o, i) ← A.var r
    let xs ← A.elems o
    if 0 ≤ (i : Int) + d ∧ (i : Int) + d ≤ xs.length then
      some (.unit, { A with var := upd A.var r (some (o, ((i : Int) + d).toNat)) })
    else none
  | .read r => do
    let (o, i) ← A.var r
    let xs ← A.elems o
    let v ← xs[i]?
    some (.val v, A)
  | .readAt r d => do
    let (o, i) ← A.var r
    let xs ← A.elems o
    if 0 ≤ (i : Int) + d then do
      let v ← xs[((i : Int) + d).toNat]?
      some (.val v, A)
    else none
  | .write r v => do
    let (o, i) ← A.var r
    let xs ← A.elems o
    if i < xs.length then some (.unit, { A with elems := upd A.elems o (some (xs.set i v)) }) else none
  | .assign r v => do
    let (o, i) ← A.var r
    let xs ← A.elems o
    if i < xs.length then
      if E.trivCopy then some (.unit, { A with elems := upd A.elems o (some (xs.set i v)) })
      else if E.cthrow A.copies v then some (.threw, { A with copies := A.copies + 1 })
      else some (.unit, { A with elems := upd A.elems o (some (xs.set i v)), copies := A.copies + 1 })
    else none
  | .take r => do
    let (o, i) ← A.var r
    let xs ← A.elems o
    let v ← xs[i]?
    some (.val v, { A with elems := upd A.elems o (some (xs.set i (E.moved v))) })
  | .eq a b => do
    let (o, i) ← A.var a
    let (p, j) ← A.var b
    if o = p then some (.flag (decide (i = j)), A) else none
  | .lt a b => do
    let (o, i) ← A.var a
    let (p, j) ← A.var b
    if o = p then some (.flag (decide (i < j)), A) else none
  | .diff a b => do
    let (o, i) ← A.var a
    let (p, j) ← A.var b
    let xs ← A.elems o
    if o = p ∧ 2 * xs.length < E.W then some (.num ((i : Int) - (j : Int)), A) else none

/-- up to `n` steps of an algorithm on arrays -/
def Algo.onArrays (E : Env α) (P : Algo α σ) : Nat → σ → Arrays α → Option (σ × Arrays α)
  | 0, s, A => some (s, A)
  | n + 1, s, A =>
    match P.next s with
    | .step c => do
      let (r, A) ← A.step E c
      P.onArrays E n (P.then_ s r) A
    | _ => some (s, A)

/-! ### On containers -/

/-- the variables: each iterator is an iterator of a container -/
abbrev Vars := Nat → Option Iter

/-- use of a variable that holds an iterator -/
def use {β : Type} (V : Vars) (r : Nat) (f : Iter → M α β) : M α β :=
  match V r with
  | some it => f it
  | none => M.ub .access

/-- `try { x; return false; } catch (...) { return true; }` -/
def throws (x : M α Unit) : M α Bool := fun m =>
  match x m with
  | .ok _ m' => .ok false m'
  | .throw _ m' => .ok true m'
  | .ub k => .ub k
  | .div => .div

/-- One step with the iterators of the model. -/
def step (E : Env α) (V : Vars) : Cmd α → M α (Resp α × Vars)
  | .copy dst src => use V src fun it => pure (.unit, upd V dst (some it))
  | .next r => use V r fun it => do return (.unit, upd V r (some (← move_next_iterator E it)))
  | .prev r => use V r fun it => do return (.unit, upd V r (some (← move_prev_iterator E it)))
  | .add r d => use V r fun it => do return (.unit, upd V r (some (← it_add E it d)))
  | .read r => use V r fun it => do return (.val (← dereference E it), V)
  | .readAt r d => use V r fun it => do return (.val (← it_index E it d), V)
  | .write r v => use V r fun it => do
    deref_set_rv E it v
    return (.unit, V)
  | .assign r v => use V r fun it => do
    return (if ← throws (deref_set E it v) then .threw else .unit, V)
  | .take r => use V r fun it => do
    return (.val (← moveFrom E it.entry.seg.ptr it.entry.seg.idx), V)
  | .eq a b => use V a fun it => use V b fun jt => pure (.flag (it_eq it jt), V)
  | .lt a b => use V a fun it => use V b fun jt => pure (.flag (it_lt it jt), V)
  | .diff a b => use V a fun it => use V b fun jt => pure (.num (it_diff E it jt), V)

/-- up to `n` steps of an algorithm on containers -/
def Algo.onSeqs (E : Env α) (P : Algo α σ) : Nat → σ → Vars → M α (σ × Vars)
  | 0, s, V => pure (s, V)
  | n + 1, s, V =>
    match P.next s with
    | .step c => do
      let (r, V) ← step E V c
      P.onSeqs E n (P.then_ s r) V
    | _ => pure (s, V)

/-- The containers hold what the arrays hold, and the iterators are at the
indices. -/
structure Same (E : Env α) (m : Mem α) (A : Arrays α) (V : Vars) : Prop where
  elems : ∀ o xs, A.elems o = some xs → Contents E o m xs
  var : ∀ r o i, A.var r = some (o, i) →
    ∃ xs it, A.elems o = some xs ∧ i ≤ xs.length ∧ V r = some it ∧ nth E o i m = .ok it m
  copies : A.copies = m.ticks

end Generic

open Generic
variable {α σ : Type} {E : Env α} {m m' : Mem α} {A A' : Arrays α} {V V' : Vars} {o i r : Nat} {xs : List α} {v : α}
  {it : Iter}

theorem Reach.ends (hE : E.Good) (hr : Reach E m) (hc : Contents E o m xs) :
    ∃ b e, begin_ E o m = .ok b m ∧ SegTree.nth E o 0 m = .ok b m ∧ end_ E o m = .ok e m ∧
      SegTree.nth E o xs.length m = .ok e m := by
  obtain ⟨⟨b, h1, h2⟩, ⟨e, h3, h4⟩, -⟩ := C18_ends hE hr hc
  exact ⟨b, e, h1, h2, h3, h4⟩

theorem nth_pos (hE : E.Good) (hr : Reach E m) (hc : Contents E o m xs) (hi : i ≤ xs.length)
    (hn : nth E o i m = .ok it m) : it.pos = i := by
  obtain ⟨al, s, F, hs, rfl, H⟩ := hr.cont hE hc
  exact (at_of_nth hs H hi hn).pos

theorem nth_deref (hE : E.Good) (hr : Reach E m) (hc : Contents E o m xs) (hi : i < xs.length)
    (hn : nth E o i m = .ok it m) : dereference E it m = .ok xs[i] m := by
  obtain ⟨jt, h1, h2⟩ := ((C05_access hE hr hc).1 hi).2.2
  rw [hn] at h1
  cases h1
  exact h2

/-- what an algorithm leaves as it is: the containers it has no iterators of, the
heights and allocators of all containers, and all allocations -/
structure Generic.Kept (E : Env α) (A : Arrays α) (m m' : Mem α) : Prop where
  others : ∀ p ys, A.elems p = none → Contents E p m ys → Unchanged E p m m'
  height : ∀ p n, height p m = .ok n m → SegTree.height p m' = .ok n m'
  alloc : ∀ p a, get_allocator p m = .ok a m → get_allocator p m' = .ok a m'
  log : m'.log = m.log

theorem Generic.Kept.refl : Kept E A m m :=
  ⟨fun _ _ _ _ => ⟨fun _ h => h, fun _ h => h, fun _ h => h, fun _ _ h => ⟨h, fun _ _ _ _ h => h⟩, fun _ _ h => h,
    fun h => h⟩, fun _ _ h => h, fun _ _ h => h, rfl⟩

theorem deref_set_rv_no_throw (hE : E.Good) (hr : Reach E m) (hc : Contents E o m xs) (hi : i < xs.length)
    (hn : nth E o i m = .ok it m) {e : Exn} : deref_set_rv E it v m ≠ .throw e m' := by
  obtain ⟨al, s, F, hs, rfl, H⟩ := hr.cont hE hc
  obtain ⟨m2, s', h1, -⟩ := deref_set_rv_c (v := v) hE hs (at_of_nth hs H (Nat.le_of_lt hi) hn) hi H
  rw [h1]
  nofun

/-- a write through an iterator is a call: the memory stays reachable -/
theorem Reach.write (hE : E.Good) (hr : Reach E m) (hc : Contents E o m xs) (hi : i < xs.length)
    (hn : SegTree.nth E o i m = .ok it m) {x : M α Unit} (hx : x = deref_set E it v ∨ x = deref_set_rv E it v)
    (h1 : x m = .ok () m') : Reach E m' := by
  rcases hx with rfl | rfl
  · rcases hr.call hE hc (.setIt i v) (fun _ => hi) with ⟨r, m2, al, x', h2, -, -, h4⟩ | ⟨e, m2, al, x', h2, -, -, h4⟩
    · obtain ⟨-, u, h5⟩ := unit_inv h2
      rw [bind_ok hn, h1] at h5; cases h5; exact h4.reach
    · have h5 := unit_inv_throw h2
      rw [bind_ok hn, h1] at h5; cases h5
  · rcases hr.call hE hc (.setRv i v) (fun _ => hi) with ⟨r, m2, al, x', h2, -, -, h4⟩ | ⟨e, m2, al, x', h2, -, -, h4⟩
    · obtain ⟨-, u, h5⟩ := unit_inv h2
      rw [bind_ok hn, h1] at h5; cases h5; exact h4.reach
    · have h5 := unit_inv_throw h2
      rw [bind_ok hn, h1] at h5; cases h5

theorem wrElem_ticks {p : Nat} (h : wrElem E p i v m = .ok () m') : m'.ticks = m.ticks := by
  have key : ∀ (m1 : Mem α) sl, wrSlots p sl m1 = .ok () m' → m'.ticks = m1.ticks := by
    intro m1 sl h; unfold wrSlots at h; split at h <;> cases h; rfl
  have h : (rdSlots p >>= fun s => if i < E.segMax then match s i with
    | .val _ => wrSlots p (upd s i (.val v))
    | .raw => if E.trivCopy then wrSlots p (upd s i (.val v)) else M.ub .raw
    else M.ub .oob : M α Unit) m = .ok () m' := h
  obtain ⟨s, m1, h1, h2⟩ := bind_inv h
  have e : m1 = m := by unfold rdSlots at h1; split at h1 <;> cases h1; rfl
  rw [← e]
  by_cases hi : i < E.segMax
  · rw [if_pos hi] at h2
    cases hs : s i with
    | val w => rw [hs] at h2; exact key _ _ h2
    | raw =>
      rw [hs] at h2
      by_cases ht : E.trivCopy = true
      · exact key _ (upd s i (.val v)) (by simpa [ht] using h2)
      · simp only [ht] at h2; cases h2
  · rw [if_neg hi] at h2; cases h2

theorem deref_set_rv_ticks (h : deref_set_rv E it v m = .ok () m') : m'.ticks = m.ticks := by
  unfold deref_set_rv assign_segment at h
  split at h
  · cases h
  · exact wrElem_ticks h

theorem deref_set_ticks (h : deref_set E it v m = .ok () m') :
    if E.trivCopy then m'.ticks = m.ticks else E.cthrow m.ticks v = false ∧ m'.ticks = m.ticks + 1 := by
  unfold deref_set copyAssign at h
  obtain ⟨w, m1, h1, h⟩ := bind_inv h
  rw [wrElem_ticks h]
  unfold copyVal at h1
  split at h1
  · rename_i ht; cases h1; rw [if_pos ht]
  · rename_i ht
    rw [if_neg ht]
    split at h1
    · cases h1
    · rename_i hc
      cases h1; exact ⟨by simpa using hc, rfl⟩

theorem deref_set_throw (hE : E.Good) (hr : Reach E m) (hc : Contents E o m xs) (hi : i < xs.length)
    (hn : nth E o i m = .ok it m) {e : Exn} (h : deref_set E it v m = .throw e m') :
    ¬ E.trivCopy = true ∧ E.cthrow m.ticks v = true ∧ e = .elem ∧ m' = m.tick := by
  obtain ⟨al, s, F, hs, rfl, H⟩ := hr.cont hE hc
  unfold deref_set copyAssign at h
  obtain ⟨m1, ht, hc | ⟨hc, -, -⟩⟩ := Mk.copy (E := E) v m
  · obtain ⟨m2, s2, e2, -⟩ := wrElem_c v hs (at_of_nth hs H (Nat.le_of_lt hi) hn) hi (ht.holds H)
    rw [bind_ok hc, e2] at h; cases h
  · rw [bind_throw hc] at h
    cases h
    unfold copyVal at hc
    split at hc
    · cases hc
    · rename_i h1
      split at hc
      · rename_i h2; cases hc; exact ⟨h1, h2, rfl, rfl⟩
      · cases hc

/-- nothing that the API can tell changes with the number of copies -/
theorem Reach.ticked (hE : E.Good) (hr : Reach E m) (ht : Ticked m m') (p : Nat) : Unchanged E p m m' := by
  obtain ⟨S, A, hR, HA⟩ := hr.inv hE
  have H : Holds m.log (0 + A) m := by rw [zero_add]; exact HA
  exact hR.unchanged H (ht.holds H) (by simp) (by simp)

theorem Generic.Kept.ticked (hE : E.Good) (hr : Reach E m) (ht : Ticked m m') : Kept E A m m' :=
  ⟨fun p _ _ _ => hr.ticked hE ht p, fun p => (hr.ticked hE ht p).2.1, fun p => (hr.ticked hE ht p).2.2.1, ht.log⟩

theorem Generic.Same.ticked (hE : E.Good) (hr : Reach E m) (ht : Ticked m m') (h : Same E m A V) :
    Same E m' { A with copies := m'.ticks } V :=
  ⟨fun p _ hp => (hr.ticked hE ht p).contents (h.elems _ _ hp), fun q p j hq => by
    obtain ⟨ys, jt, g1, g2, g3, g4⟩ := h.var _ _ _ hq
    exact ⟨ys, jt, g1, g2, g3, ((hr.ticked hE ht p).2.2.2.1 _ _ g4).1⟩, rfl⟩

/-- the effect of a write on the correspondence -/
theorem Generic.Same.write (hE : E.Good) (hr : Reach E m) (h : Same E m A V) (hv : A.var r = some (o, i))
    (ho : A.elems o = some xs) (hi : i < xs.length) (hV : V r = some it)
    {x : M α Unit} (hx : x = deref_set E it v ∨ x = deref_set_rv E it v) :
    (∃ m', x m = .ok () m' ∧ Reach E m' ∧
      Same E m' { A with elems := upd A.elems o (some (xs.set i v)), copies := m'.ticks } V ∧ Kept E A m m') ∨
    (x m = .throw .elem m.tick ∧ Reach E m.tick ∧ Same E m.tick { A with copies := A.copies + 1 } V ∧ Kept E A m m.tick ∧
      ¬ E.trivCopy = true ∧ E.cthrow A.copies v = true ∧ x = deref_set E it v) := by
  have hc := h.elems _ _ ho
  obtain ⟨xs', it', h1, h2, h3, hn⟩ := h.var _ _ _ hv
  rw [ho] at h1; cases h1
  rw [hV] at h3; cases h3
  rcases C07_write hE hr hc hi hn (x := x) (by tauto) with ⟨m', h1, h4, h5, h6, h7, h8, h9⟩ | ⟨m', h1, -, -⟩
  · refine .inl ⟨m', h1, hr.write hE hc hi hn hx h1, ⟨?_, ?_, rfl⟩, ⟨?_, ?_, ?_, h9⟩⟩
    · intro p ys hp
      by_cases e : p = o
      · subst e
        change upd A.elems p (some (xs.set i v)) p = _ at hp
        rw [upd_self] at hp
        cases hp
        exact h4
      · change upd A.elems o (some (xs.set i v)) p = _ at hp
        rw [upd_ne e] at hp
        exact (h8 p e).contents (h.elems _ _ hp)
    · intro q p j hq
      obtain ⟨ys, jt, g1, g2, g3, g4⟩ := h.var _ _ _ hq
      by_cases e : p = o
      · subst e
        rw [ho] at g1; cases g1
        exact ⟨_, jt, upd_self .., by simpa using g2, g3, h5 _ _ g4⟩
      · exact ⟨ys, jt, (upd_ne e).trans g1, g2, g3,
          ((h8 p e).2.2.2.1 _ _ g4).1⟩
    · intro p _ hp _
      exact h8 p (by rintro rfl; rw [ho] at hp; cases hp)
    · intro p n hp
      by_cases e : p = o
      · subst e; exact h6 _ hp
      · exact (h8 p e).2.1 _ hp
    · intro p a hp
      by_cases e : p = o
      · subst e; exact h7 _ hp
      · exact (h8 p e).2.2.1 _ hp
  · rcases hx with rfl | rfl
    · obtain ⟨k1, k2, -, rfl⟩ := deref_set_throw hE hr hc hi hn h1
      have hrt : Reach E m.tick := by
        rcases hr.call hE hc (.setIt i v) (fun _ => hi) with ⟨r, m2, al, x', e2, -, -, e4⟩ | ⟨e, m2, al, x', e2, -, -, e4⟩
        · obtain ⟨-, u, h5⟩ := unit_inv e2
          rw [bind_ok hn, h1] at h5; cases h5
        · have h5 := unit_inv_throw e2
          rw [bind_ok hn, h1] at h5; cases h5; exact e4.reach
      refine .inr ⟨h1, hrt, ?_, .ticked hE hr (.tick m), k1, h.copies ▸ k2, rfl⟩
      have := h.ticked hE hr (.tick m)
      rw [h.copies]; exact this
    · exact absurd h1 (deref_set_rv_no_throw hE hr hc hi hn)

/-- moving a variable -/
theorem Generic.Same.move (h : Same E m A V) {it' : Iter} (ho : A.elems o = some xs) (hi : i ≤ xs.length)
    (hn : nth E o i m = .ok it' m) : Same E m { A with var := upd A.var r (some (o, i)) } (upd V r (some it')) := by
  refine ⟨h.elems, fun q p j hq => ?_, h.copies⟩
  by_cases e : q = r
  · subst e
    change upd A.var q (some (o, i)) q = _ at hq
    rw [upd_self] at hq
    cases hq
    exact ⟨xs, it', ho, hi, upd_self .., hn⟩
  · change upd A.var r (some (o, i)) q = _ at hq
    rw [upd_ne e] at hq
    rw [show upd V r (some it') q = V q from upd_ne e]
    exact h.var _ _ _ hq

theorem Generic.use_some {β : Type} {f : Iter → M α β} (h : V r = some it) : use V r f = f it := by
  unfold use; rw [h]

theorem moveFrom_eq (hE : E.Good) : moveFrom E it.entry.seg.ptr it.entry.seg.idx =
    (do let v ← dereference E it; deref_set_rv E it (E.moved v); return v : M α α) := by
  unfold moveFrom deref_set_rv assign_segment dereference
  simp only [hE.throws, Bool.false_eq_true, if_false]

/-- one step -/
theorem Generic.step_same (hE : E.Good) (hr : Reach E m) (h : Same E m A V) {c : Cmd α} {x : Resp α}
    (hs : A.step E c = some (x, A')) :
    ∃ V' m', step E V c m = .ok (x, V') m' ∧ Reach E m' ∧ Same E m' A' V' ∧ Kept E A m m' := by
  cases c with
  | copy dst src =>
    obtain ⟨⟨o, i⟩, h1, h2⟩ := Option.bind_eq_some_iff.1 hs
    cases h2
    obtain ⟨xs, it, g1, g2, g3, g4⟩ := h.var _ _ _ h1
    exact ⟨_, m, by rw [step, use_some g3]; rfl, hr, h.move g1 g2 g4, .refl⟩
  | next r =>
    obtain ⟨⟨o, i⟩, h1, h2⟩ := Option.bind_eq_some_iff.1 hs
    obtain ⟨xs, h3, h4⟩ := Option.bind_eq_some_iff.1 h2
    split at h4
    · rename_i hi
      cases h4
      obtain ⟨xs', it, g1, g2, g3, g4⟩ := h.var _ _ _ h1
      rw [h3] at g1; cases g1
      obtain ⟨jt, e1, e2⟩ := C18_next hE hr (h.elems _ _ h3) hi g4
      exact ⟨_, m, by rw [step, use_some g3, bind_ok e1]; rfl, hr, h.move h3 hi e2, .refl⟩
    · cases h4
  | prev r =>
    obtain ⟨⟨o, i⟩, h1, h2⟩ := Option.bind_eq_some_iff.1 hs
    dsimp only at h2
    split at h2
    · rename_i hi
      cases h2
      obtain ⟨xs', it, g1, g2, g3, g4⟩ := h.var _ _ _ h1
      obtain ⟨jt, e1, e2⟩ := C18_prev hE hr (h.elems _ _ g1) hi g2 g4
      exact ⟨_, m, by rw [step, use_some g3, bind_ok e1]; rfl, hr, h.move g1 (by omega) e2, .refl⟩
    · cases h2
  | add r d =>
    obtain ⟨⟨o, i⟩, h1, h2⟩ := Option.bind_eq_some_iff.1 hs
    obtain ⟨xs, h3, h4⟩ := Option.bind_eq_some_iff.1 h2
    split at h4
    · rename_i hi
      cases h4
      obtain ⟨xs', it, g1, g2, g3, g4⟩ := h.var _ _ _ h1
      rw [h3] at g1; cases g1
      obtain ⟨jt, e1, e2⟩ := C19_add hE hr (h.elems _ _ h3) g2 hi.1 hi.2 g4
      exact ⟨_, m, by rw [step, use_some g3, bind_ok e1]; rfl, hr, h.move h3 (by omega) e2, .refl⟩
    · cases h4
  | read r =>
    obtain ⟨⟨o, i⟩, h1, h2⟩ := Option.bind_eq_some_iff.1 hs
    obtain ⟨xs, h3, h4⟩ := Option.bind_eq_some_iff.1 h2
    obtain ⟨v, h5, h6⟩ := Option.bind_eq_some_iff.1 h4
    cases h6
    obtain ⟨hi, rfl⟩ := List.getElem?_eq_some_iff.1 h5
    obtain ⟨xs', it, g1, g2, g3, g4⟩ := h.var _ _ _ h1
    exact ⟨V, m, by rw [step, use_some g3, bind_ok (nth_deref hE hr (h.elems _ _ h3) hi g4)]; rfl, hr, h, .refl⟩
  | readAt r d =>
    obtain ⟨⟨o, i⟩, h1, h2⟩ := Option.bind_eq_some_iff.1 hs
    obtain ⟨xs, h3, h4⟩ := Option.bind_eq_some_iff.1 h2
    split at h4
    · rename_i h0
      obtain ⟨v, h5, h6⟩ := Option.bind_eq_some_iff.1 h4
      cases h6
      obtain ⟨hi, rfl⟩ := List.getElem?_eq_some_iff.1 h5
      obtain ⟨xs', it, g1, g2, g3, g4⟩ := h.var _ _ _ h1
      rw [h3] at g1; cases g1
      exact ⟨V, m, by rw [step, use_some g3, bind_ok (C19_index hE hr (h.elems _ _ h3) g2 h0 hi g4)]; rfl, hr, h, .refl⟩
    · cases h4
  | write r v =>
    obtain ⟨⟨o, i⟩, h1, h2⟩ := Option.bind_eq_some_iff.1 hs
    obtain ⟨xs, h3, h4⟩ := Option.bind_eq_some_iff.1 h2
    split at h4
    · rename_i hi
      cases h4
      obtain ⟨xs', it, g1, g2, g3, g4⟩ := h.var _ _ _ h1
      rcases h.write hE hr h1 h3 hi g3 (v := v) (.inr rfl) with ⟨m', e1, e2, e3, e4⟩ | ⟨e1, -⟩
      · rw [deref_set_rv_ticks e1, ← h.copies] at e3
        exact ⟨V, m', by rw [step, use_some g3, bind_ok e1]; rfl, e2, e3, e4⟩
      · rw [h3] at g1; cases g1
        exact absurd e1 (deref_set_rv_no_throw hE hr (h.elems _ _ h3) hi g4)
    · cases h4
  | assign r v =>
    obtain ⟨⟨o, i⟩, h1, h2⟩ := Option.bind_eq_some_iff.1 hs
    obtain ⟨xs, h3, h4⟩ := Option.bind_eq_some_iff.1 h2
    split at h4
    · rename_i hi
      obtain ⟨xs', it, g1, g2, g3, g4⟩ := h.var _ _ _ h1
      rcases h.write hE hr h1 h3 hi g3 (v := v) (.inl rfl) with ⟨m', e1, e2, e3, e4⟩ | ⟨e1, e2, e3, e4, k1, k2, -⟩
      · have e5 : throws (deref_set E it v) m = .ok false m' := by unfold throws; rw [e1]
        have ht := deref_set_ticks e1
        split at h4
        · rename_i h0
          rw [if_pos h0] at ht
          cases h4
          rw [ht, ← h.copies] at e3
          exact ⟨V, m', by rw [step, use_some g3, bind_ok e5]; rfl, e2, e3, e4⟩
        · rename_i h0
          rw [if_neg h0, ← h.copies] at ht
          rw [ht.1] at h4
          cases h4
          rw [ht.2] at e3
          exact ⟨V, m', by rw [step, use_some g3, bind_ok e5]; rfl, e2, e3, e4⟩
      · have e5 : throws (deref_set E it v) m = .ok true m.tick := by unfold throws; rw [e1]
        rw [if_neg k1, if_pos k2] at h4
        cases h4
        exact ⟨V, m.tick, by rw [step, use_some g3, bind_ok e5]; rfl, e2, e3, e4⟩
    · cases h4
  | take r =>
    obtain ⟨⟨o, i⟩, h1, h2⟩ := Option.bind_eq_some_iff.1 hs
    obtain ⟨xs, h3, h4⟩ := Option.bind_eq_some_iff.1 h2
    obtain ⟨v, h5, h6⟩ := Option.bind_eq_some_iff.1 h4
    cases h6
    obtain ⟨hi, rfl⟩ := List.getElem?_eq_some_iff.1 h5
    obtain ⟨xs', it, g1, g2, g3, g4⟩ := h.var _ _ _ h1
    rcases h.write hE hr h1 h3 hi g3 (v := E.moved xs[i]) (.inr rfl) with ⟨m', e1, e2, e3, e4⟩ | ⟨e1, -⟩
    · rw [deref_set_rv_ticks e1, ← h.copies] at e3
      refine ⟨V, m', ?_, e2, e3, e4⟩
      have e5 : moveFrom E it.entry.seg.ptr it.entry.seg.idx m = .ok xs[i] m' := by
        rw [moveFrom_eq hE, bind_ok (nth_deref hE hr (h.elems _ _ h3) hi g4), bind_ok e1]; rfl
      rw [step, use_some g3, bind_ok e5]; rfl
    · rw [h3] at g1; cases g1
      exact absurd e1 (deref_set_rv_no_throw hE hr (h.elems _ _ h3) hi g4)
  | eq a b =>
    obtain ⟨⟨o, i⟩, h1, h2⟩ := Option.bind_eq_some_iff.1 hs
    obtain ⟨⟨p, j⟩, h3, h4⟩ := Option.bind_eq_some_iff.1 h2
    simp only at h4
    split at h4
    · rename_i ho
      subst ho
      cases h4
      obtain ⟨xs, it, g1, g2, g3, g4⟩ := h.var _ _ _ h1
      obtain ⟨ys, jt, f1, f2, f3, f4⟩ := h.var _ _ _ h3
      rw [g1] at f1; cases f1
      have := (C20_compare hE hr (h.elems _ _ g1) g2 f2 g4 f4).1
      refine ⟨V, m, ?_, hr, h, .refl⟩
      rw [step, use_some g3, use_some f3, show it_eq it jt = decide (i = j) from by
        rw [Bool.eq_iff_iff, this, decide_eq_true_iff]]; rfl
    · cases h4
  | lt a b =>
    obtain ⟨⟨o, i⟩, h1, h2⟩ := Option.bind_eq_some_iff.1 hs
    obtain ⟨⟨p, j⟩, h3, h4⟩ := Option.bind_eq_some_iff.1 h2
    simp only at h4
    split at h4
    · rename_i ho
      subst ho
      cases h4
      obtain ⟨xs, it, g1, g2, g3, g4⟩ := h.var _ _ _ h1
      obtain ⟨ys, jt, f1, f2, f3, f4⟩ := h.var _ _ _ h3
      rw [g1] at f1; cases f1
      have := (C20_compare hE hr (h.elems _ _ g1) g2 f2 g4 f4).2.2.1
      refine ⟨V, m, ?_, hr, h, .refl⟩
      rw [step, use_some g3, use_some f3, show it_lt it jt = decide (i < j) from by
        rw [Bool.eq_iff_iff, this, decide_eq_true_iff]]; rfl
    · cases h4
  | diff a b =>
    obtain ⟨⟨o, i⟩, h1, h2⟩ := Option.bind_eq_some_iff.1 hs
    obtain ⟨⟨p, j⟩, h3, h4⟩ := Option.bind_eq_some_iff.1 h2
    obtain ⟨xs, h5, h6⟩ := Option.bind_eq_some_iff.1 h4
    split at h6
    · rename_i ho
      obtain ⟨rfl, hW⟩ := ho
      cases h6
      obtain ⟨zs, it, g1, g2, g3, g4⟩ := h.var _ _ _ h1
      obtain ⟨ys, jt, f1, f2, f3, f4⟩ := h.var _ _ _ h3
      rw [h5] at f1 g1; cases f1; cases g1
      refine ⟨V, m, ?_, hr, h, .refl⟩
      rw [step, use_some g3, use_some f3, C20_diff hE hr (h.elems _ _ h5) g2 f2 g4 f4 hW]; rfl
    · cases h6

theorem Generic.Kept.trans {m1 m2 m3 : Mem α} (hk : ∀ p, A'.elems p = none ↔ A.elems p = none) (h1 : Kept E A m1 m2)
    (h2 : Kept E A' m2 m3) : Kept E A m1 m3 :=
  ⟨fun p ys hp hc => (h1.others p ys hp hc).trans (h2.others p ys ((hk p).2 hp) ((h1.others p ys hp hc).contents hc)) ⟨ys, hc⟩, fun p n h => h2.height p n (h1.height p n h),
    fun p a h => h2.alloc p a (h1.alloc p a h), h2.log.trans h1.log⟩

/-- a step neither creates nor destroys arrays -/
theorem Generic.Arrays.step_dom {c : Cmd α} {x : Resp α} (hs : A.step E c = some (x, A')) (p : Nat) :
    A'.elems p = none ↔ A.elems p = none := by
  have key : ∀ (o : Nat) (xs ys : List α), A.elems o = some xs → (upd A.elems o (some ys) p = none ↔ A.elems p = none) := by
    intro o xs ys h
    by_cases e : p = o
    · subst e; rw [upd_self, h]; simp
    · rw [upd_ne e]
  cases c <;> simp only [Arrays.step, Option.bind_eq_bind, Option.bind_eq_some_iff, Prod.exists] at hs
  case write =>
    obtain ⟨o, i, -, xs, h3, h4⟩ := hs
    split at h4 <;> cases h4
    exact key _ _ _ h3
  case assign =>
    obtain ⟨o, i, -, xs, h3, h4⟩ := hs
    split at h4
    · split at h4
      · cases h4; exact key _ _ _ h3
      · split at h4 <;> cases h4
        · rfl
        · exact key _ _ _ h3
    · cases h4
  case take =>
    obtain ⟨o, i, -, xs, h3, v, -, h4⟩ := hs
    cases h4
    exact key _ _ _ h3
  all_goals grind

/-- C63: any number of steps of any algorithm: if they are allowed on arrays, then
on containers with the same contents they have defined behaviour, the algorithm
learns the same and is in the same state afterwards, the containers again hold what
the arrays hold and the iterators are where the indices are.  Nothing else changes:
the containers the algorithm was not given, heights, allocators; nothing is
allocated or freed.  The memory afterwards is one that API calls can produce, so
all other properties hold in it. -/
theorem C63_algorithm (hE : E.Good) (P : Algo α σ) (n : Nat) (s s' : σ) (hr : Reach E m) (h : Same E m A V)
    (hp : P.onArrays E n s A = some (s', A')) :
    ∃ V' m', P.onSeqs E n s V m = .ok (s', V') m' ∧ Same E m' A' V' ∧ Kept E A m m' ∧ Reach E m' := by
  induction n generalizing s A V m with
  | zero => cases hp; exact ⟨V, m, rfl, h, .refl, hr⟩
  | succ n ih =>
    unfold Algo.onArrays at hp
    unfold Algo.onSeqs
    cases hc : P.next s with
    | ret => rw [hc] at hp; cases hp; exact ⟨V, m, rfl, h, .refl, hr⟩
    | raise => rw [hc] at hp; cases hp; exact ⟨V, m, rfl, h, .refl, hr⟩
    | step c =>
      rw [hc] at hp
      obtain ⟨⟨x, A1⟩, h1, h2⟩ := Option.bind_eq_some_iff.1 hp
      obtain ⟨V1, m1, e1, e2, e3, e4⟩ := Generic.step_same hE hr h h1
      obtain ⟨V2, m2, f1, f2, f3, f4⟩ := ih _ e2 e3 h2
      refine ⟨V2, m2, ?_, f2, e4.trans (Arrays.step_dom h1) f3, f4⟩
      dsimp only
      rw [bind_ok e1]
      exact f1

/-! ### Algorithms on a whole container -/

/-- one array, with its beginning in variable 0 and its end in variable 1, after
`copies` copies -/
def Generic.whole (o : Nat) (xs : List α) (copies : Nat) : Arrays α :=
  ⟨fun p => if p = o then some xs else none, fun r => if r = 0 then some (o, 0) else if r = 1 then some (o, xs.length) else none,
    copies⟩

/-- the variables `begin()` and `end()` -/
def Generic.range (b e : Iter) : Vars := fun r => if r = 0 then some b else if r = 1 then some e else none

/-- C63: `algorithm(c.begin(), c.end())` starts like the algorithm on the array -/
theorem C63_range (hE : E.Good) (hr : Reach E m) (hc : Contents E o m xs) :
    ∃ b e, begin_ E o m = .ok b m ∧ end_ E o m = .ok e m ∧ Same E m (whole o xs m.ticks) (Generic.range b e) := by
  obtain ⟨b, e, h1, h2, h3, h4⟩ := hr.ends hE hc
  refine ⟨b, e, h1, h3, ⟨fun p ys hp => ?_, fun r p i hv => ?_, rfl⟩⟩
  · simp only [whole] at hp
    split at hp
    · rename_i h; subst h; cases hp; exact hc
    · cases hp
  · simp only [whole] at hv
    split at hv
    · cases hv
      exact ⟨xs, b, if_pos rfl, Nat.zero_le _, by simp [Generic.range, *], h2⟩
    · split at hv
      · cases hv
        exact ⟨xs, e, if_pos rfl, Nat.le_refl _, by simp [Generic.range, *], h4⟩
      · cases hv

/-- `algorithm(c.begin(), c.end());` -/
def Generic.runWhole (E : Env α) (P : Algo α σ) (n : Nat) (s : σ) (o : Nat) : M α Unit := do
  let b ← begin_ E o
  let e ← end_ E o
  let (s, _) ← P.onSeqs E n s (Generic.range b e)
  match P.next s with
  | .ret _ => pure ()
  | .raise => M.throw .elem
  | .step _ => fun _ => .div

/-- `c.erase(algorithm(c.begin(), c.end()), c.end());` -/
def Generic.runErase (E : Env α) (P : Algo α σ) (n : Nat) (s : σ) (o : Nat) : M α Unit := do
  let b ← begin_ E o
  let e ← end_ E o
  let (s, V) ← P.onSeqs E n s (Generic.range b e)
  match P.next s with
  | .ret r => use V r fun first => do
    let e ← end_ E o
    let _ ← erase_rng E o first e
  | .raise => M.throw .elem
  | .step _ => fun _ => .div

/-- C64: `sort()`, `reverse()` and the like, with any implementation of the standard
algorithm, whether or not the comparison throws: the elements of the container end
up as those of an array would, and the container stays intact. -/
theorem C64_whole (hE : E.Good) (P : Algo α σ) {n : Nat} {s s' : σ} {ys : List α} (hr : Reach E m)
    (hc : Contents E o m xs) (hp : P.onArrays E n s (whole o xs m.ticks) = some (s', A')) (hy : A'.elems o = some ys) :
    ∃ m', Contents E o m' ys ∧ Reach E m' ∧ Kept E (whole o xs m.ticks) m m' ∧
      ((∃ r, P.next s' = .ret r) → runWhole E P n s o m = .ok () m') ∧
      (P.next s' = .raise → runWhole E P n s o m = .throw .elem m') := by
  obtain ⟨b, e, h1, h2, h3⟩ := C63_range hE hr hc
  obtain ⟨V', m', h4, h5, h6, h7⟩ := C63_algorithm hE P n s s' hr h3 hp
  refine ⟨m', h5.elems _ _ hy, h7, h6, ?_, ?_⟩
  · rintro ⟨r, hx⟩
    unfold runWhole
    rw [bind_ok h1, bind_ok h2, bind_ok h4]
    simp only [hx]; rfl
  · intro hx
    unfold runWhole
    rw [bind_ok h1, bind_ok h2, bind_ok h4]
    simp only [hx]; rfl

/-! A concrete case for C63 and C64_whole: `std::reverse`. -/

/-- where `std::reverse` is -/
inductive Generic.ReverseAt where
  | test | dec | test2 | takeFirst
  | takeLast (x : Nat) | putFirst (x y : Nat) | putLast (x : Nat)
  | inc | ret

/-- `while (first != last && first != --last) { std::iter_swap(first, last); ++first; }` -/
def Generic.reverse : Algo Nat ReverseAt where
  next
    | .test | .test2 => .step (.eq 0 1)
    | .dec => .step (.prev 1)
    | .takeFirst => .step (.take 0)
    | .takeLast _ => .step (.take 1)
    | .putFirst _ y => .step (.write 0 y)
    | .putLast x => .step (.write 1 x)
    | .inc => .step (.next 0)
    | .ret => .ret 0
  then_
    | .test, .flag b => if b then .ret else .dec
    | .dec, _ => .test2
    | .test2, .flag b => if b then .ret else .takeFirst
    | .takeFirst, .val x => .takeLast x
    | .takeLast x, .val y => .putFirst x y
    | .putFirst x _, _ => .putLast x
    | .putLast _, _ => .inc
    | .inc, _ => .test
    | s, _ => s

/-- it reverses a container of eight elements (a tree of height 3) -/
example : ∃ (m m' : Mem Nat), Reach demo m ∧ Contents demo 0 m eight ∧
    runWhole demo Generic.reverse 40 .test 0 m = .ok () m' ∧
    Contents demo 0 m' [18, 17, 16, 15, 14, 12, 11, 10] := by
  obtain ⟨m, h1, h2, -⟩ := demo_eight
  obtain ⟨m', h3, -, -, h4, -⟩ := C64_whole (s := .test) (s' := .ret) (n := 40) (ys := [18, 17, 16, 15, 14, 12, 11, 10])
    demo_good Generic.reverse h1 h2 rfl rfl
  exact ⟨m, m', h1, h2, h4 ⟨_, rfl⟩, h3⟩

/-- C64: `remove_if(p)`, `unique(p)` and the like, with any implementation of the
standard algorithm: if on an array it returns index `f` and leaves `ys`, then the
container is left with the first `f` of `ys`; if a predicate throws, the container
is left with `ys` (all of it), intact and usable. -/
theorem C64_erase (hE : E.Good) (P : Algo α σ) {n : Nat} {s s' : σ} {ys : List α} (hr : Reach E m)
    (hc : Contents E o m xs) (hp : P.onArrays E n s (whole o xs m.ticks) = some (s', A')) (hy : A'.elems o = some ys) :
    (∀ r f, P.next s' = .ret r → A'.var r = some (o, f) → f ≤ ys.length ∧
      ∃ m', runErase E P n s o m = .ok () m' ∧ Contents E o m' (ys.take f) ∧ Reach E m' ∧
        ∀ p zs, p ≠ o → Contents E p m zs → Unchanged E p m m') ∧
    (P.next s' = .raise →
      ∃ m', runErase E P n s o m = .throw .elem m' ∧ Contents E o m' ys ∧ Reach E m' ∧ Kept E (whole o xs m.ticks) m m') := by
  obtain ⟨b, e, h1, h2, h3⟩ := C63_range hE hr hc
  obtain ⟨V', m', h4, h5, h6, h7⟩ := C63_algorithm hE P n s s' hr h3 hp
  have hc' := h5.elems _ _ hy
  refine ⟨fun r f hx hv => ?_, fun hx => ⟨m', ?_, hc', h7, h6⟩⟩
  · obtain ⟨zs, it, g1, g2, g3, g4⟩ := h5.var _ _ _ hv
    rw [hy] at g1; cases g1
    obtain ⟨-, en, -, -, e3, e4⟩ := h7.ends hE hc'
    obtain ⟨m2, f1, f2, f3⟩ := h7.eraseRangeAt hE hc' g2 (Nat.le_refl _) g4 e4 (pure ())
    refine ⟨g2, m2, ?_, by simpa using f2, f3.reach, fun p zs hne hz => ?_⟩
    · unfold runErase
      rw [bind_ok h1, bind_ok h2, bind_ok h4]
      simp only [hx]
      rw [use_some g3, bind_ok e3]
      exact f1
    · have h8 := h6.others p zs (if_neg hne) hz
      refine h8.trans ?_ ⟨zs, hz⟩
      obtain ⟨S, al, hv, ho, -⟩ := h7.view hE hc'
      obtain ⟨u, m3, k1, k2⟩ := bind_inv f1
      cases k2
      have k3 : (Op.un o (.eraseRange f ys.length)).run E m' = .ok (.pos (index_of u)) m2 := by
        show Un.pos _ m' = _
        unfold Un.pos
        have : (do let i ← nth E o f; let j ← nth E o ys.length; erase_rng E o i j : M α Iter) m' = .ok u m2 := by
          rw [bind_ok g4, bind_ok e4]; exact k1
        rw [bind_ok this]; rfl
      exact C34_others hE h7 hv (op := .un o (.eraseRange f ys.length)) ⟨_, ho, g2, Nat.le_refl _⟩ (.inl ⟨_, k3⟩) (by simpa [Op.objs] using hne)
  · unfold runErase
    rw [bind_ok h1, bind_ok h2, bind_ok h4]
    simp only [hx]; rfl

end SegTree
