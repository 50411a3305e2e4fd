/-
  C89: where a failing move does no harm.  Moves may throw at arbitrary moments (as in
  C69); C44 and C69 show insertions that are left in a broken state.  Here: the calls
  that cannot be.
-/
import Verif.Rough.Mute
import Verif.Props.Room
import Verif.Props.Shrink
import Verif.Props.Ranges
import Verif.Props.Interrupted
import Verif.Props.Alias
set_option autoImplicit false
set_option linter.unusedSectionVars false
set_option synthInstance.maxSize 2000

namespace SegTree
open Lean.Order
variable {α β γ : Type} {E : Env α} {m m' m1 m2 : Mem α} {o i j k n p q : Nat} {xs ys : List α} {it : Iter}

/-! ### Specification -/

/-- `ys` is `xs` with the `j` elements after position `i` moved down by one place (the
first of them onto the element at `i`), one after the other; the place the last one
came from holds what its move has left there. -/
structure Downward (E : Env α) (xs : List α) (i j : Nat) (ys : List α) : Prop where
  inside : i + j < xs.length
  length : ys.length = xs.length
  moved : ∀ l, i ≤ l → l < i + j → ys[l]? = xs[l + 1]?
  hole : 0 < j → ys[i + j]? = xs[i + j]?.map E.moved
  rest : ∀ l, (l < i ∨ i + j < l ∨ j = 0) → ys[l]? = xs[l]?

/-- `ys` is `xs` with the `j` elements before position `i` moved up by one place. -/
structure Upward (E : Env α) (xs : List α) (i j : Nat) (ys : List α) : Prop where
  inside : j ≤ i ∧ i < xs.length
  length : ys.length = xs.length
  moved : ∀ l, i < l + j → l < i → ys[l + 1]? = xs[l]?
  hole : ∀ l, 0 < j → l + j = i → ys[l]? = xs[l]?.map E.moved ∧ ys[l + 1]? = xs[l]?
  rest : ∀ l, (l + j < i ∨ i < l ∨ j = 0) → ys[l]? = xs[l]?

/-- Nothing but the values of elements of container `o` is different in `m'`: its
iterators, height and allocator and all other containers are the same, no memory was
requested or freed. -/
structure Overwrote (E : Env α) (o : Nat) (m m' : Mem α) : Prop where
  iters : ∀ j jt, nth E o j m = .ok jt m → nth E o j m' = .ok jt m'
  height : ∀ n, height o m = .ok n m → height o m' = .ok n m'
  alloc : ∀ a, get_allocator o m = .ok a m → get_allocator o m' = .ok a m'
  others : ∀ p zs, p ≠ o → Contents E p m zs → Unchanged E p m m'
  log : m'.log = m.log

/-! ### Proofs -/

section
variable [Moves α]

/-- if `x` returns, `Q` holds; if it throws, `R` does -/
def Does (x : N α β) (k : Nat) (m : Mem α) (Q : β → Mem α → Prop) (R : Mem α → Prop) : Prop :=
  match x k m with
  | .ok v m' _ => Q v m'
  | .throw _ m' _ => R m'
  | _ => True

variable {Q Q1 : β → Mem α → Prop} {Q2 : γ → Mem α → Prop} {R R1 : Mem α → Prop}

theorem Does.throws {x : N α β} {e : Exn} (h : Does x k m Q R) (hx : x k m = .throw e m' n) : R m' := by
  unfold Does at h; rw [hx] at h; exact h

theorem Does.bind {x : N α β} {f : β → N α γ} (h : Does x k m Q R) (hf : ∀ v m' k', Q v m' → Does (f v) k' m' Q2 R) :
    Does (x >>= f) k m Q2 R := by
  show match N.bind x f k m with | .ok v m' _ => Q2 v m' | .throw _ m' _ => R m' | _ => True
  unfold Does at h
  unfold N.bind
  cases e : x k m with
  | ok v m' k' => rw [e] at h; exact hf v m' k' h
  | throw _ m' _ => rw [e] at h; exact h
  | ub => trivial
  | div => trivial

theorem Does.mono {x : N α β} (h : Does x k m Q R) (hq : ∀ v m', Q v m' → Q1 v m') (hr : ∀ m', R m' → R1 m') :
    Does x k m Q1 R1 := by
  unfold Does at h ⊢
  cases e : x k m with
  | ok v m' k' => rw [e] at h; exact hq _ _ h
  | throw _ m' _ => rw [e] at h; exact hr _ h
  | ub => trivial
  | div => trivial

theorem Does.mute (x : N α β) [h : Mute x] : Does x k m (fun _ _ => True) R := by
  unfold Does
  cases e : x k m with
  | ok v m' k' => trivial
  | throw _ m' _ => exact (h.run _ _ _ _ _ e).elim
  | ub => trivial
  | div => trivial

/-- a part that throws nothing returns what the model without throwing moves returns -/
theorem Mute.returns {x : N α β} {y : M α β} (h : ∀ d, Lag d x y) [hm : Mute x] {v : β} (hy : y m = .ok v m') (k : Nat) :
    ∃ n, x k m = .ok v m' n := by
  rcases Lag.both h k m with h1 | ⟨m2, n, h1⟩
  · rw [hy] at h1
    cases e : x k m with
    | ok v1 m3 n => rw [e] at h1; cases h1; exact ⟨n, rfl⟩
    | throw e2 m3 n => rw [e] at h1; cases h1
    | ub => rw [e] at h1; cases h1
    | div => rw [e] at h1; cases h1
  · exact absurd h1 (hm.run _ _ _ _ _)

theorem Does.read {x : N α β} {y : M α β} {f : β → N α γ} (h : ∀ d, Lag d x y) [Mute x] {v : β} (hy : y m = .ok v m')
    (hf : ∀ k, Does (f v) k m' Q2 R) : Does (x >>= f) k m Q2 R := by
  obtain ⟨n, h1⟩ := Mute.returns h hy k
  unfold Does
  rw [N.bind_ok h1]
  exact hf n

theorem Does.ret {v : β} (h : Q v m) : Does (pure v : N α β) k m Q R := h

end

theorem Overwrote.refl : Overwrote E o m m :=
  ⟨fun _ _ h => h, fun _ h => h, fun _ h => h, fun _ _ _ _ => .refl, rfl⟩

/-- the slots of the segment at `p` are the elements from position `a` on -/
def Slots (E : Env α) (o : Nat) (m : Mem α) (p a len : Nat) : Prop :=
  ∀ q, q < len → ∃ jt, nth E o (a + q) m = .ok jt m ∧ jt.entry.seg.ptr = p ∧ jt.entry.seg.idx = q

theorem write_calm (hE : E.Sound) (hr : Reach E.calm m) (hc : Contents E o m xs) (hi : i < xs.length)
    (hn : nth E o i m = .ok it m) (v : α) :
    ∃ m', wrElem E it.entry.seg.ptr it.entry.seg.idx v m = .ok () m' ∧ Contents E o m' (xs.set i v) ∧ Overwrote E o m m' ∧
      Reach E.calm m' := by
  have hn' : nth E.calm o i m = .ok it m := nth_calm (E := E) i ▸ hn
  have hc' := contents_calm.2 hc
  have e : deref_set_rv E.calm it v = wrElem E it.entry.seg.ptr it.entry.seg.idx v := by
    unfold deref_set_rv assign_segment
    rw [if_neg (by simp [Env.throws, Env.calm])]; rfl
  rcases C07_write hE.calm hr hc' hi hn' (v := v) (.inr (.inr rfl)) with ⟨m', h1, h2, h3, h4, h5, h6, h7⟩ | ⟨m', h1, -, -⟩
  · refine ⟨m', e ▸ h1, contents_calm.1 h2, ⟨fun j jt h => ?_, h4, h5, fun p _ hp _ => unchanged_calm.1 (h6 p hp), h7⟩,
      Reach.write hE.calm hr hc' hi hn' (.inr rfl) h1⟩
    rw [nth_calm] at h ⊢
    exact h3 j jt h
  · rw [e] at h1
    exact ((inferInstance : Raises (fun _ => False) (wrElem E it.entry.seg.ptr it.entry.seg.idx v)).throws h1).elim

theorem Overwrote.trans (h1 : Overwrote E o m m1) (h2 : Overwrote E o m1 m2) : Overwrote E o m m2 :=
  ⟨fun _ _ h => h2.iters _ _ (h1.iters _ _ h), fun _ h => h2.height _ (h1.height _ h), fun _ h => h2.alloc _ (h1.alloc _ h),
    fun p zs hp hc => (h1.others p zs hp hc).trans (h2.others p zs hp ((h1.others p zs hp hc).contents hc)) ⟨zs, hc⟩,
    h2.log.trans h1.log⟩

/-- `m1` is `m` with the elements `xs` of container `o` replaced by `ys` -/
structure Holding (E : Env α) (o : Nat) (m m1 : Mem α) (ys : List α) : Prop where
  elems : Contents E o m1 ys
  frame : Overwrote E o m m1
  reach : Reach E.calm m1

/-- one move assignment between elements -/
theorem move_assign_does [Moves α] (hE : E.Sound) (h : Holding E o m m1 ys) {p f q t a b : Nat} (ha : a < ys.length)
    (hb : b < ys.length) {ia ib : Iter} (hia : nth E o a m = .ok ia m) (hib : nth E o b m = .ok ib m)
    (ea : ia.entry.seg.ptr = p ∧ ia.entry.seg.idx = f) (eb : ib.entry.seg.ptr = q ∧ ib.entry.seg.idx = t) :
    Does (Rough.move_assign_segment E p f q t) k m1
      (fun _ m' => Holding E o m m' ((ys.set b ys[a]).set a (E.moved ys[a]))) (fun m' => m' = m1) := by
  obtain ⟨rfl, rfl⟩ := ea
  obtain ⟨rfl, rfl⟩ := eb
  have hd : rdElem E ia.entry.seg.ptr ia.entry.seg.idx m1 = .ok ys[a] m1 :=
    nth_deref hE.calm h.reach (contents_calm.2 h.elems) ha (by rw [← nth_calm]; exact h.frame.iters _ _ hia)
  obtain ⟨m2, w1, w2, w3, w4⟩ := write_calm hE h.reach h.elems hb (h.frame.iters _ _ hib) ys[a]
  obtain ⟨m3, v1, v2, v3, v4⟩ := write_calm hE w4 w2 (by rw [List.length_set]; exact ha)
    (w3.iters _ _ (h.frame.iters _ _ hia)) (E.moved ys[a])
  unfold Rough.move_assign_segment Does
  rw [rdElem_lift, N.bind_lift hd]
  unfold Rough.assign_segment
  simp only [Bind.bind]
  unfold N.bind Rough.fails
  simp only
  cases hf : (!E.trivCopy && Moves.fails k ys[a])
  · simp only [Bool.false_eq_true, if_false, wrElem_lift]
    unfold N.lift
    simp only [w1, v1]
    exact ⟨v2, h.frame.trans (w3.trans v3), v4⟩
  · rfl

theorem Downward.zero (h : i < xs.length) : Downward E xs i 0 xs :=
  ⟨h, rfl, fun l h1 h2 => by omega, fun h => absurd h (by omega), fun _ _ => rfl⟩

theorem Downward.step (h : Downward E xs i j ys) (hj : i + j + 1 < xs.length) (ha : i + j + 1 < ys.length) :
    Downward E xs i (j + 1) ((ys.set (i + j) ys[i + j + 1]).set (i + j + 1) (E.moved ys[i + j + 1])) := by
  have hy : ys[i + j + 1]? = xs[i + j + 1]? := h.rest _ (.inr (.inl (by omega)))
  have hy' : some ys[i + j + 1] = xs[i + j + 1]? := by rw [← hy]; simp [ha]
  refine ⟨hj, by simp [h.length], fun l h1 h2 => ?_, fun _ => ?_, fun l hl => ?_⟩
  · rw [List.getElem?_set_ne (by omega)]
    by_cases e : l = i + j
    · subst e; rw [List.getElem?_set_self (by omega)]; exact hy'
    · rw [List.getElem?_set_ne (by omega)]
      exact h.moved l h1 (by omega)
  · rw [show i + (j + 1) = i + j + 1 from rfl, List.getElem?_set_self (by simpa using ha), ← hy', Option.map_some]
  · rw [List.getElem?_set_ne (by omega), List.getElem?_set_ne (by omega)]
    exact h.rest l (by omega)

theorem Upward.zero (h : i < xs.length) : Upward E xs i 0 xs :=
  ⟨⟨Nat.zero_le _, h⟩, rfl, fun l h1 h2 => by omega, fun _ h => absurd h (by omega), fun _ _ => rfl⟩

theorem Upward.step (h : Upward E xs i j ys) {a : Nat} (e : a + j + 1 = i) (ha : a < ys.length) :
    Upward E xs i (j + 1) ((ys.set (a + 1) ys[a]).set a (E.moved ys[a])) := by
  have hin := h.inside
  have hlen := h.length
  have hy : ys[a]? = xs[a]? := h.rest _ (.inl (by omega))
  have hy' : some ys[a] = xs[a]? := by rw [← hy]; simp [ha]
  refine ⟨by omega, by simp [h.length], fun l h1 h2 => ?_, fun l _ h2 => ?_, fun l hl => ?_⟩
  · rw [List.getElem?_set_ne (by omega), List.getElem?_set_ne (by omega)]
    by_cases e : l + j = i
    · exact (h.hole l (by omega) e).2
    · exact h.moved l (by omega) h2
  · obtain rfl : l = a := by omega
    refine ⟨?_, ?_⟩
    · rw [List.getElem?_set_self (by simpa using ha), ← hy', Option.map_some]
    · rw [List.getElem?_set_ne (by omega), List.getElem?_set_self (by omega)]; exact hy'
  · rw [List.getElem?_set_ne (by omega), List.getElem?_set_ne (by omega)]
    exact h.rest l (by omega)

/-- container `o`, after `j` of the moves down -/
def Lowered (E : Env α) (o : Nat) (m : Mem α) (xs : List α) (i j : Nat) (m1 : Mem α) : Prop :=
  ∃ ys, Downward E xs i j ys ∧ Holding E o m m1 ys
/-- container `o`, after `j` of the moves up -/
def Raised (E : Env α) (o : Nat) (m : Mem α) (xs : List α) (i j : Nat) (m1 : Mem α) : Prop :=
  ∃ ys, Upward E xs i j ys ∧ Holding E o m m1 ys

section
variable [Moves α]

theorem lower_does (hE : E.Sound) (h : Lowered E o m xs i j m1) (hj : i + j + 1 < xs.length) {p f q t : Nat} {ia ib : Iter}
    (hia : nth E o (i + j + 1) m = .ok ia m) (hib : nth E o (i + j) m = .ok ib m)
    (ea : ia.entry.seg.ptr = p ∧ ia.entry.seg.idx = f) (eb : ib.entry.seg.ptr = q ∧ ib.entry.seg.idx = t) :
    Does (Rough.move_assign_segment E p f q t) k m1 (fun _ m' => Lowered E o m xs i (j + 1) m') (Lowered E o m xs i j) := by
  obtain ⟨ys, h1, h2⟩ := h
  have hl := h1.length
  refine (move_assign_does hE h2 (a := i + j + 1) (b := i + j) (by omega) (by omega) hia hib ea eb).mono
    (fun _ m' h => ⟨_, h1.step hj (by omega), h⟩) ?_
  rintro m' rfl
  exact ⟨ys, h1, h2⟩

theorem raise_does (hE : E.Sound) (h : Raised E o m xs i j m1) {a : Nat} (e : a + j + 1 = i) {p f q t : Nat} {ia ib : Iter}
    (hia : nth E o a m = .ok ia m) (hib : nth E o (a + 1) m = .ok ib m)
    (ea : ia.entry.seg.ptr = p ∧ ia.entry.seg.idx = f) (eb : ib.entry.seg.ptr = q ∧ ib.entry.seg.idx = t) :
    Does (Rough.move_assign_segment E p f q t) k m1 (fun _ m' => Raised E o m xs i (j + 1) m') (Raised E o m xs i j) := by
  obtain ⟨ys, h1, h2⟩ := h
  have hl := h1.length
  have hin := h1.inside
  refine (move_assign_does hE h2 (a := a) (b := a + 1) (by omega) (by omega) hia hib ea eb).mono
    (fun _ m' h => ⟨_, h1.step e (by omega), h⟩) ?_
  rintro m' rfl
  exact ⟨ys, h1, h2⟩

/-- the loop of `assign_backward_segment` -/
theorem backward_does (hE : E.Sound) {a len last : Nat} (hs : Slots E o m p a len) (hlen : a + len ≤ xs.length)
    (hlast : last < len) : ∀ n t j k m1, t + n = last → a + t = i + j → Lowered E o m xs i j m1 →
    Does (Rough.backward_loop (fun f t => Rough.move_assign_segment E p f p t) (t + 1) t last) k m1
      (fun _ m' => Lowered E o m xs i (j + n) m') (fun m' => ∃ l, l < j + n ∧ Lowered E o m xs i l m') := by
  intro n
  induction n with
  | zero =>
    intro t j k m1 h1 h2 h3
    rw [Rough.backward_loop, if_neg (by omega)]
    exact Does.ret h3
  | succ n ih =>
    intro t j k m1 h1 h2 h3
    rw [Rough.backward_loop, if_pos (by omega)]
    obtain ⟨ia, a1, a2⟩ := hs (t + 1) (by omega)
    obtain ⟨ib, b1, b2⟩ := hs t (by omega)
    refine Does.bind ((lower_does hE h3 (by omega) (ia := ia) (ib := ib) (by rw [← h2]; exact a1) (by rw [← h2]; exact b1)
      a2 b2).mono (fun _ _ h => h) (fun m' h => ⟨j, by omega, h⟩)) fun _ m2 k2 h4 => ?_
    refine (ih (t + 1) (j + 1) k2 m2 (by omega) (by omega) h4).mono (fun _ m' h => ?_) (fun m' h => ?_)
    · rw [show j + (n + 1) = j + 1 + n by omega]; exact h
    · rw [show j + (n + 1) = j + 1 + n by omega]; exact h

/-- the loop of `assign_forward_segment`, from the position of the erased element to the
begin of the segment -/
theorem forward_does (hE : E.Sound) {a len : Nat} (hs : Slots E o m p a len) : ∀ t j k m1, t < len → a + t + j = i →
    Raised E o m xs i j m1 →
    Does (Rough.forward_loop (fun f t => Rough.move_assign_segment E p f p t) 0 t (t + 1)) k m1
      (fun _ m' => Raised E o m xs i (j + t) m') (fun m' => ∃ l, l < j + t ∧ Raised E o m xs i l m') := by
  intro t
  induction t with
  | zero =>
    intro j k m1 h1 h2 h3
    rw [Rough.forward_loop, if_neg (by omega)]
    exact Does.ret h3
  | succ t ih =>
    intro j k m1 h1 h2 h3
    rw [Rough.forward_loop, if_pos (by omega)]
    refine Does.read (y := usub (t + 1) 1) (fun _ => inferInstance) (v := t) (m' := m1) (by simp [usub]) fun k => ?_
    refine Does.read (y := usub (t + 1 + 1) 1) (fun _ => inferInstance) (v := t + 1) (m' := m1) (by simp [usub]) fun k => ?_
    obtain ⟨ia, a1, a2⟩ := hs t (by omega)
    obtain ⟨ib, b1, b2⟩ := hs (t + 1) (by omega)
    refine Does.bind ((raise_does hE h3 (a := a + t) (by omega) (ia := ia) (ib := ib) a1 b1
      a2 b2).mono (fun _ _ h => h) (fun m' h => ⟨j, by omega, h⟩)) fun _ m2 k2 h4 => ?_
    refine (ih (j + 1) k2 m2 (by omega) (by omega) h4).mono (fun _ m' h => ?_) (fun m' h => ?_)
    · rw [show j + (t + 1) = j + 1 + t by omega]; exact h
    · rw [show j + (t + 1) = j + 1 + t by omega]; exact h
end

/-- the slots of the segment an iterator points into -/
theorem seg_slots (hE : E.Sound) (hr : Reach E.calm m) (hc : Contents E o m xs) (hi : i < xs.length)
    (hn : nth E o i m = .ok it m) :
    it.entry.seg.idx ≤ i ∧ it.entry.seg.idx < it.entry.seg.len ∧ i - it.entry.seg.idx + it.entry.seg.len ≤ xs.length ∧
      Slots E o m it.entry.seg.ptr (i - it.entry.seg.idx) it.entry.seg.len := by
  rw [nth_calm] at hn
  obtain ⟨al, s, F, hs, rfl, H⟩ := hr.cont hE.calm (contents_calm.2 hc)
  have ha := at_of_nth hs H (Nat.le_of_lt hi) hn
  obtain ⟨h1, h2, h3, h4⟩ := ha.seg_range
  refine ⟨h1, h4 hi, h3, fun q hq => ?_⟩
  have := nth_c hs (ha.seg_at hq) H
  rw [← nth_calm] at this
  exact ⟨_, this, rfl, rfl⟩

/-- the sibling from which a segment at its minimum takes an element -/
theorem sibling_slots (hE : E.Sound) (hr : Reach E.calm m) (hc : Contents E o m xs) (hi : i < xs.length)
    (hn : nth E o i m = .ok it m) {w : Nat} {nd : Node} (hp : it.entry.leaf.ptr ≠ 0)
    (hcell : m.cell (.heap it.entry.leaf.ptr) = some (.node w nd)) :
    if it.entry.leaf.idx = 0 then
      i - it.entry.seg.idx + it.entry.seg.len + nd.sizes 1 ≤ xs.length ∧
        Slots E o m (nd.ptrs 1) (i - it.entry.seg.idx + it.entry.seg.len) (nd.sizes 1)
    else nd.sizes (it.entry.leaf.idx - 1) ≤ i - it.entry.seg.idx ∧
        Slots E o m (nd.ptrs (it.entry.leaf.idx - 1)) (i - it.entry.seg.idx - nd.sizes (it.entry.leaf.idx - 1))
          (nd.sizes (it.entry.leaf.idx - 1)) := by
  rw [nth_calm] at hn
  obtain ⟨al, s, F, hs, rfl, H⟩ := hr.cont hE.calm (contents_calm.2 hc)
  have ha := at_of_nth hs H (Nat.le_of_lt hi) hn
  cases s with
  | nil => obtain ⟨h1, rfl, h3⟩ := ha; rw [h3] at hp; exact absurd rfl hp
  | @tree h t =>
    have H0 := H
    obtain ⟨h1, c, sg, j, hf, h2, h3, h4⟩ := ha
    rw [h3] at hp hcell ⊢
    simp only [entryOf] at hp hcell ⊢
    cases c with
    | top => exact absurd rfl hp
    | @step k a l r c =>
      have hslots : ∀ (d : Ctx α h 0) (u : Tree α 0), d.fill u = t → Slots E o m u.addr d.pre.length u.xs.length := by
        intro d u hd q hq
        have := nth_c (it := ⟨entryOf d u q, d.pre.length + q⟩) hs ⟨rfl, d, u, q, hd, rfl, rfl, .inl hq⟩ H
        rw [← nth_calm] at this
        exact ⟨_, this, rfl, rfl⟩
      have hpre : ∀ (d : Ctx α h 0) (u : Tree α 0), d.fill u = t → d.pre.length + u.xs.length ≤ (St.tree t).elems.length := by
        rintro d u rfl
        simp only [St.elems_tree, Ctx.fill_elems, List.length_append, Tree.elems_zero]
        omega
      have hok : c.Ok E.calm ∧ 1 ≤ l.length + r.length := by
        have : t.Root E.calm := hs.2
        rw [← hf, Ctx.fill_root] at this
        obtain ⟨⟨-, -, c3, -, c5⟩, -⟩ := this
        have := E.calm.baseMin_ge
        exact ⟨c5, by split at c3 <;> omega⟩
      subst hf
      rw [cont_tree, Ctx.fill_lay] at H0
      simp only [Ctx.lay, aassoc] at H0
      have Hb := H0.eqv (by frame : _ = pt (.heap a) (IsNode _ c.hdr.1 c.hdr.2 (keys l ++ (sg.size, sg.addr) :: keys r)) + _)
      obtain ⟨cl, hcl, nb, rfl, -, -, -, n4⟩ := Hb.get
      simp only [Ctx.hdr_step] at hcell hp ⊢
      rw [hcl] at hcell; cases hcell
      rcases List.eq_nil_or_concat l with rfl | ⟨lt, u, rfl⟩
      · cases r with
        | nil => simp at hok
        | cons u r =>
          have hk := n4 1 (by simp)
          simp only [keys_nil, List.nil_append, keys_cons, List.getElem_cons_succ, List.getElem_cons_zero, key, Nat.zero_add] at hk
          have he : u.size = u.xs.length := rfl
          have hfill : (Ctx.step a [sg] r c).fill u = (Ctx.step a [] (u :: r) c).fill sg := rfl
          have h5 := hslots _ u hfill
          have h6 := hpre _ u hfill
          have h7 : (Ctx.step a [sg] r c).pre.length = i - j + sg.xs.length := by
            rw [← h2]; simp [Ctx.pre, elemsL, Tree.elems_zero]; try omega
          rw [h7] at h5 h6
          simp only [List.length_nil, if_true]
          rw [hk.1, hk.2, he]
          exact ⟨h6, h5⟩
      · rw [List.concat_eq_append] at *
        have hk := n4 lt.length (by simp)
        have he : u.size = u.xs.length := rfl
        have hfill : (Ctx.step a lt (sg :: r) c).fill u = (Ctx.step a (lt ++ [u]) r c).fill sg := by
          simp [Ctx.fill]
        have h5 := hslots _ u hfill
        have h7 : (Ctx.step a lt (sg :: r) c).pre.length + u.xs.length = i - j := by
          rw [← h2]; simp [Ctx.pre, elemsL, Tree.elems_zero]; try omega
        simp only [List.length_append, List.length_cons, List.length_nil, Nat.zero_add, Nat.add_sub_cancel]
        rw [if_neg (by omega)]
        have k1 : nd.sizes lt.length = u.xs.length := by simpa [key, he] using hk.1
        have k2 : nd.ptrs lt.length = u.addr := by simpa [key] using hk.2
        rw [k1, k2]
        refine ⟨by omega, ?_⟩
        rw [show i - j - u.xs.length = (Ctx.step a lt (sg :: r) c).pre.length by omega]
        exact h5
  
section
variable [Moves α]

theorem Mute.moves (ht : E.trivCopy = true) (v : α) (x : N α β) [h : Mute x] :
    Mute (Rough.fails E v >>= fun b => if b = true then N.throw .elem else x) := by
  refine ⟨fun k m e m' n hx => ?_⟩
  rw [N.bind_ok (show Rough.fails E v k m = .ok false m (k + 1) by unfold Rough.fails; rw [ht]; rfl)] at hx
  exact h.run _ _ _ _ _ hx

theorem Mute.move_assign_segment (ht : E.trivCopy = true) (a b c d : Nat) : Mute (Rough.move_assign_segment E a b c d) := by
  unfold Rough.move_assign_segment Rough.assign_segment
  refine Mute.bind (hf := fun v => ?_)
  have := Mute.moves ht v (Rough.wrElem E c d v)
  infer_instance

theorem Mute.assign_backward_segment (ht : E.trivCopy = true) (a b c d : Nat) :
    Mute (Rough.assign_backward_segment E a b c d) := by
  unfold Rough.assign_backward_segment; rw [if_pos ht]; infer_instance

theorem Mute.assign_forward_segment (ht : E.trivCopy = true) (a b c d : Nat) :
    Mute (Rough.assign_forward_segment E a b c d) := by
  unfold Rough.assign_forward_segment; rw [if_pos ht]; infer_instance

theorem lowered_zero (hr : Reach E.calm m) (hc : Contents E o m xs) (hi : i < xs.length) : Lowered E o m xs i 0 m :=
  ⟨xs, .zero hi, hc, .refl, hr⟩
theorem raised_zero (hr : Reach E.calm m) (hc : Contents E o m xs) (hi : i < xs.length) : Raised E o m xs i 0 m :=
  ⟨xs, .zero hi, hc, .refl, hr⟩

theorem assign_backward_does (hE : E.Sound) (ht : ¬ E.trivCopy = true) {a len last t : Nat} (hs : Slots E o m p a len)
    (hlen : a + len ≤ xs.length) (hlast : last < len) (htl : t ≤ last) (he : a + t = i + j) (h : Lowered E o m xs i j m1) :
    Does (Rough.assign_backward_segment E p last t 1) k m1
      (fun _ m' => Lowered E o m xs i (j + (last - t)) m') (fun m' => ∃ l, l < j + (last - t) ∧ Lowered E o m xs i l m') := by
  unfold Rough.assign_backward_segment
  rw [if_neg ht]
  exact backward_does hE hs hlen hlast _ t j k m1 (by omega) he h

theorem assign_forward_does (hE : E.Sound) (ht : ¬ E.trivCopy = true) {a len t : Nat} (hs : Slots E o m p a len)
    (hl : t < len) (he : a + t = i) (h : Raised E o m xs i 0 m1) :
    Does (Rough.assign_forward_segment E p t 0 1) k m1
      (fun _ m' => Raised E o m xs i t m') (fun m' => ∃ l, l < t ∧ Raised E o m xs i l m') := by
  unfold Rough.assign_forward_segment
  rw [if_neg ht]
  have := forward_does hE (k := k) hs t 0 m1 hl (by omega) h
  rwa [Nat.zero_add] at this

/-- erasing an element of a segment that keeps enough of them -/
theorem erase_room_does (hE : E.Sound) (hr : Reach E.calm m) (hc : Contents E o m xs) (hi : i < xs.length)
    (hn : nth E o i m = .ok it m) (h1 : 1 < it.segLength) (h2 : it.entry.leaf.ptr = 0 ∨ E.segMin < it.segLength) :
    Does (Rough.erase_single_segment E o it.entry) k m (fun _ _ => True)
      (fun m' => ∃ l, it.current.2 + l + 1 < it.segEnd.2 ∧ Lowered E o m xs i l m') := by
  obtain ⟨g1, g2, g3, g4⟩ := seg_slots hE hr hc hi hn
  have hl : it.segLength = it.entry.seg.len := rfl
  rw [hl] at h1 h2
  unfold Rough.erase_single_segment
  dsimp only
  rw [if_neg (by omega)]
  refine Does.read (y := usub it.entry.seg.len 1) (fun _ => inferInstance) (v := it.entry.seg.len - 1) (m' := m)
    (usub_ok (by omega) _) fun k => ?_
  rw [if_pos (h2.elim .inr fun h => .inl (by omega))]
  by_cases ht : E.trivCopy = true
  · have := Mute.assign_backward_segment ht
    exact Does.mute _
  · refine Does.bind ((assign_backward_does hE ht g4 g3 (last := it.entry.seg.len - 1) (t := it.entry.seg.idx) (j := 0)
      (by omega) (by omega) (by omega) (lowered_zero hr hc hi)).mono (fun _ _ h => h) ?_) fun _ m2 k2 _ => ?_
    · rintro m' ⟨l, h3, h4⟩
      refine ⟨l, ?_, h4⟩
      show it.entry.seg.idx + l + 1 < it.entry.seg.len
      omega
    · exact Does.mute _

theorem cell_node {w : Nat} {nd : Node} (hcell : m.cell (.heap p) = some (.node w nd)) : rdNode p m = .ok nd m := by
  unfold rdNode; rw [hcell]

theorem cell_sizes {w : Nat} {nd : Node} {q : Nat} {R : Mem α → Prop} (hcell : m.cell (.heap p) = some (.node w nd)) :
    Does (Rough.sizesAt E p q) k m (fun v m' => v = nd.sizes q ∧ m = m') R := by
  unfold Rough.sizesAt
  refine Does.read (y := rdNode p) (fun _ => inferInstance) (cell_node hcell) fun k => ?_
  split
  · exact ⟨rfl, rfl⟩
  · trivial

theorem cell_ptrs {w : Nat} {nd : Node} {q : Nat} {R : Mem α → Prop} (hcell : m.cell (.heap p) = some (.node w nd)) :
    Does (Rough.ptrsAt E p q) k m (fun v m' => v = nd.ptrs q ∧ m = m') R := by
  unfold Rough.ptrsAt
  refine Does.read (y := rdNode p) (fun _ => inferInstance) (cell_node hcell) fun k => ?_
  split
  · exact ⟨rfl, rfl⟩
  · trivial

/-- erasing an element of a segment that takes one from a sibling instead -/
theorem erase_steal_does (hE : E.Sound) (hr : Reach E.calm m) (hc : Contents E o m xs) (hi : i < xs.length)
    (hn : nth E o i m = .ok it m) {w : Nat} {nd : Node} (hp : it.entry.leaf.ptr ≠ 0) (hmin : it.segLength = E.segMin)
    (hcell : m.cell (.heap it.entry.leaf.ptr) = some (.node w nd)) (hsib : E.segMin < nd.sizes (besides it.entry.leaf.idx)) :
    Does (Rough.erase_single_segment E o it.entry) k m (fun _ _ => True)
      (fun m' => ∃ l, Lowered E o m xs i l m' ∨ Raised E o m xs i l m') := by
  obtain ⟨g1, g2, g3, g4⟩ := seg_slots hE hr hc hi hn
  have hs := sibling_slots hE hr hc hi hn hp hcell
  have hl : it.segLength = it.entry.seg.len := rfl
  rw [hl] at hmin
  unfold Rough.erase_single_segment
  dsimp only
  rw [if_neg (by rintro ⟨h1, h2 | h2⟩ <;> [omega; exact hp h2])]
  refine Does.read (y := usub it.entry.seg.len 1) (fun _ => inferInstance) (v := it.entry.seg.len - 1) (m' := m)
    (usub_ok (by omega) _) fun k => ?_
  rw [if_neg (by rintro (h1 | h1) <;> [exact h1 hmin; exact hp h1])]
  unfold besides at hsib
  by_cases h0 : it.entry.leaf.idx = 0
  · rw [if_pos h0] at hs hsib
    obtain ⟨s1, s2⟩ := hs
    rw [if_neg (by simp [h0])]
    rw [h0]
    refine Does.bind (cell_ptrs hcell) ?_
    rintro _ _ k ⟨rfl, rfl⟩
    refine Does.bind (cell_sizes hcell) ?_
    rintro _ _ k ⟨rfl, rfl⟩
    rw [if_pos (by show nd.sizes 1 ≠ _; omega)]
    refine Does.read (y := usub (nd.sizes (0 + 1)) 1) (fun _ => inferInstance) (v := nd.sizes 1 - 1) (m' := m)
      (usub_ok (by show 1 ≤ nd.sizes 1; omega) _) fun k => ?_
    by_cases ht : E.trivCopy = true
    · have h1 := Mute.assign_backward_segment ht
      have h2 := Mute.move_assign_segment ht
      exact Does.mute _
    · refine Does.bind ((assign_backward_does hE ht g4 g3 (last := it.entry.seg.len - 1) (t := it.entry.seg.idx) (j := 0)
        (by omega) (by omega) (by omega) (lowered_zero hr hc hi)).mono (fun _ _ h => h) ?_) fun _ m2 k2 h3 => ?_
      · rintro m' ⟨l, -, h4⟩
        exact ⟨l, .inl h4⟩
      · obtain ⟨ia, a1, a2⟩ := s2 0 (by omega)
        obtain ⟨ib, b1, b2⟩ := g4 (it.entry.seg.len - 1) (by omega)
        refine Does.bind ((lower_does hE h3 (by omega) (ia := ia) (ib := ib)
          (by rw [show i + (0 + (it.entry.seg.len - 1 - it.entry.seg.idx)) + 1 = i - it.entry.seg.idx + it.entry.seg.len + 0 by omega]; exact a1)
          (by rw [show i + (0 + (it.entry.seg.len - 1 - it.entry.seg.idx)) = i - it.entry.seg.idx + (it.entry.seg.len - 1) by omega]; exact b1)
          a2 b2).mono (fun _ _ h => h) (fun m' h => ⟨_, .inl h⟩)) fun _ m3 k3 h4 => ?_
        refine Does.bind ((assign_backward_does hE ht s2 s1 (last := nd.sizes 1 - 1) (t := 0)
          (by omega) (by omega) (by omega) h4).mono (fun _ _ h => h) ?_) fun _ m2 k2 h3 => ?_
        · rintro m' ⟨l, -, h4⟩
          exact ⟨l, .inl h4⟩
        · exact Does.mute _
  · rw [if_neg h0] at hs hsib
    obtain ⟨s1, s2⟩ := hs
    rw [if_pos h0]
    refine Does.bind (cell_ptrs hcell) ?_
    rintro _ _ k ⟨rfl, rfl⟩
    refine Does.bind (cell_sizes hcell) ?_
    rintro _ _ k ⟨rfl, rfl⟩
    rw [if_pos (by omega)]
    refine Does.read (y := usub (nd.sizes (it.entry.leaf.idx - 1)) 1) (fun _ => inferInstance)
      (v := nd.sizes (it.entry.leaf.idx - 1) - 1) (m' := m) (usub_ok (by omega) _) fun k => ?_
    by_cases ht : E.trivCopy = true
    · have h1 := Mute.assign_forward_segment ht
      have h2 := Mute.move_assign_segment ht
      exact Does.mute _
    · refine Does.bind ((assign_forward_does hE ht g4 (t := it.entry.seg.idx)
        (by omega) (by omega) (raised_zero hr hc hi)).mono (fun _ _ h => h) ?_) fun _ m2 k2 h3 => ?_
      · rintro m' ⟨l, -, h4⟩
        exact ⟨l, .inr h4⟩
      · obtain ⟨ia, a1, a2⟩ := s2 (nd.sizes (it.entry.leaf.idx - 1) - 1) (by omega)
        obtain ⟨ib, b1, b2⟩ := g4 0 (by omega)
        refine Does.bind ((raise_does hE h3 (a := i - it.entry.seg.idx - 1) (by omega) (ia := ia) (ib := ib)
          (by rw [show i - it.entry.seg.idx - 1 = i - it.entry.seg.idx - nd.sizes (it.entry.leaf.idx - 1) +
            (nd.sizes (it.entry.leaf.idx - 1) - 1) by omega]; exact a1)
          (by rw [show i - it.entry.seg.idx - 1 + 1 = i - it.entry.seg.idx + 0 by omega]; exact b1)
          a2 b2).mono (fun _ _ h => h) (fun m' h => ⟨_, .inr h⟩)) fun _ m3 k3 h4 => ?_
        exact Does.mute _

theorem Does.moves {x : N α β} {Q : β → Mem α → Prop} {R : Mem α → Prop} (v : α) (h : ∀ k, Does x k m Q R) (hr : R m) :
    Does (Rough.fails E v >>= fun b => if b = true then N.throw .elem else x) k m Q R := by
  unfold Does
  rw [N.bind_ok (show Rough.fails E v k m = .ok _ m (k + 1) from rfl)]
  cases hf : (!E.trivCopy && Moves.fails k v)
  · exact h (k + 1)
  · exact hr

/-- a new element in the free slot after the last one -/
theorem append_does {v : α} (h1 : it.entry.seg.ptr ≠ 0) (h2 : it.entry.seg.idx = it.entry.seg.len)
    (h3 : it.entry.seg.len < E.segMax) :
    Does (Rough.insert_single_iterator E o it v) k m (fun _ _ => True) (fun m' => m' = m) := by
  unfold Rough.insert_single_iterator
  refine Does.moves v (fun k => ?_) rfl
  refine Does.bind (Q := fun _ _ => True) ?_ fun _ _ _ _ => trivial
  unfold Rough.insert_single_segment
  dsimp only
  rw [if_neg (by simp [h2]), if_neg h1, if_pos (by omega)]
  refine Does.bind (Q := fun _ _ => True) ?_ fun _ _ _ _ => Does.mute _
  unfold Rough.construct_segment
  refine Does.moves v (fun k => ?_) rfl
  have : Mute (do
    let s ← Rough.rdSlots it.entry.seg.ptr
    if it.entry.seg.idx < E.segMax then
      match s it.entry.seg.idx with
      | .raw => Rough.wrSlots it.entry.seg.ptr (upd s it.entry.seg.idx (.val v))
      | .val _ => if E.trivDtor then Rough.wrSlots it.entry.seg.ptr (upd s it.entry.seg.idx (.val v)) else N.ub .overwrite
    else N.ub .oob : N α Unit) := by mute
  exact Does.mute _

/-- at most one copy was made -/
def AtMostTicked (E : Env α) (m m' : Mem α) : Prop := m' = m ∨ (E.trivCopy = false ∧ m' = m.tick)

theorem copy_does (v : α) : Does (Rough.copyVal E v) k m (fun w m' => w = v ∧ AtMostTicked E m m') (AtMostTicked E m) := by
  unfold Does Rough.copyVal N.lift copyVal
  by_cases ht : E.trivCopy = true
  · rw [if_pos ht]; exact ⟨rfl, .inl rfl⟩
  · rw [if_neg ht]
    have ht : E.trivCopy = false := by simpa using ht
    by_cases h : E.cthrow m.ticks v = true
    · rw [if_pos h]; exact .inr ⟨ht, rfl⟩
    · rw [if_neg h]; exact ⟨rfl, .inr ⟨ht, rfl⟩⟩
end

theorem wrElem_same {v : α} (h : rdElem E p i m = .ok v m) : wrElem E p i v m = .ok () m := by
  unfold rdElem at h
  obtain ⟨s, m1, h1, h2⟩ := bind_inv h
  unfold rdSlots at h1
  cases hc : m.cell (.heap p) with
  | none => rw [hc] at h1; cases h1
  | some c =>
    rw [hc] at h1
    cases c with
    | node => cases h1
    | obj => cases h1
    | seg w t =>
      cases h1
      unfold wrElem
      rw [bind_ok (show rdSlots p m = .ok s m by unfold rdSlots; rw [hc])]
      by_cases hi : i < E.segMax
      · rw [if_pos hi] at h2 ⊢
        cases hs : s i with
        | raw => rw [hs] at h2; cases h2
        | val u =>
          rw [hs] at h2; cases h2
          have e : upd s i (.val v) = s := by
            funext j; unfold upd; split
            · next h => rw [h, hs]
            · rfl
          simp only [e]
          unfold wrSlots
          rw [hc]
          simp only
          congr 1
          unfold Mem.set
          have : upd m.cell (.heap p) (some (.seg w s)) = m.cell := by
            funext j; unfold upd; split
            · next h => rw [h, hc]
            · rfl
          rw [this]
      · rw [if_neg hi] at h2; cases h2

/-- copying an element once more is something a program can do -/
theorem Reach.tick (hE : E.Good) (hr : Reach E m) (hc : Contents E o m xs) (hne : xs ≠ []) (ht : E.trivCopy = false) :
    Reach E m.tick := by
  have hl := List.length_pos_iff.2 hne
  obtain ⟨it, hn⟩ := hr.nth hE hc 0
  have hd : rdElem E it.entry.seg.ptr it.entry.seg.idx m = .ok xs[0] m := nth_deref hE hr hc hl hn
  have hd' : rdElem E it.entry.seg.ptr it.entry.seg.idx m.tick = .ok xs[0] m.tick := by
    have := (hr.ticked hE (.tick m) o).2.2.2.1 _ _ hn
    exact this.2 _ hc.1 hl _ hd
  have key : ∀ b, E.cthrow m.ticks xs[0] = b → deref_set E it xs[0] m = if b then .throw .elem m.tick else .ok () m.tick := by
    intro b hb
    unfold deref_set copyAssign
    cases b
    · rw [bind_ok (show copyVal E xs[0] m = .ok xs[0] m.tick by unfold copyVal; rw [ht, hb]; rfl), wrElem_same hd']; rfl
    · rw [bind_throw (show copyVal E xs[0] m = .throw .elem m.tick by unfold copyVal; rw [ht, hb]; rfl)]; rfl
  rcases hr.call hE hc (.setIt 0 xs[0]) (fun _ => hl) with ⟨r, m2, al, x', e2, -, -, e4⟩ | ⟨e, m2, al, x', e2, -, -, e4⟩
  · obtain ⟨-, u, h5⟩ := unit_inv e2
    rw [bind_ok hn, key _ rfl] at h5
    split at h5
    · cases h5
    · cases h5; exact e4.reach
  · have h5 := unit_inv_throw e2
    rw [bind_ok hn, key _ rfl] at h5
    split at h5
    · cases h5; exact e4.reach
    · cases h5

/-! ### C89 -/

/-- the calls that add `v` after the last of `n` elements -/
inductive Un.Appends (n : Nat) (v : α) : Un α → Prop where
  | insert : Un.Appends n v (.insert n v)
  | insertRv : Un.Appends n v (.insertRv n v)
  | pushBack : Un.Appends n v (.pushBack v)
  | pushBackRv : Un.Appends n v (.pushBackRv v)

/-- the calls that remove the element at position `i` of `n` -/
inductive Un.Erases (n i : Nat) : Un α → Prop where
  | erase : Un.Erases n i (.erase i)
  | popBack (h : i + 1 = n) : Un.Erases n i .popBack
  | popFront (h : i = 0) : Un.Erases n i .popFront

section
variable [Moves α]

theorem Does.unit {x : N α β} {Q : β → Mem α → Prop} {R : Mem α → Prop} (h : Does x k m Q R) :
    Does (Rough.Un.unit x) k m (fun _ _ => True) R := by
  unfold Rough.Un.unit; exact h.bind fun _ _ _ _ => trivial
theorem Does.pos {x : N α Iter} {Q : Iter → Mem α → Prop} {R : Mem α → Prop} (h : Does x k m Q R) :
    Does (Rough.Un.pos x) k m (fun _ _ => True) R := by
  unfold Rough.Un.pos; exact h.bind fun _ _ _ _ => trivial

/-- what a call on a container of a reachable memory can do -/
theorem un_rough (hE : E.Sound) (hr : Reach E.calm m) (hc : Contents E o m xs) {c : Un α} (hp : ∀ al, c.Pre E ⟨al, xs⟩)
    (hs : ¬ (Op.un o c).inStd) (k : Nat) :
    (∃ r m' n al x', c.rough E o k m = .ok r m' n ∧ c.run E.calm o m = .ok r m' ∧ c.Ok ⟨al, xs⟩ r x' ∧
      Contents E o m' x'.elems ∧ OthersUnchanged E o m m' ∧ Reach E.calm m') ∨
    (∃ e m' n, c.rough E o k m = .throw e m' n ∧ (e = .elem ∨ c.run E.calm o m = .throw e m')) := by
  rcases Lag.both (op_lag (E := E) (op := .un o c) hs (fun h => h)) k m with h | ⟨m', n, h⟩
  · have h : (c.rough E o k m).erase = c.run E.calm o m := h
    rcases Via.call hE.calm hr (contents_calm.2 hc) c hp with ⟨r, m', al, x', h1, h2, h3, h4⟩ | ⟨e, m', al, x', h1, -, -, -⟩
    · rw [h1] at h
      cases hx : c.rough E o k m with
      | ok v1 m3 n =>
        rw [hx] at h; cases h
        refine .inl ⟨r, m', n, al, x', rfl, h1, h2, contents_calm.1 h3, fun p ys hp hc => ?_, h4.reach hr⟩
        exact unchanged_calm.1 (h4.others hE.calm hr p ys hp (contents_calm.2 hc))
      | throw e2 m3 n => rw [hx] at h; cases h
      | ub => rw [hx] at h; cases h
      | div => rw [hx] at h; cases h
    · rw [h1] at h
      cases hx : c.rough E o k m with
      | ok v1 m3 n => rw [hx] at h; cases h
      | throw e2 m3 n => rw [hx] at h; cases h; exact .inr ⟨e, m', n, rfl, .inr h1⟩
      | ub => rw [hx] at h; cases h
      | div => rw [hx] at h; cases h
  · exact .inr ⟨.elem, m', n, h, .inl rfl⟩

/-- C89: adding an element at the end of a non-empty container whose last segment has
room either does so, or throws and has changed nothing: whatever moves throw, whenever.
(On an empty container a failed `push_back` does damage: C69.) -/
theorem C89_append {v : α} (hE : E.Sound) (hr : Reach E.calm m) (hc : Contents E o m xs) (hne : xs ≠ [])
    (hn : nth E o xs.length m = .ok it m) (hroom : it.segLength < E.segMax) (hsz : xs.length + 1 ≤ max_size E) {c : Un α}
    (ha : c.Appends xs.length v) (k : Nat) :
    (∃ r m' n, c.rough E o k m = .ok r m' n ∧ Contents E o m' (xs ++ [v]) ∧ m'.log = m.log ∧ OthersUnchanged E o m m' ∧
      Reach E.calm m') ∨
    (∃ m' n, c.rough E o k m = .throw .elem m' n ∧ Ticked m m' ∧ (∀ p, Unchanged E p m m') ∧ Reach E.calm m') := by
  have hp : ∀ al, c.Pre E ⟨al, xs⟩ := by
    intro al
    cases ha <;> first | exact ⟨Nat.le_refl _, hsz⟩ | exact hsz
  have hstd : ¬ (Op.un o c).inStd := by cases ha <;> exact fun h => h
  have hn' : nth E.calm o xs.length m = .ok it m := nth_calm (E := E) xs.length ▸ hn
  have hc' := contents_calm.2 hc
  -- where the throwing run stops
  have hd : Does (c.rough E o) k m (fun _ _ => True) (AtMostTicked E m) := by
    obtain ⟨al, s, F, hs, rfl, H⟩ := hr.cont hE.calm hc'
    have hat := at_of_nth hs H (Nat.le_refl _) hn'
    obtain ⟨g1, g2, g3, -⟩ := hat.seg_range
    have hptr : it.entry.seg.ptr ≠ 0 := by
      cases s with
      | nil => exact absurd rfl hne
      | tree t =>
        obtain ⟨h1, d, sg, j, rfl, -, h2, -⟩ := hat
        rw [h2]
        rw [cont_tree, Ctx.fill_lay, aassoc] at H
        rw [aassoc] at H
        exact Holds.ne0 (a := sg.addr) (P := IsSeg E.calm (E.calm.acls al) sg.2) H
    have hl : it.segLength = it.entry.seg.len := rfl
    have hadd : ∀ {m1 : Mem α} k, AtMostTicked E m m1 →
        Does (Rough.insert_single_iterator E o it v) k m1 (fun _ _ => True) (AtMostTicked E m) := by
      intro m1 k h1
      exact (append_does (o := o) (v := v) hptr (by omega) (by omega)).mono (fun _ _ h => h) (fun m' h => h ▸ h1)
    have hcopy : ∀ k, Does (Rough.emplace_single E o it (Rough.copyVal E v)) k m (fun _ _ => True) (AtMostTicked E m) := by
      intro k
      unfold Rough.emplace_single
      refine Does.bind (copy_does v) ?_
      rintro _ m1 k1 ⟨rfl, h1⟩
      exact hadd k1 h1
    have hmove : ∀ k, Does (Rough.emplace_single E o it (pure v)) k m (fun _ _ => True) (AtMostTicked E m) :=
      fun k => hadd k (.inl rfl)
    cases ha with
    | insert => exact Does.pos (Q := fun _ _ => True) (Does.read (y := nth E.calm o _) (fun _ => inferInstance) hn' hcopy)
    | insertRv => exact Does.pos (Q := fun _ _ => True) (Does.read (y := nth E.calm o _) (fun _ => inferInstance) hn' hmove)
    | pushBack =>
      refine Does.unit (Q := fun _ _ => True) (Does.read (y := find_end E.calm o) (fun _ => inferInstance) (find_end_c hs hat H) fun k => ?_)
      exact Does.bind (hcopy k) fun _ _ _ _ => Does.ret trivial
    | pushBackRv =>
      refine Does.unit (Q := fun _ _ => True) (Does.read (y := find_end E.calm o) (fun _ => inferInstance) (find_end_c hs hat H) fun k => ?_)
      exact Does.bind (hmove k) fun _ _ _ _ => Does.ret trivial
  obtain ⟨x, hx, hx1, hx2⟩ : ∃ x, Insertion E.calm o xs.length xs.length it v x ∧
      (∀ m', c.run E.calm o m = .throw .alloc m' → x m = .throw .alloc m') ∧
      (∀ r m', c.run E.calm o m = .ok r m' → x m = .ok () m') := by
    cases ha with
    | insert =>
      refine ⟨_, .insert, fun m' h => ?_, fun r m' h => ?_⟩
      · have := pos_inv_throw h
        rw [bind_ok hn'] at this
        exact bind_throw this
      · obtain ⟨jt, this, -⟩ := pos_inv h
        rw [bind_ok hn'] at this
        exact bind_ok this
    | insertRv =>
      refine ⟨_, .insert_rv, fun m' h => ?_, fun r m' h => ?_⟩
      · have := pos_inv_throw h
        rw [bind_ok hn'] at this
        exact bind_throw this
      · obtain ⟨jt, this, -⟩ := pos_inv h
        rw [bind_ok hn'] at this
        exact bind_ok this
    | pushBack => exact ⟨_, .push_back rfl, fun m' h => unit_inv_throw h, fun r m' h => (unit_inv h).2.choose_spec⟩
    | pushBackRv => exact ⟨_, .push_back_rv rfl, fun m' h => unit_inv_throw h, fun r m' h => (unit_inv h).2.choose_spec⟩
  obtain ⟨ht, hht⟩ : ∃ n, height o m = .ok n m := by
    obtain ⟨al, s, F, hs, rfl, H⟩ := hr.cont hE.calm hc'
    exact ⟨_, getHeight_c H⟩
  obtain ⟨hroom1, hroom2⟩ := C85_room hE.calm hr hc' (Nat.le_refl _) hn' hsz hx hne hroom hht
  rcases un_rough hE hr hc hp hstd k with ⟨r, m', n, al, x', h1, h2, h3, h4, h5, h6⟩ | ⟨e, m', n, h1, h2⟩
  · refine .inl ⟨r, m', n, h1, ?_, (hroom2 _ (hx2 _ _ h2)).1, h5, h6⟩
    cases ha with
    | insert => obtain ⟨-, rfl⟩ := h3; simpa [ins] using h4
    | insertRv => obtain ⟨-, rfl⟩ := h3; simpa [ins] using h4
    | pushBack => obtain ⟨-, rfl⟩ := h3; exact h4
    | pushBackRv => obtain ⟨-, rfl⟩ := h3; exact h4
  · have he : e = .elem := by
      rcases h2 with h2 | h2
      · exact h2
      · cases e with
        | elem => rfl
        | alloc => exact absurd (hx1 _ h2) (hroom1 _)
        | range => 
          rcases Via.call hE.calm hr hc' c hp with ⟨_, _, _, _, h3, -⟩ | ⟨_, _, _, _, h3, h4, -⟩
          · rw [h2] at h3; cases h3
          · rw [h2] at h3; cases h3
            cases ha <;> exact absurd h4.1 (by simp [Blame])
    subst he
    have hR := hd.throws h1
    have ht : Ticked m m' := by
      rcases hR with rfl | ⟨-, rfl⟩
      · exact .refl _
      · exact .tick m
    refine .inr ⟨m', n, h1, ht, fun p => unchanged_calm.1 (hr.ticked hE.calm ht p), ?_⟩
    rcases hR with rfl | ⟨h3, rfl⟩
    · exact hr
    · exact hr.tick hE.calm hc' hne h3

theorem erases_does (hE : E.Sound) (hr : Reach E.calm m) (hc : Contents E o m xs) (hi : i < xs.length)
    (hn : nth E o i m = .ok it m) {c : Un α} (hx : c.Erases xs.length i) {R : Mem α → Prop}
    (h : ∀ k, Does (Rough.erase_single_segment E o it.entry) k m (fun _ _ => True) R) :
    Does (c.rough E o) k m (fun _ _ => True) R := by
  have hn' : nth E.calm o i m = .ok it m := nth_calm (E := E) i ▸ hn
  have key : ∀ k, Does (Rough.erase_single E o it) k m (fun _ _ => True) R := by
    intro k
    unfold Rough.erase_single Rough.erase_single_iterator
    refine Does.bind (Does.bind (h k) fun e m1 k1 _ => Does.ret (Q := fun _ _ => True) trivial) fun jt m1 k1 _ => ?_
    exact Does.mute _
  obtain ⟨al, s, F, hs, rfl, H⟩ := hr.cont hE.calm (contents_calm.2 hc)
  have hat := at_of_nth hs H (Nat.le_of_lt hi) hn'
  cases hx with
  | erase => exact Does.pos (Q := fun _ _ => True) (Does.read (y := nth E.calm o _) (fun _ => inferInstance) hn' key)
  | popBack e =>
    refine Does.unit (Q := fun _ _ => True) (Does.read (y := find_last E.calm o) (fun _ => inferInstance)
      (find_last_c hs (by rw [show s.elems.length - 1 = i by rw [← e]; rfl]; exact hat) (by omega) H) fun k => ?_)
    exact Does.bind (key k) fun _ _ _ _ => Does.ret trivial
  | popFront e =>
    subst e
    refine Does.unit (Q := fun _ _ => True) (Does.read (y := find_first E.calm o) (fun _ => inferInstance) (find_first_c hs hat H) fun k => ?_)
    exact Does.bind (key k) fun _ _ _ _ => Does.ret trivial

theorem erases_rough (hE : E.Sound) (hr : Reach E.calm m) (hc : Contents E o m xs) (hi : i < xs.length)
    {c : Un α} (hx : c.Erases xs.length i) (k : Nat) :
    (∃ r m' n, c.rough E o k m = .ok r m' n ∧ Contents E o m' (xs.eraseIdx i) ∧ OthersUnchanged E o m m' ∧ Reach E.calm m') ∨
    ∃ m' n, c.rough E o k m = .throw .elem m' n := by
  have hne : xs ≠ [] := by rintro rfl; simp at hi
  have hp : ∀ al, c.Pre E ⟨al, xs⟩ := by
    intro al
    cases hx <;> first | exact hi | exact hne
  have hs : ¬ (Op.un o c).inStd := by cases hx <;> exact fun h => h
  rcases un_rough hE hr hc hp hs k with ⟨r, m', n, al, x', h1, h2, h3, h4, h5, h6⟩ | ⟨e, m', n, h1, h2⟩
  · refine .inl ⟨r, m', n, h1, ?_, h5, h6⟩
    cases hx with
    | erase => obtain ⟨-, rfl⟩ := h3; exact h4
    | popBack e => obtain ⟨-, rfl⟩ := h3; rw [List.eraseIdx_eq_dropLast (by omega)]; exact h4
    | popFront e => obtain ⟨-, rfl⟩ := h3; subst e; rw [List.eraseIdx_zero]; exact h4
  · rcases h2 with rfl | h2
    · exact .inr ⟨m', n, h1⟩
    · rcases Via.call hE.calm hr (contents_calm.2 hc) c hp with ⟨_, _, _, _, h3, -⟩ | ⟨_, _, _, _, h3, h4, -⟩
      · rw [h2] at h3; cases h3
      · cases hx <;> exact h4.elim

/-- C89: erasing an element of a segment that stays above its minimum (or is the only
one) either does so, or throws and leaves the container in order, with all its
elements in place except that some elements of the segment, the ones next after
position `i`, have been moved down. -/
theorem C89_erase (hE : E.Sound) (hr : Reach E.calm m) (hc : Contents E o m xs) (hi : i < xs.length)
    (hn : nth E o i m = .ok it m) {c : Un α} (hx : c.Erases xs.length i) (h1 : 1 < it.segLength)
    (h2 : it.entry.leaf.ptr = 0 ∨ E.segMin < it.segLength) (k : Nat) :
    (∃ r m' n, c.rough E o k m = .ok r m' n ∧ Contents E o m' (xs.eraseIdx i) ∧ OthersUnchanged E o m m' ∧ Reach E.calm m') ∨
    (∃ m' n j ys, c.rough E o k m = .throw .elem m' n ∧ it.current.2 + j + 1 < it.segEnd.2 ∧ Downward E xs i j ys ∧
      Contents E o m' ys ∧ Overwrote E o m m' ∧ Reach E.calm m') := by
  rcases erases_rough hE hr hc hi hx k with h | ⟨m', n, h⟩
  · exact .inl h
  · obtain ⟨j, h3, ys, h4, h5⟩ :=
      (erases_does (k := k) hE hr hc hi hn hx fun k => erase_room_does hE hr hc hi hn h1 h2).throws h
    exact .inr ⟨m', n, j, ys, h, h3, h4, h5.elems, h5.frame, h5.reach⟩

/-- C89: hence erasing the last element of such a segment throws nothing; so it is
with `pop_back` when the last segment is above its minimum, and when the container has
one segment only. -/
theorem C89_pop (hE : E.Sound) (hr : Reach E.calm m) (hc : Contents E o m xs) (hi : i < xs.length)
    (hn : nth E o i m = .ok it m) {c : Un α} (hx : c.Erases xs.length i) (h1 : 1 < it.segLength)
    (h2 : it.entry.leaf.ptr = 0 ∨ E.segMin < it.segLength) (hlast : it.current.2 + 1 = it.segEnd.2) (k : Nat) :
    ∃ r m' n, c.rough E o k m = .ok r m' n ∧ Contents E o m' (xs.eraseIdx i) ∧ OthersUnchanged E o m m' ∧ Reach E.calm m' := by
  rcases C89_erase hE hr hc hi hn hx h1 h2 k with h | ⟨m', n, j, ys, -, h3, -⟩
  · exact h
  · omega

/-- C89: erasing the only element of a container throws nothing. -/
theorem C89_last (hE : E.Sound) (hr : Reach E.calm m) (hc : Contents E o m xs) (hl : xs.length = 1) {c : Un α}
    (hx : c.Erases xs.length 0) (k : Nat) :
    ∃ r m' n, c.rough E o k m = .ok r m' n ∧ Contents E o m' [] ∧ OthersUnchanged E o m m' ∧ Reach E.calm m' := by
  rcases erases_rough hE hr hc (by omega) hx k with ⟨r, m', n, h1, h2, h3⟩ | ⟨m', n, h⟩
  · refine ⟨r, m', n, h1, ?_, h3⟩
    have : xs.eraseIdx 0 = [] := by
      rw [List.eraseIdx_zero]; exact List.length_eq_zero_iff.1 (by simp [hl])
    rwa [this] at h2
  · exfalso
    obtain ⟨it, hn⟩ := hr.nth hE.calm (contents_calm.2 hc) 0
    have hn' : nth E o 0 m = .ok it m := by rw [nth_calm]; exact hn
    refine (erases_does (k := k) (R := fun _ => False) hE hr hc (by omega) hn' hx fun k => ?_).throws h
    have hseg : it.entry.leaf.ptr = 0 ∧ it.entry.seg.len = 1 := by
      obtain ⟨ht, hht⟩ : ∃ n, height o m = .ok n m := by
        obtain ⟨al, s, F, hs, rfl, H⟩ := hr.cont hE.calm (contents_calm.2 hc)
        exact ⟨_, getHeight_c H⟩
      obtain ⟨m1, b, f, L, -, hf, -⟩ := C86_erase hE.calm hr (contents_calm.2 hc) (by omega) hn .erase hht
      obtain ⟨g1, g2, g3, -⟩ := seg_slots hE hr hc (by omega) hn'
      have hsl : it.segLength = it.entry.seg.len := rfl
      have hpos : 1 ≤ E.calm.segMin := E.calm.segMin_pos
      have hsib : ∀ {w : Nat} {nd : Node}, it.entry.leaf.ptr ≠ 0 → m.cell (.heap it.entry.leaf.ptr) = some (.node w nd) →
          1 ≤ nd.sizes (besides it.entry.leaf.idx) → False := by
        intro w nd h1 h2 h3
        have h4 := sibling_slots hE hr hc (by omega) hn' h1 h2
        unfold besides at h3
        by_cases h0 : it.entry.leaf.idx = 0
        · rw [if_pos h0] at h3 h4; omega
        · rw [if_neg h0] at h3 h4; omega
      cases hf with
      | last h1 h2 => exact ⟨h1, h2⟩
      | only h1 h2 => omega
      | room h1 h2 => omega
      | steal h1 h2 h3 h4 => exact (hsib h1 h3 (by omega)).elim
      | merge h1 h2 h3 h4 _ => exact (hsib h1 h3 (by omega)).elim
    unfold Rough.erase_single_segment
    dsimp only
    rw [if_pos ⟨hseg.2, .inr hseg.1⟩]
    exact Does.mute _

/-- C89: and erasing an element of a segment at its minimum that takes an element from
a sibling instead (as every erasure that frees no memory: C86) either does so, or
throws and leaves the container in order, with all its elements in place except that
some have been moved by one place towards the gap. -/
theorem C89_borrow (hE : E.Sound) (hr : Reach E.calm m) (hc : Contents E o m xs) (hi : i < xs.length)
    (hn : nth E o i m = .ok it m) {c : Un α} (hx : c.Erases xs.length i) (hf : Frees E m it 0 0) (k : Nat) :
    (∃ r m' n, c.rough E o k m = .ok r m' n ∧ Contents E o m' (xs.eraseIdx i) ∧ OthersUnchanged E o m m' ∧ Reach E.calm m') ∨
    (∃ m' n j ys, c.rough E o k m = .throw .elem m' n ∧ (Downward E xs i j ys ∨ Upward E xs i j ys) ∧
      Contents E o m' ys ∧ Overwrote E o m m' ∧ Reach E.calm m') := by
  have room : ∀ (h1 : 1 < it.segLength) (h2 : it.entry.leaf.ptr = 0 ∨ E.segMin < it.segLength),
      (∃ r m' n, c.rough E o k m = .ok r m' n ∧ Contents E o m' (xs.eraseIdx i) ∧ OthersUnchanged E o m m' ∧ Reach E.calm m') ∨
      (∃ m' n j ys, c.rough E o k m = .throw .elem m' n ∧ (Downward E xs i j ys ∨ Upward E xs i j ys) ∧
        Contents E o m' ys ∧ Overwrote E o m m' ∧ Reach E.calm m') := by
    intro h1 h2
    rcases C89_erase hE hr hc hi hn hx h1 h2 k with h | ⟨m', n, j, ys, h, -, h3, h4⟩
    · exact .inl h
    · exact .inr ⟨m', n, j, ys, h, .inl h3, h4⟩
  have := E.segMin_pos
  cases hf with
  | only h1 h2 => exact room h2 (.inl h1)
  | room h1 h2 => exact room (by omega) (.inr h2)
  | steal h1 h2 h3 h4 =>
    rcases erases_rough hE hr hc hi hx k with h | ⟨m', n, h⟩
    · exact .inl h
    · obtain ⟨j, h5⟩ := (erases_does (k := k) hE hr hc hi hn hx fun k => erase_steal_does hE hr hc hi hn h1 h2 h3 h4).throws h
      right
      rcases h5 with ⟨ys, h5, h6⟩ | ⟨ys, h5, h6⟩
      · exact ⟨m', n, j, ys, h, .inl h5, h6.elems, h6.frame, h6.reach⟩
      · exact ⟨m', n, j, ys, h, .inr h5, h6.elems, h6.frame, h6.reach⟩
end

/-- The memories of a program in which moves may have thrown at any moment, and element
exceptions may have come out of algorithms on containers, out of calls that add an
element at the end of a last segment with room, and out of calls that erase an element
without freeing memory; but not out of other calls. -/
inductive Unbroken (E : Env α) : Mem α → Prop where
  | init : Unbroken E noMem
  | ret {m m' : Mem α} {S : Bank α} {op : Op α} {r : Ret α} (O : Moves α) {k n : Nat} :
      Unbroken E m → View E m S → op.Pre E S → ¬ op.inStd → op.rough E k m = .ok r m' n → Unbroken E m'
  | exc {m m' : Mem α} {S : Bank α} {op : Op α} {e : Exn} (O : Moves α) {k n : Nat} :
      Unbroken E m → View E m S → op.Pre E S → ¬ op.inStd → e ≠ .elem → op.rough E k m = .throw e m' n → Unbroken E m'
  | algo {m m' : Mem α} {A A' : Generic.Arrays α} {V V' : Generic.Vars} (O : Moves α) {σ : Type} (P : Generic.Algo α σ) {s s' t : σ}
      {n k k' l : Nat} :
      Unbroken E m → Generic.Same E m A V → P.onArraysN E n s A k = some (s', A', k') →
      P.onSeqsN E n s V k m = .ok (t, V') m' l → Unbroken E m'
  | append {m m' : Mem α} {o : Nat} {xs : List α} {it : Iter} {v : α} {c : Un α} (O : Moves α) {k n : Nat} :
      Unbroken E m → Contents E o m xs → xs ≠ [] → nth E o xs.length m = .ok it m → it.segLength < E.segMax →
      xs.length + 1 ≤ max_size E → c.Appends xs.length v → c.rough E o k m = .throw .elem m' n → Unbroken E m'
  | erase {m m' : Mem α} {o i : Nat} {xs : List α} {it : Iter} {c : Un α} (O : Moves α) {k n : Nat} :
      Unbroken E m → Contents E o m xs → i < xs.length → nth E o i m = .ok it m → c.Erases xs.length i → Frees E m it 0 0 →
      c.rough E o k m = .throw .elem m' n → Unbroken E m'

theorem Unbroken.reach (hE : E.Sound) (h : Unbroken E m) : Reach E.calm m := by
  induction h with
  | init => exact .init
  | ret O _ hv hp hs hrun ih =>
    rcases op_moments (E := E) hs _ _ with h | ⟨_, _, h⟩ | ⟨_, h⟩ | h
    · rw [hrun] at h; exact .ret ih (view_calm.2 hv) hp h.symm
    all_goals rw [hrun] at h; cases h
  | exc O _ hv hp hs he hrun ih =>
    rcases op_moments (E := E) hs _ _ with h | ⟨_, _, h⟩ | ⟨_, h⟩ | h
    · rw [hrun] at h; exact .exc ih (view_calm.2 hv) hp h.symm
    all_goals rw [hrun] at h; cases h
    exact absurd rfl he
  | algo O P _ hsame ha hrun ih =>
    obtain ⟨V', m', h1, -, -, h2⟩ := C88_algorithm hE P _ _ _ ih hsame ha
    rw [hrun] at h1
    cases h1
    exact h2
  | append O _ hc hne hn hroom hsz ha hrun ih =>
    rcases C89_append hE ih hc hne hn hroom hsz ha _ with ⟨_, _, _, h, -⟩ | ⟨_, _, h, -, -, h1⟩
    · rw [hrun] at h; cases h
    · rw [hrun] at h; cases h; exact h1
  | erase O _ hc hi hn hx hf hrun ih =>
    rcases C89_borrow hE ih hc hi hn hx hf _ with ⟨_, _, _, h, -⟩ | ⟨_, _, _, _, h, -, -, -, h1⟩
    · rw [hrun] at h; cases h
    · rw [hrun] at h; cases h; exact h1

theorem Intact.unbroken (h : Intact E m) : Unbroken E m := by
  induction h with
  | init => exact .init
  | ret O _ hv hp hs hrun ih => exact .ret O ih hv hp hs hrun
  | exc O _ hv hp hs he hrun ih => exact .exc O ih hv hp hs he hrun
  | algo O P _ hsame ha hrun ih => exact .algo O P ih hsame ha hrun

/-- C89: after such failures, too, a call within its precondition returns what is
specified, or fails as specified, or ends in an element exception -/
theorem C89_call [Moves α] {S : Bank α} {op : Op α} (hE : E.Sound) (hr : Unbroken E m) (hv : View E m S) (hp : op.Pre E S)
    (hs : ¬ op.inStd) (hb : ¬ op.builds) (k : Nat) :
    (∃ r m' n S', op.rough E k m = .ok r m' n ∧ op.Ok E S r S' ∧ View E m' S') ∨
    (∃ e m' n S', op.rough E k m = .throw e m' n ∧ op.Exc E S e S' ∧ View E m' S') ∨
    ∃ m' n, op.rough E k m = .throw .elem m' n :=
  (hr.reach hE).rough_call hE hv hp hs hb k

/-! ### Concrete cases -/

section Concrete
set_option maxRecDepth 100000

/-- every move throws -/
@[instance_reducible] def always : Moves Nat := ⟨fun _ _ => true⟩

-- what a failed erasure of the first of three elements may leave
example : Downward demo [7, 2, 3] 0 1 [2, demo.moved 2, 3] :=
  ⟨by decide, rfl, fun l _ h => by obtain rfl : l = 0 := by omega
                                   rfl, fun _ => rfl,
   fun l h => by rcases l with _ | _ | l <;> first | rfl | omega⟩

theorem roomy_sound : roomy.Sound := ⟨by decide, by decide, by decide⟩

theorem NRes.returned {β : Type} {x : NRes α β} {v : β} {m' m2 : Mem α} {n n2 : Nat} {e : Exn} (h : x = .ok v m' n)
    (h2 : x = .throw e m2 n2) : False := by rw [h] at h2; cases h2

-- a fourth element in a segment for four, when the construction from it throws
example : ∃ m' n, @Un.rough _ always roomy 0 (.pushBackRv 9) 0 (oneSeg [1, 2, 3]) = .throw .elem m' n ∧
    Unchanged roomy 0 (oneSeg [1, 2, 3]) m' ∧ Reach roomy.calm m' := by
  have hc : Contents roomy 0 (oneSeg [1, 2, 3]) [1, 2, 3] := oneSeg_contents (by decide)
  rcases @C89_append _ roomy _ 0 _ ⟨⟨⟨1, 3, 3⟩, ⟨0, 0⟩⟩, 3⟩ always 9 roomy_sound roomy_123 hc (by decide) rfl (by decide) (by decide) _
    .pushBackRv 0 with ⟨r, m', n, h, -⟩ | ⟨m', n, h, -, h1, h2⟩
  · exact (NRes.returned h rfl).elim
  · exact ⟨m', n, h, h1 0, h2⟩

-- erasing the first of three elements of the only segment, moves throwing whenever they
-- like: at most one move has been done
example [Moves Nat] (k : Nat) :
    (∃ r m' n, Un.rough roomy 0 (.erase 0) k (oneSeg [1, 2, 3]) = .ok r m' n ∧ Contents roomy 0 m' [2, 3]) ∨
    ∃ m' n j ys, Un.rough roomy 0 (.erase 0) k (oneSeg [1, 2, 3]) = .throw .elem m' n ∧
      j < 2 ∧ Downward roomy [1, 2, 3] 0 j ys ∧ Contents roomy 0 m' ys ∧ Reach roomy.calm m' := by
  have hc : Contents roomy 0 (oneSeg [1, 2, 3]) [1, 2, 3] := oneSeg_contents (by decide)
  rcases C89_erase (i := 0) (it := ⟨⟨⟨1, 0, 3⟩, ⟨0, 0⟩⟩, 0⟩) roomy_sound roomy_123 hc (by decide) rfl
    .erase (by decide) (.inl rfl) k with ⟨r, m', n, h, h1, -⟩ | ⟨m', n, j, ys, h, h0, h1, h2, -, h3⟩
  · exact .inl ⟨r, m', n, h, h1⟩
  · have h0 : 0 + j + 1 < 3 := h0
    exact .inr ⟨m', n, j, ys, h, by omega, h1, h2, h3⟩

/-- three elements in two segments: the first segment has one element, its sibling two -/
theorem demo_two : ∃ m' it, push_back_rv demo 0 3 (oneSeg [1, 2]) = .ok () m' ∧ nth demo 0 0 m' = .ok it m' ∧
   Frees demo m' it 0 0 ∧ it.segLength = demo.segMin ∧ it.entry.leaf.ptr ≠ 0 := by
  refine ⟨_, _, by go, by go, ?_, ?_⟩
  · exact .steal (by decide) rfl rfl (by decide)
  · exact ⟨rfl, by decide⟩

-- erasing the first of them, moves throwing whenever they like: the container is intact
example [Moves Nat] : ∃ m it, Contents demo 0 m [1, 2, 3] ∧ nth demo 0 0 m = .ok it m ∧ it.entry.leaf.ptr ≠ 0 ∧
    it.segLength = demo.segMin ∧
    ∀ k, (∃ r m' n, Un.rough demo 0 (.erase 0) k m = .ok r m' n ∧ Contents demo 0 m' [2, 3]) ∨
      ∃ m' n j ys, Un.rough demo 0 (.erase 0) k m = .throw .elem m' n ∧ (Downward demo [1, 2, 3] 0 j ys ∨ Upward demo [1, 2, 3] 0 j ys) ∧
        Contents demo 0 m' ys := by
  obtain ⟨m, it, h1, h2, h3, h4, h5⟩ := demo_two
  have hp : ∀ al, Un.Pre demo ⟨al, [1, 2]⟩ (.pushBackRv 3) := fun _ => (by decide : 3 ≤ max_size demo)
  have h1' : Un.run demo 0 (.pushBackRv 3) (oneSeg [1, 2]) = .ok Ret.unit m := run_step (r := .ok Ret.unit m) h1 rfl
  rcases Via.call demo_good demo_12 (oneSeg_contents (by decide)) (.pushBackRv 3) hp with
    ⟨r, m', al, x', e, hok, hc, hv⟩ | ⟨e, m', al, x', he, -⟩
  · rw [h1'] at e; cases e
    obtain ⟨-, rfl⟩ := hok
    refine ⟨m, it, hc, h2, h5, h4, fun k => ?_⟩
    rcases C89_borrow demo_sound (hv.reach demo_12) hc (by decide : 0 < 3) h2 .erase h3 k with ⟨r, m', n, g1, g2, -⟩ | ⟨m', n, j, ys, g1, g2, g3, -⟩
    · exact .inl ⟨r, m', n, g1, g2⟩
    · exact .inr ⟨m', n, j, ys, g1, g2, g3⟩
  · rw [h1'] at he; cases he

-- the only element of a container, when every move would throw
example : ∃ r m' n, @Un.rough _ always demo 0 .popBack 0 (oneSeg [5] 1) = .ok r m' n ∧ Contents demo 0 m' [] := by
  obtain ⟨r, m', n, h1, h2, -⟩ := @C89_last _ demo _ 0 [5] always demo_sound (demo_unhurt.intact.reach demo_sound)
    (oneSeg_contents (by decide)) rfl _ (.popBack rfl) 0
  exact ⟨r, m', n, h1, h2⟩

-- the last element of a segment, when every move would throw
example : ∃ r m' n, @Un.rough _ always roomy 0 .popBack 0 (oneSeg [1, 2, 3]) = .ok r m' n ∧ Contents roomy 0 m' [1, 2] := by
  obtain ⟨r, m', n, h1, h2, -⟩ := @C89_pop _ roomy _ 0 2 [1, 2, 3] ⟨⟨⟨1, 2, 3⟩, ⟨0, 0⟩⟩, 2⟩ always roomy_sound roomy_123
    (oneSeg_contents (by decide)) (by decide) rfl _ (.popBack rfl) (by decide) (.inl rfl) rfl 0
  exact ⟨r, m', n, h1, h2⟩

-- a program after a failed append
example : ∃ m', Unbroken demo m' ∧ Contents demo 0 m' [5] := by
  have h0 : Unbroken demo (oneSeg [5] 1) := demo_unhurt.intact.unbroken
  have hc : Contents demo 0 (oneSeg [5] 1) [5] := oneSeg_contents (by decide)
  exact ⟨oneSeg [5] 1, .append (it := ⟨⟨⟨1, 1, 1⟩, ⟨0, 0⟩⟩, 1⟩) (c := .pushBackRv 9) (n := 1) (k := 0) always h0 hc (by decide) rfl
    (by decide) (by decide) .pushBackRv rfl, hc⟩

end Concrete
end SegTree
