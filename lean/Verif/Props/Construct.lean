/-
  C87: elements built by a constructor of the user's, which may throw and need not
  give the same value twice.
-/
import Verif.Model.Construct
import Verif.Props.Ranges
import Verif.Props.Bulk
set_option autoImplicit false

namespace SegTree
variable {α : Type} {E : Env α} {m m' : Mem α} {o i n : Nat} {xs vs : List α} {it : Iter} {r : Option α}
  {f : Nat → Option α} {b : Bool}

/-! ### Specification -/

/-- Evaluating the constructor `f` up to `n` times, until it throws, gives the values
`vs`, and `b` says whether it never threw. -/
structure Built (f : Nat → Option α) (n : Nat) (vs : List α) (b : Bool) : Prop where
  values : ∀ k (h : k < vs.length), f k = some vs[k]
  all : b = true → vs.length = n
  thrown : b = false → vs.length < n ∧ f vs.length = none

/-- this describes every constructor -/
theorem Built.exists (f : Nat → Option α) (n : Nat) : ∃ vs b, Built f n vs b := by
  induction n with
  | zero => exact ⟨[], true, ⟨fun k h => absurd h (Nat.not_lt_zero _), fun _ => rfl, by simp⟩⟩
  | succ n ih =>
    obtain ⟨vs, b, h1, h2, h3⟩ := ih
    cases b with
    | false => exact ⟨vs, false, h1, by simp, fun _ => ⟨by have := (h3 rfl).1; omega, (h3 rfl).2⟩⟩
    | true =>
      have hn := h2 rfl
      cases hf : f n with
      | none => exact ⟨vs, false, h1, by simp, fun _ => ⟨by omega, by rw [hn]; exact hf⟩⟩
      | some v =>
        refine ⟨vs ++ [v], true, fun k hk => ?_, fun _ => by simp [hn], by simp⟩
        rw [List.length_append, List.length_singleton] at hk
        by_cases hk' : k < vs.length
        · rw [List.getElem_append_left hk']; exact h1 k hk'
        · have : k = vs.length := by omega
          subst this
          simp [hn, hf]

/-! ### Proofs -/

/-- evaluating the constructor `n` times, as a range -/
def evaluations (f : Nat → Option α) (n : Nat) : Stream α Nat where
  done k := k == n
  deref k := f k
  incr k := some (k + 1)

theorem Built.yields (h : Built f n vs b) : Yields (evaluations f n) 0 vs b := by
  have hle : vs.length ≤ n := by
    cases b with
    | true => exact Nat.le_of_eq (h.all rfl)
    | false => exact Nat.le_of_lt (h.thrown rfl).1
  have key : ∀ d k, k + d = vs.length → Yields (evaluations f n) k (vs.drop k) b := by
    intro d
    induction d with
    | zero =>
      intro k hk
      rw [List.drop_of_length_le (by omega)]
      cases b with
      | true => exact .done (by show (k == n) = true; have := h.all rfl; simp; omega)
      | false =>
        have := h.thrown rfl
        refine .badRead (by show (k == n) = false; simp; omega) ?_
        show f k = none
        rw [show k = vs.length by omega]; exact this.2
    | succ d ih =>
      intro k hk
      have hk' : k < vs.length := by omega
      rw [List.drop_eq_getElem_cons hk']
      exact .next (by show (k == n) = false; simp; omega) (h.values k hk') rfl (ih (k + 1) (by omega))
  exact key vs.length 0 (Nat.zero_add _)

theorem bind_same {β γ : Type} {x : M α β} {g g' : β → M α γ} (h : ∀ v m1, x m = .ok v m1 → g v m1 = g' v m1) :
    (x >>= g) m = (x >>= g') m := by
  cases hx : x m with
  | ok v m1 => rw [bind_ok hx, bind_ok hx, h v m1 hx]
  | throw e m1 => rw [bind_throw hx, bind_throw hx]
  | ub u => show M.bind x g m = M.bind x g' m; simp [M.bind, hx]
  | div => show M.bind x g m = M.bind x g' m; simp [M.bind, hx]

theorem bind_left {β γ : Type} {x y : M α β} {g : β → M α γ} (h : x m = y m) : (x >>= g) m = (y >>= g) m := by
  show M.bind x g m = M.bind y g m
  simp only [M.bind, h]

theorem each_loop_range (d k : Nat) (it : Iter) (cnt : Nat) (m : Mem α) (hk : k + d = n) :
    emplace_range_loop E (evaluations f n).src o it k cnt m =
      (emplace_each_loop E o (fun i => construct (f i)) d k it >>= fun jt => pure (jt, cnt + d)) m := by
  induction d generalizing k it cnt m with
  | zero =>
    rw [emplace_range_loop, show (evaluations f n).src.done k = true by show (k == n) = true; simp; omega]
    rfl
  | succ d ih =>
    rw [emplace_range_loop, show (evaluations f n).src.done k = false by show (k == n) = false; simp; omega]
    rw [if_neg Bool.false_ne_true]
    have hrd : (evaluations f n).src.read k = construct (f k) := by
      show (match f k with | some v => pure v | none => M.throw .elem) = _
      cases f k <;> rfl
    rw [hrd]
    unfold emplace_each_loop
    simp only [bind_assoc]
    refine bind_same fun jt m1 _ => ?_
    rw [bind_ok (x := (evaluations f n).src.next k) (v := k + 1) (m' := m1) rfl]
    refine bind_same fun kt m2 _ => ?_
    rw [ih (k + 1) kt (cnt + 1) m2 (by omega)]
    rw [show cnt + 1 + d = cnt + (d + 1) by omega]

theorem each_range (m : Mem α) :
    emplace_each E o it n (fun i => construct (f i)) m = emplace_range E (evaluations f n).src o it 0 m := by
  unfold emplace_each emplace_range
  have h := each_loop_range (E := E) (f := f) (o := o) (n := n) n 0 it 0 m (Nat.zero_add _)
  have : (emplace_range_loop E (evaluations f n).src o it 0 0 >>= fun x => move_prev_iterator_count E x.1 x.2) m =
      ((emplace_each_loop E o (fun i => construct (f i)) n 0 it >>= fun jt => pure (jt, 0 + n)) >>=
        fun x => move_prev_iterator_count E x.1 x.2) m := bind_left h
  refine Eq.trans ?_ this.symm
  rw [bind_assoc]
  refine bind_same fun jt m1 _ => ?_
  rw [Nat.zero_add]; rfl

/-- with a constructor that does the same each time this is `emplace_count` -/
theorem each_count {mk : M α α} : emplace_each E o it n (fun _ => mk) = emplace_count E o it n mk := by
  have : ∀ n i it, emplace_each_loop E o (fun _ => mk) n i it = emplace_count_loop E o mk n it := by
    intro n
    induction n with
    | zero => intro i it; rfl
    | succ n ih =>
      intro i it
      unfold emplace_each_loop emplace_count_loop
      simp only [ih]
  unfold emplace_each emplace_count
  rw [this]

/-! ### C87 -/

/-- C87: `emplace(nth(i), args...)`: if the constructor throws, that exception leaves
and nothing at all has happened; if it gives `v`, then `v` has been inserted at `i` (and
the returned iterator is the one to it), or memory ran out and everything is as before. -/
theorem C87_emplace (hE : E.Good) (hr : Reach E m) (hc : Contents E o m xs) (hi : i ≤ xs.length)
    (hn : nth E o i m = .ok it m) (hsz : xs.length + 1 ≤ max_size E) (r : Option α) :
    ∃ m', Reach E m' ∧ OthersUnchanged E o m m' ∧
      ((∃ v jt, r = some v ∧ emplace E o it r m = .ok jt m' ∧ Contents E o m' (xs.take i ++ v :: xs.drop i) ∧
          nth E o i m' = .ok jt m') ∨
       (r = none ∧ emplace E o it r m = .throw .elem m' ∧ m' = m) ∨
       (r ≠ none ∧ emplace E o it r m = .throw .alloc m' ∧ Contents E o m' xs ∧ m'.cell = m.cell)) := by
  cases r with
  | none => exact ⟨m, hr, fun _ _ _ _ => .refl, .inr (.inl ⟨rfl, rfl, rfl⟩)⟩
  | some v =>
    rcases via_insert_rv (v := v) hE hr hc hi hn hsz with ⟨jt, m', e1, c1, n1, v1⟩ | ⟨m', e1, c1, v1⟩
    · exact ⟨m', v1.reach hr, v1.others hE hr, .inl ⟨v, jt, rfl, e1, by simpa [ins] using c1, n1⟩⟩
    · refine ⟨m', v1.reach hr, v1.others hE hr, .inr (.inr ⟨by simp, e1, c1, ?_⟩)⟩
      obtain ⟨al, s, F, hs, rfl, H⟩ := hr.cont hE hc
      obtain ⟨h1, -⟩ := (emplace_single_c (T := fun _ => False) hE (Mk.pure v) hs (at_of_nth hs H hi hn) (max_lt hE hsz) H).exc e1
      exact h1

/-- C87: `emplace_back(args...)` and `emplace_front(args...)`, likewise -/
theorem C87_push (hE : E.Good) (hr : Reach E m) (hc : Contents E o m xs) (hsz : xs.length + 1 ≤ max_size E)
    (r : Option α) {back : Bool} {x : M α Unit} (hx : x = if back then emplace_back E o r else emplace_front E o r) :
    ∃ m', Reach E m' ∧ OthersUnchanged E o m m' ∧
      ((∃ v, r = some v ∧ x m = .ok () m' ∧ Contents E o m' (if back then xs ++ [v] else v :: xs)) ∨
       (r = none ∧ x m = .throw .elem m' ∧ m' = m) ∨
       (r ≠ none ∧ x m = .throw .alloc m' ∧ Contents E o m' xs ∧ m'.cell = m.cell)) := by
  obtain ⟨f, l, h1, h2, h3, h4⟩ := hr.ends hE hc
  obtain ⟨it, i, hi, hn, hrun, hins⟩ : ∃ it i, i ≤ xs.length ∧ nth E o i m = .ok it m ∧
      x m = (emplace E o it r >>= fun _ => pure ()) m ∧
      ∀ v, xs.take i ++ v :: xs.drop i = if back then xs ++ [v] else v :: xs := by
    cases back with
    | true =>
      refine ⟨l, xs.length, Nat.le_refl _, h4, ?_, by simp⟩
      rw [hx, if_pos rfl]
      unfold emplace_back
      rw [bind_ok (x := find_end E o) h3]; rfl
    | false =>
      refine ⟨f, 0, Nat.zero_le _, h2, ?_, by simp⟩
      rw [hx, if_neg Bool.false_ne_true]
      unfold emplace_front
      rw [bind_ok (x := find_first E o) h1]; rfl
  obtain ⟨m', r1, o1, h5⟩ := C87_emplace hE hr hc hi hn hsz r
  refine ⟨m', r1, o1, ?_⟩
  rw [hrun]
  rcases h5 with ⟨v, jt, h6, h7, h8, -⟩ | ⟨h6, h7, h8⟩ | ⟨h6, h7, h8, h9⟩
  · exact .inl ⟨v, h6, by rw [bind_ok h7]; rfl, by rw [← hins v]; exact h8⟩
  · exact .inr (.inl ⟨h6, bind_throw h7, h8⟩)
  · exact .inr (.inr ⟨h6, bind_throw h7, h8, h9⟩)

/-- C87: `resize(n)` to a larger size: the values the constructor gives, in the order in
which it gave them, have been appended; if it throws after giving `vs`, exactly `vs` have;
if memory runs out, a proper prefix of `vs` has. -/
theorem C87_resize (hE : E.Good) (hr : Reach E m) (hc : Contents E o m xs) (hl : xs.length ≤ n)
    (hB : Built f (n - xs.length) vs b) (hsz : n ≤ max_size E) :
    ∃ m', Reach E m' ∧ OthersUnchanged E o m m' ∧
      ((b = true ∧ resize_each E o n f m = .ok () m' ∧ Contents E o m' (xs ++ vs)) ∨
       (b = false ∧ resize_each E o n f m = .throw .elem m' ∧ Contents E o m' (xs ++ vs)) ∨
       (resize_each E o n f m = .throw .alloc m' ∧ ∃ k < vs.length, Contents E o m' (xs ++ vs.take k))) := by
  obtain ⟨-, l, -, -, h3, h4⟩ := hr.ends hE hc
  by_cases hnl : xs.length = n
  · subst hnl
    rw [Nat.sub_self] at hB
    have hb : b = true := by
      cases b with
      | true => rfl
      | false => exact absurd (hB.thrown rfl).1 (Nat.not_lt_zero _)
    have hv : vs = [] := List.eq_nil_of_length_eq_zero (hB.all hb)
    subst hv
    refine ⟨m, hr, fun _ _ _ _ => .refl, .inl ⟨hb, ?_, by simpa using hc⟩⟩
    unfold resize_each
    rw [bind_ok (x := getSize o) hc.1, if_pos rfl]; rfl
  · have hvl : vs.length ≤ n - xs.length := by
      cases b with
      | true => exact Nat.le_of_eq (hB.all rfl)
      | false => exact Nat.le_of_lt (hB.thrown rfl).1
    have key : resize_each E o n f m =
        (emplace_range E (evaluations f (n - xs.length)).src o l 0 >>= fun _ => pure ()) m := by
      unfold resize_each
      rw [bind_ok (x := getSize o) hc.1, if_neg hnl, bind_ok (x := find_end E o) h3, if_neg (by omega)]
      exact bind_left (each_range m)
    rw [key]
    obtain ⟨m', r1, o1, h5⟩ := C67_insert hE hr hc (Nat.le_refl _) h4 hB.yields (by omega)
    refine ⟨m', r1, o1, ?_⟩
    simp only [List.take_length, List.drop_length, List.append_nil] at h5
    rcases h5 with ⟨h6, h7, jt, h8, -⟩ | ⟨h6, h7, h8⟩ | ⟨h6, k, hk, h7⟩
    · exact .inl ⟨h6, by rw [bind_ok h8]; rfl, h7⟩
    · exact .inr (.inl ⟨h6, bind_throw h7, h8⟩)
    · exact .inr (.inr ⟨bind_throw h6, k, hk, h7⟩)

/-- C87: `resize(n)` to a smaller or the same size evaluates no constructor and returns -/
theorem C87_shrink (hE : E.Good) (hr : Reach E m) (hc : Contents E o m xs) (hl : n ≤ xs.length) (f : Nat → Option α) :
    ∃ m', Reach E m' ∧ OthersUnchanged E o m m' ∧ resize_each E o n f m = .ok () m' ∧ Contents E o m' (xs.take n) := by
  by_cases hnl : xs.length = n
  · refine ⟨m, hr, fun _ _ _ _ => .refl, ?_, by rw [List.take_of_length_le (by omega)]; exact hc⟩
    unfold resize_each
    rw [bind_ok (x := getSize o) hc.1, if_pos hnl]; rfl
  · obtain ⟨v⟩ : Nonempty α := ⟨xs[0]'(by omega)⟩
    obtain ⟨m', h1, h2⟩ := C28_shrink hE hr hc (v := v) hl
    obtain ⟨S, al, hv, ho, -⟩ := hr.view hE hc
    have hmax : n ≤ max_size E := by
      obtain ⟨al, s, F, hs, rfl, H⟩ := hr.cont hE hc
      have := hs.1
      show n ≤ E.W - 1
      omega
    have hrun : (Op.un o (.resize n v)).run E m = .ok .unit m' := by
      show Un.unit (resize E o n v) m = _
      unfold Un.unit; rw [bind_ok h1]; rfl
    have hvia : Via E o m m' := .step (c := .resize n v) (.refl _) hv ⟨_, ho, hmax⟩ (.inl ⟨_, hrun⟩)
    refine ⟨m', hvia.reach hr, hvia.others hE hr, ?_, h2⟩
    rw [← h1]
    unfold resize_each resize resize_count
    rw [bind_ok (x := getSize o) hc.1, bind_ok (x := getSize o) hc.1, if_neg hnl, if_neg hnl]
    refine bind_same fun l m1 _ => ?_
    rw [if_pos (by omega), if_pos (by omega)]

/-- C87: `seq(n)`: the new container holds the values the constructor gave, or, if it or
the allocator throws, nothing remains of it. -/
theorem C87_ctor {al : Nat} (hE : E.Good) (hr : Reach E m) (ho : m.cell (.obj o) = none) (hN : E.nullFree = true)
    (hB : Built f n vs b) (hsz : n ≤ max_size E) :
    ∃ m', Reach E m' ∧ OthersUnchanged E o m m' ∧
      ((b = true ∧ ctor_each E o al n f m = .ok () m' ∧ Contents E o m' vs ∧ get_allocator o m' = .ok al m') ∨
       (∃ e, ctor_each E o al n f m = .throw e m' ∧ (e = .alloc ∨ (e = .elem ∧ b = false)) ∧ m'.cell = m.cell)) := by
  have hvl : vs.length ≤ n := by
    cases b with
    | true => exact Nat.le_of_eq (hB.all rfl)
    | false => exact Nat.le_of_lt (hB.thrown rfl).1
  have key : ctor_each E o al n f = ctor_range E (evaluations f n).src o al 0 := by
    unfold ctor_each ctor_range
    congr 1
    funext m
    refine bind_same fun it m1 _ => ?_
    exact bind_left (each_range m1)
  rw [key]
  exact C67_ctor hE hr ho hN hB.yields (by omega)

/-! ### The hypotheses are met -/

/-- a constructor that counts and throws the fourth time -/
def tally (k : Nat) : Option Nat := if k = 3 then none else some (100 + k)

example : Built tally 2 [100, 101] true ∧ Built tally 5 [100, 101, 102] false := by
  refine ⟨⟨?_, fun _ => rfl, by simp⟩, ⟨?_, by simp, fun _ => ⟨by decide, rfl⟩⟩⟩
  · intro k hk; match k, hk with | 0, _ => rfl | 1, _ => rfl
  · intro k hk; match k, hk with | 0, _ => rfl | 1, _ => rfl | 2, _ => rfl

/-- growing a tree of height 3 to 13 elements with it, and emplacing in the middle -/
example : ∃ (m : Mem Nat) (it : Iter), Reach demo m ∧ Contents demo 0 m eight ∧ nth demo 0 5 m = .ok it m ∧
    eight.length ≤ 13 ∧ 13 - eight.length = 5 ∧ 13 ≤ max_size demo := by
  obtain ⟨m, hr, hc, -⟩ := demo_eight
  obtain ⟨it, hn⟩ := hr.nth demo_good hc 5
  exact ⟨m, it, hr, hc, hn, by decide, by decide, by decide⟩

example : Reach demo (noMem : Mem Nat) ∧ (noMem : Mem Nat).cell (.obj 0) = none ∧ demo.nullFree = true ∧
    5 ≤ max_size demo := ⟨.init, rfl, rfl, by decide⟩

end SegTree
