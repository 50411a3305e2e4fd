/-
  C79: a client that repeats a failed insertion until it succeeds
  (`insert_single_retry` of /repo/test/test_sequence.cpp, and any other).
-/
import Verif.Model.Retry
import Verif.Proof.Last
import Verif.Props.Bench
import Verif.Props.Exact
import Verif.Props.Single
import Verif.Props.Defects
import Mathlib.Tactic.Linarith
import Mathlib.Tactic.Ring
set_option autoImplicit false

namespace SegTree
open Bench Lean.Order
variable {α : Type} {E : Env α} {m m' : Mem α} {o i n h W count : Nat} {xs : List α} {v : α} {c : Exn → Bool}
  {d : InsertionData α} {x : M α Unit} {G : Rng} {bits : Nat → α}

/-! ### Vocabulary -/

/-- the calls that copy `v` into a sequence of `n` elements at position `i` -/
inductive Adds (E : Env α) (o i n : Nat) (v : α) : M α Unit → Prop where
  | insert : Adds E o i n v (insert_at E o i v)
  | push_back (h : i = n) : Adds E o i n v (push_back E o v)
  | push_front (h : i = 0) : Adds E o i n v (push_front E o v)

/-- the allocator serves the `k` requests from number `n` on: each answer is an
address, free in `m`, and none of the `k - 1` answers before it -/
def Supplies (E : Env α) (m : Mem α) (n k : Nat) : Prop :=
  ∀ j, n ≤ j → j < n + k → E.oracle j ≠ 0 ∧ m.cell (.heap (E.oracle j)) = none ∧
    ∀ i, i < j → j < i + k → E.oracle i ≠ E.oracle j

/-- copies of `v` stop throwing -/
def Settles (E : Env α) (v : α) : Prop := E.trivCopy = true ∨ ∃ N, ∀ t, N ≤ t → E.cthrow t v = false

/-! ### One attempt -/

theorem Reach.height_ok (hr : Reach E m) (hE : E.Good) (hc : Contents E o m xs) : ∃ h, height o m = .ok h m := by
  obtain ⟨al, s, F, hs, -, H⟩ := hr.cont hE hc
  exact ⟨_, getHeight_c H⟩

theorem Adds.outcome (hx : Adds E o i xs.length v x) (hE : E.Good) (hr : Reach E m) (hc : Contents E o m xs)
    (hi : i ≤ xs.length) (hsz : xs.length + 1 ≤ max_size E) (hh : height o m = .ok h m) :
    (∃ m', x m = .ok () m' ∧ Contents E o m' (ins xs i [v]) ∧ After E o m m') ∨
    (∃ e m', x m = .throw e m' ∧ Blame E [v] e ∧ m'.cell = m.cell ∧ Contents E o m' xs ∧ After E o m m' ∧
      m'.log.reqs ≤ m.log.reqs + (h + 1) ∧
      (e = .alloc → LastRefused E m m') ∧
      (E.trivCopy = false → m'.ticks = m.ticks + 1) ∧
      (e = .elem → E.trivCopy = false ∧ E.cthrow m.ticks v = true ∧ m'.log = m.log)) := by
  obtain ⟨it, hn⟩ := hr.nth hE hc i
  obtain ⟨S, al, hv, ho, -⟩ := hr.view hE hc
  obtain ⟨u, hpre, hok, hexc, hsrc, hrun, hthr, hins, hl, hcopy⟩ : ∃ u : Un α, (∀ al, u.Pre E ⟨al, xs⟩) ∧
      (∀ al r y, u.Ok ⟨al, xs⟩ r y → y.elems = ins xs i [v]) ∧
      (∀ al e y, u.Exc E ⟨al, xs⟩ e y → Blame E [v] e ∧ y.elems = xs) ∧
      (∀ al, u.source ⟨al, xs⟩ = [v]) ∧
      (∀ r m', u.run E o m = .ok r m' → x m = .ok () m') ∧ (∀ e m', u.run E o m = .throw e m' → x m = .throw e m') ∧
      (∃ y, Insertion E o i xs.length it v y ∧ y m = x m) ∧ Last E x ∧
      (E.trivCopy = false → E.cthrow m.ticks v = true → x m = .throw .elem m.tick) := by
    cases hx with
    | insert =>
      refine ⟨.insert i v, fun _ => ⟨hi, hsz⟩, ?_, ?_, fun _ => rfl, ?_, ?_, ⟨_, .insert, ?_⟩, ?_, ?_⟩
      · rintro al r y ⟨-, rfl⟩; rfl
      · rintro al e y ⟨h1, rfl⟩; exact ⟨h1, rfl⟩
      · intro r m' h1
        obtain ⟨jt, h5, -⟩ := pos_inv h1
        unfold insert_at
        rw [bind_ok hn] at h5 ⊢
        rw [bind_ok h5]; rfl
      · intro e m' h1
        have h5 := pos_inv_throw h1
        unfold insert_at
        rw [bind_ok hn] at h5 ⊢
        rw [bind_throw h5]
      · unfold insert_at; rw [bind_ok hn]
      · unfold insert_at; infer_instance
      · intro h1 h2
        unfold insert_at
        rw [bind_ok hn]
        exact bind_throw (C11_copy_throws hE hr hc h1 h2).1
    | push_back h =>
      subst h
      refine ⟨.pushBack v, fun _ => hsz, ?_, ?_, fun _ => rfl, ?_, ?_, ⟨_, .push_back rfl, rfl⟩, ?_, ?_⟩
      · rintro al r y ⟨-, rfl⟩; simp [ins]
      · rintro al e y ⟨h1, rfl⟩; exact ⟨h1, rfl⟩
      · intro r m' h1; obtain ⟨-, u, h5⟩ := unit_inv h1; exact h5
      · intro e m' h1; exact unit_inv_throw h1
      · unfold SegTree.push_back; infer_instance
      · intro h1 h2
        exact (C11_copy_throws (it := it) hE hr hc h1 h2).2.1
    | push_front h =>
      subst h
      refine ⟨.pushFront v, fun _ => hsz, ?_, ?_, fun _ => rfl, ?_, ?_, ⟨_, .push_front rfl, rfl⟩, ?_, ?_⟩
      · rintro al r y ⟨-, rfl⟩; simp [ins]
      · rintro al e y ⟨h1, rfl⟩; exact ⟨h1, rfl⟩
      · intro r m' h1; obtain ⟨-, u, h5⟩ := unit_inv h1; exact h5
      · intro e m' h1; exact unit_inv_throw h1
      · unfold SegTree.push_front; infer_instance
      · intro h1 h2
        exact (C11_copy_throws (it := it) hE hr hc h1 h2).2.2
  rcases hr.call hE hc u hpre with ⟨r, m', al', y, h1, h2, h3, h4⟩ | ⟨e, m', al', y, h1, h2, h3, h4⟩
  · exact .inl ⟨m', hrun _ _ h1, (hok _ _ _ h2) ▸ h3, h4⟩
  · have hxm := hthr _ _ h1
    obtain ⟨hb, hy⟩ := hexc _ _ _ h2
    obtain ⟨y0, hi0, hi1⟩ := hins
    have hcell := (C11_copy_failure hE hr hc hi hn hsz hi0 (hi1.trans hxm)).1
    have hreq := C15_requests hE hr hc hi hn hsz hi0 hh (.inr (hi1.trans hxm))
    refine .inr ⟨e, m', hxm, hb, hcell, hy ▸ h3, h4, hreq, ?_, ?_, ?_⟩
    · rintro rfl; exact hl.run _ _ hxm
    · intro ht
      obtain ⟨k, hk, hbr, -⟩ := (C72_outcome hE ht hr hv (c := .un o u) ⟨_, ho, hpre _⟩).2 e m' h1
        (by simp [Op.source, ho, hsrc])
      simp only [Op.source, ho, hsrc, List.length_singleton, Nat.lt_one_iff] at hk
      subst hk
      exact hbr.1
    · rintro rfl
      rcases hb with hb | ⟨-, w, hw, ht, -⟩
      · cases hb
      have hcv : E.cthrow m.ticks v = true := by
        obtain ⟨k, hk, hbr, -⟩ := (C72_outcome hE ht hr hv (c := .un o u) ⟨_, ho, hpre _⟩).2 _ m' h1
          (by simp [Op.source, ho, hsrc])
        simp only [Op.source, ho, hsrc, List.length_singleton, Nat.lt_one_iff] at hk
        subst hk
        obtain ⟨-, -, w, hw, h5⟩ := hbr
        simp only [Op.source, ho, hsrc, List.getElem?_cons_zero, Option.some.injEq] at hw
        subst hw
        rcases h5 with ⟨h5, -⟩ | ⟨-, h5⟩
        · exact h5
        · cases h5
      have := hcopy ht hcv
      rw [hxm] at this
      cases this
      exact ⟨ht, hcv, rfl⟩

/-! ### The loop -/

theorem retry_eq (m : Mem α) : retry c x m = match x m with
    | .ok _ m' => .ok () m'
    | .throw e m' => if c e then retry c x m' else .throw e m'
    | .ub k => .ub k
    | .div => .div := by
  rw [retry]
  cases x m <;> rfl

/-- a loop whose attempts keep `P` when they fail and establish `Q` when they succeed -/
theorem retry_inv {P Q : Mem α → Prop} {R : Exn → Prop}
    (hs : ∀ m, P m → (∃ m', x m = .ok () m' ∧ Q m') ∨ (∃ e m', x m = .throw e m' ∧ P m' ∧ R e)) :
    ∀ m, P m → (∃ m', retry c x m = .ok () m' ∧ Q m') ∨ (∃ e m', retry c x m = .throw e m' ∧ c e = false ∧ P m' ∧ R e) ∨
      retry c x m = .div := by
  refine retry.fixpoint_induct c x (fun f => ∀ m, P m → (∃ m', f m = .ok () m' ∧ Q m') ∨
    (∃ e m', f m = .throw e m' ∧ c e = false ∧ P m' ∧ R e) ∨ f m = .div) ?_ ?_
  · refine admissible_pi _ fun m => admissible_pi _ fun _ => ?_
    exact admissible_apply (fun (_ : Mem α) (r : Res α Unit) => (∃ m', r = .ok () m' ∧ Q m') ∨
      (∃ e m', r = .throw e m' ∧ c e = false ∧ P m' ∧ R e) ∨ r = .div) m (admissible_flatOrder _ (.inr (.inr rfl)))
  · intro f ih m hm
    rcases hs m hm with ⟨m', h1, h2⟩ | ⟨e, m', h1, h2, h3⟩
    · simp only [h1]; exact .inl ⟨m', rfl, h2⟩
    · simp only [h1]
      cases hce : c e with
      | true => rw [if_pos rfl]; exact ih m' h2
      | false => simp only [Bool.false_eq_true, if_false]; exact .inr (.inl ⟨e, m', rfl, hce, h2, h3⟩)

/-- C79: a client that repeats a copying insertion as long as it fails with an
exception the client catches.  The program is defined whatever fails and how often;
if the loop ends, the element is in the sequence exactly once and everything else is
as before; if an exception gets through, it is one the client does not catch, and
nothing in memory has changed since the first attempt. -/
theorem C79_retry (hE : E.Good) (hr : Reach E m) (hc : Contents E o m xs) (hi : i ≤ xs.length)
    (hsz : xs.length + 1 ≤ max_size E) (hx : Adds E o i xs.length v x) :
    (∃ m', retry c x m = .ok () m' ∧ Contents E o m' (ins xs i [v]) ∧ After E o m m') ∨
    (∃ e m', retry c x m = .throw e m' ∧ c e = false ∧ Blame E [v] e ∧ m'.cell = m.cell ∧ Contents E o m' xs ∧ After E o m m') ∨
    retry c x m = .div := by
  have key := retry_inv (c := c) (x := x) (P := fun m' => m'.cell = m.cell ∧ Contents E o m' xs ∧ After E o m m')
    (Q := fun m' => Contents E o m' (ins xs i [v]) ∧ After E o m m') (R := Blame E [v]) (fun m1 h1 => by
      obtain ⟨g1, g2, g3⟩ := h1
      obtain ⟨h, hh⟩ := g3.reach.height_ok hE g2
      rcases hx.outcome hE g3.reach g2 hi hsz hh with ⟨m2, h2, h3, h4⟩ | ⟨e, m2, h2, h3, h4, h5, h6, -⟩
      · exact .inl ⟨m2, h2, h3, g3.trans h4⟩
      · exact .inr ⟨e, m2, h2, ⟨h4.trans g1, h5, g3.trans h6⟩, h3⟩) m ⟨rfl, hc, .refl hr hc hE⟩
  rcases key with h | ⟨e, m', h1, h2, ⟨h3, h4, h5⟩, h6⟩ | h
  · exact .inl h
  · exact .inr (.inl ⟨e, m', h1, h2, h6, h3, h4, h5⟩)
  · exact .inr (.inr h)

theorem height_of_cell (h : m'.cell = m.cell) (hh : height o m = .ok n m) : height o m' = .ok n m' := by
  have key : ∀ m : Mem α, height o m = match m.cell (.obj o) with
      | some (.obj s) => .ok s.ht m
      | _ => .ub .access := by
    intro m
    show M.bind (rdObj o) _ m = _
    unfold M.bind rdObj
    rcases m.cell (.obj o) with _ | (_ | _ | _) <;> rfl
  rw [key] at hh ⊢
  rw [h]
  rcases hm : m.cell (.obj o) with _ | (_ | _ | s) <;> rw [hm] at hh <;> cases hh
  rfl

theorem Supplies.refused (hs : Supplies E m n (h + 1)) {m1 m2 : Mem α} (hc : m1.cell = m.cell) (hle : m1.log.reqs ≤ n)
    (hreq : m2.log.reqs ≤ m1.log.reqs + (h + 1)) (hl : LastRefused E m1 m2) :
    m1.log.reqs < m2.log.reqs ∧ m2.log.reqs ≤ n := by
  obtain ⟨m3, h1, h2, h3⟩ := hl
  refine ⟨by have := h1.le; omega, ?_⟩
  rcases Nat.lt_or_ge n m2.log.reqs with hn | hn
  · exfalso
    obtain ⟨g1, g2, g3⟩ := hs m3.log.reqs (by omega) (by omega)
    rcases h3 with h3 | h3
    · exact g1 h3
    · rcases h1.live _ h3 with h4 | ⟨k, hk, hk', e⟩
      · unfold Live at h4
        rw [hc, g2] at h4; cases h4
      · exact g3 k hk' (by omega) e
  · exact hn

/-- C79: the loop ends if memory is there again and again for as many requests in a
row as one insertion makes at most (`height() + 1`, C15), and copies of the value
stop throwing. -/
theorem C79_ends (hE : E.Good) (hr : Reach E m) (hc : Contents E o m xs) (hi : i ≤ xs.length)
    (hsz : xs.length + 1 ≤ max_size E) (hx : Adds E o i xs.length v x) (hh : height o m = .ok h m)
    (hs : ∀ k, ∃ n, k ≤ n ∧ Supplies E m n (h + 1)) (hv : Settles E v) : retry c x m ≠ .div := by
  obtain ⟨n, hn, hs⟩ := hs m.log.reqs
  obtain ⟨N, hN, hN0⟩ : ∃ N, (∀ t, N ≤ t → E.trivCopy = false → E.cthrow t v = false) ∧ (E.trivCopy = true → N = 0) := by
    cases ht : E.trivCopy with
    | true => exact ⟨0, fun t _ h => (by cases h), fun _ => rfl⟩
    | false =>
      rcases hv with hv | ⟨N, hN⟩
      · rw [ht] at hv; cases hv
      · exact ⟨N, fun t ht _ => hN t ht, fun h => (by cases h)⟩
  -- copies until they stop throwing, plus requests until the window
  have key : ∀ (b : Nat) (m1 : Mem α), (N - m1.ticks) + (n - m1.log.reqs) ≤ b → m1.log.reqs ≤ n → m1.cell = m.cell →
      Contents E o m1 xs → Reach E m1 → retry c x m1 ≠ .div := by
    intro b
    induction b with
    | zero =>
      intro m1 ha hle hcell g2 g3
      rw [retry_eq]
      rcases hx.outcome hE g3 g2 hi hsz (height_of_cell hcell hh) with
        ⟨m2, h2, -⟩ | ⟨e, m2, h2, h3, h4, h5, h6, h7, h8, h9, h10⟩
      · rw [h2]; exact fun h => by cases h
      · exfalso
        rcases h3 with rfl | ⟨rfl, -⟩
        · have := hs.refused hcell hle h7 (h8 rfl); omega
        · obtain ⟨t1, t2, -⟩ := h10 rfl
          rw [hN _ (by omega) t1] at t2; cases t2
    | succ b ih =>
      intro m1 ha hle hcell g2 g3
      rw [retry_eq]
      rcases hx.outcome hE g3 g2 hi hsz (height_of_cell hcell hh) with
        ⟨m2, h2, -⟩ | ⟨e, m2, h2, h3, h4, h5, h6, h7, h8, h9, h10⟩
      · rw [h2]; exact fun h => by cases h
      · rw [h2]
        have hd : (N - m2.ticks) + (n - m2.log.reqs) ≤ b ∧ m2.log.reqs ≤ n := by
          have htk : N - m2.ticks ≤ N - m1.ticks := by
            cases ht : E.trivCopy with
            | true => have := hN0 ht; omega
            | false => have := h9 ht; omega
          rcases h3 with rfl | ⟨rfl, -⟩
          · have h11 := hs.refused hcell hle h7 (h8 rfl); omega
          · obtain ⟨t1, t2, t3⟩ := h10 rfl
            have h12 := h9 t1
            rcases Nat.lt_or_ge m1.ticks N with h13 | h13
            · rw [t3]; omega
            · rw [hN _ h13 t1] at t2; cases t2
        cases hce : c e with
        | true => simp only [hce, if_true]; exact ih m2 hd.1 hd.2 (h4.trans hcell) h5 h6.reach
        | false => simp only [hce]; exact fun h => by cases h
  exact key _ m (Nat.le_refl _) hn rfl hc hr

/-! ### The repository's program -/

/-- an allocator that recovers from every shortage: a block it hands out is a new one,
and for every `k` it sooner or later serves `k` requests in a row -/
def Recovers (E : Env α) : Prop :=
  (∀ i j, E.oracle i ≠ 0 → E.oracle i = E.oracle j → i = j) ∧
  ∀ k n, ∃ N, n ≤ N ∧ ∀ j, N ≤ j → j < N + k → E.oracle j ≠ 0

theorem Recovers.supplies (hR : Recovers E) (hr : Reach E m) (k n : Nat) : ∃ N, n ≤ N ∧ Supplies E m N k := by
  obtain ⟨N, h1, h2⟩ := hR.2 k (n + m.log.reqs)
  refine ⟨N, by omega, fun j hj hk => ⟨h2 j hj hk, ?_, fun i hi _ e => ?_⟩⟩
  · rcases hcell : m.cell (.heap (E.oracle j)) with _ | w
    · rfl
    · exfalso
      have hl : Live m (E.oracle j) := by unfold Live; rw [hcell]; rfl
      obtain ⟨i, h3, h4⟩ := hr.live hl
      have := hR.1 j i (h2 j hj hk) h4.symm
      omega
  · have := hR.1 j i (h2 j hj hk) e.symm
    omega

theorem insert_single_retry_loop_c (hE : E.Good) (hd : d.Single) (hmax : d.indexes.length ≤ max_size E) :
    ∀ (left i : Nat) (m : Mem α), i + left = d.indexes.length → Reach E m → Contents E o m (d.single i) →
    (∃ m', insert_single_retry_loop E c o d left i m = .ok () m' ∧ After E o m m' ∧
      Contents E o m' (d.single d.indexes.length)) ∨
    (∃ e m', insert_single_retry_loop E c o d left i m = .throw e m' ∧ c e = false ∧ Blame E d.ordered e ∧ After E o m m' ∧
      ∃ k < d.indexes.length, Contents E o m' (d.single k)) ∨
    (insert_single_retry_loop E c o d left i m = .div ∧ ¬ (Recovers E ∧ ∀ v ∈ d.ordered, Settles E v)) := by
  intro left
  induction left with
  | zero =>
    intro i m hi hr hc
    rw [Nat.add_zero] at hi
    subst hi
    exact .inl ⟨m, rfl, .refl hr hc hE, hc⟩
  | succ left ih =>
    intro i m hi hr hc
    have h1 : i < d.indexes.length := by omega
    have h2 : i < d.ordered.length := by have := hd.len; omega
    have hl := single_length hd i (by omega)
    have hle := hd.le i h1
    unfold insert_single_retry_loop
    rw [List.getElem?_eq_getElem h1, List.getElem?_eq_getElem h2]
    rcases C79_retry (c := c) (v := d.ordered[i]) hE hr hc (i := d.indexes[i]) (by omega) (by omega) .insert with
      ⟨m', h3, h4, h5⟩ | ⟨e, m', h3, h4, h5, -, h6, h7⟩ | h3
    · rw [← single_succ hd h1] at h4
      simp only []
      rw [bind_ok h3]
      rcases ih (i + 1) m' (by omega) h5.reach h4 with ⟨m2, g1, g2, g3⟩ | ⟨e, m2, g1, g2, g3, g4, g5⟩ | g
      · exact .inl ⟨m2, g1, h5.trans g2, g3⟩
      · exact .inr (.inl ⟨e, m2, g1, g2, g3, h5.trans g4, g5⟩)
      · exact .inr (.inr g)
    · simp only []
      refine .inr (.inl ⟨e, m', bind_throw h3, h4, ?_, h7, i, h1, h6⟩)
      rcases h5 with rfl | ⟨rfl, w, hw, ht⟩
      · exact .inl rfl
      · simp only [List.mem_singleton] at hw
        subst hw
        exact .inr ⟨rfl, _, List.getElem_mem _, ht⟩
    · refine .inr (.inr ⟨?_, fun hR => ?_⟩)
      · show M.bind _ _ m = _
        unfold M.bind
        rw [h3]
      · obtain ⟨h, hh⟩ := hr.height_ok hE hc
        exact C79_ends hE hr hc (by omega) (by omega) .insert hh (hR.1.supplies hr (h + 1))
          (hR.2 _ (List.getElem_mem h2)) h3

/-- C79: `insert_single_retry` builds the sequence the data describe whatever
exceptions of the kinds it catches occur on the way, and `erase_single` takes it down
to the first element; an exception it does not catch leaves the sequence built so far.
It ends, one way or the other, if the allocator recovers and copies stop throwing. -/
theorem C79_program (hE : E.Good) (hr : Reach E m) (hc : Contents E o m []) (hd : d.Single)
    (hmax : d.indexes.length ≤ max_size E) :
    (∃ m1, insert_single_retry E c o d m = .ok () m1 ∧ Contents E o m1 (d.single d.indexes.length) ∧ After E o m m1 ∧
      ∀ h : 0 < d.ordered.length, ∃ m2, Bench.erase_single E o d m1 = .ok () m2 ∧
        Contents E o m2 [d.ordered[0]] ∧ After E o m m2) ∨
    (∃ e m1, insert_single_retry E c o d m = .throw e m1 ∧ c e = false ∧ Blame E d.ordered e ∧ After E o m m1 ∧
      ∃ k < d.indexes.length, Contents E o m1 (d.single k)) ∨
    (insert_single_retry E c o d m = .div ∧ ¬ (Recovers E ∧ ∀ v ∈ d.ordered, Settles E v)) := by
  rcases insert_single_retry_loop_c (c := c) hE hd hmax d.indexes.length 0 m (by omega) hr hc with ⟨m1, h1, h2, h3⟩ | h
  · refine .inl ⟨m1, h1, h3, h2, fun h => ?_⟩
    have hl := hd.len
    obtain ⟨k, e⟩ : ∃ k, d.indexes.length = k + 1 := ⟨d.indexes.length - 1, by omega⟩
    obtain ⟨m2, h4, h5, h6⟩ := erase_single_loop_c hE hd k m1 (by omega) h2.reach (e ▸ h3)
    refine ⟨m2, ?_, ?_, h2.trans h5⟩
    · unfold Bench.erase_single
      rw [e]
      exact h4
    · rw [single_succ hd (by omega)] at h6
      have h0 : d.indexes[0]'(by omega) = 0 := by have := hd.le 0 (by omega); omega
      rw [h0] at h6
      exact h6
  · exact .inr h

/-- C79: with every exception of the element copies and of the allocator caught, the
program, on data generated from any random numbers, builds the whole sequence. -/
theorem C79_builds (hE : E.Good) (hr : Reach E m) (hc : Contents E o m [])
    (hdata : make_insertion_data_single W G bits count = some d) (hmax : count ≤ max_size E)
    (hall : c .alloc = true ∧ c .elem = true) (hR : Recovers E) (hS : ∀ v ∈ d.ordered, Settles E v) :
    ∃ m1, insert_single_retry E c o d m = .ok () m1 ∧ Contents E o m1 (d.single count) ∧ After E o m m1 := by
  obtain ⟨h1, -, hd⟩ := C60_generate_single hdata
  subst h1
  rcases C79_program (c := c) hE hr hc hd hmax with ⟨m1, h2, h3, h4, -⟩ | ⟨e, m1, -, h3, h4, -⟩ | ⟨-, h⟩
  · exact ⟨m1, h2, h3, h4⟩
  · rcases h4 with rfl | ⟨rfl, -⟩
    · rw [hall.1] at h3; cases h3
    · rw [hall.2] at h3; cases h3
  · exact (h ⟨hR, hS⟩).elim

/-! ### The loop without memory -/

/-- a loop all of whose attempts fail with exceptions it catches never ends -/
theorem retry_div {P : Mem α → Prop} (hs : ∀ m, P m → ∃ e m', x m = .throw e m' ∧ c e = true ∧ P m') :
    ∀ m, P m → retry c x m = .div := by
  have key := retry_inv (c := c) (x := x) (P := P) (Q := fun _ => False) (R := fun e => c e = true)
    (fun m hm => by obtain ⟨e, m', h1, h2, h3⟩ := hs m hm; exact .inr ⟨e, m', h1, h3, h2⟩)
  intro m hm
  rcases key m hm with ⟨_, _, h⟩ | ⟨e, _, _, h1, _, h2⟩ | h
  · exact h.elim
  · rw [h2] at h1; cases h1
  · exact h

theorem Reach.has_memory (hr : Reach E m) (hE : E.Good) (hc : Contents E o m xs) (h : 0 < xs.length) :
    ∃ k < m.log.reqs, E.oracle k ≠ 0 := by
  obtain ⟨al, s, F, hs, rfl, H⟩ := hr.cont hE hc
  obtain ⟨it, ha⟩ := St.At.exists hs (Nat.zero_le _)
  have h1 := rdElem_c hs ha h H
  have hl : Live m it.entry.seg.ptr := by
    unfold rdElem at h1
    change M.bind _ _ _ = _ at h1
    unfold M.bind rdSlots at h1
    unfold Live
    cases hcell : m.cell (.heap it.entry.seg.ptr) with
    | none => rw [hcell] at h1; cases h1
    | some c => rfl
  obtain ⟨k, hk, e⟩ := hr.live hl
  refine ⟨k, hk, fun h0 => ?_⟩
  rw [← e, h0] at hl
  unfold Live at hl
  rw [H.null] at hl
  cases hl

/-- C79: recovery is needed: without memory, a client that catches every failure
tries for ever to add the first element. -/
theorem C79_hopeless (hE : E.Good) (hr : Reach E m) (hc : Contents E o m []) (hsz : 1 ≤ max_size E)
    (hall : c .alloc = true ∧ c .elem = true) (hx : Adds E o 0 0 v x) (h0 : ∀ n, E.oracle n = 0) :
    retry c x m = .div := by
  refine retry_div (P := fun m => Contents E o m [] ∧ Reach E m) (fun m1 h1 => ?_) m ⟨hc, hr⟩
  obtain ⟨g1, g2⟩ := h1
  obtain ⟨h, hh⟩ := g2.height_ok hE g1
  rcases Adds.outcome (xs := []) hx hE g2 g1 (Nat.le_refl _) hsz hh with
    ⟨m2, h2, h3, h4⟩ | ⟨e, m2, h2, h3, h4, h5, h6, -⟩
  · obtain ⟨k, -, hk⟩ := h4.reach.has_memory hE h3 (by simp [ins])
    exact (hk (h0 k)).elim
  · refine ⟨e, m2, h2, ?_, h5, h6.reach⟩
    rcases h3 with rfl | ⟨rfl, -⟩
    · exact hall.1
    · exact hall.2

/-! ### Examples -/

/-- an allocator that refuses the requests with the numbers 0, 1, 4, 9, 16, ..., and
elements the first three copies of which throw -/
def moody : Env Nat := { demo with
  oracle := fun n => if (List.range (n + 1)).any (fun k => k * k == n) then 0 else n + 1
  cthrow := fun n _ => decide (n < 3) }

theorem moody_good : moody.Good := ⟨by decide, fun _ => .inr rfl, by decide, by decide⟩

theorem moody_recovers : Recovers moody := by
  constructor
  · intro i j
    simp only [moody]
    split <;> split
    · intro h; exact absurd rfl h
    · intro h; exact absurd rfl h
    · intro _ h; cases h
    · intro _ h; omega
  · intro k n
    refine ⟨(n + k) * (n + k) + 1, by nlinarith [Nat.zero_le n, Nat.zero_le k], fun j h1 h2 h3 => ?_⟩
    simp only [moody] at h3
    split at h3
    · rename_i hs
      simp only [List.any_eq_true, beq_iff_eq] at hs
      obtain ⟨q, -, hq⟩ := hs
      rcases Nat.lt_or_ge (n + k) q with h4 | h4
      · have : (n + k + 1) * (n + k + 1) ≤ q * q := Nat.mul_le_mul h4 h4
        rw [show (n + k + 1) * (n + k + 1) = (n + k) * (n + k) + 2 * n + 2 * k + 1 by ring] at this
        omega
      · have : q * q ≤ (n + k) * (n + k) := Nat.mul_le_mul h4 h4
        omega
    · cases h3

theorem moody_settles (v : Nat) : Settles moody v :=
  .inr ⟨3, fun t ht => by simp only [moody, decide_eq_false_iff_not]; omega⟩

theorem moody_start : Reach moody empty0 ∧ Contents moody 0 empty0 [] := by
  refine ⟨empty0_reach, ?_⟩
  have := (empty0_wide (α := Nat)).view (E := moody) 0
  rw [upd_self] at this
  exact this.2

/-- the data `insert_single` takes for `[30, 20, 10, 40]` -/
def fourth : InsertionData Nat := ⟨[0, 0, 2, 1], [10, 30, 40, 20]⟩

-- the data are right, the first attempt to add the first element throws, and so do others after it; the program ends with
-- the whole sequence
example : fourth.Single ∧ fourth.single 4 = [30, 20, 10, 40] ∧ (∃ m, insert_at moody 0 0 10 empty0 = .throw .elem m) ∧
    ∃ m1, insert_single_retry moody (fun _ => true) 0 fourth empty0 = .ok () m1 ∧
      Contents moody 0 m1 [30, 20, 10, 40] ∧ Reach moody m1 := by
  have hd : fourth.Single := ⟨rfl, by decide⟩
  refine ⟨hd, by decide, ⟨empty0.tick, ?_⟩, ?_⟩
  · obtain ⟨it, hn⟩ := moody_start.1.nth moody_good moody_start.2 0
    unfold insert_at
    rw [bind_ok hn]
    exact bind_throw (C11_copy_throws moody_good moody_start.1 moody_start.2 rfl rfl).1
  · rcases C79_program (c := fun _ => true) moody_good moody_start.1 moody_start.2 hd (by decide) with
      ⟨m1, h2, h3, h4, -⟩ | ⟨e, m1, -, h3, -⟩ | ⟨-, h⟩
    · exact ⟨m1, h2, h3, h4.reach⟩
    · cases h3
    · exact (h ⟨moody_recovers, fun v _ => moody_settles v⟩).elim

-- one element more, at either end or in the middle, in a memory with failures still to come
example : ∃ m, Reach moody m ∧ Contents moody 0 m [5] ∧ ∀ x, Adds moody 0 0 1 7 x →
    ∃ m', retry (fun _ => true) x m = .ok () m' ∧ Contents moody 0 m' [7, 5] := by
  obtain ⟨h, hh⟩ := moody_start.1.height_ok moody_good moody_start.2
  have hx : Adds moody 0 0 0 5 (push_back moody 0 5) := .push_back rfl
  have := C79_ends (c := fun _ => true) moody_good moody_start.1 moody_start.2 (Nat.le_refl _) (by decide) hx hh
    (moody_recovers.supplies moody_start.1 (h + 1)) (moody_settles 5)
  rcases C79_retry (c := fun _ => true) moody_good moody_start.1 moody_start.2 (Nat.le_refl _) (by decide) hx with
    ⟨m1, h2, h3, ⟨h4, -⟩⟩ | ⟨e, m1, -, h3, -⟩ | h
  · refine ⟨m1, h4, h3, fun x hx => ?_⟩
    obtain ⟨h, hh⟩ := h4.height_ok moody_good h3
    have := C79_ends (xs := [5]) (c := fun _ => true) moody_good h4 h3 (Nat.zero_le _) (by decide) hx hh
      (moody_recovers.supplies h4 (h + 1)) (moody_settles 7)
    rcases C79_retry (xs := [5]) (c := fun _ => true) moody_good h4 h3 (Nat.zero_le _) (by decide) hx with
      ⟨m2, h5, h6, h7⟩ | ⟨e, m1, -, h3, -⟩ | h
    · exact ⟨m2, h5, h6⟩
    · cases h3
    · exact (this h).elim
  · cases h3
  · exact (this h).elim

-- an allocator without a single block
example : retry (fun _ => true) (push_back { demo with oracle := fun _ => 0 } 0 1) empty0 = .div := by
  refine C79_hopeless (E := { demo with oracle := fun _ => 0 }) (c := fun _ => true) (v := 1) ⟨by decide, fun _ => .inr rfl, by decide, by decide⟩ empty0_reach ?_ (by decide)
    ⟨rfl, rfl⟩ (.push_back rfl) (fun _ => rfl)
  have := (empty0_wide (α := Nat)).view (E := { demo with oracle := fun _ => 0 }) 0
  rw [upd_self] at this
  exact this.2

end SegTree
