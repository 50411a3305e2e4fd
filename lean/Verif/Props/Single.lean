/-
  C01-C03, C05-C07, C10, C11, C15, C42 (single insertion): calls that insert,
  erase, read or write one element.

  Reading guide.  `Reach E m`: `m` is the memory of some program after any
  history of calls on any number of containers.  `Contents E o m xs`: the
  container `o` holds `xs`.  `nth E o i m = .ok it m`: `it` is `o.nth(i)`.
  `f ... m = .ok r m'`: the call returned `r` and left the memory `m'`;
  `= .throw e m'`: it threw `e`.
-/
import Verif.Proof.Use
set_option autoImplicit false

namespace SegTree
variable {α : Type} {E : Env α} {m m' : Mem α} {o i j : Nat} {xs : List α} {v : α} {it jt kt : Iter} {e : Exn}

/-! ### A reachable memory with a tall tree, for the examples -/

/-- the content used in the examples: 8 elements, in the small configuration a
tree of height at least 3 -/
def eight : List Nat := [10, 11, 12, 14, 15, 16, 17, 18]

theorem demo_eight : ∃ m, Reach demo m ∧ Contents demo 0 m eight ∧ ∃ n, height 0 m = .ok n m ∧ 3 ≤ n := by
  obtain ⟨m, h1, h2⟩ := demo_list eight
  obtain ⟨al, s, F, hs, he, H⟩ := h1.cont demo_good h2
  have h3 : height 0 m = .ok s.ht m := getHeight_c H
  exact ⟨m, h1, h2, s.ht, h3, demo_height h1 h2 h3 (by decide)⟩

/-! ### C01, C03: insertion -/

/-- C01: `insert(nth(i), v)` -/
theorem C01_insert (hE : E.Good) (hr : Reach E m) (hc : Contents E o m xs) (hi : i ≤ xs.length)
    (hn : nth E o i m = .ok it m) (hsz : xs.length + 1 ≤ max_size E) (h : insert E o it v m = .ok jt m') :
    Contents E o m' (xs.take i ++ v :: xs.drop i) := by
  obtain ⟨al, s, F, hs, rfl, H⟩ := hr.cont hE hc
  obtain ⟨s', n, hs', he, -, -, H'⟩ :=
    (emplace_single_c hE (Mk.copy v) hs (at_of_nth hs H hi hn) (max_lt hE hsz) H).ret h
  rw [← he]
  exact cont_contents hs' H'

/-- C01: `insert(nth(i), T&&)` and `emplace(nth(i), args...)` -/
theorem C01_insert_rv (hE : E.Good) (hr : Reach E m) (hc : Contents E o m xs) (hi : i ≤ xs.length)
    (hn : nth E o i m = .ok it m) (hsz : xs.length + 1 ≤ max_size E) (h : insert_rv E o it v m = .ok jt m') :
    Contents E o m' (xs.take i ++ v :: xs.drop i) := by
  obtain ⟨al, s, F, hs, rfl, H⟩ := hr.cont hE hc
  obtain ⟨s', n, hs', he, -, -, H'⟩ :=
    (emplace_single_c (T := fun _ => False) hE (Mk.pure v) hs (at_of_nth hs H hi hn) (max_lt hE hsz) H).ret h
  rw [← he]
  exact cont_contents hs' H'

section
variable (hE : E.Good) (hr : Reach E m) (hc : Contents E o m xs)
include hE hr hc

theorem push_ret {T : α → Prop} {mk : M α α} (hm : Mk T v mk) (hsz : xs.length + 1 ≤ max_size E)
    (h : (do let _ ← emplace_single E o (← find_end E o) mk : M α Unit) m = .ok () m') :
    Contents E o m' (xs ++ [v]) := by
  obtain ⟨al, s, F, hs, rfl, H⟩ := hr.cont hE hc
  obtain ⟨en, hen⟩ := St.At.exists hs (Nat.le_refl _)
  rw [bind_ok (find_end_c hs hen H)] at h
  obtain ⟨it, m1, h1, h2⟩ := bind_inv h
  cases h2
  obtain ⟨s', n, hs', he, -, -, H'⟩ := (emplace_single_c hE hm hs hen (max_lt hE hsz) H).ret h1
  have : s'.elems = s.elems ++ [v] := by rw [he]; simp
  rw [← this]
  exact cont_contents hs' H'

theorem push_front_ret {T : α → Prop} {mk : M α α} (hm : Mk T v mk) (hsz : xs.length + 1 ≤ max_size E)
    (h : (do let _ ← emplace_single E o (← find_first E o) mk : M α Unit) m = .ok () m') :
    Contents E o m' (v :: xs) := by
  obtain ⟨al, s, F, hs, rfl, H⟩ := hr.cont hE hc
  obtain ⟨en, hen⟩ := St.At.exists hs (Nat.zero_le _)
  rw [bind_ok (find_first_c hs hen H)] at h
  obtain ⟨it, m1, h1, h2⟩ := bind_inv h
  cases h2
  obtain ⟨s', n, hs', he, -, -, H'⟩ := (emplace_single_c hE hm hs hen (max_lt hE hsz) H).ret h1
  have : s'.elems = v :: s.elems := by rw [he]; simp
  rw [← this]
  exact cont_contents hs' H'
end

/-- C01: `push_back(v)`, and `push_back(T&&)` / `emplace_back(args...)` -/
theorem C01_push_back (hE : E.Good) (hr : Reach E m) (hc : Contents E o m xs) (hsz : xs.length + 1 ≤ max_size E)
    (h : push_back E o v m = .ok () m' ∨ push_back_rv E o v m = .ok () m') :
    Contents E o m' (xs ++ [v]) := by
  rcases h with h | h
  · exact push_ret hE hr hc (Mk.copy v) hsz h
  · exact push_ret (T := fun _ => False) hE hr hc (Mk.pure v) hsz h

/-- C01: `push_front(v)`, and `push_front(T&&)` / `emplace_front(args...)` -/
theorem C01_push_front (hE : E.Good) (hr : Reach E m) (hc : Contents E o m xs) (hsz : xs.length + 1 ≤ max_size E)
    (h : push_front E o v m = .ok () m' ∨ push_front_rv E o v m = .ok () m') :
    Contents E o m' (v :: xs) := by
  rcases h with h | h
  · exact push_front_ret hE hr hc (Mk.copy v) hsz h
  · exact push_front_ret (T := fun _ => False) hE hr hc (Mk.pure v) hsz h

/-- C03: the iterator returned by an insertion at `i` is, in every field,
`nth(i)` of the new container, and it refers to the inserted element. -/
theorem C03_insert (hE : E.Good) (hr : Reach E m) (hc : Contents E o m xs) (hi : i ≤ xs.length)
    (hn : nth E o i m = .ok it m) (hsz : xs.length + 1 ≤ max_size E)
    (h : insert E o it v m = .ok jt m' ∨ insert_rv E o it v m = .ok jt m') :
    nth E o i m' = .ok jt m' ∧ index_of jt = i ∧ dereference E jt m' = .ok v m' := by
  obtain ⟨al, s, F, hs, rfl, H⟩ := hr.cont hE hc
  have : ∃ (s' : St α) (n : Nat), s'.Ok E ∧ s'.elems = s.elems.take i ++ v :: s.elems.drop i ∧ s'.At i jt ∧
      Holds { m.log with reqs := m.log.reqs + n } (cont E o al s' + F) m' := by
    rcases h with h | h
    · obtain ⟨s', n, h1, h2, h3, -, H'⟩ :=
        (emplace_single_c hE (Mk.copy v) hs (at_of_nth hs H hi hn) (max_lt hE hsz) H).ret h
      exact ⟨s', n, h1, h2, h3, H'⟩
    · obtain ⟨s', n, h1, h2, h3, -, H'⟩ :=
        (emplace_single_c (T := fun _ => False) hE (Mk.pure v) hs (at_of_nth hs H hi hn) (max_lt hE hsz) H).ret h
      exact ⟨s', n, h1, h2, h3, H'⟩
  obtain ⟨s', n, hs', he, ha, H'⟩ := this
  have hl : i < s'.elems.length := by rw [he]; simp; omega
  refine ⟨nth_c hs' ha H', ha.pos, ?_⟩
  rw [dereference_c hs' ha hl H']
  simp [he, List.getElem_append_right, Nat.min_eq_left hi]

-- the hypotheses are met: inserting 42 in the middle of a tree of height 3
example : ∃ (m m' : Mem Nat) (it jt : Iter), Reach demo m ∧ Contents demo 0 m eight ∧ nth demo 0 3 m = .ok it m ∧
    insert demo 0 it 42 m = .ok jt m' := by
  obtain ⟨m, h1, h2, -⟩ := demo_eight
  obtain ⟨r, m', -, -, h3, -⟩ := demo_un h1 h2 (.insert 3 42) (fun _ => ⟨(by decide : 3 ≤ eight.length), (by decide : eight.length + 1 ≤ max_size demo)⟩)
    (fun _ e _ hx => demo_blame (by decide) hx.1)
  obtain ⟨jt, h4, -⟩ := pos_inv h3
  obtain ⟨it, m1, h5, h6⟩ := bind_inv h4
  cases h1.nth_same demo_good h2 h5
  exact ⟨m, m', it, jt, h1, h2, h5, h6⟩

/-! ### C02, C03: erasure -/

/-- C02: `erase(nth(i))` returns, and leaves the sequence without its `i`-th
element; C03: it returns `nth(i)` of the new container, in every field. -/
theorem C02_erase (hE : E.Good) (hr : Reach E m) (hc : Contents E o m xs) (hi : i < xs.length)
    (hn : nth E o i m = .ok it m) :
    ∃ jt m', erase E o it m = .ok jt m' ∧ Contents E o m' (xs.take i ++ xs.drop (i + 1)) := by
  obtain ⟨al, s, F, hs, rfl, H⟩ := hr.cont hE hc
  obtain ⟨jt, m', h, s', hs', he, ha, H'⟩ := (erase_single_c hE hs (at_of_nth hs H (Nat.le_of_lt hi) hn) hi H).get
  refine ⟨jt, m', h, ?_⟩
  rw [← List.eraseIdx_eq_take_drop_succ, ← he]
  exact cont_contents hs' H'

/-- C03: the iterator returned by `erase(nth(i))` is `nth(i)` of the new
container in every field, hence `end()` if the last element was erased. -/
theorem C03_erase (hE : E.Good) (hr : Reach E m) (hc : Contents E o m xs) (hi : i < xs.length)
    (hn : nth E o i m = .ok it m) (h : erase E o it m = .ok jt m') :
    nth E o i m' = .ok jt m' ∧ index_of jt = i ∧ (i + 1 = xs.length → end_ E o m' = .ok jt m') ∧
    ∀ h' : i + 1 < xs.length, dereference E jt m' = .ok xs[i + 1] m' := by
  obtain ⟨al, s, F, hs, rfl, H⟩ := hr.cont hE hc
  obtain ⟨s', hs', he, ha, H'⟩ := (erase_single_c hE hs (at_of_nth hs H (Nat.le_of_lt hi) hn) hi H).ret h
  have hl : s'.elems.length + 1 = s.elems.length := by rw [he, List.length_eraseIdx_of_lt hi]; omega
  refine ⟨nth_c hs' ha H', ha.pos, fun h' => ?_, fun h' => ?_⟩
  · have : i = s'.elems.length := by omega
    exact find_end_c hs' (this ▸ ha) H'
  · rw [dereference_c hs' ha (by omega) H']
    simp [he, List.getElem_eraseIdx]

/-- C02: `pop_back()` -/
theorem C02_pop_back (hE : E.Good) (hr : Reach E m) (hc : Contents E o m xs) (hne : xs ≠ []) :
    ∃ m', pop_back E o m = .ok () m' ∧ Contents E o m' xs.dropLast := by
  obtain ⟨al, s, F, hs, rfl, H⟩ := hr.cont hE hc
  have hl := List.length_pos_iff.2 hne
  obtain ⟨it, ha⟩ := St.At.exists hs (by omega : s.elems.length - 1 ≤ _)
  obtain ⟨jt, m', h, s', hs', he, -, H'⟩ := (erase_single_c hE hs ha (by omega) H).get
  refine ⟨m', ?_, ?_⟩
  · unfold pop_back
    rw [bind_ok (find_last_c hs ha hl H), bind_ok h]; rfl
  · rw [List.eraseIdx_length_sub_one] at he
    rw [← he]
    exact cont_contents hs' H'

/-- C02: `pop_front()` -/
theorem C02_pop_front (hE : E.Good) (hr : Reach E m) (hc : Contents E o m xs) (hne : xs ≠ []) :
    ∃ m', pop_front E o m = .ok () m' ∧ Contents E o m' xs.tail := by
  obtain ⟨al, s, F, hs, rfl, H⟩ := hr.cont hE hc
  have hl := List.length_pos_iff.2 hne
  obtain ⟨it, ha⟩ := St.At.exists hs (Nat.zero_le _)
  obtain ⟨jt, m', h, s', hs', he, -, H'⟩ := (erase_single_c hE hs ha hl H).get
  refine ⟨m', ?_, ?_⟩
  · unfold pop_front
    rw [bind_ok (find_first_c hs ha H), bind_ok h]; rfl
  · rw [List.eraseIdx_zero] at he
    rw [← he]
    exact cont_contents hs' H'

-- the hypotheses are met: position 3 of a tree of height 3
example : ∃ (m : Mem Nat) (it : Iter), Reach demo m ∧ Contents demo 0 m eight ∧ nth demo 0 3 m = .ok it m := by
  obtain ⟨m, h1, h2, -⟩ := demo_eight
  obtain ⟨it, h3⟩ := h1.nth demo_good h2 3
  exact ⟨m, it, h1, h2, h3⟩

/-! ### C05, C06: element access -/

/-- C05: positional access, in a container that holds `xs`.  None of the calls
changes the memory. -/
theorem C05_access (hE : E.Good) (hr : Reach E m) (hc : Contents E o m xs) :
    (∀ h : i < xs.length, at_ E o i m = .ok xs[i] m ∧ index_op E o i m = .ok xs[i] m ∧
      ∃ it, nth E o i m = .ok it m ∧ dereference E it m = .ok xs[i] m) ∧
    (∀ h : xs ≠ [], front E o m = .ok (xs.head h) m ∧ back E o m = .ok (xs.getLast h) m) ∧
    (xs.length ≤ i → ∃ it, nth E o i m = .ok it m ∧ end_ E o m = .ok it m) ∧
    (∃ it, begin_ E o m = .ok it m ∧ nth E o 0 m = .ok it m) ∧
    (xs ≠ [] → ∃ it, penultimate E o m = .ok it m ∧ nth E o (xs.length - 1) m = .ok it m) ∧
    size o m = .ok xs.length m ∧ empty o m = .ok xs.isEmpty m := by
  obtain ⟨al, s, F, hs, rfl, H⟩ := hr.cont hE hc
  refine ⟨fun h => ⟨at_c hs h H, index_op_c hs h H, ?_⟩, fun h => ⟨front_c hs h H, back_c hs h H⟩, fun h => ?_, ?_,
    fun h => ?_, getSize_c H, ?_⟩
  · obtain ⟨it, ha⟩ := St.At.exists hs (Nat.le_of_lt h)
    exact ⟨it, nth_c hs ha H, dereference_c hs ha h H⟩
  · obtain ⟨it, ha⟩ := St.At.exists hs (Nat.le_refl _)
    exact ⟨it, nth_ge_c hs ha h H, find_end_c hs ha H⟩
  · obtain ⟨it, ha⟩ := St.At.exists hs (Nat.zero_le _)
    exact ⟨it, find_first_c hs ha H, nth_c hs ha H⟩
  · have hl := List.length_pos_iff.2 h
    obtain ⟨it, ha⟩ := St.At.exists hs (by omega : s.elems.length - 1 ≤ _)
    exact ⟨it, find_last_c hs ha hl H, nth_c hs ha H⟩
  · have : empty o m = .ok (decide (s.elems.length = 0)) m := by
      unfold empty; rw [bind_ok (getSize_c H)]; rfl
    rw [this]
    cases s.elems <;> simp

/-- C05: every container that exists holds exactly one sequence. -/
theorem C05_holds (hE : E.Good) (hr : Reach E m) (ho : m.cell (.obj o) ≠ none) : ∃ xs, Contents E o m xs ∧
    ∀ ys, Contents E o m ys → ys = xs := by
  obtain ⟨S, hi⟩ := hr.inv hE
  have hv := hi.view o
  cases hS : S o with
  | none => rw [hS] at hv; exact absurd hv ho
  | some x => rw [hS] at hv; exact ⟨x.elems, hv.2, fun ys h => h.unique hv.2⟩

/-- C06: `at(i)` throws `out_of_range` exactly when `i` is not below `size()`,
and then nothing has changed. -/
theorem C06_at (hE : E.Good) (hr : Reach E m) (hc : Contents E o m xs) :
    ((∃ e m', at_ E o i m = .throw e m') ↔ xs.length ≤ i) ∧
    (at_ E o i m = .throw e m' → e = .range ∧ m' = m) ∧
    (∀ h : i < xs.length, at_ E o i m = .ok xs[i] m) := by
  obtain ⟨al, s, F, hs, rfl, H⟩ := hr.cont hE hc
  refine ⟨⟨fun ⟨e, m', h⟩ => ?_, fun h => ⟨_, _, at_range_c h H⟩⟩, fun h => ?_, fun h => at_c hs h H⟩
  · by_contra hlt
    rw [at_c hs (by omega) H] at h; cases h
  · by_cases hi : i < s.elems.length
    · rw [at_c hs hi H] at h; cases h
    · rw [at_range_c (by omega) H] at h; cases h; exact ⟨rfl, rfl⟩

-- the hypotheses are met
example : ∃ (m : Mem Nat), Reach demo m ∧ Contents demo 0 m eight := by
  obtain ⟨m, h1, h2, -⟩ := demo_eight
  exact ⟨m, h1, h2⟩

/-! ### C07: writing through a reference -/

/-- C07: `s[i] = v`, `*nth(i) = v` and `*nth(i) = std::move(v)` change element
`i` only: the size, the height, the allocator and every iterator of the
container stay what they were, and so does every other container; if copying
`v` throws, nothing at all changed. -/
theorem C07_write (hE : E.Good) (hr : Reach E m) (hc : Contents E o m xs) (hi : i < xs.length)
    (hn : nth E o i m = .ok it m) {x : M α Unit}
    (hx : x = index_set E o i v ∨ x = deref_set E it v ∨ x = deref_set_rv E it v) :
    (∃ m', x m = .ok () m' ∧ Contents E o m' (xs.set i v) ∧
      (∀ j jt, nth E o j m = .ok jt m → nth E o j m' = .ok jt m') ∧
      (∀ n, height o m = .ok n m → height o m' = .ok n m') ∧
      (∀ a, get_allocator o m = .ok a m → get_allocator o m' = .ok a m') ∧
      (∀ p, p ≠ o → Unchanged E p m m') ∧ m'.log = m.log) ∨
    (∃ m', x m = .throw .elem m' ∧ Ticked m m' ∧ CopyThrows E v) := by
  obtain ⟨S, hR⟩ := hr.inv hE
  obtain ⟨A, hR, HA⟩ := hR
  have hv := hR.view HA
  cases hSo : S o with
  | none => have := hv o; rw [hSo] at this; exact absurd this (size_some hc.1)
  | some y =>
  obtain ⟨s, A', hy, hs, rfl, hR'⟩ := hR.split hSo
  have hxs : s.elems = xs := (cont_contents hs HA).unique hc
  subst hxs
  have ha := at_of_nth hs HA (Nat.le_of_lt hi) hn
  have key : Spec x m (fun _ m' => ∃ s', Rew E s s' (s.elems.set i v) ∧ Holds m.log (cont E o y.alloc s' + A') m')
      (fun e m' => e = .elem ∧ CopyThrows E v ∧ Ticked m m') := by
    rcases hx with rfl | rfl | rfl
    · exact index_set_c hs hi HA
    · exact deref_set_c hs ha hi HA
    · obtain ⟨m', s', h1, h2, h3⟩ := deref_set_rv_c (v := v) hE hs ha hi HA
      exact Spec.ok h1 ⟨s', h2, h3⟩
  rcases key.cases with ⟨u, m', h1, s', hrw, H'⟩ | ⟨e, m', h1, rfl, h2, h3⟩
  · left
    refine ⟨m', h1, ?_, ?_, ?_, ?_, ?_, H'.log⟩
    · rw [← hrw.elems]; exact cont_contents hrw.ok H'
    · intro j jt hj
      obtain ⟨kt, h3, h4⟩ := nth_any_c (i := j) hs HA
      rw [h3] at hj; cases hj
      have h5 := hrw.at_ _ _ h4
      have hl : s'.elems.length = s.elems.length := by rw [hrw.elems]; simp
      by_cases hjl : j ≤ s.elems.length
      · rw [Nat.min_eq_left hjl] at h5
        exact nth_c hrw.ok h5 H'
      · rw [Nat.min_eq_right (by omega), ← hl] at h5
        exact nth_ge_c hrw.ok h5 (by omega) H'
    · intro n h2
      have h3 : height o m = .ok s.ht m := getHeight_c HA
      rw [h3] at h2; cases h2
      rw [← hrw.ht]; exact getHeight_c H'
    · intro a h2
      rw [get_allocator_c HA] at h2; cases h2
      exact get_allocator_c H'
    · intro p hp
      exact hR'.unchanged HA H' (fun h => hp (cont_locs h)) (fun h => hp (cont_locs h))
  · right
    exact ⟨m', h1, h3, h2⟩

-- both outcomes occur: writing 42 succeeds, copying 13 throws
example : ∃ (m m' : Mem Nat), Reach demo m ∧ Contents demo 0 m eight ∧ index_set demo 0 3 42 m = .ok () m' ∧
    index_set demo 0 3 13 m = .throw .elem m.tick := by
  obtain ⟨m, h1, h2, -⟩ := demo_eight
  obtain ⟨it, h3⟩ := h1.nth demo_good h2 3
  rcases C07_write (v := 42) (i := 3) demo_good h1 h2 (by decide) h3 (.inl rfl) with ⟨m', h4, -⟩ | ⟨-, -, -, -, h4⟩
  · rcases C07_write (v := 13) (i := 3) demo_good h1 h2 (by decide) h3 (.inl rfl) with ⟨m'', h5, -⟩ | ⟨m'', h5, -⟩
    · exfalso
      unfold index_set at h5
      obtain ⟨kt, m1, -, h6⟩ := bind_inv h5
      obtain ⟨w, m2, h7, -⟩ := bind_inv h6
      cases h7
    · refine ⟨m, m', h1, h2, h4, ?_⟩
      unfold index_set at h5 ⊢
      obtain ⟨kt, h6⟩ : ∃ kt, find_index demo 0 3 m = .ok kt m := by
        obtain ⟨al, s, F, hs, he, H⟩ := h1.cont demo_good h2
        obtain ⟨kt, hk⟩ := St.At.exists hs (i := 3) (by rw [he]; decide)
        exact ⟨kt, find_index_c hs hk (by rw [he]; decide) H⟩
      rw [bind_ok h6]; rfl
  · obtain ⟨n, hn⟩ := h4; cases hn

/-! ### C10, C11, C15: failing insertions -/

/-- the single-element insertions at position `i` of a container of `n` elements -/
inductive Insertion (E : Env α) (o i n : Nat) (it : Iter) (v : α) : M α Unit → Prop where
  | insert : Insertion E o i n it v (do let _ ← insert E o it v)
  | insert_rv : Insertion E o i n it v (do let _ ← insert_rv E o it v)
  | push_back (h : i = n) : Insertion E o i n it v (push_back E o v)
  | push_back_rv (h : i = n) : Insertion E o i n it v (push_back_rv E o v)
  | push_front (h : i = 0) : Insertion E o i n it v (push_front E o v)
  | push_front_rv (h : i = 0) : Insertion E o i n it v (push_front_rv E o v)

theorem insertion_c (hE : E.Good) (hr : Reach E m) (hc : Contents E o m xs) (hi : i ≤ xs.length)
    (hn : nth E o i m = .ok it m) (hsz : xs.length + 1 ≤ max_size E) {x : M α Unit}
    (hx : Insertion E o i xs.length it v x) {h : Nat} (hh : height o m = .ok h m) :
    Spec x m (fun _ m' => m'.log.fails = m.log.fails ∧ m.log.reqs ≤ m'.log.reqs ∧ m'.log.reqs ≤ m.log.reqs + (h + 1))
      (fun e m' => m'.cell = m.cell ∧ m'.log.reqs ≤ m.log.reqs + (h + 1) ∧
        ((e = .alloc ∧ m'.log.fails = m.log.fails + 1) ∨ (e = .elem ∧ m'.log.fails = m.log.fails ∧ CopyThrows E v))) := by
  obtain ⟨al, s, F, hs, rfl, H⟩ := hr.cont hE hc
  have ha := at_of_nth hs H hi hn
  have h2 : height o m = .ok s.ht m := getHeight_c H
  rw [h2] at hh; cases hh
  have key : ∀ mk : M α α, Mk (CopyThrows E) v mk → Spec (emplace_single E o it mk >>= fun _ => pure ()) m
      (fun _ m' => m'.log.fails = m.log.fails ∧ m.log.reqs ≤ m'.log.reqs ∧ m'.log.reqs ≤ m.log.reqs + (s.ht + 1))
      (fun e m' => m'.cell = m.cell ∧ m'.log.reqs ≤ m.log.reqs + (s.ht + 1) ∧
        ((e = .alloc ∧ m'.log.fails = m.log.fails + 1) ∨ (e = .elem ∧ m'.log.fails = m.log.fails ∧ CopyThrows E v))) := by
    intro mk hm
    refine ((emplace_single_c hE hm hs ha (max_lt hE hsz) H).mono (fun _ _ h => h) ?_).bind ?_
    · rintro e m' ⟨h1, g', ht, h3, H'⟩
      rw [H'.log]
      refine ⟨h1, h3, ?_⟩
      rcases ht with ht | ⟨h4, h5, w, hw, h6⟩
      · exact .inl ht
      · rw [List.mem_singleton] at hw; subst hw; exact .inr ⟨h4, h5, h6⟩
    · rintro jt m' ⟨s', n, -, -, -, h5, H'⟩
      refine Spec.pure ?_
      rw [H'.log]
      exact ⟨rfl, Nat.le_add_right _ _, Nat.add_le_add_left h5 _⟩
  have pure' : Mk (CopyThrows E) v (pure v) := Mk.pure v
  cases hx with
  | insert => exact key _ (Mk.copy v)
  | insert_rv => exact key _ pure'
  | push_back h => subst h; exact Spec.step (find_end_c hs ha H) (key _ (Mk.copy v))
  | push_back_rv h => subst h; exact Spec.step (find_end_c hs ha H) (key _ pure')
  | push_front h => subst h; exact Spec.step (find_first_c hs ha H) (key _ (Mk.copy v))
  | push_front_rv h => subst h; exact Spec.step (find_first_c hs ha H) (key _ pure')

/-- C10: if the allocator refuses any of the requests a single insertion makes,
`bad_alloc` reaches the caller and the memory is exactly as before (every cell
of it; only the allocator's own request counters moved). -/
theorem C10_alloc_failure (hE : E.Good) (hr : Reach E m) (hc : Contents E o m xs) (hi : i ≤ xs.length)
    (hn : nth E o i m = .ok it m) (hsz : xs.length + 1 ≤ max_size E) {x : M α Unit}
    (hx : Insertion E o i xs.length it v x) :
    (∀ m', x m = .throw .alloc m' → m'.cell = m.cell ∧ m'.log.fails = m.log.fails + 1) ∧
    (∀ m', x m = .ok () m' → m'.log.fails = m.log.fails) := by
  obtain ⟨al, s, F, hs, rfl, H⟩ := hr.cont hE hc
  have key := insertion_c hE hr hc hi hn hsz hx (getHeight_c H)
  refine ⟨fun m' h => ?_, fun m' h => (key.ret h).1⟩
  obtain ⟨h1, -, h2⟩ := key.exc h
  rcases h2 with ⟨-, h2⟩ | ⟨h2, -⟩
  · exact ⟨h1, h2⟩
  · cases h2

/-- C11: if copying the value throws, the memory is exactly as before; and an
insertion throws only for that reason or because an allocation failed. -/
theorem C11_copy_failure (hE : E.Good) (hr : Reach E m) (hc : Contents E o m xs) (hi : i ≤ xs.length)
    (hn : nth E o i m = .ok it m) (hsz : xs.length + 1 ≤ max_size E) {x : M α Unit}
    (hx : Insertion E o i xs.length it v x) (h : x m = .throw e m') :
    m'.cell = m.cell ∧ (e = .alloc ∨ (e = .elem ∧ CopyThrows E v)) := by
  obtain ⟨al, s, F, hs, rfl, H⟩ := hr.cont hE hc
  obtain ⟨h1, -, h2⟩ := (insertion_c hE hr hc hi hn hsz hx (getHeight_c H)).exc h
  refine ⟨h1, ?_⟩
  rcases h2 with ⟨h2, -⟩ | ⟨h2, -, h3⟩
  · exact .inl h2
  · exact .inr ⟨h2, h3⟩

/-- C11: when copying the value throws (this time: the next copy is copy number
`m.ticks`), the copying insertions do throw, and nothing but the number of copies
attempted has changed. -/
theorem C11_copy_throws (hE : E.Good) (hr : Reach E m) (hc : Contents E o m xs) (ht : E.trivCopy = false)
    (hv : E.cthrow m.ticks v = true) : insert E o it v m = .throw .elem m.tick ∧
    push_back E o v m = .throw .elem m.tick ∧ push_front E o v m = .throw .elem m.tick := by
  obtain ⟨al, s, F, hs, rfl, H⟩ := hr.cont hE hc
  have hcv : copyVal E v m = .throw .elem m.tick := by
    unfold copyVal; rw [ht, hv]; rfl
  have key : ∀ jt, emplace_single E o jt (copyVal E v) m = .throw .elem m.tick := fun jt => bind_throw hcv
  obtain ⟨b, hb⟩ := St.At.exists hs (Nat.zero_le _)
  obtain ⟨en, hen⟩ := St.At.exists hs (Nat.le_refl _)
  refine ⟨key it, ?_, ?_⟩
  · unfold push_back
    rw [bind_ok (find_end_c hs hen H)]; exact bind_throw (key _)
  · unfold push_front
    rw [bind_ok (find_first_c hs hb H)]; exact bind_throw (key _)

/-- C15: a single insertion requests at most `height() + 1` blocks, whether it
returns or throws. -/
theorem C15_requests (hE : E.Good) (hr : Reach E m) (hc : Contents E o m xs) (hi : i ≤ xs.length)
    (hn : nth E o i m = .ok it m) (hsz : xs.length + 1 ≤ max_size E) {x : M α Unit}
    (hx : Insertion E o i xs.length it v x) {h : Nat} (hh : height o m = .ok h m)
    (hout : x m = .ok () m' ∨ x m = .throw e m') : m'.log.reqs ≤ m.log.reqs + (h + 1) := by
  have key := insertion_c hE hr hc hi hn hsz hx hh
  rcases hout with ho | ho
  · exact (key.ret ho).2.2
  · exact (key.exc ho).2.1

-- C10: a reachable container that cannot grow: inserting 6 beside a 5 throws bad_alloc
example : ∃ (m m' : Mem Nat) (it : Iter), Reach tiny m ∧ Contents tiny 0 m [5] ∧ nth tiny 0 1 m = .ok it m ∧
    Insertion tiny 0 1 1 it 6 (push_back tiny 0 6) ∧ push_back tiny 0 6 m = .throw .alloc m' := by
  obtain ⟨m, h1, h2⟩ := tiny_one 5 (by decide)
  have hc : Contents tiny 0 m [5] := by have := h2 0; rw [upd_self] at this; exact this.2
  obtain ⟨it, h3⟩ := h1.nth tiny_good hc 1
  refine ⟨m, ?_⟩
  rcases h1.op (op := .un 0 (.pushBack 6)) tiny_good h2 ⟨_, upd_self, (by decide : 2 ≤ max_size tiny)⟩ with
    ⟨r, m', S', g1, g2, g3, g4⟩ | ⟨ex, m', S', g1, g2, g3, g4⟩
  · exfalso
    obtain ⟨x, x', hx, ⟨-, rfl⟩, rfl⟩ := g2
    rw [upd_self] at hx; cases hx
    have hc' : Contents tiny 0 m' [5, 6] := by have := g3 0; rw [upd_self] at this; exact this.2
    exact absurd (tiny_const g4 hc' (i := 0) (j := 1) (by decide) (by decide)) (by decide)
  · obtain ⟨x, x', hx, ⟨hb, -⟩, -⟩ := g2
    have he : ex = .alloc := by
      rcases hb with hb | ⟨-, w, hw, -, hc⟩
      · exact hb
      · simp only [List.mem_singleton] at hw; subst hw; obtain ⟨n, hn⟩ := hc; cases hn
    subst he
    exact ⟨m', it, h1, hc, h3, .push_back rfl, unit_inv_throw g1⟩

-- C11: copying 13 throws
example : ∃ (m : Mem Nat) (it : Iter), Reach demo m ∧ Contents demo 0 m eight ∧ nth demo 0 3 m = .ok it m ∧
    insert demo 0 it 13 m = .throw .elem m.tick := by
  obtain ⟨m, h1, h2, -⟩ := demo_eight
  obtain ⟨it, h3⟩ := h1.nth demo_good h2 3
  exact ⟨m, it, h1, h2, h3, (C11_copy_throws demo_good h1 h2 rfl rfl).1⟩

/-! ### C42: inserting an element of the container itself -/

/-- C42: `insert(nth(i), s[j])` inserts the value `s[j]` had before the call. -/
theorem C42_insert_self (hE : E.Good) (hr : Reach E m) (hc : Contents E o m xs) (hi : i ≤ xs.length)
    (hj : j < xs.length) (hn : nth E o i m = .ok it m) (hnj : nth E o j m = .ok jt m)
    (hsz : xs.length + 1 ≤ max_size E) (h : insert_alias E o it jt m = .ok kt m') :
    Contents E o m' (xs.take i ++ xs[j] :: xs.drop i) ∧ nth E o i m' = .ok kt m' := by
  obtain ⟨al, s, F, hs, rfl, H⟩ := hr.cont hE hc
  rw [insert_alias_c hs (at_of_nth hs H (Nat.le_of_lt hj) hnj) hj H] at h
  obtain ⟨s', n, hs', he, ha, -, H'⟩ :=
    (emplace_single_c hE (Mk.copy _) hs (at_of_nth hs H hi hn) (max_lt hE hsz) H).ret h
  rw [← he]
  exact ⟨cont_contents hs' H', nth_c hs' ha H'⟩

-- the hypotheses are met: s.insert(s.nth(2), s[5]) in a tree of height 3
example : ∃ (m m' : Mem Nat) (it jt kt : Iter), Reach demo m ∧ Contents demo 0 m eight ∧ nth demo 0 2 m = .ok it m ∧
    nth demo 0 5 m = .ok jt m ∧ insert_alias demo 0 it jt m = .ok kt m' := by
  obtain ⟨m, h1, h2, -⟩ := demo_eight
  obtain ⟨r, m', -, -, h3, -⟩ := demo_un h1 h2 (.insertSelf 2 5) (fun _ => ⟨(by decide : 2 ≤ eight.length), (by decide : 5 < eight.length), (by decide : eight.length + 1 ≤ max_size demo)⟩)
    (fun _ e _ hx => by obtain ⟨⟨_, hb⟩, -⟩ := hx; exact demo_blame (vs := [16]) (by decide) hb)
  obtain ⟨kt, h4, -⟩ := pos_inv h3
  obtain ⟨it, m1, h5, h6⟩ := bind_inv h4
  cases h1.nth_same demo_good h2 h5
  obtain ⟨jt, m1, h7, h8⟩ := bind_inv h6
  cases h1.nth_same demo_good h2 h7
  exact ⟨m, m', it, jt, kt, h1, h2, h5, h7, h8⟩

end SegTree
