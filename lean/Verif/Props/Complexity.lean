/-
  C49-C56: what each call costs.

  The unit is one access to a node, to a segment or to a `seq` object, or one
  call of the allocator (a read or write of several fields of one block counts
  every time the code goes back to the block; shifting the entries inside one
  node or one segment counts once per entry moved).  `Cost.f` is the model's
  function `f` with a counter (Cost/Model.lean, a mechanical copy of
  Model/Core.lean and Model/Api.lean); `Within` below says that it computes what
  `f` computes.

  All bounds are `constant * function of the sizes`, the constant depending on
  the template arguments only (`K`), never on the contents.
-/
import Verif.Cost.Lower
import Verif.Props.Algorithms
import Verif.Props.Iterators
set_option autoImplicit false
set_option synthInstance.maxSize 2000
set_option synthInstance.maxHeartbeats 400000

attribute [local instance] SegTree.Weights.accesses

namespace SegTree
variable {α β : Type} {E : Env α} {m m' : Mem α} {o p i j a b n al al2 : Nat} {xs ys vs : List α} {v : α}
  {it jt first last : Iter} {x : M α β} {y : C α β} {k : Nat}

/-- Called in `m`, `x` returns or throws, and the counting program `y` does
exactly the same (same result or exception, same memory), having made at most `k`
accesses. -/
def Within (x : M α β) (y : C α β) (m : Mem α) (k : Nat) : Prop :=
  (∃ v m' n, x m = .ok v m' ∧ y m = .ok v m' n ∧ n ≤ k) ∨
  (∃ e m' n, x m = .throw e m' ∧ y m = .throw e m' n ∧ n ≤ k)

/-- the constant of all bounds: it depends on the capacity of a node and of a
segment only -/
def K (E : Env α) : Nat := 100 * (E.baseMax + E.segMax)

/-- `lg n` is the number of binary digits of `n` (1 for 0): this is the
logarithm of the statements below -/
example : lg 0 = 1 ∧ lg 1 = 1 ∧ lg 2 = 2 ∧ lg 3 = 2 ∧ lg 4 = 3 ∧ lg 1000 = 10 ∧ lg 1000000 = 20 := by decide
theorem lg_def (n : Nat) : 2 ^ (lg (n + 1) - 1) ≤ n + 1 ∧ n + 1 < 2 ^ lg (n + 1) := by
  unfold lg
  have h : n + 1 ≠ 0 := by omega
  exact ⟨by simpa using Nat.log2_self_le h, Nat.lt_log2_self⟩

theorem Within.of [hsim : Sim x y] {Q : β → Mem α → Prop} {T : Exn → Mem α → Prop} (hs : Spec x m Q T)
    (hk : (y m).le k) : Within x y m k := by
  rcases hs.cases with ⟨v, m', e, -⟩ | ⟨e', m', e, -⟩
  · obtain ⟨n, hn⟩ := hsim.ok e
    rw [hn] at hk
    exact .inl ⟨v, m', n, e, hn, hk⟩
  · obtain ⟨n, hn⟩ := hsim.thrown e
    rw [hn] at hk
    exact .inr ⟨e', m', n, e, hn, hk⟩

theorem Within.run [hsim : Sim x y] {v : β} (e : x m = .ok v m') (hk : (y m).le k) : Within x y m k := by
  obtain ⟨n, hn⟩ := hsim.ok e
  rw [hn] at hk
  exact .inl ⟨v, m', n, e, hn, hk⟩

theorem Within.exc [hsim : Sim x y] {e' : Exn} (e : x m = .throw e' m') (hk : (y m).le k) : Within x y m k := by
  obtain ⟨n, hn⟩ := hsim.thrown e
  rw [hn] at hk
  exact .inr ⟨e', m', n, e, hn, hk⟩

theorem Within.mono {k' : Nat} (h : Within x y m k) (hk : k ≤ k') : Within x y m k' := by
  rcases h with ⟨v, m', n, h1, h2, h3⟩ | ⟨v, m', n, h1, h2, h3⟩
  · exact .inl ⟨v, m', n, h1, h2, Nat.le_trans h3 hk⟩
  · exact .inr ⟨v, m', n, h1, h2, Nat.le_trans h3 hk⟩

/-! ### arithmetic -/

section
variable {L : Nat}

theorem K_mul {c : Nat} (h : c ≤ K E) : c * L ≤ K E * L := Nat.mul_le_mul_right _ h

theorem K_ins (hL : 1 ≤ L) (n : Nat) : n * (insK E * L + 28 * L) + 40 * n ≤ n * (K E * L) := by
  have h1 := E.baseMax_ge
  have h2 := E.segMax_pos
  have h3 : (insK E + 68) * L ≤ K E * L := K_mul (by unfold insK K; omega)
  have h4 : n * (insK E * L + 28 * L + 40) ≤ n * (K E * L) :=
    Nat.mul_le_mul_left _ (by rw [Nat.add_mul] at h3; omega)
  rw [Nat.mul_add n (insK E * L + 28 * L) 40] at h4
  omega

theorem K_era (hL : 1 ≤ L) (n : Nat) : n * (eraK E * L + 16 * L) + 40 * n ≤ n * (K E * L) := by
  have h1 := E.baseMax_ge
  have h2 := E.segMax_pos
  have h3 : (eraK E + 56) * L ≤ K E * L := K_mul (by unfold eraK K; omega)
  have h4 : n * (eraK E * L + 16 * L + 40) ≤ n * (K E * L) :=
    Nat.mul_le_mul_left _ (by rw [Nat.add_mul] at h3; omega)
  rw [Nat.mul_add n (eraK E * L + 16 * L) 40] at h4
  omega

theorem K_both (hL : 1 ≤ L) (n : Nat) :
    n * (insK E * L + 28 * L) + n * (eraK E * L + 16 * L) + 40 * n ≤ n * (K E * L) := by
  have h1 := E.baseMax_ge
  have h2 := E.segMax_pos
  have h3 : (insK E + eraK E + 84) * L ≤ K E * L := K_mul (by unfold insK eraK K; omega)
  have h4 : n * ((insK E * L + 28 * L) + (eraK E * L + 16 * L) + 40) ≤ n * (K E * L) :=
    Nat.mul_le_mul_left _ (by rw [Nat.add_mul, Nat.add_mul] at h3; omega)
  rw [Nat.mul_add, Nat.mul_add n (insK E * L + 28 * L)] at h4
  omega

theorem K_one : insK E * L + 7 * L ≤ K E * L ∧ eraK E * L + 7 * L ≤ K E * L ∧
    1 * L + insK E * L + eraK E * L ≤ K E * L := by
  have h1 := E.baseMax_ge
  have h2 := E.segMax_pos
  refine ⟨?_, ?_, ?_⟩
  · rw [← Nat.add_mul]; exact K_mul (by unfold insK K; omega)
  · rw [← Nat.add_mul]; exact K_mul (by unfold eraK K; omega)
  · rw [← Nat.add_mul, ← Nat.add_mul]; exact K_mul (by unfold insK eraK K; omega)

theorem K_cnt : cntK E * L + 110 * L ≤ K E * L := by
  have h1 := E.baseMax_ge
  rw [← Nat.add_mul]; exact K_mul (by unfold cntK K; omega)

theorem K_find : (2 * E.baseMax + 7) * L + 20 * L ≤ K E * L := by
  have h1 := E.baseMax_ge
  rw [← Nat.add_mul]; exact K_mul (by unfold K; omega)

theorem K_expand {n r : Nat} : K E * (r + (n + 1) * L) = K E * r + (n * (K E * L) + K E * L) := by
  rw [Nat.mul_add, Nat.add_mul, Nat.one_mul, Nat.mul_add, Nat.mul_left_comm]

theorem K_expand0 {n : Nat} : K E * ((n + 1) * L) = n * (K E * L) + K E * L := by
  have := K_expand (E := E) (L := L) (n := n) (r := 0)
  simpa using this

theorem K_ge : 300 ≤ K E := by
  have h1 := E.baseMax_ge
  unfold K; omega

theorem K_lin (r : Nat) : 300 * r ≤ K E * r := Nat.mul_le_mul_right _ K_ge
end

/-! ### C49: constant time -/

/-- C49: `size`, `empty`, `height`, `get_allocator` and `*it` make one access. -/
theorem C49_queries (hE : E.Good) (hr : Reach E m) (hc : Contents E o m xs) :
    Within (size o) (Cost.size o) m 1 ∧ Within (empty o) (Cost.empty o) m 1 ∧
    Within (height o) (Cost.height o) m 1 ∧ Within (get_allocator o) (Cost.get_allocator o) m 1 ∧
    (i < xs.length → nth E o i m = .ok it m → Within (dereference E it) (Cost.dereference E it) m 1) := by
  obtain ⟨al, s, F, hs, rfl, H⟩ := hr.cont hE hc
  refine ⟨.run (getSize_c H) ((CB.getSize o).run m), .run (m' := m) (v := decide (s.elems.length = 0)) ?_ ?_,
    .run (getHeight_c H) ?_, .run (get_allocator_c H) ?_, fun hi hn => ?_⟩
  · unfold empty; rw [bind_ok (getSize_c H)]; rfl
  · unfold Cost.empty
    exact CRes.le_bind ((CB.getSize o).run m) (Nat.le_refl _) fun _ _ _ _ => Nat.zero_le _
  · have : CB (Cost.height o : C α Nat) 1 := by unfold Cost.height Cost.getHeight; cb
    exact this.run m
  · have : CB (Cost.get_allocator o : C α Nat) 1 := by unfold Cost.get_allocator; cb
    exact this.run m
  · exact .run (dereference_c hs (at_of_nth hs H (Nat.le_of_lt hi) hn) hi H) ((CB.dereference it).run m)

/-- C49: the default constructor, the move constructor, the move constructor
with an equal allocator, and `swap` take constant time whatever the sizes. -/
theorem C49_whole (hE : E.Good) (hr : Reach E m) :
    (m.cell (.obj o) = none → Within (ctor o al) (Cost.ctor o al) m 1) ∧
    (m.cell (.obj o) = none → Contents E p m ys → Within (ctor_move o p) (Cost.ctor_move o p) m 9) ∧
    (m.cell (.obj o) = none → E.nullFree = true → Contents E p m ys → get_allocator p m = .ok al2 m →
      SameAlloc E al al2 → Within (ctor_move_alloc E o p al) (Cost.ctor_move_alloc E o p al) m 21) ∧
    (o ≠ p → Contents E o m xs → Contents E p m ys → get_allocator o m = .ok al m → get_allocator p m = .ok al2 m →
      E.pocs = true ∨ SameAlloc E al al2 → Within (swap E o p) (Cost.swap E o p) m 10) ∧
    (Contents E o m xs → Within (swap E o o) (Cost.swap E o o) m 10) := by
  refine ⟨fun hf => ?_, fun hf hd => ?_, fun hf hn hd ha hw => ?_, fun hne hc hd ha ha2 hw => ?_, fun hc => ?_⟩
  · have e : ctor o al m = .ok () (m.set (.obj o) (.obj ⟨0, 0, 0, al, al⟩)) := by simp [ctor, hf]
    exact .run e ((CB.ctor o al).run m)
  · obtain ⟨al, s2, F, hs2, rfl, H⟩ := hr.cont hE hd
    obtain ⟨m', h, -⟩ := ctor_move_c hf H
    exact .run h ((CB.ctor_move o p).run m)
  · obtain ⟨al', s2, F, hs2, rfl, H⟩ := hr.cont hE hd
    rw [get_allocator_c H] at ha; cases ha
    obtain ⟨m', h, -⟩ := (ctor_move_alloc_c (al := al) hE hn hs2 hf H).1 hw
    exact .run h (ctor_move_alloc_steal_le hE hs2 hw hf H)
  · obtain ⟨al', s, al2', s2, F, hs, rfl, hs2, rfl, H⟩ := hr.cont2 hE hc hd hne
    have H1 := H.eqv (by ac_rfl : _ = cont E p al2' s2 + (cont E o al' s + F))
    rw [get_allocator_c H] at ha; cases ha
    rw [get_allocator_c H1] at ha2; cases ha2
    obtain ⟨m', h, -⟩ := swap_c hw H
    exact .run h ((CB.swap o p).run m)
  · obtain ⟨al, s, F, hs, rfl, H⟩ := hr.cont hE hc
    obtain ⟨m', h, -⟩ := swap_self_c H
    exact .run h ((CB.swap o o).run m)

/-! ### C50: access is logarithmic -/

/-- C50: `at`, `operator[]`, `front`, `back`, `begin`, `end`, `penultimate` and
`nth` are logarithmic in the size. -/
theorem C50_access (hE : E.Good) (hr : Reach E m) (hc : Contents E o m xs) :
    Within (at_ E o i) (Cost.at_ E o i) m (K E * lg xs.length) ∧
    (i < xs.length → Within (index_op E o i) (Cost.index_op E o i) m (K E * lg xs.length)) ∧
    (xs ≠ [] → Within (front E o) (Cost.front E o) m (K E * lg xs.length)) ∧
    (xs ≠ [] → Within (back E o) (Cost.back E o) m (K E * lg xs.length)) ∧
    Within (begin_ E o) (Cost.begin_ E o) m (K E * lg xs.length) ∧
    Within (end_ E o) (Cost.end_ E o) m (K E * lg xs.length) ∧
    (xs ≠ [] → Within (penultimate E o) (Cost.penultimate E o) m (K E * lg xs.length)) ∧
    Within (nth E o i) (Cost.nth E o i) m (K E * lg xs.length) := by
  obtain ⟨al, s, F, hs, rfl, H⟩ := hr.cont hE hc
  have hL : lg s.elems.length ≤ lg s.elems.length := Nat.le_refl _
  generalize hLL : lg s.elems.length = L at *
  have hL : lg s.elems.length ≤ L := by omega
  have h1 := posL hL
  have hK := K_find (E := E) (L := L)
  obtain ⟨fi, hfi⟩ := St.At.exists hs (Nat.zero_le _)
  obtain ⟨la, hla⟩ := St.At.exists hs (Nat.le_refl _)
  have hat : (Cost.at_ E o i m).le (K E * L) := by
    unfold Cost.at_
    refine CRes.le_step (getSize_c H) ((CB.getSize o).run m) (by omega) ?_
    split
    · exact Nat.zero_le _
    · refine CRes.le_bind (find_index_leL hs hL H i) (by omega) fun jt m' _ _ => ?_
      exact ((CB.dereference jt).run m').mono (by omega)
  refine ⟨?_, fun hi => ?_, fun hn => ?_, fun hn => ?_, ?_, ?_, fun hn => ?_, ?_⟩
  · by_cases hi : i < s.elems.length
    · exact .run (at_c hs hi H) hat
    · exact .exc (at_range_c (by omega) H) hat
  · refine .run (index_op_c hs hi H) ?_
    unfold Cost.index_op
    refine CRes.le_bind (find_index_leL hs hL H i) (by omega) fun jt m' _ _ => ?_
    exact ((CB.dereference jt).run m').mono (by omega)
  · refine .run (front_c hs hn H) ?_
    unfold Cost.front
    refine CRes.le_bind (find_first_leL hs hL H) (by omega) fun jt m' _ _ => ?_
    exact ((CB.dereference jt).run m').mono (by omega)
  · refine .run (back_c hs hn H) ?_
    unfold Cost.back
    refine CRes.le_bind (find_last_leL hs hL H) (by omega) fun jt m' _ _ => ?_
    exact ((CB.dereference jt).run m').mono (by omega)
  · exact .run (find_first_c hs hfi H) ((find_first_leL hs hL H).mono (by omega))
  · exact .run (find_end_c hs hla H) ((find_end_leL hs hL H).mono (by omega))
  · have hl := List.length_pos_iff.2 hn
    obtain ⟨it, ha⟩ := St.At.exists hs (by omega : s.elems.length - 1 ≤ _)
    exact .run (find_last_c hs ha hl H) ((find_last_leL hs hL H).mono (by omega))
  · obtain ⟨it, e, -⟩ := nth_any_c (i := i) hs H
    refine .run e ?_
    unfold Cost.nth
    refine CRes.le_step (getSize_c H) ((CB.getSize o).run m) (by omega) ?_
    split
    · exact (find_end_leL hs hL H).mono (by omega)
    · exact (find_index_leL hs hL H i).mono (by omega)

/-! ### C51: single insertions and erasures are logarithmic -/

/-- C51: `insert`, `emplace`, `push_back`, `push_front` (by copy or by move) are
logarithmic in the size, also when they throw. -/
theorem C51_insert (hE : E.Good) (hr : Reach E m) (hc : Contents E o m xs) (hsz : xs.length + 1 ≤ max_size E) :
    (i ≤ xs.length → nth E o i m = .ok it m →
      Within (insert E o it v) (Cost.insert E o it v) m (K E * lg xs.length) ∧
      Within (insert_rv E o it v) (Cost.insert_rv E o it v) m (K E * lg xs.length)) ∧
    Within (push_back E o v) (Cost.push_back E o v) m (K E * lg xs.length) ∧
    Within (push_back_rv E o v) (Cost.push_back_rv E o v) m (K E * lg xs.length) ∧
    Within (push_front E o v) (Cost.push_front E o v) m (K E * lg xs.length) ∧
    Within (push_front_rv E o v) (Cost.push_front_rv E o v) m (K E * lg xs.length) := by
  obtain ⟨al, s, F, hs, rfl, H⟩ := hr.cont hE hc
  generalize hLL : lg s.elems.length = L at *
  have hL : lg s.elems.length ≤ L := by omega
  have hK := (K_one (E := E) (L := L)).1
  have hW := max_lt hE hsz
  obtain ⟨fi, hfi⟩ := St.At.exists hs (Nat.zero_le _)
  obtain ⟨la, hla⟩ := St.At.exists hs (Nat.le_refl _)
  have cost : ∀ {i : Nat} {it : Iter}, s.At i it → (Cost.emplace_single E o it (Cost.copyVal E v) m).le (insK E * L) ∧
      (Cost.emplace_single E o it (pure v) m).le (insK E * L) := by
    intro i it ha
    refine ⟨?_, ?_⟩
    · exact (emplace_single_le (mk := copyVal E v) hE (Mk.copy v) (CB.copyVal v) hs hL ha H).mono (by omega)
    · exact (emplace_single_le (T := fun _ => False) (mk := pure v) (c := 0) hE (Mk.pure v) (CB.pure v) hs hL ha H).mono
        (by omega)
  have hl := find_end_leL hs hL H
  have hf := find_first_leL hs hL H
  refine ⟨fun hi hn => ?_, ?_, ?_, ?_, ?_⟩
  · have ha := at_of_nth hs H hi hn
    exact ⟨.of (emplace_single_c hE (Mk.copy v) hs ha hW H) ((cost ha).1.mono (by omega)),
      .of (emplace_single_c (T := fun _ => False) hE (Mk.pure v) hs ha hW H) ((cost ha).2.mono (by omega))⟩
  · refine .of (Q := fun _ _ => True) (Spec.step (find_end_c hs hla H)
      ((emplace_single_c hE (Mk.copy v) hs hla hW H).bind fun _ _ _ => Spec.pure trivial)) ?_
    exact CRes.le_step (find_end_c hs hla H) hl (by omega)
      (CRes.le_bind (cost hla).1 (by omega) fun _ _ _ _ => Nat.zero_le _)
  · refine .of (Q := fun _ _ => True) (Spec.step (find_end_c hs hla H)
      ((emplace_single_c (T := fun _ => False) hE (Mk.pure v) hs hla hW H).bind fun _ _ _ => Spec.pure trivial)) ?_
    exact CRes.le_step (find_end_c hs hla H) hl (by omega)
      (CRes.le_bind (cost hla).2 (by omega) fun _ _ _ _ => Nat.zero_le _)
  · refine .of (Q := fun _ _ => True) (Spec.step (find_first_c hs hfi H)
      ((emplace_single_c hE (Mk.copy v) hs hfi hW H).bind fun _ _ _ => Spec.pure trivial)) ?_
    exact CRes.le_step (find_first_c hs hfi H) hf (by omega)
      (CRes.le_bind (cost hfi).1 (by omega) fun _ _ _ _ => Nat.zero_le _)
  · refine .of (Q := fun _ _ => True) (Spec.step (find_first_c hs hfi H)
      ((emplace_single_c (T := fun _ => False) hE (Mk.pure v) hs hfi hW H).bind fun _ _ _ => Spec.pure trivial)) ?_
    exact CRes.le_step (find_first_c hs hfi H) hf (by omega)
      (CRes.le_bind (cost hfi).2 (by omega) fun _ _ _ _ => Nat.zero_le _)

/-- C51: `erase`, `pop_back` and `pop_front` are logarithmic in the size. -/
theorem C51_erase (hE : E.Good) (hr : Reach E m) (hc : Contents E o m xs) :
    (i < xs.length → nth E o i m = .ok it m → Within (erase E o it) (Cost.erase E o it) m (K E * lg xs.length)) ∧
    (xs ≠ [] → Within (pop_back E o) (Cost.pop_back E o) m (K E * lg xs.length)) ∧
    (xs ≠ [] → Within (pop_front E o) (Cost.pop_front E o) m (K E * lg xs.length)) := by
  obtain ⟨al, s, F, hs, rfl, H⟩ := hr.cont hE hc
  generalize hLL : lg s.elems.length = L at *
  have hL : lg s.elems.length ≤ L := by omega
  have hK := (K_one (E := E) (L := L)).2.1
  have cost : ∀ {i : Nat} {it : Iter}, s.At i it → i < s.elems.length → (Cost.erase_single E o it m).le (eraK E * L) :=
    fun ha hi => erase_single_leL hs hL H hE ha hi
  refine ⟨fun hi hn => ?_, fun hn => ?_, fun hn => ?_⟩
  · have ha := at_of_nth hs H (Nat.le_of_lt hi) hn
    exact .of (erase_single_c hE hs ha hi H) ((cost ha hi).mono (by omega))
  · have hl := List.length_pos_iff.2 hn
    obtain ⟨la, hla⟩ := St.At.exists hs (by omega : s.elems.length - 1 ≤ _)
    refine .of (Q := fun _ _ => True) (Spec.step (find_last_c hs hla hl H)
      ((erase_single_c hE hs hla (by omega) H).bind fun _ _ _ => Spec.pure trivial)) ?_
    exact CRes.le_step (find_last_c hs hla hl H) (find_last_leL hs hL H) (by omega)
      (CRes.le_bind (cost hla (by omega)) (by omega) fun _ _ _ _ => Nat.zero_le _)
  · have hl := List.length_pos_iff.2 hn
    obtain ⟨fi, hfi⟩ := St.At.exists hs (Nat.zero_le _)
    refine .of (Q := fun _ _ => True) (Spec.step (find_first_c hs hfi H)
      ((erase_single_c hE hs hfi hl H).bind fun _ _ _ => Spec.pure trivial)) ?_
    exact CRes.le_step (find_first_c hs hfi H) (find_first_leL hs hL H) (by omega)
      (CRes.le_bind (cost hfi hl) (by omega) fun _ _ _ _ => Nat.zero_le _)

/-! ### C52: iterator steps -/

/-- C52: one `++` or `--` is logarithmic in the size, and so is a jump by any
distance, `it + d`, `it - d` and `it[d]`. -/
theorem C52_step (hE : E.Good) (hr : Reach E m) (hc : Contents E o m xs) (hi : i ≤ xs.length)
    (hn : nth E o i m = .ok it m) {d : Int} :
    (i < xs.length → Within (move_next_iterator E it) (Cost.move_next_iterator E it) m (K E * lg xs.length)) ∧
    (0 < i → Within (move_prev_iterator E it) (Cost.move_prev_iterator E it) m (K E * lg xs.length)) ∧
    (0 < i → Within (rev_deref E it) (Cost.rev_deref E it) m (K E * lg xs.length)) ∧
    (0 ≤ (i : Int) + d → (i : Int) + d ≤ xs.length → Within (it_add E it d) (Cost.it_add E it d) m (K E * lg xs.length)) ∧
    (0 ≤ (i : Int) - d → (i : Int) - d ≤ xs.length → Within (it_sub E it d) (Cost.it_sub E it d) m (K E * lg xs.length)) ∧
    (0 ≤ (i : Int) + d → ((i : Int) + d).toNat < xs.length →
      Within (it_index E it d) (Cost.it_index E it d) m (K E * lg xs.length)) := by
  obtain ⟨al, s, F, hs, rfl, H⟩ := hr.cont hE hc
  generalize hLL : lg s.elems.length = L at *
  have hL : lg s.elems.length ≤ L := by omega
  have hK := K_cnt (E := E) (L := L)
  have h1 := posL hL
  have ha := at_of_nth hs H hi hn
  refine ⟨fun h => ?_, fun h => ?_, fun h => ?_, fun h h' => ?_, fun h h' => ?_, fun h h' => ?_⟩
  · obtain ⟨jt, e, -⟩ := move_next_c hs ha h H
    exact .run e ((move_next_leL hs hL H ha).mono (by omega))
  · obtain ⟨jt, e, -⟩ := move_prev_c hs ha h H
    exact .run e ((move_prev_leL hs hL H ha).mono (by omega))
  · obtain ⟨jt, e, hj⟩ := move_prev_c hs ha h H
    have e2 : rev_deref E it m = .ok s.elems[i - 1] m := by
      unfold rev_deref; rw [bind_ok e]; exact dereference_c hs hj (by omega) H
    refine .run e2 ?_
    unfold Cost.rev_deref
    refine CRes.le_bind (move_prev_leL hs hL H ha) (by omega) fun jt m' _ _ => ?_
    exact ((CB.dereference jt).run m').mono (by omega)
  · obtain ⟨jt, e, -⟩ := it_add_c hs ha h h' H
    exact .run e ((move_iterator_count_leL hs hL H ha).mono (by unfold cntK at hK; omega))
  · obtain ⟨jt, e, -⟩ := it_sub_c hs ha h h' H
    exact .run e ((move_iterator_count_leL hs hL H ha).mono (by unfold cntK at hK; omega))
  · refine .run (it_index_c hs ha h (by omega) H) ?_
    show (Cost.dereference_count E it d m).le _
    unfold Cost.dereference_count
    refine CRes.le_bind (move_iterator_count_leL hs hL H ha) (by unfold cntK at hK; omega) fun jt m' _ _ => ?_
    exact ((CB.dereference jt).run m').mono (by unfold cntK at hK; omega)

/-- `walk` (Props/Iterators.lean: read the element and `++`, `k` times) with a counter -/
def Cost.walk (E : Env α) : Nat → Iter → C α (List α × Iter)
  | 0, it => pure ([], it)
  | k + 1, it => do
    let v ← Cost.dereference E it
    let it ← Cost.move_next_iterator E it
    let r ← Cost.walk E k it
    return (v :: r.1, r.2)

/-- `walk_back` (Props/Iterators.lean: `--` and read the element, `k` times) with a counter -/
def Cost.walk_back (E : Env α) : Nat → Iter → C α (List α × Iter)
  | 0, it => pure ([], it)
  | k + 1, it => do
    let it ← Cost.move_prev_iterator E it
    let v ← Cost.dereference E it
    let r ← Cost.walk_back E k it
    return (v :: r.1, r.2)

instance Sim.walk (k : Nat) (it : Iter) : Sim (SegTree.walk E k it) (Cost.walk E k it) := by
  induction k generalizing it with
  | zero => exact Sim.pure _
  | succ k ih => unfold SegTree.walk Cost.walk; infer_instance

instance Sim.walk_back (k : Nat) (it : Iter) : Sim (SegTree.walk_back E k it) (Cost.walk_back E k it) := by
  induction k generalizing it with
  | zero => exact Sim.pure _
  | succ k ih => unfold SegTree.walk_back Cost.walk_back; infer_instance

/-- C52: stepping is constant amortised: visiting `k` consecutive elements, in
either direction and from anywhere, costs at most 13 per element plus a
logarithm of the size; so visiting all elements is linear. -/
theorem C52_amortised (hE : E.Good) (hr : Reach E m) (hc : Contents E o m xs) (hi : i ≤ xs.length)
    (hn : nth E o i m = .ok it m) :
    (i + k ≤ xs.length → Within (walk E k it) (Cost.walk E k it) m (13 * k + 6 * lg xs.length)) ∧
    (k ≤ i → Within (walk_back E k it) (Cost.walk_back E k it) m (13 * k + 6 * lg xs.length)) := by
  obtain ⟨al, s, F, hs, rfl, H⟩ := hr.cont hE hc
  have hht := hs.ht_le
  have ha := at_of_nth hs H hi hn
  constructor
  · intro hk
    obtain ⟨jt, e, -⟩ := C18_walk hE hr hc hk hn
    refine .run e ?_
    suffices ∀ k i a it, s.AtT i it a → i + k ≤ s.elems.length → (Cost.walk E k it m).le (13 * k + 5 * a) from
      (this k i _ it ha.toT hk).mono (by omega)
    intro k
    induction k with
    | zero => intro i a it _ _; exact Nat.zero_le _
    | succ k ih =>
      intro i a it ha hk
      unfold Cost.walk
      refine CRes.le_step (dereference_c hs ha.at (by omega) H) ((CB.dereference it).run m) (by omega) ?_
      obtain ⟨jt, n, b, e, hn, hb, hc⟩ := move_next_am hs ha (by omega) H
      refine CRes.le_step e hn (by omega) ?_
      refine CRes.le_bind (ih _ _ _ hb (by omega)) (by omega) fun _ _ _ _ => Nat.zero_le _
  · intro hk
    obtain ⟨jt, e, -⟩ := C18_walk_back hE hr hc hk hi hn
    refine .run e ?_
    suffices ∀ k i a it, s.AtL i it a → k ≤ i → i ≤ s.elems.length → (Cost.walk_back E k it m).le (13 * k + 6 * a) from
      (this k i _ it ha.toL hk hi).mono (by omega)
    intro k
    induction k with
    | zero => intro i a it _ _ _; exact Nat.zero_le _
    | succ k ih =>
      intro i a it ha hk hi
      unfold Cost.walk_back
      obtain ⟨jt, n, b, e, hn, hb, hc⟩ := move_prev_am hs ha (by omega) H
      refine CRes.le_step e hn (by omega) ?_
      refine CRes.le_step (dereference_c hs hb.at (by omega) H) ((CB.dereference jt).run m) (by omega) ?_
      refine CRes.le_bind (ih _ _ _ hb (by omega) (by omega)) (by omega) fun _ _ _ _ => Nat.zero_le _

/-! ### C53: destruction is linear -/

/-- C53: `clear`, the destructor, and move assignment that takes over the
source's blocks are linear in the size of the container destroyed. -/
theorem C53_destroy (hE : E.Good) (hr : Reach E m) (hc : Contents E o m xs) (hn : xs ≠ [] ∨ E.nullFree = true) :
    Within (clear E o) (Cost.clear E o) m (13 * xs.length + 23) ∧
    Within (dtor E o) (Cost.dtor E o) m (13 * xs.length + 23) ∧
    Within (assign_move E o o) (Cost.assign_move E o o) m (13 * xs.length + 23) ∧
    (o ≠ p → Contents E p m ys → get_allocator o m = .ok al m → get_allocator p m = .ok al2 m →
      E.pocma = true ∨ SameAlloc E al al2 →
      Within (assign_move E o p) (Cost.assign_move E o p) m (13 * xs.length + 23)) := by
  refine ⟨?_, ?_, ?_, fun hne hd ha ha2 hw => ?_⟩
  · obtain ⟨al, s, F, hs, rfl, H⟩ := hr.cont hE hc
    obtain ⟨m', h, -⟩ := clear_c hs hn H
    exact .run h ((clear_le hs hn H).mono (by omega))
  · obtain ⟨al, s, F, hs, rfl, H⟩ := hr.cont hE hc
    obtain ⟨m', h, -⟩ := dtor_c hs hn H
    exact .run h ((dtor_le hs H).mono (by omega))
  · obtain ⟨al, s, F, hs, rfl, H⟩ := hr.cont hE hc
    obtain ⟨m', h, -⟩ := assign_move_self_c hs hn H
    exact .run h ((assign_move_self_le hs hn H).mono (by omega))
  · obtain ⟨al', s, al2', s2, F, hs, rfl, hs2, rfl, H⟩ := hr.cont2 hE hc hd hne
    have H1 := H.eqv (by ac_rfl : _ = cont E p al2' s2 + (cont E o al' s + F))
    rw [get_allocator_c H] at ha; cases ha
    rw [get_allocator_c H1] at ha2; cases ha2
    obtain ⟨m', h, -⟩ := assign_move_steal_c hs hw hn H
    exact .run h ((assign_move_steal_le hs hw hn H).mono (by omega))

/-! ### C54: inserting, erasing or copying M elements costs M log N -/

section
variable {L : Nat}

theorem K_ins' (hL : 1 ≤ L) (n : Nat) : n * (0 + insK E * L + 14 * L) + 40 * n ≤ n * (K E * L) := by
  have h := K_ins (E := E) hL n
  have h1 : n * (0 + insK E * L + 14 * L) ≤ n * (insK E * L + 28 * L) := Nat.mul_le_mul_left _ (by omega)
  omega
end

/-- C54: `insert(pos, n, v)`, `insert(pos, ilist)` and `insert(pos, first, last)`
with iterators of another container, also when they throw; the logarithm is that
of the resulting size. -/
theorem C54_insert (hE : E.Good) (hr : Reach E m) (hc : Contents E o m xs) (hi : i ≤ xs.length)
    (hn : nth E o i m = .ok it m) :
    (xs.length + n ≤ max_size E →
      Within (insert_fill E o it n v) (Cost.insert_fill E o it n v) m (K E * ((n + 1) * lg (xs.length + n)))) ∧
    (xs.length + vs.length ≤ max_size E →
      Within (insert_list E o it vs) (Cost.insert_list E o it vs) m
        (K E * ((vs.length + 1) * lg (xs.length + vs.length)))) ∧
    (o ≠ p → Contents E p m ys → a ≤ b → b ≤ ys.length → nth E p a m = .ok first m → nth E p b m = .ok last m →
      xs.length + (b - a) ≤ max_size E →
      Within (emplace_range E (copySrc E last) o it first) (Cost.emplace_range E (Cost.copySrc E last) o it first) m
        (K E * ((b - a + 1) * lg (xs.length + (b - a)) + lg ys.length))) := by
  refine ⟨fun hsz => ?_, fun hsz => ?_, fun hne hd hab hb hf hl hsz => ?_⟩
  · obtain ⟨al, s, F, hs, rfl, H⟩ := hr.cont hE hc
    have ha := at_of_nth hs H hi hn
    have hW := max_lt hE hsz
    refine .of (emplace_count_c hE (Mk.copy v) hs ha hW H) ((emplace_count_le (mk := copyVal E v) hE (Mk.copy v)
      (CB.copyVal v) hs ha hW (Nat.le_refl _) H).mono ?_)
    have h1 := lg_pos (s.elems.length + n)
    generalize lg (s.elems.length + n) = L at *
    have h2 := K_ins' (E := E) h1 n
    have h3 := K_cnt (E := E) (L := L)
    rw [K_expand0]
    omega
  · obtain ⟨al, s, F, hs, rfl, H⟩ := hr.cont hE hc
    have ha := at_of_nth hs H hi hn
    have hW := max_lt hE hsz
    have H0 : Holds m.log (cont E o al s + (0 + F)) m := by simpa using H
    refine .of (emplace_range_c hE listSrc_ok hs ha (X := 0) ⟨rfl, rfl⟩ hW H0) ((emplace_range_le (a := 0) hE listSrc_ok
      listSrc_cost hs ha (X := 0) ⟨rfl, rfl⟩ rfl hW (Nat.le_refl _) H0).mono ?_)
    have h1 := lg_pos (s.elems.length + vs.length)
    generalize lg (s.elems.length + vs.length) = L at *
    have h2 := K_ins (E := E) h1 vs.length
    have h3 := K_cnt (E := E) (L := L)
    rw [K_expand0]
    omega
  · obtain ⟨al, s, al2, s2, F, hs, rfl, hs2, rfl, H⟩ := hr.cont2 hE hc hd hne
    have ha := at_of_nth hs H hi hn
    have H2 : Holds m.log (cont E p al2 s2 + (cont E o al s + F)) m := H.eqv (by ac_rfl)
    have hla := at_of_nth hs2 H2 hb hl
    have hfi := at_of_nth hs2 H2 (Nat.le_trans hab hb) hf
    have hlen : (slice s2.elems a b).length = b - a := slice_length hb
    have hW : s.elems.length + (slice s2.elems a b).length < E.W := by rw [hlen]; exact max_lt hE hsz
    refine .of (emplace_range_c hE (copySrc_ok (X0 := cont E p al2 s2) hs2 hla) hs ha
      (X := cont E p al2 s2) (vs := slice s2.elems a b) ⟨rfl, Ent.refl _, a, hfi, hab, rfl⟩ hW H) ?_
    refine (emplace_range_le hE (copySrc_ok (X0 := cont E p al2 s2) hs2 hla) (copySrc_cost hs2 hla) hs ha
      (X := cont E p al2 s2) (vs := slice s2.elems a b) ⟨rfl, Ent.refl _, a, hfi, hab, rfl⟩ ⟨a, hfi.toT⟩ hW
      (Nat.le_refl _) H).mono ?_
    rw [hlen]
    have h1 := lg_pos (s.elems.length + (b - a))
    have h4 := htL hs2 (Nat.le_refl (lg s2.elems.length))
    generalize lg (s.elems.length + (b - a)) = L at *
    generalize lg s2.elems.length = L2 at *
    have h2 := K_ins (E := E) h1 (b - a)
    have h3 := K_cnt (E := E) (L := L)
    have h5 := K_lin (E := E) L2
    rw [Nat.mul_add (K E), K_expand0]
    omega

/-- C54: `erase(first, last)` and `resize` -/
theorem C54_erase_resize (hE : E.Good) (hr : Reach E m) (hc : Contents E o m xs) :
    (i ≤ j → j ≤ xs.length → nth E o i m = .ok it m → nth E o j m = .ok jt m →
      Within (erase_rng E o it jt) (Cost.erase_rng E o it jt) m (K E * ((j - i) * lg xs.length))) ∧
    (n ≤ max_size E → Within (resize E o n v) (Cost.resize E o n v) m
      (K E * ((max n xs.length - min n xs.length + 1) * lg (max n xs.length)))) := by
  obtain ⟨al, s, F, hs, rfl, H⟩ := hr.cont hE hc
  refine ⟨fun hij hj hi' hj' => ?_, fun hsz => ?_⟩
  · have ha := at_of_nth hs H (Nat.le_trans hij hj) hi'
    have hb := at_of_nth hs H hj hj'
    refine .of (erase_range_c hE (j - i) hs ha.pos hb (by omega) H)
      ((erase_range_le hE (j - i) hs ha.pos hb (by omega) (Nat.le_refl _) H).mono ?_)
    have h1 := posL (Nat.le_refl (lg s.elems.length))
    generalize lg s.elems.length = L at *
    have h2 := K_era (E := E) h1 (j - i)
    rw [Nat.mul_left_comm]
    omega
  · have hL1 : lg s.elems.length ≤ lg (max n s.elems.length) := lg_mono (by omega)
    have hL2 : lg n ≤ lg (max n s.elems.length) := lg_mono (by omega)
    generalize hr : max n s.elems.length - min n s.elems.length = r at *
    generalize lg (max n s.elems.length) = L at *
    have h1 := posL hL1
    have h3 := K_cnt (E := E) (L := L)
    refine .of (resize_count_c hE (Mk.copy v) hs (max_lt hE hsz) H) ((resize_count_le (mk := copyVal E v) hE (Mk.copy v)
      (CB.copyVal v) hs (max_lt hE hsz) hL1 hL2 H).mono ?_)
    rw [K_expand0]
    rcases Nat.le_total n s.elems.length with h | h
    · have e1 : n - s.elems.length = 0 := by omega
      have e2 : s.elems.length - n = r := by omega
      have h2 := K_era (E := E) h1 r
      rw [e1, e2, Nat.zero_mul]
      omega
    · have e1 : n - s.elems.length = r := by omega
      have e2 : s.elems.length - n = 0 := by omega
      have h2 := K_ins' (E := E) h1 r
      rw [e1, e2, Nat.zero_mul]
      omega

theorem newCost_le (L n : Nat) (hL : 1 ≤ L) : newCost E L n + 1 ≤ K E * ((n + 1) * L) := by
  have h2 := K_ins (E := E) hL n
  have h3 := K_cnt (E := E) (L := L)
  unfold newCost
  rw [K_expand0]
  omega

/-- C54: the constructors that copy or move `n` elements into a new container,
also when they throw: `seq(n, v)`, `seq{...}`, copy construction, and move
construction with an allocator (of any kind: see C49 for equal ones). -/
theorem C54_construct (hE : E.Good) (hr : Reach E m) (ho : m.cell (.obj o) = none) (hnf : E.nullFree = true) :
    (n ≤ max_size E → Within (ctor_count E o al n (copyVal E v)) (Cost.ctor_count E o al n (Cost.copyVal E v)) m
      (K E * ((n + 1) * lg n))) ∧
    (vs.length ≤ max_size E → Within (ctor_range E (listSrc E) o al vs) (Cost.ctor_range E (Cost.listSrc E) o al vs) m
      (K E * ((vs.length + 1) * lg vs.length))) ∧
    (Contents E p m ys → Within (ctor_copy E o p) (Cost.ctor_copy E o p) m (K E * ((ys.length + 1) * lg ys.length))) ∧
    (Contents E p m ys →
      Within (ctor_copy_alloc E o p al) (Cost.ctor_copy_alloc E o p al) m (K E * ((ys.length + 1) * lg ys.length))) ∧
    (Contents E p m ys →
      Within (ctor_move_alloc E o p al) (Cost.ctor_move_alloc E o p al) m (K E * ((ys.length + 1) * lg ys.length))) := by
  refine ⟨fun hsz => ?_, fun hsz => ?_, fun hd => ?_, fun hd => ?_, fun hd => ?_⟩
  · obtain ⟨S0, A, hR, H⟩ := hr.inv hE
    refine .of (ctor_count_c hE (Mk.copy v) hnf (by have := max_lt hE (n := n) hsz; omega) ho H)
      ((ctor_count_le (mk := copyVal E v) (mk' := Cost.copyVal E v) hE (Mk.copy v) (CB.copyVal v)
        (by have := max_lt hE (n := n) hsz; omega) ho (Nat.le_refl _) H).mono ?_)
    have h1 := lg_pos n
    generalize lg n = L at *
    have h2 := K_ins' (E := E) h1 n
    have h3 := K_cnt (E := E) (L := L)
    rw [K_expand0]
    omega
  · obtain ⟨S0, A, hR, H⟩ := hr.inv hE
    have hW := max_lt hE (n := vs.length) hsz
    refine .of (x := ctor_range E (listSrc E) o al vs) (ctor_range_c hE listSrc_ok hnf (X := 0) ⟨rfl, rfl⟩ hW ho (by simpa using H))
      ((ctor_list_le hE hW (Nat.le_refl _) ho H).mono ?_)
    have := newCost_le (E := E) _ vs.length (lg_pos vs.length)
    omega
  · obtain ⟨al2, s2, F, hs2, rfl, H⟩ := hr.cont hE hd
    exact .of (ctor_copy_c hE hnf hs2 ho H)
      ((ctor_copy_le hE hs2 (Nat.le_refl _) ho H).mono (newCost_le _ _ (lg_pos _)))
  · obtain ⟨al2, s2, F, hs2, rfl, H⟩ := hr.cont hE hd
    refine .of (ctor_copy_alloc_c (al := al) hE hnf hs2 ho H)
      ((ctor_copy_alloc_le hE hs2 (Nat.le_refl _) ho H).mono ?_)
    have := newCost_le (E := E) _ s2.elems.length (lg_pos s2.elems.length)
    omega
  · obtain ⟨al2, s2, F, hs2, rfl, H⟩ := hr.cont hE hd
    obtain ⟨k1, k2⟩ := ctor_move_alloc_c (al := al) hE hnf hs2 ho H
    have := newCost_le (E := E) _ s2.elems.length (lg_pos s2.elems.length)
    by_cases hw : E.acls al = E.acls al2
    · obtain ⟨m', h, -⟩ := k1 hw
      refine .run h ((ctor_move_alloc_steal_le hE hs2 hw ho H).mono ?_)
      rw [K_expand0]
      have h3 := K_cnt (E := E) (L := lg s2.elems.length)
      have := lg_pos s2.elems.length
      omega
    · exact .of (k2 hw) ((ctor_move_alloc_elems_le hE hs2 hw (Nat.le_refl _) ho H).mono (by omega))

/-- C54: `splice` of a whole container, of one element (logarithmic) and of a range -/
theorem C54_splice (hE : E.Good) (hr : Reach E m) (hc : Contents E o m xs) (hd : Contents E p m ys) (hne : o ≠ p)
    (hi : i ≤ xs.length) (hit : nth E o i m = .ok it m) :
    (ys ≠ [] ∨ E.nullFree = true → xs.length + ys.length ≤ max_size E →
      Within (splice E o it p) (Cost.splice E o it p) m (K E * ((ys.length + 1) * lg (xs.length + ys.length)))) ∧
    (j < ys.length → nth E p j m = .ok jt m → xs.length + 1 ≤ max_size E →
      Within (splice_one E o it p jt) (Cost.splice_one E o it p jt) m (K E * lg (max xs.length ys.length))) ∧
    (a ≤ b → b ≤ ys.length → nth E p a m = .ok first m → nth E p b m = .ok last m →
      xs.length + (b - a) ≤ max_size E →
      Within (splice_range E o it p first last) (Cost.splice_range E o it p first last) m
        (K E * ((b - a + 1) * lg (max (xs.length + (b - a)) ys.length)))) := by
  obtain ⟨al, s, al2, s2, F, hs, rfl, hs2, rfl, H⟩ := hr.cont2 hE hc hd hne
  have H1 := H.eqv (by ac_rfl : _ = cont E p al2 s2 + (cont E o al s + F))
  have ha := at_of_nth hs H hi hit
  refine ⟨fun hn hsz => ?_, fun hj hjt hsz => ?_, fun hab hb hf hl hsz => ?_⟩
  · refine .of (splice_c hE hs hs2 ha hn (max_lt hE hsz) H)
      ((splice_le hE hs hs2 ha hn (max_lt hE hsz) (Nat.le_refl _) H).mono ?_)
    have h1 := lg_pos (s.elems.length + s2.elems.length)
    generalize lg (s.elems.length + s2.elems.length) = L at *
    have h2 := K_ins (E := E) h1 s2.elems.length
    have h3 := K_cnt (E := E) (L := L)
    rw [K_expand0]
    omega
  · have hj' := at_of_nth hs2 H1 (Nat.le_of_lt hj) hjt
    refine .of (splice_one_c hE hs hs2 ha hj' hj (max_lt hE hsz) H)
      ((splice_one_le (L := lg (max s.elems.length s2.elems.length)) hE hs hs2 ha hj' hj (max_lt hE hsz)
        (lg_mono (by omega)) (lg_mono (by omega)) H).mono ?_)
    have h1 := lg_pos (max s.elems.length s2.elems.length)
    generalize lg (max s.elems.length s2.elems.length) = L at *
    have := (K_one (E := E) (L := L)).2.2
    omega
  · have hfi := at_of_nth hs2 H1 (Nat.le_trans hab hb) hf
    have hla := at_of_nth hs2 H1 hb hl
    refine .of (splice_range_c hE hs hs2 ha hfi hla hab (max_lt hE hsz) H)
      ((splice_range_le (L := lg (max (s.elems.length + (b - a)) s2.elems.length)) hE hs hs2 ha hfi hla hab
        (max_lt hE hsz) (lg_mono (by omega)) (lg_mono (by omega)) H).mono ?_)
    have h1 := lg_pos (max (s.elems.length + (b - a)) s2.elems.length)
    generalize lg (max (s.elems.length + (b - a)) s2.elems.length) = L at *
    have h2 := K_both (E := E) h1 (b - a)
    have h3 := K_cnt (E := E) (L := L)
    rw [K_expand0]
    omega

/-! ### C55: assignment and comparison -/

theorem asg_le (L n r : Nat) (hL : 1 ≤ L) :
    asgCost E L n r + 60 * L ≤ K E * (min n r + (max n r - min n r + 1) * L) := by
  have h3 := K_cnt (E := E) (L := L)
  have h4 := K_lin (E := E) (min n r)
  unfold asgCost
  rw [K_expand]
  rcases Nat.le_total n r with h | h
  · have e1 : n - r = 0 := by omega
    have e2 : max n r - min n r = r - n := by omega
    have h2 := K_era (E := E) hL (r - n)
    rw [e1, e2, Nat.zero_mul]
    omega
  · have e1 : r - n = 0 := by omega
    have e2 : max n r - min n r = n - r := by omega
    have h2 := K_ins (E := E) hL (n - r)
    rw [e1, e2, Nat.zero_mul]
    omega

/-- the documented cost of assigning `n` elements to a container of `r`: linear
in the elements overwritten, logarithmic for each element added or erased -/
def assignBound (E : Env α) (n r : Nat) : Nat :=
  K E * (min n r + (max n r - min n r + 1) * lg (max n r))

/-- C55: `assign(n, v)`, `assign(ilist)` (and `operator=(ilist)`) and
`assign(first, last)` with iterators of another container, also when they throw -/
theorem C55_assign (hE : E.Good) (hr : Reach E m) (hc : Contents E o m xs) :
    (n ≤ max_size E → Within (assign_fill E o n v) (Cost.assign_fill E o n v) m (assignBound E n xs.length)) ∧
    (vs.length ≤ max_size E →
      Within (assign_list E o vs) (Cost.assign_list E o vs) m (assignBound E vs.length xs.length)) ∧
    (o ≠ p → Contents E p m ys → a ≤ b → b ≤ ys.length → nth E p a m = .ok first m → nth E p b m = .ok last m →
      Within (assign_range E (copySrc E last) o first) (Cost.assign_range E (Cost.copySrc E last) o first) m
        (assignBound E (b - a) xs.length + K E * lg ys.length)) := by
  refine ⟨fun hsz => ?_, fun hsz => ?_, fun hne hd hab hb hf hl => ?_⟩
  · obtain ⟨al, s, F, hs, rfl, H⟩ := hr.cont hE hc
    have hW := max_lt hE (n := n) hsz
    refine .of (assign_count_c hE hs hW H) ((assign_count_le (L := lg (max n s.elems.length)) hE hs hW
      (lg_mono (by omega)) (lg_mono (by omega)) H).mono ?_)
    have := asg_le (E := E) _ n s.elems.length (lg_pos (max n s.elems.length))
    unfold assignBound
    omega
  · obtain ⟨al, s, F, hs, rfl, H⟩ := hr.cont hE hc
    have hW := max_lt hE (n := vs.length) hsz
    have H0 : Holds m.log (cont E o al s + (0 + F)) m := by simpa using H
    refine .of (assign_range_c hE listSrc_ok hs (X := 0) ⟨rfl, rfl⟩ hW H0) ((assign_range_le (a := 0)
      (L := lg (max vs.length s.elems.length)) hE listSrc_ok listSrc_cost hs (X := 0) ⟨rfl, rfl⟩ rfl hW
      (lg_mono (by omega)) (lg_mono (by omega)) H0).mono ?_)
    have := asg_le (E := E) _ vs.length s.elems.length (lg_pos (max vs.length s.elems.length))
    unfold assignBound
    omega
  · obtain ⟨al, s, al2, s2, F, hs, rfl, hs2, rfl, H⟩ := hr.cont2 hE hc hd hne
    have H2 : Holds m.log (cont E p al2 s2 + (cont E o al s + F)) m := H.eqv (by ac_rfl)
    have hla := at_of_nth hs2 H2 hb hl
    have hfi := at_of_nth hs2 H2 (Nat.le_trans hab hb) hf
    have hlen : (slice s2.elems a b).length = b - a := slice_length hb
    have hW : (slice s2.elems a b).length < E.W := by rw [hlen]; have := hs2.1; omega
    refine .of (assign_range_c hE (copySrc_ok (X0 := cont E p al2 s2) hs2 hla) hs
      (X := cont E p al2 s2) (vs := slice s2.elems a b) ⟨rfl, Ent.refl _, a, hfi, hab, rfl⟩ hW H) ?_
    refine (assign_range_le (L := lg (max (b - a) s.elems.length)) hE (copySrc_ok (X0 := cont E p al2 s2) hs2 hla)
      (copySrc_cost hs2 hla) hs
      (X := cont E p al2 s2) (vs := slice s2.elems a b) ⟨rfl, Ent.refl _, a, hfi, hab, rfl⟩ ⟨a, hfi.toT⟩ hW
      (lg_mono (by omega)) (lg_mono (by omega)) H).mono ?_
    rw [hlen]
    have := asg_le (E := E) _ (b - a) s.elems.length (lg_pos (max (b - a) s.elems.length))
    have h4 := htL hs2 (Nat.le_refl (lg s2.elems.length))
    have h5 := K_lin (E := E) (lg s2.elems.length)
    unfold assignBound
    omega

/-- C55: copy assignment (unless the allocator has to be replaced by a different
one) and move assignment between unequal allocators that may not propagate; and
the exception: copy assignment that replaces the allocator destroys and rebuilds,
which is not linear in the elements overwritten. -/
theorem C55_assign_whole (hE : E.Good) (hr : Reach E m) (hc : Contents E o m xs) (hd : Contents E p m ys)
    (hne : o ≠ p) (ha : get_allocator o m = .ok al m) (ha2 : get_allocator p m = .ok al2 m) :
    (E.pocca = false ∨ SameAlloc E al al2 →
      Within (assign_copy E o p) (Cost.assign_copy E o p) m (assignBound E ys.length xs.length)) ∧
    (E.pocca = true → ¬ SameAlloc E al al2 → xs ≠ [] ∨ E.nullFree = true →
      Within (assign_copy E o p) (Cost.assign_copy E o p) m
        (K E * (xs.length + (ys.length + 1) * lg ys.length))) ∧
    (E.pocma = false → ¬ SameAlloc E al al2 →
      Within (assign_move E o p) (Cost.assign_move E o p) m (assignBound E ys.length xs.length)) := by
  obtain ⟨al', s, al2', s2, F, hs, rfl, hs2, rfl, H⟩ := hr.cont2 hE hc hd hne
  have H1 := H.eqv (by ac_rfl : _ = cont E p al2' s2 + (cont E o al' s + F))
  rw [get_allocator_c H] at ha; cases ha
  rw [get_allocator_c H1] at ha2; cases ha2
  have hb := asg_le (E := E) _ s2.elems.length s.elems.length (lg_pos (max s2.elems.length s.elems.length))
  refine ⟨fun hw => ?_, fun hp hw hn => ?_, fun hp hw => ?_⟩
  · have hk : ¬ (E.pocca = true ∧ ¬ SameAlloc E al al2) := by
      rintro ⟨h1, h2⟩
      rcases hw with h | h
      · rw [h] at h1; cases h1
      · exact h2 h
    refine .of (assign_copy_c hE hs hs2 (fun h1 h2 => absurd ⟨h1, h2⟩ hk) H)
      ((assign_copy_le (L := lg (max s2.elems.length s.elems.length)) hE hs hs2 hk (lg_mono (by omega))
        (lg_mono (by omega)) H).mono ?_)
    unfold assignBound
    omega
  · refine .of (assign_copy_c hE hs hs2 (fun _ _ => hn) H)
      ((assign_copy_clear_le hE hs hs2 ⟨hp, hw⟩ hn (Nat.le_refl _) H).mono ?_)
    have h1 := lg_pos s2.elems.length
    rw [asgCost_nil_le]
    generalize lg s2.elems.length = L at *
    have h2 := K_ins (E := E) h1 s2.elems.length
    have h3 := K_cnt (E := E) (L := L)
    have h4 := K_lin (E := E) s.elems.length
    rw [K_expand]
    omega
  · refine .of (assign_move_elems_c hE hs hs2 hp hw H)
      ((assign_move_elems_le (L := lg (max s2.elems.length s.elems.length)) hE hs hs2 hp hw (lg_mono (by omega))
        (lg_mono (by omega)) H).mono ?_)
    unfold assignBound
    omega

/-- C55: `==` and `!=` cost two accesses if the sizes differ, otherwise they are
linear; `<`, `>`, `<=` and `>=` are linear in the smaller size plus a logarithm. -/
theorem C55_compare (hE : E.Good) (hr : Reach E m) (hc : Contents E o m xs) (hd : Contents E p m ys)
    (eq lt : α → α → Bool) :
    (xs.length ≠ ys.length → Within (op_eq E eq o p) (Cost.op_eq E eq o p) m 2 ∧
      Within (op_ne E eq o p) (Cost.op_ne E eq o p) m 2) ∧
    (xs.length = ys.length →
      Within (op_eq E eq o p) (Cost.op_eq E eq o p) m (24 * xs.length + 29 * lg xs.length) ∧
      Within (op_ne E eq o p) (Cost.op_ne E eq o p) m (24 * xs.length + 29 * lg xs.length)) ∧
    (let k := 24 * min xs.length ys.length + 34 * lg (max xs.length ys.length)
     Within (op_lt E lt o p) (Cost.op_lt E lt o p) m k ∧ Within (op_gt E lt o p) (Cost.op_gt E lt o p) m k ∧
     Within (op_le E lt o p) (Cost.op_le E lt o p) m k ∧ Within (op_ge E lt o p) (Cost.op_ge E lt o p) m k) := by
  obtain ⟨c1, c2, c3, c4, c5, c6⟩ := C39_compare hE hr hc hd eq lt
  obtain ⟨al, s, F, hs, rfl, H⟩ := hr.cont hE hc
  obtain ⟨al2, s2, F2, hs2, rfl, H2⟩ := hr.cont hE hd
  have k1 := op_eq_le (eq := eq) hs hs2 (Nat.le_refl _) H H2
  have k2 := op_lt_le (lt := lt) (L := lg (max s.elems.length s2.elems.length)) hs hs2 (lg_mono (by omega))
    (lg_mono (by omega)) H H2
  have k3 := op_lt_le (lt := lt) (L := lg (max s.elems.length s2.elems.length)) hs2 hs (lg_mono (by omega))
    (lg_mono (by omega)) H2 H
  rw [Nat.min_comm] at k3
  refine ⟨fun h => ?_, fun h => ?_, .run c3 k2, .run c4 k3, .run c5 ?_, .run c6 ?_⟩
  · rw [if_neg h] at k1
    exact ⟨.run c1 k1, .run c2 (CRes.le_bind k1 (Nat.le_refl _) fun _ _ _ _ => Nat.zero_le _)⟩
  · rw [if_pos h] at k1
    exact ⟨.run c1 k1, .run c2 (CRes.le_bind k1 (Nat.le_refl _) fun _ _ _ _ => Nat.zero_le _)⟩
  · exact CRes.le_bind k3 (Nat.le_refl _) fun _ _ _ _ => Nat.zero_le _
  · exact CRes.le_bind k2 (Nat.le_refl _) fun _ _ _ _ => Nat.zero_le _

/-! ### C56: the list-like algorithms -/

/-- C56: `reverse` is linear. -/
theorem C56_reverse (hE : E.Good) (hr : Reach E m) (hc : Contents E o m xs) :
    Within (reverse E o) (Cost.reverse E o) m (33 * xs.length + 35 * lg xs.length) := by
  obtain ⟨al, s, F, hs, rfl, H⟩ := hr.cont hE hc
  obtain ⟨m', s', h, -⟩ := reverse_c hE hs H
  exact .run h (reverse_le hE hs (Nat.le_refl _) H)

/-- C56: `remove_if`, `remove` and `unique` are linear plus a logarithm for every
element removed. -/
theorem C56_remove (hE : E.Good) (hr : Reach E m) (hc : Contents E o m xs) :
    (∀ q : α → Bool, Within (remove_if E o q) (Cost.remove_if E o q) m
      (40 * xs.length + K E * ((xs.countP q + 1) * lg xs.length))) ∧
    (∀ (eq : α → α → Bool) (v : α), Within (remove E o eq v) (Cost.remove E o eq v) m
      (40 * xs.length + K E * ((xs.countP (fun x => eq x v) + 1) * lg xs.length))) ∧
    (∀ q : α → α → Bool, Within (unique E o q) (Cost.unique E o q) m
      (40 * xs.length + K E * ((xs.length - (dropDups q xs).length + 1) * lg xs.length))) := by
  have key : ∀ q : α → Bool, Within (remove_if E o q) (Cost.remove_if E o q) m
      (40 * xs.length + K E * ((xs.countP q + 1) * lg xs.length)) := by
    intro q
    obtain ⟨al, s, F, hs, rfl, H⟩ := hr.cont hE hc
    refine .of (remove_if_c (p := q) hE hs H) ((remove_if_le (p := q) hE hs (Nat.le_refl _) H).mono ?_)
    have e : s.elems.length - (s.elems.filter (fun x => !q x)).length = s.elems.countP q := by
      rw [← List.countP_eq_length_filter]
      have := List.length_eq_countP_add_countP q (l := s.elems)
      simp only [Bool.not_eq_true, Bool.decide_eq_false] at this
      omega
    rw [e]
    have h1 := lg_pos s.elems.length
    generalize lg s.elems.length = L at *
    have h2 := K_era (E := E) h1 (s.elems.countP q)
    have h3 := K_cnt (E := E) (L := L)
    rw [K_expand0]
    omega
  refine ⟨key, fun eq v => key _, fun q => ?_⟩
  obtain ⟨al, s, F, hs, rfl, H⟩ := hr.cont hE hc
  refine .of (unique_c (p := q) hE hs H) ((unique_le (p := q) hE hs (Nat.le_refl _) H).mono ?_)
  rw [uniq_eq]
  have h1 := lg_pos s.elems.length
  generalize lg s.elems.length = L at *
  have h2 := K_era (E := E) h1 (s.elems.length - (dropDups q s.elems).length)
  have h3 := K_cnt (E := E) (L := L)
  rw [K_expand0]
  omega

/-- C56, a defect of the documentation: `remove(value)` is documented
"Logarithmic in `size()`" (seq.hpp 3564), but it makes at least one access for
every element of the container, whatever the value. -/
theorem C56_remove_not_logarithmic (hE : E.Good) (hr : Reach E m) (hc : Contents E o m xs) (eq : α → α → Bool) (v : α) :
    ∃ m' n, remove E o eq v m = .ok () m' ∧ Cost.remove E o eq v m = .ok () m' n ∧ xs.length ≤ n := by
  obtain ⟨al, s, F, hs, rfl, H⟩ := hr.cont hE hc
  obtain ⟨u, m', h, -⟩ := (remove_if_c (p := fun x => eq x v) hE hs H).get
  obtain ⟨m1, n, e, hn⟩ := remove_if_ge (p := fun x => eq x v) hE hs H
  obtain ⟨n', e'⟩ := (inferInstance : Sim (remove_if E o fun x => eq x v) (Cost.remove_if E o fun x => eq x v)).ok h
  rw [e] at e'; cases e'
  exact ⟨_, n, h, e, hn⟩

/-! ### the hypotheses are met

The hypotheses of C49-C56 are those of C01-C39 (a reachable memory, the contents
of one or two containers, positions of iterators), for which Props/Single.lean to
Props/Algorithms.lean already show cases; here the two-container case with
everything at once, and a case where a bound is a number. -/

example : ∃ (m : Mem Nat) (it jt first last : Iter), Reach demo m ∧ Contents demo 0 m eight ∧
    Contents demo 1 m [1, 2, 3, 4, 5] ∧ m.cell (.obj 2) = none ∧ demo.nullFree = true ∧
    get_allocator 0 m = .ok 0 m ∧ get_allocator 1 m = .ok 2 m ∧ ¬ SameAlloc demo 0 2 ∧
    nth demo 0 3 m = .ok it m ∧ nth demo 1 2 m = .ok jt m ∧
    nth demo 1 1 m = .ok first m ∧ nth demo 1 4 m = .ok last m ∧ eight.length + 5 ≤ max_size demo := by
  obtain ⟨m, h1, hv, h2, h3, h4, h5⟩ := demo_lists eight [1, 2, 3, 4, 5] 0 2
  obtain ⟨it, hit⟩ := h1.nth demo_good h2 3
  obtain ⟨jt, hjt⟩ := h1.nth demo_good h3 2
  obtain ⟨first, hf⟩ := h1.nth demo_good h3 1
  obtain ⟨last, hl⟩ := h1.nth demo_good h3 4
  exact ⟨m, it, jt, first, last, h1, h2, h3, hv 2, rfl, h4, h5, by show ¬ (0 / 2 = 2 / 2); decide, hit, hjt, hf, hl, by decide⟩

/-- in the demonstration environment (nodes of 3 entries, segments of 2): reading
one element of eight costs at most 2000 accesses by C50, and walking over all
eight at most 128 by C52 -/
example : ∃ m : Mem Nat, Reach demo m ∧ Contents demo 0 m eight ∧
    Within (at_ demo 0 5) (Cost.at_ demo 0 5) m 2000 ∧
    ∃ it, nth demo 0 0 m = .ok it m ∧ Within (walk demo 8 it) (Cost.walk demo 8 it) m 128 := by
  obtain ⟨m, h1, h2, -⟩ := demo_eight
  obtain ⟨it, hit⟩ := h1.nth demo_good h2 0
  exact ⟨m, h1, h2, (C50_access demo_good h1 h2).1.mono (by decide), it, hit,
    ((C52_amortised demo_good h1 h2 (Nat.zero_le _) hit).1 (by decide)).mono (by decide)⟩

end SegTree
