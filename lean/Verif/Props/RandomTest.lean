/-
  C80: the repository's randomised tests (/repo/test/test_sequence.cpp) hold for all
  parameters and all random numbers.
-/
import Verif.Model.RandomTest
import Verif.Props.Retry
import Verif.Props.Checksum
set_option autoImplicit false

namespace SegTree
open Bench
variable {α : Type} {E : Env α} {m m' : Mem α} {o i n W count size al : Nat} {xs : List α} {v : α} {c : Exn → Bool}
  {d : InsertionData α} {G : Rng} {bits : Nat → α} {val : α → Nat} {eq : α → α → Bool} {S : Bank α}
  {bytes : α → List (BitVec 8)} {sum checksum : BitVec 64}

/-! ### Vectors -/

theorem vecAt_c (h : i < xs.length) : vecAt xs i m = .ok xs[i] m := by
  unfold vecAt
  rw [List.getElem?_eq_getElem h]
  rfl

theorem vec_forward_c : ∀ (k i accu : Nat), i + k = xs.length → accu < 2 ^ 64 →
    vec_forward_loop val xs i xs.length accu m = .ok ((accu + ((xs.drop i).map val).sum) % 2 ^ 64) m := by
  intro k
  induction k with
  | zero =>
    intro i accu hi ha
    rw [vec_forward_loop, if_neg (by omega), List.drop_of_length_le (by omega)]
    show Res.ok accu m = _
    rw [List.map_nil, List.sum_nil, Nat.add_zero, Nat.mod_eq_of_lt ha]
  | succ k ih =>
    intro i accu hi ha
    rw [vec_forward_loop, if_pos (by omega), bind_ok (vecAt_c (by omega)),
      ih (i + 1) _ (by omega) addU64_lt, addU64_mod, List.drop_eq_getElem_cons (by omega : i < xs.length),
      List.map_cons, List.sum_cons]

theorem usub_c {a b : Nat} (h : b ≤ a) : usub (α := α) a b m = .ok (a - b) m := by
  unfold usub; rw [if_pos h]; rfl

theorem vec_backward_c : ∀ (i accu : Nat), i ≤ xs.length → accu < 2 ^ 64 →
    vec_backward_loop val xs 0 i accu m = .ok ((accu + ((xs.take i).map val).sum) % 2 ^ 64) m := by
  intro i
  induction i with
  | zero =>
    intro accu hi ha
    rw [vec_backward_loop, if_neg (by omega)]
    show Res.ok accu m = _
    rw [List.take_zero, List.map_nil, List.sum_nil, Nat.add_zero, Nat.mod_eq_of_lt ha]
  | succ i ih =>
    intro accu hi ha
    rw [vec_backward_loop, if_pos (by omega), bind_ok (usub_c (by omega)), Nat.add_sub_cancel, bind_ok (vecAt_c (by omega)),
      ih _ (by omega) addU64_lt, addU64_mod, List.take_succ_eq_append_getElem (by omega : i < xs.length),
      List.map_append, List.sum_append, List.map_singleton, List.sum_singleton, Nat.add_comm (val _)]

theorem vec_forward_by_c {d : Nat} (hd : 0 < d) :
    ∀ (q i left accu : Nat), i + left = xs.length → left / d = q → accu < 2 ^ 64 →
    vec_forward_by_loop val xs d i left accu m =
      .ok ((accu + (((List.range q).filterMap fun k => xs[i + k * d]?).map val).sum) % 2 ^ 64) m := by
  intro q
  induction q with
  | zero =>
    intro i left accu hi hq ha
    have : left < d := (Nat.div_eq_zero_iff_lt hd).1 hq
    rw [vec_forward_by_loop, if_neg (by omega)]
    show Res.ok accu m = _
    rw [List.range_zero, List.filterMap_nil, List.map_nil, List.sum_nil, Nat.add_zero, Nat.mod_eq_of_lt ha]
  | succ q ih =>
    intro i left accu hi hq ha
    have hle : d ≤ left := by
      by_contra hlt
      rw [Nat.div_eq_of_lt (by omega)] at hq
      omega
    have hq' : (left - d) / d = q := by
      rw [Nat.div_eq_sub_div hd hle] at hq
      omega
    rw [vec_forward_by_loop, if_pos hle, bind_ok (vecAt_c (by omega)),
      ih (i + d) (left - d) _ (by omega) hq' addU64_lt, addU64_mod]
    rw [List.range_succ_eq_map, List.filterMap_cons]
    simp only [Nat.zero_mul, Nat.add_zero, List.getElem?_eq_getElem (by omega : i < xs.length), List.map_cons, List.sum_cons,
      List.filterMap_map, Function.comp_def, Nat.succ_mul]
    simp only [Nat.add_assoc, Nat.add_comm d]

theorem vec_backward_by_c {d : Nat} (hd : 0 < d) :
    ∀ (q left accu : Nat), left ≤ xs.length → left / d = q → accu < 2 ^ 64 →
    vec_backward_by_loop val xs d left left accu m =
      .ok ((accu + (((List.range q).filterMap fun k => xs[left - (k + 1) * d]?).map val).sum) % 2 ^ 64) m := by
  intro q
  induction q with
  | zero =>
    intro left accu hi hq ha
    have : left < d := (Nat.div_eq_zero_iff_lt hd).1 hq
    rw [vec_backward_by_loop, if_neg (by omega)]
    show Res.ok accu m = _
    rw [List.range_zero, List.filterMap_nil, List.map_nil, List.sum_nil, Nat.add_zero, Nat.mod_eq_of_lt ha]
  | succ q ih =>
    intro left accu hi hq ha
    have hle : d ≤ left := by
      by_contra hlt
      rw [Nat.div_eq_of_lt (by omega)] at hq
      omega
    have hq' : (left - d) / d = q := by
      rw [Nat.div_eq_sub_div hd hle] at hq
      omega
    rw [vec_backward_by_loop, if_pos hle, bind_ok (usub_c hle), bind_ok (vecAt_c (by omega)),
      ih (left - d) _ (by omega) hq' addU64_lt, addU64_mod]
    rw [List.range_succ_eq_map, List.filterMap_cons]
    simp only [Nat.zero_mul, Nat.zero_add, List.getElem?_eq_getElem (by omega : left - d < xs.length), List.map_cons,
      List.sum_cons, List.filterMap_map, Function.comp_def, Nat.succ_mul, Nat.sub_sub]
    simp only [Nat.add_assoc, Nat.add_comm d]

/-! ### The checks -/

theorem check_by_c (hE : E.Good) (hr : Reach E m) (hc : Contents E o m xs) (n : Nat) :
    check_by E val o xs (n + 1) m = .ok true m := by
  have hn : 0 < n + 1 := Nat.succ_pos n
  unfold check_by
  rw [bind_ok (vec_forward_by_c hn _ 0 xs.length 0 (Nat.zero_add _) rfl (by decide)),
    bind_ok (C61_accumulate_by hE hr hc val hn).1,
    bind_ok (vec_backward_by_c hn _ xs.length 0 (Nat.le_refl _) rfl (by decide)),
    bind_ok (C61_accumulate_by hE hr hc val hn).2]
  show Res.ok _ m = _
  simp only [Nat.zero_add, total, strideFwd, strideBwd, beq_self_eq_true, Bool.and_self]

/-- C80: `test_iterator` on a container and a copy of its elements: every check holds,
and nothing is changed -/
theorem C80_iterator (hE : E.Good) (hr : Reach E m) (hc : Contents E o m xs) (val : α → Nat) :
    test_iterator E val o xs m = .ok true m := by
  unfold test_iterator
  rw [bind_ok (vec_forward_c xs.length 0 0 (Nat.zero_add _) (by decide)), bind_ok (C61_accumulate hE hr hc val).1,
    bind_ok (vec_backward_c xs.length 0 (Nat.le_refl _) (by decide)), bind_ok (C61_accumulate hE hr hc val).2,
    bind_ok (check_by_c hE hr hc 0), bind_ok (check_by_c hE hr hc 9), bind_ok (check_by_c hE hr hc 99),
    bind_ok (check_by_c hE hr hc 999), bind_ok (check_by_c hE hr hc 9999)]
  show Res.ok _ m = _
  simp only [Nat.zero_add, total, List.drop_zero, List.take_length, beq_self_eq_true, Bool.and_self]

theorem read_vector_c (hE : E.Good) (hr : Reach E m) (hc : Contents E o m xs) {jt : Iter}
    (hlast : nth E o xs.length m = .ok jt m) : ∀ (k i : Nat) (it : Iter), i + k = xs.length → nth E o i m = .ok it m →
    read_vector E it jt m = .ok (xs.drop i) m := by
  have hjt := nth_pos hE hr hc (Nat.le_refl _) hlast
  intro k
  induction k with
  | zero =>
    intro i it hi hn
    have hit := nth_pos hE hr hc (by omega) hn
    rw [read_vector, if_neg (by omega), List.drop_of_length_le (by omega)]
    rfl
  | succ k ih =>
    intro i it hi hn
    have hit := nth_pos hE hr hc (by omega) hn
    obtain ⟨it2, h1, h2⟩ := C18_next hE hr hc (by omega) hn
    rw [read_vector, if_pos (by omega), bind_ok (nth_deref hE hr hc (by omega) hn), bind_ok h1,
      bind_ok (ih (i + 1) it2 (by omega) h2), List.drop_eq_getElem_cons (by omega : i < xs.length)]
    rfl

/-! ### The generators -/

theorem vec_single_loop (hd : d.Single) : ∀ (left i : Nat), i + left ≤ d.indexes.length →
    vec_insert_single_loop d left i (d.single i) = some (d.single (i + left)) := by
  intro left
  induction left with
  | zero => intro i _; rfl
  | succ left ih =>
    intro i hi
    have hlen := hd.len
    have h1 : i < d.indexes.length := by omega
    have h2 : i < d.ordered.length := by omega
    have h3 : d.indexes[i] ≤ (d.single i).length := by
      rw [single_length hd i (by omega)]; exact hd.le i h1
    unfold vec_insert_single_loop vec_insert
    simp only [List.getElem?_eq_getElem h1, List.getElem?_eq_getElem h2, Option.bind_eq_bind, Option.bind_some, if_pos h3]
    have h4 : d.single (i + 1) = (d.single i).take d.indexes[i] ++ ([d.ordered[i]] ++ (d.single i).drop d.indexes[i]) := by
      rw [Bench.InsertionData.single]
      simp only [List.getElem?_eq_getElem h1, List.getElem?_eq_getElem h2, ins]
    rw [← h4, ih (i + 1) (by omega), Nat.add_assoc, Nat.add_comm 1]

/-- the checksum that the generator prints is the checksum of the sequence that the
insertions build -/
theorem generate_single_c (hd : make_insertion_data_single W G bits count = some d)
    (hs : generate_single bytes W G bits count = some sum) :
    make_checksum_unsigned bytes (d.single d.indexes.length) = sum := by
  obtain ⟨-, -, h3⟩ := C60_generate_single hd
  unfold generate_single at hs
  have h := vec_single_loop h3 d.indexes.length 0 (by omega)
  rw [Nat.zero_add] at h
  change vec_insert_single_loop d d.indexes.length 0 [] = _ at h
  simp only [hd, h, Option.bind_eq_bind, Option.bind_some] at hs
  exact Option.some.inj hs

theorem vec_range_loop (hd : d.Ranged size) : ∀ (left i : Nat), i + left ≤ d.indexes.length →
    vec_insert_range_loop d size left i (i * size) (d.ranged size i) = some (d.ranged size (i + left)) := by
  intro left
  induction left with
  | zero => intro i _; rfl
  | succ left ih =>
    intro i hi
    have hlen := hd.len
    have h1 : i < d.indexes.length := by omega
    have h2 : i * size + size ≤ d.ordered.length := by
      rw [hlen, ← Nat.succ_mul]; exact Nat.mul_le_mul_right _ h1
    have h3 : d.indexes[i] ≤ (d.ranged size i).length := by
      rw [ranged_length hd i (by omega)]; exact hd.le i h1
    unfold vec_insert_range_loop vec_insert
    simp only [List.getElem?_eq_getElem h1, Option.bind_eq_bind, Option.bind_some, if_pos h2, if_pos h3]
    have h4 : d.ranged size (i + 1) = (d.ranged size i).take d.indexes[i] ++
        (((d.ordered.drop (i * size)).take size) ++ (d.ranged size i).drop d.indexes[i]) := by
      rw [Bench.InsertionData.ranged]
      simp only [List.getElem?_eq_getElem h1, ins, slice]
      rw [List.take_drop]
      congr 5
      rw [Nat.succ_mul]
    rw [← h4, ← Nat.succ_mul, ih (i + 1) (by omega), Nat.add_assoc, Nat.add_comm 1]

theorem generate_range_c (hcount : 0 < count) (hd : make_insertion_data_range W G bits count size = some d)
    (hs : generate_range bytes W G bits count size = some sum) :
    make_checksum_unsigned bytes (d.ranged size d.indexes.length) = sum := by
  obtain ⟨h1, -, h3⟩ := C60_generate_range hd
  unfold generate_range at hs
  have h := vec_range_loop h3 d.indexes.length 0 (by omega)
  rw [Nat.zero_add, Nat.zero_mul] at h
  change vec_insert_range_loop d size d.indexes.length 0 0 [] = _ at h
  have hdiv : d.ordered.length / d.indexes.length = size := by
    rw [h3.len, Nat.mul_div_cancel_left _ (by omega)]
  have hne : d.indexes.length ≠ 0 := by omega
  simp only [hd, Option.bind_eq_bind, Option.bind_some, if_neg hne, hdiv, h] at hs
  exact Option.some.inj hs

/-! ### The programs -/

theorem catch_ok {β : Type} {x : M α β} {h : M α Unit} {v : β} (hx : x m = .ok v m') :
    M.onThrow x h m = .ok v m' := by
  unfold M.onThrow; rw [hx]

/-- the end of the block: the container is destroyed, nothing else happens -/
theorem test_dtor (hE : E.Good) {m0 : Mem α} (hv : View E m0 (upd S o (some ⟨al, []⟩))) (ho : S o = none)
    (ha : After E o m0 m') (hnull : E.nullFree = true) :
    ∃ m2, dtor E o m' = .ok () m2 ∧ View E m2 S ∧ Reach E m2 := by
  obtain ⟨x, hx⟩ := ha.others _ hv
  rw [upd_twice] at hx
  rcases ha.reach.op hE hx (op := .dtor o) ⟨x, upd_self, .inr hnull⟩ with ⟨r, m2, S', h1, ⟨-, rfl⟩, h3, h4⟩ | ⟨e, m2, S', h1, h2, -⟩
  · obtain ⟨-, u, h5⟩ := unit_inv h1
    refine ⟨m2, h5, ?_, h4⟩
    rwa [upd_twice, upd_id ho] at h3
  · exact h2.elim

theorem test_random_c (hE : E.Good) (hr : Reach E m) (hv : View E m S) (ho : S o = none) (hnull : E.nullFree = true)
    (heq : ∀ v, eq v v = true) {ins ers : M α Unit} {P : Exn → Prop} {D : Prop} {ys : List α}
    (hi : ∀ m0, Reach E m0 → Contents E o m0 [] →
      (∃ m1, ins m0 = .ok () m1 ∧ Contents E o m1 ys ∧ After E o m0 m1 ∧
        ∃ m2 w, ers m1 = .ok () m2 ∧ Contents E o m2 [w] ∧ After E o m0 m2 ∧ d.ordered[0]? = some w) ∨
      (∃ e m1 zs, ins m0 = .throw e m1 ∧ P e ∧ Contents E o m1 zs ∧ After E o m0 m1) ∨ (ins m0 = .div ∧ D)) :
    (∃ m', test_random E bytes val eq o al ins ers d checksum m = .ok (checksum == make_checksum_unsigned bytes ys) m' ∧
      View E m' S ∧ Reach E m') ∨
    (∃ e m', test_random E bytes val eq o al ins ers d checksum m = .throw e m' ∧ P e ∧ View E m' S ∧ Reach E m') ∨
    (test_random E bytes val eq o al ins ers d checksum m = .div ∧ D) := by
  rcases hr.op hE hv (op := .new o (.empty al)) ⟨ho, trivial⟩ with ⟨r, m0, S', h1, h2, h3, h4⟩ | ⟨e, m0, S', h1, h2, -⟩
  · obtain ⟨-, x, hx, rfl⟩ := h2
    cases hx
    obtain ⟨-, u, h5⟩ := unit_inv h1
    have hc0 : Contents E o m0 [] := by have := h3 o; rw [upd_self] at this; exact this.2
    unfold test_random
    rw [bind_ok h5]
    rcases hi m0 h4 hc0 with ⟨m1, g1, g2, g3, m2, w, g4, g5, g6, g7⟩ | ⟨e, m1, zs, g1, g2, g3, g4⟩ | ⟨g1, g2⟩
    · obtain ⟨b, e, k1, k2, k3, k4⟩ := g3.reach.ends hE g2
      obtain ⟨m3, k5, k6, k7⟩ := test_dtor hE h3 ho g6 hnull
      refine .inl ⟨m3, ?_, k6, k7⟩
      have hb : M.onThrow (do
          ins
          let first ← begin_ E o
          let last ← end_ E o
          let inserted ← read_vector E first last
          let sum := checksum == make_checksum_unsigned bytes inserted
          let ok ← test_iterator E val o inserted
          ers
          let n ← SegTree.size o
          let v ← index_op E o 0
          let w ← vecAt d.ordered 0
          return sum && ok && n == 1 && eq v w) (dtor E o) m0 = .ok (checksum == make_checksum_unsigned bytes ys) m2 := by
        refine catch_ok ?_
        rw [bind_ok g1, bind_ok k1, bind_ok k3, bind_ok (read_vector_c hE g3.reach g2 k4 ys.length 0 b (Nat.zero_add _) k2),
          List.drop_zero, bind_ok (C80_iterator hE g3.reach g2 val), bind_ok g4, bind_ok g5.1,
          bind_ok ((C05_access (i := 0) hE g6.reach g5).1 (by simp)).2.1,
          bind_ok (show vecAt d.ordered 0 m2 = .ok w m2 by unfold vecAt; rw [g7]; rfl)]
        show Res.ok ((checksum == make_checksum_unsigned bytes ys) && true && [w].length == 1 && eq w w) m2 = _
        simp [heq]
      rw [bind_ok hb, bind_ok k5]
      rfl
    · obtain ⟨m3, k5, k6, k7⟩ := test_dtor hE h3 ho g4 hnull
      refine .inr (.inl ⟨e, m3, bind_throw ?_, g2, k6, k7⟩)
      unfold M.onThrow
      rw [bind_throw g1]
      simp only [k5]
    · refine .inr (.inr ⟨?_, g2⟩)
      show M.bind _ _ m0 = _
      unfold M.bind M.onThrow
      have : ∀ {β : Type} (f : Unit → M α β), (ins >>= f) m0 = .div := by
        intro β f
        show M.bind _ _ m0 = _
        unfold M.bind
        rw [g1]
      rw [this]
  · exact h2.1.elim

/-- what a program of this kind does, whatever the insertions and erasures are: `ins` either
builds `ys`, from which `ers` leaves one element, or throws, or does not end -/
abbrev Builds (E : Env α) (o : Nat) (d : InsertionData α) (ins ers : M α Unit) (ys : List α) (P : Exn → Prop) (D : Prop) : Prop :=
  ∀ m0, Reach E m0 → Contents E o m0 [] →
    (∃ m1, ins m0 = .ok () m1 ∧ Contents E o m1 ys ∧ After E o m0 m1 ∧
      ∃ m2 w, ers m1 = .ok () m2 ∧ Contents E o m2 [w] ∧ After E o m0 m2 ∧ d.ordered[0]? = some w) ∨
    (∃ e m1 zs, ins m0 = .throw e m1 ∧ P e ∧ Contents E o m1 zs ∧ After E o m0 m1) ∨ (ins m0 = .div ∧ D)

theorem single_builds (hE : E.Good) (hcount : 0 < count) (hmax : count ≤ max_size E)
    (hd : make_insertion_data_single W G bits count = some d) :
    Builds E o d (insert_single E o d) (Bench.erase_single E o d) (d.single d.indexes.length)
      (Blame E ((List.range count).map bits)) False := by
  obtain ⟨h1, h2, h3⟩ := C60_generate_single hd
  have hlen := h3.len
  intro m0 hr0 hc0
  rcases C60_single hE hr0 hc0 h3 (h1 ▸ hmax) with ⟨m1, g1, g2, g3, g4⟩ | ⟨e, m1, g1, g2, g3, k, -, g4⟩
  · obtain ⟨m2, g5, g6, g7⟩ := g4 (by omega)
    exact .inl ⟨m1, g1, g2, g3, m2, _, g5, g6, g7, List.getElem?_eq_getElem (by omega)⟩
  · exact .inr (.inl ⟨e, m1, _, g1, h2 ▸ g2, g4, g3⟩)

theorem range_builds (hE : E.Good) (hcount : 0 < count) (hsize : 0 < size) (hmax : count * size ≤ max_size E)
    (hd : make_insertion_data_range W G bits count size = some d) :
    Builds E o d (insert_range E o d) (Bench.erase_range E o d) (d.ranged size d.indexes.length) (Blame E d.ordered) False := by
  obtain ⟨h1, h2, h3⟩ := C60_generate_range hd
  subst h1
  have hlen := h3.len
  have hpos : 0 < d.ordered.length := by rw [hlen]; exact Nat.mul_pos hcount hsize
  intro m0 hr0 hc0
  rcases C60_range hE hr0 hc0 h3 hsize hpos (hlen ▸ hmax) with
    ⟨m1, g1, g2, g3, m2, g5, g6, g7⟩ | ⟨e, m1, g1, g2, g3, k, hk, j, -, g4⟩
  · exact .inl ⟨m1, g1, g2, g3, m2, _, g5, g6, g7, List.getElem?_eq_getElem hpos⟩
  · exact .inr (.inl ⟨e, m1, _, g1, g2, g4, g3⟩)

/-- C80: `test_single`, for every number of elements (at least one, as long as they fit), every
stream of random numbers and every history before: all checks hold if the expected checksum
is the one that `generate_single` prints for those parameters, and exactly one check fails if
it is another. Afterwards everything is as it was before the test. Or memory or the copy of an
element failed, and everything is as it was before the test as well. -/
theorem C80_single (hE : E.Good) (hr : Reach E m) (hv : View E m S) (ho : S o = none) (hnull : E.nullFree = true)
    (heq : ∀ v, eq v v = true) (hcount : 0 < count) (hmax : count ≤ max_size E)
    (hd : make_insertion_data_single W G bits count = some d) (hs : generate_single bytes W G bits count = some sum) :
    (∃ m', test_single E bytes val eq o al d checksum m = .ok (checksum == sum) m' ∧ View E m' S ∧ Reach E m') ∨
    (∃ e m', test_single E bytes val eq o al d checksum m = .throw e m' ∧ Blame E ((List.range count).map bits) e ∧
      View E m' S ∧ Reach E m') := by
  rcases test_random_c (bytes := bytes) (checksum := checksum) (val := val) (eq := eq) (al := al) hE hr hv ho hnull heq
    (single_builds hE hcount hmax hd) with h | h | ⟨-, h⟩
  · rw [generate_single_c hd hs] at h; exact .inl h
  · exact .inr h
  · exact h.elim

/-- C80: `test_range`, for every number of blocks and every block size (at least one) -/
theorem C80_range (hE : E.Good) (hr : Reach E m) (hv : View E m S) (ho : S o = none) (hnull : E.nullFree = true)
    (heq : ∀ v, eq v v = true) (hcount : 0 < count) (hsize : 0 < size) (hmax : count * size ≤ max_size E)
    (hd : make_insertion_data_range W G bits count size = some d)
    (hs : generate_range bytes W G bits count size = some sum) :
    (∃ m', test_range E bytes val eq o al d checksum m = .ok (checksum == sum) m' ∧ View E m' S ∧ Reach E m') ∨
    (∃ e m', test_range E bytes val eq o al d checksum m = .throw e m' ∧ Blame E d.ordered e ∧ View E m' S ∧ Reach E m') := by
  rcases test_random_c (bytes := bytes) (checksum := checksum) (val := val) (eq := eq) (al := al) hE hr hv ho hnull heq
    (range_builds hE hcount hsize hmax hd) with h | h | ⟨-, h⟩
  · rw [generate_range_c hcount hd hs] at h; exact .inl h
  · exact .inr h
  · exact h.elim

/-- C80: the generators always print a checksum if the engine gives them numbers they
can use -/
theorem C80_generates (hd : make_insertion_data_single W G bits count = some d) :
    ∃ sum, generate_single bytes W G bits count = some sum := by
  obtain ⟨-, -, h3⟩ := C60_generate_single hd
  have h := vec_single_loop h3 d.indexes.length 0 (by omega)
  rw [Nat.zero_add] at h
  change vec_insert_single_loop d d.indexes.length 0 [] = _ at h
  refine ⟨make_checksum_unsigned bytes (d.single d.indexes.length), ?_⟩
  unfold generate_single
  simp only [hd, h, Option.bind_eq_bind, Option.bind_some]
  rfl

/-- C80: `test_single_retry` with an allocator that recovers and copies that stop
throwing: all checks hold, whatever fails on the way -/
theorem C80_retry (hE : E.Good) (hr : Reach E m) (hv : View E m S) (ho : S o = none) (hnull : E.nullFree = true)
    (heq : ∀ v, eq v v = true) (hcount : 0 < count) (hmax : count ≤ max_size E)
    (hd : make_insertion_data_single W G bits count = some d) (hs : generate_single bytes W G bits count = some sum)
    (hall : c .alloc = true ∧ c .elem = true) (hR : Recovers E) (hS : ∀ v ∈ d.ordered, Settles E v) :
    ∃ m', test_single_retry E c bytes val eq o al d checksum m = .ok (checksum == sum) m' ∧ View E m' S ∧ Reach E m' := by
  obtain ⟨h1, h2, h3⟩ := C60_generate_single hd
  have hlen := h3.len
  rcases test_random_c (bytes := bytes) (checksum := checksum) (val := val) (eq := eq) (al := al) (d := d)
    (ins := insert_single_retry E c o d) (ers := Bench.erase_single E o d) (P := fun _ => False) (D := False)
    (ys := d.single d.indexes.length) hE hr hv ho hnull heq
    (fun m0 hr0 hc0 => by
      rcases C79_program (c := c) hE hr0 hc0 h3 (h1 ▸ hmax) with ⟨m1, g1, g2, g3, g4⟩ | ⟨e, m1, g1, g2, g3, -⟩ | ⟨-, g⟩
      · obtain ⟨m2, g5, g6, g7⟩ := g4 (by omega)
        exact .inl ⟨m1, g1, g2, g3, m2, _, g5, g6, g7, List.getElem?_eq_getElem (by omega)⟩
      · exfalso
        rcases g3 with rfl | ⟨rfl, -⟩
        · rw [hall.1] at g2; cases g2
        · rw [hall.2] at g2; cases g2
      · exact (g ⟨hR, hS⟩).elim) with h | ⟨-, -, -, h, -⟩ | ⟨-, h⟩
  · rw [generate_single_c hd hs] at h; exact h
  · exact h.elim
  · exact h.elim

/-- C80: the tests need at least one element: with none, `erase_single` decrements a
counter of zero, and the program is undefined -/
theorem C80_zero (hE : E.Good) (hr : Reach E m) (hv : View E m S) (ho : S o = none)
    (hd : make_insertion_data_single W G bits 0 = some d) : ∃ k, test_single E bytes val eq o al d checksum m = .ub k := by
  have h1 : d = ⟨[], []⟩ := by
    simp only [make_insertion_data_single, make_single_loop, Option.some.injEq] at hd
    exact hd.symm
  subst h1
  rcases hr.op hE hv (op := .new o (.empty al)) ⟨ho, trivial⟩ with ⟨r, m0, S', h1, h2, h3, h4⟩ | ⟨e, m0, S', h1, h2, -⟩
  · obtain ⟨-, x, hx, rfl⟩ := h2
    cases hx
    obtain ⟨-, u, h5⟩ := unit_inv h1
    have hc0 : Contents E o m0 [] := by have := h3 o; rw [upd_self] at this; exact this.2
    obtain ⟨b, e, k1, k2, k3, k4⟩ := h4.ends hE hc0
    refine ⟨.oob, ?_⟩
    unfold test_single test_random
    rw [bind_ok h5]
    refine run_ub ?_
    unfold M.onThrow
    rw [bind_ok (show insert_single E o ⟨[], []⟩ m0 = .ok () m0 from rfl), bind_ok k1, bind_ok k3,
      bind_ok (read_vector_c hE h4 hc0 k4 0 0 b rfl k2), List.drop_zero, bind_ok (C80_iterator hE h4 hc0 val)]
    rfl
  · exact h2.1.elim

/-- C80: a test that is the whole program: starting without any memory, it ends
without any memory -/
theorem C80_whole (hE : E.Good) (hnull : E.nullFree = true) (heq : ∀ v, eq v v = true) (hcount : 0 < count)
    (hmax : count ≤ max_size E) (hd : make_insertion_data_single W G bits count = some d)
    (hs : generate_single bytes W G bits count = some sum)
    (hall : c .alloc = true ∧ c .elem = true) (hR : Recovers E) (hS : ∀ v ∈ d.ordered, Settles E v) :
    ∃ m', test_single_retry E c bytes val eq o al d sum noMem = .ok true m' ∧ ∀ l, m'.cell l = none := by
  obtain ⟨m', h1, h2, h3⟩ := C80_retry (checksum := sum) (val := val) (al := al) (o := o) hE .init view_init rfl hnull heq hcount
    hmax hd hs hall hR hS
  have ho : ∀ o, m'.cell (.obj o) = none := fun o => h2 o
  rw [beq_self_eq_true] at h1
  refine ⟨m', h1, fun l => ?_⟩
  cases l with
  | obj o => exact ho o
  | heap a => exact C09_all_freed hE h3 ho a

/-! ### The benchmarks -/

theorem bench_random_c (hE : E.Good) (hr : Reach E m) (hv : View E m S) (ho : S o = none) (hnull : E.nullFree = true)
    (heq : ∀ v, eq v v = true) {ins ers : M α Unit} {P : Exn → Prop} {ys : List α} (hi : Builds E o d ins ers ys P False) :
    (∃ m', bench_random E bytes val eq o al ins ers d checksum m = .ok (checksum == make_checksum_unsigned bytes ys) m' ∧
      View E m' S ∧ Reach E m') ∨
    (∃ e m', bench_random E bytes val eq o al ins ers d checksum m = .throw e m' ∧ P e ∧ View E m' S ∧ Reach E m') := by
  rcases hr.op hE hv (op := .new o (.empty al)) ⟨ho, trivial⟩ with ⟨r, m0, S', h1, h2, h3, h4⟩ | ⟨e, m0, S', h1, h2, -⟩
  · obtain ⟨-, x, hx, rfl⟩ := h2
    cases hx
    obtain ⟨-, u, h5⟩ := unit_inv h1
    have hc0 : Contents E o m0 [] := by have := h3 o; rw [upd_self] at this; exact this.2
    unfold bench_random
    rw [bind_ok h5]
    rcases hi m0 h4 hc0 with ⟨m1, g1, g2, g3, m2, w, g4, g5, g6, g7⟩ | ⟨e, m1, zs, g1, g2, g3, g4⟩ | ⟨-, g2⟩
    · obtain ⟨b, e, k1, k2, k3, k4⟩ := g3.reach.ends hE g2
      have hrd := read_vector_c hE g3.reach g2 k4 ys.length 0 b (Nat.zero_add _) k2
      rw [List.drop_zero] at hrd
      by_cases hsum : checksum = make_checksum_unsigned bytes ys
      · obtain ⟨m3, k5, k6, k7⟩ := test_dtor hE h3 ho g6 hnull
        refine .inl ⟨m3, ?_, k6, k7⟩
        rw [bind_ok (catch_ok (v := true) (m' := m2) ?_), bind_ok k5]
        · simp [hsum]
        · rw [bind_ok g1, bind_ok k1, bind_ok k3, bind_ok hrd, if_neg (by simp [hsum]),
            bind_ok (C80_iterator hE g3.reach g2 val), if_neg (by decide), bind_ok g4, bind_ok g5.1, if_neg (by simp),
            bind_ok ((C05_access (i := 0) hE g6.reach g5).1 (by simp)).2.1,
            bind_ok (show vecAt d.ordered 0 m2 = .ok w m2 by unfold vecAt; rw [g7]; rfl)]
          show Res.ok (eq w w) m2 = _
          rw [heq]
      · obtain ⟨m3, k5, k6, k7⟩ := test_dtor hE h3 ho g3 hnull
        refine .inl ⟨m3, ?_, k6, k7⟩
        rw [bind_ok (catch_ok (v := false) (m' := m1) ?_), bind_ok k5]
        · have : (checksum == make_checksum_unsigned bytes ys) = false := by simpa using hsum
          rw [this]; rfl
        · rw [bind_ok g1, bind_ok k1, bind_ok k3, bind_ok hrd, if_pos (by simpa using hsum)]
          rfl
    · obtain ⟨m3, k5, k6, k7⟩ := test_dtor hE h3 ho g4 hnull
      refine .inr ⟨e, m3, bind_throw ?_, g2, k6, k7⟩
      unfold M.onThrow
      rw [bind_throw g1]
      simp only [k5]
    · exact g2.elim
  · exact h2.1.elim

/-- C83: `bench_single` started with any count and seed: it succeeds exactly if the checksum
it is given is the one `generate_single` prints for them, or it fails for lack of memory (or
because copying an element failed); it leaves nothing behind in any case. -/
theorem C83_single (hE : E.Good) (hr : Reach E m) (hv : View E m S) (ho : S o = none) (hnull : E.nullFree = true)
    (heq : ∀ v, eq v v = true) (hcount : 0 < count) (hmax : count ≤ max_size E)
    (hd : make_insertion_data_single W G bits count = some d) (hs : generate_single bytes W G bits count = some sum) :
    (∃ m', bench_single E bytes val eq o al d checksum m = .ok (checksum == sum) m' ∧ View E m' S ∧ Reach E m') ∨
    (∃ e m', bench_single E bytes val eq o al d checksum m = .throw e m' ∧ Blame E ((List.range count).map bits) e ∧
      View E m' S ∧ Reach E m') := by
  have := bench_random_c (bytes := bytes) (checksum := checksum) (val := val) (eq := eq) (al := al) hE hr hv ho hnull heq
    (single_builds hE hcount hmax hd)
  rw [generate_single_c hd hs] at this
  exact this

/-- C83: `bench_range` -/
theorem C83_range (hE : E.Good) (hr : Reach E m) (hv : View E m S) (ho : S o = none) (hnull : E.nullFree = true)
    (heq : ∀ v, eq v v = true) (hcount : 0 < count) (hsize : 0 < size) (hmax : count * size ≤ max_size E)
    (hd : make_insertion_data_range W G bits count size = some d)
    (hs : generate_range bytes W G bits count size = some sum) :
    (∃ m', bench_range E bytes val eq o al d checksum m = .ok (checksum == sum) m' ∧ View E m' S ∧ Reach E m') ∨
    (∃ e m', bench_range E bytes val eq o al d checksum m = .throw e m' ∧ Blame E d.ordered e ∧ View E m' S ∧ Reach E m') := by
  have := bench_random_c (bytes := bytes) (checksum := checksum) (val := val) (eq := eq) (al := al) hE hr hv ho hnull heq
    (range_builds hE hcount hsize hmax hd)
  rw [generate_range_c hcount hd hs] at this
  exact this

/-- C83: the checksum is the only thing in which a data set of the same size and indexes can differ
unnoticed by a benchmark: with one element changed the benchmark reports a failure. -/
theorem C83_notices (hE : E.Good) (hr : Reach E m) (hv : View E m S) (ho : S o = none) (hnull : E.nullFree = true)
    (heq : ∀ v, eq v v = true) (hcount : 0 < count) (hmax : count ≤ max_size E) {k : Nat} (hk : ∀ v, (bytes v).length = k)
    (h8 : k ≤ 8) (hb : ∀ v w, bytes v = bytes w → v = w)
    (hd : make_insertion_data_single W G bits count = some d) (hs : generate_single bytes W G bits count = some sum)
    {xs : List α} (hx : xs.length = count) (hi : i < count) {v : α}
    (hsum : make_checksum_unsigned bytes xs = sum) (hne : v ≠ xs[i]'(hx ▸ hi)) :
    (∃ m', bench_single E bytes val eq o al d (make_checksum_unsigned bytes (xs.set i v)) m = .ok false m' ∧ View E m' S) ∨
    (∃ e m', bench_single E bytes val eq o al d (make_checksum_unsigned bytes (xs.set i v)) m = .throw e m' ∧ View E m' S) := by
  rcases C83_single (val := val) (al := al) (checksum := make_checksum_unsigned bytes (xs.set i v)) hE hr hv ho hnull heq hcount
    hmax hd hs with ⟨m', h1, h2, -⟩ | ⟨e, m', h1, -, h2, -⟩
  · refine .inl ⟨m', ?_, h2⟩
    rw [h1]
    have := C82_element hk h8 hb (hx ▸ hi) hne
    rw [hsum] at this
    rw [beq_eq_false_iff_ne.2 this]
  · exact .inr ⟨e, m', h1, h2⟩

/-! ### Examples -/

theorem counting_data : make_insertion_data_single (2 ^ 64) ⟨0, 2 ^ 32 - 1, fun k => k + 7⟩ (fun j => 100 + j) 5 =
    some ⟨[0, 0, 0, 2, 1], [100, 101, 102, 103, 104]⟩ := by
  have hb : ∀ ub k, threshold (2 ^ 64) ⟨0, 2 ^ 32 - 1, fun k => k + 7⟩ ub ≤ k + 7 →
      bounded_rand (2 ^ 64) ⟨0, 2 ^ 32 - 1, fun k => k + 7⟩ ub k = some ((k + 7) % ub, k + 1) := fun ub k h => by
    rw [bounded_rand]; exact if_pos h
  unfold make_insertion_data_single
  simp only [make_single_loop]
  rw [hb 1 0 (by decide)]; simp only [Option.bind_eq_bind, Option.bind_some]
  rw [hb 2 1 (by decide)]; simp only [Option.bind_some]
  rw [hb 3 2 (by decide)]; simp only [Option.bind_some]
  rw [hb 4 3 (by decide)]; simp only [Option.bind_some]
  rw [hb 5 4 (by decide)]; simp only [Option.bind_some]
  rfl

/-- what `generate_single` prints for five elements and an engine that counts -/
theorem counting_sum : ∃ sum, generate_single (fun v => u64 (BitVec.ofNat 64 v)) (2 ^ 64) ⟨0, 2 ^ 32 - 1, fun k => k + 7⟩
    (fun j => 100 + j) 5 = some sum :=
  C80_generates counting_data

-- five elements, an allocator that refuses the requests 0, 1, 4, 9, ... and three copies that throw: the whole program
example : ∃ sum m', generate_single (fun v => u64 (BitVec.ofNat 64 v)) (2 ^ 64) ⟨0, 2 ^ 32 - 1, fun k => k + 7⟩
      (fun j => 100 + j) 5 = some sum ∧
    test_single_retry moody (fun _ => true) (fun v => u64 (BitVec.ofNat 64 v)) id (· == ·) 0 0
      ⟨[0, 0, 0, 2, 1], [100, 101, 102, 103, 104]⟩ sum noMem = .ok true m' ∧ ∀ l, m'.cell l = none := by
  obtain ⟨sum, hs⟩ := counting_sum
  obtain ⟨m', h1, h2⟩ := C80_whole (c := fun _ => true) (val := id) (eq := (· == ·)) (o := 0) (al := 0) moody_good rfl
    (fun v => beq_self_eq_true v) (by decide) (by decide) counting_data hs ⟨rfl, rfl⟩ moody_recovers (fun v _ => moody_settles v)
  exact ⟨sum, m', hs, h1, h2⟩

-- and without retrying, beside another container: it throws, and the other container is as before
example : ∃ m m', Reach moody m ∧ View moody m (upd (fun _ => none) 0 (some ⟨0, []⟩)) ∧
    test_single moody (fun v => u64 (BitVec.ofNat 64 v)) id (· == ·) 1 0 ⟨[0, 0, 0, 2, 1], [100, 101, 102, 103, 104]⟩ 0 m =
      .throw .elem m' ∧
    View moody m' (upd (fun _ => none) 0 (some ⟨0, []⟩)) := by
  obtain ⟨sum, hs⟩ := counting_sum
  have hv : View moody (empty0 : Mem Nat) (upd (fun _ => none) 0 (some ⟨0, []⟩)) := empty0_wide.view
  have hx : ∃ m', test_single moody (fun v => u64 (BitVec.ofNat 64 v)) id (· == ·) 1 0
      ⟨[0, 0, 0, 2, 1], [100, 101, 102, 103, 104]⟩ 0 empty0 = .throw .elem m' :=
    ⟨_, rfl⟩
  refine ⟨empty0, _, empty0_reach, hv, hx.choose_spec, ?_⟩
  rcases C80_single (S := upd (fun _ => none) 0 (some ⟨0, []⟩)) (val := id) (eq := (· == ·)) (o := 1) (al := 0) (checksum := 0)
    moody_good empty0_reach hv rfl rfl (fun v => beq_self_eq_true v) (by decide) (by decide) counting_data hs with
    ⟨m', h, -⟩ | ⟨e, m', h, -, h2, -⟩
  · rw [hx.choose_spec] at h; cases h
  · rw [hx.choose_spec] at h; cases h; exact h2

-- a benchmark, started with any checksum: it accepts the checksum of the generator and rejects every other one, unless the
-- allocator fails
example (checksum : BitVec 64) : ∃ sum m', generate_single (fun v => u64 (BitVec.ofNat 64 v)) (2 ^ 64)
      ⟨0, 2 ^ 32 - 1, fun k => k + 7⟩ (fun j => 100 + j) 5 = some sum ∧
    (bench_single demo (fun v => u64 (BitVec.ofNat 64 v)) id (· == ·) 0 0
        ⟨[0, 0, 0, 2, 1], [100, 101, 102, 103, 104]⟩ checksum noMem = .ok (decide (checksum = sum)) m' ∨
      bench_single demo (fun v => u64 (BitVec.ofNat 64 v)) id (· == ·) 0 0
        ⟨[0, 0, 0, 2, 1], [100, 101, 102, 103, 104]⟩ checksum noMem = .throw .alloc m') ∧
    View demo m' (fun _ => none) := by
  obtain ⟨sum, hs⟩ := counting_sum
  rcases C83_single (checksum := checksum) (S := fun _ => none) (val := id) (eq := (· == ·)) (o := 0) (al := 0) demo_good .init
    (fun _ => rfl) rfl rfl (fun v => beq_self_eq_true v) (by decide) (by decide) counting_data hs with
    ⟨m', h1, h2, -⟩ | ⟨e, m', h1, h, h2, -⟩
  · exact ⟨sum, m', hs, .inl h1, h2⟩
  · cases demo_blame (by decide) h
    exact ⟨sum, m', hs, .inr h1, h2⟩

end SegTree
