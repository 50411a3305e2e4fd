/-
  C77: the logarithms are real. Lower bounds on the work done by the operations
  that insert or erase, in every reachable state; `remove_if` and `unique`, which
  the documentation calls linear (seq.hpp 3579, 3608, 3622), are not.
-/
import Verif.Cost.LowOps
import Verif.Props.Complexity
import Verif.Props.Witness
set_option autoImplicit false
set_option synthInstance.maxSize 2000
set_option synthInstance.maxHeartbeats 400000

attribute [local instance] SegTree.Weights.accesses

namespace SegTree
variable {α β γ : Type} {E : Env α} {m m' : Mem α} {o p i j a b n al h : Nat} {xs ys vs : List α} {v : α}
  {it jt first last : Iter} {x : M α β} {y : C α β} {k : Nat}

/-- If `x` returns when called in `m`, the counting program `y` does the same
having made at least `k` accesses. (That these calls return at all, unless a copy
or an allocation fails, is C03, C10, C17 and C18.) -/
def Costly (x : M α β) (y : C α β) (m : Mem α) (k : Nat) : Prop :=
  ∀ v m', x m = .ok v m' → ∃ n, y m = .ok v m' n ∧ k ≤ n

/-- `most E h` is the largest number of elements a container of height `h + 1` can hold. -/
def most (E : Env α) (h : Nat) : Nat := E.baseMax ^ h * E.segMax

example : most demo 0 = 2 ∧ most demo 1 = 6 ∧ most demo 2 = 18 := by decide

theorem Costly.of [hsim : Sim x y] (h : (y m).ge k) : Costly x y m k := by
  intro v m' e
  obtain ⟨n, hn⟩ := hsim.ok e
  rw [hn] at h
  exact ⟨n, hn, h⟩

/-- C77: inserting or erasing one element makes at least `height() - 1` accesses
wherever the element is: the sizes kept in the nodes are updated all the way up. -/
theorem C77_one (hE : E.Good) (hr : Reach E m) (hc : Contents E o m xs) (hh : height o m = .ok h m) :
    (i ≤ xs.length → nth E o i m = .ok it m →
      Costly (insert E o it v) (Cost.insert E o it v) m (h - 1) ∧
      Costly (insert_rv E o it v) (Cost.insert_rv E o it v) m (h - 1)) ∧
    Costly (push_back E o v) (Cost.push_back E o v) m (h - 1) ∧
    Costly (push_back_rv E o v) (Cost.push_back_rv E o v) m (h - 1) ∧
    Costly (push_front E o v) (Cost.push_front E o v) m (h - 1) ∧
    Costly (push_front_rv E o v) (Cost.push_front_rv E o v) m (h - 1) ∧
    (i < xs.length → nth E o i m = .ok it m → Costly (erase E o it) (Cost.erase E o it) m (h - 1)) ∧
    (xs ≠ [] → Costly (pop_back E o) (Cost.pop_back E o) m (h - 1)) ∧
    (xs ≠ [] → Costly (pop_front E o) (Cost.pop_front E o) m (h - 1)) := by
  obtain ⟨al, s, F, hs, rfl, H⟩ := hr.cont hE hc
  have hht : getHeight o m = .ok h m := hh
  rw [getHeight_c H] at hht; cases hht
  obtain ⟨fi, hfi⟩ := St.At.exists hs (Nat.zero_le _)
  obtain ⟨la, hla⟩ := St.At.exists hs (Nat.le_refl _)
  have c1 : ∀ {i : Nat} {it : Iter}, s.At i it →
      (Cost.emplace_single E o it (Cost.copyVal E v) m).ge (s.ht - 1) ∧
      (Cost.emplace_single E o it (pure v) m).ge (s.ht - 1) := fun ha =>
    ⟨emplace_single_ge (mk := copyVal E v) hE (Mk.copy v) hs ha H,
      emplace_single_ge (T := fun _ => False) (mk := pure v) hE (Mk.pure v) hs ha H⟩
  refine ⟨fun hi hn => ?_, ?_, ?_, ?_, ?_, fun hi hn => ?_, fun hn => ?_, fun hn => ?_⟩
  · have ha := at_of_nth hs H hi hn
    exact ⟨.of (c1 ha).1, .of (c1 ha).2⟩
  · exact .of (CRes.ge_step (find_end_c hs hla H) (CRes.ge_bind (c1 hla).1))
  · exact .of (CRes.ge_step (find_end_c hs hla H) (CRes.ge_bind (c1 hla).2))
  · exact .of (CRes.ge_step (find_first_c hs hfi H) (CRes.ge_bind (c1 hfi).1))
  · exact .of (CRes.ge_step (find_first_c hs hfi H) (CRes.ge_bind (c1 hfi).2))
  · exact .of (erase_single_ge hE hs (at_of_nth hs H (Nat.le_of_lt hi) hn) hi H)
  · have hl := List.length_pos_iff.2 hn
    obtain ⟨la, hla⟩ := St.At.exists hs (by omega : s.elems.length - 1 ≤ _)
    exact .of (CRes.ge_step (find_last_c hs hla hl H) (CRes.ge_bind (erase_single_ge hE hs hla (by omega) H)))
  · have hl := List.length_pos_iff.2 hn
    exact .of (CRes.ge_step (find_first_c hs hfi H) (CRes.ge_bind (erase_single_ge hE hs hfi hl H)))

/-- C77: the height itself is at least logarithmic in the size. -/
theorem C77_height (hE : E.Good) (hr : Reach E m) (hc : Contents E o m xs) (hh : height o m = .ok h m) :
    xs.length ≤ most E (h - 1) ∧ ∀ k, most E k < xs.length → k + 2 ≤ h := by
  obtain ⟨al, s, F, hs, rfl, H⟩ := hr.cont hE hc
  have hht : getHeight o m = .ok h m := hh
  rw [getHeight_c H] at hht; cases hht
  refine ⟨hs.size_le, fun k hk => ?_⟩
  have := ht_of_cap hs (h := k) hk
  omega

/-- C77: of the elements inserted or erased, each one inserted or erased while
the container holds more than `most E h` elements costs more than `h` accesses. -/
theorem C77_many (hE : E.Good) (hr : Reach E m) (hc : Contents E o m xs) (h : Nat) :
    (i ≤ j → j ≤ xs.length → nth E o i m = .ok it m → nth E o j m = .ok jt m →
      Costly (erase_rng E o it jt) (Cost.erase_rng E o it jt) m (min (j - i) (xs.length - most E h) * (h + 1))) ∧
    (i ≤ xs.length → nth E o i m = .ok it m → xs.length + n ≤ max_size E →
      Costly (insert_fill E o it n v) (Cost.insert_fill E o it n v) m
        (min n (xs.length + n - (most E h + 1)) * (h + 1))) ∧
    (i ≤ xs.length → nth E o i m = .ok it m → xs.length + vs.length ≤ max_size E →
      Costly (insert_list E o it vs) (Cost.insert_list E o it vs) m
        (min vs.length (xs.length + vs.length - (most E h + 1)) * (h + 1))) := by
  obtain ⟨al, s, F, hs, rfl, H⟩ := hr.cont hE hc
  refine ⟨fun hij hj hi' hj' => ?_, fun hi hn hsz => ?_, fun hi hn hsz => ?_⟩
  · have ha := at_of_nth hs H (Nat.le_trans hij hj) hi'
    have hb := at_of_nth hs H hj hj'
    exact .of (erase_range_ge hE h (j - i) hs ha.pos hb (by omega) H)
  · have ha := at_of_nth hs H hi hn
    exact .of (CRes.ge_bind (emplace_count_loop_ge (mk := copyVal E v) hE (Mk.copy v) h n hs ha (max_lt hE hsz) H))
  · have ha := at_of_nth hs H hi hn
    have H0 : Holds m.log (cont E o al s + (0 + F)) m := by simpa using H
    exact .of (CRes.ge_bind (emplace_range_loop_ge hE listSrc_ok h vs hs ha (X := 0) ⟨rfl, rfl⟩ (max_lt hE hsz) H0))

/-- C77: the same for `remove_if` and `unique`; with `r` elements of `xs` left. -/
theorem C77_algorithms (hE : E.Good) (hr : Reach E m) (hc : Contents E o m xs) (h : Nat) (p : α → Bool)
    (q : α → α → Bool) :
    (∀ r, r = (xs.filter (fun x => !p x)).length →
      ∃ n m1, Cost.remove_if E o p m = .ok () m1 n ∧ min (xs.length - r) (xs.length - most E h) * (h + 1) ≤ n) ∧
    (∀ r, r = (dropDups q xs).length →
      ∃ n m1, Cost.unique E o q m = .ok () m1 n ∧ min (xs.length - r) (xs.length - most E h) * (h + 1) ≤ n) := by
  obtain ⟨al, s, F, hs, rfl, H⟩ := hr.cont hE hc
  constructor
  · rintro r rfl
    obtain ⟨u, m1, e, -⟩ := (remove_if_c (p := p) hE hs H).get
    obtain ⟨n, e1, e2⟩ := Costly.of (x := remove_if E o p) (remove_if_low (p := p) hE hs h H) _ _ e
    exact ⟨n, m1, e1, e2⟩
  · rintro r rfl
    rw [← uniq_eq]
    obtain ⟨u, m1, e, -⟩ := (unique_c (p := q) hE hs H).get
    obtain ⟨n, e1, e2⟩ := Costly.of (x := unique E o q) (unique_low (p := q) hE hs h H) _ _ e
    exact ⟨n, m1, e1, e2⟩

/-- the least size from which on removing everything makes more than `C` accesses per element -/
def crossover (E : Env α) (C : Nat) : Nat := 2 * most E (2 * C)

/-- C77: whatever factor `C` one allows, `remove_if` on a container that is large
enough makes more than `C * size()` accesses when it removes all elements, and
`unique` when it leaves one. -/
theorem C77_not_linear (hE : E.Good) (hr : Reach E m) (hc : Contents E o m xs) (C : Nat)
    (hx : crossover E C < xs.length) :
    (∃ n m1, Cost.remove_if E o (fun _ => true) m = .ok () m1 n ∧ C * xs.length < n) ∧
    (∃ n m1, Cost.unique E o (fun _ _ => true) m = .ok () m1 n ∧ C * xs.length < n) := by
  have hu : (dropDups (fun _ _ => true) xs).length ≤ 1 := by
    cases xs with
    | nil => simp [dropDups]
    | cons x xs =>
      have : ∀ l : List α, dropDups (fun _ _ => true) (x :: l) = [x] := by
        intro l
        induction l with
        | nil => simp [dropDups, dropDups.go]
        | cons z zs ih => simpa [dropDups, dropDups.go] using ih
      simp [this]
  have hmost : 1 ≤ most E (2 * C) := by
    unfold most
    have h1 : 0 < E.baseMax ^ (2 * C) := Nat.pow_pos (by have := E.baseMax_ge; omega)
    have h2 := E.segMax_pos
    exact Nat.mul_pos h1 h2
  unfold crossover at hx
  have key : ∀ r n, r ≤ 1 → min (xs.length - r) (xs.length - most E (2 * C)) * (2 * C + 1) ≤ n → C * xs.length < n := by
    intro r n hr hn
    have h1 : xs.length - most E (2 * C) ≤ min (xs.length - r) (xs.length - most E (2 * C)) := by omega
    generalize min (xs.length - r) (xs.length - most E (2 * C)) = d at *
    have h2 : xs.length < 2 * d := by omega
    have h3 : C * xs.length ≤ C * (2 * d) := Nat.mul_le_mul_left _ (by omega)
    have h4 : d * (2 * C + 1) = C * (2 * d) + d := by ring
    omega
  obtain ⟨k1, k2⟩ := C77_algorithms hE hr hc (2 * C) (fun _ => true) (fun _ _ => true)
  obtain ⟨n, m1, e, hn⟩ := k1 0 (by simp)
  obtain ⟨n', m1', e', hn'⟩ := k2 _ rfl
  exact ⟨⟨n, m1, e, key 0 n (by omega) hn⟩, ⟨n', m1', e', key _ n' hu hn'⟩⟩

/-- C77: so no constant works, not even one that may depend on the capacities of
nodes and segments: for every configuration `E` there is one that differs from it
at most in the width of `size_type`, and a reachable state of it, in which
`remove_if` makes more than `C` accesses per element. -/
theorem C77_no_constant (hE : E.Good) (hf : Endless E) (hnf : E.nullFree = true) (hv : ∀ n, E.cthrow n v = false)
    (C : Nat) : ∃ W m S n m1, Reach { E with W := W } m ∧ 0 < S ∧
      Contents { E with W := W } 0 m (List.replicate S v) ∧
      Cost.remove_if { E with W := W } 0 (fun _ => true) m = .ok () m1 n ∧ C * S < n := by
  let W := crossover E C + 2
  let E' : Env α := { E with W := W }
  have hE' : E'.Good := ⟨hE.triv, hE.nothrow, hE.base, by show 0 < crossover E C + 2; omega⟩
  have hf' : Endless E' := hf
  have hp : (Op.new 0 (.fill 0 (crossover E C + 1) v) : Op α).Pre E' (fun _ => none) :=
    ⟨rfl, by show crossover E C + 1 ≤ W - 1; omega, hnf⟩
  rcases (Reach.init (E := E')).op hE' view_init hp with ⟨r, m', S', h1, h2, h3, h4⟩ | ⟨e, m', S', h1, h2, h3, h4⟩
  · obtain ⟨-, x, hx, rfl⟩ := h2
    cases hx
    have hc : Contents E' 0 m' (List.replicate (crossover E C + 1) v) := by
      have := h3 0
      rw [upd_self] at this
      exact this.2
    obtain ⟨⟨n, m1, e, hn⟩, -⟩ := C77_not_linear hE' h4 hc C (by
      rw [List.length_replicate]; exact Nat.lt_succ_self (crossover E C))
    rw [List.length_replicate] at hn
    exact ⟨W, m', crossover E C + 1, n, m1, h4, by omega, hc, e, hn⟩
  · rcases h2.1 with rfl | ⟨-, w, hw, -, hcp⟩
    · exact absurd h1 (Reach.init.no_alloc hf' _)
    · obtain ⟨k, hk⟩ := hcp
      cases List.mem_singleton.1 hw
      exact absurd hk (by rw [show E'.cthrow k v = E.cthrow k v from rfl, hv]; exact Bool.false_ne_true)

/-- `merge(other, comp)`, seq.hpp 3433-3438, with a counter; `im` is whatever
`std::inplace_merge` does -/
def Cost.merge_with (E : Env α) (o other : Nat) (im : Iter → Iter → Iter → C α Unit) : C α Unit := do
  let sz ← Cost.getSize o
  let e ← Cost.end_ E o
  let f ← Cost.begin_ E other
  let l ← Cost.end_ E other
  Cost.splice_range E o e other f l
  let b ← Cost.begin_ E o
  let mid ← Cost.nth E o sz
  let e ← Cost.end_ E o
  im b mid e

/-- C77: `merge` transfers element by element, so that it is not linear either
(seq.hpp 3394: "Linear in size() + other.size() if enough temporary memory is
available"), however little `std::inplace_merge` may cost. -/
theorem C77_merge (hE : E.Good) (hr : Reach E m) (hc : Contents E o m xs) (hd : Contents E p m ys) (hne : o ≠ p)
    (hsz : xs.length + ys.length ≤ max_size E) (im : Iter → Iter → Iter → C α Unit) {m1 : Mem α}
    (hm : Cost.merge_with E o p im m = .ok () m1 n) :
    (∀ h, min ys.length (ys.length - most E h) * (h + 1) ≤ n) ∧
    (∀ C, xs.length ≤ ys.length → crossover E (2 * C) < ys.length → C * (xs.length + ys.length) < n) := by
  have key : ∀ h, min ys.length (ys.length - most E h) * (h + 1) ≤ n := by
    intro h
    obtain ⟨al, s, al2, s2, F, hs, rfl, hs2, rfl, H⟩ := hr.cont2 hE hc hd hne
    have H1 := H.eqv (by ac_rfl : _ = cont E p al2 s2 + (cont E o al s + F))
    obtain ⟨la, hla⟩ := St.At.exists hs (Nat.le_refl _)
    obtain ⟨f2, hf2⟩ := St.At.exists hs2 (Nat.zero_le _)
    obtain ⟨l2, hl2⟩ := St.At.exists hs2 (Nat.le_refl _)
    have hg : (Cost.merge_with E o p im m).ge (min s2.elems.length (s2.elems.length - most E h) * (h + 1)) := by
      unfold Cost.merge_with Cost.begin_ Cost.end_
      refine CRes.ge_step (getSize_c H) (CRes.ge_step (find_end_c hs hla H) (CRes.ge_step (find_first_c hs2 hf2 H1)
        (CRes.ge_step (find_end_c hs2 hl2 H1) (CRes.ge_bind ?_))))
      refine (splice_range_ge hE hs hs2 hla hf2 hl2 (Nat.zero_le _) (max_lt hE hsz) h H).mono ?_
      refine Nat.mul_le_mul_right _ ?_
      rw [Nat.sub_zero]
      exact Nat.le_add_left _ _
    rw [hm] at hg
    exact hg
  refine ⟨key, fun C hxy hx => ?_⟩
  have h1 := key (2 * (2 * C))
  unfold crossover at hx
  rw [Nat.min_eq_right (Nat.sub_le _ _)] at h1
  generalize hd : ys.length - most E (2 * (2 * C)) = d at *
  have h2 : ys.length < 2 * d := by omega
  have h3 : C * (xs.length + ys.length) ≤ C * (4 * d) := Nat.mul_le_mul_left _ (by omega)
  have h4 : d * (2 * (2 * C) + 1) = C * (4 * d) + d := by ring
  omega

/-! ### Cases that meet the hypotheses -/

/-- 20 elements in a configuration with 2 per segment and 3 children per node: height 4 at
least, so erasing the one at index 11 makes 3 accesses or more -/
example : ∃ m h it n m', Reach demo m ∧ Contents demo 0 m (List.replicate 20 7) ∧ height 0 m = .ok h m ∧ 4 ≤ h ∧
    nth demo 0 11 m = .ok it m ∧ (∃ jt, Cost.erase demo 0 it m = .ok jt m' n) ∧ 3 ≤ n := by
  obtain ⟨m, h1, h2⟩ := demo_list (List.replicate 20 7)
  obtain ⟨al, s, F, hs, hx, H⟩ := h1.cont demo_good h2
  obtain ⟨it, hn⟩ := h1.nth demo_good h2 11
  have hh : height 0 m = .ok s.ht m := getHeight_c H
  have h4 := (C77_height demo_good h1 h2 hh).2 2 (by decide)
  have hl : 11 < s.elems.length := by rw [hx]; decide
  obtain ⟨jt, m', e, -⟩ := (erase_single_c demo_good hs (at_of_nth hs H (Nat.le_of_lt hl) hn) hl H).get
  obtain ⟨n, e1, e2⟩ := (C77_one (v := 0) demo_good h1 h2 hh).2.2.2.2.2.1 (by decide) hn jt m' e
  exact ⟨m, s.ht, it, n, m', h1, h2, hh, h4, hn, ⟨jt, e1⟩, by omega⟩

/-- removing all of 20 elements makes at least 14 * 2 accesses -/
example : ∃ m n m1, Reach demo m ∧ Contents demo 0 m (List.replicate 20 7) ∧
    Cost.remove_if demo 0 (fun _ => true) m = .ok () m1 n ∧ 28 ≤ n := by
  obtain ⟨m, h1, h2⟩ := demo_list (List.replicate 20 7)
  obtain ⟨n, m1, h3, h4⟩ := (C77_algorithms demo_good h1 h2 1 (fun _ => true) (fun _ _ => true)).1 0 (by simp)
  exact ⟨m, n, m1, h1, h2, h3, Nat.le_trans (by decide) h4⟩

/-- merging 20 elements with 3 others: `inplace_merge` free of charge -/
example : ∃ m, Reach demo m ∧ Contents demo 0 m [1, 4, 7] ∧ Contents demo 1 m (List.replicate 20 7) ∧
    ∀ n m1, Cost.merge_with demo 0 1 (fun _ _ _ => pure ()) m = .ok () m1 n → 28 ≤ n := by
  obtain ⟨m, h1, -, h2, h3, -⟩ := demo_lists [1, 4, 7] (List.replicate 20 7) 0 0
  exact ⟨m, h1, h2, h3, fun n m1 hm =>
    Nat.le_trans (by decide) ((C77_merge demo_good h1 h2 h3 (by decide) (by decide) _ hm).1 1)⟩

/-- the configuration of the demonstrations is one to which `C77_no_constant` applies -/
example : ∃ W m S n m1, Reach { demo with W := W } m ∧ 0 < S ∧ Contents { demo with W := W } 0 m (List.replicate S 7) ∧
    Cost.remove_if { demo with W := W } 0 (fun _ => true) m = .ok () m1 n ∧ 1000 * S < n :=
  C77_no_constant demo_good demo_endless rfl (fun _ => rfl) 1000

end SegTree
