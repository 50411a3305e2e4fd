/-
  C64: the members that call a user's function, when that function throws:
  `remove_if` as an instance of C64_erase.
-/
import Verif.Props.Generic
set_option autoImplicit false

namespace SegTree
open Generic
variable {α σ : Type} {E : Env α} {m m' : Mem α} {A A' A'' : Arrays α} {o i j n k : Nat} {xs ys : List α} {v : α}

/-- some number of steps leads from one state to the other -/
def Generic.Algo.Steps (E : Env α) (P : Algo α σ) (s : σ) (A : Arrays α) (s' : σ) (A' : Arrays α) : Prop :=
  ∃ n, P.onArrays E n s A = some (s', A')

theorem Generic.Algo.onArrays_stop {P : Algo α σ} {s : σ} (h : ∀ c, P.next s ≠ .step c) :
    P.onArrays E n s A = some (s, A) := by
  cases n with
  | zero => rfl
  | succ n =>
    unfold Algo.onArrays
    cases hc : P.next s with
    | step c => exact absurd hc (h c)
    | ret r => rfl
    | raise => rfl

theorem Generic.Algo.onArrays_add (P : Algo α σ) (n k : Nat) (s : σ) (A : Arrays α) :
    P.onArrays E (n + k) s A = (P.onArrays E n s A).bind fun x => P.onArrays E k x.1 x.2 := by
  induction n generalizing s A with
  | zero => rw [Nat.zero_add]; rfl
  | succ n ih =>
    cases hc : P.next s with
    | step c =>
      have e : ∀ l, P.onArrays E (l + 1) s A = (A.step E c).bind fun x => P.onArrays E l (P.then_ s x.1) x.2 := by
        intro l; rw [Algo.onArrays, hc]; rfl
      rw [Nat.succ_add, e, e]
      cases hs : A.step E c with
      | none => rfl
      | some x => exact ih _ _
    | ret r =>
      have hn : ∀ c, P.next s ≠ .step c := by rw [hc]; nofun
      simp [Algo.onArrays_stop hn]
    | raise =>
      have hn : ∀ c, P.next s ≠ .step c := by rw [hc]; nofun
      simp [Algo.onArrays_stop hn]

theorem Generic.Algo.Steps.refl {P : Algo α σ} {s : σ} : P.Steps E s A s A := ⟨0, rfl⟩

theorem Generic.Algo.Steps.trans {P : Algo α σ} {s s' s'' : σ} (h1 : P.Steps E s A s' A') (h2 : P.Steps E s' A' s'' A'') :
    P.Steps E s A s'' A'' := by
  obtain ⟨n, h1⟩ := h1
  obtain ⟨k, h2⟩ := h2
  exact ⟨n + k, by rw [P.onArrays_add, h1]; exact h2⟩

theorem Generic.Algo.Steps.one {P : Algo α σ} {s : σ} {c : Cmd α} {x : Resp α} (h1 : P.next s = .step c)
    (h2 : A.step E c = some (x, A')) : P.Steps E s A (P.then_ s x) A' :=
  ⟨1, by simp [Algo.onArrays, h1, h2]⟩

/-- where `std::remove_if` is -/
inductive RemoveAt (α : Type) where
  | findTest | findRead | findNext
  | start | inc | test | read | take | put (v : α) | incFirst
  | ret | raise

/-- `std::remove_if(first, last, p)`, the implementation in the C++ reference, with
a predicate that returns a value or throws; variables 0 = `first`, 1 = `last`, 2 = `i`:

    for (; first != last; ++first) if (p(*first)) break;          // std::find_if
    if (first != last)
      for (auto i = first; ++i != last;) if (!p(*i)) *first++ = std::move(*i);
    return first; -/
def removeIf (p : α → Option Bool) : Algo α (RemoveAt α) where
  next
    | .findTest => .step (.eq 0 1)
    | .findRead => .step (.read 0)
    | .findNext => .step (.next 0)
    | .start => .step (.copy 2 0)
    | .inc => .step (.next 2)
    | .test => .step (.eq 2 1)
    | .read => .step (.read 2)
    | .take => .step (.take 2)
    | .put v => .step (.write 0 v)
    | .incFirst => .step (.next 0)
    | .ret => .ret 0
    | .raise => .raise
  then_
    | .findTest, .flag b => if b then .ret else .findRead
    | .findRead, .val v => match p v with
      | some true => .start
      | some false => .findNext
      | none => .raise
    | .findNext, _ => .findTest
    | .start, _ => .inc
    | .inc, _ => .test
    | .test, .flag b => if b then .ret else .read
    | .read, .val v => match p v with
      | some true => .inc
      | some false => .take
      | none => .raise
    | .take, .val v => .put v
    | .put _, _ => .incFirst
    | .incFirst, _ => .inc
    | s, _ => s

/-- the elements the predicate wants to keep -/
def kept (p : α → Option Bool) (xs : List α) : List α := xs.filter fun x => p x = some false

/-- the arrays while `remove_if` runs: `ys` in place of the elements, `first` at `f`, `i` at `k` -/
structure RemInv (o : Nat) (p : α → Option Bool) (xs : List α) (f k : Nat) (A : Arrays α) (ys : List α) : Prop where
  elems : A.elems o = some ys
  first : A.var 0 = some (o, f)
  last : A.var 1 = some (o, xs.length)
  len : ys.length = xs.length
  le : f ≤ k
  front : ys.take f = kept p (xs.take k)
  rest : ys.drop k = xs.drop k

theorem getElem_of_drop {ys xs : List α} (h : ys.drop k = xs.drop k) (hk : k < xs.length) (hy : k < ys.length) :
    ys[k] = xs[k] := by
  have := congrArg (fun l => l[0]?) h
  simp only [List.getElem?_drop, Nat.add_zero] at this
  rw [List.getElem?_eq_getElem hy, List.getElem?_eq_getElem hk] at this
  simpa using this

theorem kept_succ {p : α → Option Bool} (hk : k < xs.length) :
    kept p (xs.take (k + 1)) = kept p (xs.take k) ++ if p xs[k] = some false then [xs[k]] else [] := by
  unfold kept
  rw [List.take_succ_eq_append_getElem hk, List.filter_append]
  by_cases h : p xs[k] = some false <;> simp [h]

/-- the second loop, with `i` already advanced to `k` -/
theorem removeIf_loop {p : α → Option Bool} (n : Nat) :
    ∀ {A : Arrays α} {ys : List α} {f k : Nat}, RemInv o p xs f k A ys → f < k → A.var 2 = some (o, k) → k + n = xs.length →
    (∃ A' ys' f', (removeIf p).Steps E .test A .ret A' ∧ RemInv o p xs f' xs.length A' ys' ∧
      ∀ x ∈ xs.drop k, p x ≠ none) ∨
    (∃ A' ys' f' q, ∃ h : q < xs.length, (removeIf p).Steps E .test A .raise A' ∧ RemInv o p xs f' q A' ys' ∧
      p xs[q] = none ∧ ∀ x ∈ (xs.take q).drop k, p x ≠ none) := by
  induction n with
  | zero =>
    intro A ys f k hI hfk h2 hk
    obtain rfl : k = xs.length := by omega
    refine .inl ⟨A, ys, f, ?_, hI, by simp⟩
    have := Algo.Steps.one (E := E) (P := removeIf p) (s := .test) (A := A) (A' := A) (c := .eq 2 1) (x := .flag true) rfl
      (by simp [Arrays.step, h2, hI.last])
    simpa [removeIf] using this
  | succ n ih =>
    intro A ys f k hI hfk h2 hk
    have hkx : k < xs.length := by omega
    have hlen := hI.len
    have hky : k < ys.length := by omega
    have hyk : ys[k] = xs[k] := getElem_of_drop hI.rest hkx hky
    have s1 : (removeIf p).Steps E .test A .read A := by
      have := Algo.Steps.one (E := E) (P := removeIf p) (s := .test) (A := A) (A' := A) (c := .eq 2 1) (x := .flag false) rfl
        (by simp [Arrays.step, h2, hI.last]; omega)
      simpa [removeIf] using this
    have hstep : A.step E (.read 2) = some (.val xs[k], A) := by
      simp [Arrays.step, h2, hI.elems, hky, hyk]
    have hrest : ys.drop (k + 1) = xs.drop (k + 1) := by
      have := congrArg (List.drop 1) hI.rest
      simpa only [List.drop_drop] using this
    rcases hpk : p xs[k] with - | b
    · refine .inr ⟨A, ys, f, k, hkx, s1.trans ?_, hI, hpk, by simp⟩
      have := Algo.Steps.one (E := E) (P := removeIf p) (s := .read) (A := A) rfl hstep
      simpa [removeIf, hpk] using this
    · have hnone : ∀ {ws : List α}, (∀ x ∈ ws, p x ≠ none) → ∀ x ∈ xs[k] :: ws, p x ≠ none := by
        intro ws h x hx
        rcases List.mem_cons.1 hx with rfl | hx
        · rw [hpk]; simp
        · exact h x hx
      -- one more round, from the arrays `B`
      have go : ∀ {B : Arrays α} {zs : List α} {f' : Nat}, (removeIf p).Steps E .read A .inc B →
          RemInv o p xs f' (k + 1) B zs → f' < k + 1 → B.var 2 = some (o, k) →
          (∃ A' ys' f', (removeIf p).Steps E .test A .ret A' ∧ RemInv o p xs f' xs.length A' ys' ∧
            ∀ x ∈ xs.drop k, p x ≠ none) ∨
          (∃ A' ys' f' q, ∃ h : q < xs.length, (removeIf p).Steps E .test A .raise A' ∧ RemInv o p xs f' q A' ys' ∧
            p xs[q] = none ∧ ∀ x ∈ (xs.take q).drop k, p x ≠ none) := by
        intro B zs f' sB hB hf' hB2
        have s3 : (removeIf p).Steps E .inc B .test { B with var := upd B.var 2 (some (o, k + 1)) } := by
          have := Algo.Steps.one (E := E) (P := removeIf p) (s := .inc) (A := B) (c := .next 2) (x := .unit)
            (A' := { B with var := upd B.var 2 (some (o, k + 1)) }) rfl
            (by simp [Arrays.step, hB2, hB.elems, hB.len, hkx])
          simpa [removeIf] using this
        have hB' : RemInv o p xs f' (k + 1) { B with var := upd B.var 2 (some (o, k + 1)) } zs :=
          ⟨hB.elems, by simpa [upd] using hB.first, by simpa [upd] using hB.last, hB.len, hB.le, hB.front, hB.rest⟩
        rcases ih hB' (by omega) (by simp [upd]) (by omega) with ⟨A', ys', f2, s4, hI', hall⟩ | ⟨A', ys', f2, q, hq, s4, hI', hpq, hall⟩
        · refine .inl ⟨A', ys', f2, ((s1.trans sB).trans s3).trans s4, hI', ?_⟩
          rw [List.drop_eq_getElem_cons hkx]
          exact hnone hall
        · refine .inr ⟨A', ys', f2, q, hq, ((s1.trans sB).trans s3).trans s4, hI', hpq, ?_⟩
          rcases Nat.lt_or_ge k q with hkq | hkq
          · rw [List.drop_eq_getElem_cons (by simp; omega), List.getElem_take]
            exact hnone hall
          · intro x hx
            rw [List.drop_eq_nil_of_le (by simp; omega)] at hx
            cases hx
      cases b with
      | true =>
        refine go (B := A) (zs := ys) (f' := f) ?_ ⟨hI.elems, hI.first, hI.last, hI.len, by omega, ?_, hrest⟩ (by omega) h2
        · have := Algo.Steps.one (E := E) (P := removeIf p) (s := .read) (A := A) rfl hstep
          simpa [removeIf, hpk] using this
        · rw [kept_succ hkx, hpk, hI.front]; simp
      | false =>
        have hfy : f < ys.length := by omega
        let zs := (ys.set k (E.moved xs[k])).set f xs[k]
        let B1 : Arrays α := { A with elems := upd A.elems o (some (ys.set k (E.moved xs[k]))) }
        let B2 : Arrays α := { B1 with elems := upd B1.elems o (some zs) }
        let B3 : Arrays α := { B2 with var := upd B2.var 0 (some (o, f + 1)) }
        have t1 : (removeIf p).Steps E .read A .take A := by
          have := Algo.Steps.one (E := E) (P := removeIf p) (s := .read) (A := A) rfl hstep
          simpa [removeIf, hpk] using this
        have t2 : (removeIf p).Steps E .take A (.put xs[k]) B1 := by
          have := Algo.Steps.one (E := E) (P := removeIf p) (s := .take) (A := A) (c := .take 2) (x := .val xs[k]) (A' := B1) rfl
            (by simp [Arrays.step, h2, hI.elems, hky, hyk, B1])
          simpa [removeIf] using this
        have t3 : (removeIf p).Steps E (.put xs[k]) B1 .incFirst B2 := by
          have := Algo.Steps.one (E := E) (P := removeIf p) (s := .put xs[k]) (A := B1) (c := .write 0 xs[k]) (x := .unit) (A' := B2) rfl
            (by simp [Arrays.step, hI.first, hfy, B1, B2, zs])
          simpa [removeIf] using this
        have t4 : (removeIf p).Steps E .incFirst B2 .inc B3 := by
          have := Algo.Steps.one (E := E) (P := removeIf p) (s := .incFirst) (A := B2) (c := .next 0) (x := .unit) (A' := B3) rfl
            (by simp [Arrays.step, hI.first, hfy, B1, B2, B3, zs])
          simpa [removeIf] using this
        refine go (B := B3) (zs := zs) (f' := f + 1) (((t1.trans t2).trans t3).trans t4) ⟨?_, ?_, ?_, ?_, by omega, ?_, ?_⟩
          (by omega) ?_
        · simp [B3, B2]
        · simp [B3]
        · simpa [B3, B2, B1, upd] using hI.last
        · simpa [zs] using hlen
        · rw [kept_succ hkx, if_pos hpk, ← hI.front]
          have h1 : zs.take f = ys.take f := by
            simp only [zs]
            rw [List.take_set_of_le (Nat.le_refl _), List.take_set_of_le (by omega)]
          rw [List.take_succ_eq_append_getElem (by simpa [zs] using hfy), h1]
          simp [zs]
        · simp only [zs]
          rw [List.drop_set_of_lt (by omega), List.drop_set_of_lt (by omega)]
          exact hrest
        · simpa [B3, B2, B1, upd] using h2

/-- the whole algorithm, from `first` at `k` -/
theorem removeIf_find {p : α → Option Bool} (n : Nat) :
    ∀ {A : Arrays α} {k : Nat}, RemInv o p xs k k A xs → k + n = xs.length → (∀ x ∈ xs.take k, p x = some false) →
    (∃ A' ys' f', (removeIf p).Steps E .findTest A .ret A' ∧ RemInv o p xs f' xs.length A' ys' ∧
      ∀ x ∈ xs, p x ≠ none) ∨
    (∃ A' ys' f' q, ∃ h : q < xs.length, (removeIf p).Steps E .findTest A .raise A' ∧ RemInv o p xs f' q A' ys' ∧
      p xs[q] = none ∧ ∀ x ∈ xs.take q, p x ≠ none) := by
  induction n with
  | zero =>
    intro A k hI hk hf
    obtain rfl : k = xs.length := by omega
    refine .inl ⟨A, xs, _, ?_, hI, fun x hx => by rw [hf x (by simpa using hx)]; simp⟩
    have := Algo.Steps.one (E := E) (P := removeIf p) (s := .findTest) (A := A) (A' := A) (c := .eq 0 1) (x := .flag true) rfl
      (by simp [Arrays.step, hI.first, hI.last])
    simpa [removeIf] using this
  | succ n ih =>
    intro A k hI hk hf
    have hkx : k < xs.length := by omega
    have s1 : (removeIf p).Steps E .findTest A .findRead A := by
      have := Algo.Steps.one (E := E) (P := removeIf p) (s := .findTest) (A := A) (A' := A) (c := .eq 0 1) (x := .flag false) rfl
        (by simp [Arrays.step, hI.first, hI.last]; omega)
      simpa [removeIf] using this
    have hstep : A.step E (.read 0) = some (.val xs[k], A) := by
      simp [Arrays.step, hI.first, hI.elems, hkx]
    have s2 := Algo.Steps.one (E := E) (P := removeIf p) (s := .findRead) (A := A) rfl hstep
    rcases hpk : p xs[k] with - | b
    · refine .inr ⟨A, xs, k, k, hkx, s1.trans (by simpa [removeIf, hpk] using s2), hI, hpk, fun x hx => by rw [hf x hx]; simp⟩
    · cases b with
      | false =>
        have s3 : (removeIf p).Steps E .findNext A .findTest { A with var := upd A.var 0 (some (o, k + 1)) } := by
          have := Algo.Steps.one (E := E) (P := removeIf p) (s := .findNext) (A := A) (c := .next 0) (x := .unit)
            (A' := { A with var := upd A.var 0 (some (o, k + 1)) }) rfl
            (by simp [Arrays.step, hI.first, hI.elems, hkx])
          simpa [removeIf] using this
        have s := (s1.trans (by simpa [removeIf, hpk] using s2)).trans s3
        have hf' : ∀ x ∈ xs.take (k + 1), p x = some false := by
          intro x hx
          rw [List.take_succ_eq_append_getElem hkx] at hx
          rcases List.mem_append.1 hx with hx | hx
          · exact hf x hx
          · rw [List.mem_singleton.1 hx]; exact hpk
        have hI' : RemInv o p xs (k + 1) (k + 1) { A with var := upd A.var 0 (some (o, k + 1)) } xs :=
          ⟨hI.elems, by simp [upd], by simpa [upd] using hI.last, rfl, Nat.le_refl _, by
            unfold kept; rw [List.filter_eq_self.2]; intro x hx; simpa using hf' x hx, rfl⟩
        rcases ih hI' (by omega) hf' with ⟨A', ys', f', t, r⟩ | ⟨A', ys', f', q, hq, t, r⟩
        · exact .inl ⟨A', ys', f', s.trans t, r⟩
        · exact .inr ⟨A', ys', f', q, hq, s.trans t, r⟩
      | true =>
        let B : Arrays α := { A with var := upd A.var 2 (some (o, k)) }
        let C : Arrays α := { B with var := upd B.var 2 (some (o, k + 1)) }
        have s3 : (removeIf p).Steps E .start A .inc B := by
          have := Algo.Steps.one (E := E) (P := removeIf p) (s := .start) (A := A) (c := .copy 2 0) (x := .unit) (A' := B) rfl
            (by simp [Arrays.step, hI.first, B])
          simpa [removeIf] using this
        have s4 : (removeIf p).Steps E .inc B .test C := by
          have := Algo.Steps.one (E := E) (P := removeIf p) (s := .inc) (A := B) (c := .next 2) (x := .unit) (A' := C) rfl
            (by simp [Arrays.step, B, C, upd, hI.elems, hkx])
          simpa [removeIf] using this
        have s := ((s1.trans (by simpa [removeIf, hpk] using s2)).trans s3).trans s4
        have hI' : RemInv o p xs k (k + 1) C xs :=
          ⟨hI.elems, by simpa [B, C, upd] using hI.first, by simpa [B, C, upd] using hI.last, rfl, by omega, by
            rw [kept_succ hkx, if_neg (by rw [hpk]; simp), List.append_nil]; exact hI.front, rfl⟩
        have hnone : ∀ {ws : List α}, (∀ x ∈ ws, p x ≠ none) → ∀ x ∈ xs.take (k + 1) ++ ws, p x ≠ none := by
          intro ws h x hx
          rcases List.mem_append.1 hx with hx | hx
          · rw [List.take_succ_eq_append_getElem hkx] at hx
            rcases List.mem_append.1 hx with hx | hx
            · rw [hf x hx]; simp
            · rw [List.mem_singleton.1 hx, hpk]; simp
          · exact h x hx
        rcases removeIf_loop (E := E) n hI' (by omega) (by simp [C, upd]) (by omega) with ⟨A', ys', f', t, r, hall⟩ | ⟨A', ys', f', q, hq, t, r, hpq, hall⟩
        · refine .inl ⟨A', ys', f', s.trans t, r, ?_⟩
          rw [← List.take_append_drop (k + 1) xs]
          exact hnone hall
        · refine .inr ⟨A', ys', f', q, hq, s.trans t, r, hpq, ?_⟩
          rcases Nat.lt_or_ge k q with hkq | hkq
          · rw [← List.take_append_drop (k + 1) (xs.take q), List.take_take, Nat.min_eq_left (by omega)]
            exact hnone hall
          · intro x hx
            rw [hf x ((List.take_subset_take_left xs hkq) hx)]; simp

/-- C64: `remove_if(p)` where `p` may throw.  If `p` throws for no element, exactly
the elements it rejects are gone.  If it throws, the first time at element `q`,
the exception comes out and the container is intact: it has the same number of
elements; the elements before `q` that were to be kept are at the front in order,
the elements from `q` on are still in their places, and between them are as many
left-over elements as were to be removed.  Other containers are unchanged, and
nothing was allocated or freed. -/
theorem C64_remove_if (hE : E.Good) (hr : Reach E m) (hc : Contents E o m xs) (p : α → Option Bool) :
    ((∀ x ∈ xs, p x ≠ none) → ∃ n m', runErase E (removeIf p) n .findTest o m = .ok () m' ∧ Reach E m' ∧
      Contents E o m' (xs.filter fun x => p x = some false)) ∧
    (∀ q (h : q < xs.length), p xs[q] = none → (∀ x ∈ xs.take q, p x ≠ none) →
      ∃ n m' gap, runErase E (removeIf p) n .findTest o m = .throw .elem m' ∧ Reach E m' ∧
        Contents E o m' (((xs.take q).filter fun x => p x = some false) ++ gap ++ xs.drop q) ∧
        gap.length = ((xs.take q).filter fun x => p x = some true).length ∧ Kept E (whole o xs m.ticks) m m') := by
  have hI : RemInv o p xs 0 0 (whole o xs m.ticks) xs :=
    ⟨if_pos rfl, rfl, rfl, rfl, Nat.le_refl _, rfl, rfl⟩
  rcases removeIf_find (E := E) xs.length hI (by omega) (by simp) with ⟨A', ys', f', ⟨n, t⟩, r, hall⟩ | ⟨A', ys', f', q, hq, ⟨n, t⟩, r, hpq, hall⟩
  · refine ⟨fun _ => ?_, fun q hq h1 h2 => absurd h1 (hall _ (List.getElem_mem hq))⟩
    obtain ⟨-, m', h1, h2, h3, -⟩ := (C64_erase hE (removeIf p) hr hc t r.elems).1 0 f' rfl r.first
    refine ⟨n, m', h1, h3, ?_⟩
    rw [r.front, List.take_length] at h2
    exact h2
  · refine ⟨fun h => absurd hpq (h _ (List.getElem_mem hq)), fun q' hq' h1 h2 => ?_⟩
    obtain rfl : q' = q := by
      rcases Nat.lt_trichotomy q' q with hl | rfl | hl
      · exact absurd h1 (hall _ (List.mem_take_iff_getElem.2 ⟨q', by omega, rfl⟩))
      · rfl
      · exact absurd hpq (h2 _ (List.mem_take_iff_getElem.2 ⟨q, by omega, rfl⟩))
    obtain ⟨m', h3, h4, h5, h6⟩ := (C64_erase hE (removeIf p) hr hc t r.elems).2 rfl
    have hlen := r.len
    have hle := r.le
    have e : ys' = kept p (xs.take q') ++ (ys'.drop f').take (q' - f') ++ xs.drop q' := by
      rw [← r.front, ← r.rest, List.append_assoc]
      conv => lhs; rw [← List.take_append_drop f' ys']
      congr 1
      conv => lhs; rw [← List.take_append_drop (q' - f') (ys'.drop f')]
      rw [List.drop_drop, show f' + (q' - f') = q' by omega]
    refine ⟨n, m', (ys'.drop f').take (q' - f'), h3, h5, e ▸ h4, ?_, h6⟩
    have hfl := congrArg List.length r.front
    rw [List.length_take, Nat.min_eq_left (by omega)] at hfl
    have hsum : (kept p (xs.take q')).length + ((xs.take q').filter fun x => p x = some true).length = (xs.take q').length := by
      have : ((xs.take q').filter fun x => p x = some true) = (xs.take q').filter fun x => !decide (p x = some false) := by
        refine List.filter_congr fun x hx => ?_
        have h0 := hall x hx
        cases hp : p x with
        | none => exact absurd hp h0
        | some b => cases b <;> simp
      rw [this]
      exact (List.length_eq_length_filter_add _).symm
    rw [List.length_take] at hsum
    rw [List.length_take, List.length_drop]
    omega

/-- the hypotheses are met: a predicate that removes 11 and 14 and throws at 16,
in a tree of height 3 -/
example : ∃ (m m' : Mem Nat) (n a b : Nat), Reach demo m ∧ Contents demo 0 m eight ∧
    runErase demo (removeIf fun x => if x = 16 then none else some (decide (x = 11 ∨ x = 14))) n .findTest 0 m = .throw .elem m' ∧
    Contents demo 0 m' [10, 12, 15, a, b, 16, 17, 18] := by
  obtain ⟨m, h1, h2, -⟩ := demo_eight
  obtain ⟨n, m', gap, h3, -, h4, h5, -⟩ := (C64_remove_if demo_good h1 h2
    (fun x => if x = 16 then none else some (decide (x = 11 ∨ x = 14)))).2 5 (by decide) (by decide) (by decide)
  match gap, h5 with
  | [a, b], _ => exact ⟨m, m', n, a, b, h1, h2, h3, h4⟩

end SegTree
