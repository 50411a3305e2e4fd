/-
  The loops of the container's private helpers (seq.hpp 2129-2225).
-/
import Verif.Proof.State2
set_option autoImplicit false
set_option linter.unusedSimpArgs false

namespace SegTree

variable {α β γ : Type} {E : Env α} {g : Log} {F : Asrt α} {m : Mem α}

theorem Ticked.refl (m : Mem α) : Ticked m m := ⟨rfl, rfl⟩
theorem Ticked.tick (m : Mem α) : Ticked m m.tick := ⟨rfl, rfl⟩
theorem Ticked.trans {m1 m2 m3 : Mem α} (h : Ticked m1 m2) (h2 : Ticked m2 m3) : Ticked m1 m3 :=
  ⟨h2.cell.trans h.cell, h2.log.trans h.log⟩
theorem Ticked.symm {m1 m2 : Mem α} (h : Ticked m1 m2) : Ticked m2 m1 := ⟨h.cell.symm, h.log.symm⟩
theorem Ticked.holds {m' : Mem α} (h : Ticked m m') (H : Holds g F m) : Holds g F m' := by
  obtain ⟨h1, h2, h3, h4, h5⟩ := H
  exact ⟨h.log.trans h1, h2, by rw [h.cell]; exact h3, by rw [h.cell]; exact h4, by rw [h.cell]; exact h5⟩

/-- an expression that yields `v` or throws because of `T v` -/
def Mk (T : α → Prop) (v : α) (mk : M α α) : Prop :=
  ∀ m, ∃ m', Ticked m m' ∧ (mk m = .ok v m' ∨ (mk m = .throw .elem m' ∧ T v))

theorem Mk.pure {T : α → Prop} (v : α) : Mk T v (pure v) := fun m => ⟨m, .refl m, .inl rfl⟩
theorem Mk.copy (v : α) : Mk (CopyThrows E) v (copyVal E v) := by
  intro m
  unfold copyVal
  by_cases h1 : E.trivCopy = true
  · exact ⟨m, .refl m, .inl (by rw [if_pos h1])⟩
  · simp only [if_neg h1]
    refine ⟨m.tick, .tick m, ?_⟩
    by_cases h2 : E.cthrow m.ticks v = true
    · exact .inr ⟨by rw [if_pos h2], by simpa using h1, _, h2⟩
    · exact .inl (by rw [if_neg h2])

theorem Mk.spec {T : α → Prop} {v : α} {mk : M α α} (h : Mk T v mk) : Spec mk m (fun u m' => u = v ∧ Ticked m m')
    (fun e m' => e = .elem ∧ Ticked m m' ∧ T v) := by
  obtain ⟨m', ht, h | ⟨h, h1⟩⟩ := h m
  · exact Spec.ok h ⟨rfl, ht⟩
  · exact Spec.thr h ⟨rfl, ht, h1⟩

/-- what an exception that left a bulk operation says about the log: either
the allocator refused a request, or copying one of `vs` threw -/
def Thrown (T : α → Prop) (g g' : Log) (vs : List α) (e : Exn) : Prop :=
  (e = .alloc ∧ g'.fails = g.fails + 1) ∨
  (e = .elem ∧ g'.fails = g.fails ∧ ∃ v ∈ vs, T v)

theorem Thrown.mono {T : α → Prop} {g1 g2 g' : Log} {vs ws : List α} {e : Exn} (h : Thrown T g1 g' vs e)
    (hg : g1.fails = g2.fails) (hv : ∀ v ∈ vs, v ∈ ws) : Thrown T g2 g' ws e := by
  rcases h with ⟨h1, h2⟩ | ⟨h1, h2, v, h4, h5⟩
  · exact .inl ⟨h1, by rw [h2, hg]⟩
  · exact .inr ⟨h1, by rw [h2, hg], v, hv v h4, h5⟩

section
variable {o al i : Nat} {s : St α} {it : Iter} {T : α → Prop}

theorem emplace_single_c {v : α} {mk : M α α} (hE : E.Good) (hm : Mk T v mk) (hs : s.Ok E) (ha : s.At i it)
    (hW : s.elems.length + 1 < E.W) (H : Holds g (cont E o al s + F) m) :
    Spec (emplace_single E o it mk) m
      (fun it' m' => ∃ s' n, s'.Ok E ∧ s'.elems = s.elems.take i ++ v :: s.elems.drop i ∧ s'.At i it' ∧
        n ≤ s.ht + 1 ∧ Holds { g with reqs := g.reqs + n } (cont E o al s' + F) m')
      (fun e m' => m'.cell = m.cell ∧ ∃ g', Thrown T g g' [v] e ∧ g'.reqs ≤ g.reqs + (s.ht + 1) ∧
        Holds g' (cont E o al s + F) m') := by
  unfold emplace_single
  obtain ⟨m1, ht, h | ⟨h, h1⟩⟩ := hm m
  · refine Spec.step h ((insert_iterator_c v hE hs ha hW (ht.holds H)).mono (fun _ _ h => h) ?_)
    rintro e m' ⟨rfl, hc, n, hn, H'⟩
    exact ⟨hc.trans ht.cell, _, .inl ⟨rfl, rfl⟩, by simp; omega, H'⟩
  · exact Spec.thr (bind_throw h) ⟨ht.cell, g, .inr ⟨rfl, rfl, v, by simp, h1⟩, by omega, ht.holds H⟩

theorem take_ins {xs : List α} {i : Nat} {ys : List α} (hi : i ≤ xs.length) :
    (xs.take i ++ (ys ++ xs.drop i)).take (i + ys.length) = xs.take i ++ ys := by
  rw [List.take_append, List.take_append]
  simp only [List.length_take, Nat.min_eq_left hi]
  rw [show i + ys.length - i = ys.length by omega]
  simp
theorem drop_ins {xs : List α} {i : Nat} {ys : List α} (hi : i ≤ xs.length) :
    (xs.take i ++ (ys ++ xs.drop i)).drop (i + ys.length) = xs.drop i := by
  rw [List.drop_append, List.drop_append]
  simp only [List.length_take, Nat.min_eq_left hi]
  rw [show i + ys.length - i = ys.length by omega]
  simp

theorem take_ins1 {xs : List α} {i : Nat} {v : α} (hi : i ≤ xs.length) :
    (xs.take i ++ v :: xs.drop i).take (i + 1) = xs.take i ++ [v] := take_ins (ys := [v]) hi
theorem drop_ins1 {xs : List α} {i : Nat} {v : α} (hi : i ≤ xs.length) :
    (xs.take i ++ v :: xs.drop i).drop (i + 1) = xs.drop i := drop_ins (ys := [v]) hi

theorem emplace_count_loop_c {v : α} {mk : M α α} (hE : E.Good) (hm : Mk T v mk) (n : Nat) :
    ∀ {m : Mem α} {g : Log} {i : Nat} {s : St α} {it : Iter}, s.Ok E → s.At i it →
    s.elems.length + n < E.W → Holds g (cont E o al s + F) m →
    Spec (emplace_count_loop E o mk n it) m
      (fun it' m' => ∃ s' r, s'.Ok E ∧ s'.elems = s.elems.take i ++ (List.replicate n v ++ s.elems.drop i) ∧
        s'.At (i + n) it' ∧ Holds { g with reqs := g.reqs + r } (cont E o al s' + F) m')
      (fun e m' => ∃ s' g' k, k < n ∧ s'.Ok E ∧
        s'.elems = s.elems.take i ++ (List.replicate k v ++ s.elems.drop i) ∧ Thrown T g g' [v] e ∧
        Holds g' (cont E o al s' + F) m') := by
  induction n with
  | zero =>
    intro m g i s it hs ha hW H
    exact Spec.pure ⟨s, 0, hs, by simp, ha, H⟩
  | succ n ih =>
    intro m g i s it hs ha hW H
    have hi := ha.le
    unfold emplace_count_loop
    refine ((emplace_single_c hE hm hs ha (by omega) H).mono (fun _ _ h => h) ?_).bind ?_
    · rintro e m' ⟨-, g', h1, -, H'⟩
      exact ⟨s, g', 0, by omega, hs, by simp, h1, H'⟩
    · rintro it1 m1 ⟨s1, n1, hs1, he1, ha1, -, H1⟩
      have hl1 : s1.elems.length = s.elems.length + 1 := by rw [he1]; simp; omega
      obtain ⟨it2, e2, ha2⟩ := move_next_c hs1 ha1 (by omega) H1
      refine Spec.step e2 ?_
      refine (ih hs1 ha2 (by omega) H1).mono ?_ ?_
      · rintro it3 m3 ⟨s3, r, hs3, he3, ha3, H3⟩
        refine ⟨s3, n1 + r, hs3, ?_, by rw [show i + (n + 1) = i + 1 + n by omega]; exact ha3, ?_⟩
        · rw [he3, he1, take_ins1 hi, drop_ins1 hi]
          simp [List.replicate_succ]
        · rw [← Nat.add_assoc]; exact H3
      · rintro e m3 ⟨s3, g3, k, hk, hs3, he3, ht, H3⟩
        refine ⟨s3, g3, k + 1, by omega, hs3, ?_, ht.mono rfl (fun _ h => h), H3⟩
        rw [he3, he1, take_ins1 hi, drop_ins1 hi]
        simp [List.replicate_succ]

theorem emplace_count_c {v : α} {mk : M α α} {n : Nat} (hE : E.Good) (hm : Mk T v mk) (hs : s.Ok E) (ha : s.At i it)
    (hW : s.elems.length + n < E.W) (H : Holds g (cont E o al s + F) m) :
    Spec (emplace_count E o it n mk) m
      (fun it' m' => ∃ s' r, s'.Ok E ∧ s'.elems = s.elems.take i ++ (List.replicate n v ++ s.elems.drop i) ∧
        s'.At i it' ∧ Holds { g with reqs := g.reqs + r } (cont E o al s' + F) m')
      (fun e m' => ∃ s' g' k, k < n ∧ s'.Ok E ∧
        s'.elems = s.elems.take i ++ (List.replicate k v ++ s.elems.drop i) ∧ Thrown T g g' [v] e ∧
        Holds g' (cont E o al s' + F) m') := by
  unfold emplace_count
  refine (emplace_count_loop_c hE hm n hs ha hW H).bind ?_
  rintro it1 m1 ⟨s1, r, hs1, he1, ha1, H1⟩
  obtain ⟨it2, e2, ha2⟩ := move_prev_iterator_count_c hs1 ha1 (by omega : n ≤ i + n) H1
  exact Spec.ok e2 ⟨s1, r, hs1, he1, by rw [show i = i + n - n by omega]; exact ha2, H1⟩

/-! ### input ranges -/

/-- `S` yields exactly the values `vs` from position `st`; `X` is the memory it
owns (nothing for external values, the source container for iterators). -/
structure SrcOk {σ : Type} (E : Env α) (T : α → Prop) (S : Src α σ) (R R1 : σ → List α → Asrt α → Prop) : Prop where
  done : ∀ {st vs X}, R st vs X → S.done st = vs.isEmpty
  read : ∀ {st v vs X} {g : Log} {F : Asrt α} {m : Mem α}, R st (v :: vs) X → Holds g (X + F) m →
    Spec (S.read st) m (fun u m' => u = v ∧ ∃ X1, R1 st vs X1 ∧ Holds g (X1 + F) m')
      (fun e m' => e = .elem ∧ Ticked m m' ∧ T v)
  next : ∀ {st vs X} {g : Log} {F : Asrt α} {m : Mem α}, R1 st vs X → Holds g (X + F) m →
    ∃ st', S.next st m = .ok st' m ∧ R st' vs X

/-- the state of the source when a loop is left by an exception -/
def SrcMid {σ : Type} (R R1 : σ → List α → Asrt α → Prop) (vs : List α) (k : Nat) (e : Exn) (X : Asrt α) : Prop :=
  ∃ st v ws, vs.drop k = v :: ws ∧ ((e = .elem ∧ R st (v :: ws) X) ∨ (e = .alloc ∧ R1 st ws X))

section
variable {σ : Type} {S : Src α σ} {R R1 : σ → List α → Asrt α → Prop} {X : Asrt α}

/-- reading one value and inserting it -/
theorem emplace_src_c {st : σ} {v : α} {vs : List α} (hE : E.Good) (hS : SrcOk E T S R R1) (hs : s.Ok E) (ha : s.At i it)
    (hR : R st (v :: vs) X) (hW : s.elems.length + 1 < E.W) (H : Holds g (cont E o al s + (X + F)) m) :
    Spec (emplace_single E o it (S.read st)) m
      (fun it' m' => ∃ s' X' n, s'.Ok E ∧ s'.elems = s.elems.take i ++ v :: s.elems.drop i ∧ s'.At i it' ∧
        R1 st vs X' ∧ Holds { g with reqs := g.reqs + n } (cont E o al s' + (X' + F)) m')
      (fun e m' => ∃ X' g', SrcMid R R1 (v :: vs) 0 e X' ∧ Thrown T g g' [v] e ∧ Holds g' (cont E o al s + (X' + F)) m') := by
  unfold emplace_single
  refine ((hS.read hR (H.eqv (by frame : _ = X + (cont E o al s + F)))).mono (fun _ _ h => h) ?_).bind ?_
  · rintro e m' ⟨rfl, ht, h1⟩
    exact ⟨X, g, ⟨st, v, vs, rfl, .inl ⟨rfl, hR⟩⟩, .inr ⟨rfl, rfl, v, by simp, h1⟩, ht.holds H⟩
  · rintro u m1 ⟨rfl, X1, hR1, H1⟩
    refine (insert_iterator_c u hE hs ha hW (H1.eqv (by frame : _ = cont E o al s + (X1 + F)))).mono ?_ ?_
    · rintro it' m' ⟨s', n, h1, h2, h3, -, H'⟩
      exact ⟨s', X1, n, h1, h2, h3, hR1, H'⟩
    · rintro e m' ⟨rfl, -, n, -, H'⟩
      exact ⟨X1, _, ⟨st, u, vs, rfl, .inr ⟨rfl, hR1⟩⟩, .inl ⟨rfl, rfl⟩, H'⟩

theorem emplace_range_loop_c (hE : E.Good) (hS : SrcOk E T S R R1) (vs : List α) :
    ∀ {m : Mem α} {g : Log} {i cnt : Nat} {s : St α} {it : Iter} {st : σ} {X : Asrt α}, s.Ok E → s.At i it →
    R st vs X → s.elems.length + vs.length < E.W → Holds g (cont E o al s + (X + F)) m →
    Spec (emplace_range_loop E S o it st cnt) m
      (fun p m' => p.2 = cnt + vs.length ∧ ∃ s' X' st' r, s'.Ok E ∧
        s'.elems = s.elems.take i ++ (vs ++ s.elems.drop i) ∧ s'.At (i + vs.length) p.1 ∧ R st' [] X' ∧
        Holds { g with reqs := g.reqs + r } (cont E o al s' + (X' + F)) m')
      (fun e m' => ∃ s' X' g' k, k < vs.length ∧ s'.Ok E ∧
        s'.elems = s.elems.take i ++ (vs.take k ++ s.elems.drop i) ∧ SrcMid R R1 vs k e X' ∧ Thrown T g g' vs e ∧
        Holds g' (cont E o al s' + (X' + F)) m') := by
  induction vs with
  | nil =>
    intro m g i cnt s it st X hs ha hR hW H
    rw [emplace_range_loop, hS.done hR]
    exact Spec.pure ⟨rfl, s, X, st, 0, hs, by simp, ha, hR, H⟩
  | cons v vs ih =>
    intro m g i cnt s it st X hs ha hR hW H
    have hi := ha.le
    simp only [List.length_cons] at hW
    rw [emplace_range_loop, hS.done hR]
    simp only [List.isEmpty_cons, Bool.false_eq_true, if_false]
    refine ((emplace_src_c hE hS hs ha hR (by omega) H).mono (fun _ _ h => h) ?_).bind ?_
    · rintro e m' ⟨X', g', hX, ht, H'⟩
      exact ⟨s, X', g', 0, by simp, hs, by simp, hX, ht.mono rfl (by simp), H'⟩
    · rintro it1 m1 ⟨s1, X1, n1, hs1, he1, ha1, hR1, H1⟩
      have hl1 : s1.elems.length = s.elems.length + 1 := by rw [he1]; simp; omega
      obtain ⟨st', e1, hR'⟩ := hS.next hR1 (H1.eqv (by frame : _ = X1 + (cont E o al s1 + F)))
      refine Spec.step e1 ?_
      obtain ⟨it2, e2, ha2⟩ := move_next_c hs1 ha1 (by omega) H1
      refine Spec.step e2 ?_
      refine (ih hs1 ha2 hR' (by omega) H1).mono ?_ ?_
      · rintro ⟨it3, c3⟩ m3 ⟨hc, s3, X3, st3, r, hs3, he3, ha3, hR3, H3⟩
        refine ⟨by rw [hc]; simp; omega, s3, X3, st3, n1 + r, hs3, ?_, ?_, hR3, by rw [← Nat.add_assoc]; exact H3⟩
        · rw [he3, he1, take_ins1 hi, drop_ins1 hi]; simp
        · rw [List.length_cons, show i + (vs.length + 1) = i + 1 + vs.length by omega]; exact ha3
      · rintro e m3 ⟨s3, X3, g3, k, hk, hs3, he3, hX3, ht, H3⟩
        refine ⟨s3, X3, g3, k + 1, by simp; omega, hs3, ?_, hX3, ht.mono rfl (fun v h => by simp [h]), H3⟩
        rw [he3, he1, take_ins1 hi, drop_ins1 hi]; simp

theorem emplace_range_c {st : σ} {vs : List α} (hE : E.Good) (hS : SrcOk E T S R R1) (hs : s.Ok E) (ha : s.At i it)
    (hR : R st vs X) (hW : s.elems.length + vs.length < E.W) (H : Holds g (cont E o al s + (X + F)) m) :
    Spec (emplace_range E S o it st) m
      (fun it' m' => ∃ s' X' st' r, s'.Ok E ∧
        s'.elems = s.elems.take i ++ (vs ++ s.elems.drop i) ∧ s'.At i it' ∧ R st' [] X' ∧
        Holds { g with reqs := g.reqs + r } (cont E o al s' + (X' + F)) m')
      (fun e m' => ∃ s' X' g' k, k < vs.length ∧ s'.Ok E ∧
        s'.elems = s.elems.take i ++ (vs.take k ++ s.elems.drop i) ∧ SrcMid R R1 vs k e X' ∧ Thrown T g g' vs e ∧
        Holds g' (cont E o al s' + (X' + F)) m') := by
  unfold emplace_range
  refine (emplace_range_loop_c hE hS vs hs ha hR hW H).bind ?_
  rintro ⟨it1, c1⟩ m1 ⟨hc, s1, X1, st1, r, hs1, he1, ha1, hR1, H1⟩
  dsimp only at hc ha1 ⊢
  rw [hc, Nat.zero_add]
  obtain ⟨it2, e2, ha2⟩ := move_prev_iterator_count_c hs1 ha1 (by omega : vs.length ≤ i + vs.length) H1
  exact Spec.ok e2 ⟨s1, X1, st1, r, hs1, he1, by rw [show i = i + vs.length - vs.length by omega]; exact ha2, hR1, H1⟩

end

/-- external values -/
theorem listSrc_ok : SrcOk E (CopyThrows E) (listSrc E) (fun st vs X => st = vs ∧ X = 0) (fun st vs X => st.tail = vs ∧ X = 0) where
  done := by rintro st vs X ⟨rfl, rfl⟩; rfl
  read := by
    rintro st v vs X g F m ⟨rfl, rfl⟩ H
    refine (Mk.copy v).spec.mono ?_ (fun _ _ h => h)
    rintro u m' ⟨rfl, ht⟩
    exact ⟨rfl, 0, ⟨rfl, rfl⟩, ht.holds H⟩
  next := by
    rintro st vs X g F m ⟨rfl, rfl⟩ H
    exact ⟨_, rfl, rfl, rfl⟩

section
variable {o2 al2 a b : Nat} {s2 : St α} {last : Iter}

/-- `X` describes the same cells as `Y`, at least as precisely -/
def Ent (X Y : Asrt α) : Prop := ∀ g F m, Holds g (X + F) m → Holds g (Y + F) m

theorem Ent.refl (X : Asrt α) : Ent X X := fun _ _ _ h => h

/-- reading a range of another container -/
def CopyR (E : Env α) (o2 al2 b : Nat) (s2 : St α) (X0 : Asrt α) (st : Iter) (vs : List α) (X : Asrt α) : Prop :=
  X = X0 ∧ Ent X (cont E o2 al2 s2) ∧ ∃ i, s2.At i st ∧ i ≤ b ∧ vs = (s2.elems.take b).drop i
def CopyR1 (E : Env α) (o2 al2 b : Nat) (s2 : St α) (X0 : Asrt α) (st : Iter) (vs : List α) (X : Asrt α) : Prop :=
  X = X0 ∧ Ent X (cont E o2 al2 s2) ∧ ∃ i, s2.At i st ∧ i < b ∧ vs = (s2.elems.take b).drop (i + 1)

theorem drop_cons_info {xs vs : List α} {v : α} {i b : Nat} (hb : b ≤ xs.length) (h : v :: vs = (xs.take b).drop i) :
    ∃ hi : i < b, v = xs[i] ∧ vs = (xs.take b).drop (i + 1) := by
  have hi : i < (xs.take b).length := by
    by_contra hc
    rw [List.drop_eq_nil_of_le (by omega)] at h
    exact absurd h (by simp)
  have hib : i < b := by simp at hi; omega
  rw [List.drop_eq_getElem_cons hi] at h
  injection h with h1 h2
  exact ⟨hib, by rw [h1, List.getElem_take], h2⟩

theorem copySrc_ok {X0 : Asrt α} (hs2 : s2.Ok E) (hl : s2.At b last) :
    SrcOk E (CopyThrows E) (copySrc E last) (CopyR E o2 al2 b s2 X0) (CopyR1 E o2 al2 b s2 X0) where
  done := by
    rintro st vs X ⟨rfl, hX, i, ha, hi, rfl⟩
    have hb := hl.le
    show decide (st.pos = last.pos) = _
    rw [ha.pos, hl.pos]
    by_cases h : i = b
    · subst h; simp
    · have : ((s2.elems.take b).drop i).length ≠ 0 := by simp; omega
      cases hc : (s2.elems.take b).drop i with
      | nil => simp [hc] at this
      | cons x y => simp [h]
  read := by
    rintro st v vs X g F m ⟨rfl, hX, i, ha, hi, hv⟩ H
    have hb := hl.le
    obtain ⟨hib, rfl, hvs⟩ := drop_cons_info hb hv
    refine Spec.step (dereference_c hs2 ha (by omega) (hX _ _ _ H)) ((Mk.copy _).spec.mono ?_ (fun _ _ h => h))
    rintro u m' ⟨rfl, ht⟩
    exact ⟨rfl, _, ⟨rfl, hX, i, ha, hib, hvs⟩, ht.holds H⟩
  next := by
    rintro st vs X g F m ⟨rfl, hX, i, ha, hi, rfl⟩ H
    have hb := hl.le
    obtain ⟨it', e, ha'⟩ := move_next_c hs2 ha (by omega) (hX _ _ _ H)
    exact ⟨it', e, rfl, hX, i + 1, ha', hi, rfl⟩

/-- contents of the source while `[a, i)` has been moved from -/
def movedList (E : Env α) (a i : Nat) (xs : List α) : List α :=
  xs.take a ++ (((xs.take i).drop a).map E.moved ++ xs.drop i)

def MoveR (E : Env α) (o2 al2 a b : Nat) (s2 : St α) (st : Iter) (vs : List α) (X : Asrt α) : Prop :=
  ∃ s i, X = cont E o2 al2 s ∧ s.Ok E ∧ s2.Same s ∧ s.At i st ∧ a ≤ i ∧ i ≤ b ∧
    vs = (s2.elems.take b).drop i ∧ s.elems = movedList E a i s2.elems
def MoveR1 (E : Env α) (o2 al2 a b : Nat) (s2 : St α) (st : Iter) (vs : List α) (X : Asrt α) : Prop :=
  ∃ s i, X = cont E o2 al2 s ∧ s.Ok E ∧ s2.Same s ∧ s.At i st ∧ a ≤ i ∧ i < b ∧
    vs = (s2.elems.take b).drop (i + 1) ∧ s.elems = movedList E a (i + 1) s2.elems

theorem movedList_length {i : Nat} {xs : List α} (h1 : a ≤ i) (h2 : i ≤ xs.length) :
    (movedList E a i xs).length = xs.length := by
  simp [movedList]; omega

theorem movedList_get {i : Nat} {xs : List α} (h1 : a ≤ i) (h2 : i < xs.length)
    (h3 : i < (movedList E a i xs).length) : (movedList E a i xs)[i] = xs[i] := by
  simp only [movedList]
  rw [List.getElem_append_right (by simp; omega), List.getElem_append_right (by simp; omega)]
  simp only [List.getElem_drop, List.length_take, List.length_map, List.length_drop]
  congr 1; omega

theorem movedList_set {i : Nat} {xs : List α} (h1 : a ≤ i) (h2 : i < xs.length) :
    (movedList E a i xs).set i (E.moved xs[i]) = movedList E a (i + 1) xs := by
  simp only [movedList]
  rw [List.set_append_right _ _ (by simp; omega), List.set_append_right _ _ (by simp; omega)]
  rw [List.drop_eq_getElem_cons h2]
  simp only [List.length_take, List.length_map, List.length_drop]
  rw [show i - min a xs.length - (min i xs.length - a) = 0 by omega, List.set_cons_zero]
  congr 1
  rw [List.take_add_one, List.getElem?_eq_getElem h2, List.drop_append]
  simp only [Option.toList_some, List.length_take, List.map_append, List.append_assoc]
  rw [show a - min i xs.length = 0 by omega]
  simp

theorem moveFrom_c {i : Nat} {s : St α} {it : Iter} (hE : E.Good) (hs : s.Ok E) (ha : s.At i it) (hi : i < s.elems.length)
    (H : Holds g (cont E o al s + F) m) :
    ∃ m' s', moveFrom E it.entry.seg.ptr it.entry.seg.idx m = .ok s.elems[i] m' ∧ s'.Ok E ∧
      s'.elems = s.elems.set i (E.moved s.elems[i]) ∧ (∀ j it, s.At j it → s'.At j it) ∧ s.Same s' ∧
      Holds g (cont E o al s' + F) m' := by
  unfold moveFrom
  rw [bind_ok (rdElem_c hs ha hi H)]
  obtain ⟨m', s', e, h1, h2, h3, h4, H'⟩ := wrElem_c (E.moved s.elems[i]) hs ha hi H
  refine ⟨m', s', ?_, h1, h2, h3, h4, H'⟩
  rw [hE.throws]
  simp only [Bool.false_eq_true, if_false]
  rw [bind_ok e]; rfl

theorem moveSrc_ok (hE : E.Good) (hl : s2.At b last) :
    SrcOk E (fun _ => False) (moveSrc E last) (MoveR E o2 al2 a b s2) (MoveR1 E o2 al2 a b s2) where
  done := by
    rintro st vs X ⟨s, i, rfl, hs, hpres, ha, hai, hi, rfl, he⟩
    have hb := hl.le
    show decide (st.pos = last.pos) = _
    rw [ha.pos, hl.pos]
    by_cases h : i = b
    · subst h; simp
    · have : ((s2.elems.take b).drop i).length ≠ 0 := by simp; omega
      cases hc : (s2.elems.take b).drop i with
      | nil => simp [hc] at this
      | cons x y => simp [h]
  read := by
    rintro st v vs X g F m ⟨s, i, rfl, hs, hpres, ha, hai, hi, hv, he⟩ H
    have hb := hl.le
    obtain ⟨hib, rfl, hvs⟩ := drop_cons_info hb hv
    have hlen : s.elems.length = s2.elems.length := by rw [he, movedList_length hai (by omega)]
    obtain ⟨m', s', e, h1, h2, h3, h4, H'⟩ := moveFrom_c hE hs ha (by omega) H
    have hx : s.elems[i]'(by omega) = s2.elems[i]'(by omega) := by
      simp only [he]
      exact movedList_get hai (by omega) _
    refine Spec.ok e ⟨hx, _, ⟨s', i, rfl, h1, hpres.trans h4, h3 i st ha, hai, hib, hvs, ?_⟩, H'⟩
    rw [h2, hx, he]
    exact movedList_set hai (by omega)
  next := by
    rintro st vs X g F m ⟨s, i, rfl, hs, hpres, ha, hai, hi, hvs, he⟩ H
    have hb := hl.le
    have hlen : s.elems.length = s2.elems.length := by rw [he, movedList_length (by omega) (by omega)]
    obtain ⟨it', e, ha'⟩ := move_next_c hs ha (by omega) H
    exact ⟨it', e, s, i + 1, rfl, hs, hpres, ha', by omega, hi, hvs, he⟩

end

/-! ### erase_range -/

theorem erase_range_c {first : Iter} (hE : E.Good) (n : Nat) : ∀ {m : Mem α} {j : Nat} {s : St α} {last : Iter},
    s.Ok E → first.pos = i → s.At j last → i + n = j → Holds g (cont E o al s + F) m →
    Spec (erase_range E o first last) m
      (fun it' m' => ∃ s', s'.Ok E ∧ s'.elems = s.elems.take i ++ s.elems.drop j ∧ s'.At i it' ∧
        Holds g (cont E o al s' + F) m') NoThrow := by
  induction n with
  | zero =>
    intro m j s last hs hf hl hij H
    have : i = j := by omega
    subst this
    rw [erase_range, if_neg (by rw [hl.pos, hf]; simp)]
    exact Spec.pure ⟨s, hs, by simp, hl, H⟩
  | succ n ih =>
    intro m j s last hs hf hl hij H
    have hj := hl.le
    rw [erase_range, if_pos (by rw [hl.pos, hf]; omega)]
    obtain ⟨it1, e1, ha1⟩ := move_prev_c hs hl (by omega) H
    refine Spec.step e1 ((erase_single_c hE hs ha1 (by omega) H).bind ?_)
    rintro it2 m2 ⟨s2, hs2, he2, ha2, H2⟩
    refine (ih hs2 hf ha2 (by omega) H2).mono ?_ (fun _ _ h => h)
    rintro it3 m3 ⟨s3, hs3, he3, ha3, H3⟩
    refine ⟨s3, hs3, ?_, ha3, H3⟩
    rw [he3, he2, List.eraseIdx_eq_take_drop_succ, List.take_append_of_le_length (by simp; omega), List.take_take,
      Nat.min_eq_left (by omega), List.drop_append]
    simp only [List.length_take]
    rw [List.drop_eq_nil_of_le (by simp), show j - 1 - min (j - 1) s.elems.length = 0 by omega,
      show j - 1 + 1 = j by omega]
    simp

/-! ### assign -/

section
variable {σ : Type} {S : Src α σ} {R R1 : σ → List α → Asrt α → Prop}

theorem assign_range_loop_c (hE : E.Good) (hS : SrcOk E T S R R1) (vs : List α) :
    ∀ {m : Mem α} {g : Log} {i : Nat} {s : St α} {first last : Iter} {st : σ} {X : Asrt α}, s.Ok E → s.At i first →
    s.At s.elems.length last → R st vs X → i + vs.length < E.W → Holds g (cont E o al s + (X + F)) m →
    Spec (assign_range_loop E S o st first last) m
      (fun _ m' => ∃ s' X' st' r, s'.Ok E ∧ s'.elems = s.elems.take i ++ vs ∧ R st' [] X' ∧
        Holds { g with reqs := g.reqs + r } (cont E o al s' + (X' + F)) m')
      (fun e m' => ∃ s' X' g' k, k < vs.length ∧ s'.Ok E ∧
        s'.elems = s.elems.take i ++ (vs.take k ++ s.elems.drop (i + k)) ∧ SrcMid R R1 vs k e X' ∧ Thrown T g g' vs e ∧
        Holds g' (cont E o al s' + (X' + F)) m') := by
  induction vs with
  | nil =>
    intro m g i s first last st X hs ha hl hR hW H
    rw [assign_range_loop, hS.done hR]
    simp only [List.isEmpty_nil, if_true]
    have hi := ha.le
    refine ((erase_range_c hE (s.elems.length - i) hs ha.pos hl (by omega) H).mono (fun _ _ h => h)
      (fun _ _ h => h.elim)).bind ?_
    rintro it1 m1 ⟨s1, hs1, he1, -, H1⟩
    exact Spec.pure ⟨s1, X, st, 0, hs1, by simpa using he1, hR, H1⟩
  | cons v vs ih =>
    intro m g i s first last st X hs ha hl hR hW H
    rw [assign_range_loop, hS.done hR]
    simp only [List.isEmpty_cons, Bool.false_eq_true, if_false]
    have hi := ha.le
    by_cases hil : i = s.elems.length
    · rw [if_pos (by rw [ha.pos, hl.pos, hil])]
      subst hil
      refine ((emplace_range_c hE hS hs hl hR hW H).mono (fun _ _ h => h) ?_).bind ?_
      · rintro e m1 ⟨s1, X1, g1, k, hk, hs1, he1, hX, ht, H1⟩
        refine ⟨s1, X1, g1, k, hk, hs1, ?_, hX, ht, H1⟩
        rw [he1, List.drop_eq_nil_of_le (by omega), List.drop_eq_nil_of_le (by omega)]
      · rintro it1 m1 ⟨s1, X1, st1, r, hs1, he1, -, hR1, H1⟩
        exact Spec.pure ⟨s1, X1, st1, r, hs1, by simpa using he1, hR1, H1⟩
    · rw [if_neg (by rw [ha.pos, hl.pos]; exact hil)]
      have hlt : i < s.elems.length := by omega
      refine ((hS.read hR (H.eqv (by frame : _ = X + (cont E o al s + F)))).mono (fun _ _ h => h) ?_).bind ?_
      · rintro e m' ⟨rfl, ht, h1⟩
        exact ⟨s, X, g, 0, by simp, hs, by simp, ⟨st, v, vs, rfl, .inl ⟨rfl, hR⟩⟩, .inr ⟨rfl, rfl, v, by simp, h1⟩,
          ht.holds H⟩
      · rintro u m1 ⟨rfl, X1, hR1, H1⟩
        obtain ⟨m2, s2, e2, hs2, he2, hpres, -, H2⟩ := wrElem_c u hs ha hlt
          (H1.eqv (by frame : _ = cont E o al s + (X1 + F)))
        refine Spec.step e2 ?_
        have hlen : s2.elems.length = s.elems.length := by rw [he2]; simp
        obtain ⟨it3, e3, ha3⟩ := move_next_c hs2 (hpres _ _ ha) (by omega) H2
        refine Spec.step e3 ?_
        obtain ⟨st', e4, hR'⟩ := hS.next hR1 (H2.eqv (by frame : _ = X1 + (cont E o al s2 + F)))
        refine Spec.step e4 ?_
        have hl2 : s2.At s2.elems.length last := by rw [hlen]; exact hpres _ _ hl
        have htake : s2.elems.take (i + 1) = s.elems.take i ++ [u] := by
          rw [he2, List.take_add_one, List.take_set_of_le (Nat.le_refl _), List.getElem?_set_self hlt]; rfl
        have hdrop : ∀ k, s2.elems.drop (i + 1 + k) = s.elems.drop (i + (k + 1)) := by
          intro k
          rw [he2, List.drop_set_of_lt (by omega), show i + 1 + k = i + (k + 1) by omega]
        refine (ih hs2 ha3 hl2 hR' (by simp at hW; omega) H2).mono ?_ ?_
        · rintro _ m5 ⟨s5, X5, st5, r, hs5, he5, hR5, H5⟩
          refine ⟨s5, X5, st5, r, hs5, ?_, hR5, H5⟩
          rw [he5, htake]; simp
        · rintro e m5 ⟨s5, X5, g5, k, hk, hs5, he5, hX5, ht, H5⟩
          refine ⟨s5, X5, g5, k + 1, by simp; omega, hs5, ?_, hX5, ht.mono rfl (fun v h => by simp [h]), H5⟩
          rw [he5, htake, hdrop]; simp

theorem assign_range_c {st : σ} {vs : List α} {X : Asrt α} (hE : E.Good) (hS : SrcOk E T S R R1) (hs : s.Ok E)
    (hR : R st vs X) (hW : vs.length < E.W) (H : Holds g (cont E o al s + (X + F)) m) :
    Spec (assign_range E S o st) m
      (fun _ m' => ∃ s' X' st' r, s'.Ok E ∧ s'.elems = vs ∧ R st' [] X' ∧
        Holds { g with reqs := g.reqs + r } (cont E o al s' + (X' + F)) m')
      (fun e m' => ∃ s' X' g' k, k < vs.length ∧ s'.Ok E ∧ s'.elems = vs.take k ++ s.elems.drop k ∧
        SrcMid R R1 vs k e X' ∧ Thrown T g g' vs e ∧ Holds g' (cont E o al s' + (X' + F)) m') := by
  unfold assign_range
  obtain ⟨f, hf⟩ := St.At.exists hs (Nat.zero_le _)
  obtain ⟨l, hl⟩ := St.At.exists hs (Nat.le_refl _)
  refine Spec.step (find_first_c hs hf H) (Spec.step (find_end_c hs hl H) ?_)
  refine (assign_range_loop_c hE hS vs hs hf hl hR (by omega) H).mono ?_ ?_
  · rintro _ m' ⟨s', X', st', r, h1, h2, h3, H'⟩
    exact ⟨s', X', st', r, h1, by simpa using h2, h3, H'⟩
  · rintro e m' ⟨s', X', g', k, hk, h1, h2, h3, h4, H'⟩
    exact ⟨s', X', g', k, hk, h1, by simpa using h2, h3, h4, H'⟩

end

theorem assign_count_loop_c {v : α} (hE : E.Good) (n : Nat) :
    ∀ {m : Mem α} {g : Log} {i : Nat} {s : St α} {first last : Iter}, s.Ok E → s.At i first →
    s.At s.elems.length last → i + n < E.W → Holds g (cont E o al s + F) m →
    Spec (assign_count_loop E o (pure v) n first last) m
      (fun _ m' => ∃ s' r, s'.Ok E ∧ s'.elems = s.elems.take i ++ List.replicate n v ∧
        Holds { g with reqs := g.reqs + r } (cont E o al s' + F) m')
      (fun e m' => ∃ s' g' k, k < n ∧ s'.Ok E ∧
        s'.elems = s.elems.take i ++ (List.replicate k v ++ s.elems.drop (i + k)) ∧ Thrown (CopyThrows E) g g' [v] e ∧
        Holds g' (cont E o al s' + F) m') := by
  induction n with
  | zero =>
    intro m g i s first last hs ha hl hW H
    rw [assign_count_loop, if_pos rfl]
    have hi := ha.le
    refine ((erase_range_c hE (s.elems.length - i) hs ha.pos hl (by omega) H).mono (fun _ _ h => h)
      (fun _ _ h => h.elim)).bind ?_
    rintro it1 m1 ⟨s1, hs1, he1, -, H1⟩
    exact Spec.pure ⟨s1, 0, hs1, by simpa using he1, H1⟩
  | succ n ih =>
    intro m g i s first last hs ha hl hW H
    rw [assign_count_loop, if_neg (by omega)]
    have hi := ha.le
    by_cases hil : i = s.elems.length
    · rw [if_pos (by rw [ha.pos, hl.pos, hil])]
      subst hil
      refine ((emplace_count_c hE (v := v) (by simpa using Mk.copy v) hs hl hW H).mono (fun _ _ h => h) ?_).bind ?_
      · rintro e m1 ⟨s1, g1, k, hk, hs1, he1, ht, H1⟩
        refine ⟨s1, g1, k, hk, hs1, ?_, ht, H1⟩
        rw [he1, List.drop_eq_nil_of_le (by omega), List.drop_eq_nil_of_le (by omega)]
      · rintro it1 m1 ⟨s1, r, hs1, he1, -, H1⟩
        exact Spec.pure ⟨s1, r, hs1, by simpa using he1, H1⟩
    · rw [if_neg (by rw [ha.pos, hl.pos]; exact hil)]
      have hlt : i < s.elems.length := by omega
      simp only [pure_bind]
      unfold copyAssign
      simp only [bind_assoc]
      obtain ⟨m1, hk, hc | ⟨hc, h1, h2⟩⟩ := Mk.copy (E := E) v m
      · refine Spec.step hc ?_
        obtain ⟨m2, s2, e2, hs2, he2, hpres, -, H2⟩ := wrElem_c v hs ha hlt (hk.holds H)
        refine Spec.step e2 ?_
        have hlen : s2.elems.length = s.elems.length := by rw [he2]; simp
        obtain ⟨it3, e3, ha3⟩ := move_next_c hs2 (hpres _ _ ha) (by omega) H2
        refine Spec.step e3 ?_
        have hl2 : s2.At s2.elems.length last := by rw [hlen]; exact hpres _ _ hl
        have htake : s2.elems.take (i + 1) = s.elems.take i ++ [v] := by
          rw [he2, List.take_add_one, List.take_set_of_le (Nat.le_refl _), List.getElem?_set_self hlt]; rfl
        have hdrop : ∀ k, s2.elems.drop (i + 1 + k) = s.elems.drop (i + (k + 1)) := by
          intro k
          rw [he2, List.drop_set_of_lt (by omega), show i + 1 + k = i + (k + 1) by omega]
        rw [Nat.add_sub_cancel]
        refine (ih hs2 ha3 hl2 (by omega) H2).mono ?_ ?_
        · rintro _ m5 ⟨s5, r, hs5, he5, H5⟩
          refine ⟨s5, r, hs5, ?_, H5⟩
          rw [he5, htake]; simp [List.replicate_succ]
        · rintro e m5 ⟨s5, g5, k, hk, hs5, he5, ht, H5⟩
          refine ⟨s5, g5, k + 1, by omega, hs5, ?_, ht, H5⟩
          rw [he5, htake, hdrop]; simp [List.replicate_succ]
      · refine Spec.thr (bind_throw hc) ⟨s, g, 0, by omega, hs, by simp, .inr ⟨rfl, rfl, v, by simp, h1, h2⟩, hk.holds H⟩

theorem assign_count_c {v : α} {n : Nat} (hE : E.Good) (hs : s.Ok E)
    (hW : n < E.W) (H : Holds g (cont E o al s + F) m) :
    Spec (assign_count E o n (pure v)) m
      (fun _ m' => ∃ s' r, s'.Ok E ∧ s'.elems = List.replicate n v ∧
        Holds { g with reqs := g.reqs + r } (cont E o al s' + F) m')
      (fun e m' => ∃ s' g' k, k < n ∧ s'.Ok E ∧ s'.elems = List.replicate k v ++ s.elems.drop k ∧
        Thrown (CopyThrows E) g g' [v] e ∧ Holds g' (cont E o al s' + F) m') := by
  unfold assign_count
  obtain ⟨f, hf⟩ := St.At.exists hs (Nat.zero_le _)
  obtain ⟨l, hl⟩ := St.At.exists hs (Nat.le_refl _)
  refine Spec.step (find_first_c hs hf H) (Spec.step (find_end_c hs hl H) ?_)
  refine (assign_count_loop_c hE n hs hf hl (by omega) H).mono ?_ ?_
  · rintro _ m' ⟨s', r, h1, h2, H'⟩
    exact ⟨s', r, h1, by simpa using h2, H'⟩
  · rintro e m' ⟨s', g', k, hk, h1, h2, h4, H'⟩
    exact ⟨s', g', k, hk, h1, by simpa using h2, h4, H'⟩

theorem resize_count_c {v : α} {mk : M α α} {n : Nat} (hE : E.Good) (hm : Mk T v mk) (hs : s.Ok E)
    (hW : n < E.W) (H : Holds g (cont E o al s + F) m) :
    Spec (resize_count E o n mk) m
      (fun _ m' => ∃ s' r, s'.Ok E ∧
        s'.elems = s.elems.take n ++ List.replicate (n - s.elems.length) v ∧
        Holds { g with reqs := g.reqs + r } (cont E o al s' + F) m')
      (fun e m' => ∃ s' g' k, s.elems.length + k < n ∧ s'.Ok E ∧ s'.elems = s.elems ++ List.replicate k v ∧
        Thrown T g g' [v] e ∧ Holds g' (cont E o al s' + F) m') := by
  unfold resize_count
  refine Spec.step (getSize_c H) ?_
  by_cases h1 : s.elems.length = n
  · rw [if_pos h1]
    refine Spec.pure ⟨s, 0, hs, ?_, H⟩
    rw [← h1]; simp
  · rw [if_neg h1]
    obtain ⟨l, hl⟩ := St.At.exists hs (Nat.le_refl _)
    refine Spec.step (find_end_c hs hl H) ?_
    by_cases h2 : n < s.elems.length
    · rw [if_pos h2]
      obtain ⟨f, hf⟩ := St.At.exists hs (Nat.le_of_lt h2)
      refine Spec.step (find_index_c hs hf h2 H) ?_
      refine ((erase_range_c hE (s.elems.length - n) hs hf.pos hl (by omega) H).mono (fun _ _ h => h)
        (fun _ _ h => h.elim)).bind ?_
      rintro it1 m1 ⟨s1, hs1, he1, -, H1⟩
      refine Spec.pure ⟨s1, 0, hs1, ?_, H1⟩
      rw [he1, show n - s.elems.length = 0 by omega]; simp
    · rw [if_neg h2]
      refine ((emplace_count_c (n := n - s.elems.length) hE hm hs hl (by omega) H).mono (fun _ _ h => h) ?_).bind ?_
      · rintro e m1 ⟨s1, g1, k, hk, hs1, he1, ht, H1⟩
        exact ⟨s1, g1, k, by omega, hs1, by simpa using he1, ht, H1⟩
      · rintro it1 m1 ⟨s1, r, hs1, he1, -, H1⟩
        refine Spec.pure ⟨s1, r, hs1, ?_, H1⟩
        rw [he1, List.take_of_length_le (Nat.le_refl _), List.take_of_length_le (by omega)]; simp

end

end SegTree
