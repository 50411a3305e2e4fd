/-
  Public calls on two containers, constructors and the destructor.
-/
import Verif.Proof.Ops
set_option autoImplicit false
set_option linter.unusedSimpArgs false

namespace SegTree

variable {α β γ : Type} {E : Env α} {g : Log} {F : Asrt α} {m : Mem α}

/-- copying a range of another container that is only read -/
theorem copySrc_mid {o2 al2 b k : Nat} {s2 : St α} {X0 X : Asrt α} {vs : List α} {e : Exn}
    (h : SrcMid (CopyR E o2 al2 b s2 X0) (CopyR1 E o2 al2 b s2 X0) vs k e X) : X = X0 := by
  obtain ⟨st, v, ws, -, h⟩ := h
  rcases h with h | h <;> exact h.2.1

theorem slice_length {xs : List α} {a b : Nat} (hb : b ≤ xs.length) : (slice xs a b).length = b - a := by
  simp [slice]; omega

theorem bin_c {o o2 al al2 : Nat} {s s2 : St α} (hE : E.Good) (c : Bin α) (hs : s.Ok E) (hs2 : s2.Ok E)
    (hp : c.Pre E ⟨al, s.elems⟩ ⟨al2, s2.elems⟩) (H : Holds g (cont E o al s + (cont E o2 al2 s2 + F)) m) :
    Spec (c.run E o o2) m
      (fun r m' => ∃ s' s2' al' al2' g', s'.Ok E ∧ s2'.Ok E ∧
        c.Ok E ⟨al, s.elems⟩ ⟨al2, s2.elems⟩ r ⟨al', s'.elems⟩ ⟨al2', s2'.elems⟩ ∧
        LogR (Op.Quiet (.bin o o2 c)) g g' ∧ Holds g' (cont E o al' s' + (cont E o2 al2' s2' + F)) m')
      (fun e m' => ∃ s' s2' al' al2' g', s'.Ok E ∧ s2'.Ok E ∧
        c.Exc E ⟨al, s.elems⟩ ⟨al2, s2.elems⟩ e ⟨al', s'.elems⟩ ⟨al2', s2'.elems⟩ ∧
        LogX e (Op.Quiet (.bin o o2 c)) g g' ∧ Holds g' (cont E o al' s' + (cont E o2 al2' s2' + F)) m') := by
  have H2 := H.eqv (by frame : _ = cont E o2 al2 s2 + (_ + _))
  have nil : (St.nil : St α).Ok E := St.Ok.nil hE.wpos
  cases c with
  | swap =>
    obtain ⟨m', e, H'⟩ := swap_c hp H
    refine (Spec.of e).unit' ?_
    rintro _ _ ⟨-, rfl⟩
    exact ⟨s2, s, _, _, g, hs2, hs, ⟨rfl, rfl, rfl⟩, LogR.refl, H'⟩
  | assignCopy =>
    refine Spec.unit' ((assign_copy_c hE hs hs2 hp H).mono (fun _ _ h => h) ?_) ?_
    · rintro e m' ⟨s', g', k, xs, hk, h1, ht, h2, h3, h4, H'⟩
      exact ⟨s', s2, _, al2, g', h1, hs2, ⟨ht.blame, rfl, k, hk, xs, h2, h3, by rw [h4]⟩, LogX.of ht id, H'⟩
    · rintro _ m' ⟨s', r, h1, h2, H'⟩
      exact ⟨s', s2, _, al2, _, h1, hs2, ⟨rfl, by rw [h2], rfl⟩, LogR.add id, H'⟩
  | assignMove =>
    by_cases hw : E.pocma = true ∨ SameAlloc E al al2
    · obtain ⟨m', e, H'⟩ := assign_move_steal_c hs hw (hp hw) H
      refine (Spec.of e).unit' ?_
      rintro _ _ ⟨-, rfl⟩
      exact ⟨s2, .nil, _, _, g, hs2, nil, ⟨rfl, rfl, fun _ => rfl, fun h => absurd hw h⟩, LogR.refl, H'⟩
    · have hpo : E.pocma = false := by simpa using fun h => hw (.inl h)
      refine Spec.unit' ((assign_move_elems_c hE hs hs2 hpo (fun h => hw (.inr h)) H).mono (fun _ _ h => h) ?_) ?_
      · rintro e m' ⟨s', s2', k, g', h1, h2, hk, h3, h4, rfl, h6, H'⟩
        exact ⟨s', s2', al, al2, g', h1, h2, ⟨rfl, hw, k, hk, by rw [h3], by rw [h4]; rfl⟩, LogX.alloc h6 id, H'⟩
      · rintro _ m' ⟨s', s2', r, h1, h2, h3, h4, H'⟩
        exact ⟨s', s2', al, al2, _, h1, h3, ⟨rfl, by simp [h2, hpo], fun h => absurd h hw, fun _ => by rw [h4]⟩,
          LogR.add id, H'⟩
  | splice i =>
    obtain ⟨hi, hn, hW⟩ := hp
    obtain ⟨it, ha⟩ := St.At.exists hs hi
    refine Spec.unit' (Spec.step (nth_c hs ha H)
      ((splice_c hE hs hs2 ha hn (max_lt hE hW) H).mono (fun _ _ h => h) ?_)) ?_
    · rintro e m' ⟨s', s2', g', k, h1, h2, hk, h3, h4, rfl, h6, H'⟩
      exact ⟨s', s2', al, al2, g', h1, h2, ⟨rfl, k, hk, by rw [h3]; rfl, by rw [h4]; rfl⟩, LogX.alloc h6 id, H'⟩
    · rintro _ m' ⟨s', r, h1, h2, H'⟩
      exact ⟨s', .nil, al, al2, _, h1, nil, ⟨rfl, by rw [h2]; rfl, rfl⟩, LogR.add id, H'⟩
  | spliceOne i j =>
    obtain ⟨hi, hj, hW⟩ := hp
    obtain ⟨it, ha⟩ := St.At.exists hs hi
    obtain ⟨jt, hb⟩ := St.At.exists hs2 (Nat.le_of_lt hj)
    refine Spec.unit' (Spec.step (nth_c hs ha H) (Spec.step (nth_c hs2 hb H2)
      ((splice_one_c hE hs hs2 ha hb hj (max_lt hE hW) H).mono (fun _ _ h => h) ?_))) ?_
    · rintro e m' ⟨-, g', ht, H'⟩
      exact ⟨s, s2, al, al2, g', hs, hs2, ⟨⟨hj, ht.blame⟩, rfl, rfl⟩, LogX.of ht id, H'⟩
    · rintro _ m' ⟨s', s2', r, h1, h2, h3, h4, H'⟩
      exact ⟨s', s2', al, al2, _, h1, h2, ⟨rfl, ⟨hj, by rw [h3]; rfl⟩, by rw [h4]⟩, LogR.add id, H'⟩
  | spliceRange i a b =>
    obtain ⟨hi, hab, hb, hW⟩ := hp
    obtain ⟨it, ha⟩ := St.At.exists hs hi
    obtain ⟨fi, hfi⟩ := St.At.exists hs2 (Nat.le_trans hab hb)
    obtain ⟨la, hla⟩ := St.At.exists hs2 hb
    refine Spec.unit' (Spec.step (nth_c hs ha H) (Spec.step (nth_c hs2 hfi H2) (Spec.step (nth_c hs2 hla H2)
      ((splice_range_c hE hs hs2 ha hfi hla hab (max_lt hE hW) H).mono (fun _ _ h => h) ?_)))) ?_
    · rintro e m' ⟨s', s2', g', k, h1, h2, hk, h3, h4, rfl, h6, H'⟩
      exact ⟨s', s2', al, al2, g', h1, h2, ⟨rfl, k, hk, by rw [h3]; rfl, by rw [h4]; rfl⟩, LogX.alloc h6 id, H'⟩
    · rintro _ m' ⟨s', s2', r, h1, h2, h3, h4, H'⟩
      exact ⟨s', s2', al, al2, _, h1, h2, ⟨rfl, by rw [h3]; rfl, by rw [h4]⟩, LogR.add id, H'⟩
  | merge comp =>
    refine Spec.unit' ((merge_c hE hs hs2 (max_lt hE hp) H).mono (fun _ _ h => h) ?_) ?_
    · rintro e m' ⟨s', s2', g', k, h1, h2, hk, h3, h4, rfl, h6, H'⟩
      exact ⟨s', s2', al, al2, g', h1, h2, ⟨rfl, k, hk, by rw [h3], by rw [h4]; rfl⟩, LogX.alloc h6 id, H'⟩
    · rintro _ m' ⟨s', s2', r, h1, h2, h3, h4, H'⟩
      exact ⟨s', s2', al, al2, _, h1, h2, ⟨rfl, by rw [h3], by rw [h4]⟩, LogR.add id, H'⟩
  | insertRange i a b =>
    obtain ⟨hi, hab, hb, hW⟩ := hp
    obtain ⟨it, ha⟩ := St.At.exists hs hi
    obtain ⟨fi, hfi⟩ := St.At.exists hs2 (Nat.le_trans hab hb)
    obtain ⟨la, hla⟩ := St.At.exists hs2 hb
    refine Spec.pos' (Spec.step (nth_c hs ha H) (Spec.step (nth_c hs2 hfi H2) (Spec.step (nth_c hs2 hla H2)
      ((emplace_range_c (X := cont E o2 al2 s2) (st := fi) (vs := slice s2.elems a b) hE
        (copySrc_ok (X0 := cont E o2 al2 s2) hs2 hla) hs ha ⟨rfl, fun _ _ _ h => h, a, hfi, hab, rfl⟩
        (by rw [slice_length hb]; exact max_lt hE hW) H).mono (fun _ _ h => h) ?_)))) ?_
    · rintro e m' ⟨s', X', g', k, hk, h1, h2, hX, ht, H'⟩
      cases copySrc_mid hX
      rw [slice_length hb] at hk
      exact ⟨s', s2, al, al2, g', h1, hs2, ⟨ht.blame, rfl, k, hk, by rw [h2]; rfl⟩, LogX.of ht id, H'⟩
    · rintro it' m' ⟨s', X', st', r, h1, h2, h3, ⟨rfl, -⟩, H'⟩
      exact ⟨s', s2, al, al2, _, h1, hs2, ⟨by rw [h3.pos], by rw [h2]; rfl, rfl⟩, LogR.add id, H'⟩
  | assignRange a b =>
    obtain ⟨hab, hb⟩ := hp
    obtain ⟨fi, hfi⟩ := St.At.exists hs2 (Nat.le_trans hab hb)
    obtain ⟨la, hla⟩ := St.At.exists hs2 hb
    refine Spec.unit' (Spec.step (nth_c hs2 hfi H2) (Spec.step (nth_c hs2 hla H2)
      ((assign_range_c (X := cont E o2 al2 s2) (st := fi) (vs := slice s2.elems a b) hE
        (copySrc_ok (X0 := cont E o2 al2 s2) hs2 hla) hs ⟨rfl, fun _ _ _ h => h, a, hfi, hab, rfl⟩
        (by rw [slice_length hb]; have := hs2.1; simp only at hb; omega) H).mono (fun _ _ h => h) ?_))) ?_
    · rintro e m' ⟨s', X', g', k, hk, h1, h2, hX, ht, H'⟩
      cases copySrc_mid hX
      rw [slice_length hb] at hk
      exact ⟨s', s2, al, al2, g', h1, hs2, ⟨ht.blame, rfl, k, hk, by rw [h2]⟩, LogX.of ht id, H'⟩
    · rintro it' m' ⟨s', X', st', r, h1, h2, ⟨rfl, -⟩, H'⟩
      exact ⟨s', s2, al, al2, _, h1, hs2, ⟨rfl, by rw [h2], rfl⟩, LogR.add id, H'⟩
  | eq f =>
    refine (Spec.of (op_eq_c (eq := f) hs hs2 H H2)).flag' ?_
    rintro _ _ ⟨rfl, rfl⟩
    exact ⟨s, s2, al, al2, g, hs, hs2, ⟨by rw [eqList_eq], rfl, rfl⟩, LogR.refl, H⟩
  | ne f =>
    refine (Spec.step (op_eq_c (eq := f) hs hs2 H H2) (Spec.pure ⟨rfl, rfl⟩) :
      Spec (op_ne E f o o2) m (fun v m' => v = !eqList f s.elems s2.elems ∧ m' = m) _).flag' ?_
    rintro _ _ ⟨rfl, rfl⟩
    exact ⟨s, s2, al, al2, g, hs, hs2, ⟨by rw [eqList_eq], rfl, rfl⟩, LogR.refl, H⟩
  | lt f =>
    refine (Spec.of (op_lt_c (lt := f) hs hs2 H H2)).flag' ?_
    rintro _ _ ⟨rfl, rfl⟩
    exact ⟨s, s2, al, al2, g, hs, hs2, ⟨by rw [ltList_eq], rfl, rfl⟩, LogR.refl, H⟩
  | le f =>
    refine (Spec.step (op_lt_c (lt := f) hs2 hs H2 H) (Spec.pure ⟨rfl, rfl⟩) :
      Spec (op_le E f o o2) m (fun v m' => v = !ltList f s2.elems s.elems ∧ m' = m) _).flag' ?_
    rintro _ _ ⟨rfl, rfl⟩
    exact ⟨s, s2, al, al2, g, hs, hs2, ⟨by rw [ltList_eq], rfl, rfl⟩, LogR.refl, H⟩
  | gt f =>
    refine (Spec.of (op_lt_c (lt := f) hs2 hs H2 H)).flag' ?_
    rintro _ _ ⟨rfl, rfl⟩
    exact ⟨s, s2, al, al2, g, hs, hs2, ⟨by rw [ltList_eq], rfl, rfl⟩, LogR.refl, H⟩
  | ge f =>
    refine (Spec.step (op_lt_c (lt := f) hs hs2 H H2) (Spec.pure ⟨rfl, rfl⟩) :
      Spec (op_ge E f o o2) m (fun v m' => v = !ltList f s.elems s2.elems ∧ m' = m) _).flag' ?_
    rintro _ _ ⟨rfl, rfl⟩
    exact ⟨s, s2, al, al2, g, hs, hs2, ⟨by rw [ltList_eq], rfl, rfl⟩, LogR.refl, H⟩

/-! ### Constructors, destructor -/

theorem new_c {o : Nat} (hE : E.Good) (c : New α) (hp : c.Pre E) (hf : m.cell (.obj o) = none) (H : Holds g F m) :
    Spec (c.run E o) m
      (fun r m' => ∃ s' al' g', s'.Ok E ∧ r = .unit ∧ c.Ok ⟨al', s'.elems⟩ ∧
        LogR (Op.Quiet (.new o c)) g g' ∧ Holds g' (cont E o al' s' + F) m')
      (fun e m' => m'.cell = m.cell ∧ ∃ g', c.Exc E e ∧ LogX e (Op.Quiet (.new o c)) g g' ∧ Holds g' F m') := by
  cases c with
  | empty al =>
    obtain ⟨m', e, H'⟩ := ctor_c (E := E) (al := al) hf H
    refine (Spec.of e).unit' ?_
    rintro _ _ ⟨-, rfl⟩
    exact ⟨.nil, al, g, St.Ok.nil hE.wpos, rfl, rfl, LogR.refl, H'⟩
  | fill al n v =>
    refine Spec.unit' ((ctor_count_c hE (Mk.copy v) hp.2 (max_lt hE hp.1) hf H).mono (fun _ _ h => h) ?_) ?_
    · rintro e m' ⟨hc, g', ht, H'⟩
      exact ⟨hc, g', ht.blame, LogX.of ht id, H'⟩
    · rintro _ m' ⟨s', r, h1, h2, H'⟩
      exact ⟨s', al, _, h1, rfl, by rw [h2]; rfl, LogR.add id, H'⟩
  | list al vs =>
    refine Spec.unit' ((ctor_list_c hE hp.2 (max_lt hE hp.1) hf H).mono (fun _ _ h => h) ?_) ?_
    · rintro e m' ⟨hc, g', ht, H'⟩
      exact ⟨hc, g', ht.blame, LogX.of ht id, H'⟩
    · rintro _ m' ⟨s', r, h1, h2, H'⟩
      exact ⟨s', al, _, h1, rfl, by rw [h2]; rfl, LogR.add id, H'⟩

theorem new2_c {o o2 al2 : Nat} {s2 : St α} (hE : E.Good) (c : New2) (hs2 : s2.Ok E)
    (hp : c.Pre E ⟨al2, s2.elems⟩) (hf : m.cell (.obj o) = none) (H : Holds g (cont E o2 al2 s2 + F) m) :
    Spec (c.run E o o2) m
      (fun r m' => ∃ s' s2' al' al2' g', s'.Ok E ∧ s2'.Ok E ∧ r = .unit ∧
        c.Ok E ⟨al2, s2.elems⟩ ⟨al', s'.elems⟩ ⟨al2', s2'.elems⟩ ∧
        LogR (Op.Quiet (α := α) (.new2 o o2 c)) g g' ∧ Holds g' (cont E o al' s' + (cont E o2 al2' s2' + F)) m')
      (fun e m' => ∃ s2' al2' g', s2'.Ok E ∧ c.Exc E ⟨al2, s2.elems⟩ e ⟨al2', s2'.elems⟩ ∧
        LogX e (Op.Quiet (α := α) (.new2 o o2 c)) g g' ∧ Holds g' (cont E o2 al2' s2' + F) m') := by
  have nq : ∀ {c : New2}, c ≠ .move → ¬ Op.Quiet (α := α) (.new2 o o2 c) := fun h h' => h h'
  cases c with
  | copy =>
    refine Spec.unit' ((ctor_copy_c hE hp hs2 hf H).mono (fun _ _ h => h) ?_) ?_
    · rintro e m' ⟨-, g', ht, H'⟩
      exact ⟨s2, al2, g', hs2, ⟨ht.blame, rfl⟩, LogX.of ht (nq (by simp)), H'⟩
    · rintro _ m' ⟨s', r, h1, h2, H'⟩
      exact ⟨s', s2, _, al2, _, h1, hs2, rfl, ⟨by rw [h2], rfl⟩, LogR.add (nq (by simp)), H'⟩
  | copyAlloc al =>
    refine Spec.unit' ((ctor_copy_alloc_c hE hp hs2 hf H).mono (fun _ _ h => h) ?_) ?_
    · rintro e m' ⟨-, g', ht, H'⟩
      exact ⟨s2, al2, g', hs2, ⟨ht.blame, rfl⟩, LogX.of ht (nq (by simp)), H'⟩
    · rintro _ m' ⟨s', r, h1, h2, H'⟩
      exact ⟨s', s2, _, al2, _, h1, hs2, rfl, ⟨by rw [h2], rfl⟩, LogR.add (nq (by simp)), H'⟩
  | move =>
    obtain ⟨m', e, H'⟩ := ctor_move_c hf H
    refine (Spec.of e).unit' ?_
    rintro _ _ ⟨-, rfl⟩
    exact ⟨s2, .nil, al2, al2, g, hs2, St.Ok.nil hE.wpos, rfl, ⟨rfl, rfl⟩, LogR.refl, H'⟩
  | moveAlloc al =>
    obtain ⟨h1, h2⟩ := ctor_move_alloc_c (al := al) hE hp hs2 hf H
    by_cases hw : SameAlloc E al al2
    · obtain ⟨m', e, H'⟩ := h1 hw
      refine (Spec.of e).unit' ?_
      rintro _ _ ⟨-, rfl⟩
      exact ⟨s2, .nil, al, al2, g, hs2, St.Ok.nil hE.wpos, rfl, ⟨rfl, fun _ => rfl, fun h => absurd hw h⟩, LogR.refl, H'⟩
    · refine Spec.unit' ((h2 hw).mono (fun _ _ h => h) ?_) ?_
      · rintro e m' ⟨g', s2', k, hk, h3, h4, rfl, h6, H'⟩
        exact ⟨s2', al2, g', h3, ⟨rfl, hw, k, hk, by rw [h4]; rfl⟩, LogX.alloc h6 (nq (by simp)), H'⟩
      · rintro _ m' ⟨s', s2', r, h3, h4, h5, h6, H'⟩
        exact ⟨s', s2', al, al2, _, h3, h5, rfl, ⟨by rw [h4], fun h => absurd h hw, fun _ => by rw [h6]⟩,
          LogR.add (nq (by simp)), H'⟩
  | range al a b =>
    obtain ⟨hab, hb, hn⟩ := hp
    obtain ⟨fi, hfi⟩ := St.At.exists hs2 (Nat.le_trans hab hb)
    obtain ⟨la, hla⟩ := St.At.exists hs2 hb
    refine Spec.unit' (Spec.step (nth_c hs2 hfi H) (Spec.step (nth_c hs2 hla H)
      ((ctor_range_c (al := al) (X := cont E o2 al2 s2) (st := fi) (vs := slice s2.elems a b) hE
        (copySrc_ok (X0 := cont E o2 al2 s2) hs2 hla) hn ⟨rfl, fun _ _ _ h => h, a, hfi, hab, rfl⟩
        (by rw [slice_length hb]; have := hs2.1; simp only at hb; omega) hf H).mono (fun _ _ h => h) ?_))) ?_
    · rintro e m' ⟨g', X', k, hk, hX, ht, H'⟩
      cases copySrc_mid hX
      exact ⟨s2, al2, g', hs2, ⟨ht.blame, rfl⟩, LogX.of ht (nq (by simp)), H'⟩
    · rintro it' m' ⟨s', X', st', r, h1, h2, ⟨rfl, -⟩, H'⟩
      exact ⟨s', s2, al, al2, _, h1, hs2, rfl, ⟨by rw [h2], rfl⟩, LogR.add (nq (by simp)), H'⟩

end SegTree
