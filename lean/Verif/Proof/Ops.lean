/-
  Every public call, on the containers it names and an arbitrary frame.
-/
import Verif.Proof.Iters
set_option autoImplicit false
set_option linter.unusedSimpArgs false

namespace SegTree

variable {α β γ : Type} {E : Env α} {g : Log} {F : Asrt α} {m : Mem α}

/-- log after normal return -/
def LogR (q : Prop) (g g' : Log) : Prop := g'.fails = g.fails ∧ g.reqs ≤ g'.reqs ∧ (q → g' = g)
/-- log after an exception -/
def LogX (e : Exn) (q : Prop) (g g' : Log) : Prop :=
  (e = .alloc → g'.fails = g.fails + 1) ∧ (e ≠ .alloc → g'.fails = g.fails) ∧ (q → g' = g)

theorem LogR.refl {q : Prop} : LogR q g g := ⟨rfl, Nat.le_refl _, fun _ => rfl⟩
theorem LogR.add {q : Prop} {n : Nat} (h : ¬ q) : LogR q g { g with reqs := g.reqs + n } :=
  ⟨rfl, Nat.le_add_right _ _, fun h' => absurd h' h⟩
theorem LogX.of {q : Prop} {T : α → Prop} {g' : Log} {vs : List α} {e : Exn} (h : Thrown T g g' vs e) (hq : ¬ q) :
    LogX e q g g' := by
  rcases h with ⟨rfl, h⟩ | ⟨rfl, h, -⟩
  · exact ⟨fun _ => h, fun h => absurd rfl h, fun h' => absurd h' hq⟩
  · exact ⟨(nomatch ·), fun _ => h, fun h' => absurd h' hq⟩
theorem LogX.alloc {q : Prop} {g' : Log} (h : g'.fails = g.fails + 1) (hq : ¬ q) :
    LogX .alloc q g g' := ⟨fun _ => h, fun h => absurd rfl h, fun h' => absurd h' hq⟩
theorem Thrown.blame {g' : Log} {vs : List α} {e : Exn} (h : Thrown (CopyThrows E) g g' vs e) : Blame E vs e := by
  rcases h with ⟨rfl, -⟩ | ⟨rfl, -, h⟩
  · exact .inl rfl
  · exact .inr ⟨rfl, h⟩

section
variable {x : M α Iter} {Q : Iter → Mem α → Prop} {T : Exn → Mem α → Prop} {R : Ret α → Mem α → Prop}

theorem Spec.pos' (h : Spec x m Q T) (k : ∀ it m', Q it m' → R (.pos it.pos) m') : Spec (Un.pos x) m R T :=
  h.bind fun _ _ hq => Spec.pure (k _ _ hq)
theorem Spec.unit' {y : M α β} {Q : β → Mem α → Prop} (h : Spec y m Q T) (k : ∀ v m', Q v m' → R .unit m') :
    Spec (Un.unit y) m R T := h.bind fun _ _ hq => Spec.pure (k _ _ hq)
theorem Spec.val' {y : M α α} {Q : α → Mem α → Prop} (h : Spec y m Q T) (k : ∀ v m', Q v m' → R (.val v) m') :
    Spec (Un.val y) m R T := h.bind fun _ _ hq => Spec.pure (k _ _ hq)
theorem Spec.num' {y : M α Nat} {Q : Nat → Mem α → Prop} (h : Spec y m Q T) (k : ∀ v m', Q v m' → R (.num v) m') :
    Spec (Un.num y) m R T := h.bind fun _ _ hq => Spec.pure (k _ _ hq)
theorem Spec.flag' {y : M α Bool} {Q : Bool → Mem α → Prop} (h : Spec y m Q T)
    (k : ∀ v m', Q v m' → R (.flag v) m') : Spec (Un.flag y) m R T := h.bind fun _ _ hq => Spec.pure (k _ _ hq)

/-- forgetting a result -/
theorem Spec.drop {y : M α β} {Q : β → Mem α → Prop} (h : Spec y m Q T) :
    Spec (y >>= fun _ => Pure.pure ()) m (fun _ m' => ∃ v, Q v m') T := h.bind fun v _ h => Spec.pure ⟨v, h⟩
/-- exact outcome -/
theorem Spec.of {y : M α β} {v : β} {m' : Mem α} (e : y m = .ok v m') {T : Exn → Mem α → Prop} :
    Spec y m (fun u m1 => u = v ∧ m1 = m') T := Spec.ok e ⟨rfl, rfl⟩
end

theorem uniqGo_eq {p : α → α → Bool} (xs : List α) : ∀ last, uniqGo p last xs = dropDups.go p last xs := by
  induction xs with
  | nil => intro; rfl
  | cons y ys ih => intro last; simp only [uniqGo, dropDups.go, ih]
theorem uniq_eq {p : α → α → Bool} {xs : List α} : uniq p xs = dropDups p xs := by
  cases xs with
  | nil => rfl
  | cons x xs => simp only [uniq, dropDups, uniqGo_eq]
theorem eqList_eq {f : α → α → Bool} {xs : List α} : ∀ {ys : List α}, eqList f xs ys = allEq f xs ys := by
  induction xs with
  | nil => intro ys; cases ys <;> rfl
  | cons x xs ih => intro ys; cases ys <;> simp [eqList, allEq, ih]
theorem ltList_eq {f : α → α → Bool} {xs : List α} : ∀ {ys : List α}, ltList f xs ys = lexLt f xs ys := by
  induction xs with
  | nil => intro ys; cases ys <;> rfl
  | cons x xs ih => intro ys; cases ys <;> simp [ltList, lexLt, ih]

section
variable {o al i j : Nat} {s : St α} {it : Iter}

/-! ### Reading -/

theorem at_c (hs : s.Ok E) (hi : i < s.elems.length) (H : Holds g (cont E o al s + F) m) :
    at_ E o i m = .ok s.elems[i] m := by
  obtain ⟨it, ha⟩ := St.At.exists hs (Nat.le_of_lt hi)
  unfold at_
  rw [bind_ok (getSize_c H), if_neg (by omega), bind_ok (find_index_c hs ha hi H)]
  exact dereference_c hs ha hi H

theorem at_range_c (hi : s.elems.length ≤ i) (H : Holds g (cont E o al s + F) m) :
    at_ E o i m = .throw .range m := by
  unfold at_
  rw [bind_ok (getSize_c H), if_pos (by omega)]; rfl

theorem index_op_c (hs : s.Ok E) (hi : i < s.elems.length) (H : Holds g (cont E o al s + F) m) :
    index_op E o i m = .ok s.elems[i] m := by
  obtain ⟨it, ha⟩ := St.At.exists hs (Nat.le_of_lt hi)
  unfold index_op
  rw [bind_ok (find_index_c hs ha hi H)]
  exact dereference_c hs ha hi H

theorem front_c (hs : s.Ok E) (hn : s.elems ≠ []) (H : Holds g (cont E o al s + F) m) :
    front E o m = .ok (s.elems.head hn) m := by
  have hl := List.length_pos_iff.2 hn
  obtain ⟨it, ha⟩ := St.At.exists hs (Nat.zero_le _)
  unfold front
  rw [bind_ok (find_first_c hs ha H), dereference_c hs ha hl H, List.head_eq_getElem]

theorem back_c (hs : s.Ok E) (hn : s.elems ≠ []) (H : Holds g (cont E o al s + F) m) :
    back E o m = .ok (s.elems.getLast hn) m := by
  have hl := List.length_pos_iff.2 hn
  obtain ⟨it, ha⟩ := St.At.exists hs (by omega : s.elems.length - 1 ≤ _)
  unfold back
  rw [bind_ok (find_last_c hs ha hl H), dereference_c hs ha (by omega) H, List.getLast_eq_getElem]

theorem get_allocator_c (H : Holds g (cont E o al s + F) m) : get_allocator o m = .ok al m := by
  unfold get_allocator
  rw [bind_ok (rdObj_c H), St.obj_al]; rfl

theorem nth_any_c (hs : s.Ok E) (H : Holds g (cont E o al s + F) m) :
    ∃ it, nth E o i m = .ok it m ∧ s.At (min i s.elems.length) it := by
  obtain ⟨it, ha⟩ := St.At.exists hs (Nat.min_le_right i s.elems.length)
  refine ⟨it, ?_, ha⟩
  by_cases h : i ≤ s.elems.length
  · rw [Nat.min_eq_left h] at ha; exact nth_c hs ha H
  · rw [Nat.min_eq_right (by omega)] at ha; exact nth_ge_c hs ha (by omega) H

theorem index_set_c {v : α} (hs : s.Ok E) (hi : i < s.elems.length) (H : Holds g (cont E o al s + F) m) :
    Spec (index_set E o i v) m
      (fun _ m' => ∃ s', Rew E s s' (s.elems.set i v) ∧ Holds g (cont E o al s' + F) m')
      (fun e m' => e = .elem ∧ CopyThrows E v ∧ Ticked m m') := by
  obtain ⟨it, ha⟩ := St.At.exists hs (Nat.le_of_lt hi)
  unfold index_set copyAssign
  refine Spec.step (find_index_c hs ha hi H) ?_
  refine ((Mk.copy v).spec.mono (fun _ _ h => h) ?_).bind ?_
  · rintro e m' ⟨rfl, ht, h⟩; exact ⟨rfl, h, ht⟩
  · rintro u m1 ⟨rfl, ht⟩
    obtain ⟨m', s', e, hr, H'⟩ := wrElem_r u hs ha hi (ht.holds H)
    exact Spec.ok e ⟨s', hr, H'⟩

theorem deref_set_c {v : α} (hs : s.Ok E) (ha : s.At i it) (hi : i < s.elems.length)
    (H : Holds g (cont E o al s + F) m) :
    Spec (deref_set E it v) m
      (fun _ m' => ∃ s', Rew E s s' (s.elems.set i v) ∧ Holds g (cont E o al s' + F) m')
      (fun e m' => e = .elem ∧ CopyThrows E v ∧ Ticked m m') := by
  unfold deref_set copyAssign
  refine ((Mk.copy v).spec.mono (fun _ _ h => h) ?_).bind ?_
  · rintro e m' ⟨rfl, ht, h⟩; exact ⟨rfl, h, ht⟩
  · rintro u m1 ⟨rfl, ht⟩
    obtain ⟨m', s', e, hr, H'⟩ := wrElem_r u hs ha hi (ht.holds H)
    exact Spec.ok e ⟨s', hr, H'⟩

theorem deref_set_rv_c {v : α} (hE : E.Good) (hs : s.Ok E) (ha : s.At i it) (hi : i < s.elems.length)
    (H : Holds g (cont E o al s + F) m) :
    ∃ m' s', deref_set_rv E it v m = .ok () m' ∧ Rew E s s' (s.elems.set i v) ∧ Holds g (cont E o al s' + F) m' := by
  obtain ⟨m', s', e, hr, H'⟩ := wrElem_r v hs ha hi H
  refine ⟨m', s', ?_, hr, H'⟩
  unfold deref_set_rv assign_segment
  rw [if_neg (by rw [hE.throws]; decide)]
  exact e

theorem insert_alias_c {jt : Iter} (hs : s.Ok E) (hj : s.At j jt)
    (hjl : j < s.elems.length) (H : Holds g (cont E o al s + F) m) :
    insert_alias E o it jt m = emplace_single E o it (copyVal E s.elems[j]) m := by
  unfold insert_alias emplace_single
  rw [bind_assoc, bind_ok (dereference_c hs hj hjl H)]

end

theorem max_lt {n : Nat} (hE : E.Good) (h : n ≤ max_size E) : n < E.W := by
  have := hE.wpos
  unfold max_size at h; omega

/-! ### Calls on one container -/

theorem un_c {o al : Nat} {s : St α} (hE : E.Good) (c : Un α) (hs : s.Ok E) (hp : c.Pre E ⟨al, s.elems⟩)
    (H : Holds g (cont E o al s + F) m) :
    Spec (c.run E o) m
      (fun r m' => ∃ s' g', s'.Ok E ∧ c.Ok ⟨al, s.elems⟩ r ⟨al, s'.elems⟩ ∧ LogR c.Quiet g g' ∧
        Holds g' (cont E o al s' + F) m')
      (fun e m' => ∃ s' g', s'.Ok E ∧ c.Exc E ⟨al, s.elems⟩ e ⟨al, s'.elems⟩ ∧ LogX e c.Quiet g g' ∧
        Holds g' (cont E o al s' + F) m') := by
  have same : ∀ {r : Ret α} {m' : Mem α}, c.Ok ⟨al, s.elems⟩ r ⟨al, s.elems⟩ → m' = m →
      ∃ s' g', s'.Ok E ∧ c.Ok ⟨al, s.elems⟩ r ⟨al, s'.elems⟩ ∧ LogR c.Quiet g g' ∧
        Holds g' (cont E o al s' + F) m' := fun h e => ⟨s, g, hs, h, LogR.refl, e ▸ H⟩
  have rew : ∀ {r : Ret α} {m' : Mem α} {s' : St α}, s'.Ok E → c.Ok ⟨al, s.elems⟩ r ⟨al, s'.elems⟩ →
      Holds g (cont E o al s' + F) m' →
      ∃ s' g', s'.Ok E ∧ c.Ok ⟨al, s.elems⟩ r ⟨al, s'.elems⟩ ∧ LogR c.Quiet g g' ∧
        Holds g' (cont E o al s' + F) m' := fun h1 h2 h3 => ⟨_, g, h1, h2, LogR.refl, h3⟩
  obtain ⟨fi, hfi⟩ := St.At.exists hs (Nat.zero_le _)
  obtain ⟨en, hen⟩ := St.At.exists hs (Nat.le_refl _)
  cases c with
  | size => exact (Spec.of (getSize_c H)).num' (by rintro _ _ ⟨rfl, rfl⟩; exact same ⟨rfl, rfl⟩ rfl)
  | empty =>
    have e : empty o m = .ok (decide (s.elems.length = 0)) m := by
      unfold empty; rw [bind_ok (getSize_c H)]; rfl
    exact (Spec.of e).flag' (by rintro _ _ ⟨rfl, rfl⟩; exact same ⟨rfl, rfl⟩ rfl)
  | getAlloc => exact (Spec.of (get_allocator_c H)).num' (by rintro _ _ ⟨rfl, rfl⟩; exact same ⟨rfl, rfl⟩ rfl)
  | at_ i =>
    by_cases hi : i < s.elems.length
    · exact (Spec.of (at_c hs hi H)).val' (by rintro _ _ ⟨rfl, rfl⟩; exact same ⟨⟨hi, rfl⟩, rfl⟩ rfl)
    · exact Spec.thr (bind_throw (at_range_c (by omega) H))
        ⟨s, g, hs, ⟨rfl, by simpa using Nat.le_of_not_lt hi, rfl⟩,
          ⟨by simp, by simp, fun _ => rfl⟩, H⟩
  | index i => exact (Spec.of (index_op_c hs hp H)).val' (by rintro _ _ ⟨rfl, rfl⟩; exact same ⟨⟨hp, rfl⟩, rfl⟩ rfl)
  | front => exact (Spec.of (front_c hs hp H)).val' (by rintro _ _ ⟨rfl, rfl⟩; exact same ⟨⟨hp, rfl⟩, rfl⟩ rfl)
  | back => exact (Spec.of (back_c hs hp H)).val' (by rintro _ _ ⟨rfl, rfl⟩; exact same ⟨⟨hp, rfl⟩, rfl⟩ rfl)
  | set i v =>
    refine ((index_set_c hs hp H).mono (fun _ _ h => h) ?_).unit' ?_
    · rintro e m' ⟨rfl, h, ht⟩
      exact ⟨s, g, hs, ⟨rfl, h, rfl⟩, ⟨by simp, by simp, fun _ => rfl⟩, ht.holds H⟩
    · rintro _ m' ⟨s', hr, H'⟩
      exact rew hr.ok ⟨rfl, by rw [hr.elems]⟩ H'
  | setIt i v =>
    obtain ⟨it, ha⟩ := St.At.exists hs (Nat.le_of_lt hp)
    refine Spec.unit' (Spec.step (nth_c hs ha H) ((deref_set_c hs ha hp H).mono (fun _ _ h => h) ?_)) ?_
    · rintro e m' ⟨rfl, h, ht⟩
      exact ⟨s, g, hs, ⟨rfl, h, rfl⟩, ⟨by simp, by simp, fun _ => rfl⟩, ht.holds H⟩
    · rintro _ m' ⟨s', hr, H'⟩
      exact rew hr.ok ⟨rfl, by rw [hr.elems]⟩ H'
  | setRv i v =>
    obtain ⟨it, ha⟩ := St.At.exists hs (Nat.le_of_lt hp)
    obtain ⟨m', s', e, hr, H'⟩ := deref_set_rv_c (v := v) hE hs ha hp H
    refine Spec.unit' (Spec.step (nth_c hs ha H) (Spec.of e)) ?_
    rintro _ _ ⟨-, rfl⟩
    exact rew hr.ok ⟨rfl, by rw [hr.elems]⟩ H'
  | nth i =>
    obtain ⟨it, e, ha⟩ := nth_any_c (i := i) hs H
    exact (Spec.of e).pos' (by rintro _ _ ⟨rfl, rfl⟩; exact same ⟨by rw [ha.pos], rfl⟩ rfl)
  | begin_ =>
    exact (Spec.of (find_first_c hs hfi H)).pos' (by rintro _ _ ⟨rfl, rfl⟩; exact same ⟨by rw [hfi.pos], rfl⟩ rfl)
  | end_ =>
    exact (Spec.of (find_end_c hs hen H)).pos' (by rintro _ _ ⟨rfl, rfl⟩; exact same ⟨by rw [hen.pos], rfl⟩ rfl)
  | penultimate =>
    have hl := List.length_pos_iff.2 hp
    obtain ⟨it, ha⟩ := St.At.exists hs (by omega : s.elems.length - 1 ≤ _)
    exact (Spec.of (find_last_c hs ha hl H)).pos' (by rintro _ _ ⟨rfl, rfl⟩; exact same ⟨by rw [ha.pos], rfl⟩ rfl)
  | insert i v =>
    obtain ⟨hi, hW⟩ := hp
    obtain ⟨it, ha⟩ := St.At.exists hs hi
    refine Spec.pos' (Spec.step (nth_c hs ha H)
      ((emplace_single_c hE (Mk.copy v) hs ha (max_lt hE hW) H).mono (fun _ _ h => h) ?_)) ?_
    · rintro e m' ⟨-, g', ht, -, H'⟩
      exact ⟨s, g', hs, ⟨ht.blame, rfl⟩, LogX.of ht id, H'⟩
    · rintro it' m' ⟨s', n, h1, h2, h3, -, H'⟩
      exact ⟨s', _, h1, ⟨by rw [h3.pos], by rw [h2]; rfl⟩, LogR.add id, H'⟩
  | insertRv i v =>
    obtain ⟨hi, hW⟩ := hp
    obtain ⟨it, ha⟩ := St.At.exists hs hi
    refine Spec.pos' (Spec.step (nth_c hs ha H)
      ((emplace_single_c (T := fun _ => False) hE (Mk.pure v) hs ha (max_lt hE hW) H).mono (fun _ _ h => h) ?_)) ?_
    · rintro e m' ⟨-, g', ht, -, H'⟩
      exact ⟨s, g', hs, ⟨ht.alloc.1, rfl⟩, LogX.of ht id, H'⟩
    · rintro it' m' ⟨s', n, h1, h2, h3, -, H'⟩
      exact ⟨s', _, h1, ⟨by rw [h3.pos], by rw [h2]; rfl⟩, LogR.add id, H'⟩
  | insertSelf i j =>
    obtain ⟨hi, hj, hW⟩ := hp
    obtain ⟨it, ha⟩ := St.At.exists hs hi
    obtain ⟨jt, hb⟩ := St.At.exists hs (Nat.le_of_lt hj)
    refine Spec.pos' (Spec.step (nth_c hs ha H) (Spec.step (nth_c hs hb H)
      (Spec.congr (insert_alias_c hs hb hj H)
        ((emplace_single_c hE (Mk.copy _) hs ha (max_lt hE hW) H).mono (fun _ _ h => h) ?_)))) ?_
    · rintro e m' ⟨-, g', ht, -, H'⟩
      exact ⟨s, g', hs, ⟨⟨hj, ht.blame⟩, rfl⟩, LogX.of ht id, H'⟩
    · rintro it' m' ⟨s', n, h1, h2, h3, -, H'⟩
      exact ⟨s', _, h1, ⟨by rw [h3.pos], hj, by rw [h2]; rfl⟩, LogR.add id, H'⟩
  | insertFill i n v =>
    obtain ⟨hi, hW⟩ := hp
    obtain ⟨it, ha⟩ := St.At.exists hs hi
    refine Spec.pos' (Spec.step (nth_c hs ha H)
      ((emplace_count_c hE (Mk.copy v) hs ha (max_lt hE hW) H).mono (fun _ _ h => h) ?_)) ?_
    · rintro e m' ⟨s', g', k, hk, h1, h2, ht, H'⟩
      exact ⟨s', g', h1, ⟨ht.blame, k, hk, by rw [h2]; rfl⟩, LogX.of ht id, H'⟩
    · rintro it' m' ⟨s', r, h1, h2, h3, H'⟩
      exact ⟨s', _, h1, ⟨by rw [h3.pos], by rw [h2]; rfl⟩, LogR.add id, H'⟩
  | insertList i vs =>
    obtain ⟨hi, hW⟩ := hp
    obtain ⟨it, ha⟩ := St.At.exists hs hi
    refine Spec.pos' (Spec.step (nth_c hs ha H)
      ((emplace_range_c (X := 0) (vs := vs) hE listSrc_ok hs ha ⟨rfl, rfl⟩ (max_lt hE hW) (by simpa using H)).mono
        (fun _ _ h => h) ?_)) ?_
    · rintro e m' ⟨s', X', g', k, hk, h1, h2, ⟨st, v, ws, -, hX⟩, ht, H'⟩
      have hX : X' = 0 := by rcases hX with hX | hX <;> exact hX.2.2
      subst hX
      exact ⟨s', g', h1, ⟨ht.blame, k, hk, by rw [h2]; rfl⟩, LogX.of ht id, by simpa using H'⟩
    · rintro it' m' ⟨s', X', st, r, h1, h2, h3, ⟨-, rfl⟩, H'⟩
      exact ⟨s', _, h1, ⟨by rw [h3.pos], by rw [h2]; rfl⟩, LogR.add id, by simpa using H'⟩
  | pushBack v =>
    refine Spec.unit' (Spec.step (find_end_c hs hen H)
      (((emplace_single_c hE (Mk.copy v) hs hen (max_lt hE hp) H).mono (fun _ _ h => h) ?_).drop)) ?_
    · rintro e m' ⟨-, g', ht, -, H'⟩
      exact ⟨s, g', hs, ⟨ht.blame, rfl⟩, LogX.of ht id, H'⟩
    · rintro _ m' ⟨it', s', n, h1, h2, h3, -, H'⟩
      exact ⟨s', _, h1, ⟨rfl, by rw [h2]; simp⟩, LogR.add id, H'⟩
  | pushFront v =>
    refine Spec.unit' (Spec.step (find_first_c hs hfi H)
      (((emplace_single_c hE (Mk.copy v) hs hfi (max_lt hE hp) H).mono (fun _ _ h => h) ?_).drop)) ?_
    · rintro e m' ⟨-, g', ht, -, H'⟩
      exact ⟨s, g', hs, ⟨ht.blame, rfl⟩, LogX.of ht id, H'⟩
    · rintro _ m' ⟨it', s', n, h1, h2, h3, -, H'⟩
      exact ⟨s', _, h1, ⟨rfl, by rw [h2]; simp⟩, LogR.add id, H'⟩
  | pushBackRv v =>
    refine Spec.unit' (Spec.step (find_end_c hs hen H)
      (((emplace_single_c (T := fun _ => False) hE (Mk.pure v) hs hen (max_lt hE hp) H).mono (fun _ _ h => h) ?_).drop)) ?_
    · rintro e m' ⟨-, g', ht, -, H'⟩
      exact ⟨s, g', hs, ⟨ht.alloc.1, rfl⟩, LogX.of ht id, H'⟩
    · rintro _ m' ⟨it', s', n, h1, h2, h3, -, H'⟩
      exact ⟨s', _, h1, ⟨rfl, by rw [h2]; simp⟩, LogR.add id, H'⟩
  | pushFrontRv v =>
    refine Spec.unit' (Spec.step (find_first_c hs hfi H)
      (((emplace_single_c (T := fun _ => False) hE (Mk.pure v) hs hfi (max_lt hE hp) H).mono (fun _ _ h => h) ?_).drop)) ?_
    · rintro e m' ⟨-, g', ht, -, H'⟩
      exact ⟨s, g', hs, ⟨ht.alloc.1, rfl⟩, LogX.of ht id, H'⟩
    · rintro _ m' ⟨it', s', n, h1, h2, h3, -, H'⟩
      exact ⟨s', _, h1, ⟨rfl, by rw [h2]; simp⟩, LogR.add id, H'⟩
  | erase i =>
    obtain ⟨it, ha⟩ := St.At.exists hs (Nat.le_of_lt hp)
    refine Spec.pos' (Spec.step (nth_c hs ha H)
      ((erase_single_c hE hs ha hp H).mono (fun _ _ h => h) (fun _ _ h => h.elim))) ?_
    rintro it' m' ⟨s', h1, h2, h3, H'⟩
    exact rew h1 ⟨by rw [h3.pos], by rw [h2]⟩ H'
  | eraseRange i j =>
    obtain ⟨hij, hj⟩ := hp
    obtain ⟨it, ha⟩ := St.At.exists hs (Nat.le_trans hij hj)
    obtain ⟨jt, hb⟩ := St.At.exists hs hj
    refine Spec.pos' (Spec.step (nth_c hs ha H) (Spec.step (nth_c hs hb H)
      ((erase_range_c hE (j - i) hs ha.pos hb (by omega) H).mono (fun _ _ h => h) (fun _ _ h => h.elim)))) ?_
    rintro it' m' ⟨s', h1, h2, h3, H'⟩
    exact rew h1 ⟨by rw [h3.pos], by rw [h2]⟩ H'
  | popBack =>
    have hl : 0 < s.elems.length := List.length_pos_iff.2 hp
    obtain ⟨it, ha⟩ := St.At.exists hs (by omega : s.elems.length - 1 ≤ _)
    refine Spec.unit' (Spec.step (find_last_c hs ha hl H)
      (((erase_single_c hE hs ha (by omega) H).mono (fun _ _ h => h) (fun _ _ h => h.elim)).drop)) ?_
    rintro _ m' ⟨it', s', h1, h2, h3, H'⟩
    exact rew h1 ⟨rfl, by rw [h2]; simp⟩ H'
  | popFront =>
    have hl : 0 < s.elems.length := List.length_pos_iff.2 hp
    refine Spec.unit' (Spec.step (find_first_c hs hfi H)
      (((erase_single_c hE hs hfi hl H).mono (fun _ _ h => h) (fun _ _ h => h.elim)).drop)) ?_
    rintro _ m' ⟨it', s', h1, h2, h3, H'⟩
    exact rew h1 ⟨rfl, by rw [h2]; simp⟩ H'
  | resize n v =>
    refine Spec.unit' ((resize_count_c hE (Mk.copy v) hs (max_lt hE hp) H).mono (fun _ _ h => h) ?_) ?_
    · rintro e m' ⟨s', g', k, hk, h1, h2, ht, H'⟩
      exact ⟨s', g', h1, ⟨ht.blame, k, hk, by rw [h2]⟩, LogX.of ht id, H'⟩
    · rintro _ m' ⟨s', r, h1, h2, H'⟩
      exact ⟨s', _, h1, ⟨rfl, by rw [h2]⟩, LogR.add id, H'⟩
  | clear =>
    obtain ⟨m', e, H'⟩ := clear_c hs hp H
    refine (Spec.of e).unit' ?_
    rintro _ _ ⟨-, rfl⟩
    exact rew (St.Ok.nil hE.wpos) ⟨rfl, rfl⟩ H'
  | assignFill n v =>
    refine Spec.unit' ((assign_count_c hE hs (max_lt hE hp) H).mono (fun _ _ h => h) ?_) ?_
    · rintro e m' ⟨s', g', k, hk, h1, h2, ht, H'⟩
      exact ⟨s', g', h1, ⟨ht.blame, k, hk, by rw [h2]⟩, LogX.of ht id, H'⟩
    · rintro _ m' ⟨s', r, h1, h2, H'⟩
      exact ⟨s', _, h1, ⟨rfl, by rw [h2]⟩, LogR.add id, H'⟩
  | assignList vs =>
    refine Spec.unit' ((assign_range_c (X := 0) (vs := vs) hE listSrc_ok hs ⟨rfl, rfl⟩ (max_lt hE hp)
      (by simpa using H)).mono (fun _ _ h => h) ?_) ?_
    · rintro e m' ⟨s', X', g', k, hk, h1, h2, ⟨st, v, ws, -, hX⟩, ht, H'⟩
      have hX : X' = 0 := by rcases hX with hX | hX <;> exact hX.2.2
      subst hX
      exact ⟨s', g', h1, ⟨ht.blame, k, hk, by rw [h2]⟩, LogX.of ht id, by simpa using H'⟩
    · rintro _ m' ⟨s', X', st, r, h1, h2, ⟨-, rfl⟩, H'⟩
      exact ⟨s', _, h1, ⟨rfl, by rw [h2]⟩, LogR.add id, by simpa using H'⟩
  | removeIf p =>
    refine Spec.unit' ((remove_if_c hE hs H).mono (fun _ _ h => h) (fun _ _ h => h.elim)) ?_
    rintro _ m' ⟨s', h1, h2, H'⟩
    exact rew h1 ⟨rfl, by rw [h2]⟩ H'
  | remove eq v =>
    refine Spec.unit' ((remove_if_c (p := fun x => eq x v) hE hs H).mono (fun _ _ h => h) (fun _ _ h => h.elim)) ?_
    rintro _ m' ⟨s', h1, h2, H'⟩
    exact rew h1 ⟨rfl, by rw [h2]⟩ H'
  | unique p =>
    refine Spec.unit' ((unique_c hE hs H).mono (fun _ _ h => h) (fun _ _ h => h.elim)) ?_
    rintro _ m' ⟨s', h1, h2, H'⟩
    exact rew h1 ⟨rfl, by rw [h2, uniq_eq]⟩ H'
  | reverse =>
    obtain ⟨m', s', e, hr, H'⟩ := reverse_c hE hs H
    refine (Spec.of e).unit' ?_
    rintro _ _ ⟨-, rfl⟩
    exact rew hr.ok ⟨rfl, by rw [hr.elems]⟩ H'
  | sort comp =>
    obtain ⟨m', s', e, hr, H'⟩ := sort_c (comp := comp) hs H
    refine (Spec.of e).unit' ?_
    rintro _ _ ⟨-, rfl⟩
    exact rew hr.ok ⟨rfl, by rw [hr.elems]⟩ H'
  | selfAssign =>
    exact (Spec.of assign_copy_self).unit' (by rintro _ _ ⟨-, rfl⟩; exact same ⟨rfl, rfl⟩ rfl)
  | selfMove =>
    obtain ⟨m', e, H'⟩ := assign_move_self_c hs hp H
    refine (Spec.of e).unit' ?_
    rintro _ _ ⟨-, rfl⟩
    exact rew (St.Ok.nil hE.wpos) ⟨rfl, rfl⟩ H'
  | selfSwap =>
    obtain ⟨m', e, H'⟩ := swap_self_c H
    refine (Spec.of e).unit' ?_
    rintro _ _ ⟨-, rfl⟩
    exact rew hs ⟨rfl, rfl⟩ H'

end SegTree
