/-
  Specifications of the operations on element slots.
-/
import Verif.Proof.Prim
import Verif.Props.Spec
set_option autoImplicit false

namespace SegTree

variable {α : Type} {E : Env α} {g : Log} {F : Asrt α} {m : Mem α}

theorem Env.Good.throws (h : E.Good) (v : α) : E.throws v = false := by
  unfold Env.throws
  rcases h.nothrow v with h | h <;> simp [h]

def IsVal (x : Slot α) : Prop := ∃ v, x = .val v
/-- slot that may be assigned to -/
def Asgn (E : Env α) (x : Slot α) : Prop := IsVal x ∨ E.trivCopy = true

theorem SArr.nil (s : Nat → Slot α) (i : Nat) : SArr s i [] := by intro j h; simp at h

theorem SArr_cons {s : Nat → Slot α} {i : Nat} {x : α} {xs : List α} :
    SArr s i (x :: xs) ↔ s i = .val x ∧ SArr s (i + 1) xs := by
  constructor
  · intro h
    refine ⟨h 0 (by simp), ?_⟩
    intro j hj
    have := h (j + 1) (by simpa using hj)
    simpa [Nat.add_assoc, Nat.add_comm 1 j] using this
  · rintro ⟨h1, h2⟩ j hj
    cases j with
    | zero => simpa using h1
    | succ j =>
      have := h2 j (by simpa using hj)
      simpa [Nat.add_assoc, Nat.add_comm 1 j] using this

theorem SArr_append {s : Nat → Slot α} {i : Nat} {a b : List α} :
    SArr s i (a ++ b) ↔ SArr s i a ∧ SArr s (i + a.length) b := by
  induction a generalizing i with
  | nil => simp [SArr.nil]
  | cons x a ih =>
    simp only [List.cons_append, SArr_cons, ih, List.length_cons, and_assoc]
    rw [show i + 1 + a.length = i + (a.length + 1) by omega]

theorem SArr_congr {s s' : Nat → Slot α} {i : Nat} {xs : List α}
    (h : ∀ j, i ≤ j → j < i + xs.length → s' j = s j) (hr : SArr s i xs) : SArr s' i xs := by
  intro j hj
  rw [h (i + j) (by omega) (by omega)]
  exact hr j hj

theorem SArr.isVal {s : Nat → Slot α} {i j : Nat} {xs : List α} (h : SArr s i xs) (h1 : i ≤ j)
    (h2 : j < i + xs.length) : IsVal (s j) := by
  have := h (j - i) (by omega)
  rw [show i + (j - i) = j by omega] at this
  exact ⟨_, this⟩

theorem upd_same {β : Type} {s : Nat → β} {i : Nat} {v : β} : upd s i v i = v := by simp [upd]
theorem upd_ne {β : Type} {s : Nat → β} {i j : Nat} {v : β} (h : j ≠ i) : upd s i v j = s j := by
  simp [upd, h]

section
variable {p w : Nat} {s : Nat → Slot α}

theorem rdSlots_ok (H : Holds g (Sg p w s + F) m) : rdSlots p m = .ok s m := by
  obtain ⟨c, hc, rfl⟩ := Holds.get H
  simp [rdSlots, hc]

theorem wrSlots_ok (s' : Nat → Slot α) (H : Holds g (Sg p w s + F) m) :
    ∃ m', wrSlots p s' m = .ok () m' ∧ Holds g (Sg p w s' + F) m' := by
  obtain ⟨c, hc, rfl⟩ := Holds.get H
  exact ⟨_, by simp [wrSlots, hc], H.write rfl⟩

theorem rdElem_ok {i : Nat} {v : α} (hi : i < E.segMax) (hv : s i = .val v)
    (H : Holds g (Sg p w s + F) m) : rdElem E p i m = .ok v m := by
  unfold rdElem
  rw [bind_ok (rdSlots_ok H)]
  simp [hi, hv]

theorem wrElem_ok {i : Nat} (v : α) (hi : i < E.segMax) (hv : Asgn E (s i))
    (H : Holds g (Sg p w s + F) m) :
    ∃ m', wrElem E p i v m = .ok () m' ∧ Holds g (Sg p w (upd s i (.val v)) + F) m' := by
  unfold wrElem
  rw [bind_ok (rdSlots_ok H)]
  simp only [hi, if_true]
  cases h : s i with
  | val u => exact wrSlots_ok _ H
  | raw =>
    rcases hv with ⟨u, hu⟩ | ht
    · simp [h] at hu
    · simp only [ht, if_true]; exact wrSlots_ok _ H

theorem construct_segment_ok {i : Nat} (v : α) (hE : E.Good) (hi : i < E.segMax) (hv : Free E (s i))
    (H : Holds g (Sg p w s + F) m) :
    ∃ m', construct_segment E p i v m = .ok () m' ∧ Holds g (Sg p w (upd s i (.val v)) + F) m' := by
  unfold construct_segment
  simp only [hE.throws, Bool.false_eq_true, if_false]
  rw [bind_ok (rdSlots_ok H)]
  simp only [hi, if_true]
  cases h : s i with
  | raw => exact wrSlots_ok _ H
  | val u =>
    rcases hv with hu | ht
    · simp [h] at hu
    · simp only [ht, if_true]; exact wrSlots_ok _ H

theorem assign_segment_ok {i : Nat} (v : α) (hE : E.Good) (hi : i < E.segMax) (hv : Asgn E (s i))
    (H : Holds g (Sg p w s + F) m) :
    ∃ m', assign_segment E p i v m = .ok () m' ∧ Holds g (Sg p w (upd s i (.val v)) + F) m' := by
  unfold assign_segment
  simp only [hE.throws, Bool.false_eq_true, if_false]
  exact wrElem_ok v hi hv H

theorem destroy_segment_ok {i : Nat} (hi : i < E.segMax) (hv : IsVal (s i))
    (H : Holds g (Sg p w s + F) m) :
    ∃ m', destroy_segment E p i m = .ok () m' ∧ Holds g (Sg p w (upd s i .raw) + F) m' := by
  unfold destroy_segment
  rw [bind_ok (rdSlots_ok H)]
  obtain ⟨v, hv⟩ := hv
  simp only [hi, if_true, hv]
  exact wrSlots_ok _ H

theorem move_segment_same {si di : Nat} {v : α} (hE : E.Good) (hs : si < E.segMax) (hd : di < E.segMax)
    (hne : si ≠ di) (hv : s si = .val v) (hf : Free E (s di)) (H : Holds g (Sg p w s + F) m) :
    ∃ m', move_segment E p si p di m = .ok () m' ∧
      Holds g (Sg p w (upd (upd s di (.val v)) si (.val (E.moved v))) + F) m' := by
  unfold move_segment
  rw [bind_ok (rdElem_ok hs hv H)]
  obtain ⟨m1, e1, H1⟩ := construct_segment_ok v hE hd hf H
  rw [bind_ok e1]
  exact wrElem_ok _ hs (.inl ⟨v, by simp [upd, hne, hv]⟩) H1

theorem move_segment_diff {src ws : Nat} {ss : Nat → Slot α} {si di : Nat} {v : α} (hE : E.Good)
    (hs : si < E.segMax) (hd : di < E.segMax) (hv : ss si = .val v) (hf : Free E (s di))
    (H : Holds g (Sg p w s + (Sg src ws ss + F)) m) :
    ∃ m', move_segment E src si p di m = .ok () m' ∧
      Holds g (Sg p w (upd s di (.val v)) + (Sg src ws (upd ss si (.val (E.moved v))) + F)) m' := by
  unfold move_segment
  rw [bind_ok (rdElem_ok hs hv (H.eqv (by frame : _ = Sg src ws ss + _)))]
  obtain ⟨m1, e1, H1⟩ := construct_segment_ok v hE hd hf H
  rw [bind_ok e1]
  obtain ⟨m2, e2, H2⟩ := wrElem_ok (E.moved v) hs (.inl ⟨v, hv⟩) (H1.eqv (by frame : _ = Sg src ws ss + _))
  exact ⟨m2, e2, H2.eqv (by frame)⟩

theorem move_assign_segment_same {si di : Nat} {v : α} (hE : E.Good) (hs : si < E.segMax)
    (hd : di < E.segMax) (hne : si ≠ di) (hv : s si = .val v) (hf : Asgn E (s di))
    (H : Holds g (Sg p w s + F) m) :
    ∃ m', move_assign_segment E p si p di m = .ok () m' ∧
      Holds g (Sg p w (upd (upd s di (.val v)) si (.val (E.moved v))) + F) m' := by
  unfold move_assign_segment
  rw [bind_ok (rdElem_ok hs hv H)]
  obtain ⟨m1, e1, H1⟩ := assign_segment_ok v hE hd hf H
  rw [bind_ok e1]
  exact wrElem_ok _ hs (.inl ⟨v, by simp [upd, hne, hv]⟩) H1

theorem move_assign_segment_diff {src ws : Nat} {ss : Nat → Slot α} {si di : Nat} {v : α} (hE : E.Good)
    (hs : si < E.segMax) (hd : di < E.segMax) (hv : ss si = .val v) (hf : Asgn E (s di))
    (H : Holds g (Sg p w s + (Sg src ws ss + F)) m) :
    ∃ m', move_assign_segment E src si p di m = .ok () m' ∧
      Holds g (Sg p w (upd s di (.val v)) + (Sg src ws (upd ss si (.val (E.moved v))) + F)) m' := by
  unfold move_assign_segment
  rw [bind_ok (rdElem_ok hs hv (H.eqv (by frame : _ = Sg src ws ss + _)))]
  obtain ⟨m1, e1, H1⟩ := assign_segment_ok v hE hd hf H
  rw [bind_ok e1]
  obtain ⟨m2, e2, H2⟩ := wrElem_ok (E.moved v) hs (.inl ⟨v, hv⟩) (H1.eqv (by frame : _ = Sg src ws ss + _))
  exact ⟨m2, e2, H2.eqv (by frame)⟩

end

theorem allRaw_of {s : Nat → Slot α} (h : ∀ i, i < E.segMax → s i = .raw) : allRaw E s = true := by
  unfold allRaw
  rw [List.all_eq_true]
  intro i hi
  rw [h i (List.mem_range.1 hi)]

theorem deallocate_segment_ok {o p w : Nat} {x : SeqObj} {s : Nat → Slot α}
    (hw : w = E.acls x.ealloc) (hf : ∀ i, i < E.segMax → Free E (s i))
    (H : Holds g (Sg p w s + (Ob o x + F)) m) :
    ∃ m', deallocate_segment E o p m = .ok () m' ∧ Holds g (Ob o x + F) m' := by
  have e := rdObj_ok (H.eqv (by frame : _ = Ob o x + (_ + _)))
  have hp := Holds.ne0 H
  obtain ⟨c, hc, rfl⟩ := Holds.get H
  unfold deallocate_segment
  rw [bind_ok e]
  have hb : (E.trivDtor || allRaw E s) = true := by
    cases ht : E.trivDtor
    · rw [allRaw_of]; rfl
      intro i hi
      rcases hf i hi with h | h
      · exact h
      · simp [ht] at h
    · rfl
  simp only [hp, if_false]
  exact ⟨_, by simp only [freeSeg, hc, hw, ne_eq, not_true_eq_false, if_false, hb, if_true], H.free⟩

/-! ### moving a range to another segment -/

/-- outcome of moving `xs` out of `[si, si+|xs|)` of a segment -/
structure Gone (E : Env α) (ss ss' : Nat → Slot α) (si n : Nat) : Prop where
  outside : ∀ i, i < si ∨ si + n ≤ i → ss' i = ss i
  inside : ∀ i, si ≤ i → i < si + n → Free E (ss' i)

theorem range_seg_ok {p w src ws : Nat} (hE : E.Good) (xs : List α) :
    ∀ {m : Mem α} {s ss : Nat → Slot α} {si di acc : Nat},
    si + xs.length ≤ E.segMax → di + xs.length ≤ E.segMax → SArr ss si xs →
    (∀ i, di ≤ i → i < di + xs.length → Free E (s i)) →
    Holds g (Sg p w s + (Sg src ws ss + F)) m →
    ∃ m' s' ss' n, range_loop (fun f t => do
        let v ← rdElem E src f
        construct_segment E p t v
        wrElem E src f (E.moved v)
        destroy_segment E src f
        return 0) si (si + xs.length) di acc m = .ok n m' ∧
      Holds g (Sg p w s' + (Sg src ws ss' + F)) m' ∧ SArr s' di xs ∧
      (∀ i, i < di ∨ di + xs.length ≤ i → s' i = s i) ∧ Gone E ss ss' si xs.length := by
  induction xs with
  | nil =>
    intro m s ss si di acc _ _ _ _ H
    rw [range_loop]
    simp only [List.length_nil, Nat.add_zero, ne_eq, not_true_eq_false, if_false]
    exact ⟨m, s, ss, acc, rfl, H, SArr.nil _ _, fun _ _ => rfl, fun _ _ => rfl, by intros; omega⟩
  | cons x xs ih =>
    intro m s ss si di acc hs hd ha hf H
    simp only [List.length_cons] at hs hd hf
    rw [SArr_cons] at ha
    rw [range_loop, if_pos (by simp)]
    simp only [bind_assoc, pure_bind]
    rw [bind_ok (rdElem_ok (by omega) ha.1 (H.eqv (by frame : _ = Sg src ws ss + _)))]
    obtain ⟨m1, e1, H1⟩ := construct_segment_ok x hE (i := di) (by omega) (hf di (by omega) (by omega)) H
    rw [bind_ok e1]
    obtain ⟨m2, e2, H2⟩ := wrElem_ok (E := E) (i := si) (E.moved x) (by omega) (.inl ⟨x, ha.1⟩)
      (H1.eqv (by frame : _ = Sg src ws ss + _))
    rw [bind_ok e2]
    obtain ⟨m3, e3, H3⟩ := destroy_segment_ok (E := E) (i := si) (by omega) ⟨_, upd_same⟩ H2
    rw [bind_ok e3]
    obtain ⟨m4, s', ss', n, e4, H4, h1, h2, h3⟩ := ih (si := si + 1) (di := di + 1) (acc := acc + 0)
      (by omega) (by omega)
      (s := upd s di (.val x)) (ss := upd (upd ss si (.val (E.moved x))) si .raw)
      (SArr_congr (by intro j h1 h2; rw [upd_ne (by omega), upd_ne (by omega)]) ha.2)
      (by intro i h1 h2; rw [upd_ne (by omega)]; exact hf i (by omega) (by omega))
      (H3.eqv (by frame : _ = Sg p w _ + (Sg src ws _ + _)))
    refine ⟨m4, s', ss', n, ?_, H4, ?_, ?_, ?_, ?_⟩
    · rw [show si + (x :: xs).length = si + 1 + xs.length by simp; omega]; exact e4
    · rw [SArr_cons]
      exact ⟨by rw [h2 di (by omega), upd_same], h1⟩
    · intro i hi
      simp only [List.length_cons] at hi
      rw [h2 i (by omega), upd_ne (by omega)]
    · intro i hi
      simp only [List.length_cons] at hi
      rw [h3.outside i (by omega), upd_ne (by omega), upd_ne (by omega)]
    · intro i hi1 hi2
      simp only [List.length_cons] at hi2
      by_cases h : i = si
      · subst h
        rw [h3.outside i (by omega), upd_same]
        exact .inl rfl
      · exact h3.inside i (by omega) (by omega)

theorem construct_range_segment_ok {p w src ws si di n : Nat} {s ss : Nat → Slot α} (hE : E.Good)
    (xs : List α) (hn : n = xs.length)
    (hs : si + xs.length ≤ E.segMax) (hd : di + xs.length ≤ E.segMax) (ha : SArr ss si xs)
    (hf : ∀ i, di ≤ i → i < di + xs.length → Free E (s i))
    (H : Holds g (Sg p w s + (Sg src ws ss + F)) m) :
    ∃ m' s' ss', construct_range_segment E src si p di n m = .ok () m' ∧
      Holds g (Sg p w s' + (Sg src ws ss' + F)) m' ∧ SArr s' di xs ∧
      (∀ i, i < di ∨ di + xs.length ≤ i → s' i = s i) ∧ Gone E ss ss' si xs.length := by
  subst hn
  unfold construct_range_segment
  by_cases ht : (E.trivCopy && E.defConstruct) = true
  · simp only [ht, if_true]
    have htd : E.trivDtor = true := hE.triv (by simp at ht; exact ht.1)
    unfold memcpy_segment
    rw [bind_ok (rdSlots_ok (H.eqv (by frame : _ = Sg src ws ss + _))), bind_ok (rdSlots_ok H)]
    rw [if_pos (.inr ⟨hs, hd⟩)]
    obtain ⟨m1, e1, H1⟩ := wrSlots_ok (copySlots ss si s di xs.length) H
    refine ⟨m1, _, ss, e1, H1, ?_, ?_, fun _ _ => rfl, fun _ _ _ => .inr htd⟩
    · intro j hj
      simp only [copySlots]
      rw [if_pos (by omega), Nat.add_sub_cancel_left]
      exact ha j hj
    · intro i hi
      simp only [copySlots]
      rw [if_neg (by omega)]
  · simp only [ht]
    obtain ⟨m1, s', ss', n, e1, H1, h⟩ := range_seg_ok hE xs (acc := 0) hs hd ha hf H
    refine ⟨m1, s', ss', ?_, H1, h⟩
    rw [if_neg (by simp), bind_ok e1]; rfl

/-! ### shifting inside a segment -/

/-- outcome of shifting inside `[lo, hi)` -/
structure Shifted (s s' : Nat → Slot α) (lo hi : Nat) : Prop where
  outside : ∀ i, i < lo ∨ hi ≤ i → s' i = s i
  vals : ∀ i, IsVal (s i) → IsVal (s' i)

theorem forward_seg_ok {p w : Nat} (hE : E.Good) (xs : List α) :
    ∀ {m : Mem α} {s : Nat → Slot α} {i : Nat}, i + xs.length + 1 ≤ E.segMax → SArr s i xs →
    (∀ j, i < j → j ≤ i + xs.length → Asgn E (s j)) → Holds g (Sg p w s + F) m →
    ∃ m' s', forward_loop (fun f t => move_assign_segment E p f p t) i (i + xs.length)
        (i + xs.length + 1) m = .ok () m' ∧
      Holds g (Sg p w s' + F) m' ∧ SArr s' (i + 1) xs ∧ Shifted s s' i (i + xs.length + 1) := by
  induction xs using List.reverseRecOn with
  | nil =>
    intro m s i _ _ _ H
    rw [forward_loop]
    simp only [List.length_nil, Nat.add_zero, ne_eq, not_true_eq_false, if_false]
    exact ⟨m, s, rfl, H, SArr.nil _ _, fun _ _ => rfl, fun _ h => h⟩
  | append_singleton xs x ih =>
    intro m s i hs ha hf H
    simp only [List.length_append, List.length_cons, List.length_nil] at hs hf ⊢
    rw [SArr_append, SArr_cons] at ha
    rw [forward_loop, if_pos (by omega)]
    rw [bind_ok (usub_ok (by omega) m), bind_ok (usub_ok (by omega) m)]
    rw [show i + (xs.length + (0 + 1)) - 1 = i + xs.length by omega,
      show i + (xs.length + (0 + 1)) + 1 - 1 = i + xs.length + 1 by omega]
    obtain ⟨m1, e1, H1⟩ := move_assign_segment_same hE (si := i + xs.length) (di := i + xs.length + 1)
      (by omega) (by omega) (by omega) ha.2.1 (hf _ (by omega) (by omega)) H
    rw [bind_ok e1]
    obtain ⟨m2, s', e2, H2, h1, h2⟩ := ih (i := i) (by omega)
      (SArr_congr (by intro j h1 h2; rw [upd_ne (by omega), upd_ne (by omega)]) ha.1)
      (by
        intro j h1 h2
        by_cases hj : j = i + xs.length
        · subst hj; exact .inl ⟨_, upd_same⟩
        · rw [upd_ne (by omega), upd_ne (by omega)]; exact hf j (by omega) (by omega)) H1
    refine ⟨m2, s', e2, H2, ?_, ?_, ?_⟩
    · rw [SArr_append, SArr_cons]
      refine ⟨h1, ?_, SArr.nil _ _⟩
      rw [show i + 1 + xs.length = i + xs.length + 1 by omega, h2.outside _ (by omega),
        upd_ne (by omega), upd_same]
    · intro j hj
      rw [h2.outside j (by omega), upd_ne (by omega), upd_ne (by omega)]
    · intro j hj
      apply h2.vals
      simp only [upd]
      split
      · exact ⟨_, rfl⟩
      · split
        · exact ⟨_, rfl⟩
        · exact hj

theorem memmove_ok {p w si di n : Nat} {s : Nat → Slot α} (h : si + n ≤ E.segMax ∧ di + n ≤ E.segMax)
    (H : Holds g (Sg p w s + F) m) :
    ∃ m', memcpy_segment E p si p di n m = .ok () m' ∧
      Holds g (Sg p w (copySlots s si s di n) + F) m' := by
  unfold memcpy_segment
  rw [bind_ok (rdSlots_ok H), bind_ok (rdSlots_ok H), if_pos (.inr h)]
  exact wrSlots_ok _ H

theorem assign_forward_segment_ok {p w i n : Nat} {s : Nat → Slot α} (hE : E.Good) (xs : List α)
    (hn : n = i + xs.length) (hs : i + xs.length + 1 ≤ E.segMax) (ha : SArr s i xs)
    (hf : ∀ j, i < j → j ≤ i + xs.length → Asgn E (s j)) (H : Holds g (Sg p w s + F) m) :
    ∃ m' s', assign_forward_segment E p n i 1 m = .ok () m' ∧
      Holds g (Sg p w s' + F) m' ∧ SArr s' (i + 1) xs ∧ Shifted s s' i (i + xs.length + 1) := by
  subst hn
  unfold assign_forward_segment
  by_cases ht : E.trivCopy = true
  · simp only [ht, if_true]
    rw [bind_ok (usub_ok (by omega) m), Nat.add_sub_cancel_left]
    obtain ⟨m', e, H'⟩ := memmove_ok (E := E) (si := i) (di := i + 1) (n := xs.length)
      ⟨by omega, by omega⟩ H
    refine ⟨m', _, e, H', ?_, ?_, ?_⟩
    · intro j hj
      simp only [copySlots]
      rw [if_pos (by omega), show i + (i + 1 + j - (i + 1)) = i + j by omega]
      exact ha j hj
    · intro j hj
      simp only [copySlots]
      rw [if_neg (by omega)]
    · intro j hj
      simp only [copySlots]
      split
      · exact ha.isVal (by omega) (by omega)
      · exact hj
  · simp only [ht]
    rw [if_neg (by simp)]
    exact forward_seg_ok hE xs hs ha hf H

theorem backward_seg_ok {p w : Nat} (hE : E.Good) (xs : List α) :
    ∀ {m : Mem α} {s : Nat → Slot α} {i : Nat}, i + xs.length + 1 ≤ E.segMax → SArr s (i + 1) xs →
    (xs ≠ [] → Asgn E (s i)) → Holds g (Sg p w s + F) m →
    ∃ m' s', backward_loop (fun f t => move_assign_segment E p f p t) (i + 1) i (i + xs.length) m =
        .ok () m' ∧
      Holds g (Sg p w s' + F) m' ∧ SArr s' i xs ∧ Shifted s s' i (i + xs.length + 1) := by
  induction xs with
  | nil =>
    intro m s i _ _ _ H
    rw [backward_loop]
    simp only [List.length_nil, Nat.add_zero, ne_eq, not_true_eq_false, if_false]
    exact ⟨m, s, rfl, H, SArr.nil _ _, fun _ _ => rfl, fun _ h => h⟩
  | cons x xs ih =>
    intro m s i hs ha hf H
    simp only [List.length_cons] at hs ⊢
    rw [SArr_cons] at ha
    rw [backward_loop, if_pos (by omega)]
    obtain ⟨m1, e1, H1⟩ := move_assign_segment_same hE (si := i + 1) (di := i)
      (by omega) (by omega) (by omega) ha.1 (hf (by simp)) H
    rw [bind_ok e1]
    obtain ⟨m2, s', e2, H2, h1, h2⟩ := ih (i := i + 1) (by omega)
      (SArr_congr (by intro j h1 h2; rw [upd_ne (by omega), upd_ne (by omega)]) ha.2)
      (by intro _; exact .inl ⟨_, upd_same⟩) H1
    refine ⟨m2, s', ?_, H2, ?_, ?_, ?_⟩
    · rw [show i + (xs.length + 1) = i + 1 + xs.length by omega]; exact e2
    · rw [SArr_cons]
      refine ⟨?_, h1⟩
      rw [h2.outside _ (by omega), upd_ne (by omega), upd_same]
    · intro j hj
      rw [h2.outside j (by omega), upd_ne (by omega), upd_ne (by omega)]
    · intro j hj
      apply h2.vals
      simp only [upd]
      split
      · exact ⟨_, rfl⟩
      · split
        · exact ⟨_, rfl⟩
        · exact hj

theorem assign_backward_segment_ok {p w i n : Nat} {s : Nat → Slot α} (hE : E.Good) (xs : List α)
    (hn : n = i + xs.length) (hs : i + xs.length + 1 ≤ E.segMax) (ha : SArr s (i + 1) xs)
    (hf : xs ≠ [] → Asgn E (s i)) (H : Holds g (Sg p w s + F) m) :
    ∃ m' s', assign_backward_segment E p n i 1 m = .ok () m' ∧
      Holds g (Sg p w s' + F) m' ∧ SArr s' i xs ∧ Shifted s s' i (i + xs.length + 1) := by
  subst hn
  unfold assign_backward_segment
  by_cases ht : E.trivCopy = true
  · simp only [ht, if_true]
    rw [bind_ok (usub_ok (by omega) m), Nat.add_sub_cancel_left]
    obtain ⟨m', e, H'⟩ := memmove_ok (E := E) (si := i + 1) (di := i) (n := xs.length)
      ⟨by omega, by omega⟩ H
    refine ⟨m', _, e, H', ?_, ?_, ?_⟩
    · intro j hj
      simp only [copySlots]
      rw [if_pos (by omega), show i + 1 + (i + j - i) = i + 1 + j by omega]
      exact ha j hj
    · intro j hj
      simp only [copySlots]
      rw [if_neg (by omega)]
    · intro j hj
      simp only [copySlots]
      split
      · exact ha.isVal (by omega) (by omega)
      · exact hj
  · simp only [ht]
    rw [if_neg (by simp)]
    exact backward_seg_ok hE xs hs ha hf H

end SegTree
