/-
  C72: which elements a call copies, in which order, and what the containers hold
  when one of the copies throws or an allocation fails in between.
-/
import Verif.Props.Copies
set_option autoImplicit false
set_option linter.unusedVariables false
set_option synthInstance.maxSize 2000
set_option synthInstance.maxHeartbeats 400000

namespace SegTree
variable {α β : Type} {E : Env α} {o p : Nat} {m m' : Mem α}

/-! ### Specification -/

/-- the values a call copies, in this order -/
def Un.source (x : Obj α) : Un α → List α
  | .set _ v | .setIt _ v | .insert _ v | .pushBack v | .pushFront v => [v]
  | .insertSelf _ j => x.elems[j]?.toList
  | .insertFill _ n v | .assignFill n v => List.replicate n v
  | .insertList _ vs | .assignList vs => vs
  | .resize n v => List.replicate (n - x.elems.length) v
  | _ => []

def Bin.source (y : Obj α) : Bin α → List α
  | .assignCopy => y.elems
  | .spliceOne _ j => y.elems[j]?.toList
  | .insertRange _ a b | .assignRange a b => slice y.elems a b
  | _ => []

def New.source : New α → List α
  | .empty _ => []
  | .fill _ n v => List.replicate n v
  | .list _ vs => vs

def New2.source (y : Obj α) : New2 → List α
  | .copy | .copyAlloc _ => y.elems
  | .range _ a b => slice y.elems a b
  | _ => []

def Op.source (S : Bank α) : Op α → List α
  | .un o c => match S o with | some x => c.source x | none => []
  | .bin _ p c => match S p with | some y => c.source y | none => []
  | .new _ c => c.source
  | .new2 _ p c => match S p with | some y => c.source y | none => []
  | .dtor _ => []

/-- what a container holds after `k` elements have been put into it and the call
has thrown while copying or storing the next one -/
def Un.partway (x : Obj α) (k : Nat) : Un α → List α
  | .insertFill i _ v => ins x.elems i (List.replicate k v)
  | .insertList i vs => ins x.elems i (vs.take k)
  | .resize _ v => x.elems ++ List.replicate k v
  | .assignFill _ v => List.replicate k v ++ x.elems.drop k
  | .assignList vs => vs.take k ++ x.elems.drop k
  | _ => x.elems

open Classical in
noncomputable def Bin.partway (E : Env α) (x y : Obj α) (k : Nat) : Bin α → Obj α
  | .assignCopy =>
    if E.pocca = true ∧ ¬ SameAlloc E x.alloc y.alloc then ⟨y.alloc, y.elems.take k⟩
    else ⟨if E.pocca then y.alloc else x.alloc, y.elems.take k ++ x.elems.drop k⟩
  | .insertRange i a b => { x with elems := ins x.elems i ((slice y.elems a b).take k) }
  | .assignRange a b => { x with elems := (slice y.elems a b).take k ++ x.elems.drop k }
  | _ => x

noncomputable def Op.partway (E : Env α) (S : Bank α) (k : Nat) : Op α → Bank α
  | .un o c => match S o with
    | some x => upd S o (some { x with elems := c.partway x k })
    | none => S
  | .bin o p c => match S o, S p with
    | some x, some y => upd S o (some (c.partway E x y k))
    | _, _ => S
  | _ => S

/-! ### Proofs -/

/-- outcomes of a call that copies `vs` and leaves `P k` when it breaks after `k` of them -/
structure Copying (E : Env α) (vs : List α) (P : Nat → Mem α → Prop) (x : M α β) (m : Mem α) : Prop where
  ok : ∀ {r m'}, x m = .ok r m' → Copied E m m' vs
  exc : ∀ {e m'}, x m = .throw e m' → vs ≠ [] → ∃ k < vs.length, Broke E m m' vs k e ∧ P k m'

namespace Copying
variable {vs : List α} {P : Nat → Mem α → Prop}

theorem of {x : M α β} (h : Spec x m (fun _ m' => Copied E m m' vs) (fun e m' => ∃ k < vs.length, Broke E m m' vs k e ∧ P k m')) :
    Copying E vs P x m := by
  unfold Spec at h
  exact ⟨fun e => by rw [e] at h; exact h, fun e _ => by rw [e] at h; exact h⟩

theorem none {x : M α β} (hv : vs = []) [h : Traced (copyfree α) x] : Copying E vs P x m := by
  subst hv
  exact ⟨fun e => .nil (h.returns e), fun _ h => absurd rfl h⟩

theorem unit {x : M α β} (h : Spec x m (fun _ m' => Copied E m m' vs) (fun e m' => ∃ k < vs.length, Broke E m m' vs k e ∧ P k m')) :
    Copying E vs P (Un.unit x) m := of (h.bind fun _ _ h => Spec.pure h)
theorem pos {x : M α Iter} (h : Spec x m (fun _ m' => Copied E m m' vs) (fun e m' => ∃ k < vs.length, Broke E m m' vs k e ∧ P k m')) :
    Copying E vs P (Un.pos x) m := of (h.bind fun _ _ h => Spec.pure h)

theorem late' {x : M α β} {Q : Mem α → Prop} (hQ : vs ≠ [] → ∀ e m', x m = .throw e m' → Q m') (h : Copying E vs (fun _ _ => True) x m) :
    Copying E vs (fun _ => Q) x m :=
  ⟨h.ok, fun e hv => let ⟨k, h1, h2, _⟩ := h.exc e hv; ⟨k, h1, h2, hQ hv _ _ e⟩⟩
theorem late {x : M α β} {Q : Mem α → Prop} (hQ : ∀ e m', x m = .throw e m' → Q m') (h : Copying E vs (fun _ _ => True) x m) :
    Copying E vs (fun _ => Q) x m := late' (fun _ => hQ) h
end Copying

theorem wrElem_x {g : Log} {F : Asrt α} {al i : Nat} {s : St α} {it : Iter} {v : α} {P : Nat → Mem α → Prop} (ht : E.trivCopy = false)
    (hs : s.Ok E) (ha : s.At i it) (hi : i < s.elems.length)
    (hP : ∀ g' m', Holds g' (cont E o al s + F) m' → P 0 m') (H : Holds g (cont E o al s + F) m) :
    Spec (copyAssign E it.entry.seg.ptr it.entry.seg.idx v) m (fun _ m' => Copied E m m' [v])
      (fun e m' => ∃ k < [v].length, Broke E m m' [v] k e ∧ P k m') := by
  unfold copyAssign
  rcases copyVal_x ht v m with ⟨h, hc1⟩ | ⟨h, hb⟩
  · refine Spec.step h ?_
    obtain ⟨m2, s2, e2, hs2, he2, hpres, -, H2⟩ := wrElem_c v hs ha hi ((Ticked.tick m).holds H)
    exact Spec.ok e2 (hc1.to (Traced.returns (P := copyfree α) inferInstance e2))
  · exact Spec.thr (bind_throw h) ⟨0, by simp, hb, hP _ _ ((Ticked.tick m).holds H)⟩

theorem single_x {g : Log} {F : Asrt α} {al i : Nat} {s : St α} {it : Iter} {v : α} {mk : M α α} {P : Nat → Mem α → Prop}
    (hE : E.Good) (ht : E.trivCopy = false) (hm : mk m = copyVal E v m)
    (hs : s.Ok E) (ha : s.At i it) (hW : s.elems.length + 1 ≤ max_size E)
    (hP : ∀ g' m', Holds g' (cont E o al s + F) m' → P 0 m') (H : Holds g (cont E o al s + F) m) :
    Spec (emplace_single E o it mk) m (fun _ m' => Copied E m m' [v])
      (fun e m' => ∃ k < [v].length, Broke E m m' [v] k e ∧ P k m') :=
  (emplace_single_x hE ht hm hs ha (max_lt hE hW) H).mono (fun _ _ h => h.1)
    (fun e m' ⟨h, g', H'⟩ => ⟨0, by simp, h, hP _ _ H'⟩)

theorem op_outcome (hE : E.Good) (ht : E.trivCopy = false) (hr : Reach E m) {S : Bank α} (hv : View E m S) {c : Op α} (hp : c.Pre E S) :
    Copying E (c.source S) (fun k m' => View E m' (c.partway E S k)) (c.run E) m := by
  obtain ⟨S0, hI⟩ := hr.inv hE
  cases hI.view.unique hv
  obtain ⟨A, hR, H⟩ := hI
  cases c with
  | un o c =>
    obtain ⟨x, hx, hp⟩ := hp
    obtain ⟨s, F, hxe, hs, rfl, hF⟩ := hR.split hx
    obtain ⟨al, xs⟩ := x
    dsimp only at hxe H hF
    injection hxe with _ hxe
    subst hxe
    have hput : ∀ {s' : St α} {g' : Log} {m' : Mem α}, s'.Ok E → Holds g' (cont E o al s' + F) m' →
        View E m' (upd S o (some ⟨al, s'.elems⟩)) := fun h1 H' => (Inv.of (hF.put h1) H').view
    have hsame : ∀ g' m', Holds g' (cont E o al s + F) m' → View E m' (upd S o (some ⟨al, s.elems⟩)) := fun g' m' H' => hput hs H'
    simp only [Op.source, hx, Op.run, Op.partway]
    cases c with
    | set i v =>
      simp only [Un.source, Un.run, Un.partway]
      refine .unit ?_
      unfold index_set
      obtain ⟨it, ha⟩ := St.At.exists hs (Nat.le_of_lt hp)
      exact Spec.step (find_index_c hs ha hp H) (wrElem_x ht hs ha hp hsame H)
    | setIt i v =>
      simp only [Un.source, Un.run, Un.partway]
      obtain ⟨it, h1, ha⟩ := nth_any_c (i := i) hs H
      rw [Nat.min_eq_left (Nat.le_of_lt hp)] at ha
      exact .unit (Spec.step h1 (wrElem_x ht hs ha hp hsame H))
    | insert i v =>
      simp only [Un.source, Un.run, Un.partway]
      obtain ⟨it, h1, ha⟩ := nth_any_c (i := i) hs H
      rw [Nat.min_eq_left hp.1] at ha
      exact .pos (Spec.step h1 (single_x hE ht rfl hs ha hp.2 hsame H))
    | insertSelf i j =>
      obtain ⟨h1, h2, h3⟩ := hp
      simp only [Un.source, Un.run, Un.partway]
      obtain ⟨it, e1, ha⟩ := nth_any_c (i := i) hs H
      obtain ⟨jt, e2, hb⟩ := nth_any_c (i := j) hs H
      rw [Nat.min_eq_left h1] at ha
      rw [Nat.min_eq_left (Nat.le_of_lt h2)] at hb
      have hj : s.elems[j]?.toList = [s.elems[j]] := by rw [List.getElem?_eq_getElem h2]; rfl
      rw [hj]
      refine .pos (Spec.step e1 (Spec.step e2 (single_x hE ht ?_ hs ha h3 hsame H)))
      exact bind_ok (dereference_c hs hb h2 H)
    | insertFill i n v =>
      simp only [Un.source, Un.run, Un.partway]
      obtain ⟨it, h1, ha⟩ := nth_any_c (i := i) hs H
      rw [Nat.min_eq_left hp.1] at ha
      refine .pos (Spec.step h1 ((emplace_count_x hE ht hs ha (max_lt hE hp.2) H).mono (fun _ _ h => h) ?_))
      rintro e m' ⟨s', g', k, hk, hb, hs', he, H'⟩
      exact ⟨k, by simpa using hk, hb, by have := hput hs' H'; rwa [he] at this⟩
    | insertList i vs =>
      simp only [Un.source, Un.run, Un.partway]
      obtain ⟨it, h1, ha⟩ := nth_any_c (i := i) hs H
      rw [Nat.min_eq_left hp.1] at ha
      refine .pos (Spec.step h1 ((emplace_range_x hE ht listSrc_x hs ha rfl (max_lt hE hp.2) (by simpa using H)).mono (fun _ _ h => h) ?_))
      rintro e m' ⟨s', g', k, hk, hb, hs', he, H'⟩
      exact ⟨k, by simpa using hk, hb, by have := hput hs' (by simpa using H'); rwa [he] at this⟩
    | pushBack v =>
      simp only [Un.source, Un.run, Un.partway]
      obtain ⟨it, ha⟩ := St.At.exists hs (Nat.le_refl _)
      refine .unit ?_
      unfold push_back
      exact Spec.step (find_end_c hs ha H) ((single_x hE ht rfl hs ha hp hsame H).bind fun _ _ h => Spec.pure h)
    | pushFront v =>
      simp only [Un.source, Un.run, Un.partway]
      obtain ⟨it, ha⟩ := St.At.exists hs (Nat.zero_le _)
      refine .unit ?_
      unfold push_front
      exact Spec.step (find_first_c hs ha H) ((single_x hE ht rfl hs ha hp hsame H).bind fun _ _ h => Spec.pure h)
    | resize n v =>
      simp only [Un.source, Un.run, Un.partway]
      refine .unit ((resize_count_x hE ht hs (max_lt hE hp) H).mono (fun _ _ h => h) ?_)
      rintro e m' ⟨s', g', k, hk, hb, hs', he, H'⟩
      exact ⟨k, by simpa using hk, hb, by have := hput hs' H'; rwa [he] at this⟩
    | assignFill n v =>
      simp only [Un.source, Un.run, Un.partway]
      refine .unit ((assign_count_x hE ht hs (max_lt hE hp) H).mono (fun _ _ h => h) ?_)
      rintro e m' ⟨s', g', k, hk, hb, hs', he, H'⟩
      exact ⟨k, by simpa using hk, hb, by have := hput hs' H'; rwa [he] at this⟩
    | assignList vs =>
      simp only [Un.source, Un.run, Un.partway]
      refine .unit ((assign_range_x hE ht listSrc_x hs rfl (max_lt hE hp) (by simpa using H)).mono (fun _ _ h => h) ?_)
      rintro e m' ⟨s', g', k, hk, hb, hs', he, H'⟩
      exact ⟨k, by simpa using hk, hb, by have := hput hs' (by simpa using H'); rwa [he] at this⟩
    | selfAssign =>
      simp only [Un.source, Un.run]
      unfold assign_copy
      rw [if_neg (by simp)]
      exact .none rfl
    | _ => simp only [Un.source, Un.run]; exact .none rfl
  | bin o p c =>
    obtain ⟨hne, x, y, hx, hy, hp⟩ := hp
    obtain ⟨s, F1, hxe, hs, rfl, hF1⟩ := hR.split hx
    obtain ⟨s2, F, hye, hs2, rfl, hF⟩ := hF1.split (by rw [upd_ne (fun e => hne e.symm)]; exact hy)
    obtain ⟨al, xs⟩ := x
    obtain ⟨al2, ys⟩ := y
    dsimp only at hxe hye H hF hF1
    injection hxe with _ hxe
    subst hxe
    injection hye with _ hye
    subst hye
    have H2 := H.eqv (by frame : _ = cont E p al2 s2 + (cont E o al s + F))
    have hput : ∀ {al' : Nat} {s' : St α} {g' : Log} {m' : Mem α}, s'.Ok E → Holds g' (cont E o al' s' + (cont E p al2 s2 + F)) m' →
        View E m' (upd S o (some ⟨al', s'.elems⟩)) := fun h1 H' => (Inv.of (hF1.put h1) H').view
    have hsame : ∀ g' m', Holds g' (cont E o al s + (cont E p al2 s2 + F)) m' → View E m' (upd S o (some ⟨al, s.elems⟩)) :=
      fun g' m' H' => hput hs H'
    simp only [Op.source, hx, hy, Op.run, Op.partway]
    cases c with
    | assignCopy =>
      simp only [Bin.source, Bin.run, Bin.partway]
      refine .unit ((assign_copy_x hE ht hs hs2 hp H).mono (fun _ _ h => h) ?_)
      rintro e m' ⟨s', g', k, xs, hk, hb, hs', hx1, hx2, he, H'⟩
      refine ⟨k, hk, hb, ?_⟩
      have h := hput hs' H'
      rw [he] at h
      split
      · rename_i hc
        rw [hx2 hc, if_pos hc.1] at h
        simpa using h
      · rename_i hc
        rw [hx1 hc] at h
        exact h
    | spliceOne i j =>
      obtain ⟨h1, h2, h3⟩ := hp
      simp only [Bin.source, Bin.run, Bin.partway]
      obtain ⟨it, e1, ha⟩ := nth_any_c (i := i) hs H
      obtain ⟨jt, e2, hb⟩ := nth_any_c (i := j) hs2 H2
      rw [Nat.min_eq_left h1] at ha
      rw [Nat.min_eq_left (Nat.le_of_lt h2)] at hb
      have hj : s2.elems[j]?.toList = [s2.elems[j]] := by rw [List.getElem?_eq_getElem h2]; rfl
      rw [hj]
      refine .unit (Spec.step e1 (Spec.step e2 ?_))
      unfold splice_one
      have hs1 := emplace_single_x (v := s2.elems[j]) (mk := do copyVal E (← dereference E jt)) hE ht
        (bind_ok (dereference_c hs2 hb h2 H2)) hs ha (max_lt hE h3) H
      refine (hs1.mono (fun _ _ h => h) ?_).bind ?_
      · rintro e m' ⟨hb, g', H'⟩
        exact ⟨0, by simp, hb, hsame _ _ H'⟩
      · rintro it' m' ⟨hc, s', g', hs', he', -, H'⟩
        refine ((erase_single_c hE hs2 hb h2 (H'.eqv (by frame : _ = cont E p al2 s2 + (cont E o al s' + F)))).calm.mono ?_ ?_).bind
          fun _ _ h => Spec.pure h
        · rintro _ m2 ⟨-, hk⟩
          exact hc.to hk
        · rintro _ m2 ⟨h, -⟩
          exact h.elim
    | insertRange i a b =>
      obtain ⟨h1, h2, h3, h4⟩ := hp
      simp only [Bin.source, Bin.run, Bin.partway]
      dsimp only at h1 h2 h3 h4
      obtain ⟨it, e1, ha⟩ := nth_any_c (i := i) hs H
      obtain ⟨f, e2, hf⟩ := nth_any_c (i := a) hs2 H2
      obtain ⟨l, e3, hl⟩ := nth_any_c (i := b) hs2 H2
      rw [Nat.min_eq_left h1] at ha
      rw [Nat.min_eq_left (by omega)] at hf
      rw [Nat.min_eq_left h3] at hl
      have hlen : (slice s2.elems a b).length = b - a := by simp [slice]; omega
      refine .pos (Spec.step e1 (Spec.step e2 (Spec.step e3
        ((emplace_range_x hE ht (copySrc_x hs2 hl) hs ha ⟨a, hf, h2, rfl⟩ ?_ H).mono (fun _ _ h => h) ?_))))
      · have := hlen
        simp only [slice] at this
        rw [this]; exact max_lt hE h4
      · rintro e m' ⟨s', g', k, hk, hb, hs', he, H'⟩
        exact ⟨k, hk, hb, by have := hput hs' H'; rwa [he] at this⟩
    | assignRange a b =>
      obtain ⟨h2, h3⟩ := hp
      simp only [Bin.source, Bin.run, Bin.partway]
      dsimp only at h2 h3
      obtain ⟨f, e2, hf⟩ := nth_any_c (i := a) hs2 H2
      obtain ⟨l, e3, hl⟩ := nth_any_c (i := b) hs2 H2
      rw [Nat.min_eq_left (by omega)] at hf
      rw [Nat.min_eq_left h3] at hl
      have hlen : (slice s2.elems a b).length = b - a := by simp [slice]; omega
      refine .unit (Spec.step e2 (Spec.step e3
        ((assign_range_x hE ht (copySrc_x hs2 hl) hs ⟨a, hf, h2, rfl⟩ ?_ H).mono (fun _ _ h => h) ?_)))
      · have := hlen
        simp only [slice] at this
        rw [this]; have := hs2.1; omega
      · rintro e m' ⟨s', g', k, hk, hb, hs', he, H'⟩
        exact ⟨k, hk, hb, by have := hput hs' H'; rwa [he] at this⟩
    | _ => simp only [Bin.source, Bin.run]; exact .none rfl
  | new o c =>
    have hX := hr.op hE hv hp
    obtain ⟨ho, hp⟩ := hp
    have hf := H.dead (hR.dead ho)
    have hview : ∀ e m', (Op.new o c).run E m = .throw e m' → View E m' S := by
      intro e m' he
      rcases hX with ⟨r, m1, S1, h1, -⟩ | ⟨e1, m1, S1, h1, h2, h3, -⟩
      · rw [he] at h1; cases h1
      · rw [he] at h1; cases h1
        rw [h2.2] at h3; exact h3
    simp only [Op.source, Op.partway]
    cases c with
    | empty al => simp only [New.source, Op.run, New.run]; exact .none rfl
    | fill al n v =>
      refine .late hview (.unit (P := fun _ _ => True) ((ctor_count_x hE ht hp.2 (max_lt hE hp.1) hf H).mono (fun _ _ h => h) ?_))
      rintro e m' ⟨k, hk, hb⟩
      exact ⟨k, by simpa [New.source] using hk, hb, trivial⟩
    | list al vs =>
      refine .late hview (.unit (P := fun _ _ => True) ((ctor_range_x (X := 0) hE ht listSrc_x hp.2 rfl (max_lt hE hp.1) hf (by simpa using H)).mono (fun _ _ h => h) ?_))
      rintro e m' ⟨k, hk, hb⟩
      exact ⟨k, hk, hb, trivial⟩
  | new2 o p c =>
    have hX := hr.op hE hv hp
    obtain ⟨ho, y, hy, hp⟩ := hp
    have hf := H.dead (hR.dead ho)
    obtain ⟨s2, F, hye, hs2, rfl, hF⟩ := hR.split hy
    obtain ⟨al2, ys⟩ := y
    dsimp only at hye H hF
    injection hye with _ hye
    subst hye
    have hview : c.source ⟨al2, s2.elems⟩ ≠ [] → ∀ e m', (Op.new2 o p c).run E m = .throw e m' → View E m' S := by
      intro hne e m' he
      rcases hX with ⟨r, m1, S1, h1, -⟩ | ⟨e1, m1, S1, h1, ⟨y, y', hy', h2, h4⟩, h3, -⟩
      · rw [he] at h1; cases h1
      · rw [he] at h1; cases h1
        rw [hy] at hy'; cases hy'
        have : y' = ⟨al2, s2.elems⟩ := by
          cases c with
          | copy => exact h2.2
          | copyAlloc al => exact h2.2
          | range al a b => exact h2.2
          | move => exact absurd rfl hne
          | moveAlloc al => exact absurd rfl hne
        rw [h4, this, upd_id hy] at h3
        exact h3
    simp only [Op.source, hy, Op.partway]
    cases c with
    | copy =>
      refine .late' hview (.unit (P := fun _ _ => True) ?_)
      unfold ctor_copy
      refine Spec.step (rdObj_c H) ((ctor_copy_alloc_x hE ht hp hs2 hf H).mono (fun _ _ h => h) ?_)
      rintro e m' ⟨k, hk, hb⟩
      exact ⟨k, hk, hb, trivial⟩
    | copyAlloc al =>
      refine .late' hview (.unit (P := fun _ _ => True) ((ctor_copy_alloc_x hE ht hp hs2 hf H).mono (fun _ _ h => h) ?_))
      rintro e m' ⟨k, hk, hb⟩
      exact ⟨k, hk, hb, trivial⟩
    | range al a b =>
      obtain ⟨h2, h3, h4⟩ := hp
      dsimp only at h2 h3
      obtain ⟨f, e2, hf'⟩ := nth_any_c (i := a) hs2 H
      obtain ⟨l, e3, hl⟩ := nth_any_c (i := b) hs2 H
      rw [Nat.min_eq_left (by omega)] at hf'
      rw [Nat.min_eq_left h3] at hl
      refine .late' hview (.unit (P := fun _ _ => True) (Spec.step e2 (Spec.step e3
        ((ctor_range_x hE ht (copySrc_x (o2 := p) (al2 := al2) hs2 hl) h4 ⟨a, hf', h2, rfl⟩ ?_ hf H).mono (fun _ _ h => h) ?_))))
      · have := hs2.1
        simp only [List.length_drop, List.length_take]; omega
      · rintro e m' ⟨k, hk, hb⟩
        exact ⟨k, hk, hb, trivial⟩
    | _ => simp only [New2.source, Op.run, New2.run]; exact .none rfl
  | dtor o => simp only [Op.run, Op.source]; exact .none rfl

/-! ### C72 -/

/-- C72: the copies a call makes.  If it returns, it copied exactly the values of
`source`, in this order, and no copy threw.  If it throws, there is a `k` such that
the first `k` copies succeeded and one more was made; that copy threw if, and only
if, the exception is an element's (otherwise storing the element failed); and the
containers hold exactly what was there with the first `k` elements put in place. -/
theorem C72_outcome (hE : E.Good) (ht : E.trivCopy = false) (hr : Reach E m) {S : Bank α} (hv : View E m S) {c : Op α}
    (hp : c.Pre E S) :
    (∀ r m', c.run E m = .ok r m' → Copied E m m' (c.source S)) ∧
    (∀ e m', c.run E m = .throw e m' → c.source S ≠ [] →
      ∃ k < (c.source S).length, Broke E m m' (c.source S) k e ∧ View E m' (c.partway E S k)) :=
  have h := op_outcome hE ht hr hv hp
  ⟨fun _ _ => h.ok, fun _ _ => h.exc⟩

/-- C72: as many as C71 says -/
theorem C72_length {S : Bank α} {c : Op α} (hp : c.Pre E S) : (c.source S).length = c.copies S := by
  cases c with
  | un o c =>
    obtain ⟨x, hx, hp⟩ := hp
    simp only [Op.source, Op.copies, hx]
    cases c <;> simp [Un.source, Un.copies]
    exact hp.2.1
  | bin o p c =>
    obtain ⟨-, x, y, hx, hy, hp⟩ := hp
    simp only [Op.source, Op.copies, hy]
    cases c <;> simp [Bin.source, Bin.copies]
    · exact hp.2.1
    · obtain ⟨-, h1, h2, -⟩ := hp; simp [slice]; omega
    · obtain ⟨h1, h2⟩ := hp; simp [slice]; omega
  | new o c => cases c <;> simp [Op.source, Op.copies, New.source, New.copies]
  | new2 o p c =>
    obtain ⟨-, y, hy, hp⟩ := hp
    simp only [Op.source, Op.copies, hy]
    cases c <;> simp [New2.source, New2.copies]
    obtain ⟨h1, h2, -⟩ := hp; simp [slice]; omega
  | dtor o => rfl

/-- C72: a call that copies at least one element and does not run out of memory
throws if, and only if, one of these copies does according to the schedule; and the
first one that does decides what the containers hold. -/
theorem C72_decided (hE : E.Good) (ht : E.trivCopy = false) (hr : Reach E m) {S : Bank α} (hv : View E m S) {c : Op α}
    (hp : c.Pre E S) (hs : c.source S ≠ []) (ha : ∀ m', c.run E m ≠ .throw .alloc m') :
    ((∃ r m', c.run E m = .ok r m') ↔ ∀ k v, (c.source S)[k]? = some v → E.cthrow (m.ticks + k) v = false) ∧
    ∀ k v, (c.source S)[k]? = some v → E.cthrow (m.ticks + k) v = true →
      (∀ j w, j < k → (c.source S)[j]? = some w → E.cthrow (m.ticks + j) w = false) →
      ∃ m', c.run E m = .throw .elem m' ∧ View E m' (c.partway E S k) := by
  obtain ⟨h1, h2⟩ := C72_outcome hE ht hr hv hp
  rcases hr.op hE hv hp with ⟨r, m1, S1, h, -⟩ | ⟨e, m1, S1, h, -⟩
  · have hc := (h1 _ _ h).2
    refine ⟨⟨fun _ => hc, fun _ => ⟨_, _, h⟩⟩, fun k v hk ht' => ?_⟩
    rw [hc k v hk] at ht'; cases ht'
  · obtain ⟨k, hk, ⟨-, hb1, v, hb2, hb3⟩, hV⟩ := h2 _ _ h hs
    obtain ⟨hb4, rfl⟩ : E.cthrow (m.ticks + k) v = true ∧ e = .elem := by
      rcases hb3 with hb3 | ⟨-, rfl⟩
      · exact hb3
      · exact absurd h (ha _)
    refine ⟨⟨fun h' => (by obtain ⟨r, m', h'⟩ := h'; rw [h] at h'; cases h'), fun hx => ?_⟩, fun j w hj hw hf => ?_⟩
    · rw [hx k v hb2] at hb4; cases hb4
    · have : j = k := by
        rcases Nat.lt_trichotomy j k with hlt | heq | hgt
        · rw [hb1 j w hlt hj] at hw; cases hw
        · exact heq
        · rw [hf k v hgt hb2] at hb4; cases hb4
      subst this
      exact ⟨_, h, hV⟩

/-! ### The hypotheses are met -/

/-- inserting three copies of 9 while every third copy throws: the source has three
values, the third one's copy throws, memory is never short, and two are put in place -/
example : ∃ (m : Mem Nat) (S : Bank Nat), Reach flaky m ∧ View flaky m S ∧ flaky.trivCopy = false ∧
    (Op.un 0 (.insertFill 1 3 9)).Pre flaky S ∧ (Op.un 0 (.insertFill 1 3 9)).source S = [9, 9, 9] ∧
    (∀ m', (Op.un 0 (.insertFill 1 3 9)).run flaky m ≠ .throw .alloc m') ∧
    flaky.cthrow (m.ticks + 2) 9 = true ∧ (Op.un 0 (.insertFill 1 3 9)).partway flaky S 2 0 = some ⟨0, [1, 9, 9]⟩ := by
  have hr : Reach flaky (oneSeg [1]) := oneSeg_first (by go_eq) (by decide)
  obtain ⟨S, hI⟩ := hr.inv flaky_good
  have hS : S 0 = some ⟨0, [1]⟩ := by
    have hc : Contents flaky 0 (oneSeg [1]) [1] := oneSeg_contents (by decide)
    have := hI.view 0
    cases h : S 0 with
    | none => rw [h] at this; exact absurd this (size_some hc.1)
    | some x =>
      rw [h] at this
      have h1 := this.2.unique hc
      have h2 : x.alloc = 0 := by
        have h3 : get_allocator 0 (oneSeg [1]) = .ok 0 (oneSeg [1]) := rfl
        rw [this.1] at h3
        injection h3
      cases x; simp_all
  refine ⟨oneSeg [1], S, hr, hI.view, rfl, ⟨_, hS, ?_⟩, ?_, ?_, rfl, ?_⟩
  · exact ⟨by decide, by decide⟩
  · simp only [Op.source, hS]; rfl
  · intro m' h
    have h2 : (Op.un 0 (.insertFill 1 3 9)).run flaky (oneSeg [1]) = .throw .elem (oneSeg [1, 9, 9] 3) := by
      refine Eq.trans (b := .throw _ ?_) (by go_throw) ?_
      congr 1
      mem_eq
    rw [h2] at h
    cases h
  · simp only [Op.partway, hS, upd_self]; rfl

end SegTree
