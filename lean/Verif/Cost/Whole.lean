/-
  Bounds for construction, assignment of whole containers and splicing.
-/
import Verif.Cost.Bulk
set_option autoImplicit false
set_option synthInstance.maxSize 2000
set_option synthInstance.maxHeartbeats 400000

attribute [local instance] SegTree.Weights.accesses

namespace SegTree

variable {α β γ σ : Type} {E : Env α} {g : Log} {F : Asrt α} {m : Mem α} {o al i j L : Nat} {s : St α} {it : Iter}
  {T : α → Prop}

theorem CRes.le_onThrow {x : M α β} {x' : C α β} {h' : C α Unit} [hs : Sim x x'] {Q : β → Mem α → Prop}
    {T : Exn → Mem α → Prop} {a b : Nat} (hb : Spec x m Q T) (hx : (x' m).le a)
    (hh : ∀ e m', T e m' → (h' m').le b) : (C.onThrow x' h' m).le (a + b) := by
  unfold C.onThrow
  rcases hb.cases with ⟨v, m', e, -⟩ | ⟨e', m', e, ht⟩
  · obtain ⟨n, hn⟩ := hs.ok e
    rw [hn] at hx ⊢
    exact Nat.le_trans hx (Nat.le_add_right _ _)
  · obtain ⟨n, hn⟩ := hs.thrown e
    rw [hn] at hx ⊢
    have h2 := hh _ _ ht
    have hx : n ≤ a := hx
    dsimp only
    cases hh' : h' m' with
    | ok v m2 k => rw [hh'] at h2; exact Nat.add_le_add hx h2
    | throw v m2 k => rw [hh'] at h2; exact Nat.add_le_add hx h2
    | ub _ => exact trivial
    | div => exact trivial

theorem CB.steal (o o2 : Nat) : CB (Cost.steal o o2 : C α Unit) 15 := by unfold Cost.steal; cb
theorem CB.ctor_move (o o2 : Nat) : CB (Cost.ctor_move o o2 : C α Unit) 9 := by unfold Cost.ctor_move; cb
theorem CB.swap (o o2 : Nat) : CB (Cost.swap E o o2 : C α Unit) 10 := by unfold Cost.swap; cb
theorem CB.move_assign_alloc (o o2 : Nat) : CB (Cost.move_assign_alloc E o o2 : C α Unit) 3 := by
  unfold Cost.move_assign_alloc; cb

/-! ### construction -/

theorem delegating_le {body : M α Unit} {body' : C α Unit} [Sim body body'] {a n : Nat}
    (hf : m.cell (.obj o) = none) (H : Holds g F m)
    (hb : ∀ m1, Holds g (cont E o al .nil + F) m1 → Spec body m1 (fun _ _ => True)
      (fun _ m' => ∃ s' g' F', s'.Ok E ∧ s'.elems.length ≤ n ∧ Holds g' (cont E o al s' + F') m'))
    (hc : ∀ m1, Holds g (cont E o al .nil + F) m1 → (body' m1).le a) :
    (Cost.delegating E o al body' m).le (a + 13 * n + 5) := by
  unfold Cost.delegating
  obtain ⟨m1, e1, H1⟩ := ctor_c (E := E) (al := al) hf H
  refine CRes.le_step e1 ((CB.ctor o al).run m) (by omega) ?_
  refine (CRes.le_onThrow (b := 13 * n + 4) (hb m1 H1) (hc m1 H1) ?_).mono (by omega)
  rintro e m' ⟨s', g', F', hs, hl, H'⟩
  exact (dtor_le hs H').mono (by omega)

theorem ctor_count_le {v : α} {mk : M α α} {mk' : C α α} [Sim mk mk'] {c n : Nat} (hE : E.Good) (hm : Mk T v mk)
    (hc : CB mk' c) (hW : n < E.W) (hf : m.cell (.obj o) = none) (hL : lg n ≤ L) (H : Holds g F m) :
    (Cost.ctor_count E o al n mk' m).le (7 * L + (n * (c + insK E * L + 14 * L) + cntK E * L) + 13 * n + 5) := by
  unfold Cost.ctor_count
  have hnil : (St.nil : St α).Ok E := St.Ok.nil (by omega)
  obtain ⟨l, hl⟩ := St.At.exists hnil (Nat.le_refl _)
  refine delegating_le (body := do
    let it ← find_end E o
    let _ ← emplace_count E o it n mk) hf H ?_ ?_
  · intro m1 H1
    refine Spec.step (find_end_c hnil hl H1) ?_
    refine ((emplace_count_c (n := n) hE hm hnil hl (by simpa using hW) H1).mono (fun _ _ h => h) ?_).bind ?_
    · rintro e m2 ⟨s2, g2, k, hk, hs2, he, ht, H2⟩
      exact ⟨s2, g2, _, hs2, by rw [he]; simp; omega, H2⟩
    · rintro it m2 -
      exact Spec.pure trivial
  · intro m1 H1
    have h0 : lg (St.nil : St α).elems.length ≤ L := Nat.le_trans (lg_mono (Nat.zero_le _)) hL
    refine CRes.le_step (find_end_c hnil hl H1) (find_end_leL hnil h0 H1) (by omega) ?_
    refine CRes.le_bind (emplace_count_le (n := n) (L := L) hE hm hc hnil hl (by simpa using hW) (by simpa using hL) H1)
      (by omega) fun _ _ _ _ => Nat.zero_le _

section
variable {S : Src α σ} {S' : Cost.Src α σ} {R R1 : σ → List α → Asrt α → Prop} {RA : σ → Nat → Prop} [hsim : SimSrc S S']

theorem ctor_range_spec {st : σ} {vs : List α} {X : Asrt α} (hE : E.Good) (hS : SrcOk E T S R R1)
    (hR : R st vs X) (hW : vs.length < E.W) (hl : (St.nil : St α).At 0 it)
    (H : Holds g (cont E o al .nil + (X + F)) m) :
    Spec (do let _ ← emplace_range E S o it st : M α Unit) m (fun _ _ => True)
      (fun _ m' => ∃ s' g' F', s'.Ok E ∧ s'.elems.length ≤ vs.length ∧ Holds g' (cont E o al s' + F') m') := by
  have hnil : (St.nil : St α).Ok E := St.Ok.nil (by omega)
  refine ((emplace_range_c hE hS hnil hl hR (by simpa using hW) H).mono (fun _ _ h => h) ?_).bind ?_
  · rintro e m2 ⟨s2, X2, g2, k, hk, hs2, he, hX, ht, H2⟩
    exact ⟨s2, g2, _, hs2, by rw [he]; simp, H2⟩
  · rintro it m2 -
    exact Spec.pure trivial

theorem ctor_range_cost {st : σ} {vs : List α} {X : Asrt α} {a : Nat} (hE : E.Good) (hS : SrcOk E T S R R1)
    (hC : SrcCost S S' R1 RA)
    (hR : R st vs X) (hA : RA st a) (hW : vs.length < E.W) (hL : lg vs.length ≤ L) (hl : (St.nil : St α).At 0 it)
    (H : Holds g (cont E o al .nil + (X + F)) m) :
    ((do let _ ← Cost.emplace_range E S' o it st : C α Unit) m).le
      (vs.length * (insK E * L + 28 * L) + 5 * a + cntK E * L) := by
  have hnil : (St.nil : St α).Ok E := St.Ok.nil (by omega)
  exact CRes.le_bind (emplace_range_le (L := L) hE hS hC hnil hl hR hA (by simpa using hW) (by simpa using hL) H)
    (by omega) fun _ _ _ _ => Nat.zero_le _
end

/-- the cost of building a container from `n` values -/
def newCost (E : Env α) (L n : Nat) : Nat := n * (insK E * L + 28 * L) + cntK E * L + 25 * L + 13 * n + 5

theorem nil_end (it : Iter) (h : (St.nil : St α).At (St.nil : St α).elems.length it) : (St.nil : St α).At 0 it := h

theorem ctor_list_le {vs : List α} (hE : E.Good) (hW : vs.length < E.W) (hL : lg vs.length ≤ L)
    (hf : m.cell (.obj o) = none) (H : Holds g F m) :
    (Cost.ctor_range E (Cost.listSrc E) o al vs m).le (newCost E L vs.length) := by
  unfold Cost.ctor_range newCost
  have hnil : (St.nil : St α).Ok E := St.Ok.nil (by omega)
  obtain ⟨l, hl⟩ := St.At.exists hnil (Nat.le_refl _)
  have h0 : lg (St.nil : St α).elems.length ≤ L := Nat.le_trans (lg_mono (Nat.zero_le _)) hL
  refine (delegating_le (n := vs.length) (a := 7 * L + (vs.length * (insK E * L + 28 * L) + 5 * 0 + cntK E * L)) (body := do
    let it ← find_end E o
    let _ ← emplace_range E (listSrc E) o it vs) hf H ?_ ?_).mono (by omega)
  · intro m1 H1
    refine Spec.step (find_end_c hnil hl H1) ?_
    exact ctor_range_spec (X := 0) (F := F) hE listSrc_ok ⟨rfl, rfl⟩ hW hl (by rw [zero_add]; exact H1)
  · intro m1 H1
    refine CRes.le_step (find_end_c hnil hl H1) (find_end_leL hnil h0 H1) (by omega) ?_
    refine (ctor_range_cost (X := 0) (F := F) (a := 0) hE listSrc_ok listSrc_cost ⟨rfl, rfl⟩ rfl hW hL hl
      (by rw [zero_add]; exact H1)).mono (by omega)

section
variable {o2 al2 : Nat} {s2 : St α}

theorem ctor_copy_alloc_le (hE : E.Good) (hs2 : s2.Ok E) (hL : lg s2.elems.length ≤ L)
    (hf : m.cell (.obj o) = none) (H : Holds g (cont E o2 al2 s2 + F) m) :
    (Cost.ctor_copy_alloc E o o2 al m).le (newCost E L s2.elems.length) := by
  unfold Cost.ctor_copy_alloc newCost
  have hW := hs2.1
  have hnil : (St.nil : St α).Ok E := St.Ok.nil (by omega)
  obtain ⟨l, hl⟩ := St.At.exists hnil (Nat.le_refl _)
  obtain ⟨fi, hfi⟩ := St.At.exists hs2 (Nat.zero_le _)
  obtain ⟨la, hla⟩ := St.At.exists hs2 (Nat.le_refl _)
  have h0 : lg (St.nil : St α).elems.length ≤ L := Nat.le_trans (lg_mono (Nat.zero_le _)) hL
  have hh := htL hs2 hL
  refine (delegating_le (n := s2.elems.length)
    (a := 19 * L + (s2.elems.length * (insK E * L + 28 * L) + 5 * s2.ht + cntK E * L)) (body := do
    let it ← find_end E o
    let first ← find_first E o2
    let last ← find_end E o2
    let _ ← emplace_range E (copySrc E last) o it first) hf H ?_ ?_).mono (by omega)
  · intro m1 H1
    have H1' := H1.eqv (by frame : _ = cont E o2 al2 s2 + (cont E o al .nil + F))
    refine Spec.step (find_end_c hnil hl H1) (Spec.step (find_first_c hs2 hfi H1') (Spec.step (find_end_c hs2 hla H1') ?_))
    exact ctor_range_spec hE (copySrc_ok hs2 hla) ⟨rfl, Ent.refl _, 0, hfi, Nat.zero_le _, by simp⟩ hW hl H1
  · intro m1 H1
    have H1' := H1.eqv (by frame : _ = cont E o2 al2 s2 + (cont E o al .nil + F))
    refine CRes.le_step (find_end_c hnil hl H1) (find_end_leL hnil h0 H1) (by omega) ?_
    refine CRes.le_step (find_first_c hs2 hfi H1') (find_first_leL hs2 hL H1') (by omega) ?_
    refine CRes.le_step (find_end_c hs2 hla H1') (find_end_leL hs2 hL H1') (by omega) ?_
    refine (ctor_range_cost (a := s2.ht) hE (copySrc_ok hs2 hla) (copySrc_cost hs2 hla)
      ⟨rfl, Ent.refl _, 0, hfi, Nat.zero_le _, by simp⟩ ⟨0, hfi.toT⟩ hW hL hl H1).mono (by omega)

theorem ctor_copy_le (hE : E.Good) (hs2 : s2.Ok E) (hL : lg s2.elems.length ≤ L)
    (hf : m.cell (.obj o) = none) (H : Holds g (cont E o2 al2 s2 + F) m) :
    (Cost.ctor_copy E o o2 m).le (newCost E L s2.elems.length + 1) := by
  unfold Cost.ctor_copy
  refine CRes.le_step (rdObj_c H) ((CB.rdObj o2).run m) (by omega) ?_
  exact (ctor_copy_alloc_le hE hs2 hL hf H).mono (by omega)

theorem ctor_move_alloc_steal_le (hE : E.Good) (hs2 : s2.Ok E) (hw : E.acls al = E.acls al2)
    (hf : m.cell (.obj o) = none) (H : Holds g (cont E o2 al2 s2 + F) m) :
    (Cost.ctor_move_alloc E o o2 al m).le 21 := by
  unfold Cost.ctor_move_alloc
  obtain ⟨m1, e1, H1⟩ := ctor_c (E := E) (al := al) hf H
  have H1' := H1.eqv (by frame : _ = cont E o2 al2 s2 + (cont E o al .nil + F))
  obtain ⟨m2, e2, H2⟩ := steal_c (x := objNil al al) (s2 := s2) rfl rfl hw (by rw [cont_nil] at H1; exact H1)
  refine delegating_le (n := 0) (a := 16) (body := do
    let t ← rdObj o2
    if E.acls al = E.acls t.ealloc then steal o o2
    else
      let it ← find_end E o
      let first ← find_first E o2
      let last ← find_end E o2
      let _ ← emplace_range E (moveSrc E last) o it first) hf H ?_ ?_
  · intro m1 H1
    have H1' := H1.eqv (by frame : _ = cont E o2 al2 s2 + (cont E o al .nil + F))
    refine Spec.step (rdObj_c H1') ?_
    rw [St.obj_al, if_pos hw]
    obtain ⟨m2, e2, H2⟩ := steal_c (x := objNil al al) (s2 := s2) rfl rfl hw (by rw [cont_nil] at H1; exact H1)
    exact Spec.ok e2 trivial
  · intro m1 H1
    have H1' := H1.eqv (by frame : _ = cont E o2 al2 s2 + (cont E o al .nil + F))
    refine CRes.le_step (rdObj_c H1') ((CB.rdObj o2).run m1) (by omega) ?_
    rw [St.obj_al, if_pos hw]
    exact ((CB.steal o o2).run m1).mono (by omega)

theorem ctor_move_alloc_elems_le (hE : E.Good) (hs2 : s2.Ok E) (hw : E.acls al ≠ E.acls al2)
    (hL : lg s2.elems.length ≤ L)
    (hf : m.cell (.obj o) = none) (H : Holds g (cont E o2 al2 s2 + F) m) :
    (Cost.ctor_move_alloc E o o2 al m).le (newCost E L s2.elems.length) := by
  unfold Cost.ctor_move_alloc newCost
  have hW := hs2.1
  have hnil : (St.nil : St α).Ok E := St.Ok.nil (by omega)
  obtain ⟨l, hl⟩ := St.At.exists hnil (Nat.le_refl _)
  obtain ⟨fi, hfi⟩ := St.At.exists hs2 (Nat.zero_le _)
  obtain ⟨la, hla⟩ := St.At.exists hs2 (Nat.le_refl _)
  have h0 : lg (St.nil : St α).elems.length ≤ L := Nat.le_trans (lg_mono (Nat.zero_le _)) hL
  have hh := htL hs2 hL
  have h1 := posL hL
  have hR : MoveR E o2 al2 0 s2.elems.length s2 fi s2.elems (cont E o2 al2 s2) :=
    ⟨s2, 0, rfl, hs2, .refl _, hfi, Nat.le_refl _, Nat.zero_le _, by simp, by simp [movedList]⟩
  refine (delegating_le (n := s2.elems.length)
    (a := 20 * L + (s2.elems.length * (insK E * L + 28 * L) + 5 * s2.ht + cntK E * L)) (body := do
    let t ← rdObj o2
    if E.acls al = E.acls t.ealloc then steal o o2
    else
      let it ← find_end E o
      let first ← find_first E o2
      let last ← find_end E o2
      let _ ← emplace_range E (moveSrc E last) o it first) hf H ?_ ?_).mono (by omega)
  · intro m1 H1
    have H1' := H1.eqv (by frame : _ = cont E o2 al2 s2 + (cont E o al .nil + F))
    refine Spec.step (rdObj_c H1') ?_
    rw [St.obj_al, if_neg hw]
    refine Spec.step (find_end_c hnil hl H1) (Spec.step (find_first_c hs2 hfi H1') (Spec.step (find_end_c hs2 hla H1') ?_))
    exact ctor_range_spec hE (moveSrc_ok (a := 0) hE hla) hR hW hl H1
  · intro m1 H1
    have H1' := H1.eqv (by frame : _ = cont E o2 al2 s2 + (cont E o al .nil + F))
    refine CRes.le_step (rdObj_c H1') ((CB.rdObj o2).run m1) (by omega) ?_
    rw [St.obj_al, if_neg hw]
    refine CRes.le_step (find_end_c hnil hl H1) (find_end_leL hnil h0 H1) (by omega) ?_
    refine CRes.le_step (find_first_c hs2 hfi H1') (find_first_leL hs2 hL H1') (by omega) ?_
    refine CRes.le_step (find_end_c hs2 hla H1') (find_end_leL hs2 hL H1') (by omega) ?_
    refine (ctor_range_cost (a := s2.ht) hE (moveSrc_ok (a := 0) hE hla) (moveSrc_cost hla) hR ⟨0, hfi.toT⟩ hW hL hl
      H1).mono (by omega)

/-! ### assignment -/

theorem copy_assign_alloc_le (hs : s.Ok E)
    (hn : E.pocca = true → ¬ SameAlloc E al al2 → s.elems ≠ [] ∨ E.nullFree = true)
    {k : Nat} (hk : E.pocca = true ∧ ¬ SameAlloc E al al2 → 13 * s.elems.length + 9 ≤ k)
    (H : Holds g (cont E o al s + (cont E o2 al2 s2 + F)) m) :
    (Cost.copy_assign_alloc E o o2 m).le (k + 4) := by
  unfold Cost.copy_assign_alloc
  by_cases hp : E.pocca = true
  · rw [if_pos hp]
    refine CRes.le_step (rdObj_c H) ((CB.rdObj o).run m) (by omega) ?_
    refine CRes.le_step (rdObj_c (H.eqv (by frame : _ = cont E o2 al2 s2 + (_ + _)))) ((CB.rdObj o2).run m) (by omega) ?_
    rw [St.obj_al, St.obj_al]
    by_cases hw : E.acls al = E.acls al2
    · rw [if_neg (by simpa using hw)]
      refine CRes.le.mono (a := 2) ?_ (by omega)
      show ((Cost.rdObj o >>= _) m).le 2
      refine CRes.le_bind ((CB.rdObj o).run m) (by omega) fun _ _ _ _ => ?_
      exact (CB.wrObj _ _).run _
    · have hk := hk ⟨hp, hw⟩
      rw [if_pos hw]
      show ((Cost.clear E o >>= fun _ => Cost.rdObj o >>= _) m).le _
      refine CRes.le_bind (clear_le hs (hn hp hw) H) (by omega) fun _ m1 _ _ => ?_
      refine CRes.le_bind ((CB.rdObj o).run m1) (by omega) fun _ m2 _ _ => ?_
      exact ((CB.wrObj _ _).run _).mono (by omega)
  · rw [if_neg hp]
    exact Nat.zero_le _

theorem asgCost_nil_le (n : Nat) : asgCost E L n 0 = n * (insK E * L + 28 * L) + cntK E * L := by
  unfold asgCost; simp

/-- copy assignment, the allocators being equal or not propagated -/
theorem assign_copy_le (hE : E.Good) (hs : s.Ok E) (hs2 : s2.Ok E)
    (hk : ¬ (E.pocca = true ∧ ¬ SameAlloc E al al2)) (hL : lg s.elems.length ≤ L) (hL2 : lg s2.elems.length ≤ L)
    (H : Holds g (cont E o al s + (cont E o2 al2 s2 + F)) m) :
    (Cost.assign_copy E o o2 m).le (asgCost E L s2.elems.length s.elems.length + 38 * L) := by
  unfold Cost.assign_copy
  rw [if_pos H.obj_ne]
  have hn : E.pocca = true → ¬ SameAlloc E al al2 → s.elems ≠ [] ∨ E.nullFree = true := fun h1 h2 => absurd ⟨h1, h2⟩ hk
  obtain ⟨m1, s1, e1, hs1, hx1, hx2, H1⟩ := copy_assign_alloc_c hs hn H
  have hc := copy_assign_alloc_le hs hn (k := 0) (fun h => absurd h hk) H
  have h1 := posL hL
  have h2 := htL hs2 hL2
  have he := hx1 hk
  refine CRes.le_step e1 hc (by omega) ?_
  obtain ⟨fi, hfi⟩ := St.At.exists hs2 (Nat.zero_le _)
  obtain ⟨la, hla⟩ := St.At.exists hs2 (Nat.le_refl _)
  have H1' := H1.eqv (by frame : _ = cont E o2 al2 s2 + (_ + _))
  refine CRes.le_step (find_first_c hs2 hfi H1') (find_first_leL hs2 hL2 H1') (by omega) ?_
  refine CRes.le_step (find_end_c hs2 hla H1') (find_end_leL hs2 hL2 H1') (by omega) ?_
  refine (assign_range_le (X := cont E o2 al2 s2) (vs := s2.elems) (L := L) (a := s2.ht) hE (copySrc_ok hs2 hla)
    (copySrc_cost hs2 hla) hs1 ⟨rfl, Ent.refl _, 0, hfi, Nat.zero_le _, by simp⟩ ⟨0, hfi.toT⟩ hs2.1
    (by rw [he]; exact hL) hL2 H1).mono ?_
  rw [he]; omega

/-- copy assignment, the allocator propagating and changing -/
theorem assign_copy_clear_le (hE : E.Good) (hs : s.Ok E) (hs2 : s2.Ok E)
    (hk : E.pocca = true ∧ ¬ SameAlloc E al al2) (hn : s.elems ≠ [] ∨ E.nullFree = true) (hL2 : lg s2.elems.length ≤ L)
    (H : Holds g (cont E o al s + (cont E o2 al2 s2 + F)) m) :
    (Cost.assign_copy E o o2 m).le (13 * s.elems.length + asgCost E L s2.elems.length 0 + 47 * L) := by
  unfold Cost.assign_copy
  rw [if_pos H.obj_ne]
  obtain ⟨m1, s1, e1, hs1, hx1, hx2, H1⟩ := copy_assign_alloc_c hs (fun _ _ => hn) H
  have hc := copy_assign_alloc_le hs (fun _ _ => hn) (fun _ => Nat.le_refl _) H
  have h1 := posL hL2
  have h2 := htL hs2 hL2
  have he := hx2 hk
  refine CRes.le_step e1 hc (by omega) ?_
  obtain ⟨fi, hfi⟩ := St.At.exists hs2 (Nat.zero_le _)
  obtain ⟨la, hla⟩ := St.At.exists hs2 (Nat.le_refl _)
  have H1' := H1.eqv (by frame : _ = cont E o2 al2 s2 + (_ + _))
  refine CRes.le_step (find_first_c hs2 hfi H1') (find_first_leL hs2 hL2 H1') (by omega) ?_
  refine CRes.le_step (find_end_c hs2 hla H1') (find_end_leL hs2 hL2 H1') (by omega) ?_
  refine (assign_range_le (X := cont E o2 al2 s2) (vs := s2.elems) (L := L) (a := s2.ht) hE (copySrc_ok hs2 hla)
    (copySrc_cost hs2 hla) hs1 ⟨rfl, Ent.refl _, 0, hfi, Nat.zero_le _, by simp⟩ ⟨0, hfi.toT⟩ hs2.1
    (by rw [he]; exact Nat.le_trans (lg_mono (Nat.zero_le _)) hL2) hL2 H1).mono ?_
  rw [he]; simp only [List.length_nil]; omega

theorem move_assign_steal_le (hs : s.Ok E) (hn : s.elems ≠ [] ∨ E.nullFree = true)
    (H : Holds g (cont E o al s + F) m) :
    (Cost.move_assign_steal E o o2 m).le (13 * s.elems.length + 21) := by
  unfold Cost.move_assign_steal
  refine CRes.le_bind (purge_le hs H) (by omega) fun _ m1 _ _ => ?_
  refine CRes.le_bind ((CB.move_assign_alloc o o2).run m1) (by omega) fun _ m2 _ _ => ?_
  exact ((CB.steal o o2).run m2).mono (by omega)

theorem assign_move_steal_le (hs : s.Ok E) (hw : E.pocma = true ∨ E.acls al = E.acls al2)
    (hn : s.elems ≠ [] ∨ E.nullFree = true) (H : Holds g (cont E o al s + (cont E o2 al2 s2 + F)) m) :
    (Cost.assign_move E o o2 m).le (13 * s.elems.length + 23) := by
  unfold Cost.assign_move Cost.move_assign
  by_cases hp : E.pocma = true
  · rw [if_pos hp]; exact (move_assign_steal_le hs hn H).mono (by omega)
  · rw [if_neg hp]
    refine CRes.le_step (rdObj_c H) ((CB.rdObj o).run m) (by omega) ?_
    refine CRes.le_step (rdObj_c (H.eqv (by frame : _ = cont E o2 al2 s2 + (_ + _)))) ((CB.rdObj o2).run m) (by omega) ?_
    rw [St.obj_al, St.obj_al, if_neg (by simpa using hw.resolve_left hp)]
    exact (move_assign_steal_le hs hn H).mono (by omega)

theorem assign_move_self_le (hs : s.Ok E) (hn : s.elems ≠ [] ∨ E.nullFree = true)
    (H : Holds g (cont E o al s + F) m) : (Cost.assign_move E o o m).le (13 * s.elems.length + 23) := by
  unfold Cost.assign_move Cost.move_assign
  by_cases hp : E.pocma = true
  · rw [if_pos hp]; exact (move_assign_steal_le hs hn H).mono (by omega)
  · rw [if_neg hp]
    refine CRes.le_step (rdObj_c H) ((CB.rdObj o).run m) (by omega) ?_
    refine CRes.le_step (rdObj_c H) ((CB.rdObj o).run m) (by omega) ?_
    rw [if_neg (by simp)]
    exact (move_assign_steal_le hs hn H).mono (by omega)

theorem assign_move_elems_le (hE : E.Good) (hs : s.Ok E) (hs2 : s2.Ok E)
    (hp : E.pocma = false) (hw : E.acls al ≠ E.acls al2) (hL : lg s.elems.length ≤ L) (hL2 : lg s2.elems.length ≤ L)
    (H : Holds g (cont E o al s + (cont E o2 al2 s2 + F)) m) :
    (Cost.assign_move E o o2 m).le (asgCost E L s2.elems.length s.elems.length + 36 * L) := by
  unfold Cost.assign_move Cost.move_assign
  have H' := H.eqv (by frame : _ = cont E o2 al2 s2 + (_ + _))
  have h1 := posL hL
  have h2 := htL hs2 hL2
  rw [if_neg (by simp [hp])]
  refine CRes.le_step (rdObj_c H) ((CB.rdObj o).run m) (by omega) ?_
  refine CRes.le_step (rdObj_c H') ((CB.rdObj o2).run m) (by omega) ?_
  rw [St.obj_al, St.obj_al, if_pos hw]
  obtain ⟨fi, hfi⟩ := St.At.exists hs2 (Nat.zero_le _)
  obtain ⟨la, hla⟩ := St.At.exists hs2 (Nat.le_refl _)
  refine CRes.le_step (find_first_c hs2 hfi H') (find_first_leL hs2 hL2 H') (by omega) ?_
  refine CRes.le_step (find_end_c hs2 hla H') (find_end_leL hs2 hL2 H') (by omega) ?_
  have hR : MoveR E o2 al2 0 s2.elems.length s2 fi s2.elems (cont E o2 al2 s2) :=
    ⟨s2, 0, rfl, hs2, .refl _, hfi, Nat.le_refl _, Nat.zero_le _, by simp, by simp [movedList]⟩
  exact (assign_range_le (L := L) (a := s2.ht) hE (moveSrc_ok (a := 0) hE hla) (moveSrc_cost hla) hs hR ⟨0, hfi.toT⟩
    hs2.1 hL hL2 H).mono (by omega)

/-! ### splice -/

theorem splice_le (hE : E.Good) (hs : s.Ok E) (hs2 : s2.Ok E) (ha : s.At i it)
    (hn : s2.elems ≠ [] ∨ E.nullFree = true) (hW : s.elems.length + s2.elems.length < E.W)
    (hL : lg (s.elems.length + s2.elems.length) ≤ L) (H : Holds g (cont E o al s + (cont E o2 al2 s2 + F)) m) :
    (Cost.splice E o it o2 m).le
      (s2.elems.length * (insK E * L + 28 * L) + cntK E * L + 26 * L + 13 * s2.elems.length) := by
  unfold Cost.splice
  have hL2 : lg s2.elems.length ≤ L := Nat.le_trans (lg_mono (by omega)) hL
  have h1 := posL hL2
  have h2 := htL hs2 hL2
  have H' := H.eqv (by frame : _ = cont E o2 al2 s2 + (_ + _))
  obtain ⟨fi, hfi⟩ := St.At.exists hs2 (Nat.zero_le _)
  obtain ⟨la, hla⟩ := St.At.exists hs2 (Nat.le_refl _)
  have hR : MoveR E o2 al2 0 s2.elems.length s2 fi s2.elems (cont E o2 al2 s2) :=
    ⟨s2, 0, rfl, hs2, .refl _, hfi, Nat.le_refl _, Nat.zero_le _, by simp, by simp [movedList]⟩
  refine CRes.le_step (find_first_c hs2 hfi H') (find_first_leL hs2 hL2 H') (by omega) ?_
  refine CRes.le_step (find_end_c hs2 hla H') (find_end_leL hs2 hL2 H') (by omega) ?_
  refine CRes.le_spec (emplace_range_c hE (moveSrc_ok (a := 0) hE hla) hs ha hR hW H)
    (emplace_range_le (L := L) (a := s2.ht) hE (moveSrc_ok (a := 0) hE hla) (moveSrc_cost hla) hs ha hR ⟨0, hfi.toT⟩
      hW hL H) (by omega) ?_
  rintro it1 m1 ⟨s1, X1, st1, r, hs1, he1, -, hR1, H1⟩
  obtain ⟨s3, rfl, hs3, -, he3⟩ := moveR_end (Nat.le_refl _) hR1
  have hl3 : s3.elems.length = s2.elems.length := by rw [he3, movedList_length (by omega) (Nat.le_refl _)]
  have hne : s3.elems ≠ [] ∨ E.nullFree = true := by
    refine hn.imp (fun hn h => hn (List.eq_nil_of_length_eq_zero ?_)) id
    rw [← hl3, h]; rfl
  refine (clear_le hs3 hne (H1.eqv (by frame : _ = cont E o2 al2 s3 + (_ + _)))).mono ?_
  rw [hl3]; omega

theorem splice_one_le {jt : Iter} (hE : E.Good) (hs : s.Ok E) (hs2 : s2.Ok E)
    (ha : s.At i it) (hj : s2.At j jt) (hjl : j < s2.elems.length) (hW : s.elems.length + 1 < E.W)
    (hL : lg s.elems.length ≤ L) (hL2 : lg s2.elems.length ≤ L)
    (H : Holds g (cont E o al s + (cont E o2 al2 s2 + F)) m) :
    (Cost.splice_one E o it o2 jt m).le (1 + insK E * L + eraK E * L) := by
  unfold Cost.splice_one
  have H' := H.eqv (by frame : _ = cont E o2 al2 s2 + (_ + _))
  have hsp : Spec (emplace_single E o it (do copyVal E (← dereference E jt))) m
      (fun _ m' => ∃ (s1 : St α) (g' : Log), Holds g' (cont E o2 al2 s2 + (cont E o al s1 + F)) m') (fun _ _ => True) := by
    have hemp : emplace_single E o it (do copyVal E (← dereference E jt)) m =
        emplace_single E o it (copyVal E s2.elems[j]) m := by
      unfold emplace_single
      rw [bind_assoc, bind_ok (dereference_c hs2 hj hjl H')]
    refine (Spec.congr hemp (emplace_single_c hE (Mk.copy s2.elems[j]) hs ha hW H)).mono ?_ (fun _ _ _ => trivial)
    rintro it1 m1 ⟨s1, n, hs1, he1, -, -, H1⟩
    exact ⟨s1, _, H1.eqv (by frame)⟩
  refine CRes.le_spec (a := 1 + insK E * L) hsp ?_ (by omega) ?_
  · unfold Cost.emplace_single
    rw [C.bind_assoc]
    refine CRes.le_step (dereference_c hs2 hj hjl H') ((CB.dereference jt).run m) (by omega) ?_
    exact (emplace_single_le (mk := copyVal E s2.elems[j]) hE (Mk.copy _) (CB.copyVal _) hs hL ha H).mono (by omega)
  · rintro it1 m1 ⟨s1, g', H1⟩
    refine CRes.le_bind (a := eraK E * L) (erase_single_leL hs2 hL2 H1 hE hj hjl) (by omega) fun _ _ _ _ => Nat.zero_le _

theorem splice_range_le {a b : Nat} {fi la : Iter} (hE : E.Good) (hs : s.Ok E) (hs2 : s2.Ok E)
    (ha : s.At i it) (hfi : s2.At a fi) (hla : s2.At b la) (hab : a ≤ b)
    (hW : s.elems.length + (b - a) < E.W) (hL : lg (s.elems.length + (b - a)) ≤ L) (hL2 : lg s2.elems.length ≤ L)
    (H : Holds g (cont E o al s + (cont E o2 al2 s2 + F)) m) :
    (Cost.splice_range E o it o2 fi la m).le
      ((b - a) * (insK E * L + 28 * L) + (b - a) * (eraK E * L + 16 * L) + cntK E * L + 5 * L) := by
  unfold Cost.splice_range
  have hb := hla.le
  have h2 := htL hs2 hL2
  have hlen : ((s2.elems.take b).drop a).length = b - a := by simp; omega
  have hR : MoveR E o2 al2 a b s2 fi ((s2.elems.take b).drop a) (cont E o2 al2 s2) :=
    ⟨s2, a, rfl, hs2, .refl _, hfi, Nat.le_refl _, hab, rfl, by simp [movedList]⟩
  refine CRes.le_spec (a := (b - a) * (insK E * L + 28 * L) + 5 * s2.ht + cntK E * L)
    (emplace_range_c hE (moveSrc_ok (a := a) hE hla) hs ha hR (by omega) H) ?_ (by omega) ?_
  · have := emplace_range_le (L := L) (a := s2.ht) hE (moveSrc_ok (a := a) hE hla) (moveSrc_cost hla) hs ha hR
      ⟨a, hfi.toT⟩ (by omega) (by rwa [hlen]) H
    rwa [hlen] at this
  rintro it1 m1 ⟨s1, X1, st1, r, hs1, he1, -, hR1, H1⟩
  obtain ⟨s3, rfl, hs3, hpres, he3⟩ := moveR_end hb hR1
  have hl3 : s3.elems.length = s2.elems.length := by rw [he3, movedList_length (by omega) (by omega)]
  refine CRes.le_bind (erase_range_le (L := L) hE (b - a) hs3 hfi.pos (hpres _ _ hla) (by omega) (by rwa [hl3])
      (H1.eqv (by frame : _ = cont E o2 al2 s3 + (cont E o al s1 + F)))) (by omega) fun _ _ _ _ => Nat.zero_le _
end

end SegTree
