/-
  Whole-container operations: construction, assignment, swap, splice.
-/
import Verif.Proof.Loops
set_option autoImplicit false
set_option linter.unusedSimpArgs false

namespace SegTree

variable {α β γ : Type} {E : Env α} {g : Log} {F : Asrt α} {m : Mem α}

/-- Pin the cells of `A` and `F` to their present contents. -/
theorem Holds.pin {A : Asrt α} (h : Holds g (A + F) m) :
    ∃ A' F' : Asrt α, Holds g (A' + F') m ∧ Ent A' A ∧ Ent F' F ∧
      (∀ g' F'' (m' : Mem α), Holds g' (A' + F'') m' → ∀ l ∈ A'.map Prod.fst, m'.cell l = m.cell l) ∧
      (∀ g' (m' : Mem α), Holds g' (A' + F') m' → m'.cell = m.cell) ∧
      ∀ g' (m' : Mem α), Holds g' F' m' → ∀ l ∈ F'.map Prod.fst, m'.cell l = m.cell l := by
  classical
  have key : ∀ B : Asrt α, (∀ x ∈ B, ∃ c, m.cell x.1 = some c ∧ x.2 c) →
      Ent (B.map (fun x => (x.1, fun c => m.cell x.1 = some c))) B := by
    intro B hB g' F' m' h'
    refine ⟨h'.log, ?_, ?_, ?_, h'.null⟩
    · have := h'.nodup
      simpa [Multiset.map_map, Multiset.map_add] using this
    · intro x hx
      rcases Multiset.mem_add.1 hx with hx | hx
      · obtain ⟨c, hc, hp⟩ := h'.sat (x.1, fun c => m.cell x.1 = some c)
          (Multiset.mem_add.2 (.inl (Multiset.mem_map_of_mem _ hx)))
        obtain ⟨c', hc', hp'⟩ := hB x hx
        dsimp only at hc hp
        rw [hc'] at hp
        injection hp with hp
        subst hp
        exact ⟨c', hc, hp'⟩
      · exact h'.sat x (Multiset.mem_add.2 (.inr hx))
    · intro l hl
      have := h'.full l hl
      simpa [Multiset.map_map, Multiset.map_add] using this
  have pinned : ∀ (B : Asrt α) (g' : Log) (F' : Asrt α) (m' : Mem α),
      Holds g' (B.map (fun x => (x.1, fun c => m.cell x.1 = some c)) + F') m' →
      ∀ l ∈ (B.map (fun x => (x.1, fun c => m.cell x.1 = some c))).map Prod.fst, m'.cell l = m.cell l := by
    intro B g' F' m' h' l hl
    rw [Multiset.map_map] at hl
    obtain ⟨x, hx, rfl⟩ := Multiset.mem_map.1 hl
    obtain ⟨c, hc, hp⟩ := h'.sat (x.1, fun c => m.cell x.1 = some c)
      (Multiset.mem_add.2 (.inl (Multiset.mem_map_of_mem _ hx)))
    exact hc.trans hp.symm
  have hA : ∀ x ∈ A, ∃ c, m.cell x.1 = some c ∧ x.2 c := fun x hx => h.sat x (Multiset.mem_add.2 (.inl hx))
  have hF : ∀ x ∈ F, ∃ c, m.cell x.1 = some c ∧ x.2 c := fun x hx => h.sat x (Multiset.mem_add.2 (.inr hx))
  have h1 : Holds g (A.map (fun x => (x.1, fun c => m.cell x.1 = some c)) +
      F.map (fun x => (x.1, fun c => m.cell x.1 = some c))) m := by
    refine ⟨h.log, ?_, ?_, ?_, h.null⟩
    · have := h.nodup
      simpa [Multiset.map_map, Multiset.map_add] using this
    · intro x hx
      rw [← Multiset.map_add] at hx
      obtain ⟨y, hy, rfl⟩ := Multiset.mem_map.1 hx
      obtain ⟨c, hc, -⟩ := h.sat y hy
      exact ⟨c, hc, hc⟩
    · intro l hl
      have := h.full l hl
      simpa [Multiset.map_map, Multiset.map_add] using this
  refine ⟨_, _, h1, key A hA, key F hF, pinned A, ?_, ?_⟩
  · intro g' m' h'
    funext l
    by_cases hl : l ∈ (A + F).map Prod.fst
    · have h2 := h'
      rw [← Multiset.map_add] at h2
      exact pinned (A + F) g' 0 m' (by simpa using h2) l (by simpa [Multiset.map_map] using hl)
    · have k1 : m.cell l = none := by
        by_contra hc
        exact hl (h.full l (Option.isSome_iff_ne_none.2 hc))
      have k2 : m'.cell l = none := by
        by_contra hc
        have := h'.full l (Option.isSome_iff_ne_none.2 hc)
        rw [← Multiset.map_add, Multiset.map_map] at this
        exact hl this
      rw [k1, k2]
  · intro g' m' h' l hl
    exact pinned F g' 0 m' (by simpa using h') l hl

/-- Pin the whole memory. -/
theorem Holds.pinAll (h : Holds g F m) :
    ∃ F' : Asrt α, Holds g F' m ∧ Ent F' F ∧ ∀ g' (m' : Mem α), Holds g' F' m' → m'.cell = m.cell := by
  obtain ⟨A', F', h1, hA, hF, -, h3, -⟩ := (show Holds g (0 + F) m by simpa using h).pin
  refine ⟨A' + F', h1, ?_, h3⟩
  intro g' F'' m' h'
  have h2 := hA g' (F' + F'') m' (by rw [← aassoc]; exact h')
  rw [zero_add] at h2
  exact hF _ _ _ h2

theorem Ent.right {A X Y : Asrt α} (h : Ent X Y) (H : Holds g (A + X) m) : Holds g (A + Y) m := by
  rw [add_comm] at H ⊢; exact h _ _ _ H
theorem Ent.whole {X Y : Asrt α} (h : Ent X Y) (H : Holds g X m) : Holds g Y m := by
  have := h g 0 m (by simpa using H)
  simpa using this

/-! ### construction -/

section
variable {o al : Nat}

theorem ctor_c (hf : m.cell (.obj o) = none) (H : Holds g F m) :
    ∃ m', ctor o al m = .ok () m' ∧ Holds g (cont E o al .nil + F) m' := by
  refine ⟨m.set (.obj o) (.obj ⟨0, 0, 0, al, al⟩), by simp [ctor, hf], ?_⟩
  rw [cont_nil]
  have := H.alloc (l := .obj o) (c := .obj ⟨0, 0, 0, al, al⟩) (g' := g) (Q := (· = .obj (objNil al al))) hf
    (by simp) rfl
  have hm : ({ m with log := g } : Mem α) = m := by
    have hl := H.log
    cases m; simp only at hl; subst hl; rfl
  rwa [hm] at this

theorem Spec.onThrow {body : M α β} {h : M α Unit} {Q : β → Mem α → Prop} {T T' : Exn → Mem α → Prop}
    (hb : Spec body m Q T) (hh : ∀ e m', T e m' → ∃ m'', h m' = .ok () m'' ∧ T' e m'') :
    Spec (M.onThrow body h) m Q T' := by
  rcases hb.cases with ⟨v, m', e, hq⟩ | ⟨e', m', e, ht⟩
  · exact Spec.ok (by simp [M.onThrow, e]) hq
  · obtain ⟨m'', e2, ht'⟩ := hh e' m' ht
    exact Spec.thr (by simp [M.onThrow, e, e2]) ht'

theorem delegating_c {body : M α Unit} {Q : Mem α → Prop} {P : Exn → Log → Asrt α → Prop}
    (hn : E.nullFree = true) (hf : m.cell (.obj o) = none) (H : Holds g F m)
    (hb : ∀ m1, Holds g (cont E o al .nil + F) m1 → Spec body m1 (fun _ => Q)
      (fun e m' => ∃ s' g' F', s'.Ok E ∧ P e g' F' ∧ Holds g' (cont E o al s' + F') m')) :
    Spec (delegating E o al body) m (fun _ => Q) (fun e m' => ∃ g' F', P e g' F' ∧ Holds g' F' m') := by
  unfold delegating
  obtain ⟨m1, e1, H1⟩ := ctor_c (E := E) (al := al) hf H
  refine Spec.step e1 (Spec.onThrow (hb m1 H1) ?_)
  rintro e m' ⟨s', g', F', hs, hP, H'⟩
  obtain ⟨m2, e2, H2⟩ := dtor_c hs (.inr hn) H'
  exact ⟨m2, e2, g', F', hP, H2⟩

theorem St.Ok.nil (hW : 0 < E.W) : (St.nil : St α).Ok E := ⟨hW, trivial⟩

theorem ctor_count_c {T : α → Prop} {v : α} {mk : M α α} {n : Nat} (hE : E.Good) (hm : Mk T v mk) (hn : E.nullFree = true)
    (hW : n < E.W) (hf : m.cell (.obj o) = none) (H : Holds g F m) :
    Spec (ctor_count E o al n mk) m
      (fun _ m' => ∃ s' r, s'.Ok E ∧ s'.elems = List.replicate n v ∧
        Holds { g with reqs := g.reqs + r } (cont E o al s' + F) m')
      (fun e m' => m'.cell = m.cell ∧ ∃ g', Thrown T g g' [v] e ∧ Holds g' F m') := by
  obtain ⟨F0, H0, hF0, hp⟩ := H.pinAll
  unfold ctor_count
  have hnil : (St.nil : St α).Ok E := St.Ok.nil (by omega)
  obtain ⟨l, hl⟩ := St.At.exists hnil (Nat.le_refl _)
  refine (delegating_c (Q := fun m' => ∃ s' r, s'.Ok E ∧ s'.elems = List.replicate n v ∧
        Holds { g with reqs := g.reqs + r } (cont E o al s' + F0) m')
      (P := fun e g' F' => F' = F0 ∧ Thrown T g g' [v] e) hn hf H0 ?_).mono ?_ ?_
  · intro m1 H1
    refine Spec.step (find_end_c hnil hl H1) ?_
    refine ((emplace_count_c (n := n) hE hm hnil hl (by simpa using hW) H1).mono (fun _ _ h => h) ?_).bind ?_
    · rintro e m2 ⟨s2, g2, k, -, hs2, -, ht, H2⟩
      exact ⟨s2, g2, F0, hs2, ⟨rfl, ht⟩, H2⟩
    · rintro it m2 ⟨s2, r, hs2, he2, -, H2⟩
      exact Spec.pure ⟨s2, r, hs2, by simpa using he2, H2⟩
  · rintro _ m' ⟨s', r, h1, h2, H'⟩
    exact ⟨s', r, h1, h2, hF0.right H'⟩
  · rintro e m' ⟨g', F', ⟨rfl, ht⟩, H'⟩
    exact ⟨hp _ _ H', g', ht, hF0.whole H'⟩

/-- construction from a range; `P` is what the source owns before -/
theorem ctor_range_c {σ : Type} {T : α → Prop} {S : Src α σ} {R R1 : σ → List α → Asrt α → Prop} {X : Asrt α} {st : σ} {vs : List α}
    (hE : E.Good) (hS : SrcOk E T S R R1) (hn : E.nullFree = true) (hR : R st vs X)
    (hW : vs.length < E.W) (hf : m.cell (.obj o) = none) (H : Holds g (X + F) m) :
    Spec (delegating E o al (do
      let it ← find_end E o
      let _ ← emplace_range E S o it st)) m
      (fun _ m' => ∃ s' X' st' r, s'.Ok E ∧ s'.elems = vs ∧ R st' [] X' ∧
        Holds { g with reqs := g.reqs + r } (cont E o al s' + (X' + F)) m')
      (fun e m' => ∃ g' X' k, k < vs.length ∧ SrcMid R R1 vs k e X' ∧ Thrown T g g' vs e ∧ Holds g' (X' + F) m') := by
  have hnil : (St.nil : St α).Ok E := St.Ok.nil (by omega)
  obtain ⟨l, hl⟩ := St.At.exists hnil (Nat.le_refl _)
  refine (delegating_c (Q := fun m' => ∃ s' X' st' r, s'.Ok E ∧ s'.elems = vs ∧ R st' [] X' ∧
        Holds { g with reqs := g.reqs + r } (cont E o al s' + (X' + F)) m')
      (P := fun e g' F' => ∃ X' k, F' = X' + F ∧ k < vs.length ∧ SrcMid R R1 vs k e X' ∧ Thrown T g g' vs e) hn hf H ?_).mono
        (fun _ _ h => h) ?_
  · intro m1 H1
    refine Spec.step (find_end_c hnil hl H1) ?_
    refine ((emplace_range_c hE hS hnil hl hR (by simpa using hW) H1).mono (fun _ _ h => h) ?_).bind ?_
    · rintro e m2 ⟨s2, X2, g2, k, hk, hs2, -, hX, ht, H2⟩
      exact ⟨s2, g2, _, hs2, ⟨X2, k, rfl, hk, hX, ht⟩, H2⟩
    · rintro it m2 ⟨s2, X2, st2, r, hs2, he2, -, hR2, H2⟩
      exact Spec.pure ⟨s2, X2, st2, r, hs2, by simpa using he2, hR2, H2⟩
  · rintro e m' ⟨g', F', ⟨X', k, rfl, hk, hX, ht⟩, H'⟩
    exact ⟨g', X', k, hk, hX, ht, H'⟩

theorem ctor_list_c {vs : List α} (hE : E.Good) (hn : E.nullFree = true)
    (hW : vs.length < E.W) (hf : m.cell (.obj o) = none) (H : Holds g F m) :
    Spec (ctor_range E (listSrc E) o al vs) m
      (fun _ m' => ∃ s' r, s'.Ok E ∧ s'.elems = vs ∧
        Holds { g with reqs := g.reqs + r } (cont E o al s' + F) m')
      (fun e m' => m'.cell = m.cell ∧ ∃ g', Thrown (CopyThrows E) g g' vs e ∧ Holds g' F m') := by
  obtain ⟨F0, H0, hF0, hp⟩ := H.pinAll
  unfold ctor_range
  refine (ctor_range_c (X := 0) (st := vs) hE listSrc_ok hn ⟨rfl, rfl⟩ hW hf (by simpa using H0)).mono ?_ ?_
  · rintro _ m' ⟨s', X', st', r, h1, h2, ⟨-, rfl⟩, H'⟩
    exact ⟨s', r, h1, h2, hF0.right (by simpa using H')⟩
  · rintro e m' ⟨g', X', k, -, ⟨st, v, vs', -, hX⟩, ht, H'⟩
    have hX : X' = 0 := by rcases hX with hX | hX <;> exact hX.2.2
    subst hX
    rw [zero_add] at H'
    exact ⟨hp _ _ H', g', ht, hF0.whole H'⟩

theorem Holds.obj_ne {o o2 al al2 : Nat} {s s2 : St α} (H : Holds g (cont E o al s + (cont E o2 al2 s2 + F)) m) : o ≠ o2 := by
  have H := H.eqv (by unfold cont; ac_rfl : _ = Ob o (s.obj al) + (Ob o2 (s2.obj al2) +
    (s.lay E (E.acls al) + (s2.lay E (E.acls al2) + F))))
  intro e
  exact Holds.ne H (by rw [e])

theorem delegating_congr {b1 b2 : M α Unit} (hf : m.cell (.obj o) = none)
    (h : ∀ m1, ctor o al m = .ok () m1 → b1 m1 = b2 m1) : delegating E o al b1 m = delegating E o al b2 m := by
  unfold delegating
  have e : ctor o al m = .ok () (m.set (.obj o) (.obj ⟨0, 0, 0, al, al⟩)) := by simp [ctor, hf]
  rw [bind_ok e, bind_ok e]
  simp only [M.onThrow, h _ e]

theorem ctor_copy_alloc_c {o2 al2 : Nat} {s2 : St α} (hE : E.Good) (hn : E.nullFree = true) (hs2 : s2.Ok E)
    (hf : m.cell (.obj o) = none) (H : Holds g (cont E o2 al2 s2 + F) m) :
    Spec (ctor_copy_alloc E o o2 al) m
      (fun _ m' => ∃ s' r, s'.Ok E ∧ s'.elems = s2.elems ∧
        Holds { g with reqs := g.reqs + r } (cont E o al s' + (cont E o2 al2 s2 + F)) m')
      (fun e m' => m'.cell = m.cell ∧ ∃ g', Thrown (CopyThrows E) g g' s2.elems e ∧ Holds g' (cont E o2 al2 s2 + F) m') := by
  obtain ⟨X0, F0, H0, hX0, hF0, -, hp, -⟩ := H.pin
  obtain ⟨fi, hfi⟩ := St.At.exists hs2 (Nat.zero_le _)
  obtain ⟨la, hla⟩ := St.At.exists hs2 (Nat.le_refl _)
  have hnil : (St.nil : St α).Ok E := St.Ok.nil (by have := hs2.1; omega)
  obtain ⟨l, hl⟩ := St.At.exists hnil (Nat.le_refl _)
  have e : ctor_copy_alloc E o o2 al m = delegating E o al (do
      let it ← find_end E o
      let _ ← emplace_range E (copySrc E la) o it fi) m := by
    unfold ctor_copy_alloc
    refine delegating_congr hf ?_
    intro m1 e1
    obtain ⟨m1', e1', H1⟩ := ctor_c (E := E) (al := al) hf H
    rw [e1] at e1'
    injection e1' with _ e1'
    subst e1'
    rw [bind_ok (find_end_c hnil hl H1), bind_ok (find_end_c hnil hl H1)]
    have H1' := H1.eqv (by frame : _ = cont E o2 al2 s2 + (cont E o al .nil + F))
    rw [bind_ok (find_first_c hs2 hfi H1'), bind_ok (find_end_c hs2 hla H1')]
  unfold Spec
  rw [e]
  refine (ctor_range_c (X := X0) (st := fi) (vs := s2.elems) hE (copySrc_ok (X0 := X0) hs2 hla) hn
    ⟨rfl, hX0, 0, hfi, Nat.zero_le _, by simp⟩ hs2.1 hf H0).mono ?_ ?_
  · rintro _ m' ⟨s', X', st', r, h1, h2, ⟨rfl, -⟩, H'⟩
    refine ⟨s', r, h1, h2, ?_⟩
    have H2 := hX0 _ _ _ (H'.eqv (by frame : _ = X' + (cont E o al s' + F0)))
    rw [← aassoc] at H2
    exact (hF0.right H2).eqv (by rw [aassoc]; ac_rfl)
  · rintro e m' ⟨g', X', k, -, ⟨st, v, vs', -, hX⟩, ht, H'⟩
    have hX : X' = X0 := by rcases hX with hX | hX <;> exact hX.2.1
    subst hX
    exact ⟨hp _ _ H', g', ht, hF0.right (hX0 _ _ _ H')⟩

theorem ctor_copy_c {o2 al2 : Nat} {s2 : St α} (hE : E.Good) (hn : E.nullFree = true) (hs2 : s2.Ok E)
    (hf : m.cell (.obj o) = none) (H : Holds g (cont E o2 al2 s2 + F) m) :
    Spec (ctor_copy E o o2) m
      (fun _ m' => ∃ s' r, s'.Ok E ∧ s'.elems = s2.elems ∧
        Holds { g with reqs := g.reqs + r } (cont E o (E.selectCopy al2) s' + (cont E o2 al2 s2 + F)) m')
      (fun e m' => m'.cell = m.cell ∧ ∃ g', Thrown (CopyThrows E) g g' s2.elems e ∧ Holds g' (cont E o2 al2 s2 + F) m') := by
  unfold ctor_copy
  refine Spec.step (rdObj_c H) ?_
  rw [St.obj_al]
  exact ctor_copy_alloc_c hE hn hs2 hf H

theorem ctor_move_c {o2 al2 : Nat} {s2 : St α} (hf : m.cell (.obj o) = none)
    (H : Holds g (cont E o2 al2 s2 + F) m) :
    ∃ m', ctor_move o o2 m = .ok () m' ∧ Holds g (cont E o al2 s2 + (cont E o2 al2 .nil + F)) m' := by
  unfold ctor_move
  rw [bind_ok (rdObj_c H), St.obj_al]
  obtain ⟨m1, e1, H1⟩ := ctor_c (E := E) (al := al2) hf H
  rw [bind_ok e1]
  rw [cont_nil] at H1
  obtain ⟨m2, e2, H2⟩ := wrObj_ok (s2.obj al2) H1
  rw [bind_ok e2]
  unfold cont at H2
  obtain ⟨m3, e3, H3⟩ := setRoot_ok 0 (H2.eqv (by ac_rfl : _ = Ob o2 (s2.obj al2) + (Ob o (s2.obj al2) + (s2.lay E (E.acls al2) + F))))
  rw [bind_ok e3]
  obtain ⟨m4, e4, H4⟩ := setHeight_ok 0 H3
  rw [bind_ok e4]
  obtain ⟨m5, e5, H5⟩ := setSize_ok 0 H4
  refine ⟨m5, e5, ?_⟩
  rw [cont_nil]
  simp only [St.obj_al, St.obj_nal] at H5
  unfold cont objNil
  exact H5.eqv (by ac_rfl)

theorem steal_c {o2 al2 : Nat} {s2 : St α} {x : SeqObj} (hal : x.ealloc = al) (hnal : x.nalloc = al)
    (hw : E.acls al = E.acls al2) (H : Holds g (Ob o x + (cont E o2 al2 s2 + F)) m) :
    ∃ m', steal o o2 m = .ok () m' ∧ Holds g (cont E o al s2 + (cont E o2 al2 .nil + F)) m' := by
  unfold steal
  have K := H.eqv (by unfold cont; ac_rfl : _ = Ob o2 (s2.obj al2) + (Ob o x + (s2.lay E (E.acls al2) + F)))
  rw [bind_ok (getRoot_ok K)]
  obtain ⟨m1, e1, H1⟩ := setRoot_ok (s2.obj al2).root (K.eqv (by frame : _ = Ob o x + _))
  rw [bind_ok e1]
  rw [bind_ok (getHeight_ok (H1.eqv (by frame : _ = Ob o2 (s2.obj al2) + _)))]
  obtain ⟨m2, e2, H2⟩ := setHeight_ok (s2.obj al2).ht H1
  rw [bind_ok e2]
  rw [bind_ok (getSize_ok (H2.eqv (by frame : _ = Ob o2 (s2.obj al2) + _)))]
  obtain ⟨m3, e3, H3⟩ := setSize_ok (s2.obj al2).sz H2
  rw [bind_ok e3]
  obtain ⟨m4, e4, H4⟩ := setRoot_ok 0 (H3.eqv (by frame : _ = Ob o2 (s2.obj al2) + (_ + _)))
  rw [bind_ok e4]
  obtain ⟨m5, e5, H5⟩ := setHeight_ok 0 H4
  rw [bind_ok e5]
  obtain ⟨m6, e6, H6⟩ := setSize_ok 0 H5
  refine ⟨m6, e6, ?_⟩
  rw [cont_nil]
  simp only [St.obj_al, St.obj_nal, hal, hnal] at H6
  have hobj : s2.obj al = ⟨(s2.obj al2).root, (s2.obj al2).sz, (s2.obj al2).ht, al, al⟩ := by cases s2 <;> rfl
  unfold cont objNil
  rw [hobj, hw]
  exact H6.eqv (by ac_rfl)

theorem moveR_end {o2 al2 : Nat} {s2 : St α} {st : Iter} {X : Asrt α} {a b : Nat} (hb : b ≤ s2.elems.length)
    (h : MoveR E o2 al2 a b s2 st [] X) :
    ∃ s3 : St α, X = cont E o2 al2 s3 ∧ s3.Ok E ∧ (∀ j it, s2.At j it → s3.At j it) ∧
      s3.elems = movedList E a b s2.elems := by
  obtain ⟨s3, i, rfl, hs3, hpres, ha3, -, hi3, hv, he3⟩ := h
  have hi : i = b := by
    have : ((s2.elems.take b).drop i).length = 0 := by rw [← hv]; rfl
    simp at this; omega
  subst hi
  exact ⟨s3, rfl, hs3, fun _ _ h => h.same hpres, he3⟩

theorem moveR_mid {o2 al2 : Nat} {s2 : St α} {X : Asrt α} {a b k : Nat} {e : Exn} (hb : b ≤ s2.elems.length)
    (hab : a ≤ b)
    (h : SrcMid (MoveR E o2 al2 a b s2) (MoveR1 E o2 al2 a b s2) ((s2.elems.take b).drop a) k e X)
    (he : e = .alloc) :
    ∃ s3 : St α, X = cont E o2 al2 s3 ∧ s3.Ok E ∧ a + k + 1 ≤ b ∧ (∀ j it, s2.At j it → s3.At j it) ∧
      s3.elems = movedList E a (a + k + 1) s2.elems := by
  obtain ⟨st, v, ws, hd, hX⟩ := h
  rcases hX with ⟨h, -⟩ | ⟨-, s3, i, rfl, hs3, hp, -, h1, hi, hws, he⟩
  · rw [he] at h; cases h
  · have h2 := congrArg List.length hd
    have h3 := congrArg List.length hws
    simp at h2 h3
    have hik : i = a + k := by omega
    subst hik
    exact ⟨s3, rfl, hs3, by omega, fun _ _ h => h.same hp, he⟩

theorem Thrown.alloc {g g' : Log} {vs : List α} {e : Exn} (h : Thrown (fun _ => False) g g' vs e) :
    e = .alloc ∧ g'.fails = g.fails + 1 := by
  rcases h with h | ⟨-, -, v, -, h⟩
  · exact h
  · exact h.elim

theorem ctor_move_alloc_c {o2 al2 : Nat} {s2 : St α} (hE : E.Good) (hn : E.nullFree = true) (hs2 : s2.Ok E)
    (hf : m.cell (.obj o) = none) (H : Holds g (cont E o2 al2 s2 + F) m) :
    (E.acls al = E.acls al2 → ∃ m', ctor_move_alloc E o o2 al m = .ok () m' ∧
      Holds g (cont E o al s2 + (cont E o2 al2 .nil + F)) m') ∧
    (E.acls al ≠ E.acls al2 → Spec (ctor_move_alloc E o o2 al) m
      (fun _ m' => ∃ s' s2' r, s'.Ok E ∧ s'.elems = s2.elems ∧ s2'.Ok E ∧ s2'.elems = s2.elems.map E.moved ∧
        Holds { g with reqs := g.reqs + r } (cont E o al s' + (cont E o2 al2 s2' + F)) m')
      (fun e m' => ∃ g' s2' k, k < s2.elems.length ∧ s2'.Ok E ∧ s2'.elems = movedList E 0 (k + 1) s2.elems ∧
        e = .alloc ∧ g'.fails = g.fails + 1 ∧ Holds g' (cont E o2 al2 s2' + F) m')) := by
  obtain ⟨m1, e1, H1⟩ := ctor_c (E := E) (al := al) hf H
  have H1' := H1.eqv (by frame : _ = cont E o2 al2 s2 + (cont E o al .nil + F))
  have hnil : (St.nil : St α).Ok E := St.Ok.nil (by have := hs2.1; omega)
  obtain ⟨l, hl⟩ := St.At.exists hnil (Nat.le_refl _)
  constructor
  · intro hw
    unfold ctor_move_alloc delegating
    rw [bind_ok e1]
    rw [cont_nil] at H1
    obtain ⟨m2, e2, H2⟩ := steal_c (x := objNil al al) rfl rfl hw H1
    refine ⟨m2, ?_, H2⟩
    unfold M.onThrow
    rw [bind_ok (rdObj_c H1'), St.obj_al, if_pos hw, e2]
  · intro hw
    obtain ⟨fi, hfi⟩ := St.At.exists hs2 (Nat.zero_le _)
    obtain ⟨la, hla⟩ := St.At.exists hs2 (Nat.le_refl _)
    have e : ctor_move_alloc E o o2 al m = delegating E o al (do
        let it ← find_end E o
        let _ ← emplace_range E (moveSrc E la) o it fi) m := by
      unfold ctor_move_alloc
      refine delegating_congr hf ?_
      intro m1' e1'
      rw [e1] at e1'
      injection e1' with _ e1'
      subst e1'
      rw [bind_ok (rdObj_c H1'), St.obj_al, if_neg hw]
      rw [bind_ok (find_end_c hnil hl H1), bind_ok (find_end_c hnil hl H1)]
      rw [bind_ok (find_first_c hs2 hfi H1'), bind_ok (find_end_c hs2 hla H1')]
    unfold Spec
    rw [e]
    refine (ctor_range_c (X := cont E o2 al2 s2) (st := fi) (vs := s2.elems) hE
      (moveSrc_ok (a := 0) hE hla) hn
      ⟨s2, 0, rfl, hs2, .refl _, hfi, Nat.le_refl _, Nat.zero_le _, by simp, by simp [movedList]⟩
      hs2.1 hf H).mono ?_ ?_
    · rintro _ m' ⟨s', X', st', r, h1, h2, ⟨s3, i, rfl, hs3, -, ha3, -, hi3, hv, he3⟩, H'⟩
      have hi : i = s2.elems.length := by
        have : ((s2.elems.take s2.elems.length).drop i).length = 0 := by rw [← hv]; rfl
        simp at this; omega
      subst hi
      exact ⟨s', s3, r, h1, h2, hs3, by simpa [movedList] using he3, H'⟩
    · rintro e m' ⟨g', X', k, hk, hX, ht, H'⟩
      obtain ⟨s3, rfl, hs3, -, -, he⟩ := moveR_mid (a := 0) (Nat.le_refl _) (Nat.zero_le _) (by simpa using hX) ht.alloc.1
      exact ⟨g', s3, k, hk, hs3, by simpa using he, ht.alloc.1, ht.alloc.2, H'⟩

/-! ### assignment -/

theorem obj_al_eq {s : St α} {al al2 : Nat} : ({ s.obj al with ealloc := al2, nalloc := al2 } : SeqObj) = s.obj al2 := by
  cases s <;> rfl

/-- change the allocator of a container to an equal one -/
theorem relabel_c {s : St α} {al2 : Nat} (hw : E.acls al = E.acls al2) (H : Holds g (cont E o al s + F) m) :
    ∃ m', wrObj o { s.obj al with ealloc := al2, nalloc := al2 } m = .ok () m' ∧ Holds g (cont E o al2 s + F) m' := by
  obtain ⟨m', e, H'⟩ := wrObj_ok ({ s.obj al with ealloc := al2, nalloc := al2 } : SeqObj) (cont_obj H)
  refine ⟨m', e, ?_⟩
  rw [obj_al_eq] at H'
  unfold cont
  rw [← hw]
  exact H'.eqv (by ac_rfl)

theorem copy_assign_alloc_c {o2 al2 : Nat} {s s2 : St α} (hs : s.Ok E)
    (hn : E.pocca = true → ¬ SameAlloc E al al2 → s.elems ≠ [] ∨ E.nullFree = true) (H : Holds g (cont E o al s + (cont E o2 al2 s2 + F)) m) :
    ∃ m' s', copy_assign_alloc E o o2 m = .ok () m' ∧ s'.Ok E ∧
      (¬ (E.pocca = true ∧ ¬ SameAlloc E al al2) → s'.elems = s.elems) ∧
      ((E.pocca = true ∧ ¬ SameAlloc E al al2) → s'.elems = []) ∧
      Holds g (cont E o (if E.pocca then al2 else al) s' + (cont E o2 al2 s2 + F)) m' := by
  unfold copy_assign_alloc
  by_cases hp : E.pocca = true
  · rw [if_pos hp, if_pos hp]
    rw [bind_ok (rdObj_c H), bind_ok (rdObj_c (H.eqv (by frame : _ = cont E o2 al2 s2 + (_ + _)))), St.obj_al, St.obj_al,
      St.obj_nal]
    by_cases hw : E.acls al = E.acls al2
    · rw [if_neg (by simpa using hw)]
      obtain ⟨m1, e1, H1⟩ := relabel_c hw H
      refine ⟨m1, s, ?_, hs, fun _ => rfl, fun h => absurd hw h.2, H1⟩
      show (rdObj o >>= _) m = _
      rw [bind_ok (rdObj_c H)]; exact e1
    · rw [if_pos hw]
      obtain ⟨m1, e1, H1⟩ := clear_c hs (hn hp hw) H
      show ∃ m' s', (clear E o >>= fun _ => rdObj o >>= _) m = _ ∧ _
      rw [bind_ok e1, bind_ok (rdObj_c H1)]
      rw [cont_nil] at H1
      obtain ⟨m2, e2, H2⟩ := wrObj_ok ({ (St.nil : St α).obj al with ealloc := al2, nalloc := al2 } : SeqObj) H1
      refine ⟨m2, .nil, e2, St.Ok.nil (by have := hs.1; omega), fun h => absurd ⟨hp, hw⟩ h, fun _ => rfl, ?_⟩
      rw [cont_nil]; exact H2
  · rw [if_neg hp, if_neg hp]
    exact ⟨m, s, rfl, hs, fun _ => rfl, fun h => absurd h.1 hp, H⟩

theorem assign_copy_c {o2 al2 : Nat} {s s2 : St α} (hE : E.Good) (hs : s.Ok E) (hs2 : s2.Ok E)
    (hn : E.pocca = true → ¬ SameAlloc E al al2 → s.elems ≠ [] ∨ E.nullFree = true)
    (H : Holds g (cont E o al s + (cont E o2 al2 s2 + F)) m) :
    Spec (assign_copy E o o2) m
      (fun _ m' => ∃ s' r, s'.Ok E ∧ s'.elems = s2.elems ∧
        Holds { g with reqs := g.reqs + r }
          (cont E o (if E.pocca then al2 else al) s' + (cont E o2 al2 s2 + F)) m')
      (fun e m' => ∃ s' g' k xs, k < s2.elems.length ∧ s'.Ok E ∧ Thrown (CopyThrows E) g g' s2.elems e ∧
        (¬ (E.pocca = true ∧ ¬ SameAlloc E al al2) → xs = s.elems) ∧
        ((E.pocca = true ∧ ¬ SameAlloc E al al2) → xs = []) ∧
        s'.elems = s2.elems.take k ++ xs.drop k ∧
        Holds g' (cont E o (if E.pocca then al2 else al) s' + (cont E o2 al2 s2 + F)) m') := by
  unfold assign_copy
  rw [if_pos H.obj_ne]
  obtain ⟨m1, s1, e1, hs1, hx1, hx2, H1⟩ := copy_assign_alloc_c hs hn H
  refine Spec.step e1 ?_
  obtain ⟨fi, hfi⟩ := St.At.exists hs2 (Nat.zero_le _)
  obtain ⟨la, hla⟩ := St.At.exists hs2 (Nat.le_refl _)
  have H1' := H1.eqv (by frame : _ = cont E o2 al2 s2 + (_ + _))
  refine Spec.step (find_first_c hs2 hfi H1') (Spec.step (find_end_c hs2 hla H1') ?_)
  refine (assign_range_c (X := cont E o2 al2 s2) (vs := s2.elems) hE (copySrc_ok hs2 hla) hs1
    ⟨rfl, Ent.refl _, 0, hfi, Nat.zero_le _, by simp⟩ hs2.1 H1).mono ?_ ?_
  · rintro _ m' ⟨s', X', st', r, h1, h2, ⟨rfl, -⟩, H'⟩
    exact ⟨s', r, h1, h2, H'⟩
  · rintro e m' ⟨s', X', g', k, hk, h1, he, ⟨st, v, vs', -, hX⟩, ht, H'⟩
    have hX : X' = cont E o2 al2 s2 := by rcases hX with hX | hX <;> exact hX.2.1
    subst hX
    exact ⟨s', g', k, s1.elems, hk, h1, ht, hx1, hx2, he, H'⟩

/-- self copy assignment does nothing -/
theorem assign_copy_self : assign_copy E o o m = .ok () m := by
  unfold assign_copy; rw [if_neg (by simp)]; rfl

theorem move_assign_steal_c {o2 al2 : Nat} {s s2 : St α} (hs : s.Ok E)
    (hw : E.pocma = true ∨ E.acls al = E.acls al2)
    (hn : s.elems ≠ [] ∨ E.nullFree = true) (H : Holds g (cont E o al s + (cont E o2 al2 s2 + F)) m) :
    ∃ m', move_assign_steal E o o2 m = .ok () m' ∧
      Holds g (cont E o (if E.pocma then al2 else al) s2 + (cont E o2 al2 .nil + F)) m' := by
  unfold move_assign_steal
  obtain ⟨m1, e1, H1⟩ := purge_c hs hn H
  rw [bind_ok e1]
  unfold move_assign_alloc
  by_cases hp : E.pocma = true
  · rw [if_pos hp, if_pos hp]
    simp only [bind_assoc]
    rw [bind_ok (rdObj_c (H1.eqv (by frame : _ = cont E o2 al2 s2 + (_ + _)))), bind_ok (rdObj_ok H1), St.obj_al, St.obj_nal]
    obtain ⟨m2, e2, H2⟩ := wrObj_ok ({ s.obj al with ealloc := al2, nalloc := al2 } : SeqObj) H1
    rw [bind_ok e2]
    exact steal_c (al := al2) rfl rfl rfl H2
  · rw [if_neg hp, if_neg hp]
    exact steal_c (St.obj_al _) (St.obj_nal _) (hw.resolve_left hp) H1

/-- move assignment between distinct containers -/
theorem assign_move_steal_c {o2 al2 : Nat} {s s2 : St α} (hs : s.Ok E)
    (hw : E.pocma = true ∨ E.acls al = E.acls al2)
    (hn : s.elems ≠ [] ∨ E.nullFree = true) (H : Holds g (cont E o al s + (cont E o2 al2 s2 + F)) m) :
    ∃ m', assign_move E o o2 m = .ok () m' ∧
      Holds g (cont E o (if E.pocma then al2 else al) s2 + (cont E o2 al2 .nil + F)) m' := by
  unfold assign_move move_assign
  by_cases hp : E.pocma = true
  · rw [if_pos hp]; exact move_assign_steal_c hs hw hn H
  · rw [if_neg hp, bind_ok (rdObj_c H), bind_ok (rdObj_c (H.eqv (by frame : _ = cont E o2 al2 s2 + (_ + _)))),
      St.obj_al, St.obj_al, if_neg (by simpa using hw.resolve_left hp)]
    exact move_assign_steal_c hs hw hn H

theorem assign_move_elems_c {o2 al2 : Nat} {s s2 : St α} (hE : E.Good) (hs : s.Ok E) (hs2 : s2.Ok E)
    (hp : E.pocma = false) (hw : E.acls al ≠ E.acls al2)
    (H : Holds g (cont E o al s + (cont E o2 al2 s2 + F)) m) :
    Spec (assign_move E o o2) m
      (fun _ m' => ∃ s' s2' r, s'.Ok E ∧ s'.elems = s2.elems ∧ s2'.Ok E ∧ s2'.elems = s2.elems.map E.moved ∧
        Holds { g with reqs := g.reqs + r } (cont E o al s' + (cont E o2 al2 s2' + F)) m')
      (fun e m' => ∃ s' s2' k g', s'.Ok E ∧ s2'.Ok E ∧ k < s2.elems.length ∧
        s'.elems = s2.elems.take k ++ s.elems.drop k ∧ s2'.elems = movedList E 0 (k + 1) s2.elems ∧
        e = .alloc ∧ g'.fails = g.fails + 1 ∧ Holds g' (cont E o al s' + (cont E o2 al2 s2' + F)) m') := by
  unfold assign_move move_assign
  have H' := H.eqv (by frame : _ = cont E o2 al2 s2 + (_ + _))
  rw [if_neg (by simp [hp])]
  refine Spec.step (rdObj_c H) (Spec.step (rdObj_c H') ?_)
  rw [St.obj_al, St.obj_al, if_pos hw]
  obtain ⟨fi, hfi⟩ := St.At.exists hs2 (Nat.zero_le _)
  obtain ⟨la, hla⟩ := St.At.exists hs2 (Nat.le_refl _)
  refine Spec.step (find_first_c hs2 hfi H') (Spec.step (find_end_c hs2 hla H') ?_)
  refine (assign_range_c (X := cont E o2 al2 s2) (vs := s2.elems) hE (moveSrc_ok (a := 0) hE hla) hs
    ⟨s2, 0, rfl, hs2, .refl _, hfi, Nat.le_refl _, Nat.zero_le _, by simp, by simp [movedList]⟩
    hs2.1 H).mono ?_ ?_
  · rintro _ m' ⟨s', X', st', r, h1, h2, hR, H'⟩
    obtain ⟨s3, rfl, hs3, -, he3⟩ := moveR_end (Nat.le_refl _) hR
    exact ⟨s', s3, r, h1, h2, hs3, by simpa [movedList] using he3, H'⟩
  · rintro e m' ⟨s', X', g', k, hk, h1, h2, hX, ht, H'⟩
    obtain ⟨s3, rfl, hs3, -, -, he⟩ := moveR_mid (a := 0) (Nat.le_refl _) (Nat.zero_le _) (by simpa using hX) ht.alloc.1
    exact ⟨s', s3, k, g', h1, hs3, hk, h2, by simpa using he, ht.alloc.1, ht.alloc.2, H'⟩

/-- self move assignment empties the container when the steal branch is taken
(which is always the case, the allocator being equal to itself) -/
theorem assign_move_self_c {s : St α} (hs : s.Ok E)
    (hn : s.elems ≠ [] ∨ E.nullFree = true) (H : Holds g (cont E o al s + F) m) :
    ∃ m', assign_move E o o m = .ok () m' ∧ Holds g (cont E o al .nil + F) m' := by
  have key : ∃ m', move_assign_steal E o o m = .ok () m' ∧ Holds g (cont E o al .nil + F) m' := by
    unfold move_assign_steal
    obtain ⟨m1, e1, H1⟩ := purge_c hs hn H
    rw [bind_ok e1]
    have key2 : ∀ {m1 : Mem α} {x : SeqObj}, x.ealloc = al → x.nalloc = al → Holds g (Ob o x + F) m1 →
        ∃ m', steal o o m1 = .ok () m' ∧ Holds g (cont E o al .nil + F) m' := by
      intro m1 x h1 h2 H1
      unfold steal
      rw [bind_ok (getRoot_ok H1)]
      obtain ⟨m2, e2, H2⟩ := setRoot_ok x.root H1
      rw [bind_ok e2, bind_ok (getHeight_ok H2)]
      obtain ⟨m3, e3, H3⟩ := setHeight_ok x.ht H2
      rw [bind_ok e3, bind_ok (getSize_ok H3)]
      obtain ⟨m4, e4, H4⟩ := setSize_ok x.sz H3
      rw [bind_ok e4]
      obtain ⟨m5, e5, H5⟩ := setRoot_ok 0 H4
      rw [bind_ok e5]
      obtain ⟨m6, e6, H6⟩ := setHeight_ok 0 H5
      rw [bind_ok e6]
      obtain ⟨m7, e7, H7⟩ := setSize_ok 0 H6
      refine ⟨m7, e7, ?_⟩
      rw [cont_nil]
      simp only [h1, h2] at H7
      exact H7
    unfold move_assign_alloc
    by_cases hp : E.pocma = true
    · rw [if_pos hp]
      simp only [bind_assoc]
      rw [bind_ok (rdObj_ok H1), bind_ok (rdObj_ok H1)]
      obtain ⟨m2, e2, H2⟩ := wrObj_ok ({ s.obj al with ealloc := (s.obj al).ealloc, nalloc := (s.obj al).nalloc } : SeqObj) H1
      rw [bind_ok e2]
      exact key2 (St.obj_al _) (St.obj_nal _) H2
    · rw [if_neg hp]
      exact key2 (St.obj_al _) (St.obj_nal _) H1
  unfold assign_move move_assign
  by_cases hp : E.pocma = true
  · rw [if_pos hp]; exact key
  · rw [if_neg hp, bind_ok (rdObj_c H), bind_ok (rdObj_c H), if_neg (by simp)]
    exact key

/-! ### swap -/

theorem swap_c {o2 al2 : Nat} {s s2 : St α} (hw : E.pocs = true ∨ E.acls al = E.acls al2)
    (H : Holds g (cont E o al s + (cont E o2 al2 s2 + F)) m) :
    ∃ m', swap E o o2 m = .ok () m' ∧
      Holds g (cont E o (if E.pocs then al2 else al) s2 + (cont E o2 (if E.pocs then al else al2) s + F)) m' := by
  unfold swap
  have K := H.eqv (by unfold cont; ac_rfl : _ = Ob o (s.obj al) + (Ob o2 (s2.obj al2) +
    (s.lay E (E.acls al) + (s2.lay E (E.acls al2) + F))))
  rw [bind_ok (rdObj_ok K), bind_ok (rdObj_ok (K.eqv (by frame : _ = Ob o2 (s2.obj al2) + (_ + _))))]
  obtain ⟨m1, e1, H1⟩ := wrObj_ok ({ s.obj al with root := (s2.obj al2).root, ht := (s2.obj al2).ht, sz := (s2.obj al2).sz } : SeqObj) K
  rw [bind_ok e1]
  have h1 : ({ s.obj al with root := (s2.obj al2).root, ht := (s2.obj al2).ht, sz := (s2.obj al2).sz } : SeqObj) = s2.obj al := by
    cases s <;> cases s2 <;> rfl
  have h2 : ({ s2.obj al2 with root := (s.obj al).root, ht := (s.obj al).ht, sz := (s.obj al).sz } : SeqObj) = s.obj al2 := by
    cases s <;> cases s2 <;> rfl
  have H1' := H1.eqv (by frame : _ = Ob o2 (s2.obj al2) + (_ + _))
  rw [bind_ok (rdObj_ok H1')]
  obtain ⟨m2, e2, H2⟩ := wrObj_ok ({ s2.obj al2 with root := (s.obj al).root, ht := (s.obj al).ht, sz := (s.obj al).sz } : SeqObj) H1'
  rw [bind_ok e2]
  rw [h1, h2] at H2
  by_cases hp : E.pocs = true
  · rw [if_pos hp, if_pos hp, if_pos hp]
    have H2' := H2.eqv (by frame : _ = Ob o (s2.obj al) + (_ + _))
    rw [bind_ok (rdObj_ok H2'), bind_ok (rdObj_ok H2)]
    obtain ⟨m3, e3, H3⟩ := wrObj_ok ({ s2.obj al with ealloc := (s.obj al2).ealloc, nalloc := (s.obj al2).nalloc } : SeqObj) H2'
    rw [bind_ok e3]
    have H3' := H3.eqv (by frame : _ = Ob o2 (s.obj al2) + (_ + _))
    rw [bind_ok (rdObj_ok H3')]
    obtain ⟨m4, e4, H4⟩ := wrObj_ok ({ s.obj al2 with ealloc := (s2.obj al).ealloc, nalloc := (s2.obj al).nalloc } : SeqObj) H3'
    refine ⟨m4, e4, ?_⟩
    simp only [St.obj_al, St.obj_nal, obj_al_eq] at H4
    unfold cont
    exact H4.eqv (by ac_rfl)
  · rw [if_neg hp, if_neg hp, if_neg hp]
    refine ⟨m2, rfl, ?_⟩
    have hw := hw.resolve_left hp
    unfold cont
    rw [hw] at H2 ⊢
    exact H2.eqv (by ac_rfl)

theorem swap_self_c {s : St α} (H : Holds g (cont E o al s + F) m) :
    ∃ m', swap E o o m = .ok () m' ∧ Holds g (cont E o al s + F) m' := by
  unfold swap
  have K := cont_obj H
  rw [bind_ok (rdObj_ok K), bind_ok (rdObj_ok K)]
  obtain ⟨m1, e1, H1⟩ := wrObj_ok ({ s.obj al with root := (s.obj al).root, ht := (s.obj al).ht, sz := (s.obj al).sz } : SeqObj) K
  rw [bind_ok e1, bind_ok (rdObj_ok H1)]
  obtain ⟨m2, e2, H2⟩ := wrObj_ok ({ ({ s.obj al with root := (s.obj al).root, ht := (s.obj al).ht, sz := (s.obj al).sz } : SeqObj) with root := (s.obj al).root, ht := (s.obj al).ht, sz := (s.obj al).sz } : SeqObj) H1
  rw [bind_ok e2]
  have H2 : Holds g (Ob o (s.obj al) + (s.lay E (E.acls al) + F)) m2 := H2
  by_cases hp : E.pocs = true
  · rw [if_pos hp]
    rw [bind_ok (rdObj_ok H2), bind_ok (rdObj_ok H2)]
    obtain ⟨m3, e3, H3⟩ := wrObj_ok ({ s.obj al with ealloc := (s.obj al).ealloc, nalloc := (s.obj al).nalloc } : SeqObj) H2
    rw [bind_ok e3, bind_ok (rdObj_ok H3)]
    obtain ⟨m4, e4, H4⟩ := wrObj_ok ({ s.obj al with ealloc := (s.obj al).ealloc, nalloc := (s.obj al).nalloc } : SeqObj) H3
    refine ⟨m4, e4, ?_⟩
    unfold cont
    exact H4.eqv (by ac_rfl)
  · rw [if_neg hp]
    refine ⟨m2, rfl, ?_⟩
    unfold cont
    exact H2.eqv (by ac_rfl)

/-! ### splice -/

theorem splice_c {o2 al2 i : Nat} {s s2 : St α} {it : Iter} (hE : E.Good) (hs : s.Ok E) (hs2 : s2.Ok E) (ha : s.At i it)
    (hn : s2.elems ≠ [] ∨ E.nullFree = true) (hW : s.elems.length + s2.elems.length < E.W)
    (H : Holds g (cont E o al s + (cont E o2 al2 s2 + F)) m) :
    Spec (splice E o it o2) m
      (fun _ m' => ∃ s' r, s'.Ok E ∧ s'.elems = s.elems.take i ++ (s2.elems ++ s.elems.drop i) ∧
        Holds { g with reqs := g.reqs + r } (cont E o al s' + (cont E o2 al2 .nil + F)) m')
      (fun e m' => ∃ s' s2' g' k, s'.Ok E ∧ s2'.Ok E ∧ k < s2.elems.length ∧
        s'.elems = s.elems.take i ++ (s2.elems.take k ++ s.elems.drop i) ∧
        s2'.elems = movedList E 0 (k + 1) s2.elems ∧ e = .alloc ∧ g'.fails = g.fails + 1 ∧
        Holds g' (cont E o al s' + (cont E o2 al2 s2' + F)) m') := by
  unfold splice
  have H' := H.eqv (by frame : _ = cont E o2 al2 s2 + (_ + _))
  obtain ⟨fi, hfi⟩ := St.At.exists hs2 (Nat.zero_le _)
  obtain ⟨la, hla⟩ := St.At.exists hs2 (Nat.le_refl _)
  refine Spec.step (find_first_c hs2 hfi H') (Spec.step (find_end_c hs2 hla H') ?_)
  refine ((emplace_range_c (X := cont E o2 al2 s2) (vs := s2.elems) hE (moveSrc_ok (a := 0) hE hla) hs ha
    ⟨s2, 0, rfl, hs2, .refl _, hfi, Nat.le_refl _, Nat.zero_le _, by simp, by simp [movedList]⟩
    hW H).mono (fun _ _ h => h) ?_).bind ?_
  · rintro e m' ⟨s', X', g', k, hk, h1, h2, hX, ht, H'⟩
    obtain ⟨s3, rfl, hs3, -, -, he⟩ := moveR_mid (a := 0) (Nat.le_refl _) (Nat.zero_le _) (by simpa using hX) ht.alloc.1
    exact ⟨s', s3, g', k, h1, hs3, hk, h2, by simpa using he, ht.alloc.1, ht.alloc.2, H'⟩
  · rintro it1 m1 ⟨s1, X1, st1, r, hs1, he1, -, hR1, H1⟩
    obtain ⟨s3, rfl, hs3, -, he3⟩ := moveR_end (Nat.le_refl _) hR1
    have hne : s3.elems ≠ [] ∨ E.nullFree = true := by
      rcases hn with hn | hn
      · left
        rw [he3]
        intro h
        have := congrArg List.length h
        rw [movedList_length (by omega) (Nat.le_refl _)] at this
        exact hn (List.eq_nil_of_length_eq_zero this)
      · exact .inr hn
    obtain ⟨m2, e2, H2⟩ := clear_c hs3 hne (H1.eqv (by frame : _ = cont E o2 al2 s3 + (_ + _)))
    exact Spec.ok e2 ⟨s1, r, hs1, he1, H2.eqv (by frame)⟩

theorem Spec.congr {β : Type} {x y : M α β} {Q : β → Mem α → Prop} {T : Exn → Mem α → Prop} (h : x m = y m)
    (hy : Spec y m Q T) : Spec x m Q T := by
  unfold Spec at *
  rw [h]; exact hy

theorem splice_one_c {o2 al2 i j : Nat} {s s2 : St α} {it jt : Iter} (hE : E.Good) (hs : s.Ok E) (hs2 : s2.Ok E)
    (ha : s.At i it) (hj : s2.At j jt) (hjl : j < s2.elems.length) (hW : s.elems.length + 1 < E.W)
    (H : Holds g (cont E o al s + (cont E o2 al2 s2 + F)) m) :
    Spec (splice_one E o it o2 jt) m
      (fun _ m' => ∃ s' s2' r, s'.Ok E ∧ s2'.Ok E ∧ s'.elems = s.elems.take i ++ s2.elems[j] :: s.elems.drop i ∧
        s2'.elems = s2.elems.eraseIdx j ∧
        Holds { g with reqs := g.reqs + r } (cont E o al s' + (cont E o2 al2 s2' + F)) m')
      (fun e m' => m'.cell = m.cell ∧ ∃ g', Thrown (CopyThrows E) g g' [s2.elems[j]] e ∧
        Holds g' (cont E o al s + (cont E o2 al2 s2 + F)) m') := by
  unfold splice_one
  have H' := H.eqv (by frame : _ = cont E o2 al2 s2 + (_ + _))
  have hemp : emplace_single E o it (do copyVal E (← dereference E jt)) m =
      emplace_single E o it (copyVal E s2.elems[j]) m := by
    unfold emplace_single
    rw [bind_assoc, bind_ok (dereference_c hs2 hj hjl H')]
  refine ((Spec.congr hemp (emplace_single_c hE (Mk.copy s2.elems[j]) hs ha hW H)).mono (fun _ _ h => h) ?_).bind ?_
  · rintro e m' ⟨h2, g', h3, -, H3⟩
    exact ⟨h2, g', h3, H3⟩
  · rintro it1 m1 ⟨s1, n, hs1, he1, -, -, H1⟩
    refine ((erase_single_c hE hs2 hj hjl (H1.eqv (by frame : _ = cont E o2 al2 s2 + (cont E o al s1 + F)))).mono
      (fun _ _ h => h) (fun _ _ h => h.elim)).bind ?_
    rintro it2 m2 ⟨s3, hs3, he3, -, H2⟩
    exact Spec.pure ⟨s1, s3, n, hs1, hs3, he1, he3, H2.eqv (by frame)⟩

theorem splice_range_c {o2 al2 i a b : Nat} {s s2 : St α} {it fi la : Iter} (hE : E.Good) (hs : s.Ok E) (hs2 : s2.Ok E)
    (ha : s.At i it) (hfi : s2.At a fi) (hla : s2.At b la) (hab : a ≤ b)
    (hW : s.elems.length + (b - a) < E.W)
    (H : Holds g (cont E o al s + (cont E o2 al2 s2 + F)) m) :
    Spec (splice_range E o it o2 fi la) m
      (fun _ m' => ∃ s' s2' r, s'.Ok E ∧ s2'.Ok E ∧
        s'.elems = s.elems.take i ++ ((s2.elems.take b).drop a ++ s.elems.drop i) ∧
        s2'.elems = s2.elems.take a ++ s2.elems.drop b ∧
        Holds { g with reqs := g.reqs + r } (cont E o al s' + (cont E o2 al2 s2' + F)) m')
      (fun e m' => ∃ s' s2' g' k, s'.Ok E ∧ s2'.Ok E ∧ k < b - a ∧
        s'.elems = s.elems.take i ++ (((s2.elems.take b).drop a).take k ++ s.elems.drop i) ∧
        s2'.elems = movedList E a (a + k + 1) s2.elems ∧ e = .alloc ∧ g'.fails = g.fails + 1 ∧
        Holds g' (cont E o al s' + (cont E o2 al2 s2' + F)) m') := by
  unfold splice_range
  have hb := hla.le
  have hlen : ((s2.elems.take b).drop a).length = b - a := by simp; omega
  refine ((emplace_range_c (X := cont E o2 al2 s2) (vs := (s2.elems.take b).drop a) hE (moveSrc_ok (a := a) hE hla) hs ha
    ⟨s2, a, rfl, hs2, .refl _, hfi, Nat.le_refl _, hab, rfl, by simp [movedList]⟩
    (by omega) H).mono (fun _ _ h => h) ?_).bind ?_
  · rintro e m' ⟨s', X', g', k, hk, h1, h2, hX, ht, H'⟩
    obtain ⟨s3, rfl, hs3, hj, -, he⟩ := moveR_mid hb hab hX ht.alloc.1
    exact ⟨s', s3, g', k, h1, hs3, by omega, h2, he, ht.alloc.1, ht.alloc.2, H'⟩
  · rintro it1 m1 ⟨s1, X1, st1, r, hs1, he1, -, hR1, H1⟩
    obtain ⟨s3, rfl, hs3, hpres, he3⟩ := moveR_end hb hR1
    refine ((erase_range_c hE (b - a) hs3 hfi.pos (hpres _ _ hla) (by omega)
      (H1.eqv (by frame : _ = cont E o2 al2 s3 + (cont E o al s1 + F)))).mono
      (fun _ _ h => h) (fun _ _ h => h.elim)).bind ?_
    rintro it2 m2 ⟨s4, hs4, he4, -, H2⟩
    refine Spec.pure ⟨s1, s4, r, hs1, hs4, he1, ?_, H2.eqv (by frame)⟩
    rw [he4, he3, movedList, List.take_append_of_le_length (by simp; omega), List.take_take, Nat.min_self,
      ← List.append_assoc, List.drop_append]
    have : (s2.elems.take a ++ ((s2.elems.take b).drop a).map E.moved).length = b := by simp; omega
    rw [List.drop_eq_nil_of_le (by omega), this]; simp

end

end SegTree
