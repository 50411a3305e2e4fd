/-
  Clients in threads of their own, on the containers of one memory.
-/
import Verif.Thread.Machine
import Verif.Thread.Split
import Mathlib.Data.Fintype.Basic
set_option autoImplicit false
set_option linter.unusedSectionVars false

namespace SegTree

variable {ι α : Type} [DecidableEq ι]

/-- Clients about to run in threads of their own, on the containers in `mem`. -/
structure Crew (ι α : Type) where
  /-- the memory in which they start -/
  mem : Mem α
  /-- the thread that container `o` belongs to (or will belong to); if there is none,
  `o` is lent to all of them -/
  owner : Nat → Option ι
  /-- allocator, throwing copies and fresh memory, for each thread -/
  site : ι → Site α
  /-- the program of each thread -/
  client : ι → Client α
  /-- the number of its calls that are looked at -/
  calls : ι → Nat

namespace Crew

/-- container `o` belongs to thread `i` -/
def Owns (C : Crew ι α) (i : ι) (o : Nat) : Prop := C.owner o = some i

/-- container `o` is lent to all threads -/
def Lent (C : Crew ι α) (o : Nat) : Prop := C.owner o = none

/-- the surroundings of thread `i` -/
def at_ (C : Crew ι α) (E : Env α) (i : ι) : Env α := E.on (C.site i)

/-- the threads, with the parts of the memory that belong to each -/
noncomputable def team (C : Crew ι α) (E : Env α) : Team ι α (List (Out α)) where
  prog i := (C.client i).among (C.at_ E i) (C.calls i) []
  part i := C.mem.only (C.Owns i)
  lent := C.mem.only C.Lent
  mem := C.mem.cell

/-- the containers of `S` that thread `i` may use -/
noncomputable def sees (C : Crew ι α) (S : Bank α) (i : ι) : Bank α := S.only fun o => C.Owns i o ∨ C.Lent o

/-- Rules for the threads: nobody's allocator hands out memory of a lent container;
every client makes all its calls within their preconditions, on its own containers and
those lent, and changes only its own. -/
structure Legal (C : Crew ι α) (E : Env α) (S : Bank α) : Prop where
  spares : ∀ i n o, C.Lent o → ¬ Belongs C.mem o (.heap ((C.site i).oracle n))
  legal : ∀ i, (C.client i).Legal (C.at_ E i) C.Lent (C.calls i) [] (C.sees S i)

end Crew

theorem Client.Legal.mono {E : Env α} {c : Client α} {p q : Nat → Prop} (h : ∀ o, q o → p o) (K : Nat) :
    ∀ (hist : List (Out α)) (S : Bank α), c.Legal E p K hist S → c.Legal E q K hist S := by
  induction K with
  | zero => exact fun _ _ _ => trivial
  | succ K ih =>
    intro hist S hl
    unfold Client.Legal at hl ⊢
    cases hc : c hist with
    | none => trivial
    | some op =>
      rw [hc] at hl
      exact ⟨hl.1, fun o ho hq => hl.2.1 o ho (h o hq), fun r S' hr => ih _ _ (hl.2.2.1 r S' hr), fun e S' hr => ih _ _ (hl.2.2.2 e S' hr)⟩

theorem Bank.only_or {S : Bank α} {p q : Nat → Prop} : (S.only fun o => p o ∨ q o) = (S.only p).join (S.only q) := by
  funext o
  unfold Bank.join
  by_cases hp : p o
  · rw [Bank.only_pos (p := fun o => p o ∨ q o) (.inl hp), Bank.only_pos hp]
    by_cases hq : q o
    · rw [Bank.only_pos hq]; cases S o <;> rfl
    · rw [Bank.only_neg hq, Option.or_none]
  · rw [Bank.only_neg hp, Option.none_or]
    by_cases hq : q o
    · rw [Bank.only_pos (p := fun o => p o ∨ q o) (.inr hq), Bank.only_pos hq]
    · rw [Bank.only_neg (p := fun o => p o ∨ q o) (by simp [hp, hq]), Bank.only_neg hq]

namespace Crew

variable {C : Crew ι α} {S : Bank α} {E : Env α}

theorem apart (C : Crew ι α) (hI : Inv E S C.mem) : (C.team E).Apart where
  part i l c hc := by
    have hn : (C.mem.only (C.Owns i)).cell l ≠ none := by
      show ((C.team E).part i).cell l ≠ none
      rw [hc]; exact Option.some_ne_none _
    rw [← hc]
    exact (Mem.only_pos (Mem.only_some hn).2).symm
  lent l c hc := by
    have hn : (C.mem.only C.Lent).cell l ≠ none := by
      show (C.team E).lent.cell l ≠ none
      rw [hc]; exact Option.some_ne_none _
    rw [← hc]
    exact (Mem.only_pos (Mem.only_some hn).2).symm
  mine i j l hij hl := by
    by_contra hj
    obtain ⟨hm, o, ho, hb⟩ := Mem.only_some (p := C.Owns i) hl
    obtain ⟨-, o', ho', hb'⟩ := Mem.only_some (p := C.Owns j) hj
    have := hI.alone hb hb' hm
    subst this
    unfold Owns at ho ho'
    rw [ho] at ho'; cases ho'
    exact hij rfl
  ours i l hl := by
    by_contra hj
    obtain ⟨hm, o, ho, hb⟩ := Mem.only_some (p := C.Owns i) hl
    obtain ⟨-, o', ho', hb'⟩ := Mem.only_some (p := C.Lent) hj
    have := hI.alone hb hb' hm
    subst this
    unfold Owns at ho; unfold Lent at ho'
    rw [ho] at ho'; cases ho'

theorem covered (C : Crew ι α) (hI : Inv E S C.mem) (l : Loc) (hl : (C.team E).mem l ≠ none) :
    (C.team E).lent.cell l ≠ none ∨ ∃ i, ((C.team E).part i).cell l ≠ none := by
  obtain ⟨o, -, hb⟩ := hI.someones (l := l) hl
  cases ho : C.owner o with
  | none =>
    left
    rw [show (C.team E).lent.cell l = _ from Mem.only_pos ⟨o, ho, hb⟩]
    exact hl
  | some i =>
    right
    refine ⟨i, ?_⟩
    rw [show ((C.team E).part i).cell l = _ from Mem.only_pos ⟨o, ho, hb⟩]
    exact hl

/-- what thread `i` does alone -/
noncomputable def alone (C : Crew ι α) (E : Env α) (i : ι) : M α (List (Out α)) :=
  (C.client i).beside (C.at_ E i) (C.team E).lent (C.calls i) []

theorem Legal.alone (h : C.Legal E S) (hE : E.Good) (hI : Inv E S C.mem) (i : ι) : ∃ h' S' m', C.alone E i ((C.team E).part i) = .ok h' m' ∧
    (C.client i).Run (C.at_ E i) (C.calls i) [] (C.sees S i) h' (S'.join (S.only C.Lent)) ∧
    Inv E S' m' ∧ ∀ l, m'.cell l ≠ none → (C.team E).lent.cell l = none := by
  have hE := hE.on (C.site i)
  have h0 : Inv (C.at_ E i) (S.only C.Lent) (C.team E).lent := (hI.only _).on _
  have hsp : Spares (C.at_ E i) (C.team E).lent := fun n => by
    by_contra hn
    obtain ⟨-, o, ho, hb⟩ := Mem.only_some (p := C.Lent) hn
    exact h.spares i n o ho hb
  have hl := h.legal i
  unfold sees at hl ⊢
  rw [Bank.only_or] at hl ⊢
  obtain ⟨h', S', m', h1, h2, h3, h4⟩ := client_c hE h0 hsp (C.client i) (C.calls i) [] ((hI.only (C.Owns i)).on _)
    (fun l hl => (C.apart hI).ours i l hl) (Client.Legal.mono (fun o ho => by
      by_contra hn
      exact ho (Bank.only_neg hn)) _ _ _ hl)
  exact ⟨h', S', m', h1, h2, h3.off, h4⟩

/-- Every thread's storage comes from a zone: that of its allocator, and that of the
containers it makes. -/
structure Zones (C : Crew ι α) (Z : ι → Loc → Prop) : Prop where
  heap : ∀ i n, (C.site i).oracle n = 0 ∨ Z i (.heap ((C.site i).oracle n))
  obj : ∀ i h op, C.client i h = some op → ∀ o ∈ op.makes, Z i (.obj o)

theorem Legal.follows (h : C.Legal E S) (hE : E.Good) (hI : Inv E S C.mem) {Z : ι → Loc → Prop} (hZ : C.Zones Z) :
    (C.team E).Follows Z (C.alone E) where
  thr i := by
    show Thr _ ((C.client i).beside _ _ _ _) ((C.client i).among _ _ _)
    infer_instance
  paced i := by
    have : Zone (C.at_ E i) (Z i) := ⟨hZ.heap i⟩
    exact Paced.client (hZ.obj i) _ _
  causal i := by
    show Causal ((C.client i).among _ _ _)
    infer_instance
  good i := by
    obtain ⟨h', S', m', h1, -⟩ := h.alone hE hI i
    rw [h1]
    rintro (h | ⟨u, h⟩) <;> cases h

theorem zones_all (C : Crew ι α) : C.Zones fun _ _ => True := ⟨fun _ _ => .inr trivial, fun _ _ _ _ _ _ => trivial⟩

/-! ### What the threads do -/

/-- `m` is a part of the memory -/
def _root_.SegTree.Mem.PartOf (m : Mem α) (c : Cells α) : Prop := ∀ l x, m.cell l = some x → c l = some x

/-- Thread `i` among the others, which alone gets the results `h` and ends with the
containers `S'`, after fewer than `N` accesses; `T`: storage in use has been handed to
it. -/
def Does (C : Crew ι α) (E : Env α) (i : ι) (sched : List ι) (N : Nat) (h : List (Out α)) (S' : Bank α) (T : Loc → Prop) :
    TRes α (List (Out α)) → Prop
  | .ok h' _ => h' = h ∧ ∃ m, m.PartOf ((C.team E).exec sched).mem ∧ View E m S'
  | .paused _ => sched.count i < N
  | .taken l => T l
  | _ => False

theorem Legal.does (h : C.Legal E S) (hE : E.Good) (hI : Inv E S C.mem) {Z : ι → Loc → Prop} (hZ : C.Zones Z) (i : ι) :
    ∃ N hist S', (C.client i).Run (C.at_ E i) (C.calls i) [] (C.sees S i) hist (S'.join (S.only C.Lent)) ∧
      ∀ sched, C.Does E i sched N hist S' (fun l => Z i l ∧ ∃ before, before ++ [i] <+: sched ∧ (C.team E).InUse before l)
        ((C.team E).outcome sched i) := by
  obtain ⟨h', S', m', h1, h2, h3, h4⟩ := h.alone hE hI i
  obtain ⟨N, hN⟩ := (h.follows hE hI hZ).result (C.apart hI) i
  refine ⟨N, h', S', h2, fun sched => ?_⟩
  have hr := hN sched
  rw [h1] at hr
  generalize (C.team E).outcome sched i = r at hr
  cases hr with
  | taken l _ hz hu => exact ⟨hz, hu⟩
  | paused s _ hc => exact hc
  | ok v m s hp hm => exact ⟨rfl, m', hm, h3.view⟩

/-- No schedule changes what is lent. -/
theorem Legal.lent (h : C.Legal E S) (hE : E.Good) (hI : Inv E S C.mem) (sched : List ι) : (C.mem.only C.Lent).PartOf ((C.team E).exec sched).mem :=
  Team.lent_kept (h.follows hE hI C.zones_all) (C.apart hI) sched

end Crew

/-- the log is of no importance -/
theorem Inv.cells {E : Env α} {S : Bank α} {m m' : Mem α} (h : Inv E S m) (e : m'.cell = m.cell) : Inv E S m' := by
  obtain ⟨A, hR, H⟩ := h
  exact ⟨A, hR, rfl, H.nodup, fun x hx => by rw [e]; exact H.sat x hx, fun l => by rw [e]; exact H.full l, by rw [e]; exact H.null⟩

/-- disjoint memories, together -/
theorem Inv.all {E : Env α} {S0 : Bank α} {L : Mem α} (h0 : Inv E S0 L) {S : ι → Bank α} {m : ι → Mem α} (hI : ∀ i, Inv E (S i) (m i))
    (hL : ∀ i l, (m i).cell l ≠ none → L.cell l = none) (hd : ∀ i j l, i ≠ j → (m i).cell l ≠ none → (m j).cell l = none)
    (is : List ι) (hn : is.Nodup) : ∃ T w, Inv E T w ∧ (∀ l c, w.cell l = some c ↔ L.cell l = some c ∨ ∃ i ∈ is, (m i).cell l = some c) ∧
      ∀ o x, T o = some x ↔ S0 o = some x ∨ ∃ i ∈ is, S i o = some x := by
  induction is with
  | nil => exact ⟨S0, L, h0, by simp, by simp⟩
  | cons i is ih =>
    rw [List.nodup_cons] at hn
    obtain ⟨T, w, h1, h2, h3⟩ := ih hn.2
    have hdis : ∀ l, (m i).cell l ≠ none → w.cell l = none := fun l hl => by
      by_contra hw
      obtain ⟨c, hc⟩ := Option.ne_none_iff_exists'.1 hw
      rcases (h2 l c).1 hc with h | ⟨j, hj, h⟩
      · rw [hL i l hl] at h; cases h
      · rw [hd i j l (by rintro rfl; exact hn.1 hj) hl] at h; cases h
    refine ⟨_, _, (hI i).join h1 hdis, fun l c => ?_, fun o x => ?_⟩
    · show ((m i).cell l).or (w.cell l) = some c ↔ _
      cases hc : (m i).cell l with
      | none =>
        rw [Option.none_or, h2]
        simp [hc]
      | some d =>
        have hw := hdis l (by rw [hc]; exact Option.some_ne_none _)
        have hnl := hL i l (by rw [hc]; exact Option.some_ne_none _)
        have hno : ∀ j ∈ is, (m j).cell l ≠ some c := fun j hj e => by
          rw [hd i j l (by rintro rfl; exact hn.1 hj) (by rw [hc]; exact Option.some_ne_none _)] at e; cases e
        rw [Option.some_or, hnl]
        constructor
        · intro e; exact .inr ⟨i, by simp, by rw [hc]; exact e⟩
        · rintro (h | ⟨j, hj, h⟩)
          · cases h
          · rcases List.mem_cons.1 hj with rfl | hj
            · rw [← hc]; exact h
            · exact absurd h (hno j hj)
    · show (S i o).or (T o) = some x ↔ _
      cases hc : S i o with
      | none =>
        rw [Option.none_or, h3]
        simp [hc]
      | some d =>
        have hT : T o = none := by
          by_contra hT
          have h4 := hdis (.obj o) (Option.isSome_iff_ne_none.1 (((hI i).lives o).2 (by rw [hc]; exact Option.some_ne_none _)))
          exact Option.isSome_iff_ne_none.1 ((h1.lives o).2 hT) h4
        have h5 : ∀ y, ¬ (S0 o = some y ∨ ∃ j ∈ is, S j o = some y) := fun y hy => by
          rw [(h3 o y).2 hy] at hT; cases hT
        rw [Option.some_or]
        constructor
        · intro e; exact .inr ⟨i, by simp, by rw [hc]; exact e⟩
        · rintro (h | ⟨j, hj, h⟩)
          · exact absurd (.inl h) (h5 x)
          · rcases List.mem_cons.1 hj with rfl | hj
            · rw [← hc]; exact h
            · exact absurd (.inr ⟨j, hj, h⟩) (h5 x)

/-- When all threads have finished. -/
theorem Crew.Legal.joined [Fintype ι] {C : Crew ι α} {S : Bank α} {E : Env α} (h : C.Legal E S) (hE : E.Good) (hI : Inv E S C.mem)
    {sched : List ι} {v : ι → List (Out α)} {s : ι → Th α} (hok : ∀ i, (C.team E).outcome sched i = .ok (v i) (s i))
    {m' : Mem α} (hm' : m'.cell = ((C.team E).exec sched).mem) :
    ∃ (S' : ι → Bank α) (T : Bank α), (∀ i, (C.client i).Run (C.at_ E i) (C.calls i) [] (C.sees S i) (v i) ((S' i).join (S.only C.Lent))) ∧
      Inv E T m' ∧ ∀ o x, T o = some x ↔ (S.only C.Lent) o = some x ∨ ∃ i, S' i o = some x := by
  have hF := h.follows hE hI C.zones_all
  have hP := C.apart (E := E) hI
  have key : ∀ i, ∃ S' m, (C.client i).Run (C.at_ E i) (C.calls i) [] (C.sees S i) (v i) (S'.join (S.only C.Lent)) ∧
      Inv E S' m ∧ (s i).Part (C.team E).lent m := by
    intro i
    obtain ⟨h', S', m', h1, h2, h3, -⟩ := h.alone hE hI i
    obtain ⟨N, hN⟩ := hF.result hP i
    have hr := hN sched
    rw [h1, hok i] at hr
    cases hr with
    | ok _ _ _ hp _ => exact ⟨S', m', h2, h3, hp⟩
  choose S' m hrun hinv hpart using key
  have hfine := Team.Fine.exec hF hP sched
  have hst : ∀ i, ((C.team E).after i (((C.team E).exec sched).found i)).state = some (s i) := fun i => by
    rw [show (C.team E).after i (((C.team E).exec sched).found i) = .ok (v i) (s i) from hok i]; rfl
  have hown : ∀ i l, (m i).cell l ≠ none → (s i).own l = true := fun i l hl => by
    by_contra ho
    exact hl ((hpart i).rest l (by simpa using ho))
  obtain ⟨T, w, h1, h2, h3⟩ := Inv.all (E := E) (S0 := S.only C.Lent) (L := (C.team E).lent) (hI.only _) hinv
    (fun i l hl => by
      by_contra hn
      obtain ⟨c, hc⟩ := Option.ne_none_iff_exists'.1 hn
      have h1 := hfine.sep i (s i) (hst i) l (hown i l hl)
      have := (hpart i).whole l h1
      rw [hc] at this; cases this)
    (fun i j l hij hl => (hpart j).rest l (hfine.apart i j (s i) (s j) hij (hst i) (hst j) l (hown i l hl)))
    Finset.univ.toList (Finset.nodup_toList _)
  refine ⟨S', T, hrun, h1.cells ?_, by simpa using h3⟩
  rw [hm']
  funext l
  have hw := fun c => Team.whole hF hP (C.covered hI) sched hok hpart l c
  cases hc : ((C.team E).exec sched).mem l with
  | some c =>
    refine ((h2 l c).2 ?_).symm
    have := (hw c).1 hc
    simpa using this
  | none =>
    by_contra hn
    obtain ⟨c, hc'⟩ := Option.ne_none_iff_exists'.1 (Ne.symm hn)
    have := (hw c).2 (by simpa using (h2 l c).1 hc')
    rw [hc] at this; cases this

end SegTree
