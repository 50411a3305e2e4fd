/-
  Threads together: any number of them, on one memory, one access at a time, in any
  order.
-/
import Verif.Thread.Causal
import Mathlib.Data.List.Induction
set_option autoImplicit false
set_option linter.unusedSectionVars false

namespace SegTree

variable {ι α β : Type} [DecidableEq ι]

/-- the contents of a memory -/
abbrev Cells (α : Type) := Loc → Option (Cell α)

/-- Threads before they start. -/
structure Team (ι α β : Type) where
  /-- the program of each thread -/
  prog : ι → T α β
  /-- the part of the memory that belongs to each thread, with its log -/
  part : ι → Mem α
  /-- the part that is lent to all of them, for reading -/
  lent : Mem α
  /-- the memory -/
  mem : Cells α

namespace Team

/-- thread `i`, about to run from the start, finding at its k-th access the k-th memory
of `h` and stopping after the last -/
def begin_ (P : Team ι α β) (i : ι) (h : List (Cells α)) : Th α where
  mem := { P.part i with cell := P.mem }
  own l := ((P.part i).cell l).isSome
  lent l := (P.lent.cell l).isSome
  env k := (h[k]?).getD P.mem
  step := 0
  limit := h.length

/-- what thread `i` has done if it has found the memories `h` -/
def after (P : Team ι α β) (i : ι) (h : List (Cells α)) : TRes α β := P.prog i (P.begin_ i h)

/-- The threads at some moment: the memory, and what each thread has found at its
accesses, which determines what it has done. -/
structure Now (ι α : Type) where
  mem : Cells α
  found : ι → List (Cells α)

/-- thread `i` makes its next access, if it wants to make one -/
def turn (P : Team ι α β) (w : Now ι α) (i : ι) : Now ι α :=
  match P.after i (w.found i) with
  | .paused _ =>
    let h := w.found i ++ [w.mem]
    ⟨match (P.after i h).state with
      | some s => s.mem.cell
      | none => w.mem, upd w.found i h⟩
  | _ => w

/-- the threads after the accesses of a schedule -/
def exec (P : Team ι α β) (sched : List ι) : Now ι α := sched.foldl P.turn ⟨P.mem, fun _ => []⟩

/-- thread `i` after a schedule -/
def outcome (P : Team ι α β) (sched : List ι) (i : ι) : TRes α β := P.after i ((P.exec sched).found i)

/-- the parts are parts of the memory, and disjoint -/
structure Apart (P : Team ι α β) : Prop where
  part : ∀ i l c, (P.part i).cell l = some c → P.mem l = some c
  lent : ∀ l c, P.lent.cell l = some c → P.mem l = some c
  mine : ∀ i j l, i ≠ j → (P.part i).cell l ≠ none → (P.part j).cell l = none
  ours : ∀ i l, (P.part i).cell l ≠ none → P.lent.cell l = none

variable {P : Team ι α β} {Z : ι → Loc → Prop} {x : ι → M α β}

theorem Apart.begins (hP : P.Apart) (i : ι) (h : List (Cells α)) : (P.begin_ i h).Part P.lent (P.part i) where
  mine l hl := by
    have hl : ((P.part i).cell l).isSome = true := hl
    obtain ⟨c, hc⟩ := Option.isSome_iff_exists.1 hl
    show P.mem l = _
    rw [hc]; exact hP.part i l c hc
  rest l hl := by
    have hl : ((P.part i).cell l).isSome = false := hl
    simpa using hl
  log := rfl
  ticks := rfl
  sep l hl := by
    have hl : ((P.part i).cell l).isSome = true := hl
    have := hP.ours i l (fun e => by rw [e] at hl; cases hl)
    show (P.lent.cell l).isSome = false
    rw [this]; rfl
  lends l hl := by
    have hl : (P.lent.cell l).isSome = true := hl
    obtain ⟨c, hc⟩ := Option.isSome_iff_exists.1 hl
    show P.mem l = _
    rw [hc]; exact hP.lent l c hc
  whole l hl := by
    have hl : (P.lent.cell l).isSome = false := hl
    simpa using hl

/-- the programs do alone what `x` does, and that is defined -/
structure Follows (P : Team ι α β) (Z : ι → Loc → Prop) (x : ι → M α β) : Prop where
  thr : ∀ i, Thr P.lent (x i) (P.prog i)
  paced : ∀ i, Paced (Z i) (P.prog i)
  causal : ∀ i, Causal (P.prog i)
  good : ∀ i, ¬ Bad (x i (P.part i))

theorem Follows.goes (hF : Follows P Z x) (i : ι) : ∃ N, ∀ s : Th α, s.Part P.lent (P.part i) → Goes P.lent N s (x i (P.part i)) (P.prog i s) :=
  ((hF.thr i).run (P.part i)).resolve_left (hF.good i)

theorem Follows.not_div (hF : Follows P Z x) {i : ι} {s : Th α} (h : s.Part P.lent (P.part i)) : P.prog i s ≠ .div := by
  obtain ⟨N, hN⟩ := hF.goes i
  intro e
  have := hN s h
  rw [e] at this
  generalize x i (P.part i) = r at this
  cases this

/-- what holds at every moment -/
structure Fine (P : Team ι α β) (w : Now ι α) : Prop where
  whole : ∀ i, P.after i (w.found i) ≠ .torn
  seen : ∀ i s, (P.after i (w.found i)).state = some s → ∀ l, s.own l = true ∨ s.lent l = true → w.mem l = s.mem.cell l
  live : ∀ i s, (P.after i (w.found i)).state = some s → ∀ l, s.own l = true → s.mem.cell l ≠ none
  sep : ∀ i s, (P.after i (w.found i)).state = some s → ∀ l, s.own l = true → s.lent l = false
  apart : ∀ i j s s', i ≠ j → (P.after i (w.found i)).state = some s → (P.after j (w.found j)).state = some s' →
    ∀ l, s.own l = true → s'.own l = false

theorem begin_more (P : Team ι α β) (i : ι) (h : List (Cells α)) (g : Cells α) :
    P.begin_ i (h ++ [g]) = ((P.begin_ i h).seeing fun k => ((h ++ [g])[k]?).getD P.mem).more := by
  unfold begin_ Th.seeing Th.more
  simp

theorem Part.seeing {s : Th α} {L m : Mem α} {e : Nat → Cells α} (h : s.Part L m) : (s.seeing e).Part L m :=
  ⟨h.mine, h.rest, h.log, h.ticks, h.sep, h.lends, h.whole⟩

/-- one more access of thread `i` -/
theorem Follows.next (hF : Follows P Z x) (hP : P.Apart) {i : ι} {h : List (Cells α)} {g : Cells α} {s : Th α}
    (hs : P.after i h = .paused s) :
    s.lent = (P.begin_ i h).lent ∧ ∃ s1 : Th α, s1.mem = s.mem ∧ s1.own = s.own ∧ s1.lent = s.lent ∧ s1.env s1.step = g ∧
      (∀ s2, (P.after i (h ++ [g])).state = some s2 → Access (Z i) s1 s2) ∧
      (∀ q, (P.after i (h ++ [g])).halt = some q → Halted (Z i) s1 q) := by
  let e : Nat → Cells α := fun k => ((h ++ [g])[k]?).getD P.mem
  have hb : P.begin_ i (h ++ [g]) = ((P.begin_ i h).seeing e).more := begin_more P i h g
  have hheld := ((hF.paced i).run (P.begin_ i h) (Nat.zero_le _)).held
  have hcaus := (hF.causal i).run (P.begin_ i h) e (fun k hk => by
    have hk : k < h.length := hk
    show ((h ++ [g])[k]?).getD P.mem = (h[k]?).getD P.mem
    rw [List.getElem?_append_left hk])
  have hpart := hP.begins i h
  have hsee : P.prog i ((P.begin_ i h).seeing e) = .paused (s.seeing e) := by
    rcases hcaus with h1 | h1 | h1
    · exact absurd h1 (hF.not_div (Part.seeing hpart))
    · exact absurd h1 (hF.not_div hpart)
    · rw [h1, show P.prog i (P.begin_ i h) = .paused s from hs]; rfl
  have hrun := ((hF.paced i).run ((P.begin_ i h).seeing e) (Nat.zero_le _)).next
  rw [← hb, hsee] at hrun
  have hnd : P.prog i (P.begin_ i (h ++ [g])) ≠ .div := hF.not_div (hP.begins i _)
  obtain ⟨h1, h2⟩ := hrun.resolve_left hnd
  have hk := hheld.keeps s (by rw [show P.prog i (P.begin_ i h) = .paused s from hs]; rfl)
  have hfull := hheld.full s hs
  refine ⟨hk.1, s.seeing e, rfl, rfl, rfl, ?_, h1, h2⟩
  show ((h ++ [g])[s.step]?).getD P.mem = g
  rw [hfull, hk.2.2.1]
  show ((h ++ [g])[h.length]?).getD P.mem = g
  simp

theorem turn_other {w : Now ι α} {i j : ι} (h : j ≠ i) : (P.turn w i).found j = w.found j := by
  unfold turn
  split
  · exact if_neg h
  · rfl

/-- no turn spoils anything -/
theorem Fine.turn (hF : Follows P Z x) (hP : P.Apart) {w : Now ι α} (hw : Fine P w) (i : ι) : Fine P (P.turn w i) := by
  cases ho : P.after i (w.found i) with
  | paused s =>
    obtain ⟨-, s1, e1, e2, e3, e4, hacc, hhalt⟩ := hF.next hP (g := w.mem) ho
    have hst : (P.after i (w.found i)).state = some s := by rw [ho]; rfl
    have hseen : ∀ l, s1.own l = true ∨ s1.lent l = true → s1.env s1.step l = s1.mem.cell l := fun l hl => by
      rw [e4, e1]; rw [e2, e3] at hl
      exact hw.seen i s hst l hl
    have hnt : P.after i (w.found i ++ [w.mem]) ≠ .torn := fun e => by
      have := hhalt none (by rw [e]; rfl)
      exact this hseen
    have hturn : P.turn w i = ⟨match (P.after i (w.found i ++ [w.mem])).state with
        | some s => s.mem.cell
        | none => w.mem, upd w.found i (w.found i ++ [w.mem])⟩ := by
      unfold Team.turn; rw [ho]
    have hfi : (P.turn w i).found i = w.found i ++ [w.mem] := by
      rw [hturn]; exact if_pos rfl
    have hfj : ∀ j, j ≠ i → (P.turn w i).found j = w.found j := fun j hj => turn_other hj
    have key : ∀ j, j ≠ i → ∀ s', (P.after j (w.found j)).state = some s' → ∀ l, s'.own l = true ∨ s'.lent l = true →
        (P.turn w i).mem l = s'.mem.cell l := by
      intro j hj s' hs' l hl
      rw [hturn]
      cases hs2 : (P.after i (w.found i ++ [w.mem])).state with
      | none => exact hw.seen j s' hs' l hl
      | some s2 =>
        show s2.mem.cell l = _
        have ha := hacc s2 hs2
        have hlent : s'.lent = s.lent := by
          have k1 := (((hF.paced j).run (P.begin_ j (w.found j)) (Nat.zero_le _)).held.keeps s' hs').1
          have k2 := (((hF.paced i).run (P.begin_ i (w.found i)) (Nat.zero_le _)).held.keeps s hst).1
          rw [k1, k2]; rfl
        have hno : s1.own l = false := by
          rw [e2]
          by_cases h : s.own l = true
          · exfalso
            rcases hl with hl | hl
            · have := hw.apart i j s s' (fun e => hj e.symm) hst hs' l h
              rw [hl] at this; cases this
            · have := hw.sep i s hst l h
              rw [hlent, this] at hl; cases hl
          · simpa using h
        by_cases h2 : s2.own l = true
        · exfalso
          obtain ⟨g1, g2, -⟩ := ha.gain l hno h2
          rcases hl with hl | hl
          · rw [e4] at g1
            have := hw.seen j s' hs' l (.inl hl)
            rw [g1] at this
            exact hw.live j s' hs' l hl this.symm
          · rw [e3, ← hlent, hl] at g2; cases g2
        · rw [ha.alien l hno (by simpa using h2), e4]
          exact hw.seen j s' hs' l hl
    have own2 : ∀ s2, (P.after i (w.found i ++ [w.mem])).state = some s2 → ∀ l, s2.own l = true → s.own l = true ∨ (w.mem l = none ∧ s.lent l = false) := by
      intro s2 hs2 l h2
      by_cases h : s.own l = true
      · exact .inl h
      · obtain ⟨g1, g2, -⟩ := (hacc s2 hs2).gain l (by rw [e2]; simpa using h) h2
        rw [e4] at g1; rw [e3] at g2
        exact .inr ⟨g1, g2⟩
    refine ⟨fun j => ?_, fun j s' hs' => ?_, fun j s' hs' => ?_, fun j s' hs' => ?_, fun j k sj sk hjk hsj hsk l hl => ?_⟩
    · by_cases hj : j = i
      · subst hj; rw [hfi]; exact hnt
      · rw [hfj j hj]; exact hw.whole j
    · by_cases hj : j = i
      · subst hj
        rw [hfi] at hs'
        intro l _
        rw [hturn, hs']
      · rw [hfj j hj] at hs'
        exact key j hj s' hs'
    · by_cases hj : j = i
      · subst hj
        rw [hfi] at hs'
        refine (hacc s' hs').live fun l hl => ?_
        rw [hseen l (.inl hl), e1]
        exact hw.live j s hst l (e2 ▸ hl)
      · rw [hfj j hj] at hs'
        exact hw.live j s' hs'
    · by_cases hj : j = i
      · subst hj
        rw [hfi] at hs'
        intro l hl
        rw [(hacc s' hs').lent, e3]
        rcases own2 s' hs' l hl with h | h
        · exact hw.sep j s hst l h
        · exact h.2
      · rw [hfj j hj] at hs'
        exact hw.sep j s' hs'
    · by_cases hj : j = i
      · subst hj
        have hk : k ≠ j := fun e => hjk e.symm
        rw [hfi] at hsj
        rw [hfj k hk] at hsk
        rcases own2 sj hsj l hl with h | ⟨h, -⟩
        · exact hw.apart j k s sk hjk hst hsk l h
        · by_cases hkl : sk.own l = true
          · exact absurd ((hw.seen k sk hsk l (.inl hkl)).symm.trans h) (hw.live k sk hsk l hkl)
          · simpa using hkl
      · rw [hfj j hj] at hsj
        by_cases hk : k = i
        · subst hk
          rw [hfi] at hsk
          by_cases hkl : sk.own l = true
          · rcases own2 sk hsk l hkl with h | ⟨h, -⟩
            · have := hw.apart k j s sj (fun e => hjk e.symm) hst hsj l h
              rw [hl] at this; cases this
            · exact absurd ((hw.seen j sj hsj l (.inl hl)).symm.trans h) (hw.live j sj hsj l hl)
          · simpa using hkl
        · rw [hfj k hk] at hsk
          exact hw.apart j k sj sk hjk hsj hsk l hl
  | _ => unfold Team.turn; rw [ho]; exact hw

theorem Fine.start (hF : Follows P Z x) (hP : P.Apart) : Fine P ⟨P.mem, fun _ => []⟩ := by
  have still : ∀ i s, (P.after i []).state = some s → s = P.begin_ i [] := fun i s h =>
    ((hF.paced i).run (P.begin_ i []) (Nat.zero_le _)).held.still rfl s h
  refine ⟨fun i e => ?_, fun i s h l hl => ?_, fun i s h l hl => ?_, fun i s h l hl => ?_, fun i j s s' hij h h' l hl => ?_⟩
  · have := ((hF.paced i).run (P.begin_ i []) (Nat.zero_le _)).held.stops rfl
    rw [show P.prog i (P.begin_ i []) = .torn from e] at this
    cases this
  · rw [still i s h]; rfl
  · rw [still i s h] at hl ⊢
    have hl : ((P.part i).cell l).isSome = true := hl
    obtain ⟨c, hc⟩ := Option.isSome_iff_exists.1 hl
    show P.mem l ≠ none
    rw [hP.part i l c hc]; exact Option.some_ne_none _
  · rw [still i s h] at hl ⊢
    exact (hP.begins i []).sep l hl
  · rw [still i s h] at hl
    rw [still j s' h']
    have hl : ((P.part i).cell l).isSome = true := hl
    have := hP.mine i j l hij (fun e => by rw [e] at hl; cases hl)
    show ((P.part j).cell l).isSome = false
    rw [this]; rfl

theorem exec_snoc (P : Team ι α β) (sched : List ι) (i : ι) : P.exec (sched ++ [i]) = P.turn (P.exec sched) i := by
  unfold exec; rw [List.foldl_append]; rfl

theorem Fine.exec (hF : Follows P Z x) (hP : P.Apart) (sched : List ι) : Fine P (P.exec sched) := by
  suffices h : ∀ (sched : List ι) w, Fine P w → Fine P (sched.foldl P.turn w) from h sched _ (.start hF hP)
  intro sched
  induction sched with
  | nil => exact fun _ h => h
  | cons i sched ih => exact fun w h => ih _ (h.turn hF hP i)

/-- a thread that still wants to go on has used all its turns -/
theorem length_found (P : Team ι α β) (sched : List ι) (i : ι) (s : Th α) (h : P.outcome sched i = .paused s) :
    ((P.exec sched).found i).length = sched.count i := by
  suffices hh : ∀ (sched : List ι) (w : Now ι α) (n : Nat), (∀ s, P.after i (w.found i) = .paused s → (w.found i).length = n) →
      ∀ s, P.after i ((sched.foldl P.turn w).found i) = .paused s → ((sched.foldl P.turn w).found i).length = n + sched.count i by
    have := hh sched ⟨P.mem, fun _ => []⟩ 0 (fun _ _ => rfl) s h
    rw [Nat.zero_add] at this
    exact this
  intro sched
  induction sched with
  | nil => intro w n h s hs; exact h s hs
  | cons j sched ih =>
    intro w n h
    rw [List.count_cons]
    by_cases hj : j = i
    · subst hj
      rw [if_pos (by simp)]
      intro s hs
      have := ih (P.turn w j) (n + 1) (fun s hs => by
        cases ho : P.after j (w.found j) with
        | paused s0 =>
          have hf : (P.turn w j).found j = w.found j ++ [w.mem] := by
            unfold turn; rw [ho]; exact if_pos rfl
          rw [hf, List.length_append, h s0 ho]; rfl
        | _ =>
          have hf : P.turn w j = w := by unfold turn; rw [ho]
          rw [hf, ho] at hs; cases hs) s hs
      refine Eq.trans this ?_
      omega
    · rw [if_neg (by simpa using hj)]
      exact ih (P.turn w j) n (fun s hs => by
        rw [turn_other (fun e => hj e.symm)] at hs ⊢
        exact h s hs)

/-- after a schedule, there is something at `l` -/
def InUse (P : Team ι α β) (sched : List ι) (l : Loc) : Prop := (P.exec sched).mem l ≠ none ∨ P.lent.cell l ≠ none

/-- The outcome of thread `i` among others, if alone it would be `r`. -/
inductive Result (P : Team ι α β) (Z : Loc → Prop) (N : Nat) (sched : List ι) (i : ι) : Res α β → TRes α β → Prop
  | taken (l : Loc) (r : Res α β) : Z l → (∃ before, before ++ [i] <+: sched ∧ P.InUse before l) → Result P Z N sched i r (.taken l)
  | paused (s : Th α) (r : Res α β) : sched.count i < N → Result P Z N sched i r (.paused s)
  | ok (v : β) (m : Mem α) (s : Th α) : s.Part P.lent m → (∀ l c, m.cell l = some c → (P.exec sched).mem l = some c) →
      Result P Z N sched i (.ok v m) (.ok v s)
  | throw (e : Exn) (m : Mem α) (s : Th α) : s.Part P.lent m → (∀ l c, m.cell l = some c → (P.exec sched).mem l = some c) →
      Result P Z N sched i (.throw e m) (.throw e s)

/-- if storage in use is handed out, it lies in the zone and was in use -/
theorem taken_used (hF : Follows P Z x) (hP : P.Apart) (sched : List ι) (i : ι) {l : Loc} (h : P.outcome sched i = .taken l) :
    Z i l ∧ ∃ before, before ++ [i] <+: sched ∧ P.InUse before l := by
  induction sched using List.reverseRecOn with
  | nil =>
    have := ((hF.paced i).run (P.begin_ i []) (Nat.zero_le _)).held.stops rfl
    rw [show P.prog i (P.begin_ i []) = .taken l from h] at this
    cases this
  | append_singleton sched j ih =>
    have up : P.outcome sched i = .taken l → Z i l ∧ ∃ before, before ++ [i] <+: sched ++ [j] ∧ P.InUse before l := fun e => by
      obtain ⟨h1, b, h2, h3⟩ := ih e
      exact ⟨h1, b, h2.trans (List.prefix_append _ _), h3⟩
    unfold outcome at h
    rw [exec_snoc] at h
    by_cases hj : j = i
    · subst hj
      cases ho : P.after j ((P.exec sched).found j) with
      | paused s0 =>
        have hf : (P.turn (P.exec sched) j).found j = (P.exec sched).found j ++ [(P.exec sched).mem] := by
          unfold turn; rw [ho]; exact if_pos rfl
        rw [hf] at h
        obtain ⟨hl, s1, -, -, e3, e4, -, hh⟩ := hF.next hP (g := (P.exec sched).mem) ho
        obtain ⟨h1, -, h2⟩ := hh (some l) (by rw [h]; rfl)
        refine ⟨h1, sched, List.prefix_refl _, ?_⟩
        rw [e4, e3, hl] at h2
        rcases h2 with h2 | h2
        · exact .inl h2
        · exact .inr (Option.isSome_iff_ne_none.1 h2)
      | _ =>
        have hf : P.turn (P.exec sched) j = P.exec sched := by unfold turn; rw [ho]
        rw [hf] at h; exact up h
    · rw [turn_other (fun e => hj e.symm)] at h
      exact up h

/-- Each thread has a zone of its own, from which its storage comes: the zones are
disjoint, and at the start nobody else has anything there. -/
structure Zoned (P : Team ι α β) (Z : ι → Loc → Prop) : Prop where
  apart : ∀ i j l, i ≠ j → Z i l → ¬ Z j l
  mine : ∀ i l, Z i l → P.mem l ≠ none → (P.part i).cell l ≠ none

/-- what holds at every moment if there are zones -/
structure Kept (P : Team ι α β) (Z : ι → Loc → Prop) (w : Now ι α) : Prop where
  used : ∀ i l, Z i l → w.mem l ≠ none → ∃ s, (P.after i (w.found i)).state = some s ∧ s.own l = true
  from_ : ∀ i s, (P.after i (w.found i)).state = some s → ∀ l, s.own l = true → (P.part i).cell l ≠ none ∨ Z i l
  free : ∀ i l, P.after i (w.found i) ≠ .taken l

theorem Kept.turn (hF : Follows P Z x) (hP : P.Apart) (hZ : Zoned P Z) {w : Now ι α} (hf : Fine P w) (hw : Kept P Z w) (i : ι) :
    Kept P Z (P.turn w i) := by
  cases ho : P.after i (w.found i) with
  | paused s =>
    obtain ⟨hl0, s1, e1, e2, e3, e4, hacc, hhalt⟩ := hF.next hP (g := w.mem) ho
    have hst : (P.after i (w.found i)).state = some s := by rw [ho]; rfl
    have hturn : P.turn w i = ⟨match (P.after i (w.found i ++ [w.mem])).state with
        | some s => s.mem.cell
        | none => w.mem, upd w.found i (w.found i ++ [w.mem])⟩ := by
      unfold Team.turn; rw [ho]
    have hfi : (P.turn w i).found i = w.found i ++ [w.mem] := by
      rw [hturn]; exact if_pos rfl
    have hfj : ∀ j, j ≠ i → (P.turn w i).found j = w.found j := fun j hj => turn_other hj
    have hown : ∀ l, Z i l → w.mem l ≠ none → s.own l = true := fun l hz hm => by
      obtain ⟨s', h1, h2⟩ := hw.used i l hz hm
      rw [hst] at h1; cases h1; exact h2
    have hfree : ∀ l, P.after i (w.found i ++ [w.mem]) ≠ .taken l := fun l e => by
      obtain ⟨hz, h1, h2⟩ := hhalt (some l) (by rw [e]; rfl)
      rw [e2] at h1
      rw [e4, e3] at h2
      rcases h2 with h2 | h2
      · rw [hown l hz h2] at h1; cases h1
      · have h2 : s.lent l = true := h2
        rw [hl0] at h2
        have h2 : (P.lent.cell l).isSome = true := h2
        obtain ⟨c, hc⟩ := Option.isSome_iff_exists.1 h2
        have hm := hP.lent l c hc
        have := hP.ours i l (hZ.mine i l hz (by rw [hm]; exact Option.some_ne_none _))
        rw [this] at hc; cases hc
    have hsome : ∃ s2, (P.after i (w.found i ++ [w.mem])).state = some s2 := by
      obtain ⟨N, hN⟩ := hF.goes i
      have hg := hN _ (hP.begins i (w.found i ++ [w.mem]))
      have hnt := (hf.turn hF hP i).whole i
      rw [hfi] at hnt
      change Goes P.lent N _ _ (P.after i (w.found i ++ [w.mem])) at hg
      generalize P.after i (w.found i ++ [w.mem]) = r' at hg hnt hfree
      generalize x i (P.part i) = r at hg
      cases hg with
      | taken l => exact absurd rfl (hfree l)
      | torn => exact absurd rfl hnt
      | _ => exact ⟨_, rfl⟩
    obtain ⟨s2, hs2⟩ := hsome
    have ha := hacc s2 hs2
    have hmem : (P.turn w i).mem = s2.mem.cell := by rw [hturn, hs2]
    refine ⟨fun j l hz hm => ?_, fun j s' hs' l hl => ?_, fun j l => ?_⟩
    · rw [hmem] at hm
      have hcase : s2.own l = true ∨ w.mem l ≠ none := by
        by_cases h2 : s2.own l = true
        · exact .inl h2
        · have h2 : s2.own l = false := by simpa using h2
          by_cases h1 : s1.own l = true
          · exact absurd (ha.lose l h1 h2) hm
          · rw [ha.alien l (by simpa using h1) h2, e4] at hm
            exact .inr hm
      by_cases hj : j = i
      · subst hj
        rw [hfi]
        refine ⟨s2, hs2, ?_⟩
        rcases hcase with h | h
        · exact h
        · have h1 := hown l hz h
          by_cases h2 : s2.own l = true
          · exact h2
          · exact absurd (ha.lose l (by rw [e2]; exact h1) (by simpa using h2)) hm
      · rw [hfj j hj]
        refine hw.used j l hz ?_
        rcases hcase with h | h
        · exfalso
          have hnz : ¬ Z i l := hZ.apart j i l hj hz
          have hso : s.own l = true := by
            by_cases h1 : s.own l = true
            · exact h1
            · exact absurd ((ha.gain l (by rw [e2]; simpa using h1) h).2.2) hnz
          rcases hw.from_ i s hst l hso with h3 | h3
          · have h4 := hP.mine i j l (fun e => hj e.symm) h3
            cases hc : (P.part i).cell l with
            | none => exact h3 hc
            | some c => exact hZ.mine j l hz (by rw [hP.part i l c hc]; exact Option.some_ne_none _) h4
          · exact hnz h3
        · exact h
    · by_cases hj : j = i
      · subst hj
        rw [hfi, hs2] at hs'
        cases hs'
        by_cases h1 : s.own l = true
        · exact hw.from_ j s hst l h1
        · exact .inr (ha.gain l (by rw [e2]; simpa using h1) hl).2.2
      · rw [hfj j hj] at hs'
        exact hw.from_ j s' hs' l hl
    · by_cases hj : j = i
      · subst hj; rw [hfi]; exact hfree l
      · rw [hfj j hj]; exact hw.free j l
  | _ => unfold Team.turn; rw [ho]; exact hw

/-- With zones, storage in use is never handed out. -/
theorem Kept.exec (hF : Follows P Z x) (hP : P.Apart) (hZ : Zoned P Z) (sched : List ι) : Kept P Z (P.exec sched) := by
  suffices h : ∀ (sched : List ι) w, Fine P w → Kept P Z w → Kept P Z (sched.foldl P.turn w) by
    refine h sched _ (.start hF hP) ?_
    have still : ∀ i s, (P.after i []).state = some s → s = P.begin_ i [] := fun i s h =>
      ((hF.paced i).run (P.begin_ i []) (Nat.zero_le _)).held.still rfl s h
    have hfree : ∀ i l, P.after i [] ≠ .taken l := fun i l e => by
      have := ((hF.paced i).run (P.begin_ i []) (Nat.zero_le _)).held.stops rfl
      rw [show P.prog i (P.begin_ i []) = .taken l from e] at this
      cases this
    refine ⟨fun i l hz hm => ?_, fun i s hs l hl => ?_, hfree⟩
    · have hsome : ∃ s2, (P.after i []).state = some s2 := by
        obtain ⟨N, hN⟩ := hF.goes i
        have hg := hN _ (hP.begins i [])
        have hnt := (Fine.start hF hP).whole i
        have hfr := hfree i
        change Goes P.lent N _ _ (P.after i []) at hg
        change P.after i [] ≠ _ at hnt
        generalize P.after i [] = r' at hg hnt hfr
        generalize x i (P.part i) = r at hg
        cases hg with
        | taken l => exact absurd rfl (hfr l)
        | torn => exact absurd rfl hnt
        | _ => exact ⟨_, rfl⟩
      obtain ⟨s2, hs2⟩ := hsome
      refine ⟨s2, hs2, ?_⟩
      rw [still i s2 hs2]
      show ((P.part i).cell l).isSome = true
      rw [Option.isSome_iff_ne_none]
      exact hZ.mine i l hz hm
    · rw [still i s hs] at hl
      have hl : ((P.part i).cell l).isSome = true := hl
      exact .inl (fun e => by rw [e] at hl; cases hl)
  intro sched
  induction sched with
  | nil => exact fun _ _ h => h
  | cons i sched ih => exact fun w hf h => ih _ (hf.turn hF hP i) (h.turn hF hP hZ hf i)

/-- Whatever the schedule, each thread does what it does alone. -/
theorem Follows.result (hF : Follows P Z x) (hP : P.Apart) (i : ι) :
    ∃ N, ∀ sched, Result P (Z i) N sched i (x i (P.part i)) (P.outcome sched i) := by
  obtain ⟨N, hN⟩ := hF.goes i
  refine ⟨N, fun sched => ?_⟩
  have hfine := Fine.exec hF hP sched
  have hg := hN _ (hP.begins i ((P.exec sched).found i))
  have hlen := length_found P sched i
  have hz := fun l => taken_used (l := l) hF hP sched i
  have hw := hfine.whole i
  have hsee := hfine.seen i
  have hmem : ∀ (s : Th α) (m : Mem α), s.Part P.lent m → (P.after i ((P.exec sched).found i)).state = some s →
      ∀ l c, m.cell l = some c → (P.exec sched).mem l = some c := fun s m hp hs l c hc => by
    have ho : s.own l = true := by
      by_cases h : s.own l = true
      · exact h
      · have := hp.rest l (by simpa using h)
        rw [this] at hc; cases hc
    rw [hsee s hs l (.inl ho), hp.mine l ho, hc]
  change Goes P.lent N _ _ (P.outcome sched i) at hg
  change P.outcome sched i ≠ _ at hw
  change ∀ (s : Th α) (m : Mem α), s.Part P.lent m → (P.outcome sched i).state = some s → _ at hmem
  generalize P.outcome sched i = r' at hg hlen hz hw hmem
  generalize x i (P.part i) = r at hg
  cases hg with
  | taken l => exact .taken l _ (hz l rfl).1 (hz l rfl).2
  | torn => exact absurd rfl hw
  | paused s _ h =>
    refine .paused s _ ?_
    rw [← hlen s rfl]
    have : ((P.exec sched).found i).length < 0 + N := h
    omega
  | ok v m s h _ => exact .ok v m s h (hmem s m h rfl)
  | throw v m s h _ => exact .throw v m s h (hmem s m h rfl)

/-- whatever there is, is lent or belongs to a thread -/
def Cover (P : Team ι α β) (w : Now ι α) : Prop := ∀ l, w.mem l ≠ none → P.lent.cell l ≠ none ∨
  ∃ i, (P.after i (w.found i)).state = none ∨ ∃ s, (P.after i (w.found i)).state = some s ∧ s.own l = true

theorem Cover.turn (hF : Follows P Z x) (hP : P.Apart) {w : Now ι α} (hw : Cover P w) (i : ι) : Cover P (P.turn w i) := by
  cases ho : P.after i (w.found i) with
  | paused s =>
    obtain ⟨-, s1, e1, e2, e3, e4, hacc, -⟩ := hF.next hP (g := w.mem) ho
    have hst : (P.after i (w.found i)).state = some s := by rw [ho]; rfl
    have hturn : P.turn w i = ⟨match (P.after i (w.found i ++ [w.mem])).state with
        | some s => s.mem.cell
        | none => w.mem, upd w.found i (w.found i ++ [w.mem])⟩ := by
      unfold Team.turn; rw [ho]
    have hfi : (P.turn w i).found i = w.found i ++ [w.mem] := by
      rw [hturn]; exact if_pos rfl
    intro l hl
    cases hs2 : (P.after i (w.found i ++ [w.mem])).state with
    | none => exact .inr ⟨i, .inl (by rw [hfi]; exact hs2)⟩
    | some s2 =>
      have ha := hacc s2 hs2
      by_cases h2 : s2.own l = true
      · exact .inr ⟨i, .inr ⟨s2, by rw [hfi]; exact hs2, h2⟩⟩
      · have h2 : s2.own l = false := by simpa using h2
        have hm : (P.turn w i).mem l = s2.mem.cell l := by rw [hturn, hs2]
        rw [hm] at hl
        by_cases h1 : s1.own l = true
        · exact absurd (ha.lose l h1 h2) hl
        · have h1 : s1.own l = false := by simpa using h1
          rw [ha.alien l h1 h2, e4] at hl
          rcases hw l hl with h | ⟨j, h⟩
          · exact .inl h
          · by_cases hj : j = i
            · subst hj
              rw [hst] at h
              rcases h with h | ⟨s', h, h'⟩
              · cases h
              · cases h; rw [e2, h'] at h1; cases h1
            · exact .inr ⟨j, by rw [turn_other hj]; exact h⟩
  | _ => unfold Team.turn; rw [ho]; exact hw

theorem Cover.exec (hF : Follows P Z x) (hP : P.Apart) (h0 : ∀ l, P.mem l ≠ none → P.lent.cell l ≠ none ∨ ∃ i, (P.part i).cell l ≠ none)
    (sched : List ι) : Cover P (P.exec sched) := by
  suffices h : ∀ (sched : List ι) w, Cover P w → Cover P (sched.foldl P.turn w) by
    refine h sched _ fun l hl => ?_
    rcases h0 l hl with h | ⟨i, h⟩
    · exact .inl h
    · refine .inr ⟨i, ?_⟩
      show (P.after i []).state = none ∨ ∃ s, (P.after i []).state = some s ∧ s.own l = true
      cases hs : (P.after i []).state with
      | none => exact .inl rfl
      | some s =>
        refine .inr ⟨s, rfl, ?_⟩
        rw [((hF.paced i).run (P.begin_ i []) (Nat.zero_le _)).held.still rfl s hs]
        show ((P.part i).cell l).isSome = true
        rwa [Option.isSome_iff_ne_none]
  intro sched
  induction sched with
  | nil => exact fun _ h => h
  | cons i sched ih => exact fun w h => ih _ (h.turn hF hP i)

/-- nobody changes what is lent -/
theorem lent_kept (hF : Follows P Z x) (hP : P.Apart) (sched : List ι) (l : Loc) (c : Cell α) (hl : P.lent.cell l = some c) :
    (P.exec sched).mem l = some c := by
  induction sched using List.reverseRecOn with
  | nil => exact hP.lent l c hl
  | append_singleton sched i ih =>
    rw [exec_snoc]
    have hfine := Fine.exec hF hP sched
    cases ho : P.after i ((P.exec sched).found i) with
    | paused s =>
      obtain ⟨hlent, s1, e1, e2, e3, e4, hacc, -⟩ := hF.next hP (g := (P.exec sched).mem) ho
      have hst : (P.after i ((P.exec sched).found i)).state = some s := by rw [ho]; rfl
      have hturn : (P.turn (P.exec sched) i).mem = match (P.after i ((P.exec sched).found i ++ [(P.exec sched).mem])).state with
          | some s => s.mem.cell
          | none => (P.exec sched).mem := by
        unfold Team.turn; rw [ho]
      rw [hturn]
      cases hs2 : (P.after i ((P.exec sched).found i ++ [(P.exec sched).mem])).state with
      | none => exact ih
      | some s2 =>
        show s2.mem.cell l = _
        have ha := hacc s2 hs2
        have hsl : s.lent l = true := by
          rw [hlent]
          show (P.lent.cell l).isSome = true
          rw [hl]; rfl
        have h1 : s1.own l = false := by
          rw [e2]
          by_cases h : s.own l = true
          · have := hfine.sep i s hst l h
            rw [hsl] at this; cases this
          · simpa using h
        have h2 : s2.own l = false := by
          by_cases h : s2.own l = true
          · obtain ⟨-, g, -⟩ := ha.gain l h1 h
            rw [e3, hsl] at g; cases g
          · simpa using h
        rw [ha.alien l h1 h2, e4]
        exact ih
    | _ => unfold Team.turn; rw [ho]; exact ih

/-- When all threads have finished, the memory is what they have, and what was lent. -/
theorem whole (hF : Follows P Z x) (hP : P.Apart) (h0 : ∀ l, P.mem l ≠ none → P.lent.cell l ≠ none ∨ ∃ i, (P.part i).cell l ≠ none)
    (sched : List ι) {v : ι → β} {s : ι → Th α} {m : ι → Mem α} (hok : ∀ i, P.outcome sched i = .ok (v i) (s i))
    (hm : ∀ i, (s i).Part P.lent (m i)) (l : Loc) (c : Cell α) :
    (P.exec sched).mem l = some c ↔ P.lent.cell l = some c ∨ ∃ i, (m i).cell l = some c := by
  have hfine := Fine.exec hF hP sched
  have hst : ∀ i, (P.after i ((P.exec sched).found i)).state = some (s i) := fun i => by
    rw [show P.after i ((P.exec sched).found i) = .ok (v i) (s i) from hok i]; rfl
  have hlent : ∀ i l, (s i).lent l = (P.lent.cell l).isSome := fun i l => by
    rw [(((hF.paced i).run (P.begin_ i ((P.exec sched).found i)) (Nat.zero_le _)).held.keeps (s i) (hst i)).1]; rfl
  have hmine : ∀ i l c, (m i).cell l = some c → (P.exec sched).mem l = some c := fun i l c hc => by
    have ho : (s i).own l = true := by
      by_cases h : (s i).own l = true
      · exact h
      · have := (hm i).rest l (by simpa using h)
        rw [this] at hc; cases hc
    rw [hfine.seen i (s i) (hst i) l (.inl ho), (hm i).mine l ho, hc]
  by_cases hι : Nonempty ι
  · obtain ⟨j⟩ := hι
    have hl : ∀ l c, P.lent.cell l = some c → (P.exec sched).mem l = some c := fun l c hc => by
      have h1 : (s j).lent l = true := by rw [hlent, hc]; rfl
      rw [hfine.seen j (s j) (hst j) l (.inr h1), (hm j).lends l h1, hc]
    constructor
    · intro hc
      rcases Cover.exec hF hP h0 sched l (by rw [hc]; exact Option.some_ne_none _) with h | ⟨i, h | ⟨s', h, h'⟩⟩
      · cases e : P.lent.cell l with
        | none => exact absurd e h
        | some c' => rw [hl l c' e] at hc; cases hc; exact .inl rfl
      · rw [hst i] at h; cases h
      · rw [hst i] at h; cases h
        refine .inr ⟨i, ?_⟩
        rw [← (hm i).mine l h', ← hfine.seen i (s i) (hst i) l (.inl h'), hc]
    · rintro (h | ⟨i, h⟩)
      · exact hl l c h
      · exact hmine i l c h
  · have hno : ∀ sched : List ι, P.exec sched = ⟨P.mem, fun _ => []⟩ := fun sched => by
      cases sched with
      | nil => rfl
      | cons i => exact absurd ⟨i⟩ hι
    rw [hno]
    constructor
    · intro hc
      rcases h0 l (by rw [show P.mem l = some c from hc]; exact Option.some_ne_none _) with h | ⟨i, h⟩
      · cases e : P.lent.cell l with
        | none => exact absurd e h
        | some c' =>
          have := hP.lent l c' e
          rw [show P.mem l = some c from hc] at this
          cases this; exact .inl rfl
      · exact absurd ⟨i⟩ hι
    · rintro (h | ⟨i, h⟩)
      · exact hP.lent l c h
      · exact absurd ⟨i⟩ hι

end Team
end SegTree
