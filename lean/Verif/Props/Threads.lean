/-
  C78: threads.

  The rest of this development is about a program that makes one call after the other.
  Here any number of threads run at the same time on one memory.  Each is a client
  (Thread/Client.lean): it makes one call after the other, and chooses each after the
  results of those before it.  A schedule says which thread makes the next access to
  memory; a call consists of many accesses, and those of different threads may be
  interleaved in any way.  Every access is checked against what belongs to the thread
  making it (Thread/Base.lean): the outcome of a thread that accesses something it has
  no right to is `race`.
-/
import Verif.Thread.Crew
import Verif.Props.Single
set_option autoImplicit false
set_option linter.unusedSectionVars false

namespace SegTree

variable {ι α : Type} [DecidableEq ι] {E : Env α}

/-- The memories a program with threads can be in: after calls made by its only thread
(as in `Reach`, Props/Spec.lean), and after any number of threads have been started,
have run by the rules in any interleaving, and have all ended. -/
inductive Runs (E : Env α) : Mem α → Prop where
  | init : Runs E noMem
  | ret {m m' : Mem α} {S : Bank α} {op : Op α} {r : Ret α} :
      Runs E m → View E m S → op.Pre E S → op.run E m = .ok r m' → Runs E m'
  | exc {m m' : Mem α} {S : Bank α} {op : Op α} {e : Exn} :
      Runs E m → View E m S → op.Pre E S → op.run E m = .throw e m' → Runs E m'
  | join {ι : Type} [Fintype ι] [DecidableEq ι] {C : Crew ι α} {S : Bank α} {sched : List ι} {h : ι → List (Out α)} {s : ι → Th α} {m' : Mem α} :
      Runs E C.mem → View E C.mem S → C.Legal E S → (∀ i, (C.team E).outcome sched i = .ok (h i) (s i)) →
      m'.cell = ((C.team E).exec sched).mem → Runs E m'

theorem Reach.runs {m : Mem α} (h : Reach E m) : Runs E m := by
  induction h with
  | init => exact .init
  | ret _ hv hp he ih => exact .ret ih hv hp he
  | exc _ hv hp he ih => exact .exc ih hv hp he

theorem Runs.inv (hE : E.Good) {m : Mem α} (h : Runs E m) : ∃ S, Inv E S m := by
  induction h with
  | init => exact ⟨_, inv_init⟩
  | ret hr hv hp he ih =>
    obtain ⟨S, hI⟩ := ih
    cases hI.view.unique hv
    obtain ⟨A, hR, H⟩ := hI
    have := op_c hE _ hR H hp
    unfold Spec at this; rw [he] at this
    obtain ⟨S', -, hI, -⟩ := this
    exact ⟨S', hI⟩
  | exc hr hv hp he ih =>
    obtain ⟨S, hI⟩ := ih
    cases hI.view.unique hv
    obtain ⟨A, hR, H⟩ := hI
    have := op_c hE _ hR H hp
    unfold Spec at this; rw [he] at this
    obtain ⟨S', -, hI, -⟩ := this
    exact ⟨S', hI⟩
  | join hr hv hl hok he ih =>
    obtain ⟨S, hI⟩ := ih
    cases hI.view.unique hv
    obtain ⟨-, T, -, hT, -⟩ := hl.joined hE hI hok he
    exact ⟨T, hT⟩

theorem Runs.inv_of (hE : E.Good) {m : Mem α} {S : Bank α} (h : Runs E m) (hv : View E m S) : Inv E S m := by
  obtain ⟨S', hI⟩ := h.inv hE
  cases hI.view.unique hv
  exact hI

section
variable {C : Crew ι α} {S : Bank α}

/-- **C78 (no race, and the same results).**  For each thread there are results `hist`,
final containers `S'` and a number `N`, which do not depend on the schedule, such that
`hist` and `S'` are what the specification allows, and after every schedule the thread
has either ended, with these results, and with these containers in the memory; or still
runs and has made fewer than `N` accesses; or was handed storage that was in use.  It
has not run into a data race, has not found anything of its own, or lent, changed by
others, and nothing it did was undefined. -/
theorem C78_threads (hE : E.Good) (hr : Runs E C.mem) (hv : View E C.mem S) (hl : C.Legal E S) (i : ι) :
    ∃ N hist S', (C.client i).Run (C.at_ E i) (C.calls i) [] (C.sees S i) hist (S'.join (S.only C.Lent)) ∧
      ∀ sched, match (C.team E).outcome sched i with
        | .ok h' _ => h' = hist ∧ ∃ m, m.PartOf ((C.team E).exec sched).mem ∧ View E m S'
        | .paused _ => sched.count i < N
        | .taken l => ∃ before, before ++ [i] <+: sched ∧ (C.team E).InUse before l
        | .race _ | .torn | .ub _ | .throw _ _ | .div => False := by
  obtain ⟨N, hist, S', h1, h2⟩ := hl.does hE (hr.inv_of hE hv) C.zones_all i
  refine ⟨N, hist, S', h1, fun sched => ?_⟩
  have := h2 sched
  generalize (C.team E).outcome sched i = r at this
  cases r with
  | ok => exact this
  | paused => exact this
  | taken => exact this.2
  | _ => exact this

/-- **C78 (allocators that work).**  If the threads' storage comes from disjoint zones,
in which at the start there is nothing of anybody else, then no thread is ever handed
storage in use: each ends after at most `N` accesses, however the others are scheduled. -/
theorem C78_ends (hE : E.Good) (hr : Runs E C.mem) (hv : View E C.mem S) (hl : C.Legal E S) {Z : ι → Loc → Prop} (hZ : C.Zones Z)
    (hd : ∀ i j l, i ≠ j → Z i l → ¬ Z j l) (hm : ∀ i l, Z i l → C.mem.cell l ≠ none → ∃ o, C.Owns i o ∧ Belongs C.mem o l) (i : ι) :
    ∃ N hist S', (C.client i).Run (C.at_ E i) (C.calls i) [] (C.sees S i) hist (S'.join (S.only C.Lent)) ∧
      ∀ sched, match (C.team E).outcome sched i with
        | .ok h' _ => h' = hist ∧ ∃ m, m.PartOf ((C.team E).exec sched).mem ∧ View E m S'
        | .paused _ => sched.count i < N
        | _ => False := by
  have hI := hr.inv_of hE hv
  obtain ⟨N, hist, S', h1, h2⟩ := hl.does hE hI hZ i
  refine ⟨N, hist, S', h1, fun sched => ?_⟩
  have hk := (Team.Kept.exec (hl.follows hE hI hZ) (C.apart hI) (Z := Z) ⟨hd, fun i l hz hn => by
    obtain ⟨o, ho, hb⟩ := hm i l hz hn
    rw [show ((C.team E).part i).cell l = _ from Mem.only_pos ⟨o, ho, hb⟩]
    exact hn⟩ sched).free i
  change ∀ l, (C.team E).outcome sched i ≠ .taken l at hk
  have := h2 sched
  generalize (C.team E).outcome sched i = r at this hk
  cases r with
  | ok => exact this
  | paused => exact this
  | taken l => exact hk l rfl
  | _ => exact this

/-- **C78 (rights).**  At every moment the locations that belong to one thread (which
it may write) neither belong to another (which may then neither read nor write them)
nor are lent, and they are in the memory as the thread has left them. -/
theorem C78_rights (hE : E.Good) (hr : Runs E C.mem) (hv : View E C.mem S) (hl : C.Legal E S) (sched : List ι) {i : ι} {s : Th α}
    (hs : ((C.team E).outcome sched i).state = some s) {l : Loc} (ho : s.own l = true) :
    (∀ j s', j ≠ i → ((C.team E).outcome sched j).state = some s' → s'.own l = false ∧ s'.lent l = false) ∧
    ((C.team E).exec sched).mem l = s.mem.cell l ∧ s.mem.cell l ≠ none := by
  have hI := hr.inv_of hE hv
  have hF := hl.follows hE hI C.zones_all
  have hf := Team.Fine.exec hF (C.apart hI) sched
  refine ⟨fun j s' hj hs' => ⟨hf.apart i j s s' (Ne.symm hj) hs hs' l ho, ?_⟩, hf.seen i s hs l (.inl ho), hf.live i s hs l ho⟩
  have h1 := hf.sep i s hs l ho
  have k1 := (((hF.paced j).run ((C.team E).begin_ j (((C.team E).exec sched).found j)) (Nat.zero_le _)).held.keeps s' hs').1
  have k2 := (((hF.paced i).run ((C.team E).begin_ i (((C.team E).exec sched).found i)) (Nat.zero_le _)).held.keeps s hs).1
  rw [k1]; rw [k2] at h1
  exact h1

/-- **C78 (what is lent).**  At every moment, whatever the schedule, the lent containers
are in the memory as they were at the start. -/
theorem C78_lent (hE : E.Good) (hr : Runs E C.mem) (hv : View E C.mem S) (hl : C.Legal E S) (sched : List ι) :
    ∃ m, m.PartOf ((C.team E).exec sched).mem ∧ View E m (S.only C.Lent) ∧ ∀ o l, C.Lent o → Belongs C.mem o l → C.mem.cell l ≠ none →
      ((C.team E).exec sched).mem l = C.mem.cell l := by
  have hI := hr.inv_of hE hv
  have h := hl.lent hE hI sched
  refine ⟨C.mem.only C.Lent, h, (hI.only _).view, fun o l ho hb hn => ?_⟩
  obtain ⟨c, hc⟩ := Option.ne_none_iff_exists'.1 hn
  rw [hc]
  exact h l c (by rw [Mem.only_pos ⟨o, ho, hb⟩]; exact hc)

/-- **C78 (afterwards).**  When all threads have ended, whatever the schedule, the
containers are those that were lent and those with which each thread ends alone, and
there is nothing else in the memory. -/
theorem C78_join [Fintype ι] (hE : E.Good) (hr : Runs E C.mem) (hv : View E C.mem S) (hl : C.Legal E S) {sched : List ι}
    {h : ι → List (Out α)} {s : ι → Th α} (hok : ∀ i, (C.team E).outcome sched i = .ok (h i) (s i))
    {m' : Mem α} (hm' : m'.cell = ((C.team E).exec sched).mem) :
    ∃ (S' : ι → Bank α) (T : Bank α), (∀ i, (C.client i).Run (C.at_ E i) (C.calls i) [] (C.sees S i) (h i) ((S' i).join (S.only C.Lent))) ∧
      (∀ o x, T o = some x ↔ (S.only C.Lent) o = some x ∨ ∃ i, S' i o = some x) ∧ View E m' T ∧
      ∀ l, m'.cell l ≠ none → ∃ o, T o ≠ none ∧ Belongs m' o l := by
  obtain ⟨S', T, h1, h2, h3⟩ := hl.joined hE (hr.inv_of hE hv) hok hm'
  exact ⟨S', T, h1, h3, h2.view, fun l hl => h2.someones hl⟩

end

/-- **C78 (programs with threads).**  A program may start threads and wait for them, as
often as it likes, and call functions of the containers in between: there is always a
list of elements for each container, and every call within its precondition does what
the specification says, or throws what it allows. -/
theorem C78_programs (hE : E.Good) {m : Mem α} (hr : Runs E m) :
    ∃ S, View E m S ∧ ∀ op : Op α, op.Pre E S →
      (∃ r m' S', op.run E m = .ok r m' ∧ op.Ok E S r S' ∧ View E m' S') ∨
      (∃ e m' S', op.run E m = .throw e m' ∧ op.Exc E S e S' ∧ View E m' S') := by
  obtain ⟨S, hI⟩ := hr.inv hE
  refine ⟨S, hI.view, fun op hp => ?_⟩
  obtain ⟨A, hR, H⟩ := hI
  have hs := op_c hE op hR H hp
  unfold Spec at hs
  cases he : op.run E m with
  | ok r m' =>
    rw [he] at hs
    obtain ⟨S', h1, h2, -⟩ := hs
    exact .inl ⟨r, m', S', rfl, h1, h2.view⟩
  | throw e m' =>
    rw [he] at hs
    obtain ⟨S', h1, h2, -⟩ := hs
    exact .inr ⟨e, m', S', rfl, h1, h2.view⟩
  | _ => rw [he] at hs; exact hs.elim

/-! ### An example

Container 0 holds the list `eight` (Props/Single.lean) and belongs to thread `true`; container 1 holds 1, 2, 3 and
is lent.  Thread `true` assigns 1 to 0, appends 7 and asks for the size; thread `false`
makes a copy of 1, container 2, and compares it with 1.  The addresses handed out to the
threads alternate. -/

/-- the client of the example -/
def pairClient : Bool → Client Nat
  | true, h => match h with
    | [] => some (.bin 0 1 .assignCopy)
    | [_] => some (.un 0 (.pushBack 7))
    | [_, .inl _] => some (.un 0 .size)
    | _ => none
  | false, h => match h with
    | [] => some (.new2 2 1 .copy)
    | [.inl _] => some (.bin 2 1 (.eq fun a b => decide (a = b)))
    | _ => none

/-- the threads of the example -/
def pair (m : Mem Nat) : Crew Bool Nat where
  mem := m
  owner o := if o = 0 then some true else if o = 1 then none else some false
  site b := ⟨fun n => m.log.reqs + 2 * n + (if b then 1 else 2), fun _ _ => false, fun _ => ⟨0, 0, 0, fun _ => 0, fun _ => 0⟩⟩
  client := pairClient
  calls _ := 3

/-- the zones of the example -/
def pairZone (m : Mem Nat) (b : Bool) : Loc → Prop
  | .heap a => ∃ n, a = m.log.reqs + 2 * n + (if b then 1 else 2)
  | .obj o => b = false ∧ o = 2

abbrev pairBank : Bank Nat := upd (upd (fun _ => none) 0 (some ⟨0, eight⟩)) 1 (some ⟨1, [1, 2, 3]⟩)

theorem pair_live {m : Mem Nat} (hr : Reach demo m) {a : Nat} (h : m.cell (.heap a) ≠ none) : a ≤ m.log.reqs := by
  obtain ⟨k, hk, e⟩ := hr.live (a := a) (Option.isSome_iff_ne_none.2 h)
  have : k + 1 = a := e
  omega

theorem pair_true {m : Mem Nat} : (pair m).sees pairBank true = pairBank := by
  funext o
  unfold Crew.sees
  by_cases h : (pair m).Owns true o ∨ (pair m).Lent o
  · exact Bank.only_pos h
  · rw [Bank.only_neg (p := fun o => (pair m).Owns true o ∨ (pair m).Lent o) h]
    have h0 : o ≠ 0 := fun e => h (.inl (by subst e; rfl))
    have h1 : o ≠ 1 := fun e => h (.inr (by subst e; rfl))
    simp [pairBank, upd, h0, h1]

theorem pair_false {m : Mem Nat} : (pair m).sees pairBank false = upd (fun _ => none) 1 (some ⟨1, [1, 2, 3]⟩) := by
  funext o
  unfold Crew.sees
  by_cases h0 : o = 0
  · subst h0
    rw [Bank.only_neg (p := fun o => (pair m).Owns false o ∨ (pair m).Lent o) (by simp [Crew.Owns, Crew.Lent, pair])]
    rfl
  · by_cases h1 : o = 1
    · subst h1
      exact Bank.only_pos (p := fun o => (pair m).Owns false o ∨ (pair m).Lent o) (.inr rfl)
    · unfold Bank.only
      split <;> simp [pairBank, upd, h0, h1]

theorem pair_legal {m : Mem Nat} (hr : Reach demo m) (hv : View demo m pairBank) : (pair m).Legal demo pairBank where
  spares b n o ho hb := by
    have h1 := pair_live hr ((hr.runs.inv_of demo_good hv).held hb (fun h => by cases h))
    cases b <;> simp [pair] at h1 <;> omega
  legal b := by
    cases b with
    | true =>
      rw [pair_true]
      have big : ∀ n, n ≤ 16 → n ≤ max_size ((pair m).at_ demo true) := fun n hn => le_trans hn (by show 16 ≤ max_size demo; decide)
      have key : ∀ (r : Out Nat) (S : Bank Nat) (x : Obj Nat), S 0 = some x → x.elems.length < 16 →
          Client.Legal ((pair m).at_ demo true) (pair m).Lent (pairClient true) 2 [r] S := by
        intro r S x hx hn
        have own : ∀ o ∈ [0], ¬ (pair m).Lent o := by simp [Crew.Lent, pair]
        refine ⟨⟨x, hx, big _ hn⟩, own, ?_, fun e S' _ => ?_⟩
        · rintro r' S' ⟨y, y', hy, -, rfl⟩
          refine ⟨⟨y', upd_self, trivial⟩, by simp [Op.writes, Op.isConst], ?_, ?_⟩
          · intros; trivial
          · intros; trivial
        · trivial
      refine ⟨⟨by decide, _, _, rfl, rfl, fun h => by cases h⟩, by simp [Op.writes, Op.isConst, Bin.copying, Crew.Lent, pair], ?_, ?_⟩
      · rintro r S' ⟨x, y, x', y', hx, hy, ⟨-, rfl, -⟩, rfl⟩
        cases hy
        exact key _ _ _ upd_self (by simp)
      · rintro e S' ⟨x, y, x', y', hx, hy, ⟨-, -, k, hk, xs, h1, -, rfl⟩, rfl⟩
        cases hx; cases hy
        rw [h1 (by rintro ⟨h, -⟩; cases h)]
        refine key _ _ _ upd_self ?_
        simp only [List.length_append, List.length_take, List.length_drop]
        simp [eight]; omega
    | false =>
      rw [pair_false]
      refine ⟨⟨rfl, _, rfl, rfl⟩, by simp [Op.writes, New2.copying, Crew.Lent, pair], ?_, ?_⟩
      · rintro r S' ⟨-, y, x', y', hy, -, rfl⟩
        refine ⟨⟨by decide, _, _, upd_self, (upd_ne (by decide)).trans upd_self, trivial⟩, by simp [Op.writes, Op.isConst], ?_, ?_⟩
        · intros; trivial
        · intros; trivial
      · intros; trivial

theorem pair_zones {m : Mem Nat} : (pair m).Zones (pairZone m) where
  heap b n := .inr ⟨n, rfl⟩
  obj b h op hc o ho := by
    cases b with
    | true =>
      simp only [pair, pairClient] at hc
      split at hc <;> cases hc <;> cases ho
    | false =>
      simp only [pair, pairClient] at hc
      split at hc <;> cases hc
      · simp [Op.makes] at ho; exact ⟨rfl, ho⟩
      · cases ho

theorem pair_apart {m : Mem Nat} (b b' : Bool) (l : Loc) (h : b ≠ b') (h1 : pairZone m b l) : ¬ pairZone m b' l := by
  intro h2
  cases l with
  | heap a =>
    obtain ⟨n, e1⟩ := h1
    obtain ⟨k, e2⟩ := h2
    cases b <;> cases b' <;> simp at h e1 e2 <;> omega
  | obj o => exact h (h1.1.trans h2.1.symm)

theorem pair_mine {m : Mem Nat} (hr : Reach demo m) (hv : View demo m pairBank) (b : Bool) (l : Loc) (h : pairZone m b l)
    (hl : m.cell l ≠ none) : ∃ o, (pair m).Owns b o ∧ Belongs m o l := by
  exfalso
  cases l with
  | heap a =>
    obtain ⟨n, e⟩ := h
    have := pair_live hr hl
    cases b <;> simp at e <;> omega
  | obj o =>
    obtain ⟨-, rfl⟩ := h
    exact hl (hv 2)

/-- the hypotheses of the theorems hold for the example -/
example : ∃ m, Runs demo (pair m).mem ∧ View demo (pair m).mem pairBank ∧ (pair m).Legal demo pairBank ∧ (pair m).Zones (pairZone m) ∧
    (∀ i j l, i ≠ j → pairZone m i l → ¬ pairZone m j l) ∧
    ∀ i l, pairZone m i l → (pair m).mem.cell l ≠ none → ∃ o, (pair m).Owns i o ∧ Belongs (pair m).mem o l := by
  obtain ⟨m, hr, hv, -⟩ := demo_lists eight [1, 2, 3] 0 1
  exact ⟨m, hr.runs, hv, pair_legal hr hv, pair_zones, pair_apart, pair_mine hr hv⟩

/-- and however the two are scheduled, if each gets enough turns both end -/
example : ∃ m N, Reach demo m ∧ ∀ sched : List Bool, N ≤ sched.count true → N ≤ sched.count false →
    ∃ (h : Bool → List (Out Nat)) (s : Bool → Th Nat), ∀ b, ((pair m).team demo).outcome sched b = .ok (h b) (s b) := by
  obtain ⟨m, hr, hv, -⟩ := demo_lists eight [1, 2, 3] 0 1
  have h := C78_ends (C := pair m) demo_good hr.runs hv (pair_legal hr hv) pair_zones pair_apart (pair_mine hr hv)
  obtain ⟨N, h1, S1, -, e1⟩ := h true
  obtain ⟨K, h2, S2, -, e2⟩ := h false
  refine ⟨m, max N K, hr, fun sched c1 c2 => ?_⟩
  have e1 := e1 sched
  have e2 := e2 sched
  cases r1 : ((pair m).team demo).outcome sched true <;> rw [r1] at e1 <;> first | exact e1.elim | skip
  · cases r2 : ((pair m).team demo).outcome sched false <;> rw [r2] at e2 <;> first | exact e2.elim | skip
    · rename_i v1 s1 v2 s2
      exact ⟨fun b => if b then v1 else v2, fun b => if b then s1 else s2, fun b => by cases b <;> assumption⟩
    · exact absurd (lt_of_lt_of_le e2 (le_max_right N K)) (by omega)
  · exact absurd (lt_of_lt_of_le e1 (le_max_left N K)) (by omega)

end SegTree
