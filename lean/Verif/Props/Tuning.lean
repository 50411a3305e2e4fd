/-
  C73: the tuning parameters and the allocator's choice of addresses are invisible.

  `segment_target`, `base_target`, the sizes of elements and nodes, the width of
  `size_type`, the addresses and the uninitialised memory that the allocator hands
  out: none of them shows in what a program sees.
-/
import Verif.Props.History
set_option autoImplicit false

namespace SegTree
variable {α : Type} {E E' : Env α} {m m' : Mem α} {S : Bank α} {op : Op α}

/-- The same element type and the same kind of allocator: what the allocator does on
copy, move and swap of containers, which allocators compare equal, and what is left
in a moved-from element. Everything else may differ: all template parameters, sizes,
addresses, which requests are refused and which copies throw. -/
structure SameTypes (E E' : Env α) : Prop where
  pocca : E.pocca = E'.pocca
  pocma : E.pocma = E'.pocma
  pocs : E.pocs = E'.pocs
  acls : E.acls = E'.acls
  selectCopy : E.selectCopy = E'.selectCopy
  moved : ∀ v, E.moved v = E'.moved v

/-- no call of the history was stopped by a refused allocation or by a copy that threw -/
def Undisturbed (h : Hist α) : Prop := ∀ c ∈ h, c.2 ≠ .exc .alloc ∧ c.2 ≠ .exc .elem

theorem SameTypes.symm (hT : SameTypes E E') : SameTypes E' E :=
  ⟨hT.1.symm, hT.2.symm, hT.3.symm, hT.4.symm, hT.5.symm, fun v => (hT.6 v).symm⟩

theorem SameTypes.same (hT : SameTypes E E') (a b : Nat) : SameAlloc E a b ↔ SameAlloc E' a b := by
  unfold SameAlloc; rw [hT.acls]

theorem SameTypes.ok (hT : SameTypes E E') {r : Ret α} {S' : Bank α} (h : op.Ok E S r S') : op.Ok E' S r S' := by
  have hm : E.moved = E'.moved := funext hT.moved
  cases op with
  | un o c => exact h
  | bin o p c =>
    obtain ⟨x, y, x', y', h1, h2, h3, h4⟩ := h
    refine ⟨x, y, x', y', h1, h2, ?_, h4⟩
    cases c <;> simp only [Bin.Ok] at h3 ⊢ <;>
      (try simp only [← hT.pocca, ← hT.pocma, ← hT.pocs, ← hT.same, ← hm]) <;> exact h3
  | new o c => exact h
  | new2 o p c =>
    obtain ⟨h0, y, x', y', h1, h3, h4⟩ := h
    refine ⟨h0, y, x', y', h1, ?_, h4⟩
    cases c <;> simp only [New2.Ok] at h3 ⊢ <;>
      (try simp only [← hT.selectCopy, ← hT.same, ← hm]) <;> exact h3
  | dtor o => exact h

/-- the only exception besides `bad_alloc` and an element's is the `out_of_range` of
`at`, for an index not below the size -/
theorem exc_range {S' : Bank α} (h : op.Exc E S .range S') :
    ∃ o i x, op = .un o (.at_ i) ∧ S o = some x ∧ x.elems.length ≤ i ∧ S' = S := by
  cases op with
  | un o c =>
    obtain ⟨x, x', h1, h2, h3⟩ := h
    cases c <;> simp only [Un.Exc, Blame] at h2
    case at_ i =>
      refine ⟨o, i, x, rfl, h1, h2.2.1, ?_⟩
      rw [h3, h2.2.2]; funext q; unfold upd; split
      · subst_vars; exact h1.symm
      · rfl
    all_goals simp at h2
  | bin o p c =>
    obtain ⟨x, y, x', y', h1, h2, h3, -⟩ := h
    cases c <;> simp only [Bin.Exc, Blame] at h3 <;> simp at h3
  | new o c => cases c <;> simp [Op.Exc, New.Exc, Blame] at h
  | new2 o p c =>
    obtain ⟨y, y', h1, h3, -⟩ := h
    cases c <;> simp only [New2.Exc, Blame] at h3 <;> simp at h3
  | dtor o => exact h.elim

theorem range_exc {o i : Nat} {x : Obj α} (h1 : S o = some x) (h2 : x.elems.length ≤ i) :
    Op.Exc E S (.un o (.at_ i)) .range S :=
  ⟨x, x, h1, ⟨rfl, h2, rfl⟩, by funext q; unfold upd; split <;> simp_all⟩

/-- two undisturbed outcomes of the same call on containers with the same contents are equal -/
theorem SameTypes.step (hT : SameTypes E E') {S1 S2 : Bank α} :
    (∀ {r}, op.Ok E S r S1 → ∀ r', op.Ok E' S r' S2 → r = r' ∧ S1 = S2) ∧
    (∀ {r}, op.Ok E S r S1 → ¬ op.Exc E' S .range S2) ∧
    (op.Exc E S .range S1 → op.Exc E' S .range S2 → S1 = S2) := by
  refine ⟨fun h r' h' => C04_deterministic (hT.ok h) h', fun h h' => ?_, fun h h' => ?_⟩
  · obtain ⟨o, i, x, rfl, h1, h2, -⟩ := exc_range h'
    obtain ⟨y, y', h3, ⟨⟨h4, -⟩, -⟩, -⟩ := h
    rw [h1] at h3; cases h3; omega
  · obtain ⟨-, -, -, -, -, -, rfl⟩ := exc_range h
    obtain ⟨-, -, -, -, -, -, rfl⟩ := exc_range h'
    rfl

/-- C73: two programs that make the same calls, on containers of two types that differ
only in tuning parameters, sizes and addresses (and in which calls would fail), get the
same results from all of them (values, positions, `out_of_range` exceptions) and end
with containers with the same contents and allocators, if none of their calls is
stopped by a refused allocation or a throwing copy. -/
theorem C73_tuning (hE : E.Good) (hE' : E'.Good) (hT : SameTypes E E') {h h' : Hist α}
    (hx : Exec E noMem h m) (hx' : Exec E' noMem h' m') (hops : h.map (·.1) = h'.map (·.1))
    (hu : Undisturbed h) (hu' : Undisturbed h') :
    h = h' ∧ ∃ S, View E m S ∧ View E' m' S := by
  obtain ⟨S, hM, hv⟩ := C04_simulation hE hx
  obtain ⟨S', hM', hv'⟩ := C04_simulation hE' hx'
  suffices key : h = h' ∧ S = S' by obtain ⟨h1, rfl⟩ := key; exact ⟨h1, S, hv, hv'⟩
  clear hx hx' hv hv' hE hE'
  generalize (fun _ => none : Bank α) = S0 at hM hM'
  induction hM generalizing h' with
  | nil =>
    cases h' with
    | nil => cases hM'; exact ⟨rfl, rfl⟩
    | cons => cases hops
  | @ret S0 S1 S2 op r h hp hk _ ih =>
    cases h' with
    | nil => cases hops
    | cons c h' =>
      simp only [List.map_cons, List.cons.injEq] at hops
      have hs := hu' c List.mem_cons_self
      cases hM' with
      | ret hp' hk' hM' =>
        obtain ⟨rfl, hops⟩ := hops
        obtain ⟨rfl, rfl⟩ := (hT.step).1 hk _ hk'
        obtain ⟨rfl, rfl⟩ := ih hops (fun c hc => hu c (.tail _ hc)) (fun c hc => hu' c (.tail _ hc)) hM'
        exact ⟨rfl, rfl⟩
      | @exc _ _ _ _ e _ hp' hk' hM' =>
        obtain ⟨rfl, hops⟩ := hops
        cases e with
        | alloc => exact (hs.1 rfl).elim
        | elem => exact (hs.2 rfl).elim
        | range => exact ((hT.step).2.1 hk hk').elim
  | @exc S0 S1 S2 op e h hp hk _ ih =>
    cases h' with
    | nil => cases hops
    | cons c h' =>
      simp only [List.map_cons, List.cons.injEq] at hops
      have hs := hu' c List.mem_cons_self
      have hs0 := hu _ List.mem_cons_self
      cases e with
      | alloc => exact (hs0.1 rfl).elim
      | elem => exact (hs0.2 rfl).elim
      | range =>
        cases hM' with
        | ret hp' hk' hM' =>
          obtain ⟨rfl, hops⟩ := hops
          exact ((hT.symm.step).2.1 hk' hk).elim
        | @exc _ _ _ _ e _ hp' hk' hM' =>
          obtain ⟨rfl, hops⟩ := hops
          cases e with
          | alloc => exact (hs.1 rfl).elim
          | elem => exact (hs.2 rfl).elim
          | range =>
            obtain rfl := (hT.step).2.2 hk hk'
            obtain ⟨rfl, rfl⟩ := ih hops (fun c hc => hu c (.tail _ hc)) (fun c hc => hu' c (.tail _ hc)) hM'
            exact ⟨rfl, rfl⟩

/-- what a type needs so that no call is outside its preconditions that was within
those of the other: as large a `size_type`, an allocator as tolerant -/
structure AsRoomy (E E' : Env α) : Prop where
  size : max_size E ≤ max_size E'
  null : E.nullFree = true → E'.nullFree = true

theorem SameTypes.pre (hT : SameTypes E E') (hR : AsRoomy E E') (h : op.Pre E S) : op.Pre E' S := by
  have hs := hR.size
  have hC : ∀ x, Clearable E x → Clearable E' x := fun x hx => hx.imp id hR.null
  cases op with
  | un o c =>
    obtain ⟨x, h1, h2⟩ := h
    refine ⟨x, h1, ?_⟩
    cases c <;> simp only [Un.Pre] at h2 ⊢ <;> first | exact hC _ h2 | exact h2 | omega
  | bin o p c =>
    obtain ⟨h0, x, y, h1, h2, h3⟩ := h
    refine ⟨h0, x, y, h1, h2, ?_⟩
    cases c <;> simp only [Bin.Pre] at h3 ⊢ <;> (try simp only [← hT.pocca, ← hT.pocma, ← hT.pocs, ← hT.same]) <;>
      first
        | exact h3
        | exact fun a b => hC _ (h3 a b)
        | exact fun a => hC _ (h3 a)
        | exact ⟨h3.1, hC _ h3.2.1, by omega⟩
        | omega
  | new o c =>
    obtain ⟨h1, h2⟩ := h
    refine ⟨h1, ?_⟩
    cases c <;> simp only [New.Pre] at h2 ⊢ <;> exact ⟨by omega, hR.null h2.2⟩
  | new2 o p c =>
    obtain ⟨h1, y, h2, h3⟩ := h
    refine ⟨h1, y, h2, ?_⟩
    cases c <;> simp only [New2.Pre] at h3 ⊢ <;> first | exact hR.null h3 | exact ⟨h3.1, h3.2.1, hR.null h3.2.2⟩
  | dtor o =>
    obtain ⟨x, h1, h2⟩ := h
    exact ⟨x, h1, hC _ h2⟩

/-- C73: a program that runs with one choice of the tuning parameters runs with every
other: each call returns the same value or throws `out_of_range` as before, all the
way to the end, unless a call is stopped by a refused allocation or by a copy that
throws. -/
theorem C73_portable (hE : E.Good) (hE' : E'.Good) (hT : SameTypes E E') (hR : AsRoomy E E') {h : Hist α}
    (hx : Exec E noMem h m) (hu : Undisturbed h) :
    (∃ m', Exec E' noMem h m') ∨
    ∃ h0 h1 op out e m', h = h0 ++ (op, out) :: h1 ∧ (e = .alloc ∨ e = .elem) ∧
      Exec E' noMem (h0 ++ [(op, .exc e)]) m' := by
  obtain ⟨S, hM, -⟩ := C04_simulation hE hx
  have key : ∀ {S0 : Bank α} {h : Hist α} {S : Bank α}, Model E S0 h S → Undisturbed h →
      ∀ m0, Reach E' m0 → View E' m0 S0 →
      (∃ m', Exec E' m0 h m') ∨
      ∃ h0 h1 op out e m', h = h0 ++ (op, out) :: h1 ∧ (e = .alloc ∨ e = .elem) ∧
        Exec E' m0 (h0 ++ [(op, .exc e)]) m' := by
    intro S0 h S hM
    induction hM with
    | nil => intro _ m0 _ _; exact .inl ⟨m0, .nil⟩
    | @ret S0 S1 S2 op r h hp hk _ ih =>
      intro hu m0 hr hv
      have hp' := hT.pre hR hp
      rcases hr.op hE' hv hp' with ⟨r', m1, S', h1, h2, h3, -⟩ | ⟨e, m1, S', h1, h2, h3, -⟩
      · obtain ⟨rfl, rfl⟩ := hT.step.1 hk _ h2
        rcases ih (fun c hc => hu c (.tail _ hc)) m1 (.ret hr hv hp' h1) h3 with ⟨m', hx⟩ | ⟨k0, k1, op', out, e, m', rfl, he, hx⟩
        · exact .inl ⟨m', .ret hv hp' h1 hx⟩
        · exact .inr ⟨_ :: k0, k1, op', out, e, m', rfl, he, .ret hv hp' h1 hx⟩
      · have he : e = .alloc ∨ e = .elem := by
          cases e with
          | alloc => exact .inl rfl
          | elem => exact .inr rfl
          | range => exact (hT.step.2.1 hk h2).elim
        exact .inr ⟨[], h, op, _, e, m1, rfl, he, .exc hv hp' h1 .nil⟩
    | @exc S0 S1 S2 op e h hp hk _ ih =>
      intro hu m0 hr hv
      have hp' := hT.pre hR hp
      have hs := hu _ List.mem_cons_self
      cases e with
      | alloc => exact (hs.1 rfl).elim
      | elem => exact (hs.2 rfl).elim
      | range =>
      rcases hr.op hE' hv hp' with ⟨r', m1, S', h1, h2, h3, -⟩ | ⟨e, m1, S', h1, h2, h3, -⟩
      · exact (hT.symm.step.2.1 h2 hk).elim
      · cases e with
        | alloc => exact .inr ⟨[], h, op, _, .alloc, m1, rfl, .inl rfl, .exc hv hp' h1 .nil⟩
        | elem => exact .inr ⟨[], h, op, _, .elem, m1, rfl, .inr rfl, .exc hv hp' h1 .nil⟩
        | range =>
          obtain rfl := hT.step.2.2 hk h2
          rcases ih (fun c hc => hu c (.tail _ hc)) m1 (.exc hr hv hp' h1) h3 with ⟨m', hx⟩ | ⟨k0, k1, op', out, e, m', rfl, he, hx⟩
          · exact .inl ⟨m', .exc hv hp' h1 hx⟩
          · exact .inr ⟨_ :: k0, k1, op', out, e, m', rfl, he, .exc hv hp' h1 hx⟩
  exact key hM hu noMem .init view_init

theorem exc_elem {S' : Bank α} (h : op.Exc E S .elem S') : ∃ v, CopyThrows E v := by
  cases op with
  | un o c =>
    obtain ⟨x, x', h1, h2, h3⟩ := h
    cases c <;> simp only [Un.Exc, Blame] at h2 <;>
      first
        | exact ⟨_, h2.2.1⟩
        | (rcases h2 with ⟨h2 | ⟨-, v, -, h2⟩, -⟩
           · cases h2
           · exact ⟨v, h2⟩)
        | (rcases h2 with ⟨⟨-, h2 | ⟨-, v, -, h2⟩⟩, -⟩
           · cases h2
           · exact ⟨v, h2⟩)
        | simp at h2
  | bin o p c =>
    obtain ⟨x, y, x', y', h1, h2, h3, -⟩ := h
    cases c <;> simp only [Bin.Exc, Blame] at h3 <;>
      first
        | (rcases h3 with ⟨h2 | ⟨-, v, -, h2⟩, -⟩
           · cases h2
           · exact ⟨v, h2⟩)
        | (rcases h3 with ⟨⟨-, h2 | ⟨-, v, -, h2⟩⟩, -⟩
           · cases h2
           · exact ⟨v, h2⟩)
        | simp at h3
  | new o c =>
    cases c <;> simp only [Op.Exc, New.Exc, Blame] at h <;>
      first
        | exact h.1.elim
        | (rcases h with ⟨h2 | ⟨-, v, -, h2⟩, -⟩
           · cases h2
           · exact ⟨v, h2⟩)
  | new2 o p c =>
    obtain ⟨y, y', h1, h3, -⟩ := h
    cases c <;> simp only [New2.Exc, Blame] at h3 <;>
      first
        | (rcases h3 with ⟨h2 | ⟨-, v, -, h2⟩, -⟩
           · cases h2
           · exact ⟨v, h2⟩)
        | simp at h3
  | dtor o => exact h.elim

theorem Exec.last {h : Hist α} {e : Exn} {m0 : Mem α} (hr : Reach E m0) (hx : Exec E m0 (h ++ [(op, .exc e)]) m) :
    ∃ m1 S, Reach E m1 ∧ View E m1 S ∧ op.Pre E S ∧ op.run E m1 = .throw e m := by
  induction h generalizing m0 with
  | nil =>
    cases hx with
    | exc hv hp h1 hx => cases hx; exact ⟨_, _, hr, hv, hp, h1⟩
  | cons c h ih =>
    cases hx with
    | ret hv hp h1 hx => exact ih (.ret hr hv hp h1) hx
    | exc hv hp h1 hx => exact ih (.exc hr hv hp h1) hx

/-- C73: ... and if memory does not run out and copies do not throw with the other
choice of parameters, the whole program runs there, with the same results, and leaves
the same containers. -/
theorem C73_runs (hE : E.Good) (hE' : E'.Good) (hT : SameTypes E E') (hR : AsRoomy E E') {h : Hist α}
    (hx : Exec E noMem h m) (hu : Undisturbed h) (hA : Endless E') (hc : ∀ v, ¬ CopyThrows E' v) :
    ∃ m' S, Exec E' noMem h m' ∧ View E m S ∧ View E' m' S := by
  rcases C73_portable hE hE' hT hR hx hu with ⟨m', hx'⟩ | ⟨h0, h1, op, out, e, m', -, he, hx'⟩
  · obtain ⟨-, S, h1, h2⟩ := C73_tuning hE hE' hT hx hx' rfl hu hu
    exact ⟨m', S, hx', h1, h2⟩
  · obtain ⟨m1, S, hr, hv, hp, h2⟩ := hx'.last .init
    rcases he with rfl | rfl
    · exact (hr.no_alloc hA op h2).elim
    · obtain ⟨S', h3, -⟩ := step_exc hE' hr hv hp h2
      obtain ⟨v, h4⟩ := exc_elem h3
      exact (hc v h4).elim

/-! The hypotheses are met: the configuration `demo` (2 elements per segment) and one
with 100 elements per segment, 9 children per node, other addresses and no throwing
copies; a program that constructs a container, asks for an element out of range and
inserts. -/

/-- see above -/
def broad : Env Nat := { demo with
  segTarget := 400, baseTarget := 160, oracle := fun n => 2 * n + 7, cthrow := fun _ _ => false }

example : broad.segMax = 100 ∧ broad.baseMax = 9 := by decide

example : ∃ (h : Hist Nat) (m m' : Mem Nat) (S : Bank Nat), h.map (·.1) = [.new 0 (.list 0 eight), .un 0 (.at_ 8),
    .un 0 (.insert 3 42)] ∧ Exec demo noMem h m ∧ Undisturbed h ∧ Exec broad noMem h m' ∧
    View demo m S ∧ View broad m' S ∧ S 0 = some ⟨0, ins eight 3 [42]⟩ := by
  have hp1 : Op.Pre demo (fun _ => none) (.new 0 (.list 0 eight)) := ⟨rfl, by decide, rfl⟩
  obtain ⟨r1, m1, S1, h1, ⟨rfl, x1, hx1, rfl⟩, v1, R1⟩ := demo_op .init view_init hp1
    (fun e S' hx => demo_blame (by decide) hx.1)
  cases hx1
  have hp2 : Op.Pre demo (upd (fun _ => none) 0 (some ⟨0, eight⟩)) (.un 0 (.at_ 8)) :=
    ⟨⟨0, eight⟩, upd_self .., trivial⟩
  obtain ⟨m2, S2, h2, h2', v2, R2⟩ : ∃ m2 S2, Op.run demo (.un 0 (.at_ 8)) m1 = .throw .range m2 ∧
      Op.Exc demo (upd (fun _ => none) 0 (some ⟨0, eight⟩)) (.un 0 (.at_ 8)) .range S2 ∧ View demo m2 S2 ∧
      Reach demo m2 := by
    rcases R1.op demo_good v1 hp2 with ⟨r, m', S', h1, h2, h3, h4⟩ | ⟨e, m', S', h1, h2, h3, h4⟩
    · obtain ⟨x, x', hx, ⟨⟨hi, -⟩, -⟩, -⟩ := h2
      rw [upd_self] at hx; cases hx
      exact absurd hi (by decide)
    · have : e = .range := by obtain ⟨x, x', hx, ⟨he, -⟩, -⟩ := h2; exact he
      subst this
      exact ⟨m', S', h1, h2, h3, h4⟩
  obtain ⟨-, -, -, -, -, -, rfl⟩ := exc_range h2'
  have hp3 : Op.Pre demo (upd (fun _ => none) 0 (some ⟨0, eight⟩)) (.un 0 (.insert 3 42)) :=
    ⟨⟨0, eight⟩, upd_self .., (by decide : 3 ≤ eight.length ∧ eight.length + 1 ≤ max_size demo)⟩
  obtain ⟨r3, m3, S3, h3, ⟨x3, x4, hx3, ⟨rfl, rfl⟩, rfl⟩, v3, R3⟩ := demo_op R2 v2 hp3
    (by rintro e S' ⟨x, x', hx, hb, -⟩; exact demo_blame (by decide) hb.1)
  rw [upd_self] at hx3; cases hx3
  have hx : Exec demo noMem [(.new 0 (.list 0 eight), .ret .unit), (.un 0 (.at_ 8), .exc .range),
      (.un 0 (.insert 3 42), .ret (.pos 3))] m3 :=
    .ret view_init hp1 h1 (.exc v1 hp2 h2 (.ret v2 hp3 h3 .nil))
  have hu : Undisturbed [((.new 0 (.list 0 eight) : Op Nat), (.ret .unit : Outcome Nat)), (.un 0 (.at_ 8), .exc .range),
      (.un 0 (.insert 3 42), .ret (.pos 3))] := by
    intro c hc
    simp only [List.mem_cons, List.not_mem_nil, or_false] at hc
    rcases hc with rfl | rfl | rfl <;> exact ⟨nofun, nofun⟩
  obtain ⟨m', S, h4, h5, h6⟩ := C73_runs demo_good (E' := broad)
    ⟨by decide, fun _ => .inr rfl, by decide, by decide⟩ ⟨rfl, rfl, rfl, rfl, rfl, fun _ => rfl⟩
    ⟨Nat.le_refl _, id⟩ hx hu ⟨fun n => by simp [broad], fun a b hab => by simp [broad] at hab; exact hab⟩
    (fun v hv => by obtain ⟨-, n, hv⟩ := hv; simp [broad] at hv)
  obtain rfl := v3.unique h5
  exact ⟨_, m3, m', _, rfl, hx, hu, h4, h5, h6, upd_self ..⟩

end SegTree
