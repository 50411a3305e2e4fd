/-
  Whole programs: banks of containers, the invariant and one step of a program.
-/
import Verif.Proof.Ops2
set_option autoImplicit false
set_option linter.unusedSimpArgs false

namespace SegTree

variable {α β γ : Type} {E : Env α} {g g' : Log} {F : Asrt α} {m m' : Mem α}

@[simp] theorem upd_self {κ β : Type} [DecidableEq κ] {f : κ → β} {k : κ} {v : β} : upd f k v k = v := by simp [upd]
theorem upd_twice {κ β : Type} [DecidableEq κ] {f : κ → β} {k : κ} {v w : β} : upd (upd f k v) k w = upd f k w := by
  funext j; by_cases h : j = k <;> simp [upd, h]
theorem upd_id {κ β : Type} [DecidableEq κ] {f : κ → β} {k : κ} {v : β} (h : f k = v) : upd f k v = f := by
  funext j; by_cases hj : j = k
  · subst hj; simp [h]
  · simp [upd, hj]
theorem upd_comm {κ β : Type} [DecidableEq κ] {f : κ → β} {k j : κ} {v w : β} (h : k ≠ j) :
    upd (upd f k v) j w = upd (upd f j w) k v := by
  funext i
  by_cases h1 : i = k
  · subst h1; simp [upd, h]
  · by_cases h2 : i = j
    · subst h2; simp [upd, h1]
    · simp [upd, h1, h2]

/-! ### Views -/

theorem rdObj_none {o : Nat} (h : m.cell (.obj o) = none) : rdObj o m = .ub .access := by
  unfold rdObj; rw [h]

theorem size_some {o n : Nat} (h : size o m = .ok n m') : m.cell (.obj o) ≠ none := by
  intro hc
  have : size o m = .ub .access := by
    show M.bind (rdObj o) _ m = _
    unfold M.bind; rw [rdObj_none hc]
  rw [this] at h; cases h
theorem height_some {o n : Nat} (h : height o m = .ok n m') : m.cell (.obj o) ≠ none := by
  intro hc
  have : height o m = .ub .access := by
    show M.bind (rdObj o) _ m = _
    unfold M.bind; rw [rdObj_none hc]
  rw [this] at h; cases h
theorem alloc_some {o n : Nat} (h : get_allocator o m = .ok n m') : m.cell (.obj o) ≠ none := by
  intro hc
  have : get_allocator o m = .ub .access := by
    show M.bind (rdObj o) _ m = _
    unfold M.bind; rw [rdObj_none hc]
  rw [this] at h; cases h
theorem nth_some {o i : Nat} {it : Iter} (h : nth E o i m = .ok it m') : m.cell (.obj o) ≠ none := by
  intro hc
  have h0 : getSize o m = .ub .access := by
    show M.bind (rdObj o) _ m = _
    unfold M.bind; rw [rdObj_none hc]
  have : nth E o i m = .ub .access := by
    show M.bind (getSize o) _ m = _
    unfold M.bind; rw [h0]
  rw [this] at h; cases h
theorem at_some {o i : Nat} {v : α} (h : at_ E o i m = .ok v m') : m.cell (.obj o) ≠ none := by
  intro hc
  have h0 : getSize o m = .ub .access := by
    show M.bind (rdObj o) _ m = _
    unfold M.bind; rw [rdObj_none hc]
  have : at_ E o i m = .ub .access := by
    show M.bind (getSize o) _ m = _
    unfold M.bind; rw [h0]
  rw [this] at h; cases h

theorem Contents.unique {o : Nat} {xs ys : List α} (h1 : Contents E o m xs) (h2 : Contents E o m ys) : xs = ys := by
  have hl : xs.length = ys.length := by
    have := h1.1; rw [h2.1] at this; injection this with this; exact this.symm
  refine List.ext_getElem hl ?_
  intro i h h'
  have := h1.2 i h; rw [h2.2 i h'] at this; injection this with this; exact this.symm

theorem View.unique {S S' : Bank α} (h1 : View E m S) (h2 : View E m S') : S = S' := by
  funext o
  have a := h1 o
  have b := h2 o
  cases hS : S o with
  | none =>
    rw [hS] at a
    cases hS' : S' o with
    | none => rfl
    | some x => rw [hS'] at b; exact absurd a (alloc_some b.1)
  | some x =>
    rw [hS] at a
    cases hS' : S' o with
    | none => rw [hS'] at b; exact absurd b (alloc_some a.1)
    | some y =>
      rw [hS'] at b
      have h3 := a.1; rw [b.1] at h3; injection h3 with h3
      have h4 := a.2.unique b.2
      cases x; cases y; simp_all

/-! ### The invariant -/

/-- the memory `A` of a bank `S` of well-formed containers -/
inductive Rep (E : Env α) : Bank α → Asrt α → Prop where
  | nil : Rep E (fun _ => none) 0
  | cons {S : Bank α} {A : Asrt α} {o al : Nat} {s : St α} : Rep E S A → S o = none → s.Ok E →
      Rep E (upd S o (some ⟨al, s.elems⟩)) (cont E o al s + A)

theorem Rep.split {S : Bank α} {A : Asrt α} (h : Rep E S A) {o : Nat} {x : Obj α} (ho : S o = some x) :
    ∃ s A', x = ⟨x.alloc, s.elems⟩ ∧ s.Ok E ∧ A = cont E o x.alloc s + A' ∧ Rep E (upd S o none) A' := by
  induction h with
  | nil => cases ho
  | @cons S A o1 al s hr hn hs ih =>
    by_cases h : o = o1
    · subst h
      rw [upd_self] at ho
      cases ho
      exact ⟨s, A, rfl, hs, rfl, by rw [upd_twice, upd_id hn]; exact hr⟩
    · rw [upd_ne h] at ho
      obtain ⟨s', A', h1, h2, h3, h4⟩ := ih ho
      refine ⟨s', cont E o1 al s + A', h1, h2, by rw [h3]; ac_rfl, ?_⟩
      rw [upd_comm (fun e => h e.symm)]
      exact .cons h4 (by rw [upd_ne (fun e => h e.symm)]; exact hn) hs

theorem Rep.put {S : Bank α} {A : Asrt α} {o al : Nat} {s : St α} (h : Rep E (upd S o none) A) (hs : s.Ok E) :
    Rep E (upd S o (some ⟨al, s.elems⟩)) (cont E o al s + A) := by
  have := Rep.cons (al := al) h (upd_self) hs
  rwa [upd_twice] at this

/-! ### Where a container's memory is -/

theorem lay_heap {w : Nat} : {k p i : Nat} → (t : Tree α k) → ∀ l ∈ (lay E w p i t).map Prod.fst, ∃ a, l = .heap a
  | 0, p, i, t, l, hl => by
    rw [lay_zero] at hl
    simp only [pt, Multiset.map_singleton, Multiset.mem_singleton] at hl
    exact ⟨_, hl⟩
  | k + 1, p, i, t, l, hl => by
    rw [lay_succ, Multiset.map_add, Multiset.mem_add] at hl
    rcases hl with hl | hl
    · simp only [pt, Multiset.map_singleton, Multiset.mem_singleton] at hl
      exact ⟨_, hl⟩
    · have : ∀ (L : List (Tree α k)) (j : Nat), l ∈ (lays E w t.addr j L).map Prod.fst → ∃ a, l = .heap a := by
        intro L
        induction L with
        | nil => intro j h; simp at h
        | cons c L ih =>
          intro j h
          rw [lays_cons, Multiset.map_add, Multiset.mem_add] at h
          rcases h with h | h
          · exact lay_heap c l h
          · exact ih _ h
      exact this _ _ hl

theorem cont_locs {o al : Nat} {s : St α} {p : Nat} (h : Loc.obj p ∈ (cont E o al s).map Prod.fst) : p = o := by
  unfold cont at h
  rw [Multiset.map_add, Multiset.mem_add] at h
  rcases h with h | h
  · cases s with
    | nil => simp [St.lay] at h
    | tree t => obtain ⟨a, ha⟩ := lay_heap t _ h; cases ha
  · simpa [Ob, pt] using h

theorem Rep.dead {S : Bank α} {A : Asrt α} (h : Rep E S A) {o : Nat} (ho : S o = none) :
    Loc.obj o ∉ A.map Prod.fst := by
  induction h with
  | nil => simp
  | @cons S A o1 al s hr hn hs ih =>
    by_cases h : o = o1
    · subst h; simp at ho
    · rw [upd_ne h] at ho
      rw [Multiset.map_add, Multiset.mem_add]
      rintro (h' | h')
      · exact h (cont_locs h')
      · exact ih ho h'

theorem Holds.dead {S : Asrt α} {l : Loc} (H : Holds g S m) (h : l ∉ S.map Prod.fst) : m.cell l = none := by
  by_contra hc
  exact h (H.full l (Option.isSome_iff_ne_none.2 hc))

theorem cont_contents {o al : Nat} {s : St α} (hs : s.Ok E) (H : Holds g (cont E o al s + F) m) :
    Contents E o m s.elems := ⟨getSize_c H, fun _ h => at_c hs h H⟩

theorem Rep.view {S : Bank α} {A : Asrt α} (h : Rep E S A) (H : Holds g A m) : View E m S := by
  intro o
  cases ho : S o with
  | none => exact H.dead (h.dead ho)
  | some x =>
    obtain ⟨s, A', h1, h2, h3, h4⟩ := h.split ho
    rw [h3] at H
    exact ⟨get_allocator_c H, by rw [h1]; exact cont_contents h2 H⟩

/-- the invariant of a program state -/
def Inv (E : Env α) (S : Bank α) (m : Mem α) : Prop := ∃ A, Rep E S A ∧ Holds m.log A m

theorem Inv.view {S : Bank α} (h : Inv E S m) : View E m S := by
  obtain ⟨A, h1, h2⟩ := h; exact h1.view h2

theorem Inv.of {S : Bank α} {A : Asrt α} (h : Rep E S A) (H : Holds g A m) : Inv E S m :=
  ⟨A, h, by rw [H.log]; exact H⟩

/-! ### Framing -/

theorem cont_unchanged {o al : Nat} {s : St α} {F' : Asrt α} (hs : s.Ok E)
    (H : Holds g (cont E o al s + F) m) (H' : Holds g' (cont E o al s + F') m') : Unchanged E o m m' := by
  refine ⟨?_, ?_, ?_, ?_, ?_, ?_⟩
  · intro n h
    have h1 : size o m = _ := getSize_c H
    rw [h1] at h; injection h with h; subst h
    exact getSize_c H'
  · intro n h
    have h1 : height o m = _ := getHeight_c H
    rw [h1] at h; injection h with h; subst h
    exact getHeight_c H'
  · intro n h
    rw [get_allocator_c H] at h; injection h with h; subst h
    exact get_allocator_c H'
  · intro i it h
    obtain ⟨it1, e, ha⟩ := nth_any_c (i := i) hs H
    rw [e] at h; injection h with h; subst h
    obtain ⟨it2, e2, ha2⟩ := nth_any_c (i := i) hs H'
    cases ha.unique hs ha2 H
    refine ⟨e2, ?_⟩
    intro n hn hi v hv
    have h1 : size o m = _ := getSize_c H
    rw [h1] at hn; injection hn with hn; subst hn
    have hl : min i s.elems.length < s.elems.length := by omega
    rw [dereference_c hs ha hl H] at hv; injection hv with hv; subst hv
    exact dereference_c hs ha hl H'
  · intro i v h
    rcases Nat.lt_or_ge i s.elems.length with hl | hl
    · rw [at_c hs hl H] at h; injection h with h; subst h
      exact at_c hs hl H'
    · rw [at_range_c hl H] at h; cases h
  · intro h
    exact absurd h (by have := getSize_c H; exact size_some this)

theorem Rep.unchanged {S1 : Bank α} {X X' : Asrt α} {o : Nat} (hR : Rep E S1 F) (H : Holds g (X + F) m)
    (H' : Holds g' (X' + F) m') (hX : Loc.obj o ∉ X.map Prod.fst) (hX' : Loc.obj o ∉ X'.map Prod.fst) :
    Unchanged E o m m' := by
  cases ho : S1 o with
  | some x =>
    obtain ⟨s, A', -, hs, hF, -⟩ := hR.split ho
    rw [hF] at H H'
    exact cont_unchanged hs (H.eqv (by ac_rfl : _ = cont E o x.alloc s + (X + A')))
      (H'.eqv (by ac_rfl : _ = cont E o x.alloc s + (X' + A')))
  | none =>
    have h1 : m.cell (.obj o) = none := H.dead (by
      rw [Multiset.map_add, Multiset.mem_add]; rintro (h | h); exacts [hX h, hR.dead ho h])
    have h2 : m'.cell (.obj o) = none := H'.dead (by
      rw [Multiset.map_add, Multiset.mem_add]; rintro (h | h); exacts [hX' h, hR.dead ho h])
    exact ⟨fun _ h => absurd h1 (size_some h), fun _ h => absurd h1 (height_some h),
      fun _ h => absurd h1 (alloc_some h), fun _ _ h => absurd h1 (nth_some h),
      fun _ _ h => absurd h1 (at_some h), fun _ => h2⟩

/-! ### One step -/

/-- what a call does, on a memory that represents the bank `S` -/
theorem op_c (hE : E.Good) {S : Bank α} {A : Asrt α} (op : Op α) (hR : Rep E S A) (H : Holds g A m)
    (hp : op.Pre E S) :
    Spec (op.run E) m
      (fun r m' => ∃ S', op.Ok E S r S' ∧ Inv E S' m' ∧ LogR op.Quiet m.log m'.log ∧
        ∀ o ∉ op.objs, Unchanged E o m m')
      (fun e m' => ∃ S', op.Exc E S e S' ∧ Inv E S' m' ∧ LogX e op.Quiet m.log m'.log ∧
        ∀ o ∉ op.objs, Unchanged E o m m') := by
  have hlog := H.log
  cases op with
  | un o c =>
    obtain ⟨x, hx, hp⟩ := hp
    obtain ⟨s, F, hxe, hs, rfl, hF⟩ := hR.split hx
    have ux : ∀ {al' : Nat} {s' : St α} {g' : Log} {m' : Mem α}, Holds g' (cont E o al' s' + F) m' →
        ∀ o' ∉ (Op.un o c).objs, Unchanged E o' m m' := fun H' o' ho => hF.unchanged H H'
          (fun h => ho (by simp [Op.objs, cont_locs h])) (fun h => ho (by simp [Op.objs, cont_locs h]))
    refine (un_c hE c hs (by rw [hxe] at hp; exact hp) H).mono ?_ ?_
    · rintro r m' ⟨s', g', h1, h2, h3, H'⟩
      refine ⟨_, ⟨x, _, hx, by rw [hxe]; exact h2, rfl⟩, Inv.of (hF.put h1) H', ?_, ux H'⟩
      rw [hlog, H'.log]; exact h3
    · rintro e m' ⟨s', g', h1, h2, h3, H'⟩
      refine ⟨_, ⟨x, _, hx, by rw [hxe]; exact h2, rfl⟩, Inv.of (hF.put h1) H', ?_, ux H'⟩
      rw [hlog, H'.log]; exact h3
  | bin o p c =>
    obtain ⟨hne, x, y, hx, hy, hp⟩ := hp
    obtain ⟨s, F1, hxe, hs, rfl, hF1⟩ := hR.split hx
    obtain ⟨s2, F, hye, hs2, rfl, hF⟩ := hF1.split (by rw [upd_ne (fun e => hne e.symm)]; exact hy)
    have put : ∀ {al' al2' : Nat} {s' s2' : St α}, s'.Ok E → s2'.Ok E →
        Rep E (upd (upd S p (some ⟨al2', s2'.elems⟩)) o (some ⟨al', s'.elems⟩))
          (cont E o al' s' + (cont E p al2' s2' + F)) := by
      intro al' al2' s' s2' h1 h2
      refine Rep.put ?_ h1
      have := hF.put (al := al2') h2
      rwa [upd_comm hne] at this
    have ux : ∀ {al' al2' : Nat} {s' s2' : St α} {g' : Log} {m' : Mem α},
        Holds g' (cont E o al' s' + (cont E p al2' s2' + F)) m' →
        ∀ o' ∉ (Op.bin o p c).objs, Unchanged E o' m m' := by
      intro al' al2' s' s2' g' m' H' o' ho
      rw [← aassoc] at H' H
      simp only [Op.objs, List.mem_cons, List.not_mem_nil, or_false, not_or] at ho
      refine hF.unchanged H H' ?_ ?_ <;>
      · rw [Multiset.map_add, Multiset.mem_add]
        rintro (h | h)
        · exact ho.1 (cont_locs h)
        · exact ho.2 (cont_locs h)
    refine (bin_c hE c hs hs2 (by rw [hxe, hye] at hp; exact hp) H).mono ?_ ?_
    · rintro r m' ⟨s', s2', al', al2', g', h1, h2, h3, h4, H'⟩
      refine ⟨_, ⟨x, y, _, _, hx, hy, by rw [hxe, hye]; exact h3, rfl⟩, Inv.of (put h1 h2) H', ?_, ux H'⟩
      rw [hlog, H'.log]; exact h4
    · rintro r m' ⟨s', s2', al', al2', g', h1, h2, h3, h4, H'⟩
      refine ⟨_, ⟨x, y, _, _, hx, hy, by rw [hxe, hye]; exact h3, rfl⟩, Inv.of (put h1 h2) H', ?_, ux H'⟩
      rw [hlog, H'.log]; exact h4
  | new o c =>
    obtain ⟨hx, hp⟩ := hp
    have hu : upd S o none = S := upd_id hx
    have hf : m.cell (.obj o) = none := H.dead (hR.dead hx)
    have H0 : Holds g (0 + A) m := H.eqv (by simp)
    refine (new_c hE c hp hf H).mono ?_ ?_
    · rintro r m' ⟨s', al', g', h1, h2, h3, h4, H'⟩
      refine ⟨_, ⟨h2, _, h3, rfl⟩, Inv.of (Rep.put (by rw [hu]; exact hR) h1) H', ?_, ?_⟩
      · rw [hlog, H'.log]; exact h4
      · exact fun o' ho => hR.unchanged H0 H' (by simp) (fun h => ho (by simp [Op.objs, cont_locs h]))
    · rintro e m' ⟨hc, g', h1, h2, H'⟩
      refine ⟨_, ⟨h1, rfl⟩, Inv.of hR H', ?_, ?_⟩
      · rw [hlog, H'.log]; exact h2
      · have H0' : Holds g' (0 + A) m' := H'.eqv (by simp)
        exact fun o' ho => hR.unchanged H0 H0' (by simp) (by simp)
  | new2 o p c =>
    obtain ⟨hx, y, hy, hp⟩ := hp
    have hne : o ≠ p := by rintro rfl; rw [hx] at hy; cases hy
    have hf : m.cell (.obj o) = none := H.dead (hR.dead hx)
    obtain ⟨s2, F, hye, hs2, rfl, hF⟩ := hR.split hy
    have hu : upd (upd S p none) o none = upd S p none := upd_id (by rw [upd_ne hne]; exact hx)
    refine (new2_c hE c hs2 (by rw [hye] at hp; exact hp) hf H).mono ?_ ?_
    · rintro r m' ⟨s', s2', al', al2', g', h1, h2, h3, h4, h5, H'⟩
      refine ⟨_, ⟨h3, y, _, _, hy, by rw [hye]; exact h4, rfl⟩, Inv.of (Rep.put ?_ h1) H', ?_, ?_⟩
      · rw [upd_comm (fun e => hne e.symm)]
        refine Rep.put ?_ h2
        rw [upd_comm hne, hu]; exact hF
      · rw [hlog, H'.log]; exact h5
      · intro o' ho
        simp only [Op.objs, List.mem_cons, List.not_mem_nil, or_false, not_or] at ho
        rw [← aassoc] at H'
        refine hF.unchanged H H' (fun h => ho.2 (cont_locs h)) ?_
        rw [Multiset.map_add, Multiset.mem_add]
        rintro (h | h)
        · exact ho.1 (cont_locs h)
        · exact ho.2 (cont_locs h)
    · rintro e m' ⟨s2', al2', g', h1, h2, h3, H'⟩
      refine ⟨_, ⟨y, _, hy, by rw [hye]; exact h2, rfl⟩, Inv.of (hF.put h1) H', ?_, ?_⟩
      · rw [hlog, H'.log]; exact h3
      · intro o' ho
        simp only [Op.objs, List.mem_cons, List.not_mem_nil, or_false, not_or] at ho
        exact hF.unchanged H H' (fun h => ho.2 (cont_locs h)) (fun h => ho.2 (cont_locs h))
  | dtor o =>
    obtain ⟨x, hx, hp⟩ := hp
    obtain ⟨s, F, hxe, hs, rfl, hF⟩ := hR.split hx
    obtain ⟨m', e, H'⟩ := dtor_c hs (by rw [hxe] at hp; exact hp) H
    refine (Spec.of e).unit' ?_
    rintro _ m1 ⟨-, rfl⟩
    refine ⟨_, ⟨rfl, rfl⟩, Inv.of hF H', ?_, ?_⟩
    · rw [hlog, H'.log]; exact LogR.refl
    · have H0' : Holds g (0 + F) m1 := H'.eqv (by simp)
      exact fun o' ho => hF.unchanged H H0' (fun h => ho (by simp [Op.objs, cont_locs h])) (by simp)

/-! ### Reachable memories -/

theorem inv_init : Inv E (fun _ => none) (noMem : Mem α) :=
  ⟨0, .nil, rfl, by simp, by simp, by simp [noMem], rfl⟩

theorem Reach.inv (hE : E.Good) (h : Reach E m) : ∃ S, Inv E S m := by
  induction h with
  | init => exact ⟨_, inv_init⟩
  | ret hr hv hp he ih =>
    obtain ⟨S, hI⟩ := ih
    cases hI.view.unique hv
    obtain ⟨A, hR, H⟩ := hI
    have := op_c hE _ hR H hp
    unfold Spec at this; rw [he] at this
    obtain ⟨S', -, hI, -⟩ := this
    exact ⟨S', hI⟩
  | exc hr hv hp he ih =>
    obtain ⟨S, hI⟩ := ih
    cases hI.view.unique hv
    obtain ⟨A, hR, H⟩ := hI
    have := op_c hE _ hR H hp
    unfold Spec at this; rw [he] at this
    obtain ⟨S', -, hI, -⟩ := this
    exact ⟨S', hI⟩

/-- a container of a reachable memory -/
theorem Reach.cont (hE : E.Good) (h : Reach E m) {o : Nat} {xs : List α} (hc : Contents E o m xs) :
    ∃ al s F, s.Ok E ∧ s.elems = xs ∧ Holds m.log (cont E o al s + F) m := by
  obtain ⟨S, A, hR, H⟩ := h.inv hE
  cases ho : S o with
  | none => exact absurd (H.dead (hR.dead ho)) (size_some hc.1)
  | some x =>
    obtain ⟨s, A', -, hs, rfl, -⟩ := hR.split ho
    exact ⟨x.alloc, s, A', hs, (cont_contents hs H).unique hc, H⟩

/-- two containers of a reachable memory -/
theorem Reach.cont2 (hE : E.Good) (h : Reach E m) {o p : Nat} {xs ys : List α} (hc : Contents E o m xs)
    (hd : Contents E p m ys) (hne : o ≠ p) :
    ∃ al s al2 s2 F, s.Ok E ∧ s.elems = xs ∧ s2.Ok E ∧ s2.elems = ys ∧
      Holds m.log (SegTree.cont E o al s + (SegTree.cont E p al2 s2 + F)) m := by
  obtain ⟨S, A, hR, H⟩ := h.inv hE
  cases ho : S o with
  | none => exact absurd (H.dead (hR.dead ho)) (size_some hc.1)
  | some x =>
    cases hp : S p with
    | none => exact absurd (H.dead (hR.dead hp)) (size_some hd.1)
    | some y =>
      obtain ⟨s, A', -, hs, rfl, hR'⟩ := hR.split ho
      obtain ⟨s2, A'', -, hs2, rfl, -⟩ := hR'.split (by rw [upd_ne (fun e => hne e.symm)]; exact hp)
      refine ⟨x.alloc, s, y.alloc, s2, A'', hs, (cont_contents hs H).unique hc, hs2, ?_, H⟩
      exact (cont_contents hs2 (H.eqv (by ac_rfl : _ = SegTree.cont E p y.alloc s2 + (SegTree.cont E o x.alloc s + A'')))).unique hd

end SegTree
