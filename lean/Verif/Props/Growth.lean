/-
  C81: what insertions ask of the allocator.
-/
import Verif.Proof.Grown
import Verif.Proof.Client
import Verif.Proof.Supply
import Verif.Proof.Ops2
import Verif.Props.Single
import Verif.Props.Structure
import Verif.Props.Witness
import Verif.Props.Exact
set_option autoImplicit false

namespace SegTree

variable {α : Type} {E : Env α} {m m' m1 : Mem α} {o : Nat} {xs ys : List α}

/-! ### Specification -/

/-- calls that put elements into a container and take none out -/
def Un.Adds : Un α → Prop
  | .insert .. | .insertRv .. | .insertSelf .. | .insertFill .. | .insertList .. | .pushBack _
  | .pushFront _ | .pushBackRv _ | .pushFrontRv _ => True
  | _ => False

/-- the allocated blocks that belong to container `o` -/
def Owns (m : Mem α) (o a : Nat) : Prop := ∃ h sz, Block m o h a sz

/-- Between `m` and `m'` container `o` got exactly the blocks `L`, each by one request
of its own, every request was granted, and no block of any container was given up. -/
structure Obtained (o : Nat) (L : List Nat) (m m' : Mem α) : Prop where
  distinct : L.Nodup
  requests : m'.log.reqs = m.log.reqs + L.length
  granted : m'.log.fails = m.log.fails
  new : ∀ a ∈ L, m.cell (.heap a) = none ∧ m'.cell (.heap a) ≠ none
  kept : ∀ a, m.cell (.heap a) ≠ none → m'.cell (.heap a) ≠ none
  owned : ∀ a, Owns m' o a ↔ Owns m o a ∨ a ∈ L

/-- A program that only inserts into `o`, with each call legal and returning. -/
inductive Filling (E : Env α) (o : Nat) : Mem α → Mem α → Prop where
  | done {m : Mem α} : Filling E o m m
  | call {m m1 m' : Mem α} {c : Un α} {r : Ret α} : c.Adds →
      (∀ xs al, Contents E o m xs → c.Pre E ⟨al, xs⟩) → c.run E o m = .ok r m1 → Filling E o m1 m' → Filling E o m m'

/-! ### Proofs -/

theorem live_ne {a : Nat} : Live m a ↔ m.cell (.heap a) ≠ none := Option.isSome_iff_ne_none

theorem Holds.live_iff {g : Log} {A : Asrt α} (H : Holds g A m) {a : Nat} : Live m a ↔ Loc.heap a ∈ A.map Prod.fst := by
  refine ⟨fun h => H.full _ h, fun h => ?_⟩
  obtain ⟨x, hx, e⟩ := Multiset.mem_map.1 h
  obtain ⟨c, h1, -⟩ := H.sat x hx
  rw [e] at h1
  rw [live_ne, h1]
  exact Option.some_ne_none c

theorem Granted.obtained {g g' : Log} {X F : Asrt α} {L : List Nat} {al : Nat} {s' : St α} (hG : Granted L m m')
    (H : Holds g (X + F) m) (hX : ∀ a, Loc.heap a ∈ X.map Prod.fst ↔ Owns m o a)
    (H' : Holds g' (cont E o al s' + F) m') : Obtained o L m m' := by
  refine ⟨hG.nodup, hG.reqs, hG.fails, fun a ha => ?_, fun a ha => ?_, fun a => ?_⟩
  · refine ⟨?_, live_ne.1 ((hG.live a).2 (.inr ha))⟩
    by_contra h; exact hG.fresh a ha (live_ne.2 h)
  · exact live_ne.1 ((hG.live a).2 (.inl (live_ne.2 ha)))
  · have h1 := H.live_iff (a := a)
    have h2 := H'.live_iff (a := a)
    have h3 := hG.live a
    have h4 := block_loc H' (a := a)
    have n1 := H.nodup
    have n2 := H'.nodup
    rw [Multiset.map_add, Multiset.mem_add] at h1 h2
    rw [Multiset.map_add, Multiset.nodup_add] at n1 n2
    have d1 := fun (h : Loc.heap a ∈ _) => Multiset.disjoint_left.1 n1.2.2 h
    have d2 := fun (h : Loc.heap a ∈ _) => Multiset.disjoint_left.1 n2.2.2 h
    have h5 := hX a
    have h6 := hG.fresh a
    have h4' : _ ↔ Owns m' o a := h4
    rw [← h4', ← h5]
    constructor
    · intro h
      rcases h3.1 (h2.2 (.inl h)) with h7 | h7
      · rcases h1.1 h7 with h8 | h8
        · exact .inl h8
        · exact absurd h8 (d2 h)
      · exact .inr h7
    · rintro (h | h)
      · rcases h2.1 (h3.2 (.inl (h1.2 (.inl h)))) with h7 | h7
        · exact h7
        · exact absurd h7 (d1 h)
      · rcases h2.1 (h3.2 (.inr h)) with h7 | h7
        · exact h7
        · exact absurd (h1.2 (.inr h7)) (h6 h)

theorem Obtained.append {L L' : List Nat} (h1 : Obtained o L m m1) (h2 : Obtained o L' m1 m') :
    Obtained o (L ++ L') m m' := by
  refine ⟨?_, ?_, h2.granted.trans h1.granted, ?_, fun a h => h2.kept a (h1.kept a h), ?_⟩
  · rw [List.nodup_append]
    refine ⟨h1.distinct, h2.distinct, ?_⟩
    rintro a ha _ hb rfl
    exact (h1.new a ha).2 (h2.new a hb).1
  · rw [h2.requests, h1.requests, List.length_append]; omega
  · intro a ha
    rcases List.mem_append.1 ha with ha | ha
    · exact ⟨(h1.new a ha).1, h2.kept a (h1.new a ha).2⟩
    · refine ⟨?_, (h2.new a ha).2⟩
      by_contra h; exact h1.kept a h (h2.new a ha).1
  · intro a
    rw [h2.owned, h1.owned, List.mem_append, or_assoc]

theorem Un.Adds.grows {c : Un α} (h : c.Adds) (o : Nat) : Grows (c.run E o) := by
  cases c <;> first | exact h.elim | (unfold Un.run Un.pos; infer_instance) | (unfold Un.run Un.unit; infer_instance)

/-- C81: an insertion (of one or many elements) that returns asks the allocator for
exactly as many blocks as the container grows by; nothing else is requested or
freed, anywhere. -/
theorem C81_requests (hE : E.Good) (hr : Reach E m) (hc : Contents E o m xs) {c : Un α} (ha : c.Adds)
    (hp : ∀ al, c.Pre E ⟨al, xs⟩) {r : Ret α} (h : c.run E o m = .ok r m') : ∃ L, Obtained o L m m' := by
  obtain ⟨al, s, F, hs, rfl, H⟩ := hr.cont hE hc
  have := un_c hE c hs (hp al) H
  unfold Spec at this
  rw [h] at this
  obtain ⟨s', g', -, -, -, H'⟩ := this
  obtain ⟨L, hG⟩ := (ha.grows o).run h
  exact ⟨L, hG.obtained H (fun a => block_loc H) H'⟩

/-- C81 for a program that inserts, from a container with any contents. -/
theorem C81_filling (hE : E.Good) (hr : Reach E m) (hc : Contents E o m xs) (h : Filling E o m m') :
    Reach E m' ∧ (∃ ys, Contents E o m' ys) ∧ ∃ L, Obtained o L m m' := by
  induction h generalizing xs with
  | done => exact ⟨hr, ⟨xs, hc⟩, [], List.nodup_nil, rfl, rfl, nofun, fun _ h => h, fun a => by simp⟩
  | @call m m1 m' c r ha hp hx _ ih =>
    obtain ⟨L, h1⟩ := C81_requests hE hr hc ha (fun al => hp xs al hc) hx
    rcases hr.call hE hc c (fun al => hp xs al hc) with ⟨r', m2, al, x', e, -, hc', hA⟩ | ⟨e', m2, al, x', e, -⟩
    · rw [hx] at e; cases e
      obtain ⟨hr', hy, L', h2⟩ := ih hA.reach hc'
      exact ⟨hr', hy, _, h1.append h2⟩
    · rw [hx] at e; cases e

/-- C81, amortised: all the calls of a program that fills an empty container with `n`
elements make together at most `2 n / segment_min` requests (fewer, by one), or, while
the container is a single segment, at most one. -/
theorem C81_amortised (hE : E.Good) (hr : Reach E m) (hc : Contents E o m []) (h : Filling E o m m')
    (hy : Contents E o m' ys) {n : Nat} (hh : height o m' = .ok n m') :
    (n ≤ 1 → m'.log.reqs - m.log.reqs ≤ n) ∧
    (2 ≤ n → (m'.log.reqs - m.log.reqs + 1) * E.segMin ≤ 2 * ys.length) := by
  obtain ⟨hr', -, L, hL⟩ := C81_filling hE hr hc h
  have := C48_blocks hE hr' hy hh L hL.distinct (fun a ha => (hL.owned a).2 (.inr ha))
  rw [hL.requests, Nat.add_sub_cancel_left]
  exact this

theorem Grows.new (o : Nat) (c : New α) : Grows (c.run E o) := by
  cases c <;> (unfold New.run Un.unit; infer_instance)

theorem owns_none (ho : m.cell (.obj o) = none) {a : Nat} : ¬ Owns m o a := fun ⟨_, _, hb⟩ => block_obj hb ho

/-- C81 for constructors from a count or a range of values: every block of the new
container was requested once, and nothing else was requested or freed. -/
theorem C81_construct (hE : E.Good) (hr : Reach E m) (ho : m.cell (.obj o) = none) {c : New α} (hp : c.Pre E)
    {r : Ret α} (h : c.run E o m = .ok r m') : ∃ L, Obtained o L m m' ∧ ∀ a, Owns m' o a ↔ a ∈ L := by
  obtain ⟨S, A, -, H⟩ := hr.inv hE
  have := new_c hE c hp ho H
  unfold Spec at this
  rw [h] at this
  obtain ⟨s', al', g', -, -, -, -, H'⟩ := this
  obtain ⟨L, hG⟩ := (Grows.new o c).run h
  have hO := hG.obtained (X := 0) (by rw [zero_add]; exact H) (fun a => by simpa using owns_none ho) H'
  exact ⟨L, hO, fun a => by rw [hO.owned]; simp [owns_none ho]⟩

/-- C81 for the copy constructors. -/
theorem C81_copy (hE : E.Good) (hr : Reach E m) (ho : m.cell (.obj o) = none) {p al : Nat} (hc : Contents E p m xs)
    (hn : E.nullFree = true) (h : ctor_copy E o p m = .ok () m' ∨ ctor_copy_alloc E o p al m = .ok () m') :
    ∃ L, Obtained o L m m' ∧ ∀ a, Owns m' o a ↔ a ∈ L := by
  obtain ⟨al2, s, F, hs, rfl, H⟩ := hr.cont hE hc
  have key : ∃ L, Obtained o L m m' := by
    rcases h with h | h
    · have := ctor_copy_c hE hn hs ho H
      unfold Spec at this
      rw [h] at this
      obtain ⟨s', r, -, -, H'⟩ := this
      obtain ⟨L, hG⟩ := (Grows.ctor_copy o p).run h
      exact ⟨L, hG.obtained (X := 0) (by rw [zero_add]; exact H) (fun a => by simpa using owns_none ho) H'⟩
    · have := ctor_copy_alloc_c (al := al) hE hn hs ho H
      unfold Spec at this
      rw [h] at this
      obtain ⟨s', r, -, -, H'⟩ := this
      obtain ⟨L, hG⟩ := (Grows.ctor_copy_alloc o p al).run h
      exact ⟨L, hG.obtained (X := 0) (by rw [zero_add]; exact H) (fun a => by simpa using owns_none ho) H'⟩
  obtain ⟨L, hO⟩ := key
  exact ⟨L, hO, fun a => by rw [hO.owned]; simp [owns_none ho]⟩

/-- C81 for the insertion and the constructor from a range `[a, b)` of another
container, which itself stays as it is. -/
theorem C81_range (hE : E.Good) (hr : Reach E m) {p a b : Nat} (hd : Contents E p m ys) (hab : a ≤ b)
    (hb : b ≤ ys.length) {r : Ret α} :
    (∀ i, Contents E o m xs → o ≠ p → i ≤ xs.length → xs.length + (b - a) ≤ max_size E →
      (Bin.insertRange i a b).run E o p m = .ok r m' → ∃ L, Obtained o L m m') ∧
    (∀ al, m.cell (.obj o) = none → E.nullFree = true → (New2.range al a b).run E o p m = .ok r m' →
      ∃ L, Obtained o L m m' ∧ ∀ a, Owns m' o a ↔ a ∈ L) := by
  refine ⟨fun i hc hne hi hW h => ?_, fun al ho hn h => ?_⟩
  · obtain ⟨al, s, al2, s2, F, hs, rfl, hs2, rfl, H⟩ := hr.cont2 hE hc hd hne
    have H2 : Holds m.log (cont E p al2 s2 + (cont E o al s + F)) m := H.eqv (by rw [add_left_comm])
    obtain ⟨it, ha⟩ := St.At.exists hs hi
    obtain ⟨fi, hfi⟩ := St.At.exists hs2 (Nat.le_trans hab hb)
    obtain ⟨la, hla⟩ := St.At.exists hs2 hb
    have h1 : Spec ((Bin.insertRange i a b).run E o p) m
        (fun _ m' => ∃ g' s', Holds g' (cont E o al s' + (cont E p al2 s2 + F)) m') (fun _ _ => True) := by
      refine Spec.pos' (Spec.step (nth_c hs ha H) (Spec.step (nth_c hs2 hfi H2) (Spec.step (nth_c hs2 hla H2)
        ((emplace_range_c (X := cont E p al2 s2) (st := fi) (vs := slice s2.elems a b) hE
          (copySrc_ok (X0 := cont E p al2 s2) hs2 hla) hs ha ⟨rfl, fun _ _ _ h => h, a, hfi, hab, rfl⟩
          (by rw [slice_length hb]; exact max_lt hE hW) H).mono (fun _ _ h => h) ?_)))) ?_
      · rintro _ _ _; trivial
      · rintro it' m' ⟨s', X', st', r, -, -, -, ⟨rfl, -⟩, H'⟩
        exact ⟨_, s', H'⟩
    unfold Spec at h1
    rw [h] at h1
    obtain ⟨g', s', H'⟩ := h1
    have hG : Grows ((Bin.insertRange i a b).run E o p) := by unfold Bin.run Un.pos; infer_instance
    obtain ⟨L, hG⟩ := hG.run h
    exact ⟨L, hG.obtained H (fun a => block_loc H) H'⟩
  · obtain ⟨al2, s2, F, hs2, rfl, H⟩ := hr.cont hE hd
    obtain ⟨fi, hfi⟩ := St.At.exists hs2 (Nat.le_trans hab hb)
    obtain ⟨la, hla⟩ := St.At.exists hs2 hb
    have h1 : Spec ((New2.range al a b).run E o p) m
        (fun _ m' => ∃ g' s', Holds g' (cont E o al s' + (cont E p al2 s2 + F)) m') (fun _ _ => True) := by
      refine Spec.unit' (Spec.step (nth_c hs2 hfi H) (Spec.step (nth_c hs2 hla H)
        ((ctor_range_c (al := al) (X := cont E p al2 s2) (st := fi) (vs := slice s2.elems a b) hE
          (copySrc_ok (X0 := cont E p al2 s2) hs2 hla) hn ⟨rfl, fun _ _ _ h => h, a, hfi, hab, rfl⟩
          (by rw [slice_length hb]; have := hs2.1; omega) ho H).mono (fun _ _ h => h) ?_))) ?_
      · rintro _ _ _; trivial
      · rintro it' m' ⟨s', X', st', r, -, -, ⟨rfl, -⟩, H'⟩
        exact ⟨_, s', H'⟩
    unfold Spec at h1
    rw [h] at h1
    obtain ⟨g', s', H'⟩ := h1
    have hG : Grows ((New2.range al a b).run E o p) := by unfold New2.run Un.unit; infer_instance
    obtain ⟨L, hG⟩ := hG.run h
    have hO := hG.obtained (X := 0) (by rw [zero_add]; exact H) (fun a => by simpa using owns_none ho) H'
    exact ⟨L, hO, fun a => by rw [hO.owned]; simp [owns_none ho]⟩

/-- C81 for the calls that take elements out, reorder or read (all but insertions,
assignments and `resize`), whether they return or throw: nothing is requested, and
the container keeps some of the blocks it had. -/
theorem C81_quiet (hE : E.Good) (hr : Reach E m) (hc : Contents E o m xs) {c : Un α} (hq : c.Quiet)
    (hp : ∀ al, c.Pre E ⟨al, xs⟩) (h : (∃ r, c.run E o m = .ok r m') ∨ ∃ e, c.run E o m = .throw e m') :
    m'.log = m.log ∧ ∀ a, Owns m' o a → Owns m o a := by
  obtain ⟨al, s, F, hs, rfl, H⟩ := hr.cont hE hc
  have h1 := un_c hE c hs (hp al) H
  have h2 := (presUn (E := E) o c).run m
  have key : ∀ {s' : St α} {g' : Log}, g' = m.log → Holds g' (cont E o al s' + F) m' → Ext E m m' →
      m'.log = m.log ∧ ∀ a, Owns m' o a → Owns m o a := by
    rintro s' _ rfl H' hx
    refine ⟨H'.log, fun a ha => ?_⟩
    have ha' := (block_loc H').2 ha
    have hl : Live m' a := H'.live_iff.2 (by rw [Multiset.map_add, Multiset.mem_add]; exact .inl ha')
    rcases hx.live a hl with hl | ⟨k, hk, hk', -⟩
    · rw [H.live_iff, Multiset.map_add, Multiset.mem_add] at hl
      rcases hl with hl | hl
      · exact (block_loc H).1 hl
      · have n2 := H'.nodup
        rw [Multiset.map_add, Multiset.nodup_add] at n2
        exact absurd hl (Multiset.disjoint_left.1 n2.2.2 ha')
    · rw [H'.log] at hk'; omega
  unfold Spec at h1
  rcases h with ⟨r, h⟩ | ⟨e, h⟩ <;> rw [h] at h1 h2
  · obtain ⟨s', g', -, -, hg, H'⟩ := h1
    exact key (hg.2.2 hq) H' h2
  · obtain ⟨s', g', -, -, hg, H'⟩ := h1
    exact key (hg.2.2 hq) H' h2.1

/-! ### The hypotheses are met -/

/-- appending a list to an empty container, one element after the other -/
theorem demo_filling (vs : List Nat) : ∀ {m : Mem Nat} {xs : List Nat}, Reach demo m → Contents demo 0 m xs →
    13 ∉ vs → (xs ++ vs).length ≤ max_size demo → ∃ m', Filling demo 0 m m' ∧ Contents demo 0 m' (xs ++ vs) := by
  induction vs with
  | nil => intro m xs hr hc _ _; exact ⟨m, .done, by simpa using hc⟩
  | cons v vs ih =>
    intro m xs hr hc h13 hl
    have hp : ∀ al, Un.Pre demo ⟨al, xs⟩ (.pushBack v) := fun al => by
      have : xs.length + 1 ≤ max_size demo := by simp only [List.length_append, List.length_cons] at hl; omega
      exact this
    rcases hr.call demo_good hc (.pushBack v) hp with ⟨r, m1, al, x', e, hx, hc', hA⟩ | ⟨e, m1, al, x', he, hx, -⟩
    · obtain ⟨-, rfl⟩ := hx
      obtain ⟨m', h1, h2⟩ := ih hA.reach hc' (fun h => h13 (List.mem_cons_of_mem _ h)) (by simpa using hl)
      refine ⟨m', .call (c := .pushBack v) trivial (fun ys al hd => ?_) e h1, by simpa using h2⟩
      rw [hd.unique hc]
      exact hp al
    · have := demo_blame (vs := [v]) (fun h => h13 (by rw [List.mem_singleton.1 h]; exact List.mem_cons_self)) hx.1
      subst this
      exact absurd he (hr.no_alloc demo_endless (.un 0 (.pushBack v)))

example : ∃ (m m' : Mem Nat) (n : Nat), Reach demo m ∧ Contents demo 0 m [] ∧ Filling demo 0 m m' ∧
    Contents demo 0 m' eight ∧ height 0 m' = .ok n m' ∧ 3 ≤ n ∧
    (m'.log.reqs - m.log.reqs + 1) * demo.segMin ≤ 16 := by
  obtain ⟨m, h1, h2⟩ := demo_list []
  obtain ⟨m', h3, h4⟩ := demo_filling eight h1 h2 (by decide) (by decide)
  obtain ⟨hr', -⟩ := C81_filling demo_good h1 h2 h3
  obtain ⟨al, s, F, hs, he, H⟩ := hr'.cont demo_good h4
  have h5 : height 0 m' = .ok s.ht m' := getHeight_c H
  have h6 := demo_height hr' h4 h5 (by decide)
  exact ⟨m, m', s.ht, h1, h2, h3, h4, h5, h6, (C81_amortised demo_good h1 h2 h3 h4 h5).2 (by omega)⟩

example : ∃ (m m' : Mem Nat) (r : Ret Nat), Reach demo m ∧ Contents demo 0 m eight ∧
    (Un.insertFill 3 5 (7 : Nat)).run demo 0 m = .ok r m' ∧ ∃ L, Obtained 0 L m m' := by
  obtain ⟨m, h1, h2, -⟩ := demo_eight
  have hp : ∀ al, Un.Pre demo ⟨al, eight⟩ (.insertFill 3 5 7) :=
    fun _ => (by decide : 3 ≤ eight.length ∧ eight.length + 5 ≤ max_size demo)
  rcases h1.call demo_good h2 (.insertFill 3 5 7) hp with ⟨r, m', al, x', e, -⟩ | ⟨e, m', al, x', he, hx, -⟩
  · exact ⟨m, m', r, h1, h2, e, C81_requests demo_good h1 h2 (c := .insertFill 3 5 7) trivial hp e⟩
  · cases demo_blame (vs := [7]) (by decide) hx.1
    exact absurd he (h1.no_alloc demo_endless (.un 0 (.insertFill 3 5 7)))

example : ∃ (m m' : Mem Nat) (r : Ret Nat), Reach demo m ∧ (New.list 0 eight).run demo 0 m = .ok r m' ∧
    ∃ L, Obtained 0 L m m' ∧ ∀ a, Owns m' 0 a ↔ a ∈ L := by
  have hp : (New.list 0 eight).Pre demo := ⟨by decide, rfl⟩
  obtain ⟨r, m', S', e, -⟩ := demo_op (op := .new 0 (.list 0 eight)) .init view_init ⟨rfl, hp⟩
    (fun e S' hx => demo_blame (by decide) hx.1)
  exact ⟨_, m', r, .init, e, C81_construct demo_good .init rfl hp e⟩

example : ∃ (m m' : Mem Nat), Reach demo m ∧ Contents demo 0 m eight ∧ ctor_copy demo 1 0 m = .ok () m' ∧
    ∃ L, Obtained 1 L m m' ∧ ∀ a, Owns m' 1 a ↔ a ∈ L := by
  obtain ⟨m, h1, h2⟩ := demo_add .init view_init 0 0 rfl eight (by decide) (by decide)
  have h3 := h2 0
  rw [upd_self] at h3
  have h4 : m.cell (.obj 1) = none := h2 1
  obtain ⟨r, m', S', e, -⟩ := demo_op (op := .new2 1 0 .copy) h1 h2 ⟨rfl, _, rfl, rfl⟩
    (fun e S' hx => by
      obtain ⟨y, y', hy, hx, -⟩ := hx
      rw [upd_self] at hy
      cases hy
      exact demo_blame (by decide) hx.1)
  obtain ⟨-, v, e⟩ := unit_inv e
  exact ⟨m, m', h1, h3.2, e, C81_copy (al := 0) demo_good h1 h4 h3.2 rfl (.inl e)⟩

example : ∃ (m m' : Mem Nat) (r : Ret Nat), Reach demo m ∧ Contents demo 0 m eight ∧
    (Un.eraseRange 1 7 : Un Nat).run demo 0 m = .ok r m' ∧ m'.log = m.log ∧ ∀ a, Owns m' 0 a → Owns m 0 a := by
  obtain ⟨m, h1, h2, -⟩ := demo_eight
  have hp : ∀ al, Un.Pre demo ⟨al, eight⟩ (.eraseRange 1 7) :=
    fun _ => (by decide : 1 ≤ 7 ∧ 7 ≤ eight.length)
  rcases h1.call demo_good h2 (.eraseRange 1 7) hp with ⟨r, m', al, x', e, -⟩ | ⟨e, m', al, x', he, hx, -⟩
  · exact ⟨m, m', r, h1, h2, e, C81_quiet demo_good h1 h2 (c := .eraseRange 1 7) trivial hp (.inl ⟨r, e⟩)⟩
  · exact hx.elim

example : ∃ (m m' : Mem Nat) (r : Ret Nat), Reach demo m ∧ Contents demo 0 m eight ∧ Contents demo 1 m [3, 4, 5] ∧
    (Bin.insertRange 2 0 3 : Bin Nat).run demo 0 1 m = .ok r m' ∧ ∃ L, Obtained 0 L m m' := by
  obtain ⟨m, h1, h2, h3, h4, -⟩ := demo_lists eight [3, 4, 5] 0 0
  obtain ⟨r, m', S', e, -⟩ := demo_op (op := .bin 0 1 (.insertRange 2 0 3)) h1 h2
    ⟨by decide, _, _, rfl, rfl, (by decide : 2 ≤ eight.length ∧ 0 ≤ 3 ∧ 3 ≤ 3 ∧ eight.length + (3 - 0) ≤ max_size demo)⟩
    (fun e S' hx => by
      obtain ⟨x, y, x', y', hx, hy, hx, -⟩ := hx
      rw [upd_self] at hy
      cases hy
      exact demo_blame (by decide) hx.1)
  exact ⟨m, m', r, h1, h3, h4, e, (C81_range demo_good h1 h4 (by decide) (by decide)).1 2 h3 (by decide) (by decide)
    (by decide) e⟩

end SegTree
