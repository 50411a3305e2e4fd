/-
  C91: the deterministic tests of the repository hold for every configuration, every
  allocator and all values.  For the meaning of the hypotheses see the reading guide in
  Single.lean.
-/
import Verif.Model.UnitTests
import Verif.Proof.Supply
import Verif.Props.Structure
import Verif.Props.Iterators
import Verif.Props.Multi
set_option autoImplicit false

namespace SegTree
namespace Tests
variable {α : Type} {E : Env α} {m m' : Mem α} {o p i al tag : Nat} {xs ys : List α} {S S1 S' : Bank α} {c : Nat → Nat}
  {n : Nat → α} {eq lt : α → α → Bool} {big : α → Bool} {L : List Nat} {e : Exn} {it : Iter}

/-- an exception for which the library is not to blame: the allocator was out of memory, or
copying some element throws -/
def Excused (E : Env α) (e : Exn) : Prop := (e = .alloc ∧ ¬ Endless E) ∨ (e = .elem ∧ ∃ v, CopyThrows E v)

/-- What is wanted of a test: all its checks hold, and all the containers there were are as
before and there are no others (whence, by C09, no memory is lost); or there is an
exception the library is not to blame for, and again no container is left or changed. -/
def Passes (E : Env α) (S : Bank α) (test : M α Bool) (m : Mem α) : Prop :=
  (∃ m', test m = .ok true m' ∧ View E m' S ∧ Reach E m') ∨
  (∃ e m', test m = .throw e m' ∧ Excused E e ∧ View E m' S ∧ Reach E m')

/-- the containers not in `L` are the same, and the same containers are alive -/
structure Frame (L : List Nat) (S S' : Bank α) : Prop where
  same : ∀ q, q ∉ L → S' q = S q
  live : ∀ q, S' q = none ↔ S q = none

theorem Frame.refl : Frame L S S := ⟨fun _ _ => rfl, fun _ => Iff.rfl⟩

theorem Frame.trans (h1 : Frame L S S1) (h2 : Frame L S1 S') : Frame L S S' :=
  ⟨fun q h => (h2.same q h).trans (h1.same q h), fun q => (h2.live q).trans (h1.live q)⟩

theorem Frame.upd {x x' : Obj α} (ho : o ∈ L) (hS : S o = some x) : Frame L S (upd S o (some x')) := by
  refine ⟨fun q h => ?_, fun q => ?_⟩
  · have : q ≠ o := fun h' => h (h' ▸ ho)
    simp [SegTree.upd, this]
  · by_cases h : q = o
    · subst h; simp [SegTree.upd, hS]
    · simp [SegTree.upd, h]

/-- from containers as in `S` the program returns `true` or throws an excusable exception, and
changes at most the containers in `L` -/
def Good (E : Env α) (L : List Nat) (S : Bank α) (x : M α Bool) : Prop := ∀ m, Reach E m → View E m S →
  (∃ m' S', x m = .ok true m' ∧ Frame L S S' ∧ View E m' S' ∧ Reach E m') ∨
  (∃ e m' S', x m = .throw e m' ∧ Excused E e ∧ Frame L S S' ∧ View E m' S' ∧ Reach E m')

theorem Good.passes {x : M α Bool} (h : Good E [] S x) (hr : Reach E m) (hv : View E m S) : Passes E S x m := by
  have hk : ∀ {S'}, Frame [] S S' → S' = S := fun f => funext fun q => f.same q (by simp)
  rcases h m hr hv with ⟨m', S', h1, h2, h3, h4⟩ | ⟨e, m', S', h1, h0, h2, h3, h4⟩
  · cases hk h2; exact .inl ⟨m', h1, h3, h4⟩
  · cases hk h2; exact .inr ⟨e, m', h1, h0, h3, h4⟩

theorem Good.pure {b : Bool} (hb : b = true) : Good E L S (Pure.pure b : M α Bool) := fun m hr hv =>
  .inl ⟨m, S, by rw [hb]; rfl, .refl, hv, hr⟩

/-- a step that changes nothing -/
theorem Good.look {β : Type} {x : M α β} {k : β → M α Bool} {b : β} (hx : ∀ m, Reach E m → View E m S → x m = .ok b m)
    (hk : Good E L S (k b)) : Good E L S (x >>= k) := by
  intro m hr hv
  rw [bind_ok (hx m hr hv)]
  exact hk m hr hv

theorem Good.frame {x : M α Bool} (f : Frame L S S1) (h : Good E L S1 x) (hr : Reach E m) (hv : View E m S1) :
    (∃ m' S', x m = .ok true m' ∧ Frame L S S' ∧ View E m' S' ∧ Reach E m') ∨
    (∃ e m' S', x m = .throw e m' ∧ Excused E e ∧ Frame L S S' ∧ View E m' S' ∧ Reach E m') := by
  rcases h m hr hv with ⟨m', S', h1, h2, h3, h4⟩ | ⟨e, m', S', h1, h0, h2, h3, h4⟩
  · exact .inl ⟨m', S', h1, f.trans h2, h3, h4⟩
  · exact .inr ⟨e, m', S', h1, h0, f.trans h2, h3, h4⟩

theorem excused {op : Op α} {m2 : Mem α} (hr : Reach E m) (hx : op.run E m = .throw e m2)
    (hb : e = .alloc ∨ (e = .elem ∧ ∃ v, CopyThrows E v)) : Excused E e := by
  rcases hb with rfl | h
  · exact .inl ⟨rfl, fun hM => hr.no_alloc hM op hx⟩
  · exact .inr h

theorem Blame.weak {vs : List α} (h : Blame E vs e) : e = .alloc ∨ (e = .elem ∧ ∃ v, CopyThrows E v) := by
  rcases h with h | ⟨h, v, -, h'⟩
  · exact .inl h
  · exact .inr ⟨h, v, h'⟩

theorem un_exc {x x' : Obj α} {u : Un α} (hna : ∀ i, u ≠ .at_ i) (h : u.Exc E x e x') :
    e = .alloc ∨ (e = .elem ∧ ∃ v, CopyThrows E v) := by
  cases u <;> simp only [Un.Exc] at h <;> first
    | exact absurd rfl (hna _)
    | exact (Blame.weak h.1)
    | exact .inl h.1
    | exact .inr ⟨h.1, _, h.2.1⟩
    | (obtain ⟨⟨_, h⟩, -⟩ := h; exact Blame.weak h)

theorem bin_exc {x y x' y' : Obj α} {u : Bin α} (h : u.Exc E x y e x' y') :
    e = .alloc ∨ (e = .elem ∧ ∃ v, CopyThrows E v) := by
  cases u <;> simp only [Bin.Exc] at h <;> first
    | exact (Blame.weak h.1)
    | exact .inl h.1
    | (obtain ⟨⟨_, h⟩, -⟩ := h; exact Blame.weak h)

theorem bind_pure_ok {β γ : Type} {x : M α β} {f : β → γ} {r : γ} (h : (x >>= fun b => Pure.pure (f b)) m = .ok r m') :
    ∃ b, x m = .ok b m' ∧ f b = r := by
  change M.bind x _ m = _ at h
  unfold M.bind at h
  cases hx : x m with
  | ok b m2 => rw [hx] at h; cases h; exact ⟨b, rfl, rfl⟩
  | throw e m2 => rw [hx] at h; cases h
  | ub k => rw [hx] at h; cases h
  | div => rw [hx] at h; cases h

theorem bind_pure_throw {β γ : Type} {x : M α β} {f : β → γ} (h : (x >>= fun b => Pure.pure (f b)) m = .throw e m') :
    x m = .throw e m' := by
  change M.bind x _ m = _ at h
  unfold M.bind at h
  cases hx : x m with
  | ok b m2 => rw [hx] at h; cases h
  | throw e m2 => rw [hx] at h; cases h; rfl
  | ub k => rw [hx] at h; cases h
  | div => rw [hx] at h; cases h

/-- a call on one container -/
theorem Good.un {β : Type} (hE : E.Good) (u : Un α) {x : Obj α} {y : M α β} {f : β → Ret α} {k : β → M α Bool} (hS : S o = some x)
    (hp : u.Pre E x) (ho : o ∈ L) (hna : ∀ i, u ≠ .at_ i) (hy : u.run E o = y >>= fun b => Pure.pure (f b))
    (hk : ∀ r x' b, u.Ok x r x' → Good E L (upd S o (some x')) (k b)) : Good E L S (y >>= k) := by
  intro m hr hv
  rcases hr.op hE hv (op := .un o u) ⟨x, hS, hp⟩ with ⟨r, m1, S1, h1, ⟨x0, x', h2, h3, rfl⟩, h4, h5⟩ |
    ⟨e, m1, S1, h1, ⟨x0, x', h2, h3, rfl⟩, h4, h5⟩
  · rw [hS] at h2; cases h2
    change u.run E o m = _ at h1
    rw [hy] at h1
    obtain ⟨b, h6, -⟩ := bind_pure_ok h1
    rw [bind_ok h6]
    exact Good.frame (Frame.upd ho hS) (hk r x' b h3) h5 h4
  · rw [hS] at h2; cases h2
    have h1' := h1
    change u.run E o m = _ at h1
    rw [hy] at h1
    exact .inr ⟨e, m1, _, bind_throw (bind_pure_throw h1), excused hr h1' (un_exc hna h3), Frame.upd ho hS, h4, h5⟩

/-- a call on two containers -/
theorem Good.bin {β : Type} (hE : E.Good) (u : Bin α) {x z : Obj α} {y : M α β} {f : β → Ret α} {k : β → M α Bool} (hS : S o = some x)
    (hT : S p = some z) (hne : o ≠ p) (hp : u.Pre E x z) (ho : o ∈ L) (ho' : p ∈ L)
    (hy : u.run E o p = y >>= fun b => Pure.pure (f b))
    (hk : ∀ r x' z' b, u.Ok E x z r x' z' → Good E L (upd (upd S p (some z')) o (some x')) (k b)) : Good E L S (y >>= k) := by
  have hf : ∀ x' z' : Obj α, Frame L S (SegTree.upd (SegTree.upd S p (some z')) o (some x')) := fun x' z' =>
    (Frame.upd ho' hT).trans (Frame.upd ho (x := x) (by simp [SegTree.upd, hne, hS]))
  intro m hr hv
  rcases hr.op hE hv (op := .bin o p u) ⟨hne, x, z, hS, hT, hp⟩ with ⟨r, m1, S1, h1, ⟨x0, z0, x', z', h2, h2', h3, rfl⟩, h4, h5⟩ |
    ⟨e, m1, S1, h1, ⟨x0, z0, x', z', h2, h2', h3, rfl⟩, h4, h5⟩
  · rw [hS] at h2; cases h2; rw [hT] at h2'; cases h2'
    change u.run E o p m = _ at h1
    rw [hy] at h1
    obtain ⟨b, h6, -⟩ := bind_pure_ok h1
    rw [bind_ok h6]
    exact Good.frame (hf x' z') (hk r x' z' b h3) h5 h4
  · rw [hS] at h2; cases h2; rw [hT] at h2'; cases h2'
    have h1' := h1
    change u.run E o p m = _ at h1
    rw [hy] at h1
    exact .inr ⟨e, m1, _, bind_throw (bind_pure_throw h1), excused hr h1' (bin_exc h3), hf x' z', h4, h5⟩

/-- the end of a local variable's lifetime -/
theorem local_end (hE : E.Good) (hnull : E.nullFree = true) {T : Bank α} (hr : Reach E m) (hv : View E m T) (hT : T o ≠ none) :
    ∃ m', dtor E o m = .ok () m' ∧ View E m' (upd T o none) ∧ Reach E m' := by
  obtain ⟨x, hx⟩ := Option.ne_none_iff_exists'.1 hT
  rcases hr.op hE hv (op := .dtor o) ⟨x, hx, .inr hnull⟩ with ⟨r, m', S', h1, ⟨-, rfl⟩, h3, h4⟩ | ⟨e, m2, S', h1, h2, -⟩
  · obtain ⟨-, u, h5⟩ := unit_inv h1
    exact ⟨m', h5, h3, h4⟩
  · exact h2.elim

theorem local_body (hE : E.Good) (hnull : E.nullFree = true) {x : Obj α} {block : M α Bool} (ho : S o = none) (hS : S1 o = some x)
    (hf : Frame L (upd S o (some x)) S1) (hk : Good E (o :: L) S1 block)
    (hr : Reach E m) (hv : View E m S1) {construct : M α Unit} {m0 : Mem α} (hc : construct m0 = .ok () m) :
    (∃ m' S', local_ E o construct block m0 = .ok true m' ∧ Frame L S S' ∧ View E m' S' ∧ Reach E m') ∨
    (∃ e m' S', local_ E o construct block m0 = .throw e m' ∧ Excused E e ∧ Frame L S S' ∧ View E m' S' ∧ Reach E m') := by
  have key : ∀ S2, Frame (o :: L) S1 S2 → S2 o ≠ none ∧ Frame L S (upd S2 o none) := by
    intro S2 f
    refine ⟨fun h => (by rw [(f.live o), hS] at h; cases h), ⟨fun q hq => ?_, fun q => ?_⟩⟩
    · by_cases h : q = o
      · subst h; rw [upd_self, ho]
      · have h1 : S2 q = S1 q := f.same q (by simp [h, hq])
        have h2 := hf.same q hq
        simp only [SegTree.upd, h, if_false] at h2 ⊢
        rw [h1, h2]
    · by_cases h : q = o
      · subst h; simp [ho]
      · have h1 := f.live q
        have h2 := hf.live q
        simp only [SegTree.upd, h, if_false] at h2 ⊢
        exact h1.trans h2
  unfold local_
  rw [bind_ok hc]
  rcases hk m hr hv with ⟨m2, S2, h1, h2, h3, h4⟩ | ⟨e, m2, S2, h1, h0, h2, h3, h4⟩
  · obtain ⟨h5, h6⟩ := key S2 h2
    obtain ⟨m3, h7, h8, h9⟩ := local_end hE hnull h4 h3 h5
    have h10 : M.onThrow block (dtor E o) m = .ok true m2 := by unfold M.onThrow; rw [h1]
    refine .inl ⟨m3, _, ?_, h6, h8, h9⟩
    rw [bind_ok h10, bind_ok h7]; rfl
  · obtain ⟨h5, h6⟩ := key S2 h2
    obtain ⟨m3, h7, h8, h9⟩ := local_end hE hnull h4 h3 h5
    have h10 : M.onThrow block (dtor E o) m = .throw e m3 := by unfold M.onThrow; rw [h1]; simp only [h7]
    exact .inr ⟨e, m3, _, bind_throw h10, h0, h6, h8, h9⟩

/-- a local variable made by a constructor from values -/
theorem Good.local (hE : E.Good) (hnull : E.nullFree = true) (u : New α) {construct : M α Unit} {block : M α Bool} (ho : S o = none)
    (hp : u.Pre E) (hy : u.run E o = Un.unit construct) (hk : ∀ x, u.Ok x → Good E (o :: L) (upd S o (some x)) block) :
    Good E L S (local_ E o construct block) := by
  intro m hr hv
  rcases hr.op hE hv (op := .new o u) ⟨ho, hp⟩ with ⟨r, m1, S1, h1, ⟨-, x, h3, rfl⟩, h4, h5⟩ | ⟨e, m1, S1, h1, ⟨h3, rfl⟩, h4, h5⟩
  · change u.run E o m = _ at h1
    rw [hy] at h1
    obtain ⟨-, v, h6⟩ := unit_inv h1
    exact local_body hE hnull ho upd_self .refl (hk x h3) h5 h4 h6
  · have h1' := h1
    change u.run E o m = _ at h1
    rw [hy] at h1
    refine .inr ⟨e, m1, _, bind_throw (bind_pure_throw h1), excused hr h1' ?_, .refl, h4, h5⟩
    cases u with
    | empty al => exact h3.elim
    | fill al n v => exact Blame.weak h3
    | list al vs => exact Blame.weak h3

/-- a local variable made from another container -/
theorem Good.local2 (hE : E.Good) (hnull : E.nullFree = true) (u : New2) {z : Obj α} {construct : M α Unit} {block : M α Bool}
    (ho : S o = none) (hz : S p = some z) (hpL : p ∈ L)
    (hp : u.Pre E z) (hy : u.run E o p = Un.unit construct)
    (hk : ∀ x z', u.Ok E z x z' → Good E (o :: L) (upd (upd S p (some z')) o (some x)) block) :
    Good E L S (local_ E o construct block) := by
  have hne : p ≠ o := by rintro rfl; rw [hz] at ho; cases ho
  intro m hr hv
  rcases hr.op hE hv (op := .new2 o p u) ⟨ho, z, hz, hp⟩ with ⟨r, m1, S1, h1, ⟨-, z0, x, z', h2, h3, rfl⟩, h4, h5⟩ |
    ⟨e, m1, S1, h1, ⟨z0, z', h2, h3, rfl⟩, h4, h5⟩
  · rw [hz] at h2; cases h2
    change u.run E o p m = _ at h1
    rw [hy] at h1
    obtain ⟨-, v, h6⟩ := unit_inv h1
    refine local_body hE hnull ho upd_self ?_ (hk x z' h3) h5 h4 h6
    rw [upd_comm hne]
    exact Frame.upd hpL (x := z) (by simp [SegTree.upd, hne, hz])
  · rw [hz] at h2; cases h2
    have h1' := h1
    change u.run E o p m = _ at h1
    rw [hy] at h1
    refine .inr ⟨e, m1, _, bind_throw (bind_pure_throw h1), excused hr h1' ?_, Frame.upd hpL hz, h4, h5⟩
    cases u <;> simp only [New2.Exc] at h3
    · exact Blame.weak h3.1
    · exact Blame.weak h3.1
    · exact .inl h3.1
    · exact Blame.weak h3.1

/-! ### The checks -/

theorem std_equal_c (hE : E.Good) (hr : Reach E m) (hc : Contents E o m xs) (heq : ∀ v, eq v v = true) {jt : Iter}
    (hl : nth E o xs.length m = .ok jt m) : ∀ (k i : Nat) (it : Iter), i + k = xs.length → nth E o i m = .ok it m →
    std_equal E eq it jt (xs.drop i) m = .ok true m := by
  intro k
  induction k with
  | zero =>
    intro i it hi hn
    obtain rfl : i = xs.length := by omega
    rw [hl] at hn; cases hn
    rw [List.drop_length, std_equal, if_neg (by simp)]; rfl
  | succ k ih =>
    intro i it hi hn
    have hix : i < xs.length := by omega
    have hne : it.pos ≠ jt.pos := by
      have h1 := (C20_compare hE hr hc hix.le (Nat.le_refl _) hn hl).2.1
      simpa [it_ne] using h1.2 (by omega)
    obtain ⟨it', h1, h2⟩ := C18_next hE hr hc hix hn
    obtain ⟨it0, h3, h4⟩ := ((C05_access (i := i) hE hr hc).1 hix).2.2
    rw [hn] at h3; cases h3
    rw [List.drop_eq_getElem_cons hix, std_equal, if_pos hne, bind_ok h4, if_pos (heq _), bind_ok h1]
    exact ih (i + 1) it' (by omega) h2

theorem View.at {x : Obj α} (hv : View E m S) (hS : S o = some x) : Contents E o m x.elems := by
  have := hv o; rw [hS] at this; exact this.2

theorem check_contents_c (hE : E.Good) (heq : ∀ v, eq v v = true) {x : Obj α} (hS : S o = some x) (hx : x.elems = xs)
    (hr : Reach E m) (hv : View E m S) : check_contents E eq o xs m = .ok true m := by
  subst hx
  have hc := View.at hv hS
  obtain ⟨⟨b, h1, h2⟩, ⟨l, h3, h4⟩, -⟩ := C18_ends hE hr hc
  unfold check_contents
  rw [bind_ok (C05_access (i := 0) hE hr hc).2.2.2.2.2.1, bind_ok h1, bind_ok h3,
    bind_ok (by simpa using std_equal_c hE hr hc heq h4 x.elems.length 0 b (by omega) h2)]
  show Res.ok _ m = _
  simp

theorem check_empty_c (hE : E.Good) {x : Obj α} (hS : S o = some x) (hx : x.elems = []) (hr : Reach E m) (hv : View E m S) :
    check_empty E o m = .ok true m := by
  have hc := View.at hv hS
  rw [hx] at hc
  obtain ⟨⟨b, h1, h2⟩, ⟨l, h3, h4⟩, -⟩ := C18_ends hE hr hc
  have h5 : nth E o 0 m = .ok l m := h4
  rw [h2] at h5; cases h5
  unfold check_empty
  rw [bind_ok (C05_access (i := 0) hE hr hc).2.2.2.2.2.1, bind_ok h1, bind_ok h3]
  show Res.ok _ m = _
  simp [it_eq]

theorem Good.contents (hE : E.Good) (heq : ∀ v, eq v v = true) {k : Bool → M α Bool} {x : Obj α} (hS : S o = some x) (hx : x.elems = xs)
    (hk : Good E L S (k true)) : Good E L S (check_contents E eq o xs >>= k) :=
  .look (fun _ hr hv => check_contents_c hE heq hS hx hr hv) hk

theorem Good.none (hE : E.Good) {k : Bool → M α Bool} {x : Obj α} (hS : S o = some x) (hx : x.elems = [])
    (hk : Good E L S (k true)) : Good E L S (check_empty E o >>= k) :=
  .look (fun _ hr hv => check_empty_c hE hS hx hr hv) hk

/-- what the tests need: a sound configuration, addresses of the local variables that are
distinct and not in use, an allocator that tolerates `deallocate(nullptr)` (C45), room for
the 16 elements of the largest test, and an equality under which values equal themselves -/
structure Stage (E : Env α) (S : Bank α) (c : Nat → Nat) (eq : α → α → Bool) : Prop where
  good : E.Good
  apart : ∀ i j, c i = c j ↔ i = j
  free : ∀ i, S (c i) = none
  null : E.nullFree = true
  room : 16 ≤ max_size E
  refl : ∀ v, eq v v = true

/-! #### Steps of the proofs below -/

set_option hygiene false in
/-- `S o = some ?x` -/
local macro "ut_find" : tactic => `(tactic| first
  | exact upd_self
  | (rw [upd_ne (by simp [h.apart])]; exact upd_self)
  | (rw [upd_ne (by simp [h.apart]), upd_ne (by simp [h.apart])]; exact upd_self)
  | (rw [upd_ne (by simp [h.apart]), upd_ne (by simp [h.apart]), upd_ne (by simp [h.apart])]; exact upd_self)
  | (rw [upd_ne (by simp [h.apart]), upd_ne (by simp [h.apart]), upd_ne (by simp [h.apart]), upd_ne (by simp [h.apart])]
     exact upd_self))
set_option hygiene false in
/-- `S o = none` -/
local macro "ut_none" : tactic => `(tactic| simp [SegTree.upd, h.apart, h.free])
set_option hygiene false in
/-- there is room -/
local macro "ut_room" : tactic => `(tactic| (have := h.room; simp; try omega))
set_option hygiene false in
/-- preconditions of calls -/
local macro "ut_pre" : tactic => `(tactic| (have := h.room; first
  | trivial
  | (simp [Un.Pre, Bin.Pre, ins, slice, Clearable, SameAlloc, h.null, h.room]; done)
  | (simp [Un.Pre, Bin.Pre, ins, slice, Clearable, SameAlloc, h.null]; omega)))
/-- a container is in a list of containers -/
local macro "ut_mem" : tactic => `(tactic| simp)
set_option hygiene false in
/-- two containers are different -/
local macro "ut_ne" : tactic => `(tactic| simp [h.apart])
/-- contents -/
local macro "ut_same" : tactic => `(tactic| rfl)
/-- all checks hold -/
local macro "ut_checks" : tactic => `(tactic| rfl)

theorem see_index {k : Bool → M α Bool} {x : Obj α} {v : α} (hE : E.Good) (heq : ∀ v, eq v v = true) (hS : S o = some x)
    (hx : x.elems[i]? = some v) (hk : Good E L S (k true)) : Good E L S ((do pure (eq (← index_op E o i) v)) >>= k) := by
  obtain ⟨hi, rfl⟩ := List.getElem?_eq_some_iff.1 hx
  refine .look (fun m hr hv => ?_) hk
  rw [bind_ok ((C05_access hE hr (View.at hv hS)).1 hi).2.1]
  exact congrArg (Res.ok · m) (heq _)

theorem see_at {k : Bool → M α Bool} {x : Obj α} {v : α} (hE : E.Good) (heq : ∀ v, eq v v = true) (hS : S o = some x)
    (hx : x.elems[i]? = some v) (hk : Good E L S (k true)) : Good E L S ((do pure (eq (← at_ E o i) v)) >>= k) := by
  obtain ⟨hi, rfl⟩ := List.getElem?_eq_some_iff.1 hx
  refine .look (fun m hr hv => ?_) hk
  rw [bind_ok ((C05_access hE hr (View.at hv hS)).1 hi).1]
  exact congrArg (Res.ok · m) (heq _)

theorem see_range {k : Bool → M α Bool} {x : Obj α} (hE : E.Good) (hS : S o = some x)
    (hx : x.elems.length ≤ i) (hk : Good E L S (k true)) : Good E L S (out_of_range (at_ E o i) >>= k) := by
  refine .look (fun m hr hv => ?_) hk
  obtain ⟨h1, h2, -⟩ := C06_at (i := i) (e := .range) (m' := m) hE hr (View.at hv hS)
  obtain ⟨e, m', h3⟩ := h1.2 hx
  obtain ⟨rfl, rfl⟩ := (C06_at hE hr (View.at hv hS)).2.1 h3
  unfold out_of_range
  rw [h3]

theorem see_front {k : Bool → M α Bool} {x : Obj α} {v : α} (hE : E.Good) (heq : ∀ v, eq v v = true) (hS : S o = some x)
    (hx : x.elems.head? = some v) (hk : Good E L S (k true)) : Good E L S ((do pure (eq (← front E o) v)) >>= k) := by
  refine .look (fun m hr hv => ?_) hk
  have hne : x.elems ≠ [] := by rintro h; rw [h] at hx; cases hx
  rw [List.head?_eq_some_head hne] at hx; cases hx
  rw [bind_ok ((C05_access (i := 0) hE hr (View.at hv hS)).2.1 hne).1]
  exact congrArg (Res.ok · m) (heq _)

theorem see_back {k : Bool → M α Bool} {x : Obj α} {v : α} (hE : E.Good) (heq : ∀ v, eq v v = true) (hS : S o = some x)
    (hx : x.elems.getLast? = some v) (hk : Good E L S (k true)) : Good E L S ((do pure (eq (← back E o) v)) >>= k) := by
  refine .look (fun m hr hv => ?_) hk
  have hne : x.elems ≠ [] := by rintro h; rw [h] at hx; cases hx
  rw [List.getLast?_eq_some_getLast hne] at hx; cases hx
  rw [bind_ok ((C05_access (i := 0) hE hr (View.at hv hS)).2.1 hne).2]
  exact congrArg (Res.ok · m) (heq _)

/-- reading an element through an iterator -/
theorem deref_nth (hE : E.Good) (hr : Reach E m) (hc : Contents E o m xs) (hi : i < xs.length) (hn : nth E o i m = .ok it m) :
    dereference E it m = .ok xs[i] m := by
  obtain ⟨jt, h1, h2⟩ := ((C05_access (i := i) hE hr hc).1 hi).2.2
  rw [hn] at h1; cases h1; exact h2

theorem see_nth {k : Bool → M α Bool} {x : Obj α} {v : α} (hE : E.Good) (heq : ∀ v, eq v v = true) (hS : S o = some x)
    (hx : x.elems[i]? = some v) (hk : Good E L S (k true)) : Good E L S ((do pure (eq (← dereference E (← nth E o i)) v)) >>= k) := by
  obtain ⟨hi, rfl⟩ := List.getElem?_eq_some_iff.1 hx
  refine .look (fun m hr hv => ?_) hk
  obtain ⟨jt, h1, h2⟩ := ((C05_access (i := i) hE hr (View.at hv hS)).1 hi).2.2
  rw [bind_ok h1, bind_ok h2]
  exact congrArg (Res.ok · m) (heq _)

theorem see_begin {k : Bool → M α Bool} {x : Obj α} {v : α} (hE : E.Good) (heq : ∀ v, eq v v = true) (hS : S o = some x)
    (hx : x.elems[0]? = some v) (hk : Good E L S (k true)) : Good E L S ((do pure (eq (← dereference E (← begin_ E o)) v)) >>= k) := by
  obtain ⟨hi, rfl⟩ := List.getElem?_eq_some_iff.1 hx
  refine .look (fun m hr hv => ?_) hk
  have hc := View.at hv hS
  obtain ⟨⟨b, h1, h2⟩, -⟩ := C18_ends hE hr hc
  rw [bind_ok h1, bind_ok (deref_nth hE hr hc hi h2)]
  exact congrArg (Res.ok · m) (heq _)

theorem see_penultimate {k : Bool → M α Bool} {x : Obj α} {v : α} (hE : E.Good) (heq : ∀ v, eq v v = true) (hS : S o = some x)
    (hx : x.elems[x.elems.length - 1]? = some v) (hk : Good E L S (k true)) :
    Good E L S ((do pure (eq (← dereference E (← penultimate E o)) v)) >>= k) := by
  obtain ⟨hi, rfl⟩ := List.getElem?_eq_some_iff.1 hx
  refine .look (fun m hr hv => ?_) hk
  have hc := View.at hv hS
  obtain ⟨-, -, h0⟩ := C18_ends hE hr hc
  obtain ⟨b, h1, h2⟩ := h0 (by intro h; simp [h] at hi)
  rw [bind_ok h1, bind_ok (deref_nth hE hr hc hi h2)]
  exact congrArg (Res.ok · m) (heq _)

theorem see_end {k : Bool → M α Bool} {x : Obj α} {v : α} (hE : E.Good) (heq : ∀ v, eq v v = true) (hS : S o = some x)
    (hx : x.elems[x.elems.length - 1]? = some v) (hk : Good E L S (k true)) :
    Good E L S ((do pure (eq (← dereference E (← it_sub E (← end_ E o) 1)) v)) >>= k) := by
  obtain ⟨hi, rfl⟩ := List.getElem?_eq_some_iff.1 hx
  refine .look (fun m hr hv => ?_) hk
  have hc := View.at hv hS
  obtain ⟨-, ⟨l, h1, h2⟩, -⟩ := C18_ends hE hr hc
  obtain ⟨jt, h3, h4⟩ := C19_sub hE hr hc (d := 1) (Nat.le_refl _) (by omega) (by omega) h2
  rw [show ((x.elems.length : Int) - 1).toNat = x.elems.length - 1 by omega] at h4
  rw [bind_ok h1, bind_ok h3, bind_ok (deref_nth hE hr hc hi h4)]
  exact congrArg (Res.ok · m) (heq _)

theorem see_rbegin {k : Bool → M α Bool} {x : Obj α} {v : α} (hE : E.Good) (heq : ∀ v, eq v v = true) (hS : S o = some x)
    (hx : x.elems[x.elems.length - 1]? = some v) (hk : Good E L S (k true)) :
    Good E L S ((do pure (eq (← rev_deref E (← end_ E o)) v)) >>= k) := by
  obtain ⟨hi, rfl⟩ := List.getElem?_eq_some_iff.1 hx
  refine .look (fun m hr hv => ?_) hk
  have hc := View.at hv hS
  obtain ⟨-, ⟨l, h1, h2⟩, -⟩ := C18_ends hE hr hc
  have h3 := C21_deref (i := x.elems.length - 1) hE hr hc (by omega)
    (by rw [show x.elems.length - 1 + 1 = x.elems.length by omega]; exact h2)
  rw [bind_ok h1, bind_ok h3]
  exact congrArg (Res.ok · m) (heq _)

theorem see_rend {k : Bool → M α Bool} {x : Obj α} {v : α} (hE : E.Good) (heq : ∀ v, eq v v = true) (hS : S o = some x)
    (hx : x.elems[0]? = some v) (hk : Good E L S (k true)) :
    Good E L S ((do pure (eq (← rev_deref E (← it_add E (← begin_ E o) 1)) v)) >>= k) := by
  obtain ⟨hi, rfl⟩ := List.getElem?_eq_some_iff.1 hx
  refine .look (fun m hr hv => ?_) hk
  have hc := View.at hv hS
  obtain ⟨⟨b, h1, h2⟩, -⟩ := C18_ends hE hr hc
  obtain ⟨jt, h3, h4⟩ := C19_add hE hr hc (d := 1) (Nat.zero_le _) (by omega) (by omega) h2
  have h5 := C21_deref (i := 0) hE hr hc hi h4
  rw [bind_ok h1, bind_ok h3, bind_ok h5]
  exact congrArg (Res.ok · m) (heq _)

theorem see_index_of {k : Bool → M α Bool} {x : Obj α} (hE : E.Good) (hS : S o = some x)
    (hx : i ≤ x.elems.length) (hk : Good E L S (k true)) :
    Good E L S ((do pure (index_of (← nth E o i) == i)) >>= k) := by
  refine .look (fun m hr hv => ?_) hk
  have hc := View.at hv hS
  obtain ⟨jt, h1⟩ := hr.nth hE hc i
  rw [bind_ok h1]
  have := (C20_compare hE hr hc hx hx h1 h1).2.2.2.2.2.2
  exact congrArg (Res.ok · m) (by simp [this])

theorem see_alloc {k : Bool → M α Bool} {x : Obj α} (_ : E.Good) (hS : S o = some x) (hx : x.alloc = tag)
    (hk : Good E L S (k true)) : Good E L S ((do pure ((← get_allocator o) == tag)) >>= k) := by
  refine .look (fun m hr hv => ?_) hk
  have := hv o; rw [hS] at this
  rw [bind_ok this.1, hx]
  exact congrArg (Res.ok · m) (by simp)

theorem see_empty {k : Bool → M α Bool} {x : Obj α} {b : Bool} (hE : E.Good) (hS : S o = some x) (hx : x.elems.isEmpty = b)
    (hk : Good E L S (k true)) : Good E L S ((do pure ((← empty o) == b)) >>= k) := by
  refine .look (fun m hr hv => ?_) hk
  rw [bind_ok (C05_access (i := 0) hE hr (View.at hv hS)).2.2.2.2.2.2, hx]
  exact congrArg (Res.ok · m) (by simp)

theorem see_size {k : Bool → M α Bool} {x : Obj α} {b : Nat} (hE : E.Good) (hS : S o = some x) (hx : x.elems.length = b)
    (hk : Good E L S (k true)) : Good E L S ((do pure ((← size o) == b)) >>= k) := by
  refine .look (fun m hr hv => ?_) hk
  rw [bind_ok (C05_access (i := 0) hE hr (View.at hv hS)).2.2.2.2.2.1, hx]
  exact congrArg (Res.ok · m) (by simp)

theorem height_ex (hE : E.Good) (hr : Reach E m) (hc : Contents E o m xs) : ∃ h, height o m = .ok h m := by
  obtain ⟨al, s, F, hs, rfl, H⟩ := hr.cont hE hc
  exact ⟨_, getHeight_c H⟩

theorem see_height0 {k : Bool → M α Bool} {x : Obj α} (hE : E.Good) (hS : S o = some x) (hx : x.elems.length = 0)
    (hk : Good E L S (k true)) : Good E L S ((do pure ((← height o) == 0)) >>= k) := by
  refine .look (fun m hr hv => ?_) hk
  have hc := View.at hv hS
  obtain ⟨q, h1⟩ := height_ex hE hr hc
  rw [bind_ok h1, (C16_empty hE hr hc h1).2 (List.length_eq_zero_iff.1 hx)]
  rfl

theorem see_height1 {k : Bool → M α Bool} {x : Obj α} (hE : E.Good) (hS : S o = some x) (hx : x.elems.length = 1)
    (hk : Good E L S (k true)) : Good E L S ((do pure ((← height o) == 1)) >>= k) := by
  refine .look (fun m hr hv => ?_) hk
  have hc := View.at hv hS
  obtain ⟨q, h1⟩ := height_ex hE hr hc
  have h2 : q ≠ 0 := fun h => by rw [(C16_empty hE hr hc h1).1 h] at hx; cases hx
  have h3 := C16_log hE hr hc h1 h2
  rw [hx] at h3
  have h4 : q = 1 := by
    by_contra h
    have : 2 ^ 1 ≤ 2 ^ (q - 1) := Nat.pow_le_pow_right (by omega) (by omega)
    omega
  rw [bind_ok h1, h4]
  rfl

theorem Good.last {x : M α Bool} (h : Good E L S (x >>= Pure.pure)) : Good E L S x := by
  have : (x >>= Pure.pure) = x := by
    funext m
    show M.bind x Pure.pure m = x m
    unfold M.bind
    cases x m <;> rfl
  rwa [this] at h

/-! #### The tests -/

theorem construct_alloc_good (h : Stage E S c eq) : Good E [] S (test_construct_alloc E c tag) := by
  unfold test_construct_alloc
  refine .local h.good h.null (.empty tag) (by ut_none) trivial rfl ?_; rintro _ rfl
  apply Good.none h.good
  · ut_find
  · rfl
  apply see_alloc h.good
  · ut_find
  · rfl
  exact .pure (by ut_checks)

theorem construct_default_good (h : Stage E S c eq) : Good E [] S (test_construct_default E c al) := by
  unfold test_construct_default
  refine .local h.good h.null (.empty al) (by ut_none) trivial rfl ?_; rintro _ rfl
  refine .last ?_
  apply Good.none h.good
  · ut_find
  · rfl
  exact .pure (by ut_checks)

theorem construct_count_good (h : Stage E S c eq) : Good E [] S (test_construct_count E eq c al n) := by
  unfold test_construct_count
  refine .local h.good h.null (.fill al 10 (n 3)) (by ut_none) ⟨by ut_room, h.null⟩ rfl ?_; rintro _ rfl
  refine .last ?_
  apply Good.contents h.good h.refl
  · ut_find
  · rfl
  exact .pure (by ut_checks)

theorem construct_range_good (h : Stage E S c eq) : Good E [] S (test_construct_range E eq c al n) := by
  unfold test_construct_range
  refine .local h.good h.null (.list al [n 0, n 1, n 2, n 3, n 4]) (by ut_none) ⟨by ut_room, h.null⟩ rfl ?_; rintro _ rfl
  refine .last ?_
  apply Good.contents h.good h.refl
  · ut_find
  · rfl
  exact .pure (by ut_checks)

theorem construct_copy_good (h : Stage E S c eq) : Good E [] S (test_construct_copy E eq c al n) := by
  unfold test_construct_copy
  refine .local h.good h.null (.list al [n 0, n 1, n 2, n 3, n 4]) (by ut_none) ⟨by ut_room, h.null⟩ rfl ?_; rintro _ rfl
  apply Good.local2 (p := c 1) h.good h.null .copy (by ut_none)
  · ut_find
  · ut_mem
  · exact h.null
  · exact rfl
  rintro _ _ ⟨rfl, rfl⟩
  refine .last ?_
  apply Good.contents h.good h.refl
  · ut_find
  · rfl
  exact .pure (by ut_checks)

theorem construct_copy_alloc_good (h : Stage E S c eq) : Good E [] S (test_construct_copy_alloc E eq c al n tag) := by
  unfold test_construct_copy_alloc
  refine .local h.good h.null (.list al [n 0, n 1, n 2, n 3, n 4]) (by ut_none) ⟨by ut_room, h.null⟩ rfl ?_; rintro _ rfl
  apply Good.local2 (p := c 1) h.good h.null (.copyAlloc tag) (by ut_none)
  · ut_find
  · ut_mem
  · exact h.null
  · exact rfl
  rintro _ _ ⟨rfl, rfl⟩
  apply Good.contents h.good h.refl
  · ut_find
  · rfl
  apply see_alloc h.good
  · ut_find
  · rfl
  exact .pure (by ut_checks)

theorem construct_move_good (h : Stage E S c eq) : Good E [] S (test_construct_move E eq c al n) := by
  unfold test_construct_move
  refine .local h.good h.null (.list al [n 0, n 1, n 2, n 3, n 4]) (by ut_none) ⟨by ut_room, h.null⟩ rfl ?_; rintro _ rfl
  apply Good.local2 (p := c 1) h.good h.null .move (by ut_none)
  · ut_find
  · ut_mem
  · exact trivial
  · exact rfl
  rintro _ _ ⟨rfl, rfl⟩
  apply Good.none h.good
  · ut_find
  · rfl
  apply Good.contents h.good h.refl
  · ut_find
  · rfl
  exact .pure (by ut_checks)

theorem construct_move_alloc_good (h : Stage E S c eq) (htag : SameAlloc E tag al) : Good E [] S (test_construct_move_alloc E eq c al n tag) := by
  unfold test_construct_move_alloc
  refine .local h.good h.null (.list al [n 0, n 1, n 2, n 3, n 4]) (by ut_none) ⟨by ut_room, h.null⟩ rfl ?_; rintro _ rfl
  apply Good.local2 (p := c 1) h.good h.null (.moveAlloc tag) (by ut_none)
  · ut_find
  · ut_mem
  · exact h.null
  · exact rfl
  rintro _ _ ⟨rfl, hm, -⟩; cases hm htag
  apply Good.none h.good
  · ut_find
  · rfl
  apply Good.contents h.good h.refl
  · ut_find
  · rfl
  apply see_alloc h.good
  · ut_find
  · rfl
  exact .pure (by ut_checks)

theorem construct_ilist_good (h : Stage E S c eq) : Good E [] S (test_construct_ilist E eq c al n) := by
  unfold test_construct_ilist
  refine .local h.good h.null (.list al [n 0, n 1, n 2, n 3, n 4]) (by ut_none) ⟨by ut_room, h.null⟩ rfl ?_; rintro _ rfl
  refine .last ?_
  apply Good.contents h.good h.refl
  · ut_find
  · rfl
  exact .pure (by ut_checks)

theorem operator_assign_good (h : Stage E S c eq) : Good E [] S (test_operator_assign E eq c al n) := by
  unfold test_operator_assign
  refine .local h.good h.null (.list al [n 0, n 1, n 2, n 3, n 4]) (by ut_none) ⟨by ut_room, h.null⟩ rfl ?_; rintro _ rfl
  refine .local h.good h.null (.list al [n 5, n 4, n 3]) (by ut_none) ⟨by ut_room, h.null⟩ rfl ?_; rintro _ rfl
  refine .local h.good h.null (.empty al) (by ut_none) trivial rfl ?_; rintro _ rfl
  apply Good.bin (o := c 3) (p := c 1) h.good (.assignCopy)
  · ut_find
  · ut_find
  · ut_ne
  · ut_pre
  · ut_mem
  · ut_mem
  · exact rfl
  rintro _ _ _ - ⟨-, rfl, rfl⟩
  apply Good.contents h.good h.refl
  · ut_find
  · rfl
  apply Good.bin (o := c 3) (p := c 2) h.good (.assignCopy)
  · ut_find
  · ut_find
  · ut_ne
  · ut_pre
  · ut_mem
  · ut_mem
  · exact rfl
  rintro _ _ _ - ⟨-, rfl, rfl⟩
  apply Good.contents h.good h.refl
  · ut_find
  · rfl
  exact .pure (by ut_checks)

theorem operator_move_assign_good (h : Stage E S c eq) : Good E [] S (test_operator_move_assign E eq c al n) := by
  unfold test_operator_move_assign
  refine .local h.good h.null (.list al [n 0, n 1, n 2, n 3, n 4]) (by ut_none) ⟨by ut_room, h.null⟩ rfl ?_; rintro _ rfl
  refine .local h.good h.null (.list al [n 5, n 4, n 3]) (by ut_none) ⟨by ut_room, h.null⟩ rfl ?_; rintro _ rfl
  refine .local h.good h.null (.empty al) (by ut_none) trivial rfl ?_; rintro _ rfl
  apply Good.bin (o := c 3) (p := c 1) h.good (.assignMove)
  · ut_find
  · ut_find
  · ut_ne
  · ut_pre
  · ut_mem
  · ut_mem
  · exact rfl
  rintro _ _ _ - ⟨-, rfl, hm, -⟩; cases hm (.inr (by simp [SameAlloc]))
  apply Good.contents h.good h.refl
  · ut_find
  · rfl
  apply Good.none h.good
  · ut_find
  · rfl
  apply Good.bin (o := c 3) (p := c 2) h.good (.assignMove)
  · ut_find
  · ut_find
  · ut_ne
  · ut_pre
  · ut_mem
  · ut_mem
  · exact rfl
  rintro _ _ _ - ⟨-, rfl, hm, -⟩; cases hm (.inr (by simp [SameAlloc]))
  apply Good.contents h.good h.refl
  · ut_find
  · rfl
  apply Good.none h.good
  · ut_find
  · rfl
  exact .pure (by ut_checks)

theorem operator_assign_ilist_good (h : Stage E S c eq) : Good E [] S (test_operator_assign_ilist E eq c al n) := by
  unfold test_operator_assign_ilist
  refine .local h.good h.null (.empty al) (by ut_none) trivial rfl ?_; rintro _ rfl
  apply Good.un (o := c 1) h.good (.assignList [n 0, n 1, n 2, n 3, n 4])
  · ut_find
  · ut_pre
  · ut_mem
  · simp
  · exact rfl
  rintro _ _ - ⟨-, rfl⟩
  apply Good.contents h.good h.refl
  · ut_find
  · rfl
  apply Good.un (o := c 1) h.good (.assignList [n 5, n 4, n 3])
  · ut_find
  · ut_pre
  · ut_mem
  · simp
  · exact rfl
  rintro _ _ - ⟨-, rfl⟩
  apply Good.contents h.good h.refl
  · ut_find
  · rfl
  exact .pure (by ut_checks)

theorem assign_count_good (h : Stage E S c eq) : Good E [] S (test_assign_count E eq c al n) := by
  unfold test_assign_count
  refine .local h.good h.null (.list al [n 0, n 1, n 2, n 3, n 4]) (by ut_none) ⟨by ut_room, h.null⟩ rfl ?_; rintro _ rfl
  apply Good.un (o := c 1) h.good (.assignFill 10 (n 0))
  · ut_find
  · ut_pre
  · ut_mem
  · simp
  · exact rfl
  rintro _ _ - ⟨-, rfl⟩
  apply Good.contents h.good h.refl
  · ut_find
  · rfl
  apply Good.un (o := c 1) h.good (.assignFill 5 (n 1))
  · ut_find
  · ut_pre
  · ut_mem
  · simp
  · exact rfl
  rintro _ _ - ⟨-, rfl⟩
  apply Good.contents h.good h.refl
  · ut_find
  · rfl
  exact .pure (by ut_checks)

theorem assign_range_good (h : Stage E S c eq) : Good E [] S (test_assign_range E eq c al n) := by
  unfold test_assign_range
  refine .local h.good h.null (.empty al) (by ut_none) trivial rfl ?_; rintro _ rfl
  apply Good.un (o := c 1) h.good (.assignList [n 0, n 1, n 2, n 3, n 4])
  · ut_find
  · ut_pre
  · ut_mem
  · simp
  · exact rfl
  rintro _ _ - ⟨-, rfl⟩
  refine .last ?_
  apply Good.contents h.good h.refl
  · ut_find
  · rfl
  exact .pure (by ut_checks)

theorem assign_ilist_good (h : Stage E S c eq) : Good E [] S (test_assign_ilist E eq c al n) := by
  unfold test_assign_ilist
  refine .local h.good h.null (.empty al) (by ut_none) trivial rfl ?_; rintro _ rfl
  apply Good.un (o := c 1) h.good (.assignList [n 0, n 1, n 2, n 3, n 4])
  · ut_find
  · ut_pre
  · ut_mem
  · simp
  · exact rfl
  rintro _ _ - ⟨-, rfl⟩
  refine .last ?_
  apply Good.contents h.good h.refl
  · ut_find
  · rfl
  exact .pure (by ut_checks)

theorem get_allocator_good (h : Stage E S c eq) : Good E [] S (test_get_allocator E c tag) := by
  unfold test_get_allocator
  refine .local h.good h.null (.empty tag) (by ut_none) trivial rfl ?_; rintro _ rfl
  refine .last ?_
  apply see_alloc h.good
  · ut_find
  · rfl
  exact .pure (by ut_checks)

theorem at_good (h : Stage E S c eq) : Good E [] S (test_at E eq c al n) := by
  unfold test_at
  refine .local h.good h.null (.list al [n 0]) (by ut_none) ⟨by ut_room, h.null⟩ rfl ?_; rintro _ rfl
  apply see_at h.good h.refl
  · ut_find
  · rfl
  apply see_range h.good
  · ut_find
  · exact Nat.le_refl _
  apply see_at h.good h.refl
  · ut_find
  · rfl
  apply see_range h.good
  · ut_find
  · exact Nat.le_refl _
  exact .pure (by ut_checks)

theorem operator_index_good (h : Stage E S c eq) : Good E [] S (test_operator_index E eq c al n) := by
  unfold test_operator_index
  refine .local h.good h.null (.list al [n 0, n 1]) (by ut_none) ⟨by ut_room, h.null⟩ rfl ?_; rintro _ rfl
  apply see_index h.good h.refl
  · ut_find
  · rfl
  apply see_index h.good h.refl
  · ut_find
  · rfl
  apply see_index h.good h.refl
  · ut_find
  · rfl
  apply see_index h.good h.refl
  · ut_find
  · rfl
  exact .pure (by ut_checks)

theorem front_good (h : Stage E S c eq) : Good E [] S (test_front E eq c al n) := by
  unfold test_front
  refine .local h.good h.null (.list al [n 0, n 1]) (by ut_none) ⟨by ut_room, h.null⟩ rfl ?_; rintro _ rfl
  apply see_front h.good h.refl
  · ut_find
  · rfl
  apply see_front h.good h.refl
  · ut_find
  · rfl
  exact .pure (by ut_checks)

theorem back_good (h : Stage E S c eq) : Good E [] S (test_back E eq c al n) := by
  unfold test_back
  refine .local h.good h.null (.list al [n 0, n 1]) (by ut_none) ⟨by ut_room, h.null⟩ rfl ?_; rintro _ rfl
  apply see_back h.good h.refl
  · ut_find
  · rfl
  apply see_back h.good h.refl
  · ut_find
  · rfl
  exact .pure (by ut_checks)

theorem begin_good (h : Stage E S c eq) : Good E [] S (test_begin E eq c al n) := by
  unfold test_begin
  refine .local h.good h.null (.list al [n 0, n 1]) (by ut_none) ⟨by ut_room, h.null⟩ rfl ?_; rintro _ rfl
  apply see_begin h.good h.refl
  · ut_find
  · rfl
  apply see_begin h.good h.refl
  · ut_find
  · rfl
  apply see_begin h.good h.refl
  · ut_find
  · rfl
  apply see_begin h.good h.refl
  · ut_find
  · rfl
  exact .pure (by ut_checks)

theorem end_good (h : Stage E S c eq) : Good E [] S (test_end E eq c al n) := by
  unfold test_end
  refine .local h.good h.null (.list al [n 0, n 1]) (by ut_none) ⟨by ut_room, h.null⟩ rfl ?_; rintro _ rfl
  apply see_end h.good h.refl
  · ut_find
  · rfl
  apply see_end h.good h.refl
  · ut_find
  · rfl
  apply see_end h.good h.refl
  · ut_find
  · rfl
  apply see_end h.good h.refl
  · ut_find
  · rfl
  exact .pure (by ut_checks)

theorem rbegin_good (h : Stage E S c eq) : Good E [] S (test_rbegin E eq c al n) := by
  unfold test_rbegin
  refine .local h.good h.null (.list al [n 0, n 1]) (by ut_none) ⟨by ut_room, h.null⟩ rfl ?_; rintro _ rfl
  apply see_rbegin h.good h.refl
  · ut_find
  · rfl
  apply see_rbegin h.good h.refl
  · ut_find
  · rfl
  apply see_rbegin h.good h.refl
  · ut_find
  · rfl
  apply see_rbegin h.good h.refl
  · ut_find
  · rfl
  exact .pure (by ut_checks)

theorem rend_good (h : Stage E S c eq) : Good E [] S (test_rend E eq c al n) := by
  unfold test_rend
  refine .local h.good h.null (.list al [n 0, n 1]) (by ut_none) ⟨by ut_room, h.null⟩ rfl ?_; rintro _ rfl
  apply see_rend h.good h.refl
  · ut_find
  · rfl
  apply see_rend h.good h.refl
  · ut_find
  · rfl
  apply see_rend h.good h.refl
  · ut_find
  · rfl
  apply see_rend h.good h.refl
  · ut_find
  · rfl
  exact .pure (by ut_checks)

theorem penultimate_good (h : Stage E S c eq) : Good E [] S (test_penultimate E eq c al n) := by
  unfold test_penultimate
  refine .local h.good h.null (.list al [n 0, n 1]) (by ut_none) ⟨by ut_room, h.null⟩ rfl ?_; rintro _ rfl
  apply see_penultimate h.good h.refl
  · ut_find
  · rfl
  apply see_penultimate h.good h.refl
  · ut_find
  · rfl
  apply see_penultimate h.good h.refl
  · ut_find
  · rfl
  apply see_penultimate h.good h.refl
  · ut_find
  · rfl
  exact .pure (by ut_checks)

theorem nth_good (h : Stage E S c eq) : Good E [] S (test_nth E eq c al n) := by
  unfold test_nth
  refine .local h.good h.null (.list al [n 0, n 1]) (by ut_none) ⟨by ut_room, h.null⟩ rfl ?_; rintro _ rfl
  apply see_nth h.good h.refl
  · ut_find
  · rfl
  apply see_nth h.good h.refl
  · ut_find
  · rfl
  apply see_nth h.good h.refl
  · ut_find
  · rfl
  apply see_nth h.good h.refl
  · ut_find
  · rfl
  exact .pure (by ut_checks)

theorem index_of_good (h : Stage E S c eq) : Good E [] S (test_index_of E c al n) := by
  unfold test_index_of
  refine .local h.good h.null (.list al [n 0, n 1]) (by ut_none) ⟨by ut_room, h.null⟩ rfl ?_; rintro _ rfl
  apply see_index_of h.good
  · ut_find
  · ut_room
  apply see_index_of h.good
  · ut_find
  · ut_room
  apply see_index_of h.good
  · ut_find
  · ut_room
  apply see_index_of h.good
  · ut_find
  · ut_room
  apply see_index_of h.good
  · ut_find
  · ut_room
  apply see_index_of h.good
  · ut_find
  · ut_room
  exact .pure (by ut_checks)

theorem empty_good (h : Stage E S c eq) : Good E [] S (test_empty E c al n) := by
  unfold test_empty
  refine .local h.good h.null (.empty al) (by ut_none) trivial rfl ?_; rintro _ rfl
  apply see_empty h.good
  · ut_find
  · rfl
  refine .local h.good h.null (.list al [n 0]) (by ut_none) ⟨by ut_room, h.null⟩ rfl ?_; rintro _ rfl
  apply see_empty h.good
  · ut_find
  · rfl
  exact .pure (by ut_checks)

theorem size_good (h : Stage E S c eq) : Good E [] S (test_size E c al n) := by
  unfold test_size
  refine .local h.good h.null (.empty al) (by ut_none) trivial rfl ?_; rintro _ rfl
  apply see_size h.good
  · ut_find
  · rfl
  refine .local h.good h.null (.list al [n 0]) (by ut_none) ⟨by ut_room, h.null⟩ rfl ?_; rintro _ rfl
  apply see_size h.good
  · ut_find
  · rfl
  refine .local h.good h.null (.list al [n 0, n 1, n 2, n 3, n 4]) (by ut_none) ⟨by ut_room, h.null⟩ rfl ?_; rintro _ rfl
  apply see_size h.good
  · ut_find
  · rfl
  exact .pure (by ut_checks)

theorem height_good (h : Stage E S c eq) : Good E [] S (test_height E c al n) := by
  unfold test_height
  refine .local h.good h.null (.empty al) (by ut_none) trivial rfl ?_; rintro _ rfl
  apply see_height0 h.good
  · ut_find
  · rfl
  refine .local h.good h.null (.list al [n 0]) (by ut_none) ⟨by ut_room, h.null⟩ rfl ?_; rintro _ rfl
  apply see_height1 h.good
  · ut_find
  · rfl
  exact .pure (by ut_checks)

theorem max_size_good (h : Stage E S c eq) : Good E [] S (test_max_size E c al) := by
  unfold test_max_size
  refine .local h.good h.null (.empty al) (by ut_none) trivial rfl ?_; rintro _ rfl
  refine .last ?_
  refine .look (b := decide (max_size E = E.W - 1)) (fun _ _ _ => rfl) ?_
  exact .pure (by simp [max_size])

theorem clear_good (h : Stage E S c eq) : Good E [] S (test_clear E c al n) := by
  unfold test_clear
  refine .local h.good h.null (.list al [n 0, n 1, n 2, n 3, n 4]) (by ut_none) ⟨by ut_room, h.null⟩ rfl ?_; rintro _ rfl
  apply Good.un (o := c 1) h.good (.clear)
  · ut_find
  · ut_pre
  · ut_mem
  · simp
  · exact rfl
  rintro _ _ - ⟨-, rfl⟩
  refine .last ?_
  apply Good.none h.good
  · ut_find
  · rfl
  exact .pure (by ut_checks)

theorem insert_lvalue_good (h : Stage E S c eq) : Good E [] S (test_insert_lvalue E eq c al n) := by
  unfold test_insert_lvalue
  refine .local h.good h.null (.list al [n 0, n 1, n 2, n 4]) (by ut_none) ⟨by ut_room, h.null⟩ rfl ?_; rintro _ rfl
  apply Good.un (o := c 1) h.good (.insert 3 (n 3))
  · ut_find
  · ut_pre
  · ut_mem
  · simp
  · exact rfl
  rintro _ _ - ⟨-, rfl⟩
  refine .last ?_
  apply Good.contents h.good h.refl
  · ut_find
  · rfl
  exact .pure (by ut_checks)

theorem insert_rvalue_good (h : Stage E S c eq) : Good E [] S (test_insert_rvalue E eq c al n) := by
  unfold test_insert_rvalue
  refine .local h.good h.null (.list al [n 0, n 1, n 2, n 4]) (by ut_none) ⟨by ut_room, h.null⟩ rfl ?_; rintro _ rfl
  apply Good.un (o := c 1) h.good (.insertRv 3 (n 3))
  · ut_find
  · ut_pre
  · ut_mem
  · simp
  · exact rfl
  rintro _ _ - ⟨-, rfl⟩
  refine .last ?_
  apply Good.contents h.good h.refl
  · ut_find
  · rfl
  exact .pure (by ut_checks)

theorem insert_lvalue_count_good (h : Stage E S c eq) : Good E [] S (test_insert_lvalue_count E eq c al n) := by
  unfold test_insert_lvalue_count
  refine .local h.good h.null (.list al [n 0, n 1, n 2, n 4]) (by ut_none) ⟨by ut_room, h.null⟩ rfl ?_; rintro _ rfl
  apply Good.un (o := c 1) h.good (.insertFill 3 3 (n 3))
  · ut_find
  · ut_pre
  · ut_mem
  · simp
  · exact rfl
  rintro _ _ - ⟨-, rfl⟩
  refine .last ?_
  apply Good.contents h.good h.refl
  · ut_find
  · rfl
  exact .pure (by ut_checks)

theorem insert_range_good (h : Stage E S c eq) : Good E [] S (test_insert_range E eq c al n) := by
  unfold test_insert_range
  refine .local h.good h.null (.list al [n 0, n 1, n 2, n 6]) (by ut_none) ⟨by ut_room, h.null⟩ rfl ?_; rintro _ rfl
  apply Good.un (o := c 1) h.good (.insertList 3 [n 3, n 4, n 5])
  · ut_find
  · ut_pre
  · ut_mem
  · simp
  · exact rfl
  rintro _ _ - ⟨-, rfl⟩
  refine .last ?_
  apply Good.contents h.good h.refl
  · ut_find
  · rfl
  exact .pure (by ut_checks)

theorem insert_ilist_good (h : Stage E S c eq) : Good E [] S (test_insert_ilist E eq c al n) := by
  unfold test_insert_ilist
  refine .local h.good h.null (.list al [n 0, n 1, n 2, n 6]) (by ut_none) ⟨by ut_room, h.null⟩ rfl ?_; rintro _ rfl
  apply Good.un (o := c 1) h.good (.insertList 3 [n 3, n 4, n 5])
  · ut_find
  · ut_pre
  · ut_mem
  · simp
  · exact rfl
  rintro _ _ - ⟨-, rfl⟩
  refine .last ?_
  apply Good.contents h.good h.refl
  · ut_find
  · rfl
  exact .pure (by ut_checks)

theorem emplace_default_good (h : Stage E S c eq) : Good E [] S (test_emplace_default E eq c al n) := by
  unfold test_emplace_default
  refine .local h.good h.null (.list al [n 0, n 1, n 2, n 4]) (by ut_none) ⟨by ut_room, h.null⟩ rfl ?_; rintro _ rfl
  apply Good.un (o := c 1) h.good (.insertRv 3 (n 0))
  · ut_find
  · ut_pre
  · ut_mem
  · simp
  · exact rfl
  rintro _ _ - ⟨-, rfl⟩
  refine .last ?_
  apply Good.contents h.good h.refl
  · ut_find
  · rfl
  exact .pure (by ut_checks)

theorem emplace_good (h : Stage E S c eq) : Good E [] S (test_emplace E eq c al n) := by
  unfold test_emplace
  refine .local h.good h.null (.list al [n 0, n 1, n 2, n 4]) (by ut_none) ⟨by ut_room, h.null⟩ rfl ?_; rintro _ rfl
  apply Good.un (o := c 1) h.good (.insertRv 3 (n 3))
  · ut_find
  · ut_pre
  · ut_mem
  · simp
  · exact rfl
  rintro _ _ - ⟨-, rfl⟩
  refine .last ?_
  apply Good.contents h.good h.refl
  · ut_find
  · rfl
  exact .pure (by ut_checks)

theorem erase_good (h : Stage E S c eq) : Good E [] S (test_erase E eq c al n) := by
  unfold test_erase
  refine .local h.good h.null (.list al [n 0, n 1, n 2, n 3, n 4]) (by ut_none) ⟨by ut_room, h.null⟩ rfl ?_; rintro _ rfl
  apply Good.un (o := c 1) h.good (.erase 3)
  · ut_find
  · ut_pre
  · ut_mem
  · simp
  · exact rfl
  rintro _ _ - ⟨-, rfl⟩
  apply Good.contents h.good h.refl
  · ut_find
  · rfl
  apply Good.un (o := c 1) h.good (.erase 1)
  · ut_find
  · ut_pre
  · ut_mem
  · simp
  · exact rfl
  rintro _ _ - ⟨-, rfl⟩
  apply Good.contents h.good h.refl
  · ut_find
  · rfl
  apply Good.un (o := c 1) h.good (.erase 2)
  · ut_find
  · ut_pre
  · ut_mem
  · simp
  · exact rfl
  rintro _ _ - ⟨-, rfl⟩
  apply Good.contents h.good h.refl
  · ut_find
  · rfl
  apply Good.un (o := c 1) h.good (.erase 0)
  · ut_find
  · ut_pre
  · ut_mem
  · simp
  · exact rfl
  rintro _ _ - ⟨-, rfl⟩
  apply Good.contents h.good h.refl
  · ut_find
  · rfl
  apply Good.un (o := c 1) h.good (.erase 0)
  · ut_find
  · ut_pre
  · ut_mem
  · simp
  · exact rfl
  rintro _ _ - ⟨-, rfl⟩
  apply Good.none h.good
  · ut_find
  · rfl
  exact .pure (by ut_checks)

theorem erase_range_good (h : Stage E S c eq) : Good E [] S (test_erase_range E eq c al n) := by
  unfold test_erase_range
  refine .local h.good h.null (.list al [n 0, n 1, n 2, n 3, n 4]) (by ut_none) ⟨by ut_room, h.null⟩ rfl ?_; rintro _ rfl
  apply Good.un (o := c 1) h.good (.eraseRange 1 4)
  · ut_find
  · ut_pre
  · ut_mem
  · simp
  · exact rfl
  rintro _ _ - ⟨-, rfl⟩
  refine .last ?_
  apply Good.contents h.good h.refl
  · ut_find
  · rfl
  exact .pure (by ut_checks)

theorem push_back_lvalue_good (h : Stage E S c eq) : Good E [] S (test_push_back_lvalue E eq c al n) := by
  unfold test_push_back_lvalue
  refine .local h.good h.null (.empty al) (by ut_none) trivial rfl ?_; rintro _ rfl
  apply Good.un (o := c 1) h.good (.pushBack (n 0))
  · ut_find
  · ut_pre
  · ut_mem
  · simp
  · exact rfl
  rintro _ _ - ⟨-, rfl⟩
  apply Good.un (o := c 1) h.good (.pushBack (n 1))
  · ut_find
  · ut_pre
  · ut_mem
  · simp
  · exact rfl
  rintro _ _ - ⟨-, rfl⟩
  refine .last ?_
  apply Good.contents h.good h.refl
  · ut_find
  · rfl
  exact .pure (by ut_checks)

theorem push_back_rvalue_good (h : Stage E S c eq) : Good E [] S (test_push_back_rvalue E eq c al n) := by
  unfold test_push_back_rvalue
  refine .local h.good h.null (.empty al) (by ut_none) trivial rfl ?_; rintro _ rfl
  apply Good.un (o := c 1) h.good (.pushBackRv (n 0))
  · ut_find
  · ut_pre
  · ut_mem
  · simp
  · exact rfl
  rintro _ _ - ⟨-, rfl⟩
  apply Good.un (o := c 1) h.good (.pushBackRv (n 1))
  · ut_find
  · ut_pre
  · ut_mem
  · simp
  · exact rfl
  rintro _ _ - ⟨-, rfl⟩
  refine .last ?_
  apply Good.contents h.good h.refl
  · ut_find
  · rfl
  exact .pure (by ut_checks)

theorem emplace_back_good (h : Stage E S c eq) : Good E [] S (test_emplace_back E eq c al n) := by
  unfold test_emplace_back
  refine .local h.good h.null (.empty al) (by ut_none) trivial rfl ?_; rintro _ rfl
  apply Good.un (o := c 1) h.good (.pushBackRv (n 0))
  · ut_find
  · ut_pre
  · ut_mem
  · simp
  · exact rfl
  rintro _ _ - ⟨-, rfl⟩
  apply Good.un (o := c 1) h.good (.pushBackRv (n 1))
  · ut_find
  · ut_pre
  · ut_mem
  · simp
  · exact rfl
  rintro _ _ - ⟨-, rfl⟩
  refine .last ?_
  apply Good.contents h.good h.refl
  · ut_find
  · rfl
  exact .pure (by ut_checks)

theorem pop_back_good (h : Stage E S c eq) : Good E [] S (test_pop_back E eq c al n) := by
  unfold test_pop_back
  refine .local h.good h.null (.list al [n 0, n 1, n 2, n 3, n 4]) (by ut_none) ⟨by ut_room, h.null⟩ rfl ?_; rintro _ rfl
  apply Good.un (o := c 1) h.good (.popBack)
  · ut_find
  · ut_pre
  · ut_mem
  · simp
  · exact rfl
  rintro _ _ - ⟨-, rfl⟩
  apply Good.un (o := c 1) h.good (.popBack)
  · ut_find
  · ut_pre
  · ut_mem
  · simp
  · exact rfl
  rintro _ _ - ⟨-, rfl⟩
  refine .last ?_
  apply Good.contents h.good h.refl
  · ut_find
  · rfl
  exact .pure (by ut_checks)

theorem push_front_lvalue_good (h : Stage E S c eq) : Good E [] S (test_push_front_lvalue E eq c al n) := by
  unfold test_push_front_lvalue
  refine .local h.good h.null (.empty al) (by ut_none) trivial rfl ?_; rintro _ rfl
  apply Good.un (o := c 1) h.good (.pushFront (n 1))
  · ut_find
  · ut_pre
  · ut_mem
  · simp
  · exact rfl
  rintro _ _ - ⟨-, rfl⟩
  apply Good.un (o := c 1) h.good (.pushFront (n 0))
  · ut_find
  · ut_pre
  · ut_mem
  · simp
  · exact rfl
  rintro _ _ - ⟨-, rfl⟩
  refine .last ?_
  apply Good.contents h.good h.refl
  · ut_find
  · rfl
  exact .pure (by ut_checks)

theorem push_front_rvalue_good (h : Stage E S c eq) : Good E [] S (test_push_front_rvalue E eq c al n) := by
  unfold test_push_front_rvalue
  refine .local h.good h.null (.empty al) (by ut_none) trivial rfl ?_; rintro _ rfl
  apply Good.un (o := c 1) h.good (.pushFrontRv (n 1))
  · ut_find
  · ut_pre
  · ut_mem
  · simp
  · exact rfl
  rintro _ _ - ⟨-, rfl⟩
  apply Good.un (o := c 1) h.good (.pushFrontRv (n 0))
  · ut_find
  · ut_pre
  · ut_mem
  · simp
  · exact rfl
  rintro _ _ - ⟨-, rfl⟩
  refine .last ?_
  apply Good.contents h.good h.refl
  · ut_find
  · rfl
  exact .pure (by ut_checks)

theorem emplace_front_good (h : Stage E S c eq) : Good E [] S (test_emplace_front E eq c al n) := by
  unfold test_emplace_front
  refine .local h.good h.null (.empty al) (by ut_none) trivial rfl ?_; rintro _ rfl
  apply Good.un (o := c 1) h.good (.pushFrontRv (n 1))
  · ut_find
  · ut_pre
  · ut_mem
  · simp
  · exact rfl
  rintro _ _ - ⟨-, rfl⟩
  apply Good.un (o := c 1) h.good (.pushFrontRv (n 0))
  · ut_find
  · ut_pre
  · ut_mem
  · simp
  · exact rfl
  rintro _ _ - ⟨-, rfl⟩
  refine .last ?_
  apply Good.contents h.good h.refl
  · ut_find
  · rfl
  exact .pure (by ut_checks)

theorem pop_front_good (h : Stage E S c eq) : Good E [] S (test_pop_front E eq c al n) := by
  unfold test_pop_front
  refine .local h.good h.null (.list al [n 0, n 1, n 2, n 3, n 4]) (by ut_none) ⟨by ut_room, h.null⟩ rfl ?_; rintro _ rfl
  apply Good.un (o := c 1) h.good (.popFront)
  · ut_find
  · ut_pre
  · ut_mem
  · simp
  · exact rfl
  rintro _ _ - ⟨-, rfl⟩
  apply Good.un (o := c 1) h.good (.popFront)
  · ut_find
  · ut_pre
  · ut_mem
  · simp
  · exact rfl
  rintro _ _ - ⟨-, rfl⟩
  refine .last ?_
  apply Good.contents h.good h.refl
  · ut_find
  · rfl
  exact .pure (by ut_checks)

theorem resize_default_good (h : Stage E S c eq) : Good E [] S (test_resize_default E eq c al n) := by
  unfold test_resize_default
  refine .local h.good h.null (.list al [n 0, n 1, n 2, n 3, n 4]) (by ut_none) ⟨by ut_room, h.null⟩ rfl ?_; rintro _ rfl
  apply Good.un (o := c 1) h.good (.resize 10 (n 0))
  · ut_find
  · ut_pre
  · ut_mem
  · simp
  · exact rfl
  rintro _ _ - ⟨-, rfl⟩
  apply Good.contents h.good h.refl
  · ut_find
  · rfl
  apply Good.un (o := c 1) h.good (.resize 5 (n 0))
  · ut_find
  · ut_pre
  · ut_mem
  · simp
  · exact rfl
  rintro _ _ - ⟨-, rfl⟩
  apply Good.contents h.good h.refl
  · ut_find
  · rfl
  exact .pure (by ut_checks)

theorem resize_value_good (h : Stage E S c eq) : Good E [] S (test_resize_value E eq c al n) := by
  unfold test_resize_value
  refine .local h.good h.null (.list al [n 0, n 1, n 2, n 3, n 4]) (by ut_none) ⟨by ut_room, h.null⟩ rfl ?_; rintro _ rfl
  apply Good.un (o := c 1) h.good (.resize 10 (n 1))
  · ut_find
  · ut_pre
  · ut_mem
  · simp
  · exact rfl
  rintro _ _ - ⟨-, rfl⟩
  apply Good.contents h.good h.refl
  · ut_find
  · rfl
  apply Good.un (o := c 1) h.good (.resize 5 (n 1))
  · ut_find
  · ut_pre
  · ut_mem
  · simp
  · exact rfl
  rintro _ _ - ⟨-, rfl⟩
  apply Good.contents h.good h.refl
  · ut_find
  · rfl
  exact .pure (by ut_checks)

theorem swap_member_good (h : Stage E S c eq) : Good E [] S (test_swap_member E eq c al n) := by
  unfold test_swap_member
  refine .local h.good h.null (.list al [n 0, n 1, n 2, n 3, n 4]) (by ut_none) ⟨by ut_room, h.null⟩ rfl ?_; rintro _ rfl
  refine .local h.good h.null (.list al [n 4, n 3, n 2, n 1, n 0]) (by ut_none) ⟨by ut_room, h.null⟩ rfl ?_; rintro _ rfl
  apply Good.bin (o := c 1) (p := c 2) h.good (.swap)
  · ut_find
  · ut_find
  · ut_ne
  · ut_pre
  · ut_mem
  · ut_mem
  · exact rfl
  rintro _ _ _ - ⟨-, rfl, rfl⟩
  apply Good.contents h.good h.refl
  · ut_find
  · rfl
  apply Good.contents h.good h.refl
  · ut_find
  · rfl
  exact .pure (by ut_checks)

theorem swap_free_good (h : Stage E S c eq) : Good E [] S (test_swap_free E eq c al n) := by
  unfold test_swap_free
  refine .local h.good h.null (.list al [n 0, n 1, n 2, n 3, n 4]) (by ut_none) ⟨by ut_room, h.null⟩ rfl ?_; rintro _ rfl
  refine .local h.good h.null (.list al [n 4, n 3, n 2, n 1, n 0]) (by ut_none) ⟨by ut_room, h.null⟩ rfl ?_; rintro _ rfl
  apply Good.bin (o := c 1) (p := c 2) h.good (.swap)
  · ut_find
  · ut_find
  · ut_ne
  · ut_pre
  · ut_mem
  · ut_mem
  · exact rfl
  rintro _ _ _ - ⟨-, rfl, rfl⟩
  apply Good.contents h.good h.refl
  · ut_find
  · rfl
  apply Good.contents h.good h.refl
  · ut_find
  · rfl
  exact .pure (by ut_checks)

theorem splice_lvalue_good (h : Stage E S c eq) : Good E [] S (test_splice_lvalue E eq c al n) := by
  unfold test_splice_lvalue
  refine .local h.good h.null (.list al [n 0, n 1, n 2, n 3, n 4]) (by ut_none) ⟨by ut_room, h.null⟩ rfl ?_; rintro _ rfl
  refine .local h.good h.null (.list al [n 5, n 6, n 7, n 8, n 9]) (by ut_none) ⟨by ut_room, h.null⟩ rfl ?_; rintro _ rfl
  apply Good.bin (o := c 1) (p := c 2) h.good (.splice 3)
  · ut_find
  · ut_find
  · ut_ne
  · ut_pre
  · ut_mem
  · ut_mem
  · exact rfl
  rintro _ _ _ - ⟨-, rfl, rfl⟩
  apply Good.contents h.good h.refl
  · ut_find
  · rfl
  apply Good.none h.good
  · ut_find
  · rfl
  exact .pure (by ut_checks)

theorem splice_rvalue_good (h : Stage E S c eq) : Good E [] S (test_splice_rvalue E eq c al n) := by
  unfold test_splice_rvalue
  refine .local h.good h.null (.list al [n 0, n 1, n 2, n 3, n 4]) (by ut_none) ⟨by ut_room, h.null⟩ rfl ?_; rintro _ rfl
  refine .local h.good h.null (.list al [n 5, n 6, n 7, n 8, n 9]) (by ut_none) ⟨by ut_room, h.null⟩ rfl ?_; rintro _ rfl
  apply Good.bin (o := c 1) (p := c 2) h.good (.splice 3)
  · ut_find
  · ut_find
  · ut_ne
  · ut_pre
  · ut_mem
  · ut_mem
  · exact rfl
  rintro _ _ _ - ⟨-, rfl, rfl⟩
  apply Good.contents h.good h.refl
  · ut_find
  · rfl
  apply Good.none h.good
  · ut_find
  · rfl
  exact .pure (by ut_checks)

theorem splice_single_lvalue_good (h : Stage E S c eq) : Good E [] S (test_splice_single_lvalue E eq c al n) := by
  unfold test_splice_single_lvalue
  refine .local h.good h.null (.list al [n 0, n 1, n 2, n 3, n 4]) (by ut_none) ⟨by ut_room, h.null⟩ rfl ?_; rintro _ rfl
  refine .local h.good h.null (.list al [n 5, n 6, n 7, n 8, n 9]) (by ut_none) ⟨by ut_room, h.null⟩ rfl ?_; rintro _ rfl
  apply Good.bin (o := c 1) (p := c 2) h.good (.spliceOne 3 3)
  · ut_find
  · ut_find
  · ut_ne
  · ut_pre
  · ut_mem
  · ut_mem
  · exact rfl
  rintro _ _ _ - ⟨-, ⟨_, rfl⟩, rfl⟩
  apply Good.contents h.good h.refl
  · ut_find
  · rfl
  apply Good.contents h.good h.refl
  · ut_find
  · rfl
  exact .pure (by ut_checks)

theorem splice_single_rvalue_good (h : Stage E S c eq) : Good E [] S (test_splice_single_rvalue E eq c al n) := by
  unfold test_splice_single_rvalue
  refine .local h.good h.null (.list al [n 0, n 1, n 2, n 3, n 4]) (by ut_none) ⟨by ut_room, h.null⟩ rfl ?_; rintro _ rfl
  refine .local h.good h.null (.list al [n 5, n 6, n 7, n 8, n 9]) (by ut_none) ⟨by ut_room, h.null⟩ rfl ?_; rintro _ rfl
  apply Good.bin (o := c 1) (p := c 2) h.good (.spliceOne 3 3)
  · ut_find
  · ut_find
  · ut_ne
  · ut_pre
  · ut_mem
  · ut_mem
  · exact rfl
  rintro _ _ _ - ⟨-, ⟨_, rfl⟩, rfl⟩
  apply Good.contents h.good h.refl
  · ut_find
  · rfl
  apply Good.contents h.good h.refl
  · ut_find
  · rfl
  exact .pure (by ut_checks)

theorem splice_range_lvalue_good (h : Stage E S c eq) : Good E [] S (test_splice_range_lvalue E eq c al n) := by
  unfold test_splice_range_lvalue
  refine .local h.good h.null (.list al [n 0, n 1, n 2, n 3, n 4]) (by ut_none) ⟨by ut_room, h.null⟩ rfl ?_; rintro _ rfl
  refine .local h.good h.null (.list al [n 5, n 6, n 7, n 8, n 9]) (by ut_none) ⟨by ut_room, h.null⟩ rfl ?_; rintro _ rfl
  apply Good.bin (o := c 1) (p := c 2) h.good (.spliceRange 3 1 4)
  · ut_find
  · ut_find
  · ut_ne
  · ut_pre
  · ut_mem
  · ut_mem
  · exact rfl
  rintro _ _ _ - ⟨-, rfl, rfl⟩
  apply Good.contents h.good h.refl
  · ut_find
  · rfl
  apply Good.contents h.good h.refl
  · ut_find
  · rfl
  exact .pure (by ut_checks)

theorem splice_range_rvalue_good (h : Stage E S c eq) : Good E [] S (test_splice_range_rvalue E eq c al n) := by
  unfold test_splice_range_rvalue
  refine .local h.good h.null (.list al [n 0, n 1, n 2, n 3, n 4]) (by ut_none) ⟨by ut_room, h.null⟩ rfl ?_; rintro _ rfl
  refine .local h.good h.null (.list al [n 5, n 6, n 7, n 8, n 9]) (by ut_none) ⟨by ut_room, h.null⟩ rfl ?_; rintro _ rfl
  apply Good.bin (o := c 1) (p := c 2) h.good (.spliceRange 3 1 4)
  · ut_find
  · ut_find
  · ut_ne
  · ut_pre
  · ut_mem
  · ut_mem
  · exact rfl
  rintro _ _ _ - ⟨-, rfl, rfl⟩
  apply Good.contents h.good h.refl
  · ut_find
  · rfl
  apply Good.contents h.good h.refl
  · ut_find
  · rfl
  exact .pure (by ut_checks)

theorem splice_merge_lvalue_good (h : Stage E S c eq) (hlt : ∀ i j, lt (n i) (n j) = decide (i < j)) : Good E [] S (test_splice_merge_lvalue E eq c al n lt) := by
  unfold test_splice_merge_lvalue
  refine .local h.good h.null (.list al [n 0, n 1, n 2, n 10, n 20, n 21, n 30]) (by ut_none) ⟨by ut_room, h.null⟩ rfl ?_; rintro _ rfl
  refine .local h.good h.null (.list al [n 1, n 3, n 4, n 5, n 22, n 29, n 31]) (by ut_none) ⟨by ut_room, h.null⟩ rfl ?_; rintro _ rfl
  apply Good.bin (o := c 1) (p := c 2) h.good (.merge lt)
  · ut_find
  · ut_find
  · ut_ne
  · ut_pre
  · ut_mem
  · ut_mem
  · exact rfl
  rintro _ _ _ - ⟨-, rfl, rfl⟩
  apply Good.contents h.good h.refl
  · ut_find
  · simp [hlt]
  apply Good.none h.good
  · ut_find
  · rfl
  exact .pure (by ut_checks)

theorem splice_merge_rvalue_good (h : Stage E S c eq) (hlt : ∀ i j, lt (n i) (n j) = decide (i < j)) : Good E [] S (test_splice_merge_rvalue E eq c al n lt) := by
  unfold test_splice_merge_rvalue
  refine .local h.good h.null (.list al [n 0, n 1, n 2, n 10, n 20, n 21, n 30]) (by ut_none) ⟨by ut_room, h.null⟩ rfl ?_; rintro _ rfl
  refine .local h.good h.null (.list al [n 1, n 3, n 4, n 5, n 22, n 29, n 31]) (by ut_none) ⟨by ut_room, h.null⟩ rfl ?_; rintro _ rfl
  apply Good.bin (o := c 1) (p := c 2) h.good (.merge lt)
  · ut_find
  · ut_find
  · ut_ne
  · ut_pre
  · ut_mem
  · ut_mem
  · exact rfl
  rintro _ _ _ - ⟨-, rfl, rfl⟩
  apply Good.contents h.good h.refl
  · ut_find
  · simp [hlt]
  apply Good.none h.good
  · ut_find
  · rfl
  exact .pure (by ut_checks)

theorem remove_good (h : Stage E S c eq) (hn : ∀ i j, eq (n i) (n j) = decide (i = j)) : Good E [] S (test_remove E eq c al n) := by
  unfold test_remove
  refine .local h.good h.null (.list al [n 0, n 1, n 2, n 3, n 4, n 4, n 3, n 2, n 1, n 0]) (by ut_none) ⟨by ut_room, h.null⟩ rfl ?_; rintro _ rfl
  apply Good.un (o := c 1) h.good (.remove eq (n 2))
  · ut_find
  · ut_pre
  · ut_mem
  · simp
  · exact rfl
  rintro _ _ - ⟨-, rfl⟩
  refine .last ?_
  apply Good.contents h.good h.refl
  · ut_find
  · simp [hn]
  exact .pure (by ut_checks)

theorem remove_if_good (h : Stage E S c eq) (hbig : ∀ i, big (n i) = decide (2 ≤ i)) : Good E [] S (test_remove_if E eq c al n big) := by
  unfold test_remove_if
  refine .local h.good h.null (.list al [n 0, n 1, n 2, n 3, n 4, n 4, n 3, n 2, n 1, n 0]) (by ut_none) ⟨by ut_room, h.null⟩ rfl ?_; rintro _ rfl
  apply Good.un (o := c 1) h.good (.removeIf big)
  · ut_find
  · ut_pre
  · ut_mem
  · simp
  · exact rfl
  rintro _ _ - ⟨-, rfl⟩
  refine .last ?_
  apply Good.contents h.good h.refl
  · ut_find
  · simp [hbig]
  exact .pure (by ut_checks)

theorem reverse_good (h : Stage E S c eq) : Good E [] S (test_reverse E eq c al n) := by
  unfold test_reverse
  refine .local h.good h.null (.list al [n 0, n 1, n 2, n 3, n 4]) (by ut_none) ⟨by ut_room, h.null⟩ rfl ?_; rintro _ rfl
  apply Good.un (o := c 1) h.good (.reverse)
  · ut_find
  · ut_pre
  · ut_mem
  · simp
  · exact rfl
  rintro _ _ - ⟨-, rfl⟩
  refine .last ?_
  apply Good.contents h.good h.refl
  · ut_find
  · rfl
  exact .pure (by ut_checks)

theorem unique_good (h : Stage E S c eq) (hn : ∀ i j, eq (n i) (n j) = decide (i = j)) : Good E [] S (test_unique E eq c al n) := by
  unfold test_unique
  refine .local h.good h.null (.list al [n 0, n 1, n 1, n 2, n 2, n 2, n 3, n 4]) (by ut_none) ⟨by ut_room, h.null⟩ rfl ?_; rintro _ rfl
  apply Good.un (o := c 1) h.good (.unique eq)
  · ut_find
  · ut_pre
  · ut_mem
  · simp
  · exact rfl
  rintro _ _ - ⟨-, rfl⟩
  refine .last ?_
  apply Good.contents h.good h.refl
  · ut_find
  · simp [dropDups, dropDups.go, hn]
  exact .pure (by ut_checks)

theorem sort_good (h : Stage E S c eq) (hlt : ∀ i j, lt (n i) (n j) = decide (i < j)) : Good E [] S (test_sort E eq c al n lt) := by
  unfold test_sort
  refine .local h.good h.null (.list al [n 3, n 0, n 4, n 1, n 2]) (by ut_none) ⟨by ut_room, h.null⟩ rfl ?_; rintro _ rfl
  apply Good.un (o := c 1) h.good (.sort lt)
  · ut_find
  · ut_pre
  · ut_mem
  · simp
  · exact rfl
  rintro _ _ - ⟨-, rfl⟩
  refine .last ?_
  apply Good.contents h.good h.refl
  · ut_find
  · simp [List.mergeSort, List.MergeSort.Internal.splitInTwo, hlt]
  exact .pure (by ut_checks)

theorem sort_predicate_good (h : Stage E S c eq) (hlt : ∀ i j, lt (n i) (n j) = decide (i < j)) : Good E [] S (test_sort_predicate E eq c al n lt) := by
  unfold test_sort_predicate
  refine .local h.good h.null (.list al [n 3, n 0, n 4, n 1, n 2]) (by ut_none) ⟨by ut_room, h.null⟩ rfl ?_; rintro _ rfl
  apply Good.un (o := c 1) h.good (.sort (fun a b => lt b a))
  · ut_find
  · ut_pre
  · ut_mem
  · simp
  · exact rfl
  rintro _ _ - ⟨-, rfl⟩
  refine .last ?_
  apply Good.contents h.good h.refl
  · ut_find
  · simp [List.mergeSort, List.MergeSort.Internal.splitInTwo, hlt]
  exact .pure (by ut_checks)

/-! ### The theorems -/

/-- `n 0, n 1, n 2, ...` are ordered by `lt` and told apart by `eq` as the numbers 0, 1, 2, ...
are, `big` is the condition of `test_remove_if`, and the allocator passed to
`test_construct_move_alloc` can free what the default allocator has allocated -/
structure Numbers (E : Env α) (al tag : Nat) (n : Nat → α) (eq lt : α → α → Bool) (big : α → Bool) : Prop where
  eq : ∀ i j, eq (n i) (n j) = decide (i = j)
  lt : ∀ i j, lt (n i) (n j) = decide (i < j)
  big : ∀ i, big (n i) = decide (2 ≤ i)
  tag : SameAlloc E tag al

theorem suite_good (h : Stage E S c eq) (hn : Numbers E al tag n eq lt big) :
    ∀ t ∈ suite E eq c al n tag lt big, Good E [] S t := by
  obtain ⟨hn, hlt, hbig, htag⟩ := hn
  have key : ∀ ts : List (M α Bool), (∀ t ∈ ts, Good E [] S t) ↔ List.Forall (Good E [] S) ts := fun ts => List.forall_iff_forall_mem.symm
  rw [key]
  exact ⟨construct_alloc_good h,
    construct_default_good h,
    construct_count_good h,
    construct_range_good h,
    construct_copy_good h,
    construct_copy_alloc_good h,
    construct_move_good h,
    construct_move_alloc_good h htag,
    construct_ilist_good h,
    operator_assign_good h,
    operator_move_assign_good h,
    operator_assign_ilist_good h,
    assign_count_good h,
    assign_range_good h,
    assign_ilist_good h,
    get_allocator_good h,
    at_good h,
    operator_index_good h,
    front_good h,
    back_good h,
    begin_good h,
    end_good h,
    rbegin_good h,
    rend_good h,
    penultimate_good h,
    nth_good h,
    index_of_good h,
    empty_good h,
    size_good h,
    height_good h,
    max_size_good h,
    clear_good h,
    insert_lvalue_good h,
    insert_rvalue_good h,
    insert_lvalue_count_good h,
    insert_range_good h,
    insert_ilist_good h,
    emplace_default_good h,
    emplace_good h,
    erase_good h,
    erase_range_good h,
    push_back_lvalue_good h,
    push_back_rvalue_good h,
    emplace_back_good h,
    pop_back_good h,
    push_front_lvalue_good h,
    push_front_rvalue_good h,
    emplace_front_good h,
    pop_front_good h,
    resize_default_good h,
    resize_value_good h,
    swap_member_good h,
    swap_free_good h,
    splice_lvalue_good h,
    splice_rvalue_good h,
    splice_single_lvalue_good h,
    splice_single_rvalue_good h,
    splice_range_lvalue_good h,
    splice_range_rvalue_good h,
    splice_merge_lvalue_good h hlt,
    splice_merge_rvalue_good h hlt,
    remove_good h hn,
    remove_if_good h hbig,
    reverse_good h,
    unique_good h hn,
    sort_good h hlt,
    sort_predicate_good h hlt⟩

/-- **C91** Every deterministic test of the repository passes, in every configuration, with
every allocator, whatever values stand for its numbers, and whatever containers there are
already. -/
theorem C91_suite (h : Stage E S c eq) (hn : Numbers E al tag n eq lt big) (hr : Reach E m) (hv : View E m S)
    {t : M α Bool} (ht : t ∈ suite E eq c al n tag lt big) : Passes E S t m :=
  (suite_good h hn t ht).passes hr hv

/-- **C91** If no allocation fails and no copy throws, all its checks hold, and it leaves no
container behind. -/
theorem C91_reliable (h : Stage E S c eq) (hn : Numbers E al tag n eq lt big) (hM : Endless E) (hx : ∀ v, ¬ CopyThrows E v)
    (hr : Reach E m) (hv : View E m S) {t : M α Bool} (ht : t ∈ suite E eq c al n tag lt big) :
    ∃ m', t m = .ok true m' ∧ View E m' S ∧ Reach E m' := by
  rcases C91_suite h hn hr hv ht with h1 | ⟨e, m', -, h1, -⟩
  · exact h1
  · rcases h1 with ⟨-, h1⟩ | ⟨-, v, h1⟩
    · exact absurd hM h1
    · exact absurd h1 (hx v)

/-- **C91** They can be run in any order and any number of times. -/
theorem C91_order (h : Stage E S c eq) (hn : Numbers E al tag n eq lt big) {ts : List (M α Bool)}
    (hts : ∀ t ∈ ts, t ∈ suite E eq c al n tag lt big) (hr : Reach E m) (hv : View E m S) : Passes E S (run_tests ts) m := by
  induction ts generalizing m with
  | nil => exact .inl ⟨m, rfl, hv, hr⟩
  | cons t ts ih =>
    rcases C91_suite h hn hr hv (hts t (by simp)) with ⟨m1, h1, h2, h3⟩ | ⟨e, m1, h1, h2, h3⟩
    · have : run_tests (t :: ts) m = run_tests ts m1 := by rw [run_tests, bind_ok h1]; rfl
      unfold Passes
      rw [this]
      exact ih (fun t ht => hts t (by simp [ht])) h3 h2
    · exact .inr ⟨e, m1, bind_throw h1, h2, h3⟩

/-- the hypotheses are met: the tests with the numbers themselves, next to no other container -/
example : Stage demo (fun _ => none) (fun i => i) (fun a b : Nat => decide (a = b)) ∧
    Numbers demo 0 0 (fun i => i) (fun a b => decide (a = b)) (fun a b => decide (a < b)) (fun a => decide (2 ≤ a)) ∧
    Reach demo noMem ∧ View demo noMem (fun _ => none) ∧ (suite demo (fun a b => decide (a = b)) (fun i => i) 0 (fun i => i) 0
      (fun a b => decide (a < b)) (fun a => decide (2 ≤ a))).length = 67 := by
  refine ⟨⟨demo_good, fun _ _ => Iff.rfl, fun _ => rfl, rfl, by simp [max_size, demo], by simp⟩, ⟨fun _ _ => rfl, fun _ _ => rfl, fun _ => rfl, rfl⟩, .init, view_init, rfl⟩

end Tests
end SegTree
