/-
  Concrete environments and reachable memories, used to show that the
  hypotheses of the theorems are met by non-trivial cases.
-/
import Verif.Proof.Supply
set_option autoImplicit false

namespace SegTree

/-- A small configuration: 2 elements per segment, 3 children per node, a type
with non-trivial copies (copying the value 13 throws) and an endless allocator.
Allocators 0 and 1 compare equal, so do 2 and 3, and so on. -/
def demo : Env Nat where
  sizeofT := 4
  segTarget := 8
  baseTarget := 0
  sizeofNodeBase := 16
  sizeofNodeData := 16
  W := 2 ^ 64
  trivCopy := false
  trivDtor := false
  defConstruct := true
  nullFree := true
  pocca := false
  pocma := false
  pocs := false
  acls a := a / 2
  selectCopy a := a
  mv _ := 0
  mthrow _ := false
  cthrow _ v := decide (v = 13)
  oracle n := n + 1
  junk _ := ⟨0, 0, 0, fun _ => 0, fun _ => 0⟩

/-- The same with one element per segment and an allocator that has a single
block to give. -/
def tiny : Env Nat := { demo with segTarget := 4, oracle := fun n => if n = 0 then 1 else 0 }

theorem demo_good : demo.Good where
  triv := by decide
  nothrow _ := .inr rfl
  base := by decide
  wpos := by decide
theorem tiny_good : tiny.Good where
  triv := by decide
  nothrow _ := .inr rfl
  base := by decide
  wpos := by decide
theorem demo_endless : Endless demo := ⟨fun n => Nat.succ_ne_zero n, fun _ _ h => Nat.succ.inj h⟩

example : demo.segMax = 2 ∧ demo.segMin = 1 ∧ demo.baseMax = 3 ∧ demo.baseMin = 2 := by decide
example : tiny.segMax = 1 ∧ tiny.segMin = 1 ∧ tiny.baseMax = 3 ∧ tiny.baseMin = 2 := by decide

theorem view_init {α : Type} {E : Env α} : View E noMem (fun _ => none) := fun _ => rfl

/-- a call made in the endless environment returns unless it copies a 13 or is
an out-of-range `at` -/
theorem demo_op {m : Mem Nat} {S : Bank Nat} {op : Op Nat} (h : Reach demo m) (hv : View demo m S)
    (hp : op.Pre demo S) (hx : ∀ e S', op.Exc demo S e S' → e = .alloc) :
    ∃ r m' S', op.run demo m = .ok r m' ∧ op.Ok demo S r S' ∧ View demo m' S' ∧ Reach demo m' := by
  rcases h.op demo_good hv hp with ⟨r, m', S', h1, h2, h3, h4⟩ | ⟨e, m', S', h1, h2, h3, h4⟩
  · exact ⟨r, m', S', h1, h2, h3, h4⟩
  · cases hx e S' h2
    exact absurd h1 (h.no_alloc demo_endless op)

theorem demo_blame {vs : List Nat} {e : Exn} (h : 13 ∉ vs) (hb : Blame demo vs e) : e = .alloc := by
  rcases hb with hb | ⟨-, v, hv, -, hc⟩
  · exact hb
  · have : v = 13 := by simpa [demo] using hc
    subst this; exact absurd hv h

/-- any list without a 13 can be put in one more container -/
theorem demo_add {m : Mem Nat} {S : Bank Nat} (h : Reach demo m) (hv : View demo m S) (o al : Nat) (ho : S o = none)
    (vs : List Nat) (h13 : 13 ∉ vs) (hl : vs.length ≤ max_size demo) :
    ∃ m', Reach demo m' ∧ View demo m' (upd S o (some ⟨al, vs⟩)) := by
  obtain ⟨r, m', S', -, h2, h3, h4⟩ := demo_op (op := .new o (.list al vs)) h hv ⟨ho, hl, rfl⟩
    (fun e S' hx => demo_blame h13 hx.1)
  obtain ⟨-, x, hx, rfl⟩ := h2
  cases hx
  exact ⟨m', h4, h3⟩

/-- any list without a 13 is the contents of a container of a reachable memory -/
theorem demo_list (vs : List Nat) (h13 : 13 ∉ vs := by decide) (hl : vs.length ≤ max_size demo := by decide) :
    ∃ m, Reach demo m ∧ Contents demo 0 m vs := by
  obtain ⟨m, h1, h2⟩ := demo_add .init view_init 0 0 rfl vs h13 hl
  have := h2 0
  rw [upd_self] at this
  exact ⟨m, h1, this.2⟩

/-- any two lists without a 13 are the contents of two containers -/
theorem demo_lists (vs ws : List Nat) (a b : Nat) (h13 : 13 ∉ vs := by decide) (hl : vs.length ≤ max_size demo := by decide)
    (h13' : 13 ∉ ws := by decide) (hl' : ws.length ≤ max_size demo := by decide) :
    ∃ m, Reach demo m ∧ View demo m (upd (upd (fun _ => none) 0 (some ⟨a, vs⟩)) 1 (some ⟨b, ws⟩)) ∧
      Contents demo 0 m vs ∧ Contents demo 1 m ws ∧ get_allocator 0 m = .ok a m ∧ get_allocator 1 m = .ok b m := by
  obtain ⟨m, h1, h2⟩ := demo_add .init view_init 0 a rfl vs h13 hl
  obtain ⟨m, h1, h2⟩ := demo_add h1 h2 1 b (by simp [upd]) ws h13' hl'
  have h3 := h2 0
  have h4 := h2 1
  rw [upd_self] at h4
  rw [upd_ne (by decide), upd_self] at h3
  exact ⟨m, h1, h2, h3.2, h4.2, h3.1, h4.1⟩

/-- a longer list makes a higher tree -/
theorem demo_height {m : Mem Nat} (h : Reach demo m) {o n : Nat} {xs : List Nat} (hc : Contents demo o m xs)
    (hn : height o m = .ok n m) (h6 : 6 < xs.length) : 3 ≤ n := by
  obtain ⟨al, s, F, hs, rfl, H⟩ := h.cont demo_good hc
  have h1 : height o m = _ := getHeight_c H
  rw [h1] at hn; injection hn with hn; subst hn
  have h2 := hs.size_le
  by_contra hlt
  have : s.ht = 0 ∨ s.ht = 1 ∨ s.ht = 2 := by omega
  have e1 : demo.baseMax = 3 := by decide
  have e2 : demo.segMax = 2 := by decide
  rw [e1, e2] at h2
  rcases this with h | h | h <;> rw [h] at h2 <;> simp at h2 <;> omega

/-! ### A memory in which allocation fails -/

/-- with a single block there is never room for two different elements -/
theorem tiny_const {m : Mem Nat} (h : Reach tiny m) {o : Nat} {xs : List Nat} (hc : Contents tiny o m xs)
    {i j : Nat} (hi : i < xs.length) (hj : j < xs.length) : xs[i] = xs[j] := by
  obtain ⟨al, s, F, hs, rfl, H⟩ := h.cont tiny_good hc
  have key : ∀ k (hk : k < s.elems.length), rdElem tiny 1 0 m = .ok s.elems[k] m := by
    intro k hk
    obtain ⟨it, ha⟩ := St.At.exists hs (Nat.le_of_lt hk)
    have hr := rdElem_c hs ha hk H
    have hidx : it.entry.seg.idx = 0 := by
      have := hr
      unfold rdElem at this
      change M.bind _ _ _ = _ at this
      unfold M.bind at this
      by_contra hne
      have hn : ¬ it.entry.seg.idx < tiny.segMax := by
        have : tiny.segMax = 1 := by decide
        omega
      cases hsl : rdSlots (α := Nat) it.entry.seg.ptr m with
      | ok sl m1 => rw [hsl] at this; simp only [if_neg hn] at this; cases this
      | throw e m1 => rw [hsl] at this; cases this
      | ub k => rw [hsl] at this; cases this
      | div => rw [hsl] at this; cases this
    have hptr : it.entry.seg.ptr = 1 := by
      have hl : Live m it.entry.seg.ptr := by
        have := hr
        unfold rdElem at this
        change M.bind _ _ _ = _ at this
        unfold M.bind rdSlots at this
        unfold Live
        cases hcell : m.cell (.heap it.entry.seg.ptr) with
        | none => rw [hcell] at this; cases this
        | some c => rfl
      obtain ⟨k, -, hk⟩ := h.live hl
      simp only [tiny] at hk
      split at hk
      · exact hk.symm
      · rw [← hk] at hl
        unfold Live at hl
        rw [H.null] at hl; cases hl
    rw [hidx, hptr] at hr
    exact hr
  have h1 := key i hi
  rw [key j hj] at h1
  injection h1 with h1
  exact h1.symm

/-- a container that holds one element and cannot grow -/
theorem tiny_one (v : Nat) (hv : v ≠ 13) : ∃ m, Reach tiny m ∧ View tiny m (upd (fun _ => none) 0 (some ⟨0, [v]⟩)) := by
  rcases Reach.op (op := .new 0 (.empty 0)) tiny_good .init view_init ⟨rfl, trivial⟩ with
    ⟨r, m, S', h1, h2, h3, h4⟩ | ⟨e, m, S', h1, h2, h3, h4⟩
  · obtain ⟨-, x, hx, rfl⟩ := h2
    cases hx
    have hc : Contents tiny 0 m [] := by have := h3 0; rw [upd_self] at this; exact this.2
    have hlog : m.log = ⟨0, 0⟩ := by
      have : (Op.new 0 (New.empty 0)).run tiny noMem = .ok .unit ((noMem : Mem Nat).set (.obj 0) (.obj ⟨0, 0, 0, 0, 0⟩)) := rfl
      rw [this] at h1; injection h1 with _ h1; rw [← h1]; rfl
    have hp : (Op.un 0 (.pushBack v)).Pre tiny (upd (fun _ => none) 0 (some ⟨0, []⟩)) :=
      ⟨⟨0, []⟩, by simp, by show 1 ≤ max_size tiny; decide⟩
    rcases Reach.op tiny_good h4 h3 hp with ⟨r, m', S', g1, g2, g3, g4⟩ | ⟨e, m', S', g1, g2, g3, g4⟩
    · obtain ⟨x, x', hx, ⟨-, rfl⟩, rfl⟩ := g2
      rw [upd_self] at hx; cases hx
      rw [upd_twice] at g3
      exact ⟨m', g4, g3⟩
    · exfalso
      obtain ⟨x, x', hx, ⟨hb, -⟩, -⟩ := g2
      have he : e = .alloc := by
        rcases hb with hb | ⟨-, w, hw, -, hc⟩
        · exact hb
        · simp only [List.mem_singleton] at hw
          subst hw
          exact absurd (by simpa [tiny, demo] using hc) hv
      subst he
      have hpres := (presOp (E := tiny) (Op.un 0 (.pushBack v))).run m
      rw [g1] at hpres
      obtain ⟨n, -, hn, h5⟩ := hpres.2 rfl
      rw [hlog] at h5
      -- only one request is made
      have hreq : m'.log.reqs ≤ 1 := by
        obtain ⟨al, s, F, hs, he, H⟩ := h4.cont tiny_good hc
        obtain ⟨it, ha⟩ := St.At.exists hs (Nat.le_refl s.elems.length)
        have h0 : s.ht = 0 := hs.ht_zero.2 he
        have hsp := emplace_single_c (mk := copyVal tiny v) tiny_good (Mk.copy v) hs ha (by rw [he]; decide) H
        have hrun : emplace_single tiny 0 it (copyVal tiny v) m = .throw .alloc m' := by
          have g2 : (Op.un 0 (.pushBack v)).run tiny m =
              M.bind (M.bind (emplace_single tiny 0 it (copyVal tiny v)) (fun _ => pure ())) (fun _ => pure Ret.unit) m := by
            show M.bind (M.bind (find_end tiny 0) _) _ m = _
            unfold M.bind
            rw [find_end_c hs ha H]
            rfl
          rw [g2] at g1
          unfold M.bind at g1
          cases hem : emplace_single tiny 0 it (copyVal tiny v) m with
          | ok w m1 => rw [hem] at g1; cases g1
          | throw e m1 => rw [hem] at g1; cases g1; rfl
          | ub k => rw [hem] at g1; cases g1
          | div => rw [hem] at g1; cases g1
        unfold Spec at hsp
        rw [hrun] at hsp
        obtain ⟨-, g', -, hr, H'⟩ := hsp
        rw [H'.log]
        rw [hlog, h0] at hr
        exact hr
      have hn0 : n = 0 := by omega
      subst hn0
      rcases h5 with h5 | h5 | ⟨k, _, hk, _⟩
      · simp [tiny] at h5
      · obtain ⟨k, hk, _⟩ := h4.live h5
        rw [hlog] at hk
        exact absurd hk (Nat.not_lt_zero _)
      · exact absurd hk (Nat.not_lt_zero _)
  · exact absurd h2.1 id

end SegTree
