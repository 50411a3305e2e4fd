/-
  C23 (second half), C41 (negative part), C42 (fill), C43, C44, C45: documented
  or expected properties that the code does *not* have.  Each theorem either
  refutes the expectation in general or exhibits a reachable memory and a call
  made within its documented preconditions that goes wrong; the parts that do
  hold are stated next to them.
-/
import Verif.Props.Bulk
import Verif.Props.Iterators
import Verif.Proof.Wide
import Verif.Proof.Eval
set_option autoImplicit false

namespace SegTree
variable {α : Type} {E : Env α} {m m' : Mem α} {o i j n : Nat} {xs : List α} {v : α} {it jt kt : Iter} {e : Exn}

/-- the entry of an iterator determines its position -/
theorem entry_inj {s : St α} {al : Nat} {F : Asrt α} {g : Log} (hs : s.Ok E) (H : Holds g (cont E o al s + F) m) :
    ∀ {i j : Nat} {it jt : Iter}, s.At i it → s.At j jt → it.entry = jt.entry → i = j := by
  have key : ∀ (d : Nat) {i j : Nat} {it jt : Iter}, s.elems.length - j = d → s.At i it → s.At j jt →
      it.entry = jt.entry → ¬ i < j := by
    intro d
    induction d with
    | zero =>
      intro i j it jt hd h1 h2 he hij
      have hj : j = s.elems.length := by have := h2.le; omega
      subst hj
      have r1 := h1.seg_range
      have r2 := h2.seg_range
      have := r1.2.2.2 hij
      rw [he] at this
      omega
    | succ d ih =>
      intro i j it jt hd h1 h2 he hij
      obtain ⟨it', h3, h4⟩ := move_next_c hs h1 (by omega) H
      obtain ⟨jt', h5, h6⟩ := move_next_c hs h2 (by omega) H
      have he' : it'.entry = jt'.entry := by
        unfold move_next_iterator at h3 h5
        rw [he] at h3
        obtain ⟨e1, m1, q1, q2⟩ := bind_inv h3
        obtain ⟨e2, m2, q3, q4⟩ := bind_inv h5
        rw [q1] at q3; cases q3
        cases q2; cases q4
        rfl
      exact ih (by omega) h4 h6 he' (by omega)
  intro i j it jt h1 h2 he
  have a := key _ rfl h1 h2 he
  have b := key _ rfl h2 h1 he.symm
  omega

/-! ### C23: before_segment(count) -/

/-- C23: what `it.before_segment(c)` really gives for `c > 0`: the element is that
of `nth(first - c)` and the index is that of `first - 1 + c`, where `first` is the
index of the first element of the segment of `it`. -/
theorem C23_before_count (hE : E.Good) (hr : Reach E m) (hc : Contents E o m xs) (hi : i ≤ xs.length)
    (hn : nth E o i m = .ok it m) {c : Nat} (h0 : 0 < c) (hb : c ≤ i - it.entry.seg.idx) :
    ∃ kt jt, move_before_segment_count E it c m = .ok kt m ∧ nth E o (i - it.entry.seg.idx - c) m = .ok jt m ∧
      kt.entry = jt.entry ∧ index_of kt = (i - it.entry.seg.idx - 1 + c) % E.W := by
  obtain ⟨al, s, F, hs, rfl, H⟩ := hr.cont hE hc
  obtain ⟨kt, jt, h1, h2, h3, h4⟩ := before_segment_count_c hs (at_of_nth hs H hi hn) h0 hb H
  exact ⟨kt, jt, h1, nth_c hs h2 H, h3, h4⟩

/-- C23 is false of `before_segment(count)`: for every `c > 0` for which
`before_segment()` moved back by `c` exists (`dt`), `before_segment(c)` is another
iterator: it refers to another position, and it is not even a valid iterator of
the container. -/
theorem C23_before_count_wrong (hE : E.Good) (hW : 2 ∣ E.W) (hr : Reach E m) (hc : Contents E o m xs) (hi : i ≤ xs.length)
    (hn : nth E o i m = .ok it m) {c : Nat} (h0 : 0 < c) (hb : c + 1 ≤ i - it.entry.seg.idx) :
    ∃ bt dt kt, move_before_segment E it m = .ok bt m ∧ it_sub E bt c m = .ok dt m ∧
      move_before_segment_count E it c m = .ok kt m ∧ kt ≠ dt ∧ ∀ k, nth E o k m ≠ .ok kt m := by
  obtain ⟨al, s, F, hs, rfl, H⟩ := hr.cont hE hc
  have ha := at_of_nth hs H hi hn
  obtain ⟨bt, h1, h2⟩ := before_segment_c hs ha (by omega) H
  obtain ⟨dt, h3, h4⟩ := it_sub_c (d := (c : Int)) hs h2 (by omega) (by omega) H
  obtain ⟨kt, jt, h5, h6, h7, h8⟩ := before_segment_count_c hs ha h0 (by omega) H
  have hlt := hs.1
  have hinv : ∀ k, nth E o k m ≠ .ok kt m := by
    intro k hk
    obtain ⟨lt, h9, h10⟩ : ∃ k', k' ≤ s.elems.length ∧ s.At k' kt := by
      by_cases hk' : k ≤ s.elems.length
      · exact ⟨k, hk', at_of_nth hs H hk' hk⟩
      · refine ⟨s.elems.length, Nat.le_refl _, ?_⟩
        obtain ⟨et, het⟩ := St.At.exists hs (Nat.le_refl s.elems.length)
        rw [nth_ge_c hs het (by omega) H] at hk
        injection hk with hk
        rw [← hk]; exact het
    have hpos := h10.pos
    have hjpos := h6.pos
    -- same entry, so same position
    have : lt = i - it.entry.seg.idx - c := entry_inj hs H h10 h6 h7
    rw [hpos, this] at h8
    obtain ⟨w, hw⟩ := hW
    by_cases hge : i - it.entry.seg.idx - 1 + c < E.W
    · rw [Nat.mod_eq_of_lt hge] at h8; omega
    · rw [Nat.mod_eq_sub_mod (by omega), Nat.mod_eq_of_lt (by omega)] at h8; omega
  refine ⟨bt, dt, kt, h1, h3, h5, ?_, hinv⟩
  rintro rfl
  exact hinv _ (nth_c hs h4 H)

example : ∃ m it, Reach demo m ∧ Contents demo 0 m eight ∧ nth demo 0 8 m = .ok it m ∧
    1 + 1 ≤ 8 - it.entry.seg.idx := by
  obtain ⟨m, hr, hc, -⟩ := demo_eight
  obtain ⟨it, hn⟩ := hr.nth demo_good hc 8
  refine ⟨m, it, hr, hc, hn, ?_⟩
  obtain ⟨al, s, F, hs, he, H⟩ := hr.cont demo_good hc
  have ha := at_of_nth hs H (by rw [he]; decide) hn
  have h1 := ha.seg_range
  have h2 := St.At.seg_len_le ha hs
  have : demo.segMax = 2 := by decide
  omega

/-! ### C41: nodes with more than 65535 children -/

/-- C41 (negative): in every configuration with `base_max >= 65536` (and one
element per segment, an allocator that never fails, no throwing element), 65536
calls of `push_back` lead to a container whose elements can all still be read by
index but on which `end()`, `back()` and one more `push_back` are undefined. -/
theorem C41_overflow (hE : E.Wide v) : ∃ m, Reach E m ∧ Contents E 0 m (List.replicate 65536 v) ∧
    end_ E 0 m = .ub .wrap ∧ push_back E 0 v m = .ub .wrap := by
  obtain ⟨m, hr, h⟩ := wide_reach hE 65536 (by omega) (Nat.le_refl _)
  exact ⟨m, hr, h.contents hE (Nat.le_refl _), h.end_ub, run_ub h.end_ub⟩

/-- a configuration with one 4-byte element per segment and nodes of 1 MiB -/
def wide : Env Nat := { demo with segTarget := 4, baseTarget := 2 ^ 20 + 16 }

theorem wide_wide : wide.Wide 7 where
  seg := by decide
  base := by decide
  size := by decide
  oracle _ := rfl
  copy _ := rfl
  move _ := rfl

example : ∃ m, Reach wide m ∧ Contents wide 0 m (List.replicate 65536 7) ∧ end_ wide 0 m = .ub .wrap := by
  obtain ⟨m, h1, h2, h3, -⟩ := C41_overflow wide_wide
  exact ⟨m, h1, h2, h3⟩

/-! ### C45: deallocation of null -/

/-- a program with one empty container -/
def empty0 : Mem α := noMem.set (.obj 0) (.obj ⟨0, 0, 0, 0, 0⟩)
theorem empty0_wide : Wide0 (empty0 : Mem α) :=
  ⟨rfl, fun o ho => by simp [empty0, noMem, Mem.set, upd, ho], fun _ => rfl, rfl⟩
theorem empty0_reach : Reach E (empty0 : Mem α) :=
  .ret (op := .new 0 (.empty 0)) (r := .unit) .init view_init ⟨rfl, trivial⟩ rfl

theorem purge_null (hE : E.Good) (hN : E.nullFree = false) (hr : Reach E m) (hc : Contents E o m []) :
    purge E o m = .ub .badFree := by
  obtain ⟨al, s, F, hs, he, H⟩ := hr.cont hE hc
  cases s with
  | tree t => exact absurd he (by have := Tree.Root.size_pos hs.2; intro h; rw [St.elems_tree] at h; rw [h] at this; simp at this)
  | nil =>
    refine run_step (rdObj_c H) ?_
    show purge_root E o 0 0 0 m = _
    refine run_pos (by omega) ?_
    have hd : deallocate_segment E o 0 m = .ub .badFree :=
      run_step (rdObj_c H) (run_pos rfl (run_neg (by rw [hN]; simp) rfl))
    unfold purge_segment
    by_cases h : E.trivDtor = true
    · exact run_pos h hd
    · exact run_neg h (run_step (v := ()) (m' := m) rfl hd)

/-- C45 is false: clearing an empty container passes a null pointer to
`deallocate` (undefined for allocators that do not tolerate it) -/
theorem C45_clear_null (hE : E.Good) (hN : E.nullFree = false) (hr : Reach E m) (hc : Contents E o m []) :
    clear E o m = .ub .badFree := by
  exact run_ub (purge_null hE hN hr hc)

/-- C45: so does destroying an empty container -/
theorem C45_dtor_null (hE : E.Good) (hN : E.nullFree = false) (hr : Reach E m) (hc : Contents E o m []) :
    dtor E o m = .ub .badFree :=
  run_ub (purge_null hE hN hr hc)

/-- C45: and move assignment to an empty container -/
theorem C45_move_null (hE : E.Good) (hN : E.nullFree = false) (hP : E.pocma = true) (hr : Reach E m)
    (hc : Contents E o m []) (p : Nat) : assign_move E o p m = .ub .badFree :=
  run_pos hP (run_ub (purge_null hE hN hr hc))

/-- C45 (positive part): a container that is not empty is cleared and destroyed
without passing null to the allocator, whatever the allocator tolerates -/
theorem C45_nonempty (hE : E.Good) (hr : Reach E m) (hc : Contents E o m xs) (hx : xs ≠ []) :
    (∃ m', clear E o m = .ok () m' ∧ Contents E o m' []) ∧ ∃ m', dtor E o m = .ok () m' := by
  obtain ⟨al, s, F, hs, rfl, H⟩ := hr.cont hE hc
  obtain ⟨m1, h1, h2⟩ := clear_c hs (.inl hx) H
  obtain ⟨m2, h3, -⟩ := dtor_c hs (.inl hx) H
  exact ⟨⟨m1, h1, cont_contents (St.Ok.nil hE.wpos) h2⟩, m2, h3⟩

/-- an allocator that does not tolerate null -/
def strict : Env Nat := { demo with nullFree := false }

theorem strict_good : strict.Good where
  triv := by decide
  nothrow _ := .inr rfl
  base := by decide
  wpos := by decide

example : ∃ m, Reach strict m ∧ Contents strict 0 m [] ∧ clear strict 0 m = .ub .badFree ∧
    dtor strict 0 m = .ub .badFree := by
  have hv : View strict (empty0 : Mem Nat) (upd (fun _ => none) 0 (some ⟨0, []⟩)) := empty0_wide.view
  have hc : Contents strict 0 (empty0 : Mem Nat) [] := by have := hv 0; rw [upd_self] at this; exact this.2
  exact ⟨_, empty0_reach, hc, C45_clear_null strict_good rfl empty0_reach hc,
    C45_dtor_null strict_good rfl empty0_reach hc⟩

/-! ### Concrete memories -/

theorem mem_ext {m m' : Mem α} (h : ∀ l, m.cell l = m'.cell l) (h2 : m.log = m'.log) (h3 : m.ticks = m'.ticks) : m = m' := by
  cases m; cases m'; simp only [Mem.mk.injEq]; exact ⟨funext h, h2, h3⟩

/-- container 0 with a single segment (at address 1) holding `xs`, after `t` copies -/
def oneSeg (xs : List Nat) (t : Nat := 0) : Mem Nat :=
  ⟨upd (upd (fun _ => none) (.obj 0) (some (.obj ⟨1, xs.length, 1, 0, 0⟩))) (.heap 1)
    (some (.seg 0 (fun i => if h : i < xs.length then .val xs[i] else .raw))), ⟨1, 0⟩, t⟩

theorem oneSeg_view {E : Env Nat} {xs : List Nat} {t : Nat} (h : xs.length ≤ E.segMax) :
    View E (oneSeg xs t) (upd (fun _ => none) 0 (some ⟨0, xs⟩)) := by
  intro o
  by_cases ho : o = 0
  · subst ho
    rw [upd_self]
    refine ⟨rfl, rfl, fun i hi => ?_⟩
    have hi : i < xs.length := hi
    refine run_step (v := xs.length) (m' := oneSeg xs t) rfl (run_neg (by omega) ?_)
    refine run_step (v := ⟨⟨⟨1, i, xs.length⟩, ⟨0, 0⟩⟩, i⟩) (m' := oneSeg xs t) rfl ?_
    refine run_step (x := rdSlots 1) (m' := oneSeg xs t) rfl ?_
    refine run_pos (by show i < E.segMax; omega) ?_
    simp only [hi, dif_pos]
    rfl
  · rw [upd_ne ho]
    simp [oneSeg, upd, ho]

theorem oneSeg_contents {E : Env Nat} {xs : List Nat} {t : Nat} (h : xs.length ≤ E.segMax) : Contents E 0 (oneSeg xs t) xs := by
  have := oneSeg_view (t := t) h 0
  rw [upd_self] at this
  exact this.2

/-- container 0 with a single segment (at address 1), whatever its slots -/
def rawSeg (n : Nat) (sl : Nat → Slot Nat) (g : Log) (t : Nat := 0) : Mem Nat :=
  ⟨upd (upd (fun _ => none) (.obj 0) (some (.obj ⟨1, n, 1, 0, 0⟩))) (.heap 1) (some (.seg 0 sl)), g, t⟩

theorem rawSeg_contents {E : Env Nat} {xs : List Nat} {sl : Nat → Slot Nat} {g : Log} {t : Nat} (h : xs.length ≤ E.segMax)
    (hv : ∀ (i : Nat) (hi : i < xs.length), sl i = .val xs[i]) : Contents E 0 (rawSeg xs.length sl g t) xs := by
  refine ⟨rfl, fun i hi => ?_⟩
  refine run_step (v := xs.length) (m' := rawSeg xs.length sl g t) rfl (run_neg (by omega) ?_)
  refine run_step (v := ⟨⟨⟨1, i, xs.length⟩, ⟨0, 0⟩⟩, i⟩) (m' := rawSeg xs.length sl g t) rfl ?_
  refine run_step (x := rdSlots 1) (m' := rawSeg xs.length sl g t) rfl ?_
  refine run_pos (by show i < E.segMax; omega) ?_
  rw [hv i hi]
  rfl

theorem oneSeg_push {E : Env Nat} {xs ys : List Nat} {v t t' : Nat} (hr : Reach E (oneSeg xs t)) (hl : xs.length ≤ E.segMax)
    (hW : xs.length + 1 ≤ max_size E) (h : push_back_rv E 0 v (oneSeg xs t) = .ok () (oneSeg ys t')) : Reach E (oneSeg ys t') :=
  .ret (op := .un 0 (.pushBackRv v)) hr (oneSeg_view hl) ⟨_, upd_self, hW⟩ (run_step (r := .ok .unit (oneSeg ys t')) h rfl)

theorem oneSeg_set {E : Env Nat} {xs ys : List Nat} {i v t t' : Nat} (hr : Reach E (oneSeg xs t)) (hl : xs.length ≤ E.segMax)
    (hi : i < xs.length) (h : index_set E 0 i v (oneSeg xs t) = .ok () (oneSeg ys t')) : Reach E (oneSeg ys t') :=
  .ret (op := .un 0 (.set i v)) hr (oneSeg_view hl) ⟨_, upd_self, hi⟩ (run_step (r := .ok .unit (oneSeg ys t')) h rfl)

theorem oneSeg_first {E : Env Nat} {v : Nat} (h : push_back_rv E 0 v empty0 = .ok () (oneSeg [v])) (hW : 1 ≤ max_size E) :
    Reach E (oneSeg [v]) := by
  refine .ret (op := .un 0 (.pushBackRv v)) empty0_reach empty0_wide.view ⟨_, upd_self, hW⟩
    (run_step (r := .ok .unit (oneSeg [v])) h rfl)

section Concrete
set_option maxRecDepth 100000
set_option linter.unusedTactic false

/-- the same with 4 elements per segment -/
def roomy : Env Nat := { demo with segTarget := 16 }
/-- the same with an element type whose moves may throw: moving the value 7 throws -/
def rough : Env Nat := { roomy with mthrow := fun v => decide (v = 7) }

/-- equality of two memories that differ from the empty one in container 0 and address 1 only -/
macro "mem_eq" : tactic => `(tactic| (
  refine mem_ext (fun l => ?_) (by rfl) (by rfl)
  rcases l with ((_|_|a)|(_|o))
  · rfl
  · refine congrArg some (congrArg (Cell.seg 0) (funext fun i => ?_))
    rcases i with (_|_|_|_|_|i) <;> rfl
  · rfl
  · rfl
  · rfl))
macro "go_eq" : tactic => `(tactic| (
  refine Eq.trans (b := .ok _ ?_) (by go) ?_
  rotate_left
  congr 1
  mem_eq))

theorem roomy_12 : Reach roomy (oneSeg [1, 2]) :=
  oneSeg_push (v := 2) (xs := [1]) (oneSeg_first (by go_eq) (by decide)) (by decide) (by decide) (by go_eq)
theorem demo_12 : Reach demo (oneSeg [1, 2]) :=
  oneSeg_push (v := 2) (xs := [1]) (oneSeg_first (by go_eq) (by decide)) (by decide) (by decide) (by go_eq)
theorem rough_12 : Reach rough (oneSeg [1, 2]) :=
  oneSeg_push (v := 2) (xs := [1]) (oneSeg_first (by go_eq) (by decide)) (by decide) (by decide) (by go_eq)
theorem rough_123 : Reach rough (oneSeg [1, 2, 3]) :=
  oneSeg_push (v := 3) rough_12 (by decide) (by decide) (by go_eq)
theorem rough_72 : Reach rough (oneSeg [7, 2] 1) :=
  oneSeg_set (i := 0) (v := 7) rough_12 (by decide) (by decide) (by go_eq)
theorem rough_127 : Reach rough (oneSeg [1, 2, 7] 1) :=
  oneSeg_set (i := 2) (v := 7) rough_123 (by decide) (by decide) (by go_eq)

/-! ### C12: copies of one and the same value that fail at some moments only -/

/-- every third copy throws -/
def flaky : Env Nat := { roomy with cthrow := fun n _ => decide (n % 3 = 2) }

theorem flaky_good : flaky.Good := ⟨by decide, fun _ => .inr rfl, by decide, by decide⟩

-- C12: inserting three copies of 9 at the end of [1]: the third copy of 9 throws, two are there
example : ∃ (m m' : Mem Nat) (it : Iter), Reach flaky m ∧ Contents flaky 0 m [1] ∧ nth flaky 0 1 m = .ok it m ∧
    insert_fill flaky 0 it 3 9 m = .throw .elem m' ∧ Contents flaky 0 m' [1, 9, 9] := by
  refine ⟨oneSeg [1], oneSeg [1, 9, 9] 3, ⟨⟨⟨1, 1, 1⟩, ⟨0, 0⟩⟩, 1⟩, oneSeg_first (by go_eq) (by decide),
    oneSeg_contents (by decide), by go, ?_, oneSeg_contents (by decide)⟩
  refine Eq.trans (b := .throw _ ?_) (by go_throw) ?_
  rotate_left
  congr 1
  mem_eq

-- C11: inserting 9 throws now, and not the next time
example : ∃ (m m' m'' : Mem Nat), Reach flaky m ∧ Contents flaky 0 m [1] ∧ push_back flaky 0 9 m = .throw .elem m' ∧
    Contents flaky 0 m' [1] ∧ push_back flaky 0 9 m' = .ok () m'' ∧ Contents flaky 0 m'' [1, 9] := by
  refine ⟨oneSeg [1] 2, oneSeg [1] 3, oneSeg [1, 9] 4, ?_, oneSeg_contents (by decide), by go_throw,
    oneSeg_contents (by decide), by go_eq, oneSeg_contents (by decide)⟩
  have h0 : Reach flaky (oneSeg [1]) := oneSeg_first (by go_eq) (by decide)
  have h1 : Reach flaky (oneSeg [1] 1) := oneSeg_set (i := 0) (v := 1) h0 (by decide) (by decide) (by go_eq)
  exact oneSeg_set (i := 0) (v := 1) h1 (by decide) (by decide) (by go_eq)

/-! ### C42: a reference to an element as the value of a fill insertion -/

/-- C42 is false of `insert(pos, count, s[j])`: inserting two copies of the second
element of [1, 2] in front gives [2, 1, 1, 2] -/
theorem C42_fill_alias_wrong : ∃ (m m' : Mem Nat) (it jt kt : Iter), Reach roomy m ∧ Contents roomy 0 m [1, 2] ∧
    nth roomy 0 0 m = .ok it m ∧ nth roomy 0 1 m = .ok jt m ∧
    insert_fill_alias roomy 0 it 2 jt m = .ok kt m' ∧ Contents roomy 0 m' [2, 1, 1, 2] := by
  refine ⟨oneSeg [1, 2], oneSeg [2, 1, 1, 2] 2, ⟨⟨⟨1, 0, 2⟩, ⟨0, 0⟩⟩, 0⟩, ⟨⟨⟨1, 1, 2⟩, ⟨0, 0⟩⟩, 1⟩,
    ⟨⟨⟨1, 0, 4⟩, ⟨0, 0⟩⟩, 0⟩, roomy_12, oneSeg_contents (by decide), by go, by go, by go_eq, oneSeg_contents (by decide)⟩

/-- C42: if the first insertion moves the element to another segment, the reference
dangles and the call is undefined -/
theorem C42_fill_alias_ub : ∃ (m : Mem Nat) (it jt : Iter), Reach demo m ∧ Contents demo 0 m [1, 2] ∧
    nth demo 0 0 m = .ok it m ∧ nth demo 0 1 m = .ok jt m ∧ insert_fill_alias demo 0 it 2 jt m = .ub .raw := by
  refine ⟨oneSeg [1, 2], ⟨⟨⟨1, 0, 2⟩, ⟨0, 0⟩⟩, 0⟩, ⟨⟨⟨1, 1, 2⟩, ⟨0, 0⟩⟩, 1⟩,
    demo_12, oneSeg_contents (by decide), by go, by go, by go_ub⟩

/-! ### C43: resize -/

/-- C43 (what holds): if `resize(n, v)` throws, the container holds its old elements
followed by fewer than the requested number of copies of `v`; the exception is the
allocator's or that of copying `v` -/
theorem C43_prefix (hE : E.Good) (hr : Reach E m) (hc : Contents E o m xs) (hsz : n ≤ max_size E)
    (h : resize E o n v m = .throw e m') :
    Blame E [v] e ∧ ∃ k, xs.length + k < n ∧ Contents E o m' (xs ++ List.replicate k v) := by
  obtain ⟨al, s, F, hs, rfl, H⟩ := hr.cont hE hc
  obtain ⟨s', g', k, hk, hs', he, ht, H'⟩ := (resize_count_c hE (Mk.copy v) hs (max_lt hE hsz) H).exc h
  exact ⟨ht.blame, k, hk, he ▸ cont_contents hs' H'⟩

/-- C43: `resize` is documented as strong, and is not: growing an empty container to
two elements with an allocator that has one block left throws and leaves one element -/
theorem C43_not_strong : ∃ (m m' : Mem Nat), Reach tiny m ∧ Contents tiny 0 m [] ∧
    resize tiny 0 2 5 m = .throw .alloc m' ∧ Contents tiny 0 m' [5] := by
  have hc : Contents tiny 0 (empty0 : Mem Nat) [] := by
    have := (empty0_wide (α := Nat)).view (E := tiny) 0
    rw [upd_self] at this; exact this.2
  refine ⟨empty0, rawSeg 1 (upd (fun _ => .raw) 0 (.val 5)) ⟨2, 1⟩ 2, empty0_reach, hc, ?_,
    rawSeg_contents (xs := [5]) (by decide) (by decide)⟩
  refine Eq.trans (b := .throw _ ?_) (by go_throw) ?_
  rotate_left
  congr 1
  mem_eq

/-! ### C44: element types whose moves may throw -/

/-- C44: `insert` is documented as strong; with an element type whose moves may
throw it is not: inserting in front of [7, 2] (where moving 7 throws) leaves
[7, 0], and an object that is never destroyed -/
theorem C44_insert_not_strong : ∃ (m m' : Mem Nat) (it : Iter), Reach rough m ∧ Contents rough 0 m [7, 2] ∧
    nth rough 0 0 m = .ok it m ∧ insert rough 0 it 3 m = .throw .elem m' ∧ Contents rough 0 m' [7, 0] ∧
    dtor rough 0 m' = .ub .leak := by
  refine ⟨oneSeg [7, 2] 1, rawSeg 2 (upd (upd (upd (fun _ => .raw) 0 (.val 7)) 1 (.val 0)) 2 (.val 2)) ⟨1, 0⟩ 2,
    ⟨⟨⟨1, 0, 2⟩, ⟨0, 0⟩⟩, 0⟩, rough_72, oneSeg_contents (by decide), by go, ?_,
    rawSeg_contents (xs := [7, 0]) (by decide) (by decide), ?_⟩
  · refine Eq.trans (b := .throw _ ?_) (by go_throw) ?_
    rotate_left
    congr 1
    mem_eq
  · go_ub

/-- C44: `erase` is documented as strong; it is not either -/
theorem C44_erase_not_strong : ∃ (m m' : Mem Nat) (it : Iter), Reach rough m ∧ Contents rough 0 m [1, 2, 7] ∧
    nth rough 0 0 m = .ok it m ∧ erase rough 0 it m = .throw .elem m' ∧ Contents rough 0 m' [2, 0, 7] := by
  refine ⟨oneSeg [1, 2, 7] 1, oneSeg [2, 0, 7] 1, ⟨⟨⟨1, 0, 3⟩, ⟨0, 0⟩⟩, 0⟩, rough_127, oneSeg_contents (by decide), by go, ?_,
    oneSeg_contents (by decide)⟩
  refine Eq.trans (b := .throw _ ?_) (by go_throw) ?_
  rotate_left
  congr 1
  mem_eq

end Concrete

end SegTree
