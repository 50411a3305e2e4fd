/-
  C74: the objects alive in memory are the elements.
-/
import Verif.Proof.Objects
import Verif.Props.History
set_option autoImplicit false

namespace SegTree
variable {α : Type} {E : Env α} {m m' : Mem α} {S : Bank α}

/-- an element object with the value `v` lives in memory, in slot `i` of the segment at `a` -/
def Alive (m : Mem α) (a i : Nat) (v : α) : Prop := ∃ w sl, m.cell (.heap a) = some (.seg w sl) ∧ sl i = .val v

/-- the element at position `j` of container `o` is the object in slot `i` of the segment at `a` -/
def ElemAt (E : Env α) (m : Mem α) (o j a i : Nat) : Prop :=
  ∃ n it, size o m = .ok n m ∧ j < n ∧ nth E o j m = .ok it m ∧ it.current = (a, i)

theorem ElemAt.at {o j a i : Nat} {xs : List α} (hc : Contents E o m xs) (h : ElemAt E m o j a i) :
    j < xs.length ∧ ∃ it, nth E o j m = .ok it m ∧ it.current = (a, i) := by
  obtain ⟨n, it, h1, h2, h3, h4⟩ := h
  rw [hc.1] at h1; cases h1
  exact ⟨h2, it, h3, h4⟩

/-- C74: each element of each container is an object with its value, at one place -/
theorem C74_elements (hE : E.Good) (hr : Reach E m) {o j : Nat} {xs : List α} (hc : Contents E o m xs)
    (hj : j < xs.length) : ∃ a i, ElemAt E m o j a i ∧ Alive m a i xs[j] := by
  obtain ⟨al, s, F, hs, rfl, H⟩ := hr.cont hE hc
  obtain ⟨it, ha⟩ := St.At.exists hs (Nat.le_of_lt hj)
  obtain ⟨sz, w, sl, -, h2, h3⟩ := elem_seg H hj ha
  exact ⟨it.current.1, it.current.2, ⟨_, it, hc.1, hj, nth_c hs ha H, rfl⟩, w, sl, h2, h3⟩

/-- C74: different elements, of the same or of different containers, are different objects -/
theorem C74_distinct (hE : E.Good) (hr : Reach E m) {o p j k a i : Nat} {xs ys : List α}
    (hc : Contents E o m xs) (hd : Contents E p m ys) (h1 : ElemAt E m o j a i) (h2 : ElemAt E m p k a i) :
    o = p ∧ j = k := by
  obtain ⟨hj, it, g1, g2⟩ := h1.at hc
  obtain ⟨hk, jt, g3, g4⟩ := h2.at hd
  have hop : o = p := by
    obtain ⟨al, s, F, hs, rfl, H⟩ := hr.cont hE hc
    obtain ⟨al2, s2, F2, hs2, rfl, H2⟩ := hr.cont hE hd
    obtain ⟨sz, -, -, b1, -⟩ := elem_seg H hj (at_of_nth hs H (Nat.le_of_lt hj) g1)
    obtain ⟨sz2, -, -, b2, -⟩ := elem_seg H2 hk (at_of_nth hs2 H2 (Nat.le_of_lt hk) g3)
    rw [g2] at b1; rw [g4] at b2
    exact (C09_no_leak hE hr).2 _ _ _ _ _ _ b1 b2
  subst hop
  cases hc.unique hd
  obtain ⟨al, s, F, hs, rfl, H⟩ := hr.cont hE hc
  exact ⟨rfl, St.At.inj hs hj hk (at_of_nth hs H (Nat.le_of_lt hj) g1) (at_of_nth hs H (Nat.le_of_lt hk) g3)
    (g2.trans g4.symm) H⟩

/-- C74: for a type with a destructor, every object alive is an element of a container
(exactly one, by `C74_distinct`), with its value. -/
theorem C74_only_elements (hE : E.Good) (hr : Reach E m) (hd : E.trivDtor = false) {a i : Nat} {v : α}
    (h : Alive m a i v) : ∃ o j xs, Contents E o m xs ∧ ElemAt E m o j a i ∧ xs[j]? = some v := by
  obtain ⟨w, sl, h1, h2⟩ := h
  obtain ⟨o, k, sz, hb⟩ := (C09_no_leak hE hr (a := a)).1.1 (by rw [h1]; exact (nomatch ·))
  obtain ⟨S, A, hR, H⟩ := hr.inv hE
  have hv := hR.view H
  cases hx : S o with
  | none =>
    have := hv o
    rw [hx] at this
    exact absurd this (block_obj hb)
  | some x =>
    have hc := hv o
    rw [hx] at hc
    have hk : k = 0 := by
      rcases Nat.eq_zero_or_pos k with h | h
      · exact h
      · obtain ⟨n, hn⟩ := (C33_owner hE hr hb hc.1).2 h
        rw [h1] at hn; cases hn
    subst hk
    have hc := hc.2
    obtain ⟨al, s, F, hs, hxs, H⟩ := hr.cont hE hc
    obtain ⟨j, it, g1, g2, g3, g4⟩ := seg_elem hd hs H hb h1 h2
    rw [hxs] at g1 g4
    exact ⟨o, j, x.elems, hc, ⟨_, it, hc.1, g1, nth_c hs g2 H, g3⟩, g4⟩

/-- C74: so a type that counts its instances sees, between any two calls of any
program, the sum of the sizes of the containers: all places with an object can be
listed without repetition, and their number is that sum (`os` lists the containers). -/
theorem C74_count (hE : E.Good) (hr : Reach E m) (hd : E.trivDtor = false) (hv : View E m S) :
    ∃ (os : List Nat) (L : List (Nat × Nat)), os.Nodup ∧ (∀ o, o ∈ os ↔ S o ≠ none) ∧ L.Nodup ∧
      (∀ a i, (a, i) ∈ L ↔ ∃ v, Alive m a i v) ∧
      L.length = (os.map fun o => ((S o).map (·.elems.length)).getD 0).sum := by
  classical
  obtain ⟨os, hos, hmem⟩ : ∃ os : List Nat, os.Nodup ∧ ∀ o, o ∈ os ↔ S o ≠ none := by
    obtain ⟨S', A, hR, H⟩ := hr.inv hE
    cases (hR.view H).unique hv
    clear hv H
    induction hR with
    | nil => exact ⟨[], .nil, by simp⟩
    | @cons S A o al s _ hn _ ih =>
      obtain ⟨os, h1, h2⟩ := ih
      refine ⟨o :: os, List.nodup_cons.2 ⟨fun h => (h2 o).1 h hn, h1⟩, fun q => ?_⟩
      by_cases hq : q = o
      · subst hq; simp [upd_self]
      · rw [upd_ne hq, List.mem_cons, h2 q]; simp [hq]
  have hC : ∀ {o x}, S o = some x → Contents E o m x.elems := fun {o x} h => by
    have := hv o; rw [h] at this; exact this.2
  have hS : ∀ {o xs}, Contents E o m xs → ∃ x, S o = some x ∧ x.elems = xs := fun {o xs} h => by
    have := hv o
    cases hx : S o with
    | none => rw [hx] at this; exact absurd this (size_some h.1)
    | some x => exact ⟨x, rfl, (hC hx).unique h⟩
  let len : Nat → Nat := fun o => ((S o).map (·.elems.length)).getD 0
  have hex : ∀ o j, ∃ p : Nat × Nat, j < len o → ElemAt E m o j p.1 p.2 := by
    intro o j
    by_cases h : j < len o
    · simp only [len] at h
      cases hx : S o with
      | none => rw [hx] at h; simp at h
      | some x =>
        rw [hx] at h
        obtain ⟨a, i, h1, -⟩ := C74_elements hE hr (hC hx) h
        exact ⟨(a, i), fun _ => h1⟩
    · exact ⟨(0, 0), fun h' => absurd h' h⟩
  choose f hf using hex
  refine ⟨os, os.flatMap fun o => (List.range (len o)).map (f o), hos, hmem, ?_, ?_, ?_⟩
  · have hinj : ∀ o j p k, j < len o → k < len p → f o j = f p k → o = p ∧ j = k := by
      intro o j p k hj hk he
      have h1 := hf o j hj
      have h2 := hf p k hk
      rw [← he] at h2
      simp only [len] at hj hk
      cases hx : S o with
      | none => rw [hx] at hj; simp at hj
      | some x =>
        cases hy : S p with
        | none => rw [hy] at hk; simp at hk
        | some y => exact C74_distinct hE hr (hC hx) (hC hy) h1 h2
    rw [List.nodup_flatMap]
    refine ⟨fun o _ => ?_, ?_⟩
    · refine List.Nodup.map_on ?_ List.nodup_range
      intro j hj k hk he
      exact (hinj o j o k (List.mem_range.1 hj) (List.mem_range.1 hk) he).2
    · refine hos.imp_of_mem ?_
      intro o p _ _ hop x h1 h2
      simp only [List.mem_map, List.mem_range] at h1 h2
      obtain ⟨j, hj, rfl⟩ := h1
      obtain ⟨k, hk, he⟩ := h2
      exact hop (hinj o j p k hj hk he.symm).1
  · intro a i
    simp only [List.mem_flatMap, List.mem_map, List.mem_range]
    constructor
    · rintro ⟨o, ho, j, hj, he⟩
      have h1 := hf o j hj
      rw [he] at h1
      simp only [len] at hj
      cases hx : S o with
      | none => rw [hx] at hj; simp at hj
      | some x =>
        rw [hx] at hj
        obtain ⟨a', i', h2, h3⟩ := C74_elements hE hr (hC hx) hj
        obtain ⟨-, it, g1, g2⟩ := h1.at (hC hx)
        obtain ⟨-, jt, g3, g4⟩ := h2.at (hC hx)
        rw [g1] at g3; cases g3
        rw [g2] at g4; cases g4
        exact ⟨_, h3⟩
    · rintro ⟨v, hva⟩
      obtain ⟨o, j, xs, hc, h1, h2⟩ := C74_only_elements hE hr hd hva
      obtain ⟨x, hx, rfl⟩ := hS hc
      obtain ⟨hj, it, g1, g2⟩ := h1.at hc
      have hj' : j < len o := by simp only [len, hx]; exact hj
      refine ⟨o, (hmem o).2 (by rw [hx]; exact (nomatch ·)), j, hj', ?_⟩
      obtain ⟨-, jt, g3, g4⟩ := (hf o j hj').at hc
      rw [g1] at g3; cases g3
      rw [g2] at g4
      exact g4.symm
  · rw [List.length_flatMap]
    simp [len]

-- the hypotheses are met: two containers, 11 objects
example : ∃ (m : Mem Nat) (S : Bank Nat), Reach demo m ∧ View demo m S ∧ demo.trivDtor = false ∧
    Contents demo 0 m eight ∧ Contents demo 1 m [1, 2, 3] ∧ ∃ L : List (Nat × Nat), L.Nodup ∧
      (∀ a i, (a, i) ∈ L ↔ ∃ v, Alive m a i v) ∧ L.length = 11 := by
  obtain ⟨m, h1, hv, h2, h3, -⟩ := demo_lists eight [1, 2, 3] 0 0
  obtain ⟨os, L, g1, g2, g3, g4, g5⟩ := C74_count demo_good h1 rfl hv
  have hp : os.Perm [0, 1] := by
    refine (List.perm_ext_iff_of_nodup g1 (by decide)).2 fun o => ?_
    rw [g2 o]
    unfold upd
    by_cases h0 : o = 0
    · subst h0; simp
    · by_cases h1 : o = 1
      · subst h1; simp
      · simp [h0, h1]
  refine ⟨m, _, h1, hv, rfl, h2, h3, L, g3, g4, ?_⟩
  rw [g5, (hp.map _).sum_nat]
  simp [upd, eight]

end SegTree
