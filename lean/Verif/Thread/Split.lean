/-
  What belongs to a container, and the part of a memory that belongs to some of them.
-/
import Verif.Thread.Client
import Verif.Proof.Blocks
set_option autoImplicit false

namespace SegTree

variable {α : Type} {E : Env α} {m : Mem α} {g : Log}

/-- The memory of container `o`: the object itself, and the blocks that can be reached
from it. -/
def Belongs (m : Mem α) (o : Nat) (l : Loc) : Prop := l = .obj o ∨ ∃ h a sz, Block m o h a sz ∧ l = .heap a

open Classical in
/-- the part of the memory that belongs to the containers of `p` -/
noncomputable def Mem.only (m : Mem α) (p : Nat → Prop) : Mem α :=
  { m with cell := fun l => if ∃ o, p o ∧ Belongs m o l then m.cell l else none }

open Classical in
/-- the containers of `p` -/
noncomputable def Bank.only (S : Bank α) (p : Nat → Prop) : Bank α := fun o => if p o then S o else none

theorem Mem.only_pos {p : Nat → Prop} {l : Loc} (h : ∃ o, p o ∧ Belongs m o l) : (m.only p).cell l = m.cell l := if_pos h
theorem Mem.only_neg {p : Nat → Prop} {l : Loc} (h : ¬ ∃ o, p o ∧ Belongs m o l) : (m.only p).cell l = none := if_neg h

theorem Mem.only_some {p : Nat → Prop} {l : Loc} (h : (m.only p).cell l ≠ none) : m.cell l ≠ none ∧ ∃ o, p o ∧ Belongs m o l := by
  by_cases hp : ∃ o, p o ∧ Belongs m o l
  · rw [only_pos hp] at h; exact ⟨h, hp⟩
  · exact absurd (only_neg hp) h

theorem Bank.only_pos {S : Bank α} {p : Nat → Prop} {o : Nat} (h : p o) : S.only p o = S o := if_pos h
theorem Bank.only_neg {S : Bank α} {p : Nat → Prop} {o : Nat} (h : ¬ p o) : S.only p o = none := if_neg h

theorem Rep.halves {S : Bank α} {A : Asrt α} (h : Rep E S A) (p : Nat → Prop) :
    ∃ A1 A2, A = A1 + A2 ∧ Rep E (S.only p) A1 ∧ Rep E (S.only fun o => ¬ p o) A2 := by
  induction h with
  | nil =>
    refine ⟨0, 0, rfl, ?_, ?_⟩
    · rw [show Bank.only (fun _ => none) p = fun _ => none from funext fun o => by unfold Bank.only; split <;> rfl]
      exact .nil
    · rw [show Bank.only (fun _ => none) (fun o => ¬ p o) = fun _ => none from funext fun o => by unfold Bank.only; split <;> rfl]
      exact .nil
  | @cons S A o al s hr hn hs ih =>
    obtain ⟨A1, A2, rfl, h1, h2⟩ := ih
    have hpos : ∀ q : Nat → Prop, q o → Bank.only (upd S o (some ⟨al, s.elems⟩)) q = upd (S.only q) o (some ⟨al, s.elems⟩) := by
      intro q hq
      funext k
      by_cases hk : k = o
      · subst hk; rw [upd_self, Bank.only_pos hq, upd_self]
      · rw [upd_ne hk]; unfold Bank.only; rw [upd_ne hk]
    have hneg : ∀ q : Nat → Prop, ¬ q o → Bank.only (upd S o (some ⟨al, s.elems⟩)) q = S.only q := by
      intro q hq
      funext k
      by_cases hk : k = o
      · subst hk; rw [Bank.only_neg hq, Bank.only_neg hq]
      · unfold Bank.only; rw [upd_ne hk]
    have hno : ∀ q : Nat → Prop, S.only q o = none := fun q => by
      unfold Bank.only; split
      · exact hn
      · rfl
    by_cases hp : p o
    · refine ⟨cont E o al s + A1, A2, by ac_rfl, ?_, ?_⟩
      · rw [hpos p hp]; exact .cons h1 (hno p) hs
      · rw [hneg (fun o => ¬ p o) (not_not.2 hp)]; exact h2
    · refine ⟨A1, cont E o al s + A2, by ac_rfl, ?_, ?_⟩
      · rw [hneg p hp]; exact h1
      · rw [hpos (fun o => ¬ p o) hp]; exact .cons h2 (hno _) hs

theorem Rep.obj {S : Bank α} {A : Asrt α} (h : Rep E S A) {o : Nat} (ho : Loc.obj o ∈ A.map Prod.fst) : S o ≠ none := by
  induction h with
  | nil => simp at ho
  | @cons S A o1 al s hr hn hs ih =>
    by_cases e : o = o1
    · subst e; rw [upd_self]; exact Option.some_ne_none _
    · rw [upd_ne e]
      rw [Multiset.map_add, Multiset.mem_add] at ho
      rcases ho with ho | ho
      · exfalso
        cases s with
        | nil => rw [cont_nil] at ho; simp [Ob, pt] at ho; exact e ho
        | tree t =>
          rw [cont_tree, Multiset.map_add, lay_locs, Multiset.mem_add] at ho
          rcases ho with ho | ho
          · simp at ho
          · simp [Ob, pt] at ho; exact e ho
      · exact ih ho

theorem Rep.here {S : Bank α} {A : Asrt α} (h : Rep E S A) {o : Nat} (ho : S o ≠ none) : Loc.obj o ∈ A.map Prod.fst := by
  obtain ⟨x, hx⟩ := Option.ne_none_iff_exists'.1 ho
  obtain ⟨s, A', -, -, rfl, -⟩ := h.split hx
  rw [Multiset.map_add, Multiset.mem_add]
  left
  cases s with
  | nil => rw [cont_nil]; simp [Ob, pt]
  | tree t => rw [cont_tree, Multiset.map_add, Multiset.mem_add]; right; simp [Ob, pt]

/-- where the containers of one half are -/
theorem Rep.half {S : Bank α} {A1 A2 : Asrt α} {p : Nat → Prop} (h1 : Rep E (S.only p) A1) (hI : Inv E S m) (H : Holds g (A1 + A2) m) {l : Loc} :
    l ∈ A1.map Prod.fst ↔ m.cell l ≠ none ∧ ∃ o, p o ∧ Belongs m o l := by
  have hl : l ∈ A1.map Prod.fst → m.cell l ≠ none := fun h => by
    obtain ⟨x, hx, rfl⟩ := Multiset.mem_map.1 h
    obtain ⟨c, hc, -⟩ := H.sat x (Multiset.mem_add.2 (.inl hx))
    rw [hc]; exact Option.some_ne_none _
  have hpo : ∀ {o x}, S.only p o = some x → p o ∧ S o = some x := fun {o x} h => by
    by_cases hp : p o
    · rw [Bank.only_pos hp] at h; exact ⟨hp, h⟩
    · rw [Bank.only_neg hp] at h; cases h
  constructor
  · intro h
    refine ⟨hl h, ?_⟩
    cases l with
    | obj o =>
      obtain ⟨x, hx⟩ := Option.ne_none_iff_exists'.1 (h1.obj h)
      exact ⟨o, (hpo hx).1, .inl rfl⟩
    | heap a =>
      obtain ⟨o, s, al, A', hS, hs, rfl, ha⟩ := h1.heap h
      rw [add_assoc] at H
      obtain ⟨k, sz, hb⟩ := (block_loc H).1 ha
      exact ⟨o, (hpo hS).1, .inr ⟨k, a, sz, hb, rfl⟩⟩
  · rintro ⟨hc, o, hp, rfl | ⟨k, a, sz, hb, rfl⟩⟩
    · refine h1.here ?_
      rw [Bank.only_pos hp]
      exact (hI.lives o).1 (Option.isSome_iff_ne_none.2 hc)
    · have hS := (hI.lives o).1 (Option.isSome_iff_ne_none.2 (block_obj hb))
      obtain ⟨x, hx⟩ := Option.ne_none_iff_exists'.1 hS
      rw [← Bank.only_pos (S := S) hp] at hx
      obtain ⟨s, A', -, -, rfl, -⟩ := h1.split hx
      rw [add_assoc] at H
      rw [Multiset.map_add, Multiset.mem_add]
      exact .inl ((block_loc H).2 ⟨k, sz, hb⟩)

/-- Some of the containers, with what belongs to them. -/
theorem Inv.only {S : Bank α} (hI : Inv E S m) (p : Nat → Prop) : Inv E (S.only p) (m.only p) := by
  have hI' := hI
  obtain ⟨A, hR, H⟩ := hI'
  obtain ⟨A1, A2, rfl, h1, h2⟩ := hR.halves p
  have hh := fun l => h1.half (l := l) hI H
  refine ⟨A1, h1, ⟨rfl, ?_, fun x hx => ?_, fun l hl => ?_, ?_⟩⟩
  · have := H.nodup
    rw [Multiset.map_add, Multiset.nodup_add] at this
    exact this.1
  · obtain ⟨c, hc, hx'⟩ := H.sat x (Multiset.mem_add.2 (.inl hx))
    refine ⟨c, ?_, hx'⟩
    rw [Mem.only_pos ((hh x.1).1 (Multiset.mem_map.2 ⟨x, hx, rfl⟩)).2]
    exact hc
  · rw [hh]
    exact Mem.only_some (Option.isSome_iff_ne_none.1 hl)
  · by_contra h
    exact (Mem.only_some h).1 H.null

/-- Different containers share no memory. -/
theorem Inv.alone {S : Bank α} (hI : Inv E S m) {o o' : Nat} {l : Loc} (h : Belongs m o l) (h' : Belongs m o' l) (hl : m.cell l ≠ none) :
    o = o' := by
  by_contra hne
  have hI' := hI
  obtain ⟨A, hR, H⟩ := hI'
  obtain ⟨A1, A2, rfl, h1, h2⟩ := hR.halves fun k => k = o
  have i1 := (h1.half hI H).2 ⟨hl, o, rfl, h⟩
  rw [add_comm] at H
  have i2 := (h2.half hI H).2 ⟨hl, o', fun e => hne e.symm, h'⟩
  have := H.nodup
  rw [Multiset.map_add, Multiset.nodup_add] at this
  exact (Multiset.disjoint_left.1 this.2.2) i2 i1

/-- what belongs to a container exists -/
theorem Inv.held {S : Bank α} (hI : Inv E S m) {o : Nat} {l : Loc} (h : Belongs m o l) (hl : l ≠ .obj o) : m.cell l ≠ none := by
  rcases h with rfl | ⟨k, a, sz, hb, rfl⟩
  · exact absurd rfl hl
  · have hS := (hI.lives o).1 (Option.isSome_iff_ne_none.2 (block_obj hb))
    obtain ⟨x, hx⟩ := Option.ne_none_iff_exists'.1 hS
    obtain ⟨A, hR, H⟩ := hI
    obtain ⟨s, A', -, -, rfl, -⟩ := hR.split hx
    obtain ⟨y, hy, e⟩ := Multiset.mem_map.1 ((block_loc H).2 ⟨k, sz, hb⟩)
    obtain ⟨c, hc, -⟩ := H.sat y (Multiset.mem_add.2 (.inl hy))
    rw [← e, hc]; exact Option.some_ne_none _

/-- Everything belongs to some container. -/
theorem Inv.someones {S : Bank α} (hI : Inv E S m) {l : Loc} (hl : m.cell l ≠ none) : ∃ o, S o ≠ none ∧ Belongs m o l := by
  have hI' := hI
  obtain ⟨A, hR, H⟩ := hI'
  obtain ⟨A1, A2, rfl, h1, h2⟩ := hR.halves fun _ => True
  have h0 : l ∈ (A1 + A2).map Prod.fst := H.full l (Option.isSome_iff_ne_none.2 hl)
  rw [Multiset.map_add, Multiset.mem_add] at h0
  have key : ∃ o, Belongs m o l := by
    rcases h0 with h | h
    · obtain ⟨-, o, -, hb⟩ := (h1.half hI H).1 h
      exact ⟨o, hb⟩
    · rw [add_comm] at H
      obtain ⟨-, o, -, hb⟩ := (h2.half hI H).1 h
      exact ⟨o, hb⟩
  obtain ⟨o, hb⟩ := key
  refine ⟨o, (hI.lives o).1 (Option.isSome_iff_ne_none.2 ?_), hb⟩
  rcases hb with rfl | ⟨k, a, sz, hb, -⟩
  · exact hl
  · exact block_obj hb

end SegTree
