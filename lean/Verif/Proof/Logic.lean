/-
  A small separation logic with exact heaps.
-/
import Verif.Model.Base
import Mathlib.Algebra.Order.Group.Multiset
import Mathlib.Data.Multiset.Basic
import Mathlib.Tactic.Abel
set_option autoImplicit false

namespace SegTree

variable {α β γ : Type}

/-- One assertion: a location and what is known about the cell it holds. -/
abbrev Asrt (α : Type) := Multiset (Loc × (Cell α → Prop))

/-- `l` is live and its cell satisfies `P`. -/
def pt (l : Loc) (P : Cell α → Prop) : Asrt α := {(l, P)}

theorem aassoc (A B C : Asrt α) : A + B + C = A + (B + C) := add_assoc A B C

/-- The memory consists of *exactly* the locations of `S`, each satisfying its
predicate; `nullptr` is not live; the allocation log is `g`. -/
structure Holds (g : Log) (S : Asrt α) (m : Mem α) : Prop where
  log : m.log = g
  nodup : (S.map Prod.fst).Nodup
  sat : ∀ x ∈ S, ∃ c, m.cell x.1 = some c ∧ x.2 c
  full : ∀ l, (m.cell l).isSome → l ∈ S.map Prod.fst
  null : m.cell (.heap 0) = none

theorem Holds.eqv {g : Log} {S T : Asrt α} {m : Mem α} (h : Holds g S m) (e : S = T) : Holds g T m := e ▸ h

section
variable {g : Log} {F S : Asrt α} {m : Mem α} {l : Loc} {P Q : Cell α → Prop}

theorem Holds.get (h : Holds g (pt l P + F) m) : ∃ c, m.cell l = some c ∧ P c :=
  h.sat (l, P) (by simp [pt])

theorem Holds.exact (h : Holds g (pt l P + F) m) :
    ∃ c, P c ∧ m.cell l = some c ∧ Holds g (pt l (· = c) + F) m := by
  obtain ⟨c, hc, hp⟩ := h.get
  refine ⟨c, hp, hc, h.log, by simpa [pt] using h.nodup, ?_, by simpa [pt] using h.full, h.null⟩
  intro x hx
  rcases Multiset.mem_add.1 hx with hx | hx
  · simp only [pt, Multiset.mem_singleton] at hx
    subst hx
    exact ⟨c, hc, rfl⟩
  · exact h.sat x (Multiset.mem_add.2 (.inr hx))

theorem Holds.weaken (h : Holds g (pt l P + F) m) (w : ∀ c, P c → Q c) : Holds g (pt l Q + F) m := by
  refine ⟨h.log, by simpa [pt] using h.nodup, ?_, by simpa [pt] using h.full, h.null⟩
  intro x hx
  rcases Multiset.mem_add.1 hx with hx | hx
  · simp only [pt, Multiset.mem_singleton] at hx
    subst hx
    obtain ⟨c, hc, hp⟩ := h.get
    exact ⟨c, hc, w c hp⟩
  · exact h.sat x (Multiset.mem_add.2 (.inr hx))

theorem Holds.not_mem (h : Holds g (pt l P + F) m) : l ∉ F.map Prod.fst := by
  have := h.nodup
  simp only [pt, Multiset.singleton_add, Multiset.map_cons, Multiset.nodup_cons] at this
  exact this.1

theorem Holds.ne {l' : Loc} (h : Holds g (pt l P + (pt l' Q + F)) m) : l ≠ l' := by
  intro e
  have := h.not_mem
  simp [pt, e] at this

theorem Holds.ne0 {a : Nat} (h : Holds g (pt (.heap a) P + F) m) : a ≠ 0 := by
  rintro rfl
  obtain ⟨c, hc, -⟩ := h.get
  simp [h.null] at hc

theorem Holds.write {c : Cell α} (h : Holds g (pt l P + F) m) (q : Q c) :
    Holds g (pt l Q + F) (m.set l c) := by
  refine ⟨h.log, by simpa [pt] using h.nodup, ?_, ?_, ?_⟩
  · intro x hx
    rcases Multiset.mem_add.1 hx with hx | hx
    · simp only [pt, Multiset.mem_singleton] at hx
      subst hx
      exact ⟨c, by simp [Mem.set, upd], q⟩
    · have hne : x.1 ≠ l := by
        intro e
        exact h.not_mem (e ▸ Multiset.mem_map_of_mem _ hx)
      obtain ⟨c', hc', hp⟩ := h.sat x (Multiset.mem_add.2 (.inr hx))
      exact ⟨c', by simp [Mem.set, upd, hne, hc'], hp⟩
  · intro l' hl'
    by_cases e : l' = l
    · subst e; simp [pt]
    · have := h.full l' (by simpa [Mem.set, upd, e] using hl')
      simpa [pt] using this
  · have : l ≠ .heap 0 := by
      rintro rfl
      exact h.ne0 rfl
    simp [Mem.set, upd, this.symm, h.null]

theorem Holds.free (h : Holds g (pt l P + F) m) : Holds g F (m.erase l) := by
  have hn := h.not_mem
  have hd := h.nodup
  refine ⟨h.log, ?_, ?_, ?_, ?_⟩
  · simp only [pt, Multiset.singleton_add, Multiset.map_cons, Multiset.nodup_cons] at hd
    exact hd.2
  · intro x hx
    have hne : x.1 ≠ l := by
      intro e
      exact hn (e ▸ Multiset.mem_map_of_mem _ hx)
    obtain ⟨c', hc', hp⟩ := h.sat x (Multiset.mem_add.2 (.inr hx))
    exact ⟨c', by simp [Mem.erase, upd, hne, hc'], hp⟩
  · intro l' hl'
    by_cases e : l' = l
    · subst e; simp [Mem.erase, upd] at hl'
    · have := h.full l' (by simpa [Mem.erase, upd, e] using hl')
      simpa [pt, e] using this
  · simp only [Mem.erase, upd]
    split
    · rfl
    · exact h.null

theorem Holds.alloc {c : Cell α} {g' : Log} (h : Holds g F m) (hd : m.cell l = none)
    (hl : l ≠ .heap 0) (q : Q c) : Holds g' (pt l Q + F) ({ m with log := g' }.set l c) := by
  have hn : l ∉ F.map Prod.fst := by
    intro hm
    obtain ⟨x, hx, rfl⟩ := Multiset.mem_map.1 hm
    obtain ⟨c, hc, -⟩ := h.sat x hx
    simp [hd] at hc
  refine ⟨rfl, ?_, ?_, ?_, ?_⟩
  · simp only [pt, Multiset.singleton_add, Multiset.map_cons, Multiset.nodup_cons]
    exact ⟨hn, h.nodup⟩
  · intro x hx
    rcases Multiset.mem_add.1 hx with hx | hx
    · simp only [pt, Multiset.mem_singleton] at hx
      subst hx
      exact ⟨c, by simp [Mem.set, upd], q⟩
    · have hne : x.1 ≠ l := by
        intro e
        exact hn (e ▸ Multiset.mem_map_of_mem _ hx)
      obtain ⟨c', hc', hp⟩ := h.sat x hx
      exact ⟨c', by simp [Mem.set, upd, hne, hc'], hp⟩
  · intro l' hl'
    by_cases e : l' = l
    · subst e; simp [pt]
    · have := h.full l' (by simpa [Mem.set, upd, e] using hl')
      simpa [pt, e] using this
  · simp [Mem.set, upd, hl.symm, h.null]

theorem Holds.relog {g' : Log} (h : Holds g F m) : Holds g' F { m with log := g' } :=
  ⟨rfl, h.nodup, h.sat, h.full, h.null⟩

end

/-- The exact description of a memory that satisfies some assertion. -/
theorem Holds.exactAll {g : Log} {S : Asrt α} {m : Mem α} (h : Holds g S m) :
    ∃ T : Asrt α, Holds g T m ∧ ∀ g' (m' : Mem α), Holds g' T m' → m'.cell = m.cell := by
  classical
  refine ⟨S.map (fun x => (x.1, fun c => m.cell x.1 = some c)), ⟨h.log, ?_, ?_, ?_, h.null⟩, ?_⟩
  · simpa [Multiset.map_map] using h.nodup
  · intro x hx
    obtain ⟨y, hy, rfl⟩ := Multiset.mem_map.1 hx
    obtain ⟨c, hc, -⟩ := h.sat y hy
    exact ⟨c, hc, hc⟩
  · intro l hl
    have := h.full l hl
    simpa [Multiset.map_map] using this
  · intro g' m' h'
    funext l
    by_cases hl : l ∈ S.map Prod.fst
    · obtain ⟨y, hy, rfl⟩ := Multiset.mem_map.1 hl
      obtain ⟨c, hc, hp⟩ := h'.sat _ (Multiset.mem_map_of_mem _ hy)
      rw [hc]; exact hp.symm
    · have h1 : m.cell l = none := by
        by_contra hc
        exact hl (h.full l (Option.isSome_iff_ne_none.2 hc))
      have h2 : m'.cell l = none := by
        by_contra hc
        have := h'.full l (Option.isSome_iff_ne_none.2 hc)
        simp only [Multiset.map_map, Function.comp_apply] at this
        exact hl this
      rw [h1, h2]

/-! ### Moving an assertion to the front: frame inference -/

theorem pull_here {A F : Asrt α} : A + F = A + F := rfl
theorem pull_last {A : Asrt α} : A = A + 0 := by simp
theorem pull_there {X S A F : Asrt α} (h : S = A + F) : X + S = A + (X + F) := by
  rw [h]; ac_rfl
theorem pull_trans {S A S1 R : Asrt α} (h : S = A + S1) (k : S1 = R) : S = A + R := by rw [h, k]

/-- solve `S = A + ?F` where `S` is a right-nested sum containing `A` -/
syntax "pull1" : tactic
macro_rules
  | `(tactic| pull1) => `(tactic| with_reducible first
      | exact pull_here
      | exact pull_last
      | (apply pull_there; pull1))

/-- solve `S = A + (B + ... + ?F)` -/
syntax "frame" : tactic
macro_rules
  | `(tactic| frame) => `(tactic| first
      | with_reducible rfl
      | (apply pull_trans; pull1; frame)
      | ac_rfl)

/-! ### Running programs -/

/-- Normal termination. -/
theorem bind_ok {x : M α β} {f : β → M α γ} {m m' : Mem α} {v : β} (h : x m = .ok v m') :
    (x >>= f) m = f v m' := by
  show M.bind x f m = _
  simp [M.bind, h]

theorem bind_throw {x : M α β} {f : β → M α γ} {m m' : Mem α} {e : Exn} (h : x m = .throw e m') :
    (x >>= f) m = .throw e m' := by
  show M.bind x f m = _
  simp [M.bind, h]

@[simp] theorem pure_app {v : β} {m : Mem α} : (pure v : M α β) m = .ok v m := rfl

theorem pure_bind_app {v : β} {f : β → M α γ} {m : Mem α} : ((pure v : M α β) >>= f) m = f v m := rfl

theorem bind_assoc_app {δ : Type} {x : M α β} {f : β → M α γ} {k : γ → M α δ} {m : Mem α} :
    ((x >>= f) >>= k) m = (x >>= fun v => f v >>= k) m := by
  show M.bind (M.bind x f) k m = M.bind x (fun v => M.bind (f v) k) m
  simp only [M.bind]
  cases x m <;> rfl

theorem usub_ok {a b : Nat} (h : b ≤ a) (m : Mem α) : (usub a b : M α Nat) m = .ok (a - b) m := by
  simp [usub, h]

instance : LawfulMonad (M α) := LawfulMonad.mk' (M α)
  (id_map := by
    intro β x; funext m
    show M.bind x (fun a => M.pure a) m = x m
    simp only [M.bind, M.pure]; cases x m <;> rfl)
  (pure_bind := by intros; rfl)
  (bind_assoc := by
    intro β γ δ x f k; funext m
    show M.bind (M.bind x f) k m = M.bind x (fun v => M.bind (f v) k) m
    simp only [M.bind]
    cases x m <;> rfl)
  (bind_pure_comp := by intros; rfl)
  (bind_map := by intros; rfl)

end SegTree
