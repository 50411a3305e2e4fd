/-
  GENERATED by tools/gen_cost.py: the functions that only read write nothing that is
  lent and ask for no storage.
-/
import Verif.Thread.Sim
set_option autoImplicit false
set_option linter.unusedVariables false
set_option linter.unusedSimpArgs false

namespace SegTree
open Lean.Order

variable {α β γ : Type} {E : Env α}

/-- what the thread may read shows (at least) the memory `c` -/
def Th.Shows (s : Th α) (c : Mem α) : Prop :=
  ∀ l, c.cell l ≠ none → (s.own l = true ∨ s.lent l = true) ∧ s.mem.cell l = c.cell l

/-- from `s` to `s'` with at most `N` accesses, none of them changing anything -/
structure Th.Reads (N : Nat) (s s' : Th α) : Prop where
  lent : s'.lent = s.lent
  env : s'.env = s.env
  limit : s'.limit = s.limit
  step : s'.step ≤ s.step + N
  own : s'.own = s.own
  log : s'.mem.log = s.mem.log
  ticks : s'.mem.ticks = s.mem.ticks
  shown : ∀ l, s.own l = true ∨ s.lent l = true → s'.mem.cell l = s.mem.cell l

/-- The outcome among others goes with the outcome in the memory `c` alone: it is the same,
and nothing has changed; or the thread has had less than `N` accesses, or others changed
what is not theirs. -/
inductive Saw (N : Nat) (s : Th α) (c : Mem α) : Res α β → TRes α β → Prop
  | torn (r : Res α β) : Saw N s c r .torn
  | paused (s' : Th α) (r : Res α β) : s.limit < s.step + N → Saw N s c r (.paused s')
  | ok (v : β) (s' : Th α) : s.Reads N s' → Saw N s c (.ok v c) (.ok v s')
  | throw (e : Exn) (s' : Th α) : s.Reads N s' → Saw N s c (.throw e c) (.throw e s')

class Looks (x : M α β) (y : T α β) : Prop where
  run : ∀ c : Mem α, Bad (x c) ∨ ∃ N, ∀ s : Th α, s.Shows c → Saw N s c (x c) (y s)

theorem Th.Reads.refl (s : Th α) : s.Reads 0 s :=
  ⟨rfl, rfl, rfl, Nat.le_refl _, rfl, rfl, rfl, fun _ _ => rfl⟩
theorem Th.Reads.trans {N K : Nat} {s s1 s2 : Th α} (h : s.Reads N s1) (h2 : s1.Reads K s2) : s.Reads (N + K) s2 :=
  ⟨h2.lent.trans h.lent, h2.env.trans h.env, h2.limit.trans h.limit, by have := h.step; have := h2.step; omega,
    h2.own.trans h.own, h2.log.trans h.log, h2.ticks.trans h.ticks,
    fun l hl => (h2.shown l (by rw [h.lent, h.own]; exact hl)).trans (h.shown l hl)⟩
theorem Th.Reads.shows {N : Nat} {s s1 : Th α} {c : Mem α} (h : s.Reads N s1) (hc : s.Shows c) : s1.Shows c := fun l hl => by
  obtain ⟨h1, h2⟩ := hc l hl
  exact ⟨by rw [h.lent, h.own]; exact h1, (h.shown l h1).trans h2⟩
theorem Saw.from {N K : Nat} {s s1 : Th α} {c : Mem α} {r : Res α β} {r' : TRes α β} (hl : s.Reads N s1)
    (h : Saw K s1 c r r') : Saw (N + K) s c r r' := by
  cases h with
  | torn => exact .torn _
  | paused s' r h => exact .paused _ _ (by have := hl.limit; have := hl.step; omega)
  | ok v s' h => exact .ok v s' (hl.trans h)
  | throw e s' h => exact .throw e s' (hl.trans h)

namespace Looks

instance pure (v : β) : Looks (Pure.pure v : M α β) (Pure.pure v : T α β) :=
  ⟨fun _ => .inr ⟨0, fun s h => .ok _ _ (.refl s)⟩⟩
instance ub (k : UB) : Looks (M.ub k : M α β) (T.ub k : T α β) := ⟨fun _ => .inl (.inr ⟨_, rfl⟩)⟩
instance thr (e : Exn) : Looks (M.throw e : M α β) (T.throw e : T α β) :=
  ⟨fun _ => .inr ⟨0, fun s h => .throw _ _ (.refl s)⟩⟩
instance ite {c : Prop} [Decidable c] {x y : M α β} {x' y' : T α β} [Looks x x'] [Looks y y'] :
    Looks (if c then x else y) (if c then x' else y') := by
  split <;> assumption

instance bind {x : M α β} {f : β → M α γ} {y : T α β} {g : β → T α γ} [h : Looks x y] [hf : ∀ v, Looks (f v) (g v)] :
    Looks (x >>= f) (y >>= g) := by
  refine ⟨fun m => ?_⟩
  show Bad (M.bind x f m) ∨ ∃ N, ∀ s : Th α, s.Shows m → Saw N s m (M.bind x f m) (T.bind y g s)
  unfold M.bind T.bind
  rcases h.run m with (hm | ⟨u, hm⟩) | ⟨N, hN⟩
  · rw [hm]; exact .inl (.inl rfl)
  · rw [hm]; exact .inl (.inr ⟨_, rfl⟩)
  · cases hx : x m with
    | div => exact .inl (.inl rfl)
    | ub u => exact .inl (.inr ⟨_, rfl⟩)
    | throw e m1 =>
      refine .inr ⟨N, fun s hp => ?_⟩
      have := hN s hp
      rw [hx] at this
      generalize y s = r' at this
      cases this with
      | torn => exact .torn _
      | paused s' _ h => exact .paused _ _ h
      | throw e s' h => exact .throw _ s' h
    | ok v m1 =>
      by_cases e : m1 = m
      · subst e
        rcases (hf v).run m1 with (hm | ⟨u, hm⟩) | ⟨K, hK⟩
        · exact .inl (.inl hm)
        · exact .inl (.inr ⟨u, hm⟩)
        · refine .inr ⟨N + K, fun s hp => ?_⟩
          have := hN s hp
          rw [hx] at this
          generalize y s = r' at this
          cases this with
          | torn => exact .torn _
          | paused s' _ h => exact .paused _ _ (by omega)
          | ok v s' h => exact (hK s' (h.shows hp)).from h
      · refine .inr ⟨N, fun s hp => ?_⟩
        have := hN s hp
        rw [hx] at this
        generalize y s = r' at this
        cases this with
        | torn => exact .torn _
        | paused s' _ h => exact .paused _ _ h
        | ok v s' h => exact absurd rfl e

theorem reads {l : Loc} {x : M α β} (hx : ∀ m, (∃ v, x m = .ok v m) ∨ ∃ u, x m = .ub u)
    (hl : ∀ m m' : Mem α, m.cell l = m'.cell l → ∀ v, x m = .ok v m → x m' = .ok v m')
    (hn : ∀ m : Mem α, m.cell l = none → ∃ u, x m = .ub u) : Looks x (T.reads l x) := by
  refine ⟨fun m => ?_⟩
  rcases hx m with ⟨v, e⟩ | ⟨u, e⟩
  · refine .inr ⟨1, fun s h => ?_⟩
    unfold T.reads T.access
    split
    · exact .paused _ _ (by omega)
    · split
      · rename_i ha
        obtain ⟨h1, h2⟩ := h l fun hc => by
          obtain ⟨u, e'⟩ := hn m hc
          rw [e] at e'; cases e'
        have ho : (s.own l || s.lent l) = true := by rw [Bool.or_eq_true]; exact h1
        unfold T.perform
        have := hl m { s.mem with cell := s.env s.step } (by rw [← h2]; exact (ha l h1).symm) v e
        dsimp only
        rw [if_pos ho, e, this]
        exact .ok _ _ ⟨rfl, rfl, rfl, Nat.le_refl _, rfl, rfl, rfl, ha⟩
      · exact .torn _
  · exact .inl (.inr ⟨u, e⟩)

instance rdNode (p : Nat) : Looks (SegTree.rdNode p : M α Node) (Thread.rdNode p) :=
  reads (fun m => by unfold SegTree.rdNode; split <;> simp)
    (fun m m' hc v => by unfold SegTree.rdNode; rw [hc]; split <;> simp)
    (fun m hc => by unfold SegTree.rdNode; rw [hc]; exact ⟨_, rfl⟩)
instance rdSlots (p : Nat) : Looks (SegTree.rdSlots p : M α (Nat → Slot α)) (Thread.rdSlots p) :=
  reads (fun m => by unfold SegTree.rdSlots; split <;> simp)
    (fun m m' hc v => by unfold SegTree.rdSlots; rw [hc]; split <;> simp)
    (fun m hc => by unfold SegTree.rdSlots; rw [hc]; exact ⟨_, rfl⟩)
instance rdObj (o : Nat) : Looks (SegTree.rdObj o : M α SeqObj) (Thread.rdObj o) :=
  reads (fun m => by unfold SegTree.rdObj; split <;> simp)
    (fun m m' hc v => by unfold SegTree.rdObj; rw [hc]; split <;> simp)
    (fun m hc => by unfold SegTree.rdObj; rw [hc]; exact ⟨_, rfl⟩)
instance usub (a b : Nat) : Looks (SegTree.usub a b : M α Nat) (Thread.usub a b) := by
  unfold SegTree.usub Thread.usub; infer_instance

theorem admissible (y : T α β) : Lean.Order.admissible (fun x : M α β => Looks x y) := by
  have : (fun x : M α β => Looks x y) = fun x => ∀ c, (Bad (x c) ∨ ∃ N, ∀ s : Th α, s.Shows c → Saw N s c (x c) (y s)) := by
    funext x; exact propext ⟨fun h m => h.run m, fun h => ⟨fun m => h m⟩⟩
  rw [this]
  apply admissible_pi
  intro m
  exact admissible_apply (fun m r => (Bad r ∨ ∃ N, ∀ s : Th α, s.Shows m → Saw N s m r (y s))) m
    (admissible_flatOrder _ (.inl (.inl rfl)))

section
variable {ι1 ι2 ι3 ι4 ι5 ι6 ι7 : Type}
theorem adm1 (g : ι1 → T α β) : Lean.Order.admissible (fun f : ι1 → M α β => ∀ a, Looks (f a) (g a)) :=
  admissible_pi _ fun a => admissible_apply (fun a y => Looks y (g a)) a (admissible _)
theorem adm2 (g : ι1 → ι2 → T α β) :
    Lean.Order.admissible (fun f : ι1 → ι2 → M α β => ∀ a1 a2, Looks (f a1 a2) (g a1 a2)) :=
  admissible_pi _ fun a => admissible_apply (fun (a : ι1) (f : ι2 → M α β) => ∀ a2, Looks (f a2) (g a a2)) a (adm1 _)
theorem adm3 (g : ι1 → ι2 → ι3 → T α β) :
    Lean.Order.admissible (fun f : ι1 → ι2 → ι3 → M α β => ∀ a1 a2 a3, Looks (f a1 a2 a3) (g a1 a2 a3)) :=
  admissible_pi _ fun a => admissible_apply
    (fun (a : ι1) (f : ι2 → ι3 → M α β) => ∀ a2 a3, Looks (f a2 a3) (g a a2 a3)) a (adm2 _)
theorem adm4 (g : ι1 → ι2 → ι3 → ι4 → T α β) :
    Lean.Order.admissible (fun f : ι1 → ι2 → ι3 → ι4 → M α β => ∀ a1 a2 a3 a4, Looks (f a1 a2 a3 a4) (g a1 a2 a3 a4)) :=
  admissible_pi _ fun a => admissible_apply
    (fun (a : ι1) (f : ι2 → ι3 → ι4 → M α β) => ∀ a2 a3 a4, Looks (f a2 a3 a4) (g a a2 a3 a4)) a (adm3 _)
theorem adm5 (g : ι1 → ι2 → ι3 → ι4 → ι5 → T α β) :
    Lean.Order.admissible (fun f : ι1 → ι2 → ι3 → ι4 → ι5 → M α β =>
      ∀ a1 a2 a3 a4 a5, Looks (f a1 a2 a3 a4 a5) (g a1 a2 a3 a4 a5)) :=
  admissible_pi _ fun a => admissible_apply
    (fun (a : ι1) (f : ι2 → ι3 → ι4 → ι5 → M α β) => ∀ a2 a3 a4 a5, Looks (f a2 a3 a4 a5) (g a a2 a3 a4 a5)) a (adm4 _)
theorem adm6 (g : ι1 → ι2 → ι3 → ι4 → ι5 → ι6 → T α β) :
    Lean.Order.admissible (fun f : ι1 → ι2 → ι3 → ι4 → ι5 → ι6 → M α β =>
      ∀ a1 a2 a3 a4 a5 a6, Looks (f a1 a2 a3 a4 a5 a6) (g a1 a2 a3 a4 a5 a6)) :=
  admissible_pi _ fun a => admissible_apply
    (fun (a : ι1) (f : ι2 → ι3 → ι4 → ι5 → ι6 → M α β) =>
      ∀ a2 a3 a4 a5 a6, Looks (f a2 a3 a4 a5 a6) (g a a2 a3 a4 a5 a6)) a (adm5 _)
end

set_option synthInstance.maxSize 2000
set_option synthInstance.maxHeartbeats 400000

/-- walk through both programs in parallel -/
macro "looks" : tactic => `(tactic| repeat' first
  | infer_instance
  | (intro (_ : Nat))
  | dsimp (failIfUnchanged := true) only
  | (refine Looks.bind (h := ?_) (hf := ?_))
  | (refine Looks.onLooksow (hx := ?_) (hh := ?_))
  | (split <;> simp (failIfUnchanged := true) only [*, ↓reduceIte])
  | split
  | intro _)

instance len (p : Nat) : Looks (SegTree.len p : M α Nat) (Thread.len p) := by
  unfold SegTree.len Thread.len; looks
instance parent (p : Nat) : Looks (SegTree.parent p : M α Nat) (Thread.parent p) := by
  unfold SegTree.parent Thread.parent; looks
instance pidx (p : Nat) : Looks (SegTree.pidx p : M α Nat) (Thread.pidx p) := by
  unfold SegTree.pidx Thread.pidx; looks
instance sizesAt (p : Nat) (i : Nat) : Looks (SegTree.sizesAt E p i : M α Nat) (Thread.sizesAt E p i) := by
  unfold SegTree.sizesAt Thread.sizesAt; looks
instance ptrsAt (p : Nat) (i : Nat) : Looks (SegTree.ptrsAt E p i : M α Nat) (Thread.ptrsAt E p i) := by
  unfold SegTree.ptrsAt Thread.ptrsAt; looks
instance rdElem (p : Nat) (i : Nat) : Looks (SegTree.rdElem E p i : M α α) (Thread.rdElem E p i) := by
  unfold SegTree.rdElem Thread.rdElem; looks
instance getRoot (o : Nat) : Looks (SegTree.getRoot o : M α Nat) (Thread.getRoot o) := by
  unfold SegTree.getRoot Thread.getRoot; looks
instance getSize (o : Nat) : Looks (SegTree.getSize o : M α Nat) (Thread.getSize o) := by
  unfold SegTree.getSize Thread.getSize; looks
instance getHeight (o : Nat) : Looks (SegTree.getHeight o : M α Nat) (Thread.getHeight o) := by
  unfold SegTree.getHeight Thread.getHeight; looks
instance find_index_loop (p : Nat) (index : Nat) (size : Nat) (pos : Nat) : Looks (SegTree.find_index_loop E p index size pos : M α (Nat × Nat)) (Thread.find_index_loop E p index size pos) := by
  revert index size pos
  refine SegTree.find_index_loop.fixpoint_induct E p (fun f => ∀ (index : Nat) (size : Nat) (pos : Nat), Looks (f index size pos) (Thread.find_index_loop E p index size pos)) (adm3 _) ?_
  intro f ih index size pos
  unfold Thread.find_index_loop; looks
instance find_index_leaf (p : Nat) (pos : Nat) : Looks (SegTree.find_index_leaf E p pos : M α Entry) (Thread.find_index_leaf E p pos) := by
  unfold SegTree.find_index_leaf Thread.find_index_leaf; looks
instance find_index_branch (p : Nat) (ht : Nat) (pos : Nat) : Looks (SegTree.find_index_branch E p ht pos : M α Entry) (Thread.find_index_branch E p ht pos) := by
  revert p ht pos
  refine SegTree.find_index_branch.fixpoint_induct E (fun f => ∀ (p : Nat) (ht : Nat) (pos : Nat), Looks (f p ht pos) (Thread.find_index_branch E p ht pos)) (adm3 _) ?_
  intro f ih p ht pos
  unfold Thread.find_index_branch; looks
instance find_index_node (p : Nat) (ht : Nat) (pos : Nat) : Looks (SegTree.find_index_node E p ht pos : M α Entry) (Thread.find_index_node E p ht pos) := by
  unfold SegTree.find_index_node Thread.find_index_node; looks
instance find_index_root (p : Nat) (sz : Nat) (ht : Nat) (pos : Nat) : Looks (SegTree.find_index_root E p sz ht pos : M α Iter) (Thread.find_index_root E p sz ht pos) := by
  unfold SegTree.find_index_root Thread.find_index_root; looks
instance find_first_leaf (p : Nat) : Looks (SegTree.find_first_leaf E p : M α Entry) (Thread.find_first_leaf E p) := by
  unfold SegTree.find_first_leaf Thread.find_first_leaf; looks
instance find_first_branch (p : Nat) (ht : Nat) : Looks (SegTree.find_first_branch E p ht : M α Entry) (Thread.find_first_branch E p ht) := by
  revert p ht
  refine SegTree.find_first_branch.fixpoint_induct E (fun f => ∀ (p : Nat) (ht : Nat), Looks (f p ht) (Thread.find_first_branch E p ht)) (adm2 _) ?_
  intro f ih p ht
  unfold Thread.find_first_branch; looks
instance find_first_node (p : Nat) (ht : Nat) : Looks (SegTree.find_first_node E p ht : M α Entry) (Thread.find_first_node E p ht) := by
  unfold SegTree.find_first_node Thread.find_first_node; looks
instance find_first_root (p : Nat) (sz : Nat) (ht : Nat) : Looks (SegTree.find_first_root E p sz ht : M α Iter) (Thread.find_first_root E p sz ht) := by
  unfold SegTree.find_first_root Thread.find_first_root; looks
instance find_last_segment (p : Nat) (sz : Nat) : Looks (SegTree.find_last_segment p sz : M α SegE) (Thread.find_last_segment p sz) := by
  unfold SegTree.find_last_segment Thread.find_last_segment; looks
instance find_last_leaf (p : Nat) : Looks (SegTree.find_last_leaf E p : M α Entry) (Thread.find_last_leaf E p) := by
  unfold SegTree.find_last_leaf Thread.find_last_leaf; looks
instance find_last_branch (p : Nat) (ht : Nat) : Looks (SegTree.find_last_branch E p ht : M α Entry) (Thread.find_last_branch E p ht) := by
  revert p ht
  refine SegTree.find_last_branch.fixpoint_induct E (fun f => ∀ (p : Nat) (ht : Nat), Looks (f p ht) (Thread.find_last_branch E p ht)) (adm2 _) ?_
  intro f ih p ht
  unfold Thread.find_last_branch; looks
instance find_last_node (p : Nat) (ht : Nat) : Looks (SegTree.find_last_node E p ht : M α Entry) (Thread.find_last_node E p ht) := by
  unfold SegTree.find_last_node Thread.find_last_node; looks
instance find_last_root (p : Nat) (sz : Nat) (ht : Nat) : Looks (SegTree.find_last_root E p sz ht : M α Iter) (Thread.find_last_root E p sz ht) := by
  unfold SegTree.find_last_root Thread.find_last_root; looks
instance find_end_leaf (p : Nat) : Looks (SegTree.find_end_leaf E p : M α Entry) (Thread.find_end_leaf E p) := by
  unfold SegTree.find_end_leaf Thread.find_end_leaf; looks
instance find_end_branch (p : Nat) (ht : Nat) : Looks (SegTree.find_end_branch E p ht : M α Entry) (Thread.find_end_branch E p ht) := by
  revert p ht
  refine SegTree.find_end_branch.fixpoint_induct E (fun f => ∀ (p : Nat) (ht : Nat), Looks (f p ht) (Thread.find_end_branch E p ht)) (adm2 _) ?_
  intro f ih p ht
  unfold Thread.find_end_branch; looks
instance find_end_node (p : Nat) (ht : Nat) : Looks (SegTree.find_end_node E p ht : M α Entry) (Thread.find_end_node E p ht) := by
  unfold SegTree.find_end_node Thread.find_end_node; looks
instance find_end_root (p : Nat) (sz : Nat) (ht : Nat) : Looks (SegTree.find_end_root E p sz ht : M α Iter) (Thread.find_end_root E p sz ht) := by
  unfold SegTree.find_end_root Thread.find_end_root; looks
instance move_next_branch (e : Entry) (p : Nat) (index : Nat) (child_ht : Nat) : Looks (SegTree.move_next_branch E e p index child_ht : M α Entry) (Thread.move_next_branch E e p index child_ht) := by
  revert p index child_ht
  refine SegTree.move_next_branch.fixpoint_induct E e (fun f => ∀ (p : Nat) (index : Nat) (child_ht : Nat), Looks (f p index child_ht) (Thread.move_next_branch E e p index child_ht)) (adm3 _) ?_
  intro f ih p index child_ht
  unfold Thread.move_next_branch; looks
instance move_next_leaf (e : Entry) : Looks (SegTree.move_next_leaf E e : M α Entry) (Thread.move_next_leaf E e) := by
  unfold SegTree.move_next_leaf Thread.move_next_leaf; looks
instance move_next_segment (e : Entry) : Looks (SegTree.move_next_segment E e : M α Entry) (Thread.move_next_segment E e) := by
  unfold SegTree.move_next_segment Thread.move_next_segment; looks
instance move_next_iterator (it : Iter) : Looks (SegTree.move_next_iterator E it : M α Iter) (Thread.move_next_iterator E it) := by
  unfold SegTree.move_next_iterator Thread.move_next_iterator; looks
instance move_prev_branch (p : Nat) (index : Nat) (child_ht : Nat) : Looks (SegTree.move_prev_branch E p index child_ht : M α Entry) (Thread.move_prev_branch E p index child_ht) := by
  revert p index child_ht
  refine SegTree.move_prev_branch.fixpoint_induct E (fun f => ∀ (p : Nat) (index : Nat) (child_ht : Nat), Looks (f p index child_ht) (Thread.move_prev_branch E p index child_ht)) (adm3 _) ?_
  intro f ih p index child_ht
  unfold Thread.move_prev_branch; looks
instance move_prev_leaf (e : Entry) : Looks (SegTree.move_prev_leaf E e : M α Entry) (Thread.move_prev_leaf E e) := by
  unfold SegTree.move_prev_leaf Thread.move_prev_leaf; looks
instance move_prev_segment (e : Entry) : Looks (SegTree.move_prev_segment E e : M α Entry) (Thread.move_prev_segment E e) := by
  unfold SegTree.move_prev_segment Thread.move_prev_segment; looks
instance move_prev_iterator (it : Iter) : Looks (SegTree.move_prev_iterator E it : M α Iter) (Thread.move_prev_iterator E it) := by
  unfold SegTree.move_prev_iterator Thread.move_prev_iterator; looks
instance scan_next (p : Nat) (index : Nat) (count : Nat) : Looks (SegTree.scan_next E p index count : M α ((Nat × Nat × Nat) ⊕ Nat)) (Thread.scan_next E p index count) := by
  revert index count
  refine SegTree.scan_next.fixpoint_induct E p (fun f => ∀ (index : Nat) (count : Nat), Looks (f index count) (Thread.scan_next E p index count)) (adm2 _) ?_
  intro f ih index count
  unfold Thread.scan_next; looks
instance move_next_branch_count (base : Nat) (p : Nat) (index : Nat) (count : Nat) (child_ht : Nat) : Looks (SegTree.move_next_branch_count E base p index count child_ht : M α Entry) (Thread.move_next_branch_count E base p index count child_ht) := by
  revert base p index count child_ht
  refine SegTree.move_next_branch_count.fixpoint_induct E (fun f => ∀ (base : Nat) (p : Nat) (index : Nat) (count : Nat) (child_ht : Nat), Looks (f base p index count child_ht) (Thread.move_next_branch_count E base p index count child_ht)) (adm5 _) ?_
  intro f ih base p index count child_ht
  unfold Thread.move_next_branch_count; looks
instance move_next_leaf_count (e : Entry) (count : Nat) : Looks (SegTree.move_next_leaf_count E e count : M α Entry) (Thread.move_next_leaf_count E e count) := by
  unfold SegTree.move_next_leaf_count Thread.move_next_leaf_count; looks
instance move_next_segment_count (e : Entry) (count : Nat) : Looks (SegTree.move_next_segment_count E e count : M α Entry) (Thread.move_next_segment_count E e count) := by
  unfold SegTree.move_next_segment_count Thread.move_next_segment_count; looks
instance move_next_iterator_count (it : Iter) (count : Nat) : Looks (SegTree.move_next_iterator_count E it count : M α Iter) (Thread.move_next_iterator_count E it count) := by
  unfold SegTree.move_next_iterator_count Thread.move_next_iterator_count; looks
instance scan_prev (p : Nat) (index : Nat) (count : Nat) : Looks (SegTree.scan_prev E p index count : M α ((Nat × Nat × Nat) ⊕ Nat)) (Thread.scan_prev E p index count) := by
  revert index count
  refine SegTree.scan_prev.fixpoint_induct E p (fun f => ∀ (index : Nat) (count : Nat), Looks (f index count) (Thread.scan_prev E p index count)) (adm2 _) ?_
  intro f ih index count
  unfold Thread.scan_prev; looks
instance move_prev_branch_count (p : Nat) (index : Nat) (count : Nat) (child_ht : Nat) : Looks (SegTree.move_prev_branch_count E p index count child_ht : M α Entry) (Thread.move_prev_branch_count E p index count child_ht) := by
  revert p index count child_ht
  refine SegTree.move_prev_branch_count.fixpoint_induct E (fun f => ∀ (p : Nat) (index : Nat) (count : Nat) (child_ht : Nat), Looks (f p index count child_ht) (Thread.move_prev_branch_count E p index count child_ht)) (adm4 _) ?_
  intro f ih p index count child_ht
  unfold Thread.move_prev_branch_count; looks
instance move_prev_leaf_count (e : Entry) (count : Nat) : Looks (SegTree.move_prev_leaf_count E e count : M α Entry) (Thread.move_prev_leaf_count E e count) := by
  unfold SegTree.move_prev_leaf_count Thread.move_prev_leaf_count; looks
instance move_prev_segment_count (e : Entry) (count : Nat) : Looks (SegTree.move_prev_segment_count E e count : M α Entry) (Thread.move_prev_segment_count E e count) := by
  unfold SegTree.move_prev_segment_count Thread.move_prev_segment_count; looks
instance move_prev_iterator_count (it : Iter) (count : Nat) : Looks (SegTree.move_prev_iterator_count E it count : M α Iter) (Thread.move_prev_iterator_count E it count) := by
  unfold SegTree.move_prev_iterator_count Thread.move_prev_iterator_count; looks
instance move_iterator_count (it : Iter) (diff : Int) : Looks (SegTree.move_iterator_count E it diff : M α Iter) (Thread.move_iterator_count E it diff) := by
  unfold SegTree.move_iterator_count Thread.move_iterator_count; looks
instance dereference (it : Iter) : Looks (SegTree.dereference E it : M α α) (Thread.dereference E it) := by
  unfold SegTree.dereference Thread.dereference; looks
instance dereference_count (it : Iter) (diff : Int) : Looks (SegTree.dereference_count E it diff : M α α) (Thread.dereference_count E it diff) := by
  unfold SegTree.dereference_count Thread.dereference_count; looks
instance move_after_segment (it : Iter) : Looks (SegTree.move_after_segment E it : M α Iter) (Thread.move_after_segment E it) := by
  unfold SegTree.move_after_segment Thread.move_after_segment; looks
instance move_after_segment_count (it : Iter) (count : Nat) : Looks (SegTree.move_after_segment_count E it count : M α Iter) (Thread.move_after_segment_count E it count) := by
  unfold SegTree.move_after_segment_count Thread.move_after_segment_count; looks
instance move_before_segment (it : Iter) : Looks (SegTree.move_before_segment E it : M α Iter) (Thread.move_before_segment E it) := by
  unfold SegTree.move_before_segment Thread.move_before_segment; looks
instance move_before_segment_count (it : Iter) (count : Nat) : Looks (SegTree.move_before_segment_count E it count : M α Iter) (Thread.move_before_segment_count E it count) := by
  unfold SegTree.move_before_segment_count Thread.move_before_segment_count; looks
instance destroy_node (p : Nat) (i : Nat) : Looks (SegTree.destroy_node E p i : M α Unit) (Thread.destroy_node E p i) := by
  unfold SegTree.destroy_node Thread.destroy_node; looks
instance forN (f : Nat → M α Unit) (g : Nat → T α Unit) (n i : Nat) [hf : ∀ i, Looks (f i) (g i)] :
    Looks (SegTree.forN f n i) (Thread.forN g n i) := by
  induction n generalizing i with
  | zero => exact pure _
  | succ n ih => exact bind (hf := fun _ => ih _)
instance range_loop (step : Nat → Nat → M α Nat) (stepc : Nat → Nat → T α Nat) (src last dst acc : Nat)
    [hs : ∀ i j, Looks (step i j) (stepc i j)] :
    Looks (SegTree.range_loop step src last dst acc) (Thread.range_loop stepc src last dst acc) := by
  revert src dst acc
  refine SegTree.range_loop.fixpoint_induct step last (fun f => ∀ src dst acc, Looks (f src dst acc)
    (Thread.range_loop stepc src last dst acc)) (adm3 _) ?_
  intro f ih src dst acc
  unfold Thread.range_loop; looks
instance forward_loop (step : Nat → Nat → M α Unit) (stepc : Nat → Nat → T α Unit) (first src dst : Nat)
    [hs : ∀ i j, Looks (step i j) (stepc i j)] :
    Looks (SegTree.forward_loop step first src dst) (Thread.forward_loop stepc first src dst) := by
  revert src dst
  refine SegTree.forward_loop.fixpoint_induct step first (fun f => ∀ src dst, Looks (f src dst)
    (Thread.forward_loop stepc first src dst)) (adm2 _) ?_
  intro f ih src dst
  unfold Thread.forward_loop; looks
instance backward_loop (step : Nat → Nat → M α Unit) (stepc : Nat → Nat → T α Unit) (src dst last : Nat)
    [hs : ∀ i j, Looks (step i j) (stepc i j)] :
    Looks (SegTree.backward_loop step src dst last) (Thread.backward_loop stepc src dst last) := by
  revert src dst
  refine SegTree.backward_loop.fixpoint_induct step last (fun f => ∀ src dst, Looks (f src dst)
    (Thread.backward_loop stepc src dst last)) (adm2 _) ?_
  intro f ih src dst
  unfold Thread.backward_loop; looks
instance find_index (o : Nat) (pos : Nat) : Looks (SegTree.find_index E o pos : M α Iter) (Thread.find_index E o pos) := by
  unfold SegTree.find_index Thread.find_index; looks
instance find_first (o : Nat) : Looks (SegTree.find_first E o : M α Iter) (Thread.find_first E o) := by
  unfold SegTree.find_first Thread.find_first; looks
instance find_last (o : Nat) : Looks (SegTree.find_last E o : M α Iter) (Thread.find_last E o) := by
  unfold SegTree.find_last Thread.find_last; looks
instance find_end (o : Nat) : Looks (SegTree.find_end E o : M α Iter) (Thread.find_end E o) := by
  unfold SegTree.find_end Thread.find_end; looks
instance at_ (o : Nat) (pos : Nat) : Looks (SegTree.at_ E o pos : M α α) (Thread.at_ E o pos) := by
  unfold SegTree.at_ Thread.at_; looks
instance index_op (o : Nat) (pos : Nat) : Looks (SegTree.index_op E o pos : M α α) (Thread.index_op E o pos) := by
  unfold SegTree.index_op Thread.index_op; looks
instance front (o : Nat) : Looks (SegTree.front E o : M α α) (Thread.front E o) := by
  unfold SegTree.front Thread.front; looks
instance back (o : Nat) : Looks (SegTree.back E o : M α α) (Thread.back E o) := by
  unfold SegTree.back Thread.back; looks
instance begin_ (o : Nat) : Looks (SegTree.begin_ E o : M α Iter) (Thread.begin_ E o) := by
  unfold SegTree.begin_ Thread.begin_; looks
instance penultimate (o : Nat) : Looks (SegTree.penultimate E o : M α Iter) (Thread.penultimate E o) := by
  unfold SegTree.penultimate Thread.penultimate; looks
instance end_ (o : Nat) : Looks (SegTree.end_ E o : M α Iter) (Thread.end_ E o) := by
  unfold SegTree.end_ Thread.end_; looks
instance rev_deref (it : Iter) : Looks (SegTree.rev_deref E it : M α α) (Thread.rev_deref E it) := by
  unfold SegTree.rev_deref Thread.rev_deref; looks
instance nth (o : Nat) (pos : Nat) : Looks (SegTree.nth E o pos : M α Iter) (Thread.nth E o pos) := by
  unfold SegTree.nth Thread.nth; looks
instance empty (o : Nat) : Looks (SegTree.empty o : M α Bool) (Thread.empty o) := by
  unfold SegTree.empty Thread.empty; looks
instance size (o : Nat) : Looks (SegTree.size o : M α Nat) (Thread.size o) := by
  unfold SegTree.size Thread.size; looks
instance height (o : Nat) : Looks (SegTree.height o : M α Nat) (Thread.height o) := by
  unfold SegTree.height Thread.height; looks
instance get_allocator (o : Nat) : Looks (SegTree.get_allocator o : M α Nat) (Thread.get_allocator o) := by
  unfold SegTree.get_allocator Thread.get_allocator; looks
instance read_range (first : Iter) (last : Iter) : Looks (SegTree.read_range E first last : M α (List α)) (Thread.read_range E first last) := by
  revert first
  refine SegTree.read_range.fixpoint_induct E last (fun f => ∀ (first : Iter), Looks (f first) (Thread.read_range E first last)) (adm1 _) ?_
  intro f ih first
  unfold Thread.read_range; looks
instance std_find_if (p : α → Bool) (first : Iter) (last : Iter) : Looks (SegTree.std_find_if E p first last : M α Iter) (Thread.std_find_if E p first last) := by
  revert first
  refine SegTree.std_find_if.fixpoint_induct E p last (fun f => ∀ (first : Iter), Looks (f first) (Thread.std_find_if E p first last)) (adm1 _) ?_
  intro f ih first
  unfold Thread.std_find_if; looks
instance std_equal (eq : α → α → Bool) (first1 : Iter) (last1 : Iter) (first2 : Iter) : Looks (SegTree.std_equal E eq first1 last1 first2 : M α Bool) (Thread.std_equal E eq first1 last1 first2) := by
  revert first1 first2
  refine SegTree.std_equal.fixpoint_induct E eq last1 (fun f => ∀ (first1 : Iter) (first2 : Iter), Looks (f first1 first2) (Thread.std_equal E eq first1 last1 first2)) (adm2 _) ?_
  intro f ih first1 first2
  unfold Thread.std_equal; looks
instance op_eq (eq : α → α → Bool) (a : Nat) (b : Nat) : Looks (SegTree.op_eq E eq a b : M α Bool) (Thread.op_eq E eq a b) := by
  unfold SegTree.op_eq Thread.op_eq; looks
instance op_ne (eq : α → α → Bool) (a : Nat) (b : Nat) : Looks (SegTree.op_ne E eq a b : M α Bool) (Thread.op_ne E eq a b) := by
  unfold SegTree.op_ne Thread.op_ne; looks
instance std_lex (lt : α → α → Bool) (first1 : Iter) (last1 : Iter) (first2 : Iter) (last2 : Iter) : Looks (SegTree.std_lex E lt first1 last1 first2 last2 : M α Bool) (Thread.std_lex E lt first1 last1 first2 last2) := by
  revert first1 first2
  refine SegTree.std_lex.fixpoint_induct E lt last1 last2 (fun f => ∀ (first1 : Iter) (first2 : Iter), Looks (f first1 first2) (Thread.std_lex E lt first1 last1 first2 last2)) (adm2 _) ?_
  intro f ih first1 first2
  unfold Thread.std_lex; looks
instance op_lt (lt : α → α → Bool) (a : Nat) (b : Nat) : Looks (SegTree.op_lt E lt a b : M α Bool) (Thread.op_lt E lt a b) := by
  unfold SegTree.op_lt Thread.op_lt; looks
instance op_le (lt : α → α → Bool) (a : Nat) (b : Nat) : Looks (SegTree.op_le E lt a b : M α Bool) (Thread.op_le E lt a b) := by
  unfold SegTree.op_le Thread.op_le; looks
instance op_gt (lt : α → α → Bool) (a : Nat) (b : Nat) : Looks (SegTree.op_gt E lt a b : M α Bool) (Thread.op_gt E lt a b) := by
  unfold SegTree.op_gt Thread.op_gt; looks
instance op_ge (lt : α → α → Bool) (a : Nat) (b : Nat) : Looks (SegTree.op_ge E lt a b : M α Bool) (Thread.op_ge E lt a b) := by
  unfold SegTree.op_ge Thread.op_ge; looks
instance it_add (it : Iter) (d : Int) : Looks (SegTree.it_add E it d : M α Iter) (Thread.it_add E it d) := by
  unfold SegTree.it_add Thread.it_add; looks
instance it_sub (it : Iter) (d : Int) : Looks (SegTree.it_sub E it d : M α Iter) (Thread.it_sub E it d) := by
  unfold SegTree.it_sub Thread.it_sub; looks
instance it_index (it : Iter) (d : Int) : Looks (SegTree.it_index E it d : M α α) (Thread.it_index E it d) := by
  unfold SegTree.it_index Thread.it_index; looks

end Looks
end SegTree
