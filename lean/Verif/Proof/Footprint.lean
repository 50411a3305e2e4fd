/-
  What a call does not touch: cells outside the containers it names, and the
  whole heap for calls that only exchange pointers.
-/
import Verif.Proof.Blocks
set_option autoImplicit false

namespace SegTree
variable {α β γ : Type} {E : Env α} {g : Log} {A F : Asrt α} {m m' : Mem α}

/-- the frame can be taken to pin every cell it speaks of -/
theorem Holds.pinR (h : Holds g (A + F) m) :
    ∃ F' : Asrt α, Holds g (A + F') m ∧ Ent F' F ∧ F'.map Prod.fst = F.map Prod.fst ∧
      ∀ g' B (m' : Mem α), Holds g' (B + F') m' → ∀ l ∈ F.map Prod.fst, m'.cell l = m.cell l := by
  classical
  have hF : ∀ x ∈ F, ∃ c, m.cell x.1 = some c ∧ x.2 c := fun x hx => h.sat x (Multiset.mem_add.2 (.inr hx))
  have hl : (F.map (fun x => (x.1, fun c => m.cell x.1 = some c) : Loc × (Cell α → Prop) → Loc × (Cell α → Prop))).map
      Prod.fst = F.map Prod.fst := by rw [Multiset.map_map]; rfl
  refine ⟨F.map (fun x => (x.1, fun c => m.cell x.1 = some c)), ⟨h.log, ?_, ?_, ?_, h.null⟩, ?_, hl, ?_⟩
  · rw [Multiset.map_add, hl, ← Multiset.map_add]; exact h.nodup
  · intro x hx
    rcases Multiset.mem_add.1 hx with hx | hx
    · exact h.sat x (Multiset.mem_add.2 (.inl hx))
    · obtain ⟨y, hy, rfl⟩ := Multiset.mem_map.1 hx
      obtain ⟨c, hc, -⟩ := hF y hy
      exact ⟨c, hc, hc⟩
  · intro l hl'
    rw [Multiset.map_add, hl, ← Multiset.map_add]; exact h.full l hl'
  · intro g' G m' h'
    refine ⟨h'.log, ?_, ?_, ?_, h'.null⟩
    · have := h'.nodup
      rwa [Multiset.map_add, hl, ← Multiset.map_add] at this
    · intro x hx
      rcases Multiset.mem_add.1 hx with hx | hx
      · obtain ⟨c, hc, hp⟩ := h'.sat (x.1, fun c => m.cell x.1 = some c)
          (Multiset.mem_add.2 (.inl (Multiset.mem_map_of_mem _ hx)))
        obtain ⟨c', hc', hp'⟩ := hF x hx
        dsimp only at hc hp
        rw [hc'] at hp
        injection hp with hp
        subst hp
        exact ⟨c', hc, hp'⟩
      · exact h'.sat x (Multiset.mem_add.2 (.inr hx))
    · intro l hl'
      have := h'.full l hl'
      rwa [Multiset.map_add, hl, ← Multiset.map_add] at this
  · intro g' B m' h' l hl'
    obtain ⟨x, hx, rfl⟩ := Multiset.mem_map.1 hl'
    obtain ⟨c, hc, hp⟩ := h'.sat (x.1, fun c => m.cell x.1 = some c)
      (Multiset.mem_add.2 (.inr (Multiset.mem_map_of_mem _ hx)))
    exact hc.trans hp.symm

/-! ### Calls that leave the heap alone -/

/-- a statement that, when it completes, has changed no heap cell and made no request -/
def HeapSame (x : M α β) : Prop := ∀ m v m', x m = .ok v m' → (∀ a, m'.cell (.heap a) = m.cell (.heap a)) ∧ m'.log = m.log

theorem HeapSame.bind {x : M α β} {f : β → M α γ} (hx : HeapSame x) (hf : ∀ v, HeapSame (f v)) :
    HeapSame (x >>= f) := by
  intro m v m' h
  change M.bind x f m = _ at h
  unfold M.bind at h
  cases hm : x m with
  | ok w m1 =>
    rw [hm] at h
    obtain ⟨h1, h2⟩ := hx _ _ _ hm
    obtain ⟨h3, h4⟩ := hf w _ _ _ h
    exact ⟨fun a => (h3 a).trans (h1 a), h4.trans h2⟩
  | throw e m1 => rw [hm] at h; cases h
  | ub k => rw [hm] at h; cases h
  | div => rw [hm] at h; cases h
theorem HeapSame.pure (v : β) : HeapSame (pure v : M α β) := by
  intro m w m' h; cases h; exact ⟨fun _ => rfl, rfl⟩
theorem HeapSame.rdObj (o : Nat) : HeapSame (rdObj o : M α SeqObj) := by
  intro m v m' h
  unfold SegTree.rdObj at h
  split at h <;> cases h
  exact ⟨fun _ => rfl, rfl⟩
theorem HeapSame.wrObj (o : Nat) (s : SeqObj) : HeapSame (wrObj o s : M α Unit) := by
  intro m v m' h
  unfold SegTree.wrObj at h
  split at h <;> cases h
  exact ⟨fun a => by simp [Mem.set, upd], rfl⟩
theorem HeapSame.ctor (o al : Nat) : HeapSame (ctor o al : M α Unit) := by
  intro m v m' h
  unfold SegTree.ctor at h
  split at h <;> cases h
  exact ⟨fun a => by simp [Mem.set, upd], rfl⟩

theorem HeapSame.getRoot (o : Nat) : HeapSame (getRoot o : M α Nat) := (HeapSame.rdObj o).bind fun _ => .pure _
theorem HeapSame.getSize (o : Nat) : HeapSame (getSize o : M α Nat) := (HeapSame.rdObj o).bind fun _ => .pure _
theorem HeapSame.getHeight (o : Nat) : HeapSame (getHeight o : M α Nat) := (HeapSame.rdObj o).bind fun _ => .pure _
theorem HeapSame.setRoot (o v : Nat) : HeapSame (setRoot o v : M α Unit) := (HeapSame.rdObj o).bind fun _ => .wrObj _ _
theorem HeapSame.setSize (o v : Nat) : HeapSame (setSize o v : M α Unit) := (HeapSame.rdObj o).bind fun _ => .wrObj _ _
theorem HeapSame.setHeight (o v : Nat) : HeapSame (setHeight o v : M α Unit) := (HeapSame.rdObj o).bind fun _ => .wrObj _ _

theorem HeapSame.ctor_move (o p : Nat) : HeapSame (ctor_move o p : M α Unit) :=
  (HeapSame.rdObj p).bind fun _ => (HeapSame.ctor o _).bind fun _ => (HeapSame.wrObj o _).bind fun _ =>
    (HeapSame.setRoot p 0).bind fun _ => (HeapSame.setHeight p 0).bind fun _ => .setSize p 0
theorem HeapSame.steal (o p : Nat) : HeapSame (steal o p : M α Unit) :=
  (HeapSame.getRoot p).bind fun _ => (HeapSame.setRoot o _).bind fun _ => (HeapSame.getHeight p).bind fun _ =>
    (HeapSame.setHeight o _).bind fun _ => (HeapSame.getSize p).bind fun _ => (HeapSame.setSize o _).bind fun _ =>
    (HeapSame.setRoot p 0).bind fun _ => (HeapSame.setHeight p 0).bind fun _ => .setSize p 0
theorem HeapSame.move_assign_alloc (o p : Nat) : HeapSame (move_assign_alloc E o p) := by
  unfold SegTree.move_assign_alloc
  split
  · exact (HeapSame.rdObj p).bind fun _ => (HeapSame.rdObj o).bind fun _ => .wrObj _ _
  · exact .pure _
theorem HeapSame.swap (o p : Nat) : HeapSame (swap E o p) := by
  unfold SegTree.swap
  refine (HeapSame.rdObj o).bind fun _ => (HeapSame.rdObj p).bind fun _ => (HeapSame.wrObj o _).bind fun _ =>
    (HeapSame.rdObj p).bind fun _ => (HeapSame.wrObj p _).bind fun _ => ?_
  split
  · exact (HeapSame.rdObj o).bind fun _ => (HeapSame.rdObj p).bind fun _ => (HeapSame.wrObj o _).bind fun _ =>
      (HeapSame.rdObj p).bind fun _ => .wrObj p _
  · exact .pure _

/-! ### Containers a call does not name -/

/-- every cell of container `o` is the same -/
def SameCells (o : Nat) (m m' : Mem α) : Prop :=
  m'.cell (.obj o) = m.cell (.obj o) ∧ ∀ h a sz, Block m o h a sz → m'.cell (.heap a) = m.cell (.heap a)

theorem Rep.cells {S : Bank α} {B B' : Asrt α} {g' : Log} {o : Nat} (hR : Rep E S F)
    (H : Holds g (B + F) m) (H' : Holds g' (B' + F) m')
    (hs : ∀ l ∈ F.map Prod.fst, m'.cell l = m.cell l)
    (hB : Loc.obj o ∉ B.map Prod.fst) (hB' : Loc.obj o ∉ B'.map Prod.fst) : SameCells o m m' := by
  cases ho : S o with
  | none =>
    have h1 : m.cell (.obj o) = none := H.dead (by
      rw [Multiset.map_add, Multiset.mem_add]; exact fun h => h.elim hB (hR.dead ho))
    have h2 : m'.cell (.obj o) = none := H'.dead (by
      rw [Multiset.map_add, Multiset.mem_add]; exact fun h => h.elim hB' (hR.dead ho))
    exact ⟨by rw [h1, h2], fun h a sz hb => absurd h1 (block_obj hb)⟩
  | some x =>
    obtain ⟨s, A', -, -, rfl, -⟩ := hR.split ho
    have hloc : ∀ l ∈ (cont E o x.alloc s).map Prod.fst, m'.cell l = m.cell l := fun l hl => hs l (by
      rw [Multiset.map_add, Multiset.mem_add]; exact .inl hl)
    refine ⟨hloc _ (by simp [cont, Ob, pt]), fun h a sz hb => hloc _ ?_⟩
    exact (block_loc (H.eqv (by ac_rfl : _ = cont E o x.alloc s + (B + A')))).2 ⟨h, sz, hb⟩

theorem cont_not_loc {o p al : Nat} {s : St α} (h : p ≠ o) : Loc.obj p ∉ (cont E o al s).map Prod.fst :=
  fun hx => h (cont_locs hx)

/-- a call changes no cell of the containers it does not name -/
theorem op_cells (hE : E.Good) {S : Bank α} (op : Op α) (hR : Rep E S A) (H : Holds g A m) (hp : op.Pre E S) :
    Spec (op.run E) m (fun _ m' => ∀ o ∉ op.objs, SameCells o m m') (fun _ m' => ∀ o ∉ op.objs, SameCells o m m') := by
  cases op with
  | un o c =>
    obtain ⟨x, hx, hp⟩ := hp
    obtain ⟨s, A', hxs, hs, rfl, hR'⟩ := hR.split hx
    obtain ⟨F', H1, hent, hloc, hpin⟩ := H.pinR
    rw [hxs] at hp
    refine (un_c hE c hs hp H1).mono ?_ ?_
    · rintro r m' ⟨s', g', -, -, -, H'⟩ q hq
      have hq : q ≠ o := by simpa [Op.objs] using hq
      exact hR'.cells H (hent.right H') (hpin _ _ _ H') (cont_not_loc hq) (cont_not_loc hq)
    · rintro e m' ⟨s', g', -, -, -, H'⟩ q hq
      have hq : q ≠ o := by simpa [Op.objs] using hq
      exact hR'.cells H (hent.right H') (hpin _ _ _ H') (cont_not_loc hq) (cont_not_loc hq)
  | bin o p c =>
    obtain ⟨hne, x, y, hx, hy, hp⟩ := hp
    obtain ⟨s, A', hxs, hs, rfl, hR'⟩ := hR.split hx
    have hy' : upd S o none p = some y := by rw [upd_ne (Ne.symm hne)]; exact hy
    obtain ⟨s2, A'', hys, hs2, rfl, hR''⟩ := hR'.split hy'
    rw [← aassoc] at H
    obtain ⟨F', H1, hent, hloc, hpin⟩ := H.pinR
    rw [hxs, hys] at hp
    rw [aassoc] at H1
    have hcl : ∀ {al al2 : Nat} {s s2 : St α} {q : Nat}, q ≠ o → q ≠ p →
        Loc.obj q ∉ (cont E o al s + cont E p al2 s2).map Prod.fst := by
      intro al al2 s s2 q h1 h2
      rw [Multiset.map_add, Multiset.mem_add]
      exact fun h => h.elim (cont_not_loc h1) (cont_not_loc h2)
    refine (bin_c hE c hs hs2 hp H1).mono ?_ ?_
    · rintro r m' ⟨s', s2', al', al2', g', -, -, -, -, H'⟩ q hq
      have hq : q ≠ o ∧ q ≠ p := by simpa [Op.objs] using hq
      rw [← aassoc] at H'
      exact hR''.cells H (hent.right H') (hpin _ _ _ H') (hcl hq.1 hq.2) (hcl hq.1 hq.2)
    · rintro e m' ⟨s', s2', al', al2', g', -, -, -, -, H'⟩ q hq
      have hq : q ≠ o ∧ q ≠ p := by simpa [Op.objs] using hq
      rw [← aassoc] at H'
      exact hR''.cells H (hent.right H') (hpin _ _ _ H') (hcl hq.1 hq.2) (hcl hq.1 hq.2)
  | new o c =>
    have H0 : Holds g (0 + A) m := by simpa using H
    obtain ⟨F', H1, hent, hloc, hpin⟩ := H0.pinR
    rw [zero_add] at H1
    refine (new_c hE c hp.2 (H.dead (hR.dead hp.1)) H1).mono ?_ ?_
    · rintro r m' ⟨s', al', g', -, -, -, -, H'⟩ q hq
      have hq : q ≠ o := by simpa [Op.objs] using hq
      exact hR.cells H0 (hent.right H') (hpin _ _ _ H') (by simp) (cont_not_loc hq)
    · rintro e m' ⟨hc, -⟩ q hq
      exact ⟨by rw [hc], fun _ _ _ _ => by rw [hc]⟩
  | new2 o p c =>
    obtain ⟨hno, y, hy, hp⟩ := hp
    have hf := H.dead (hR.dead hno)
    obtain ⟨s2, A', hys, hs2, rfl, hR'⟩ := hR.split hy
    obtain ⟨F', H1, hent, hloc, hpin⟩ := H.pinR
    rw [hys] at hp
    refine (new2_c hE c hs2 hp hf H1).mono ?_ ?_
    · rintro r m' ⟨s', s2', al', al2', g', -, -, -, -, -, H'⟩ q hq
      have hq : q ≠ o ∧ q ≠ p := by simpa [Op.objs] using hq
      rw [← aassoc] at H'
      refine hR'.cells H (hent.right H') (hpin _ _ _ H') (cont_not_loc hq.2) ?_
      rw [Multiset.map_add, Multiset.mem_add]
      exact fun h => h.elim (cont_not_loc hq.1) (cont_not_loc hq.2)
    · rintro e m' ⟨s2', al2', g', -, -, -, H'⟩ q hq
      have hq : q ≠ o ∧ q ≠ p := by simpa [Op.objs] using hq
      exact hR'.cells H (hent.right H') (hpin _ _ _ H') (cont_not_loc hq.2) (cont_not_loc hq.2)
  | dtor o =>
    obtain ⟨x, hx, hc⟩ := hp
    obtain ⟨s, A', hxs, hs, rfl, hR'⟩ := hR.split hx
    obtain ⟨F', H1, hent, hloc, hpin⟩ := H.pinR
    rw [hxs] at hc
    obtain ⟨m', e1, H'⟩ := dtor_c hs hc H1
    refine Spec.unit' (Spec.of e1) ?_
    rintro v m1 ⟨-, rfl⟩ q hq
    have hq : q ≠ o := by simpa [Op.objs] using hq
    have H2 : Holds g (0 + F') m1 := by simpa using H'
    exact hR'.cells H (hent.right H2) (hpin _ _ _ H2) (cont_not_loc hq) (by simp)

end SegTree
