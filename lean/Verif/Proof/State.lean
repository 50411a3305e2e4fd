/-
  One container: empty or a tree.  Specifications of the single-step helpers
  (find, move, read, write, insert one, erase one, purge) on containers.
-/
import Verif.Proof.EraSeg
import Verif.Model.Api
set_option autoImplicit false
set_option linter.unusedSimpArgs false

namespace SegTree

variable {α β γ : Type} {E : Env α} {g : Log} {F : Asrt α} {m : Mem α}

/-! ### Total-correctness triples -/

/-- `x` run from `m` terminates without undefined behaviour, either normally
with `Q` or by an exception with `T`. -/
def Spec (x : M α β) (m : Mem α) (Q : β → Mem α → Prop) (T : Exn → Mem α → Prop) : Prop :=
  match x m with
  | .ok v m' => Q v m'
  | .throw e m' => T e m'
  | .ub _ => False
  | .div => False

/-- no exception -/
abbrev NoThrow : Exn → Mem α → Prop := fun _ _ => False

section
variable {x : M α β} {f : β → M α γ} {Q : β → Mem α → Prop} {T : Exn → Mem α → Prop}
variable {R : γ → Mem α → Prop}

theorem Spec.ok {v : β} {m' : Mem α} (e : x m = .ok v m') (h : Q v m') : Spec x m Q T := by
  unfold Spec; rw [e]; exact h
theorem Spec.thr {ex : Exn} {m' : Mem α} (e : x m = .throw ex m') (h : T ex m') : Spec x m Q T := by
  unfold Spec; rw [e]; exact h
theorem Spec.pure {v : β} (h : Q v m) : Spec (pure v) m Q T := Spec.ok rfl h

theorem Spec.cases (h : Spec x m Q T) :
    (∃ v m', x m = .ok v m' ∧ Q v m') ∨ (∃ e m', x m = .throw e m' ∧ T e m') := by
  unfold Spec at h
  cases hx : x m with
  | ok v m' => rw [hx] at h; exact .inl ⟨v, m', rfl, h⟩
  | throw e m' => rw [hx] at h; exact .inr ⟨e, m', rfl, h⟩
  | ub k => rw [hx] at h; exact h.elim
  | div => rw [hx] at h; exact h.elim

theorem Spec.get (h : Spec x m Q NoThrow) : ∃ v m', x m = .ok v m' ∧ Q v m' := by
  rcases h.cases with h | ⟨_, _, _, h⟩
  · exact h
  · exact h.elim

theorem Spec.bind (h : Spec x m Q T) (k : ∀ v m', Q v m' → Spec (f v) m' R T) : Spec (x >>= f) m R T := by
  rcases h.cases with ⟨v, m', e, hq⟩ | ⟨e', m', e, ht⟩
  · unfold Spec; rw [bind_ok e]; exact k v m' hq
  · exact Spec.thr (bind_throw e) ht

theorem Spec.mono {Q' : β → Mem α → Prop} {T' : Exn → Mem α → Prop} (h : Spec x m Q T)
    (hq : ∀ v m', Q v m' → Q' v m') (ht : ∀ e m', T e m' → T' e m') : Spec x m Q' T' := by
  rcases h.cases with ⟨v, m', e, h⟩ | ⟨e', m', e, h⟩
  · exact Spec.ok e (hq _ _ h)
  · exact Spec.thr e (ht _ _ h)

theorem Spec.step {v : β} {m' : Mem α} (e : x m = .ok v m') (h : Spec (f v) m' R T) : Spec (x >>= f) m R T := by
  unfold Spec; rw [bind_ok e]; exact h

end

/-! ### Containers -/

/-- ghost state of a container -/
inductive St (α : Type) where
  | nil
  | tree {h : Nat} (t : Tree α h)

namespace St
/-- the sequence -/
def elems : St α → List α
  | nil => []
  | tree t => t.elems
/-- heap blocks of a container whose allocator has class `w` -/
def lay (E : Env α) (w : Nat) : St α → Asrt α
  | nil => 0
  | tree t => SegTree.lay E w 0 0 t
/-- the `seq` object of a container with allocator `al` -/
def obj (al : Nat) : St α → SeqObj
  | nil => objNil al al
  | tree t => objOf t al al
/-- occupancy invariant -/
def Ok (E : Env α) (s : St α) : Prop :=
  s.elems.length < E.W ∧ match s with
    | nil => True
    | tree t => t.Root E
/-- `it` is the iterator for position `i` -/
def At (s : St α) (i : Nat) (it : Iter) : Prop :=
  it.pos = i ∧ match s with
    | nil => i = 0 ∧ it.entry = ⟨⟨0, 0, 0⟩, ⟨0, 0⟩⟩
    | tree t => SegTree.At t i it.entry
/-- `height()` -/
def ht : St α → Nat
  | nil => 0
  | tree (h := h) _ => h + 1
end St

/-- the memory of a whole container -/
def cont (E : Env α) (o al : Nat) (s : St α) : Asrt α := s.lay E (E.acls al) + Ob o (s.obj al)

theorem cont_nil {o al : Nat} : cont E o al .nil = Ob o (objNil al al) := by
  simp [cont, St.lay, St.obj]
theorem cont_tree {o al h : Nat} {t : Tree α h} :
    cont E o al (.tree t) = lay E (E.acls al) 0 0 t + Ob o (objOf t al al) := rfl

@[simp] theorem St.elems_nil : (St.nil : St α).elems = [] := rfl
@[simp] theorem St.elems_tree {h : Nat} (t : Tree α h) : (St.tree t).elems = t.elems := rfl

theorem objOf_size {h al nal : Nat} {t : Tree α h} : (objOf t al nal).sz = t.size := rfl

theorem St.obj_sz {al : Nat} (s : St α) : (s.obj al).sz = s.elems.length := by
  cases s <;> rfl
theorem St.obj_ht {al : Nat} (s : St α) : (s.obj al).ht = s.ht := by
  cases s <;> rfl
theorem St.obj_al {al : Nat} (s : St α) : (s.obj al).ealloc = al := by
  cases s <;> rfl
theorem St.obj_nal {al : Nat} (s : St α) : (s.obj al).nalloc = al := by
  cases s <;> rfl

theorem St.At.le {s : St α} {i : Nat} {it : Iter} (h : s.At i it) : i ≤ s.elems.length := by
  cases s with
  | nil => simp [h.2.1]
  | tree t => exact SegTree.At.le h.2

theorem St.At.pos {s : St α} {i : Nat} {it : Iter} (h : s.At i it) : it.pos = i := h.1

theorem St.At.exists {s : St α} (hs : s.Ok E) {i : Nat} (hi : i ≤ s.elems.length) : ∃ it, s.At i it := by
  cases s with
  | nil => simp at hi; subst hi; exact ⟨⟨⟨⟨0, 0, 0⟩, ⟨0, 0⟩⟩, 0⟩, rfl, rfl, rfl⟩
  | tree t =>
    obtain ⟨e, he⟩ := SegTree.At.exists hs.2 hi
    exact ⟨⟨e, i⟩, rfl, he⟩

theorem Ctx.height_le {h k : Nat} (c : Ctx α h k) : k ≤ h := by
  induction c with
  | top => exact Nat.le_refl _
  | step a l r c ih => omega

theorem At.seg {t : Tree α 0} {i : Nat} {e : Entry} (h : SegTree.At t i e) :
    e = ⟨⟨t.addr, i, t.xs.length⟩, ⟨0, 0⟩⟩ := by
  obtain ⟨c, s, j, rfl, rfl, rfl, -⟩ := h
  cases c with
  | top => simp [entryOf, Ctx.pre, Ctx.hdr, Ctx.fill]
  | step a l r c => have := c.height_le; omega

section
variable {o al i : Nat} {s : St α} {it : Iter}

theorem cont_obj (H : Holds g (cont E o al s + F) m) : Holds g (Ob o (s.obj al) + (s.lay E (E.acls al) + F)) m :=
  H.eqv (by unfold cont; ac_rfl)

theorem rdObj_c (H : Holds g (cont E o al s + F) m) : rdObj o m = .ok (s.obj al) m := rdObj_ok (cont_obj H)
theorem getSize_c (H : Holds g (cont E o al s + F) m) : getSize o m = .ok s.elems.length m := by
  rw [getSize_ok (cont_obj H), St.obj_sz]
theorem getHeight_c (H : Holds g (cont E o al s + F) m) : getHeight o m = .ok s.ht m := by
  rw [getHeight_ok (cont_obj H), St.obj_ht]

/-! ### find -/

theorem find_index_c (hs : s.Ok E) (ha : s.At i it) (hi : i < s.elems.length)
    (H : Holds g (cont E o al s + F) m) : find_index E o i m = .ok it m := by
  unfold find_index
  rw [bind_ok (rdObj_c H)]
  cases s with
  | nil => simp at hi
  | @tree h t =>
    obtain ⟨e, p⟩ := it
    obtain ⟨rfl, h2⟩ := ha
    dsimp only at h2
    cases h with
    | zero =>
      rw [h2.seg]
      simp [St.obj, objOf, find_index_root, find_index_segment]; rfl
    | succ h =>
      rw [cont_tree, aassoc] at H
      show find_index_root E t.addr t.size (h + 2) p m = _
      unfold find_index_root
      rw [if_neg (by omega), bind_ok (find_index_at hs.2 h2 hi H)]; rfl

theorem find_end_c (hs : s.Ok E) (ha : s.At s.elems.length it)
    (H : Holds g (cont E o al s + F) m) : find_end E o m = .ok it m := by
  unfold find_end
  rw [bind_ok (rdObj_c H)]
  cases s with
  | nil =>
    obtain ⟨e, p⟩ := it
    obtain ⟨rfl, -, rfl⟩ := ha
    rfl
  | @tree h t =>
    obtain ⟨e, p⟩ := it
    obtain ⟨rfl, h2⟩ := ha
    dsimp only at h2
    cases h with
    | zero =>
      rw [h2.seg]
      simp [St.obj, objOf, find_end_root, find_end_segment, Tree.size]; rfl
    | succ h =>
      rw [cont_tree, aassoc] at H
      show find_end_root E t.addr t.size (h + 2) m = _
      unfold find_end_root
      rw [if_neg (by omega), bind_ok (find_end_at hs.2 h2 H)]; rfl

theorem find_first_c (hs : s.Ok E) (ha : s.At 0 it)
    (H : Holds g (cont E o al s + F) m) : find_first E o m = .ok it m := by
  unfold find_first
  rw [bind_ok (rdObj_c H)]
  cases s with
  | nil =>
    obtain ⟨e, p⟩ := it
    obtain ⟨rfl, -, rfl⟩ := ha
    rfl
  | @tree h t =>
    obtain ⟨e, p⟩ := it
    obtain ⟨rfl, h2⟩ := ha
    dsimp only at h2
    cases h with
    | zero =>
      rw [h2.seg]
      simp [St.obj, objOf, find_first_root, find_first_segment, Tree.size]; rfl
    | succ h =>
      rw [cont_tree, aassoc] at H
      show find_first_root E t.addr t.size (h + 2) m = _
      unfold find_first_root
      rw [if_neg (by omega), bind_ok (find_first_at hs.2 h2 H)]; rfl

theorem find_last_c (hs : s.Ok E) (ha : s.At (s.elems.length - 1) it) (hn : 0 < s.elems.length)
    (H : Holds g (cont E o al s + F) m) : find_last E o m = .ok it m := by
  unfold find_last
  rw [bind_ok (rdObj_c H)]
  cases s with
  | nil => simp at hn
  | @tree h t =>
    obtain ⟨e, p⟩ := it
    obtain ⟨rfl, h2⟩ := ha
    dsimp only at h2
    have hn : 1 ≤ t.size := hn
    cases h with
    | zero =>
      rw [h2.seg]
      show find_last_root E t.addr t.size 1 m = _
      unfold find_last_root find_last_segment
      rw [bind_ok (usub_ok hn m), if_pos (by omega)]
      simp only [bind_assoc]
      rw [bind_ok (usub_ok hn m)]; rfl
    | succ h =>
      rw [cont_tree, aassoc] at H
      show find_last_root E t.addr t.size (h + 2) m = _
      unfold find_last_root
      rw [bind_ok (usub_ok hn m), if_neg (by omega), bind_ok (find_last_at hs.2 h2 H)]; rfl

theorem nth_c (hs : s.Ok E) (ha : s.At i it) (H : Holds g (cont E o al s + F) m) : nth E o i m = .ok it m := by
  unfold nth
  rw [bind_ok (getSize_c H)]
  have := ha.le
  by_cases h : i < s.elems.length
  · rw [if_neg (by omega)]; exact find_index_c hs ha h H
  · have : i = s.elems.length := by omega
    subst this
    rw [if_pos (by omega)]; exact find_end_c hs ha H

theorem nth_ge_c (hs : s.Ok E) (ha : s.At s.elems.length it) (hi : s.elems.length ≤ i)
    (H : Holds g (cont E o al s + F) m) : nth E o i m = .ok it m := by
  unfold nth
  rw [bind_ok (getSize_c H), if_pos (by omega)]; exact find_end_c hs ha H

theorem St.At.unique {it' : Iter} (hs : s.Ok E) (h1 : s.At i it) (h2 : s.At i it')
    (H : Holds g (cont E o al s + F) m) : it = it' := by
  have e1 := nth_c hs h1 H
  rw [nth_c hs h2 H] at e1
  simpa using e1.symm

/-! ### movement -/

theorem move_next_c (hs : s.Ok E) (ha : s.At i it) (hi : i < s.elems.length)
    (H : Holds g (cont E o al s + F) m) : ∃ it', move_next_iterator E it m = .ok it' m ∧ s.At (i + 1) it' := by
  cases s with
  | nil => simp at hi
  | tree t =>
    rw [cont_tree, aassoc] at H
    obtain ⟨e', h1, h2⟩ := move_next_segment_ok hs.2 ha.2 hi H
    exact ⟨⟨e', it.pos + 1⟩, by unfold move_next_iterator; rw [bind_ok h1]; rfl, by rw [ha.1]; exact ⟨rfl, h2⟩⟩

theorem move_prev_c (hs : s.Ok E) (ha : s.At i it) (hi : 0 < i)
    (H : Holds g (cont E o al s + F) m) : ∃ it', move_prev_iterator E it m = .ok it' m ∧ s.At (i - 1) it' := by
  cases s with
  | nil => have := ha.2.1; omega
  | tree t =>
    rw [cont_tree, aassoc] at H
    obtain ⟨e', h1, h2⟩ := move_prev_segment_ok hs.2 ha.2 hi H
    refine ⟨⟨e', i - 1⟩, ?_, ⟨rfl, h2⟩⟩
    unfold move_prev_iterator
    rw [ha.1, bind_ok (usub_ok (by omega) m), bind_ok h1]; rfl

theorem move_next_count_c {n : Nat} (hs : s.Ok E) (ha : s.At i it) (hn : 0 < n) (hi : i + n ≤ s.elems.length)
    (H : Holds g (cont E o al s + F) m) :
    ∃ e', move_next_segment_count E it.entry n m = .ok e' m ∧ s.At (i + n) ⟨e', i + n⟩ := by
  cases s with
  | nil => simp at hi; omega
  | tree t =>
    rw [cont_tree, aassoc] at H
    obtain ⟨e', h1, h2⟩ := move_next_segment_count_ok hs.2 ha.2 hi H
    exact ⟨e', h1, rfl, h2⟩

theorem move_prev_count_c {n : Nat} (hs : s.Ok E) (ha : s.At i it) (hi : n ≤ i)
    (H : Holds g (cont E o al s + F) m) :
    ∃ e', move_prev_segment_count E it.entry n m = .ok e' m ∧ s.At (i - n) ⟨e', i - n⟩ := by
  rcases Nat.eq_zero_or_pos n with rfl | hn
  · refine ⟨it.entry, ?_, rfl, ha.2⟩
    unfold move_prev_segment_count
    rw [if_pos (Nat.zero_le _)]; rfl
  cases s with
  | nil => have := ha.2.1; omega
  | tree t =>
    rw [cont_tree, aassoc] at H
    obtain ⟨e', h1, h2⟩ := move_prev_segment_count_ok hs.2 ha.2 hi hn H
    exact ⟨e', h1, rfl, h2⟩

theorem move_prev_iterator_count_c {n : Nat} (hs : s.Ok E) (ha : s.At i it) (hi : n ≤ i)
    (H : Holds g (cont E o al s + F) m) :
    ∃ it', move_prev_iterator_count E it n m = .ok it' m ∧ s.At (i - n) it' := by
  obtain ⟨e', h1, h2⟩ := move_prev_count_c hs ha hi H
  refine ⟨_, ?_, h2⟩
  unfold move_prev_iterator_count
  rw [bind_ok h1, ha.1, bind_ok (usub_ok hi m)]; rfl

end

end SegTree
