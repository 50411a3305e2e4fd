/-
  Bounds for the operations on whole containers, in the size of the container.
-/
import Verif.Cost.EraSeg
import Verif.Proof.Ops
import Verif.Proof.Iters
set_option autoImplicit false
set_option synthInstance.maxSize 2000
set_option synthInstance.maxHeartbeats 400000

attribute [local instance] SegTree.Weights.accesses

namespace SegTree

variable {α β γ δ : Type} {E : Env α} {g : Log} {F : Asrt α} {m : Mem α} {o al i j L : Nat} {s : St α} {it : Iter}

/-- number of binary digits: `1` for `0` and `1`, `2` for `2` and `3`, ... -/
def lg (n : Nat) : Nat := Nat.log2 n + 1

theorem lg_pos (n : Nat) : 1 ≤ lg n := by unfold lg; omega

theorem log2_mono {a b : Nat} (h : a ≤ b) : Nat.log2 a ≤ Nat.log2 b := by
  by_cases ha : a = 0
  · subst ha; simp
  · have hb : b ≠ 0 := by omega
    rw [Nat.le_log2 hb]
    exact Nat.le_trans (Nat.log2_self_le ha) h

theorem lg_mono {a b : Nat} (h : a ≤ b) : lg a ≤ lg b := by
  unfold lg
  have := log2_mono h
  omega

theorem St.Ok.ht_le (hs : s.Ok E) : s.ht ≤ lg s.elems.length := by
  by_cases h1 : s.ht ≤ 1
  · exact Nat.le_trans h1 (lg_pos _)
  have h2 := hs.size_ge (by omega)
  have h3 : 2 ^ (s.ht - 2) ≤ E.baseMin ^ (s.ht - 2) := Nat.pow_le_pow_left E.baseMin_ge _
  have h4 : 1 ≤ E.segMin := E.segMin_pos
  have h5 : 2 ^ (s.ht - 1) ≤ s.elems.length := by
    obtain ⟨q, hq⟩ : ∃ q, s.ht = q + 2 := ⟨s.ht - 2, by omega⟩
    rw [hq] at h2 h3 ⊢
    simp only [Nat.add_sub_cancel] at *
    rw [show q + 2 - 1 = q + 1 by omega, Nat.pow_succ, Nat.mul_comm (2 ^ q)]
    refine Nat.le_trans ?_ h2
    refine Nat.mul_le_mul_left 2 (Nat.le_trans h3 ?_)
    exact Nat.le_mul_of_pos_right _ h4
  have hne : s.elems.length ≠ 0 := by
    have := Nat.two_pow_pos (s.ht - 1)
    omega
  have := (Nat.le_log2 hne).2 h5
  unfold lg
  omega

/-! ### combinators -/

theorem CRes.le_spec {x : M α β} {y : C α β} [hsim : Sim x y] {f : β → C α γ} {a k : Nat} {Q : β → Mem α → Prop}
    {T : Exn → Mem α → Prop} (hs : Spec x m Q T) (h : (y m).le a) (hk : a ≤ k)
    (hf : ∀ v m', Q v m' → (f v m').le (k - a)) : ((y >>= f) m).le k := by
  rcases hs.cases with ⟨v, m', e, hq⟩ | ⟨e', m', e, -⟩
  · exact CRes.le_step e h hk (hf v m' hq)
  · refine (CRes.le_throw (x := x) e h).mono hk

theorem CRes.le_specL {x : M α β} {y : C α β} [hsim : Sim x y] {f : β → C α γ} {a b c : Nat} {Q : β → Mem α → Prop}
    {T : Exn → Mem α → Prop} (hs : Spec x m Q T) (h : (y m).le (a * L))
    (hf : ∀ v m', Q v m' → (f v m').le (b * L)) (hc : a + b ≤ c) : ((y >>= f) m).le (c * L) := by
  have : a * L + b * L ≤ c * L := by rw [← Nat.add_mul]; exact Nat.mul_le_mul_right _ hc
  exact CRes.le_spec hs h (by omega) fun v m' hq => (hf v m' hq).mono (by omega)

theorem CRes.le_stepL {x : M α β} {y : C α β} [hsim : Sim x y] {f : β → C α γ} {a b c : Nat} {v : β} {m' : Mem α}
    (e : x m = .ok v m') (h : (y m).le (a * L)) (hf : (f v m').le (b * L)) (hc : a + b ≤ c) :
    ((y >>= f) m).le (c * L) := by
  have : a * L + b * L ≤ c * L := by rw [← Nat.add_mul]; exact Nat.mul_le_mul_right _ hc
  exact CRes.le_step e h (by omega) (hf.mono (by omega))

theorem CRes.le_bindL {y : C α β} {f : β → C α γ} {a b c : Nat}
    (h : (y m).le (a * L)) (hf : ∀ v m' n, y m = .ok v m' n → (f v m').le (b * L)) (hc : a + b ≤ c) :
    ((y >>= f) m).le (c * L) := by
  have : a * L + b * L ≤ c * L := by rw [← Nat.add_mul]; exact Nat.mul_le_mul_right _ hc
  exact CRes.le_bind h (by omega) fun v m' n hq => (hf v m' n hq).mono (by omega)

theorem CRes.le_pureL {v : β} {a : Nat} : ((pure v : C α β) m).le a := Nat.zero_le _

theorem mulL {a b L h : Nat} (hL : h ≤ L) (h1 : 1 ≤ L) : h * a + b ≤ (a + b) * L := by
  rw [Nat.add_mul]
  refine Nat.add_le_add ?_ (Nat.le_mul_of_pos_right _ h1)
  rw [Nat.mul_comm]; exact Nat.mul_le_mul_left _ hL

theorem CB.leL {x : C α β} {a : Nat} (h : CB x a) (h1 : 1 ≤ L) : (x m).le (a * L) :=
  (h.run m).mono (Nat.le_mul_of_pos_right _ h1)

theorem CRes.le.monoL {r : CRes α β} {a b : Nat} (h : r.le (a * L)) (hab : a ≤ b) : r.le (b * L) :=
  h.mono (Nat.mul_le_mul_right _ hab)

theorem CRes.le.monoR {r : CRes α β} {a L' : Nat} (h : r.le (a * L)) (hab : L ≤ L') : r.le (a * L') :=
  h.mono (Nat.mul_le_mul_left _ hab)

/-! ### one container -/

section
variable (hs : s.Ok E) (hL : lg s.elems.length ≤ L) (H : Holds g (cont E o al s + F) m)
include hs hL
omit hs in
theorem posL : 1 ≤ L := Nat.le_trans (lg_pos _) hL
theorem htL : s.ht ≤ L := Nat.le_trans hs.ht_le hL

include H
theorem obj_leL {f : SeqObj → C α β} {a c : Nat} (h : CB (f (s.obj al)) ((s.ht + 1) * a)) (hc : 2 * a + 1 ≤ c) :
    ((Cost.rdObj o >>= f) m).le (c * L) := by
  refine CRes.le_step (rdObj_c H) ((CB.rdObj o).run m) ?_ ((h.run m).mono ?_)
  · have := Nat.mul_le_mul_right L hc
    have h1 := posL hL
    rw [Nat.add_mul, Nat.one_mul] at this
    omega
  · have h2 := mulL (a := a) (b := a + 1) (htL hs hL) (posL hL)
    have := Nat.mul_le_mul_right L hc
    rw [show a + (a + 1) = 2 * a + 1 by omega] at h2
    rw [Nat.add_mul, Nat.one_mul]
    omega


theorem find_index_leL (p : Nat) : (Cost.find_index E o p m).le ((2 * E.baseMax + 7) * L) := by
  unfold Cost.find_index
  refine obj_leL hs hL H (a := E.baseMax + 3) ?_ (by omega)
  have := CB.find_index_root (E := E) (s.obj al).root (s.obj al).sz (s.obj al).ht p
  rwa [show (s.obj al).ht = s.ht by cases s <;> rfl] at this ⊢
theorem find_first_leL : (Cost.find_first E o m).le (5 * L) := by
  unfold Cost.find_first
  refine obj_leL hs hL H (a := 2) ?_ (by omega)
  have := CB.find_first_root (E := E) (s.obj al).root (s.obj al).sz (s.obj al).ht
  rwa [show (s.obj al).ht = s.ht by cases s <;> rfl] at this ⊢
theorem find_last_leL : (Cost.find_last E o m).le (7 * L) := by
  unfold Cost.find_last
  refine obj_leL hs hL H (a := 3) ?_ (by omega)
  have := CB.find_last_root (E := E) (s.obj al).root (s.obj al).sz (s.obj al).ht
  rwa [show (s.obj al).ht = s.ht by cases s <;> rfl] at this ⊢
theorem find_end_leL : (Cost.find_end E o m).le (7 * L) := by
  unfold Cost.find_end
  refine obj_leL hs hL H (a := 3) ?_ (by omega)
  have := CB.find_end_root (E := E) (s.obj al).root (s.obj al).sz (s.obj al).ht
  rwa [show (s.obj al).ht = s.ht by cases s <;> rfl] at this ⊢

theorem insert_iterator_leL (v : α) (hE : E.Good) (ha : s.At i it) :
    (Cost.insert_single_iterator E o it v m).le ((20 * E.baseMax + 14 * E.segMax + 79) * L) := by
  unfold Cost.insert_single_iterator
  rw [hE.throws]
  simp only [Bool.false_eq_true, if_false]
  refine CRes.le_bind (a := (20 * E.baseMax + 14 * E.segMax + 79) * L) ?_ (Nat.le_refl _) fun _ _ _ _ => Nat.zero_le _
  have h1 := posL hL
  have h2 := htL hs hL
  obtain ⟨e, p⟩ := it
  obtain ⟨rfl, ha⟩ := ha
  dsimp only at ha ⊢
  cases s with
  | nil =>
    obtain ⟨rfl, rfl⟩ := ha
    rw [Cost.insert_single_segment_eq]
    simp only [ne_eq, not_true, false_and, if_false, if_true]
    exact CB.leL (L := L) (CB.of (CB.segNew _ _ _ _) (by omega)) h1
  | @tree h t =>
    rw [cont_tree, aassoc] at H
    refine (insert_single_segment_le v hE hs.2 ha rfl rfl H).mono ?_
    unfold insCost
    have := mulL (a := 20 * E.baseMax + 54) (b := 14 * E.segMax + 25) (h := h + 1) h2 h1
    rw [show 20 * E.baseMax + 54 + (14 * E.segMax + 25) = 20 * E.baseMax + 14 * E.segMax + 79 by omega] at this
    omega

theorem erase_single_leL (hE : E.Good) (ha : s.At i it) (hi : i < s.elems.length) :
    (Cost.erase_single E o it m).le ((20 * E.baseMax + 14 * E.segMax + 84) * L) := by
  have h1 := posL hL
  have h2 := htL hs hL
  obtain ⟨e, p⟩ := it
  obtain ⟨rfl, ha⟩ := ha
  dsimp only at ha hi ⊢
  cases s with
  | nil => simp at hi
  | @tree h t =>
    have hi : p < t.size := hi
    have hW : t.size < E.W := hs.1
    rw [cont_tree, aassoc] at H
    unfold Cost.erase_single Cost.erase_single_iterator
    simp only [C.bind_assoc, C.pure_bind]
    have hcost : eraCost E h ≤ (20 * E.baseMax + 14 * E.segMax + 70) * L := by
      unfold eraCost eraStep
      have := mulL (a := 20 * E.baseMax + 40) (b := 14 * E.segMax + 30) (h := h) (L := L) (by simp [St.ht] at h2; omega) h1
      rw [show 20 * E.baseMax + 40 + (14 * E.segMax + 30) = 20 * E.baseMax + 14 * E.segMax + 70 by omega] at this
      omega
    have hle := (erase_single_segment_le hE hs.2 ha hi hW rfl rfl H).mono hcost
    rcases erase_single_segment_ok hE hs.2 ha hi hW rfl rfl H with
      ⟨h1, -, m', e1, H1⟩ | ⟨m', h', e', t', e1, k1, k2, k3, -, H1⟩
    · refine CRes.le_stepL (b := 14) e1 hle ?_ (by omega)
      simp only [if_true]
      unfold Cost.move_next_leaf
      simp only [if_true, C.pure_bind]
      exact Nat.zero_le _
    · refine CRes.le_stepL (b := 14) e1 hle ?_ (by omega)
      split
      · have hOk : (St.tree t').Ok E := by
          refine ⟨?_, k1⟩
          have : t.elems.length < E.W := hW
          simp only [St.elems_tree, k2, List.length_append, List.length_take, List.length_drop]
          omega
        have hl : lg t'.elems.length ≤ L := by
          refine Nat.le_trans (lg_mono ?_) hL
          simp only [St.elems_tree, k2, List.length_append, List.length_take, List.length_drop]
          omega
        have hh := htL hOk hl
        simp only [St.ht] at hh
        obtain ⟨c, sg, j, rfl, hp, rfl, hj⟩ := k3
        obtain ⟨d, hd, hu⟩ := up_of_fill H1
        have hu : Up m' (entryOf c sg j).leaf.ptr d := hu
        refine CRes.le_bind (Up.move_next_leaf hu) (k := 14 * L) (by omega) fun _ _ _ _ => Nat.zero_le _
      · exact Nat.zero_le _

theorem move_next_leL (ha : s.At i it) : (Cost.move_next_iterator E it m).le (14 * L) := by
  obtain ⟨d, hd, hu⟩ := ha.up H
  have := posL hL
  have := htL hs hL
  exact (Up.move_next_iterator hu).mono (by omega)
theorem move_prev_leL (ha : s.At i it) : (Cost.move_prev_iterator E it m).le (16 * L) := by
  obtain ⟨d, hd, hu⟩ := ha.up H
  have := posL hL
  have := htL hs hL
  exact (Up.move_prev_iterator hu).mono (by omega)

omit H in
theorem countCost_leL {d : Nat} (hd : d ≤ s.ht) : Up.countCost E d ≤ (12 * E.baseMax + 24) * L := by
  unfold Up.countCost
  have h1 := posL hL
  have h2 := htL hs hL
  have : d + 3 ≤ 4 * L := by omega
  calc (d + 3) * (3 * E.baseMax + 6) ≤ 4 * L * (3 * E.baseMax + 6) := Nat.mul_le_mul_right _ this
    _ = _ := by ring

theorem move_iterator_count_leL {d : Int} (ha : s.At i it) :
    (Cost.move_iterator_count E it d m).le ((12 * E.baseMax + 24) * L) := by
  obtain ⟨k, hd, hu⟩ := ha.up H
  exact (Up.move_iterator_count hu).mono (countCost_leL hs hL hd)
theorem move_prev_iterator_count_leL {n : Nat} (ha : s.At i it) :
    (Cost.move_prev_iterator_count E it n m).le ((12 * E.baseMax + 24) * L) := by
  obtain ⟨k, hd, hu⟩ := ha.up H
  exact (Up.move_prev_iterator_count hu).mono (countCost_leL hs hL hd)
theorem move_next_iterator_count_leL {n : Nat} (ha : s.At i it) :
    (Cost.move_next_iterator_count E it n m).le ((12 * E.baseMax + 24) * L) := by
  obtain ⟨k, hd, hu⟩ := ha.up H
  exact (Up.move_next_iterator_count hu).mono (countCost_leL hs hL hd)
end

end SegTree
