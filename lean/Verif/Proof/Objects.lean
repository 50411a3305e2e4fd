/-
  Slots of segments and positions of elements correspond one to one.
-/
import Verif.Proof.Blocks
import Verif.Proof.Iters
set_option autoImplicit false

namespace SegTree
variable {α : Type} {E : Env α} {g : Log} {F : Asrt α} {m m' : Mem α}

/-! ### the segments of a tree, left to right -/

def Ctx.preS {h : Nat} : {k : Nat} → Ctx α h k → List (Nat × List α)
  | _, .top => []
  | _, .step _ l _ c => c.preS ++ l.flatMap Tree.segs
def Ctx.postS {h : Nat} : {k : Nat} → Ctx α h k → List (Nat × List α)
  | _, .top => []
  | _, .step _ _ r c => r.flatMap Tree.segs ++ c.postS

theorem Ctx.fill_segs {h k : Nat} (c : Ctx α h k) (t : Tree α k) :
    (c.fill t).segs = c.preS ++ (t.segs ++ c.postS) := by
  induction c with
  | top => simp [fill, preS, postS]
  | step a l r c ih =>
    rw [fill, ih]
    simp only [preS, postS, Tree.segs, Tree.mkNode, List.flatMap_append, List.flatMap_cons, List.append_assoc]

theorem flatMap_segs {k : Nat} {L : List (Tree α k)} (ih : ∀ c ∈ L, c.segs.flatMap Prod.snd = c.elems) :
    (L.flatMap Tree.segs).flatMap Prod.snd = elemsL L := by
  induction L with
  | nil => rfl
  | cons c L ihL =>
    rw [List.flatMap_cons, List.flatMap_append, ih c (by simp), ihL (fun d hd => ih d (by simp [hd]))]
    simp
theorem Tree.segs_elems : {k : Nat} → (t : Tree α k) → t.segs.flatMap Prod.snd = t.elems
  | 0, t => by simp [Tree.segs, Tree.elems]
  | k + 1, t => by
    rw [Tree.elems_succ, ← flatMap_segs (fun c _ => Tree.segs_elems c)]
    simp [Tree.segs, Tree.kids]

theorem Ctx.preS_elems {h k : Nat} (c : Ctx α h k) : c.preS.flatMap Prod.snd = c.pre := by
  induction c with
  | top => rfl
  | step a l r c ih => rw [preS, List.flatMap_append, ih, flatMap_segs (fun c _ => Tree.segs_elems c)]; rfl

theorem flatMap_sub {k : Nat} {L : List (Tree α k)} (ih : ∀ c ∈ L, (c.segs.map Prod.fst).Sublist c.addrs) :
    ((L.flatMap Tree.segs).map Prod.fst).Sublist (L.flatMap Tree.addrs) := by
  induction L with
  | nil => simp
  | cons c L ihL =>
    rw [List.flatMap_cons, List.flatMap_cons, List.map_append]
    exact (ih c (by simp)).append (ihL (fun d hd => ih d (by simp [hd])))
theorem Tree.segs_addrs : {k : Nat} → (t : Tree α k) → (t.segs.map Prod.fst).Sublist t.addrs
  | 0, t => by simp [Tree.segs, Tree.addrs]
  | k + 1, t => by
    simp only [Tree.segs, Tree.addrs]
    exact (flatMap_sub (fun c _ => Tree.segs_addrs c)).cons _

theorem segs_nodup {o al h : Nat} {t : Tree α h} (H : Holds g (cont E o al (.tree t) + F) m) :
    (t.segs.map Prod.fst).Nodup := by
  have h1 := H.nodup
  rw [Multiset.map_add, Multiset.nodup_add] at h1
  have h2 := h1.1
  rw [cont_tree, Multiset.map_add, Multiset.nodup_add, lay_locs] at h2
  exact (List.Nodup.of_map _ (Multiset.coe_nodup.1 h2.1)).sublist t.segs_addrs

theorem split_unique {β : Type} {x y : Nat × β} (hxy : x.1 = y.1) : ∀ {l l' r r' : List (Nat × β)},
    l ++ x :: r = l' ++ y :: r' → ((l ++ x :: r).map Prod.fst).Nodup → l = l'
  | [], [], _, _, _, _ => rfl
  | [], b :: l', r, r', h, hn => by
    simp only [List.nil_append, List.cons_append, List.cons.injEq] at h
    obtain ⟨rfl, rfl⟩ := h
    simp only [List.nil_append, List.map_cons, List.nodup_cons, List.map_append] at hn
    exact absurd (by rw [hxy]; simp) hn.1
  | b :: l, [], r, r', h, hn => by
    simp only [List.nil_append, List.cons_append, List.cons.injEq] at h
    obtain ⟨rfl, rfl⟩ := h
    simp only [List.cons_append, List.map_cons, List.nodup_cons, List.map_append] at hn
    exact absurd (by rw [← hxy]; simp) hn.1
  | b :: l, b' :: l', r, r', h, hn => by
    simp only [List.cons_append, List.cons.injEq] at h
    obtain ⟨rfl, h⟩ := h
    simp only [List.cons_append, List.map_cons, List.nodup_cons] at hn
    rw [split_unique hxy h hn.2]

section
variable {o al i j : Nat} {s : St α} {it jt : Iter}

/-- the address of an element determines its position -/
theorem St.At.inj (hs : s.Ok E) (hi : i < s.elems.length) (hj : j < s.elems.length) (h1 : s.At i it) (h2 : s.At j jt)
    (hc : it.current = jt.current) (H : Holds g (cont E o al s + F) m) : i = j := by
  cases s with
  | nil => simp at hi
  | tree t =>
    obtain ⟨-, c, u, p, hu, hp, he, hk⟩ := h1
    obtain ⟨-, d, v, q, hv, hq, hf, hl⟩ := h2
    have hn := segs_nodup H
    have e1 := c.fill_segs u
    have e2 := d.fill_segs v
    simp only [Iter.current, he, hf, entryOf, Prod.mk.injEq] at hc
    obtain ⟨ha, hpq⟩ := hc
    have := split_unique (x := (u.1, u.2)) (y := (v.1, v.2)) (l := c.preS) (l' := d.preS) (r := c.postS) (r' := d.postS)
      ha (by rw [hu] at e1; rw [hv] at e2; exact e1.symm.trans e2)
      (by rw [hu] at e1; rw [e1] at hn; exact hn)
    have h3 : c.pre = d.pre := by rw [← c.preS_elems, ← d.preS_elems, this]
    rw [h3] at hp
    omega

/-- an object in a block of a container, of a type with a destructor, is an element -/
theorem seg_elem (hd : E.trivDtor = false) (hs : s.Ok E) (H : Holds g (cont E o al s + F) m) {a sz w : Nat}
    {sl : Nat → Slot α} {v : α} (hb : Block m o 0 a sz) (hm : m.cell (.heap a) = some (.seg w sl)) (hv : sl i = .val v) :
    ∃ j it, j < s.elems.length ∧ s.At j it ∧ it.current = (a, i) ∧ s.elems[j]? = some v := by
  cases s with
  | nil => exact absurd hb (block_nil H)
  | tree t =>
    obtain ⟨c, u, hu, rfl, -⟩ := (block_iff H).1 hb
    obtain ⟨sl', h1, h2, h3⟩ := sub_seg H hu
    rw [hm] at h1
    cases h1
    have hi : i < u.xs.length := by
      by_contra hc
      rcases h3 i (by omega) with h | h
      · rw [hv] at h; cases h
      · rw [hd] at h; cases h
    have hl : c.pre.length + i < t.elems.length := by
      rw [← hu, c.fill_elems]; simp only [List.length_append]
      have : u.elems.length = u.xs.length := rfl
      omega
    refine ⟨c.pre.length + i, ⟨entryOf c u i, c.pre.length + i⟩, hl, ⟨rfl, c, u, i, hu, rfl, rfl, .inl hi⟩, rfl, ?_⟩
    have := h2 i hi
    rw [Nat.zero_add, hv] at this
    cases this
    simp only [St.elems_tree]
    rw [← hu, c.fill_elems, List.append_assoc, List.getElem?_append_right (by omega), Nat.add_sub_cancel_left]
    have h5 : (u.elems ++ c.post)[i]? = u.elems[i]? := List.getElem?_append_left hi
    rw [h5]
    exact List.getElem?_eq_getElem hi

/-- an element is an object in a segment of its container -/
theorem elem_seg (H : Holds g (cont E o al s + F) m) (hj : j < s.elems.length) (ha : s.At j it) :
    ∃ sz w sl, Block m o 0 it.current.1 sz ∧ m.cell (.heap it.current.1) = some (.seg w sl) ∧
      sl it.current.2 = .val s.elems[j] := by
  cases s with
  | nil => simp at hj
  | tree t =>
    obtain ⟨-, c, u, p, hu, hp, he, hk⟩ := ha
    obtain ⟨sl, h1, h2, h3⟩ := sub_seg H hu
    have hlen : t.elems.length = c.pre.length + u.xs.length + c.post.length := by
      rw [← hu, c.fill_elems]; simp only [List.length_append]; rfl
    have hp' : p < u.xs.length := by
      rcases hk with h | ⟨h, h'⟩
      · exact h
      · simp only [St.elems_tree] at hj; rw [h'] at hlen; simp at hlen; omega
    refine ⟨u.size, E.acls al, sl, (block_iff H).2 ⟨c, u, hu, ?_, rfl⟩, ?_, ?_⟩
    · simp [Iter.current, he, entryOf]
    · simpa [Iter.current, he, entryOf] using h1
    · have h4 := h2 p hp'
      rw [Nat.zero_add] at h4
      simp only [Iter.current, he, entryOf]
      refine h4.trans ?_
      congr 1
      simp only [St.elems_tree]
      have : t.elems[j]? = u.xs[p]? := by
        rw [← hu, c.fill_elems, List.append_assoc, List.getElem?_append_right (by omega), ← hp, Nat.add_sub_cancel_left]
        exact List.getElem?_append_left hp'
      rw [List.getElem?_eq_getElem (by exact hj : j < t.elems.length), List.getElem?_eq_getElem hp'] at this
      exact (Option.some.inj this).symm
end

end SegTree
