/-
  C85: when an insertion needs memory, how much of it, and when the tree gets higher.
-/
import Verif.Props.Growth
import Verif.Props.Defects
set_option autoImplicit false

namespace SegTree

variable {α : Type} {E : Env α} {m m' : Mem α} {o i : Nat} {xs : List α} {it : Iter} {v : α}

/-! ### Specification -/

/-- How many nodes it takes to add a child to the node at `p`, by the rules of the
documentation (section "Inserting"): none if that node has room; a full node is split
into two, which takes one and then adds a child to its parent; if there is no parent
(`p = 0`) a new root is made. -/
inductive Splits (E : Env α) (m : Mem α) : (p k : Nat) → Prop where
  | room {p w : Nat} {nd : Node} : m.cell (.heap p) = some (.node w nd) → nd.len < E.baseMax → Splits E m p 0
  | full {p w k : Nat} {nd : Node} : p ≠ 0 → m.cell (.heap p) = some (.node w nd) → nd.len = E.baseMax →
      Splits E m nd.parent k → Splits E m p (k + 1)
  | root : Splits E m 0 1

/-- the number of elements in the segment the iterator points into -/
def Iter.segLength (it : Iter) : Nat := it.segEnd.2 - it.segBegin.2

/-! ### Proofs -/

theorem Ctx.splits {h : Nat} {g : Log} {w : Nat} {k : Nat} (c : Ctx α h k) (hc : c.Ok E) :
    ∀ {a s : Nat} {F : Asrt α}, Holds g (c.lay E w a s + F) m → Splits E m c.hdr.1 (c.need E) := by
  induction c with
  | top => intro a s F _; exact .root
  | @step k b l r c ih =>
    intro a s F H
    obtain ⟨-, -, -, h4, h5⟩ := id hc
    simp only [Ctx.lay, aassoc] at H
    have hb : b ≠ 0 := Holds.ne0 (H.eqv (by frame : _ = pt (.heap b) (IsNode w c.hdr.1 c.hdr.2 (keys l ++ (s, a) :: keys r)) + _))
    obtain ⟨cl, hcl, nd, rfl, n1, -, n3, -⟩ :=
      (H.eqv (by frame : _ = pt (.heap b) (IsNode w c.hdr.1 c.hdr.2 (keys l ++ (s, a) :: keys r)) + _)).get
    have hl : nd.len = l.length + 1 + r.length := by rw [n3]; simp; omega
    simp only [Ctx.hdr, Ctx.need]
    split
    · next hf =>
      refine .full hb hcl (hl.trans hf) ?_
      rw [n1]
      exact ih h5 (H.eqv (by frame : _ = c.lay E w b _ + _))
    · next hf => exact .room hcl (by omega)

theorem Splits.unique {p k j : Nat} (h1 : Splits E m p k) (h0 : m.cell (.heap 0) = none) (h2 : Splits E m p j) : k = j := by
  induction h1 generalizing j with
  | room h3 h4 =>
    cases h2 with
    | room => rfl
    | full _ h5 h6 => rw [h3] at h5; cases h5; omega
    | root => rw [h0] at h3; cases h3
  | full h3 h4 h5 _ ih =>
    cases h2 with
    | room h6 h7 => rw [h4] at h6; cases h6; omega
    | full _ h6 _ h7 => rw [h4] at h6; cases h6; rw [ih h7]
    | root => exact absurd rfl h3
  | root =>
    cases h2 with
    | room h3 => rw [h0] at h3; cases h3
    | full h3 => exact absurd rfl h3
    | root => rfl

/-- what a single insertion at `it` does to the allocator and the height -/
theorem insertion_x (hE : E.Good) (hr : Reach E m) (hc : Contents E o m xs) (hi : i ≤ xs.length)
    (hn : nth E o i m = .ok it m) (hsz : xs.length + 1 ≤ max_size E) {x : M α Unit}
    (hx : Insertion E o i xs.length it v x) {n : Nat} (hh : height o m = .ok n m) :
    Spec x m
      (fun _ m' =>
        (xs = [] → m'.log.reqs = m.log.reqs + 1 ∧ height o m' = .ok 1 m') ∧
        (xs ≠ [] → ∃ k, Splits E m it.entry.leaf.ptr k ∧ k ≤ n ∧
          (it.segLength < E.segMax → m'.log.reqs = m.log.reqs ∧ height o m' = .ok n m') ∧
          (it.segLength = E.segMax → m'.log.reqs = m.log.reqs + 1 + k ∧
            height o m' = .ok (if k = n then n + 1 else n) m')))
      (fun e _ => xs ≠ [] → e = .alloc → it.segLength = E.segMax) := by
  obtain ⟨al, s, F, hs, rfl, H⟩ := hr.cont hE hc
  have ha := at_of_nth hs H hi hn
  have h2 : height o m = .ok s.ht m := getHeight_c H
  rw [h2] at hh; cases hh
  have hseg : it.segLength = it.entry.seg.len := rfl
  have key : ∀ mk : M α α, Mk (CopyThrows E) v mk → Spec (emplace_single E o it mk >>= fun _ => pure ()) m
      (fun _ m' =>
        (s.elems = [] → m'.log.reqs = m.log.reqs + 1 ∧ height o m' = .ok 1 m') ∧
        (s.elems ≠ [] → ∃ k, Splits E m it.entry.leaf.ptr k ∧ k ≤ s.ht ∧
          (it.segLength < E.segMax → m'.log.reqs = m.log.reqs ∧ height o m' = .ok s.ht m') ∧
          (it.segLength = E.segMax → m'.log.reqs = m.log.reqs + 1 + k ∧
            height o m' = .ok (if k = s.ht then s.ht + 1 else s.ht) m')))
      (fun e _ => s.elems ≠ [] → e = .alloc → it.segLength = E.segMax) := by
    intro mk hm
    unfold emplace_single
    obtain ⟨m1, ht, h | ⟨h, h1⟩⟩ := hm m
    · rw [bind_assoc]
      refine Spec.step h (((insert_iterator_x v hE hs ha (max_lt hE hsz) (ht.holds H)).mono (fun _ _ h => h) ?_).bind ?_)
      · rintro e m' ⟨rfl, -, n, -, hf, -⟩ hne -
        exact hf (by rintro rfl; exact hne rfl)
      · rintro jt m' ⟨s', n, hs', -, -, -, hg, H'⟩
        refine Spec.pure ?_
        have hh' : height o m' = .ok s'.ht m' := getHeight_c H'
        rw [H'.log, hh']
        cases s' with
        | nil => cases s <;> exact hg.elim
        | @tree h' t' =>
        cases s with
        | nil =>
          obtain ⟨rfl, rfl, -⟩ := hg
          exact ⟨fun _ => ⟨rfl, rfl⟩, fun h => absurd rfl h⟩
        | @tree h t =>
          refine ⟨fun he => ?_, fun _ => ?_⟩
          · have := hs.2.size_pos
            simp only [St.elems_tree] at he
            simp [he] at this
          · obtain ⟨c, sg, rfl, e2, -, e3, e4, -⟩ := hg
            rw [cont_tree, aassoc, Ctx.fill_lay, aassoc] at H
            obtain ⟨hcok, -⟩ := (Ctx.fill_root c sg).1 hs.2
            have hsp := c.splits (E := E) hcok (H.eqv (by frame : _ = c.lay E _ _ _ + _))
            rw [← e2] at hsp
            have hle := c.need_le (E := E)
            refine ⟨c.need E, hsp, by simp only [St.ht]; omega, fun hl => ?_, fun hl => ?_⟩
            · obtain ⟨rfl, rfl⟩ := e3 (by omega)
              exact ⟨rfl, rfl⟩
            · obtain ⟨rfl, rfl⟩ := e4 (by omega)
              refine ⟨by simp only; omega, ?_⟩
              congr 1
              simp only [St.ht]
              by_cases hk : c.need E = h + 1
              · simp only [hk, if_true]; omega
              · simp only [hk, if_false]; omega
    · exact Spec.thr (bind_throw (bind_throw h)) (fun _ h => by cases h)
  have pure' : Mk (CopyThrows E) v (pure v) := Mk.pure v
  cases hx with
  | insert => exact key _ (Mk.copy v)
  | insert_rv => exact key _ pure'
  | push_back h => subst h; exact Spec.step (find_end_c hs ha H) (key _ (Mk.copy v))
  | push_back_rv h => subst h; exact Spec.step (find_end_c hs ha H) (key _ pure')
  | push_front h => subst h; exact Spec.step (find_first_c hs ha H) (key _ (Mk.copy v))
  | push_front_rv h => subst h; exact Spec.step (find_first_c hs ha H) (key _ pure')

/-- C85: a single insertion in a segment with room asks for no memory, never fails for lack
of it and leaves the height as it is. -/
theorem C85_room (hE : E.Good) (hr : Reach E m) (hc : Contents E o m xs) (hi : i ≤ xs.length)
    (hn : nth E o i m = .ok it m) (hsz : xs.length + 1 ≤ max_size E) {x : M α Unit}
    (hx : Insertion E o i xs.length it v x) (hne : xs ≠ []) (hroom : it.segLength < E.segMax) {n : Nat}
    (hh : height o m = .ok n m) :
    (∀ m', x m ≠ .throw .alloc m') ∧ ∀ m', x m = .ok () m' → m'.log = m.log ∧ height o m' = .ok n m' := by
  have key := insertion_x hE hr hc hi hn hsz hx hh
  refine ⟨fun m' h => ?_, fun m' h => ?_⟩
  · have := key.exc h hne rfl
    omega
  · obtain ⟨k, -, -, h1, -⟩ := (key.ret h).2 hne
    obtain ⟨h1, h2⟩ := h1 hroom
    have h3 := (insertion_c hE hr hc hi hn hsz hx hh).ret h
    refine ⟨?_, h2⟩
    cases e1 : m'.log; cases e2 : m.log
    rw [e1, e2] at h1 h3
    simp only at h1 h3
    rw [h1, h3.1]

/-- C85: a single insertion in a full segment that succeeds asks for one segment, and for as
many nodes as the rules of the documentation say; the tree gets one level higher exactly if
all the nodes above the segment were full. -/
theorem C85_full (hE : E.Good) (hr : Reach E m) (hc : Contents E o m xs) (hi : i ≤ xs.length)
    (hn : nth E o i m = .ok it m) (hsz : xs.length + 1 ≤ max_size E) {x : M α Unit}
    (hx : Insertion E o i xs.length it v x) (hne : xs ≠ []) (hfull : it.segLength = E.segMax) {n : Nat}
    (hh : height o m = .ok n m) (h : x m = .ok () m') :
    ∃ k, Splits E m it.entry.leaf.ptr k ∧ (∀ j, Splits E m it.entry.leaf.ptr j → j = k) ∧ k ≤ n ∧
      m'.log.reqs = m.log.reqs + 1 + k ∧ height o m' = .ok (if k = n then n + 1 else n) m' := by
  obtain ⟨k, h1, h2, -, h3⟩ := ((insertion_x hE hr hc hi hn hsz hx hh).ret h).2 hne
  obtain ⟨h3, h4⟩ := h3 hfull
  obtain ⟨al, s, F, hs, rfl, H⟩ := hr.cont hE hc
  exact ⟨k, h1, fun j hj => hj.unique H.null h1, h2, h3, h4⟩

/-- C85: the first insertion in an empty container asks for one block. -/
theorem C85_first (hE : E.Good) (hr : Reach E m) (hc : Contents E o m []) (hn : nth E o 0 m = .ok it m)
    (hsz : 1 ≤ max_size E) {x : M α Unit} (hx : Insertion E o 0 0 it v x) (h : x m = .ok () m') :
    m'.log.reqs = m.log.reqs + 1 ∧ height o m' = .ok 1 m' := by
  obtain ⟨al, s, F, hs, hs0, H⟩ := hr.cont hE hc
  exact ((insertion_x hE hr hc (Nat.zero_le _) hn (by simpa using hsz) hx (getHeight_c H)).ret h).1 rfl

/-- C85: an insertion that fails for lack of memory found the segment full (or the container
empty). -/
theorem C85_failed (hE : E.Good) (hr : Reach E m) (hc : Contents E o m xs) (hi : i ≤ xs.length)
    (hn : nth E o i m = .ok it m) (hsz : xs.length + 1 ≤ max_size E) {x : M α Unit}
    (hx : Insertion E o i xs.length it v x) (h : x m = .throw .alloc m') : xs = [] ∨ it.segLength = E.segMax := by
  obtain ⟨al, s, F, hs, hs0, H⟩ := hr.cont hE hc
  by_cases hne : xs = []
  · exact .inl hne
  · exact .inr ((insertion_x hE hr hc hi hn hsz hx (getHeight_c H)).exc h hne rfl)

/-! ### Examples -/

theorem roomy_good : roomy.Good := ⟨by decide, fun _ => .inr rfl, by decide, by decide⟩

-- two elements in a segment with room for four: no request, whatever the allocator would do
example : (∀ m', push_back roomy 0 3 (oneSeg [1, 2]) ≠ .throw .alloc m') ∧
    ∀ m', push_back roomy 0 3 (oneSeg [1, 2]) = .ok () m' → m'.log = (oneSeg [1, 2]).log ∧ height 0 m' = .ok 1 m' :=
  C85_room (i := 2) (it := ⟨⟨⟨1, 2, 2⟩, ⟨0, 0⟩⟩, 2⟩) roomy_good roomy_12 (oneSeg_contents (by decide)) (by decide) rfl (by decide)
    (.push_back rfl) (by decide) (by decide) (n := 1) rfl

-- a third element in a segment for two: one more segment and a root, and the tree has two levels
example : ∃ (m' : Mem Nat) (it : Iter), nth demo 0 2 (oneSeg [1, 2]) = .ok it (oneSeg [1, 2]) ∧ it.segLength = demo.segMax ∧
    push_back demo 0 7 (oneSeg [1, 2]) = .ok () m' ∧ m'.log.reqs = (oneSeg [1, 2]).log.reqs + 2 ∧ height 0 m' = .ok 2 m' := by
  have hc : Contents demo 0 (oneSeg [1, 2]) [1, 2] := oneSeg_contents (by decide)
  have hp : ∀ al, Un.Pre demo ⟨al, [1, 2]⟩ (.pushBack 7) := fun _ => (by decide : 3 ≤ max_size demo)
  rcases demo_12.call demo_good hc (.pushBack 7) hp with ⟨r, m', al, x', e, -⟩ | ⟨e, m', al, x', he, hx, -⟩
  · obtain ⟨-, u, h⟩ := unit_inv e
    refine ⟨m', ⟨⟨⟨1, 2, 2⟩, ⟨0, 0⟩⟩, 2⟩, rfl, by decide, h, ?_⟩
    obtain ⟨k, h1, h2, h3, h4, h5⟩ := C85_full (i := 2) (it := ⟨⟨⟨1, 2, 2⟩, ⟨0, 0⟩⟩, 2⟩) demo_good demo_12
      hc (by decide) rfl (by decide) (.push_back (v := 7) rfl) (by decide) (by decide) (n := 1) rfl h
    cases h2 1 .root
    exact ⟨h4, h5⟩
  · cases demo_blame (vs := [7]) (by decide) hx.1
    exact absurd he (demo_12.no_alloc demo_endless (.un 0 (.pushBack 7)))

end SegTree
