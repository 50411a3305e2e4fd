/-
  C76: when iterators dangle.  The documentation of `operator=(seq&&)` (seq.hpp
  2466-2469) says that no iterators are invalidated when the allocator propagates
  or is equal; that is true of the source's iterators (C31) and false of the
  destination's, for every element of every non-empty destination.
-/
import Verif.Props.Objects
import Verif.Props.Multi
import Verif.Props.Bulk
import Verif.Props.Iterators
set_option autoImplicit false

namespace SegTree
variable {α : Type} {E : Env α} {m m' : Mem α}

theorem deref_seg {it : Iter} {w : Nat} {sl : Nat → Slot α} (h : m.cell (.heap it.entry.seg.ptr) = some (.seg w sl)) :
    dereference E it m = if it.entry.seg.idx < E.segMax then
      (match sl it.entry.seg.idx with
        | .val v => .ok v m
        | .raw => .ub .raw) else .ub .oob := by
  unfold dereference rdElem
  rw [bind_ok (by simp [rdSlots, h] : rdSlots it.entry.seg.ptr m = .ok sl m)]
  split
  · cases sl it.entry.seg.idx <;> rfl
  · rfl

theorem deref_not_seg {it : Iter} (h : ∀ w sl, m.cell (.heap it.entry.seg.ptr) ≠ some (.seg w sl)) :
    dereference E it m = .ub .access := by
  have : rdSlots it.entry.seg.ptr m = .ub .access := by
    unfold rdSlots
    split
    · rename_i w sl h1; exact absurd h1 (h _ _)
    · rfl
  show (rdSlots it.entry.seg.ptr >>= _) m = _
  simp only [Bind.bind, M.bind, this]

theorem deref_dead {it : Iter} (h : m.cell (.heap it.entry.seg.ptr) = none) : dereference E it m = .ub .access :=
  deref_not_seg fun w sl => by rw [h]; exact (nomatch ·)

/-- an iterator to an element is in a block of the container -/
theorem nth_in_block (hE : E.Good) (hr : Reach E m) {o i : Nat} {xs : List α} {it : Iter} (hc : Contents E o m xs)
    (hi : i < xs.length) (hn : nth E o i m = .ok it m) : ∃ sz, Block m o 0 it.entry.seg.ptr sz := by
  obtain ⟨al, s, F, hs, rfl, H⟩ := hr.cont hE hc
  obtain ⟨sz, w, sl, h1, -⟩ := elem_seg H hi (at_of_nth hs H (Nat.le_of_lt hi) hn)
  exact ⟨sz, h1⟩

/-- C76: after `clear()`, after destruction, and after a move assignment to the
container that takes over the source's blocks, using an old iterator to any
element of the container is undefined behaviour, although it was not before. -/
theorem C76_dangling (hE : E.Good) (hr : Reach E m) {o p i al al2 : Nat} {xs ys : List α} {it : Iter}
    (hc : Contents E o m xs) (hi : i < xs.length) (hn : nth E o i m = .ok it m) :
    dereference E it m = .ok xs[i] m ∧
    (∃ m', clear E o m = .ok () m' ∧ dereference E it m' = .ub .access) ∧
    (∃ m', dtor E o m = .ok () m' ∧ dereference E it m' = .ub .access) ∧
    (Contents E p m ys → o ≠ p → get_allocator o m = .ok al m → get_allocator p m = .ok al2 m →
      E.pocma = true ∨ E.acls al = E.acls al2 →
      ∃ m', assign_move E o p m = .ok () m' ∧ dereference E it m' = .ub .access) := by
  obtain ⟨sz, hb⟩ := nth_in_block hE hr hc hi hn
  have hx : xs ≠ [] := by rintro rfl; simp at hi
  refine ⟨?_, ?_, ?_, fun hd hne ha ha2 hw => ?_⟩
  · obtain ⟨al', s, F, hs, rfl, H⟩ := hr.cont hE hc
    exact dereference_c hs (at_of_nth hs H (Nat.le_of_lt hi) hn) hi H
  · obtain ⟨m', h1, -, -, -, -, -, h2, -⟩ := C29_clear hE hr hc (.inl hx)
    exact ⟨m', h1, deref_dead (h2 _ _ _ hb)⟩
  · obtain ⟨m', h1, -, h2⟩ := C29_destroy hE hr hc (.inl hx)
    exact ⟨m', h1, deref_dead (h2 _ _ _ hb)⟩
  · obtain ⟨m', h1, -, -, -, -, -, -, h2, -⟩ := C31_move_assign hE hr hc hd hne ha ha2 hw (.inl hx)
    exact ⟨m', h1, deref_dead (h2 _ _ _ hb)⟩

/-- C76: `*end()` is undefined behaviour, for every container (the element type
having a destructor) -/
theorem C76_end (hE : E.Good) (hr : Reach E m) (hd : E.trivDtor = false) {o : Nat} {xs : List α} {it : Iter}
    (hc : Contents E o m xs) (hn : end_ E o m = .ok it m) : ∃ e, dereference E it m = .ub e := by
  obtain ⟨al, s, F, hs, rfl, H⟩ := hr.cont hE hc
  obtain ⟨jt, ha⟩ := St.At.exists hs (Nat.le_refl _)
  have he : end_ E o m = .ok jt m := find_end_c hs ha H
  rw [he] at hn
  cases hn
  cases s with
  | nil =>
    obtain ⟨-, -, h3⟩ := ha
    exact ⟨_, deref_dead (by rw [h3]; exact H.null)⟩
  | tree t =>
    obtain ⟨-, c, u, p, hu, hp, he, hk⟩ := ha
    obtain ⟨sl, h1, h2, h3⟩ := sub_seg H hu
    have hlen : t.elems.length = c.pre.length + u.xs.length + c.post.length := by
      rw [← hu, c.fill_elems]; simp only [List.length_append]; rfl
    simp only [St.elems_tree] at hp
    have hp' : u.xs.length ≤ p := by omega
    have hraw : sl p = .raw := by
      rcases h3 p hp' with h | h
      · exact h
      · rw [hd] at h; cases h
    rw [deref_seg (w := E.acls al) (sl := sl) (by rw [he]; exact h1), he]
    simp only [entryOf, hraw]
    split
    · exact ⟨_, rfl⟩
    · exact ⟨_, rfl⟩

/-- C76: however old an iterator is, reading through it either is undefined
behaviour or reads a current element of some container: there is no third kind
of object it could reach. -/
theorem C76_any_iterator (hE : E.Good) (hr : Reach E m) (hd : E.trivDtor = false) (it : Iter) :
    (∃ e, dereference E it m = .ub e) ∨
    ∃ o j xs, Contents E o m xs ∧ ∃ h : j < xs.length, dereference E it m = .ok xs[j] m ∧
      ∃ jt, nth E o j m = .ok jt m ∧ jt.current = it.current := by
  by_cases hb : ∃ w sl, m.cell (.heap it.entry.seg.ptr) = some (.seg w sl)
  · obtain ⟨w, sl, hb⟩ := hb
    rw [deref_seg hb]
    split
    · rename_i hlt
      cases hv : sl it.entry.seg.idx with
      | raw => exact .inl ⟨_, rfl⟩
      | val v =>
        obtain ⟨o, j, xs, h1, h2, h3⟩ := C74_only_elements hE hr hd ⟨w, sl, hb, hv⟩
        obtain ⟨hj, jt, h4, h5⟩ := h2.at h1
        rw [List.getElem?_eq_getElem hj] at h3
        cases h3
        exact .inr ⟨o, j, xs, h1, hj, rfl, jt, h4, h5⟩
    · exact .inl ⟨_, rfl⟩
  · rw [deref_not_seg (fun w sl h => hb ⟨w, sl, h⟩)]
    exact .inl ⟨_, rfl⟩

-- the hypotheses are met: two containers with equal allocators, the first of 8 elements
example : ∃ (m : Mem Nat) (it : Iter), Reach demo m ∧ Contents demo 0 m eight ∧ 3 < eight.length ∧
    nth demo 0 3 m = .ok it m ∧ Contents demo 1 m [1, 2, 3] ∧ get_allocator 0 m = .ok 0 m ∧
    get_allocator 1 m = .ok 1 m ∧ demo.acls 0 = demo.acls 1 ∧ demo.trivDtor = false := by
  obtain ⟨m, h1, -, h2, h3, h4, h5⟩ := demo_lists eight [1, 2, 3] 0 1
  obtain ⟨it, h6, -⟩ := (C05_access (i := 3) demo_good h1 h2).1 (by decide) |>.2.2
  exact ⟨m, it, h1, h2, by decide, h6, h3, h4, h5, rfl, rfl⟩

end SegTree
