/-
  C58: how many elements a call touches.

  The counter counts the elements of containers that are constructed, assigned,
  moved from or destroyed (`Weights.elements`; a block copy counts every element
  copied and one more).  `Cost.f` is the model's function `f` with that counter
  (Cost/Model.lean).
-/
import Verif.Cost.Moves
import Verif.Props.Algorithms
import Verif.Props.Iterators
set_option autoImplicit false
set_option synthInstance.maxSize 2000
set_option synthInstance.maxHeartbeats 400000

attribute [local instance] SegTree.Weights.elements

namespace SegTree
variable {α β γ : Type} {E : Env α} {m m' : Mem α} {o i a b n : Nat} {xs ys vs : List α} {v : α}
  {it jt first last : Iter} {x : M α β} {y : C α β}

/-- Whatever the memory holds when `x` is called: if `x` returns or throws, the
counting program `y` does the same, and no more than `k` elements were
constructed, assigned, moved from or destroyed on the way. -/
def Touches (x : M α β) (y : C α β) (k : Nat) : Prop :=
  ∀ m : Mem α,
    (∀ v m', x m = .ok v m' → ∃ n, n ≤ k ∧ y m = .ok v m' n) ∧
    (∀ e m', x m = .throw e m' → ∃ n, n ≤ k ∧ y m = .throw e m' n)

theorem Touches.of [hsim : Sim x y] {k : Nat} (h : CB y k) : Touches x y k := by
  intro m
  have hr := h.run m
  constructor
  · intro v m' e
    obtain ⟨n, hn⟩ := hsim.ok e
    rw [hn] at hr
    exact ⟨n, hr, hn⟩
  · intro v m' e
    obtain ⟨n, hn⟩ := hsim.thrown e
    rw [hn] at hr
    exact ⟨n, hr, hn⟩

/-- the bound for one element: it depends on the capacity of a segment only -/
def perElement (E : Env α) : Nat := 6 * E.segMax + 7

/-- C58: an insertion or an erasure at any position touches a number of elements
that does not depend on the size of the container -/
theorem C58_single (E : Env α) (o : Nat) (it : Iter) (v : α) :
    Touches (insert E o it v) (Cost.insert E o it v) (perElement E) ∧
    Touches (insert_rv E o it v) (Cost.insert_rv E o it v) (perElement E) ∧
    Touches (erase E o it) (Cost.erase E o it) (perElement E) ∧
    Touches (push_back E o v) (Cost.push_back E o v) (perElement E) ∧
    Touches (push_back_rv E o v) (Cost.push_back_rv E o v) (perElement E) ∧
    Touches (push_front E o v) (Cost.push_front E o v) (perElement E) ∧
    Touches (push_front_rv E o v) (Cost.push_front_rv E o v) (perElement E) ∧
    Touches (pop_back E o) (Cost.pop_back E o) (perElement E) ∧
    Touches (pop_front E o) (Cost.pop_front E o) (perElement E) :=
  ⟨.of (Moves.insert _ _ _), .of (Moves.insert_rv _ _ _), .of (Moves.erase _ _), .of (Moves.push_back _ _),
    .of (Moves.push_back_rv _ _), .of (Moves.push_front _ _), .of (Moves.push_front_rv _ _), .of (Moves.pop_back _),
    .of (Moves.pop_front _)⟩

/-- C58: inserting or erasing `n` elements touches at most `n` times as many:
the elements outside the range and its neighbourhood stay where they are -/
theorem C58_bulk (E : Env α) (o : Nat) (it first last : Iter) (v : α) (vs : List α) (n : Nat) :
    Touches (insert_fill E o it n v) (Cost.insert_fill E o it n v) (n * perElement E) ∧
    Touches (insert_list E o it vs) (Cost.insert_list E o it vs) (vs.length * perElement E) ∧
    (last.pos = first.pos + n →
      Touches (erase_rng E o first last) (Cost.erase_rng E o first last) (n * perElement E)) :=
  ⟨.of (Moves.insert_fill _ _ _ _), .of (Moves.insert_list _ _ _), fun h => .of (Moves.erase_range o first n last h)⟩

/-- C58: writing through a reference touches one element, exchanging two
elements through their iterators touches those two (six assignments) -/
theorem C58_write (E : Env α) (o i : Nat) (it jt : Iter) (v : α) :
    Touches (index_set E o i v) (Cost.index_set E o i v) 1 ∧
    Touches (deref_set E it v) (Cost.deref_set E it v) 1 ∧
    Touches (deref_set_rv E it v) (Cost.deref_set_rv E it v) 1 ∧
    Touches (iter_swap E it jt) (Cost.iter_swap E it jt) 6 :=
  ⟨.of (Moves.index_set _ _ _), .of (Moves.deref_set _ _), .of (Moves.deref_set_rv _ _), .of (Moves.iter_swap _ _)⟩

/-- C58: swapping two containers, constructing one by moving another and
constructing an empty one touch no element at all; clearing or destroying a
container, and moving another one into it, do not either if the element type is
trivially destructible (for the last: when the allocator moves along) -/
theorem C58_none (E : Env α) (o a al : Nat) :
    Touches (swap E o a) (Cost.swap E o a) 0 ∧
    Touches (ctor_move (α := α) o a) (Cost.ctor_move o a) 0 ∧
    Touches (ctor (α := α) o al) (Cost.ctor o al) 0 ∧
    (E.trivDtor = true →
      Touches (clear E o) (Cost.clear E o) 0 ∧ Touches (dtor E o) (Cost.dtor E o) 0 ∧
      (E.pocma = true → Touches (assign_move E o a) (Cost.assign_move E o a) 0)) :=
  ⟨.of (Moves.swap _ _), .of (Moves.ctor_move _ _), .of Moves.quiet,
    fun h => ⟨.of (Moves.clear_triv h _), .of (Moves.dtor_triv h _), fun hp => .of (by
      unfold Cost.assign_move Cost.move_assign
      rw [if_pos hp]
      exact Moves.move_assign_steal_triv h _ _)⟩⟩

/-- a case that does something: an insertion into the middle of a container of
eight elements, which returns -/
example : ∃ (m m' : Mem Nat) (it jt : Iter), Reach demo m ∧ Contents demo 0 m eight ∧ nth demo 0 3 m = .ok it m ∧
    ∃ n, n ≤ perElement demo ∧ Cost.insert demo 0 it 42 m = .ok jt m' n := by
  obtain ⟨m, h1, h2, -⟩ := demo_eight
  obtain ⟨r, m', -, -, h3, -⟩ := demo_un h1 h2 (.insert 3 42) (fun _ => ⟨(by decide : 3 ≤ eight.length), (by decide : eight.length + 1 ≤ max_size demo)⟩)
    (fun _ e _ hx => demo_blame (by decide) hx.1)
  obtain ⟨jt, h4, -⟩ := pos_inv h3
  obtain ⟨it, m1, h5, h6⟩ := bind_inv h4
  obtain ⟨it', h7⟩ := h1.nth demo_good h2 3
  rw [h7] at h5
  cases h5
  obtain ⟨n, hn, h8⟩ := ((C58_single demo 0 it 42).1 m).1 _ _ h6
  exact ⟨m, m', it, jt, h1, h2, h7, n, hn, h8⟩

end SegTree
