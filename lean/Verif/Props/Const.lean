/-
  C57: the const interface writes nothing.

  The counter here counts writes only: every write to a node, a segment or a
  `seq` object, and every call of the allocator (`Weights.writes`).  `Cost.f` is
  the model's function `f` with that counter (Cost/Model.lean).
-/
import Verif.Cost.ReadOnly
import Verif.Cost.Bound
import Verif.Props.Algorithms
import Verif.Props.Iterators
set_option autoImplicit false
set_option synthInstance.maxSize 2000
set_option synthInstance.maxHeartbeats 400000

attribute [local instance] SegTree.Weights.writes

namespace SegTree
variable {α β γ : Type} {E : Env α} {m m' : Mem α} {o i a b : Nat} {xs ys : List α} {v : α}
  {it jt first last : Iter} {x : M α β} {y : C α β}

/-- Whatever the memory holds when `x` is called: if `x` returns or throws, the
memory is exactly what it was, and the counting program `y` does the same
without making one write or one allocator call on the way. -/
def WritesNothing (x : M α β) (y : C α β) : Prop :=
  ∀ m : Mem α,
    (∀ v m', x m = .ok v m' → m' = m ∧ y m = .ok v m 0) ∧
    (∀ e m', x m = .throw e m' → m' = m ∧ y m = .throw e m 0)

theorem WritesNothing.of [hsim : Sim x y] [hq : Quiet true y] : WritesNothing x y := by
  intro m
  have hr := hq.run m
  constructor
  · intro v m' e
    obtain ⟨n, hn⟩ := hsim.ok e
    rw [hn] at hr
    obtain ⟨rfl, h⟩ := hr
    obtain rfl := h rfl
    exact ⟨rfl, hn⟩
  · intro v m' e
    obtain ⟨n, hn⟩ := hsim.thrown e
    rw [hn] at hr
    obtain ⟨rfl, h⟩ := hr
    obtain rfl := h rfl
    exact ⟨rfl, hn⟩

/-- C57: the queries and the element access of a container write nothing -/
theorem C57_container (E : Env α) (o i : Nat) :
    WritesNothing (at_ E o i) (Cost.at_ E o i) ∧
    WritesNothing (index_op E o i) (Cost.index_op E o i) ∧
    WritesNothing (front E o) (Cost.front E o) ∧
    WritesNothing (back E o) (Cost.back E o) ∧
    WritesNothing (size (α := α) o) (Cost.size o) ∧
    WritesNothing (empty (α := α) o) (Cost.empty o) ∧
    WritesNothing (height (α := α) o) (Cost.height o) ∧
    WritesNothing (get_allocator (α := α) o) (Cost.get_allocator o) ∧
    WritesNothing (nth E o i) (Cost.nth E o i) ∧
    WritesNothing (begin_ E o) (Cost.begin_ E o) ∧
    WritesNothing (end_ E o) (Cost.end_ E o) ∧
    WritesNothing (penultimate E o) (Cost.penultimate E o) :=
  ⟨.of, .of, .of, .of, .of, .of, .of, .of, .of, .of, .of, .of⟩

/-- C57: moving an iterator about and reading through it writes nothing -/
theorem C57_iterators (E : Env α) (it : Iter) (d : Int) (n : Nat) :
    WritesNothing (dereference E it) (Cost.dereference E it) ∧
    WritesNothing (it_index E it d) (Cost.it_index E it d) ∧
    WritesNothing (rev_deref E it) (Cost.rev_deref E it) ∧
    WritesNothing (move_next_iterator E it) (Cost.move_next_iterator E it) ∧
    WritesNothing (move_prev_iterator E it) (Cost.move_prev_iterator E it) ∧
    WritesNothing (it_add E it d) (Cost.it_add E it d) ∧
    WritesNothing (it_sub E it d) (Cost.it_sub E it d) ∧
    WritesNothing (move_after_segment E it) (Cost.move_after_segment E it) ∧
    WritesNothing (move_before_segment E it) (Cost.move_before_segment E it) ∧
    WritesNothing (move_after_segment_count E it n) (Cost.move_after_segment_count E it n) ∧
    WritesNothing (move_before_segment_count E it n) (Cost.move_before_segment_count E it n) :=
  ⟨.of, .of, .of, .of, .of, .of, .of, .of, .of, .of, .of⟩

/-- C57: comparing two containers and searching one writes nothing -/
theorem C57_algorithms (E : Env α) (eq lt : α → α → Bool) (p : α → Bool) (a b : Nat) (it jt : Iter) :
    WritesNothing (op_eq E eq a b) (Cost.op_eq E eq a b) ∧
    WritesNothing (op_ne E eq a b) (Cost.op_ne E eq a b) ∧
    WritesNothing (op_lt E lt a b) (Cost.op_lt E lt a b) ∧
    WritesNothing (op_le E lt a b) (Cost.op_le E lt a b) ∧
    WritesNothing (op_gt E lt a b) (Cost.op_gt E lt a b) ∧
    WritesNothing (op_ge E lt a b) (Cost.op_ge E lt a b) ∧
    WritesNothing (std_find_if E p it jt) (Cost.std_find_if E p it jt) :=
  ⟨.of, .of, .of, .of, .of, .of, .of⟩

/-- run the calls one after the other, and collect what they return -/
def runAll : List (M α β) → M α (List β)
  | [] => pure []
  | x :: xs => do
    let v ← x
    let vs ← runAll xs
    pure (v :: vs)

/-- C57: calls that write nothing do not see each other.  However many of them
are made on one memory, and in whatever order they come, each returns what it
returns when it is the only one (`calls` pairs each call with its lone result). -/
theorem C57_readers (m : Mem α) (calls : List (M α β × β))
    (hro : ∀ c ∈ calls, ∃ y : C α β, WritesNothing c.1 y)
    (halone : ∀ c ∈ calls, ∃ m', c.1 m = .ok c.2 m') :
    ∀ order : List (M α β × β), order.Perm calls →
      runAll (order.map Prod.fst) m = .ok (order.map Prod.snd) m := by
  intro order hp
  have hro' : ∀ c ∈ order, ∃ y : C α β, WritesNothing c.1 y := fun c hc => hro c (hp.mem_iff.1 hc)
  have hal' : ∀ c ∈ order, ∃ m', c.1 m = .ok c.2 m' := fun c hc => halone c (hp.mem_iff.1 hc)
  clear hp hro halone
  induction order with
  | nil => rfl
  | cons c cs ih =>
    obtain ⟨y, hy⟩ := hro' c (by simp)
    obtain ⟨m', hm⟩ := hal' c (by simp)
    obtain rfl := ((hy m).1 _ _ hm).1
    have h := ih (fun d hd => hro' d (by simp [hd])) (fun d hd => hal' d (by simp [hd]))
    show M.bind c.1 _ m' = _
    unfold M.bind
    rw [hm]
    show M.bind (runAll (cs.map Prod.fst)) _ m' = _
    unfold M.bind
    rw [h]
    rfl

/-- the hypotheses are met: readers of a reachable container of eight elements,
each returning its element -/
example : ∃ m, Reach demo m ∧ Contents demo 0 m eight ∧
    ∀ order : List (M Nat Nat × Nat), order.Perm [(index_op demo 0 2, eight[2]), (at_ demo 0 7, eight[7]), (front demo 0, eight[0])] →
      runAll (order.map Prod.fst) m = .ok (order.map Prod.snd) m := by
  obtain ⟨m, h1, h2, -⟩ := demo_eight
  refine ⟨m, h1, h2, C57_readers m _ ?_ ?_⟩
  · simp only [List.mem_cons, List.not_mem_nil, or_false]
    rintro c (rfl | rfl | rfl)
    · exact ⟨_, (C57_container demo 0 2).2.1⟩
    · exact ⟨_, (C57_container demo 0 7).1⟩
    · exact ⟨_, (C57_container demo 0 0).2.2.1⟩
  · simp only [List.mem_cons, List.not_mem_nil, or_false]
    rintro c (rfl | rfl | rfl)
    · exact ⟨m, ((C05_access (i := 2) demo_good h1 h2).1 (by decide)).2.1⟩
    · exact ⟨m, ((C05_access (i := 7) demo_good h1 h2).1 (by decide)).1⟩
    · exact ⟨m, ((C05_access (i := 0) demo_good h1 h2).2.1 (by decide)).1⟩

end SegTree
