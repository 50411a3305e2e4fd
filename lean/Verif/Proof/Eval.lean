/-
  A tactic that runs the model on a concrete memory: used for the concrete
  counterexamples of Props/Defects.lean.  Every step is an equation checked by the
  kernel; nothing is compiled.
-/
import Verif.Props.Witness
set_option autoImplicit false

namespace SegTree

section
variable {α β γ : Type} {x : M α β} {f : β → M α γ} {m m' m'' : Mem α} {v : β} {r : Res α γ} {e : Exn} {k : UB}

theorem run_step (h : x m = .ok v m') (h2 : f v m' = r) : (x >>= f) m = r := by
  show M.bind x f m = r
  unfold M.bind; rw [h]; exact h2
theorem run_throw (h : x m = .throw e m') : (x >>= f) m = .throw e m' := by
  show M.bind x f m = _
  unfold M.bind; rw [h]
theorem run_ub (h : x m = .ub k) : (x >>= f) m = .ub k := by
  show M.bind x f m = _
  unfold M.bind; rw [h]
theorem run_pos {c : Prop} [Decidable c] {x y : M α γ} (h : c) (h2 : x m = r) : (if c then x else y) m = r := by
  rw [if_pos h]; exact h2
theorem run_neg {c : Prop} [Decidable c] {x y : M α γ} (h : ¬ c) (h2 : y m = r) : (if c then x else y) m = r := by
  rw [if_neg h]; exact h2
theorem run_try {g : M α Unit} (h : x m = .ok v m') : M.onThrow x g m = .ok v m' := by
  unfold M.onThrow; rw [h]
theorem run_catch {g : M α Unit} {u : Unit} (h : x m = .throw e m') (h2 : g m' = .ok u m'') :
    M.onThrow x g m = .throw e m'' := by
  unfold M.onThrow; rw [h]; simp only [h2]

end

/-- one step that does not depend on how the program ends -/
syntax "go_head" : tactic
macro_rules | `(tactic| go_head) => `(tactic| first
  | refine run_pos (by decide) ?_
  | refine run_neg (by decide) ?_
  | refine (congrFun (update_sizes.eq_1 _ _ _ _ _) _).trans ?_
  | refine (congrFun (forward_loop.eq_1 _ _ _ _) _).trans ?_
  | refine (congrFun (backward_loop.eq_1 _ _ _ _) _).trans ?_
  | refine (congrFun (range_loop.eq_1 _ _ _ _ _) _).trans ?_
  | refine (congrFun (alloc_nodes_loop.eq_1 _ _ _ _ _) _).trans ?_
  | refine (congrFun (free_chain.eq_1 _ _ _) _).trans ?_
  | refine (congrFun (find_index_loop.eq_1 _ _ _ _ _) _).trans ?_)

/-- run the program on the left of the goal, one statement at a time; it returns -/
syntax "go" : tactic
macro_rules | `(tactic| go) => `(tactic| first
  | rfl
  | (go_head; go)
  | (apply run_step; (next => go); (next => go))
  | (apply run_try; (next => go)))

/-- the same for a program that throws -/
syntax "go_throw" : tactic
macro_rules | `(tactic| go_throw) => `(tactic| first
  | rfl
  | (go_head; go_throw)
  | (apply run_step; (next => go); (next => go_throw))
  | (apply run_throw; (next => go_throw))
  | (apply run_catch; (next => go_throw); (next => go)))

/-- the same for a program that is undefined -/
syntax "go_ub" : tactic
macro_rules | `(tactic| go_ub) => `(tactic| first
  | rfl
  | (go_head; go_ub)
  | (apply run_step; (next => go); (next => go_ub))
  | (apply run_ub; (next => go_ub)))

end SegTree
