/-
  C75: what generic algorithms cost on containers.

  A generic algorithm (C63) pays a constant for reading, writing, copying and
  comparing iterators and elements, and the logarithm of the size for moving an
  iterator.
-/
import Verif.Props.Generic
import Verif.Props.Complexity
set_option autoImplicit false
set_option synthInstance.maxSize 2000
set_option synthInstance.maxHeartbeats 400000

namespace SegTree
open Generic

attribute [local instance] Weights.accesses

variable {α σ : Type} {E : Env α} {m m' : Mem α} {A A' : Arrays α} {V V' : Vars}

/-- `Generic.use` with a counter -/
def Cost.use {β : Type} (V : Vars) (r : Nat) (f : Iter → C α β) : C α β :=
  match V r with
  | some it => f it
  | none => C.ub .access

/-- `Generic.throws` with a counter -/
def Cost.throws (x : C α Unit) : C α Bool := fun m =>
  match x m with
  | .ok _ m' n => .ok false m' n
  | .throw _ m' n => .ok true m' n
  | .ub k => .ub k
  | .div => .div

/-- `Generic.step` (one command of an algorithm) with a counter -/
def Cost.step (E : Env α) (V : Vars) : Cmd α → C α (Resp α × Vars)
  | .copy dst src => Cost.use V src fun it => pure (.unit, upd V dst (some it))
  | .next r => Cost.use V r fun it => do return (.unit, upd V r (some (← Cost.move_next_iterator E it)))
  | .prev r => Cost.use V r fun it => do return (.unit, upd V r (some (← Cost.move_prev_iterator E it)))
  | .add r d => Cost.use V r fun it => do return (.unit, upd V r (some (← Cost.it_add E it d)))
  | .read r => Cost.use V r fun it => do return (.val (← Cost.dereference E it), V)
  | .readAt r d => Cost.use V r fun it => do return (.val (← Cost.it_index E it d), V)
  | .write r v => Cost.use V r fun it => do
    Cost.deref_set_rv E it v
    return (.unit, V)
  | .assign r v => Cost.use V r fun it => do
    return (if ← Cost.throws (Cost.deref_set E it v) then .threw else .unit, V)
  | .take r => Cost.use V r fun it => do
    return (.val (← Cost.moveFrom E it.entry.seg.ptr it.entry.seg.idx), V)
  | .eq a b => Cost.use V a fun it => Cost.use V b fun jt => pure (.flag (it_eq it jt), V)
  | .lt a b => Cost.use V a fun it => Cost.use V b fun jt => pure (.flag (it_lt it jt), V)
  | .diff a b => Cost.use V a fun it => Cost.use V b fun jt => pure (.num (it_diff E it jt), V)

/-- `Generic.Algo.onSeqs` with a counter -/
def Cost.onSeqs (E : Env α) (P : Algo α σ) : Nat → σ → Vars → C α (σ × Vars)
  | 0, s, V => pure (s, V)
  | n + 1, s, V =>
    match P.next s with
    | .step c => do
      let x ← Cost.step E V c
      Cost.onSeqs E P n (P.then_ s x.1) x.2
    | _ => pure (s, V)

/-- the commands that move an iterator: `++`, `--`, `+=`, `r[d]` -/
def Generic.Cmd.moves : Cmd α → Bool
  | .next _ | .prev _ | .add _ _ | .readAt _ _ => true
  | _ => false

/-- What the first `n` steps of an algorithm cost on arrays if command `c` costs `price c`. -/
def Generic.Algo.bill (E : Env α) (P : Algo α σ) (price : Cmd α → Nat) : Nat → σ → Arrays α → Nat
  | 0, _, _ => 0
  | n + 1, s, A =>
    match P.next s with
    | .step c =>
      match A.step E c with
      | some (r, A') => price c + P.bill E price n (P.then_ s r) A'
      | none => 0
    | _ => 0

theorem Within.le {β : Type} {x : M α β} {y : C α β} {k : Nat} (h : Within x y m k) : (y m).le k := by
  rcases h with ⟨v, m', n, -, h2, h3⟩ | ⟨v, m', n, -, h2, h3⟩ <;> rw [h2] <;> exact h3

instance Sim.use {β : Type} (V : Vars) (r : Nat) {f : Iter → M α β} {g : Iter → C α β} [h : ∀ it, Sim (f it) (g it)] :
    Sim (Generic.use V r f) (Cost.use V r g) := by
  unfold Generic.use Cost.use
  cases V r with
  | none => exact Sim.ub _
  | some it => exact h it

instance Sim.throws {x : M α Unit} {y : C α Unit} [h : Sim x y] : Sim (Generic.throws x) (Cost.throws y) := by
  refine ⟨fun m => ?_⟩
  unfold Generic.throws Cost.throws
  rcases h.run m with e | e
  · rw [e]; exact .inl rfl
  · rw [← e]; cases y m <;> exact .inr rfl

theorem Sim.step (E : Env α) (V : Vars) (c : Cmd α) : Sim (Generic.step E V c) (Cost.step E V c) := by
  cases c <;> unfold Generic.step Cost.step <;> infer_instance

theorem Sim.onSeqs (P : Algo α σ) (n : Nat) (s : σ) (V : Vars) : Sim (P.onSeqs E n s V) (Cost.onSeqs E P n s V) := by
  induction n generalizing s V with
  | zero => exact Sim.pure _
  | succ n ih =>
    unfold Generic.Algo.onSeqs Cost.onSeqs
    cases P.next s with
    | step c =>
      have := Sim.step E V c
      have h2 : ∀ x : Resp α × Vars, Sim (P.onSeqs E n (P.then_ s x.1) x.2) (Cost.onSeqs E P n (P.then_ s x.1) x.2) :=
        fun x => ih _ _
      exact Sim.bind
    | ret => exact Sim.pure _
    | raise => exact Sim.pure _

theorem use_le {β : Type} {r k : Nat} {it : Iter} (h : V r = some it) {f : Iter → C α β} (hf : (f it m).le k) :
    (Cost.use V r f m).le k := by
  unfold Cost.use; rw [h]; exact hf

theorem le_then {β γ : Type} {x : C α β} {f : β → γ} {k : Nat} (h : (x m).le k) : ((do return f (← x)) m : CRes α γ).le k :=
  CRes.le_bind h (Nat.le_refl _) fun _ _ _ _ => Nat.zero_le _

/-- one command -/
theorem step_le (hE : E.Good) (hr : Reach E m) (h : Same E m A V) {N : Nat}
    (hN : ∀ o xs, A.elems o = some xs → xs.length ≤ N) {c : Cmd α} {x : Resp α × Arrays α} (hs : A.step E c = some x) :
    (Cost.step E V c m).le (if c.moves then K E * lg N else 3) := by
  have hvar : ∀ {r o i}, A.var r = some (o, i) → ∃ xs it, A.elems o = some xs ∧ i ≤ xs.length ∧ V r = some it ∧
      nth E o i m = .ok it m ∧ Contents E o m xs ∧ K E * lg xs.length ≤ K E * lg N := by
    intro r o i hv
    obtain ⟨xs, it, h1, h2, h3, h4⟩ := h.var _ _ _ hv
    exact ⟨xs, it, h1, h2, h3, h4, h.elems _ _ h1, Nat.mul_le_mul_left _ (lg_mono (hN _ _ h1))⟩
  cases c <;> simp only [Arrays.step, Option.bind_eq_bind, Option.bind_eq_some_iff, Prod.exists] at hs <;>
    simp only [Cmd.moves, if_true, Bool.false_eq_true, if_false, Cost.step]
  case copy =>
    obtain ⟨o, i, h1, -⟩ := hs
    obtain ⟨xs, it, -, -, h3, -⟩ := hvar h1
    exact use_le h3 (Nat.zero_le _)
  case next r =>
    obtain ⟨o, i, h1, ys, h2, h3⟩ := hs
    obtain ⟨xs, it, g1, g2, g3, g4, g5, g6⟩ := hvar h1
    rw [h2] at g1; cases g1
    split at h3
    · rename_i hi
      exact use_le g3 (le_then (((C52_step hE hr g5 g2 g4 (d := 0)).1 hi).le.mono g6))
    · cases h3
  case prev r =>
    obtain ⟨o, i, h1, h3⟩ := hs
    obtain ⟨xs, it, g1, g2, g3, g4, g5, g6⟩ := hvar h1
    split at h3
    · rename_i hi
      exact use_le g3 (le_then (((C52_step hE hr g5 g2 g4 (d := 0)).2.1 hi).le.mono g6))
    · cases h3
  case add r d =>
    obtain ⟨o, i, h1, ys, h2, h3⟩ := hs
    obtain ⟨xs, it, g1, g2, g3, g4, g5, g6⟩ := hvar h1
    rw [h2] at g1; cases g1
    split at h3
    · rename_i hi
      exact use_le g3 (le_then (((C52_step hE hr g5 g2 g4 (d := d)).2.2.2.1 hi.1 hi.2).le.mono g6))
    · cases h3
  case read r =>
    obtain ⟨o, i, h1, -⟩ := hs
    obtain ⟨xs, it, g1, g2, g3, g4, g5, g6⟩ := hvar h1
    exact use_le g3 (le_then (((CB.dereference it).run m).mono (by omega)))
  case readAt r d =>
    obtain ⟨o, i, h1, ys, h2, h3⟩ := hs
    obtain ⟨xs, it, g1, g2, g3, g4, g5, g6⟩ := hvar h1
    rw [h2] at g1; cases g1
    split at h3
    · rename_i hi
      obtain ⟨v, h4, -⟩ := Option.bind_eq_some_iff.1 h3
      have := (List.getElem?_eq_some_iff.1 h4).1
      exact use_le g3 (le_then (((C52_step hE hr g5 g2 g4 (d := d)).2.2.2.2.2 hi this).le.mono g6))
    · cases h3
  case write r v =>
    obtain ⟨o, i, h1, -⟩ := hs
    obtain ⟨xs, it, g1, g2, g3, g4, g5, g6⟩ := hvar h1
    exact use_le g3 (CRes.le_bind (a := 3) (((CB.assign_segment (E := E) it.entry.seg.ptr it.entry.seg.idx v).run m).mono (by omega))
      (Nat.le_refl _) fun _ _ _ _ => Nat.zero_le _)
  case assign r v =>
    obtain ⟨o, i, h1, -⟩ := hs
    obtain ⟨xs, it, g1, g2, g3, g4, g5, g6⟩ := hvar h1
    refine use_le g3 (le_then (x := Cost.throws (Cost.deref_set E it v)) (f := fun b => (if b = true then Resp.threw else Resp.unit, V)) ?_)
    have := ((CB.copyAssign (E := E) it.entry.seg.ptr it.entry.seg.idx v).run m).mono (b := 3) (by omega)
    unfold Cost.throws Cost.deref_set
    cases hq : Cost.copyAssign E it.entry.seg.ptr it.entry.seg.idx v m <;> rw [hq] at this <;> exact this
  case take r =>
    obtain ⟨o, i, h1, -⟩ := hs
    obtain ⟨xs, it, g1, g2, g3, g4, g5, g6⟩ := hvar h1
    exact use_le g3 (le_then ((CB.moveFrom (E := E) it.entry.seg.ptr it.entry.seg.idx).run m))
  case eq a b =>
    obtain ⟨o, i, h1, p, j, h2, -⟩ := hs
    obtain ⟨xs, it, -, -, g3, -⟩ := hvar h1
    obtain ⟨ys, jt, -, -, f3, -⟩ := hvar h2
    exact use_le g3 (use_le f3 (Nat.zero_le _))
  case lt a b =>
    obtain ⟨o, i, h1, p, j, h2, -⟩ := hs
    obtain ⟨xs, it, -, -, g3, -⟩ := hvar h1
    obtain ⟨ys, jt, -, -, f3, -⟩ := hvar h2
    exact use_le g3 (use_le f3 (Nat.zero_le _))
  case diff a b =>
    obtain ⟨o, i, h1, p, j, h2, -⟩ := hs
    obtain ⟨xs, it, -, -, g3, -⟩ := hvar h1
    obtain ⟨ys, jt, -, -, f3, -⟩ := hvar h2
    exact use_le g3 (use_le f3 (Nat.zero_le _))

/-- the arrays keep their lengths -/
theorem step_len {N : Nat} {c : Cmd α} {x : Resp α} (hs : A.step E c = some (x, A'))
    (hN : ∀ o xs, A.elems o = some xs → xs.length ≤ N) : ∀ o xs, A'.elems o = some xs → xs.length ≤ N := by
  have key : ∀ (o : Nat) (xs ys : List α), A.elems o = some xs → ys.length = xs.length →
      ∀ p zs, upd A.elems o (some ys) p = some zs → zs.length ≤ N := by
    intro o xs ys h1 h2 p zs h3
    by_cases e : p = o
    · subst e; rw [upd_self] at h3; cases h3; rw [h2]; exact hN _ _ h1
    · rw [upd_ne e] at h3; exact hN _ _ h3
  cases c <;> simp only [Arrays.step, Option.bind_eq_bind, Option.bind_eq_some_iff, Prod.exists] at hs
  case write =>
    obtain ⟨o, i, -, xs, h3, h4⟩ := hs
    split at h4 <;> cases h4
    exact key _ _ _ h3 (by simp)
  case assign =>
    obtain ⟨o, i, -, xs, h3, h4⟩ := hs
    split at h4
    · split at h4
      · cases h4; exact key _ _ _ h3 (by simp)
      · split at h4 <;> cases h4
        · exact hN
        · exact key _ _ _ h3 (by simp)
    · cases h4
  case take =>
    obtain ⟨o, i, -, xs, h3, v, -, h4⟩ := hs
    cases h4
    exact key _ _ _ h3 (by simp)
  all_goals
    have he : A'.elems = A.elems := by grind
    rw [he]; exact hN

/-- C75: a generic algorithm whose steps are allowed on arrays costs on containers of
at most `N` elements at most 3 accesses per element access, assignment or comparison
and `K E * lg N` per movement of an iterator; `K E` depends on the template arguments
only. -/
theorem C75_algorithm (hE : E.Good) (P : Algo α σ) (n : Nat) (s : σ) {N : Nat} (hr : Reach E m) (h : Same E m A V)
    (hp : P.onArrays E n s A ≠ none) (hN : ∀ o xs, A.elems o = some xs → xs.length ≤ N) :
    Within (P.onSeqs E n s V) (Cost.onSeqs E P n s V) m
      (P.bill E (fun c => if c.moves then K E * lg N else 3) n s A) := by
  have hle : (Cost.onSeqs E P n s V m).le (P.bill E (fun c => if c.moves then K E * lg N else 3) n s A) := by
    induction n generalizing s A V m with
    | zero => exact Nat.zero_le _
    | succ n ih =>
      unfold Cost.onSeqs Algo.bill
      unfold Algo.onArrays at hp
      cases hc : P.next s with
      | ret => exact Nat.zero_le _
      | raise => exact Nat.zero_le _
      | step c =>
        rw [hc] at hp
        dsimp only at hp ⊢
        cases hst : A.step E c with
        | none => rw [hst] at hp; exact absurd rfl hp
        | some x =>
          obtain ⟨r, A1⟩ := x
          rw [hst] at hp
          obtain ⟨V1, m1, e1, e2, e3, e4⟩ := Generic.step_same hE hr h hst
          refine CRes.le_bind (step_le hE hr h hN hst) (Nat.le_add_right _ _) fun v m2 k hk => ?_
          obtain ⟨k', hk'⟩ := (Sim.step E V c).ok e1
          rw [hk'] at hk; cases hk
          rw [Nat.add_sub_cancel_left]
          exact ih (P.then_ s r) e2 e3 hp (step_len hst hN)
  obtain ⟨⟨s', A'⟩, hp⟩ := Option.ne_none_iff_exists'.1 hp
  obtain ⟨V', m', e, -⟩ := C63_algorithm hE P n s s' hr h hp
  have := Sim.onSeqs (E := E) P n s V
  exact .run e hle

theorem bill_le {P : Algo α σ} {price : Cmd α → Nat} {k : Nat} (h : ∀ c, price c ≤ k) (n : Nat) (s : σ) :
    P.bill E price n s A ≤ n * k := by
  induction n generalizing s A with
  | zero => exact Nat.zero_le _
  | succ n ih =>
    unfold Algo.bill
    split
    · split
      · have := ih (P.then_ s ‹_›) (A := ‹_›)
        have := h ‹Cmd α›
        rw [Nat.add_mul]; omega
      · exact Nat.zero_le _
    · exact Nat.zero_le _

/-- C75: at most `K E * lg N` accesses per step: an algorithm that takes `f(N)` steps on
an array takes `O(f(N) log N)` on a container. -/
theorem C75_factor (hE : E.Good) (P : Algo α σ) (n : Nat) (s : σ) {N : Nat} (hr : Reach E m) (h : Same E m A V)
    (hp : P.onArrays E n s A ≠ none) (hN : ∀ o xs, A.elems o = some xs → xs.length ≤ N) :
    Within (P.onSeqs E n s V) (Cost.onSeqs E P n s V) m (n * (K E * lg N)) := by
  refine (C75_algorithm hE P n s hr h hp hN).mono (bill_le (fun c => ?_) n s)
  have h1 : 1 ≤ lg N := by unfold lg; omega
  have h2 : 3 ≤ K E := by have := E.segMax_pos; unfold K; omega
  split
  · exact Nat.le_refl _
  · exact Nat.le_trans h2 (Nat.le_mul_of_pos_right _ h1)

/-- `Generic.runWhole` (`algorithm(c.begin(), c.end());`) with a counter -/
def Cost.runWhole (E : Env α) (P : Algo α σ) (n : Nat) (s : σ) (o : Nat) : C α Unit := do
  let b ← Cost.begin_ E o
  let e ← Cost.end_ E o
  let x ← Cost.onSeqs E P n s (Generic.range b e)
  match P.next x.1 with
  | .ret _ => pure ()
  | .raise => C.throw .elem
  | .step _ => fun _ => .div

/-- C75: `sort()` and the like: with an implementation of the standard algorithm that
takes `n` steps (until it returns or a comparison throws), the member function makes
at most `(n + 2) * K E * lg size()` accesses. -/
theorem C75_whole (hE : E.Good) (P : Algo α σ) {n : Nat} {s s' : σ} {o : Nat} {xs : List α} (hr : Reach E m)
    (hc : Contents E o m xs) (hp : P.onArrays E n s (whole o xs m.ticks) = some (s', A'))
    (hend : (∃ r, P.next s' = .ret r) ∨ P.next s' = .raise) :
    Within (runWhole E P n s o) (Cost.runWhole E P n s o) m ((n + 2) * (K E * lg xs.length)) := by
  obtain ⟨b, e, h1, h2, h3⟩ := C63_range hE hr hc
  obtain ⟨V', m', h4, -⟩ := C63_algorithm hE P n s s' hr h3 hp
  have hN : ∀ q ys, (whole o xs m.ticks).elems q = some ys → ys.length ≤ xs.length := by
    intro q ys hq
    simp only [whole] at hq
    split at hq <;> cases hq
    exact Nat.le_refl _
  have hle := (C75_factor hE P n s hr h3 (by rw [hp]; exact (nomatch ·)) hN).le
  obtain ⟨k1, c1⟩ := (inferInstance : Sim (begin_ E o) (Cost.begin_ E o)).ok h1
  obtain ⟨k2, c2⟩ := (inferInstance : Sim (end_ E o) (Cost.end_ E o)).ok h2
  obtain ⟨k3, c3⟩ := (Sim.onSeqs (E := E) P n s (Generic.range b e)).ok h4
  have l1 := (C50_access (i := 0) hE hr hc).2.2.2.2.1.le
  have l2 := (C50_access (i := 0) hE hr hc).2.2.2.2.2.1.le
  rw [c1] at l1; rw [c2] at l2; rw [c3] at hle
  have hl1 : k1 ≤ K E * lg xs.length := l1
  have hl2 : k2 ≤ K E * lg xs.length := l2
  have hl3 : k3 ≤ n * (K E * lg xs.length) := hle
  have htot : k1 + (k2 + (k3 + 0)) ≤ (n + 2) * (K E * lg xs.length) := by rw [Nat.add_mul]; omega
  have hrun : Cost.runWhole E P n s o m = ((((match P.next s' with
      | .ret _ => pure ()
      | .raise => C.throw .elem
      | .step _ => fun _ => .div : C α Unit) m').add k3).add k2).add k1 := by
    unfold Cost.runWhole
    show C.bind _ _ m = _
    unfold C.bind; rw [c1]
    show CRes.add k1 (C.bind _ _ m) = _
    unfold C.bind; rw [c2]
    show CRes.add k1 (CRes.add k2 (C.bind _ _ m)) = _
    unfold C.bind; rw [c3]
  unfold runWhole
  rcases hend with ⟨r, hx⟩ | hx
  · refine .inl ⟨(), m', k1 + (k2 + (k3 + 0)), ?_, ?_, htot⟩
    · rw [bind_ok h1, bind_ok h2, bind_ok h4]; simp only [hx]; rfl
    · rw [hrun]; simp only [hx]; rfl
  · refine .inr ⟨.elem, m', k1 + (k2 + (k3 + 0)), ?_, ?_, htot⟩
    · rw [bind_ok h1, bind_ok h2, bind_ok h4]; simp only [hx]; rfl
    · rw [hrun]; simp only [hx]; rfl

-- the hypotheses are met: `std::reverse` on a container of eight elements, 40 steps at
-- most, of which those that move iterators are fewer
example : ∃ m : Mem Nat, Reach demo m ∧ Contents demo 0 m eight ∧
    Within (runWhole demo Generic.reverse 40 .test 0) (Cost.runWhole demo Generic.reverse 40 .test 0) m
      ((40 + 2) * (K demo * lg eight.length)) ∧
    (Generic.reverse.bill demo (fun c => if c.moves then 1 else 0) 40 .test (whole 0 eight 0) = 8) ∧
    (Generic.reverse.bill demo (fun _ => 1) 40 .test (whole 0 eight 0) = 33) := by
  obtain ⟨m, h1, h2, -⟩ := demo_eight
  exact ⟨m, h1, h2, C75_whole (s := .test) (s' := .ret) (n := 40) demo_good Generic.reverse h1 h2 rfl (.inl ⟨_, rfl⟩),
    by rfl, by rfl⟩

end SegTree
