/-
  How many elements a program copies (`Copies n x m`): exactly `n` if it returns, at
  most `n` if it throws.
-/
import Verif.Proof.TracedAll
import Verif.Proof.Use
import Verif.Proof.Whole
set_option autoImplicit false
set_option linter.unusedVariables false
set_option synthInstance.maxSize 2000
set_option synthInstance.maxHeartbeats 400000

namespace SegTree
open Lean.Order
variable {α β γ : Type} {E : Env α} {o p : Nat} {m m' : Mem α}

/-- no copies -/
def copyfree (α : Type) : Proto α where
  ok m m' := m'.ticks = m.ticks
  exc _ m m' := m'.ticks = m.ticks
  frame h := h.1
  trans h1 h2 := h2.trans h1
  left h1 h2 := h2.trans h1
  right h1 h2 := h2.1.trans h1
instance : AtMove E (copyfree α) := ⟨fun _ _ _ => rfl⟩
instance : AtAlloc E (copyfree α) := ⟨fun _ _ h _ => h, fun _ _ h _ => h⟩
instance : AtRange (copyfree α) := ⟨fun _ => rfl⟩

def Res.copies (n : Nat) (m : Mem α) : Res α β → Prop
  | .ok _ m' => m'.ticks = m.ticks + n
  | .throw _ m' => m.ticks ≤ m'.ticks ∧ m'.ticks ≤ m.ticks + n
  | _ => True

def Copies (n : Nat) (x : M α β) (m : Mem α) : Prop := (x m).copies n m

namespace Copies

theorem of {x : M α β} [h : Traced (copyfree α) x] : Copies 0 x m := by
  have h := h.run m
  unfold Copies
  cases e : x m with
  | ok v m' => rw [e] at h; exact h
  | throw v m' => rw [e] at h; exact ⟨Nat.le_of_eq h.symm, Nat.le_of_eq h⟩
  | ub _ => trivial
  | div => trivial

theorem bind {n k : Nat} {x : M α β} {f : β → M α γ} (h : Copies n x m)
    (hf : ∀ v m1, x m = .ok v m1 → Copies k (f v) m1) : Copies (n + k) (x >>= f) m := by
  unfold Copies at *
  show Res.copies _ m (M.bind x f m)
  unfold M.bind
  cases e : x m with
  | ok v m' =>
    rw [e] at h
    have h2 := hf v m' e
    dsimp only
    cases e2 : f v m' with
    | ok w m2 => rw [e2] at h2; simp only [Res.copies] at *; omega
    | throw w m2 => rw [e2] at h2; simp only [Res.copies] at *; omega
    | ub _ => trivial
    | div => trivial
  | throw v m' => rw [e] at h; simp only [Res.copies] at *; omega
  | ub _ => trivial
  | div => trivial

/-- a part that copies nothing, first -/
theorem pre {k : Nat} {x : M α β} {f : β → M α γ} [Traced (copyfree α) x]
    (hf : ∀ v m1, x m = .ok v m1 → Copies k (f v) m1) : Copies k (x >>= f) m := by
  rw [← Nat.zero_add k]; exact bind of hf

/-- a part that copies nothing, last -/
theorem post {n : Nat} {x : M α β} {f : β → M α γ} (h : Copies n x m) [hf : ∀ v, Traced (copyfree α) (f v)] :
    Copies n (x >>= f) m := bind h (fun v m1 _ => of)

theorem onThrow {n : Nat} {x : M α β} {y : M α Unit} (h : Copies n x m) [hy : Traced (copyfree α) y] :
    Copies n (M.onThrow x y) m := by
  unfold Copies M.onThrow at *
  cases e : x m with
  | ok v m' => rw [e] at h; exact h
  | throw v m' =>
    rw [e] at h
    have h2 := hy.run m'
    dsimp only
    cases e2 : y m' with
    | ok w m2 => rw [e2] at h2; simp only [Res.copies, Res.traced, copyfree] at *; omega
    | throw w m2 => rw [e2] at h2; simp only [Res.copies, Res.traced, copyfree] at *; omega
    | ub _ => trivial
    | div => trivial
  | ub _ => trivial
  | div => trivial
end Copies

/-- what one copy counts: nothing for trivially copyable elements -/
def Env.cp (E : Env α) : Nat := if E.trivCopy then 0 else 1

theorem copyVal_n (v : α) : Copies E.cp (copyVal E v) m := by
  unfold Copies copyVal Env.cp
  by_cases h : E.trivCopy = true
  · simp only [h, if_true]; rfl
  · simp only [h]
    by_cases h2 : E.cthrow m.ticks v = true
    · simp [h2, Res.copies, Mem.tick]
    · simp [h2, Res.copies, Mem.tick]

variable {it : Iter}

theorem emplace_single_n {mk : M α α} {c : Nat} (h : Copies c mk m) : Copies c (emplace_single E o it mk) m := by
  unfold emplace_single
  exact h.post

theorem emplace_count_loop_n {mk : M α α} {c : Nat} (h : ∀ m, Copies c mk m) (n : Nat) :
    ∀ {it : Iter} {m : Mem α}, Copies (c * n) (emplace_count_loop E o mk n it) m := by
  induction n with
  | zero => intro it m; unfold emplace_count_loop; exact Copies.of
  | succ n ih =>
    intro it m
    unfold emplace_count_loop
    rw [Nat.mul_succ, Nat.add_comm]
    exact (emplace_single_n (h m)).bind fun _ _ _ => .pre fun _ _ _ => ih

theorem emplace_count_n {mk : M α α} {c n : Nat} (h : ∀ m, Copies c mk m) : Copies (c * n) (emplace_count E o it n mk) m := by
  unfold emplace_count
  exact (emplace_count_loop_n h n).post

/-! ### sources -/

/-- the source at `st` yields exactly `n` more values, each with `c` copies -/
structure SrcN {σ : Type} (S : Src α σ) (c : Nat) (R : σ → Nat → Prop) : Prop where
  done : ∀ {st n}, R st n → (S.done st = true ↔ n = 0)
  read : ∀ {st} {m : Mem α}, Copies c (S.read st) m
  next : ∀ {st st' n} {m m' : Mem α}, R st (n + 1) → S.next st m = .ok st' m' → R st' n
  quiet : ∀ st, Traced (copyfree α) (S.next st)

theorem listSrc_n : SrcN (listSrc E) E.cp (fun st n => st.length = n) where
  done := by rintro st n rfl; cases st <;> simp [listSrc]
  read := by
    intro st m
    cases st with
    | nil => exact trivial
    | cons v l => exact copyVal_n v
  next := by
    rintro st st' n m m' h h1
    cases h1
    simp [h]
  quiet st := by unfold listSrc; infer_instance

theorem move_next_pos {it it' : Iter} (h : move_next_iterator E it m = .ok it' m') : it'.pos = it.pos + 1 := by
  unfold move_next_iterator at h
  obtain ⟨e, m1, -, h⟩ := bind_inv h
  cases h; rfl

theorem copySrc_n (last : Iter) : SrcN (copySrc E last) E.cp (fun st n => st.pos + n = last.pos) where
  done := by
    rintro st n h
    simp only [copySrc, decide_eq_true_eq]; omega
  read := by
    intro st m
    exact .pre fun v m1 _ => copyVal_n v
  next := by
    intro st st' n m m' h h1
    have := move_next_pos h1
    omega
  quiet st := by unfold copySrc; infer_instance

section
variable {σ : Type} {S : Src α σ} {R : σ → Nat → Prop} {c : Nat}

theorem emplace_range_loop_n (hS : SrcN S c R) (n : Nat) : ∀ {it : Iter} {st : σ} {cnt : Nat} {m : Mem α}, R st n →
    Copies (c * n) (emplace_range_loop E S o it st cnt) m := by
  induction n with
  | zero =>
    intro it st cnt m hR
    rw [emplace_range_loop, if_pos ((hS.done hR).2 rfl)]
    exact Copies.of
  | succ n ih =>
    intro it st cnt m hR
    rw [emplace_range_loop, if_neg (fun h => by have := (hS.done hR).1 h; omega)]
    rw [Nat.mul_succ, Nat.add_comm]
    have := hS.quiet st
    exact (emplace_single_n hS.read).bind fun _ _ _ => .pre fun st' m' h => .pre fun _ _ _ => ih (hS.next hR h)

theorem emplace_range_n (hS : SrcN S c R) {st : σ} {n : Nat} (hR : R st n) : Copies (c * n) (emplace_range E S o it st) m := by
  unfold emplace_range
  exact (emplace_range_loop_n hS n hR).post

theorem assign_range_loop_n (hS : SrcN S c R) (n : Nat) : ∀ {st : σ} {first last : Iter} {m : Mem α}, R st n →
    Copies (c * n) (assign_range_loop E S o st first last) m := by
  induction n with
  | zero =>
    intro st first last m hR
    rw [assign_range_loop, if_pos ((hS.done hR).2 rfl)]
    exact Copies.of
  | succ n ih =>
    intro st first last m hR
    rw [assign_range_loop, if_neg (fun h => by have := (hS.done hR).1 h; omega)]
    split
    · exact (emplace_range_n hS hR).post
    · rw [Nat.mul_succ, Nat.add_comm]
      have := hS.quiet st
      exact hS.read.bind fun _ _ _ => .pre fun _ _ _ => .pre fun _ _ _ => .pre fun st' m' h => ih (hS.next hR h)

theorem assign_range_n (hS : SrcN S c R) {st : σ} {n : Nat} (hR : R st n) : Copies (c * n) (assign_range E S o st) m := by
  unfold assign_range
  exact .pre fun _ _ _ => .pre fun _ _ _ => assign_range_loop_n hS n hR

theorem ctor_range_n (hS : SrcN S c R) {al : Nat} {st : σ} {n : Nat} (hR : R st n) :
    Copies (c * n) (ctor_range E S o al st) m := by
  unfold ctor_range delegating
  exact .pre fun _ _ _ => Copies.onThrow (.pre fun _ _ _ => (emplace_range_n hS hR).post)
end

theorem assign_count_loop_n {v : α} (n : Nat) : ∀ {first last : Iter} {m : Mem α},
    Copies (E.cp * n) (assign_count_loop E o (pure v) n first last) m := by
  induction n with
  | zero =>
    intro first last m
    rw [assign_count_loop, if_pos rfl]
    exact Copies.of
  | succ n ih =>
    intro first last m
    rw [assign_count_loop, if_neg (by omega)]
    split
    · exact (emplace_count_n fun m => by simp only [pure_bind]; exact copyVal_n v).post
    · rw [Nat.mul_succ, Nat.add_comm, Nat.add_sub_cancel]
      simp only [pure_bind]
      unfold copyAssign
      exact (Copies.post (copyVal_n v)).bind fun _ _ _ => .pre fun _ _ _ => ih

theorem assign_count_n {v : α} {n : Nat} : Copies (E.cp * n) (assign_count E o n (pure v)) m := by
  unfold assign_count
  exact .pre fun _ _ _ => .pre fun _ _ _ => assign_count_loop_n n

theorem resize_count_n {v : α} {n z : Nat} (hz : getSize o m = .ok z m) :
    Copies (E.cp * (n - z)) (resize_count E o n (copyVal E v)) m := by
  unfold resize_count
  refine .pre fun z' m1 h => ?_
  rw [hz] at h; cases h
  split
  · rename_i h; rw [h, Nat.sub_self]; exact Copies.of
  · refine .pre fun l m1 _ => ?_
    split
    · rw [Nat.sub_eq_zero_of_le (by omega)]; exact Copies.of
    · exact (emplace_count_n fun m => copyVal_n v).post

theorem ctor_count_n {v : α} {n al : Nat} : Copies (E.cp * n) (ctor_count E o al n (copyVal E v)) m := by
  unfold ctor_count delegating
  exact .pre fun _ _ _ => Copies.onThrow (.pre fun _ _ _ => (emplace_count_n fun m => copyVal_n v).post)

section
variable {g : Log} {F : Asrt α} {al o2 al2 : Nat} {s s2 : St α}

theorem ctor_copy_alloc_n (hs2 : s2.Ok E) (hf : m.cell (.obj o) = none) (H : Holds g (cont E o2 al2 s2 + F) m) :
    Copies (E.cp * s2.elems.length) (ctor_copy_alloc E o o2 al) m := by
  obtain ⟨fi, hfi⟩ := St.At.exists hs2 (Nat.zero_le _)
  obtain ⟨la, hla⟩ := St.At.exists hs2 (Nat.le_refl _)
  have hnil : (St.nil : St α).Ok E := St.Ok.nil (by have := hs2.1; omega)
  obtain ⟨l, hl⟩ := St.At.exists hnil (Nat.le_refl _)
  obtain ⟨m1, e1, H1⟩ := ctor_c (E := E) (al := al) hf H
  unfold ctor_copy_alloc delegating
  refine .pre fun u m1' h => Copies.onThrow ?_
  rw [e1] at h; cases h
  have H1' := H1.eqv (by frame : _ = cont E o2 al2 s2 + (cont E o al .nil + F))
  refine .pre fun a m' h => ?_
  rw [find_end_c hnil hl H1] at h; cases h
  refine .pre fun a m' h => ?_
  rw [find_first_c hs2 hfi H1'] at h; cases h
  refine .pre fun a m' h => ?_
  rw [find_end_c hs2 hla H1'] at h; cases h
  exact (emplace_range_n (copySrc_n _) (by rw [hfi.pos, hla.pos, Nat.zero_add])).post

theorem assign_copy_n (hs : s.Ok E) (hs2 : s2.Ok E)
    (hn : E.pocca = true → ¬ SameAlloc E al al2 → s.elems ≠ [] ∨ E.nullFree = true)
    (H : Holds g (cont E o al s + (cont E o2 al2 s2 + F)) m) : Copies (E.cp * s2.elems.length) (assign_copy E o o2) m := by
  unfold assign_copy
  rw [if_pos H.obj_ne]
  obtain ⟨m1, s1, e1, hs1, -, -, H1⟩ := copy_assign_alloc_c hs hn H
  obtain ⟨fi, hfi⟩ := St.At.exists hs2 (Nat.zero_le _)
  obtain ⟨la, hla⟩ := St.At.exists hs2 (Nat.le_refl _)
  have H1' := H1.eqv (by frame : _ = cont E o2 al2 s2 + (_ + _))
  refine .pre fun u m1' h => ?_
  rw [e1] at h; cases h
  refine .pre fun a m' h => ?_
  rw [find_first_c hs2 hfi H1'] at h; cases h
  refine .pre fun a m' h => ?_
  rw [find_end_c hs2 hla H1'] at h; cases h
  exact assign_range_n (copySrc_n _) (by rw [hfi.pos, hla.pos, Nat.zero_add])
end

end SegTree
