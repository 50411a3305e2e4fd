/-
  C70: no exception is lost and none is invented.  C71: which calls copy elements,
  and how often.
-/
import Verif.Props.Noexcept
import Verif.Proof.Exact
import Verif.Props.Defects
set_option autoImplicit false
set_option linter.unusedVariables false
set_option synthInstance.maxSize 2000
set_option synthInstance.maxHeartbeats 400000

namespace SegTree
variable {α β : Type} {E : Env α} {o p : Nat} {m m' : Mem α}

/-! ### Specification -/

/-- How a call may end: it returns only if all copies it made succeeded and all its
requests were met; it throws `bad_alloc` only if its last request, and no other,
was refused; it throws an element's exception only if the last copy it made, and no
other, threw; it throws `out_of_range` only if none of this happened. -/
def Honest (E : Env α) (m : Mem α) : Res α β → Prop
  | .ok _ m' => (∃ vs, Copied E m m' vs) ∧ m'.log.fails = m.log.fails
  | .throw .alloc m' => (∃ vs, Copied E m m' vs) ∧ m'.log.fails = m.log.fails + 1
  | .throw .elem m' => (∃ vs v, Copied E m { m' with ticks := m'.ticks - 1 } vs ∧ 0 < m'.ticks ∧
      E.cthrow (m'.ticks - 1) v = true) ∧ m'.log.fails = m.log.fails
  | .throw .range m' => (∃ vs, Copied E m m' vs) ∧ m'.log.fails = m.log.fails
  | _ => True

/-- calls that never copy an element -/
def Op.copyless : Op α → Prop
  | .un _ c => match c with
    | .set _ _ | .setIt _ _ | .insert _ _ | .insertSelf _ _ | .insertFill _ _ _ | .insertList _ _ | .pushBack _
    | .pushFront _ | .resize _ _ | .assignFill _ _ | .assignList _ | .selfAssign => False
    | _ => True
  | .bin _ _ c => match c with
    | .assignCopy | .spliceOne _ _ | .insertRange _ _ _ | .assignRange _ _ => False
    | _ => True
  | .new _ c => match c with
    | .empty _ => True
    | _ => False
  | .new2 _ _ c => match c with
    | .move | .moveAlloc _ => True
    | _ => False
  | .dtor _ => True

/-- how many elements a call copies, given what the containers hold -/
def Un.copies (x : Obj α) : Un α → Nat
  | .set _ _ | .setIt _ _ | .insert _ _ | .insertSelf _ _ | .pushBack _ | .pushFront _ => 1
  | .insertFill _ n _ => n
  | .insertList _ vs => vs.length
  | .resize n _ => n - x.elems.length
  | .assignFill n _ => n
  | .assignList vs => vs.length
  | _ => 0

def Bin.copies (y : Obj α) : Bin α → Nat
  | .assignCopy => y.elems.length
  | .spliceOne _ _ => 1
  | .insertRange _ a b | .assignRange a b => b - a
  | _ => 0

def New.copies : New α → Nat
  | .empty _ => 0
  | .fill _ n _ => n
  | .list _ vs => vs.length

def New2.copies (y : Obj α) : New2 → Nat
  | .copy | .copyAlloc _ => y.elems.length
  | .range _ a b => b - a
  | _ => 0

def Op.copies (S : Bank α) : Op α → Nat
  | .un o c => match S o with | some x => c.copies x | none => 0
  | .bin _ p c => match S p with | some y => c.copies y | none => 0
  | .new _ c => c.copies
  | .new2 _ p c => match S p with | some y => c.copies y | none => 0
  | .dtor _ => 0

/-! ### Proofs -/

namespace Traced
variable {P : Proto α}
instance un_unit (x : M α β) [Traced P x] : Traced P (Un.unit x) := by unfold Un.unit; infer_instance
instance un_pos (x : M α Iter) [Traced P x] : Traced P (Un.pos x) := by unfold Un.pos; infer_instance
instance un_val (x : M α α) [Traced P x] : Traced P (Un.val x) := by unfold Un.val; infer_instance
instance un_num (x : M α Nat) [Traced P x] : Traced P (Un.num x) := by unfold Un.num; infer_instance
instance un_flag (x : M α Bool) [Traced P x] : Traced P (Un.flag x) := by unfold Un.flag; infer_instance

instance read_range (first last : Iter) : Traced P (SegTree.read_range E first last) := by
  revert first
  refine SegTree.read_range.fixpoint_induct E last (fun f => ∀ first, Traced P (f first)) adm1 ?_
  intro f ih first
  traced
instance write_range (first : Iter) (l : List α) : Traced P (SegTree.write_range E first l) := by
  induction l generalizing first with
  | nil => unfold SegTree.write_range; infer_instance
  | cons v l ih => unfold SegTree.write_range; infer_instance
instance std_inplace_merge (comp : α → α → Bool) (a b c : Iter) : Traced P (SegTree.std_inplace_merge E comp a b c) := by
  unfold SegTree.std_inplace_merge; infer_instance
instance std_stable_sort (comp : α → α → Bool) (a b : Iter) : Traced P (SegTree.std_stable_sort E comp a b) := by
  unfold SegTree.std_stable_sort; infer_instance
instance merge (comp : α → α → Bool) [AtAlloc E P] [AtMove E P] : Traced P (SegTree.merge E o p comp) := by
  unfold SegTree.merge; infer_instance
instance sort (comp : α → α → Bool) : Traced P (SegTree.sort E o comp) := by
  unfold SegTree.sort; infer_instance
end Traced

/-- the relation of C70 -/
def honest (E : Env α) : Proto α where
  ok m m' := (∃ vs, Copied E m m' vs) ∧ m'.log.fails = m.log.fails
  exc e m m' := Honest (β := Unit) E m (.throw e m')
  frame h := ⟨⟨[], .nil h.1⟩, by rw [h.2]⟩
  trans := by
    rintro m1 m2 m3 ⟨⟨vs, h1⟩, h2⟩ ⟨⟨ws, h3⟩, h4⟩
    exact ⟨⟨_, h1.trans h3⟩, h4.trans h2⟩
  left := by
    rintro e m1 m2 m3 ⟨⟨vs, h1⟩, h2⟩ h
    cases e with
    | elem =>
      obtain ⟨⟨ws, v, h3, h4, h5⟩, h6⟩ := h
      exact ⟨⟨_, v, h1.trans h3, h4, h5⟩, h6.trans h2⟩
    | alloc => obtain ⟨⟨ws, h3⟩, h4⟩ := h; exact ⟨⟨_, h1.trans h3⟩, by rw [h4, h2]⟩
    | range => obtain ⟨⟨ws, h3⟩, h4⟩ := h; exact ⟨⟨_, h1.trans h3⟩, by rw [h4, h2]⟩
  right := by
    rintro e m1 m2 m3 h ⟨h1, h2⟩
    cases e with
    | elem =>
      obtain ⟨⟨ws, v, h3, h4, h5⟩, h6⟩ := h
      exact ⟨⟨_, v, h3.to (by simp [h1]), by rw [h1]; exact h4, by rw [h1]; exact h5⟩, by rw [h2]; exact h6⟩
    | alloc => obtain ⟨⟨ws, h3⟩, h4⟩ := h; exact ⟨⟨_, h3.to h1⟩, by rw [h2]; exact h4⟩
    | range => obtain ⟨⟨ws, h3⟩, h4⟩ := h; exact ⟨⟨_, h3.to h1⟩, by rw [h2]; exact h4⟩

instance : AtCopy E (honest E) where
  ok v m h1 h2 := ⟨⟨[v], rfl, fun k w h => by
    match k, h with
    | 0, h => cases h; exact h2
    | k + 1, h => simp at h⟩, rfl⟩
  exc v m h1 h2 := ⟨⟨[], v, .nil rfl, Nat.succ_pos _, h2⟩, rfl⟩
instance : AtAlloc E (honest E) where
  ok m m' h1 h2 := ⟨⟨[], .nil h1⟩, by rw [h2]⟩
  exc m m' h1 h2 := ⟨⟨[], .nil h1⟩, by rw [h2]⟩
instance : AtRange (honest E) where
  exc m := ⟨⟨[], .nil rfl⟩, rfl⟩

theorem op_traced {P : Proto α} [AtMove E P] [AtCopy E P] [AtAlloc E P] [AtRange P] (c : Op α) : Traced P (c.run E) := by
  cases c with
  | un o c => cases c <;> (simp only [Op.run, Un.run]; infer_instance)
  | bin o p c => cases c <;> (simp only [Op.run, Bin.run]; infer_instance)
  | new o c => cases c <;> (simp only [Op.run, New.run]; infer_instance)
  | new2 o p c => cases c <;> (simp only [Op.run, New2.run]; infer_instance)
  | dtor o => simp only [Op.run]; infer_instance

theorem unit_n {n : Nat} {x : M α β} (h : Copies n x m) : Copies n (Un.unit x) m := h.post
theorem pos_n {n : Nat} {x : M α Iter} (h : Copies n x m) : Copies n (Un.pos x) m := h.post

/-- the position of `nth` -/
theorem nth_n {n : Nat} {i : Nat} {al : Nat} {s : St α} {g : Log} {F : Asrt α} {f : Iter → M α β} (hs : s.Ok E)
    (H : Holds g (cont E o al s + F) m) (hi : i ≤ s.elems.length) (hf : ∀ it, it.pos = i → Copies n (f it) m) :
    Copies n (nth E o i >>= f) m := by
  obtain ⟨it, h1, h2⟩ := nth_any_c (i := i) hs H
  rw [Nat.min_eq_left hi] at h2
  refine .pre fun it' m' h => ?_
  rw [h1] at h; cases h
  exact hf _ h2.pos

theorem copies_zero {x : M α β} {k : Nat} (hk : k = 0) [Traced (copyfree α) x] : Copies k x m := by
  subst hk; exact .of

theorem op_copies (hE : E.Good) (hr : Reach E m) {S : Bank α} (hv : View E m S) {c : Op α} (hp : c.Pre E S) :
    Copies (E.cp * c.copies S) (c.run E) m := by
  obtain ⟨S0, hI⟩ := hr.inv hE
  cases hI.view.unique hv
  obtain ⟨A, hR, H⟩ := hI
  cases c with
  | un o c =>
    obtain ⟨x, hx, hp⟩ := hp
    obtain ⟨s, A', hxs, hs, rfl, -⟩ := hR.split hx
    simp only [Op.copies, hx, Op.run]
    have hlen : x.elems.length = s.elems.length := by rw [hxs]
    have hcp : ∀ v : α, ∀ m : Mem α, Copies (E.cp * 1) (copyVal E v) m := fun v m => by rw [Nat.mul_one]; exact copyVal_n v
    cases c with
    | set i v =>
      simp only [Un.copies, Un.run]
      refine unit_n ?_
      unfold index_set copyAssign
      exact .pre fun _ _ _ => (hcp v _).post
    | setIt i v =>
      simp only [Un.copies, Un.run]
      refine unit_n (.pre fun _ _ _ => ?_)
      unfold deref_set copyAssign
      exact (hcp v _).post
    | insert i v =>
      simp only [Un.copies, Un.run]
      exact pos_n (.pre fun _ _ _ => emplace_single_n (hcp v _))
    | insertSelf i j =>
      simp only [Un.copies, Un.run]
      refine pos_n (.pre fun _ _ _ => .pre fun _ _ _ => emplace_single_n (.pre fun v _ _ => hcp v _))
    | insertFill i n v =>
      simp only [Un.copies, Un.run]
      exact pos_n (.pre fun _ _ _ => emplace_count_n fun m => copyVal_n v)
    | insertList i vs =>
      simp only [Un.copies, Un.run]
      exact pos_n (.pre fun _ _ _ => emplace_range_n listSrc_n rfl)
    | pushBack v =>
      simp only [Un.copies, Un.run]
      refine unit_n ?_
      unfold push_back
      exact .pre fun _ _ _ => (emplace_single_n (hcp v _)).post
    | pushFront v =>
      simp only [Un.copies, Un.run]
      refine unit_n ?_
      unfold push_front
      exact .pre fun _ _ _ => (emplace_single_n (hcp v _)).post
    | resize n v =>
      simp only [Un.copies, Un.run, hlen]
      exact unit_n (resize_count_n (getSize_c H))
    | assignFill n v =>
      simp only [Un.copies, Un.run]
      exact unit_n assign_count_n
    | assignList vs =>
      simp only [Un.copies, Un.run]
      exact unit_n (assign_range_n listSrc_n rfl)
    | selfAssign =>
      simp only [Un.copies, Un.run]
      refine unit_n ?_
      unfold assign_copy
      rw [if_neg (by simp)]
      exact copies_zero (Nat.mul_zero _)
    | _ => simp only [Un.copies, Un.run]; exact copies_zero (Nat.mul_zero _)
  | bin o p c =>
    obtain ⟨hne, x, y, hx, hy, hp⟩ := hp
    obtain ⟨s, A', hxs, hs, rfl, hR'⟩ := hR.split hx
    obtain ⟨s2, A'', hys, hs2, rfl, -⟩ := hR'.split (o := p) (by rw [upd_ne (fun h => hne h.symm)]; exact hy)
    have H2 := H.eqv (by frame : _ = cont E p y.alloc s2 + (cont E o x.alloc s + A''))
    have hlen : x.elems.length = s.elems.length := by rw [hxs]
    have hlen2 : y.elems.length = s2.elems.length := by rw [hys]
    have hcp : ∀ v : α, ∀ m : Mem α, Copies (E.cp * 1) (copyVal E v) m := fun v m => by rw [Nat.mul_one]; exact copyVal_n v
    simp only [Op.copies, hy, Op.run]
    cases c with
    | assignCopy =>
      simp only [Bin.copies, Bin.run, hlen2]
      refine unit_n (assign_copy_n hs hs2 (fun h1 h2 => ?_) H)
      have := hp h1 h2
      rw [hxs] at this
      exact this
    | spliceOne i j =>
      simp only [Bin.copies, Bin.run]
      refine unit_n (.pre fun _ _ _ => .pre fun _ _ _ => ?_)
      unfold splice_one
      exact (emplace_single_n (.pre fun v _ _ => hcp v _)).post
    | insertRange i a b =>
      simp only [Bin.copies, Bin.run]
      obtain ⟨h1, h2, h3, h4⟩ := hp
      refine pos_n (nth_n hs H (by omega) fun it _ => nth_n hs2 H2 (by omega) fun f hf => nth_n hs2 H2 (by omega) fun l hl =>
        emplace_range_n (copySrc_n l) (by omega))
    | assignRange a b =>
      simp only [Bin.copies, Bin.run]
      obtain ⟨h2, h3⟩ := hp
      refine unit_n (nth_n hs2 H2 (by omega) fun f hf => nth_n hs2 H2 (by omega) fun l hl =>
        assign_range_n (copySrc_n l) (by omega))
    | _ => simp only [Bin.copies, Bin.run]; exact copies_zero (Nat.mul_zero _)
  | new o c =>
    simp only [Op.copies, Op.run]
    cases c with
    | empty al => simp only [New.copies, New.run]; exact copies_zero (Nat.mul_zero _)
    | fill al n v => exact unit_n ctor_count_n
    | list al vs => exact unit_n (ctor_range_n listSrc_n rfl)
  | new2 o p c =>
    obtain ⟨ho, y, hy, hp⟩ := hp
    obtain ⟨s2, A'', hys, hs2, rfl, -⟩ := hR.split hy
    have hf := H.dead (hR.dead ho)
    have hlen2 : y.elems.length = s2.elems.length := by rw [hys]
    simp only [Op.copies, hy, Op.run]
    cases c with
    | copy =>
      simp only [New2.copies, New2.run, hlen2]
      refine unit_n ?_
      unfold ctor_copy
      refine .pre fun t m' h => ?_
      rw [rdObj_c H] at h; cases h
      exact ctor_copy_alloc_n hs2 hf H
    | copyAlloc al =>
      simp only [New2.copies, New2.run, hlen2]
      exact unit_n (ctor_copy_alloc_n hs2 hf H)
    | range al a b =>
      simp only [New2.copies, New2.run]
      obtain ⟨h2, h3, -⟩ := hp
      refine unit_n (nth_n hs2 H (by omega) fun f hf => nth_n hs2 H (by omega) fun l hl =>
        ctor_range_n (copySrc_n l) (by omega))
    | _ => simp only [New2.copies, New2.run]; exact copies_zero (Nat.mul_zero _)
  | dtor o => simp only [Op.run]; exact copies_zero (Nat.mul_zero _)

/-! ### C70 -/

/-- C70: for every call of the interface, in every memory (reachable or not): it
returns only if every copy it made succeeded and every request was met; an
exception that leaves it is that of the last thing that failed, and that is the only
thing that failed during the call. -/
theorem C70_honest (hm : ∀ v, E.trivCopy = true ∨ E.mthrow v = false) (c : Op α) (m : Mem α) :
    Honest E m (c.run E m) := by
  have : AtMove E (honest E) := ⟨fun v m h => by
    unfold Env.throws at h
    rcases hm v with h1 | h1 <;> rw [h1] at h <;> simp at h⟩
  have h := (op_traced (E := E) (P := honest E) c).run m
  cases e : c.run E m with
  | ok v m' => rw [e] at h; exact h
  | throw x m' => rw [e] at h; cases x <;> exact h
  | ub _ => trivial
  | div => trivial

/-- C71: erasing, splicing whole containers and ranges, merging, sorting, reversing,
removing, unique, moving, swapping, clearing, destroying, inserting rvalues,
comparing and reading copy no element, whatever the memory is and even if moves
throw. -/
theorem C71_copyless (c : Op α) (hc : c.copyless) {r : Ret α} {e : Exn} (h : c.run E m = .ok r m' ∨ c.run E m = .throw e m') :
    m'.ticks = m.ticks := by
  suffices Traced (copyfree α) (c.run E) by
    rcases h with h | h
    · exact this.returns h
    · exact this.throws h
  cases c with
  | un o c => cases c <;> (simp only [Op.copyless] at hc) <;> (simp only [Op.run, Un.run]; infer_instance)
  | bin o p c => cases c <;> (simp only [Op.copyless] at hc) <;> (simp only [Op.run, Bin.run]; infer_instance)
  | new o c => cases c <;> (simp only [Op.copyless] at hc) <;> (simp only [Op.run, New.run]; infer_instance)
  | new2 o p c => cases c <;> (simp only [Op.copyless] at hc) <;> (simp only [Op.run, New2.run]; infer_instance)
  | dtor o => simp only [Op.run]; infer_instance

/-- C71: how many elements a call copies.  It returns after exactly that many copies
and throws after at most that many.  (The copies of trivially copyable elements are
not counted.) -/
theorem C71_count (hE : E.Good) (ht : E.trivCopy = false) (hr : Reach E m) {S : Bank α} (hv : View E m S) {c : Op α}
    (hp : c.Pre E S) :
    (∀ r m', c.run E m = .ok r m' → m'.ticks = m.ticks + c.copies S) ∧
    (∀ e m', c.run E m = .throw e m' → m.ticks ≤ m'.ticks ∧ m'.ticks ≤ m.ticks + c.copies S) := by
  have h := op_copies hE hr hv hp
  have hcp : E.cp = 1 := by unfold Env.cp; rw [ht]; rfl
  rw [hcp, Nat.one_mul] at h
  unfold Copies at h
  exact ⟨fun r m' e => by rw [e] at h; exact h, fun x m' e => by rw [e] at h; exact h⟩

/-! ### The hypotheses are met -/

/-- C70: the third copy throws, two are in the container, and the exception leaves the call -/
example : ∃ m m' : Mem Nat, Reach flaky m ∧ (Op.un 0 (.insertFill 1 3 9)).run flaky m = .throw .elem m' ∧
    m'.ticks = 3 ∧ flaky.cthrow 0 9 = false ∧ flaky.cthrow 1 9 = false ∧ flaky.cthrow 2 9 = true ∧
    Honest flaky m ((Op.un 0 (.insertFill 1 3 9)).run flaky m) := by
  refine ⟨oneSeg [1], oneSeg [1, 9, 9] 3, oneSeg_first (by go_eq) (by decide), ?_, rfl, rfl, rfl, rfl,
    C70_honest (fun _ => .inr rfl) _ _⟩
  refine Eq.trans (b := .throw _ ?_) (by go_throw) ?_
  congr 1
  mem_eq

/-- C71: two containers of a reachable memory, and calls that copy three, five, two
and no elements -/
example : ∃ (m : Mem Nat) (S : Bank Nat), Reach demo m ∧ View demo m S ∧ demo.trivCopy = false ∧
    (Op.bin 0 1 .assignCopy).Pre demo S ∧ (Op.bin 0 1 .assignCopy).copies S = 3 ∧
    (Op.un 0 (.resize 9 4)).Pre demo S ∧ (Op.un 0 (.resize 9 4)).copies S = 5 ∧
    (Op.bin 0 1 (.insertRange 2 1 3)).Pre demo S ∧ (Op.bin 0 1 (.insertRange 2 1 3)).copies S = 2 ∧
    (Op.bin 0 1 (.splice 2)).Pre demo S ∧ (Op.bin 0 1 (.splice 2)).copies S = 0 ∧
    (Op.bin 0 1 (.splice 2) : Op Nat).copyless := by
  obtain ⟨m, h1, h2, -⟩ := demo_lists [1, 2, 3, 4] [5, 6, 7] 0 0
  refine ⟨m, _, h1, h2, rfl, ⟨by decide, _, _, rfl, rfl, ?_⟩, rfl, ⟨_, rfl, ?_⟩, rfl, ⟨by decide, _, _, rfl, rfl, ?_⟩, rfl,
    ⟨by decide, _, _, rfl, rfl, ?_⟩, rfl, trivial⟩
  · exact fun _ _ => .inr rfl
  · show 9 ≤ max_size demo; decide
  · exact ⟨by decide, by decide, by decide, by decide⟩
  · exact ⟨by decide, .inr rfl, by decide⟩

end SegTree
