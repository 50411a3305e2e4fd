/-
  C92: programs that hold iterators behave as programs that hold positions.

  A program keeps iterators in variables, walks and reads and writes through them,
  hands them to `insert`, `erase` and `splice`, and stores what those return.  The
  specification has no iterators: each variable holds a container's number and an
  index.  What the calls of the interface do to the iterators a program already
  holds is the table `fate`.
-/
import Verif.Props.Bulk
import Verif.Props.Const
import Verif.Props.Ranges
import Verif.Props.UnitTests
set_option autoImplicit false

namespace SegTree

/-! ### The specification -/

namespace Prog
variable {α : Type}

/-- what a step shows to the program -/
inductive Ans (α : Type) where
  | ret (r : Ret α)
  | int (z : Int)

/-- the program's iterator variables -/
abbrev Regs := Nat → Iter

/-- what they stand for: a container and an index, or nothing (never set, or no
longer valid) -/
abbrev Places := Nat → Option (Nat × Nat)

/-- One step of a program with iterator variables `r`, `s`, `t`. -/
inductive Cmd (α : Type) where
  /-- any call of the interface that takes no iterator from a variable -/
  | call (op : Op α)
  | begin_ (r o : Nat)
  | end_ (r o : Nat)
  | nth (r o i : Nat)
  /-- `r = s;` -/
  | copy (r s : Nat)
  /-- `++r;` -/
  | next (r : Nat)
  /-- `--r;` -/
  | prev (r : Nat)
  /-- `r = s + d;` -/
  | jump (r s : Nat) (d : Int)
  /-- `*r` -/
  | read (r : Nat)
  /-- `*r = v;` -/
  | write (r : Nat) (v : α)
  | eq (r s : Nat)
  | lt (r s : Nat)
  /-- `r - s` -/
  | diff (r s : Nat)
  /-- `t = o.insert(r, v);` -/
  | insert (t o r : Nat) (v : α)
  /-- `t = o.insert(r, *s);` -/
  | insertRef (t o r s : Nat)
  /-- `t = o.insert(r, n, v);` -/
  | insertFill (t o r n : Nat) (v : α)
  /-- `t = o.insert(r, {vs});` -/
  | insertList (t o r : Nat) (vs : List α)
  /-- `t = o.erase(r);` -/
  | erase (t o r : Nat)
  /-- `t = o.erase(r, s);` -/
  | eraseRange (t o r s : Nat)
  /-- `o.splice(r, p, s);` -/
  | spliceOne (o r p s : Nat)

/-- The step in the library: what it answers and the variables after it. -/
def Cmd.run (E : Env α) (g : Regs) : Cmd α → M α (Ans α × Regs)
  | .call op => do return (.ret (← op.run E), g)
  | .begin_ r o => do return (.ret .unit, upd g r (← SegTree.begin_ E o))
  | .end_ r o => do return (.ret .unit, upd g r (← SegTree.end_ E o))
  | .nth r o i => do return (.ret .unit, upd g r (← SegTree.nth E o i))
  | .copy r s => return (.ret .unit, upd g r (g s))
  | .next r => do return (.ret .unit, upd g r (← move_next_iterator E (g r)))
  | .prev r => do return (.ret .unit, upd g r (← move_prev_iterator E (g r)))
  | .jump r s d => do return (.ret .unit, upd g r (← it_add E (g s) d))
  | .read r => do return (.ret (.val (← dereference E (g r))), g)
  | .write r v => do let _ ← deref_set E (g r) v; return (.ret .unit, g)
  | .eq r s => return (.ret (.flag (it_eq (g r) (g s))), g)
  | .lt r s => return (.ret (.flag (it_lt (g r) (g s))), g)
  | .diff r s => return (.int (it_diff E (g r) (g s)), g)
  | .insert t o r v => do return (.ret .unit, upd g t (← SegTree.insert E o (g r) v))
  | .insertRef t o r s => do return (.ret .unit, upd g t (← insert_alias E o (g r) (g s)))
  | .insertFill t o r n v => do return (.ret .unit, upd g t (← insert_fill E o (g r) n v))
  | .insertList t o r vs => do return (.ret .unit, upd g t (← insert_list E o (g r) vs))
  | .erase t o r => do return (.ret .unit, upd g t (← SegTree.erase E o (g r)))
  | .eraseRange t o r s => do return (.ret .unit, upd g t (← erase_rng E o (g r) (g s)))
  | .spliceOne o r p s => do let _ ← splice_one E o (g r) p (g s); return (.ret .unit, g)

/-- calls on one container that leave its iterators valid -/
def stays : Un α → Bool
  | .size | .empty | .getAlloc | .at_ _ | .index _ | .front | .back | .set .. | .setIt .. | .setRv ..
  | .nth _ | .begin_ | .end_ | .penultimate | .reverse | .sort _ | .selfAssign | .selfSwap => true
  | _ => false

/-- calls on one container that, if they throw, leave its iterators valid -/
def strong : Un α → Bool
  | .at_ _ | .set .. | .setIt .. | .insert .. | .insertRv .. | .insertSelf .. | .pushBack _ | .pushFront _
  | .pushBackRv _ | .pushFrontRv _ => true
  | _ => false

open Classical in
/-- The iterators into `q` when the call returns: `some q'`: they are valid, now as
iterators of `q'`; `none`: nothing is claimed of them. -/
noncomputable def fate (E : Env α) (S : Bank α) : Op α → Nat → Option Nat
  | .un o c, q => if q = o ∧ stays c = false then none else some q
  | .bin o p c, q => match c with
    | .eq _ | .ne _ | .lt _ | .le _ | .gt _ | .ge _ => some q
    | .swap => if q = o then some p else if q = p then some o else some q
    | .assignMove => if q = o then none
        else if q = p then
          (if E.pocma = true ∨ ∃ x y, S o = some x ∧ S p = some y ∧ SameAlloc E x.alloc y.alloc then some o else none)
        else some q
    | .assignCopy | .insertRange .. | .assignRange .. => if q = o then none else some q
    | .splice _ | .spliceOne .. | .spliceRange .. | .merge _ => if q = o ∨ q = p then none else some q
  | .new _ _, q => some q
  | .new2 o p c, q => match c with
    | .copy | .copyAlloc _ => some q
    | .range .. => if q = p then none else some q
    | .move => if q = p then some o else some q
    | .moveAlloc al => if q = p then (if ∃ y, S p = some y ∧ SameAlloc E al y.alloc then some o else none) else some q
  | .dtor o, q => if q = o then none else some q

/-- the same when it throws -/
def fateExc : Op α → Nat → Option Nat
  | .un o c, q => if q = o ∧ strong c = false then none else some q
  | .bin o p c, q => match c with
    | .spliceOne .. => some q
    | _ => if q = o ∨ q = p then none else some q
  | .new _ _, q => some q
  | .new2 _ p c, q => match c with
    | .copy | .copyAlloc _ | .range .. => some q
    | _ => if q = p then none else some q
  | .dtor o, q => if q = o then none else some q

/-- the variables after a call that does `f` to the iterators -/
def follow (f : Nat → Option Nat) (ρ : Places) : Places :=
  fun r => (ρ r).bind fun p => (f p.1).map fun q => (q, p.2)

/-- the precondition of a step -/
def Cmd.Pre (E : Env α) (S : Bank α) (ρ : Places) : Cmd α → Prop
  | .call op => op.Pre E S
  | .begin_ _ o | .end_ _ o | .nth _ o _ => ∃ x, S o = some x
  | .copy _ _ => True
  | .next r | .read r | .write r _ => ∃ o i x, ρ r = some (o, i) ∧ S o = some x ∧ i < x.elems.length
  | .prev r => ∃ o i, ρ r = some (o, i) ∧ 0 < i
  | .jump _ s d => ∃ o i x, ρ s = some (o, i) ∧ S o = some x ∧ 0 ≤ (i : Int) + d ∧ (i : Int) + d ≤ x.elems.length
  | .eq r s | .lt r s => ∃ o i j, ρ r = some (o, i) ∧ ρ s = some (o, j)
  | .diff r s => ∃ o i j x, ρ r = some (o, i) ∧ ρ s = some (o, j) ∧ S o = some x ∧ 2 * x.elems.length < E.W
  | .insert _ o r v => ∃ i, ρ r = some (o, i) ∧ (Op.un o (.insert i v)).Pre E S
  | .insertRef _ o r s => ∃ i j, ρ r = some (o, i) ∧ ρ s = some (o, j) ∧ (Op.un o (.insertSelf i j)).Pre E S
  | .insertFill _ o r n v => ∃ i, ρ r = some (o, i) ∧ (Op.un o (.insertFill i n v)).Pre E S
  | .insertList _ o r vs => ∃ i, ρ r = some (o, i) ∧ (Op.un o (.insertList i vs)).Pre E S
  | .erase _ o r => ∃ i, ρ r = some (o, i) ∧ (Op.un o (.erase i) : Op α).Pre E S
  | .eraseRange _ o r s => ∃ i j, ρ r = some (o, i) ∧ ρ s = some (o, j) ∧ (Op.un o (.eraseRange i j) : Op α).Pre E S
  | .spliceOne o r p s => ∃ i j, ρ r = some (o, i) ∧ ρ s = some (p, j) ∧ (Op.bin o p (.spliceOne i j) : Op α).Pre E S

/-- a call that returns the iterator at index `i` of `o`, kept in `t`, and after which
no other iterator into `o` is claimed to be valid -/
def Returns (E : Env α) (S : Bank α) (ρ : Places) (o i t : Nat) (op : Op α) (a : Ans α) (S' : Bank α) (ρ' : Places) : Prop :=
  a = .ret .unit ∧ op.Ok E S (.pos i) S' ∧ ρ' = upd (follow (fun q => if q = o then none else some q) ρ) t (some (o, i))

/-- The step on lists and positions. -/
def Cmd.Ok (E : Env α) (S : Bank α) (ρ : Places) : Cmd α → Ans α → Bank α → Places → Prop
  | .call op, a, S', ρ' => ∃ r, a = .ret r ∧ op.Ok E S r S' ∧ ρ' = follow (fate E S op) ρ
  | .begin_ r o, a, S', ρ' => a = .ret .unit ∧ S' = S ∧ ρ' = upd ρ r (some (o, 0))
  | .end_ r o, a, S', ρ' => a = .ret .unit ∧ S' = S ∧ ∃ x, S o = some x ∧ ρ' = upd ρ r (some (o, x.elems.length))
  | .nth r o i, a, S', ρ' => a = .ret .unit ∧ S' = S ∧
      ∃ x, S o = some x ∧ ρ' = upd ρ r (some (o, min i x.elems.length))
  | .copy r s, a, S', ρ' => a = .ret .unit ∧ S' = S ∧ ρ' = upd ρ r (ρ s)
  | .next r, a, S', ρ' => a = .ret .unit ∧ S' = S ∧ ∃ o i, ρ r = some (o, i) ∧ ρ' = upd ρ r (some (o, i + 1))
  | .prev r, a, S', ρ' => a = .ret .unit ∧ S' = S ∧ ∃ o i, ρ r = some (o, i) ∧ ρ' = upd ρ r (some (o, i - 1))
  | .jump r s d, a, S', ρ' => a = .ret .unit ∧ S' = S ∧
      ∃ o i, ρ s = some (o, i) ∧ ρ' = upd ρ r (some (o, ((i : Int) + d).toNat))
  | .read r, a, S', ρ' => S' = S ∧ ρ' = ρ ∧
      ∃ o i x, ρ r = some (o, i) ∧ S o = some x ∧ ∃ h : i < x.elems.length, a = .ret (.val x.elems[i])
  | .write r v, a, S', ρ' => a = .ret .unit ∧ ρ' = ρ ∧
      ∃ o i x, ρ r = some (o, i) ∧ S o = some x ∧ S' = upd S o (some { x with elems := x.elems.set i v })
  | .eq r s, a, S', ρ' => S' = S ∧ ρ' = ρ ∧
      ∃ o i j, ρ r = some (o, i) ∧ ρ s = some (o, j) ∧ a = .ret (.flag (decide (i = j)))
  | .lt r s, a, S', ρ' => S' = S ∧ ρ' = ρ ∧
      ∃ o i j, ρ r = some (o, i) ∧ ρ s = some (o, j) ∧ a = .ret (.flag (decide (i < j)))
  | .diff r s, a, S', ρ' => S' = S ∧ ρ' = ρ ∧
      ∃ o i j, ρ r = some (o, i) ∧ ρ s = some (o, j) ∧ a = .int ((i : Int) - j)
  | .insert t o r v, a, S', ρ' => ∃ i, ρ r = some (o, i) ∧ Returns E S ρ o i t (.un o (.insert i v)) a S' ρ'
  | .insertRef t o r s, a, S', ρ' => ∃ i j, ρ r = some (o, i) ∧ ρ s = some (o, j) ∧
      Returns E S ρ o i t (.un o (.insertSelf i j)) a S' ρ'
  | .insertFill t o r n v, a, S', ρ' => ∃ i, ρ r = some (o, i) ∧
      Returns E S ρ o i t (.un o (.insertFill i n v)) a S' ρ'
  | .insertList t o r vs, a, S', ρ' => ∃ i, ρ r = some (o, i) ∧
      Returns E S ρ o i t (.un o (.insertList i vs)) a S' ρ'
  | .erase t o r, a, S', ρ' => ∃ i, ρ r = some (o, i) ∧ Returns E S ρ o i t (.un o (.erase i)) a S' ρ'
  | .eraseRange t o r s, a, S', ρ' => ∃ i j, ρ r = some (o, i) ∧ ρ s = some (o, j) ∧
      Returns E S ρ o i t (.un o (.eraseRange i j)) a S' ρ'
  | .spliceOne o r p s, a, S', ρ' => a = .ret .unit ∧ ∃ i j, ρ r = some (o, i) ∧ ρ s = some (p, j) ∧
      (Op.bin o p (.spliceOne i j)).Ok E S .unit S' ∧
      ρ' = follow (fun q => if q = o ∨ q = p then none else some q) ρ

/-- The step on lists and positions when it throws. -/
def Cmd.Exc (E : Env α) (S : Bank α) (ρ : Places) : Cmd α → Exn → Bank α → Places → Prop
  | .call op, e, S', ρ' => op.Exc E S e S' ∧ ρ' = follow (fateExc op) ρ
  | .write r v, e, S', ρ' => S' = S ∧ ρ' = ρ ∧ e = .elem ∧ CopyThrows E v
  | .insert _ _ _ v, e, S', ρ' => S' = S ∧ ρ' = ρ ∧ Blame E [v] e
  | .insertRef _ _ _ s, e, S', ρ' => S' = S ∧ ρ' = ρ ∧
      ∃ o j x, ρ s = some (o, j) ∧ S o = some x ∧ ∃ h : j < x.elems.length, Blame E [x.elems[j]] e
  | .insertFill _ o r n v, e, S', ρ' => ∃ i, ρ r = some (o, i) ∧ (Op.un o (.insertFill i n v)).Exc E S e S' ∧
      ρ' = follow (fun q => if q = o then none else some q) ρ
  | .insertList _ o r vs, e, S', ρ' => ∃ i, ρ r = some (o, i) ∧ (Op.un o (.insertList i vs)).Exc E S e S' ∧
      ρ' = follow (fun q => if q = o then none else some q) ρ
  | .spliceOne _ _ _ s, e, S', ρ' => S' = S ∧ ρ' = ρ ∧
      ∃ p j y, ρ s = some (p, j) ∧ S p = some y ∧ ∃ h : j < y.elems.length, Blame E [y.elems[j]] e
  | _, _, _, _ => False


variable {E : Env α} {m m' : Mem α} {S S' : Bank α} {op : Op α} {q q' : Nat} {g : Regs} {ρ ρ' : Places} {e : Exn}

/-! ### Where iterators are after a call -/

/-- what C07 etc. say of iterators that stay valid -/
def Moved (E : Env α) (q q' : Nat) (m m' : Mem α) : Prop :=
  ∀ i it, SegTree.nth E q i m = .ok it m → SegTree.nth E q' i m' = .ok it m'

theorem Moved.refl : Moved E q q m m := fun _ _ h => h

theorem Moved.of (h : Unchanged E q m m') : Moved E q q m m' := fun i it hi => (h.2.2.2.1 i it hi).1

theorem same_cells (hE : E.Good) (hr : Reach E m) (hc : m'.cell = m.cell) (p : Nat) : Unchanged E p m m' := by
  obtain ⟨S, A, hR, HA⟩ := hr.inv hE
  have H : Holds m.log (0 + A) m := by rw [zero_add]; exact HA
  have H' : Holds m'.log (0 + A) m' :=
    ⟨rfl, H.nodup, fun x hx => by rw [hc]; exact H.sat x hx, fun l hl => H.full l (by rwa [hc] at hl), by rw [hc]; exact H.null⟩
  exact hR.unchanged H H' (by simp) (by simp)

theorem reads_same {β : Type} {x : M α β} {y : C α β} {f : β → Ret α} {r : Ret α} (hx : WritesNothing x y)
    (h : (do return f (← x)) m = Res.ok r m') : m' = m := by
  obtain ⟨a, m1, h1, h2⟩ := bind_inv h
  obtain ⟨rfl, rfl⟩ := pure_inv h2
  exact (hx m).1 _ _ h1 |>.1

theorem un_stays (hE : E.Good) (hr : Reach E m) {o : Nat} {x : Obj α} (hc : Contents E o m x.elems) {c : Un α} {r : Ret α}
    (hp : c.Pre E x) (hs : stays c = true) (h : c.run E o m = .ok r m') : Moved E o o m m' := by
  have rd : ∀ {β : Type} {y : M α β} {z : C α β} {f : β → Ret α}, WritesNothing y z →
      (do return f (← y)) m = Res.ok r m' → Moved E o o m m' := by
    intro β y z f h1 h2
    cases reads_same h1 h2
    exact .refl
  have W := C57_container E o
  obtain ⟨b, -⟩ := hr.nth hE hc 0
  cases c <;> first | (cases hs; done) | skip
  case size => exact rd (W 0).2.2.2.2.1 h
  case empty => exact rd (W 0).2.2.2.2.2.1 h
  case getAlloc => exact rd (W 0).2.2.2.2.2.2.2.1 h
  case at_ i => exact rd (W i).1 h
  case index i => exact rd (W i).2.1 h
  case front => exact rd (W 0).2.2.1 h
  case back => exact rd (W 0).2.2.2.1 h
  case nth i => exact rd (W i).2.2.2.2.2.2.2.2.1 h
  case begin_ => exact rd (W 0).2.2.2.2.2.2.2.2.2.1 h
  case end_ => exact rd (W 0).2.2.2.2.2.2.2.2.2.2.1 h
  case penultimate => exact rd (W 0).2.2.2.2.2.2.2.2.2.2.2 h
  case set i v => obtain ⟨-, ⟨⟩, h⟩ := unit_inv h; exact (C47_iterators (it := b) hE hr hc (.inl ⟨v, hp, h⟩)).1
  case setIt i v =>
    obtain ⟨-, ⟨⟩, h⟩ := unit_inv h
    obtain ⟨it, m1, h1, h2⟩ := bind_inv h
    cases hr.nth_same hE hc h1
    exact (C47_iterators hE hr hc (.inr (.inl ⟨v, hp, h1, h2⟩))).1
  case setRv i v =>
    obtain ⟨-, ⟨⟩, h⟩ := unit_inv h
    obtain ⟨it, m1, h1, h2⟩ := bind_inv h
    cases hr.nth_same hE hc h1
    exact (C47_iterators hE hr hc (.inr (.inr (.inl ⟨v, hp, h1, h2⟩)))).1
  case reverse =>
    obtain ⟨-, ⟨⟩, h⟩ := unit_inv h
    exact (C47_iterators (i := 0) (it := b) hE hr hc (.inr (.inr (.inr (.inl h))))).1
  case sort comp =>
    obtain ⟨-, ⟨⟩, h⟩ := unit_inv h
    exact (C47_iterators (i := 0) (it := b) hE hr hc (.inr (.inr (.inr (.inr ⟨comp, h⟩))))).1
  case selfAssign =>
    obtain ⟨-, ⟨⟩, h⟩ := unit_inv h
    have h1 : assign_copy E o o m = .ok () m := C30_self
    rw [h1] at h; cases h
    exact .refl
  case selfSwap =>
    obtain ⟨-, ⟨⟩, h⟩ := unit_inv h
    obtain ⟨m1, h1, h2, -⟩ := C32_self hE hr hc
    rw [h1] at h; cases h
    exact .of h2

theorem un_strong (hE : E.Good) (hr : Reach E m) {o : Nat} {x : Obj α} (hc : Contents E o m x.elems) {c : Un α}
    (hp : c.Pre E x) (hs : strong c = true) (h : c.run E o m = .throw e m') : m'.cell = m.cell := by
  have ins : ∀ {i : Nat} {it : Iter} {v : α} {y : M α Unit}, i ≤ x.elems.length → x.elems.length + 1 ≤ max_size E →
      SegTree.nth E o i m = .ok it m → Insertion E o i x.elems.length it v y → y m = .throw e m' → m'.cell = m.cell :=
    fun h1 h2 h3 h4 h5 => (C11_copy_failure hE hr hc h1 h3 h2 h4 h5).1
  have pos : ∀ {y : M α Iter}, y m = .throw e m' → (do let _ ← y : M α Unit) m = .throw e m' := fun h => bind_throw h
  obtain ⟨b, hb⟩ := hr.nth hE hc 0
  obtain ⟨en, hen⟩ := hr.nth hE hc x.elems.length
  have nthd : ∀ {β : Type} {i : Nat} {k : Iter → M α β}, (SegTree.nth E o i >>= k) m = .throw e m' →
      ∃ it, SegTree.nth E o i m = .ok it m ∧ k it m = .throw e m' := by
    intro β i k h
    obtain ⟨it, hn⟩ := hr.nth hE hc i
    rw [bind_ok hn] at h
    exact ⟨it, hn, h⟩
  cases c <;> first | (cases hs; done) | skip
  case at_ i =>
    rcases bind_inv_throw h with h | ⟨a, m1, -, h⟩
    · rw [((C57_container E o i).1 m).2 _ _ h |>.1]
    · exact absurd h pure_inv_throw
  case set i v =>
    obtain ⟨it, hn⟩ := hr.nth hE hc i
    have h := unit_inv_throw h
    rcases C07_write (v := v) hE hr hc hp hn (.inl rfl) with ⟨m1, h1, -⟩ | ⟨m1, h1, h2, -⟩ <;> rw [h1] at h <;> cases h
    exact h2.cell
  case setIt i v =>
    obtain ⟨it, hn, h⟩ := nthd (unit_inv_throw h)
    rcases C07_write (v := v) hE hr hc hp hn (.inr (.inl rfl)) with ⟨m1, h1, -⟩ | ⟨m1, h1, h2, -⟩ <;> rw [h1] at h <;> cases h
    exact h2.cell
  case insert i v =>
    obtain ⟨it, hn, h⟩ := nthd (pos_inv_throw h)
    exact ins hp.1 hp.2 hn .insert (pos h)
  case insertRv i v =>
    obtain ⟨it, hn, h⟩ := nthd (pos_inv_throw h)
    exact ins hp.1 hp.2 hn .insert_rv (pos h)
  case insertSelf i j =>
    obtain ⟨it, hn, h⟩ := nthd (pos_inv_throw h)
    obtain ⟨jt, hnj, h⟩ := nthd h
    obtain ⟨al, s, F, hs, he, H⟩ := hr.cont hE hc
    have hj : j < s.elems.length := by rw [he]; exact hp.2.1
    rw [insert_alias_c hs (at_of_nth hs H (Nat.le_of_lt hj) hnj) hj H] at h
    exact ins hp.1 hp.2.2 hn .insert (pos h)
  case pushBack v => exact ins (Nat.le_refl _) hp hen (.push_back rfl) (unit_inv_throw h)
  case pushBackRv v => exact ins (v := v) (Nat.le_refl _) hp hen (.push_back_rv rfl) (unit_inv_throw h)
  case pushFront v => exact ins (Nat.zero_le _) hp hb (.push_front rfl) (unit_inv_throw h)
  case pushFrontRv v => exact ins (v := v) (Nat.zero_le _) hp hb (.push_front_rv rfl) (unit_inv_throw h)

/-- C92: where iterators are after a call that returned -/
theorem fate_ok (hE : E.Good) (hr : Reach E m) (hv : View E m S) (hp : op.Pre E S) {r : Ret α} (h : op.run E m = .ok r m')
    (hf : fate E S op q = some q') (hq : S q ≠ none) : Moved E q q' m m' := by
  by_cases hqo : q ∈ op.objs
  swap
  · have : q' = q := by
      cases op with
      | un o c => simp only [Op.objs, List.mem_singleton] at hqo; simp [fate, hqo] at hf; exact hf.symm
      | bin o p c =>
        simp only [Op.objs, List.mem_cons, List.not_mem_nil, or_false, not_or] at hqo
        cases c <;> simp [fate, hqo.1, hqo.2] at hf <;> exact hf.symm
      | new o c => simp [fate] at hf; exact hf.symm
      | new2 o p c =>
        simp only [Op.objs, List.mem_cons, List.not_mem_nil, or_false, not_or] at hqo
        cases c <;> simp [fate, hqo.2] at hf <;> exact hf.symm
      | dtor o => simp only [Op.objs, List.mem_singleton] at hqo; simp [fate, hqo] at hf; exact hf.symm
    cases this
    exact .of (C34_others hE hr hv hp (.inl ⟨r, h⟩) hqo)
  cases op with
  | un o c =>
    simp only [Op.objs, List.mem_singleton] at hqo
    cases hqo
    obtain ⟨x, hx, hp⟩ := hp
    simp only [fate, true_and] at hf
    split at hf
    · cases hf
    · rename_i hs
      cases hf
      exact un_stays hE hr (Tests.View.at hv hx) hp (by simpa using hs) h
  | bin o p c =>
    obtain ⟨hne, x, y, hx, hy, hp⟩ := hp
    have hc := Tests.View.at hv hx
    have hd := Tests.View.at hv hy
    have hax : get_allocator o m = .ok x.alloc m := by have := hv o; rw [hx] at this; exact this.1
    have hay : get_allocator p m = .ok y.alloc m := by have := hv p; rw [hy] at this; exact this.1
    simp only [Op.objs, List.mem_cons, List.not_mem_nil, or_false] at hqo
    obtain ⟨b0, -⟩ := hr.nth hE hc 0
    have W := fun f => C57_algorithms E f f (fun _ => true) o p b0 b0
    have nthd : ∀ {β : Type} {i : Nat} {k : Iter → M α β} {v : β} {o : Nat} {ys : List α}, Contents E o m ys →
        (SegTree.nth E o i >>= k) m = .ok v m' → ∃ it, SegTree.nth E o i m = .ok it m ∧ k it m = .ok v m' := by
      intro β i k v o ys hc h
      obtain ⟨it, hn⟩ := hr.nth hE hc i
      rw [bind_ok hn] at h
      exact ⟨it, hn, h⟩
    cases c with
    | eq f => cases hf; cases reads_same (W f).1 h; exact .refl
    | ne f => cases hf; cases reads_same (W f).2.1 h; exact .refl
    | lt f => cases hf; cases reads_same (W f).2.2.1 h; exact .refl
    | le f => cases hf; cases reads_same (W f).2.2.2.1 h; exact .refl
    | gt f => cases hf; cases reads_same (W f).2.2.2.2.1 h; exact .refl
    | ge f => cases hf; cases reads_same (W f).2.2.2.2.2.1 h; exact .refl
    | swap =>
      obtain ⟨m1, h1, -, -, -, -, h2, h3, -⟩ := C32_swap hE hr hc hd hne hax hay hp
      obtain ⟨-, ⟨⟩, h⟩ := unit_inv h
      rw [h1] at h; cases h
      simp only [fate] at hf
      rcases hqo with rfl | rfl
      · rw [if_pos rfl] at hf; cases hf; exact h2
      · rw [if_neg (fun h => hne h.symm), if_pos rfl] at hf; cases hf; exact h3
    | assignMove =>
      simp only [fate] at hf
      rcases hqo with rfl | rfl
      · rw [if_pos rfl] at hf; cases hf
      · rw [if_neg (fun h => hne h.symm), if_pos rfl] at hf
        split at hf
        · rename_i hw
          cases hf
          have hw : E.pocma = true ∨ E.acls x.alloc = E.acls y.alloc := by
            rcases hw with hw | ⟨x', y', h1, h2, h3⟩
            · exact .inl hw
            · rw [hx] at h1; rw [hy] at h2; cases h1; cases h2; exact .inr h3
          obtain ⟨m1, h1, -, -, -, -, h2, -⟩ := C31_move_assign hE hr hc hd hne hax hay hw (hp hw)
          obtain ⟨-, ⟨⟩, h⟩ := unit_inv h
          rw [h1] at h; cases h
          exact h2
        · cases hf
    | assignCopy =>
      simp only [fate] at hf
      split at hf
      · cases hf
      cases hf
      rcases hqo with rfl | rfl
      · exact absurd rfl ‹_›
      obtain ⟨-, ⟨⟩, h⟩ := unit_inv h
      obtain ⟨al, s, al2, s2, F, hs, he, hs2, he2, H⟩ := hr.cont2 hE hc hd hne
      have H1 := H.eqv (by ac_rfl : _ = cont E q al2 s2 + (cont E o al s + F))
      rw [get_allocator_c H] at hax; cases hax
      rw [get_allocator_c H1] at hay; cases hay
      obtain ⟨s', r, -, -, H'⟩ := (assign_copy_c hE hs hs2 (fun h1 h2 => by rw [he]; exact hp h1 h2) H).ret h
      have H2 := H'.eqv (by ac_rfl : _ = cont E q y.alloc s2 + (cont E o (if E.pocca then y.alloc else x.alloc) s' + F))
      exact .of (cont_unchanged hs2 H1 H2)
    | insertRange i a b =>
      simp only [fate] at hf
      split at hf
      · cases hf
      cases hf
      rcases hqo with rfl | rfl
      · exact absurd rfl ‹_›
      obtain ⟨jt, h, -⟩ := pos_inv h
      obtain ⟨it, hn, h⟩ := nthd hc h
      obtain ⟨fi, hfi, h⟩ := nthd hd h
      obtain ⟨la, hla, h⟩ := nthd hd h
      exact .of (C25_insert_range hE hr hc hd hne hp.1 hp.2.1 hp.2.2.1 hn hfi hla hp.2.2.2 h).2.2.2.2
    | assignRange a b =>
      simp only [fate] at hf
      split at hf
      · cases hf
      cases hf
      rcases hqo with rfl | rfl
      · exact absurd rfl ‹_›
      obtain ⟨-, ⟨⟩, h⟩ := unit_inv h
      obtain ⟨fi, hfi, h⟩ := nthd hd h
      obtain ⟨la, hla, h⟩ := nthd hd h
      exact .of (C27_assign_range hE hr hc hd hne hp.1 hp.2 hfi hla h).2.2
    | splice | spliceOne | spliceRange | merge =>
      simp only [fate] at hf; rw [if_pos hqo] at hf; cases hf
  | new o c =>
    simp only [Op.objs, List.mem_singleton] at hqo
    cases hqo
    exact absurd hp.1 hq
  | new2 o p c =>
    obtain ⟨ho, y, hy, hp⟩ := hp
    simp only [Op.objs, List.mem_cons, List.not_mem_nil, or_false] at hqo
    rcases hqo with rfl | rfl
    · exact absurd ho hq
    have hd := Tests.View.at hv hy
    have hn : m.cell (.obj o) = none := by have := hv o; rw [ho] at this; exact this
    have hay : get_allocator q m = .ok y.alloc m := by have := hv q; rw [hy] at this; exact this.1
    cases c with
    | copy =>
      cases hf
      obtain ⟨-, ⟨⟩, h⟩ := unit_inv h
      exact .of (C30_copy_ctor hE hr hd hn hay hp h).2.2.1
    | copyAlloc al =>
      cases hf
      obtain ⟨-, ⟨⟩, h⟩ := unit_inv h
      exact .of (C30_copy_ctor_alloc hE hr hd hn hp h).2.2.1
    | range al a b => simp [fate] at hf
    | move =>
      simp [fate] at hf
      cases hf
      obtain ⟨-, ⟨⟩, h⟩ := unit_inv h
      obtain ⟨m1, h1, -, -, -, -, h2, -⟩ := C31_move_ctor hE hr hd hn hay
      rw [h1] at h; cases h
      exact h2
    | moveAlloc al =>
      simp only [fate, if_true] at hf
      split at hf
      · rename_i hw
        cases hf
        obtain ⟨y', h1, hw⟩ := hw
        rw [hy] at h1; cases h1
        obtain ⟨-, ⟨⟩, h⟩ := unit_inv h
        obtain ⟨m1, h1, -, -, h2, -⟩ := (C31_move_ctor_alloc hE hr hd hn hay hp).1 hw
        rw [h1] at h; cases h
        exact h2
      · cases hf
  | dtor o =>
    simp only [Op.objs, List.mem_singleton] at hqo
    cases hqo
    simp [fate] at hf

/-- C92: where iterators are after a call that threw -/
theorem fate_exc (hE : E.Good) (hr : Reach E m) (hv : View E m S) (hp : op.Pre E S) (h : op.run E m = .throw e m')
    (hf : fateExc op q = some q') (hq : S q ≠ none) : q' = q ∧ Moved E q q m m' := by
  by_cases hqo : q ∈ op.objs
  swap
  · have : q' = q := by
      cases op with
      | un o c => simp only [Op.objs, List.mem_singleton] at hqo; simp [fateExc, hqo] at hf; exact hf.symm
      | bin o p c =>
        simp only [Op.objs, List.mem_cons, List.not_mem_nil, or_false, not_or] at hqo
        cases c <;> simp [fateExc, hqo.1, hqo.2] at hf <;> exact hf.symm
      | new o c => simp [fateExc] at hf; exact hf.symm
      | new2 o p c =>
        simp only [Op.objs, List.mem_cons, List.not_mem_nil, or_false, not_or] at hqo
        cases c <;> simp [fateExc, hqo.2] at hf <;> exact hf.symm
      | dtor o => simp only [Op.objs, List.mem_singleton] at hqo; simp [fateExc, hqo] at hf; exact hf.symm
    cases this
    exact ⟨rfl, .of (C34_others hE hr hv hp (.inr ⟨e, h⟩) hqo)⟩
  cases op with
  | un o c =>
    simp only [Op.objs, List.mem_singleton] at hqo
    cases hqo
    obtain ⟨x, hx, hp⟩ := hp
    simp only [fateExc, true_and] at hf
    split at hf
    · cases hf
    · rename_i hs
      cases hf
      exact ⟨rfl, .of (same_cells hE hr (un_strong hE hr (Tests.View.at hv hx) hp (by simpa using hs) h) _)⟩
  | bin o p c =>
    obtain ⟨hne, x, y, hx, hy, hp⟩ := hp
    have hc := Tests.View.at hv hx
    have hd := Tests.View.at hv hy
    simp only [Op.objs, List.mem_cons, List.not_mem_nil, or_false] at hqo
    cases c with
    | spliceOne i j =>
      cases hf
      refine ⟨rfl, ?_⟩
      have h := unit_inv_throw h
      obtain ⟨it, hn⟩ := hr.nth hE hc i
      obtain ⟨jt, hnj⟩ := hr.nth hE hd j
      rw [bind_ok hn, bind_ok hnj] at h
      obtain ⟨al, s, al2, s2, F, hs, he, hs2, he2, H⟩ := hr.cont2 hE hc hd hne
      have H1 := H.eqv (by ac_rfl : _ = cont E p al2 s2 + (cont E o al s + F))
      obtain ⟨hpi, hpj, hsz⟩ := hp
      rw [← he] at hpi hsz
      rw [← he2] at hpj
      exact .of (same_cells hE hr ((splice_one_c hE hs hs2 (at_of_nth hs H hpi hn)
        (at_of_nth hs2 H1 (Nat.le_of_lt hpj) hnj) hpj (max_lt hE hsz) H).exc h).1 _)
    | _ => simp only [fateExc] at hf; rw [if_pos hqo] at hf; cases hf
  | new o c =>
    simp only [Op.objs, List.mem_singleton] at hqo
    cases hqo
    exact absurd hp.1 hq
  | new2 o p c =>
    obtain ⟨ho, y, hy, hp⟩ := hp
    simp only [Op.objs, List.mem_cons, List.not_mem_nil, or_false] at hqo
    rcases hqo with rfl | rfl
    · exact absurd ho hq
    have hd := Tests.View.at hv hy
    have hn : m.cell (.obj o) = none := by have := hv o; rw [ho] at this; exact this
    cases c with
    | copy =>
      cases hf
      exact ⟨rfl, .of (same_cells hE hr (C13_copy_ctor (al := 0) hE hr hd hn hp (.inl (unit_inv_throw h))) _)⟩
    | copyAlloc al =>
      cases hf
      exact ⟨rfl, .of (same_cells hE hr (C13_copy_ctor hE hr hd hn hp (.inr (unit_inv_throw h))) _)⟩
    | range al a b =>
      cases hf
      have h := unit_inv_throw h
      obtain ⟨it, hf⟩ := hr.nth hE hd a
      obtain ⟨jt, hl⟩ := hr.nth hE hd b
      rw [bind_ok hf, bind_ok hl] at h
      exact ⟨rfl, .of (same_cells hE hr (C13_range_ctor hE hr hd hn hp.2.2 hp.1 hp.2.1 hf hl h) _)⟩
    | move | moveAlloc al => simp [fateExc] at hf
  | dtor o =>
    simp only [Op.objs, List.mem_singleton] at hqo
    cases hqo
    simp [fateExc] at hf

/-- a container whose iterators stay valid keeps its size -/
theorem fate_len (hp : op.Pre E S) {r : Ret α} (h : op.Ok E S r S') (hf : fate E S op q = some q') {x : Obj α}
    (hq : S q = some x) : ∃ x', S' q' = some x' ∧ x'.elems.length = x.elems.length := by
  cases op with
  | un o c =>
    obtain ⟨x0, x', hx, hok, rfl⟩ := h
    simp only [fate] at hf
    split at hf
    · cases hf
    · rename_i hs
      cases hf
      by_cases hqo : q = o
      · subst hqo
        rw [hq] at hx; cases hx
        refine ⟨x', upd_self, ?_⟩
        cases c <;> first | (exact absurd ⟨rfl, rfl⟩ hs) | skip
        all_goals
          simp only [Un.Ok] at hok
          obtain ⟨-, rfl⟩ := hok
          simp
      · exact ⟨x, by rw [upd_ne hqo]; exact hq, rfl⟩
  | bin o p c =>
    obtain ⟨hne, -⟩ := hp
    obtain ⟨x0, y0, x', y', hx, hy, hok, rfl⟩ := h
    by_cases hqo : q = o
    · subst hqo
      rw [hq] at hx; cases hx
      cases c <;> simp only [fate, if_true, true_or] at hf
      case swap => cases hf; obtain ⟨-, -, rfl⟩ := hok; exact ⟨_, (upd_ne hne.symm).trans upd_self, rfl⟩
      all_goals
        cases hf
        try (obtain ⟨-, rfl, -⟩ := hok; exact ⟨_, upd_self, rfl⟩)
    by_cases hqp : q = p
    · subst hqp
      rw [hq] at hy; cases hy
      cases c <;> simp only [fate, if_neg hqo, if_true, or_true] at hf
      case swap => cases hf; obtain ⟨-, rfl, -⟩ := hok; exact ⟨_, upd_self, rfl⟩
      case assignMove =>
        split at hf <;> cases hf
        obtain ⟨-, rfl, -⟩ := hok
        exact ⟨_, upd_self, rfl⟩
      all_goals
        cases hf
        try (obtain ⟨-, -, rfl⟩ := hok; exact ⟨_, by rw [upd_ne hqo, upd_self], rfl⟩)
    · have : q' = q := by cases c <;> simp [fate, hqo, hqp] at hf <;> exact hf.symm
      subst this
      exact ⟨x, by rw [upd_ne hqo, upd_ne hqp]; exact hq, rfl⟩
  | new o c =>
    cases hf
    obtain ⟨-, x', -, rfl⟩ := h
    exact ⟨x, by rw [upd_ne (by rintro rfl; rw [hp.1] at hq; cases hq)]; exact hq, rfl⟩
  | new2 o p c =>
    obtain ⟨-, y, x', y', hy, hok, rfl⟩ := h
    obtain ⟨ho, -⟩ := hp
    have hqo : q ≠ o := by rintro rfl; rw [ho] at hq; cases hq
    by_cases hqp : q = p
    · subst hqp
      rw [hq] at hy; cases hy
      cases c <;> simp only [fate, if_true] at hf
      case copy => cases hf; obtain ⟨-, rfl⟩ := hok; exact ⟨_, by rw [upd_ne hqo, upd_self], rfl⟩
      case copyAlloc => cases hf; obtain ⟨-, rfl⟩ := hok; exact ⟨_, by rw [upd_ne hqo, upd_self], rfl⟩
      case move => cases hf; obtain ⟨rfl, -⟩ := hok; exact ⟨_, upd_self, rfl⟩
      case moveAlloc =>
        split at hf <;> cases hf
        obtain ⟨rfl, -⟩ := hok; exact ⟨_, upd_self, rfl⟩
      case range => cases hf
    · have : q' = q := by cases c <;> simp [fate, hqp] at hf <;> exact hf.symm
      subst this
      exact ⟨x, by rw [upd_ne hqo, upd_ne hqp]; exact hq, rfl⟩
  | dtor o =>
    obtain ⟨-, rfl⟩ := h
    simp only [fate] at hf
    split at hf <;> cases hf
    exact ⟨x, by rw [upd_ne ‹_›]; exact hq, rfl⟩

theorem fate_len_exc (hp : op.Pre E S) (h : op.Exc E S e S') (hf : fateExc op q = some q) {x : Obj α}
    (hq : S q = some x) : ∃ x', S' q = some x' ∧ x'.elems.length = x.elems.length := by
  cases op with
  | un o c =>
    obtain ⟨x0, x', hx, hok, rfl⟩ := h
    simp only [fateExc] at hf
    split at hf
    · cases hf
    · rename_i hs
      by_cases hqo : q = o
      · subst hqo
        rw [hq] at hx; cases hx
        refine ⟨x', upd_self, ?_⟩
        cases c <;> first | (exact absurd ⟨rfl, rfl⟩ hs) | skip
        case at_ => obtain ⟨-, -, rfl⟩ := hok; rfl
        case set => obtain ⟨-, -, rfl⟩ := hok; rfl
        case setIt => obtain ⟨-, -, rfl⟩ := hok; rfl
        all_goals
          obtain ⟨-, rfl⟩ := hok
          rfl
      · exact ⟨x, by rw [upd_ne hqo]; exact hq, rfl⟩
  | bin o p c =>
    obtain ⟨x0, y0, x', y', hx, hy, hok, rfl⟩ := h
    by_cases hqo : q = o
    · subst hqo
      rw [hq] at hx; cases hx
      cases c <;> simp only [fateExc, if_true, true_or] at hf <;> cases hf
      obtain ⟨-, rfl, -⟩ := hok; exact ⟨_, upd_self, rfl⟩
    by_cases hqp : q = p
    · subst hqp
      rw [hq] at hy; cases hy
      cases c <;> simp only [fateExc, if_true, or_true] at hf <;> cases hf
      obtain ⟨-, -, rfl⟩ := hok; exact ⟨_, by rw [upd_ne hqo, upd_self], rfl⟩
    · exact ⟨x, by rw [upd_ne hqo, upd_ne hqp]; exact hq, rfl⟩
  | new o c => obtain ⟨-, rfl⟩ := h; exact ⟨x, hq, rfl⟩
  | new2 o p c =>
    obtain ⟨y, y', hy, hok, rfl⟩ := h
    by_cases hqp : q = p
    · subst hqp
      rw [hq] at hy; cases hy
      refine ⟨y', upd_self, ?_⟩
      cases c <;> simp only [fateExc, if_true] at hf <;> cases hf
      all_goals
        obtain ⟨-, rfl⟩ := hok; rfl
    · exact ⟨x, by rw [upd_ne hqp]; exact hq, rfl⟩
  | dtor o => exact h.elim

/-! ### The simulation -/

/-- The memory and the iterator variables `g` are what the lists `S` and the positions
`ρ` say. -/
structure Rep (E : Env α) (m : Mem α) (g : Regs) (S : Bank α) (ρ : Places) : Prop where
  reach : Reach E m
  view : View E m S
  regs : ∀ r o i, ρ r = some (o, i) → ∃ x, S o = some x ∧ i ≤ x.elems.length ∧ SegTree.nth E o i m = .ok (g r) m

theorem follow_some {f : Nat → Option Nat} {r o i : Nat} (h : follow f ρ r = some (o, i)) :
    ∃ q, ρ r = some (q, i) ∧ f q = some o := by
  unfold follow at h
  cases hr : ρ r with
  | none => rw [hr] at h; cases h
  | some p =>
    obtain ⟨q, k⟩ := p
    rw [hr] at h
    simp only [Option.bind_some, Option.map_eq_some_iff, Prod.mk.injEq] at h
    obtain ⟨q', h1, rfl, rfl⟩ := h
    exact ⟨q, rfl, h1⟩

/-- a call, whatever variables the program has -/
theorem call_step (hE : E.Good) (hR : Rep E m g S ρ) (hp : op.Pre E S) :
    (∃ a m' S', op.run E m = .ok a m' ∧ op.Ok E S a S' ∧ Rep E m' g S' (follow (fate E S op) ρ)) ∨
    (∃ e m' S', op.run E m = .throw e m' ∧ op.Exc E S e S' ∧ Rep E m' g S' (follow (fateExc op) ρ)) := by
  obtain ⟨hr, hv, hg⟩ := hR
  rcases hr.op hE hv hp with ⟨a, m', S', h, h1, h2, h3⟩ | ⟨e, m', S', h, h1, h2, h3⟩
  · refine .inl ⟨a, m', S', h, h1, h3, h2, fun r o i hro => ?_⟩
    obtain ⟨q, hq, hf⟩ := follow_some hro
    obtain ⟨x, hx, hi, hn⟩ := hg r q i hq
    obtain ⟨x', hx', hl⟩ := fate_len hp h1 hf hx
    exact ⟨x', hx', by omega, fate_ok hE hr hv hp h hf (by rw [hx]; simp) _ _ hn⟩
  · refine .inr ⟨e, m', S', h, h1, h3, h2, fun r o i hro => ?_⟩
    obtain ⟨q, hq, hf⟩ := follow_some hro
    obtain ⟨x, hx, hi, hn⟩ := hg r q i hq
    obtain ⟨rfl, hm⟩ := fate_exc hE hr hv hp h hf (by rw [hx]; simp)
    obtain ⟨x', hx', hl⟩ := fate_len_exc hp h1 hf hx
    exact ⟨x', hx', by omega, hm _ _ hn⟩

theorem follow_id {f : Nat → Option Nat} (h : ∀ q, f q = some q) : follow f ρ = ρ := by
  funext r
  unfold follow
  cases ρ r with
  | none => rfl
  | some p => simp [h]

theorem Rep.set {r o i : Nat} {x : Obj α} {it : Iter} (hR : Rep E m g S ρ) (hx : S o = some x) (hi : i ≤ x.elems.length)
    (hn : SegTree.nth E o i m = .ok it m) : Rep E m (upd g r it) S (upd ρ r (some (o, i))) := by
  refine ⟨hR.reach, hR.view, fun r' o' i' h => ?_⟩
  by_cases hr : r' = r
  · subst hr
    rw [upd_self] at h ⊢; cases h
    exact ⟨x, hx, hi, hn⟩
  · rw [upd_ne hr] at h ⊢
    exact hR.regs r' o' i' h

/-- a call with iterators out of variables that returns one -/
theorem returns_step (hE : E.Good) (hR : Rep E m g S ρ) {o i t : Nat} {c : Un α} (hp : (Op.un o c).Pre E S) {y : M α Iter}
    (hs : stays c = false) (hrun : (Op.un o c).run E m = Un.pos y m)
    (hy : ∀ jt m', y m = .ok jt m' → SegTree.nth E o i m' = .ok jt m' ∧ index_of jt = i)
    (hl : ∀ S', (Op.un o c).Ok E S (.pos i) S' → ∃ x', S' o = some x' ∧ i ≤ x'.elems.length) :
    (∃ jt m' S' ρ', y m = .ok jt m' ∧ Returns E S ρ o i t (.un o c) (.ret .unit) S' ρ' ∧ Rep E m' (upd g t jt) S' ρ') ∨
    (∃ e m' S', y m = .throw e m' ∧ (Op.un o c).Exc E S e S' ∧ Rep E m' g S' (follow (fateExc (.un o c)) ρ)) := by
  rcases call_step hE hR hp with ⟨a, m', S', h, h1, h2⟩ | ⟨e, m', S', h, h1, h2⟩
  · left
    rw [hrun] at h
    obtain ⟨jt, hj, rfl⟩ := pos_inv h
    obtain ⟨h3, h4⟩ := hy jt m' hj
    have h5 : jt.pos = i := h4
    rw [h5] at h1
    obtain ⟨x', hx', hi⟩ := hl S' h1
    have hf : fate E S (.un o c) = fun q => if q = o then none else some q := by
      funext q; simp [fate, hs]
    rw [hf] at h2
    exact ⟨jt, m', S', _, hj, ⟨rfl, h1, rfl⟩, h2.set hx' hi h3⟩
  · right
    rw [hrun] at h
    exact ⟨e, m', S', pos_inv_throw h, h1, h2⟩

/-- C92, one step: a step made within its precondition returns or throws, as it does
on lists and positions, and memory and variables remain what those say. -/
theorem C92_step (hE : E.Good) (hR : Rep E m g S ρ) {c : Cmd α} (hp : c.Pre E S ρ) :
    (∃ a g' m' S' ρ', c.run E g m = .ok (a, g') m' ∧ c.Ok E S ρ a S' ρ' ∧ Rep E m' g' S' ρ') ∨
    (∃ e m' S' ρ', c.run E g m = .throw e m' ∧ c.Exc E S ρ e S' ρ' ∧ Rep E m' g S' ρ') := by
  have hr := hR.reach
  have hv := hR.view
  have strongR : ∀ {o : Nat} {c : Un α} {m' : Mem α} {S' : Bank α}, strong c = true →
      Rep E m' g S' (follow (fateExc (.un o c)) ρ) → Rep E m' g S' ρ := by
    intro o c m' S' hs h
    rwa [follow_id (fun q => by simp [fateExc, hs])] at h
  have weakR : ∀ {o : Nat} {c : Un α} {m' : Mem α} {S' : Bank α}, strong c = false →
      Rep E m' g S' (follow (fateExc (.un o c)) ρ) → Rep E m' g S' (follow (fun q => if q = o then none else some q) ρ) := by
    intro o c m' S' hs h
    rwa [show fateExc (.un o c) = (fun q => if q = o then none else some q) from by funext q; simp [fateExc, hs]] at h
  cases c with
  | call op =>
    rcases call_step hE hR hp with ⟨a, m', S', h, h1, h2⟩ | ⟨e, m', S', h, h1, h2⟩
    · exact .inl ⟨.ret a, g, m', S', _, bind_ok h, ⟨a, rfl, h1, rfl⟩, h2⟩
    · exact .inr ⟨e, m', S', _, bind_throw h, ⟨h1, rfl⟩, h2⟩
  | begin_ r o =>
    obtain ⟨x, hx⟩ := hp
    obtain ⟨⟨it, h1, h2⟩, -, -⟩ := C18_ends hE hr (Tests.View.at hv hx)
    exact .inl ⟨_, _, m, S, _, bind_ok h1, ⟨rfl, rfl, rfl⟩, hR.set hx (Nat.zero_le _) h2⟩
  | end_ r o =>
    obtain ⟨x, hx⟩ := hp
    obtain ⟨-, ⟨it, h1, h2⟩, -⟩ := C18_ends hE hr (Tests.View.at hv hx)
    exact .inl ⟨_, _, m, S, _, bind_ok h1, ⟨rfl, rfl, x, hx, rfl⟩, hR.set hx (Nat.le_refl _) h2⟩
  | nth r o i =>
    obtain ⟨x, hx⟩ := hp
    obtain ⟨it, h1⟩ := hr.nth hE (Tests.View.at hv hx) i
    refine .inl ⟨_, _, m, S, _, bind_ok h1, ⟨rfl, rfl, x, hx, rfl⟩, hR.set hx (Nat.min_le_right _ _) ?_⟩
    by_cases hi : i ≤ x.elems.length
    · rwa [Nat.min_eq_left hi]
    · rw [Nat.min_eq_right (by omega)]
      obtain ⟨jt, h2, h3⟩ := (C05_access (i := i) hE hr (Tests.View.at hv hx)).2.2.1 (by omega)
      rw [h1] at h2; cases h2
      obtain ⟨-, ⟨kt, h4, h5⟩, -⟩ := C18_ends hE hr (Tests.View.at hv hx)
      rw [h3] at h4; cases h4
      exact h5
  | copy r s =>
    refine .inl ⟨_, _, m, S, _, rfl, ⟨rfl, rfl, rfl⟩, hr, hv, fun r' o i h => ?_⟩
    by_cases hrr : r' = r
    · subst hrr; rw [upd_self] at h ⊢; exact hR.regs s o i h
    · rw [upd_ne hrr] at h ⊢; exact hR.regs r' o i h
  | next r =>
    obtain ⟨o, i, x, hri, hx, hi⟩ := hp
    obtain ⟨x', hx', -, hn⟩ := hR.regs r o i hri
    obtain ⟨jt, h1, h2⟩ := C18_next hE hr (Tests.View.at hv hx) hi hn
    exact .inl ⟨_, _, m, S, _, bind_ok h1, ⟨rfl, rfl, o, i, hri, rfl⟩, hR.set hx hi h2⟩
  | prev r =>
    obtain ⟨o, i, hri, h0⟩ := hp
    obtain ⟨x, hx, hi, hn⟩ := hR.regs r o i hri
    obtain ⟨jt, h1, h2⟩ := C18_prev hE hr (Tests.View.at hv hx) h0 hi hn
    exact .inl ⟨_, _, m, S, _, bind_ok h1, ⟨rfl, rfl, o, i, hri, rfl⟩, hR.set hx (by omega) h2⟩
  | jump r s d =>
    obtain ⟨o, i, x, hri, hx, h0, h1⟩ := hp
    obtain ⟨x', hx', hi, hn⟩ := hR.regs s o i hri
    rw [hx] at hx'; cases hx'
    obtain ⟨jt, h2, h3⟩ := C19_add hE hr (Tests.View.at hv hx) hi h0 h1 hn
    exact .inl ⟨_, _, m, S, _, bind_ok h2, ⟨rfl, rfl, o, i, hri, rfl⟩, hR.set hx (by omega) h3⟩
  | read r =>
    obtain ⟨o, i, x, hri, hx, hi⟩ := hp
    obtain ⟨x', hx', -, hn⟩ := hR.regs r o i hri
    obtain ⟨-, -, it, h1, h2⟩ := (C05_access hE hr (Tests.View.at hv hx)).1 hi
    rw [hn] at h1; cases h1
    exact .inl ⟨_, _, m, S, _, bind_ok h2, ⟨rfl, rfl, o, i, x, hri, hx, hi, rfl⟩, hR⟩
  | write r v =>
    obtain ⟨o, i, x, hri, hx, hi⟩ := hp
    obtain ⟨x', hx', -, hn⟩ := hR.regs r o i hri
    have hrun : (Op.un o (.setIt i v)).run E m = Un.unit (deref_set E (g r) v) m := by
      show Un.unit (do deref_set E (← SegTree.nth E o i) v) m = _
      unfold Un.unit
      rw [bind_assoc, bind_ok hn]
    rcases call_step hE hR (op := .un o (.setIt i v)) ⟨x, hx, hi⟩ with ⟨a, m', S', h, h1, h2⟩ | ⟨e, m', S', h, h1, h2⟩
    · rw [hrun] at h
      obtain ⟨-, u, h⟩ := unit_inv h
      obtain ⟨x0, x1, hx0, ⟨-, rfl⟩, rfl⟩ := h1
      rw [hx] at hx0; cases hx0
      rw [follow_id (fun q => by simp [fate, stays])] at h2
      exact .inl ⟨_, _, m', _, ρ, bind_ok h, ⟨rfl, rfl, o, i, x, hri, hx, rfl⟩, h2⟩
    · rw [hrun] at h
      obtain ⟨x0, x1, hx0, ⟨h3, h4, rfl⟩, rfl⟩ := h1
      rw [upd_id hx0] at h2
      exact .inr ⟨e, m', S, ρ, bind_throw (unit_inv_throw h), ⟨rfl, rfl, h3, h4⟩, strongR rfl h2⟩
  | eq r s =>
    obtain ⟨o, i, j, hri, hsj⟩ := hp
    obtain ⟨x, hx, hi, hn⟩ := hR.regs r o i hri
    obtain ⟨x', hx', hj, hnj⟩ := hR.regs s o j hsj
    rw [hx] at hx'; cases hx'
    have h := (C20_compare hE hr (Tests.View.at hv hx) hi hj hn hnj).1
    exact .inl ⟨_, _, m, S, ρ, rfl, ⟨rfl, rfl, o, i, j, hri, hsj, by rw [Bool.eq_iff_iff.2 (h.trans decide_eq_true_iff.symm)]⟩, hR⟩
  | lt r s =>
    obtain ⟨o, i, j, hri, hsj⟩ := hp
    obtain ⟨x, hx, hi, hn⟩ := hR.regs r o i hri
    obtain ⟨x', hx', hj, hnj⟩ := hR.regs s o j hsj
    rw [hx] at hx'; cases hx'
    have h := (C20_compare hE hr (Tests.View.at hv hx) hi hj hn hnj).2.2.1
    exact .inl ⟨_, _, m, S, ρ, rfl, ⟨rfl, rfl, o, i, j, hri, hsj, by rw [Bool.eq_iff_iff.2 (h.trans decide_eq_true_iff.symm)]⟩, hR⟩
  | diff r s =>
    obtain ⟨o, i, j, x, hri, hsj, hx, hW⟩ := hp
    obtain ⟨x', hx', hi, hn⟩ := hR.regs r o i hri
    rw [hx] at hx'; cases hx'
    obtain ⟨x', hx', hj, hnj⟩ := hR.regs s o j hsj
    rw [hx] at hx'; cases hx'
    exact .inl ⟨_, _, m, S, ρ, rfl, ⟨rfl, rfl, o, i, j, hri, hsj, by rw [C20_diff hE hr (Tests.View.at hv hx) hi hj hn hnj hW]⟩, hR⟩
  | insert t o r v =>
    obtain ⟨i, hri, hp⟩ := hp
    obtain ⟨x, hx, hpx⟩ := id hp
    obtain ⟨x', hx', -, hn⟩ := hR.regs r o i hri
    rw [hx] at hx'; cases hx'
    rcases returns_step (t := t) (i := i) (y := SegTree.insert E o (g r) v) hE hR hp rfl
      (by show Un.pos (do SegTree.insert E o (← SegTree.nth E o i) v) m = _; unfold Un.pos; rw [bind_assoc, bind_ok hn])
      (fun jt m' h => (C03_insert hE hr (Tests.View.at hv hx) hpx.1 hn hpx.2 (.inl h)).imp_right And.left)
      (fun S' h => by
        obtain ⟨x0, x1, hx0, ⟨-, rfl⟩, rfl⟩ := h
        rw [hx] at hx0; cases hx0
        exact ⟨_, upd_self, by simp only [ins, List.length_append, List.length_take]; have := hpx.1; omega⟩)
      with ⟨jt, m', S', ρ', h, h1, h2⟩ | ⟨e, m', S', h, h1, h2⟩
    · exact .inl ⟨_, _, m', S', ρ', bind_ok h, ⟨i, hri, h1⟩, h2⟩
    · obtain ⟨x0, x1, hx0, ⟨h3, rfl⟩, rfl⟩ := h1
      rw [upd_id hx0] at h2
      exact .inr ⟨e, m', S, ρ, bind_throw h, ⟨rfl, rfl, h3⟩, strongR rfl h2⟩
  | insertRef t o r s =>
    obtain ⟨i, j, hri, hsj, hp⟩ := hp
    obtain ⟨x, hx, hpx⟩ := id hp
    obtain ⟨x', hx', -, hn⟩ := hR.regs r o i hri
    rw [hx] at hx'; cases hx'
    obtain ⟨x', hx', -, hnj⟩ := hR.regs s o j hsj
    rw [hx] at hx'; cases hx'
    rcases returns_step (t := t) (i := i) (y := insert_alias E o (g r) (g s)) hE hR hp rfl
      (by
        show Un.pos (do
          let it ← SegTree.nth E o i
          let jt ← SegTree.nth E o j
          insert_alias E o it jt) m = _
        unfold Un.pos; rw [bind_assoc, bind_ok hn, bind_assoc, bind_ok hnj])
      (fun jt m' h => by
        have h1 := (C42_insert_self hE hr (Tests.View.at hv hx) hpx.1 hpx.2.1 hn hnj hpx.2.2 h)
        have hop : (Op.un o (.insertSelf i j)).run E m = .ok (.pos jt.pos) m' := by
          show Un.pos (do
            let it ← SegTree.nth E o i
            let jt ← SegTree.nth E o j
            insert_alias E o it jt) m = _
          unfold Un.pos; rw [bind_assoc, bind_ok hn, bind_assoc, bind_ok hnj, bind_ok h]; rfl
        obtain ⟨S', hok, -⟩ := step_ret hE hr hv hp hop
        obtain ⟨-, -, -, ⟨h3, -⟩, -⟩ := hok
        exact ⟨h1.2, by injection h3⟩)
      (fun S' h => by
        obtain ⟨x0, x1, hx0, ⟨-, hj, rfl⟩, rfl⟩ := h
        rw [hx] at hx0; cases hx0
        exact ⟨_, upd_self, by simp only [ins, List.length_append, List.length_take]; have := hpx.1; omega⟩)
      with ⟨jt, m', S', ρ', h, h1, h2⟩ | ⟨e, m', S', h, h1, h2⟩
    · exact .inl ⟨_, _, m', S', ρ', bind_ok h, ⟨i, j, hri, hsj, h1⟩, h2⟩
    · obtain ⟨x0, x1, hx0, ⟨⟨hj, h3⟩, rfl⟩, rfl⟩ := h1
      rw [upd_id hx0] at h2
      exact .inr ⟨e, m', S, ρ, bind_throw h, ⟨rfl, rfl, o, j, _, hsj, hx0, hj, h3⟩, strongR rfl h2⟩
  | insertFill t o r n v =>
    obtain ⟨i, hri, hp⟩ := hp
    obtain ⟨x, hx, hpx⟩ := id hp
    obtain ⟨x', hx', -, hn⟩ := hR.regs r o i hri
    rw [hx] at hx'; cases hx'
    rcases returns_step (t := t) (i := i) (y := insert_fill E o (g r) n v) hE hR hp rfl
      (by show Un.pos (do insert_fill E o (← SegTree.nth E o i) n v) m = _; unfold Un.pos; rw [bind_assoc, bind_ok hn])
      (fun jt m' h => (C24_insert_fill hE hr (Tests.View.at hv hx) hpx.1 hn hpx.2 h).2)
      (fun S' h => by
        obtain ⟨x0, x1, hx0, ⟨-, rfl⟩, rfl⟩ := h
        rw [hx] at hx0; cases hx0
        exact ⟨_, upd_self, by simp only [ins, List.length_append, List.length_take]; have := hpx.1; omega⟩)
      with ⟨jt, m', S', ρ', h, h1, h2⟩ | ⟨e, m', S', h, h1, h2⟩
    · exact .inl ⟨_, _, m', S', ρ', bind_ok h, ⟨i, hri, h1⟩, h2⟩
    · exact .inr ⟨e, m', S', _, bind_throw h, ⟨i, hri, h1, rfl⟩, weakR rfl h2⟩
  | insertList t o r vs =>
    obtain ⟨i, hri, hp⟩ := hp
    obtain ⟨x, hx, hpx⟩ := id hp
    obtain ⟨x', hx', -, hn⟩ := hR.regs r o i hri
    rw [hx] at hx'; cases hx'
    rcases returns_step (t := t) (i := i) (y := insert_list E o (g r) vs) hE hR hp rfl
      (by show Un.pos (do insert_list E o (← SegTree.nth E o i) vs) m = _; unfold Un.pos; rw [bind_assoc, bind_ok hn])
      (fun jt m' h => (C25_insert_list hE hr (Tests.View.at hv hx) hpx.1 hn hpx.2 h).2)
      (fun S' h => by
        obtain ⟨x0, x1, hx0, ⟨-, rfl⟩, rfl⟩ := h
        rw [hx] at hx0; cases hx0
        exact ⟨_, upd_self, by simp only [ins, List.length_append, List.length_take]; have := hpx.1; omega⟩)
      with ⟨jt, m', S', ρ', h, h1, h2⟩ | ⟨e, m', S', h, h1, h2⟩
    · exact .inl ⟨_, _, m', S', ρ', bind_ok h, ⟨i, hri, h1⟩, h2⟩
    · exact .inr ⟨e, m', S', _, bind_throw h, ⟨i, hri, h1, rfl⟩, weakR rfl h2⟩
  | erase t o r =>
    obtain ⟨i, hri, hp⟩ := hp
    obtain ⟨x, hx, hpx⟩ := id hp
    obtain ⟨x', hx', -, hn⟩ := hR.regs r o i hri
    rw [hx] at hx'; cases hx'
    rcases returns_step (t := t) (i := i) (y := SegTree.erase E o (g r)) hE hR hp rfl
      (by show Un.pos (do SegTree.erase E o (← SegTree.nth E o i)) m = _; unfold Un.pos; rw [bind_assoc, bind_ok hn])
      (fun jt m' h => (C03_erase hE hr (Tests.View.at hv hx) hpx hn h).imp_right And.left)
      (fun S' h => by
        obtain ⟨x0, x1, hx0, ⟨-, rfl⟩, rfl⟩ := h
        rw [hx] at hx0; cases hx0
        have hpx : i < x.elems.length := hpx
        exact ⟨_, upd_self, by simp only [List.length_eraseIdx_of_lt hpx]; omega⟩)
      with ⟨jt, m', S', ρ', h, h1, h2⟩ | ⟨e, m', S', h, h1, h2⟩
    · exact .inl ⟨_, _, m', S', ρ', bind_ok h, ⟨i, hri, h1⟩, h2⟩
    · obtain ⟨x0, x1, hx0, h3, rfl⟩ := h1
      exact h3.elim
  | eraseRange t o r s =>
    obtain ⟨i, j, hri, hsj, hp⟩ := hp
    obtain ⟨x, hx, hpx⟩ := id hp
    obtain ⟨x', hx', -, hn⟩ := hR.regs r o i hri
    rw [hx] at hx'; cases hx'
    obtain ⟨x', hx', -, hnj⟩ := hR.regs s o j hsj
    rw [hx] at hx'; cases hx'
    rcases returns_step (t := t) (i := i) (y := erase_rng E o (g r) (g s)) hE hR hp rfl
      (by
        show Un.pos (do
          let it ← SegTree.nth E o i
          let jt ← SegTree.nth E o j
          erase_rng E o it jt) m = _
        unfold Un.pos; rw [bind_assoc, bind_ok hn, bind_assoc, bind_ok hnj])
      (fun jt m' h => by
        obtain ⟨kt, m1, h1, -, h2, h3, -⟩ := C26_erase_range hE hr (Tests.View.at hv hx) hpx.1 hpx.2 hn hnj
        rw [h1] at h; cases h
        exact ⟨h2, h3⟩)
      (fun S' h => by
        obtain ⟨x0, x1, hx0, ⟨-, rfl⟩, rfl⟩ := h
        rw [hx] at hx0; cases hx0
        exact ⟨_, upd_self, by simp only [List.length_append, List.length_take]; have := hpx.1; have := hpx.2; omega⟩)
      with ⟨jt, m', S', ρ', h, h1, h2⟩ | ⟨e, m', S', h, h1, h2⟩
    · exact .inl ⟨_, _, m', S', ρ', bind_ok h, ⟨i, j, hri, hsj, h1⟩, h2⟩
    · obtain ⟨x0, x1, hx0, h3, rfl⟩ := h1
      exact h3.elim
  | spliceOne o r p s =>
    obtain ⟨i, j, hri, hsj, hp⟩ := hp
    obtain ⟨hne, x, y, hx, hy, hpx⟩ := id hp
    obtain ⟨x', hx', -, hn⟩ := hR.regs r o i hri
    obtain ⟨x', hx', -, hnj⟩ := hR.regs s p j hsj
    have hrun : (Op.bin o p (.spliceOne i j)).run E m = Un.unit (splice_one E o (g r) p (g s)) m := by
      show Un.unit (do
        let it ← SegTree.nth E o i
        let jt ← SegTree.nth E p j
        splice_one E o it p jt) m = _
      unfold Un.unit; rw [bind_assoc, bind_ok hn, bind_assoc, bind_ok hnj]
    rcases call_step hE hR hp with ⟨a, m', S', h, h1, h2⟩ | ⟨e, m', S', h, h1, h2⟩
    · rw [hrun] at h
      obtain ⟨rfl, u, h⟩ := unit_inv h
      exact .inl ⟨_, _, m', S', _, bind_ok h, ⟨rfl, i, j, hri, hsj, h1, rfl⟩, h2⟩
    · rw [hrun] at h
      obtain ⟨x0, y0, x1, y1, hx0, hy0, ⟨⟨hj, h3⟩, rfl, rfl⟩, rfl⟩ := h1
      rw [upd_id hy0, upd_id hx0, follow_id (f := fateExc (.bin o p (.spliceOne i j) : Op α)) (fun q => rfl)] at h2
      exact .inr ⟨e, m', S, ρ, bind_throw (unit_inv_throw h), ⟨rfl, rfl, p, j, _, hsj, hy0, hj, h3⟩, h2⟩

/-! ### Programs -/

/-- how a step ended -/
inductive Ended (α : Type) where
  | ret (a : Ans α)
  | exc (e : Exn)

/-- A program: what it does next, given how its steps ended so far. -/
abbrev Program (α : Type) := List (Ended α) → Option (Cmd α)

/-- The program in the library: it starts without containers, and with any garbage in
its variables.  A step that throws leaves the variables alone. -/
inductive Exec (E : Env α) (P : Program α) : List (Ended α) → Mem α → Regs → Prop where
  | init (g : Regs) : Exec E P [] noMem g
  | ret {h : List (Ended α)} {m m' : Mem α} {g g' : Regs} {c : Cmd α} {a : Ans α} : Exec E P h m g → P h = some c →
      c.run E g m = .ok (a, g') m' → Exec E P (h ++ [.ret a]) m' g'
  | exc {h : List (Ended α)} {m m' : Mem α} {g : Regs} {c : Cmd α} {e : Exn} : Exec E P h m g → P h = some c →
      c.run E g m = .throw e m' → Exec E P (h ++ [.exc e]) m' g

/-- The program on lists and positions. -/
inductive Model (E : Env α) (P : Program α) : List (Ended α) → Bank α → Places → Prop where
  | init : Model E P [] (fun _ => none) (fun _ => none)
  | ret {h : List (Ended α)} {S S' : Bank α} {ρ ρ' : Places} {c : Cmd α} {a : Ans α} : Model E P h S ρ → P h = some c →
      c.Ok E S ρ a S' ρ' → Model E P (h ++ [.ret a]) S' ρ'
  | exc {h : List (Ended α)} {S S' : Bank α} {ρ ρ' : Places} {c : Cmd α} {e : Exn} : Model E P h S ρ → P h = some c →
      c.Exc E S ρ e S' ρ' → Model E P (h ++ [.exc e]) S' ρ'

/-- The program respects the preconditions, on lists and positions. -/
def Legal (E : Env α) (P : Program α) : Prop := ∀ h S ρ c, Model E P h S ρ → P h = some c → c.Pre E S ρ

theorem rep_of (hE : E.Good) {P : Program α} (hP : Legal E P) {h : List (Ended α)} (hx : Exec E P h m g) :
    ∃ S ρ, Model E P h S ρ ∧ Rep E m g S ρ := by
  induction hx with
  | init g => exact ⟨_, _, .init, .init, view_init, fun _ _ _ h => nomatch h⟩
  | ret _ hc hrun ih =>
    obtain ⟨S, ρ, hM, hR⟩ := ih
    rcases C92_step hE hR (hP _ _ _ _ hM hc) with ⟨a, g', m', S', ρ', h1, h2, h3⟩ | ⟨e, m', S', ρ', h1, -⟩
    · rw [hrun] at h1; cases h1
      exact ⟨S', ρ', .ret hM hc h2, h3⟩
    · rw [hrun] at h1; cases h1
  | exc _ hc hrun ih =>
    obtain ⟨S, ρ, hM, hR⟩ := ih
    rcases C92_step hE hR (hP _ _ _ _ hM hc) with ⟨a, g', m', S', ρ', h1, -⟩ | ⟨e, m', S', ρ', h1, h2, h3⟩
    · rw [hrun] at h1; cases h1
    · rw [hrun] at h1; cases h1
      exact ⟨S', ρ', .exc hM hc h2, h3⟩

/-- C92: A program that respects the preconditions on lists and positions gets from the
library, after any number of steps, answers it can get from lists and positions; the
containers then hold those lists, and every iterator variable that stands for an
index is, in every field, the iterator at that index. -/
theorem C92_program (hE : E.Good) {P : Program α} (hP : Legal E P) {h : List (Ended α)} (hx : Exec E P h m g) :
    ∃ S ρ, Model E P h S ρ ∧ Reach E m ∧ View E m S ∧
      ∀ r o i, ρ r = some (o, i) → ∃ x, S o = some x ∧ i ≤ x.elems.length ∧ SegTree.nth E o i m = .ok (g r) m := by
  obtain ⟨S, ρ, h1, h2, h3, h4⟩ := rep_of hE hP hx
  exact ⟨S, ρ, h1, h2, h3, h4⟩

/-- C92: and its next step, whatever it is, comes to an end without undefined behaviour. -/
theorem C92_safe (hE : E.Good) {P : Program α} (hP : Legal E P) {h : List (Ended α)} (hx : Exec E P h m g) {c : Cmd α}
    (hc : P h = some c) :
    (∃ a g' m', c.run E g m = .ok (a, g') m' ∧ Exec E P (h ++ [.ret a]) m' g') ∨
    (∃ e m', c.run E g m = .throw e m' ∧ Exec E P (h ++ [.exc e]) m' g) := by
  obtain ⟨S, ρ, hM, hR⟩ := rep_of hE hP hx
  rcases C92_step hE hR (hP _ _ _ _ hM hc) with ⟨a, g', m', S', ρ', h1, -⟩ | ⟨e, m', S', ρ', h1, -⟩
  · exact .inl ⟨a, g', m', h1, .ret hx hc h1⟩
  · exact .inr ⟨e, m', h1, .exc hx hc h1⟩

/-! ### Straight programs, and the hypotheses are met -/

open Classical in
/-- the program that makes the steps `cs` one after the other and stops at an exception -/
noncomputable def straight (cs : List (Cmd α)) : Program α := fun h =>
  if ∀ x ∈ h, ∃ a, x = Ended.ret a then cs[h.length]? else none

/-- each of the steps `cs` respects its precondition after those before it -/
def Chain (E : Env α) : Bank α → Places → List (Cmd α) → Prop
  | _, _, [] => True
  | S, ρ, c :: cs => c.Pre E S ρ ∧ ∀ a S' ρ', c.Ok E S ρ a S' ρ' → Chain E S' ρ' cs

theorem chain_drop {cs : List (Cmd α)} {n : Nat} {c : Cmd α} (h : Chain E S ρ (cs.drop n)) (hc : cs[n]? = some c) :
    c.Pre E S ρ ∧ ∀ a S' ρ', c.Ok E S ρ a S' ρ' → Chain E S' ρ' (cs.drop (n + 1)) := by
  obtain ⟨hn, rfl⟩ := List.getElem?_eq_some_iff.1 hc
  rw [List.drop_eq_getElem_cons hn] at h
  exact h

/-- C92: a straight program each of whose steps is in order on lists and positions is
one the theorems above speak of. -/
theorem C92_straight {cs : List (Cmd α)} (hc : Chain E (fun _ => none) (fun _ => none) cs) : Legal E (straight cs) := by
  have key : ∀ {h S ρ}, Model E (straight cs) h S ρ → (∀ x ∈ h, ∃ a, x = Ended.ret a) → Chain E S ρ (cs.drop h.length) := by
    intro h S ρ hM
    induction hM with
    | init => intro _; exact hc
    | ret _ hp hok ih =>
      intro hall
      have hall' := fun x hx => hall x (List.mem_append_left _ hx)
      unfold straight at hp
      rw [if_pos hall'] at hp
      rw [List.length_append, List.length_singleton]
      exact (chain_drop (ih hall') hp).2 _ _ _ hok
    | @exc h S S' ρ ρ' c e _ _ _ _ => intro hall; obtain ⟨a, h⟩ := hall (.exc e) (by simp); cases h
  intro h S ρ c hM hp
  unfold straight at hp
  split at hp
  · exact (chain_drop (key hM ‹_›) hp).1
  · cases hp

/-- seq 0 is made, 7 and 8 are inserted through iterators, it is moved to seq 1, and the
element is erased through the iterator that was obtained before the move -/
def moves : List (Cmd Nat) :=
  [.call (.new 0 (.empty 5)), .end_ 0 0, .insert 1 0 0 7, .jump 2 1 1, .insert 3 0 2 8, .prev 3, .read 3,
   .call (.new2 1 0 .move), .erase 4 1 3, .begin_ 5 1, .eq 4 5, .read 4]

/-- why the example program is in order -/
theorem moves_chain : Chain demo (fun _ => none) (fun _ => none) moves := by
  have hM : 2 ≤ max_size demo := by decide
  refine ⟨⟨rfl, trivial⟩, ?_⟩
  rintro a S ρ ⟨r, -, ⟨-, x, rfl, rfl⟩, rfl⟩
  refine ⟨⟨_, upd_self⟩, ?_⟩
  rintro a S ρ ⟨-, rfl, x, hx, rfl⟩
  rw [upd_self] at hx; cases hx
  refine ⟨⟨0, rfl, _, upd_self, by simp, ?_⟩, ?_⟩
  · simp; omega
  rintro a S ρ ⟨i, hi, -, ⟨x, x', hx, ⟨-, rfl⟩, rfl⟩, rfl⟩
  cases hi
  rw [upd_self] at hx; cases hx
  refine ⟨⟨0, 0, _, rfl, upd_self, by simp, by simp [ins]⟩, ?_⟩
  rintro a S ρ ⟨-, rfl, o, i, hi, rfl⟩
  cases hi
  refine ⟨⟨1, rfl, _, upd_self, by simp [ins], ?_⟩, ?_⟩
  · simp [ins]; omega
  rintro a S ρ ⟨i, hi, -, ⟨x, x', hx, ⟨-, rfl⟩, rfl⟩, rfl⟩
  cases hi
  rw [upd_self] at hx; cases hx
  refine ⟨⟨0, 1, rfl, by omega⟩, ?_⟩
  rintro a S ρ ⟨-, rfl, o, i, hi, rfl⟩
  cases hi
  refine ⟨⟨0, 0, _, rfl, upd_self, by simp [ins]⟩, ?_⟩
  rintro a S ρ ⟨rfl, rfl, -⟩
  refine ⟨⟨rfl, _, upd_self, trivial⟩, ?_⟩
  rintro a S ρ ⟨r, -, ⟨-, y, x', y', hy, ⟨rfl, rfl⟩, rfl⟩, rfl⟩
  rw [upd_self] at hy; cases hy
  refine ⟨⟨0, rfl, _, upd_self, by simp [Un.Pre, ins]⟩, ?_⟩
  rintro a S ρ ⟨i, hi, -, ⟨x, x', hx, ⟨-, rfl⟩, rfl⟩, rfl⟩
  cases hi
  rw [upd_self] at hx; cases hx
  refine ⟨⟨_, upd_self⟩, ?_⟩
  rintro a S ρ ⟨-, rfl, rfl⟩
  refine ⟨⟨1, 0, 0, rfl, rfl⟩, ?_⟩
  rintro a S ρ ⟨rfl, rfl, -⟩
  exact ⟨⟨1, 0, _, rfl, upd_self, by simp [ins]⟩, fun _ _ _ _ => trivial⟩

-- the hypotheses are met
example : Legal demo (straight moves) := C92_straight moves_chain

/-! ### Two loops -/

end Prog

variable {α : Type}

/-- the loop `for (it = o.begin(); it != o.end();) if (p(*it)) it = o.erase(it); else ++it;` -/
def erase_where_loop (E : Env α) (o : Nat) (p : α → Bool) (it : Iter) : M α Unit := do
  let en ← end_ E o
  if it_ne it en then
    let v ← dereference E it
    if p v then
      let it ← erase E o it
      erase_where_loop E o p it
    else
      let it ← move_next_iterator E it
      erase_where_loop E o p it
  else pure ()
partial_fixpoint

def erase_where (E : Env α) (o : Nat) (p : α → Bool) : M α Unit := do
  let it ← begin_ E o
  erase_where_loop E o p it

/-- the loop `for (it = o.begin(); it != o.end(); ++it) if (p(*it)) { it = o.insert(it, w); ++it; }` -/
def insert_where_loop (E : Env α) (o : Nat) (p : α → Bool) (w : α) (it : Iter) : M α Unit := do
  let en ← end_ E o
  if it_ne it en then
    let v ← dereference E it
    if p v then
      let it ← insert E o it w
      let it ← move_next_iterator E it
      let it ← move_next_iterator E it
      insert_where_loop E o p w it
    else
      let it ← move_next_iterator E it
      insert_where_loop E o p w it
  else pure ()
partial_fixpoint

def insert_where (E : Env α) (o : Nat) (p : α → Bool) (w : α) : M α Unit := do
  let it ← begin_ E o
  insert_where_loop E o p w it

variable {E : Env α} {m m' : Mem α} {o i : Nat} {xs : List α} {it : Iter} {p : α → Bool}

/-- the top of both loops -/
theorem loop_top (hE : E.Good) (hr : Reach E m) (hc : Contents E o m xs) (hi : i ≤ xs.length) (hn : nth E o i m = .ok it m) :
    ∃ en, end_ E o m = .ok en m ∧ (it_ne it en = true ↔ i ≠ xs.length) := by
  obtain ⟨-, ⟨en, h1, h2⟩, -⟩ := C18_ends hE hr hc
  exact ⟨en, h1, (C20_compare hE hr hc hi (Nat.le_refl _) hn h2).2.1⟩

theorem erase_where_c (hE : E.Good) (p : α → Bool) : ∀ (zs ys : List α) {m : Mem α} {it : Iter}, Reach E m →
    Contents E o m (ys ++ zs) → nth E o ys.length m = .ok it m →
    ∃ m', erase_where_loop E o p it m = .ok () m' ∧ Contents E o m' (ys ++ zs.filter (fun v => !p v)) ∧ Via E o m m' := by
  intro zs
  induction zs with
  | nil =>
    intro ys m it hr hc hn
    rw [List.append_nil] at hc
    obtain ⟨en, h1, h2⟩ := loop_top hE hr hc (Nat.le_refl _) hn
    refine ⟨m, ?_, by simpa using hc, .refl _⟩
    rw [erase_where_loop, bind_ok h1, if_neg (by rw [h2]; simp)]
    rfl
  | cons z zs ih =>
    intro ys m it hr hc hn
    have hlt : ys.length < (ys ++ z :: zs).length := by simp
    obtain ⟨en, h1, h2⟩ := loop_top hE hr hc (Nat.le_of_lt hlt) hn
    obtain ⟨-, -, it', h3, h4⟩ := (C05_access hE hr hc).1 hlt
    rw [hn] at h3; cases h3
    have hz : (ys ++ z :: zs)[ys.length] = z := by simp
    rw [hz] at h4
    rw [erase_where_loop, bind_ok h1, if_pos (h2.2 (Nat.ne_of_lt hlt)), bind_ok h4]
    by_cases hp : p z = true
    · rw [if_pos hp]
      rcases Via.call hE hr hc (.erase ys.length) (fun _ => hlt) with ⟨r, m1, al, x', h5, ⟨-, rfl⟩, h6, h7⟩ | ⟨_, _, _, _, _, h, _⟩
      · obtain ⟨jt, h5, -⟩ := pos_inv h5
        rw [bind_ok hn] at h5
        rw [show (ys ++ z :: zs).eraseIdx ys.length = ys ++ zs by
          rw [List.eraseIdx_append_of_length_le (Nat.le_refl _)]; simp] at h6
        have h8 := (C03_erase hE hr hc hlt hn h5).1
        obtain ⟨m2, h9, h10, h11⟩ := ih ys (h7.reach hr) h6 h8
        refine ⟨m2, by rw [bind_ok h5]; exact h9, ?_, h7.trans h11⟩
        rwa [List.filter_cons_of_neg (by simpa using hp)]
      · exact h.elim
    · rw [if_neg hp]
      obtain ⟨jt, h5, h6⟩ := C18_next hE hr hc hlt hn
      obtain ⟨m2, h9, h10, h11⟩ := ih (ys ++ [z]) hr (by simpa using hc) (by simpa using h6)
      refine ⟨m2, by rw [bind_ok h5]; exact h9, ?_, h11⟩
      rw [List.filter_cons_of_pos (by simpa using hp)]
      simpa using h10

/-- C92: the usual loop that erases through an iterator erases exactly the elements that
satisfy `p`, for every container and every predicate; it never throws. -/
theorem C92_erase_loop (hE : E.Good) (hr : Reach E m) (hc : Contents E o m xs) (p : α → Bool) :
    ∃ m', erase_where E o p m = .ok () m' ∧ Contents E o m' (xs.filter (fun v => !p v)) ∧ Reach E m' ∧
      ∀ q ys, q ≠ o → Contents E q m ys → Unchanged E q m m' := by
  obtain ⟨⟨b, h1, h2⟩, -, -⟩ := C18_ends hE hr hc
  obtain ⟨m', h3, h4, h5⟩ := erase_where_c hE p xs [] hr hc h2
  exact ⟨m', (bind_ok h1).trans h3, h4, h5.reach hr, fun q ys => h5.others hE hr q ys⟩

theorem insert_where_c (hE : E.Good) (p : α → Bool) (w : α) : ∀ (zs ys : List α) {m : Mem α} {it : Iter}, Reach E m →
    Contents E o m (ys ++ zs) → nth E o ys.length m = .ok it m → (ys ++ zs).length + zs.countP p ≤ max_size E →
    (∃ m', insert_where_loop E o p w it m = .ok () m' ∧
      Contents E o m' (ys ++ zs.flatMap fun v => if p v then [w, v] else [v]) ∧ Via E o m m') ∨
    (∃ e m' k, insert_where_loop E o p w it m = .throw e m' ∧ Blame E [w] e ∧ k < zs.length ∧
      Contents E o m' (ys ++ ((zs.take k).flatMap fun v => if p v then [w, v] else [v]) ++ zs.drop k) ∧ Via E o m m') := by
  intro zs
  induction zs with
  | nil =>
    intro ys m it hr hc hn _
    rw [List.append_nil] at hc
    obtain ⟨en, h1, h2⟩ := loop_top hE hr hc (Nat.le_refl _) hn
    refine .inl ⟨m, ?_, by simpa using hc, .refl _⟩
    rw [insert_where_loop, bind_ok h1, if_neg (by rw [h2]; simp)]
    rfl
  | cons z zs ih =>
    intro ys m it hr hc hn hsz
    have hlt : ys.length < (ys ++ z :: zs).length := by simp
    obtain ⟨en, h1, h2⟩ := loop_top hE hr hc (Nat.le_of_lt hlt) hn
    obtain ⟨-, -, it', h3, h4⟩ := (C05_access hE hr hc).1 hlt
    rw [hn] at h3; cases h3
    have hz : (ys ++ z :: zs)[ys.length] = z := by simp
    rw [hz] at h4
    rw [insert_where_loop, bind_ok h1, if_pos (h2.2 (Nat.ne_of_lt hlt)), bind_ok h4]
    simp only [List.length_append, List.length_cons] at hsz
    by_cases hp : p z = true
    · rw [List.countP_cons_of_pos hp] at hsz
      rw [if_pos hp]
      have hs1 : (ys ++ z :: zs).length + 1 ≤ max_size E := by simp only [List.length_append, List.length_cons]; omega
      rcases Via.call hE hr hc (.insert ys.length w) (fun _ => ⟨Nat.le_of_lt hlt, hs1⟩) with
        ⟨r, m1, al, x', h5, ⟨-, rfl⟩, h6, h7⟩ | ⟨e, m1, al, x', h5, ⟨hb, rfl⟩, h6, h7⟩
      · obtain ⟨jt, h5, -⟩ := pos_inv h5
        rw [bind_ok hn] at h5
        have h6 : Contents E o m1 (ys ++ w :: z :: zs) := by simpa [ins] using h6
        have hr1 := h7.reach hr
        obtain ⟨kt, k1, k2⟩ := C18_next hE hr1 h6 (by simp) (C03_insert hE hr hc (Nat.le_of_lt hlt) hn hs1 (.inl h5)).1
        obtain ⟨lt, l1, l2⟩ := C18_next hE hr1 h6 (by simp) k2
        rw [bind_ok h5, bind_ok k1, bind_ok l1]
        rcases ih (ys ++ [w, z]) hr1 (by simpa using h6) (by simpa using l2) (by simp; omega) with
          ⟨m2, h9, h10, h11⟩ | ⟨e, m2, k, h9, hb, hk, h10, h11⟩
        · exact .inl ⟨m2, h9, by simpa [hp] using h10, h7.trans h11⟩
        · exact .inr ⟨e, m2, k + 1, h9, hb, by simpa using hk, by simpa [hp] using h10, h7.trans h11⟩
      · have h5 := pos_inv_throw h5
        rw [bind_ok hn] at h5
        exact .inr ⟨e, m1, 0, bind_throw h5, hb, by simp, by simpa using h6, h7⟩
    · rw [List.countP_cons_of_neg hp] at hsz
      rw [if_neg hp]
      obtain ⟨jt, h5, h6⟩ := C18_next hE hr hc hlt hn
      rw [bind_ok h5]
      rcases ih (ys ++ [z]) hr (by simpa using hc) (by simpa using h6) (by simp; omega) with
        ⟨m2, h9, h10, h11⟩ | ⟨e, m2, k, h9, hb, hk, h10, h11⟩
      · exact .inl ⟨m2, h9, by simpa [hp] using h10, h11⟩
      · exact .inr ⟨e, m2, k + 1, h9, hb, by simpa using hk, by simpa [hp] using h10, h11⟩

/-- C92: the loop that inserts `w` in front of every element that satisfies `p`: it
returns with exactly that, or throws, with exactly that done up to some element. -/
theorem C92_insert_loop (hE : E.Good) (hr : Reach E m) (hc : Contents E o m xs) (p : α → Bool) (w : α)
    (hsz : xs.length + xs.countP p ≤ max_size E) :
    (∃ m', insert_where E o p w m = .ok () m' ∧ Reach E m' ∧
      Contents E o m' (xs.flatMap fun v => if p v then [w, v] else [v])) ∨
    (∃ e m' k, insert_where E o p w m = .throw e m' ∧ Reach E m' ∧ Blame E [w] e ∧ k < xs.length ∧
      Contents E o m' (((xs.take k).flatMap fun v => if p v then [w, v] else [v]) ++ xs.drop k)) := by
  obtain ⟨⟨b, h1, h2⟩, -, -⟩ := C18_ends hE hr hc
  rcases insert_where_c hE p w xs [] hr hc h2 hsz with ⟨m', h3, h4, h5⟩ | ⟨e, m', k, h3, hb, hk, h4, h5⟩
  · exact .inl ⟨m', (bind_ok h1).trans h3, h5.reach hr, h4⟩
  · exact .inr ⟨e, m', k, (bind_ok h1).trans h3, h5.reach hr, hb, hk, h4⟩

-- the hypotheses are met: a tree of height 3, and a predicate that holds of some elements
example : ∃ (m m' : Mem Nat), Reach demo m ∧ Contents demo 0 m eight ∧
    erase_where demo 0 (fun v => v % 3 == 0) m = .ok () m' ∧ eight.length + eight.countP (fun v => v % 3 == 0) ≤ max_size demo := by
  obtain ⟨m, h1, h2, -⟩ := demo_eight
  obtain ⟨m', h3, -⟩ := C92_erase_loop demo_good h1 h2 (fun v => v % 3 == 0)
  exact ⟨m, m', h1, h2, h3, by decide⟩

end SegTree
