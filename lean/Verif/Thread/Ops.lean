/-
  The calls of the interface (`Op`, Props/Spec.lean) in a thread among others.
-/
import Verif.Thread.Causal
import Verif.Thread.Look
set_option autoImplicit false

namespace SegTree

variable {α : Type} {E : Env α} {Z : Loc → Prop} {L : Mem α}

/-! ### the same as alone -/

instance Thr.opUn (o : Nat) (c : Un α) : Thr L (c.run E o) (c.among E o) := by
  cases c <;> (unfold Un.run Un.among; first | (unfold Un.unit Thread.Un.unit; thr) | (unfold Un.pos Thread.Un.pos; thr) | (unfold Un.val Thread.Un.val; thr) | (unfold Un.num Thread.Un.num; thr) | (unfold Un.flag Thread.Un.flag; thr))
instance Thr.opBin (o p : Nat) (c : Bin α) : Thr L (c.run E o p) (c.among E o p) := by
  cases c <;> (unfold Bin.run Bin.among; first | (unfold Un.unit Thread.Un.unit; thr) | (unfold Un.pos Thread.Un.pos; thr) | (unfold Un.val Thread.Un.val; thr) | (unfold Un.num Thread.Un.num; thr) | (unfold Un.flag Thread.Un.flag; thr))
instance Thr.opNew (o : Nat) (c : New α) : Thr L (c.run E o) (c.among E o) := by
  cases c <;> (unfold New.run New.among Un.unit Thread.Un.unit; thr)
instance Thr.opNew2 (o p : Nat) (c : New2) : Thr L (c.run E o p) (c.among E o p) := by
  cases c <;> (unfold New2.run New2.among Un.unit Thread.Un.unit; thr)
instance Thr.op (op : Op α) : Thr L (op.run E) (op.among E) := by
  cases op <;> (unfold Op.run Op.among; first | infer_instance | (unfold Un.unit Thread.Un.unit; thr))

/-! ### from one access to the next -/

instance Paced.opUn (o : Nat) (c : Un α) [Zone E Z] : Paced Z (c.among E o) := by
  cases c <;> (unfold Un.among; first | (unfold Thread.Un.unit; paced) | (unfold Thread.Un.pos; paced) | (unfold Thread.Un.val; paced) | (unfold Thread.Un.num; paced) | (unfold Thread.Un.flag; paced))
instance Paced.opBin (o p : Nat) (c : Bin α) [Zone E Z] : Paced Z (c.among E o p) := by
  cases c <;> (unfold Bin.among; first | (unfold Thread.Un.unit; paced) | (unfold Thread.Un.pos; paced) | (unfold Thread.Un.val; paced) | (unfold Thread.Un.num; paced) | (unfold Thread.Un.flag; paced))
instance Paced.opNew (o : Nat) (c : New α) [Zone E Z] [Named Z o] : Paced Z (c.among E o) := by
  cases c <;> (unfold New.among Thread.Un.unit; paced)
instance Paced.opNew2 (o p : Nat) (c : New2) [Zone E Z] [Named Z o] : Paced Z (c.among E o p) := by
  cases c <;> (unfold New2.among Thread.Un.unit; paced)

/-! ### nothing depends on what is found later -/

instance Causal.opUn (o : Nat) (c : Un α) : Causal (c.among E o) := by
  cases c <;> (unfold Un.among; first | (unfold Thread.Un.unit; causal) | (unfold Thread.Un.pos; causal) | (unfold Thread.Un.val; causal) | (unfold Thread.Un.num; causal) | (unfold Thread.Un.flag; causal))
instance Causal.opBin (o p : Nat) (c : Bin α) : Causal (c.among E o p) := by
  cases c <;> (unfold Bin.among; first | (unfold Thread.Un.unit; causal) | (unfold Thread.Un.pos; causal) | (unfold Thread.Un.val; causal) | (unfold Thread.Un.num; causal) | (unfold Thread.Un.flag; causal))
instance Causal.opNew (o : Nat) (c : New α) : Causal (c.among E o) := by
  cases c <;> (unfold New.among Thread.Un.unit; causal)
instance Causal.opNew2 (o p : Nat) (c : New2) : Causal (c.among E o p) := by
  cases c <;> (unfold New2.among Thread.Un.unit; causal)
instance Causal.op (op : Op α) : Causal (op.among E) := by
  cases op <;> (unfold Op.among; first | infer_instance | (unfold Thread.Un.unit; causal))

/-! ### only reading -/

/-- the calls that are `const` in every container they name -/
def Op.isConst : Op α → Bool
  | .un _ c => match c with
    | .size | .empty | .getAlloc | .at_ _ | .index _ | .front | .back | .nth _ | .begin_ | .end_ | .penultimate => true
    | _ => false
  | .bin _ _ c => match c with
    | .eq _ | .ne _ | .lt _ | .le _ | .gt _ | .ge _ => true
    | _ => false
  | _ => false

theorem Looks.op {op : Op α} (h : op.isConst = true) : Looks (op.run E) (op.among E) := by
  unfold Op.isConst at h
  split at h
  · split at h <;> first | (cases h; done) | (unfold Op.run Op.among Un.run Un.among; first | (unfold Un.pos Thread.Un.pos; looks) | (unfold Un.val Thread.Un.val; looks) | (unfold Un.num Thread.Un.num; looks) | (unfold Un.flag Thread.Un.flag; looks))
  · split at h <;> first | (cases h; done) | (unfold Op.run Op.among Bin.run Bin.among; first | (unfold Un.flag Thread.Un.flag; looks))
  · cases h

end SegTree
