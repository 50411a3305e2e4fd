/-
  Clients: programs that use containers, one call after the other, each call chosen
  after the results of those before it.
-/
import Verif.Thread.Lent
set_option autoImplicit false

namespace SegTree

variable {α : Type}

/-! ### The surroundings of a thread -/

/-- What may differ from thread to thread: the answers of the allocator, which copies of
elements throw, and the garbage in fresh memory. -/
structure Site (α : Type) where
  oracle : Nat → Nat
  cthrow : Nat → α → Bool
  junk : Nat → Node

/-- the same template arguments and element type, elsewhere -/
def Env.on (E : Env α) (X : Site α) : Env α := { E with oracle := X.oracle, cthrow := X.cthrow, junk := X.junk }

/-! ### Clients -/

/-- what a call has done: a result or an exception -/
abbrev Out (α : Type) := Ret α ⊕ Exn

/-- A program: the next call, if any, given the results of the calls so far (exceptions
are caught). -/
abbrev Client (α : Type) := List (Out α) → Option (Op α)

/-- the first `K` calls, by a thread among others -/
noncomputable def Client.among (E : Env α) (c : Client α) : Nat → List (Out α) → T α (List (Out α))
  | 0, h => pure h
  | K + 1, h => match c h with
    | none => pure h
    | some op => do
      let r ← T.attempt (op.among E)
      Client.among E c K (h ++ [r])

/-- the first `K` calls, alone, beside lent containers -/
def Client.beside (E : Env α) (L : Mem α) (c : Client α) : Nat → List (Out α) → M α (List (Out α))
  | 0, h => pure h
  | K + 1, h => match c h with
    | none => pure h
    | some op => do
      let r ← M.attempt (op.beside E L)
      Client.beside E L c K (h ++ [r])

/-- The first `K` calls of the client, made by somebody who sees the containers `S` and
may only read those of `lent`: all are made within their preconditions, whatever the
results, and none may change a lent container. -/
def Client.Legal (E : Env α) (lent : Nat → Prop) (c : Client α) : Nat → List (Out α) → Bank α → Prop
  | 0, _, _ => True
  | K + 1, h, S => match c h with
    | none => True
    | some op => op.Pre E S ∧ (∀ o ∈ op.writes, ¬ lent o) ∧
      (∀ r S', op.Ok E S r S' → Client.Legal E lent c K (h ++ [.inl r]) S') ∧
      (∀ e S', op.Exc E S e S' → Client.Legal E lent c K (h ++ [.inr e]) S')

/-- What the specification allows the first `K` calls of the client to result in: from
the results `h` and the containers `S` to the results `h'` and the containers `S'`. -/
inductive Client.Run (E : Env α) (c : Client α) : Nat → List (Out α) → Bank α → List (Out α) → Bank α → Prop
  | stop (h : List (Out α)) (S : Bank α) : Client.Run E c 0 h S h S
  | done (K : Nat) (h : List (Out α)) (S : Bank α) : c h = none → Client.Run E c (K + 1) h S h S
  | ret {K : Nat} {h h' : List (Out α)} {S S1 S' : Bank α} {op : Op α} {r : Ret α} : c h = some op →
      op.Ok E S r S1 → Client.Run E c K (h ++ [.inl r]) S1 h' S' → Client.Run E c (K + 1) h S h' S'
  | exc {K : Nat} {h h' : List (Out α)} {S S1 S' : Bank α} {op : Op α} {e : Exn} : c h = some op →
      op.Exc E S e S1 → Client.Run E c K (h ++ [.inr e]) S1 h' S' → Client.Run E c (K + 1) h S h' S'

variable {E : Env α} {L m : Mem α} {Z : Loc → Prop} {X : Site α}

instance Thr.client (c : Client α) (K : Nat) (h : List (Out α)) : Thr L (c.beside E L K h) (c.among E K h) := by
  induction K generalizing h with
  | zero => unfold Client.beside Client.among; infer_instance
  | succ K ih =>
    unfold Client.beside Client.among
    split
    · infer_instance
    · infer_instance

instance Causal.client (c : Client α) (K : Nat) (h : List (Out α)) : Causal (c.among E K h) := by
  induction K generalizing h with
  | zero => unfold Client.among; infer_instance
  | succ K ih =>
    unfold Client.among
    split
    · infer_instance
    · infer_instance

/-- the containers a call makes -/
def Op.makes : Op α → List Nat
  | .new o _ | .new2 o _ _ => [o]
  | _ => []

theorem Paced.op [Zone E Z] {op : Op α} (h : ∀ o ∈ op.makes, Z (.obj o)) : Paced Z (op.among E) := by
  cases op with
  | new o c =>
    have : Named Z o := ⟨h o (by simp [Op.makes])⟩
    unfold Op.among; infer_instance
  | new2 o p c =>
    have : Named Z o := ⟨h o (by simp [Op.makes])⟩
    unfold Op.among; infer_instance
  | dtor o => unfold Op.among Thread.Un.unit; paced
  | un => unfold Op.among; infer_instance
  | bin => unfold Op.among; infer_instance

theorem Paced.client [Zone E Z] {c : Client α} (hc : ∀ h op, c h = some op → ∀ o ∈ op.makes, Z (.obj o)) (K : Nat) (h : List (Out α)) :
    Paced Z (c.among E K h) := by
  induction K generalizing h with
  | zero => unfold Client.among; infer_instance
  | succ K ih =>
    unfold Client.among
    split
    · infer_instance
    · rename_i op e
      have := Paced.op (E := E) (hc h op e)
      infer_instance

/-! ### What a client does alone -/

/-- the allocator never hands out lent memory -/
def Spares (E : Env α) (L : Mem α) : Prop := ∀ n, L.cell (.heap (E.oracle n)) = none

theorem Ext.apart {m' : Mem α} {S S' S0 : Bank α} (hx : Ext E m m') (hsp : Spares E L) (hd : ∀ l, m.cell l ≠ none → L.cell l = none)
    (hI : Inv E S m) (hI' : Inv E S' m') (h0 : Inv E S0 L) (hS : ∀ q, S0 q ≠ none → S' q = S q) :
    ∀ l, m'.cell l ≠ none → L.cell l = none := by
  intro l hl
  cases l with
  | heap a =>
    rcases hx.live a (Option.isSome_iff_ne_none.2 hl) with h | ⟨k, -, -, e⟩
    · exact hd _ (Option.isSome_iff_ne_none.1 h)
    · rw [← e]; exact hsp k
  | obj o =>
    by_contra h
    have ho := (h0.lives o).1 (Option.isSome_iff_ne_none.2 h)
    have h1 := (hI'.lives o).1 (Option.isSome_iff_ne_none.2 hl)
    rw [hS o ho] at h1
    exact h (hd _ (Option.isSome_iff_ne_none.1 ((hI.lives o).2 h1)))

theorem client_c (hE : E.Good) {S0 : Bank α} (h0 : Inv E S0 L) (hsp : Spares E L) (c : Client α) (K : Nat) :
    ∀ (h : List (Out α)) {S : Bank α} {m : Mem α}, Inv E S m → (∀ l, m.cell l ≠ none → L.cell l = none) →
      c.Legal E (fun o => S0 o ≠ none) K h (S.join S0) →
      ∃ h' S' m', c.beside E L K h m = .ok h' m' ∧ c.Run E K h (S.join S0) h' (S'.join S0) ∧ Inv E S' m' ∧
        ∀ l, m'.cell l ≠ none → L.cell l = none := by
  induction K with
  | zero => exact fun h S m hI hd _ => ⟨h, S, m, rfl, .stop _ _, hI, hd⟩
  | succ K ih =>
    intro h S m hI hd hl
    unfold Client.Legal at hl
    unfold Client.beside
    cases hc : c h with
    | none => exact ⟨h, S, m, rfl, .done _ _ _ hc, hI, hd⟩
    | some op =>
      rw [hc] at hl
      obtain ⟨hp, hw, hl1, hl2⟩ := hl
      have hs := beside_c hE hI h0 hd hp (fun o ho => by have := hw o ho; simpa using this)
      have hx := beside_ext (E := E) (L := L) op m
      dsimp only
      unfold Spec at hs
      cases e : op.beside E L m with
      | ok r m1 =>
        rw [e] at hs
        obtain ⟨S1, h1, hI1, hq⟩ := hs
        have hd1 := (hx.1 r m1 e).apart hsp hd hI hI1 h0 hq
        obtain ⟨h', S', m', h2, h3, h4, h5⟩ := ih (h ++ [.inl r]) hI1 hd1 (hl1 r _ h1)
        refine ⟨h', S', m', ?_, .ret hc h1 h3, h4, h5⟩
        rw [bind_ok (v := .inl r) (m' := m1) (by unfold M.attempt; rw [e])]
        exact h2
      | throw r m1 =>
        rw [e] at hs
        obtain ⟨S1, h1, hI1, hq⟩ := hs
        have hd1 := (hx.2 r m1 e).apart hsp hd hI hI1 h0 hq
        obtain ⟨h', S', m', h2, h3, h4, h5⟩ := ih (h ++ [.inr r]) hI1 hd1 (hl2 r _ h1)
        refine ⟨h', S', m', ?_, .exc hc h1 h3, h4, h5⟩
        rw [bind_ok (v := .inr r) (m' := m1) (by unfold M.attempt; rw [e])]
        exact h2
      | _ => rw [e] at hs; exact hs.elim

/-! ### Elsewhere -/

theorem Env.Good.on (h : E.Good) (X : Site α) : (E.on X).Good := ⟨h.triv, h.nothrow, h.base, h.wpos⟩

theorem lay_on {w : Nat} : {k p i : Nat} → (t : Tree α k) → lay (E.on X) w p i t = lay E w p i t
  | 0, _, _, _ => rfl
  | k + 1, p, i, t => by
    rw [lay_succ, lay_succ]
    have : ∀ (l : List (Tree α k)) (j : Nat), lays (E.on X) w t.addr j l = lays E w t.addr j l := by
      intro l
      induction l with
      | nil => exact fun _ => rfl
      | cons c l ih => intro j; rw [lays_cons, lays_cons, lay_on c, ih]
    rw [this]

theorem Tree.WF.on : {k : Nat} → {t : Tree α k} → t.WF E → t.WF (E.on X)
  | 0, _, h => h
  | _ + 1, _, h => by
    rw [Tree.wf_succ] at h ⊢
    exact ⟨h.1, h.2.1, fun c hc => (h.2.2 c hc).on⟩

theorem Tree.Root.on : {k : Nat} → {t : Tree α k} → t.Root E → t.Root (E.on X)
  | 0, _, h => h
  | _ + 1, _, h => by
    rw [Tree.root_succ] at h ⊢
    exact ⟨h.1, h.2.1, fun c hc => (h.2.2 c hc).on⟩

theorem St.Ok.on {s : St α} (h : s.Ok E) : s.Ok (E.on X) := by
  refine ⟨h.1, ?_⟩
  have := h.2
  cases s with
  | nil => trivial
  | tree t => exact Tree.Root.on this

theorem cont_on {o al : Nat} (s : St α) : cont (E.on X) o al s = cont E o al s := by
  unfold cont
  cases s with
  | nil => rfl
  | tree t => show lay _ _ _ _ t + _ = lay _ _ _ _ t + _; rw [lay_on]; rfl

theorem Rep.on {S : Bank α} {A : Asrt α} (h : Rep E S A) (X : Site α) : Rep (E.on X) S A := by
  induction h with
  | nil => exact .nil
  | @cons S A o al s hr hn hs ih =>
    rw [← cont_on (X := X)]
    exact .cons ih hn hs.on

theorem Inv.on {S : Bank α} (h : Inv E S m) (X : Site α) : Inv (E.on X) S m := by
  obtain ⟨A, hR, H⟩ := h; exact ⟨A, hR.on X, H⟩

theorem Inv.off {S : Bank α} (h : Inv (E.on X) S m) : Inv E S m := h.on ⟨E.oracle, E.cthrow, E.junk⟩

end SegTree
