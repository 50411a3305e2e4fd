/-
  What a call does beside lent containers (`Op.beside`), in terms of lists.
-/
import Verif.Thread.Beside
import Verif.Proof.Supply
import Verif.Proof.Raises
set_option autoImplicit false
set_option linter.unusedSimpArgs false

namespace SegTree

variable {α β γ : Type} {E : Env α} {g gL : Log} {F FL : Asrt α} {m L L' : Mem α}

theorem glance_ok {x : M α β} {v : β} (h : x L = .ok v L') : M.glance L x m = .ok v m := by
  unfold M.glance M.within; rw [h]

/-! ### copying from a lent container -/

def LentR (b : Nat) (s2 : St α) (st : Iter) (vs : List α) (X : Asrt α) : Prop :=
  X = 0 ∧ ∃ i, s2.At i st ∧ i ≤ b ∧ vs = (s2.elems.take b).drop i
def LentR1 (b : Nat) (s2 : St α) (st : Iter) (vs : List α) (X : Asrt α) : Prop :=
  X = 0 ∧ ∃ i, s2.At i st ∧ i < b ∧ vs = (s2.elems.take b).drop (i + 1)

theorem lentSrc_ok {o2 al2 b : Nat} {s2 : St α} {last : Iter} (hs2 : s2.Ok E) (hl : s2.At b last)
    (HL : Holds gL (cont E o2 al2 s2 + FL) L) :
    SrcOk E (CopyThrows E) (lentSrc E L last) (LentR b s2) (LentR1 b s2) where
  done := by
    rintro st vs X ⟨rfl, i, ha, hi, rfl⟩
    have hb := hl.le
    show decide (st.pos = last.pos) = _
    rw [ha.pos, hl.pos]
    by_cases h : i = b
    · subst h; simp
    · have : ((s2.elems.take b).drop i).length ≠ 0 := by simp; omega
      cases hc : (s2.elems.take b).drop i with
      | nil => simp [hc] at this
      | cons x y => simp [h]
  read := by
    rintro st v vs X g F m ⟨rfl, i, ha, hi, hv⟩ H
    have hb := hl.le
    obtain ⟨hib, rfl, hvs⟩ := drop_cons_info hb hv
    refine Spec.step (glance_ok (dereference_c hs2 ha (by omega) HL)) ((Mk.copy _).spec.mono ?_ (fun _ _ h => h))
    rintro u m' ⟨rfl, ht⟩
    exact ⟨rfl, _, ⟨rfl, i, ha, hib, hvs⟩, ht.holds H⟩
  next := by
    rintro st vs X g F m ⟨rfl, i, ha, hi, rfl⟩ H
    have hb := hl.le
    obtain ⟨it', e, ha'⟩ := move_next_c hs2 ha (by omega) HL
    exact ⟨it', glance_ok e, rfl, i + 1, ha', hi, rfl⟩

theorem lentSrc_mid {b k : Nat} {s2 : St α} {X : Asrt α} {vs : List α} {e : Exn}
    (h : SrcMid (LentR b s2) (LentR1 b s2) vs k e X) : X = 0 := by
  obtain ⟨st, v, ws, -, h⟩ := h
  rcases h with h | h <;> exact h.2.1

theorem copy_assign_alloc_lent_c {o o2 al al2 : Nat} {s s2 : St α} (hs : s.Ok E)
    (hn : E.pocca = true → ¬ SameAlloc E al al2 → s.elems ≠ [] ∨ E.nullFree = true)
    (HL : Holds gL (cont E o2 al2 s2 + FL) L) (H : Holds g (cont E o al s + F) m) :
    ∃ m' s', copy_assign_alloc_lent E L o o2 m = .ok () m' ∧ s'.Ok E ∧
      (¬ (E.pocca = true ∧ ¬ SameAlloc E al al2) → s'.elems = s.elems) ∧
      ((E.pocca = true ∧ ¬ SameAlloc E al al2) → s'.elems = []) ∧
      Holds g (cont E o (if E.pocca then al2 else al) s' + F) m' := by
  unfold copy_assign_alloc_lent
  by_cases hp : E.pocca = true
  · rw [if_pos hp, if_pos hp]
    rw [bind_ok (rdObj_c H), bind_ok (glance_ok (rdObj_c HL)), St.obj_al, St.obj_al, St.obj_nal]
    by_cases hw : E.acls al = E.acls al2
    · rw [if_neg (by simpa using hw)]
      obtain ⟨m1, e1, H1⟩ := relabel_c hw H
      refine ⟨m1, s, ?_, hs, fun _ => rfl, fun h => absurd hw h.2, H1⟩
      show (rdObj o >>= _) m = _
      rw [bind_ok (rdObj_c H)]; exact e1
    · rw [if_pos hw]
      obtain ⟨m1, e1, H1⟩ := clear_c hs (hn hp hw) H
      show ∃ m' s', (clear E o >>= fun _ => rdObj o >>= _) m = _ ∧ _
      rw [bind_ok e1, bind_ok (rdObj_c H1)]
      rw [cont_nil] at H1
      obtain ⟨m2, e2, H2⟩ := wrObj_ok ({ (St.nil : St α).obj al with ealloc := al2, nalloc := al2 } : SeqObj) H1
      refine ⟨m2, .nil, e2, St.Ok.nil (by have := hs.1; omega), fun h => absurd ⟨hp, hw⟩ h, fun _ => rfl, ?_⟩
      rw [cont_nil]; exact H2
  · rw [if_neg hp, if_neg hp]
    exact ⟨m, s, rfl, hs, fun _ => rfl, fun h => absurd h.1 hp, H⟩

/-- the calls that may name a lent container second -/
def Bin.copying : Bin α → Bool
  | .assignCopy | .insertRange .. | .assignRange .. => true
  | _ => false
/-- the constructors that may name a lent container -/
def New2.copying : New2 → Bool
  | .copy | .copyAlloc _ | .range .. => true
  | _ => false

theorem bin_lent_c {o o2 al al2 : Nat} {s s2 : St α} (hE : E.Good) (c : Bin α) (hc : c.copying = true) (hs : s.Ok E) (hs2 : s2.Ok E)
    (hne : o ≠ o2) (hp : c.Pre E ⟨al, s.elems⟩ ⟨al2, s2.elems⟩) (HL : Holds gL (cont E o2 al2 s2 + FL) L)
    (H : Holds g (cont E o al s + F) m) :
    Spec (c.lent E L o o2) m
      (fun r m' => ∃ s' al' g', s'.Ok E ∧
        c.Ok E ⟨al, s.elems⟩ ⟨al2, s2.elems⟩ r ⟨al', s'.elems⟩ ⟨al2, s2.elems⟩ ∧ Holds g' (cont E o al' s' + F) m')
      (fun e m' => ∃ s' al' g', s'.Ok E ∧
        c.Exc E ⟨al, s.elems⟩ ⟨al2, s2.elems⟩ e ⟨al', s'.elems⟩ ⟨al2, s2.elems⟩ ∧ Holds g' (cont E o al' s' + F) m') := by
  have z : ∀ {s' : St α} {al' : Nat}, cont E o al' s' + (0 + F) = cont E o al' s' + F := fun {_ _} => by rw [zero_add]
  cases c with
  | assignCopy =>
    show Spec (Un.unit (if o ≠ o2 then _ else _)) m _ _
    rw [if_pos hne]
    obtain ⟨m1, s1, e1, hs1, hx1, hx2, H1⟩ := copy_assign_alloc_lent_c hs hp HL H
    obtain ⟨fi, hfi⟩ := St.At.exists hs2 (Nat.zero_le _)
    obtain ⟨la, hla⟩ := St.At.exists hs2 (Nat.le_refl _)
    refine Spec.unit' (Spec.step e1 (Spec.step (glance_ok (find_first_c hs2 hfi HL)) (Spec.step (glance_ok (find_end_c hs2 hla HL))
      ((assign_range_c (X := 0) (vs := s2.elems) hE (lentSrc_ok hs2 hla HL) hs1
        ⟨rfl, 0, hfi, Nat.zero_le _, by simp⟩ hs2.1 (H1.eqv z.symm)).mono (fun _ _ h => h) ?_)))) ?_
    · rintro e m' ⟨s', X', g', k, hk, h1, h2, hX, ht, H'⟩
      cases lentSrc_mid hX
      exact ⟨s', _, g', h1, ⟨ht.blame, rfl, k, hk, s1.elems, hx1, hx2, by rw [h2]⟩, H'.eqv z⟩
    · rintro it' m' ⟨s', X', st', r, h1, h2, ⟨rfl, -⟩, H'⟩
      exact ⟨s', _, _, h1, ⟨rfl, by rw [h2], rfl⟩, H'.eqv z⟩
  | insertRange i a b =>
    obtain ⟨hi, hab, hb, hW⟩ := hp
    obtain ⟨it, ha⟩ := St.At.exists hs hi
    obtain ⟨fi, hfi⟩ := St.At.exists hs2 (Nat.le_trans hab hb)
    obtain ⟨la, hla⟩ := St.At.exists hs2 hb
    refine Spec.pos' (Spec.step (nth_c hs ha H) (Spec.step (glance_ok (nth_c hs2 hfi HL)) (Spec.step (glance_ok (nth_c hs2 hla HL))
      ((emplace_range_c (X := 0) (st := fi) (vs := slice s2.elems a b) hE (lentSrc_ok hs2 hla HL) hs ha ⟨rfl, a, hfi, hab, rfl⟩
        (by rw [slice_length hb]; exact max_lt hE hW) (H.eqv z.symm)).mono (fun _ _ h => h) ?_)))) ?_
    · rintro e m' ⟨s', X', g', k, hk, h1, h2, hX, ht, H'⟩
      cases lentSrc_mid hX
      rw [slice_length hb] at hk
      exact ⟨s', al, g', h1, ⟨ht.blame, rfl, k, hk, by rw [h2]; rfl⟩, H'.eqv z⟩
    · rintro it' m' ⟨s', X', st', r, h1, h2, h3, ⟨rfl, -⟩, H'⟩
      exact ⟨s', al, _, h1, ⟨by rw [h3.pos], by rw [h2]; rfl, rfl⟩, H'.eqv z⟩
  | assignRange a b =>
    obtain ⟨hab, hb⟩ := hp
    obtain ⟨fi, hfi⟩ := St.At.exists hs2 (Nat.le_trans hab hb)
    obtain ⟨la, hla⟩ := St.At.exists hs2 hb
    refine Spec.unit' (Spec.step (glance_ok (nth_c hs2 hfi HL)) (Spec.step (glance_ok (nth_c hs2 hla HL))
      ((assign_range_c (X := 0) (st := fi) (vs := slice s2.elems a b) hE (lentSrc_ok hs2 hla HL) hs ⟨rfl, a, hfi, hab, rfl⟩
        (by rw [slice_length hb]; have := hs2.1; simp only at hb; omega) (H.eqv z.symm)).mono (fun _ _ h => h) ?_))) ?_
    · rintro e m' ⟨s', X', g', k, hk, h1, h2, hX, ht, H'⟩
      cases lentSrc_mid hX
      rw [slice_length hb] at hk
      exact ⟨s', al, g', h1, ⟨ht.blame, rfl, k, hk, by rw [h2]⟩, H'.eqv z⟩
    · rintro it' m' ⟨s', X', st', r, h1, h2, ⟨rfl, -⟩, H'⟩
      exact ⟨s', al, _, h1, ⟨rfl, by rw [h2], rfl⟩, H'.eqv z⟩
  | _ => cases hc

theorem new2_lent_c {o o2 al2 : Nat} {s2 : St α} (hE : E.Good) (c : New2) (hc : c.copying = true) (hs2 : s2.Ok E)
    (hp : c.Pre E ⟨al2, s2.elems⟩) (hf : m.cell (.obj o) = none) (HL : Holds gL (cont E o2 al2 s2 + FL) L) (H : Holds g F m) :
    Spec (c.lent E L o o2) m
      (fun r m' => ∃ s' al' g', s'.Ok E ∧ r = .unit ∧ c.Ok E ⟨al2, s2.elems⟩ ⟨al', s'.elems⟩ ⟨al2, s2.elems⟩ ∧
        Holds g' (cont E o al' s' + F) m')
      (fun e m' => ∃ g', c.Exc E ⟨al2, s2.elems⟩ e ⟨al2, s2.elems⟩ ∧ Holds g' F m') := by
  have z : ∀ {s' : St α} {al' : Nat}, cont E o al' s' + (0 + F) = cont E o al' s' + F := fun {_ _} => by rw [zero_add]
  have z0 : 0 + F = F := zero_add F
  -- copying everything
  have all : ∀ al, E.nullFree = true → Spec (delegating E o al (do
        let it ← find_end E o
        let first ← M.glance L (find_first E o2)
        let last ← M.glance L (find_end E o2)
        let _ ← emplace_range E (lentSrc E L last) o it first)) m
      (fun _ m' => ∃ s' r, s'.Ok E ∧ s'.elems = s2.elems ∧ Holds { g with reqs := g.reqs + r } (cont E o al s' + F) m')
      (fun e m' => ∃ g', Thrown (CopyThrows E) g g' s2.elems e ∧ Holds g' F m') := by
    intro al hn
    obtain ⟨fi, hfi⟩ := St.At.exists hs2 (Nat.zero_le _)
    obtain ⟨la, hla⟩ := St.At.exists hs2 (Nat.le_refl _)
    have hnil : (St.nil : St α).Ok E := St.Ok.nil (by have := hs2.1; omega)
    obtain ⟨l, hl⟩ := St.At.exists hnil (Nat.le_refl _)
    have e : delegating E o al (do
        let it ← find_end E o
        let first ← M.glance L (find_first E o2)
        let last ← M.glance L (find_end E o2)
        let _ ← emplace_range E (lentSrc E L last) o it first) m = delegating E o al (do
        let it ← find_end E o
        let _ ← emplace_range E (lentSrc E L la) o it fi) m := by
      refine delegating_congr hf ?_
      intro m1 e1
      obtain ⟨m1', e1', H1⟩ := ctor_c (E := E) (al := al) hf H
      rw [e1] at e1'
      injection e1' with _ e1'
      subst e1'
      rw [bind_ok (find_end_c hnil hl H1), bind_ok (find_end_c hnil hl H1)]
      rw [bind_ok (glance_ok (find_first_c hs2 hfi HL)), bind_ok (glance_ok (find_end_c hs2 hla HL))]
    unfold Spec
    rw [e]
    refine (ctor_range_c (X := 0) (st := fi) (vs := s2.elems) hE (lentSrc_ok hs2 hla HL) hn
      ⟨rfl, 0, hfi, Nat.zero_le _, by simp⟩ hs2.1 hf (H.eqv z0.symm)).mono ?_ ?_
    · rintro _ m' ⟨s', X', st', r, h1, h2, ⟨rfl, -⟩, H'⟩
      exact ⟨s', r, h1, h2, H'.eqv z⟩
    · rintro e m' ⟨g', X', k, -, hX, ht, H'⟩
      cases lentSrc_mid hX
      exact ⟨g', ht, H'.eqv z0⟩
  cases c with
  | copy =>
    refine Spec.unit' (Spec.step (glance_ok (rdObj_c HL)) ((all (E.selectCopy (s2.obj al2).ealloc) hp).mono (fun _ _ h => h) ?_)) ?_
    · rintro e m' ⟨g', ht, H'⟩
      exact ⟨g', ⟨ht.blame, rfl⟩, H'⟩
    · rintro _ m' ⟨s', r, h1, h2, H'⟩
      exact ⟨s', _, _, h1, rfl, ⟨by rw [h2, St.obj_al], rfl⟩, H'⟩
  | copyAlloc al =>
    refine Spec.unit' ((all al hp).mono (fun _ _ h => h) ?_) ?_
    · rintro e m' ⟨g', ht, H'⟩
      exact ⟨g', ⟨ht.blame, rfl⟩, H'⟩
    · rintro _ m' ⟨s', r, h1, h2, H'⟩
      exact ⟨s', _, _, h1, rfl, ⟨by rw [h2], rfl⟩, H'⟩
  | range al a b =>
    obtain ⟨hab, hb, hn⟩ := hp
    obtain ⟨fi, hfi⟩ := St.At.exists hs2 (Nat.le_trans hab hb)
    obtain ⟨la, hla⟩ := St.At.exists hs2 hb
    refine Spec.unit' (Spec.step (glance_ok (nth_c hs2 hfi HL)) (Spec.step (glance_ok (nth_c hs2 hla HL))
      ((ctor_range_c (al := al) (X := 0) (st := fi) (vs := slice s2.elems a b) hE
        (lentSrc_ok hs2 hla HL) hn ⟨rfl, a, hfi, hab, rfl⟩
        (by rw [slice_length hb]; have := hs2.1; simp only at hb; omega) hf (H.eqv z0.symm)).mono (fun _ _ h => h) ?_))) ?_
    · rintro e m' ⟨g', X', k, hk, hX, ht, H'⟩
      cases lentSrc_mid hX
      exact ⟨g', ⟨ht.blame, rfl⟩, H'.eqv z0⟩
    · rintro it' m' ⟨s', X', st', r, h1, h2, ⟨rfl, -⟩, H'⟩
      exact ⟨s', al, _, h1, rfl, ⟨by rw [h2], rfl⟩, H'.eqv z⟩
  | _ => cases hc

/-! ### two banks side by side -/

/-- the containers of `S` and those of `S0` -/
def Bank.join (S S0 : Bank α) : Bank α := fun o => (S o).or (S0 o)

theorem Bank.join_left {S S0 : Bank α} {o : Nat} (h : S0 o = none) : S.join S0 o = S o := by
  unfold Bank.join; rw [h, Option.or_none]

theorem Bank.join_upd {S S0 : Bank α} {o : Nat} {x : Option (Obj α)} (h : S0 o = none) :
    Bank.join (upd S o x) S0 = upd (S.join S0) o x := by
  funext k
  unfold Bank.join upd
  split
  · subst k; rw [h, Option.or_none]
  · rfl

theorem Rep.join {S S0 : Bank α} {A A0 : Asrt α} (h : Rep E S A) (h0 : Rep E S0 A0) (hd : ∀ o, S o ≠ none → S0 o = none) :
    Rep E (S.join S0) (A + A0) := by
  induction h with
  | nil =>
    rw [zero_add, show Bank.join (fun _ => none) S0 = S0 from funext fun o => Option.none_or]
    exact h0
  | @cons S A o al s hr hn hs ih =>
    have hno : S0 o = none := hd o (by rw [upd_self]; exact Option.some_ne_none _)
    rw [Bank.join_upd hno, aassoc]
    refine .cons (ih fun k hk => hd k ?_) (by rw [Bank.join_left hno]; exact hn) hs
    by_cases e : k = o
    · subst e; exact absurd hn hk
    · rw [upd_ne e]; exact hk

theorem Holds.join {A A0 : Asrt α} (H : Holds g A m) (H0 : Holds gL A0 L) (hd : ∀ l, m.cell l ≠ none → L.cell l = none) :
    Holds g (A + A0) (m.join L) where
  log := H.log
  nodup := by
    rw [Multiset.map_add, Multiset.nodup_add]
    refine ⟨H.nodup, H0.nodup, Multiset.disjoint_left.2 fun {l} h1 h2 => ?_⟩
    obtain ⟨x, hx, rfl⟩ := Multiset.mem_map.1 h1
    obtain ⟨y, hy, e⟩ := Multiset.mem_map.1 h2
    obtain ⟨c, hc, -⟩ := H.sat x hx
    obtain ⟨d, hc', -⟩ := H0.sat y hy
    have := hd x.1 (by rw [hc]; exact Option.some_ne_none _)
    rw [← e, hc'] at this; cases this
  sat x hx := by
    rcases Multiset.mem_add.1 hx with hx | hx
    · obtain ⟨c, hc, h⟩ := H.sat x hx
      exact ⟨c, by unfold Mem.join; dsimp only; rw [hc]; rfl, h⟩
    · obtain ⟨c, hc, h⟩ := H0.sat x hx
      refine ⟨c, ?_, h⟩
      unfold Mem.join; dsimp only
      cases hm : m.cell x.1 with
      | none => rw [hc]; rfl
      | some d =>
        have := hd x.1 (by rw [hm]; exact Option.some_ne_none _)
        rw [this] at hc; cases hc
  full l hl := by
    rw [Multiset.map_add, Multiset.mem_add]
    unfold Mem.join at hl; dsimp only at hl
    cases hm : m.cell l with
    | none =>
      rw [hm, Option.none_or] at hl
      exact .inr (H0.full l hl)
    | some d => exact .inl (H.full l (by rw [hm]; rfl))
  null := by
    unfold Mem.join; dsimp only; rw [H.null, H0.null]; rfl

theorem Inv.join {S S0 : Bank α} (h : Inv E S m) (h0 : Inv E S0 L) (hd : ∀ l, m.cell l ≠ none → L.cell l = none) :
    Inv E (S.join S0) (m.join L) := by
  obtain ⟨A, hR, H⟩ := h
  obtain ⟨A0, hR0, H0⟩ := h0
  refine ⟨A + A0, hR.join hR0 fun o ho => ?_, Holds.join H H0 hd⟩
  have v := hR.view H o
  cases hS : S o with
  | none => exact absurd hS ho
  | some x =>
    rw [hS] at v
    have h1 := hd (.obj o) (alloc_some v.1)
    have v0 := hR0.view H0 o
    cases hS0 : S0 o with
    | none => rfl
    | some y => rw [hS0] at v0; exact absurd h1 (alloc_some v0.1)

theorem Inv.lives {S : Bank α} (h : Inv E S m) (o : Nat) : (m.cell (.obj o)).isSome = true ↔ S o ≠ none := by
  have v := h.view o
  cases hS : S o with
  | none => rw [hS] at v; simp [v]
  | some x => rw [hS] at v; simpa using Option.isSome_iff_ne_none.2 (alloc_some v.1)

/-! ### a call beside lent containers -/

/-- the containers a call may change, make or destroy -/
def Op.writes : Op α → List Nat
  | .un o c => if (Op.un o c).isConst then [] else [o]
  | .bin o p c => if (Op.bin o p c).isConst then [] else if c.copying then [o] else [o, p]
  | .new o _ => [o]
  | .new2 o p c => if c.copying then [o] else [o, p]
  | .dtor o => [o]

theorem const_ok {op : Op α} {S S' : Bank α} {r : Ret α} (hc : op.isConst = true) (h : op.Ok E S r S') : S' = S := by
  unfold Op.isConst at hc
  split at hc
  · split at hc <;> first | (cases hc; done) | (obtain ⟨x, x', h1, h2, rfl⟩ := h; obtain ⟨-, rfl⟩ := h2; exact upd_id h1)
  · split at hc <;> first | (cases hc; done) | (obtain ⟨x, y, x', y', h1, h1', h2, rfl⟩ := h; obtain ⟨-, rfl, rfl⟩ := h2; rw [upd_id h1', upd_id h1])
  · cases hc

theorem const_exc {op : Op α} {S S' : Bank α} {e : Exn} (hc : op.isConst = true) (h : op.Exc E S e S') : S' = S := by
  unfold Op.isConst at hc
  split at hc
  · split at hc <;> first | (cases hc; done) | (obtain ⟨x, x', h1, h2, rfl⟩ := h; first | (exact h2.elim) | (obtain ⟨-, -, rfl⟩ := h2; exact upd_id h1))
  · split at hc <;> first | (cases hc; done) | (obtain ⟨x, y, x', y', h1, h1', h2, rfl⟩ := h; exact h2.elim)
  · cases hc

/-- A call of a thread that owns the containers `S`, beside the lent containers `S0`:
it does to lists what it should, provided it writes no lent container. -/
theorem beside_c (hE : E.Good) {S S0 : Bank α} {op : Op α} (hI : Inv E S m) (h0 : Inv E S0 L)
    (hd : ∀ l, m.cell l ≠ none → L.cell l = none) (hp : op.Pre E (S.join S0)) (hw : ∀ o ∈ op.writes, S0 o = none) :
    Spec (op.beside E L) m
      (fun r m' => ∃ S', op.Ok E (S.join S0) r (S'.join S0) ∧ Inv E S' m' ∧ ∀ q, S0 q ≠ none → S' q = S q)
      (fun e m' => ∃ S', op.Exc E (S.join S0) e (S'.join S0) ∧ Inv E S' m' ∧ ∀ q, S0 q ≠ none → S' q = S q) := by
  have u1 : ∀ {o : Nat} {x : Option (Obj α)}, S0 o = none → ∀ q, S0 q ≠ none → (upd S o x) q = S q := fun {o x} ho q hq =>
    upd_ne fun e => hq (by rw [e]; exact ho)
  have u2 : ∀ {o p : Nat} {x y : Option (Obj α)}, S0 o = none → S0 p = none → ∀ q, S0 q ≠ none → (upd (upd S p y) o x) q = S q :=
    fun {o p x y} ho hp q hq => by rw [upd_ne fun e => hq (by rw [e]; exact ho), upd_ne fun e => hq (by rw [e]; exact hp)]
  unfold Op.beside
  by_cases hc : op.isConst = true
  · rw [if_pos hc]
    obtain ⟨A, hR, H⟩ := hI.join h0 hd
    have hs := op_c hE op hR H hp
    unfold Spec M.within at *
    cases e : op.run E (m.join L) with
    | ok r m' =>
      rw [e] at hs
      obtain ⟨S', h1, -⟩ := hs
      have := const_ok hc h1
      subst this
      exact ⟨S, h1, hI, fun _ _ => rfl⟩
    | throw r m' =>
      rw [e] at hs
      obtain ⟨S', h1, -⟩ := hs
      have := const_exc hc h1
      subst this
      exact ⟨S, h1, hI, fun _ _ => rfl⟩
    | _ => rw [e] at hs; exact hs.elim
  · rw [if_neg hc]
    have hsp : ∀ {p : Nat} {y : Obj α}, S0 p = some y → S p = none := fun {p y} h => by
      by_contra hn
      have := hd _ (Option.isSome_iff_ne_none.1 ((hI.lives p).2 hn))
      rw [← Option.not_isSome_iff_eq_none, h0.lives p] at this
      exact this (by rw [h]; exact Option.some_ne_none _)
    cases op with
    | un o c =>
      have ho : S0 o = none := hw o (by simp [Op.writes, hc])
      obtain ⟨A, hR, H⟩ := hI
      have hp' : (Op.un o c).Pre E S := by
        obtain ⟨x, hx, hp⟩ := hp
        exact ⟨x, by rwa [Bank.join_left ho] at hx, hp⟩
      refine (op_c hE _ hR H hp').mono ?_ ?_
      · rintro r m' ⟨S', ⟨x, x', hx, h1, rfl⟩, hI, -⟩
        exact ⟨_, ⟨x, x', by rwa [Bank.join_left ho], h1, Bank.join_upd ho⟩, hI, u1 ho⟩
      · rintro r m' ⟨S', ⟨x, x', hx, h1, rfl⟩, hI, -⟩
        exact ⟨_, ⟨x, x', by rwa [Bank.join_left ho], h1, Bank.join_upd ho⟩, hI, u1 ho⟩
    | bin o p c =>
      have ho : S0 o = none := hw o (by simp only [Op.writes]; rw [if_neg hc]; split <;> simp)
      obtain ⟨hne, x, y, hx, hy, hp⟩ := hp
      rw [Bank.join_left ho] at hx
      show Spec (if (L.cell (.obj p)).isSome = true then c.lent E L o p else c.run E o p) m _ _
      by_cases hl : (L.cell (.obj p)).isSome = true
      · rw [if_pos hl]
        have hcop : c.copying = true := by
          by_contra h
          exact (h0.lives p).1 hl (hw p (by simp only [Op.writes]; rw [if_neg hc, if_neg h]; simp))
        obtain ⟨y', hy'⟩ := Option.ne_none_iff_exists'.1 ((h0.lives p).1 hl)
        have : y' = y := by
          unfold Bank.join at hy
          rw [hsp hy', Option.none_or, hy'] at hy
          exact Option.some.inj hy
        subst this
        have hyj : S.join S0 p = some y' := hy
        obtain ⟨A, hR, H⟩ := hI
        obtain ⟨A0, hR0, H0⟩ := h0
        obtain ⟨s, F, hxe, hs, rfl, hF⟩ := hR.split hx
        obtain ⟨s2, F0, hye, hs2, rfl, hF0⟩ := hR0.split hy'
        refine (bin_lent_c hE c hcop hs hs2 hne (by rw [hxe, hye] at hp; exact hp) H0 H).mono ?_ ?_
        · rintro r m' ⟨s', al', g', h1, h2, H'⟩
          refine ⟨_, ⟨x, y', _, _, by rwa [Bank.join_left ho], hyj, by rw [hxe, hye]; exact h2, ?_⟩, Inv.of (hF.put h1) H', u1 ho⟩
          rw [Bank.join_upd ho, upd_id (f := S.join S0) (k := p) (v := some ⟨y'.alloc, s2.elems⟩) (by rw [hyj, ← hye])]
        · rintro e m' ⟨s', al', g', h1, h2, H'⟩
          refine ⟨_, ⟨x, y', _, _, by rwa [Bank.join_left ho], hyj, by rw [hxe, hye]; exact h2, ?_⟩, Inv.of (hF.put h1) H', u1 ho⟩
          rw [Bank.join_upd ho, upd_id (f := S.join S0) (k := p) (v := some ⟨y'.alloc, s2.elems⟩) (by rw [hyj, ← hye])]
      · rw [if_neg hl]
        have hpn : S0 p = none := by
          by_contra h; exact hl ((h0.lives p).2 h)
        rw [Bank.join_left hpn] at hy
        obtain ⟨A, hR, H⟩ := hI
        refine (op_c hE (.bin o p c) hR H ⟨hne, x, y, hx, hy, hp⟩).mono ?_ ?_
        · rintro r m' ⟨S', ⟨x, y, x', y', hx, hy, h1, rfl⟩, hI, -⟩
          refine ⟨_, ⟨x, y, x', y', by rwa [Bank.join_left ho], by rwa [Bank.join_left hpn], h1, ?_⟩, hI, u2 ho hpn⟩
          rw [Bank.join_upd ho, Bank.join_upd hpn]
        · rintro r m' ⟨S', ⟨x, y, x', y', hx, hy, h1, rfl⟩, hI, -⟩
          refine ⟨_, ⟨x, y, x', y', by rwa [Bank.join_left ho], by rwa [Bank.join_left hpn], h1, ?_⟩, hI, u2 ho hpn⟩
          rw [Bank.join_upd ho, Bank.join_upd hpn]
    | new o c =>
      have ho : S0 o = none := hw o (by simp [Op.writes])
      obtain ⟨A, hR, H⟩ := hI
      obtain ⟨hx, hp⟩ := hp
      rw [Bank.join_left ho] at hx
      refine (op_c hE (.new o c) hR H ⟨hx, hp⟩).mono ?_ ?_
      · rintro r m' ⟨S', ⟨hr, x', h1, rfl⟩, hI, -⟩
        exact ⟨_, ⟨hr, x', h1, Bank.join_upd ho⟩, hI, u1 ho⟩
      · rintro r m' ⟨S', ⟨h1, rfl⟩, hI, -⟩
        exact ⟨_, ⟨h1, rfl⟩, hI, fun _ _ => rfl⟩
    | new2 o p c =>
      have ho : S0 o = none := hw o (by simp only [Op.writes]; split <;> simp)
      obtain ⟨hx, y, hy, hp⟩ := hp
      rw [Bank.join_left ho] at hx
      show Spec (if (L.cell (.obj p)).isSome = true then c.lent E L o p else c.run E o p) m _ _
      by_cases hl : (L.cell (.obj p)).isSome = true
      · rw [if_pos hl]
        have hcop : c.copying = true := by
          by_contra h
          exact (h0.lives p).1 hl (hw p (by simp only [Op.writes]; rw [if_neg h]; simp))
        obtain ⟨y', hy'⟩ := Option.ne_none_iff_exists'.1 ((h0.lives p).1 hl)
        have : y' = y := by
          unfold Bank.join at hy
          rw [hsp hy', Option.none_or, hy'] at hy
          exact Option.some.inj hy
        subst this
        have hyj : S.join S0 p = some y' := hy
        obtain ⟨A, hR, H⟩ := hI
        obtain ⟨A0, hR0, H0⟩ := h0
        obtain ⟨s2, F0, hye, hs2, rfl, hF0⟩ := hR0.split hy'
        have hf : m.cell (.obj o) = none := H.dead (hR.dead hx)
        refine (new2_lent_c hE c hcop hs2 (by rw [hye] at hp; exact hp) hf H0 H).mono ?_ ?_
        · rintro r m' ⟨s', al', g', h1, hr, h2, H'⟩
          refine ⟨_, ⟨hr, y', _, _, hyj, by rw [hye]; exact h2, ?_⟩, Inv.of (Rep.put (by rw [upd_id hx]; exact hR) h1) H', u1 ho⟩
          rw [Bank.join_upd ho, upd_id (f := S.join S0) (k := p) (v := some ⟨y'.alloc, s2.elems⟩) (by rw [hyj, ← hye])]
        · rintro e m' ⟨g', h2, H'⟩
          refine ⟨S, ⟨y', _, hyj, by rw [hye]; exact h2, ?_⟩, Inv.of hR H', fun _ _ => rfl⟩
          rw [upd_id (f := S.join S0) (k := p) (v := some ⟨y'.alloc, s2.elems⟩) (by rw [hyj, ← hye])]
      · rw [if_neg hl]
        have hpn : S0 p = none := by
          by_contra h; exact hl ((h0.lives p).2 h)
        rw [Bank.join_left hpn] at hy
        obtain ⟨A, hR, H⟩ := hI
        refine (op_c hE (.new2 o p c) hR H ⟨hx, y, hy, hp⟩).mono ?_ ?_
        · rintro r m' ⟨S', ⟨hr, y, x', y', hy, h1, rfl⟩, hI, -⟩
          refine ⟨_, ⟨hr, y, x', y', by rwa [Bank.join_left hpn], h1, ?_⟩, hI, u2 ho hpn⟩
          rw [Bank.join_upd ho, Bank.join_upd hpn]
        · rintro r m' ⟨S', ⟨y, y', hy, h1, rfl⟩, hI, -⟩
          refine ⟨_, ⟨y, y', by rwa [Bank.join_left hpn], h1, ?_⟩, hI, u1 hpn⟩
          rw [Bank.join_upd hpn]
    | dtor o =>
      have ho : S0 o = none := hw o (by simp [Op.writes])
      obtain ⟨x, hx, hp⟩ := hp
      rw [Bank.join_left ho] at hx
      obtain ⟨A, hR, H⟩ := hI
      refine (op_c hE (.dtor o) hR H ⟨x, hx, hp⟩).mono ?_ ?_
      · rintro r m' ⟨S', ⟨hr, rfl⟩, hI, -⟩
        exact ⟨_, ⟨hr, Bank.join_upd ho⟩, hI, u1 ho⟩
      · rintro r m' ⟨S', h, -⟩
        exact h.elim

/-! ### where its memory comes from -/

instance : OnRange (fun e => e ≠ .alloc) := ⟨by decide⟩

instance Pres.glance {x : M α β} [hx : Raises (fun e => e ≠ .alloc) x] : Pres E (M.glance L x) := by
  refine ⟨fun m => ?_⟩
  unfold M.glance M.within
  cases e : x L with
  | ok v m' => exact Ext.refl
  | throw v m' => exact ⟨Ext.refl, fun h => absurd h (hx.throws e)⟩
  | _ => trivial

instance PresS.lent (last : Iter) : PresS E (lentSrc E L last) where
  read it := by simp only [lentSrc]; infer_instance
  next it := by simp only [lentSrc]; infer_instance

instance presBinLent (o p : Nat) (c : Bin α) : Pres E (c.lent E L o p) := by
  cases c <;> first
    | exact presBin o p _
    | (unfold Bin.lent; first | (unfold Un.unit copy_assign_alloc_lent; pres; done) | (unfold Un.unit; pres; done) | (unfold Un.pos; pres; done))
instance presNew2Lent (o p : Nat) (c : New2) : Pres E (c.lent E L o p) := by
  cases c <;> first
    | exact presNew2 o p _
    | (unfold New2.lent Un.unit; pres; done)

/-- the heap addresses a call leaves in use were in use before, or are answers of the allocator -/
theorem beside_ext (op : Op α) (m : Mem α) : (∀ r m', op.beside E L m = .ok r m' → Ext E m m') ∧
    (∀ e m', op.beside E L m = .throw e m' → Ext E m m') := by
  have of : ∀ (x : M α (Ret α)), Pres E x → (∀ r m', x m = .ok r m' → Ext E m m') ∧ (∀ e m', x m = .throw e m' → Ext E m m') :=
    fun x h => ⟨fun r m' e => by have := h.run m; rw [e] at this; exact this, fun r m' e => by have := h.run m; rw [e] at this; exact this.1⟩
  unfold Op.beside
  split
  · unfold M.within
    constructor <;> intro r m' e
    · split at e <;> cases e; exact Ext.refl
    · split at e <;> cases e; exact Ext.refl
  · split
    · split <;> exact of _ inferInstance
    · split <;> exact of _ inferInstance
    · exact of _ inferInstance

end SegTree
