/-
  Size bookkeeping along a path, and the allocation of the nodes needed by a
  split cascade.
-/
import Verif.Proof.Move
import Verif.Proof.Segs
set_option autoImplicit false

namespace SegTree

variable {α : Type} {E : Env α} {g : Log} {F : Asrt α} {m : Mem α}

/-! ### update_sizes -/

theorem nsetSize {p w q i v j : Nat} {a b : List (Nat × Nat)} {k : Nat × Nat}
    (hj : j = a.length) (hb : (a ++ k :: b).length ≤ E.baseMax)
    (H : Holds g (pt (.heap p) (IsNode w q i (a ++ k :: b)) + F) m) :
    ∃ m', setSizes E p j v m = .ok () m' ∧
      Holds g (pt (.heap p) (IsNode w q i (a ++ (v, k.2) :: b)) + F) m' := by
  subst hj
  obtain ⟨r, h1, h2, h3, h4, H⟩ := H.toNd
  obtain ⟨m', e, H'⟩ := setSizes_ok (E := E) (i := a.length) v (by simp at hb; omega) H
  refine ⟨m', e, H'.ofNd h1 h2 (by simpa using h3) ?_⟩
  rw [Arr_append, Arr_cons] at h4 ⊢
  refine ⟨(Arr_setSize (.inr (by simp))).2 h4.1, ⟨by simp [upd], h4.2.1.2⟩,
    (Arr_setSize (.inl (by omega))).2 h4.2.2⟩

theorem Ctx.out_step {h k a : Nat} {l r : List (Tree α k)} {c : Ctx α h (k + 1)} :
    (Ctx.step a l r c).out = (elemsL l).length + (elemsL r).length + c.out := by
  simp [Ctx.out, Ctx.pre, Ctx.post]; omega

theorem update_sizes_ok {h w o d : Nat} {k : Nat} (c : Ctx α h k) :
    ∀ {m : Mem α} {F : Asrt α} {x : SeqObj} {a s s' : Nat},
    c.Ok E → x.sz = s + c.out → (∀ n, n ≤ c.out → E.wadd (s + n) d = s' + n) →
    Holds g (c.lay E w a s + (Ob o x + F)) m →
    ∃ m', update_sizes E o c.hdr.1 c.hdr.2 d m = .ok () m' ∧
      Holds g (c.lay E w a s' + (Ob o { x with sz := s' + c.out } + F)) m' := by
  induction c with
  | top =>
    intro m F x a s s' _ hx hd H
    simp only [Ctx.hdr, Ctx.lay, zero_add] at H ⊢
    rw [update_sizes, if_neg (by simp)]
    rw [bind_ok (getSize_ok H), hx, hd _ (Nat.le_refl _)]
    exact setSize_ok _ H
  | @step k b l r c ih =>
    intro m F x a s s' hc hx hd H
    simp only [Ctx.lay, aassoc] at H
    have hb := hc.2.2.2.1
    simp only [Ctx.hdr]
    rw [update_sizes, if_pos H.ne0]
    rw [bind_ok (nsize (a := keys l) (k := (s, a)) (b := keys r) rfl (by simp) (by simp; omega) H)]
    obtain ⟨m1, e1, H1⟩ := nsetSize (E := E) (v := E.wadd s d) (j := l.length) (by simp) (by simp; omega) H
    rw [bind_ok e1, bind_ok (npidx H1), bind_ok (nparent H1)]
    have hs : E.wadd s d = s' := hd 0 (by omega)
    rw [hs] at H1
    rw [Ctx.out_step] at hx hd
    obtain ⟨m2, e2, H2⟩ := ih (x := x) (s := s + (elemsL l).length + (elemsL r).length)
      (s' := s' + (elemsL l).length + (elemsL r).length) hc.2.2.2.2 (by omega)
      (by
        intro n hn
        have := hd ((elemsL l).length + (elemsL r).length + n) (by omega)
        rw [show s + (elemsL l).length + (elemsL r).length + n = s + ((elemsL l).length + (elemsL r).length + n) by omega,
          this]
        omega)
      (H1.eqv (by frame : _ = c.lay E w b (s + (elemsL l).length + (elemsL r).length) + (Ob o x + (_ + _))))
    refine ⟨m2, e2, ?_⟩
    rw [Ctx.out_step]
    rw [show s' + (elemsL l).length + (elemsL r).length + c.out =
      s' + ((elemsL l).length + (elemsL r).length + c.out) by omega] at H2
    refine H2.eqv ?_
    simp only [Ctx.lay, aassoc]
    ac_rfl

theorem Env.wadd_one {n : Nat} (h : n + 1 < E.W) : E.wadd n 1 = n + 1 := Nat.mod_eq_of_lt h

theorem Env.wadd_neg1 {n : Nat} (h1 : 1 ≤ n) (h : n < E.W) : E.wadd n (E.wneg 1) = n - 1 := by
  unfold Env.wadd Env.wneg
  rw [Nat.mod_eq_of_lt (show 1 < E.W by omega), Nat.mod_eq_of_lt (show E.W - 1 < E.W by omega)]
  rw [show n + (E.W - 1) = (n - 1) + E.W by omega, Nat.add_mod_right, Nat.mod_eq_of_lt (by omega)]

/-- `increment_sizes` along a path -/
theorem increment_sizes_ok {h w o k : Nat} {c : Ctx α h k} {x : SeqObj} {a s : Nat}
    (hc : c.Ok E) (hx : x.sz = s + c.out) (hW : x.sz + 1 < E.W)
    (H : Holds g (c.lay E w a s + (Ob o x + F)) m) :
    ∃ m', increment_sizes E o c.hdr.1 c.hdr.2 m = .ok () m' ∧
      Holds g (c.lay E w a (s + 1) + (Ob o { x with sz := x.sz + 1 } + F)) m' := by
  obtain ⟨m', e, H'⟩ := update_sizes_ok (d := 1) (s' := s + 1) c hc hx
    (by intro n hn; rw [Env.wadd_one (by omega)]; omega) H
  exact ⟨m', e, H'.eqv (by rw [hx, show s + 1 + c.out = s + c.out + 1 by omega])⟩

theorem decrement_sizes_ok {h w o k : Nat} {c : Ctx α h k} {x : SeqObj} {a s : Nat}
    (hc : c.Ok E) (hx : x.sz = s + c.out) (hs : 1 ≤ s) (hW : x.sz < E.W)
    (H : Holds g (c.lay E w a s + (Ob o x + F)) m) :
    ∃ m', decrement_sizes E o c.hdr.1 c.hdr.2 m = .ok () m' ∧
      Holds g (c.lay E w a (s - 1) + (Ob o { x with sz := x.sz - 1 } + F)) m' := by
  obtain ⟨m', e, H'⟩ := update_sizes_ok (d := E.wneg 1) (s' := s - 1) c hc hx
    (by intro n hn; rw [Env.wadd_neg1 (by omega) (by omega)]; omega) H
  exact ⟨m', e, H'.eqv (by rw [hx, show s - 1 + c.out = s + c.out - 1 by omega])⟩

/-! ### exact copies of an assertion -/

/-- the assertion that pins every location of `S` to its contents in `m0` -/
def Ex (m0 : Mem α) (S : Asrt α) : Asrt α := S.map (fun x => (x.1, fun c => m0.cell x.1 = some c))

theorem Ex_add (m0 : Mem α) (S T : Asrt α) : Ex m0 (S + T) = Ex m0 S + Ex m0 T := by
  simp [Ex]

theorem Ex_pt {m0 : Mem α} {l : Loc} {P : Cell α → Prop} {c : Cell α} (h : m0.cell l = some c) :
    Ex m0 (pt l P) = pt l (· = c) := by
  simp only [Ex, pt, Multiset.map_singleton]
  congr
  funext c'
  rw [h]
  simp only [Option.some.injEq]
  exact propext ⟨fun h => h.symm, fun h => h.symm⟩

theorem Holds.toEx {S : Asrt α} (H : Holds g S m) : Holds g (Ex m S) m := by
  refine ⟨H.log, ?_, ?_, ?_, H.null⟩
  · simpa [Ex, Multiset.map_map] using H.nodup
  · intro x hx
    obtain ⟨y, hy, rfl⟩ := Multiset.mem_map.1 hx
    obtain ⟨c, hc, -⟩ := H.sat y hy
    exact ⟨c, hc, hc⟩
  · intro l hl
    have := H.full l hl
    simpa [Ex, Multiset.map_map] using this

theorem Holds.ofEx {g0 : Log} {m0 : Mem α} {A S : Asrt α} (H0 : Holds g0 S m0) (H : Holds g (A + Ex m0 S) m) :
    Holds g (A + S) m := by
  refine ⟨H.log, ?_, ?_, ?_, H.null⟩
  · have := H.nodup
    simpa [Ex, Multiset.map_map] using this
  · intro x hx
    rcases Multiset.mem_add.1 hx with hx | hx
    · exact H.sat x (Multiset.mem_add.2 (.inl hx))
    · obtain ⟨c, hc, hp⟩ := H0.sat x hx
      obtain ⟨c', hc', hp'⟩ := H.sat _ (Multiset.mem_add.2 (.inr (Multiset.mem_map_of_mem _ hx)))
      have e : c = c' := by
        have : m0.cell x.1 = some c' := hp'
        rw [hc] at this
        exact Option.some.inj this
      exact ⟨c', hc', e ▸ hp⟩
  · intro l hl
    have := H.full l hl
    simpa [Ex, Multiset.map_map] using this

theorem Holds.exCell {g0 : Log} {m0 : Mem α} {S : Asrt α} (H0 : Holds g0 S m0) (H : Holds g (Ex m0 S) m) :
    m.cell = m0.cell := by
  funext l
  by_cases hl : l ∈ S.map Prod.fst
  · obtain ⟨y, hy, rfl⟩ := Multiset.mem_map.1 hl
    obtain ⟨c, hc, hp⟩ := H.sat _ (Multiset.mem_map_of_mem _ hy)
    rw [hc]; exact hp.symm
  · have h1 : m0.cell l = none := by
      by_contra hc
      exact hl (H0.full l (Option.isSome_iff_ne_none.2 hc))
    have h2 : m.cell l = none := by
      by_contra hc
      have := H.full l (Option.isSome_iff_ne_none.2 hc)
      simp only [Ex, Multiset.map_map, Function.comp_apply] at this
      exact hl this
    rw [h1, h2]

/-! ### alloc_nodes_single -/

/-- fresh nodes, linked through their parent pointers -/
def chain (w : Nat) : List Nat → Asrt α
  | [] => 0
  | a :: as => pt (.heap a) (fun c => ∃ r, c = .node w r ∧ r.parent = as.headD 0) + chain w as

@[simp] theorem chain_nil {w : Nat} : chain w [] = (0 : Asrt α) := rfl
theorem chain_cons {w a : Nat} {as : List Nat} : (chain w (a :: as) : Asrt α) =
    pt (.heap a) (fun c => ∃ r, c = .node w r ∧ r.parent = as.headD 0) + chain w as := rfl

/-- number of nodes a split that reaches the hole's parent needs -/
def Ctx.need (E : Env α) {h : Nat} : {k : Nat} → Ctx α h k → Nat
  | _, .top => 1
  | _, .step _ l r c => if l.length + 1 + r.length = E.baseMax then c.need E + 1 else 0

theorem Ctx.need_le {h k : Nat} (c : Ctx α h k) : c.need E + k ≤ h + 1 := by
  induction c with
  | top => simp [Ctx.need]; omega
  | step a l r c ih =>
    have := c.le
    simp only [Ctx.need]; split <;> omega

theorem free_chain_ok {o w : Nat} {x : SeqObj} (hw : w = E.acls x.nalloc) (as : List Nat) :
    ∀ {m : Mem α}, Holds g (chain w as + (Ob o x + F)) m →
    ∃ m', free_chain E o (as.headD 0) m = .ok () m' ∧ Holds g (Ob o x + F) m' := by
  induction as with
  | nil =>
    intro m H
    rw [free_chain]
    exact ⟨m, by simp, by simpa using H⟩
  | cons a as ih =>
    intro m H
    rw [chain_cons, add_assoc] at H
    have h0 := H.ne0
    simp only [List.headD_cons]
    rw [free_chain, if_pos h0]
    obtain ⟨c, ⟨r, rfl, hr⟩, -, H⟩ := H.exact
    have H : Holds g (Nd a w r + _) m := H
    rw [bind_ok (parent_ok H), hr]
    obtain ⟨m1, e1, H1⟩ := deallocate_node_ok hw (H.eqv (by frame : _ = Nd a w r + (Ob o x + _)))
    rw [bind_ok e1]
    exact ih (H1.eqv (by frame))

theorem alloc_catch_ok {o w seg : Nat} {x : SeqObj} (hw : w = E.acls x.nalloc) (he : w = E.acls x.ealloc)
    (as : List Nat) (H : Holds g (chain w as + (Sg seg w (fun _ => .raw) + (Ob o x + F))) m) :
    ∃ m', alloc_catch E o seg (as.headD 0) m = .ok () m' ∧ Holds g (Ob o x + F) m' := by
  unfold alloc_catch
  obtain ⟨m1, e1, H1⟩ := deallocate_segment_ok he (fun _ _ => .inl rfl)
    (H.eqv (by frame : _ = Sg seg w (fun _ => .raw) + (Ob o x + _)))
  rw [bind_ok e1]
  exact free_chain_ok hw as (H1.eqv (by frame))

/-- one node allocation of the cascade -/
theorem alloc_one_ok {o w seg : Nat} {x : SeqObj} (hw : w = E.acls x.nalloc) (he : w = E.acls x.ealloc)
    (as : List Nat) (H : Holds g (chain w as + (Sg seg w (fun _ => .raw) + (Ob o x + F))) m) {β : Type}
    (f : Nat → M α β) :
    (∃ b m', (M.onThrow (allocate_node E o) (alloc_catch E o seg (as.headD 0)) >>= fun temp =>
        setParent temp (as.headD 0) >>= fun _ => f temp) m = f b m' ∧
      Holds { g with reqs := g.reqs + 1 } (chain w (b :: as) + (Sg seg w (fun _ => .raw) + (Ob o x + F))) m') ∨
    (∃ m', (M.onThrow (allocate_node E o) (alloc_catch E o seg (as.headD 0)) >>= fun temp =>
        setParent temp (as.headD 0) >>= fun _ => f temp) m = .throw .alloc m' ∧
      Holds ⟨g.reqs + 1, g.fails + 1⟩ (Ob o x + F) m') := by
  have ea : allocate_node E o m = allocCell E (.node w (E.junk m.log.reqs)) m := by
    unfold allocate_node
    rw [bind_ok (rdObj_ok (H.eqv (by frame : _ = Ob o x + (_ + (_ + _))))), hw]
    rfl
  rcases allocCell_cases (E := E) (.node w (E.junk m.log.reqs)) H with ⟨b, m1, e1, H1⟩ | ⟨m1, e1, -, H1⟩
  · left
    have e2 : M.onThrow (allocate_node E o) (alloc_catch E o seg (as.headD 0)) m = .ok b m1 := by
      unfold M.onThrow; rw [ea, e1]
    rw [bind_ok e2]
    obtain ⟨m2, e3, H2⟩ := setParent_ok (p := b) (as.headD 0) H1
    rw [bind_ok e3]
    refine ⟨b, m2, rfl, ?_⟩
    rw [chain_cons, add_assoc]
    exact H2.weaken (fun c hc => ⟨_, hc, rfl⟩)
  · right
    obtain ⟨m2, e3, H2⟩ := alloc_catch_ok hw he as H1
    refine ⟨m2, ?_, H2⟩
    apply bind_throw
    unfold M.onThrow; rw [ea, e1]; dsimp only; rw [e3]

theorem alloc_nodes_loop_ok {o w seg h : Nat} {x : SeqObj} {m0 : Mem α} {L0 : Log} {S : Asrt α}
    (hw : w = E.acls x.nalloc) (he : w = E.acls x.ealloc) {k : Nat} (c : Ctx α h k) :
    ∀ {g : Log} {m : Mem α} {F0 : Asrt α} {a s : Nat} (as : List Nat), S = c.lay E w a s + (Ob o x + F0) →
    Holds L0 S m0 →
    Holds g (chain w as + (Sg seg w (fun _ => .raw) + Ex m0 S)) m →
    (∃ bs m', alloc_nodes_loop E o c.hdr.1 seg (as.headD 0) m = .ok (bs.headD 0) m' ∧
      bs.length = as.length + c.need E ∧
      Holds { g with reqs := g.reqs + c.need E } (chain w bs + (Sg seg w (fun _ => .raw) + Ex m0 S)) m') ∨
    (∃ m' n, alloc_nodes_loop E o c.hdr.1 seg (as.headD 0) m = .throw .alloc m' ∧
      1 ≤ n ∧ n ≤ c.need E ∧ Holds ⟨g.reqs + n, g.fails + 1⟩ (Ex m0 S) m') := by
  induction c with
  | top =>
    intro g m F0 a s as hS H0 H
    have hS' : S = Ob o x + F0 := by simpa [Ctx.lay] using hS
    have ho : m0.cell (.obj o) = some (.obj x) := by
      rw [hS'] at H0
      obtain ⟨c, hc, rfl⟩ := Holds.get H0
      exact hc
    have eE : Ex m0 S = Ob o x + Ex m0 F0 := by
      rw [hS', Ex_add]; congr 1; exact Ex_pt ho
    rw [eE] at H ⊢
    simp only [Ctx.hdr]
    rw [alloc_nodes_loop, if_pos rfl]
    rcases alloc_one_ok hw he as H (fun temp => pure temp) with ⟨b, m1, e1, H1⟩ | ⟨m1, e1, H1⟩
    · exact .inl ⟨b :: as, m1, e1, by simp [Ctx.need], by simpa [Ctx.need] using H1⟩
    · exact .inr ⟨m1, 1, e1, Nat.le_refl _, by simp [Ctx.need], H1⟩
  | @step k b l r c ih =>
    intro g m F0 a s as hS H0 H
    have hS' : S = pt (.heap b) (IsNode w c.hdr.1 c.hdr.2 (keys l ++ (s, a) :: keys r)) +
        (Ob o x + (lays E w b 0 l + (lays E w b (l.length + 1) r +
        (c.lay E w b (s + (elemsL l).length + (elemsL r).length) + F0)))) := by
      rw [hS]; simp only [Ctx.lay]; ac_rfl
    have ho : m0.cell (.obj o) = some (.obj x) := by
      rw [hS'] at H0
      obtain ⟨c, hc, rfl⟩ := Holds.get (H0.eqv (by frame : _ = Ob o x + (_ + _)))
      exact hc
    obtain ⟨nd, hn1, hn2, hn3⟩ : ∃ r', m0.cell (.heap b) = some (.node w r') ∧ r'.parent = c.hdr.1 ∧
        r'.len = l.length + 1 + r.length := by
      rw [hS'] at H0
      obtain ⟨c', hc, r', rfl, h1, h2, h3, h4⟩ := Holds.get H0
      refine ⟨r', hc, h1, by simp [h3]; omega⟩
    have eE : ∃ R, Ex m0 S = Ob o x + (Nd b w nd + R) := by
      refine ⟨Ex m0 (lays E w b 0 l + (lays E w b (l.length + 1) r +
        (c.lay E w b (s + (elemsL l).length + (elemsL r).length) + F0))), ?_⟩
      rw [hS', Ex_add, Ex_add, Ex_pt hn1]
      rw [show Ex m0 (Ob o x) = Ob o x from Ex_pt ho]
      show Nd b w nd + _ = _
      ac_rfl
    obtain ⟨R, eE⟩ := eE
    have H' := H
    rw [eE] at H'
    have hb0 := H'.eqv (by frame : _ = Nd b w nd + (chain w as + (Sg seg w (fun _ => .raw) + (Ob o x + R))))
    simp only [Ctx.hdr]
    rw [alloc_nodes_loop, if_neg (Holds.ne0 hb0)]
    rw [bind_ok (len_ok hb0), hn3]
    by_cases hfull : l.length + 1 + r.length = E.baseMax
    · rw [if_neg (by simpa using hfull)]
      rcases alloc_one_ok hw he as H' (fun temp => parent b >>= fun q => alloc_nodes_loop E o q seg temp)
        with ⟨b', m1, e1, H1⟩ | ⟨m1, e1, H1⟩
      · rw [e1, bind_ok (parent_ok (H1.eqv (by frame : _ = Nd b w nd + _))), hn2]
        rw [← eE] at H1
        rcases ih (F0 := pt (.heap b) (IsNode w c.hdr.1 c.hdr.2 (keys l ++ (s, a) :: keys r)) +
            (lays E w b 0 l + (lays E w b (l.length + 1) r + F0)))
            (a := b) (s := s + (elemsL l).length + (elemsL r).length) (b' :: as)
            (by rw [hS']; ac_rfl) H0 H1 with ⟨bs, m2, e2, h2, H2⟩ | ⟨m2, n, e2, h2, h3, H2⟩
        · refine .inl ⟨bs, m2, e2, ?_, ?_⟩
          · simp only [Ctx.need, hfull, if_true, h2, List.length_cons]; omega
          · simp only [Ctx.need, hfull, if_true]
            exact (show g.reqs + 1 + c.need E = g.reqs + (c.need E + 1) by omega) ▸ H2
        · refine .inr ⟨m2, n + 1, e2, by omega, ?_, ?_⟩
          · simp only [Ctx.need, hfull, if_true]; omega
          · exact (show g.reqs + 1 + n = g.reqs + (n + 1) by omega) ▸ H2
      · refine .inr ⟨m1, 1, e1, Nat.le_refl _, by simp [Ctx.need, hfull], ?_⟩
        rw [← eE] at H1
        exact H1
    · rw [if_pos hfull]
      exact .inl ⟨as, m, rfl, by simp [Ctx.need, hfull], by simpa [Ctx.need, hfull] using H⟩

end SegTree
