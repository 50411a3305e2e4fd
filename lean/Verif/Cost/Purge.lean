/-
  Destroying a container takes linear time.
-/
import Verif.Cost.Step
import Verif.Cost.Cont
set_option autoImplicit false
set_option synthInstance.maxSize 2000
set_option synthInstance.maxHeartbeats 400000

attribute [local instance] SegTree.Weights.accesses

namespace SegTree

variable {α β : Type} {E : Env α} {g : Log} {F : Asrt α} {m : Mem α} {o al : Nat} {s : St α}

theorem CB.forN {f : Nat → C α Unit} {c : Nat} (h : ∀ i, CB (f i) c) : ∀ n i, CB (Cost.forN f n i) (n * c)
  | 0, _ => ⟨fun _ => Nat.zero_le _⟩
  | n + 1, i => ⟨fun m => by
      have e : (n + 1) * c = c + n * c := by ring
      show ((f i >>= fun _ => Cost.forN f n (i + 1)) m).le _
      rw [e]
      refine CRes.le_bind ((h i).run m) (Nat.le_add_right _ _) fun _ m' _ _ => ?_
      exact ((CB.forN h n (i + 1)).run m').mono (by omega)⟩

theorem purge_segment_le (p sz : Nat) : (Cost.purge_segment E o p sz m).le (2 * sz + 2) := by
  unfold Cost.purge_segment
  split
  · exact ((CB.deallocate_segment o p).run m).mono (by omega)
  · refine CRes.le_bind ((CB.forN (CB.destroy_segment p) sz 0).run m) (by omega) fun _ m' _ _ => ?_
    exact ((CB.deallocate_segment o p).run m').mono (by omega)

/-- `purgeT` with counts -/
def Cost.purgeT (E : Env α) (o : Nat) : Nat → Nat → Nat → C α Unit
  | 0, p, sz => Cost.purge_segment E o p sz
  | k + 1, p, _ => Cost.purge_node E o (k + 2) p

/-- total of a loop over the children -/
theorem purge_node_le {k w : Nat} {x : SeqObj} (t : Tree α (k + 1)) (_hw : w = E.acls x.nalloc)
    (hb : t.kids.length ≤ E.baseMax) (h2 : 2 ≤ t.kids.length)
    (ih : ∀ c ∈ t.kids, ∀ (m : Mem α) (F : Asrt α) (p i : Nat), Holds g (lay E w p i c + (Ob o x + F)) m →
      ∃ m', purgeT E o k c.addr c.size m = .ok () m' ∧ Holds g (Ob o x + F) m')
    (ihc : ∀ c ∈ t.kids, ∀ (m : Mem α) (F : Asrt α) (p i : Nat), Holds g (lay E w p i c + (Ob o x + F)) m →
      ∃ n, (Cost.purgeT E o k c.addr c.size m).le n ∧ n + 9 ≤ 13 * c.size)
    {p i : Nat} (H : Holds g (lay E w p i t + (Ob o x + F)) m) :
    ∃ n, (Cost.purge_node E o (k + 2) t.addr m).le n ∧ n + 9 ≤ 13 * t.size := by
  rw [lay_succ, aassoc] at H
  obtain ⟨r, -, -, hlen, harr, H⟩ := H.toNd
  have loop : ∀ (l : List (Tree α k)) (f : Nat → C α Unit) (f' : Nat → M α Unit) (j : Nat) (m : Mem α),
      (∀ i, Sim (f' i) (f i)) → j + l.length ≤ E.baseMax →
      (∀ c ∈ l, c ∈ t.kids) → Arr r j (keys l) →
      (∀ i m F, i < E.baseMax → Holds g (Nd t.addr w r + F) m → f' i m = purgeBody E o k t.addr i m) →
      (∀ i m F c n, i < E.baseMax → ptrsAt E t.addr i m = .ok c.addr m → sizesAt E t.addr i m = .ok c.size m →
        Holds g (Nd t.addr w r + F) m → (Cost.purgeT E o k (c : Tree α k).addr c.size m).le n →
        (f i m).le (n + 3)) →
      Holds g (Nd t.addr w r + (lays E w t.addr j l + (Ob o x + F))) m →
      ∃ n, (Cost.forN f l.length j m).le n ∧ n + 6 * l.length ≤ 13 * (elemsL l).length := by
    intro l
    induction l with
    | nil => intro f f' j m _ _ _ _ _ _ H; exact ⟨0, Nat.zero_le _, by simp⟩
    | cons c l ihl =>
      intro f f' j m hsim hb hm ha hf hcost H
      rw [keys_cons, Arr_cons] at ha
      obtain ⟨⟨a1, a2⟩, a3⟩ := ha
      simp only [List.length_cons] at hb
      rw [lays_cons, aassoc] at H
      have e1 : ptrsAt E t.addr j m = .ok c.addr m := by rw [ptrsAt_ok (by omega) H, a2]; rfl
      have e2 : sizesAt E t.addr j m = .ok c.size m := by rw [sizesAt_ok (by omega) H, a1]; rfl
      have H0 := H.eqv (by frame : _ = lay E w t.addr j c + (Ob o x + (Nd t.addr w r + (lays E w t.addr (j + 1) l + F))))
      obtain ⟨m1, e3, H1⟩ := ih c (hm c (by simp)) m _ t.addr j H0
      obtain ⟨n1, hn1, hk1⟩ := ihc c (hm c (by simp)) m _ t.addr j H0
      obtain H1 := H1.eqv (by frame : _ = Nd t.addr w r + (lays E w t.addr (j + 1) l + (Ob o x + F)))
      have e4 : f' j m = .ok () m1 := by
        rw [hf j m _ (by omega) H]
        unfold purgeBody
        rw [bind_ok e1, bind_ok e2, bind_ok e3]
        exact destroy_node_ok (by omega) H1
      have hn := hcost j m _ c n1 (by omega) e1 e2 H hn1
      obtain ⟨n2, hn2, hk2⟩ := ihl f f' (j + 1) m1 hsim (by omega) (fun c hc => hm c (by simp [hc])) a3 hf hcost H1
      refine ⟨n1 + 3 + n2, ?_, ?_⟩
      · show ((f j >>= fun _ => Cost.forN f l.length (j + 1)) m).le _
        have := hsim j
        exact CRes.le_step e4 hn (by omega) (hn2.mono (by omega))
      · simp only [elemsL_cons, List.length_append, List.length_cons]
        have : c.size = c.elems.length := rfl
        omega
  have hl : r.len = t.kids.length := by rw [hlen]; simp
  have hsz : t.size = (elemsL t.kids).length := rfl
  cases k with
  | zero =>
    unfold Cost.purge_node
    obtain ⟨n, hn, hk⟩ := loop t.kids (fun i => do
      let child ← Cost.ptrsAt E t.addr i
      let sz ← Cost.sizesAt E t.addr i
      Cost.purge_segment E o child sz
      Cost.destroy_node E t.addr i) (fun i => do
      let child ← ptrsAt E t.addr i
      let sz ← sizesAt E t.addr i
      purge_segment E o child sz
      destroy_node E t.addr i) 0 m (fun i => inferInstance) (by omega) (fun c hc => hc) harr (fun i m F hi H => rfl)
      (fun i m F c n hi e1 e2 H hn => by
        refine CRes.le_step e1 ((CB.ptrsAt _ _).run m) (by omega) ?_
        refine CRes.le_step e2 ((CB.sizesAt _ _).run m) (by omega) ?_
        have hn : (Cost.purge_segment E o c.addr c.size m).le n := hn
        refine CRes.le_bind hn (by omega) fun _ m' _ _ => ?_
        exact ((CB.destroy_node _ _).run m').mono (by omega)) H
    refine ⟨n + 3, ?_, by omega⟩
    refine CRes.le_step (len_ok H) ((CB.len _).run m) (by omega) ?_
    rw [hl]
    refine CRes.le_bind hn (by omega) fun _ m' _ _ => ?_
    exact ((CB.deallocate_node _ _).run m').mono (by omega)
  | succ k =>
    unfold Cost.purge_node
    obtain ⟨n, hn, hk⟩ := loop t.kids (fun i => do
      let child ← Cost.ptrsAt E t.addr i
      Cost.purge_node E o (k + 2) child
      Cost.destroy_node E t.addr i) (fun i => do
      let child ← ptrsAt E t.addr i
      purge_node E o (k + 2) child
      destroy_node E t.addr i) 0 m (fun i => inferInstance) (by omega) (fun c hc => hc) harr (fun i m F hi H => by
        unfold purgeBody
        rw [bind_ok (ptrsAt_ok hi H), bind_ok (ptrsAt_ok hi H), bind_ok (sizesAt_ok hi H)]; rfl)
      (fun i m F c n hi e1 e2 H hn => by
        refine CRes.le_step e1 ((CB.ptrsAt _ _).run m) (by omega) ?_
        have hn : (Cost.purge_node E o (k + 2) c.addr m).le n := hn
        refine CRes.le_bind hn (by omega) fun _ m' _ _ => ?_
        exact ((CB.destroy_node _ _).run m').mono (by omega)) H
    refine ⟨n + 3, ?_, by omega⟩
    refine CRes.le_step (len_ok H) ((CB.len _).run m) (by omega) ?_
    rw [hl]
    refine CRes.le_bind hn (by omega) fun _ m' _ _ => ?_
    exact ((CB.deallocate_node _ _).run m').mono (by omega)

theorem purgeT_le {w : Nat} {x : SeqObj} (hw1 : w = E.acls x.ealloc) (hw2 : w = E.acls x.nalloc) :
    {k : Nat} → (t : Tree α k) → t.Root E → ∀ (m : Mem α) (F : Asrt α) (p i : Nat),
    Holds g (lay E w p i t + (Ob o x + F)) m →
    ∃ n, (Cost.purgeT E o k t.addr t.size m).le n ∧ n + 9 ≤ 13 * t.size
  | 0, t, hr, m, F, p, i, H => ⟨_, purge_segment_le _ _, by
      have : 1 ≤ t.size := hr.size_pos
      omega⟩
  | k + 1, t, hr, m, F, p, i, H => by
    have hr' := Tree.root_succ.1 hr
    exact purge_node_le t hw2 hr'.2.1 hr'.1
      (fun c hc m F p i H => purgeT_ok hw1 hw2 c (hr'.2.2 c hc).root m F p i H)
      (fun c hc m F p i H => purgeT_le hw1 hw2 c (hr'.2.2 c hc).root m F p i H) H

theorem purge_le (hs : s.Ok E) (H : Holds g (cont E o al s + F) m) :
    (Cost.purge E o m).le (13 * s.elems.length + 3) := by
  unfold Cost.purge
  refine CRes.le_step (rdObj_c H) ((CB.rdObj o).run m) (by omega) ?_
  cases s with
  | nil =>
    show CRes.le _ (Cost.purge_root E o 0 0 0 m)
    unfold Cost.purge_root
    rw [if_pos (by omega)]
    exact (purge_segment_le _ _).mono (by omega)
  | @tree h t =>
    rw [cont_tree, aassoc] at H
    obtain ⟨n, hn, hk⟩ := purgeT_le (x := objOf t al al) rfl rfl t hs.2 m F 0 0 H
    have : t.size = t.elems.length := rfl
    show CRes.le _ (Cost.purge_root E o t.addr t.size (h + 1) m)
    unfold Cost.purge_root
    cases h with
    | zero => rw [if_pos (by omega)]; exact CRes.le.mono hn (by simp only [St.elems_tree]; omega)
    | succ h => rw [if_neg (by omega)]; exact CRes.le.mono hn (by simp only [St.elems_tree]; omega)

theorem clear_le (hs : s.Ok E) (hn : s.elems ≠ [] ∨ E.nullFree = true) (H : Holds g (cont E o al s + F) m) :
    (Cost.clear E o m).le (13 * s.elems.length + 9) := by
  unfold Cost.clear
  refine CRes.le_bind (purge_le hs H) (by omega) fun _ m1 _ _ => ?_
  refine CRes.le_bind ((CB.setRoot o 0).run m1) (by omega) fun _ m2 _ _ => ?_
  refine CRes.le_bind ((CB.setHeight o 0).run m2) (by omega) fun _ m3 _ _ => ?_
  exact ((CB.setSize o 0).run m3).mono (by omega)

theorem dtor_le (hs : s.Ok E) (H : Holds g (cont E o al s + F) m) :
    (Cost.dtor E o m).le (13 * s.elems.length + 4) := by
  unfold Cost.dtor
  refine CRes.le_bind (purge_le hs H) (by omega) fun _ m1 _ _ => ?_
  exact ((CB.dropObj o).run m1).mono (by omega)

end SegTree
