/-
  C24-C29: calls that insert, erase or replace many elements of one container.
  For the meaning of the hypotheses see the reading guide in Single.lean.
-/
import Verif.Proof.Blocks
import Verif.Props.Single
set_option autoImplicit false

namespace SegTree
variable {α : Type} {E : Env α} {m m' : Mem α} {o p i j a b n : Nat} {xs ys vs : List α} {v : α}
  {it jt kt first last : Iter} {e : Exn}

/-! ### C24: fill insertion -/

/-- C24: `insert(nth(i), n, v)` puts `n` copies of `v` before position `i` and
returns `nth(i)` of the new container, in every field. -/
theorem C24_insert_fill (hE : E.Good) (hr : Reach E m) (hc : Contents E o m xs) (hi : i ≤ xs.length)
    (hn : nth E o i m = .ok it m) (hsz : xs.length + n ≤ max_size E) (h : insert_fill E o it n v m = .ok jt m') :
    Contents E o m' (xs.take i ++ List.replicate n v ++ xs.drop i) ∧ nth E o i m' = .ok jt m' ∧ index_of jt = i := by
  obtain ⟨al, s, F, hs, rfl, H⟩ := hr.cont hE hc
  obtain ⟨s', r, hs', he, ha, H'⟩ :=
    (emplace_count_c hE (Mk.copy v) hs (at_of_nth hs H hi hn) (max_lt hE hsz) H).ret h
  rw [List.append_assoc, ← he]
  exact ⟨cont_contents hs' H', nth_c hs' ha H', ha.pos⟩

/-- C24: it either returns, or throws (only) `bad_alloc` or what copying `v` throws -/
theorem C24_insert_fill_ends (hE : E.Good) (hr : Reach E m) (hc : Contents E o m xs) (hi : i ≤ xs.length)
    (hn : nth E o i m = .ok it m) (hsz : xs.length + n ≤ max_size E) :
    (∃ jt m', insert_fill E o it n v m = .ok jt m') ∨
    ∃ e m', insert_fill E o it n v m = .throw e m' ∧ Blame E [v] e := by
  obtain ⟨al, s, F, hs, rfl, H⟩ := hr.cont hE hc
  rcases (emplace_count_c hE (Mk.copy v) hs (at_of_nth hs H hi hn) (max_lt hE hsz) H).cases with
    ⟨jt, m', h, -⟩ | ⟨e, m', h, s', g', k, -, -, -, ht, -⟩
  · exact .inl ⟨jt, m', h⟩
  · exact .inr ⟨e, m', h, ht.blame⟩

-- the hypotheses are met: three copies of 42 in the middle of a tree of height 3
example : ∃ (m m' : Mem Nat) (it jt : Iter), Reach demo m ∧ Contents demo 0 m eight ∧ nth demo 0 3 m = .ok it m ∧
    insert_fill demo 0 it 3 42 m = .ok jt m' := by
  obtain ⟨m, h1, h2, -⟩ := demo_eight
  obtain ⟨r, m', -, -, h3, -⟩ := demo_un h1 h2 (.insertFill 3 3 42)
    (fun _ => ⟨(by decide : 3 ≤ eight.length), (by decide : eight.length + 3 ≤ max_size demo)⟩)
    (fun _ e _ hx => demo_blame (by decide) hx.1)
  obtain ⟨jt, h4, -⟩ := pos_inv h3
  obtain ⟨it, m1, h5, h6⟩ := bind_inv h4
  cases h1.nth_same demo_good h2 h5
  exact ⟨m, m', it, jt, h1, h2, h5, h6⟩

/-! ### C25: range insertion -/

/-- C25: `insert(nth(i), first, last)` and `insert(nth(i), ilist)` of the values
`vs` (from outside the container) -/
theorem C25_insert_list (hE : E.Good) (hr : Reach E m) (hc : Contents E o m xs) (hi : i ≤ xs.length)
    (hn : nth E o i m = .ok it m) (hsz : xs.length + vs.length ≤ max_size E)
    (h : insert_list E o it vs m = .ok jt m') :
    Contents E o m' (xs.take i ++ vs ++ xs.drop i) ∧ nth E o i m' = .ok jt m' ∧ index_of jt = i := by
  obtain ⟨al, s, F, hs, rfl, H⟩ := hr.cont hE hc
  obtain ⟨s', X', st', r, hs', he, ha, -, H'⟩ :=
    (emplace_range_c hE listSrc_ok hs (at_of_nth hs H hi hn) (X := 0) ⟨rfl, rfl⟩ (max_lt hE hsz)
      (by simpa using H)).ret h
  rw [List.append_assoc, ← he]
  exact ⟨cont_contents hs' H', nth_c hs' ha H', ha.pos⟩

/-- C25: inserting the range `[nth(a), nth(b))` of another container `p`; `p` is
unchanged. -/
theorem C25_insert_range (hE : E.Good) (hr : Reach E m) (hc : Contents E o m xs) (hd : Contents E p m ys)
    (hne : o ≠ p) (hi : i ≤ xs.length) (hab : a ≤ b) (hb : b ≤ ys.length)
    (hn : nth E o i m = .ok it m) (hf : nth E p a m = .ok first m) (hl : nth E p b m = .ok last m)
    (hsz : xs.length + (b - a) ≤ max_size E) (h : emplace_range E (copySrc E last) o it first m = .ok jt m') :
    Contents E o m' (xs.take i ++ slice ys a b ++ xs.drop i) ∧ nth E o i m' = .ok jt m' ∧ index_of jt = i ∧
    Contents E p m' ys ∧ Unchanged E p m m' := by
  obtain ⟨al, s, al2, s2, F, hs, rfl, hs2, rfl, H⟩ := hr.cont2 hE hc hd hne
  have H2 : Holds m.log (cont E p al2 s2 + (cont E o al s + F)) m := H.eqv (by ac_rfl)
  have hla := at_of_nth hs2 H2 hb hl
  have hfi := at_of_nth hs2 H2 (Nat.le_trans hab hb) hf
  obtain ⟨s', X', st', r, hs', he, ha, hR, H'⟩ :=
    (emplace_range_c hE (copySrc_ok (X0 := cont E p al2 s2) hs2 hla) hs (at_of_nth hs H hi hn)
      (X := cont E p al2 s2) (vs := slice s2.elems a b) ⟨rfl, Ent.refl _, a, hfi, hab, rfl⟩
      (by rw [slice_length hb]; exact max_lt hE hsz) H).ret h
  have hX : X' = cont E p al2 s2 := hR.1
  rw [hX] at H'
  have H3 := H'.eqv (by ac_rfl : _ = cont E p al2 s2 + (cont E o al s' + F))
  rw [List.append_assoc, ← he]
  exact ⟨cont_contents hs' H', nth_c hs' ha H', ha.pos, cont_contents hs2 H3, cont_unchanged hs2 H2 H3⟩

-- the hypotheses are met
example : ∃ (m m' : Mem Nat) (it jt : Iter), Reach demo m ∧ Contents demo 0 m eight ∧ nth demo 0 3 m = .ok it m ∧
    insert_list demo 0 it [1, 2, 3, 4, 5] m = .ok jt m' := by
  obtain ⟨m, h1, h2, -⟩ := demo_eight
  obtain ⟨r, m', -, -, h3, -⟩ := demo_un h1 h2 (.insertList 3 [1, 2, 3, 4, 5])
    (fun _ => ⟨(by decide : 3 ≤ eight.length), (by decide : eight.length + 5 ≤ max_size demo)⟩)
    (fun _ e _ hx => demo_blame (by decide) hx.1)
  obtain ⟨jt, h4, -⟩ := pos_inv h3
  obtain ⟨it, m1, h5, h6⟩ := bind_inv h4
  cases h1.nth_same demo_good h2 h5
  exact ⟨m, m', it, jt, h1, h2, h5, h6⟩

example : ∃ (m m' : Mem Nat) (it first last jt : Iter), Reach demo m ∧ Contents demo 0 m eight ∧
    Contents demo 1 m [1, 2, 3, 4, 5] ∧ nth demo 0 3 m = .ok it m ∧ nth demo 1 1 m = .ok first m ∧
    nth demo 1 4 m = .ok last m ∧ emplace_range demo (copySrc demo last) 0 it first m = .ok jt m' := by
  obtain ⟨m, h1, hv, h2, h3, -⟩ := demo_lists eight [1, 2, 3, 4, 5] 0 2
  obtain ⟨r, m', S', h4, -⟩ := demo_op (op := .bin 0 1 (.insertRange 3 1 4)) h1 hv
    ⟨by decide, ⟨0, eight⟩, ⟨2, [1, 2, 3, 4, 5]⟩, rfl, rfl, (by decide : 3 ≤ eight.length), by decide,
      (by decide : 4 ≤ [1, 2, 3, 4, 5].length), (by decide : eight.length + (4 - 1) ≤ max_size demo)⟩
    (by
      rintro e S' ⟨x, y, x', y', hx, hy, hb, -⟩
      cases hx; cases hy
      exact demo_blame (by decide) hb.1)
  obtain ⟨jt, h4, -⟩ := pos_inv h4
  obtain ⟨it, m1, h5, h4⟩ := bind_inv h4
  cases h1.nth_same demo_good h2 h5
  obtain ⟨first, m1, h6, h4⟩ := bind_inv h4
  cases h1.nth_same demo_good h3 h6
  obtain ⟨last, m1, h7, h4⟩ := bind_inv h4
  cases h1.nth_same demo_good h3 h7
  exact ⟨m, m', it, first, last, jt, h1, h2, h3, h5, h6, h7, h4⟩

/-! ### C26: range erasure -/

/-- C26: `erase(nth(i), nth(j))` returns, removes exactly the elements `i`, ...,
`j-1`, and returns `nth(i)` of the new container, in every field. -/
theorem C26_erase_range (hE : E.Good) (hr : Reach E m) (hc : Contents E o m xs) (hij : i ≤ j) (hj : j ≤ xs.length)
    (hi' : nth E o i m = .ok it m) (hj' : nth E o j m = .ok jt m) :
    ∃ kt m', erase_rng E o it jt m = .ok kt m' ∧ Contents E o m' (xs.take i ++ xs.drop j) ∧
      nth E o i m' = .ok kt m' ∧ index_of kt = i ∧ (j = xs.length → end_ E o m' = .ok kt m') := by
  obtain ⟨al, s, F, hs, rfl, H⟩ := hr.cont hE hc
  obtain ⟨kt, m', h, s', hs', he, ha, H'⟩ := (erase_range_c hE (j - i) hs
    (at_of_nth hs H (Nat.le_trans hij hj) hi').pos (at_of_nth hs H hj hj') (by omega) H).get
  refine ⟨kt, m', h, ?_, nth_c hs' ha H', ha.pos, fun hl => ?_⟩
  · rw [← he]; exact cont_contents hs' H'
  · have : i = s'.elems.length := by rw [he, hl]; simp; omega
    exact find_end_c hs' (this ▸ ha) H'

-- the hypotheses are met: erasing 5 of the 8 elements of a tree of height 3
example : ∃ (m : Mem Nat) (it jt : Iter), Reach demo m ∧ Contents demo 0 m eight ∧ nth demo 0 2 m = .ok it m ∧
    nth demo 0 7 m = .ok jt m := by
  obtain ⟨m, h1, h2, -⟩ := demo_eight
  obtain ⟨it, h3⟩ := h1.nth demo_good h2 2
  obtain ⟨jt, h4⟩ := h1.nth demo_good h2 7
  exact ⟨m, it, jt, h1, h2, h3, h4⟩

/-! ### C27: assign -/

/-- C27: `assign(n, v)` -/
theorem C27_assign_fill (hE : E.Good) (hr : Reach E m) (hc : Contents E o m xs) (hsz : n ≤ max_size E)
    (h : assign_fill E o n v m = .ok () m') : Contents E o m' (List.replicate n v) := by
  obtain ⟨al, s, F, hs, rfl, H⟩ := hr.cont hE hc
  obtain ⟨s', r, hs', he, H'⟩ := (assign_count_c hE hs (max_lt hE hsz) H).ret h
  rw [← he]
  exact cont_contents hs' H'

/-- C27: `assign(first, last)`, `assign(ilist)` and `operator=(ilist)` of the values `vs` -/
theorem C27_assign_list (hE : E.Good) (hr : Reach E m) (hc : Contents E o m xs) (hsz : vs.length ≤ max_size E)
    (h : assign_list E o vs m = .ok () m') : Contents E o m' vs := by
  obtain ⟨al, s, F, hs, rfl, H⟩ := hr.cont hE hc
  obtain ⟨s', X', st', r, hs', he, -, H'⟩ :=
    (assign_range_c hE listSrc_ok hs (X := 0) ⟨rfl, rfl⟩ (max_lt hE hsz) (by simpa using H)).ret h
  rw [← he]
  exact cont_contents hs' H'

/-- C27: `assign(nth(a), nth(b))` of iterators of another container `p`, which is unchanged -/
theorem C27_assign_range (hE : E.Good) (hr : Reach E m) (hc : Contents E o m xs) (hd : Contents E p m ys)
    (hne : o ≠ p) (hab : a ≤ b) (hb : b ≤ ys.length)
    (hf : nth E p a m = .ok first m) (hl : nth E p b m = .ok last m)
    (h : assign_range E (copySrc E last) o first m = .ok () m') :
    Contents E o m' (slice ys a b) ∧ Contents E p m' ys ∧ Unchanged E p m m' := by
  obtain ⟨al, s, al2, s2, F, hs, rfl, hs2, rfl, H⟩ := hr.cont2 hE hc hd hne
  have H2 : Holds m.log (cont E p al2 s2 + (cont E o al s + F)) m := H.eqv (by ac_rfl)
  have hla := at_of_nth hs2 H2 hb hl
  have hfi := at_of_nth hs2 H2 (Nat.le_trans hab hb) hf
  obtain ⟨s', X', st', r, hs', he, hR, H'⟩ :=
    (assign_range_c hE (copySrc_ok (X0 := cont E p al2 s2) hs2 hla) hs
      (X := cont E p al2 s2) (vs := slice s2.elems a b) ⟨rfl, Ent.refl _, a, hfi, hab, rfl⟩
      (by rw [slice_length hb]; have := hs2.1; omega) H).ret h
  have hX : X' = cont E p al2 s2 := hR.1
  rw [hX] at H'
  have H3 := H'.eqv (by ac_rfl : _ = cont E p al2 s2 + (cont E o al s' + F))
  rw [← he]
  exact ⟨cont_contents hs' H', cont_contents hs2 H3, cont_unchanged hs2 H2 H3⟩

-- the hypotheses are met
example : ∃ (m m1 m2 : Mem Nat), Reach demo m ∧ Contents demo 0 m eight ∧
    assign_fill demo 0 11 42 m = .ok () m1 ∧ assign_list demo 0 [1, 2, 3] m = .ok () m2 := by
  obtain ⟨m, h1, h2, -⟩ := demo_eight
  obtain ⟨r, m1, -, -, h3, -⟩ := demo_un h1 h2 (.assignFill 11 42) (fun _ => (by decide : 11 ≤ max_size demo))
    (fun _ e _ hx => demo_blame (by decide) hx.1)
  obtain ⟨r, m2, -, -, h4, -⟩ := demo_un h1 h2 (.assignList [1, 2, 3]) (fun _ => (by decide : 3 ≤ max_size demo))
    (fun _ e _ hx => demo_blame (by decide) hx.1)
  obtain ⟨-, u, h3⟩ := unit_inv h3
  obtain ⟨-, w, h4⟩ := unit_inv h4
  exact ⟨m, m1, m2, h1, h2, h3, h4⟩

/-! ### C28: resize -/

/-- C28: `resize(n, v)` (and `resize(n)`, with `v` the default value) -/
theorem C28_resize (hE : E.Good) (hr : Reach E m) (hc : Contents E o m xs) (hsz : n ≤ max_size E)
    (h : resize E o n v m = .ok () m') :
    Contents E o m' (xs.take n ++ List.replicate (n - xs.length) v) ∧ size o m' = .ok n m' := by
  obtain ⟨al, s, F, hs, rfl, H⟩ := hr.cont hE hc
  obtain ⟨s', r, hs', he, H'⟩ := (resize_count_c hE (Mk.copy v) hs (max_lt hE hsz) H).ret h
  have hc' := cont_contents hs' H'
  have hl : s'.elems.length = n := by rw [he]; simp; omega
  have h2 := hc'.1
  rw [hl] at h2
  exact ⟨he ▸ hc', h2⟩

/-- C28: shrinking always returns (for growing, see C12) -/
theorem C28_shrink (hE : E.Good) (hr : Reach E m) (hc : Contents E o m xs) (hn : n ≤ xs.length) :
    ∃ m', resize E o n v m = .ok () m' ∧ Contents E o m' (xs.take n) := by
  obtain ⟨al, s, F, hs, rfl, H⟩ := hr.cont hE hc
  have hW := hs.1
  rcases (resize_count_c (n := n) hE (Mk.copy v) hs (by omega) H).cases with
    ⟨u, m', h, s', r, hs', he, H'⟩ | ⟨e, m', h, s', g', k, hk, -⟩
  · refine ⟨m', h, ?_⟩
    rw [Nat.sub_eq_zero_of_le hn, List.replicate_zero, List.append_nil] at he
    exact he ▸ cont_contents hs' H'
  · omega

-- the hypotheses are met, growing and shrinking
example : ∃ (m m1 m2 : Mem Nat), Reach demo m ∧ Contents demo 0 m eight ∧
    resize demo 0 11 42 m = .ok () m1 ∧ resize demo 0 3 42 m = .ok () m2 := by
  obtain ⟨m, h1, h2, -⟩ := demo_eight
  obtain ⟨r, m1, -, -, h3, -⟩ := demo_un h1 h2 (.resize 11 42) (fun _ => (by decide : 11 ≤ max_size demo))
    (fun _ e _ hx => demo_blame (by decide) hx.1)
  obtain ⟨r, m2, -, -, h4, -⟩ := demo_un h1 h2 (.resize 3 42) (fun _ => (by decide : 3 ≤ max_size demo))
    (fun _ e _ hx => demo_blame (by decide) hx.1)
  obtain ⟨-, u, h3⟩ := unit_inv h3
  obtain ⟨-, w, h4⟩ := unit_inv h4
  exact ⟨m, m1, m2, h1, h2, h3, h4⟩

/-! ### C29: clear and destruction -/

theorem freed {g g' : Log} {al : Nat} {s : St α} {A F : Asrt α} (H : Holds g (cont E o al s + F) m)
    (H' : Holds g' (A + F) m') (hA : ∀ a, Loc.heap a ∉ A.map Prod.fst) {h sz : Nat} (hb : Block m o h a sz) :
    m'.cell (.heap a) = none := by
  have hm := (block_loc H).2 ⟨h, sz, hb⟩
  refine H'.dead fun hx => ?_
  rw [Multiset.map_add, Multiset.mem_add] at hx
  rcases hx with hx | hx
  · exact hA a hx
  · have hnd := H.nodup
    rw [Multiset.map_add, Multiset.nodup_add] at hnd
    exact Multiset.disjoint_left.1 hnd.2.2 hm hx

/-- C29: `clear()` returns; the container is then empty, of height 0, its
`begin()` is its `end()`, its allocator is the same, and every block it had has
been freed. -/
theorem C29_clear (hE : E.Good) (hr : Reach E m) (hc : Contents E o m xs) (hn : xs ≠ [] ∨ E.nullFree = true) :
    ∃ m', clear E o m = .ok () m' ∧ Contents E o m' [] ∧ size o m' = .ok 0 m' ∧ height o m' = .ok 0 m' ∧
      (∃ it, begin_ E o m' = .ok it m' ∧ end_ E o m' = .ok it m') ∧
      (∀ al, get_allocator o m = .ok al m → get_allocator o m' = .ok al m') ∧
      (∀ h a sz, Block m o h a sz → m'.cell (.heap a) = none) ∧
      (∀ h a sz, ¬ Block m' o h a sz) := by
  obtain ⟨al, s, F, hs, rfl, H⟩ := hr.cont hE hc
  obtain ⟨m', h, H'⟩ := clear_c hs hn H
  have hs' : (St.nil : St α).Ok E := .nil hE.wpos
  obtain ⟨it, ha⟩ := St.At.exists hs' (Nat.le_refl 0)
  refine ⟨m', h, cont_contents hs' H', getSize_c H', getHeight_c H', ⟨it, find_first_c hs' ha H', find_end_c hs' ha H'⟩,
    fun al' h' => ?_, fun h a sz hb => ?_, fun h a sz => block_nil H'⟩
  · rw [get_allocator_c H] at h'
    injection h' with h'
    subst h'
    exact get_allocator_c H'
  · exact freed H H' (fun a hx => by
      obtain ⟨k, sz, hb⟩ := (block_loc H').1 hx
      exact block_nil H' hb) hb

/-- C29: destruction returns, and frees every block the container had. -/
theorem C29_destroy (hE : E.Good) (hr : Reach E m) (hc : Contents E o m xs) (hn : xs ≠ [] ∨ E.nullFree = true) :
    ∃ m', dtor E o m = .ok () m' ∧ m'.cell (.obj o) = none ∧
      (∀ h a sz, Block m o h a sz → m'.cell (.heap a) = none) := by
  obtain ⟨al, s, F, hs, rfl, H⟩ := hr.cont hE hc
  obtain ⟨m', h, H'⟩ := dtor_c hs hn H
  refine ⟨m', h, H'.dead fun hx => ?_, fun h a sz hb => ?_⟩
  · have hnd := H.nodup
    rw [Multiset.map_add, Multiset.nodup_add] at hnd
    exact Multiset.disjoint_left.1 hnd.2.2 (by simp [cont, Ob, pt]) hx
  · exact freed (A := 0) H (by simpa using H') (by simp) hb

-- the hypotheses are met by a container with several blocks
example : ∃ (m : Mem Nat) (k a sz : Nat), Reach demo m ∧ Contents demo 0 m eight ∧ 2 ≤ k ∧ Block m 0 k a sz := by
  obtain ⟨m, h1, h2, n, h3, h4⟩ := demo_eight
  obtain ⟨al, s, F, hs, he, H⟩ := h1.cont demo_good h2
  have h5 : height 0 m = .ok s.ht m := getHeight_c H
  rw [h5] at h3
  injection h3 with h3
  refine ⟨m, n - 1, (s.obj al).root, (s.obj al).sz, h1, h2, by omega, .root (cont_cell H) ?_⟩
  have : (s.obj al).ht = s.ht := by cases s <;> rfl
  omega

end SegTree
