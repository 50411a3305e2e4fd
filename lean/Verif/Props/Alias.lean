/-
  C65: arguments that refer to the container itself.
-/
import Verif.Model.Alias
import Verif.Props.Defects
set_option autoImplicit false

namespace SegTree
variable {α : Type} {E : Env α} {m m' : Mem α} {o i j n a b : Nat} {xs : List α} {v : α} {it jt kt : Iter} {e : Exn}
  {g : Log} {F : Asrt α} {s : St α} {al : Nat}

theorem copy_alias (hs : s.Ok E) (hj : s.At j jt) (hjl : j < s.elems.length) (H : Holds g (cont E o al s + F) m) :
    (do copyVal E (← dereference E jt)) m = copyVal E s.elems[j] m := by
  rw [bind_ok (dereference_c hs hj hjl H)]

theorem emplace_single_alias (hs : s.Ok E) (hj : s.At j jt) (hjl : j < s.elems.length)
    (H : Holds g (cont E o al s + F) m) :
    emplace_single E o it (do copyVal E (← dereference E jt)) m = emplace_single E o it (copyVal E s.elems[j]) m :=
  insert_alias_c hs hj hjl H

theorem emplace_count_alias (hs : s.Ok E) (hj : s.At j jt) (hjl : j < s.elems.length)
    (H : Holds g (cont E o al s + F) m) (hn : n ≤ 1) :
    emplace_count E o it n (do copyVal E (← dereference E jt)) m = emplace_count E o it n (copyVal E s.elems[j]) m := by
  match n, hn with
  | 0, _ => rfl
  | 1, _ =>
    unfold emplace_count emplace_count_loop
    simp only [bind_assoc]
    show (emplace_single E o it _ >>= _) m = (emplace_single E o it _ >>= _) m
    show M.bind _ _ m = M.bind _ _ m
    unfold M.bind
    rw [emplace_single_alias hs hj hjl H]
    rfl

/-- C65: `push_back(s[j])` and `push_front(s[j])` do exactly what they do with a copy
of `s[j]` made before the call, exceptions included. -/
theorem C65_push (hE : E.Good) (hr : Reach E m) (hc : Contents E o m xs) (hj : j < xs.length)
    (hnj : nth E o j m = .ok jt m) :
    push_back_alias E o jt m = push_back E o xs[j] m ∧ push_front_alias E o jt m = push_front E o xs[j] m := by
  obtain ⟨al, s, F, hs, rfl, H⟩ := hr.cont hE hc
  have hj' := at_of_nth hs H (Nat.le_of_lt hj) hnj
  obtain ⟨f, hf⟩ := St.At.exists hs (Nat.zero_le _)
  obtain ⟨l, hl⟩ := St.At.exists hs (Nat.le_refl _)
  unfold push_back_alias push_back push_front_alias push_front
  rw [bind_ok (find_end_c hs hl H), bind_ok (find_end_c hs hl H), bind_ok (find_first_c hs hf H), bind_ok (find_first_c hs hf H)]
  constructor <;>
  · show M.bind _ _ m = M.bind _ _ m
    unfold M.bind
    rw [emplace_single_alias hs hj' hj H]

/-- C65: `resize(n, s[j])` does exactly what it does with a copy of `s[j]` if it
shrinks the container or adds at most one element. -/
theorem C65_resize (hE : E.Good) (hr : Reach E m) (hc : Contents E o m xs) (hj : j < xs.length)
    (hnj : nth E o j m = .ok jt m) (hn : n ≤ xs.length + 1) : resize_alias E o n jt m = resize E o n xs[j] m := by
  obtain ⟨al, s, F, hs, rfl, H⟩ := hr.cont hE hc
  have hj' := at_of_nth hs H (Nat.le_of_lt hj) hnj
  obtain ⟨l, hl⟩ := St.At.exists hs (Nat.le_refl _)
  unfold resize_alias resize resize_count
  rw [bind_ok (getSize_c H), bind_ok (getSize_c H)]
  split
  · rfl
  · rw [bind_ok (find_end_c hs hl H), bind_ok (find_end_c hs hl H)]
    split
    · rfl
    · show M.bind _ _ m = M.bind _ _ m
      unfold M.bind
      rw [emplace_count_alias hs hj' hj H (by omega)]

theorem assign_count_alias : ∀ {n i : Nat} {m : Mem α} {s : St α} {first last : Iter}, s.Ok E → s.At i first →
    s.At s.elems.length last → s.At j jt → s.elems[j]? = some v → i + n ≤ s.elems.length + 1 → Holds g (cont E o al s + F) m →
    assign_count_loop E o (dereference E jt) n first last m = assign_count_loop E o (pure v) n first last m := by
  intro n
  induction n with
  | zero => intro i m s first last hs ha hl hj hv hn H; rw [assign_count_loop, assign_count_loop]; rfl
  | succ n ih =>
    intro i m s first last hs ha hl hj hv hn H
    obtain ⟨hjl, hjv⟩ := List.getElem?_eq_some_iff.1 hv
    rw [assign_count_loop, assign_count_loop, if_neg (Nat.succ_ne_zero n), if_neg (Nat.succ_ne_zero n)]
    have hi := ha.le
    by_cases hil : i = s.elems.length
    · have hp : first.pos = last.pos := by rw [ha.pos, hl.pos, hil]
      rw [if_pos hp, if_pos hp]
      show M.bind _ _ m = M.bind _ _ m
      unfold M.bind
      rw [emplace_count_alias hs hj hjl H (by omega), hjv]
      rfl
    · have hp : first.pos ≠ last.pos := by rw [ha.pos, hl.pos]; exact hil
      rw [if_neg hp, if_neg hp]
      have hlt : i < s.elems.length := by omega
      rw [bind_ok (dereference_c hs hj hjl H), hjv]
      simp only [pure_bind]
      unfold copyAssign
      simp only [bind_assoc]
      obtain ⟨m1, ht, hc | ⟨hc, h1, h2⟩⟩ := Mk.copy (E := E) v m
      · obtain ⟨m2, s2, e2, hs2, he2, hpres, -, H2⟩ := wrElem_c v hs ha hlt (ht.holds H)
        have hlen : s2.elems.length = s.elems.length := by rw [he2]; simp
        obtain ⟨it3, e3, ha3⟩ := move_next_c hs2 (hpres _ _ ha) (by omega) H2
        rw [bind_ok hc, bind_ok hc, bind_ok e2, bind_ok e2, bind_ok e3, bind_ok e3]
        refine ih hs2 ha3 (by rw [hlen]; exact hpres _ _ hl) (hpres _ _ hj) ?_ (by omega) H2
        rw [he2, List.getElem?_set]
        split
        · rfl
        · exact hv
      · rw [bind_throw hc, bind_throw hc]

/-- C65: `assign(n, s[j])` does exactly what it does with a copy of `s[j]` if `n` is
at most `size() + 1`. -/
theorem C65_assign (hE : E.Good) (hr : Reach E m) (hc : Contents E o m xs) (hj : j < xs.length)
    (hnj : nth E o j m = .ok jt m) (hn : n ≤ xs.length + 1) : assign_fill_alias E o n jt m = assign_fill E o n xs[j] m := by
  obtain ⟨al, s, F, hs, rfl, H⟩ := hr.cont hE hc
  have hj' := at_of_nth hs H (Nat.le_of_lt hj) hnj
  obtain ⟨f, hf⟩ := St.At.exists hs (Nat.zero_le _)
  obtain ⟨l, hl⟩ := St.At.exists hs (Nat.le_refl _)
  unfold assign_fill_alias assign_fill assign_count
  rw [bind_ok (find_first_c hs hf H), bind_ok (find_first_c hs hf H), bind_ok (find_end_c hs hl H), bind_ok (find_end_c hs hl H)]
  exact assign_count_alias hs hf hl hj' (List.getElem?_eq_getElem hj) (by omega) H

/-- What is left of a list by removing what equals the element `v` one refers to, if that
reference denotes another element `u`, the one that comes to stand in its place, once `k`
elements and then `u` have been kept. -/
def removeRef (eq : α → α → Bool) : Nat → α → List α → List α
  | _, _, [] => []
  | k, v, x :: xs =>
    if eq x v then removeRef eq k v xs
    else x :: match k with
      | 0 => xs.filter (fun y => !eq y x)
      | k + 1 => removeRef eq k v xs

theorem removeRef_cons {eq : α → α → Bool} {k : Nat} {v x : α} {xs : List α} :
    removeRef eq k v (x :: xs) = if eq x v then removeRef eq k v xs
      else x :: match k with
        | 0 => xs.filter (fun y => !eq y x)
        | k + 1 => removeRef eq k v xs := by
  cases k <;> rfl

theorem std_remove_alias_late {eq : α → α → Bool} {last : Iter} {u : α} (hE : E.Good) (n : Nat) :
    ∀ {m : Mem α} {s : St α} {f k : Nat} {first it : Iter}, s.Ok E → s.At f first → s.At k it → s.At j jt →
    s.At s.elems.length last → j < f → f ≤ k → k + 1 + n = s.elems.length → s.elems[j]? = some u →
    Holds g (cont E o al s + F) m →
    ∃ m' s' f' it' ys, std_remove_alias_loop E eq jt first it last m = .ok it' m' ∧ Rew E s s' ys ∧ s'.At f' it' ∧
      ys.take f' = s.elems.take f ++ (s.elems.drop (k + 1)).filter (fun y => !eq y u) ∧ Holds g (cont E o al s' + F) m' := by
  induction n with
  | zero =>
    intro m s f k first it hs hf hk hj hl hjf hfk hn hu H
    rw [std_remove_alias_loop]
    obtain ⟨it1, e1, h1⟩ := move_next_c hs hk (by omega) H
    rw [bind_ok e1, if_neg (by rw [h1.pos, hl.pos]; omega)]
    refine ⟨m, s, f, first, s.elems, rfl, Rew.refl hs, hf, ?_, H⟩
    rw [List.drop_eq_nil_of_le (by omega)]; simp
  | succ n ih =>
    intro m s f k first it hs hf hk hj hl hjf hfk hn hu H
    rw [std_remove_alias_loop]
    obtain ⟨it1, e1, h1⟩ := move_next_c hs hk (by omega) H
    rw [bind_ok e1, if_pos (by rw [h1.pos, hl.pos]; omega), bind_ok (dereference_c hs h1 (by omega) H),
      bind_ok (dereference_c hs hj (by omega) H)]
    have hu' : s.elems[j]'(by omega) = u := by
      rw [List.getElem?_eq_getElem (by omega)] at hu; exact Option.some.inj hu
    rw [hu', List.drop_eq_getElem_cons (i := k + 1) (by omega)]
    by_cases hp : eq (s.elems[k + 1]'(by omega)) u = true
    · rw [if_pos hp, List.filter_cons_of_neg (by simp [hp])]
      exact ih hs hf h1 hj hl hjf (by omega) (by omega) hu H
    · rw [if_neg hp, List.filter_cons_of_pos (by simpa using hp)]
      obtain ⟨m2, s2, e2, r2, H2⟩ := iter_move_assign_c hE hs h1 hf (by omega) (by omega) (by omega) H
      rw [bind_ok e2]
      have hlen2 : s2.elems.length = s.elems.length := by rw [r2.elems]; simp
      obtain ⟨it3, e3, h3⟩ := move_next_c r2.ok (r2.at_ _ _ hf) (by omega) H2
      rw [bind_ok e3]
      have hl2 : s2.At s2.elems.length last := by rw [hlen2]; exact r2.at_ _ _ hl
      obtain ⟨m4, s4, f4, it4, ys, e4, r4, h4, h5, H4⟩ := ih r2.ok h3 (r2.at_ _ _ h1) (r2.at_ _ _ hj) hl2 (by omega) (by omega)
        (by omega) (by rw [r2.elems, List.getElem?_set_ne (by omega), List.getElem?_set_ne (by omega)]; exact hu) H2
      refine ⟨m4, s4, f4, it4, ys, e4, r2.trans r4, h4, ?_, H4⟩
      rw [h5, r2.elems, List.take_set_of_le (by omega), List.take_add_one, List.take_set_of_le (Nat.le_refl _),
        List.getElem?_set_self (by omega), List.drop_set_of_lt (by omega), List.drop_set_of_lt (by omega)]
      simp

theorem std_remove_alias_early {eq : α → α → Bool} {last : Iter} {v : α} (hE : E.Good) (hrefl : eq v v = true) (n : Nat) :
    ∀ {m : Mem α} {s : St α} {f k : Nat} {first it : Iter}, s.Ok E → s.At f first → s.At k it → s.At j jt →
    s.At s.elems.length last → f ≤ j → f ≤ k → k + 1 + n = s.elems.length → s.elems[j]? = some v →
    Holds g (cont E o al s + F) m →
    ∃ m' s' f' it' ys, std_remove_alias_loop E eq jt first it last m = .ok it' m' ∧ Rew E s s' ys ∧ s'.At f' it' ∧
      ys.take f' = s.elems.take f ++ removeRef eq (j - f) v (s.elems.drop (k + 1)) ∧ Holds g (cont E o al s' + F) m' := by
  induction n with
  | zero =>
    intro m s f k first it hs hf hk hj hl hjf hfk hn hu H
    rw [std_remove_alias_loop]
    obtain ⟨it1, e1, h1⟩ := move_next_c hs hk (by omega) H
    rw [bind_ok e1, if_neg (by rw [h1.pos, hl.pos]; omega)]
    refine ⟨m, s, f, first, s.elems, rfl, Rew.refl hs, hf, ?_, H⟩
    rw [List.drop_eq_nil_of_le (by omega)]; simp [removeRef]
  | succ n ih =>
    intro m s f k first it hs hf hk hj hl hjf hfk hn hu H
    have hjl : j < s.elems.length := by
      by_contra h
      rw [List.getElem?_eq_none (by omega)] at hu; cases hu
    rw [std_remove_alias_loop]
    obtain ⟨it1, e1, h1⟩ := move_next_c hs hk (by omega) H
    rw [bind_ok e1, if_pos (by rw [h1.pos, hl.pos]; omega), bind_ok (dereference_c hs h1 (by omega) H),
      bind_ok (dereference_c hs hj hjl H)]
    have hu' : s.elems[j]'hjl = v := by
      rw [List.getElem?_eq_getElem hjl] at hu; exact Option.some.inj hu
    rw [hu', List.drop_eq_getElem_cons (i := k + 1) (by omega), removeRef_cons]
    by_cases hp : eq (s.elems[k + 1]'(by omega)) v = true
    · rw [if_pos hp, if_pos hp]
      exact ih hs hf h1 hj hl hjf (by omega) (by omega) hu H
    · rw [if_neg hp, if_neg hp]
      have hjk : j ≠ k + 1 := by
        rintro rfl
        rw [hu'] at hp; exact hp hrefl
      obtain ⟨m2, s2, e2, r2, H2⟩ := iter_move_assign_c hE hs h1 hf (by omega) (by omega) (by omega) H
      rw [bind_ok e2]
      have hlen2 : s2.elems.length = s.elems.length := by rw [r2.elems]; simp
      obtain ⟨it3, e3, h3⟩ := move_next_c r2.ok (r2.at_ _ _ hf) (by omega) H2
      rw [bind_ok e3]
      have hl2 : s2.At s2.elems.length last := by rw [hlen2]; exact r2.at_ _ _ hl
      have htake : s2.elems.take (f + 1) = s.elems.take f ++ [s.elems[k + 1]'(by omega)] := by
        rw [r2.elems, List.take_set_of_le (by omega), List.take_add_one, List.take_set_of_le (Nat.le_refl _),
          List.getElem?_set_self (by omega)]
        rfl
      have hdrop : s2.elems.drop (k + 1 + 1) = s.elems.drop (k + 1 + 1) := by
        rw [r2.elems, List.drop_set_of_lt (by omega), List.drop_set_of_lt (by omega)]
      by_cases hfj : f = j
      · subst hfj
        obtain ⟨m4, s4, f4, it4, ys, e4, r4, h4, h5, H4⟩ := std_remove_alias_late (u := s.elems[k + 1]'(by omega)) (eq := eq)
          hE n r2.ok h3 (r2.at_ _ _ h1) (r2.at_ _ _ hj) hl2 (by omega) (by omega)
          (by omega) (by rw [r2.elems, List.getElem?_set_ne (by omega), List.getElem?_set_self (by omega)]) H2
        refine ⟨m4, s4, f4, it4, ys, e4, r2.trans r4, h4, ?_, H4⟩
        rw [h5, htake, hdrop, Nat.sub_self]
        simp
      · obtain ⟨m4, s4, f4, it4, ys, e4, r4, h4, h5, H4⟩ := ih r2.ok h3 (r2.at_ _ _ h1) (r2.at_ _ _ hj) hl2 (by omega) (by omega)
          (by omega) (by rw [r2.elems, List.getElem?_set_ne (by omega), List.getElem?_set_ne (by omega)]; exact hu) H2
        refine ⟨m4, s4, f4, it4, ys, e4, r2.trans r4, h4, ?_, H4⟩
        obtain ⟨d, hd⟩ : ∃ d, j - f = d + 1 := ⟨j - f - 1, by omega⟩
        rw [h5, htake, hdrop, hd, show j - (f + 1) = d by omega]
        simp

theorem std_find_alias_c {eq : α → α → Bool} {last : Iter} {v : α} (hs : s.Ok E) (hj : s.At j jt) (hjl : j < s.elems.length)
    (hv : s.elems[j] = v) (hrefl : eq v v = true)
    (hl : s.At s.elems.length last) (H : Holds g (cont E o al s + F) m) (n : Nat) :
    ∀ {i : Nat} {first : Iter}, s.At i first → i + n = j →
    ∃ f it', std_find_alias E eq jt first last m = .ok it' m ∧ s.At f it' ∧ i ≤ f ∧ f ≤ j ∧
      (∀ x ∈ (s.elems.take f).drop i, eq x v = false) ∧ (∀ h : f < s.elems.length, eq s.elems[f] v = true) := by
  induction n with
  | zero =>
    intro i first hf hi
    obtain rfl : i = j := by omega
    rw [std_find_alias, if_pos (by rw [hf.pos, hl.pos]; omega), bind_ok (dereference_c hs hf hjl H),
      bind_ok (dereference_c hs hj hjl H), hv, if_pos hrefl]
    exact ⟨i, first, rfl, hf, Nat.le_refl _, Nat.le_refl _, by simp, fun _ => by rw [hv]; exact hrefl⟩
  | succ n ih =>
    intro i first hf hi
    rw [std_find_alias, if_pos (by rw [hf.pos, hl.pos]; omega)]
    rw [bind_ok (dereference_c hs hf (by omega) H), bind_ok (dereference_c hs hj hjl H), hv]
    by_cases hp : eq (s.elems[i]'(by omega)) v = true
    · rw [if_pos hp]
      exact ⟨i, first, rfl, hf, Nat.le_refl _, by omega, by simp, fun h => hp⟩
    · rw [if_neg hp]
      obtain ⟨it', e', ha'⟩ := move_next_c hs hf (by omega) H
      rw [bind_ok e']
      obtain ⟨f, it2, e2, ha2, h1, h0, h2, h3⟩ := ih ha' (by omega)
      refine ⟨f, it2, e2, ha2, by omega, h0, ?_, h3⟩
      intro x hx
      rw [List.drop_eq_getElem_cons (i := i) (by simp; omega), List.getElem_take] at hx
      rcases List.mem_cons.1 hx with rfl | hx
      · simpa using hp
      · exact h2 x hx

theorem removeRef_skip {eq : α → α → Bool} {v x : α} {rest : List α} : ∀ {l : List α} {k : Nat}, (∀ y ∈ l, eq y v = false) →
    l.length ≤ k → eq x v = true → removeRef eq k v (l ++ x :: rest) = l ++ removeRef eq (k - l.length) v rest := by
  intro l
  induction l with
  | nil => intro k _ _ hx; simp [removeRef, hx]
  | cons y l ih =>
    intro k hl hk hx
    obtain ⟨k, rfl⟩ : ∃ q, k = q + 1 := ⟨k - 1, by simp at hk; omega⟩
    rw [List.cons_append, removeRef_cons, if_neg (by rw [hl y (by simp)]; simp)]
    simp only [List.length_cons, Nat.add_sub_add_right, List.cons_append]
    rw [ih (fun y hy => hl y (by simp [hy])) (by simpa using hk) hx]

/-- C65: exactly what `remove(s[j])` does (`==` need only say that `s[j]` equals itself): it
returns, without asking for memory, and the reference denotes `s[j]` until `j + 1` elements have
been kept, from then on the last of these. -/
theorem C65_remove (hE : E.Good) (hr : Reach E m) (hc : Contents E o m xs) (hj : j < xs.length)
    (hnj : nth E o j m = .ok jt m) {eq : α → α → Bool} (hrefl : eq xs[j] xs[j] = true) :
    ∃ m', remove_alias E o eq jt m = .ok () m' ∧ Contents E o m' (removeRef eq j xs[j] xs) ∧ m'.log = m.log := by
  obtain ⟨al, s, F, hs, rfl, H⟩ := hr.cont hE hc
  have hj' := at_of_nth hs H (Nat.le_of_lt hj) hnj
  obtain ⟨b, hb⟩ := St.At.exists hs (Nat.zero_le _)
  obtain ⟨l, hl⟩ := St.At.exists hs (Nat.le_refl _)
  obtain ⟨f, it1, e1, h1, -, h0, h2, h3⟩ := std_find_alias_c hs hj' hj rfl hrefl hl H j hb (by omega)
  obtain ⟨m2, s2, f2, it2, ys, e2, r2, h4, h5, H2⟩ := std_remove_alias_early (eq := eq) hE hrefl (s.elems.length - f - 1) hs h1 h1 hj' hl h0
    (Nat.le_refl _) (by omega) (List.getElem?_eq_getElem hj) H
  have hspec : removeRef eq j s.elems[j] s.elems = s.elems.take f ++ removeRef eq (j - f) s.elems[j] (s.elems.drop (f + 1)) := by
    have hcut : s.elems = s.elems.take f ++ s.elems[f]'(by omega) :: s.elems.drop (f + 1) := by
      rw [List.getElem_cons_drop, List.take_append_drop]
    have hlen : (s.elems.take f).length = f := by rw [List.length_take]; omega
    have := removeRef_skip (eq := eq) (v := s.elems[j]) (x := s.elems[f]'(by omega)) (rest := s.elems.drop (f + 1))
      (l := s.elems.take f) (k := j) (fun y hy => h2 y (by simpa using hy)) (by omega) (h3 (by omega))
    rw [hlen, ← hcut] at this
    exact this
  obtain ⟨la1, hla1⟩ := St.At.exists r2.ok (Nat.le_refl _)
  have hle := h4.le
  have hend := erase_range_c hE (s2.elems.length - f2) r2.ok h4.pos hla1 (by omega) H2
  unfold remove_alias begin_ end_
  rw [bind_ok (find_first_c hs hb H), bind_ok (find_end_c hs hl H), bind_ok e1,
    if_pos (by rw [h1.pos, hl.pos]; omega), bind_ok e2]
  beta_reduce
  rw [bind_ok (find_end_c r2.ok hla1 H2)]
  unfold Spec at hend
  cases er : erase_range E o it2 la1 m2 with
  | throw e m' => rw [er] at hend; exact hend.elim
  | ub u => rw [er] at hend; exact hend.elim
  | div => rw [er] at hend; exact hend.elim
  | ok r m3 =>
    rw [er] at hend
    obtain ⟨s3, hs3, he3, -, H3⟩ := hend
    refine ⟨m3, bind_ok er, ?_, H3.log⟩
    have := cont_contents hs3 H3
    rwa [he3, List.drop_length, List.append_nil, r2.elems, h5, ← hspec] at this

theorem removeRef_safe {eq : α → α → Bool} {v : α} : ∀ {l : List α} {k : Nat}, (l.filter (fun y => !eq y v)).length ≤ k →
    removeRef eq k v l = l.filter (fun y => !eq y v) := by
  intro l
  induction l with
  | nil => intro k _; rfl
  | cons x l ih =>
    intro k hk
    rw [removeRef_cons]
    by_cases hp : eq x v = true
    · rw [List.filter_cons_of_neg (by simp [hp])] at hk ⊢
      rw [if_pos hp, ih hk]
    · rw [List.filter_cons_of_pos (by simpa using hp)] at hk ⊢
      obtain ⟨k, rfl⟩ : ∃ q, k = q + 1 := ⟨k - 1, by simp at hk; omega⟩
      rw [if_neg hp]
      simp only
      rw [ih (by simpa using hk)]

/-- C65: `remove(s[j])` removes the elements equal to `s[j]`, as it should, if at most `j`
elements are to be kept. -/
theorem C65_remove_safe (hE : E.Good) (hr : Reach E m) (hc : Contents E o m xs) (hj : j < xs.length)
    (hnj : nth E o j m = .ok jt m) {eq : α → α → Bool} (hrefl : eq xs[j] xs[j] = true)
    (hfew : (xs.filter (fun y => !eq y xs[j])).length ≤ j) :
    ∃ m', remove_alias E o eq jt m = .ok () m' ∧ Contents E o m' (xs.filter (fun y => !eq y xs[j])) := by
  obtain ⟨m', h1, h2, -⟩ := C65_remove hE hr hc hj hnj hrefl
  rw [removeRef_safe hfew] at h2
  exact ⟨m', h1, h2⟩

theorem assign_self_loop : ∀ {vs : List α} {i j : Nat} {m : Mem α} {s : St α} {first last src srcLast : Iter},
    s.Ok E → s.At i first → s.At s.elems.length last → s.At j src → s.At (j + vs.length) srcLast → i ≤ j →
    (s.elems.drop j).take vs.length = vs → Holds g (cont E o al s + F) m →
    assign_range_loop E (copySrc E srcLast) o src first last m = assign_range_loop E (listSrc E) o vs first last m := by
  intro vs
  induction vs with
  | nil =>
    intro i j m s first last src srcLast hs ha hl hj hjl hij hv H
    rw [assign_range_loop, assign_range_loop]
    have h1 : (copySrc E srcLast).done src = true := by simp [copySrc, hj.pos, hjl.pos]
    have h2 : (listSrc E).done ([] : List α) = true := rfl
    rw [if_pos h1, if_pos h2]
  | cons v vs ih =>
    intro i j m s first last src srcLast hs ha hl hj hjl hij hv H
    rw [assign_range_loop, assign_range_loop]
    have hle := hjl.le
    rw [List.length_cons] at hle
    have hjs : j < s.elems.length := by omega
    have h1 : (copySrc E srcLast).done src ≠ true := by simp [copySrc, hj.pos, hjl.pos]
    have h2 : (listSrc E).done (v :: vs) ≠ true := by simp [listSrc]
    rw [if_neg h1, if_neg h2]
    have hv' := List.drop_eq_getElem_cons hjs
    rw [hv', List.length_cons, List.take_succ_cons] at hv
    obtain ⟨hv1, hv2⟩ := List.cons.inj hv
    have hp : first.pos ≠ last.pos := by rw [ha.pos, hl.pos]; omega
    rw [if_neg hp, if_neg hp]
    have r1 : (copySrc E srcLast).read src m = copyVal E v m := by
      show (do copyVal E (← dereference E src)) m = _
      rw [copy_alias hs hj hjs H, hv1]
    have r2 : (listSrc E).read (v :: vs) m = copyVal E v m := rfl
    obtain ⟨m1, ht, hc | ⟨hc, -, -⟩⟩ := Mk.copy (E := E) v m
    · obtain ⟨m2, s2, e2, hs2, he2, hpres, -, H2⟩ := wrElem_c v hs ha (by omega) (ht.holds H)
      have hlen : s2.elems.length = s.elems.length := by rw [he2]; simp
      obtain ⟨it3, e3, ha3⟩ := move_next_c hs2 (hpres _ _ ha) (by omega) H2
      obtain ⟨it4, e4, ha4⟩ := move_next_c hs2 (hpres _ _ hj) (by omega) H2
      have e5 : (copySrc E srcLast).next src m2 = .ok it4 m2 := e4
      have e6 : (listSrc E).next (v :: vs) m2 = .ok vs m2 := rfl
      rw [bind_ok (r1.trans hc), bind_ok (r2.trans hc), bind_ok e2, bind_ok e2, bind_ok e3, bind_ok e3, bind_ok e5, bind_ok e6]
      refine ih hs2 ha3 (by rw [hlen]; exact hpres _ _ hl) ha4 ?_ (by omega) ?_ H2
      · rw [show j + 1 + vs.length = j + (v :: vs).length by simp; omega]; exact hpres _ _ hjl
      · rw [he2, List.drop_set_of_lt (by omega)]; exact hv2
    · rw [bind_throw (r1.trans hc), bind_throw (r2.trans hc)]

/-- C65: assigning a range of its own elements to a container, `assign(nth(a), nth(b))`,
does exactly what assigning copies of these elements does. -/
theorem C65_assign_range (hE : E.Good) (hr : Reach E m) (hc : Contents E o m xs) (hab : a ≤ b) (hb : b ≤ xs.length)
    (hna : nth E o a m = .ok it m) (hnb : nth E o b m = .ok jt m) :
    assign_self_range E o it jt m = assign_list E o ((xs.take b).drop a) m := by
  obtain ⟨al, s, F, hs, rfl, H⟩ := hr.cont hE hc
  have ha' := at_of_nth hs H (by omega) hna
  have hb' := at_of_nth hs H hb hnb
  obtain ⟨f, hf⟩ := St.At.exists hs (Nat.zero_le _)
  obtain ⟨l, hl⟩ := St.At.exists hs (Nat.le_refl _)
  unfold assign_self_range assign_list assign_range
  rw [bind_ok (find_first_c hs hf H), bind_ok (find_first_c hs hf H), bind_ok (find_end_c hs hl H), bind_ok (find_end_c hs hl H)]
  have hlen : ((s.elems.take b).drop a).length = b - a := by simp; omega
  refine assign_self_loop hs hf hl ha' ?_ (Nat.zero_le _) ?_ H
  · rw [hlen, show a + (b - a) = b by omega]; exact hb'
  · rw [hlen, List.drop_take]

/-- the hypotheses of C65_push, C65_resize, C65_assign and C65_assign_range are met, in
a tree of height 3 -/
example : ∃ (m : Mem Nat) (it jt kt : Iter), Reach demo m ∧ Contents demo 0 m eight ∧ nth demo 0 2 m = .ok it m ∧
    nth demo 0 5 m = .ok jt m ∧ nth demo 0 8 m = .ok kt m ∧ push_back_alias demo 0 jt m = push_back demo 0 16 m ∧
    resize_alias demo 0 9 jt m = resize demo 0 9 16 m ∧ assign_fill_alias demo 0 9 jt m = assign_fill demo 0 9 16 m ∧
    assign_self_range demo 0 it kt m = assign_list demo 0 [12, 14, 15, 16, 17, 18] m := by
  obtain ⟨m, h1, h2, -⟩ := demo_eight
  obtain ⟨it, h3⟩ := h1.nth demo_good h2 2
  obtain ⟨jt, h4⟩ := h1.nth demo_good h2 5
  obtain ⟨kt, h5⟩ := h1.nth demo_good h2 8
  exact ⟨m, it, jt, kt, h1, h2, h3, h4, h5, (C65_push demo_good h1 h2 (by decide) h4).1,
    C65_resize demo_good h1 h2 (by decide) h4 (by decide), C65_assign demo_good h1 h2 (by decide) h4 (by decide),
    C65_assign_range demo_good h1 h2 (by decide) (by decide) h3 h5⟩

section Concrete
set_option maxRecDepth 100000
set_option maxHeartbeats 2000000
set_option linter.unusedTactic false

set_option linter.defProp false in
def run_erase {E : Env Nat} {o : Nat} {a b : Iter} := erase_range.eq_1 E o a b
set_option linter.defProp false in
def run_assign {E : Env Nat} {o n : Nat} {x : M Nat Nat} {a b : Iter} := assign_count_loop.eq_1 E o x n a b
set_option linter.defProp false in
def run_find {E : Env Nat} {f : Nat → Nat → Bool} {a b c : Iter} := std_find_alias.eq_1 E f a b c
set_option linter.defProp false in
def run_remove {E : Env Nat} {f : Nat → Nat → Bool} {a b c d : Iter} := std_remove_alias_loop.eq_1 E f a b c d
set_option linter.defProp false in
def run_range {E : Env Nat} {S : Src Nat Iter} {o n : Nat} {a b : Iter} := emplace_range_loop.eq_1 E S o a b n
set_option linter.defProp false in
def run_next {E : Env Nat} {e : Entry} {a b c : Nat} := move_next_branch.eq_1 E e a b c

macro_rules | `(tactic| go_head) => `(tactic| first
  | refine (congrFun run_erase _).trans ?_
  | refine (congrFun run_assign _).trans ?_
  | refine (congrFun run_find _).trans ?_
  | refine (congrFun run_remove _).trans ?_
  | refine (congrFun run_range _).trans ?_
  | refine (congrFun run_next _).trans ?_)

theorem roomy_123 : Reach roomy (oneSeg [1, 2, 3]) :=
  oneSeg_push (v := 3) roomy_12 (by decide) (by decide) (by go_eq)
theorem roomy_121 : Reach roomy (oneSeg [1, 2, 1]) :=
  oneSeg_push (v := 1) roomy_12 (by decide) (by decide) (by go_eq)

/-- two insertions at the end, the value being read through a reference to the last element -/
macro "twice" : tactic => `(tactic| (
  apply run_step
  · apply run_step; (next => go)
    refine run_neg (by decide) ?_
    apply run_step
    · unfold insert_single_segment
      dsimp only
      refine run_neg (by decide) ?_
      refine run_neg (by decide) ?_
      refine run_neg (by decide) ?_
      apply run_step; (next => go)
      apply run_step; (next => go)
      refine run_neg (by decide) ?_
      apply run_step; (next => go)
      apply run_step; (next => go)
      apply run_step; (next => go)
      apply run_step; (next => go)
      apply run_step; (next => go)
      go
    rfl
  apply run_step; (next => go)
  apply run_ub
  go_ub))
theorem twice_ub : emplace_count_loop demo 0 (do copyVal demo (← dereference demo ⟨⟨⟨1, 1, 2⟩, ⟨0, 0⟩⟩, 1⟩)) 2
    ⟨⟨⟨1, 2, 2⟩, ⟨0, 0⟩⟩, 2⟩ (oneSeg [1, 2]) = .ub .raw := by
  twice
theorem twice_ub2 : emplace_count_loop demo 0 (do copyVal demo (← dereference demo ⟨⟨⟨1, 1, 2⟩, ⟨0, 0⟩⟩, 1⟩)) 2
    ⟨⟨⟨1, 2, 2⟩, ⟨0, 0⟩⟩, 2⟩ (oneSeg [2, 2] 2) = .ub .raw := by
  twice

/-- C65: growing by two elements, the reference may dangle: `resize(4, s[1])` of [1, 2]
is undefined -/
theorem C65_resize_ub : ∃ (m : Mem Nat) (jt : Iter), Reach demo m ∧ Contents demo 0 m [1, 2] ∧
    nth demo 0 1 m = .ok jt m ∧ resize_alias demo 0 4 jt m = .ub .raw := by
  refine ⟨oneSeg [1, 2], ⟨⟨⟨1, 1, 2⟩, ⟨0, 0⟩⟩, 1⟩, demo_12, oneSeg_contents (by decide), by go, ?_⟩
  apply run_step; (next => go)
  refine run_neg (by decide) ?_
  apply run_step; (next => go)
  refine run_neg (by decide) ?_
  apply run_ub
  apply run_ub
  exact twice_ub

/-- C65: so is `assign(4, s[1])` -/
theorem C65_assign_ub : ∃ (m : Mem Nat) (jt : Iter), Reach demo m ∧ Contents demo 0 m [1, 2] ∧
    nth demo 0 1 m = .ok jt m ∧ assign_fill_alias demo 0 4 jt m = .ub .raw := by
  refine ⟨oneSeg [1, 2], ⟨⟨⟨1, 1, 2⟩, ⟨0, 0⟩⟩, 1⟩, demo_12, oneSeg_contents (by decide), by go, ?_⟩
  apply run_step; (next => go)
  apply run_step; (next => go)
  refine (congrFun run_assign _).trans ?_
  refine run_neg (by decide) ?_
  refine run_neg (by decide) ?_
  apply run_step; (next => go)
  refine run_step (m' := oneSeg [2, 2] 1) (by go_eq) ?_
  apply run_step; (next => go)
  refine (congrFun run_assign _).trans ?_
  refine run_neg (by decide) ?_
  refine run_neg (by decide) ?_
  apply run_step; (next => go)
  refine run_step (m' := oneSeg [2, 2] 2) (by go_eq) ?_
  apply run_step; (next => go)
  refine (congrFun run_assign _).trans ?_
  refine run_neg (by decide) ?_
  refine run_pos (by decide) ?_
  apply run_ub
  apply run_ub
  exact twice_ub2

/-- C65: `remove(s[0])` of [1, 2, 1] leaves a 1: once the first element is overwritten,
the reference denotes another value -/
theorem C65_remove_wrong : ∃ (m m' : Mem Nat) (jt : Iter), Reach roomy m ∧ Contents roomy 0 m [1, 2, 1] ∧
    nth roomy 0 0 m = .ok jt m ∧ remove_alias roomy 0 (fun a b => decide (a = b)) jt m = .ok () m' ∧
    Contents roomy 0 m' [2, 1] := by
  refine ⟨oneSeg [1, 2, 1], oneSeg [2, 1], ⟨⟨⟨1, 0, 3⟩, ⟨0, 0⟩⟩, 0⟩, roomy_121, oneSeg_contents (by decide), by go, by go_eq,
    oneSeg_contents (by decide)⟩

-- the reference to the last element lasts long enough,
-- the reference to the first one does not
example : removeRef (fun a b => decide (a = b)) 4 1 [1, 2, 3, 2, 1] = [2, 3, 2] ∧
    removeRef (fun a b => decide (a = b)) 0 1 [1, 2, 3, 2, 1] = [2, 3, 1] := by decide

example : ∃ (m m' : Mem Nat) (jt : Iter), Reach demo m ∧ Contents demo 0 m [1, 2, 3, 2, 1] ∧ nth demo 0 4 m = .ok jt m ∧
    remove_alias demo 0 (fun a b => decide (a = b)) jt m = .ok () m' ∧ Contents demo 0 m' [2, 3, 2] := by
  obtain ⟨m, hr, hc⟩ := demo_list [1, 2, 3, 2, 1]
  obtain ⟨jt, hn⟩ := hr.nth demo_good hc 4
  obtain ⟨m', h1, h2⟩ := C65_remove_safe (eq := fun a b => decide (a = b)) demo_good hr hc (by decide : 4 < _) hn (by decide) (by decide)
  exact ⟨m, m', jt, hr, hc, hn, h1, h2⟩

/-- C65: `s.splice(s.begin(), s, s.nth(2))`, moving the last of [1, 2, 3] to the front,
leaves a container whose last element is not there -/
theorem C65_splice_self : ∃ (m m' : Mem Nat) (it jt : Iter), Reach roomy m ∧ Contents roomy 0 m [1, 2, 3] ∧
    nth roomy 0 0 m = .ok it m ∧ nth roomy 0 2 m = .ok jt m ∧
    splice_one roomy 0 it 0 jt m = .ok () m' ∧ size 0 m' = .ok 3 m' ∧ index_op roomy 0 2 m' = .ub .raw := by
  refine ⟨oneSeg [1, 2, 3], rawSeg 3 (upd (upd (upd (fun _ => .raw) 0 (.val 3)) 1 (.val 1)) 3 (.val 3)) ⟨1, 0⟩ 1, ⟨⟨⟨1, 0, 3⟩, ⟨0, 0⟩⟩, 0⟩,
    ⟨⟨⟨1, 2, 3⟩, ⟨0, 0⟩⟩, 2⟩, roomy_123, oneSeg_contents (by decide), by go, by go, by go_eq, by go, by go_ub⟩

/-- C65: `s.merge(s)` is undefined already for one element -/
theorem C65_merge_self : ∃ (m : Mem Nat), Reach roomy m ∧ Contents roomy 0 m [1, 2] ∧
    merge roomy 0 0 (fun a b => decide (a < b)) m = .ub .leak := by
  refine ⟨oneSeg [1, 2], roomy_12, oneSeg_contents (by decide), by go_ub⟩

end Concrete

end SegTree
