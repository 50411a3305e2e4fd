/-
  C67: input ranges in general.  A range is any user-supplied state machine,
  single pass, whose dereference and increment may throw.
-/
import Verif.Model.Ranges
import Verif.Props.Generic
import Verif.Props.Multi
set_option autoImplicit false

namespace SegTree
variable {α σ : Type} {E : Env α} {m m' m1 m2 : Mem α} {o p i j : Nat} {xs ys vs : List α} {it jt : Iter} {v : α} {e : Exn}

/-! ### Specification -/

/-- Reading the range from `st` on, each position once and in order, gives the
values `vs`, and then `true`: the range ends, or `false`: a dereference or an
increment throws. -/
inductive Yields (Z : Stream α σ) : σ → List α → Bool → Prop where
  | done {st : σ} : Z.done st = true → Yields Z st [] true
  | badRead {st : σ} : Z.done st = false → Z.deref st = none → Yields Z st [] false
  | badIncr {st : σ} {v : α} : Z.done st = false → Z.deref st = some v → Z.incr st = none → Yields Z st [v] false
  | next {st : σ} {v : α} {st' : σ} {vs : List α} {b : Bool} : Z.done st = false → Z.deref st = some v → Z.incr st = some st' → Yields Z st' vs b →
      Yields Z st (v :: vs) b

/-- every other container is the same to every observer -/
def OthersUnchanged (E : Env α) (o : Nat) (m m' : Mem α) : Prop :=
  ∀ p ys, p ≠ o → Contents E p m ys → Unchanged E p m m'

/-! ### Proofs -/

/-- `m'` is reached from `m` by calls on container `o` -/
inductive Via (E : Env α) (o : Nat) : Mem α → Mem α → Prop where
  | refl (m : Mem α) : Via E o m m
  | step {m m1 m2 : Mem α} {S : Bank α} {c : Un α} : Via E o m m1 → View E m1 S → (Op.un o c).Pre E S →
      ((∃ r, (Op.un o c).run E m1 = .ok r m2) ∨ ∃ e, (Op.un o c).run E m1 = .throw e m2) → Via E o m m2

theorem Via.reach (hr : Reach E m) (h : Via E o m m') : Reach E m' := by
  induction h with
  | refl => exact hr
  | step _ hv hp ho ih =>
    rcases ho with ⟨r, ho⟩ | ⟨e, ho⟩
    · exact .ret ih hv hp ho
    · exact .exc ih hv hp ho

theorem Unchanged.refl : Unchanged E o m m :=
  ⟨fun _ h => h, fun _ h => h, fun _ h => h, fun _ _ h => ⟨h, fun _ _ _ _ h => h⟩, fun _ _ h => h, fun h => h⟩

theorem Via.others (hE : E.Good) (hr : Reach E m) (h : Via E o m m') : OthersUnchanged E o m m' := by
  intro p ys hp hd
  induction h with
  | refl => exact .refl
  | step h1 hv hq ho ih =>
    exact ih.trans (C34_others hE (h1.reach hr) hv hq ho (by simpa [Op.objs] using hp)) ⟨ys, hd⟩

theorem Via.trans (h1 : Via E o m m1) (h2 : Via E o m1 m2) : Via E o m m2 := by
  induction h2 with
  | refl => exact h1
  | step _ hv hp ho ih => exact .step ih hv hp ho

/-- one call -/
theorem Via.call (hE : E.Good) (h : Reach E m) (hc : Contents E o m xs) (c : Un α) (hp : ∀ al, c.Pre E ⟨al, xs⟩) :
    (∃ r m' al x', c.run E o m = .ok r m' ∧ c.Ok ⟨al, xs⟩ r x' ∧ Contents E o m' x'.elems ∧ Via E o m m') ∨
    (∃ e m' al x', c.run E o m = .throw e m' ∧ c.Exc E ⟨al, xs⟩ e x' ∧ Contents E o m' x'.elems ∧ Via E o m m') := by
  obtain ⟨S, al, hv, ho, -⟩ := h.view hE hc
  rcases h.call hE hc c hp with ⟨r, m', al', x', h1, h2, h3, -⟩ | ⟨e, m', al', x', h1, h2, h3, -⟩
  · exact .inl ⟨r, m', al', x', h1, h2, h3, .step (.refl _) hv ⟨_, ho, hp al⟩ (.inl ⟨r, h1⟩)⟩
  · exact .inr ⟨e, m', al', x', h1, h2, h3, .step (.refl _) hv ⟨_, ho, hp al⟩ (.inr ⟨e, h1⟩)⟩

theorem via_insert_rv (hE : E.Good) (hr : Reach E m) (hc : Contents E o m xs) (hi : i ≤ xs.length)
    (hn : nth E o i m = .ok it m) (hsz : xs.length + 1 ≤ max_size E) :
    (∃ jt m', insert_rv E o it v m = .ok jt m' ∧ Contents E o m' (ins xs i [v]) ∧ nth E o i m' = .ok jt m' ∧ Via E o m m') ∨
    (∃ m', insert_rv E o it v m = .throw .alloc m' ∧ Contents E o m' xs ∧ Via E o m m') := by
  rcases Via.call hE hr hc (.insertRv i v) (fun _ => ⟨hi, hsz⟩) with
    ⟨r, m', al, x', h1, ⟨-, rfl⟩, h3, h4⟩ | ⟨e, m', al, x', h1, ⟨rfl, rfl⟩, h3, h4⟩
  · obtain ⟨jt, h5, -⟩ := pos_inv h1
    rw [bind_ok hn] at h5
    exact .inl ⟨jt, m', h5, h3, (C03_insert hE hr hc hi hn hsz (.inr h5)).1, h4⟩
  · have h5 := pos_inv_throw h1
    rw [bind_ok hn] at h5
    exact .inr ⟨m', h5, h3, h4⟩

theorem ins_length (hi : i ≤ xs.length) : (ins xs i vs).length = xs.length + vs.length := by
  simp [ins]; omega

theorem ins_ins (hi : i ≤ xs.length) : ins (ins xs i [v]) (i + 1) vs = ins xs i (v :: vs) := by
  unfold ins
  rw [show xs.take i ++ ([v] ++ xs.drop i) = xs.take i ++ v :: xs.drop i from rfl, take_ins1 hi, drop_ins1 hi]
  simp

variable {Z : Stream α σ} {st : σ} {b : Bool}

theorem read_some {st : σ} (h : Z.deref st = some v) : Z.src.read st = (pure v : M α α) := by
  simp only [Stream.src, h]
theorem read_none {st : σ} (h : Z.deref st = none) : Z.src.read st = (M.throw .elem : M α α) := by
  simp only [Stream.src, h]
theorem next_some {st st' : σ} (h : Z.incr st = some st') : Z.src.next st = (pure st' : M α σ) := by
  simp only [Stream.src, h]
theorem next_none {st : σ} (h : Z.incr st = none) : Z.src.next st = (M.throw .elem : M α σ) := by
  simp only [Stream.src, h]

/-- the loop of `emplace_range` over any range -/
theorem stream_loop (hE : E.Good) (hY : Yields Z st vs b) : ∀ {m : Mem α} {xs : List α} {i cnt : Nat} {it : Iter},
    Reach E m → Contents E o m xs → i ≤ xs.length → nth E o i m = .ok it m → xs.length + vs.length ≤ max_size E →
    (∃ jt m', emplace_range_loop E Z.src o it st cnt m = .ok (jt, cnt + vs.length) m' ∧ b = true ∧
      Contents E o m' (ins xs i vs) ∧ nth E o (i + vs.length) m' = .ok jt m' ∧ Via E o m m') ∨
    (∃ m', emplace_range_loop E Z.src o it st cnt m = .throw .elem m' ∧ b = false ∧
      Contents E o m' (ins xs i vs) ∧ Via E o m m') ∨
    (∃ m' k, k < vs.length ∧ emplace_range_loop E Z.src o it st cnt m = .throw .alloc m' ∧
      Contents E o m' (ins xs i (vs.take k)) ∧ Via E o m m') := by
  induction hY with
  | done h =>
    intro m xs i cnt it hr hc hi hn hsz
    refine .inl ⟨it, m, ?_, rfl, by simpa [ins] using hc, hn, .refl _⟩
    rw [emplace_range_loop, show Z.src.done _ = true from h]; rfl
  | badRead h h1 =>
    intro m xs i cnt it hr hc hi hn hsz
    refine .inr (.inl ⟨m, ?_, rfl, by simpa [ins] using hc, .refl _⟩)
    rw [emplace_range_loop, show Z.src.done _ = false from h]
    unfold emplace_single
    rw [read_none h1]
    rfl
  | @badIncr st v h h1 h2 =>
    intro m xs i cnt it hr hc hi hn hsz
    rw [emplace_range_loop, show Z.src.done _ = false from h, read_some h1, next_none h2]
    rw [if_neg Bool.false_ne_true]
    rcases via_insert_rv (v := v) hE hr hc hi hn hsz with ⟨jt, m1, e1, c1, -, v1⟩ | ⟨m1, e1, c1, v1⟩
    · refine .inr (.inl ⟨m1, ?_, rfl, c1, v1⟩)
      rw [bind_ok (x := emplace_single E o it (pure v)) e1]; rfl
    · refine .inr (.inr ⟨m1, 0, by simp, ?_, by simpa [ins] using c1, v1⟩)
      rw [bind_throw (x := emplace_single E o it (pure v)) e1]
  | @next st v st' vs b h h1 h2 _ ih =>
    intro m xs i cnt it hr hc hi hn hsz
    simp only [List.length_cons] at hsz
    rw [emplace_range_loop, show Z.src.done _ = false from h, read_some h1, next_some h2]
    rw [if_neg Bool.false_ne_true]
    rcases via_insert_rv (v := v) hE hr hc hi hn (by omega) with ⟨jt, m1, e1, c1, n1, v1⟩ | ⟨m1, e1, c1, v1⟩
    · have hl : (ins xs i [v]).length = xs.length + 1 := ins_length hi
      have r1 := v1.reach hr
      obtain ⟨kt, e2, n2⟩ := C18_next hE r1 c1 (by omega) n1
      have key : (emplace_single E o it (pure v) >>= fun it => pure st' >>= fun first => move_next_iterator E it >>=
          fun it => emplace_range_loop E Z.src o it first (cnt + 1) : M α (Iter × Nat)) m =
          emplace_range_loop E Z.src o kt st' (cnt + 1) m1 := by
        rw [bind_ok (x := emplace_single E o it (pure v)) e1, bind_ok (x := (pure st' : M α σ)) rfl, bind_ok e2]
      rw [key]
      rcases ih (cnt := cnt + 1) r1 c1 (by omega) n2 (by omega) with
        ⟨lt, m2, e3, hb, c3, n3, v3⟩ | ⟨m2, e3, hb, c3, v3⟩ | ⟨m2, k, hk, e3, c3, v3⟩
      · refine .inl ⟨lt, m2, ?_, hb, by rw [← ins_ins hi]; exact c3, ?_, v1.trans v3⟩
        · rw [e3]; simp only [List.length_cons]; congr 2; omega
        · rw [List.length_cons, show i + (vs.length + 1) = i + 1 + vs.length by omega]; exact n3
      · exact .inr (.inl ⟨m2, e3, hb, by rw [← ins_ins hi]; exact c3, v1.trans v3⟩)
      · refine .inr (.inr ⟨m2, k + 1, by simp; omega, e3, ?_, v1.trans v3⟩)
        rw [List.take_succ_cons, ← ins_ins hi]; exact c3
    · refine .inr (.inr ⟨m1, 0, by simp, ?_, by simpa [ins] using c1, v1⟩)
      rw [bind_throw (x := emplace_single E o it (pure v)) e1]

theorem nth_prev_count (hE : E.Good) (hr : Reach E m) (hc : Contents E o m xs) {n : Nat} (hi : i + n ≤ xs.length)
    (hn : nth E o (i + n) m = .ok it m) :
    ∃ jt, move_prev_iterator_count E it n m = .ok jt m ∧ nth E o i m = .ok jt m := by
  obtain ⟨al, s, F, hs, rfl, H⟩ := hr.cont hE hc
  obtain ⟨jt, h1, h2⟩ := move_prev_iterator_count_c (n := n) hs (at_of_nth hs H hi hn) (by omega) H
  rw [show i + n - n = i by omega] at h2
  exact ⟨jt, h1, nth_c hs h2 H⟩

theorem stream_insert (hE : E.Good) (hr : Reach E m) (hc : Contents E o m xs) (hi : i ≤ xs.length)
    (hn : nth E o i m = .ok it m) (hY : Yields Z st vs b) (hsz : xs.length + vs.length ≤ max_size E) :
    (∃ jt m', emplace_range E Z.src o it st m = .ok jt m' ∧ b = true ∧
      Contents E o m' (ins xs i vs) ∧ nth E o i m' = .ok jt m' ∧ Via E o m m') ∨
    (∃ m', emplace_range E Z.src o it st m = .throw .elem m' ∧ b = false ∧
      Contents E o m' (ins xs i vs) ∧ Via E o m m') ∨
    (∃ m' k, k < vs.length ∧ emplace_range E Z.src o it st m = .throw .alloc m' ∧
      Contents E o m' (ins xs i (vs.take k)) ∧ Via E o m m') := by
  unfold emplace_range
  rcases stream_loop (cnt := 0) hE hY hr hc hi hn hsz with
    ⟨lt, m2, e3, hb, c3, n3, v3⟩ | ⟨m2, e3, hb, c3, v3⟩ | ⟨m2, k, hk, e3, c3, v3⟩
  · obtain ⟨jt, e4, n4⟩ := nth_prev_count hE (v3.reach hr) c3 (by rw [ins_length hi]; omega) n3
    refine .inl ⟨jt, m2, ?_, hb, c3, n4, v3⟩
    rw [bind_ok e3]
    dsimp only
    rw [Nat.zero_add, e4]
  · exact .inr (.inl ⟨m2, bind_throw e3, hb, c3, v3⟩)
  · exact .inr (.inr ⟨m2, k, hk, bind_throw e3, c3, v3⟩)

theorem via_set (hE : E.Good) (hr : Reach E m) (hc : Contents E o m xs) (hi : i < xs.length)
    (hn : nth E o i m = .ok it m) :
    ∃ m', wrElem E it.entry.seg.ptr it.entry.seg.idx v m = .ok () m' ∧ Contents E o m' (xs.set i v) ∧
      (∀ j jt, nth E o j m = .ok jt m → nth E o j m' = .ok jt m') ∧ Via E o m m' := by
  have hx : deref_set_rv E it v = wrElem E it.entry.seg.ptr it.entry.seg.idx v := by
    unfold deref_set_rv assign_segment
    rw [hE.throws]; rfl
  rcases Via.call hE hr hc (.setRv i v) (fun _ => hi) with ⟨r, m', al, x', h1, ⟨-, rfl⟩, h3, h4⟩ | ⟨e, m', al, x', h1, h2, h3, h4⟩
  · obtain ⟨-, u, h5⟩ := unit_inv h1
    rw [bind_ok hn] at h5
    rcases C07_write hE hr hc hi hn (v := v) (.inr (.inr rfl)) with ⟨m2, h6, -, h7, -⟩ | ⟨m2, h6, -⟩
    · rw [h6] at h5; cases h5
      rw [hx] at h6
      exact ⟨_, h6, h3, h7, h4⟩
    · rw [h6] at h5; cases h5
  · exact absurd h2 id

theorem stream_assign_end (hE : E.Good) (hd : Z.done st = false) (hY : Yields Z st vs b) {ws : List α}
    (hr : Reach E m) (hc : Contents E o m ws) (hn : nth E o ws.length m = .ok it m)
    (hm : nth E o ws.length m = .ok jt m) (hsz : ws.length + vs.length ≤ max_size E) :
    (∃ m', assign_range_loop E Z.src o st it jt m = .ok () m' ∧ b = true ∧ Contents E o m' (ws ++ vs) ∧ Via E o m m') ∨
    (∃ m', assign_range_loop E Z.src o st it jt m = .throw .elem m' ∧ b = false ∧
      Contents E o m' (ws ++ vs) ∧ Via E o m m') ∨
    (∃ m' k, k < vs.length ∧ assign_range_loop E Z.src o st it jt m = .throw .alloc m' ∧
      Contents E o m' (ws ++ vs.take k) ∧ Via E o m m') := by
  rw [hn] at hm; cases hm
  have hi : ∀ us, ins ws ws.length us = ws ++ us := by intro us; simp [ins]
  rw [assign_range_loop, show Z.src.done _ = false from hd, if_neg Bool.false_ne_true, if_pos rfl]
  rcases stream_insert hE hr hc (Nat.le_refl _) hn hY hsz with
    ⟨lt, m2, e3, hb, c3, n3, v3⟩ | ⟨m2, e3, hb, c3, v3⟩ | ⟨m2, k, hk, e3, c3, v3⟩
  · exact .inl ⟨m2, by rw [bind_ok e3]; rfl, hb, by rw [← hi]; exact c3, v3⟩
  · exact .inr (.inl ⟨m2, bind_throw e3, hb, by rw [← hi]; exact c3, v3⟩)
  · exact .inr (.inr ⟨m2, k, hk, bind_throw e3, by rw [← hi]; exact c3, v3⟩)

theorem assign_step (hE : E.Good) {ws us : List α} {x : α} (hd : Z.done st = false)
    (hr : Reach E m) (hc : Contents E o m (ws ++ x :: us)) (hn : nth E o ws.length m = .ok it m)
    (hm : nth E o (ws ++ x :: us).length m = .ok jt m) :
    assign_range_loop E Z.src o st it jt m = (do
      let v ← Z.src.read st
      wrElem E it.entry.seg.ptr it.entry.seg.idx v
      let first ← move_next_iterator E it
      let source ← Z.src.next st
      assign_range_loop E Z.src o source first jt : M α Unit) m := by
  have h1 := nth_pos hE hr hc (by simp) hn
  have h2 := nth_pos hE hr hc (Nat.le_refl _) hm
  rw [assign_range_loop, show Z.src.done _ = false from hd, if_neg Bool.false_ne_true,
    if_neg (by rw [h1, h2]; simp)]

/-- the loop of `assign_range` over any range -/
theorem stream_assign (hE : E.Good) (hY : Yields Z st vs b) : ∀ {m : Mem α} {ws xs : List α} {it jt : Iter},
    Reach E m → Contents E o m (ws ++ xs) → nth E o ws.length m = .ok it m →
    nth E o (ws ++ xs).length m = .ok jt m → ws.length + vs.length ≤ max_size E →
    (∃ m', assign_range_loop E Z.src o st it jt m = .ok () m' ∧ b = true ∧ Contents E o m' (ws ++ vs) ∧ Via E o m m') ∨
    (∃ m', assign_range_loop E Z.src o st it jt m = .throw .elem m' ∧ b = false ∧
      Contents E o m' (ws ++ (vs ++ xs.drop vs.length)) ∧ Via E o m m') ∨
    (∃ m' k, k < vs.length ∧ xs.length ≤ k ∧ assign_range_loop E Z.src o st it jt m = .throw .alloc m' ∧
      Contents E o m' (ws ++ vs.take k) ∧ Via E o m m') := by
  induction hY with
  | done h =>
    intro m ws xs it jt hr hc hn hm hsz
    refine .inl ?_
    rcases Via.call hE hr hc (.eraseRange ws.length (ws ++ xs).length) (fun _ => ⟨by simp, Nat.le_refl _⟩) with
      ⟨r, m', al, x', h1, ⟨-, rfl⟩, h3, h4⟩ | ⟨e, m', al, x', h1, h2, h3, h4⟩
    · obtain ⟨kt, h5, -⟩ := pos_inv h1
      rw [bind_ok hn, bind_ok hm] at h5
      refine ⟨m', ?_, rfl, by simpa using h3, h4⟩
      rw [assign_range_loop, show Z.src.done _ = true from h, if_pos rfl,
        bind_ok (x := SegTree.erase_range E o it jt) h5]
      rfl
    · exact absurd h2 id
  | badRead h h1 =>
    intro m ws xs it jt hr hc hn hm hsz
    cases xs with
    | nil =>
      rw [List.append_nil] at hc hm
      rcases stream_assign_end hE h (.badRead h h1) hr hc hn hm hsz with h | h | ⟨m', k, hk, -⟩
      · exact .inl h
      · exact .inr (.inl (by simpa using h))
      · simp at hk
    | cons x us =>
      refine .inr (.inl ⟨m, ?_, rfl, by simpa using hc, .refl _⟩)
      rw [assign_step hE h hr hc hn hm, read_none h1]; rfl
  | @badIncr st v h h1 h2 =>
    intro m ws xs it jt hr hc hn hm hsz
    cases xs with
    | nil =>
      rw [List.append_nil] at hc hm
      rcases stream_assign_end hE h (.badIncr h h1 h2) hr hc hn hm hsz with h | h | ⟨m', k, hk, h⟩
      · exact .inl h
      · exact .inr (.inl (by simpa using h))
      · exact .inr (.inr ⟨m', k, hk, by simp, h⟩)
    | cons x us =>
      obtain ⟨m1, e1, c1, n1, v1⟩ := via_set (v := v) hE hr hc (by simp) hn
      obtain ⟨kt, e2, n2⟩ := C18_next hE (v1.reach hr) c1 (by simp) (n1 _ _ hn)
      refine .inr (.inl ⟨m1, ?_, rfl, by simpa using c1, v1⟩)
      rw [assign_step hE h hr hc hn hm, read_some h1, bind_ok (x := (pure v : M α α)) rfl, bind_ok e1, bind_ok e2,
        next_none h2]
      rfl
  | @next st v st' vs b h h1 h2 hY ih =>
    intro m ws xs it jt hr hc hn hm hsz
    cases xs with
    | nil =>
      rw [List.append_nil] at hc hm
      rcases stream_assign_end hE h (.next h h1 h2 hY) hr hc hn hm hsz with h | h | ⟨m', k, hk, h⟩
      · exact .inl h
      · exact .inr (.inl (by simpa using h))
      · exact .inr (.inr ⟨m', k, hk, by simp, h⟩)
    | cons x us =>
      obtain ⟨m1, e1, c1, n1, v1⟩ := via_set (v := v) hE hr hc (by simp) hn
      obtain ⟨kt, e2, n2⟩ := C18_next hE (v1.reach hr) c1 (by simp) (n1 _ _ hn)
      have key : assign_range_loop E Z.src o st it jt m = assign_range_loop E Z.src o st' kt jt m1 := by
        rw [assign_step hE h hr hc hn hm, read_some h1, bind_ok (x := (pure v : M α α)) rfl, bind_ok e1, bind_ok e2,
          next_some h2, bind_ok (x := (pure st' : M α σ)) rfl]
      rw [key]
      have hm1 := n1 _ _ hm
      simp only [List.length_cons] at hsz
      have c1' : Contents E o m1 ((ws ++ [v]) ++ us) := by simpa using c1
      rcases ih (ws := ws ++ [v]) (xs := us) (v1.reach hr) c1' (by simpa using n2)
          (by simpa [Nat.add_assoc, Nat.add_comm 1] using hm1) (by simp; omega) with
        ⟨m2, e3, hb, c3, v3⟩ | ⟨m2, e3, hb, c3, v3⟩ | ⟨m2, k, hk, hk2, e3, c3, v3⟩
      · exact .inl ⟨m2, e3, hb, by simpa using c3, v1.trans v3⟩
      · exact .inr (.inl ⟨m2, e3, hb, by simpa using c3, v1.trans v3⟩)
      · exact .inr (.inr ⟨m2, k + 1, by simp; omega, by simp; omega, e3, by simpa using c3, v1.trans v3⟩)

/-! ### C67 -/

/-- C67: `insert(nth(i), first, last)` of any range: the values are read once
each, in order, and inserted at `i`; if the range throws after the values `vs`,
exactly `vs` have been inserted; if the allocator fails, a proper prefix.  In
every case the container is valid and no other container is affected. -/
theorem C67_insert (hE : E.Good) (hr : Reach E m) (hc : Contents E o m xs) (hi : i ≤ xs.length)
    (hn : nth E o i m = .ok it m) (hY : Yields Z st vs b) (hsz : xs.length + vs.length ≤ max_size E) :
    ∃ m', Reach E m' ∧ OthersUnchanged E o m m' ∧
      ((b = true ∧ Contents E o m' (xs.take i ++ vs ++ xs.drop i) ∧
          ∃ jt, emplace_range E Z.src o it st m = .ok jt m' ∧ nth E o i m' = .ok jt m') ∨
       (b = false ∧ emplace_range E Z.src o it st m = .throw .elem m' ∧
          Contents E o m' (xs.take i ++ vs ++ xs.drop i)) ∨
       (emplace_range E Z.src o it st m = .throw .alloc m' ∧
          ∃ k < vs.length, Contents E o m' (xs.take i ++ vs.take k ++ xs.drop i))) := by
  rcases stream_insert hE hr hc hi hn hY hsz with
    ⟨lt, m2, e3, hb, c3, n3, v3⟩ | ⟨m2, e3, hb, c3, v3⟩ | ⟨m2, k, hk, e3, c3, v3⟩
  · exact ⟨m2, v3.reach hr, v3.others hE hr, .inl ⟨hb, by simpa [ins] using c3, lt, e3, n3⟩⟩
  · exact ⟨m2, v3.reach hr, v3.others hE hr, .inr (.inl ⟨hb, e3, by simpa [ins] using c3⟩)⟩
  · exact ⟨m2, v3.reach hr, v3.others hE hr, .inr (.inr ⟨e3, k, hk, by simpa [ins] using c3⟩)⟩

/-- C67: `assign(first, last)` of any range: afterwards the container holds
exactly the values of the range; if the range throws after the values `vs`, they
have replaced the first elements (or all of them, if there were fewer) -/
theorem C67_assign (hE : E.Good) (hr : Reach E m) (hc : Contents E o m xs) (hY : Yields Z st vs b)
    (hsz : vs.length ≤ max_size E) :
    ∃ m', Reach E m' ∧ OthersUnchanged E o m m' ∧
      ((b = true ∧ assign_range E Z.src o st m = .ok () m' ∧ Contents E o m' vs) ∨
       (b = false ∧ assign_range E Z.src o st m = .throw .elem m' ∧ Contents E o m' (vs ++ xs.drop vs.length)) ∨
       (assign_range E Z.src o st m = .throw .alloc m' ∧
          ∃ k < vs.length, xs.length ≤ k ∧ Contents E o m' (vs.take k))) := by
  obtain ⟨f, l, h1, h2, h3, h4⟩ := hr.ends hE hc
  have key : assign_range E Z.src o st m = assign_range_loop E Z.src o st f l m := by
    unfold assign_range
    rw [bind_ok (x := find_first E o) h1, bind_ok (x := find_end E o) h3]
  rw [key]
  rcases stream_assign (ws := []) (xs := xs) hE hY hr hc h2 h4 (by simpa using hsz) with
    ⟨m2, e3, hb, c3, v3⟩ | ⟨m2, e3, hb, c3, v3⟩ | ⟨m2, k, hk, hk2, e3, c3, v3⟩
  · exact ⟨m2, v3.reach hr, v3.others hE hr, .inl ⟨hb, e3, c3⟩⟩
  · exact ⟨m2, v3.reach hr, v3.others hE hr, .inr (.inl ⟨hb, e3, c3⟩)⟩
  · exact ⟨m2, v3.reach hr, v3.others hE hr, .inr (.inr ⟨e3, k, hk, hk2, c3⟩)⟩

/-- calls on `o` leave everything else in memory as it is -/
theorem Via.frame (hE : E.Good) {g : Log} {F : Asrt α} {al : Nat} {s : St α} (hs : s.Ok E)
    (H : Holds g (cont E o al s + F) m) (h : Via E o m m') :
    ∃ s' g', s'.Ok E ∧ Holds g' (cont E o al s' + F) m' := by
  induction h with
  | refl => exact ⟨s, g, hs, H⟩
  | @step m1 m2 S c _ hv hp ho ih =>
    obtain ⟨s1, g1, hs1, H1⟩ := ih
    obtain ⟨x, hx, hp⟩ := hp
    have hvo := hv o
    rw [hx] at hvo
    obtain ⟨ha, hcx⟩ := hvo
    rw [get_allocator_c H1] at ha
    have hal : al = x.alloc := by injection ha
    have hel : s1.elems = x.elems := (cont_contents hs1 H1).unique hcx
    have hx' : x = ⟨al, s1.elems⟩ := by rw [hal, hel]
    rw [hx'] at hp
    rcases ho with ⟨r, ho⟩ | ⟨e, ho⟩
    · obtain ⟨s', g', h1, -, -, H'⟩ := (un_c hE c hs1 hp H1).ret ho
      exact ⟨s', g', h1, H'⟩
    · obtain ⟨s', g', h1, -, -, H'⟩ := (un_c hE c hs1 hp H1).exc ho
      exact ⟨s', g', h1, H'⟩

/-- C67: `seq(first, last, alloc)` of any range: the new container holds the
values of the range; if the range or the allocator throws, nothing remains of it -/
theorem C67_ctor {al : Nat} (hE : E.Good) (hr : Reach E m) (ho : m.cell (.obj o) = none) (hN : E.nullFree = true)
    (hY : Yields Z st vs b) (hsz : vs.length ≤ max_size E) :
    ∃ m', Reach E m' ∧ OthersUnchanged E o m m' ∧
      ((b = true ∧ ctor_range E Z.src o al st m = .ok () m' ∧ Contents E o m' vs ∧ get_allocator o m' = .ok al m') ∨
       (∃ e, ctor_range E Z.src o al st m = .throw e m' ∧ (e = .alloc ∨ (e = .elem ∧ b = false)) ∧ m'.cell = m.cell)) := by
  obtain ⟨S, A, hR, HA⟩ := hr.inv hE
  have hv := hR.view HA
  have hSo : S o = none := by
    have := hv o
    cases h : S o with
    | none => rfl
    | some x => rw [h] at this; exact absurd ho (size_some this.2.1)
  obtain ⟨F0, H0, -, hpin⟩ := HA.pinAll
  obtain ⟨m1, e1, H1⟩ := ctor_c (E := E) (al := al) ho H0
  have hnil : (St.nil : St α).Ok E := St.Ok.nil hE.wpos
  have hrun : (Op.new o (.empty al)).run E m = .ok .unit m1 := by
    show Un.unit (ctor o al) m = _
    unfold Un.unit; rw [bind_ok e1]; rfl
  have hpre : (Op.new o (.empty al)).Pre E S := ⟨hSo, trivial⟩
  have r1 : Reach E m1 := .ret hr hv hpre hrun
  have c1 : Contents E o m1 [] := cont_contents hnil H1
  have u1 : OthersUnchanged E o m m1 := fun p ys hp _ => C34_others hE hr hv hpre (.inl ⟨_, hrun⟩) (by simpa [Op.objs] using hp)
  obtain ⟨-, l, -, -, h3, h4⟩ := r1.ends hE c1
  have key : ctor_range E Z.src o al st m = M.onThrow (do
      let it ← find_end E o
      let _ ← emplace_range E Z.src o it st) (dtor E o) m1 := by
    unfold ctor_range delegating
    rw [bind_ok e1]
  have key2 : (do
      let it ← find_end E o
      let _ ← emplace_range E Z.src o it st : M α Unit) m1 = (do
      let _ ← emplace_range E Z.src o l st : M α Unit) m1 := by
    rw [bind_ok (x := find_end E o) h3]
  have thr : ∀ e m2, emplace_range E Z.src o l st m1 = .throw e m2 → Via E o m1 m2 →
      ∃ m3, ctor_range E Z.src o al st m = .throw e m3 ∧ m3.cell = m.cell ∧ Reach E m3 ∧ OthersUnchanged E o m m3 := by
    intro e m2 e3 v3
    obtain ⟨s', g', hs', H'⟩ := v3.frame hE hnil H1
    obtain ⟨m3, e4, H4⟩ := dtor_c hs' (.inr hN) H'
    have r2 := v3.reach r1
    obtain ⟨S2, al2, hv2, ho2, -⟩ := r2.view hE (cont_contents hs' H')
    have hrun2 : (Op.dtor o).run E m2 = .ok .unit m3 := by
      show Un.unit (dtor E o) m2 = _
      unfold Un.unit; rw [bind_ok e4]; rfl
    have hpre2 : (Op.dtor o).Pre E S2 := ⟨_, ho2, .inr hN⟩
    refine ⟨m3, ?_, hpin _ _ H4, .ret r2 hv2 hpre2 hrun2, ?_⟩
    · rw [key]
      unfold M.onThrow
      rw [key2, bind_throw e3]
      simp only [e4]
    · intro p ys hp hd
      have h1 := u1 p ys hp hd
      have h2 := v3.others hE r1 p ys hp (h1.contents hd)
      exact (h1.trans h2 ⟨ys, hd⟩).trans
        (C34_others hE r2 hv2 hpre2 (.inl ⟨_, hrun2⟩) (by simpa [Op.objs] using hp)) ⟨ys, hd⟩
  rcases stream_insert (xs := []) hE r1 c1 (Nat.zero_le _) h4 hY (by simpa using hsz) with
    ⟨lt, m2, e3, hb, c3, n3, v3⟩ | ⟨m2, e3, hb, c3, v3⟩ | ⟨m2, k, hk, e3, c3, v3⟩
  · refine ⟨m2, v3.reach r1, ?_, .inl ⟨hb, ?_, by simpa [ins] using c3, ?_⟩⟩
    · intro p ys hp hd
      have h1 := u1 p ys hp hd
      exact h1.trans (v3.others hE r1 p ys hp (h1.contents hd)) ⟨ys, hd⟩
    · rw [key]
      unfold M.onThrow
      rw [key2, bind_ok e3]
      rfl
    · obtain ⟨s', g', hs', H'⟩ := v3.frame hE hnil H1
      exact get_allocator_c H'
  · obtain ⟨m3, h5, h6, h7, h8⟩ := thr _ _ e3 v3
    exact ⟨m3, h7, h8, .inr ⟨_, h5, .inr ⟨rfl, hb⟩, h6⟩⟩
  · obtain ⟨m3, h5, h6, h7, h8⟩ := thr _ _ e3 v3
    exact ⟨m3, h7, h8, .inr ⟨_, h5, .inl rfl, h6⟩⟩

/-! ### The hypotheses are met -/

/-- a countdown whose increment throws at 5 -/
def countdown : Stream Nat Nat where
  done n := n == 0
  deref n := some (10 * n)
  incr n := if n = 5 then none else some (n - 1)

example : Yields countdown 3 [30, 20, 10] true :=
  .next rfl rfl rfl (.next rfl rfl rfl (.next rfl rfl rfl (.done rfl)))
example : Yields countdown 7 [70, 60, 50] false :=
  .next rfl rfl rfl (.next rfl rfl rfl (.badIncr rfl rfl rfl))

/-- inserting it in the middle of a tree of height 3, the second time with an
increment that throws -/
example : ∃ (m : Mem Nat) (it : Iter), Reach demo m ∧ Contents demo 0 m eight ∧ nth demo 0 3 m = .ok it m ∧
    eight.length + 3 ≤ max_size demo := by
  obtain ⟨m, hr, hc, -⟩ := demo_eight
  obtain ⟨it, hn⟩ := hr.nth demo_good hc 3
  exact ⟨m, it, hr, hc, hn, by decide⟩

/-- and constructing a container from it in an empty memory -/
example : Reach demo (noMem : Mem Nat) ∧ (noMem : Mem Nat).cell (.obj 0) = none ∧ demo.nullFree = true ∧
    3 ≤ max_size demo := ⟨.init, rfl, rfl, by decide⟩

end SegTree
