@@forN
instance forN (f : Nat → M α Unit) (g : Nat → C α Unit) (n i : Nat) [hf : ∀ i, Sim (f i) (g i)] :
    Sim (SegTree.forN f n i) (Cost.forN g n i) := by
  induction n generalizing i with
  | zero => exact pure _
  | succ n ih => exact bind (hf := fun _ => ih _)
@@purge_node
instance purge_node (o : Nat) : ∀ (ht p : Nat), Sim (SegTree.purge_node E o ht p) (Cost.purge_node E o ht p)
  | 0, _ => ub _
  | 1, _ => ub _
  | 2, p => by unfold SegTree.purge_node Cost.purge_node; sim
  | ht + 3, p => by
    have ih := purge_node o (ht + 2)
    unfold SegTree.purge_node Cost.purge_node; sim
@@range_loop
instance range_loop (step : Nat → Nat → M α Nat) (stepc : Nat → Nat → C α Nat) (src last dst acc : Nat)
    [hs : ∀ i j, Sim (step i j) (stepc i j)] :
    Sim (SegTree.range_loop step src last dst acc) (Cost.range_loop stepc src last dst acc) := by
  revert src dst acc
  refine SegTree.range_loop.fixpoint_induct step last (fun f => ∀ src dst acc, Sim (f src dst acc)
    (Cost.range_loop stepc src last dst acc)) (adm3 _) ?_
  intro f ih src dst acc
  unfold Cost.range_loop; sim
@@forward_loop
instance forward_loop (step : Nat → Nat → M α Unit) (stepc : Nat → Nat → C α Unit) (first src dst : Nat)
    [hs : ∀ i j, Sim (step i j) (stepc i j)] :
    Sim (SegTree.forward_loop step first src dst) (Cost.forward_loop stepc first src dst) := by
  revert src dst
  refine SegTree.forward_loop.fixpoint_induct step first (fun f => ∀ src dst, Sim (f src dst)
    (Cost.forward_loop stepc first src dst)) (adm2 _) ?_
  intro f ih src dst
  unfold Cost.forward_loop; sim
@@backward_loop
instance backward_loop (step : Nat → Nat → M α Unit) (stepc : Nat → Nat → C α Unit) (src dst last : Nat)
    [hs : ∀ i j, Sim (step i j) (stepc i j)] :
    Sim (SegTree.backward_loop step src dst last) (Cost.backward_loop stepc src dst last) := by
  revert src dst
  refine SegTree.backward_loop.fixpoint_induct step last (fun f => ∀ src dst, Sim (f src dst)
    (Cost.backward_loop stepc src dst last)) (adm2 _) ?_
  intro f ih src dst
  unfold Cost.backward_loop; sim
@@memcpy_segment
instance memcpy_segment (src si dst di n : Nat) :
    Sim (SegTree.memcpy_segment E src si dst di n : M α Unit) (Cost.memcpy_segment E src si dst di n) := by
  unfold SegTree.memcpy_segment Cost.memcpy_segment
  refine Sim.bind (hf := fun s => Sim.bind (hf := fun d => ?_))
  split
  · exact tickBind _
  · infer_instance
@@emplace_count_loop
instance emplace_count_loop (o : Nat) {mk : M α α} {mkc : C α α} [Sim mk mkc] (n : Nat) (it : Iter) :
    Sim (SegTree.emplace_count_loop E o mk n it) (Cost.emplace_count_loop E o mkc n it) := by
  induction n generalizing it with
  | zero => exact pure _
  | succ n ih => unfold SegTree.emplace_count_loop Cost.emplace_count_loop; sim
@@Src
@@listSrc
instance listSrc : SimSrc (SegTree.listSrc E) (Cost.listSrc E) where
  done _ := rfl
  read l := by cases l <;> (simp only [SegTree.listSrc, Cost.listSrc]; infer_instance)
  next l := by simp only [SegTree.listSrc, Cost.listSrc]; infer_instance
@@copySrc
instance copySrc (last : Iter) : SimSrc (SegTree.copySrc E last) (Cost.copySrc E last) where
  done _ := rfl
  read it := by simp only [SegTree.copySrc, Cost.copySrc]; infer_instance
  next it := by simp only [SegTree.copySrc, Cost.copySrc]; infer_instance
@@moveSrc
instance moveSrc (last : Iter) : SimSrc (SegTree.moveSrc E last) (Cost.moveSrc E last) where
  done _ := rfl
  read it := by simp only [SegTree.moveSrc, Cost.moveSrc]; infer_instance
  next it := by simp only [SegTree.moveSrc, Cost.moveSrc]; infer_instance
@@emplace_range_loop
instance emplace_range_loop {σ : Type} {S : SegTree.Src α σ} {Sc : Cost.Src α σ} [hS : SimSrc S Sc] (o : Nat)
    (it : Iter) (first : σ) (count : Nat) :
    Sim (SegTree.emplace_range_loop E S o it first count) (Cost.emplace_range_loop E Sc o it first count) := by
  have hr := hS.read
  have hn := hS.next
  revert it first count
  refine SegTree.emplace_range_loop.fixpoint_induct E S o (fun f => ∀ it first count, Sim (f it first count)
    (Cost.emplace_range_loop E Sc o it first count)) (adm3 _) ?_
  intro f ih it first count
  unfold Cost.emplace_range_loop
  rw [hS.done]
  sim
@@assign_range_loop
instance assign_range_loop {σ : Type} {S : SegTree.Src α σ} {Sc : Cost.Src α σ} [hS : SimSrc S Sc] (o : Nat)
    (source : σ) (first last : Iter) :
    Sim (SegTree.assign_range_loop E S o source first last) (Cost.assign_range_loop E Sc o source first last) := by
  have hr := hS.read
  have hn := hS.next
  revert source first
  refine SegTree.assign_range_loop.fixpoint_induct E S o last (fun f => ∀ source first, Sim (f source first)
    (Cost.assign_range_loop E Sc o source first last)) (adm2 _) ?_
  intro f ih source first
  unfold Cost.assign_range_loop
  rw [hS.done]
  sim
