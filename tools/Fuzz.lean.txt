/-
  Falsifier used for mutation testing (not part of the proofs, not part of the
  build): runs the model on random histories and reports the first observable
  difference from the list semantics.  Run as
     lake env lean --run ../tools/Fuzz.lean.txt
  against a scratch copy of the model.
-/
import Verif.Model.Api
import Verif.Model.Static
open SegTree
set_option autoImplicit false

instance : Inhabited Iter := ⟨⟨⟨⟨0,0,0⟩,⟨0,0⟩⟩,0⟩⟩

structure Rng where
  s : UInt64
abbrev F := StateT Rng (Except String)
def rnd (n : Nat) : F Nat := do
  let r ← get
  let s := r.s * 6364136223846793005 + 1442695040888963407
  set (Rng.mk s)
  return if n = 0 then 0 else ((s >>> 33).toNat) % n

def mkEnv (seg base : Nat) (fail : Nat) (triv pocca pocma pocs nul : Bool) (mvTo : Nat) : Env Nat where
  sizeofT := 4
  segTarget := 4 * seg
  baseTarget := 16 + 16 * base
  sizeofNodeBase := 16
  sizeofNodeData := 16
  W := 2 ^ 64
  trivCopy := triv
  trivDtor := triv
  defConstruct := true
  nullFree := nul
  pocca := pocca
  pocma := pocma
  pocs := pocs
  acls a := a / 2
  selectCopy a := a
  mv _ := mvTo
  mthrow _ := false
  cthrow _ v := decide (v = 13)
  oracle n := if fail ≠ 0 ∧ (n * 7 + n / 5) % fail = 1 then 0 else n + 1
  junk _ := ⟨77, 78, 79, fun _ => 80, fun _ => 81⟩

structure St where
  m : Mem Nat
  l : List (Nat × (Nat × List Nat))   -- live containers: name, allocator, elements

def nObj := 3

@[noinline] def tabN (a : Array Nat) (i : Nat) : Nat := a.getD i 0
@[noinline] def tabS (a : Array (Slot Nat)) (i : Nat) : Slot Nat := a.getD i .raw
@[noinline] def tabC (a b : Array (Option (Cell Nat))) : Loc → Option (Cell Nat)
  | .heap i => a.getD i none
  | .obj i => b.getD i none

/-- flatten closures -/
def compact (E : Env Nat) (m : Mem Nat) : Mem Nat :=
  let cells := (Array.range (m.log.reqs + 1)).map fun a =>
    match m.cell (.heap a) with
    | some (.seg w s) =>
      some (Cell.seg w (tabS ((Array.range E.segMax).map s)))
    | some (.node w n) => some (Cell.node w { n with sizes := tabN ((Array.range E.baseMax).map n.sizes), ptrs := tabN ((Array.range E.baseMax).map n.ptrs) })
    | some c => some c
    | none => none
  let objs := (Array.range nObj).map fun a => m.cell (.obj a)
  { m with cell := tabC cells objs }

def bad {α : Type} (s : String) : F α := throw s

def call {β : Type} (what : String) (x : M Nat β) (m : Mem Nat) : F (Except Exn β × Mem Nat) :=
  match x m with
  | .ok v m' => pure (.ok v, m')
  | .throw e m' => pure (.error e, m')
  | .ub k => bad s!"{what}: undefined behaviour {repr k}"
  | .div => bad s!"{what}: divergence"

def quiet {β : Type} (what : String) (x : M Nat β) (m : Mem Nat) : F β :=
  match x m with
  | .ok v _ => pure v
  | .throw e _ => bad s!"{what}: unexpected exception {repr e}"
  | .ub k => bad s!"{what}: undefined behaviour {repr k}"
  | .div => bad s!"{what}: divergence"

def sameIt (a b : Iter) : Bool :=
  a.pos == b.pos && a.entry.leaf.ptr == b.entry.leaf.ptr && a.entry.leaf.idx == b.entry.leaf.idx &&
  a.entry.seg.ptr == b.entry.seg.ptr && a.entry.seg.idx == b.entry.seg.idx && a.entry.seg.len == b.entry.seg.len

/-- shape of the tree: returns number of elements -/
partial def shape (E : Env Nat) (m : Mem Nat) (root : Bool) (par pi p h sz : Nat) (cnt : Nat) : F Nat := do
  if h = 0 then
    match m.cell (.heap p) with
    | some (.seg _ s) =>
      if sz > E.segMax || (sz < E.segMin && !root) || sz = 0 then bad "C16/C17: segment occupancy"
      for i in [0:E.segMax] do
        match s i with
        | .raw => if i < sz then bad "shape: raw element"
        | .val _ => if i ≥ sz && !E.trivDtor then bad "C08: live object past the end"
      return cnt + 1
    | _ => bad "shape: no segment"
  else
    match m.cell (.heap p) with
    | some (.node _ n) =>
      if n.parent ≠ par then bad "shape: parent pointer"
      if !root && n.pidx ≠ pi then bad "shape: parent index"
      if n.len > E.baseMax || n.len < (if root then 2 else E.baseMin) then bad s!"C17: node occupancy"
      let mut c := cnt + 1
      let mut t := 0
      for i in [0:n.len] do
        t := t + n.sizes i
        c ← shape E m false p i (n.ptrs i) (h-1) (n.sizes i) c
      if t ≠ sz then bad "shape: sum of sizes"
      return c
    | _ => bad "shape: no node"

def checkOne (E : Env Nat) (m : Mem Nat) (o al : Nat) (xs : List Nat) : F Nat := do
  let n := xs.length
  let sz ← quiet "size" (size o) m
  if sz ≠ n then bad s!"size(): {sz} instead of {n}"
  let em ← quiet "empty" (empty o) m
  if em ≠ (n == 0) then bad "empty()"
  let a ← quiet "get_allocator" (get_allocator o) m
  if a ≠ al then bad "C30: get_allocator()"
  let arr := xs.toArray
  let mut its : Array Iter := #[]
  for i in [0:n+1] do
    let it ← quiet "nth" (nth E o i) m
    if index_of it ≠ i then bad "C20: index_of(nth(i))"
    its := its.push it
    if i < n then
      let v ← quiet "*nth" (dereference E it) m
      if v ≠ arr[i]! then bad s!"C05: element {i} is {v} instead of {arr[i]!} in {xs}"
      let v ← quiet "at" (at_ E o i) m
      if v ≠ arr[i]! then bad "C06: at"
      let v ← quiet "[]" (index_op E o i) m
      if v ≠ arr[i]! then bad "C05: operator[]"
  match at_ E o n m with
  | .throw .range _ => pure ()
  | _ => bad "C06: at(size()) does not throw"
  let b ← quiet "begin" (begin_ E o) m
  let e ← quiet "end" (end_ E o) m
  if !sameIt b its[0]! then bad "C20: begin"
  if !sameIt e its[n]! then bad "C20: end"
  if n > 0 then
    let f ← quiet "front" (front E o) m
    if f ≠ arr[0]! then bad "C05: front"
    let f ← quiet "back" (back E o) m
    if f ≠ arr[n-1]! then bad "C05: back"
    let p ← quiet "penultimate" (penultimate E o) m
    if !sameIt p its[n-1]! then bad "C20: penultimate"
  for i in [0:n] do
    let j ← quiet "++" (move_next_iterator E its[i]!) m
    if !sameIt j its[i+1]! then bad "C18: ++"
    let j ← quiet "--" (move_prev_iterator E its[i+1]!) m
    if !sameIt j its[i]! then bad "C18: --"
  for _ in [0:6] do
    let i ← rnd (n+1)
    let j ← rnd (n+1)
    let k ← quiet "it+n" (it_add E its[i]! ((j : Int) - (i : Int))) m
    if !sameIt k its[j]! then bad "C19: it + n"
    let k ← quiet "it-n" (it_sub E its[i]! ((i : Int) - (j : Int))) m
    if !sameIt k its[j]! then bad "C19: it - n"
    if it_diff E its[i]! its[j]! ≠ (i : Int) - (j : Int) then bad "C20: difference"
    if it_lt its[i]! its[j]! ≠ decide (i < j) || it_eq its[i]! its[j]! ≠ decide (i = j) ||
       it_le its[i]! its[j]! ≠ decide (i ≤ j) || it_ne its[i]! its[j]! ≠ decide (i ≠ j) ||
       it_gt its[i]! its[j]! ≠ decide (i > j) || it_ge its[i]! its[j]! ≠ decide (i ≥ j) then bad "C20: comparison"
    if j < n then
      let v ← quiet "it[n]" (it_index E its[i]! ((j : Int) - (i : Int))) m
      if v ≠ arr[j]! then bad "C19: it[n]"
    -- segments
    let it := its[i]!
    let fst := i - it.entry.seg.idx
    let nxt := fst + it.entry.seg.len
    if i < n then
      let s ← quiet "after_segment" (move_after_segment E it) m
      if !sameIt s (its.getD nxt b) then bad "C22: after_segment"
      if j < n then
        let itj := its[j]!
        if j ≥ i then
          if j + 1 - i > 0 ∧ itj.entry.seg.ptr = it.entry.seg.ptr then pure ()
    if fst > 0 then
      let s ← quiet "before_segment" (move_before_segment E it) m
      if !sameIt s (its.getD (fst - 1) b) then bad "C22: before_segment"
  let obj := match m.cell (.obj o) with | some (.obj s) => s | _ => ⟨0,0,0,0,0⟩
  if n = 0 then
    if obj.root ≠ 0 || obj.ht ≠ 0 then bad "shape: empty"
    return 0
  else
    if obj.ht = 0 then bad "shape: height"
    shape E m true 0 0 obj.root (obj.ht - 1) n 0

def checkAll (E : Env Nat) (st : St) : F Unit := do
  let mut c := 0
  for (o, al, xs) in st.l do c := c + (← checkOne E st.m o al xs)
  let live := ((List.range (st.m.log.reqs + 1)).filter fun a => (st.m.cell (.heap a)).isSome).length
  if live ≠ c then bad s!"C09: leak, {live} blocks live, {c} used"

def insAt (xs : List Nat) (i : Nat) (ys : List Nat) := xs.take i ++ ys ++ xs.drop i

def St.upd (s : St) (m : Mem Nat) (o al : Nat) (xs : List Nat) : St :=
  ⟨m, (s.l.filter (·.1 ≠ o)) ++ [(o, al, xs)]⟩
def St.drop (s : St) (m : Mem Nat) (o : Nat) : St := ⟨m, s.l.filter (·.1 ≠ o)⟩

/-- outcome against a set of allowed exceptional contents -/
def one {β : Type} (what : String) (s : St) (o al : Nat) (x : M Nat β) (ok : β → Bool) (xs' : List Nat)
    (exc : Exn → List (List Nat)) (E : Env Nat) : F St := do
  match ← call what x s.m with
  | (.ok v, m') =>
    if !ok v then bad s!"{what}: wrong returned value"
    return s.upd (compact E m') o al xs'
  | (.error e, m') =>
    let m' := compact E m'
    for c in exc e do
      match (checkOne E m' o al c).run ⟨1⟩ with
      | .ok _ => return s.upd m' o al c
      | .error _ => pure ()
    bad s!"{what}: after an exception the container holds none of the documented contents"

def isPos (i : Nat) (it : Iter) : Bool := index_of it == i

def pick (s : St) : F (Nat × Nat × List Nat) := do
  let i ← rnd s.l.length
  return s.l.getD i (0, 0, [])

def two (what : String) (s : St) (o p : Nat) (x : M Nat Unit) (xo : Nat × List Nat) (yo : Nat × List Nat)
    (exc : List ((Nat × List Nat) × (Nat × List Nat))) (E : Env Nat) : F St := do
  match ← call what x s.m with
  | (.ok _, m') =>
    let m' := compact E m'
    return (s.upd m' o xo.1 xo.2).upd m' p yo.1 yo.2
  | (.error _, m') =>
    let m' := compact E m'
    for (c, d) in exc do
      match ((do discard <| checkOne E m' o c.1 c.2; discard <| checkOne E m' p d.1 d.2 : F Unit)).run ⟨1⟩ with
      | .ok _ => return (s.upd m' o c.1 c.2).upd m' p d.1 d.2
      | .error _ => pure ()
    bad s!"{what}: after an exception the containers hold none of the documented contents"

def rlist : F (List Nat) := do
  let n ← rnd 6
  let mut r := []
  for _ in [0:n] do
    let v ← rnd 14
    r := v :: r
  return r

def dd (p : Nat → Nat → Bool) : List Nat → List Nat
  | [] => []
  | a :: l => a :: go a l
where go (a : Nat) : List Nat → List Nat
  | [] => []
  | b :: l => if p a b then go a l else b :: go b l

def lexlt : List Nat → List Nat → Bool
  | [], [] => false
  | [], _ => true
  | _, [] => false
  | a :: l, b :: r => if a < b then true else if b < a then false else lexlt l r

def cmpAll (E : Env Nat) (s : St) (o p : Nat) (xs ys : List Nat) : F Unit := do
  let f : Nat → Nat → Bool := fun a b => a == b
  let l : Nat → Nat → Bool := fun a b => a < b
  let q ← quiet "==" (op_eq E f o p) s.m
  if q ≠ (xs == ys) then bad "C37: =="
  let q ← quiet "!=" (op_ne E f o p) s.m
  if q ≠ (xs != ys) then bad "C37: !="
  let q ← quiet "<" (op_lt E l o p) s.m
  if q ≠ lexlt xs ys then bad "C37: <"
  let q ← quiet "<=" (op_le E l o p) s.m
  if q ≠ !lexlt ys xs then bad "C37: <="
  let q ← quiet ">" (op_gt E l o p) s.m
  if q ≠ lexlt ys xs then bad "C37: >"
  let q ← quiet ">=" (op_ge E l o p) s.m
  if q ≠ !lexlt xs ys then bad "C37: >="
  let q ← quiet "==" (op_eq E f o o) s.m
  if !q then bad "C37: == self"

def lt2 (a b : Nat) : Bool := decide (a / 2 < b / 2)

def step (E : Env Nat) (s : St) (grow : Bool) : F St := do
  let free := (List.range nObj).filter fun o => !(s.l.any (·.1 == o))
  let moved (x : Nat) := E.moved x
  let same (a b : Nat) := E.acls a == E.acls b
  if s.l.isEmpty then
    return s.upd (match ctor 0 0 s.m with | .ok _ m => m | _ => s.m) 0 0 []
  let (o, al, xs) ← pick s
  let n := xs.length
  let v ← rnd 100
  let i ← rnd (n + 1)
  let j ← rnd (n + 1)
  let nofail : Exn → List (List Nat) := fun _ => []
  let blame1 (v : Nat) (e : Exn) : Bool := e == .alloc || (e == .elem && v == 13 && !E.trivCopy)
  let c ← rnd (if grow then 40 else 60)
  if c < 14 || (n < 3 && c < 30) then
    let lv := (v % 2 == 0)
    one "insert" s o al (do let it ← nth E o i; if lv then insert E o it v else insert_rv E o it v) (isPos i)
      (insAt xs i [v]) (fun e => if (lv && blame1 v e) || e == .alloc then [xs] else []) E
  else if c < 16 then one "push_back" s o al (push_back E o v) (fun _ => true) (xs ++ [v]) (fun e => if blame1 v e then [xs] else []) E
  else if c < 18 then one "push_front" s o al (push_front E o v) (fun _ => true) (v :: xs) (fun e => if blame1 v e then [xs] else []) E
  else if c < 20 then
    let vs ← rlist
    one "insert(list)" s o al (do insert_list E o (← nth E o i) vs) (isPos i) (insAt xs i vs)
      (fun _ => (List.range vs.length).map fun k => insAt xs i (vs.take k)) E
  else if c < 22 then
    let k ← rnd 6
    one "insert(count)" s o al (do insert_fill E o (← nth E o i) k v) (isPos i) (insAt xs i (List.replicate k v))
      (fun _ => (List.range k).map fun k => insAt xs i (List.replicate k v)) E
  else if c < 23 then
    let k ← rnd (n + 6)
    one "resize" s o al (resize E o k v) (fun _ => true) (xs.take k ++ List.replicate (k - n) v)
      (fun _ => (List.range (k-n)).map fun k => xs ++ List.replicate k v) E
  else if c < 24 then
    let vs ← rlist
    let vs := if v % 2 == 0 then vs ++ xs.take 5 else vs
    one "assign(list)" s o al (assign_list E o vs) (fun _ => true) vs
      (fun _ => (List.range vs.length).map fun k => vs.take k ++ xs.drop k) E
  else if c < 25 then
    let k ← rnd (n + 4)
    one "assign(count)" s o al (assign_fill E o k v) (fun _ => true) (List.replicate k v)
      (fun _ => (List.range k).map fun k' => List.replicate k' v ++ xs.drop k') E
  else if c < 26 then
    let j := if n = 0 then 0 else j % n
    if n = 0 then return s
    one "insert(self)" s o al (do insert_alias E o (← nth E o i) (← nth E o j)) (isPos i) (insAt xs i [xs[j]!])
      (fun e => if blame1 xs[j]! e then [xs] else []) E
  else if c < 27 then
    let k ← rnd 5
    match k with
    | 0 => one "reverse" s o al (reverse E o) (fun _ => true) xs.reverse nofail E
    | 1 => one "sort" s o al (sort E o lt2) (fun _ => true) (xs.mergeSort (fun a b => !lt2 b a)) nofail E
    | 2 => one "unique" s o al (unique E o (fun a b => a / 8 == b / 8)) (fun _ => true) (dd (fun a b => a / 8 == b / 8) xs) nofail E
    | 3 => one "remove_if" s o al (remove_if E o (fun a => a % 5 == 1)) (fun _ => true) (xs.filter (fun a => a % 5 != 1)) nofail E
    | _ => one "remove" s o al (remove E o (fun a b => a == b) v) (fun _ => true) (xs.filter (· != v)) nofail E
  else if c < 28 then
    if n = 0 then return s
    let j := j % n
    let k ← rnd 3
    match k with
    | 0 => one "[]=" s o al (index_set E o j v) (fun _ => true) (xs.set j v) (fun e => if e == .elem && v == 13 then [xs] else []) E
    | 1 => one "*it=" s o al (do deref_set E (← nth E o j) v) (fun _ => true) (xs.set j v) (fun e => if e == .elem && v == 13 then [xs] else []) E
    | _ => one "*it=rv" s o al (do deref_set_rv E (← nth E o j) v) (fun _ => true) (xs.set j v) nofail E
  else if c < 29 then
    let k ← rnd 8
    if k = 0 && (n > 0 || E.nullFree) then one "clear" s o al (clear E o) (fun _ => true) [] nofail E
    else if k = 1 then one "self swap" s o al (swap E o o) (fun _ => true) xs nofail E
    else if k = 2 then one "self assign" s o al (assign_copy E o o) (fun _ => true) xs nofail E
    else if k = 3 && (n > 0 || E.nullFree) then
      match ← call "dtor" (dtor E o) s.m with
      | (.ok _, m') => return s.drop (compact E m') o
      | _ => bad "dtor throws"
    else pure s
  else if c < 32 then
    -- construction
    match free with
    | [] => return s
    | p :: _ =>
      let k ← rnd 6
      let al' := v % 4
      let mk (what : String) (x : M Nat Unit) (al : Nat) (vs : List Nat) (src : Option (List Nat)) (srcE : List (List Nat)) : F St := do
        match ← call what x s.m with
        | (.ok _, m') =>
          let m' := compact E m'
          let s := s.upd m' p al vs
          match src with
          | none => return s
          | some ys => return s.upd m' o (s.l.lookup o |>.map (·.1) |>.getD 0) ys
        | (.error _, m') =>
          let m' := compact E m'
          if (m'.cell (.obj p)).isSome then bad s!"{what}: object exists after a failed constructor"
          for c in srcE do
            match (checkOne E m' o (s.l.lookup o |>.map (·.1) |>.getD 0) c).run ⟨1⟩ with
            | .ok _ => return s.upd m' o (s.l.lookup o |>.map (·.1) |>.getD 0) c
            | .error _ => pure ()
          bad s!"{what}: source changed by failed constructor"
      match k with
      | 0 => mk "ctor" (ctor p al') al' [] none []
      | 1 => if E.nullFree then mk "copy ctor" (ctor_copy E p o) (E.selectCopy al) xs none [xs] else pure s
      | 2 => if E.nullFree then mk "copy ctor(alloc)" (ctor_copy_alloc E p o al') al' xs none [xs] else pure s
      | 3 => mk "move ctor" (ctor_move p o) al xs (some []) []
      | 4 => if E.nullFree then
            mk "move ctor(alloc)" (ctor_move_alloc E p o al') al' xs
               (some (if same al al' then [] else xs.map moved))
               ((List.range n).map fun k => (xs.take (k+1)).map moved ++ xs.drop (k+1)) else pure s
      | _ =>
        if E.nullFree then
          let vs ← rlist
          mk "ctor(list)" (ctor_range E (listSrc E) p al' vs) al' vs none [xs]
        else pure s
  else if c < 37 then
    let others := s.l.filter (·.1 ≠ o)
    match others with
    | [] => return s
    | (p, bl, ys) :: _ =>
      let mm := ys.length
      let k ← rnd 10
      let a ← rnd (mm+1)
      let b ← rnd (mm+1)
      let a' := min a b
      let b := max a b
      let a := a'
      match k with
      | 0 =>
        if E.pocs || same al bl then
          two "swap" s o p (swap E o p) (if E.pocs then bl else al, ys) (if E.pocs then al else bl, xs) [] E
        else pure s
      | 1 =>
        if (E.pocca && !same al bl) → (n > 0 || E.nullFree) then
          let al' := if E.pocca then bl else al
          let xs' := if E.pocca && !same al bl then [] else xs
          two "copy assign" s o p (assign_copy E o p) (al', ys) (bl, ys)
            ((List.range mm).map fun k => ((al', ys.take k ++ xs'.drop k), (bl, ys))) E
        else pure s
      | 2 =>
        let st := E.pocma || same al bl
        if st → (n > 0 || E.nullFree) then
          let al' := if E.pocma then bl else al
          two "move assign" s o p (assign_move E o p) (al', ys) (bl, if st then [] else ys.map moved)
            (if st then [] else (List.range mm).map fun k => ((al, ys.take k ++ xs.drop k), (bl, (ys.take (k+1)).map moved ++ ys.drop (k+1)))) E
        else pure s
      | 3 =>
        if mm > 0 || E.nullFree then
          two "splice" s o p (do splice E o (← nth E o i) p) (al, insAt xs i ys) (bl, [])
            ((List.range mm).map fun k => ((al, insAt xs i (ys.take k)), (bl, (ys.take (k+1)).map moved ++ ys.drop (k+1)))) E
        else pure s
      | 4 =>
        if mm > 0 then
          let b := b % mm
          two "splice_one" s o p (do splice_one E o (← nth E o i) p (← nth E p b)) (al, insAt xs i [ys[b]!]) (bl, ys.eraseIdx b)
            [((al, xs), (bl, ys))] E
        else pure s
      | 5 =>
          two "splice_range" s o p (do splice_range E o (← nth E o i) p (← nth E p a) (← nth E p b)) (al, insAt xs i ((ys.take b).drop a)) (bl, ys.take a ++ ys.drop b)
            ((List.range (b-a)).map fun k => ((al, insAt xs i (((ys.take b).drop a).take k)), (bl, ys.take a ++ (((ys.take (a+k+1)).drop a).map moved) ++ ys.drop (a+k+1)))) E
      | 6 =>
          two "merge" s o p (merge E o p (fun a b => a < b)) (al, xs.merge ys (fun a b => !(decide (b < a)))) (bl, [])
            ((List.range mm).map fun k => ((al, xs ++ ys.take k), (bl, (ys.take (k+1)).map moved ++ ys.drop (k+1)))) E
      | 7 =>
          two "insert(range)" s o p (do discard <| emplace_range E (copySrc E (← nth E p b)) o (← nth E o i) (← nth E p a))
            (al, insAt xs i ((ys.take b).drop a)) (bl, ys)
            ((List.range (b-a)).map fun k => ((al, insAt xs i (((ys.take b).drop a).take k)), (bl, ys))) E
      | 8 =>
          two "assign(range)" s o p (do assign_range E (copySrc E (← nth E p b)) o (← nth E p a))
            (al, ((ys.take b).drop a)) (bl, ys)
            ((List.range (b-a)).map fun k => ((al, (((ys.take b).drop a).take k) ++ xs.drop k), (bl, ys))) E
      | _ =>
        cmpAll E s o p xs ys
        return s
  else if c < 39 then
    let (a, b) := (min i j, max i j)
    let b := if grow then min b (a + 3) else b
    one "erase(range)" s o al (do erase_rng E o (← nth E o a) (← nth E o b)) (isPos a) (xs.take a ++ xs.drop b) nofail E
  else
    if n = 0 then return s
    let j := j % n
    let k ← rnd 6
    match k with
    | 0 => one "pop_back" s o al (pop_back E o) (fun _ => true) xs.dropLast nofail E
    | 1 => one "pop_front" s o al (pop_front E o) (fun _ => true) xs.tail nofail E
    | _ =>
      let nxt ← quiet "nth" (nth E o j) s.m
      let r ← one "erase" s o al (erase E o nxt) (isPos j) (xs.eraseIdx j) nofail E
      -- the returned iterator is nth(j) in every field
      match erase E o nxt s.m with
      | .ok it m' =>
        let it' ← quiet "nth" (nth E o j) m'
        if !sameIt it it' then bad "C03: iterator returned by erase"
      | _ => pure ()
      return r

/-- iterators returned by insert -/
def stepIns (E : Env Nat) (s : St) : F Unit := do
  match s.l with
  | (o, _, xs) :: _ =>
    let i ← rnd (xs.length + 1)
    match (do insert_rv E o (← nth E o i) 7) s.m with
    | .ok it m' =>
      let it' ← quiet "nth" (nth E o i) m'
      if !sameIt it it' then bad "C03: iterator returned by insert"
    | .ub k => bad s!"insert: undefined behaviour {repr k}"
    | _ => pure ()
  | _ => pure ()

def history (E : Env Nat) (steps : Nat) : F Unit := do
  let mut s : St := ⟨⟨fun _ => none, ⟨0, 0⟩, 0⟩, []⟩
  for k in [0:steps] do
    s ← step E s (k < steps / 2)
    checkAll E s
    if k % 3 == 0 then stepIns E s
  for (o, _, xs) in s.l do
    if !xs.isEmpty || E.nullFree then
      match ← call "dtor" (dtor E o) s.m with
      | (.ok _, m') => s := s.drop (compact E m') o
      | _ => bad "dtor throws"
    else s := s.drop s.m o
  checkAll E ⟨s.m, []⟩

def configs : List (Env Nat) := [
  mkEnv 2 3 0 false false false false true 0,
  mkEnv 1 3 0 false true false true true 5,
  mkEnv 3 4 11 false false true false true 0,
  mkEnv 2 5 7 true true true true true 9,
  mkEnv 4 3 9 false false false true false 3,
  mkEnv 1 4 13 false true true false true 0,
  mkEnv 3 3 0 true false false false true 0 ]

def statics : Option String := Id.run do
  -- uint16 fields and sizes
  for E in configs do
    if E.segMin * 2 < E.segMax || E.segMin > (E.segMax + 1)/2 then return some "C17: segment_min"
    if E.baseMin * 2 < E.baseMax then return some "C17: base_min"
    if E.segMax * E.sizeofT > max E.segTarget E.sizeofT then return some "C40: segment larger than target"
    if max_size E ≠ 2^64 - 1 then return some "C26: max_size"
  return none

def main (args : List String) : IO Unit := do
  let runs := (args.getD 0 "12").toNat!
  let steps := (args.getD 1 "60").toNat!
  match statics with
  | some e => IO.println s!"REFUTED {e}"; return
  | none => pure ()
  let mut bads : List String := []
  for r in [0:runs] do
    let mut ci := 0
    for E in configs do
      match (history E steps).run ⟨(r * 1000 + ci * 17 + 12345).toUInt64⟩ with
      | .ok _ => pure ()
      | .error e => if !bads.contains e then bads := bads ++ [e]
      ci := ci + 1
    if bads.length ≥ 1 then break
  if bads.isEmpty then IO.println "SURVIVED"
  else IO.println ("REFUTED " ++ "; ".intercalate (bads.take 3))
