# Formal model of det/segmented_tree in Lean 4

The library is one header, `/repo/include/boost/segmented_tree/seq.hpp`
(`seq.hpp`): a counted B+-tree ("segmented tree") with parent pointers, used as
a random-access sequence container.

## 1. What is modelled

`lean/Verif/Model/` contains a statement-by-statement model of the code:

* `Base.lean`   – memory, outcomes, template parameters, memory primitives.
* `Static.lean` – `detail::static_traits_t`: searching and iterator movement.
* `Core.lean`   – allocation, construction, destruction, shifting, size
                  bookkeeping, `insert_single_*`, `erase_single_*`.
* `Api.lean`    – the remaining private helpers, the public interface of `seq`,
                  `iterator_t`.
* `Bench.lean`  – the container's users in the repository: `bounded_rand`,
                  test-data generation, the insert/erase and accumulate drivers
                  (`common/*.hpp`) and `scope_guard` (`bench/common.hpp`).
* `Retry.lean`, `RandomTest.lean` – the client that retries and the randomised
                  tests (`test/test_sequence.cpp`).
* `UnitTests.lean` – the deterministic tests (`test/test_sequence.cpp`).
* `Sorting.lean` – what the standard library runs inside `sort` and `merge` when it
                  has no buffer (libstdc++), over the container's iterators;
                  `Buffered.lean` what it runs with a buffer, whole or partial.
* `Checksum.lean`, `Haystack.lean` – the 64-bit checksum and the generators that
                  use it, and the documentation's example program.

The model is at pointer level. Memory maps locations (heap addresses, `seq`
objects) to cells (a segment with `segment_max` slots, each raw or holding an
object; a node with its parent pointer, 16-bit parent index and length, and its
two arrays; a `seq` object). A C++ function is a state transformer with four
outcomes: `ok`, `throw`, `ub`, `div`. Undefined behaviour is an explicit outcome
(null/dangling/mistyped access, out of bounds, use of raw storage, constructing
over a live object, freeing live objects, wrong allocator on deallocation,
unintended unsigned wrap). Loops and recursion that have no structural measure
in the code (parent-chain climbs, cascades) are `partial_fixpoint` definitions,
so divergence is a possible outcome that has to be *disproved*.

The environment `Env` (quantified in every theorem) holds the template
arguments, element-type traits, allocator traits, allocator equality classes and
the allocator's behaviour: an arbitrary oracle decides for every request
whether it fails and which free address it returns (address reuse included).
Whether copying an element throws is an arbitrary function of the number of the copy
and the value (`Env.cthrow`; the machine counts the copies attempted in `Mem.ticks`,
which no code reads), so every schedule of failing copies is covered: the same value
may be copied successfully now and not the next time.

## 2. Not modelled / simplified

* Element values are pure values of a type `α`; copying yields an equal value,
  a moved-from object holds an arbitrary function of the old value. Address
  identity of elements is modelled as (segment, slot).
* `construct`/`destroy` hooks of a custom allocator are assumed to construct and
  destroy. `sizeof` layout, alignment, strict aliasing and `void*` casts are
  not modelled; casts are checked by the cell kind.
* Standard algorithms: `remove_if`, `unique`, `reverse`, `equal`,
  `lexicographical_compare` are modelled by their reference implementations over
  the container's iterators; `stable_sort` and `inplace_merge` by their contract
  (read the range through the iterators, write back the stable result).
  C63/C64 justify this: any implementation that is allowed on arrays has on the
  container exactly its effect on an array. C93 does the same with an actual
  implementation, libstdc++'s in-place stable sort and merge, and C94 with those it
  runs with a temporary buffer of any size.
* Input ranges: external values (`List`), iterator pairs of another `seq`, and (C67)
  arbitrary state machines that may throw; none looks at the container being changed
  (C65 for those that do).
* Of `common/` and `bench/`: the CRC is modelled by its definition, bit by bit, not by
  Boost's table; the Mersenne twister (any stream of numbers stands for it), the clock,
  the cache flush, printing and file output are not modelled.
* Threads (C78): sequentially consistent memory, one access to a node, segment or `seq`
  object at a time (an access to a whole block counts as one). Since the
  threads are proved free of races, this is all a C++ program can observe. Threads
  communicate only by being started and waited for; allocators, element copies and
  fresh memory are those of the thread.
* Time is modelled as a number of accesses (C49-C58, section 6), not in seconds;
  caches are not modelled.
* `size_type` arithmetic is modulo `W` where the code relies on it
  (`update_sizes`, signed jumps) and checked (`UB.wrap`) elsewhere.
* Exceptions from `allocate` and from copying elements: modelled everywhere.
  Exceptions from moving elements: modelled in the definitions, excluded by
  hypothesis in most positive theorems (see C44); C68 (a move throws or not
  depending on the value) and C69 (moves throw at arbitrary moments, `lean/Verif/Rough`)
  drop that hypothesis for every call except `sort` and `merge`, for which C88 does, with their moves as steps of an arbitrary algorithm.

## 3. Proof architecture

`lean/Verif/Proof/`:

1. A small separation logic with exact heaps: `Holds g S m` says the multiset
   `S` of (location, cell predicate) pairs describes *all* live cells of `m`.
   Frame and leak-freedom are built in.
2. Ghost trees `Tree k` of uniform height `k` with addresses, and zippers
   `Ctx k h` (a path from a subtree of height `k` to the root).  `lay` computes
   the heap layout of a tree; a context may record a wrong size for its hole,
   which is how the states in the middle of an update are described.
3. Every function gets a specification proved by induction on the context
   (upwards recursion) or the height (downwards recursion).
4. The valid iterator for position `i` is unique: `nth(i)`, in every field.
5. The representation invariant is lifted to a bank of containers, and to all
   memories reachable by any history of API calls (`Reach`).

`lean/Verif/Props/` holds the property theorems, stated through the API only:
`Reach` (a memory reachable by API calls), `Contents o m xs` (what `size()` and
`at()` show), and the model's public functions. Each has an `example` showing
that its hypotheses are met by a concrete non-trivial case.

## 4. Plan per property

| id | how |
|----|-----|
| C01-C03 | zipper induction for split cascade / rebalancing, all heights |
| C04 | induction over histories, list spec |
| C05-C07 | `find_*` specs on ghost trees; separation for writes |
| C08 | all specs are total correctness: outcome is never `ub` nor `div` |
| C09 | exact heaps: live cells = cells of live containers |
| C10, C11 | throw branch of the insert spec: memory equal |
| C12, C13 | loop invariants over prefix inserted so far |
| C14, C15 | ghost counters of requests / failures in the memory |
| C16, C17 | well-formedness of ghost trees, arithmetic on heights |
| C18-C23 | movement specs on zippers, `nth` canonical; before_segment(count) is wrong in the code: negation |
| C24-C29 | loops over single insert / erase |
| C30-C34 | bank of containers, allocator classes in the layout |
| C35-C39 | loops over canonical iterators |
| C40 | arithmetic on the constants |
| C41 | `base_max < 65536` (in `Good`) gives exact fields; for `base_max >= 65536` an induction over 65536 `push_back`s gives a corrupt root |
| C42 | alias of single insert proved; fill alias: reachable counterexamples |
| C43, C44, C45 | documented claims that are false of the code: reachable counterexamples, next to what does hold |
| C46 | size bound hypothesis explicit, exactness proved |
| C47 | the specs of element writes keep the ghost tree's shape |
| C48 | counting nodes against leaves in the ghost tree |
| C49-C56 | `Verif/Cost`: a copy of the model that counts accesses (generated by `tools/gen_cost.py`), a simulation proof `Sim` that it computes what the model computes, bounds by induction over the ghost tree's height; amortised steps with a potential (number of last/first positions on the path) |
| C57 | The counting copy with weights that count writes and allocator calls only; every const function is shown to leave memory unchanged with count 0, in every memory (structural induction over the program, fixpoint induction for loops; `Cost/ReadOnly.lean`). |
| C58 | The counting copy with weights that count elements constructed, assigned, moved from or destroyed; functions that touch none (`Cost/Elem.lean`) and bounds for the others in every memory (`Cost/Moves.lean`). |
| C59 | `bounded_rand` as a fixpoint over an arbitrary stream; counting of preimages in Mathlib's `Finset` |
| C60, C61 | the drivers as programs over the modelled API; induction over the loops with the API theorems (no ghost trees) |
| C62 | a permutation invariant over all sequences of guard operations |
| C63 | an algorithm is a state machine issuing iterator commands; the same machine on arrays and on the model's iterators, simulation by induction over the number of steps, one lemma per command from the C05-C07, C18-C20 facts |
| C64 | corollaries of C63 for the members; `remove_if` as a concrete machine with a throwing predicate, loop invariant |
| C65 | positive part: the aliased call is *equal*, as a program run, to the call with the value (loop induction with the ghost tree); `remove`: loop invariants before and after the referred-to slot is overwritten; negative part: evaluation on reachable memories |
| C66 | `Raises T x` (every exception leaving `x` in any memory is in `T`) for every function of the model by composition and fixpoint induction (Proof/Throws; Proof/Raises is generated by tools/gen_cost.py); no `Good`, no `Reach`. Not covered: allocators whose own copy/move/swap throw, comparators and the code of `std::stable_sort`/`inplace_merge` |
| C67 | ranges as arbitrary state machines (Model/Ranges); the loops are shown to be sequences of single insertions and writes (`Via`), hence of calls of the history language, so the history theorems apply; the failing constructor by the frame (Props/Ranges) |
| C68 | a relation between the run with moves that may throw and the run of the same call with a type made non-throwing: equal, or the first ends in an element exception; proved for every function of the model (generated: Proof/CalmAll, from Proof/Calm), loops by fixpoint induction on either side; then the history theorems for the non-throwing type apply (Props/Rough). A throw depends on the value moved. `sort` and `merge` are excluded, their moves are inside the standard library |
| C69 | the model copied (generated: Rough/Model) over a monad that counts moves and asks an oracle whether each throws; a simulation (class Lag, Rough/Sim generated) between the copy and the model with non-throwing moves: equal, or the copy ends in an element exception; the defect by direct symbolic evaluation from any empty container |
| C70 | a relation between the memories before and after (Proto/Traced, Proof/Traced; instances for every function of the model generated: Proof/TracedAll), instantiated with: the copies made, which of them threw, the refused requests |
| C71 | calls that copy nothing: Traced with the relation that the counter is unchanged; the others: induction on the count or on what is left of the source range (Proof/CopyCount), in any memory; the sizes of containers from the representation invariant |
| C72 | the inductions of Proof/Loops done again with the counter of copies (Proof/Exact): after each round of the loop the copies made so far, the schedule at them and the contents; assembled per call |
| C73 | corollaries of C04: the list model of a history is the same for both configurations, and determines all undisturbed outcomes |
| C74 | from the representation invariant: slots of a segment beyond its length are raw; leaves of the ghost tree have distinct addresses, hence a bijection between slots with an object and positions (Proof/Objects) |
| C75 | counting copy of the generic stepper of C63 (Props/GenericCost), simulation with the uncounted one, C52 for each movement, induction over the number of steps |
| C76 | old blocks are freed (C29, C31) and an element's iterator lies in a block; the slot after the last element is raw; C74 for arbitrary iterator values |
| C77 | Counting model; CRes.ge (at least k accesses if the run returns) through update_sizes, insert_single_segment, erase_single_segment and the loops; the height bound is St.Ok.size_le. |
| C78 | Thread/Base: the machine for one thread among others, every access checked against what belongs to it. Thread/Model: the model over it (generated, like the cost model, by tools/gen_cost.py). Thread/Sim: it does alone what the model does; Pace, Causal: it proceeds access by access. Thread/Machine: any team of such threads under any schedule. Thread/Lent: reading and copying from lent containers. Thread/Split, Crew: dividing the memory among threads and putting it together. Props/Threads (theorems, one example) |
| C79 | Model/Retry: the loop and the program. Proof/Last: the last request of a call that throws bad_alloc is the one that was refused. Props/Retry: a failed attempt changes no memory and makes at most height()+1 requests (C11, C15), so the requests left until the allocator serves so many in a row, plus the copies left until they stop throwing, decrease; examples with an allocator that refuses the requests 0, 1, 4, 9, ... |
| C80 | Model/RandomTest: the three programs with their checks, the container as a local variable; Model/Checksum: the generators, which build a vector. Props/RandomTest: from C60, C61, C79, with `After`: the other containers stay as they are |
| C81 | Class `Grows` (Proof/Grown.lean): a call that returns adds exactly the granted blocks and frees none; proved for every function on the insertion path by fixpoint induction, with the handlers of try/catch left out because they do not run on that path. Combined with the framed specification of each call to show that the new blocks belong to the container, and with C48 for the total. |
| C82 | Model/Checksum: the CRC bit by bit. Props/Checksum: the step is injective in the remainder because the polynomial has its lowest bit set; backwards from equal remainders the lowest bits agree (`crc_back`), so the first differing bit of a burst of up to 64 cannot be |
| C83 | Model/RandomTest: `bench_random`, `bench_single`, `bench_range`. Props/RandomTest: the same steps as C80 (`Builds`), with an early exit if the checksum is wrong; C82 for a changed element |
| C84 | Model/Haystack: the program, with the container as a local variable. Props/Haystack: `C84_find` by induction on the distance with C18 (`++`) and C05; then C01-C03 as framed calls |
| C85 | `Splits` is the documentation's rule, stated on memory: count full nodes upwards, stop at the first with room, add one for a new root. `InsCtx.tall` and `GrownBy` carry the exact number of blocks and the height through `insert_single_segment`; `insertion_x` puts them together for every insertion function |
| C86 | `Frees` and `Joins` are the documentation's rules, stated on memory. `Ctx.joins` is the same on the ghost tree, carried with block counts and the height through `eraGen_ok` (induction on the path) and `erase_single_segment_ok`; `Ctx.joins_mem`, `frees_mem` connect the two; `returned_of` turns block counts into the set of freed addresses, using `Ext` (no new addresses) and the frame |
| C87 | `emplace_each` is `emplace_count` with a constructor that may do something else each time (`each_count`: with a constant one it is `emplace_count`); it is shown equal to `emplace_range` over the range of the evaluations, so C67 applies. `Built` describes what the constructor does; `Built.exists`: it covers every constructor |
| C88 | The machine of C63 with moves that throw by an oracle (as in C69): a throwing move has no effect (Rough.moveFrom, Rough.assign_segment), so the step corresponds to an array step that leaves the array alone; all other steps are those of C63. Induction over the steps; histories with interrupted algorithms are a superset of those of C69. |
| C89 | Rough/Mute classifies the parts of the throwing-move machine that throw nothing; a small Hoare triple (Does) with an exceptional postcondition is run through the erase paths on the throwing-move machine: the state at the failing move is described as the original memory with some slots of one segment (two for a borrow) overwritten, which is a memory reached by index_set calls from the original one; hence Reach, from which all other properties follow. Unbroken closes histories under these failures. |
| C90 | `Props/Churn`: an amortised potential (2 for a full node, 1 for a node at its minimum) carried through the insertion and erasure proofs (`InsCtx.cost`, `EraShape.cost`); for the odd case the shape of the right edge after a raise (`Slim`) and after a merge (`Brim`), and induction over the rounds. |
| C91 | Model/UnitTests.lean transcribes the 66 test cases of lines 61-674 (one per BOOST_AUTO_TEST_CASE, test_emplace in two halves), local variables with destruction on every exit, `std::equal` over the iterators. Props/UnitTests.lean: a small program logic (`Good`) over the C04 specification of each call, one lemma per test; C91_suite, C91_reliable (no failing allocation and no throwing copy: true), C91_order (any sequence of tests). |
| C92 | A command language over iterator variables is run on the model and, separately, on lists with index variables; a one-step simulation (C92_step) is extended by induction to programs (C92_program, C92_safe); the invariant says each live variable is nth of its index. The fate of iterators is proved call by call from C07, C30-C32, C34, C47, C57 and the strong guarantees. Loops by induction on the elements still to visit. |
| C93 | Model/Sorting.lean transcribes the library functions on the model's iterators. Proved by induction on range lengths over contents split into before, range and after (`Rewrote`), each step by C07, C18, C19 and C20; std::rotate by strong induction on the length left, each pass of swaps leaving a shorter range to be rotated (`List.rotate`); List.mergeSort and List.merge of Lean's library are the specification, related by two lemmas: merging two split ranges, and sorting a concatenation. |
| C94 | Model/Buffered.lean transcribes libstdc++'s functions on the model's iterators, the buffer being a list and writing past its end undefined behaviour. Proved by induction on range lengths over contents split into before, range, gap of moved-from elements and after, with the steps of C93; `runs` (the pieces of s elements, each sorted) is the invariant of the passes. |

## 5. Defects found in the code (proved in Props/Defects)

1. `before_segment(count)`: position and entry are inconsistent with each other
   and with the documentation, for every `count > 0` (C23).
2. `clear()`, destructor and move assignment of an empty container call
   `deallocate(nullptr, n)` (C45).
3. `resize(count)` is documented strong but is only basic (C43).
4. `insert(pos, count, s[j])`: the aliased argument is re-read after shifting (C42).
5. `insert`/`erase` are documented strong; false if element moves throw (C44).
6. `uint16_t` truncation in nodes when `base_max >= 65536` (C41).
7. `resize`/`assign(count, s[j])` growing by two or more read a dangling reference;
   `remove(s[j])` removes too little; `splice(pos, *this, it)` and `merge(*this)`
   corrupt the container (C65).
8. `insert_single_segment` on an empty container sets root, size and height before
   constructing the element (1620-1628): if that move throws, size() is 1 with no
   object; `push_back` breaks the container, `seq(n, v)` is undefined (C69).
9. `operator=(seq&&)` is documented to invalidate no iterators when the allocator
   propagates or is equal; every iterator to an element of a non-empty destination
   dangles (C76).
10. `remove_if`, `unique` (and `merge`, given temporary memory) are documented
   linear; they erase or transfer one element at a time and no constant bounds their accesses per element (C77).
11. With an odd `base_max` (the default is 47) a full node splits into two nodes that are
   both at the minimum, so `pop_back`/`push_back` in turn at the edge split and merge
   every level each time; with an even `base_max` the cost is amortised constant (C90).

## 6. Trusted base

* Lean 4.33.0's kernel. No `native_decide`, no `bv_decide`, no own axioms.
* Axioms: of the 310 theorems listed in MANIFEST.json, all depend at most on
  `propext`, `Classical.choice`, `Quot.sound` (checked with `#print axioms`; the
  static arithmetic C40 needs fewer). `Classical.choice` enters through
  `partial_fixpoint`, `omega`/`simp` lemmas and Mathlib's multisets.
* Mathlib modules imported one at a time (multisets and arithmetic only).
* The reading of `seq.hpp` embodied in `lean/Verif/Model` with the
  simplifications of section 2, and the specification vocabulary in
  `lean/Verif/Props/Spec.lean`: `Contents`, `View`, `Op`/`Un`/`Bin`/`New`
  (what each call means on plain lists), `Reach`, `Good`.
* Hypotheses every positive theorem carries (`Env.Good`): a trivially copyable
  type is trivially destructible (C++ rule); element moves do not throw (C44 shows
  what happens otherwise; C68 and C69 use `Env.Sound`, without this clause); `base_max < 65536` (C41 shows what happens otherwise);
  `size_type` has at least one value.
* For C49-C58, the cost model: one unit per access to a node, a segment or a
  `seq` object and per allocator call (moving k entries inside a block counts k
  reads and k writes); local arithmetic, iterator comparison and the element
  type's own copy/compare work are free. The counting copy of the model
  (`lean/Verif/Cost/Model.lean`) has the same functions with the same bodies;
  `Within` in the statements says that it returns the same value, exception and
  memory. `sort` and `merge` are not in the cost model.

* For C78, the machine in `lean/Verif/Thread/{Base,Machine}.lean` and the
  definitions `Client`, `Crew` (`Thread/{Client,Crew}.lean`). `Thread/Model.lean` is a
  copy of the model over this machine; `Thread/Sim.lean` proves it does the same.

## 7. Testing the theorems against wrong programs

`seeded/LOG.jsonl` records edits of the model that a realistic bug would make and
the theorems that stop proving. `tools/Fuzz.lean.txt` is an executable falsifier
(random histories of API calls run in the model and compared with plain lists,
`cd lean && lake env lean --run ../tools/Fuzz.lean.txt RUNS STEPS`), used only to
tell harmless edits from harmful ones; no theorem depends on it.
