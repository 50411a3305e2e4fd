{"id": "C01", "title": "insert puts exactly one element at the requested position", "statement": "insert/emplace(nth(i), v), push_back and push_front on a container holding x0..x(n-1) leave it holding x0..x(i-1), v, xi..x(n-1) (size n+1), whenever they return normally.", "quantifier": "every reachable memory (any history of API calls on any number of containers, with any allocator behaviour), every template configuration (segment/node capacities), every element value, every position 0<=i<=n", "why_tests_cant": "the effect depends on where the position falls in the tree and on which of the split cascades happens; the number of tree shapes is unbounded", "anchors": ["include/boost/segmented_tree/seq.hpp: insert", "include/boost/segmented_tree/seq.hpp: emplace", "include/boost/segmented_tree/seq.hpp: push_back", "include/boost/segmented_tree/seq.hpp: push_front", "include/boost/segmented_tree/seq.hpp: insert_single_segment", "include/boost/segmented_tree/seq.hpp: insert_single_leaf", "include/boost/segmented_tree/seq.hpp: insert_single_branch"]}
{"id": "C02", "title": "erase removes exactly the requested element", "statement": "erase(nth(i)), pop_back and pop_front on a container holding x0..x(n-1) (n>0) leave it holding the sequence without xi.", "quantifier": "every reachable memory (any history of API calls on any number of containers, with any allocator behaviour), every template configuration (segment/node capacities), every element value, every position 0<=i<n", "why_tests_cant": "rebalancing has borrow-left, borrow-right, merge-left, merge-right and root-collapse cases at every level; their combinations are unbounded", "anchors": ["include/boost/segmented_tree/seq.hpp: erase", "include/boost/segmented_tree/seq.hpp: pop_back", "include/boost/segmented_tree/seq.hpp: pop_front", "include/boost/segmented_tree/seq.hpp: erase_single_segment", "include/boost/segmented_tree/seq.hpp: erase_single_leaf", "include/boost/segmented_tree/seq.hpp: erase_single_branch"]}
{"id": "C03", "title": "insert and erase return the right iterator", "statement": "The iterator returned by insert/emplace at position i is nth(i) of the new container in every field (so it dereferences to the new element and every later movement from it is correct); the iterator returned by erase at i is nth(i) of the new container (end() if the last element was erased).", "quantifier": "every reachable memory (any history of API calls on any number of containers, with any allocator behaviour), every template configuration (segment/node capacities), every element value, every position", "why_tests_cant": "the returned iterator caches segment, leaf and index while the tree is being split or merged around it; a stale cached field only shows up after later movements", "anchors": ["include/boost/segmented_tree/seq.hpp: insert", "include/boost/segmented_tree/seq.hpp: erase", "include/boost/segmented_tree/seq.hpp: erase_single", "include/boost/segmented_tree/seq.hpp: insert_single_segment", "include/boost/segmented_tree/seq.hpp: insert_single_leaf", "include/boost/segmented_tree/seq.hpp: erase_single_leaf"]}
{"id": "C04", "title": "Any history of operations behaves like a list", "statement": "For every finite history of valid API calls over a bank of containers, every returned value equals that of the obvious model in which each container is a plain list, as long as calls that throw are treated as specified; no call has any other observable result.", "quantifier": "every finite sequence of API operations, every allocator behaviour, every configuration, every schedule of failing copies", "why_tests_cant": "tests run finitely many histories; the property is an induction over all of them", "anchors": ["include/boost/segmented_tree/seq.hpp: seq (whole class)"]}
{"id": "C05", "title": "Positional access agrees with the sequence", "statement": "In a container holding x0..x(n-1): at(i) and operator[](i) give xi, front() gives x0, back() gives x(n-1), *nth(i) gives xi, nth(i) for i>=n is end(), size() is n, empty() is n==0; and none of these modifies anything.", "quantifier": "every reachable memory (any history of API calls on any number of containers, with any allocator behaviour), every template configuration (segment/node capacities), every element value, every index", "why_tests_cant": "find_index descends by subtracting cached subtree sizes; one stale size anywhere makes some index in some tree wrong", "anchors": ["include/boost/segmented_tree/seq.hpp: at", "include/boost/segmented_tree/seq.hpp: operator[]", "include/boost/segmented_tree/seq.hpp: front", "include/boost/segmented_tree/seq.hpp: back", "include/boost/segmented_tree/seq.hpp: nth", "include/boost/segmented_tree/seq.hpp: size", "include/boost/segmented_tree/seq.hpp: empty", "include/boost/segmented_tree/seq.hpp: find_index_root", "include/boost/segmented_tree/seq.hpp: find_index_branch", "include/boost/segmented_tree/seq.hpp: find_index_leaf"]}
{"id": "C06", "title": "at() throws out_of_range exactly when the index is not below size()", "statement": "at(i) throws std::out_of_range iff i >= size(), and then the container is unchanged; for i < size() it returns element i.", "quantifier": "every reachable memory (any history of API calls on any number of containers, with any allocator behaviour), every template configuration (segment/node capacities), every element value, every size_type index", "why_tests_cant": "boundary must be exact for every size", "anchors": ["include/boost/segmented_tree/seq.hpp: at"]}
{"id": "C07", "title": "Writing through a reference changes exactly one element", "statement": "s[i] = v (also through *nth(i)) makes element i equal to v and changes no other element, no size, no other container.", "quantifier": "every reachable memory (any history of API calls on any number of containers, with any allocator behaviour), every template configuration (segment/node capacities), every element value, every index i<n and value", "why_tests_cant": "needs the absence of aliasing between any two segments of any tree", "anchors": ["include/boost/segmented_tree/seq.hpp: operator[]", "include/boost/segmented_tree/seq.hpp: dereference"]}
{"id": "C08", "title": "No undefined behaviour and termination", "statement": "Every API call made within its documented preconditions terminates, never touches a null, dangling or mistyped pointer, never indexes outside a node or segment, never reads, assigns or destroys a slot that holds no object, never constructs over a live object, never frees memory holding live objects and never lets an unsigned size computation wrap.", "quantifier": "every reachable memory (any history of API calls on any number of containers, with any allocator behaviour), every template configuration (segment/node capacities), every element value, every operation", "why_tests_cant": "memory errors depend on tree shape and history; sanitizers only observe executed paths", "anchors": ["include/boost/segmented_tree/seq.hpp: seq (whole class)", "include/boost/segmented_tree/seq.hpp: purge", "include/boost/segmented_tree/seq.hpp: deallocate_segment", "include/boost/segmented_tree/seq.hpp: construct_range_segment", "include/boost/segmented_tree/seq.hpp: assign_forward_segment", "include/boost/segmented_tree/seq.hpp: assign_backward_segment"]}
{"id": "C09", "title": "No memory leak", "statement": "At every point of every history the live allocations are exactly the blocks of the live containers; after all containers have been destroyed no allocation is live. This includes histories in which allocation or element copying threw.", "quantifier": "every reachable memory (any history of API calls on any number of containers, with any allocator behaviour), every template configuration (segment/node capacities), every element value", "why_tests_cant": "a leak on one rebalancing or exception path in one shape is invisible to tests that do not hit that path", "anchors": ["include/boost/segmented_tree/seq.hpp: ~seq", "include/boost/segmented_tree/seq.hpp: purge_node", "include/boost/segmented_tree/seq.hpp: alloc_nodes_single", "include/boost/segmented_tree/seq.hpp: erase_single_segment", "include/boost/segmented_tree/seq.hpp: erase_single_branch"]}
{"id": "C10", "title": "Single insertion has the strong guarantee under allocation failure", "statement": "If an allocation requested by insert/emplace/push_back/push_front fails (any of the requests it makes, including node allocation in the middle of a split cascade), the exception reaches the caller and the whole memory is exactly as before the call.", "quantifier": "every reachable memory (any history of API calls on any number of containers, with any allocator behaviour), every template configuration (segment/node capacities), every element value, every request that may fail", "why_tests_cant": "the failing request can be at any level of a tree of any height; cleanup loop must free exactly the nodes obtained so far", "anchors": ["include/boost/segmented_tree/seq.hpp: alloc_nodes_single", "include/boost/segmented_tree/seq.hpp: insert_single_segment", "include/boost/segmented_tree/seq.hpp: insert", "include/boost/segmented_tree/seq.hpp: push_back"]}
{"id": "C11", "title": "Single insertion has the strong guarantee under a throwing copy", "statement": "If copying the inserted value throws, insert/push_back/push_front leave every object and every block of memory exactly as before.", "quantifier": "every reachable memory (any history of API calls on any number of containers, with any allocator behaviour), every template configuration (segment/node capacities), every element value, every schedule of failing copies (whether a copy throws may depend on how many were made before)", "why_tests_cant": "must hold in every state", "anchors": ["include/boost/segmented_tree/seq.hpp: emplace_single", "include/boost/segmented_tree/seq.hpp: insert"]}
{"id": "C12", "title": "Bulk insertion has the basic guarantee", "statement": "If insert(pos,count,v), insert(pos,range), resize, assign or a constructor throws midway (allocation or copy), every container is still valid: it holds a sequence, all operations keep working on it and nothing leaks; for insert(pos,...) the content is the old sequence with a prefix of the new elements inserted.", "quantifier": "every reachable memory (any history of API calls on any number of containers, with any allocator behaviour), every template configuration (segment/node capacities), every element value, every failure point, every schedule of failing copies (whether a copy throws may depend on how many were made before)", "why_tests_cant": "failure point and shape are unbounded", "anchors": ["include/boost/segmented_tree/seq.hpp: emplace_count", "include/boost/segmented_tree/seq.hpp: emplace_range", "include/boost/segmented_tree/seq.hpp: resize_count", "include/boost/segmented_tree/seq.hpp: assign_range", "include/boost/segmented_tree/seq.hpp: assign_count"]}
{"id": "C13", "title": "A failing constructor leaves nothing behind", "statement": "If a fill, range, list or copy constructor throws, no object and no allocation made by it remains: the memory is exactly as before the call.", "quantifier": "every reachable memory (any history of API calls on any number of containers, with any allocator behaviour), every template configuration (segment/node capacities), every element value, every failure point, every schedule of failing copies (whether a copy throws may depend on how many were made before)", "why_tests_cant": "every failure point of every length", "anchors": ["include/boost/segmented_tree/seq.hpp: seq(size_type, T const&, Allocator const&)", "include/boost/segmented_tree/seq.hpp: seq(InputIt, InputIt, Allocator const&)", "include/boost/segmented_tree/seq.hpp: seq(seq const&)"]}
{"id": "C14", "title": "Exceptions only when something failed; erasing never throws and never allocates", "statement": "insert and the bulk operations throw bad_alloc only if the allocator refused a request during the call; erase, pop_back, pop_front, clear, swap, destruction, move construction, iterator movement and element access never throw (at aside) and never call allocate.", "quantifier": "every reachable memory (any history of API calls on any number of containers, with any allocator behaviour), every template configuration (segment/node capacities), every element value", "why_tests_cant": "absence of exceptions over all shapes", "anchors": ["include/boost/segmented_tree/seq.hpp: erase_single", "include/boost/segmented_tree/seq.hpp: clear", "include/boost/segmented_tree/seq.hpp: swap", "include/boost/segmented_tree/seq.hpp: purge", "include/boost/segmented_tree/seq.hpp: alloc_nodes_single"]}
{"id": "C15", "title": "Insertion makes at most height()+1 allocations", "statement": "One insert/emplace/push requests at most one segment and at most height() nodes.", "quantifier": "every reachable memory (any history of API calls on any number of containers, with any allocator behaviour), every template configuration (segment/node capacities), every element value", "why_tests_cant": "worst case is a full path in a tree of any height", "anchors": ["include/boost/segmented_tree/seq.hpp: alloc_nodes_single", "include/boost/segmented_tree/seq.hpp: insert_single_segment"]}
{"id": "C16", "title": "The tree is balanced: height is logarithmic in size", "statement": "height() is 0 iff the container is empty; otherwise size() <= segment_max*base_max^(height()-1), and for height()>=2, size() >= 2*base_min^(height()-2)*segment_min; hence 2^(height()-1) <= size().", "quantifier": "every reachable memory (any history of API calls on any number of containers, with any allocator behaviour), every template configuration (segment/node capacities), every element value", "why_tests_cant": "the bound quantifies over all histories of inserts and erases", "anchors": ["include/boost/segmented_tree/seq.hpp: height", "include/boost/segmented_tree/seq.hpp: insert_single_branch", "include/boost/segmented_tree/seq.hpp: erase_single_branch"]}
{"id": "C17", "title": "Occupancy: blocks are at least half full", "statement": "In a container of height>=2 every segment holds between segment_min and segment_max elements and the number of allocated segments times segment_min is at most size(); in any non-empty container no segment is empty.", "quantifier": "every reachable memory (any history of API calls on any number of containers, with any allocator behaviour), every template configuration (segment/node capacities), every element value", "why_tests_cant": "must hold after every history", "anchors": ["include/boost/segmented_tree/seq.hpp: insert_single_segment", "include/boost/segmented_tree/seq.hpp: erase_single_segment", "include/boost/segmented_tree/seq.hpp: segment_min", "include/boost/segmented_tree/seq.hpp: segment_max"]}
{"id": "C18", "title": "++ and -- walk the sequence", "statement": "++nth(i) = nth(i+1) for i<n and --nth(i) = nth(i-1) for i>0, equal in every field; so ++ and -- are inverse, begin() reaches end() after exactly n increments visiting x0..x(n-1), and end() reaches begin() after n decrements.", "quantifier": "every reachable memory (any history of API calls on any number of containers, with any allocator behaviour), every template configuration (segment/node capacities), every element value, every iterator", "why_tests_cant": "crossing a segment boundary climbs and descends an unbounded number of levels", "anchors": ["include/boost/segmented_tree/seq.hpp: move_next_iterator", "include/boost/segmented_tree/seq.hpp: move_prev_iterator", "include/boost/segmented_tree/seq.hpp: move_next_branch", "include/boost/segmented_tree/seq.hpp: move_prev_branch"]}
{"id": "C19", "title": "Random-access jumps", "statement": "nth(i) += d is nth(i+d) whenever 0<=i+d<=n (d of either sign), in every field; -= d likewise; it[d] is *(it+d).", "quantifier": "every reachable memory (any history of API calls on any number of containers, with any allocator behaviour), every template configuration (segment/node capacities), every element value, every pair i,d", "why_tests_cant": "jumps climb to the lowest common ancestor; distances and heights are unbounded", "anchors": ["include/boost/segmented_tree/seq.hpp: move_iterator_count", "include/boost/segmented_tree/seq.hpp: move_next_branch_count", "include/boost/segmented_tree/seq.hpp: move_prev_branch_count", "include/boost/segmented_tree/seq.hpp: dereference_count"]}
{"id": "C20", "title": "Iterator difference, comparison and index_of", "statement": "For i,j<=n: nth(i)-nth(j) = i-j, ==,!=,<,>,<=,>= compare as i and j, index_of(nth(i)) = i; two valid iterators of a container comparing equal are identical.", "quantifier": "every reachable memory (any history of API calls on any number of containers, with any allocator behaviour), every template configuration (segment/node capacities), every element value, every pair of positions", "why_tests_cant": "all pairs in all containers", "anchors": ["include/boost/segmented_tree/seq.hpp: difference", "include/boost/segmented_tree/seq.hpp: index_of", "include/boost/segmented_tree/seq.hpp: operator==", "include/boost/segmented_tree/seq.hpp: operator<"]}
{"id": "C21", "title": "Reverse iteration", "statement": "Traversal from rbegin() to rend() visits exactly the elements in reverse order.", "quantifier": "every reachable memory (any history of API calls on any number of containers, with any allocator behaviour), every template configuration (segment/node capacities), every element value", "why_tests_cant": "all shapes", "anchors": ["include/boost/segmented_tree/seq.hpp: rbegin", "include/boost/segmented_tree/seq.hpp: rend", "include/boost/segmented_tree/seq.hpp: move_prev_iterator"]}
{"id": "C22", "title": "Segment-wise iteration", "statement": "For a valid iterator in the container, [begin(),end()) of the iterator is a contiguous block of consecutive elements of the sequence containing current(); after_segment() is the iterator to the first element after that block (end() if none), before_segment() the one to the last element before it (if any), so segment-wise traversal visits every element exactly once in order.", "quantifier": "every reachable memory (any history of API calls on any number of containers, with any allocator behaviour), every template configuration (segment/node capacities), every element value, every iterator", "why_tests_cant": "all shapes and positions", "anchors": ["include/boost/segmented_tree/seq.hpp: move_after_segment", "include/boost/segmented_tree/seq.hpp: move_before_segment", "include/boost/segmented_tree/seq.hpp: first_element", "include/boost/segmented_tree/seq.hpp: last_element"]}
{"id": "C23", "title": "after_segment(count) and before_segment(count)", "statement": "after_segment(c) is after_segment() advanced by c, in every field. before_segment(c) with c>0 does NOT satisfy the analogous documented claim: it refers to the element c places before the first one of the block but reports the index (first-1)+c, so it always differs from before_segment() moved back by c and is never a valid iterator of the container.", "quantifier": "every reachable memory (any history of API calls on any number of containers, with any allocator behaviour), every template configuration (segment/node capacities), every element value, every iterator and admissible c", "why_tests_cant": "all shapes and counts", "anchors": ["include/boost/segmented_tree/seq.hpp: move_after_segment_count", "include/boost/segmented_tree/seq.hpp: move_before_segment_count"]}
{"id": "C24", "title": "Fill insertion", "statement": "insert(nth(i),count,v) makes the sequence take i, v repeated count times, drop i, and returns nth(i) of the new container.", "quantifier": "every reachable memory (any history of API calls on any number of containers, with any allocator behaviour), every template configuration (segment/node capacities), every element value, every i and count", "why_tests_cant": "loops over single inserts with an iterator carried across rebalancing", "anchors": ["include/boost/segmented_tree/seq.hpp: emplace_count"]}
{"id": "C25", "title": "Range insertion", "statement": "insert(nth(i), first, last) / insert(nth(i), ilist) inserts the values of the range in order at i and returns nth(i) of the new container.", "quantifier": "every reachable memory (any history of API calls on any number of containers, with any allocator behaviour), every template configuration (segment/node capacities), every element value, every i and every list of values", "why_tests_cant": "same", "anchors": ["include/boost/segmented_tree/seq.hpp: emplace_range"]}
{"id": "C26", "title": "Range erasure", "statement": "erase(nth(i),nth(j)), i<=j<=n, removes exactly the elements i..j-1 and returns nth(i) of the new container.", "quantifier": "every reachable memory (any history of API calls on any number of containers, with any allocator behaviour), every template configuration (segment/node capacities), every element value, every i<=j<=n", "why_tests_cant": "each removed element may rebalance the tree under the iterators being used", "anchors": ["include/boost/segmented_tree/seq.hpp: erase_range", "include/boost/segmented_tree/seq.hpp: erase_single"]}
{"id": "C27", "title": "assign replaces the contents", "statement": "assign(count,v), assign(range), assign(ilist) and operator=(ilist) leave exactly the given values, whatever was there before.", "quantifier": "every reachable memory (any history of API calls on any number of containers, with any allocator behaviour), every template configuration (segment/node capacities), every element value, every list / count", "why_tests_cant": "all old/new size combinations and shapes", "anchors": ["include/boost/segmented_tree/seq.hpp: assign_count", "include/boost/segmented_tree/seq.hpp: assign_range"]}
{"id": "C28", "title": "resize", "statement": "resize(c,v) leaves the first min(c,n) elements unchanged, followed by c-n copies of v when c>n; size() is c.", "quantifier": "every reachable memory (any history of API calls on any number of containers, with any allocator behaviour), every template configuration (segment/node capacities), every element value, every c", "why_tests_cant": "all shapes", "anchors": ["include/boost/segmented_tree/seq.hpp: resize_count"]}
{"id": "C29", "title": "clear and destruction", "statement": "clear() leaves the container empty (size 0, height 0, begin()==end()) and frees all its blocks; destruction frees all its blocks.", "quantifier": "every reachable memory (any history of API calls on any number of containers, with any allocator behaviour), every template configuration (segment/node capacities), every element value", "why_tests_cant": "all shapes", "anchors": ["include/boost/segmented_tree/seq.hpp: clear", "include/boost/segmented_tree/seq.hpp: ~seq", "include/boost/segmented_tree/seq.hpp: purge_root"]}
{"id": "C30", "title": "Copies are equal and independent", "statement": "Copy construction and copy assignment give the destination the source's sequence, leave the source unchanged, and later changes to one are never visible in the other.", "quantifier": "every reachable memory (any history of API calls on any number of containers, with any allocator behaviour), every template configuration (segment/node capacities), every element value, every pair of containers, every later history", "why_tests_cant": "independence quantifies over later histories", "anchors": ["include/boost/segmented_tree/seq.hpp: seq(seq const&)", "include/boost/segmented_tree/seq.hpp: operator=(seq const&)", "include/boost/segmented_tree/seq.hpp: copy_assign_alloc"]}
{"id": "C31", "title": "Moves transfer the contents without touching elements", "statement": "Move construction, and move assignment when allocators propagate or are equal, give the destination the source's sequence (same element addresses), leave the source empty and make no allocation; when allocators differ and do not propagate, move assignment gives the destination the source's sequence.", "quantifier": "every reachable memory (any history of API calls on any number of containers, with any allocator behaviour), every template configuration (segment/node capacities), every element value, every pair of containers and allocators", "why_tests_cant": "all shapes and allocator combinations", "anchors": ["include/boost/segmented_tree/seq.hpp: seq(seq&&)", "include/boost/segmented_tree/seq.hpp: operator=(seq&&)", "include/boost/segmented_tree/seq.hpp: move_assign", "include/boost/segmented_tree/seq.hpp: steal"]}
{"id": "C32", "title": "swap exchanges contents", "statement": "swap exchanges the two sequences (and allocators iff they propagate); iterators keep denoting the same elements.", "quantifier": "every reachable memory (any history of API calls on any number of containers, with any allocator behaviour), every template configuration (segment/node capacities), every element value, every pair of containers with equal or propagating allocators", "why_tests_cant": "all shapes", "anchors": ["include/boost/segmented_tree/seq.hpp: swap", "include/boost/segmented_tree/seq.hpp: swap_allocator"]}
{"id": "C33", "title": "Memory goes back to an equal allocator", "statement": "Every block is deallocated through an allocator comparing equal to the one that allocated it, in every history mixing copies, moves, swaps and splices under every combination of propagation traits.", "quantifier": "every reachable memory (any history of API calls on any number of containers, with any allocator behaviour), every template configuration (segment/node capacities), every element value, every combination of propagate_on_container_* and allocator equality", "why_tests_cant": "combinations and histories", "anchors": ["include/boost/segmented_tree/seq.hpp: deallocate_segment", "include/boost/segmented_tree/seq.hpp: deallocate_node", "include/boost/segmented_tree/seq.hpp: copy_assign_alloc", "include/boost/segmented_tree/seq.hpp: move_assign_alloc", "include/boost/segmented_tree/seq.hpp: swap_allocator"]}
{"id": "C34", "title": "Operations on one container do not affect others", "statement": "An operation changes only the containers it is applied to: for every other container all elements, sizes and iterators (every field, hence their validity) are the same before and after.", "quantifier": "every reachable memory (any history of API calls on any number of containers, with any allocator behaviour), every template configuration (segment/node capacities), every element value, every other container and iterator into it", "why_tests_cant": "needs separation of the memory of all containers in all histories", "anchors": ["include/boost/segmented_tree/seq.hpp: seq (whole class)"]}
{"id": "C35", "title": "splice", "statement": "splice(nth(i),other) inserts other's whole sequence at i and leaves other empty; splice(nth(i),other,nth(j)) moves one element; splice(nth(i),other,first,last) moves the range; other keeps the rest.", "quantifier": "every reachable memory (any history of API calls on any number of containers, with any allocator behaviour), every template configuration (segment/node capacities), every element value, every pair of distinct containers, positions and ranges", "why_tests_cant": "two trees rebalance while iterators into both are in use", "anchors": ["include/boost/segmented_tree/seq.hpp: splice"]}
{"id": "C36", "title": "merge", "statement": "merge(other,comp) leaves *this with the stable merge of the two sequences and other empty; if both are sorted the result is sorted and a permutation of both.", "quantifier": "every reachable memory (any history of API calls on any number of containers, with any allocator behaviour), every template configuration (segment/node capacities), every element value, every comparison", "why_tests_cant": "all contents", "anchors": ["include/boost/segmented_tree/seq.hpp: merge"]}
{"id": "C37", "title": "remove, remove_if, unique", "statement": "remove_if(p) leaves exactly the elements not satisfying p in their order; remove(v) those not equal to v; unique(p) leaves the sequence with every element equivalent to the last kept one dropped.", "quantifier": "every reachable memory (any history of API calls on any number of containers, with any allocator behaviour), every template configuration (segment/node capacities), every element value, every predicate", "why_tests_cant": "all contents and shapes", "anchors": ["include/boost/segmented_tree/seq.hpp: remove", "include/boost/segmented_tree/seq.hpp: remove_if", "include/boost/segmented_tree/seq.hpp: unique"]}
{"id": "C38", "title": "reverse and sort", "statement": "reverse() leaves the reversed sequence; sort(comp) leaves a sorted, stable permutation of the sequence for a strict weak order.", "quantifier": "every reachable memory (any history of API calls on any number of containers, with any allocator behaviour), every template configuration (segment/node capacities), every element value, every content / comparison", "why_tests_cant": "all contents and shapes", "anchors": ["include/boost/segmented_tree/seq.hpp: reverse", "include/boost/segmented_tree/seq.hpp: sort"]}
{"id": "C39", "title": "Comparison operators", "statement": "== is element-wise equality of equal-length sequences, < is lexicographic order, and !=,<=,>,>= are derived from them; they modify nothing.", "quantifier": "every reachable memory (any history of API calls on any number of containers, with any allocator behaviour), every template configuration (segment/node capacities), every element value, every pair of containers", "why_tests_cant": "all contents", "anchors": ["include/boost/segmented_tree/seq.hpp: operator==", "include/boost/segmented_tree/seq.hpp: operator<"]}
{"id": "C40", "title": "Capacity constants are sound for every template argument", "statement": "For all sizeof(T)>0 and targets: segment_max>=1, base_max>=3, 1<=segment_min, 2<=base_min, both halves of a split are at least minimal, two minimal siblings minus one merge into at most max, segment_max*sizeof(T) <= max(segment_target,sizeof(T)).", "quantifier": "all template arguments", "why_tests_cant": "infinitely many instantiations", "anchors": ["include/boost/segmented_tree/seq.hpp: segment_max", "include/boost/segmented_tree/seq.hpp: base_max", "include/boost/segmented_tree/seq.hpp: segment_min", "include/boost/segmented_tree/seq.hpp: base_min"]}
{"id": "C41", "title": "16-bit node fields", "statement": "A node stores its length and its index in the parent in uint16_t. As long as base_max < 65536 no value is truncated: the stored length, parent and parent index of every node are the true ones in every reachable state. Nothing enforces that bound: in every configuration with base_max >= 65536 and one element per segment, 65536 push_back calls lead to a container on which end(), back() and push_back are broken.", "quantifier": "all configurations and histories", "why_tests_cant": "needs nodes with 65536 children", "anchors": ["include/boost/segmented_tree/seq.hpp: node::length", "include/boost/segmented_tree/seq.hpp: node::parent_index", "include/boost/segmented_tree/seq.hpp: base_max"]}
{"id": "C42", "title": "Inserting an element of the container itself", "statement": "insert(nth(i), s[j]) inserts the value s[j] had before the call, whether or not the tree is split. The same is NOT true of insert(nth(i), count, s[j]): there are reachable containers for which it inserts other values, and others for which it reads a destroyed object.", "quantifier": "every reachable memory (any history of API calls on any number of containers, with any allocator behaviour), every template configuration (segment/node capacities), every element value, every i,j", "why_tests_cant": "depends on whether and where the tree is split", "anchors": ["include/boost/segmented_tree/seq.hpp: insert", "include/boost/segmented_tree/seq.hpp: emplace_single", "include/boost/segmented_tree/seq.hpp: emplace_count"]}
{"id": "C43", "title": "resize when it throws", "statement": "If resize(c,v) throws, the container holds its old elements followed by fewer than c-size() copies of v, and the cause is an allocation failure or the copy of v. The strong guarantee the documentation claims for it does not hold: there is a reachable container on which a throwing resize changes the contents.", "quantifier": "every reachable memory (any history of API calls on any number of containers, with any allocator behaviour), every template configuration (segment/node capacities), every element value, every failure point", "why_tests_cant": "all failure points", "anchors": ["include/boost/segmented_tree/seq.hpp: resize", "include/boost/segmented_tree/seq.hpp: resize_count"]}
{"id": "C44", "title": "insert and erase with throwing element moves", "statement": "The documentation claims the strong guarantee for insert and erase without requiring nothrow moves. For element types whose moves can throw this is false: there are reachable containers on which insert (and on others erase) throws and leaves different contents, and after insert even an object that is never destroyed. (For element types with nothrow moves insert is strong, C10/C11, and erase never throws, C14.)", "quantifier": "every reachable memory (any history of API calls on any number of containers, with any allocator behaviour), every template configuration (segment/node capacities), every element value, every element type", "why_tests_cant": "depends on when the move throws", "anchors": ["include/boost/segmented_tree/seq.hpp: insert", "include/boost/segmented_tree/seq.hpp: erase", "include/boost/segmented_tree/seq.hpp: insert_single_segment"]}
{"id": "C45", "title": "Allocators asked to deallocate null", "statement": "Clearing, destroying or move-assigning to a container that is not empty never passes a null pointer to deallocate. For an empty container the analogous claim is false: clear(), the destructor and (with a propagating allocator) move assignment always call deallocate(nullptr, n), which the Allocator requirements forbid.", "quantifier": "every reachable memory (any history of API calls on any number of containers, with any allocator behaviour), every template configuration (segment/node capacities), every element value", "why_tests_cant": "all histories", "anchors": ["include/boost/segmented_tree/seq.hpp: purge_root", "include/boost/segmented_tree/seq.hpp: purge_segment", "include/boost/segmented_tree/seq.hpp: deallocate_segment"]}
{"id": "C46", "title": "max_size and size counters never wrap", "statement": "max_size() is the largest size_type value; as long as size() < max_size() an insertion keeps all cached sizes exact.", "quantifier": "every reachable memory (any history of API calls on any number of containers, with any allocator behaviour), every template configuration (segment/node capacities), every element value", "why_tests_cant": "cannot allocate 2^64 elements", "anchors": ["include/boost/segmented_tree/seq.hpp: max_size", "include/boost/segmented_tree/seq.hpp: update_sizes"]}
{"id": "C47", "title": "Iterator stability under element writes, reverse and sort", "statement": "Writing elements (s[i]=v, *it=v), reverse() and sort() keep every iterator valid: nth(q) after the call equals nth(q) before it in every field, height() is unchanged and no allocation is requested.", "quantifier": "every reachable memory (any history of API calls on any number of containers, with any allocator behaviour), every template configuration (segment/node capacities), every element value, every iterator", "why_tests_cant": "all trees, contents and iterators", "anchors": ["include/boost/segmented_tree/seq.hpp: operator[]", "include/boost/segmented_tree/seq.hpp: reverse", "include/boost/segmented_tree/seq.hpp: sort"]}
{"id": "C48", "title": "Memory is linear in the number of elements", "statement": "In a container of height at least 2 the number of allocated blocks (segments and nodes) b satisfies (b+1)*segment_min <= 2*size(); a container of height at most 1 has at most one block.", "quantifier": "every reachable memory (any history of API calls on any number of containers, with any allocator behaviour), every template configuration (segment/node capacities), every element value", "why_tests_cant": "all histories of insertions and erasures", "anchors": ["include/boost/segmented_tree/seq.hpp: erase_single_segment", "include/boost/segmented_tree/seq.hpp: insert_single_segment"]}
{"id": "C49", "title": "Constant-time queries and whole-container moves", "statement": "size(), empty(), height(), get_allocator() and *it cost one access; the default constructor, the move constructor, the move constructor with an equal allocator, and swap() cost at most 21 accesses (to nodes, segments, container objects and the allocator) whatever the sizes.", "quantifier": "every reachable memory (any history of API calls on any number of containers, with any allocator behaviour), every template configuration (segment/node capacities), every element value", "why_tests_cant": "a complexity bound quantifies over all sizes, shapes and positions; a test measures finitely many runs and cannot see the worst case", "anchors": ["include/boost/segmented_tree/seq.hpp: size", "include/boost/segmented_tree/seq.hpp: empty", "include/boost/segmented_tree/seq.hpp: height", "include/boost/segmented_tree/seq.hpp: get_allocator", "include/boost/segmented_tree/seq.hpp: iterator::operator*", "include/boost/segmented_tree/seq.hpp: seq()", "include/boost/segmented_tree/seq.hpp: seq(seq&&)", "include/boost/segmented_tree/seq.hpp: seq(seq&&, allocator)", "include/boost/segmented_tree/seq.hpp: swap"]}
{"id": "C50", "title": "Element access is logarithmic", "statement": "at(i), operator[](i), front(), back(), begin(), end(), penultimate() and nth(i) cost at most K*log2(size()), K depending on the node and segment capacities only.", "quantifier": "every reachable memory (any history of API calls on any number of containers, with any allocator behaviour), every template configuration (segment/node capacities), every element value", "why_tests_cant": "a complexity bound quantifies over all sizes, shapes and positions; a test measures finitely many runs and cannot see the worst case", "anchors": ["include/boost/segmented_tree/seq.hpp: at", "include/boost/segmented_tree/seq.hpp: operator[]", "include/boost/segmented_tree/seq.hpp: front", "include/boost/segmented_tree/seq.hpp: back", "include/boost/segmented_tree/seq.hpp: begin", "include/boost/segmented_tree/seq.hpp: end", "include/boost/segmented_tree/seq.hpp: penultimate", "include/boost/segmented_tree/seq.hpp: nth", "include/boost/segmented_tree/seq.hpp: find_index"]}
{"id": "C51", "title": "Single insertion and erasure are logarithmic", "statement": "insert/emplace of one element at any position, push_back, push_front, erase of one element, pop_back and pop_front cost at most K*log2(size()) accesses and allocator calls, whether they return or throw: no call ever rebuilds the tree.", "quantifier": "every reachable memory (any history of API calls on any number of containers, with any allocator behaviour), every template configuration (segment/node capacities), every element value", "why_tests_cant": "a complexity bound quantifies over all sizes, shapes and positions; a test measures finitely many runs and cannot see the worst case", "anchors": ["include/boost/segmented_tree/seq.hpp: insert", "include/boost/segmented_tree/seq.hpp: emplace", "include/boost/segmented_tree/seq.hpp: push_back", "include/boost/segmented_tree/seq.hpp: push_front", "include/boost/segmented_tree/seq.hpp: erase", "include/boost/segmented_tree/seq.hpp: pop_back", "include/boost/segmented_tree/seq.hpp: pop_front", "include/boost/segmented_tree/seq.hpp: insert_single_segment", "include/boost/segmented_tree/seq.hpp: erase_single_segment"]}
{"id": "C52", "title": "Iterator steps are constant amortised", "statement": "One ++ or -- and any jump it+d, it-d, it[d] costs at most K*log2(size()); k consecutive steps in one direction with reads cost at most 13*k + 6*log2(size()), so iterating over the whole container is linear.", "quantifier": "every reachable memory (any history of API calls on any number of containers, with any allocator behaviour), every template configuration (segment/node capacities), every element value", "why_tests_cant": "a complexity bound quantifies over all sizes, shapes and positions; a test measures finitely many runs and cannot see the worst case", "anchors": ["include/boost/segmented_tree/seq.hpp: iterator::operator++", "include/boost/segmented_tree/seq.hpp: iterator::operator--", "include/boost/segmented_tree/seq.hpp: iterator::operator+=", "include/boost/segmented_tree/seq.hpp: move_next_iterator", "include/boost/segmented_tree/seq.hpp: move_prev_iterator", "include/boost/segmented_tree/seq.hpp: move_iterator_count"]}
{"id": "C53", "title": "Destruction is linear", "statement": "clear(), the destructor and move assignment that takes over the blocks of its source cost at most 13*size()+23, size() being that of the container whose elements are destroyed.", "quantifier": "every reachable memory (any history of API calls on any number of containers, with any allocator behaviour), every template configuration (segment/node capacities), every element value", "why_tests_cant": "a complexity bound quantifies over all sizes, shapes and positions; a test measures finitely many runs and cannot see the worst case", "anchors": ["include/boost/segmented_tree/seq.hpp: clear", "include/boost/segmented_tree/seq.hpp: ~seq", "include/boost/segmented_tree/seq.hpp: operator=(seq&&)", "include/boost/segmented_tree/seq.hpp: purge"]}
{"id": "C54", "title": "Bulk operations cost M log N", "statement": "insert of n copies, of an initializer list or of a range of another container, erase of a range, resize, the filling, list, copying and element-wise moving constructors, and splice of a container or of a range cost at most K*(M+1)*log2(N), M being the number of elements inserted or erased and N the larger size; splice of one element is logarithmic. The bound also holds for calls that throw.", "quantifier": "every reachable memory (any history of API calls on any number of containers, with any allocator behaviour), every template configuration (segment/node capacities), every element value", "why_tests_cant": "a complexity bound quantifies over all sizes, shapes and positions; a test measures finitely many runs and cannot see the worst case", "anchors": ["include/boost/segmented_tree/seq.hpp: insert", "include/boost/segmented_tree/seq.hpp: erase", "include/boost/segmented_tree/seq.hpp: resize", "include/boost/segmented_tree/seq.hpp: seq(size_type, T const&)", "include/boost/segmented_tree/seq.hpp: seq(initializer_list)", "include/boost/segmented_tree/seq.hpp: seq(seq const&)", "include/boost/segmented_tree/seq.hpp: splice"]}
{"id": "C55", "title": "Assignment is linear in the overwritten elements; comparison is linear", "statement": "assign(n, v), assign(list), assign(first, last), copy assignment that keeps its allocator and element-wise move assignment cost at most K*(min(n,size()) + (|n-size()|+1)*log2(max(n,size()))); copy assignment that replaces its allocator by a different one costs at most K*(size() + (n+1)*log2(n)). == and != cost two accesses if the sizes differ and are linear otherwise; <, >, <=, >= are linear in the smaller size plus a logarithm.", "quantifier": "every reachable memory (any history of API calls on any number of containers, with any allocator behaviour), every template configuration (segment/node capacities), every element value", "why_tests_cant": "a complexity bound quantifies over all sizes, shapes and positions; a test measures finitely many runs and cannot see the worst case", "anchors": ["include/boost/segmented_tree/seq.hpp: assign", "include/boost/segmented_tree/seq.hpp: operator=", "include/boost/segmented_tree/seq.hpp: operator==", "include/boost/segmented_tree/seq.hpp: operator<"]}
{"id": "C56", "title": "Cost of reverse, remove and unique", "statement": "reverse() is linear; remove_if, remove and unique cost at most 40*size() + K*(r+1)*log2(size()), r being the number of elements removed. The documentation of remove(value), \"Logarithmic in size()\", is wrong: it makes at least size() accesses for every value.", "quantifier": "every reachable memory (any history of API calls on any number of containers, with any allocator behaviour), every template configuration (segment/node capacities), every element value", "why_tests_cant": "a complexity bound quantifies over all sizes, shapes and positions; a test measures finitely many runs and cannot see the worst case", "anchors": ["include/boost/segmented_tree/seq.hpp: reverse", "include/boost/segmented_tree/seq.hpp: remove_if", "include/boost/segmented_tree/seq.hpp: remove", "include/boost/segmented_tree/seq.hpp: unique"]}
{"id": "C57", "title": "Const calls write nothing", "statement": "A call of the const interface (element access, size queries, begin/end/nth, iterator movement and dereferencing, comparison operators, searches) performs no write to any node, segment or container object and calls no allocator; the memory after it is exactly the memory before it. Hence any number of const calls, in any order, each return what they return alone, and concurrent const calls have no data race.", "quantifier": "every memory whatsoever (reachable or not), every container, iterator, index and offset, every template configuration, every list of const calls and every order of it", "why_tests_cant": "a test observes the elements, not the absence of writes, and cannot try every schedule of readers", "anchors": ["include/boost/segmented_tree/seq.hpp: at", "include/boost/segmented_tree/seq.hpp: operator[]", "include/boost/segmented_tree/seq.hpp: front", "include/boost/segmented_tree/seq.hpp: back", "include/boost/segmented_tree/seq.hpp: begin", "include/boost/segmented_tree/seq.hpp: end", "include/boost/segmented_tree/seq.hpp: penultimate", "include/boost/segmented_tree/seq.hpp: nth", "include/boost/segmented_tree/seq.hpp: size", "include/boost/segmented_tree/seq.hpp: empty", "include/boost/segmented_tree/seq.hpp: height", "include/boost/segmented_tree/seq.hpp: get_allocator", "include/boost/segmented_tree/seq.hpp: move_next_iterator", "include/boost/segmented_tree/seq.hpp: move_prev_iterator", "include/boost/segmented_tree/seq.hpp: move_iterator_count", "include/boost/segmented_tree/seq.hpp: dereference", "include/boost/segmented_tree/seq.hpp: move_after_segment", "include/boost/segmented_tree/seq.hpp: move_before_segment", "include/boost/segmented_tree/seq.hpp: operator==", "include/boost/segmented_tree/seq.hpp: operator<"]}
{"id": "C58", "title": "Insertion and erasure are local: few elements are touched", "statement": "An insertion, erasure, push or pop constructs, assigns, moves from or destroys at most 6*segment_max+7 elements, whatever the size of the container; inserting or erasing n elements touches at most n times that; writing an element touches one; swap, move construction and default construction touch none, nor do clear, destruction and propagating move assignment if the element type is trivially destructible.", "quantifier": "every memory, container, position, value, count n and list of values, every template configuration, including calls that end in an exception", "why_tests_cant": "the bound must hold for every size and shape of the tree and on every path through the split, merge and borrow code", "anchors": ["include/boost/segmented_tree/seq.hpp: insert_single_segment", "include/boost/segmented_tree/seq.hpp: erase_single_segment", "include/boost/segmented_tree/seq.hpp: assign_forward_segment", "include/boost/segmented_tree/seq.hpp: assign_backward_segment", "include/boost/segmented_tree/seq.hpp: construct_range_segment", "include/boost/segmented_tree/seq.hpp: emplace_count", "include/boost/segmented_tree/seq.hpp: emplace_range", "include/boost/segmented_tree/seq.hpp: erase_range", "include/boost/segmented_tree/seq.hpp: swap", "include/boost/segmented_tree/seq.hpp: clear", "include/boost/segmented_tree/seq.hpp: ~seq", "include/boost/segmented_tree/seq.hpp: move_assign"]}
{"id": "C59", "title": "bounded_rand is in range and exactly uniform", "statement": "bounded_rand(gen, ub) returns r mod ub of the first draw r (offset from gen.min()) that is not below the rejection threshold, having consumed exactly the draws up to it; the result is always below ub; for 0 < ub <= range of the generator every value v < ub has exactly the same number of accepted draws (floor(range/ub)), so a uniform generator gives a uniform index; accepted draws always exist, more than half of the generator's range, and the loop returns whenever one appears.", "quantifier": "every generator (any min, max and sequence of draws), every word size not smaller than the generator's range, every bound", "why_tests_cant": "a test samples the distribution; equality of the number of preimages of all values is a statement about all bounds and all generator ranges", "anchors": ["common/common.hpp: bounded_rand"]}
{"id": "C60", "title": "Benchmark workloads: generated data are valid and insert/erase is a round trip", "statement": "make_insertion_data produces, for every generator, indexes that are valid insertion positions at the time they are used (each at most the current size); the insert phase on an empty container, driven by nth(), then yields exactly the sequence obtained by inserting the values at those positions, and the erase phase, which undoes them in reverse order, leaves exactly the first generated element (the loop stops there); same for the range version with fixed size blocks. Neither phase has undefined behaviour, and an allocation failure in the insert phase leaves a valid container.", "quantifier": "every generator, count and block size, every reachable memory with an empty container, every configuration of the container and every allocator behaviour", "why_tests_cant": "the benchmark checks one seed; validity of the random positions and the round trip must hold for every sequence of draws", "anchors": ["common/single.hpp: make_insertion_data_single", "common/range.hpp: make_insertion_data_range", "include/boost/segmented_tree/seq.hpp: nth", "include/boost/segmented_tree/seq.hpp: insert", "include/boost/segmented_tree/seq.hpp: erase"]}
{"id": "C61", "title": "Benchmark traversals visit the intended elements", "statement": "Accumulating forward or backward through a container's iterators yields the sum of all elements modulo 2^64; the strided traversals (it += d / it -= d while at least d elements are left) never leave the container for d > 0 and yield the sum of the elements 0, d, 2d, ... (complete blocks of d only) respectively size-d, size-2d, ...; the memory is unchanged. With d = 0 on a non-empty container the loop never ends.", "quantifier": "every reachable memory, container, contents and stride", "why_tests_cant": "strides and sizes are unbounded; staying within the iterator range is needed for every pair", "anchors": ["common/iterator.hpp: accumulate_forward, accumulate_backward, accumulate_forward_by, accumulate_backward_by", "include/boost/segmented_tree/seq.hpp: iterator_t::operator+=", "include/boost/segmented_tree/seq.hpp: iterator_t::operator-="]}
{"id": "C62", "title": "A scope guard runs its action exactly once unless dismissed", "statement": "In every well-formed lifetime of scope guards (construction, move construction, dismissal, destruction) at whose end no guard is alive, each guarded action runs exactly once if its active guard was never dismissed and never if it was; moving a guard transfers the obligation.", "quantifier": "every sequence of guard operations", "why_tests_cant": "all interleavings of moves, dismissals and destructions of any number of guards", "anchors": ["bench/common.hpp: scope_guard"]}
{"id": "C63", "title": "Generic random-access algorithms behave on containers as on arrays", "statement": "Take any algorithm that works through random access iterators (copying, ++, --, +=, reading, indexing, assigning, moving from, comparing, subtracting), possibly on several containers at once. If each of its steps would be allowed on plain arrays with the same elements and indices as iterators, then on the containers it has defined behaviour, it sees the same values at every step, ends in the same state with the same result, leaves in the containers what it would leave in the arrays, invalidates no iterator it holds, changes no container it was not given, and allocates and frees nothing.", "quantifier": "every algorithm, every number of steps, every set of containers and iterators into them, every reachable memory and configuration, copy assignments that throw included", "why_tests_cant": "one test runs one algorithm on one input; the claim is that the iterators are indistinguishable from array indices for any program that uses them", "anchors": ["include/boost/segmented_tree/seq.hpp: iterator_t", "include/boost/segmented_tree/seq.hpp: begin, end"]}
{"id": "C64", "title": "Members that call a user's function, when it throws: basic guarantee for every implementation", "statement": "sort, reverse, merge-like members run a standard algorithm over [begin, end); remove_if, unique and the like run one and then erase from its result to the end. Whatever the implementation of the algorithm: if it returns, the container holds what an array would hold (up to the returned position for the erasing members); if the user's predicate or comparison throws, the exception comes out, the container is intact with the elements an array would have at that point, and other containers, heights, and allocations are unchanged. For remove_if with the reference implementation: if the predicate throws first at element q, the kept elements before q are in order at the front, the elements from q on are in place, and the number of elements is unchanged; if it never throws, exactly the rejected elements remain.", "quantifier": "every algorithm that respects array bounds, every predicate including throwing ones, every reachable memory, container and configuration", "why_tests_cant": "a predicate can throw at any element of any container; the result depends on library implementation details", "anchors": ["include/boost/segmented_tree/seq.hpp: remove_if", "include/boost/segmented_tree/seq.hpp: unique", "include/boost/segmented_tree/seq.hpp: sort", "include/boost/segmented_tree/seq.hpp: reverse", "include/boost/segmented_tree/seq.hpp: merge"]}
{"id": "C65", "title": "Arguments that refer to the container itself", "statement": "push_back(s[j]), push_front(s[j]), assign(n, s[j]) and resize(n, s[j]) with n <= size()+1, and assign(nth(a), nth(b)) of a range of the container's own elements behave exactly as with copies made before the call, exceptions included. Not so in general: resize(n, s[j]) and assign(n, s[j]) with n >= size()+2 may read a destroyed element, remove(s[j]) may leave elements equal to the old value of s[j] (with the reference std::remove: the reference denotes the old s[j] until j+1 elements have been kept and from then on the last of these; so it is harmless if at most j elements are to be kept), splice(pos, s, it) of the container into itself may leave a container with a missing element, and merge of a container with itself is undefined.", "quantifier": "positive part: every reachable memory, container, index and configuration; negative part: reachable witnesses", "why_tests_cant": "depends on whether and where the tree is split while the reference is in use", "anchors": ["include/boost/segmented_tree/seq.hpp: push_back, push_front", "include/boost/segmented_tree/seq.hpp: assign_count, assign_range, resize_count", "include/boost/segmented_tree/seq.hpp: remove, splice, merge"]}
{"id": "C66", "title": "Where exceptions come from", "statement": "An exception leaves a call only if something the documentation names threw: an allocation, a move or a copy of an element, or the bounds check of at(). The functions declared noexcept (begin, end, penultimate, nth, empty, size, height, get_allocator, clear, swap, the default and move constructors, the destructor, move assignment with a propagating allocator), move assignment between equal allocators, iterator operations, operator[], front, back and comparisons never throw. Erasing throws only if moving an element throws and never allocates; inserting an rvalue never copies an element; out_of_range leaves only at().", "quantifier": "every memory (reachable or not), every container, argument and configuration, including element types whose moves throw and every behaviour of the allocator", "why_tests_cant": "noexcept violated on one path terminates the program; every path of every function, with every failure point, has to be excluded", "anchors": ["include/boost/segmented_tree/seq.hpp: noexcept members 2245-2306, 2316, 2387, 2475, 2566-3064, 3379", "include/boost/segmented_tree/seq.hpp: at, erase, insert, move_assign"]}
{"id": "C67", "title": "Any input range, including one that throws", "statement": "insert(pos, first, last), assign(first, last) and the range constructor read any input range (single pass, user-defined, whose dereference or increment may throw) once, in order, and insert, assign or construct exactly its values. If the range throws after yielding v1..vk, exactly v1..vk have been inserted (or have overwritten the first k elements), the exception propagates, the container is valid and usable; a constructor leaves nothing behind. If the allocator fails a proper prefix has been inserted. No other container is affected.", "quantifier": "every range given as a state machine (any state type, any dereference and increment, throwing anywhere), every reachable memory, container, position, configuration and allocator behaviour", "why_tests_cant": "the interleaving of user code that may throw with splits of the tree has to be right at every point", "anchors": ["include/boost/segmented_tree/seq.hpp: insert(pos, first, last), emplace_range", "include/boost/segmented_tree/seq.hpp: assign(first, last), assign_range", "include/boost/segmented_tree/seq.hpp: seq(first, last, alloc)"]}
{"id": "C68", "title": "Element types whose moves may throw: everything holds until a move throws", "statement": "With an element type whose move constructor or assignment may throw (all other properties assume it does not): as long as no call has ended in an element's exception, every call other than sort and merge either returns what is specified, fails as specified (no memory, out of range, a copy throws), or ends in an element's exception; it is never undefined and always terminates. Constructors that return, or that fail for lack of memory, have done what is specified. Reading, clearing, destroying, swapping and comparing containers do not depend on whether moves throw.", "quantifier": "every element type in which a move of a value throws or not depending on the value, every configuration, every history of calls within preconditions none of which ended in an element's exception, every next call, every allocator behaviour", "why_tests_cant": "a move may throw at any of the many moves inside a split, a shift or a merge of segments; that all other runs are untouched is a statement about every history", "anchors": ["include/boost/segmented_tree/seq.hpp: construct_segment, assign_segment, move_segment, move_assign_segment, construct_range_segment", "include/boost/segmented_tree/seq.hpp: insert_single_segment, erase_single_segment"]}
{"id": "C69", "title": "Moves that throw at arbitrary moments", "statement": "With an element type whose moves may throw at any moment (two moves of the same value may behave differently, as with a move constructor that allocates): as long as no call has ended in an element's exception, every call other than sort, merge and the constructors returns what is specified, fails as specified, or ends in an element's exception; a constructor that returns or fails for lack of memory has done what is specified. When a move does throw the library may leave a broken container although push_back is documented as strong: if push_back on an empty container would succeed with no move throwing and its second move throws, the exception leaves size() == 1 with no object stored, reading element 0 is undefined and so is destroying the container; for the same reason the constructor seq(n, v) with n > 0 is itself undefined when its second move throws.", "quantifier": "every element type, every schedule of throwing moves (an arbitrary function of the number of the move and the value), every configuration, every history of calls within preconditions none of which ended in an element's exception, every next call, every allocator behaviour; for the defect, every empty container, value and allocation behaviour under which the call would otherwise succeed", "why_tests_cant": "the schedule of throwing moves ranges over an infinite set and multiplies every history; a fault injection test samples it", "anchors": ["include/boost/segmented_tree/seq.hpp: insert_single_segment (1620-1628), construct_segment, move_segment, assign_segment", "include/boost/segmented_tree/seq.hpp: seq(size_type, const T&, const Allocator&), push_back"]}
{"id": "C70", "title": "No exception is lost and none is invented", "statement": "Whenever a call of the interface returns, every copy of an element it made succeeded and every request it made to the allocator was met. Whenever a call ends in an exception, that exception is the one of the last thing that failed, and exactly one thing failed during the call: bad_alloc means that exactly one request was refused and no copy threw; the exception of an element means that the last copy made threw, all copies before succeeded, and no request was refused; out_of_range means that nothing failed at all. So the library never swallows an exception, never replaces one by another, never retries after a failure, and never throws spontaneously.", "quantifier": "every element type whose moves do not throw, every schedule of throwing copies and of failing allocations, every configuration, every call of the interface, in every memory whatsoever (reachable or not)", "why_tests_cant": "the failure point and the history range over infinite sets; a test sees that an injected fault surfaces, not that every fault in every state does", "anchors": ["include/boost/segmented_tree/seq.hpp: emplace_single, emplace_count, emplace_range, assign_count, assign_range, insert_single_iterator", "include/boost/segmented_tree/seq.hpp: allocate_* helpers and their rollback (catch/throw)"]}
{"id": "C71", "title": "Exact number of element copies", "statement": "How many elements a call copies is a function of its arguments and the sizes of the containers: one for writing an lvalue, inserting an lvalue, push_back/push_front of an lvalue and splice of a single element; n for insert(pos, n, v), assign(n, v) and seq(n, v); the length of the list or range for insert, assign and construction from it, copy construction and copy assignment; n - size() (or 0) for resize(n, v); none for everything else: erasing, clearing, destroying, splicing containers and ranges, merging, sorting, reversing, removing, unique, moving, swapping, inserting rvalues, comparing, reading, self-assignment. A call that returns has made exactly that many copies, a call that throws at most that many; and the calls that copy nothing copy nothing even when they throw, in every memory and even if moves throw.", "quantifier": "every element type that is not trivially copyable, every schedule of throwing copies and failing allocations, every configuration, every reachable memory, every call within its preconditions (for the calls without copies: every memory, every element type)", "why_tests_cant": "a test counts the copies of a few calls on a few containers; the count must be right for every size, tree shape and failure point", "anchors": ["include/boost/segmented_tree/seq.hpp: emplace_single, emplace_count, emplace_range, assign_count, assign_range, resize_count, splice, erase_range"]}
{"id": "C72", "title": "Which copy throws decides what is left", "statement": "Every call that copies elements copies a definite list of values in a definite order (the n copies of v; the values of the list or range from first to last; the elements of the other container). If the call returns, exactly these copies were made and none threw. If it throws, the first k copies succeeded and their elements are in place, one more copy was made, and either that copy threw and its exception is the one that leaves the call, or it succeeded and storing it failed with bad_alloc; the containers hold exactly the state with k elements in place (inserted at the position; overwriting the first k; appended; for constructors and single elements: nothing changed). Hence, if memory does not run out, the call throws exactly if one of these copies throws, and the first one that does determines the contents.", "quantifier": "every element type that is not trivially copyable and whose moves do not throw, every schedule of throwing copies and failing allocations, every configuration, every reachable memory, every call within its preconditions", "why_tests_cant": "fault injection samples some failure points of some calls; the state after the failure must be right for every failure point, size and tree shape", "anchors": ["include/boost/segmented_tree/seq.hpp: emplace_single, emplace_count, emplace_range, assign_count, assign_range, resize_count (2129-2225)", "include/boost/segmented_tree/seq.hpp: constructors, operator=(seq const&), splice(pos, other, it)"]}
{"id": "C73", "title": "Tuning parameters and addresses are invisible", "statement": "The template parameters segment_target and base_target, the sizes of elements and nodes, the width of size_type, and the addresses the allocator hands out never show in the results: a program that makes the same calls on containers of two types differing only in those gets from every call the same value, the same position or the same out_of_range exception, and ends with containers holding the same sequences and allocators, provided no call is stopped by a refused allocation or a throwing copy. A program that runs with one choice runs with every other, up to the first refused allocation or throwing copy.", "quantifier": "for all pairs of configurations with the same element type and the same allocator propagation traits, all programs (histories of calls) and all allocators (address choices, initial garbage)", "why_tests_cant": "tests run a handful of segment sizes; the claim compares all pairs of configurations on all programs", "anchors": ["include/boost/segmented_tree/seq.hpp: template parameters segment_target, base_target", "include/boost/segmented_tree/seq.hpp: segment_max, base_max"]}
{"id": "C74", "title": "The objects alive are exactly the elements", "statement": "Between any two calls of any program, every element of every container is an object at an address of its own (different elements, of one or of several containers, are different objects), and, for element types with a destructor, there is no other object: each object alive in the memory of the containers is one element, so that a type counting its instances counts exactly the sum of all size()s. In particular each element constructed is destroyed exactly once, also when calls throw.", "quantifier": "for all reachable states (any history of calls, including those in which allocation or copying threw), all containers and all positions", "why_tests_cant": "an instance-counting test checks the balance after the few histories it runs; the claim is about the memory after every history and every failure", "anchors": ["include/boost/segmented_tree/seq.hpp: move_segment_range", "include/boost/segmented_tree/seq.hpp: insert_segment, erase_segment, destroy_segment", "include/boost/segmented_tree/seq.hpp: purge"]}
{"id": "C75", "title": "Cost of generic algorithms and of sort", "statement": "Any algorithm written against random access iterators that takes n steps on an array (reads, writes, copies and comparisons of iterators, ++, --, +=, r[d]) makes on containers of at most N elements at most 3 block accesses per step that does not move an iterator and at most K*log N per step that does, K depending on the template arguments only; so sort() with a standard library's stable_sort taking f(N) steps costs at most (f(N)+2)*K*log N accesses, also when the comparison throws.", "quantifier": "for all algorithms (arbitrary state machines over iterator commands), all numbers of steps, all reachable containers and all template arguments", "why_tests_cant": "a benchmark times one algorithm on some sizes; the claim bounds every algorithm on every container", "anchors": ["include/boost/segmented_tree/seq.hpp: sort", "include/boost/segmented_tree/seq.hpp: iterator operator++, operator--, operator+=, operator[]"]}
{"id": "C76", "title": "When iterators dangle", "statement": "clear(), destruction and a move assignment that takes over the source's blocks invalidate every iterator to an element of the container they are called on: reading through one is undefined behaviour afterwards although it was fine before. (The documentation of operator=(seq&&) says that no iterators are invalidated; that is true only of the source's iterators.) *end() is undefined behaviour for every container. In every reachable state an iterator value, however old, either gives undefined behaviour when read or reads a current element of some existing container.", "quantifier": "every reachable state, container, position, other container and allocator pair; every iterator value whatsoever for the last part", "why_tests_cant": "A test that reads through a dangling iterator is itself undefined and usually appears to work; that no stale iterator can reach a non-element object is a statement about all histories.", "anchors": ["include/boost/segmented_tree/seq.hpp: operator=(seq&&), clear, ~seq, end, dereference"]}
{"id": "C77", "title": "The logarithms are real", "statement": "Inserting or erasing one element (insert, push, erase, pop) makes at least height()-1 memory accesses wherever the element is, and height() grows at least logarithmically with size(). Erasing a range and inserting a list or n copies make more than h accesses for every element erased or inserted while the container holds more elements than one of height h+1 can. The same holds for remove_if and unique; hence, although they are documented as linear in size(), no constant bounds their accesses per element: for every C there is a size from which on remove_if of everything (and unique leaving one element) makes more than C*size() accesses, and states of that size are reachable. merge of a container that is at least as large as the destination is superlinear in the same sense, whatever std::inplace_merge costs, although documented linear when temporary memory is available.", "quantifier": "every reachable state, container, position, count, list, predicate, height h and factor C; every configuration with a working allocator for the last part", "why_tests_cant": "A lower bound that grows without limit, and the absence of any constant, are statements about infinitely many sizes; the factor grows with the logarithm of the size and is invisible at the sizes a test can run.", "anchors": ["include/boost/segmented_tree/seq.hpp: update_sizes, insert_single_segment, erase_single_segment, erase_range, emplace_count, emplace_range, remove_if, unique"]}
{"id": "C78", "title": "Threads that share no container do not disturb each other", "statement": "If every container is used by one thread only, or only read (const functions, comparisons, copying from it) by all of them, then any number of threads may call the library at the same time. However their single memory accesses are interleaved: no thread reads or writes memory another thread may write (no data race), nothing is undefined, no thread finds its own or a shared read-only container changed; each thread ends, after a number of its own accesses that does not depend on the others, with exactly the results and containers it would have got alone, which are those the specification allows; read-only containers never change; when all have ended the memory holds precisely the containers of the threads and the read-only ones, and the program may go on with any calls and start threads again. (As long as allocators do not hand out memory in use.)", "quantifier": "all template arguments, programs before the threads start (with threads of their own), numbers of threads, adaptive clients making calls within their preconditions, allocators per thread, exceptions, and all interleavings of single memory accesses", "why_tests_cant": "Data races show up only in particular interleavings and the number of interleavings is astronomical; tests with threads observe a few of them, and thread sanitizers only report races of the runs they see.", "anchors": ["include/boost/segmented_tree/seq.hpp: seq, iterator_t, static_traits_t, copy_assign_alloc, find_index, insert_single_iterator, erase_single_iterator"]}
{"id": "C79", "title": "Retrying a failed insertion", "statement": "A client may put insert(pos, v), push_back(v) or push_front(v) in a loop that tries again after every bad_alloc and every exception of the element's copy (the repository's insert_single_retry does). Whatever fails and however often, the program is defined; when the loop ends the element has been added exactly once, at the right place; an exception the client does not catch leaves memory as it was before the first attempt. The loop ends if the allocator again and again serves height() + 1 requests in a row and copies of the value stop throwing; without any memory it never ends. So insert_single_retry builds the sequence its data describe, and erase_single takes it down to the first element.", "quantifier": "all environments, reachable memories, contents, positions, values, failure schedules of allocator and copies, kinds of exception caught; all insertion data", "why_tests_cant": "the number of failed attempts is unbounded, and the test runs one pseudo-random failure schedule; that the loop ends, and what a failed attempt leaves behind, must hold for every schedule", "anchors": ["test/test_sequence.cpp: insert_single_retry, test_single_retry", "include/boost/segmented_tree/seq.hpp: insert, push_back, push_front"]}
{"id": "C80", "title": "The repository's randomised tests hold for all parameters", "statement": "test_single, test_range and test_single_retry of test/test_sequence.cpp build a container by random insertions, compare the checksum of its contents with the one they are given and traversals of it (forward, backward, by strides 1, 10, ..., 10000) with the same traversals of a vector with its elements, and erase all but the first element inserted. For every count (and block size) of at least one that fits, every stream of random numbers, every element type and allocator and every history before, all their checks hold, provided the checksum given is the one that the generator program (which builds a vector instead) prints for the same parameters, and otherwise exactly the checksum's check fails; afterwards everything is as before the test; a failing allocation or copy ends the test with that exception (with test_single_retry: does not), also leaving everything as before. As a whole program the test starts and ends without any memory. With count 0 the tests are undefined.", "quantifier": "all environments, counts, block sizes, random engines, element streams, histories and failure schedules", "why_tests_cant": "the tests run four seeds each with one element type and allocator; the claim is about all of them, and about what is left behind after a failure at any point", "anchors": ["test/test_sequence.cpp: test_iterator, test_single, test_range, test_single_retry", "common/iterator.hpp: accumulate_forward, accumulate_forward_by, accumulate_backward, accumulate_backward_by", "common/generate_single.hpp: generate_single", "common/generate_range.hpp: generate_range"]}
{"id": "C81", "title": "An insertion that returns requests exactly the blocks its container grows by, and frees none", "statement": "An insertion of one or many elements (insert in every form, push_back, push_front, emplace) that returns, and a constructor from a count, a range or another container, asks the allocator for exactly as many blocks as the container has more afterwards: each new block is obtained by one request, every request is granted, no address in use is handed out, and no block of any container is freed on the way. Hence filling an empty container with n elements, by any sequence of insertions in any positions, costs in total at most 2n/segment_min - 1 allocations (one at most while it is a single segment): there is no churn. Calls that erase, reorder or read request nothing and never make the container own a block it did not own.", "quantifier": "every element type, template arguments and allocator oracle; every reachable memory, container, position and inserted values; every program consisting of insertions into one container", "why_tests_cant": "An allocation that is made and freed again within one insertion, or a block that is kept by nobody, changes no observable element; a test would have to count requests over every shape of tree and every insertion position.", "anchors": ["include/segmented_tree/seq.hpp: allocate_segment, allocate_node, alloc_nodes, insert_single_segment, insert_single_leaf, insert_single_branch, emplace_count, emplace_range"]}
{"id": "C82", "title": "The checksum of the tests and benchmarks detects every corruption of up to 64 consecutive bits", "statement": "make_checksum_unsigned gives different checksums for any two sequences of the same length that differ only within eight consecutive bytes; in particular for sequences of unsigned integers (of at most 64 bits) in which one element differs, at any position of a sequence of any length. It does not notice zeros added or lost at the front.", "quantifier": "all sequences, element widths, positions and replaced values", "why_tests_cant": "there are 2^64 remainders and sequences of any length; a test tries a few corruptions", "anchors": ["common/common.hpp: make_checksum_unsigned"]}
{"id": "C83", "title": "The benchmark programs accept exactly the checksum the generators print, and leave nothing behind", "statement": "bench_single and bench_range build a container by random insertions, verify its checksum against the one given on the command line, run the iterator benchmarks and erase all but the first element inserted. For every count (and block size) of at least one that fits, every stream of random numbers, element type, allocator and history before: they report success if and only if the checksum given equals the one printed by generate_single or generate_range (which use a vector) for the same parameters, or end with the exception of a failing allocation or copy; everything else is as before in all cases. The checksum of a sequence with one element changed is rejected.", "quantifier": "all environments, counts, block sizes, random engines, element streams, checksums, histories and failure schedules", "why_tests_cant": "the benchmarks run with a handful of seeds and one element type; no test runs them with failing resources", "anchors": ["bench/single.hpp: bench_single", "bench/range.hpp: bench_range", "bench/iterator.hpp: bench_iterator", "bench/common.hpp: verify", "common/generate_single.hpp: generate_single", "common/generate_range.hpp: generate_range"]}
{"id": "C84", "title": "The documentation's example finds the needle where it was put", "statement": "The example program of the documentation builds a container of n equal elements, inserts a different element at nth(i), searches for it with std::find between begin and end, prints index_of of the iterator found and erases the element. For every n that fits, every i, element type, allocator and history before, it prints min(i, n), and the container again holds the n elements; or the allocation (or a copy of the element) throws. In all cases the program leaves nothing behind. std::find_if between any two iterators of a container returns the iterator to the first element that satisfies the predicate, or the second iterator.", "quantifier": "all environments, sizes, positions, predicates, histories and failure schedules", "why_tests_cant": "the example uses one size and one position; the claim is about all", "anchors": ["doc/segmented_tree.qbk: Example needle in a haystack", "include/boost/segmented_tree/seq.hpp: nth, insert, begin, end, index_of, erase"]}
{"id": "C85", "title": "An insertion asks for memory exactly when the segment it lands in is full", "statement": "For every single-element insertion (insert, emplace, push_front, push_back, emplace_front, emplace_back): if the segment at the position (it.end() - it.begin()) holds fewer than segment_max elements, the insertion makes no request to the allocator at all, cannot fail with bad_alloc and leaves height() as it was. If that segment is full, a successful insertion requests exactly one segment plus one node for every full node found walking up from it without a gap, plus a new root when all of them are full; height() grows by one exactly in that last case. The first insertion into an empty container requests exactly one block. An insertion that fails with bad_alloc therefore found the segment full or the container empty.", "quantifier": "every reachable container, every position, every value, every insertion function, every allocator behaviour, all tuning parameters", "why_tests_cant": "a test sees the fill pattern it builds; the claim is about all fill patterns of all heights, and about what the allocator is not asked for", "anchors": ["include/boost/segmented_tree/seq.hpp: insert_single_segment, alloc_nodes_single, alloc_nodes_loop, insert_single_leaf, insert_single_branch", "doc/segmented_tree.qbk: Inserting"]}
{"id": "C86", "title": "An erasure gives back exactly the blocks the documentation's rules name", "statement": "For every single-element erasure (erase, pop_back, pop_front): it returns, and what it frees follows from the tree before the call alone. A segment above segment_min, or the only segment with more than one element, frees nothing and keeps height(). A segment at its minimum first looks at its sibling (the previous one, else the next): if that is above the minimum nothing is freed; otherwise the two are merged, one segment is freed, and the node above loses a child by the same rule with base_min; a root with two children is freed and height() falls by one. The last element frees the last segment. No other block anywhere is freed and nothing is requested: at most height() blocks go, at most one level.", "quantifier": "every reachable container, every position, every tree shape and height, all tuning parameters, any other containers in the program", "why_tests_cant": "the merge chain depends on the fill of every node and sibling on the path; tests see a few shapes, the claim is about all of them and about what is not freed", "anchors": ["include/boost/segmented_tree/seq.hpp: erase_single_segment, erase_single_leaf, erase_single_branch, deallocate_segment, deallocate_node", "doc/segmented_tree.qbk: Erasing"]}
{"id": "C87", "title": "Elements built by any constructor", "statement": "emplace(pos, args...), emplace_back(args...), emplace_front(args...), resize(n) and seq(n) build their elements with a constructor of the user's, which may throw and need not give the same value each time. emplace inserts exactly the value built, once; if the constructor throws, that exception leaves the call and nothing at all has happened; if memory runs out everything is as before. resize(n) to a larger size appends the values in the order in which they were built; if the constructor throws after giving v1..vk, exactly v1..vk have been appended, if memory runs out a proper prefix; to a smaller or the same size it builds nothing and returns. seq(n) holds the n values built or leaves nothing behind. No other container is affected.", "quantifier": "every reachable state, position, size, and every behaviour of the constructor (each of its evaluations gives any value or throws), every allocator", "why_tests_cant": "tests use default constructors of built-in types; the constructor is arbitrary user code and may fail at any evaluation and any size", "anchors": ["include/boost/segmented_tree/seq.hpp: emplace, emplace_back, emplace_front, emplace_single, emplace_count, resize_count, seq(size_type, Allocator const&)"]}
{"id": "C88", "title": "Algorithms interrupted by throwing moves leave containers intact", "statement": "When the moves and copies of elements and the comparisons may throw at any moment, an algorithm of the standard library that works through iterators (sort and the second half of merge included, whatever their implementation) does on containers exactly what it does on arrays: the same steps throw, the elements end up as they would in an array, and whether it returns or lets an exception out, every container is intact and usable and later calls behave as specified. When o.merge(p) has moved the elements over, o ends up as an array would and p stays empty.", "quantifier": "all algorithms as sequences of iterator operations and element moves and copies, all decisions which moves throw, all containers and contents, all histories of calls and interrupted algorithms before it", "why_tests_cant": "the exceptions can occur at any of the unboundedly many moves of an algorithm, and the implementation of the algorithms is the library's own affair", "anchors": ["include/boost/segmented_tree/seq.hpp: sort, merge, reverse, iterator, dereference"]}
{"id": "C89", "title": "Where a failing move does no harm", "statement": "For an element type whose moves may throw at arbitrary moments: adding an element at the end (push_back, insert/emplace at end(), by copy or by move) of a non-empty container whose last segment has room either adds it or throws and has changed nothing. Erasing an element (erase, pop_back, pop_front) where the erasure frees no memory (a segment above its minimum, the only segment, or a segment that takes an element from a sibling) either erases it or throws and leaves the container in order: same size, iterators, height and allocator, every element in its place except that some elements next to the gap have been moved by one place towards it, the last of them leaving a moved-from value; nothing was requested, freed or changed in other containers. Erasing the last element of such a segment, and the only element of a container, throws nothing. After such failures every later call again returns what is specified, fails as specified or ends in an element exception. (Erasures that merge segments and insertions that shift or split are not covered; C44 and C69 show insertions that leave a broken container.)", "quantifier": "all sound configurations, all reachable histories (including earlier failures of these kinds and interrupted algorithms), all containers, positions and values, all assignments of throwing moves to moments", "why_tests_cant": "which move throws, and when, is unbounded; a failing test needs the exact move inside the exact segment shape, and 'the container is still in order' is a statement about all later calls", "anchors": ["include/boost/segmented_tree/seq.hpp: emplace_single, insert_single_iterator, erase_single_segment, erase_single, push_back, pop_back, pop_front, erase, assign_backward_segment, assign_forward_segment, move_assign_segment"]}
{"id": "C90", "title": "Allocator traffic under mixed insertions and erasures", "statement": "If base_max is even, any program of a single insertions and b single erasures, at any places and in any order, asks the allocator for at most 3a + b blocks (plus twice the size it started with; nothing more from empty), whatever the height of the tree: a constant number per call. If base_max is odd (with the default targets it is 47), there is no such constant: after a push_back that made the tree higher, from n to n+1 levels, every round of one pop_back and one push_back (two of each if segment_max is even) makes it lower and higher again and asks for exactly n+1 blocks; so for every c (up to what size_type can count) some program of single insertions and erasures, from empty, asks for more than c blocks per call.", "quantifier": "all configurations (segment and node sizes), reachable states, programs of single insertions and erasures, all numbers of rounds, all constants c", "why_tests_cant": "an amortised bound is about all programs of all lengths, and the bad case needs a tree whose right edge is exactly full at every level", "anchors": ["include/boost/segmented_tree/seq.hpp: base_max, base_min, insert_single_leaf, alloc_nodes_single, erase_single_branch, erase_single_leaf, erase_single_segment, push_back, pop_back"]}
{"id": "C91", "title": "The repository's deterministic tests hold in every configuration and for all values", "statement": "Each deterministic test of test_sequence.cpp (construction, assignment, access, iterators, insertion, erasure, resizing, swapping, splicing, merging, removing, reversing, sorting) passes whatever the segment and node sizes are, whatever elements stand for the numbers of the test (distinct and ordered like them where the test depends on it), whatever allocator (with any propagation traits) is used and whatever other containers exist: every check is true, no container and no allocation is left behind, and no other container changes. The only way not to finish is an exception from the allocator or from copying an element; then too nothing is left behind. The tests can be run in any order and any number of times.", "quantifier": "all sound configurations, element types, values, equalities and orders that agree with the numbers, allocators and their failures, reachable memories with any other containers, all tests and all sequences of tests", "why_tests_cant": "The test suite runs once, with the default segment and node sizes, two element types and std::allocator; a test that passes there can fail for other template arguments, for elements whose copies throw, or after other operations.", "anchors": ["test/test_sequence.cpp: test_construct_alloc ... test_sort_predicate, check_contents", "include/boost/segmented_tree/seq.hpp: segmented_tree_seq"]}
{"id": "C92", "title": "Programs that hold iterators behave as programs that hold positions", "statement": "Take any program that keeps iterators in variables, moves them with ++, -- and +, copies, compares and subtracts them, reads and writes through them, passes them to insert, erase, range erase, and splice, stores the iterators those return, and makes any other call in between. If the same program, run on plain lists with every iterator replaced by a container and an index, only makes steps within their preconditions, then in the library every step ends without undefined behaviour and gives an answer the plain run can give, the containers hold the plain lists, and every variable that stands for an index is, in every field, nth of that index. Which iterators remain valid is a fixed table: const calls, writes, reverse and sort keep them; swap, move construction and a move assignment that takes over the blocks hand them to the other container; copying keeps the source's; a failed insertion or splice of one element keeps all of them. In particular the loop that erases through the iterator erase returns is filter, and the loop that inserts through the iterator insert returns puts the new element in front of exactly the elements asked for, or throws with exactly that done up to some element.", "quantifier": "all programs that use any number of containers and iterator variables, all numbers of steps, all template parameters and element types, all patterns of allocation failure and throwing copies, and arbitrary garbage in unset variables; for the loops: all containers and predicates", "why_tests_cant": "a test runs one program with particular containers; whether a stored iterator still works depends on which blocks every call in between rewrote, split, merged or freed, for every interleaving of calls and failures", "anchors": ["include/boost/segmented_tree/seq.hpp: insert, erase, splice, swap, operator=, nth, begin, end, iterator operators"]}
{"id": "C93", "title": "Sorting, merging, rotating and searching in place", "statement": "With the code the standard library runs when it cannot get a buffer (libstdc++'s insertion sort, merge without buffer and in-place stable sort; block-swapping rotation, with and without its shortcuts for trivial types; binary search), sort(comp) returns and leaves the same sequence as by the contract of std::stable_sort - sorted, a permutation, stable - and merge(other, comp) of sorted containers leaves the stable merge, throws exactly when it throws by contract and then leaves the same memory. The same algorithms called by the user on any iterator range of a container (stable sort, in-place merge, std::rotate with its returned iterator, std::reverse, std::lower_bound, std::upper_bound) do to that range what the standard says. Apart from the values in the range nothing is different: all iterators stay valid and keep their positions, the height, allocator, other containers and all memory requested stay as they are; searching writes nothing.", "quantifier": "all template arguments with moves that do not throw, reachable memories, containers of any size that difference_type can count, iterator ranges, strict weak orders, searched values", "why_tests_cant": "The algorithms jump, step, swap and move elements through iterators in an order that depends on all comparisons; every data set, range and tree shape takes another path, and stability is about all pairs of equivalent elements.", "anchors": ["include/boost/segmented_tree/seq.hpp: sort, merge, operator+=, operator-, operator++, operator--, operator*"]}
{"id": "C94", "title": "Sorting and merging with any temporary buffer", "statement": "sort(comp) and merge(other, comp) give the stable sorted result the standard promises when the standard library's own stable_sort and inplace_merge run on the container's iterators, whatever part of the temporary buffer they ask for they get: all of it, some of it or none. They end, never write past the buffer, use no iterator or element wrongly, and leave every iterator, the capacity, the allocator and all other containers as they were.", "quantifier": "every configuration, reachable state, container or range, strict weak order, and every size of the buffer obtained", "why_tests_cant": "How much memory the library finds decides which of four algorithms runs, and each moves elements through the container's iterators in another order; the result must hold for every content, every order and every buffer size.", "anchors": ["include/boost/segmented_tree/seq.hpp: sort, merge, operator+=, operator-, operator++, operator--, operator*"]}
