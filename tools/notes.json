{
 "C08": {
  "note": "Total correctness: every call within its precondition ends in a normal return or an allowed exception, never undefined behaviour or divergence. Excluded by Good: base_max >= 65536 (C41), throwing element moves (C44). deallocate(nullptr) on empty containers is tolerated only if the allocator does (C45)."
 },
 "C12": {
  "note": "C12_basic: any throwing call keeps the whole bank of containers representable by lists as specified; C12_insert_fill / C12_insert_list give the prefix."
 },
 "C16": {
  "note": ""
 },
 "C23": {
  "note": "The documented claim about before_segment(count) is refuted: C23_before_count gives its exact behaviour, C23_before_count_wrong shows it is never right."
 },
 "C36": {
  "note": "std::inplace_merge is modelled by its contract (reads and writes through the iterators), not by its code."
 },
 "C38": {
  "note": "std::reverse is modelled by its reference implementation, std::stable_sort by its contract (reads and writes through the iterators)."
 },
 "C41": {
  "note": "C41_fields is the positive half; C41_overflow exhibits the corruption for every configuration with base_max >= 65536 and segment_max = 1."
 },
 "C42": {
  "note": "Positive for single insertion, counterexamples for the fill form."
 },
 "C43": {
  "note": "The documented strong guarantee is refuted; the guarantee that does hold is proved."
 },
 "C44": {
  "note": "The documented guarantee is refuted by reachable counterexamples; the guarantee for nothrow moves is C10, C11, C14."
 },
 "C45": {
  "note": "Refuted for every empty container, proved for every non-empty one."
 },
 "C52": {
  "note": "The documentation's 'logarithmic in the distance, amortised' for jumps is proved only as logarithmic in the size (worst case); single steps are proved constant amortised."
 },
 "C55": {
  "note": "Copy assignment that replaces its allocator is covered with its own, weaker bound, which is what the code does."
 },
 "C56": {
  "note": "The documented logarithmic bound of remove(value) is refuted; the bound that holds is proved."
 }
}