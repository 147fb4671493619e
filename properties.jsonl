{"id": "C01", "title": "FrozenMap lookup agrees with the payload", "statement": "If a FrozenMap is built from pairs whose keys are pairwise unequal and construction returns, then for every probe key get returns the value that was paired with an equal key, and None when no payload key equals the probe. This holds whichever internal representation was chosen (linear scan, general hash, u32 hash, u32 range, string length, string sub-slice).", "quantifier": "every key type (u32, String, any other), every lawful Hash/Eq, every hasher, every payload with distinct keys (fewer than 2^32 entries; C68 is about more), every probe key, every order the unstable sort may leave equal-slot items in", "why_tests_cant": "The representation and table size depend on the data through the analyzers; tests sample a few key sets and hash functions, while a collision layout that loses a key can appear only for particular sizes and residues.", "anchors": ["frozen-collections-core/src/facades/frozen_map.rs:FrozenMap::new", "frozen-collections-core/src/facades/frozen_map.rs:FrozenMap::get", "frozen-collections-core/src/specialized_maps/hash_table.rs:HashTable::new", "frozen-collections-core/src/specialized_maps/hash_table.rs:HashTable::get_hash_info"]}
{"id": "C02", "title": "FrozenMap construction succeeds for u32 and general keys", "statement": "Building a FrozenMap whose key type is u32 or any type other than String returns normally: no panic and no undefined behaviour, for payloads of fewer than 2^31 entries (C68 is about more), with or without repeated keys.", "quantifier": "every payload, every hasher, with and without arithmetic overflow checks", "why_tests_cant": "Panics hide behind capacity thresholds (255/256), table-size choices, integer overflow and division by a table size of zero; only a proof covers every size and every multiset of hash codes.", "anchors": ["frozen-collections-core/src/facades/frozen_map.rs:FrozenMap::new", "frozen-collections-core/src/facades/frozen_map.rs:new_u32_map", "frozen-collections-core/src/facades/frozen_map.rs:new_common_map", "frozen-collections-core/src/specialized_maps/hash_table.rs:HashTable::new", "frozen-collections-core/src/analyzers/hash_code_analyzer.rs:analyze_hash_codes"]}
{"id": "C03", "title": "FrozenMap and FrozenSet construction succeeds for String keys", "statement": "Building a FrozenMap or FrozenSet with String keys returns normally (no panic, no undefined behaviour) for every payload.", "quantifier": "every list of strings, every hasher", "why_tests_cant": "The outcome depends on lengths and on which sub-slices happen to be unique; the failing inputs are ordinary strings that the tests do not happen to use.", "anchors": ["frozen-collections-core/src/facades/frozen_map.rs:new_string_map", "frozen-collections-core/src/analyzers/slice_key_analyzer.rs:is_sufficiently_unique", "frozen-collections-core/src/specialized_maps/right_slice_map.rs:from_vec_with_hasher", "frozen-collections-core/src/facades/frozen_set.rs:new_string_set"]}
{"id": "C04", "title": "Presence is exact even when the payload repeats keys", "statement": "For a FrozenMap built from any payload, including one with repeated keys, get(k) is Some exactly when some payload key equals k, and the value returned is one that was paired with an equal key.", "quantifier": "every payload including repeated keys, every probe", "why_tests_cant": "Needs every arrangement of repeats; the failing arrangement requires the repeats to make the key span look contiguous.", "anchors": ["frozen-collections-core/src/facades/frozen_map.rs:FrozenMap::get", "frozen-collections-core/src/specialized_maps/integer_range_map.rs:from_vec", "frozen-collections-core/src/analyzers/int_key_analyzer.rs:analyze_int_keys"]}
{"id": "C05", "title": "get, get_key_value and contains_key agree", "statement": "On every constructed FrozenMap and every probe, contains_key is true exactly when get is Some, get_key_value is Some exactly when get is Some, both return the same value, and (distinct payload keys) the key returned by get_key_value equals the probe and is the key object stored at construction.", "quantifier": "every payload, hasher and probe; sizes: hash-based maps and sets of fewer than 2^32 entries (C68 is about more)", "why_tests_cant": "Three separately written lookup paths per representation, eleven representations.", "anchors": ["frozen-collections-core/src/facades/frozen_map.rs:get", "frozen-collections-core/src/facades/frozen_map.rs:get_key_value", "frozen-collections-core/src/facades/frozen_map.rs:contains_key"]}
{"id": "C06", "title": "get_mut addresses the slot get reads and nothing else", "statement": "get_mut(k) is Some exactly when get(k) is Some; after writing v through it, get(k) is Some(v), lookups of every unequal key are unchanged, and len, the key sequence and membership are unchanged.", "quantifier": "every FrozenMap with distinct payload keys, every key, every written value; sizes: hash-based maps and sets of fewer than 2^32 entries (C68 is about more)", "why_tests_cant": "Aliasing between slots would only show for particular collision layouts.", "anchors": ["frozen-collections-core/src/facades/frozen_map.rs:get_mut", "frozen-collections-core/src/specialized_maps/common_map.rs:get_mut", "frozen-collections-core/src/specialized_maps/integer_range_map.rs:get_mut"]}
{"id": "C07", "title": "Histories of value mutation behave like a plain map", "statement": "Starting from a FrozenMap with distinct keys, any finite sequence of writes through get_mut, IndexMut and get_many_mut, interleaved with reads, returns at each step what a plain key-to-value function updated by the same writes would return; keys can neither appear nor disappear.", "quantifier": "every payload, every finite history of operations; sizes: hash-based maps and sets of fewer than 2^32 entries (C68 is about more)", "why_tests_cant": "Unbounded histories.", "anchors": ["frozen-collections-core/src/facades/frozen_map.rs:get_mut", "frozen-collections-core/src/facades/frozen_map.rs:index_mut", "frozen-collections-core/src/facades/frozen_map.rs:get_many_mut"]}
{"id": "C08", "title": "get_many_mut returns a result exactly for distinct present keys, without aliasing", "statement": "With a lawful Eq, get_many_mut(keys) is Some exactly when the keys are pairwise unequal and all present; the i-th reference designates the same value slot as get_mut(keys[i]), and no two returned references designate the same slot.", "quantifier": "every map, every array length N, every key array; sizes: hash-based maps and sets of fewer than 2^32 entries (C68 is about more)", "why_tests_cant": "Quadratic uniqueness check plus per-representation lookups; aliasing is undefined behaviour and not observable by assertions.", "anchors": ["frozen-collections-core/src/facades/frozen_map.rs:get_many_mut", "frozen-collections-core/src/specialized_maps/scanning_map.rs:get_many_mut", "frozen-collections-core/src/specialized_maps/integer_range_map.rs:get_many_mut"]}
{"id": "C09", "title": "get_many_mut never aliases even when Eq is broken", "statement": "The documentation promises that logic errors in Hash/Eq never cause undefined behaviour and that at most one mutable reference is returned to any value: get_many_mut must not return two mutable references to the same slot for any Eq implementation.", "quantifier": "every Eq implementation, including non-transitive ones; every map and key array", "why_tests_cant": "Requires quantifying over all equality relations.", "anchors": ["frozen-collections-core/src/facades/frozen_map.rs:get_many_mut", "frozen-collections-core/src/facades/frozen_map.rs:FrozenMap doc comment lines 73-76"]}
{"id": "C10", "title": "Lookups are memory-safe for arbitrary Hash and Eq", "statement": "For any hash function and any Eq implementation, even inconsistent ones or ones that change between construction and lookup, every lookup on a constructed hash-based map (get, get_key_value, get_mut, contains_key) stays inside the slot and entry arrays and neither panics nor performs an out-of-bounds unchecked access.", "quantifier": "every table, every 64-bit hash code presented at lookup, every Eq", "why_tests_cant": "get_unchecked is used for both arrays; an out-of-range index is undefined behaviour rather than a failing test.", "anchors": ["frozen-collections-core/src/specialized_maps/hash_table.rs:get_hash_info", "frozen-collections-core/src/specialized_maps/common_map.rs:get", "frozen-collections-core/src/specialized_maps/left_slice_map.rs:get_hash_info", "frozen-collections-core/src/specialized_maps/length_map.rs:get"]}
{"id": "C11", "title": "Iteration yields exactly the payload", "statement": "Iterating a constructed FrozenMap or FrozenSet (iter, keys, values, by-reference for loop) visits every payload entry exactly once, nothing else: the visited sequence is a permutation of the payload.", "quantifier": "every payload, every hasher, every representation", "why_tests_cant": "Entries are moved through a sort and a pop loop; losing or duplicating one depends on the collision layout.", "anchors": ["frozen-collections-core/src/facades/frozen_map.rs:iter", "frozen-collections-core/src/specialized_maps/hash_table.rs:HashTable::new", "frozen-collections-core/src/facades/frozen_set.rs:iter"]}
{"id": "C12", "title": "len and is_empty report the payload size", "statement": "len() equals the number of pairs supplied and is_empty() is true exactly for the empty payload.", "quantifier": "every payload and representation", "why_tests_cant": "All sizes and representations.", "anchors": ["frozen-collections-core/src/facades/frozen_map.rs:len", "frozen-collections-core/src/facades/frozen_map.rs:is_empty", "frozen-collections-core/src/facades/frozen_set.rs:len"]}
{"id": "C13", "title": "Map iterators honour the Iterator contract at every point", "statement": "For Iter, Keys and Values over any map: after any number n of next() calls the items produced are the first n entries, size_hint, len and count equal the number of items still to come, fold visits the remaining items in order, and once None is returned next keeps returning None. keys() and values() run in lockstep with iter().", "quantifier": "every entry list, every number of next() calls", "why_tests_cant": "Every consumption point of every size.", "anchors": ["frozen-collections-core/src/specialized_maps/iterators.rs:Iter", "frozen-collections-core/src/specialized_maps/iterators.rs:Keys", "frozen-collections-core/src/specialized_maps/iterators.rs:Values"]}
{"id": "C14", "title": "Set iterator count equals the number of remaining items", "statement": "For the borrowing set iterator, count() after any number of next() calls equals the number of items still to come.", "quantifier": "every set, every number of next() calls", "why_tests_cant": "Tests only ever count fresh iterators.", "anchors": ["frozen-collections-core/src/specialized_sets/iterators.rs:Iter::count"]}
{"id": "C15", "title": "Map equality is extensional", "statement": "For FrozenMaps with distinct keys (possibly different payload orders, hashers and internal representations), a == b exactly when both have the same set of key/value associations; on such maps == is reflexive, symmetric and transitive when V's == is.", "quantifier": "every pair/triple of maps with distinct keys; sizes: hash-based maps and sets of fewer than 2^32 entries (C68 is about more)", "why_tests_cant": "Quantifies over pairs of representations and orders.", "anchors": ["frozen-collections-core/src/facades/frozen_map.rs:PartialEq::eq", "frozen-collections-core/src/specialized_maps/common_map.rs:PartialEq::eq"]}
{"id": "C16", "title": "Equality is symmetric for every constructible collection", "statement": "a == b implies b == a for all FrozenMaps and FrozenSets, including ones built from payloads with repeated keys.", "quantifier": "every pair of collections", "why_tests_cant": "Needs repeated elements arranged so that lengths agree.", "anchors": ["frozen-collections-core/src/facades/frozen_map.rs:PartialEq::eq", "frozen-collections-core/src/facades/frozen_set.rs:PartialEq::eq"]}
{"id": "C17", "title": "Capacity limit is enforced exactly", "statement": "Building a hash-based specialized map or set with index type S panics exactly when the payload is non-empty and has more than S::MAX entries (255 for u8, 65535 for u16); with at most S::MAX entries it returns and every entry can be found, no index arithmetic wraps. FrozenMap and FrozenSet never hit the limit.", "quantifier": "every payload size, every S, every collision layout", "why_tests_cant": "Boundary arithmetic (entry index plus run length in S) must be exact for every layout.", "anchors": ["frozen-collections-core/src/specialized_maps/hash_table.rs:HashTable::new", "frozen-collections-core/src/facades/frozen_map.rs:new_common_map", "frozen-collections-core/src/specialized_sets/common_set.rs:CommonSet doc"]}
{"id": "C18", "title": "Hash table sizing is total and bounded", "statement": "The hash code analysis terminates without panicking for every list of hash codes and, for a non-empty list of n codes, recommends a size s with 0 < s, n - 5*floor(n/100) <= s (s >= n when n < 128) and s <= 16n (10n from 128, 3n from 1000 codes).", "quantifier": "every list of 64-bit codes of every length", "why_tests_cant": "The candidate list switches strategy at 8, 128, 1000 and 7.2 million codes and contains a prime search loop.", "anchors": ["frozen-collections-core/src/analyzers/hash_code_analyzer.rs:analyze_hash_codes", "frozen-collections-core/src/analyzers/hash_code_analyzer.rs:is_prime"]}
{"id": "C19", "title": "Reported collisions are the true collisions, and the size is exact or good", "statement": "The collision count reported by the hash code analysis equals the number of codes minus the number of distinct residues modulo the recommended size; and either the recommended size is exactly n, or the collision count is within the acceptable rate (zero for fewer than 128 codes, at most 5*floor(n/100) otherwise). If the codes are distinct modulo n, size n with zero collisions is recommended.", "quantifier": "every list of codes", "why_tests_cant": "Early exit in the counting loop could report a truncated count for particular data.", "anchors": ["frozen-collections-core/src/analyzers/hash_code_analyzer.rs:analyze_hash_codes"]}
{"id": "C20", "title": "Collision-free analysis gives single-comparison lookups", "statement": "A lookup in a hash-based map or set, FrozenMap and FrozenSet of four entries or more included, compares the probe with at most one stored key when the analysis reported zero collisions, and in general with at most 1 + (reported collisions) stored keys, whether or not the probe is found and whether or not keys are repeated.", "quantifier": "every payload, hasher and probe; sizes: hash-based maps and sets of fewer than 2^32 entries, index types S whose maximum fits usize, and no more entries than S::MAX and i32::MAX (C68 is about more)", "why_tests_cant": "A bound over every layout and probe.", "anchors": ["frozen-collections-core/src/specialized_maps/hash_table.rs:HashTable::new", "frozen-collections-core/src/specialized_maps/hash_table.rs:get_hash_info", "frozen-collections-core/src/analyzers/hash_code_analyzer.rs"]}
{"id": "C21", "title": "Integer analysis reports a range exactly for contiguous keys", "statement": "For pairwise distinct keys of any primitive integer type whose count and span fit the type, the integer analysis answers Range exactly when the keys are the contiguous interval from their minimum to their maximum, and Normal otherwise (and for no keys).", "quantifier": "every integer type, every list of distinct keys", "why_tests_cant": "All widths, signs and boundary values.", "anchors": ["frozen-collections-core/src/analyzers/int_key_analyzer.rs:analyze_int_keys"]}
{"id": "C22", "title": "Integer analysis never overflows", "statement": "The integer analysis returns without arithmetic overflow for every list of keys of every integer type.", "quantifier": "every integer type, every key list", "why_tests_cant": "Overflow needs keys at opposite ends of a signed type or as many keys as the type has values.", "anchors": ["frozen-collections-core/src/analyzers/int_key_analyzer.rs:analyze_int_keys", "frozen-collections-core/src/macros/frozen_map.rs:process_int_keys"]}
{"id": "C23", "title": "IntegerRangeMap lookup is direct and exact", "statement": "An IntegerRangeMap built from distinct contiguous keys (non-empty, span representable) answers get, get_mut and get_key_value for every probe of the key type: the payload value for keys in the range, None outside, no panic.", "quantifier": "every integer type, every contiguous payload in any order, every probe value", "why_tests_cant": "Boundary probes at type minimum/maximum for all types and offsets.", "anchors": ["frozen-collections-core/src/specialized_maps/integer_range_map.rs:from_vec", "frozen-collections-core/src/specialized_maps/integer_range_map.rs:get"]}
{"id": "C24", "title": "IntegerRangeMap rejects non-contiguous keys", "statement": "IntegerRangeMap::from_vec panics exactly when the keys are not a contiguous range of distinct integers, as documented.", "quantifier": "every payload of every integer type", "why_tests_cant": "Requires repeats compensating gaps, or signed spans wider than half the type.", "anchors": ["frozen-collections-core/src/specialized_maps/integer_range_map.rs:from_vec"]}
{"id": "C25", "title": "Empty maps and sets answer every lookup with None", "statement": "Every empty collection (any specialized type, or FrozenMap::default) reports len 0 and answers None/false for every probe without panicking.", "quantifier": "every specialized map and set type, every probe", "why_tests_cant": "Depends on the probe value: a single integer triggers the failing path.", "anchors": ["frozen-collections-core/src/specialized_maps/integer_range_map.rs:get", "frozen-collections-core/src/specialized_maps/scanning_map.rs:get", "frozen-collections-core/src/specialized_maps/hash_table.rs:HashTable::new", "frozen-collections-core/src/facades/frozen_map.rs:Default"]}
{"id": "C26", "title": "String analysis verdicts are justified", "statement": "When string analysis returns Length there are at most 255 keys and no length is shared by more than three; it returns Length whenever that holds. When it returns a left sub-slice (index, len), every key has at least index+len bytes, 1 <= len <= 16, and at most n/20 keys have a sub-slice hash already seen. No shorter left sub-slice, and no left sub-slice of the same length at a smaller index, is acceptable.", "quantifier": "every list of byte strings, every hasher", "why_tests_cant": "Interaction of the minimum length, nested search order and duplicate budget over all inputs.", "anchors": ["frozen-collections-core/src/analyzers/slice_key_analyzer.rs:analyze_slice_keys", "frozen-collections-core/src/analyzers/slice_key_analyzer.rs:analyze_lengths", "frozen-collections-core/src/analyzers/slice_key_analyzer.rs:analyze_subslices"]}
{"id": "C27", "title": "String analysis never panics", "statement": "analyze_slice_keys returns a verdict for every list of keys without a slice-index panic.", "quantifier": "every list of byte strings, every hasher", "why_tests_cant": "The failing slice index is reached only when all one-byte windows and all left two-byte windows are ambiguous and lengths differ.", "anchors": ["frozen-collections-core/src/analyzers/slice_key_analyzer.rs:is_sufficiently_unique"]}
{"id": "C28", "title": "LeftSliceMap is correct for probes of every length", "statement": "A LeftSliceMap built from keys all at least as long as the range end answers get, get_mut and get_key_value correctly for every probe string, including ones shorter than the range, with no out-of-bounds access; and construction performs an out-of-bounds access exactly when some key is shorter than the range end (or the range is inverted).", "quantifier": "every range, payload, hasher and probe; sizes: index types S whose maximum fits usize, and no more entries than S::MAX and i32::MAX (C68 is about more)", "why_tests_cant": "Short probes take a different path from construction; unsafe accesses do not fail tests.", "anchors": ["frozen-collections-core/src/specialized_maps/left_slice_map.rs:from_vec_with_hasher", "frozen-collections-core/src/specialized_maps/left_slice_map.rs:get_hash_info", "frozen-collections-core/src/traits/slice_hash.rs:SliceHash for String"]}
{"id": "C29", "title": "RightSliceMap construction and lookup are memory-safe and correct", "statement": "A RightSliceMap built with a valid right-aligned range over sufficiently long keys constructs without undefined behaviour and answers lookups correctly.", "quantifier": "every non-empty range, non-empty payload, hasher", "why_tests_cant": "No test constructs a RightSliceMap; an inverted unchecked range is undefined behaviour rather than an assertion failure.", "anchors": ["frozen-collections-core/src/specialized_maps/right_slice_map.rs:from_vec_with_hasher", "frozen-collections-core/src/specialized_maps/right_slice_map.rs:get_hash_info"]}
{"id": "C30", "title": "Specialized hash maps look up through borrowed keys correctly", "statement": "ScanningMap, CommonMap, IntegerMap and LengthMap built from any payload answer a probe of the borrowed key type with a payload value whose borrowed key equals the probe, or None when there is none, provided Borrow preserves Eq and Hash (respectively integer value, length).", "quantifier": "every payload (repeats allowed), hasher, borrowed type and probe; sizes: hash-based maps and sets of fewer than 2^32 entries (C68 is about more)", "why_tests_cant": "Collision layouts and all probes.", "anchors": ["frozen-collections-core/src/specialized_maps/scanning_map.rs:get", "frozen-collections-core/src/specialized_maps/common_map.rs:get", "frozen-collections-core/src/specialized_maps/integer_map.rs:get", "frozen-collections-core/src/specialized_maps/length_map.rs:get"]}
{"id": "C31", "title": "FrozenSet membership agrees with the payload", "statement": "For a FrozenSet built from distinct values, contains(x) is true exactly when some payload value equals x, and get(x) then returns the stored equal value; len, iteration and is_empty agree with the payload.", "quantifier": "every payload of distinct values, hasher and probe; sizes: hash-based maps and sets of fewer than 2^32 entries (C68 is about more)", "why_tests_cant": "Same data-dependent representation choice as for maps.", "anchors": ["frozen-collections-core/src/facades/frozen_set.rs:contains", "frozen-collections-core/src/facades/frozen_set.rs:get", "frozen-collections-core/src/facades/frozen_set.rs:new", "frozen-collections-core/src/specialized_sets/common_set.rs:get"]}
{"id": "C32", "title": "Union iterator yields the mathematical union once each", "statement": "For any two sets (of any, possibly different, set types including std HashSet/BTreeSet) whose iter/contains/len are consistent, union visits exactly the values in either set, each once up to equality.", "quantifier": "every pair of sets; sizes: hash-based maps and sets of fewer than 2^32 entries (C68 is about more)", "why_tests_cant": "The iterator chooses which operand to drain first by length; all size relations and overlaps.", "anchors": ["frozen-collections-core/src/specialized_sets/iterators.rs:Union", "frozen-collections-core/src/specialized_sets/set.rs:union"]}
{"id": "C33", "title": "Intersection, difference and symmetric difference iterators are exact", "statement": "For any two consistent sets, intersection visits exactly the values in both, difference exactly those in self not in other, symmetric_difference exactly those in one but not both, each once.", "quantifier": "every pair of sets", "why_tests_cant": "All overlaps and size relations.", "anchors": ["frozen-collections-core/src/specialized_sets/iterators.rs:Intersection", "frozen-collections-core/src/specialized_sets/iterators.rs:Difference", "frozen-collections-core/src/specialized_sets/iterators.rs:SymmetricDifference"]}
{"id": "C34", "title": "Set operators build the corresponding HashSet", "statement": "|, &, ^ and - between a frozen or specialized set and any Set produce a HashSet whose membership is the union, intersection, symmetric difference and difference of the operands.", "quantifier": "every pair of consistent sets", "why_tests_cant": "All operand pairs.", "anchors": ["frozen-collections-core/src/facades/frozen_set.rs:BitOr/BitAnd/BitXor/Sub", "frozen-collections-core/src/specialized_sets/common_set.rs:BitOr"]}
{"id": "C35", "title": "Set predicates are exact", "statement": "is_subset, is_superset and is_disjoint between any two consistent sets return the mathematical answer.", "quantifier": "every pair of sets", "why_tests_cant": "Length shortcuts must not change the answer for any pair.", "anchors": ["frozen-collections-core/src/specialized_sets/set_ops.rs:is_subset", "frozen-collections-core/src/specialized_sets/set_ops.rs:is_superset", "frozen-collections-core/src/specialized_sets/set_ops.rs:is_disjoint"]}
{"id": "C36", "title": "Set predicates are exact for sets built from repeated values", "statement": "is_subset and is_superset return the mathematical answer for every FrozenSet, including one built from a payload that repeats values.", "quantifier": "every payload", "why_tests_cant": "Needs a payload with repeats longer than the other operand.", "anchors": ["frozen-collections-core/src/specialized_sets/set_ops.rs:is_subset", "frozen-collections-core/src/facades/frozen_set.rs:new"]}
{"id": "C37", "title": "Set equality is mathematical equality across set types", "statement": "For consistent sets without repeats, a == b is true exactly when both contain the same values, whatever the two representations; on such sets it is reflexive, symmetric and transitive.", "quantifier": "every pair of consistent sets; sizes: hash-based maps and sets of fewer than 2^32 entries (C68 is about more)", "why_tests_cant": "All pairs of representations.", "anchors": ["frozen-collections-core/src/facades/frozen_set.rs:PartialEq::eq", "frozen-collections-core/src/specialized_sets/common_set.rs:PartialEq::eq"]}
{"id": "C38", "title": "Set operation iterators report valid size hints", "statement": "At every point of consumption, size_hint of Union, Intersection, Difference and SymmetricDifference brackets the number of items still to come.", "quantifier": "every pair of sets, every number of next() calls", "why_tests_cant": "Contract about every consumption point.", "anchors": ["frozen-collections-core/src/specialized_sets/iterators.rs:Union::size_hint", "frozen-collections-core/src/specialized_sets/iterators.rs:Intersection::size_hint", "frozen-collections-core/src/specialized_sets/iterators.rs:Difference::size_hint", "frozen-collections-core/src/specialized_sets/iterators.rs:SymmetricDifference::size_hint"]}
{"id": "C39", "title": "Set operation iterators are fused", "statement": "Once Union, Intersection, Difference or SymmetricDifference returns None it keeps returning None.", "quantifier": "every pair of sets, every number of further next() calls", "why_tests_cant": "Unbounded continuation.", "anchors": ["frozen-collections-core/src/specialized_sets/iterators.rs:FusedIterator impls"]}
{"id": "C40", "title": "Indexing panics exactly for absent keys", "statement": "map[k] and map[k] = v (Index and IndexMut) panic exactly when get(k) is None and otherwise access the same value as get.", "quantifier": "every map and key; sizes: hash-based maps and sets of fewer than 2^32 entries (C68 is about more)", "why_tests_cant": "All keys.", "anchors": ["frozen-collections-core/src/facades/frozen_map.rs:Index", "frozen-collections-core/src/facades/frozen_map.rs:IndexMut"]}
{"id": "C41", "title": "Observable content is independent of hasher and payload order", "statement": "Two FrozenMaps built from permutations of the same distinct-key payload with different hashers and different unstable-sort behaviour give identical results for get, contains_key, len and compare equal.", "quantifier": "every permutation, every pair of hashers, every sort tie-breaking; sizes: hash-based maps and sets of fewer than 2^32 entries (C68 is about more)", "why_tests_cant": "Hash seeds and tie-breaking are random at run time.", "anchors": ["frozen-collections-core/src/facades/frozen_map.rs:FrozenMap::new", "frozen-collections-core/src/specialized_maps/hash_table.rs:HashTable::new"]}
{"id": "C42", "title": "frozen_map! chooses a map type that fits and finds every key", "statement": "For every literal key list accepted by the macro, the emitted constructor call uses an index type large enough for the entry count, a slice range valid for every key, and (with whatever hasher is created at run time) the resulting map finds exactly the listed keys.", "quantifier": "every list of literal keys, every compile-time and run-time hasher", "why_tests_cant": "Compile-time analysis and run-time construction use different random hashers.", "anchors": ["frozen-collections-core/src/macros/frozen_map.rs:frozen_map_macro"]}
{"id": "C43", "title": "frozen_map! output type-checks for every supported key type", "statement": "For every accepted input the emitted code instantiates the chosen map type with the number of generic arguments it declares.", "quantifier": "every input of every supported key type", "why_tests_cant": "The faulty branch depends on the key values being contiguous.", "anchors": ["frozen-collections-core/src/macros/frozen_map.rs:frozen_map_macro", "frozen-collections-core/src/specialized_maps/integer_range_map.rs:IntegerRangeMap"]}
{"id": "C44", "title": "Consuming set iteration yields every element exactly once", "statement": "into_iter on an owned specialized set yields a permutation of the payload; its len, size_hint and count are exact at every point. Any number of iterators cloned from it at any point go on independently of it and of each other, each answering next, len, count and Debug as a list of what it has left would.", "quantifier": "every payload, every number of next() calls, every history of steps, clones and drops of any number of iterators, with an element type whose Clone is faithful (it may panic, which ends the history)", "why_tests_cant": "All sizes and points, all histories.", "anchors": ["frozen-collections-core/src/specialized_sets/iterators.rs:IntoIter", "frozen-collections-core/src/specialized_sets/common_set.rs:IntoIterator"]}
{"id": "C45", "title": "Prime search finds the next prime", "statement": "For odd candidates of at least 7, the primality test used in table sizing is exact, and the search loop terminates with the least prime not smaller than its start; hence every size tried for very large inputs other than the first two is prime.", "quantifier": "every odd natural number", "why_tests_cant": "Termination needs the infinitude of primes; exactness needs every number.", "anchors": ["frozen-collections-core/src/analyzers/hash_code_analyzer.rs:is_prime", "frozen-collections-core/src/analyzers/hash_code_analyzer.rs:analyze_hash_codes"]}
{"id": "C46", "title": "Borrowing set iterators yield every element once with exact remaining length", "statement": "Iterating a set by reference calls next exactly len times with a value, each value being an element of the payload and each element yielded once; afterwards next returns None for ever; len and size_hint are exact at every point of consumption.", "quantifier": "every set built by the library, every number of next() calls", "why_tests_cant": "Contract about every consumption point and every size.", "anchors": ["frozen-collections-core/src/specialized_sets/iterators.rs:Iter"]}
{"id": "C47", "title": "Every set type presents a consistent interface", "statement": "For a payload without repeated values, every set type the crate builds (FrozenSet, ScanningSet, CommonSet, IntegerSet, LengthSet, LeftSliceSet over values that reach the end of the range, RightSliceSet over a descending range, IntegerRangeSet other than the empty one, see C25, C28 and C29) as well as std HashSet and BTreeSet answers contains(v) without panic and with true exactly when v equals an element its iterator yields, len() is the number of elements yielded, and no two yielded elements are equal. These are the facts the set operations rely on.", "quantifier": "every payload without repeats, every hasher, every probe value; sizes: hash-based maps and sets of fewer than 2^32 entries, index types S whose maximum fits usize, and no more entries than S::MAX and i32::MAX (C68 is about more)", "why_tests_cant": "Ranges over all payloads, hashers and probes; links each concrete type to the generic set operations.", "anchors": ["frozen-collections-core/src/specialized_sets/set.rs:Set", "frozen-collections-core/src/facades/frozen_set.rs:FrozenSet", "frozen-collections-core/src/specialized_sets/common_set.rs:CommonSet", "frozen-collections-core/src/specialized_sets/integer_range_set.rs:IntegerRangeSet"]}
{"id": "C48", "title": "Small hash tables get the smallest collision-free size", "statement": "For one to seven hash codes, the table size recommended by the hash-code analysis is the least size between n and 16n at which no two of the codes collide, or n if every such size has a collision.", "quantifier": "every list of one to seven 64-bit hash codes", "why_tests_cant": "Ranges over all hash codes; minimality is a claim about every smaller size.", "anchors": ["frozen-collections-core/src/analyzers/hash_code_analyzer.rs:analyze_hash_codes"]}
{"id": "C49", "title": "Specialized maps behave as a dictionary in every history", "statement": "Take any specialized map (ScanningMap, CommonMap, IntegerMap, LengthMap, LeftSliceMap, RightSliceMap, IntegerRangeMap) successfully built from pairs with distinct keys (apart from the empty IntegerRangeMap, the empty RightSliceMap over an ascending range and the empty LeftSliceMap over a range that ends before it starts, which C25 treats; C28 and C29 say which other LeftSliceMaps and RightSliceMaps can be built). Any finite sequence of get, get_key_value, contains_key, indexing, len, iter, keys, values, get_mut with a write, indexed assignment and get_many_mut with writes returns exactly what the same sequence returns on a plain list of pairs (iteration up to order), panics exactly when the reference does (indexing with an absent key), and never reads out of bounds.", "quantifier": "every payload with distinct keys, every lawful Eq/Hash/Borrow, every hasher, every finite operation sequence, both overflow-check modes; sizes: hash-based maps and sets of fewer than 2^32 entries (C68 is about more)", "why_tests_cant": "Histories are unbounded and interleave reads with writes through returned references; tests try a few.", "anchors": ["frozen-collections-core/src/specialized_maps/scanning_map.rs", "frozen-collections-core/src/specialized_maps/common_map.rs", "frozen-collections-core/src/specialized_maps/integer_map.rs", "frozen-collections-core/src/specialized_maps/length_map.rs", "frozen-collections-core/src/specialized_maps/left_slice_map.rs", "frozen-collections-core/src/specialized_maps/right_slice_map.rs", "frozen-collections-core/src/specialized_maps/integer_range_map.rs"]}
{"id": "C50", "title": "FrozenMap behaves as a dictionary in every history", "statement": "Any finite sequence of operations (get, get_key_value, contains_key, indexing, len, iter, keys, values, get_mut with a write, indexed assignment, get_many_mut with writes) on a FrozenMap built from pairs with distinct keys returns exactly what it returns on a plain list of pairs (iteration up to order), panics exactly when indexing with an absent key, and never reads out of bounds.", "quantifier": "every key type with lawful Eq and Hash, every payload with distinct keys, every hasher, every finite operation sequence; sizes: hash-based maps and sets of fewer than 2^32 entries (C68 is about more)", "why_tests_cant": "Histories are unbounded, and the representation behind the facade differs per payload.", "anchors": ["frozen-collections-core/src/facades/frozen_map.rs:FrozenMap"]}
{"id": "C51", "title": "Map equality is equality of contents after any histories", "statement": "For two maps of one type built from pairs with distinct keys and then changed by any histories of writes, == returns without panic and is true exactly when both then hold the same keys with equal values, whatever their hashers, entry orders or slice ranges (also the empty ones that C25 is about).", "quantifier": "every map type, every two payloads, every two histories, every two hashers, every value equality; sizes: hash-based maps and sets of fewer than 2^32 entries (C68 is about more)", "why_tests_cant": "Quantifies over two unbounded histories and two hashers.", "anchors": ["frozen-collections-core/src/facades/frozen_map.rs:PartialEq", "frozen-collections-core/src/specialized_maps/common_map.rs:PartialEq", "frozen-collections-core/src/specialized_maps/left_slice_map.rs:PartialEq", "frozen-collections-core/src/specialized_maps/integer_range_map.rs:PartialEq"]}
{"id": "C52", "title": "The recommended table size is exactly the first acceptable candidate", "statement": "The hash-code analysis recommends the first size, in a fixed order, whose collisions are within the tolerance for its position, and the number of codes itself when no size qualifies. The order is: the exact number n of codes; then every size from n to 16n (up to 7 codes), or the primes of a fixed table lying between the lowest and highest size (8 codes up to millions), or the lowest size followed by the least prime at least n/3 beyond the previous size, up to the highest (beyond that). The tolerance is zero below 128 codes; otherwise 5 per hundred at the first size and 20 per hundred of the previous tolerance at each later size. With 8 codes the exact size is always recommended.", "quantifier": "every non-empty list of 64-bit hash codes of any length", "why_tests_cant": "An exact functional specification for all inputs, including sizes in the millions no test builds.", "anchors": ["frozen-collections-core/src/analyzers/hash_code_analyzer.rs:analyze_hash_codes", "frozen-collections-core/src/analyzers/hash_code_analyzer.rs:is_prime"]}
{"id": "C53", "title": "Floating-point steps of the analyses are exact", "statement": "On every machine whose f64 arithmetic rounds to nearest, the number of duplicate sub-slices tolerated by the string analysis is exactly the number of keys divided by twenty, rounded down (below 2^52 keys), and the primality test used in table sizing is exact for odd numbers from 7 to 2^53.", "quantifier": "every rounding function that returns a nearest f64 value, every key count below 2^52, every odd number from 7 to 2^53", "why_tests_cant": "0.05 is not a binary fraction and the square root is rounded; that no input is off by one needs an argument over all numbers.", "anchors": ["frozen-collections-core/src/analyzers/slice_key_analyzer.rs:analyze_subslices", "frozen-collections-core/src/analyzers/hash_code_analyzer.rs:is_prime"]}
{"id": "C54", "title": "Set algebra works between all set types, and in nested expressions", "statement": "Take sets of any two of the crate's set types, or a std HashSet or BTreeSet, with the same element type, built from known values. is_subset, is_superset, is_disjoint and == return without panic and say of those values exactly what their names say; |, &, ^ and - yield a HashSet with exactly the values of the union, intersection, symmetric difference and difference, each once. An expression a op (b op (c ...)) of any depth evaluates without panic to the values it denotes.", "quantifier": "every pair of set types (including right-slice sets over descending ranges and non-empty range sets), every two lists of distinct values, every hasher, every iteration order of the std sets, every expression depth", "why_tests_cant": "Eighty-one type pairs times unbounded contents; expressions of unbounded depth.", "anchors": ["frozen-collections-core/src/specialized_sets/set.rs:Set", "frozen-collections-core/src/facades/frozen_set.rs:FrozenSet", "frozen-collections-core/src/specialized_sets/set_ops.rs"]}
{"id": "C55", "title": "With repeated keys a map is a list in which the first match counts", "statement": "A specialized map or FrozenMap built from any pairs, keys repeated or not, holds them in one fixed order d, a permutation of the pairs given. Every finite sequence of operations (get, get_key_value, contains_key, indexing, len, iter, keys, values, get_mut and get_many_mut with writes, indexed assignment) returns exactly what it returns on the list d where the first pair with the probed key is the one read and written; iteration yields d in that order every time; == of two such maps says whether they have equally many pairs and each pair of the left is matched by the first match on the right. The exceptions are the empty maps C25 is about, and repeats in an IntegerRangeMap or in a FrozenMap of four or more u32 keys whose largest minus smallest key is one less than their number: these hold their pairs sorted by key, and looking up k yields the pair at place k minus the smallest key, whatever its key.", "quantifier": "every payload with any repeats, every hasher, every finite operation sequence; for scanning and common maps every Eq (consistent with Hash), lawful or not; sizes: hash-based maps and sets of fewer than 2^32 entries (C68 is about more)", "why_tests_cant": "Repeated keys are legal input and the observable order depends on hasher and table size; histories are unbounded.", "anchors": ["frozen-collections-core/src/facades/frozen_map.rs:FrozenMap", "frozen-collections-core/src/specialized_maps/hash_table.rs:HashTable", "frozen-collections-core/src/specialized_maps/scanning_map.rs", "frozen-collections-core/src/specialized_maps/common_map.rs", "frozen-collections-core/src/specialized_maps/integer_map.rs"]}
{"id": "C56", "title": "Broken, changing or panicking key types never cause undefined behaviour", "statement": "Let the caller's Hash, BuildHasher, Eq, Len and SliceHash be arbitrary safe code whose answers may change from call to call and which may panic. Building a FrozenMap, ScanningMap, CommonMap, LengthMap, LeftSliceMap or RightSliceMap over such keys and performing any history of operations never has undefined behaviour, except that get_many_mut needs an Eq that is an equivalence (C09). It panics only where the caller's code panics, where the history indexes, or (RightSliceMap, checked builds) where a range exceeds a reported length. What is seen is what a fixed list of the given pairs can show when each lookup misses or picks some entry whose key Eq can accept: no pair is lost, invented or damaged, len and iteration are exact, a write changes the value of one entry. == never has undefined behaviour.", "quantifier": "every stateful implementation of the traits (every sequence of answers), every payload, every finite operation sequence, every slice range; sizes: construction from 2^31 entries on may panic (C68 is about more)", "why_tests_cant": "The documentation promises containment of logic errors; it quantifies over all possible answers of all calls.", "anchors": ["frozen-collections-core/src/facades/frozen_map.rs:FrozenMap doc comment lines 62-76", "frozen-collections-core/src/specialized_maps/hash_table.rs:HashTable", "frozen-collections-core/src/specialized_maps/common_map.rs", "frozen-collections-core/src/specialized_maps/length_map.rs", "frozen-collections-core/src/specialized_maps/left_slice_map.rs", "frozen-collections-core/src/specialized_maps/right_slice_map.rs"]}
{"id": "C57", "title": "Debug output lists every element exactly once, in one notation", "statement": "Formatting a map with {:?} prints each of its pairs exactly once, in iteration order, as {k: v, ...}; formatting a map iterator, a set iterator or a set-operation iterator prints exactly what it has yet to yield and leaves it as it was; cloning an iterator and draining the clone yields the same items. Formatting a set prints each element exactly once, and all sets use one notation. If formatting a key or value fails, formatting fails.", "quantifier": "every map and set type, every content, every formatter of keys and values (including ones that fail), every point of an iteration", "why_tests_cant": "Ranges over all contents, all user formatters and all representations chosen at run time.", "anchors": ["frozen-collections-core/src/specialized_maps/scanning_map.rs:Debug", "frozen-collections-core/src/specialized_maps/common_map.rs:Debug", "frozen-collections-core/src/specialized_maps/iterators.rs", "frozen-collections-core/src/facades/frozen_map.rs:Debug", "frozen-collections-core/src/specialized_sets/common_set.rs:Debug", "frozen-collections-core/src/specialized_sets/scanning_set.rs:Debug", "frozen-collections-core/src/specialized_sets/iterators.rs"]}
{"id": "C58", "title": "A clone has the contents of its original and is independent of it", "statement": "Take a map built from pairs with distinct keys (other than the empty ones C25 is about), and let a user clone it, clone clones, and operate on all of them (reads, writes through returned references, indexing, iteration) in any order. Everything seen and every panic is what it would be with plain lists of pairs copied at the moment of cloning, each key and value replaced by its clone; in particular no write to one is seen in another. Whatever a FrozenMap or FrozenSet holds, repeated keys included, a lookup in its clone finds the clone of what the lookup finds in the original. If the caller's Clone misbehaves (keys clone to unequal keys, answers change, panics), there is still no undefined behaviour beyond that of C56, and the clone holds one pair per pair of the original.", "quantifier": "every map type, every payload, every lawful Clone of keys and every function cloning values, every interleaving of operations on any number of clones; every stateful Clone for the last part; sizes: hash-based maps and sets of fewer than 2^32 entries, construction from 2^31 entries on may panic (C68 is about more)", "why_tests_cant": "Interleavings over any number of clones are unbounded, and correctness of a derived Clone rests on the hash of a cloned key landing in the old slot.", "anchors": ["frozen-collections-core/src/specialized_maps/hash_table.rs:HashTable", "frozen-collections-core/src/specialized_maps/common_map.rs:CommonMap", "frozen-collections-core/src/facades/frozen_map.rs:FrozenMap", "frozen-collections-core/src/facades/frozen_map.rs:MapTypes", "frozen-collections-core/src/facades/frozen_set.rs:FrozenSet"]}
{"id": "C59", "title": "Set operations contain misbehaving sets and element types", "statement": "Set can be implemented by anyone, and an element type's Hash and Eq may be wrong. Whatever contains, len and the iterator of the operands answer, and however the answers change: union, intersection, difference, symmetric_difference, is_subset, is_superset, is_disjoint and == have no undefined behaviour and panic only if an operand's code does. After any number of next calls the items seen are items that the operands' iterators handed out, none used twice: in an intersection only items the other operand claimed, in a difference only items of the first that the second denied, in a symmetric difference only items the other denied. A predicate says true only if the answers it got say so. An exhausted iterator stays exhausted if the operands' iterators do (for intersection: and the lengths reported do not change). For two FrozenSets over any element type the items seen are elements of the two payloads, none more often than given.", "quantifier": "every implementation of Set (every sequence of answers), every stateful Hash and Eq, every payload, every number of next calls; sizes: construction from 2^31 entries on may panic (C68 is about more)", "why_tests_cant": "Set is a public trait; the claim quantifies over all implementations and all answers.", "anchors": ["frozen-collections-core/src/specialized_sets/set.rs:Set", "frozen-collections-core/src/specialized_sets/set_ops.rs:Union", "frozen-collections-core/src/specialized_sets/set_ops.rs:Intersection", "frozen-collections-core/src/specialized_sets/set_ops.rs:Difference", "frozen-collections-core/src/specialized_sets/set_ops.rs:SymmetricDifference", "frozen-collections-core/src/facades/frozen_set.rs:FrozenSet"]}
{"id": "C60", "title": "frozen_map! reads, checks and evaluates its arguments exactly as written", "statement": "Every call frozen_map!(type, key: value, ..., key: value), with or without a final comma, is read as exactly the type and entries written, in order, and no token of an accepted call is skipped; a call that does not parse becomes a compile error. With three or more entries of a primitive integer type (or &str), expansion panics as soon as a key is not a literal of that type; with fewer entries or other types keys may be any expressions. The emitted code evaluates every key and value expression exactly once, in the order written, and (if it compiles, C43, and is not a right-slice map, C42) builds a map that finds exactly the listed keys, whose values are those written with them.", "quantifier": "every list of tokens, every parser of types and expressions, every number of entries, every evaluation of the expressions, every hasher at expansion and at run time; sizes: fewer than 2^31 entries (C68 is about more)", "why_tests_cant": "Ranges over all programs that call the macro; tests expand one call and print it.", "anchors": ["frozen-collections-core/src/macros/frozen_map.rs:frozen_map_macro", "frozen-collections-core/src/macros/frozen_map.rs:Map::parse", "frozen-collections-core/src/macros/frozen_map.rs:process_int_keys", "frozen-collections-core/src/macros/frozen_map.rs:process_string_keys"]}
{"id": "C61", "title": "String analysis is exactly the rule search, whatever the order of the keys", "statement": "For any strings the choice of map (by length, by a left part, by a right part, general, or a panic) is what a fixed list of rules about the keys says: spread lengths first; for keys of one length the shortest good part of at most 16 bytes, leftmost first; for other keys the leftmost good byte, else the good byte nearest the end, else nothing if some key is shorter than two bytes, else the leftmost good pair, else a panic. The rules cover every case and never disagree. Neither the order of the keys nor the build profile matters, so whether a FrozenMap of strings can be built does not depend on the order of its entries.", "quantifier": "every list of strings, every hasher, every order, checked and unchecked builds; sizes: fewer than 2^31 entries (C68 is about more)", "why_tests_cant": "Ranges over all key lists and all permutations of them.", "anchors": ["frozen-collections-core/src/analyzers/slice_key_analyzer.rs:analyze_slice_keys", "frozen-collections-core/src/facades/frozen_map.rs:new_string_map"]}
{"id": "C62", "title": "Length maps and sets work for every key type with a built-in length", "statement": "For every type with a built-in length that can be compared (strings, C strings, OS strings, vectors, slices, lists, deques, hash and tree sets and maps, and any nesting of Box, Rc and Arc around them), equal values have equal lengths, a C string's length leaves out its final zero, is_empty says whether the length is zero, and borrowing a key (a box as its content, a CString as CStr) changes neither length nor equality. So a length map over any of these, probed by the key type or by what it can be borrowed as, can be built from every payload that fits and behaves as a dictionary in every history, and a length set as a set.", "quantifier": "every such type, over element types with a lawful Eq, every payload of distinct keys, every index type, every history; sizes: index types S whose maximum fits usize, and no more entries than S::MAX and i32::MAX (C68 is about more)", "why_tests_cant": "A length map finds a key only if equal keys have equal lengths, for all values of all nested types; tests use strings.", "anchors": ["frozen-collections-core/src/traits/len.rs:Len", "frozen-collections-core/src/specialized_maps/length_map.rs:LengthMap", "frozen-collections-core/src/specialized_sets/length_set.rs:LengthSet"]}
{"id": "C63", "title": "It does not matter how the payload is handed over", "statement": "Every constructor of every map and set type, whether it takes a Vec, an array or an iterator, with a hasher given or made, does exactly what the Vec constructor with that hasher does with the same items in the same order: same collection, same panic. If the caller's iterator panics, so does the constructor. hasher() returns the hasher the collection was made with. So a FrozenMap is a dictionary in every history, and a FrozenSet a set, of the items handed over, whichever constructor made it.", "quantifier": "every constructor (about sixty), every list of items, every iterator, every hasher, every index type; sizes: hash-based maps and sets of fewer than 2^32 entries (C68 is about more)", "why_tests_cant": "Sixty constructors delegate to one another; tests try a few with short lists.", "anchors": ["frozen-collections-core/src/facades/frozen_map.rs:from_iter_with_hasher", "frozen-collections-core/src/facades/frozen_set.rs:from_iter_with_hasher", "frozen-collections-core/src/specialized_maps/common_map.rs:with_hasher", "frozen-collections-core/src/specialized_maps/left_slice_map.rs:from_iter", "frozen-collections-core/src/specialized_maps/length_map.rs:From", "frozen-collections-core/src/specialized_sets/common_set.rs:from_iter_with_hasher"]}
{"id": "C64", "title": "A misbehaving hasher cannot break a map of strings, only make it miss keys", "statement": "Build a FrozenMap of strings with a BuildHasher whose answers change from call to call, during the analysis of the keys, during construction and during lookups, and which may panic. Whatever representation the analysis picks, construction and every history of operations have no undefined behaviour and panic only if the hasher panics or the history indexes, unless the keys make the crate try the ends of strings (C03, C29). A lookup finds a pair with exactly the key asked for, or misses; it never shows another key's value; len, iteration and writes are exact. A hasher that is a function is the special case treated by the other claims.", "quantifier": "every stateful hasher (every sequence of answers), every list of strings, every operation history, checked and unchecked builds; sizes: construction from 2^31 entries on may panic (C68 is about more)", "why_tests_cant": "The hasher's answers steer the choice of representation and the layout; the claim ranges over all sequences of answers.", "anchors": ["frozen-collections-core/src/facades/frozen_map.rs:new_string_map", "frozen-collections-core/src/analyzers/slice_key_analyzer.rs:analyze_slice_keys", "frozen-collections-core/src/specialized_maps/left_slice_map.rs:LeftSliceMap", "frozen-collections-core/src/specialized_maps/length_map.rs:LengthMap"]}
{"id": "C65", "title": "Exactly which calls of the key type's Hash and Eq a map makes", "statement": "Whatever the key type's code does: building a hash-based map hashes each key of the payload twice, all keys once in the order given and then all once more, and compares no keys; a FrozenMap of fewer than four pairs, or a ScanningMap, hashes nothing, ever. A lookup hashes the key asked for once (not at all in a scanning map) and compares it with stored keys one after another, up to the first yes: in a scanning map with all in the order given, in a hashed map only with those whose second hash code falls in the same slot as the code just computed. get_many_mut first compares the keys asked for with one another, up to the first pair found equal, then looks them up in turn, up to the first that is missing. len, iteration and writes make no calls; no operation hashes a stored key again. == makes no calls if the lengths differ; otherwise it takes the pairs of the left map in order, looks each up in the right map and compares the two values, up to the first key missing or value different.", "quantifier": "every stateful implementation of Hash and Eq, every payload, every operation history; sizes: hash-based maps and sets of fewer than 2^32 entries (C68 is about more)", "why_tests_cant": "A claim about all interleavings of calls with arbitrary user code; users rely on it for cost and for keys with interior mutability.", "anchors": ["frozen-collections-core/src/specialized_maps/hash_table.rs:HashTable::new", "frozen-collections-core/src/specialized_maps/hash_table.rs:get_hash_info", "frozen-collections-core/src/specialized_maps/common_map.rs:CommonMap", "frozen-collections-core/src/specialized_maps/scanning_map.rs:ScanningMap", "frozen-collections-core/src/facades/frozen_map.rs:FrozenMap"]}
{"id": "C66", "title": "Table sizing never overflows", "statement": "For every list of hash codes that fits in memory (fewer than 2^50), with usize of 32 to 64 bits and any f64 that rounds to nearest, no addition or multiplication made while a hash table is sized overflows and the search for primes stops in range. Below usize::MAX/24 keys the sizing returns at most sixteen slots per key, the same as in unbounded arithmetic, so construction of every hashed map and of FrozenMap behaves as the other claims say; from usize::MAX/24 keys on it panics.", "quantifier": "every list of hash codes a Vec<u64> can hold, every usize width from 32 to 64, every rounding to nearest, every payload", "why_tests_cant": "Overflow would need hundreds of millions of keys, and the next prime after an arbitrary size has no bound a test could establish.", "anchors": ["frozen-collections-core/src/analyzers/hash_code_analyzer.rs:analyze_hash_codes", "frozen-collections-core/src/analyzers/hash_code_analyzer.rs:is_prime", "frozen-collections-core/src/facades/frozen_map.rs:new"]}
{"id": "C67", "title": "Exactly what a FrozenMap of strings hashes", "statement": "With any BuildHasher, however its answers change: choosing the kind of map hashes nothing for fewer than four keys or spread lengths; otherwise parts of the keys are tried in a fixed order (short before long, at most 16 bytes, from the left before from the end, leftmost first), the keys' parts hashed in order, a part rejected at the first repeated code too many (one key in twenty is allowed) and accepted once all keys passed, and the search stops there. Then every key is hashed twice. A lookup uses the hasher at most once: not at all in maps that scan or go by length, on the whole string in a general map, on the chosen bytes only (never more than 16, none if the string is too short) in a map that goes by a part. get_many_mut with a repeated key hashes nothing; len, iteration and writes hash nothing. Building uses the hasher at most 32 * L + 2 times per key, L being the length of the shortest key.", "quantifier": "every stateful hasher, every list of strings for which a map is built, every operation history", "why_tests_cant": "The search is steered by the hasher's answers; the claim ranges over all sequences of answers and all keys.", "anchors": ["frozen-collections-core/src/facades/frozen_map.rs:new_string_map", "frozen-collections-core/src/analyzers/slice_key_analyzer.rs:analyze_slice_keys", "frozen-collections-core/src/analyzers/slice_key_analyzer.rs:is_sufficiently_unique", "frozen-collections-core/src/specialized_maps/left_slice_map.rs:LeftSliceMap", "frozen-collections-core/src/traits/slice_hash.rs:SliceHash"]}
{"id": "C68", "title": "Maps of any number of entries", "statement": "However many entries it is given, a hash-based map is built whenever its index type can number the entries, has them all in len and iteration, finds each by its key and nothing else, and no operation on it reads out of bounds. (The other claims about hash-based maps and sets are for fewer than 2^31 entries, or fewer than 2^32 where they speak of a map already built.)", "quantifier": "every payload of any length, every hasher, every index type, every usize width from 32 to 64, checked and unchecked builds", "why_tests_cant": "The limit lies at 2^31 and 2^32 entries, far beyond what a unit test can allocate.", "anchors": ["frozen-collections-core/src/specialized_maps/hash_table.rs:HashTable::new", "frozen-collections-core/src/specialized_maps/common_map.rs:CommonMap", "frozen-collections-core/src/specialized_maps/integer_map.rs:IntegerMap", "frozen-collections-core/src/specialized_maps/length_map.rs:LengthMap", "frozen-collections-core/src/specialized_maps/left_slice_map.rs:LeftSliceMap", "frozen-collections-core/src/facades/frozen_map.rs:FrozenMap"]}
{"id": "C69", "title": "Choosing the size of a hash table takes work linear in the number of keys", "statement": "Whatever the hash codes, choosing the table size fills at most 107 trial tables (at most 16 from 8 keys on, at most 8 from 1000 keys on) and looks at each hash code at most once per trial table, so at most 107 times altogether; the bound of 107 is met. Up to 7,199,368 keys nothing is divided to find primes; beyond, the search for primes ends before twice the number it starts from and makes at most 64 * n * (sqrt n + 1) trial divisions for n keys.", "quantifier": "every list of hash codes of any length", "why_tests_cant": "The number of candidates tried depends on every hash code; a bad list of codes that makes construction quadratic cannot be ruled out by examples, and the prime search is only reached by millions of keys.", "anchors": ["frozen-collections-core/src/analyzers/hash_code_analyzer.rs:analyze_hash_codes", "frozen-collections-core/src/analyzers/hash_code_analyzer.rs:is_prime"]}
{"id": "C70", "title": "Set operations test no more elements than the smaller set has", "statement": "Between two sets of any kind, each set operation and predicate decides by membership tests (lookups) in one operand for elements of the other. union, intersection, is_subset, is_superset, is_disjoint and == make at most as many as the smaller set has elements, difference as many as the first has, symmetric_difference as many as both have; no element is tested twice, none before it is needed for the next item, none after the answer is known. The tests are made in iteration order; each is one lookup in the operand asked, and no other call of the element type's Hash or Eq is made.", "quantifier": "every two sets, every answer the operands' contains may give (and every stateful Hash and Eq), every number of next calls", "why_tests_cant": "A claim about the work done for all sizes and all answers; results are the same if the larger set is scanned.", "anchors": ["frozen-collections-core/src/specialized_sets/set_ops.rs:is_disjoint", "frozen-collections-core/src/specialized_sets/set_ops.rs:is_subset", "frozen-collections-core/src/specialized_sets/iterators.rs:Union", "frozen-collections-core/src/specialized_sets/iterators.rs:Intersection", "frozen-collections-core/src/specialized_sets/iterators.rs:Difference", "frozen-collections-core/src/specialized_sets/iterators.rs:SymmetricDifference", "frozen-collections-core/src/facades/frozen_set.rs:FrozenSet"]}
{"id": "C71", "title": "Sets of misbehaving elements or hashers miss, but never invent, elements", "statement": "Let Hash and Eq of the element type and the BuildHasher give any answers, different ones each time, or panic. Building a FrozenSet or a hashed or scanning set from them and asking any sequence of get, contains, len, is_empty and iteration never reads out of bounds, panics only where the caller's code does, and get shows only an element that was given and that Eq can accept as equal to the value asked for (for strings: exactly the string asked for). len, is_empty and iteration are exact. get and contains are one lookup each, hashing at most once; len, is_empty and iteration call nothing of the caller's. With a misbehaving hasher, string sets' operations still show only given strings (intersection only strings of both sets, difference only of the first), and a yes from is_subset, is_superset or == can be relied on.", "quantifier": "every stateful, panicking or inconsistent Hash, Eq and BuildHasher, every payload for which a set is built, every sequence of questions; sizes: hash-based maps and sets of fewer than 2^32 entries, construction from 2^31 entries on may panic (C68 is about more)", "why_tests_cant": "The claim ranges over all behaviours of user code over time; tests only use well-behaved element types.", "anchors": ["frozen-collections-core/src/facades/frozen_set.rs:FrozenSet", "frozen-collections-core/src/facades/frozen_set.rs:new_string_set", "frozen-collections-core/src/facades/frozen_set.rs:new_common_set", "frozen-collections-core/src/specialized_sets/common_set.rs:CommonSet", "frozen-collections-core/src/specialized_sets/scanning_set.rs:ScanningSet", "frozen-collections-core/src/specialized_sets/left_slice_set.rs:LeftSliceSet", "frozen-collections-core/src/specialized_sets/length_set.rs:LengthSet"]}
{"id": "C72", "title": "Finding every key costs one comparison per key and one per pair of keys sharing a slot", "statement": "Looking up each key of a built hash-based map of n distinct keys once compares stored keys exactly n + p times altogether, p being the number of pairs of keys whose codes agree modulo the table size, in whatever order the keys were given and sorted into the table; p is at most c * (c + 1) / 2 when the analysis reports c collisions, so finding all keys of a table without collisions takes exactly n comparisons. A value not in the map is compared with exactly the keys whose slot it shares. A FrozenMap files its keys by value (u32), by length, by the hash of a part or by the hash of the whole key, as the analysis decided; with contiguous u32 keys it compares no stored key at all; with fewer than four keys it takes n * (n + 1) / 2 comparisons to find all, n to miss. The same holds of sets and their elements.", "quantifier": "every payload (of distinct keys where all keys are looked up), every hasher, every index type, every probe, left slice ranges a..b with a <= b, right slice ranges that a map can be built with, checked and unchecked builds; sizes: hash-based maps and sets of fewer than 2^32 entries (C68 is about more)", "why_tests_cant": "An exact count for all payloads and hashers; answers are the same if whole table neighbourhoods are scanned, so no assertion on results notices.", "anchors": ["frozen-collections-core/src/specialized_maps/hash_table.rs:HashTable::get_hash_info", "frozen-collections-core/src/specialized_maps/hash_table.rs:HashTable::new", "frozen-collections-core/src/specialized_maps/common_map.rs:CommonMap", "frozen-collections-core/src/specialized_maps/integer_map.rs:IntegerMap", "frozen-collections-core/src/specialized_maps/length_map.rs:LengthMap", "frozen-collections-core/src/specialized_maps/left_slice_map.rs:LeftSliceMap", "frozen-collections-core/src/specialized_maps/scanning_map.rs:ScanningMap", "frozen-collections-core/src/facades/frozen_map.rs:get_key_value"]}
{"id": "C73", "title": "Equality keeps the promises of Eq", "statement": "All map and set types implement Eq. Whatever they were built from, repeated keys included, and whatever was written into them since, every map and every set equals itself, and a == b and b == c imply a == c. (Symmetry is C16.)", "quantifier": "every constructible collection, every history of writes, every three collections", "why_tests_cant": "Reflexivity and transitivity over all payloads, with repeats, of all representations.", "anchors": ["frozen-collections-core/src/facades/frozen_map.rs:eq", "frozen-collections-core/src/facades/frozen_set.rs:eq", "frozen-collections-core/src/specialized_maps/common_map.rs:eq", "frozen-collections-core/src/specialized_maps/scanning_map.rs:eq", "frozen-collections-core/src/specialized_maps/integer_range_map.rs:eq", "frozen-collections-core/src/specialized_sets/common_set.rs:eq"]}
{"id": "C74", "title": "Set operations on sets that repeat values", "statement": "A set built from values that repeat shows each as often as it was given (in len and iteration), and contains says exactly which values were given, in every type of set except integer ranges. Between any two such sets, union, intersection, difference and symmetric_difference visit exactly the right values; union visits a value as often as the larger set was given it, or else as often as the other was, intersection as often as the smaller set was, difference and symmetric_difference as often as the set that has it was. |, &, - and ^ yield each right value once, also in expressions a op (b op (c ...)) of any depth. is_disjoint is right. is_subset, is_superset and == answer yes exactly if the inclusion holds and the numbers of values given, repeats counted, are in the right relation.", "quantifier": "every two sets of any of the crate's types or std sets, every payload with any repeats, every number of next calls", "why_tests_cant": "Ranges over all payloads and all pairs of representations; tests use distinct values.", "anchors": ["frozen-collections-core/src/specialized_sets/set_ops.rs:is_subset", "frozen-collections-core/src/specialized_sets/iterators.rs:Union", "frozen-collections-core/src/specialized_sets/iterators.rs:Intersection", "frozen-collections-core/src/specialized_sets/iterators.rs:Difference", "frozen-collections-core/src/specialized_sets/iterators.rs:SymmetricDifference", "frozen-collections-core/src/facades/frozen_set.rs:FrozenSet", "frozen-collections-core/src/specialized_sets/common_set.rs:CommonSet"]}
{"id": "C75", "title": "Key types with pure code: the crate adds no effects and no dependence on state", "statement": "If the caller's hashing, length and comparison code is pure (its answer is a function of the value), then building a map and performing any sequence of operations on it, or comparing two maps with ==, shows a result that is a function of payload, hasher and operations only: whatever state surrounds that code is left exactly as it was and does not influence what is shown, and the session panics or is undefined exactly where it is without such code. So the maps of C56, C64, C65 and C67, whose key code is arbitrary, and the maps of the other properties, whose key code is a function, are the same maps.", "quantifier": "every type of state, every initial state, every payload of any size, every hasher, every index type, every sequence of operations", "why_tests_cant": "Quantifies over every surrounding state and every session; a test fixes both.", "anchors": ["frozen-collections-core/src/specialized_maps/common_map.rs:CommonMap", "frozen-collections-core/src/specialized_maps/scanning_map.rs:ScanningMap", "frozen-collections-core/src/specialized_maps/integer_map.rs:IntegerMap", "frozen-collections-core/src/specialized_maps/length_map.rs:LengthMap", "frozen-collections-core/src/specialized_maps/left_slice_map.rs:LeftSliceMap", "frozen-collections-core/src/specialized_maps/right_slice_map.rs:RightSliceMap", "frozen-collections-core/src/facades/frozen_map.rs:FrozenMap"]}
{"id": "C76", "title": "The map frozen_map! produces has the key type that was written", "statement": "Whatever the number of entries, the keys of the map that frozen_map! produces have the type written as its first argument, with String standing for &str, and the code type-checks exactly if the key expressions can have that type.", "quantifier": "every call that parses, every type written, every typing of the key expressions", "why_tests_cant": "A claim about the code generated for every call, and a difference in types that a test using matching literals does not see.", "anchors": ["frozen-collections-core/src/macros/frozen_map.rs:frozen_map_macro", "frozen-collections-core/src/macros/frozen_map.rs:Map::parse"]}
{"id": "C77", "title": "Contiguous integer keys with repeats: lookups go by position, memory safely", "statement": "Take integer keys whose largest minus smallest is their number less one, some perhaps repeated (as in 2, 2, 5, 5), in a range map or range set or in a FrozenMap or FrozenSet over four or more u32 keys. The pairs are kept sorted by key, pairs with equal keys in the order given. Every sequence of operations, writes through get_mut, IndexMut and get_many_mut included, behaves as on that row, a probe q standing for the pair q - smallest places from the start whatever key it has; a probe outside smallest..largest is absent; nothing is read out of bounds and only indexing an absent probe panics. == compares the rows; two range sets are equal exactly if their smallest values and their largest values agree. A key that was not given is found exactly if some key was given twice.", "quantifier": "every payload of integer keys whose span is their number less one, repeats allowed, every integer type, every history of operations, checked and unchecked builds; sizes: hash-based maps and sets of fewer than 2^32 entries (C68 is about more)", "why_tests_cant": "What happens with repeated keys depends on how many repeats fill which gaps; the claim is about all such payloads and all histories.", "anchors": ["frozen-collections-core/src/specialized_maps/integer_range_map.rs:IntegerRangeMap", "frozen-collections-core/src/specialized_maps/integer_range_map.rs:get_many_mut", "frozen-collections-core/src/specialized_sets/integer_range_set.rs:IntegerRangeSet", "frozen-collections-core/src/facades/frozen_map.rs:new_u32_map", "frozen-collections-core/src/facades/frozen_set.rs:FrozenSet"]}
{"id": "C78", "title": "Keys are taken for u32s or Strings exactly when they are", "statement": "A FrozenMap or FrozenSet finds out by itself whether its keys are u32s or Strings and treats them as such. It does so exactly for the key types u32 and String: keys of any other type, whatever the type is called and wherever it is declared, are hashed and compared with their own Hash and Eq, and none are ever reinterpreted as something they are not.", "quantifier": "every key type (primitive, declared in any crate and module, generic, reference, pointer, slice, array, tuple, function pointer, trait object), every payload, every hasher", "why_tests_cant": "Ranges over all types that any crate can declare, and what fails is the memory safety of a reinterpretation that tests on ordinary types never exercise.", "anchors": ["frozen-collections-core/src/facades/frozen_map.rs:new", "frozen-collections-core/src/facades/frozen_set.rs:new", "frozen-collections-core/src/facades/frozen_map.rs:new_u32_map", "frozen-collections-core/src/facades/frozen_map.rs:new_string_map"]}
{"id": "C79", "title": "Elements with pure code: sets add no effects and no dependence on state", "statement": "If the caller's hashing, length and comparison code is pure (its answer is a function of the value), then building a set and asking it anything (get, contains, len, is_empty, iteration), or building two sets and calling next any number of times on their union, intersection, difference or symmetric difference, or asking is_subset, is_superset, is_disjoint or ==, shows a result that is a function of payload, hasher and questions only: whatever state surrounds the caller's code is left as it was, and a session panics or is undefined exactly when that function says so. It is the result the other properties about sets describe.", "quantifier": "All states, environments, payloads, pure element code, hashers and sequences of questions, and all set operations and predicates, for every hashed or scanning specialized set and for FrozenSet over strings and over element types of the caller's own.", "why_tests_cant": "That no observation depends on hidden state is a statement about all histories and all states at once.", "anchors": ["frozen-collections-core/src/facades/frozen_set.rs:FrozenSet", "frozen-collections-core/src/specialized_sets/scanning_set.rs:ScanningSet", "frozen-collections-core/src/specialized_sets/common_set.rs:CommonSet", "frozen-collections-core/src/specialized_sets/integer_set.rs:IntegerSet", "frozen-collections-core/src/specialized_sets/length_set.rs:LengthSet", "frozen-collections-core/src/specialized_sets/left_slice_set.rs:LeftSliceSet", "frozen-collections-core/src/specialized_sets/right_slice_set.rs:RightSliceSet", "frozen-collections-core/src/specialized_sets/iterators.rs:Union", "frozen-collections-core/src/specialized_sets/iterators.rs:Intersection", "frozen-collections-core/src/specialized_sets/iterators.rs:Difference", "frozen-collections-core/src/specialized_sets/iterators.rs:SymmetricDifference", "frozen-collections-core/src/specialized_sets/set_ops.rs:is_subset"]}
{"id": "C80", "title": "Integer types of the caller's own cannot cause undefined behaviour", "statement": "The hash-based maps take any type of integers to store positions in, and range maps take any type of integers as keys: the caller may implement the traits asked for (PrimInt, Unsigned, and what they extend) for a type of their own, in safe code. Whatever the methods of that type answer, different things each time, or when they panic, building a map and performing any sequence of operations on it is never undefined behaviour, and a lookup or iteration shows only pairs that were given (or what was written since). The same for the sets of those kinds and anything asked of them.", "quantifier": "every implementation of the integer traits in safe code, stateful or panicking; every key type likewise; every payload, every sequence of operations", "why_tests_cant": "Ranges over all implementations of open traits and all histories; tests use the built-in integers.", "anchors": ["frozen-collections-core/src/specialized_maps/hash_table.rs:HashTable::new", "frozen-collections-core/src/specialized_maps/hash_table.rs:HashTable::get_hash_info", "frozen-collections-core/src/specialized_maps/common_map.rs:CommonMap", "frozen-collections-core/src/specialized_maps/integer_range_map.rs:IntegerRangeMap", "frozen-collections-core/src/specialized_maps/integer_range_map.rs:get_key_value", "frozen-collections-core/src/specialized_maps/integer_range_map.rs:get_many_mut", "frozen-collections-core/src/specialized_sets/common_set.rs:CommonSet", "frozen-collections-core/src/specialized_sets/integer_range_set.rs:IntegerRangeSet"]}
{"id": "C81", "title": "Using a map changes nothing but values", "statement": "Whatever is done with a map, of any type and with whatever keys it was made from (repeated ones, or keys whose Hash and Eq misbehave but do not change, included): after any sequence of operations, writes through get_mut, IndexMut and get_many_mut included, every probe leads to the same stored key in the same place after as many comparisons as before, get, get_mut, indexing and get_many_mut refer to the same places and panic for the same probes, contains_key answers as before, the keys are iterated in the same order and len is the same.", "quantifier": "every map value of every map type, every history of operations, every probe, lawful or not", "why_tests_cant": "Quantifies over all histories and compares everything observable before and after.", "anchors": ["frozen-collections-core/src/facades/frozen_map.rs:FrozenMap", "frozen-collections-core/src/specialized_maps/scanning_map.rs:ScanningMap", "frozen-collections-core/src/specialized_maps/common_map.rs:CommonMap", "frozen-collections-core/src/specialized_maps/integer_map.rs:IntegerMap", "frozen-collections-core/src/specialized_maps/integer_range_map.rs:IntegerRangeMap", "frozen-collections-core/src/specialized_maps/length_map.rs:LengthMap", "frozen-collections-core/src/specialized_maps/left_slice_map.rs:LeftSliceMap", "frozen-collections-core/src/specialized_maps/right_slice_map.rs:RightSliceMap", "frozen-collections-core/src/facades/frozen_map.rs:get_many_mut"]}
{"id": "C82", "title": "A map takes room in proportion to its entries", "statement": "A built hash-based map of n pairs stores exactly n entries and, for n > 0, between n - 5*floor(n/100) (n when n < 128) and 16n slots (10n from 128, 3n from 1000 pairs), whatever the keys hash to; no slot designates anything beyond the entries. A FrozenMap or FrozenSet has no slots below four pairs and otherwise none or that many, each of two bytes up to 255 pairs and of two machine words beyond: at most 32 bytes per pair below 128, 20 bytes up to 255, 20 machine words from 256 and 6 from 1000 pairs on.", "quantifier": "every payload that can be built, any size, every hash function, every key type, every machine word size from 32 to 64 bits", "why_tests_cant": "A bound for all payloads, sizes and hash functions, including adversarial ones.", "anchors": ["frozen-collections-core/src/specialized_maps/hash_table.rs:HashTable::new", "frozen-collections-core/src/specialized_maps/hash_table.rs:HashTableSlot", "frozen-collections-core/src/analyzers/hash_code_analyzer.rs:analyze_hash_codes", "frozen-collections-core/src/facades/frozen_map.rs:MapTypes", "frozen-collections-core/src/facades/frozen_set.rs:SetTypes", "frozen-collections-core/src/specialized_maps/common_map.rs:CommonMap", "frozen-collections-core/src/specialized_maps/integer_map.rs:IntegerMap", "frozen-collections-core/src/specialized_maps/length_map.rs:LengthMap", "frozen-collections-core/src/specialized_maps/left_slice_map.rs:LeftSliceMap", "frozen-collections-core/src/specialized_maps/right_slice_map.rs:RightSliceMap"]}
{"id": "C83", "title": "Iterators and their clones, used in any order", "statement": "Take an iterator over a map's pairs, keys or values, over a set (borrowing or consuming), or over a union, intersection, difference or symmetric difference. Clone it, clone the clones, call next on any of them in any order, ask any of them for len and size_hint where it promises exact ones, use any of them up with count or a loop: each behaves as a list of the items it has left. A clone has exactly the items its original had left when it was cloned (a consuming iterator's clone has the caller's clones of them), nothing done to one is seen in another, and after the last item next says None for ever. (Not claimed: count on a set's borrowing iterator, see C14.)", "quantifier": "every map, set and pair of sets, every interleaving of next, clone, len, size_hint, count and loops over any number of clones", "why_tests_cant": "Quantifies over all interleavings on any number of iterators.", "anchors": ["frozen-collections-core/src/specialized_maps/iterators.rs:Iter", "frozen-collections-core/src/specialized_maps/iterators.rs:Keys", "frozen-collections-core/src/specialized_maps/iterators.rs:Values", "frozen-collections-core/src/specialized_sets/iterators.rs:Iter", "frozen-collections-core/src/specialized_sets/iterators.rs:IntoIter", "frozen-collections-core/src/specialized_sets/iterators.rs:Union", "frozen-collections-core/src/specialized_sets/iterators.rs:SymmetricDifference", "frozen-collections-core/src/specialized_sets/iterators.rs:Difference", "frozen-collections-core/src/specialized_sets/iterators.rs:Intersection"]}
{"id": "C84", "title": "A miss costs about one comparison on average", "statement": "Looking up a key that is not in a hash-based map or set compares it with the stored keys of one slot. Averaged over all N codes an absent probe may be filed by (its hash, its value, its length), a lookup in a map of n pairs or a set of n elements takes at most 20/19 + n/N comparisons, and at most 1 + n/N when n < 128, whatever the keys are and however they are hashed: adversarial keys make some probes slow, never most of them.", "quantifier": "every payload, every hasher, every number N of codes, every choice of at most one absent probe for each code; general, integer, length and left slice maps (ranges a..b with a <= b), right slice maps that could be built and FrozenMap, and the sets of the same names; sizes: hash-based maps and sets of fewer than 2^32 entries (C68 is about more)", "why_tests_cant": "An average over all hash codes and all payloads; tests time a few.", "anchors": ["frozen-collections-core/src/specialized_maps/hash_table.rs:HashTable::new", "frozen-collections-core/src/analyzers/hash_code_analyzer.rs:analyze_hash_codes", "frozen-collections-core/src/specialized_maps/common_map.rs:CommonMap", "frozen-collections-core/src/specialized_maps/integer_map.rs:IntegerMap", "frozen-collections-core/src/specialized_maps/length_map.rs:LengthMap", "frozen-collections-core/src/specialized_maps/left_slice_map.rs:LeftSliceMap", "frozen-collections-core/src/facades/frozen_map.rs:FrozenMap"]}
{"id": "C85", "title": "A map or set can be built again from its own iteration", "statement": "Take a FrozenMap built from distinct keys, do anything with it, then collect what iterating it yields, in any order: a FrozenMap can be built from that with the same hasher, and with whatever hasher it is built, it equals the original both ways round and no sequence of operations tells the two apart, except by the order of iteration. Likewise a FrozenSet built again equals the original and answers len, contains, get and iteration as the original does.", "quantifier": "every key type, every payload with distinct keys, every history of operations, every order of the collected pairs, every hasher; sizes: fewer than 2^31 entries where the claim is that something can be built, fewer than 2^32 where it is about a map or set already built (C68 is about more)", "why_tests_cant": "Quantifies over all histories before and after, and needs that no construction fails for the collected pairs.", "anchors": ["frozen-collections-core/src/facades/frozen_map.rs:FrozenMap", "frozen-collections-core/src/facades/frozen_map.rs:new", "frozen-collections-core/src/facades/frozen_map.rs:iter", "frozen-collections-core/src/facades/frozen_map.rs:eq", "frozen-collections-core/src/facades/frozen_set.rs:FrozenSet", "frozen-collections-core/src/facades/frozen_set.rs:new", "frozen-collections-core/src/facades/frozen_set.rs:iter", "frozen-collections-core/src/facades/frozen_set.rs:eq"]}
{"id": "C86", "title": "Sets find the stored element, also through borrowed values", "statement": "For every specialized set type, get returns an element of the payload that the probe matches, or None when it matches no element, and contains returns true exactly when get returns an element; len is the number of values given. The probe may be of a borrowed type, whose Eq then decides what matches. This holds for values that repeat, too. IntegerRangeSet: for at least one value, all distinct and contiguous, whose difference does not overflow (C22, C25, C77). LeftSliceSet: for values at least as long as the end of the range (C28). RightSliceSet: for ranges written downwards and values at least as long as their first number (C29).", "quantifier": "every payload, every probe of every borrowed type whose Hash (or Len) agrees with that of the elements, every hasher; sizes: hash-based maps and sets of fewer than 2^32 entries, index types S whose maximum fits usize, and no more entries than S::MAX and i32::MAX (C68 is about more)", "why_tests_cant": "Depends on every hash code, collision pattern and table layout, for every probe type.", "anchors": ["frozen-collections-core/src/specialized_sets/common_set.rs:get", "frozen-collections-core/src/specialized_sets/common_set.rs:contains", "frozen-collections-core/src/specialized_sets/scanning_set.rs:get", "frozen-collections-core/src/specialized_sets/integer_set.rs:get", "frozen-collections-core/src/specialized_sets/length_set.rs:get", "frozen-collections-core/src/specialized_sets/left_slice_set.rs:get", "frozen-collections-core/src/specialized_sets/right_slice_set.rs:get", "frozen-collections-core/src/specialized_sets/integer_range_set.rs:get"]}
{"id": "C87", "title": "find, nth, any, fold and the other inherited iterator methods act as on a list", "statement": "Every iterator of the library (over pairs, keys or values of a map, over a set by reference or by value, over a union, intersection, difference or symmetric difference) gets find, position, any, all, nth, try_fold, fold, last and collect from std, some through a fold of its own. They act on what the iterator has left as on a list: the closure is run on the items in order, on none after the one that decides or that makes it panic, find and nth return that item, position the number of items before it, last the last one, collect all of them; the ones that stop early leave exactly the items after the one that decided, so they may be called one after another. count of a set operation is the number of items left.", "quantifier": "every map, set and pair of consistent sets, every closure, stateful or panicking, every sequence of these calls", "why_tests_cant": "Quantifies over all closures and all points at which an iterator is left off.", "anchors": ["frozen-collections-core/src/specialized_maps/iterators.rs:Iter", "frozen-collections-core/src/specialized_maps/iterators.rs:Keys", "frozen-collections-core/src/specialized_maps/iterators.rs:Values", "frozen-collections-core/src/specialized_sets/iterators.rs:Iter", "frozen-collections-core/src/specialized_sets/iterators.rs:IntoIter", "frozen-collections-core/src/specialized_sets/iterators.rs:Union", "frozen-collections-core/src/specialized_sets/iterators.rs:SymmetricDifference", "frozen-collections-core/src/specialized_sets/iterators.rs:Difference", "frozen-collections-core/src/specialized_sets/iterators.rs:Intersection"]}
{"id": "C88", "title": "References handed out by a map may be used as their types allow", "statement": "Whatever a user does, within what the borrow checker lets through, with the references a map hands out is defined under Rust's aliasing rules: shared references (get, get_key_value, indexing, iter, values) may be read through, again and again, while more shared references are made; a mutable one (get_mut, indexed assignment, get_many_mut) may be read and written through. The program then sees what it sees on a plain list of pairs. (False for get_many_mut, which turns shared references into mutable ones.)", "quantifier": "every map type, every payload with distinct keys, every finite sequence of operations and of reads through references obtained earlier, whatever parts of the map each call borrows on its way", "why_tests_cant": "Undefined behaviour of this kind usually shows no symptom in a test run; it depends on the order in which references are made and used.", "anchors": ["frozen-collections-core/src/facades/frozen_map.rs:get_many_mut", "frozen-collections-core/src/facades/frozen_map.rs:get_mut", "frozen-collections-core/src/specialized_maps/common_map.rs:get_many_mut", "frozen-collections-core/src/specialized_maps/common_map.rs:get_mut", "frozen-collections-core/src/specialized_maps/scanning_map.rs:get_many_mut", "frozen-collections-core/src/specialized_maps/integer_map.rs:get_many_mut", "frozen-collections-core/src/specialized_maps/length_map.rs:get_many_mut", "frozen-collections-core/src/specialized_maps/left_slice_map.rs:get_many_mut", "frozen-collections-core/src/specialized_maps/right_slice_map.rs:get_many_mut", "frozen-collections-core/src/specialized_maps/integer_range_map.rs:get_many_mut"]}
{"id": "C89", "title": "Threads that share a map do not disturb each other", "statement": "Let a map with distinct keys be used for any while by its owner, writing through the references it hands out, and then be shared by any number of threads, each with its own list of calls of get, get_key_value, contains_key, indexing, len and iter. Lookups are interleaved comparison by comparison and iterations entry by entry, in any order the scheduler likes. Then nothing reads out of bounds, a thread panics only where it indexes with an absent key, every thread gets, call by call up to there, the answers a plain list of pairs with the entries as the owner left them gives (iteration up to order), and a call is over after at most two more of the thread's own steps than there are entries, whatever the other threads do: no thread waits for another. Of any map at all, also one whose lookups panic: a thread fares as it would alone, and a panic ends only the thread it happens in. The same goes for sets (get, contains, len, iter), and there nobody panics.", "quantifier": "every map type (as in C49 and C50), every payload with distinct keys, every history of the owner, any number of threads, every list of calls of each, every schedule of any length, fair or not; sizes: hash-based maps and sets of fewer than 2^32 entries (C68 is about more)", "why_tests_cant": "The interleavings of several threads are more than can be tried, and a test run sees one of them.", "anchors": ["frozen-collections-core/src/facades/frozen_map.rs:get", "frozen-collections-core/src/facades/frozen_map.rs:get_key_value", "frozen-collections-core/src/facades/frozen_map.rs:contains_key", "frozen-collections-core/src/facades/frozen_map.rs:index", "frozen-collections-core/src/facades/frozen_map.rs:iter", "frozen-collections-core/src/specialized_maps/common_map.rs:get", "frozen-collections-core/src/specialized_maps/scanning_map.rs:get", "frozen-collections-core/src/specialized_maps/integer_map.rs:get", "frozen-collections-core/src/specialized_maps/length_map.rs:get", "frozen-collections-core/src/specialized_maps/left_slice_map.rs:get", "frozen-collections-core/src/specialized_maps/right_slice_map.rs:get", "frozen-collections-core/src/specialized_maps/integer_range_map.rs:get", "frozen-collections-core/src/specialized_maps/iterators.rs:Iter", "frozen-collections-core/src/facades/frozen_set.rs:get", "frozen-collections-core/src/facades/frozen_set.rs:contains", "frozen-collections-core/src/specialized_sets/common_set.rs:get", "frozen-collections-core/src/specialized_sets/iterators.rs:Iter"]}
{"id": "C90", "title": "Every key and value is dropped exactly once", "statement": "Build a map from a vector, an array or an iterator, use it in any way (writing through the references it hands out drops the value written over), clone it, and drop the map and its clones. Then every key and every value that was given to the constructor, handed over to be stored or made by a call of clone has been dropped exactly once: nothing is leaked and nothing is dropped twice. The same holds when a panic of the caller's Hash, Eq, Clone, BuildHasher or iterator, or of the crate itself, ends it at any point: in the middle of construction, of a clone or of a lookup. If the caller catches the panics (as in C92), the map keeps its things and the values that were to be stored and have not been are dropped. Construction that succeeds drops and clones nothing, and while the map lives no key is dropped. The same goes for sets, and for the iterators that consume one: however they are stepped, cloned, formatted, counted and dropped, each element is either handed out, once, or dropped with its iterator.", "quantifier": "FrozenMap, FrozenSet, scanning, hashed and range maps, every payload, every Hash, Eq, Clone, BuildHasher and iterator however its answers change and wherever it panics, every history on the map and on its clone, every use of the iterators consuming a set; undefined behaviour only in the cases of C56, C64 and C80; sizes: construction from 2^31 entries on may panic (C68 is about more)", "why_tests_cant": "Where the caller's code can panic are more places than can be tried; a leak shows no symptom and a double drop only sometimes.", "anchors": ["frozen-collections-core/src/specialized_maps/hash_table.rs:new", "frozen-collections-core/src/specialized_maps/common_map.rs:from_vec", "frozen-collections-core/src/specialized_maps/scanning_map.rs:from_vec", "frozen-collections-core/src/specialized_maps/integer_map.rs:from_vec", "frozen-collections-core/src/specialized_maps/length_map.rs:from_vec", "frozen-collections-core/src/specialized_maps/left_slice_map.rs:from_vec", "frozen-collections-core/src/specialized_maps/right_slice_map.rs:from_vec", "frozen-collections-core/src/specialized_maps/integer_range_map.rs:from_vec", "frozen-collections-core/src/facades/frozen_map.rs:new", "frozen-collections-core/src/facades/frozen_map.rs:from_iter", "frozen-collections-core/src/facades/frozen_map.rs:get_mut", "frozen-collections-core/src/facades/frozen_map.rs:get_many_mut", "frozen-collections-core/src/facades/frozen_set.rs:new", "frozen-collections-core/src/specialized_sets/iterators.rs:IntoIter", "frozen-collections-core/src/specialized_sets/common_set.rs:into_iter"]}
{"id": "C91", "title": "Threads sharing a map of misbehaving keys stay safe and apart", "statement": "Let the owner of a map use it for any while, then share it between any number of threads, each with its own list of calls of get, get_key_value, contains_key, indexing, len and iter, and use it again when they are gone. The code of the key type (Hash, Eq, Borrow, Len, the hasher) may use state that the threads and the rest of the program share and change at any moment, answer differently from call to call, and panic. Whatever the schedule of the calls into that code: there is no undefined behaviour while the map is shared; a panic ends the thread it happens in and nothing else, and happens only in the key type's code or in an indexing that found nothing; there is one list of the given pairs such that each thread, together with the owner before and after, sees what that list can show, where a lookup finds a pair whose key Eq may accept, or none; and a thread given two turns more than there are pairs for each of its calls is through, whatever the others do. A thread that runs alone does exactly what its calls do one after the other.", "quantifier": "FrozenMap with any key type or with string keys, scanning and all hashed maps, FrozenSet, every payload, every code of the key type and hasher with any shared state, every history of the owner before and after, any number of threads with any programs, every schedule of any length, fair or not, with any changes of the state in between; undefined behaviour only in the owner's own part, in the cases of C56 and C64; sizes: construction from 2^31 entries on may panic (C68 is about more)", "why_tests_cant": "Both the interleavings and the answers of the key type's code are unbounded; a test runs one schedule with one key type.", "anchors": ["frozen-collections-core/src/facades/frozen_map.rs:get", "frozen-collections-core/src/facades/frozen_map.rs:get_key_value", "frozen-collections-core/src/facades/frozen_map.rs:contains_key", "frozen-collections-core/src/facades/frozen_map.rs:index", "frozen-collections-core/src/facades/frozen_map.rs:iter", "frozen-collections-core/src/facades/frozen_set.rs:get", "frozen-collections-core/src/facades/frozen_set.rs:contains", "frozen-collections-core/src/specialized_maps/common_map.rs:get", "frozen-collections-core/src/specialized_maps/common_map.rs:get_key_value", "frozen-collections-core/src/specialized_maps/scanning_map.rs:get", "frozen-collections-core/src/specialized_maps/integer_map.rs:get", "frozen-collections-core/src/specialized_maps/length_map.rs:get", "frozen-collections-core/src/specialized_maps/left_slice_map.rs:get", "frozen-collections-core/src/specialized_maps/right_slice_map.rs:get", "frozen-collections-core/src/specialized_maps/iterators.rs:Iter"]}
{"id": "C92", "title": "A caught panic leaves the map as it was", "statement": "Let a caller wrap each operation on a map in catch_unwind and go on using the map afterwards. Whatever panicked (the caller's Hash, Eq or hasher anywhere inside a lookup, an indexing with an absent key, or the caller's own code after some of its writes through references from get_mut, index_mut or get_many_mut), the map then holds exactly what it held before the operation with those writes done, and no others. The operations that follow work on that, with no undefined behaviour: a panic can neither lose an entry, change a key, nor leave the map in a state from which a later lookup goes wrong. If the caller's code panics after its last write, the map is what it would be without the panic; if anything panics before the first write, it is the same map.", "quantifier": "FrozenMap with any key type or with string keys, scanning, hashed and range maps, every payload, every code of the key type and hasher with any state, wherever it panics, every history of operations each wrapped in catch_unwind, every point at which the caller's own code panics; undefined behaviour only in the cases of C56, C64 and C80; sizes: construction from 2^31 entries on may panic (C68 is about more)", "why_tests_cant": "A test panics at one place of one operation; here the places, the key type's code and what is done with the map afterwards are all unbounded.", "anchors": ["frozen-collections-core/src/facades/frozen_map.rs:get", "frozen-collections-core/src/facades/frozen_map.rs:get_mut", "frozen-collections-core/src/facades/frozen_map.rs:get_many_mut", "frozen-collections-core/src/facades/frozen_map.rs:index", "frozen-collections-core/src/facades/frozen_map.rs:index_mut", "frozen-collections-core/src/specialized_maps/common_map.rs:get_mut", "frozen-collections-core/src/specialized_maps/common_map.rs:get_many_mut", "frozen-collections-core/src/specialized_maps/scanning_map.rs:get_mut", "frozen-collections-core/src/specialized_maps/integer_range_map.rs:get_mut"]}
{"id": "C93", "title": "Keys that panic now and then still get right answers", "statement": "Let the code of a key type (Hash, Eq, Borrow) or a hasher be right whenever it answers, but keep state and panic at any call it likes, as code with a fallible allocation, a lock or a budget does. Wrap each operation on the map in catch_unwind. Then every operation that returns answers exactly as a plain dictionary of the given pairs does, with the values written so far; an operation that does not return has panicked in the key type's code, by indexing with an absent key, or in the caller's own code, and has changed nothing but what the caller wrote. If the caller's own code does not panic, the operations that panicked might as well not have been called. If the keys do not panic, each history has one possible outcome. This needs nothing of the hash codes with which the crate sizes the table or picks a part of the strings: they may be random.", "quantifier": "FrozenMap with any key type or with string keys, scanning and hashed maps, range maps of integers of the caller's own, every payload with distinct keys, every such code with any state, wherever it panics, every history of operations each wrapped in catch_unwind; string keys as in C64, range maps not empty; sizes: hash-based maps and sets of fewer than 2^32 entries, construction from 2^31 entries on may panic (C68 is about more)", "why_tests_cant": "The places where the code can panic and the histories after it are unbounded.", "anchors": ["frozen-collections-core/src/facades/frozen_map.rs:get", "frozen-collections-core/src/facades/frozen_map.rs:get_mut", "frozen-collections-core/src/facades/frozen_map.rs:get_many_mut", "frozen-collections-core/src/facades/frozen_map.rs:index", "frozen-collections-core/src/facades/frozen_map.rs:new", "frozen-collections-core/src/specialized_maps/common_map.rs:get", "frozen-collections-core/src/specialized_maps/common_map.rs:from_vec", "frozen-collections-core/src/specialized_maps/scanning_map.rs:get", "frozen-collections-core/src/specialized_maps/hash_table.rs:HashTable::new"]}
{"id": "C94", "title": "A set operation goes on after a caught panic", "statement": "Let a caller wrap each call of next on the iterator of a union, intersection, difference or symmetric difference in catch_unwind and go on calling it. Whatever the operands do (any type may implement Set; a library set calls the Hash and Eq of its elements), this has no undefined behaviour, a panic comes from an operand's code, and the items seen before and after panics are items of the operands, none used twice, and none against what the operands answered. If the operands are right whenever they answer, the items seen are items of the operation's result, in the order in which they would come without panics; each panic loses at most the next one; once None was answered nothing else follows and everything but what panics lost has been seen; and without panics the whole result comes.", "quantifier": "Any two operands with any state and iterators that end, every element type, two FrozenSets of any payloads (with distinct elements for the exact result; of strings as in C64), all four operations, every number of calls of next, every place where a panic happens; sizes: hash-based maps and sets of fewer than 2^32 entries, construction from 2^31 entries on may panic (C68 is about more)", "why_tests_cant": "The places where the operands can panic and the calls that follow are unbounded.", "anchors": ["frozen-collections-core/src/specialized_sets/iterators.rs:Union::next", "frozen-collections-core/src/specialized_sets/iterators.rs:Intersection::next", "frozen-collections-core/src/specialized_sets/iterators.rs:Difference::next", "frozen-collections-core/src/specialized_sets/iterators.rs:SymmetricDifference::next", "frozen-collections-core/src/facades/frozen_set.rs:contains", "frozen-collections-core/src/facades/frozen_set.rs:union"]}
{"id": "C95", "title": "Sets and comparisons of things that panic now and then are right whenever they answer", "statement": "Let the elements of two sets, or the keys and values of two maps, have code (Hash, Eq, PartialEq, the hasher) that is right whenever it answers but keeps state and may panic at any call, and let the caller wrap each call in catch_unwind. Then every call of get, contains, len, is_empty, iter, is_subset, is_superset, is_disjoint and == on the sets that returns gives the right answer for the elements the sets were built from, whatever panicked before and however often; a call that does not return has panicked in the caller's code. Two maps that have each been used for a while in this way (written to as well) compare equal, if == returns, exactly if they hold the same keys with values equal under the values' ==. The set predicates are right for any two operands that are right whenever they answer, also of types of the caller's own.", "quantifier": "FrozenSets with any element type or of strings (as in C64), FrozenMaps with any key type, every payload with distinct elements or keys, every such code with any state, wherever it panics, every sequence of calls each wrapped in catch_unwind, every history on each map before the comparison; for the predicates any operands that implement Set; sizes: hash-based maps and sets of fewer than 2^32 entries, construction from 2^31 entries on may panic (C68 is about more)", "why_tests_cant": "The places where the code can panic and the calls after it are unbounded.", "anchors": ["frozen-collections-core/src/facades/frozen_set.rs:contains", "frozen-collections-core/src/facades/frozen_set.rs:get", "frozen-collections-core/src/facades/frozen_set.rs:is_subset", "frozen-collections-core/src/facades/frozen_set.rs:is_disjoint", "frozen-collections-core/src/facades/frozen_set.rs:eq", "frozen-collections-core/src/specialized_sets/set_ops.rs:is_subset", "frozen-collections-core/src/specialized_sets/set_ops.rs:is_disjoint", "frozen-collections-core/src/specialized_sets/common_set.rs:eq", "frozen-collections-core/src/facades/frozen_map.rs:eq", "frozen-collections-core/src/specialized_maps/common_map.rs:eq", "frozen-collections-core/src/specialized_maps/scanning_map.rs:eq"]}
{"id": "C96", "title": "Counters, atomics and locks in a shared map work as on a plain dictionary", "statement": "Let the values of a map change through shared references (atomics, mutexes, cells with a lock), let the keys be distinct, and let any number of threads share the map. Each thread looks keys up with get or indexing and accesses the value it gets a reference to, or goes through all values, and decides what to do next by all it has seen. Lookups are interleaved comparison by comparison, iterations entry by entry, and accesses one by one, in any order the scheduler likes. Then there is no undefined behaviour, a thread panics only by indexing with an absent key, and everything is as if each lookup with its access were one action on a plain list of keys with contents, done at one of the thread's own turns: every thread gets the same results, every value ends up with the same content, and what has happened by some moment comes before what happens later. A call is over after at most twice the number of entries and three of the thread's own steps, whatever the others do. So counters count right: when all threads are done, each counter holds its first value and all that was added for its key.", "quantifier": "every map type (as in C49 and C50), every list of distinct keys, every type and contents of the values, every atomic access, any number of threads with any adaptive programs, every schedule of any length, fair or not; sizes: hash-based maps and sets of fewer than 2^32 entries (C68 is about more)", "why_tests_cant": "The interleavings of several threads are more than can be tried, and a test run sees one of them; a lost update shows only under an unlucky schedule.", "anchors": ["frozen-collections-core/src/facades/frozen_map.rs:get", "frozen-collections-core/src/facades/frozen_map.rs:index", "frozen-collections-core/src/facades/frozen_map.rs:values", "frozen-collections-core/src/specialized_maps/common_map.rs:get", "frozen-collections-core/src/specialized_maps/common_map.rs:values", "frozen-collections-core/src/specialized_maps/scanning_map.rs:get", "frozen-collections-core/src/specialized_maps/integer_map.rs:get", "frozen-collections-core/src/specialized_maps/length_map.rs:get", "frozen-collections-core/src/specialized_maps/left_slice_map.rs:get", "frozen-collections-core/src/specialized_maps/right_slice_map.rs:get", "frozen-collections-core/src/specialized_maps/integer_range_map.rs:get", "frozen-collections-core/src/specialized_maps/iterators.rs:Iter::next"]}
{"id": "C97", "title": "A map written with frozen_map! acts as the dictionary written down", "statement": "Take a call frozen_map!(type, key: value, ..., key: value) with distinct keys whose expansion compiles. Running the emitted code evaluates every expression once, in the order written, and builds a map. Whatever is then done with that map (get, get_key_value, contains_key, indexing, len, iterating over entries, keys or values, and writing through get_mut, index_mut and get_many_mut, in any order and number), every observation is the one a plain dictionary of the entries written gives, up to the order of iteration; a panic comes only from indexing with an absent key; there is no undefined behaviour. The hash function chosen when the macro is expanded and the one used when the code runs need not agree.", "quantifier": "Every token sequence of such a call, every lawful key type and value type, fewer than 2^31 entries, both overflow modes of the macro's build and of the program's, every pair of hash functions, every history of operations of any length", "why_tests_cant": "The calls, the hash functions and the histories are unbounded; a test of a macro is one call written in the test.", "anchors": ["frozen-collections-core/src/macros/frozen_map.rs:frozen_map_macro", "frozen-collections-core/src/macros/frozen_map.rs:Map::parse", "frozen-collections-core/src/macros/frozen_map.rs:process_string_keys", "frozen-collections-core/src/macros/frozen_map.rs:process_int_keys", "frozen-collections-core/src/specialized_maps/scanning_map.rs:from_vec", "frozen-collections-core/src/specialized_maps/common_map.rs:from_vec", "frozen-collections-core/src/specialized_maps/integer_map.rs:from_vec", "frozen-collections-core/src/specialized_maps/length_map.rs:from_vec", "frozen-collections-core/src/specialized_maps/left_slice_map.rs:from_vec"]}
{"id": "C98", "title": "Programs with any number of maps and sets act as on plain lists", "statement": "A program builds any number of FrozenMaps and FrozenSets of one key type, from payloads with distinct keys that construction accepts (fewer than 2^31 entries; for strings, as in C03). It reads and writes the maps, asks the sets, clones both, compares them with ==, is_subset, is_superset and is_disjoint, and combines sets with the operators |, &, ^ and - or goes through their union, intersection, difference and symmetric_difference, in any order, deciding each step by everything it has seen so far. Then everything it sees is what it would see on plain lists of pairs and of elements, up to the order of listings. A write to one map is never seen through another, not even through a clone. The program panics only where it indexes a map with an absent key, and nothing it does is undefined behaviour. If it catches these panics it goes on with everything as it was, and still sees what plain lists show.", "quantifier": "every lawful key type and value type, every Clone of keys that gives equal keys, every Clone and PartialEq of values, every payload of distinct keys that construction accepts, every hasher for each map and set, both overflow modes, every order in which a HashSet lists its elements, every adaptive program of any length", "why_tests_cant": "Programs, the number of maps and sets they hold and the order of their steps are unbounded; a test runs one program.", "anchors": ["frozen-collections-core/src/facades/frozen_map.rs:new", "frozen-collections-core/src/facades/frozen_map.rs:get", "frozen-collections-core/src/facades/frozen_map.rs:get_mut", "frozen-collections-core/src/facades/frozen_map.rs:clone", "frozen-collections-core/src/facades/frozen_map.rs:eq", "frozen-collections-core/src/facades/frozen_set.rs:new", "frozen-collections-core/src/facades/frozen_set.rs:contains", "frozen-collections-core/src/facades/frozen_set.rs:get", "frozen-collections-core/src/facades/frozen_set.rs:clone", "frozen-collections-core/src/facades/frozen_set.rs:eq", "frozen-collections-core/src/facades/frozen_set.rs:is_subset", "frozen-collections-core/src/facades/frozen_set.rs:is_superset", "frozen-collections-core/src/facades/frozen_set.rs:is_disjoint", "frozen-collections-core/src/facades/frozen_set.rs:bitor", "frozen-collections-core/src/specialized_sets/set_ops.rs:is_subset", "frozen-collections-core/src/specialized_sets/common_set.rs:eq"]}
{"id": "C99", "title": "What a program sees does not depend on hashers, builds, machines or payload order", "statement": "Run a program that holds any number of FrozenMaps and FrozenSets (as in C98) twice: on machines of different width, with and without overflow checks, with other hashers and other hash codes of keys, with the entries of each payload in another order, and with or without the crate having maps of its own for the key type. If the program lists nothing (no iteration, no HashSet made from two sets, no union and the like), both runs see exactly the same replies and panic at the same step. If the program catches its panics, both runs see the same replies and the same panics for as long as they go on. If the program lists maps and sets, and what it does next never depends on the order of a listing (it may sum the values, say), then both runs see the same up to the order of listings and panic at the same steps, caught or not. So none of these things can be observed but through the order of a listing, and replacing a hasher or the crate's choice of map never changes what a program computes.", "quantifier": "every pair of surroundings that agree on which keys are equal, on copies and on equality of values, every pair of payload orders and hashers for each map and set built, every adaptive program of any length (one that lists: whose next action does not depend on the order of what it listed), payloads as in C98 (on 32-bit machines fewer than 178,956,971 entries, C66)", "why_tests_cant": "This compares two executions, for all hash functions, machines and programs; a test has one machine, one build and a few hashers.", "anchors": ["frozen-collections-core/src/facades/frozen_map.rs:new", "frozen-collections-core/src/facades/frozen_map.rs:get", "frozen-collections-core/src/facades/frozen_map.rs:get_many_mut", "frozen-collections-core/src/facades/frozen_map.rs:eq", "frozen-collections-core/src/facades/frozen_set.rs:new", "frozen-collections-core/src/facades/frozen_set.rs:contains", "frozen-collections-core/src/facades/frozen_set.rs:eq", "frozen-collections-core/src/specialized_sets/set_ops.rs:is_disjoint", "frozen-collections-core/src/specialized_maps/hash_table.rs:find", "frozen-collections-core/src/specialized_maps/integer_range_map.rs:get", "frozen-collections-core/src/specialized_maps/common_map.rs:get"]}
{"id": "C100", "title": "Map types and set types are interchangeable", "statement": "Build two maps from the same entries with distinct keys, each as any of the eight map types whose construction accepts them (the seven specialized maps and FrozenMap), with any hashers, index widths and orders of the entries. Then no use can tell them apart: every sequence of lookups, writes, get_many_mut, indexing and listings panics on both or shows the same on both, up to the order of listings. Two sets of any types (the crate's, std's, or results of set operators) that hold the same elements answer contains and len alike, and compare alike with every third set on either side; the operators |, &, ^, - and the iterators union, intersection, difference and symmetric_difference give the same elements when either operand or both are replaced. So changing the type of a collection in a program changes its speed and nothing else.", "quantifier": "every pair of the eight map types and every pair of set types, every list of distinct keys both accept (fewer than 2^32 entries; no empty range or slice maps, C25), every probe type borrowed from the keys with equality kept, all hashers, both machine widths, every history of any length, every third set", "why_tests_cant": "The number of pairs of types, payloads and histories is unbounded, and tests of one type say nothing about another.", "anchors": ["frozen-collections-core/src/specialized_maps/scanning_map.rs:get", "frozen-collections-core/src/specialized_maps/common_map.rs:get", "frozen-collections-core/src/specialized_maps/integer_map.rs:get", "frozen-collections-core/src/specialized_maps/integer_range_map.rs:get", "frozen-collections-core/src/specialized_maps/length_map.rs:get", "frozen-collections-core/src/specialized_maps/left_slice_map.rs:get", "frozen-collections-core/src/specialized_maps/right_slice_map.rs:get", "frozen-collections-core/src/facades/frozen_map.rs:get", "frozen-collections-core/src/specialized_sets/scanning_set.rs:contains", "frozen-collections-core/src/specialized_sets/integer_range_set.rs:contains", "frozen-collections-core/src/facades/frozen_set.rs:contains"]}
