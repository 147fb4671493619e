# frozen_map: formal model and proofs

Source under study: `/repo` (crate `frozen-collections-core`, with the thin re-export crate and
the proc-macro crate). Everything here is about that text; nothing was built or run.

## 1. Approach

A function-by-function model in Lean 4 of the code in `frozen-collections-core/src`:

| Rust | Lean module |
| --- | --- |
| outcomes, integers, slices, `sort_unstable_by` contract | `Verif/Basic.lean` |
| `analyzers/hash_code_analyzer.rs` | `Verif/Model/HashCode.lean` |
| `analyzers/int_key_analyzer.rs` | `Verif/Model/IntKey.lean` |
| `analyzers/slice_key_analyzer.rs` | `Verif/Model/SliceKey.lean` |
| `specialized_maps/hash_table.rs` | `Verif/Model/HashTable.lean` |
| `specialized_maps/{scanning,common,integer,length,left_slice,right_slice,integer_range}_map.rs` | `Verif/Model/Maps.lean` |
| `facades/frozen_map.rs` | `Verif/Model/FrozenMap.lean` |
| aliasing of the references returned by the maps' lookups | `Verif/Model/Borrows.lean` |
| the maps' `get`, `get_key_value`, `contains_key`, `index`, `len` and `iter`, step by step and interleaved between threads | `Verif/Model/Threads.lean` |
| the sets' `get`, `contains`, `len` and `iter` likewise | `Verif/Model/SetThreads.lean` |
| the maps' with arbitrary code for the key type | `Verif/Model/UserThreads.lean` |
| the maps' `get`, `index` and `values` with values that threads change through `&` | `Verif/Model/Cells.lean` |
| who owns keys and values, when they are dropped, and unwinding, in constructors, clones and histories | `Verif/Model/Drops.lean` |
| the iterators that consume a set, with the elements they own | `Verif/Model/Consume.lean` |
| operations wrapped in `catch_unwind`, the map after a panic; who owns what then | `Verif/Model/Catch.lean`, `Verif/Model/CatchDrops.lean`, `Verif/Model/CatchSetOps.lean`, `Verif/Model/CatchReads.lean` |
| `specialized_maps/iterators.rs`, `specialized_sets/iterators.rs` | `Verif/Model/Iter.lean`, `Verif/Model/Provided.lean` (inherited methods) |
| `specialized_sets/*.rs`, `set.rs`, `set_ops.rs` | `Verif/Model/Sets.lean` |
| `facades/frozen_set.rs` | `Verif/Model/FrozenSet.lean` |
| `macros/frozen_map.rs` | `Verif/Model/Macro.lean`, from tokens on `Verif/Model/MacroTokens.lean` |
| the two `f64` computations of the analyzers | `Verif/Model/Float.lean` |
| table sizing in machine arithmetic (overflow, `f64`, largest `BitVec`) | `Verif/Model/Machine.lean` |
| the facades' test of the key type by its name (`type_name`) | `Verif/Model/TypeName.lean` |
| the map API of every map type as one record (for histories) | `Verif/Model/Api.lean` |
| lookups that count key comparisons | `Verif/Model/Cost.lean` |
| table sizing that counts trial tables, codes and divisions | `Verif/Model/SizingCost.lean` |
| `Debug` and iterator `Clone` impls of maps, sets and iterators | `Verif/Model/Debug.lean` |
| derived `Clone` of maps and sets | `Verif/Model/Clone.lean` |
| set operations over `Set` implementations whose code is arbitrary and stateful | `Verif/Model/SetCode.lean` |
| set lookups over arbitrary, stateful `Hash`, `Eq` and `BuildHasher` | `Verif/Model/SetLookups.lean` |
| `traits/len.rs`: the types with a built-in length | `Verif/Model/Len.lean` |
| constructors from arrays and iterators, `hasher()` | `Verif/Model/Construct.lean` |
| the maps over key types whose code is arbitrary and stateful | `Verif/Model/UserCode.lean` |
| hash-based maps and range maps over integer types of the caller's own (`PrimInt` etc. as arbitrary, stateful code) | `Verif/Model/IntTraits.lean` |
| maps of strings, from analysis to lookup, with an arbitrary and stateful hasher | `Verif/Model/StringCode.lean` |

Property theorems are in `Verif/Props/*.lean`, helper lemmas in `Verif/Lemmas/*.lean`, the concrete
keys, hashers and payloads of the non-vacuity examples in `Verif/Examples.lean`. As a check of the
model itself, `Verif/RepoTests.lean` replays the project's own unit tests on it (31 of the 34; two
cases that use a seeded random generator and the three tests that only print are left out) and its
example program; it
proves no property of the list. The vocabulary the
theorem statements use is kept apart from the proofs:

| what | where (`Verif/`) |
|---|---|
| distinct keys, lawful key types, answers to a probe, same associations, `next` called n times | `Spec.lean` |
| plain functions and the operations of C07 | `Spec/Operations.lean` |
| reference dictionary and operation language of the history theorems | `Spec/History.lean` |
| reference lists for repeated keys | `Spec/FirstMatch.lean` |
| rows addressed by place | `Spec/Row.lean` |
| what `Eq` promises | `Spec/SelfEq.lean` |
| contiguous keys, keys that fit their type, maps that find nothing | `Spec/Integers.lean` |
| collisions, sizes considered and tolerated | `Spec/Sizing.lean` |
| pairs sharing a slot, total cost of lookups | `Spec/TotalCost.lean` |
| what using a map leaves as it was | `Spec/Frame.lean` |
| how much room a map takes | `Spec/Footprint.lean` |
| several iterators in use at once | `Spec/IterPool.lean` |
| the cost of absent probes, averaged | `Spec/Average.lean` |
| when two maps cannot be told apart | `Spec/Rebuild.lean` |
| maps of any size | `Spec/Limit.lean` |
| rules of the string analysis | `Spec/StringVerdict.lean` |
| iteration over sets, size hints, membership in a result | `Spec/Sets.lean` |
| set expressions | `Spec/SetAlgebra.lean` |
| sets that repeat values | `Spec/SetRepeats.lean` |
| macro calls: lawful key types, arity, answers | `Spec/Macro.lean` |
| macro calls as written | `Spec/MacroTokens.lean` |
| constructors of each type | `Spec/Construct.lean` |
| types with a built-in length | `Spec/Len.lean` |
| printed listings | `Spec/Debug.lean` |
| histories with clones | `Spec/Clone.lean` |
| key types that misbehave | `Spec/UserCode.lean` |
| integer types of the caller's own: histories, what they must keep | `Spec/IntTraits.lean` |
| sessions with pure key code | `Spec/PureCode.lean` |
| sessions with sets whose element code is pure | `Spec/PureSets.lean` |
| safe hashers | `Spec/StringCode.lean` |
| logs of calls of the caller's code; of `==`; of a string map's hasher | `Spec/Calls.lean`, `Spec/EqCalls.lean`, `Spec/StringCalls.lean` |
| set operations over misbehaving operands; their membership tests | `Spec/SetCode.lean`, `Spec/SetCalls.lean` |
| sets of misbehaving elements | `Spec/SetLookups.lean` |
| names of types | `Spec/TypeName.lean` |
| what a caller that catches panics may see; key code that is right whenever it answers | `Spec/Catch.lean`, `Spec/HonestCode.lean`, `Spec/CatchSetOps.lean`, `Spec/HonestSets.lean`, `Spec/HonestInts.lean` |
| threads that change values through `&`: one action for each call on a plain list | `Spec/Cells.lean` |
| what a map written with `frozen_map!` does under a history | `Spec/MacroHistory.lean` |
| programs that hold many maps and sets, and the lists they are compared with | `Spec/Programs.lean` |
| two runs of such a program in different surroundings | `Spec/SameRuns.lean` |
| two maps or sets of different types with the same contents | `Spec/Interchange.lean` |

### Modelling decisions

* **Outcomes.** Every function that can panic or run into undefined behaviour returns
  `Res α = ok a | panic | ub`. Checked indexing/`unwrap`/`assert` give `panic`; an unchecked slice
  (`get_unchecked`) with an invalid range gives `ub`.
* **Integers.** `usize`/`u64` quantities are `Nat`; integer keys are `Int` with an explicit type
  descriptor (width, signedness). Subtractions and additions that can leave their type go through
  helpers taking the overflow-check mode (`panic` when checks are on, wrap when off); both modes
  are covered. The width of `usize` is a parameter (`Target`, 32 to 64 bits) of every theorem; only the
  concrete examples and counterexamples are computed at 64 bits (`x64` in `Verif/Examples.lean`). Additions of lengths that are bounded by memory size are plain `Nat` additions.
* **Sizes.** `HashTable::new` counts entries in `i32`s, and the model does too. Theorems that say a
  hash-based map is built are for fewer than 2^31 entries (`IdxTy.capacity`: `S::MAX` or `i32::MAX`,
  whichever is less); theorems about a map that was built are for fewer than 2^32 entries; theorems on
  memory safety and on iteration are for any number. C68 is about the limits, and keeps the unrestricted
  claim. Each property whose theorems have such a hypothesis says so in its `quantifier`, and the note of
  each claim in MANIFEST.json lists the theorems concerned. Theorems about callers'
  code that may panic allow panics from 2^31 entries on instead (hypothesis `hbig`).
* **Hashing.** A hasher (`BuildHasher` with `finish`) is an arbitrary function from the list of
  `Hasher` calls made (`write`, `write_usize`, `write_str`, ...) to a code. A key's `Hash` is the list of calls it makes.
  The distinct ways the code hashes (`hash_one(&K)`, `hash_one(&[u8])`, raw `write` of bytes) make
  different call lists, so no theorem can rely on them agreeing. `Eq` is an arbitrary Boolean
  relation; lawfulness is an explicit hypothesis only where needed.
* **Key types.** The `type_name` dispatch and `transmute`s of the facades are a `Kind` argument:
  `u32` and `String` come with the (bijective) reinterpretation, anything else is `other`. C78 says for
  which types the dispatch gives this kind.
* **`sort_unstable_by`** is a parameter: any function whose result is a sorted permutation.
  `sort_by_key` (`IntegerRangeMap`) is a stable insertion sort, as its contract says stable.
* **Set iterators inside set operations.** `Union`, `Intersection`, ... are state machines over the
  item lists of the two sets; the item list of a concrete set is what its own iterator (modelled
  and proved separately, C46) yields.
* **Cost.** `Model/Cost.lean` repeats the lookup functions with a comparison counter;
  `counted_same` theorems show the counter changes nothing.
* **Caller's code.** In most modules `Hash`, `Eq`, ... are functions. `Model/UserCode.lean` repeats
  construction and lookup with a hidden state threaded through every such call;
  `Lemmas/UserCodeAgree.lean` shows that functions are the special case.
* **References.** A `&V`/`&mut V` into the entry array is the pair (place = entry index, value), so
  that aliasing of two `&mut` can be stated. Writing through it updates that entry.
* **Loops** are structural or well-founded recursion; termination (including the prime search) is
  therefore part of what Lean checks.
* **std collections.** `HashMap`/`HashSet`/`BTreeSet` are finite maps/sets (in set expressions iterating in any order); `collect` into a `HashSet` keeps
  the first of equal elements.

## 2. Trusted base

* Lean 4.33.0 kernel; axioms at most `propext`, `Classical.choice`, `Quot.sound`. No axioms are
  added; no `sorry`, `native_decide`, `bv_decide`.
* The hand translation from Rust to Lean (each definition cites file and lines).
* Contracts assumed of code outside the repo: slice sorts, `HashMap`/`HashSet`, `BitVec` indexing,
  `num_traits` casts, vec operations; a `BitVec` has at most `usize::MAX >> 3` bits.
* Floating point: `Model/HashCode.lean` and `Model/SliceKey.lean` use whole numbers where the code
  computes in `f64`. C53 proves this exact for every rounding to nearest, below 2^53 (candidates of
  the primality test) and 2^52 (number of string keys). Trusted: that Rust's `f64` rounds to nearest.

### Axioms

`#print axioms` of every theorem named in MANIFEST.json gives a subset of
`{propext, Classical.choice, Quot.sound}`. No theorem depends on `sorryAx`, on
`Lean.ofReduceBool`/`Lean.trustCompiler`, or on an axiom of this project. Concrete examples and
counterexamples are evaluated by the kernel (`decide`, `decide +kernel`, `rfl`). The table in section 5
lists the axioms per theorem.

Every property theorem with hypotheses is applied to a concrete case beside it (`example := Cnn_… …`),
so that its hypotheses are seen to be met by maps and sets the model really builds; most use the
payloads and maps of `Verif/Examples.lean`.

### Not modelled

* Memory layout and the validity of `transmute` between identical types. Drops of keys and values are modelled
  (C90); destructors are taken to return, and hashers and slots are not tracked. The facades compare
  `type_name` strings to decide whether `K` is `u32` or `String`; only C78 models this, the rest takes for
  granted that it identifies the type. How rustc prints a type's name is trusted (std does not promise it).
* Allocation failure. (Overflow in table sizing is modelled in `Model/Machine.lean` and excluded by C66.)
* `Default` of hashers. A cloned hasher is taken to hash like the original (except in C58_misbehaving).
* syn's parsers of types, expressions and literals (parameters in C60), hygiene, and type checking of
  the emitted code beyond the number of generic arguments. `macros/frozen_set.rs` is a copy of `frozen_map.rs` (only the
  function name and a TODO comment differ; it too emits maps) that no proc macro uses; the model of
  the one is the model of the other.
* `Len` of `BinaryHeap`, which has no `Eq` and so cannot be a key.
* Which probe types compile. The specialized maps' lookups take `Q` without `?Sized`, so a probe is a
  sized type: a map over `String` cannot be probed with a `str`. `SliceHash` of `[u8]` can therefore
  not be reached from a map. Theorems about probes cover more types than compile.
* Rust's aliasing rules, except in C88: `get_many_mut` turns a `&V` into a `&mut V` by `transmute`
  (facades/frozen_map.rs and every specialized map), which the reference declares undefined whatever
  is done with it. C08, C09, C49 and C50 speak of the places referred to and what is in them. C88 uses
  Stacked Borrows without raw pointers, protectors and two-phase borrows; Rust has not settled on a model,
  but all proposed ones forbid writing through a reference made from a shared one.
* Targets with a `usize` narrower than 32 bits or wider than 64.
* Threads beyond C89, C91 and C96: a map shared as `&map` is taken to be the same for every thread at every moment, as
  the code has no interior mutability and `&self` methods write nothing. Keys and hashers with interior
  mutability are those of C91, where each call into them is one step. Values with interior mutability are
  those of C96, where an access is one step and all threads see the accesses in one order. Weak memory and the
  automatic `Send`/`Sync` implementations are not modelled.
* Wall-clock performance (C20 counts comparisons only).

## 3. Properties

For each: what is modelled and how it is proved.

* **C01** FrozenMap lookup agrees with the payload. Facade model + table invariant (`TableOK`: slot i designates exactly the entries whose hash is i mod n). Induction over the construction loop, case analysis over representations.
* **C02** FrozenMap construction succeeds for u32 and general keys. Facade model; totality of `HashTable.new` and of the analyzers; u32 range verdict implies the assertion in `IntegerRangeMap::from_vec`.
* **C03** FrozenMap and FrozenSet construction succeeds for String keys. FALSE of the code. Negation proved with concrete strings: five that make construction panic with every hasher, six that never become a map with any hasher and give undefined behaviour with every hasher that tells six letters apart; `_partial`: exact characterisation of when construction returns.
* **C04** Presence is exact even when the payload repeats keys. FALSE for u32 keys judged contiguous. Negation with witness; `_partial` for every map not represented as a u32 range; and in the excluded case some absent key is always found (`C04_otherwise_always_wrong_partial`).
* **C05** get, get_key_value and contains_key agree. Lookup functions modelled separately per representation; proved to agree.
* **C06** get_mut addresses the slot get reads and nothing else. `get_mut` place + write; frame lemma on the table invariant.
* **C07** Histories of value mutation behave like a plain map. Refinement: operation language, induction over histories against an abstract key→value function.
* **C08** get_many_mut returns a result exactly for distinct present keys, without aliasing. get_many_mut model; places are distinct because distinct keys live in distinct entries.
* **C09** get_many_mut never aliases even when Eq is broken. FALSE. Witness with a non-transitive Eq; `_partial` = C08 (equivalence Eq).
* **C10** Lookups are memory-safe for arbitrary Hash and Eq. Bounds invariant of the table alone, no hypotheses on hash/eq.
* **C11** Iteration yields exactly the payload. Permutation lemma of the construction loop.
* **C12** len and is_empty report the payload size. Corollary of C11, proved per representation.
* **C13** Map iterators honour the Iterator contract at every point. Iterator state machine, induction on number of `next` calls.
* **C14** Set iterator count equals the number of remaining items. FALSE. Witness after one `next`; `_partial`: fresh iterators, plus exact formula.
* **C15** Map equality is extensional. From lookup correctness and a counting (pigeonhole) argument.
* **C16** Equality is symmetric for every constructible collection. FALSE. Witnesses with repeated keys; `_partial`: distinct keys on the left suffice (the right then has distinct keys too, by counting), except against a range map with repeats, for which there is a witness; for sets the exact meaning of `==` with repeats.
* **C17** Capacity limit is enforced exactly. Model of `S` conversions and overflow; iff.
* **C18** Hash table sizing is total and bounded. Invariant of the analyzer loop over candidate sizes; prime search terminates by infinitude of primes.
* **C19** Reported collisions are the true collisions, and the size is exact or good. Counting loop invariant: collisions = n − distinct residues unless stopped at the current best.
* **C20** Collision-free analysis gives single-comparison lookups. Comparison-counting version of the scan; slot population ≤ 1 + collisions. For the facades by the code their keys are filed by (C72); a set's lookup costs what its map's lookup costs.
* **C21** Integer analysis reports a range exactly for contiguous keys. Min/max/count fold; pigeonhole on intervals of ℤ.
* **C22** Integer analysis never overflows. FALSE (signed spans, full domains). Witnesses; `_partial`: exact condition for no overflow.
* **C23** IntegerRangeMap lookup is direct and exact. Sorted distinct contiguous list is min, min+1, …; direct index.
* **C24** IntegerRangeMap rejects non-contiguous keys. FALSE in both directions (repeats; signed spans). Witnesses; `_partial`.
* **C25** Empty maps and sets answer every lookup with None. FALSE for IntegerRangeMap (probe 0 panics), for right-slice maps over an ascending range and for left-slice maps over a range that ends before it starts (probes reaching into the range). Witnesses; `_partial` for exactly the other probes.
* **C26** String analysis verdicts are justified. Model of the search loops; iff and minimality by induction on the loops.
* **C27** String analysis never panics. FALSE. Witness for every hasher; `_partial`: exact condition.
* **C28** LeftSliceMap is correct for probes of every length. LeftSliceMap model; iff for undefined behaviour.
* **C29** RightSliceMap construction and lookup are memory-safe and correct. FALSE: never returns for a non-empty payload and non-empty range. `_partial`: exactly the reversed ranges inside every key can be built, and what was built works.
* **C30** Specialized hash maps look up through borrowed keys correctly. Generic borrowed probe type; table invariant.
* **C31** FrozenSet membership agrees with the payload. FrozenSet model, separately written dispatch, shown to wrap the map.
* **C32** Union iterator yields the mathematical union once each. Iterator state machine over abstract `Set` instances; drained list characterised.
* **C33** Intersection, difference and symmetric difference iterators are exact. As C32.
* **C34** Set operators build the corresponding HashSet. collect into a modelled HashSet.
* **C35** Set predicates are exact. Direct, with pigeonhole for the length shortcut.
* **C36** Set predicates are exact for sets built from repeated values. FALSE. Witness; `_partial` = C35.
* **C37** Set equality is mathematical equality across set types. Pigeonhole.
* **C38** Set operation iterators report valid size hints. FALSE for Union after consumption. Witness; `_partial` for fresh Union and all the others at all points.
* **C39** Set operation iterators are fused. Iterator state machines.
* **C40** Indexing panics exactly for absent keys. Per representation.
* **C41** Observable content is independent of hasher and payload order. From C01 twice.
* **C42** frozen_map! chooses a map type that fits and finds every key. Macro decision model + generated constructor call with an independent run-time hasher.
* **C43** frozen_map! output type-checks for every supported key type. FALSE for contiguous integer keys. Witness class; `_partial`: all other outputs.
* **C44** Consuming set iteration yields every element exactly once. Vec iterator model. C44_consuming_histories: clones too, by simulation with plain lists (`listsRun` in Spec/Consume.lean).
* **C45** Prime search finds the next prime. `is_prime` ↔ `Nat.Prime` on odd n ≥ 7; search loop by well-founded recursion.
* **C46** Borrowing set iterators yield every element once with exact remaining length. Iterator state machine, induction on the number of `next` calls.
* **C47** Every set type presents a consistent interface. Each set model is shown to meet `Consistent`, the hypothesis of C32-C39.
* **C48** Small hash tables get the smallest collision-free size. Loop invariant of the size search with tolerance zero.
* **C49** Specialized maps behave as a dictionary in every history. Refinement against a list of pairs; a simulation relation (`ScanMap`) preserved by every operation, induction over histories.
* **C50** FrozenMap behaves as a dictionary in every history. As C49, by representation.
* **C51** Map equality is equality of contents after any histories. From the simulation relation of both maps and the pigeonhole argument of C15.
* **C52** The recommended table size is exactly the first acceptable candidate. The size loop equals a first-fit search with shrinking tolerance; the candidate lists are characterised separately.
* **C53** Floating-point steps of the analyses are exact. Rounding to nearest is monotone and fixes representable numbers; 0.05 is determined exactly; sandwich between representable bounds.
* **C54** Set algebra works between all set types, and in nested expressions. Spec/SetAlgebra lists the sets a user can build and expressions over them; C47 makes each consistent, C34-C37 give one step, induction over the expression.
* **C55** With repeated keys a map is a list in which the first match counts. Spec/FirstMatch is a list of pairs with "first match wins"; each map type's lookup is shown to be a search of its whole entry list (entries outside the probed bucket cannot match), and histories by induction. C55_u32_repeats describes the excepted u32 case exactly.
* **C56** Broken, changing or panicking key types never cause undefined behaviour. Model/UserCode threads a hidden state through every call into the caller's traits, so any sequence of answers is covered; Lemmas/UserCodeAgree proves that for implementations that are functions it is Model/Maps. A bounds invariant of the slot array alone carries construction and every history; Spec/UserCode's `Loose` list is the weakest observable behaviour: each lookup misses or picks an entry whose key `Eq` can accept.
* **C57** Debug output lists every element exactly once, in one notation. FALSE as to one notation for sets. The std `debug_map`/`debug_list` builders are modelled (text without the `#` flag); Spec/Debug says what a listing is; induction over the entries. `_partial`: CommonSet prints every element once, but not in the notation of the other sets. FrozenSet has no `Debug` (the code is commented out).
* **C58** A clone has the contents of its original and is independent of it. Derived `Clone` modelled field by field; the simulation relation of C49/C50 is extended to lists of maps (Spec/Clone) and shown to be kept by cloning. The clone of any map, well-formed or not, is shown to answer as the original does. Stateful `Clone`s as in C56.
* **C59** Set operations contain misbehaving sets and element types. The operands' `contains` and `len` thread a hidden state and their iterators are arbitrary answer streams, possibly going on after `None`; Lemmas/SetCode shows the functional model of C32-C39 is the special case. Induction on the number of `next` calls with the invariant that what is left of each stream is a suffix; Spec/SetCode says what may be seen.
* **C60** frozen_map! reads, checks and evaluates its arguments exactly as written. `Map::parse` modelled over syn's type and expression parsers as parameters (trusted: they only take tokens from the front, an expression at least one); induction over the entries for printing-then-parsing and for the account of every token. Evaluation threads a state, instantiated with a log. Composed with C42.
* **C61** String analysis is exactly the rule search, whatever the order of the keys. The rules are the inductive `Outcome` (`Verif/Spec/StringVerdict.lean`); the analysis satisfies them (loop induction), they are deterministic (least index is unique) and invariant under permutation.
* **C62** Length maps and sets work for every key type with a built-in length. Each `Len` implementation modelled with std's `Eq` of the type; the types form an inductive predicate (`BuiltinLen`) and the claim goes by induction on it, then C49/C47.
* **C63** It does not matter how the payload is handed over. Each constructor modelled by the one it calls; `Built` lists the constructors of a type, the claim goes by cases on it, then C50/C47.
* **C64** A misbehaving hasher cannot break a map of strings, only make it miss keys. Model/StringCode runs the analysis, construction and lookups with the hidden state of C56 threaded through every hash; whatever verdict the answers lead to, the bounds invariant of C56 holds. Lemmas/StringCodeAgree: functions are the special case.
* **C65** Exactly which calls of the key type's Hash and Eq a map makes. The caller's code of C56 is wrapped so that each call is appended to a log it cannot see; a program logic for logs (`Logs`) gives the sequence for every function, and forgetting the log gives back the unwrapped code. The layout of the table is described by the hash codes in the log, so the stretch a lookup scans is the set of keys with the same remainder. The calls of `==` (Spec/EqCalls.lean) are interleaved with those of the value type's `PartialEq` in one log; renaming of events carries the results over.
* **C66** Table sizing never overflows. Model/Machine repeats the analysis with every `usize` addition and multiplication checked, the floating-point primality test and the limit of `BitVec`; Bertrand's postulate (Mathlib) bounds the prime search, so below `usize::MAX / 24` keys the checked version is the idealised one, and from there on it panics. Then the constructors of C66 are those of the other claims.
* **C67** Exactly what a FrozenMap of strings hashes. The model of C64 with a log of the uses of the hasher kept beside its state; the order of the search, the point where a part is rejected and the uses per lookup are stated in Spec/StringCalls without reference to the model's loops; induction over the loops. Bounds on the number of uses and of bytes follow.
* **C68** Maps of any number of entries. FALSE of the code (i32 counters). Negation: 2^32 keys in one slot, proved for an abstract payload of that length. `_partial`: invariant of the filling loop under wrapping counters (a wrapped counter is less than the true count or negative, and negative ones panic), so slots stay within the entries at any size and are exact below 2^32.
* **C69** Choosing the size of a hash table takes work linear in the number of keys. The sizing once more with counters (Model/SizingCost.lean), proved to be the sizing when the counters are dropped; induction over the candidates, sparseness of the prime table, Bertrand's postulate (Mathlib) for the prime search. Integer square root as in C18. That the counters leave nothing out is a theorem too: every code is counted at least once, and the divisions are exactly those of `divisions` and `searchDivisions` in Spec/Divisions.lean.
* **C70** Set operations test no more elements than the smaller set has. FALSE for `is_disjoint`. Negation for every number of tests; the operands of Model/SetCode with a log of membership tests, exact relation between log and items for every number of `next` calls (induction over calls and items), refined to the calls of `Hash` and `Eq` by two `FrozenSet`s; `_partial` bound for the other predicates.
* **C71** Sets of misbehaving elements or hashers miss, but never invent, elements. A set is the map of Model/UserCode (or Model/StringCode) with unit values; sessions of questions over it, by induction over the questions with `Behaves` (what may be shown) and `Logs` (which calls); string-set operations combine C59's arbitrary operands with the fact that a string set's `contains` never errs towards yes.
* **C72** Finding every key costs one comparison per key and one per pair of keys sharing a slot. The counted lookups of Model/Cost.lean (proved to give the lookups' answers); every slot's range is shown to be the filter of the entries by slot, so the cost of an entry is its place in that filter, summed by induction over the entries and carried to the payload by invariance of the pair count under permutation. The counted lookups of the sets (Model/SetCost.lean) are those of the maps inside.
* **C73** Equality keeps the promises of `Eq`. FALSE of the code. Negations with concrete maps and sets. `_partial`: a map whose lookups are scans of its entries (the invariant of C55, kept by every history) equals itself exactly if its pairs agree wherever keys are equal, and equality of two such maps is inclusion of one in the other's lookups at equal length, which is transitive; a range set of repeated values finds something for each of its values, so it equals itself.
* **C74** Set operations on sets that repeat values. Every set type's lookup is a scan of its entries (as in C47, without distinctness); the items of each operation are then filters and concatenations of the operands' items, counted by `countP` with a filter that respects equality. Nested expressions by induction (`C74_expressions`): the multiplicities of the whole follow from those of the sets at the leaves.
* **C75** Key types with pure code. The maps of Model/UserCode and Model/StringCode simulate those of Model/Maps and Model/FrozenMap when the code is pure: same lookups on related maps, related maps after related writes; induction over the history. Equality of key values must be an equivalence, so that `get_many_mut` cannot alias.
* **C76** Key type of the map `frozen_map!` produces. The macro's output is extended by the key type it names (`keyNote`); what can be the type of a key expression is a parameter. Case analysis on the macro; false for fewer than three entries.
* **C77** Contiguous integer keys with repeats. Reference: a row of pairs in which a probe designates a place (`Verif/Spec/Row.lean`). Invariant kept by every write: as many entries as the span has places. Simulation by induction over the history, `==` by unfolding; that gaps come exactly with repeats is a count of an interval's elements. The statement is about every payload judged contiguous; C55 covers the payloads whose keys are not.
* **C78** Keys are taken for u32s or Strings exactly when they are. FALSE of the code. Rust types are a syntax tree with crates that have a name and an identity; `type_name` is a printer. Injectivity of the printer at `u32` and (but for the crate's identity) at `String` by looking for characters that only other forms print and by splitting at colons. Negation: a crate called `alloc`.
* **C79** Elements with pure code. The sets of Model/SetLookups and the operands of Model/SetCode answer as those of Model/Sets and Model/FrozenSet when the code is pure: same lookups, lengths and items on the wrapped map; induction over the questions and over the calls of `next`.
* **C80** Integer types of the caller's own. FALSE of the code. Model/IntTraits repeats the hash table and the range map with every call of an integer trait method as arbitrary stateful code (`IdxCode`, `RangeCode`). Counterexamples: five liars, one per method, each alone enough for an out-of-bounds read by `get`. Partial: invariants of the build loop and of each operation, by induction over the history, under an honest index type; for range maps under nothing but safe code. Agreement with the built-in types (Lemmas/IntTraitsAgree): the same session, call for call. Sets (Model/IntSets, Props/IntSets): the same, and range sets have no exception left.
* **C81** Using a map changes nothing but values. One relation between two states of a map (`Unmoved`: same answers, places, counts, order, length), shown reflexive and transitive and kept by one write, for each of the seven map types and each representation of `FrozenMap`; then induction on the history. No assumption on the map.
* **C82** Room. `Compact`: number of entries, slots in proportion, slots inside the entries; from C18 and an invariant of the table construction, at any size. For the facades `slotTable` says which index type each representation uses (`MapTypes`, `SetTypes`); the bits follow. A slot is taken to be as large as its two indices (no padding); the allocator's and the `Vec`s' own overhead is not modelled.
* **C83** Iterators and clones. `ActsAsList`: a user holds a row of iterators of one type, starting with one; any sequence of `next`, `clone` and questions on any of them says what the same sequence says on a row of lists. Proved with a relation kept by each step. The sets under a set-operation iterator need only a `contains` that returns.
* **C84** Average cost of a miss. `CheapMisses`: any list of absent probes with different codes below `N` costs at most `20/19 * N + n` comparisons in total. From the exact cost of a miss (C72), exchanging the two sums, at most `N/m + 1` codes below `N` in each of the `m` slots, and the lower bound on `m` (C18).
* **C85** Rebuilding. `Indistinguishable`: every history shows the same on both maps. From the refinement of one dictionary by both maps (C50), the exact condition under which strings can be built (C03, a condition on the keys that no order changes), and equality (C51, C37). Values are copied by `Clone`, taken to be faithful.
* **C86** Sets through borrowed values. `AnswersMember` in Spec/Sets.lean says what `get` and `contains` have to answer. Every set hands its lookups to a map, so from C30, C28, C29 and C23 for maps whose values are `()`.
* **C87** Inherited iterator methods. Model/Provided.lean writes out std's `try_fold`, `fold`, `nth`, `find`, `position`, `any`, `all`, `last`, `count` and `collect` over any `next`, with closures that keep state and may panic; a loop is given rounds, and the theorems say that any number above the number of items is enough. `StopsAsList` and `LoopsAsList` in Spec/Provided.lean say what the answers are for a list, and that an iterator left off early has the rest of the list left (`HasLeft`), to which everything applies again. By induction over the list. std's own code for these methods is taken as its documentation shows it.
* **C88** References under the aliasing rules. Model/Borrows.lean keeps, for the value of each entry, the stack of references made to it (Stacked Borrows): a re-borrow or a read through a reference kills the mutable references made after it, a write kills all references made after it, and using a dead reference, or writing through a shared one, is undefined. Calls on `&self` and `&mut self` re-borrow any places, any number of levels deep, before they hand out a reference; `get_many_mut` hands out what `get` hands out, as `transmute` makes no new reference. Spec/Borrows.lean runs the histories of C49 in this model, with shared references kept and read again until the next call on `&mut self`. By an invariant on stacks (the owner is at the bottom, tags are used once, held references are alive). False for `get_many_mut`: the theorems say that histories are defined exactly if it hands out nothing.
* **C89** Threads that share a map. Model/Threads.lean cuts a lookup into hashing and one comparison per step, an iteration into calls of `next`, and lets a scheduler (any list of thread numbers) choose whose step is next. C89_any_map, for any map: induction on the schedule, each thread's state is that of its own turns alone. For built maps an invariant of one thread (what it has answered, what it is doing, how many more steps that takes at most) is kept by each of its steps; that lookups end with what `get_key_value` returns comes from the definitions, what it returns after the owner's history from C49 and C50. A set (Model/SetThreads.lean) is asked through the map to `()` inside, so its theorems are those of the map with the answers read as the set reads them.
* **C90** Drops. Model/Drops.lean writes the constructors, the derived `Clone` and the operations of Model/UserCode.lean and of the range maps of Model/IntTraits.lean down once more with the local variables that own keys and values: a panic passing a function drops what its variables own, an assignment drops the value written over, and a log records drops and clones. `Tallies` (Lemmas/Drops.lean) relates such code to the code without the log and says that given + cloned = dropped + held; it composes over sequencing and over owning variables, and holds of each function by induction on its loops. C90_log_changes_nothing says the code without the log is that of C56, C58 and C64, so undefined behaviour and panics are as proved there (DropsOnce). C90_construction and C90_alive: nothing is dropped by a construction that succeeds, and no key while the map lives. Model: a panic because counting entries overflows (2^31 pairs with one slot) is taken to come at the end of the inner loop. Model/Consume.lean does the same for `into_iter` of the specialized sets: a caller owns any number of consuming iterators and the elements they handed out, and steps, clones, formats, counts and drops them, or panics. Caught panics (Model/CatchDrops.lean): what survives a panic is the map and the log, and the account is kept across it (`C90_caught_...`).
* **C91** Threads that share a map of misbehaving keys. Model/UserThreads.lean cuts the lookups of Model/UserCode.lean into calls of the key type's code and interleaves those of several threads; between the turns the state behind that code may be changed by anything. Each call is one step; that other threads may run in the middle of one is covered because the state may contain whatever the answer depends on. An invariant of one thread (Lemmas/UserThreads.lean: the history it has performed is one that a list of the pairs can show, the entries it still has to look at are entries of the map, how many turns are left) is kept by each of its steps and does not mention the other threads. C91_alone: with one thread, the steps are the operations of C56, by induction on the program, the loop and the iteration.
* **C92** Caught panics. Model/Catch.lean makes the map memory that the operation holds while it runs (`Holding`): a lookup reads it, the caller's writes change it one at a time, and a panic keeps what is there; `caught` is `catch_unwind` around one operation, with the rest of the program's state arbitrary afterwards. `C92_untouched`, `C92_before_writing` and `C92_after_writing` tie this, for any map, to the operations of the other properties; the histories are by induction, with the same facts about lookups as C64 and C80, against `Loose.CaughtRun` (Spec/Catch.lean).
* **C93** Keys that panic now and then. `UserCode.Honest` and `HasherCode.Honest` (Spec/HonestCode.lean) say that code answers as a lawful pure key type whenever it answers; it has state and may panic at any call. The table that `HashTable::new` then builds is the one of Model/HashTable.lean (`HashTable.newU_honest`), so a lookup that returns is a scan of all entries; histories by induction against `Dict.CaughtRun`, which is `Dict.step` of C49 with panics. `C93_determined` shows that this specification leaves no freedom but where the keys panic. `C93_integer_range_map` does the same for range maps over integers of the caller's own (`RangeCode.Honest`, Spec/HonestInts.lean).
* **C94** Set operations whose panics are caught. Model/CatchSetOps.lean makes the iterator memory that `next` holds while it runs: an item taken from an operand's iterator is gone when its test panics. `C94_same` ties this `next` to the one of C59. For any operands the items seen are drawn from theirs as in C59 (`C94_union` and the others, `C94_frozen_sets_any`). For operands that are right whenever they answer (`USet.Honest`), by induction over the calls with the items still to come as the invariant, the answers are `Lossy` (Spec/CatchSetOps.lean) for one list with the operation's result; `C94_seen` says what that means, and `C94_frozen_sets` and `C94_string_sets` take it to two `FrozenSet`s.
* **C95** Reading calls whose panics are caught. `Call.caught` (Model/CatchReads.lean) is `catch_unwind` around a call that changes no collection. The predicates of sets that are right whenever they answer (`USet.Honest`) answer as those of pure sets, for which C35 and C37 hold (`C95_predicates`). `C95_frozen_sets` and `C95_string_sets` put any sequence of questions (`PairAsk`) to two sets, with `PairAsk.Right` (Spec/HonestSets.lean) as the right answers. `C95_map_eq` uses two maps for a while as in C93 and compares them.
* **C96** Values that change through `&`, as atomics do. Model/Cells.lean: the map is built of numbered cells (a map knows a value only by the place it has), the contents are in a memory the threads share, and an access (`X → X × R`) is one step; a thread's next call may depend on all its results. `Worker.step` cuts lookups and iterations into steps as in C89. Spec/Cells.lean: `PlainWorker.step` does a lookup with its access as one action on a list of pairs; `CellsAtomic` says that every schedule of the steps has an order of such actions, a sublist of the schedule that only grows with it, with the same results and contents, and bounds the steps of a call. Proved by simulation (`Worker.Like.step`: every step is an action of the plain thread or none), from the refinement of C49 and C50. `C96_counters` and `C96_frozen_counters` draw the consequence for counters, by an invariant on the plain runs.
* **C97** frozen_map! from tokens to histories. Composes C60's reading of the tokens and C42's choice of the map type with the refinement theorems of C49, one for each map type the macro can emit; `MacroMap.ActsAs` (Spec/MacroHistory.lean) is C49's `Refines` with the entries written as the reference dictionary. Partial: right-slice maps, as in C42 (`C97_counterexample`).
* **C98** Programs with many maps and sets. `Shelf.run` (Spec/Programs.lean) runs an adaptive program on lists of maps and sets; the reference `PlainLists.Does` says what each step may show on plain lists, open only in the order of listings. Proved by induction on the number of steps with the invariant that every map and set is well formed and holds a permutation of its list (Lemmas/Programs.lean), using C49 for operations, C02 and C03 for construction, C58 for clones, C35 to C37 for sets. One key type per program; no theorem about maps of different key types is lost, since no step mixes them.
* **C99** Two runs of one program. Both runs are compared with the same plain lists (the invariant of C98 speaks of permutations, so a payload in another order stands for the same list); an action that lists nothing has one possible reply on plain lists (`PlainLists.Does.unique`), and any action leaves the same lists (`PlainLists.Does.same_lists`), so programs that list go on together as long as they do not look at the order (`SameSeen`, `C99_listing_programs`). With panics caught: `C99_with_panics_caught` and `C99_listing_and_catching`. The two machines are two explicit `Target`s, the two choices of map two `KeyTy`s with one `eq`.
* **C100** Any two map types. `MapFrom` (Spec/Interchange.lean) lists the eight constructors; C49 and C50 compare each with the dictionary of its entries, and a scanning map of one order, compared with the dictionaries of both orders, joins the two. Sets: `SetOf` (C54) lists the set types; C54 gives both answers, and with C32 and C33 the elements of operators and iterators (`C100_combined_sets`).

## 4. Where the code and the properties disagree

Each is proved as a theorem about the model (`*_counterexample`), with what does hold in a `_partial`
theorem.

1. **Right slices do not work** (C03, C27, C29, C42, C25). `RightSliceMap` takes an unchecked slice
   with `len - start .. len - end`, an invalid range whenever `start < end`. Every non-empty payload
   is undefined behaviour, so `FrozenMap<String, _>`, `FrozenSet<String>` and `frozen_map!` are
   broken for strings told apart only by their ends. Reversed ranges work.
2. **String analysis can panic** (C03, C27). For right-aligned subslices `is_sufficiently_unique`
   takes `len - index - 1 .. len - index - 1 + sub_len`, which ends beyond the string as soon as the
   subslice is longer than `index + 1`. Ordinary string lists panic before a verdict; C27 says exactly
   which.
3. **Repeated keys** (C04, C16, C24, C36). `u32` keys 0,0,3,3 are judged contiguous and looked up
   directly, giving wrong answers; `len` counts repeats; `==` is then not symmetric; `is_subset` is
   wrong through its length shortcut; `IntegerRangeMap` does not notice the gap.
4. **Empty range and slice maps** (C25). `IntegerRangeMap::get(&0)` on an empty map panics. An empty
   `LeftSliceMap` made with a range such as `3..1` takes an unchecked slice with it on every lookup of a
   key of length one or more (undefined behaviour); a non-empty one cannot be built.
5. **Set `Iter::count`** (C14) subtracts the consumed items twice.
6. **`Union::size_hint`** (C38) does not go down as items are taken.
7. **`LeftSliceMap`** built directly over a key shorter than the range is undefined behaviour (C28 says exactly when).
8. **`get_many_mut`** returns aliasing `&mut` when `Eq` is not transitive (C09).
9. **Integer analysis overflows** for wide signed spans and full domains (C22); a full `u8` domain is
   judged `Normal` without overflow checks (C21_full_domain_counterexample); `IntegerRangeMap<i8>` refuses some contiguous keys (C24).
10. **`S = u128`** panics for every non-empty table (C17).
11. **`frozen_map!` with three or more contiguous integers** does not compile (C43).
12. Eight hash codes get exactly eight slots however many collide, and the tolerated collisions drop
    to a fifth of five percent (or to zero, below 2000 codes) after the exact size fails (C52).
13. **Sets print in different notations** (C57): most as `{x: (), y: ()}`, `CommonSet` as `[x, y]`.
    (`FrozenSet` has no `Debug` at all: its code is commented out.)
14. **Set-operation iterators promise `FusedIterator`** for every operand, but keep the promise only if
    the operands' iterators are fused, and `Intersection` only if their `len` does not change (C59).
15. Arrays and iterators can only be turned into a `LengthMap` with index type `u8` (length_map.rs:233,
    242), so `collect` panics beyond 255 entries and larger maps need `from_vec` (C63, C17).
16. On 32-bit targets a hashed map of 178,956,971 keys or more cannot be built: the bit table used to
    size it would have more bits than the `bitvec` crate allows (C66).
17. **Entries are counted in `i32`** (hash_table.rs:61, 72, 76, 92: integer literals whose type nothing
    else fixes), whatever the index type. From 2^31 entries on, checked builds panic and unchecked
    builds may; from 2^32 entries on, an unchecked build can return a map that does not find its keys
    (C17, C68). Memory safety is not affected.
18. **`is_disjoint`** compares the first set's length with itself (set_ops.rs:9) and therefore always
    goes through the first set, however small the second is (C70). Its answer is right (C35).
19. **`Eq` without reflexivity or transitivity** (C73). A map given one key with two different values
    does not equal itself, because the second pair is compared with what its key finds. Through `u32`
    maps and sets of repeated keys that are judged contiguous, equality does not carry over. All types
    implement `Eq` all the same.
20. **`frozen_map!` ignores the key type when there are fewer than three entries** (C76): the code then
    names no type (macros/frozen_map.rs:75-82). `frozen_map!(u8, 300: a, 2: b)` compiles and has `i32`
    keys, and with `&str` the keys are `&str`, whereas three or more entries give `String` keys.
21. **Key types are told apart by name** (C78). A caller's type printed as `alloc::string::String`, that is
    `string::String` in a crate of their own called `alloc`, is reinterpreted as the standard library's
    `String` in maps and sets of four keys or more: undefined behaviour without `unsafe` on their side.
22. **Integer types of the caller's own are trusted** (C80). `PrimInt` and `Unsigned` are open, safe traits.
    Lookups use the positions that the index type stored (hash_table.rs:103-109) without a check, so a
    type that lies in any one of `zero`, `max_value`, `to_usize`, `from` or `+` makes `get` read out of
    bounds. Range maps check every position; there only `get_many_mut` trusts the probe's `==`.
23. **`get_many_mut` writes through shared references** (C88). Every map makes the `&mut V`s it returns by
    `transmute` from the `&V`s of `get` (e.g. common_map.rs:140), with the compiler's lint against it
    switched off. Writing through any of them is undefined behaviour, with distinct keys and without any
    `unsafe` on the caller's side. `get_mut` is in order.

## 5. Axioms per theorem

Generated from `#print axioms` (all names in namespace `FC`).

* **Quot.sound**: `C22_unchecked_partial`
* **none**: `C21_full_domain_counterexample`, `C22_counterexample`, `C25_scanning`, `C25_scanning_set`, `C63_scanning_map`, `C63_scanning_set`
* **propext**: `C13_fused`, `C14_counterexample`, `C24_wide_counterexample`, `C25_counterexample`, `C59_fused`, `C63_range_map`, `C63_range_set`, `C72_same_answers`, `C72_set_same_answers`, `C79_scanning_set`, `C80_range_counterexample`, `C93_determined`
* **Quot.sound, propext**: `C14_fresh_count_partial`, `C25_range_partial`, `C25_range_set_partial`, `C27_empty`, `C30_scanning_map`, `C38_counterexample`, `C43_arity_partial`, `C43_counterexample`, `C47_hash_set`, `C47_std_set`, `C52_large_unique`, `C57_set_operations`, `C58_frozen_map_alike`, `C58_integer_and_slice_sets`, `C59_difference`, `C59_fused_intersection`, `C59_intersection`, `C59_predicates`, `C59_symmetric_difference`, `C59_union`, `C60_accounts_for_every_token`, `C60_expansion`, `C60_string_keys`, `C65_eq_true`, `C65_stored_keys_never_hashed`, `C70_hash_calls`, `C70_log_changes_nothing`, `C70_operation_bound`, `C72_scanning_map`, `C72_scanning_set`, `C75_scanning_map`, `C76_counterexample`, `C76_fewer_than_three_ignores_the_type`, `C80_builtin_honest`, `C80_range_set`, `C83_map_iter`, `C83_map_keys`, `C83_map_values`, `C83_set_into_iter`, `C83_set_iter`, `C86_scanning_set`, `C89_any_map`, `C89_safe_map`, `C90_range_construction`, `C92_before_writing`, `C92_untouched`, `C94_difference`, `C94_intersection`, `C94_same`, `C94_seen`, `C94_symmetric_difference`, `C94_union`, `C96_counters`
* **Classical.choice, Quot.sound, propext**: `C01_absent`, `C01_get_agrees_with_payload`, `C01_present`, `C02_other_construction_total`, `C02_other_set_construction_total`, `C02_u32_construction_total`, `C02_u32_set_construction_total`, `C03_counterexample`, `C03_set_counterexample`, `C03_string_construction_partial`, `C03_string_set_construction_partial`, `C04_counterexample`, `C04_otherwise_always_wrong_partial`, `C04_presence_exact_not_u32_partial`, `C04_presence_exact_partial`, `C05_lookups_agree`, `C05_stored_key`, `C06_get_mut`, `C07_histories_behave_like_a_function`, `C08_get_many_mut`, `C08_some_iff_payload`, `C09_alias_needs_broken_eq_partial`, `C09_counterexample`, `C09_no_alias_any_hash_partial`, `C100_combined_sets`, `C100_interchangeable`, `C100_sets`, `C10_common_map_safe`, `C10_frozen_map_safe`, `C10_frozen_set_safe`, `C10_length_map_safe`, `C11_keys_after_writes`, `C11_map_iteration`, `C11_order_stable`, `C11_set_iteration`, `C12_len`, `C13_iter`, `C13_keys`, `C13_values`, `C14_count_exact_iff_fresh_partial`, `C15_eq_iff_payload`, `C15_eq_iff_same_answers`, `C15_refl`, `C15_symm`, `C15_trans`, `C16_counterexample`, `C16_map_receiver_distinct_partial`, `C16_map_symm_partial`, `C16_range_counterexample`, `C16_set_counterexample`, `C16_set_exact_partial`, `C16_set_receiver_distinct_partial`, `C16_set_symm_partial`, `C17_common_map_partial`, `C17_common_set_partial`, `C17_counterexample`, `C17_counters_counterexample`, `C17_facade_partial`, `C17_facade_set_partial`, `C17_facade_set_string_partial`, `C17_facade_set_u32_partial`, `C17_facade_string_partial`, `C17_facade_u32_partial`, `C17_integer_map_partial`, `C17_integer_set_partial`, `C17_left_slice_map_partial`, `C17_left_slice_set_partial`, `C17_length_map_partial`, `C17_length_set_partial`, `C17_right_slice_map_partial`, `C17_right_slice_set_partial`, `C18_bounds`, `C19_collisions_true`, `C19_exact_or_good`, `C19_perfect`, `C20_answer_depends_on_few_keys`, `C20_common_map`, `C20_common_set`, `C20_frozen_map`, `C20_frozen_set`, `C20_integer_map`, `C20_integer_set`, `C20_left_slice_map`, `C20_left_slice_set`, `C20_length_map`, `C20_length_set`, `C20_right_slice_map`, `C20_right_slice_set`, `C20_scanning_map`, `C21_range_iff`, `C21_unsigned`, `C22_overflow_iff_partial`, `C23_lookup`, `C24_counterexample`, `C24_distinct_partial`, `C24_panics_iff`, `C25_common`, `C25_common_set`, `C25_frozen_map`, `C25_frozen_set`, `C25_integer`, `C25_integer_set`, `C25_left_slice_counterexample`, `C25_left_slice_partial`, `C25_left_slice_set_partial`, `C25_length`, `C25_length_set`, `C25_right_slice_counterexample`, `C25_right_slice_partial`, `C25_right_slice_set_partial`, `C26_left_justified`, `C26_length_iff`, `C26_normal_justified`, `C26_right_justified`, `C27_counterexample`, `C27_no_panic_partial`, `C28_construction_ub_iff`, `C28_lookup`, `C29_built_iff_partial`, `C29_built_partial`, `C29_counterexample`, `C29_descending_partial`, `C29_never_constructed_counterexample`, `C30_common_map`, `C30_integer_map`, `C30_length_map`, `C31_contains`, `C31_get`, `C31_iteration`, `C31_len`, `C32_union`, `C32_union_frozen`, `C33_difference`, `C33_intersection`, `C33_symmetric_difference`, `C34_bit_and`, `C34_bit_or`, `C34_bit_xor`, `C34_sub`, `C35_is_disjoint`, `C35_is_subset`, `C35_is_superset`, `C36_counterexample`, `C36_subset_partial`, `C36_subset_receiver_distinct_partial`, `C37_eq_iff`, `C37_frozen_set_eq`, `C37_refl`, `C37_symm`, `C37_trans`, `C38_difference`, `C38_intersection`, `C38_symmetric_difference`, `C38_union_partial`, `C39_fused`, `C40_index`, `C40_index_panics_iff`, `C41_compare_equal`, `C41_content_independent`, `C42_counterexample`, `C42_finds_listed_keys_partial`, `C42_right_never_works_partial`, `C43_affected_iff_partial`, `C44_common_set`, `C44_consuming_histories`, `C44_integer_range_set`, `C44_integer_set`, `C44_left_slice_set`, `C44_length_set`, `C44_right_slice_set`, `C44_scanning_consuming_histories`, `C44_scanning_set`, `C45_any_limit`, `C45_big_sizes_prime`, `C45_is_prime_exact`, `C45_medium_sizes_prime`, `C45_search`, `C46_common_set`, `C46_frozen_set`, `C46_integer_range_set`, `C46_integer_set`, `C46_iter`, `C46_left_slice_set`, `C46_length_set`, `C46_right_slice_set`, `C46_scanning_set`, `C47_common_set`, `C47_frozen_set`, `C47_integer_range_set`, `C47_integer_set`, `C47_left_slice_set`, `C47_length_set`, `C47_right_slice_set`, `C47_scanning_set`, `C48_least_size`, `C49_common_map`, `C49_integer_map`, `C49_left_slice_map`, `C49_length_map`, `C49_range_map`, `C49_right_slice_map`, `C49_scanning_map`, `C50_frozen_map`, `C51_common_map`, `C51_empty_left_slice_map`, `C51_empty_range_map`, `C51_empty_right_slice_map`, `C51_frozen_map`, `C51_integer_map`, `C51_left_slice_map`, `C51_length_map`, `C51_range_map`, `C51_right_slice_map`, `C51_scanning_map`, `C52_eight`, `C52_large`, `C52_medium`, `C52_small`, `C53_is_prime`, `C53_is_prime_same`, `C53_subslices`, `C53_tolerance`, `C54_expressions`, `C54_operators`, `C54_predicates`, `C55_common_map`, `C55_frozen_map`, `C55_frozen_map_eq`, `C55_integer_map`, `C55_left_slice_map`, `C55_length_map`, `C55_range_map`, `C55_range_repeats`, `C55_right_slice_map`, `C55_scanning_map`, `C55_u32_repeats`, `C56_common_map`, `C56_eq`, `C56_eq_hashed`, `C56_eq_scanning`, `C56_frozen_map`, `C56_left_slice_map`, `C56_length_map`, `C56_right_slice_map`, `C56_scanning_map`, `C57_common_map`, `C57_common_set_partial`, `C57_frozen_map`, `C57_integer_map`, `C57_integer_range_set`, `C57_integer_set`, `C57_iter`, `C57_keys`, `C57_left_slice_map`, `C57_left_slice_set`, `C57_length_map`, `C57_length_set`, `C57_one_notation_counterexample`, `C57_range_map`, `C57_right_slice_map`, `C57_right_slice_set`, `C57_scanning_map`, `C57_scanning_set`, `C57_set_into_iter`, `C57_set_iter`, `C57_values`, `C58_common_map`, `C58_common_set`, `C58_frozen_map`, `C58_frozen_set`, `C58_integer_map`, `C58_left_slice_map`, `C58_length_map`, `C58_length_set`, `C58_misbehaving`, `C58_misbehaving_hashed`, `C58_misbehaving_scanning`, `C58_range_map`, `C58_right_slice_map`, `C58_scanning_map`, `C58_scanning_set`, `C59_frozen_sets`, `C60_from_tokens_to_lookups`, `C60_integer_keys`, `C60_key_classes`, `C60_reads_what_is_written`, `C61_construction_order_irrelevant`, `C61_order_irrelevant`, `C61_rules_decide`, `C61_verdict_exact`, `C62_borrowed`, `C62_c_string_length`, `C62_equal_values_equal_lengths`, `C62_length_map`, `C62_length_set`, `C63_common_map`, `C63_common_set`, `C63_frozen_map`, `C63_frozen_map_same`, `C63_frozen_set`, `C63_frozen_set_same`, `C63_integer_map`, `C63_integer_set`, `C63_left_slice_map`, `C63_left_slice_set`, `C63_length_map`, `C63_length_set`, `C63_right_slice_map`, `C63_right_slice_set`, `C64_function_hasher`, `C64_string_map`, `C65_eq`, `C65_eq_log_changes_nothing`, `C65_frozen_map`, `C65_hashed_map`, `C65_log_changes_nothing`, `C65_log_changes_nothing_hashed`, `C65_scanning_map`, `C66_analysis`, `C66_common_map`, `C66_frozen_map`, `C66_integer_map`, `C66_left_slice_map`, `C66_length_map`, `C66_no_overflow`, `C66_right_slice_map`, `C67_building_is_linear`, `C67_log_changes_nothing`, `C67_lookup_hashes_once`, `C67_string_map`, `C68_common_map_partial`, `C68_common_set_partial`, `C68_counterexample`, `C68_frozen_map_partial`, `C68_frozen_map_strings_partial`, `C68_frozen_map_u32_partial`, `C68_frozen_set_partial`, `C68_frozen_set_strings_partial`, `C68_frozen_set_u32_partial`, `C68_integer_map_partial`, `C68_integer_set_partial`, `C68_left_slice_map_partial`, `C68_left_slice_set_partial`, `C68_length_map_partial`, `C68_length_set_partial`, `C68_right_slice_map_partial`, `C68_right_slice_set_partial`, `C69_divisions_exact`, `C69_every_code_counted`, `C69_linear`, `C69_no_prime_search`, `C69_prime_is_near`, `C69_prime_search`, `C69_trial_tables`, `C70_counterexample`, `C70_frozen_set_predicates`, `C70_frozen_sets`, `C70_log_changes_nothing_frozen_sets`, `C70_operations`, `C70_predicate_bound_partial`, `C70_predicates`, `C71_calls`, `C71_frozen_set`, `C71_function_hasher`, `C71_hashed_set`, `C71_log_changes_nothing`, `C71_scanning_set`, `C71_string_hashing`, `C71_string_log_changes_nothing`, `C71_string_operations`, `C71_string_predicates`, `C71_string_set`, `C72_common_map`, `C72_common_set`, `C72_few_collisions`, `C72_frozen_map`, `C72_frozen_map_range`, `C72_frozen_map_small`, `C72_frozen_set`, `C72_frozen_set_range`, `C72_frozen_set_small`, `C72_integer_map`, `C72_integer_set`, `C72_left_slice_map`, `C72_left_slice_set`, `C72_length_map`, `C72_length_set`, `C72_right_slice_map`, `C72_right_slice_set`, `C73_common_map_partial`, `C73_counterexample`, `C73_distinct_partial`, `C73_frozen_map_partial`, `C73_frozen_set_partial`, `C73_frozen_set_transitive_partial`, `C73_integer_map_partial`, `C73_left_slice_map_partial`, `C73_length_map_partial`, `C73_range_map_partial`, `C73_right_slice_map_partial`, `C73_scanning_map_partial`, `C73_set_transitivity_counterexample`, `C73_sets_partial`, `C73_transitivity_counterexample`, `C73_u32_repeats_partial`, `C74_difference`, `C74_expressions`, `C74_intersection`, `C74_operators`, `C74_predicates`, `C74_shows`, `C74_symmetric_difference`, `C74_union`, `C75_common_map`, `C75_frozen_map`, `C75_frozen_map_eq`, `C75_frozen_map_strings`, `C75_integer_map`, `C75_left_slice_map`, `C75_length_map`, `C75_right_slice_map`, `C76_three_or_more_partial`, `C77_frozen_map`, `C77_frozen_map_eq`, `C77_frozen_set`, `C77_range_map`, `C77_range_map_eq`, `C77_range_map_wrong_iff`, `C77_range_set`, `C77_range_set_eq`, `C78_counterexample`, `C78_dictionary_partial`, `C78_impostor_undefined`, `C78_map_partial`, `C78_set_partial`, `C78_string_name_partial`, `C78_u32_name`, `C79_common_set`, `C79_frozen_set`, `C79_frozen_set_operation`, `C79_frozen_set_predicate`, `C79_frozen_set_strings`, `C79_frozen_set_strings_operation`, `C79_frozen_set_strings_predicate`, `C79_integer_set`, `C79_left_slice_set`, `C79_length_set`, `C79_right_slice_set`, `C80_builtin_index`, `C80_builtin_index_set`, `C80_builtin_range`, `C80_builtin_range_set`, `C80_index_counterexample`, `C80_index_partial`, `C80_index_set_counterexample`, `C80_index_set_partial`, `C80_range_partial`, `C81_common_map`, `C81_frozen_map`, `C81_integer_map`, `C81_integer_range_map`, `C81_left_slice_map`, `C81_length_map`, `C81_right_slice_map`, `C81_scanning_map`, `C82_common_map`, `C82_common_set`, `C82_frozen_map`, `C82_frozen_map_bits`, `C82_frozen_set`, `C82_frozen_set_bits`, `C82_integer_map`, `C82_integer_set`, `C82_left_slice_map`, `C82_left_slice_set`, `C82_length_map`, `C82_length_set`, `C82_right_slice_map`, `C82_right_slice_set`, `C83_difference`, `C83_frozen_map`, `C83_frozen_set`, `C83_intersection`, `C83_symmetric_difference`, `C83_union`, `C84_common_map`, `C84_common_set`, `C84_frozen_map`, `C84_frozen_set`, `C84_integer_map`, `C84_integer_set`, `C84_left_slice_map`, `C84_left_slice_set`, `C84_length_map`, `C84_length_set`, `C84_right_slice_map`, `C84_right_slice_set`, `C85_can_be_rebuilt`, `C85_rebuilt_map`, `C85_rebuilt_set`, `C86_common_set`, `C86_integer_range_set`, `C86_integer_set`, `C86_left_slice_set`, `C86_length_set`, `C86_right_slice_set`, `C87_difference`, `C87_frozen_map`, `C87_frozen_set`, `C87_intersection`, `C87_map_iter`, `C87_map_keys`, `C87_map_values`, `C87_one_after_another`, `C87_set_into_iter`, `C87_set_iter`, `C87_symmetric_difference`, `C87_union`, `C88_any_map_partial`, `C88_common_map_partial`, `C88_counterexample`, `C88_frozen_map_partial`, `C88_integer_map_partial`, `C88_left_slice_map_partial`, `C88_length_map_partial`, `C88_range_map_partial`, `C88_right_slice_map_partial`, `C88_scanning_map_partial`, `C89_common_map`, `C89_common_set`, `C89_frozen_map`, `C89_frozen_set`, `C89_integer_map`, `C89_integer_set`, `C89_left_slice_map`, `C89_left_slice_set`, `C89_length_map`, `C89_length_set`, `C89_range_map`, `C89_range_set`, `C89_right_slice_map`, `C89_right_slice_set`, `C89_scanning_map`, `C89_scanning_set`, `C90_alive`, `C90_caught_alive`, `C90_caught_frozen_map`, `C90_caught_hashed_map`, `C90_caught_range_map`, `C90_caught_same`, `C90_caught_scanning_map`, `C90_clone`, `C90_construction`, `C90_frozen_map`, `C90_frozen_set`, `C90_hashed_map`, `C90_hashed_set_consumed`, `C90_iterator`, `C90_log_changes_nothing`, `C90_range_map`, `C90_scanning_map`, `C90_scanning_set_consumed`, `C90_stepping_drops_nothing`, `C90_string_construction`, `C90_string_map`, `C90_while_consumed`, `C91_alone`, `C91_frozen_map`, `C91_frozen_set`, `C91_hashed_map`, `C91_scanning_map`, `C91_string_map`, `C92_after_writing`, `C92_frozen_map`, `C92_hashed_map`, `C92_integer_range_map`, `C92_scanning_map`, `C92_string_map`, `C93_as_if_never_called`, `C93_frozen_map`, `C93_hashed_map`, `C93_integer_range_map`, `C93_integer_range_map_built`, `C93_scanning_map`, `C93_string_map`, `C94_frozen_sets`, `C94_frozen_sets_any`, `C94_honest`, `C94_string_sets`, `C95_frozen_sets`, `C95_map_eq`, `C95_predicates`, `C95_string_sets`, `C96_common_map`, `C96_frozen_counters`, `C96_frozen_map`, `C96_integer_map`, `C96_left_slice_map`, `C96_length_map`, `C96_range_map`, `C96_right_slice_map`, `C96_scanning_map`, `C97_acts_as_written_partial`, `C97_counterexample`, `C97_from_tokens_partial`, `C98_programs`, `C98_programs_without_strings`, `C98_with_panics_caught`, `C99_listing_and_catching`, `C99_listing_programs`, `C99_same_replies`, `C99_then_any_action`, `C99_with_panics_caught`

## 6. Testing the theorems against wrong programs

Realistic bugs are edited into a scratch copy of the model (one at a time), everything that depends
on the edited module is rebuilt with errors turned into `sorry`, and `#print axioms` tells which
property theorems no longer hold. `seeded/LOG.jsonl` has one line per bug: the definition, the
edit, the claim it breaks, the theorems that failed, and the theorems tightened as a result.
