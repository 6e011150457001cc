# Formal model of arg_router in Lean 4: design

The subject is the header-only C++ library in `/repo/include/arg_router` (default configuration:
long prefix `--`, short prefix `-`, trailing window 16). The code is read as text and never run.
The model lives in `lean/Verif/`, the properties in `properties.jsonl`, the claim-to-theorem table
in `MANIFEST.json`, the mutation log in `seeded/LOG.jsonl`.

## Trusted base

* Lean 4.33's kernel. Every property theorem depends at most on `propext`, `Classical.choice`
  and `Quot.sound` (checked by `#print axioms`; no own axioms, no `sorry`, no `native_decide`, no
  `bv_decide`).
* The reading of the C++: each definition of the model cites the file and lines it models, and
  says where it simplifies.
* What is assumed about the outside world
  * `std::vector`, `std::string_view`, `std::optional`, `std::function`, `std::tuple` and the
    Boost.mp11 algorithms behave as documented (vectors are lists, string views are byte lists).
  * `type_hash<T>` is injective on the node types of a tree. Nodes carry the hash as a field.
  * User-supplied code (custom parsers, routers, comparison functions) is a parameter. A custom
    parser is a function from the token text to a value or a thrown error; a router is observed by
    recording its call and arguments in the event log, and returns, except in C105 (`Parse/Throwing`).
  * `boost::try_lexical_convert` is a parameter of the model (a value parser) everywhere but in C85,
    where its conversion of text to integers in the classic locale is modelled in `Util/Number` from
    Boost's documentation and source, which are not in /repo.
  * The conversions between integral types that C++ makes silently (modulo 2^bits, promotion to `int`,
    the usual arithmetic conversions) are modelled in `Parse/Bounds` from the C++ standard, for C107.
  * The Unicode data in `Spec/Ucd14` (C127) are those of Python's `unicodedata` 14.0.0, those in
    `Spec/Ucd15` Perl's Unicode 15.0.0 without what is new in it; that these and the lists in
    `Spec/Characters` are what the Unicode standard says is taken on trust.
* Outcomes (`Basic`): a computation ends with a value (`ok`), with a `parse_exception` (`throw`),
  with another C++ exception (`foreign`, e.g. `std::out_of_range`), with undefined behaviour (`ub`:
  out-of-range reads, `string_view::remove_prefix` past the end, `front()` of an empty vector) or not
  at all (`diverge`, of fuel-bounded loops). None of these is totalised away; the theorems show when
  the last three cannot occur.
* The axioms of every claim theorem, one by one, are in `AXIOMS.md` (made by `tools/axioms.py`).

## What is modelled

| Part | Files | Lean module |
|---|---|---|
| Outcomes, bytes | – | `Basic` |
| Code points, range packing, table lookup | `utility/utf8/code_point.hpp`, `utility/utf8.hpp` | `Utf8/CodePoint`, `Utf8/Range`, `Utf8/Table*` |
| Grapheme iteration, widths, line wrapping | `utility/utf8.hpp`, `grapheme_cluster_break.hpp`, `line_break.hpp` | `Utf8/Grapheme`, `Utf8/Text`, `Utf8/Line` |
| Levenshtein, closest node | `utility/utf8/levenshtein_distance.hpp`, `parsing/parsing.hpp` | `Utf8/Levenshtein`, `Parse/Suggest` |
| Routers that throw | `root.hpp`, `mode.hpp`, `flag.hpp`, `multi_arg_base.hpp` | `Parse/Throwing` |
| Tokens, token adapter | `parsing/token_type.hpp`, `parsing/dynamic_token_adapter.hpp`, `parsing/parsing.hpp` | `Parse/Token`, `Parse/Adapter` |
| Nodes and their policies, and policies of the user's with a validation phase only | `tree_node.hpp`, the node classes, `policy/*.hpp` | `Parse/Node` |
| Pre-parse phases of the policies | `policy/*.hpp` with a `pre_parse_phase` | `Parse/Phases` |
| Pre-parse of nodes, groups and modes | `tree_node.hpp`, `dependency/*.hpp`, `mode.hpp` | `Parse/PreParse` |
| Modes, root, the node classes' `parse` | `mode.hpp`, `root.hpp`, `flag.hpp`, `counting_flag.hpp`, `multi_arg_base.hpp` ... | `Parse/Mode`, `Parse/Classes` |
| Exceptions | `exception.hpp`, `utility/exception_formatter.hpp`, `policy/exception_translator.hpp`, `root.hpp` | `Exc/Format`, `Exc/Root` |
| Help | `help.hpp`, `policy/default_help_formatter.hpp`, `policy/colour_help_formatter.hpp`, `tree_node.hpp` 162-429, `dependency/detail.hpp` | `Help/Data`, `Help/Format`, `Help/Static`, `Help/Program` |
| The validator, its rules and their editing | `policy/validator.hpp`, `utility/tree_recursor.hpp` | `Valid/Walk`, `Valid/Rules`, `Valid/Edit` |
| Alias and dependency checks | `policy/alias.hpp`, `policy/dependent.hpp`, `policy/no_result_value.hpp` | `Valid/Cyclic` |
| The other static assertions on trees | all node and policy classes | `Valid/Asserts` |
| The example programs | `examples/c++17/*/main.cpp`, `examples/resources/simple_ml_gen/*.toml` | `Examples/Programs`, `Examples/Languages` |
| The unit tests (checks of the model, not proofs) | `test/root_tests/*`, `test/root_test.cpp`, `test/mode_test.cpp`, `test/help_test.cpp`, and tests of `policy`, `utility`, `utility/utf8` | `Tests/*` |
| Entry from `main`, several languages | `root.hpp`, `multi_lang/root.hpp` | `Parse/Entry`, `Parse/Languages` |
| The translation generator | `cmake/translation_generator/translation_generator_script.cmake` | `Tools/Translation` |
| The Unicode table generator | `scripts/unicode_table_generators.py` | `Tools/Tables` |
| Utilities | `math.hpp`, `compile_time_string.hpp`, `result.hpp`, `unsafe_any.hpp`, `dynamic_string_view.hpp`, `list.hpp`, `string_to_policy.hpp`, `multi_lang/*` | `Util/*` |

Not modelled: C++ overload/SFINAE machinery itself, allocator configuration, Windows console
handling, terminal size queries (the column count is a parameter), `std::cout`/`std::exit` in the
default help action (recorded like a call of the help node's router), the downloading in the table generator, floating point conversion, static assertions
about C++ types (`value_type`, `push_back`, `std::is_integral`).

## Method

Specifications are in `Verif/Spec/*`: they mention bytes, lists, tokens and trees, not the model's
algorithms. Property theorems are in `Verif/Props/*`, one section per property, each with an
`example` on a concrete non-trivial case meeting its hypotheses. Helper lemmas live in the model
modules or in `Verif/Lemmas/*`.

When a property is false of the code, the theorem file contains the refutation (a concrete witness
evaluated by the kernel, named `..._false`), and the strongest true part named `..._partial`.

`Verif/Tests/*` repeats unit tests of the project on the model, each with the lines it comes from: the
same tree, the same command line, the outcome the test expects. They are examples on literals and prove no
property; no claim rests on them. They check that the model does what the code is known to do. Where a test
builds something the model has no counterpart of (a stub class, a C++ type), the case is left out or
adapted, and the comment says so. A test that a program does not compile is stated as the failure of the
model's assertions for that class; the model does not distinguish the messages.

## Plan per property

Tokens and nodes
* C01, C02 – byte-level case analysis of `get_token_type`, `match`. Algebraic law / iff.
* C03, C04 – refinement of the adapter to `processed ++ unprocessed`.
* C05 – the leaf pre-parse returns the new argument list explicitly; prove it is the old one on
  every non-match and throw, for every policy list and validator.
* C06, C07 – equational characterisation of `pre_parse` for count policies.
* C08, C09, C10 – equational characterisation of the policy, lifted to the node and (C09) to the
  mode loop, and for arguments of every sort to the reading of C76 (`C09_any`). C10 is expected to be false for a finite maximum and a leading marker
  (`min_max_count.hpp:113` wraps `num_tokens - 1`): refute and prove the rest.
* C11 – by induction over the priority-ordered policy list.
* C12, C13 – characterisation of the policies against the parent target. C13 is expected to be
  false for chains of aliases: refute and prove for direct aliases.
* C14, C16 – one_of/alias_group as first-match over children with selection state. For programs that
  compile, C14 from the rules of the validator (C102) and the arguments of the router (C20).
* C15, C33 – state-passing model of the mutable `last_typeid_`. C15 is false (witness), C33 is its
  true part (trees without one_of). For all trees: what a parse does from any past, compared with
  what it does on a fresh tree (simulation of the two runs, state by state).
* C17 – stable sort by priority is permutation invariant when priorities are distinct.
* C18 – measure (total name bytes, unset matched bits) decreases; fuel is never exhausted.
* C19, C20-C26, C28, C29, C32 – invariants of the mode loop and of the result phase.
* C27 – refinement of a whole mode to a specification on groups; order independence as corollary.
* C30, C31 – minimality of the fold; dynamic programming table = recursive edit distance = minimal
  length of an edit script.

UTF-8
* C34-C36 – arithmetic over encodings; C34/C35 are false for lead bytes DF and EF
  (`code_point.hpp` compares with `<`): exact characterisation of the affected scalars.
* C37 – bit-level round trip. C38 – binary search invariant; tables checked by `decide +kernel`
  over the whole table and lifted.
* C39, C40 – corollaries. C41-C44 – iterator invariants over well-formed text; C43, C44 are false
  in the GB4/GB5 and long-run cases (witnesses). C45-C48 – invariants of the wrap loop; C47 is
  false when a character is wider than the column count (witness).

Help, errors, utilities, validation
* C49, C50 – C49 is false for numbers with an interior or trailing zero (witness); exact
  characterisation of what is printed.
* C51, C52 – the column is the maximum over the tree; per-line width bound from C45.
* C53 – C53 is false for a path ending on a disabled node (undefined behaviour): witness, rest proved.
* C54 – filter/recursion characterisation. C55, C56, C57 – formatter against a substitution spec.
* C58-C66 – direct. C67-C73 – validator rules as Boolean functions on trees against specs; C70 is
  false (checks `all_of` negation), witness.

* C74, C75 – the cycle check of aliases and dependencies against reachability in the graph of names.
* C76 – refinement: a mode reads a command line exactly as a small grammar of the command line says
  (`Spec/Reading`), including when it fails and with which error. C77-C79 – corollaries and
  invariants; each is false in a corner (witnesses).
* C80, C81 – the static assertions as a Boolean function on trees (`compiles`), shown to imply the
  hypotheses of the safety theorem C57. C82 – help labels against a grammar of labels.
* C83, C84 – the output functions of the help nodes are installed in the tree (`Help/Program`), so
  that a parse that meets a help node is followed through to the text and the exit; C83 is false when
  a node of the tree is switched off (witness).
* C85 – the digit loop of the conversion (which goes backwards and watches for overflow) against an
  inductive definition of decimal numbers; false for 8-bit types and for negative numbers given to
  unsigned ones (witnesses). C86 – direct, and with C14 for the error itself.
* C88 – reference semantics of a whole program (`Spec` part of `Props/Whole`): which child of root
  responds and what it makes of the command line; every ordinary program follows it, by induction over
  the tree of modes. Whether a program is ordinary can be computed, so the example programs are
  instances.
* C93 – every place that throws, against the list `Spec/Blame` of what errors can say (a weakest-
  precondition argument over the whole parser, `Lemmas/Blame`).
* C94 – both string classes as lists of characters (`Util/CtString`); the validator's rules are
  shown not to depend on names beyond their equality.
* C95 – the script as functions from file text to printed text (`Tools/Tables`), against a grammar of
  data files and of tables (`Spec/Tables`) and the library's own binary search (`findRange`).
* C96 – the rules of UAX 29 written out for lists of classes (`Spec/Uax29`), compared with the library's
  windows of sixteen classes for all pairs of classes; the places where they differ are named.
* C97 – the rules of UAX 14 written out in their order (`Spec/Uax14`), and greedy wrapping as a relation.
  The library's decision is reduced to two classes and four flags, compared for all of them, and lifted to
  texts by an invariant of the window carried from line to line.
* C98 – `Spec/Page`: the lines of a page are defined by recursion over the tree alone (`helpLines`), the
  text of a line by `LineText`, the column by `IsColumn`, and the page by `Page`. Proved by turning the
  model's rows into these lines (`runtimeRows_lines`, `static_lines`), and from C51, C82, C45, C46 and
  C97; `C98_unique` shows that no other text is such a page.
* C99 – `Spec/Conditions` says of each condition what its documentation asks, by positions and
  quantifiers; each clause is proved equivalent to the computation in `Valid/Rules`, or the exact
  weaker meaning is given and a tree that shows the difference.
* C100 – `Parse/Custom` models the loops of a node for arbitrary policies: a priority, a pre-parse
  phase and a validation phase, each any function on any state. `Spec/Custom` says who has which turn
  and what the answers amount to. Induction over the turns; the sort is Boost's quicksort, shown to be
  the stable one. `C100_library` shows that the model of the library's own policies is an instance.
* C101 – `Spec/Reference` restates what the documentation of the node classes and the policies asks of
  a tree, by class and by policy, without the functions of the model. The theorem is an equivalence with
  `compiles`, by cases over the classes and policies; the cycle check is C73's, in both directions.
* C102 – `Spec/Default` writes out, by class and by policy, what `default_validator` asks for, without the
  list of rules. An equivalence with `validate defaultRules`, from the meaning of each condition (C99),
  and with `compiles` (C101).
* C103 – the creation functions put policies in front of the user's; C07 and C22 say what these do.
* C104 – `Help/Static` models the overloads that work on types. Their rows are the lines of `Spec/Page` with
  nothing hidden (`static_rows`); the line formatters agree with those of the run time wherever `setw` and a
  string of spaces do.
* C105 – `Parse/Throwing` is the routing code with routers that end in any way. Two programs are compared:
  the one whose routers return, and the one whose routers do not; by induction they agree up to the call.
* C11, C20, C26, C77, C105 of programs that compile – `Props/CompiledCalls`: the class asserts and the
  default rules (C102) put routers and modes where the claims about whole programs want them, by induction
  along the path to a node.
* Refutations – Props/Findings.lean repeats those made with a hand-written tree for programs that
  compile, by the outcome of `root.parse` (`Cnn_compiled_false`).
* C106 – `Spec/Outcome` says as relations what a parser makes of the values typed (`Gives`), how the
  values of a mode's children come together (`Collects`, `Fills`, `Checked`) and what a mode does with
  them (`ModeDoes`). `Lemmas/Outcome` gives each relation a function and proves them equal; `Props/Outcome`
  proves that `parseMode` and the parse of a single argument do what the relations say, and with C92
  (`Spec/Does`) that whole programs do.
* C107 – `Parse/Bounds` models the conversions of C++ between integral types and the comparisons of the two
  min/max policies. Which types hold the numbers of which is decided by their sizes and signs; the common
  type of two standard types is gone through by cases; with C25 for whole programs.
* C108 – `Valid/HelpTexts` has the assertions of the `program_*` policies and of the formatter; they are put
  against the rules of the reference, and the heading of a page is cut at its first blank (with C39).
* C109 – `Spec/Redeclared` relates two trees node by node. Every function of the parse is shown to take
  related arguments to related results and states (`RelM`, in `Lemmas/Redeclared`), by induction over the trees,
  the arguments and the phases. The assertions and rules are compared in the same way; that no policy is given
  twice follows from them (C74).
* C110 – from the reading of C88/C92: the reading of a mode is carried over to the mode with the new argument,
  rule by rule (the argument never claims a token), and so is the parsing stage of C106, with one value put
  in; then the path to the mode and the other children of the root.
* C111 – as C110: the new child of the root answers no such command line, the others answer as before, so the
  run is the same by the uniqueness of C106. C112 – what is switched off claims nothing (C11), so the proofs of
  C110 and C111 apply to every command line.
* C113 – as C110 (both are cases of one lemma about trees with one mode changed): the arguments claim the same
  tokens in either order, since no token is for both; the values and errors of the children commute up to the swap.
* C114 – from the reading of C76/C88: a whole argument either stops the reading, with an error that does not depend
  on an independent one before it, or is taken; the states after `p q` and `q p` read the rest alike, and values for
  different children commute. Permutations by swaps. C115 – the same with one argument: the label is only in one error.
* C116 – by induction on the accepted reading: with and without the argument the state differs only in the child that is
  used and what has been seen, which only the argument itself asks about. The values: `collectOf_agree` for the other children.
* C117 – the simulation of C109 for the reading, which needs only the policies that take part in it; then a relation
  "goes the same way, or is stopped by a check" that is kept by every step of the values.
* C118 – the accepted reading is taken apart at the alias; the rest is read alike after the arguments it stands for, as it
  does not use them (induction on the reading); the uses, and so the calls, are the same.
* C119 – the reading up to the argument is the same; after it the two states differ only in the values used (reading_same);
  then the values are collected, filled in and checked side by side, where only the child of the argument differs.
* C120 – everything a reading depends on (arguments, names of aliases and dependencies, one_of, suggestions) is in the
  children of the mode; induction on the reading, then the values and the call.
* C121 – whether an argument claims the command line depends on its first token; an argument that leaves something leaves
  what is typed after it too; induction on the reading.
* C122 – node by node, the tokens that arise from the command line are labels of an argument before iff they are after;
  then the readings correspond step by step (a relation between uses, errors and choices), and so do the values.
* C123 – the typed arguments are read one after the other (C114, and the end of the command line for a positional one), so the
  reading is known; then the values of C106 are computed child by child. Both directions by uniqueness of what is given.
* C124 – both readings are known by C123; what comes after the reading depends only on the policies about values, so the
  values or the errors correspond child by child.
* C125 – every part of a proper command line from its start is proper; the children declared before the first missing one
  have the same values as on the whole command line, so the error is about it (C106).
* C126 – by induction over the arguments of the mode, the words for their values are a proper command line and each
  argument has the value that was written (for a counting flag by induction over the count); then C123 and C85.
* C127 – the tables of the library and the properties of Unicode are step functions of the code point; two such
  functions are equal if they are at all steps, which the kernel evaluates. The Unicode data are independent of the
  library's tables (`tools/gen_ucd.py`).
* C92 – from `compiles` (all static assertions and the default rules) to `OrdinaryProgram`, the
  hypothesis of C88: the rules are collected node by node (each policy once, counts, names, places),
  what they do not ensure is `Spec.Conventional`; a witness shows that this is needed.
* C89 – the loop over `argv` against the memory `main` is given. C90 – the generator script, with the
  rules of CMake lists, against an inductive definition of what a file says (false in corner cases of
  CMake lists, witnesses). C91 – with C59 (the language chosen), C90 (the words of the example), C88
  (what the example does in each language) and C56 (its messages).
* C87 – the trees of the example programs, with C80 (false in its corner cases, witnesses).

No property is considered not expressible; compile-time checks are modelled as functions on trees.

<!-- results: written by tools/design.py -->

## Results

Status per property; "partial" means that the statement in `properties.jsonl` is not proved in full,
in nearly all cases because it is false of the code in a corner that a `_false` theorem exhibits.

* C01 Token classification loses nothing – proved. `C01_classify_print`, `C01_classify_print_node`, `C01_injective`, `C01_print_classify`.
* C02 A raw argument selects a named node exactly when it is spelled prefix+name – proved. `C02_selects_iff_spelled`, `C02_label`, `C02_bare`, `C02_long_short`.
* C03 The token adapter reads and writes like one list – partial. `C03_size`, `C03_read`, `C03_iterate`, `C03_find`, `C03_set`, `C03_insert`, `C03_insert_range`, `C03_insert_end_partial`, `C03_insert_range_end_partial`, `C03_insert_end_iterator_false`, `C03_erase`, `C03_erase_end`. insert at the end position returns an iterator that is one off (refuted); every other operation proved.
* C04 Transferring tokens only moves the boundary – proved. `C04_transfer`, `C04_transfer_end`, `C04_transfer_any`.
* C05 A node that does not match leaves the command line alone – proved. `C05_no_match_leaves_args`, `C05_same_function`.
* C06 A matching node accounts for every token – proved. `C06_match_accounts`.
* C07 Value counts respect the declared minimum and maximum – proved. `C07_named`, `C07_named_no_label`, `C07_unnamed`.
* C08 Value separator splits at the first separator only – partial. `C08_compiled_false`, `C08_split`, `C08_empty_value`, `C08_no_separator`, `C08_exact`, `C08_non_ascii_false`. Proved for one-byte separators; false for separators outside ASCII (refuted: any byte of the separator splits, and std::out_of_range escapes). C08_exact says what happens with a separator of any number of bytes.
* C09 Collapsed short flags mean the same as separate ones – proved. `C09_any`, `C09_collapsed`, `C09_repeated`, `C09_program`, `C09_repeated_program`. C09_any is for every program of C92 and arguments of every sort (repeated, dependent, aliases, alternatives of a one_of; the last may have values) and includes the errors; the other theorems need no such program but are for flags.
* C10 A token end marker ends the list it belongs to – partial. `C10_named`, `C10_unnamed_partial`, `C10_unnamed_exact`, `C10_false`, `C10_compiled_false`. Named nodes: proved outright. Nodes without a name: false when the marker comes first, tokens follow it and the maximum is finite (refuted), proved otherwise; C10_unnamed_exact says what is taken in that case.
* C11 A runtime-disabled node can never be selected – partial. `C11_compiled_partial`, `C11_leaf_partial`, `C11_mode_partial`, `C11_group_partial`, `C11_skipped`, `C11_alias_false`, `C11_compiled_false`, `C11_program_partial`, `C11_alias_exact`. Direct selection proved impossible for leaves, groups and named modes. False through an alias, and a disabled node with a value separator can still raise an error (refuted). C11_program_partial states it of whole programs: the router gets the fallback of a child whose arguments are all switched off. C11_alias_exact: an alias hands its values to every argument it names, disabled or not.
* C12 Dependent arguments are only accepted after their dependencies – partial. `C12_only_after`, `C12_outcome`, `C12_alias_exact`, `C12_alias_false`. Proved for a dependent node that is not also an alias. False for an alias that is itself dependent: its unmet dependency is reported as an unknown argument, with the alias itself as the suggestion (C12_alias_false). C12_alias_exact says what such an alias does in every case.
* C13 An alias stands for its targets – partial. `C13_targets`, `C13_same_as_direct`, `C13_nested_false`, `C13_compiled_false`, `C13_nested_exact`. Proved for aliases of non-alias arguments; an alias of an alias has no effect (refuted; C13_nested_exact: its use changes nothing in any mode, whatever else is used).
* C14 Only one alternative of a one_of can be used – partial. `C14_never_nested`, `C14_accepted`, `C14_alias_compiled_false`, `C14_step`, `C14_rejected`, `C14_one_alternative_partial`, `C14_alias_false`, `C14_nested_false`. Proved for modes of plain arguments and flat groups without aliases; refuted for aliases of alternatives (other error) and for groups nested in a one_of (always rejected). In programs that compile with the default validator there are no nested groups (C14_never_nested), and no command line with two uses of a one_of is accepted, whichever aliases are used (C14_accepted); only the error differs (C14_alias_compiled_false).
* C15 Parsing does not remember earlier parses – partial. `C15_compiled_false`, `C15_false`, `C15_after_failure_false`, `C15_partial`, `C15_same_choice`, `C15_other_choice`, `C15_repeat`. False in the presence of a one_of (refuted, also after a failed parse); proved for all trees without one. For all trees: a parse does what it does on a fresh tree unless it switches a one_of away from the remembered alternative (C15_same_choice), and then it is refused for that one_of (C15_other_choice); the same arguments always give the same outcome (C15_repeat).
* C16 An alias_group takes the first child that matches – proved. `C16_first_child`, `C16_no_child`.
* C17 Order of policies in a declaration is irrelevant to matching – proved. `C17_policy_order`.
* C18 Pre-parsing a mode always terminates – proved. `C18_compiled`, `C18_loop_bound`, `C18_mode_ends`, `C18_parse_ends`.
* C19 A mode succeeds only if it consumed the whole command line – proved. `C19_all_consumed`.
* C20 Router arguments follow declaration order, one per value-bearing child – proved. `C20_compiled`, `C20_router_arguments`, `C20_order_irrelevant`, `C20_any_order`, `C20_program`.
* C21 A missing required argument fails the parse – proved. `C21_program`, `C21_required`, `C21_error`.
* C22 A missing optional argument gets its default – proved. `C22_program`, `C22_fallback`, `C22_flag`.
* C23 Giving a single-use argument twice is an error – proved. `C23_label_error`, `C23_never_twice`, `C23_error`.
* C24 A counting flag's value is its number of occurrences – partial. `C24_program`, `C24_count_modulo`, `C24_count_partial`, `C24_false`. The count routed is the number of uses modulo 2^width of the value type (C24_count_modulo); it equals the number of uses below that bound. A counter of a narrow type wraps, so the unconditional claim is false.
* C25 Bounded values reach the router only within their bounds – partial. `C25_compiled_partial`, `C25_group_false`, `C25_within_bounds_partial`, `C25_refused`, `C25_objected`. For an argument every routed value is within its bounds and approved (C25_within_bounds_partial; C25_compiled_partial for every program that compiles, arguments of the program itself and groups with a merging alternative included). False in one case: an alias_group that has the bounds itself and no alternative whose uses are merged (such as a counting_flag) compares them with its fallback only, so --level 9 is routed by a group with a maximum of 3 (C25_group_false).
* C26 A parse calls at most one router and none if it fails – proved. `C26_at_most_one`, `C26_exactly_one`, `C26_compiled`, `C26_outcome`.
* C27 Named arguments can be given in any order – proved. `C27_groups`, `C27_any_order`, `C27_order`, `C27_groups_program`, `C27_program`.
* C28 Root children are tried in order and are mutually exclusive – proved. `C28_first_match`, `C28_leftovers`, `C28_success`.
* C29 Unmatched command lines are reported as unknown or empty – partial. `C29_compiled_false`, `C29_no_arguments`, `C29_unknown_partial`, `C29_empty_first`, `C29_false`, `C29_in_mode`. False when the first argument is the empty string: the error is no_arguments_passed although there are arguments (C29_false, and C29_empty_first for every program). C29_unknown_partial covers every first argument that is not empty and for which the suggestion search does not fail (C41).
* C30 The suggested argument is a closest enabled one – proved. `C30_closest`, `C30_first`, `C30_none`.
* C31 The similarity score is the true edit distance – proved. `C31_edit_distance`, `C31_unique`.
* C32 Nested modes are selected by their path – proved. `C32_path`, `C32_routed`.
* C33 Trees without one_of are history independent – proved. `C33_no_trace`, `C33_history`.
* C34 Decoding inverts UTF-8 encoding – partial. `C34_misread`, `C34_false`, `C34_decode_encode_partial`, `C34_size_exact`. False for scalars with lead byte DF/EF (refuted); proved for all others, with the exact extent of the defect. C34_misread says what those decode to.
* C35 Iterating code points walks well-formed text exactly – partial. `C35_read_as`, `C35_exact`, `C35_false`, `C35_iterate_partial`, `C35_terminates`, `C35_pieces`. False for text containing lead byte DF/EF (refuted, undefined behaviour at the end of the string); proved for all other well-formed text. Exactly which well-formed texts are read past their end: C35_exact. What every well-formed text that is not left is read as: C35_read_as.
* C36 Code point count – proved. `C36_count`.
* C37 Range entries survive packing – proved. `C37_pack_roundtrip`, `C37_pack_truncates`.
* C38 Table lookup is exact – proved. `C38_lookup`, `C38_lookup_none`, `C38_shipped_tables`, `C38_shipped_tables_packable`.
* C39 Whitespace detection – partial. `C39_exact`, `C39_is_whitespace`, `C39_truncated`, `C39_false`, `C39_contains_whitespace_partial`. False after a lead byte DF/EF, in both directions: whitespace is missed and other text is taken for whitespace (refuted); proved for all other well-formed text. The answer for every well-formed text, misread or not: C39_exact.
* C40 Terminal width is additive and bounded – partial. `C40_exact`, `C40_defined`, `C40_width_sum_partial`, `C40_width_additive_partial`, `C40_false`, `C40_width_bound_partial`, `C40_width_ascii`. False after a lead byte DF/EF (refuted); sum, additivity, bound and ASCII case proved for all other well-formed text. Exactly which well-formed texts have a width: C40_defined. The width of every well-formed text, misread or not: C40_exact.
* C41 Grapheme clusters partition the text – partial. `C41_whole`, `C41_partition_partial`, `C41_false`, `C41_any_bytes`, `C41_exact`. False for text containing lead byte DF/EF (refuted); proved for all other well-formed text, plus a weaker statement for arbitrary bytes. Exactly which well-formed texts are read past their end: C41_exact. For any bytes, clusters are groups of whole characters as they are read: C41_whole.
* C42 ASCII text has one cluster per character – proved. `C42_ascii`.
* C43 Clusters never start with a combining mark, and controls stand alone – partial. `C43_false`, `C43_no_break_before_mark_partial`, `C43_exact`. Controls do not stand alone (GB4/GB5 are missing in the code; refuted); no break before marks/joiners proved. Exactly where text is cut beside a control character: C43_exact.
* C44 Regional indicators pair up – partial. `C44_pairs_partial`, `C44_exact`, `C44_false`. False from 18 regional indicators on (window of 16; refuted); proved for runs of up to 17. C44_exact says what becomes of a run of any length: pairs up to the sixteenth, then singles.
* C45 Wrapped lines fit – partial. `C45_lines_fit_partial`, `C45_false`. Proved for all well-formed text without lead bytes DF/EF and every column count. C45_false: a line of fullwidth characters (lead bytes EF, DF) is too long.
* C46 Wrapping loses only whitespace at line starts – partial. `C46_only_whitespace_lost_partial`, `C46_zero_columns_false`, `C46_cut_false`, `C46_same_non_whitespace_partial`. Proved for all well-formed text without lead bytes DF/EF and non-zero column counts; a count of zero drops the text (refuted). C46_cut_false: a word of characters with lead byte DF is cut within a character.
* C47 Wrapping terminates – partial. `C47_false`, `C47_terminates_partial`, `C47_exact_partial`, `C47_terminates_two_columns_partial`. False when a character is wider than the column count (C47_false, for every number of steps). C47_exact_partial says exactly when the iteration ends: for one or more columns, if and only if the first character fits and all others that do not are whitespace. Partial because it is about text without lead bytes DF/EF.
* C48 Wrapping breaks at an allowed opportunity when there is one – partial. `C48_break_at_opportunity_partial`, `C48_words`, `C48_cluster_split_false`. Proved against the implemented rules for text without lead bytes DF/EF, and for words outright; grapheme clusters can be split (refuted).
* C49 Integers are rendered in decimal – partial. `C49_exact`, `C49_decimal_partial`, `C49_false`. False: every zero that is followed by another digit is dropped (105 is shown as 15). C49_exact states what is produced, C49_decimal_partial characterises when it is the decimal notation.
* C50 Digit count – proved. `C50_digit_count`.
* C51 Help labels fit in front of the description column – partial. `C51_colour_compiled_false`, `C51_column_right_of_labels`, `C51_aligned`, `C51_colour_false`, `C51_colour_partial`. Proved for the default formatter (C51_column_right_of_labels, C51_aligned). False for the colour formatter at depth zero (C51_colour_false); C51_colour_partial covers the other depths.
* C52 Help output respects the terminal width – partial. `C52_compiled_false`, `C52_fits_partial`, `C52_produced_partial`, `C52_false`. Proved for texts the decoder handles (C34) and terminals wide enough for wrapping. An offset of one column can make the output endless (C52_false).
* C53 Help target lookup is safe and follows the path – partial. `C53_exact`, `C53_target_partial`, `C53_false`. False for disabled targets: undefined behaviour or the wrong name in the error (C53_false). C53_exact states all outcomes; C53_target_partial is the property without disabled nodes.
* C54 Help hides disabled nodes – proved. `C54_rows`.
* C55 Error messages substitute tokens in order – proved. `C55_format`, `C55_compiles`, `C55_rejected`, `C55_stray_brace`. Braces appear in a translated message only where its format string has placeholders; see C55_stray_brace for a stray one.
* C56 Every error code has a translation and custom ones win – proved. `C56_custom`, `C56_fallback`, `C56_untranslated`, `C56_default`, `C56_codes`.
* C57 Parse failures surface as translated parse errors with their tokens – partial. `C57_translated`, `C57_default`, `C57_false`, `C57_safe_partial`, `C57_lone_prefix`, `C57_lone_program`. False for a last argument that is just the short prefix and for text the decoder mishandles (C57_false). C57_safe_partial covers well-formed trees and all other text; a program in which no flag has a short name may be given the short prefix too. C57_lone_prefix and C57_lone_program: a node with a short name that expands short flags always throws a std::length_error when only the short prefix is left.
* C58 Locale names are normalised – proved. `C58_exact`, `C58_clean`, `C58_idempotent`.
* C59 Language selection falls back to the first language – proved. `C59_selected`.
* C60 Lists splice in place – proved. `C60_expand`, `C60_splice`, `C60_partition`. Proved for every list of nodes and policies. A list inside a list does not compile (list.hpp static assertion), so one level is all there is.
* C61 Bare strings map to the documented policies – proved. `C61_labelled`, `C61_text`, `C61_forwarding`.
* C62 A dynamic string view always shows the right text – proved. `C62_text`, `C62_programs`.
* C63 The type-erased result container owns its value exactly once – partial. `C63_once`, `C63_no_leak`, `C63_value_partial`, `C63_throws`, `C63_exact`, `C63_false`. False in two cases: copying an empty container throws std::bad_function_call, and a small value that knows its own address is moved bytewise (C63_false). Ownership (C63_once, C63_no_leak) holds for every program; the value read back (C63_value_partial) for programs without these two cases. For every program: which operations throw, and that reading never gives a wrong value (C63_exact).
* C64 A result is a value or an error – proved. `C64_either`, `C64_equal`, `C64_access`.
* C65 A parse target runs once – proved. `C65_once`, `C65_first`, `C65_only_invoked`.
* C66 Boolean words – proved. `C66_words`.
* C67 Unique names make label lookup unambiguous – partial. `C67_compiled_false`, `C67_same_types_partial`, `C67_unambiguous_partial`, `C67_false`. Proved for trees whose siblings have distinct types, within one mode and without none-names that start with a prefix. Refuted otherwise: the same node twice in a mode, two sibling modes of one name and the none-name '--ab' beside the long name 'ab' are accepted (C67_false).
* C68 Positional arguments are last – partial. `C68_compiled_false`, `C68_shadowed`, `C68_positional`, `C68_anonymous_partial`, `C68_false`. The order of positional arguments, that root has at most one anonymous mode and that only modes follow it are proved. That it comes last is refuted: an anonymous mode before a named one is accepted, and the named one can then never be selected (C68_false). C68_shadowed says it of every compiled program: a parse that succeeds calls nothing of a child after an anonymous mode.
* C69 Variable-length lists do not starve later ones – proved. `C69_last`, `C69_single`.
* C70 Forbidden child policies are rejected – partial. `C70_compiled_false`, `C70_all_children_partial`, `C70_must_have`, `C70_false`. False: 'children must not have the policy' only rejects when all children have it (C70_false); that case, and 'children must have the policy', are proved.
* C71 Rules are looked up by first match and editable – proved. `C71_first_match`, `C71_validate`, `C71_insert`, `C71_remove`, `C71_update`, `C71_find`, `C71_by_key`, `C71_extend`, `C71_unaffected`, `C71_override`.
* C72 Tree walks visit every node once, parents first – proved. `C72_nodes`, `C72_types`, `C72_collect`.
* C73 Cyclic aliases and dependencies are rejected – proved. `C73_targets`, `C73_sound`, `C73_detected`, `C73_complete`, `C73_stable`.
* C74 Accepted trees are well-shaped – proved. `C74_unique_policies`, `C74_exclusive`, `C74_places`, `C74_forbidden`.
* C75 An alias takes as many values as the arguments it stands for – proved. `C75_counts`.
* C76 Every command line is read the documented way – proved. `C76_total`, `C76_program`, `C76_path`, `C76_unique`.
* C77 A mode switched off at runtime does not handle the command line – partial. `C77_compiled_partial`, `C77_anonymous_false`, `C77_anonymous_exact`, `C77_named_partial`, `C77_program_partial`. False for a mode without a name: it handles the command line although it is switched off (C77_anonymous_false). C77_named_partial covers every mode with a name; C77_program_partial says the same of whole programs. C77_anonymous_exact: a mode without a name is never passed over, switched off or not.
* C78 A given value reaches the router of the mode it was given to – partial. `C78_nested_false`, `C78_partial`, `C78_nested_exact`. False when a nested mode that contains an argument of the same type is declared before the argument (C78_nested_false). C78_nested_exact: the use is then lost, whatever else is given. C78_partial is about all other uses.
* C79 Values are taken from the command line as typed, once, in order – partial. `C79_compiled_false`, `C79_program_partial`, `C79_partial`, `C79_collapsed_false`. False for collapsed short flags: -fx hands x to a positional argument (C79_collapsed_false). C79_program_partial proves the claim for all ordinary programs (C88; by C92 those that compile and keep to the conventions), with modes, aliases and collapsed short flags, when each flag of a collapsed group counts as an argument of its own. C79_partial is the literal claim, for modes without short-form expansion and without aliases.
* C80 A program that compiles does not crash – partial. `C80_help_partial`, `C80_compiled_partial`, `C80_false`. False: C80_false has four programs that compile and crash (a short prefix alone at the end of the command line, a separator of two bytes, a separator combined with short-form expansion, a character the decoder mishandles). C80_compiled_partial is the statement without these cases, for authors whose own parsers neither crash nor hang.
* C81 Every argument has a name to be reported by – proved. `C81_called`, `C81_compiled`, `C81_mode`, `C81_named`.
* C82 Help labels say what can be typed – partial. `C82_compiled_false`, `C82_exact`, `C82_label_partial`, `C82_compiled`, `C82_false`, `C82_members`, `C82_description`. False for numbers with a zero before the last digit, which are shown without it (C82_false): 105 as 15. C82_exact says exactly what is shown; C82_label_partial is the statement for all other numbers. C82_members and C82_description hold without restriction.
* C83 Asking for help shows the help asked for, and nothing else happens – partial. `C83_exact`, `C83_partial`, `C83_false`. False: asking for the help of an argument that is switched off at run time is undefined behaviour (C83_false; tokens.front() of an empty vector). C83_exact is the full behaviour in terms of the help output; C83_partial covers programs that compile, with either of the library's formatters, and paths that do not lead to something switched off.
* C84 help() and --help show the same – proved. `C84_same`, `C84_none`. The terminal width is assumed to be the same for both calls.
* C85 A number argument accepts exactly the numbers of its type – partial. `C85_signed_partial`, `C85_unsigned_partial`, `C85_false`, `C85_wraps`, `C85_byte_partial`, `C85_behaves`, `C85_values`. False (C85_false): a negative number given for an unsigned type is accepted and wraps round, and for the 8-bit types std::int8_t and std::uint8_t the character itself is taken, not the number. Proved for signed types of more than 8 bits and, for texts without a minus sign, for unsigned ones; C85_wraps and C85_byte_partial say exactly what is done in the other cases. Boost's conversion is modelled from its documentation and source, in the classic locale; floating point types are not modelled.
* C86 Errors about a group name all its alternatives – proved. `C86_one_of`, `C86_alias_group`, `C86_alternative`, `C86_rejected`, `C86_missing`.
* C87 The example programs do not crash – partial. `C87_compiles`, `C87_safe_partial`, `C87_false`. False (C87_false): `-` alone makes four of the programs throw a std::length_error, text the decoder mishandles is undefined behaviour in simple, and so is `runtime_node_enable --help advanced` without a licence. C87_safe_partial is the statement without these; all five programs pass the model of the compile-time checks (C87_compiles).
* C88 A program does with every command line what its declaration says – proved. `C88_even`, `C88_unique`, `C88_total`, `C88_program`, `C88_examples`, `C88_copy`. Programs with every child of root an argument with a name (not an alias, not dependent) or a mode whose nested modes have names; one_of alternatives have names and are not inside a further group. C88_examples: all five example programs are such programs.
* C89 A program started from main sees the arguments after its name – partial. `C89_name_skipped_partial`, `C89_reads_argc`, `C89_no_name_false`. False for a program started without a name (argc = 0, which execve allows on some systems): the environment is read as the command line and then the null pointer behind it (C89_no_name_false). C89_name_skipped_partial is the statement for every other start.
* C90 The generated translations are those in the file – partial. `C90_header_partial`, `C90_malformed`, `C90_false`. False (C90_false): a comment or empty line after the last error leaves a comma that does not compile, a bracket without a partner or a backslash at the end of a line makes CMake merge lines and lose entries. C90_header_partial is the statement without these. CMake file(STRINGS), foreach over lists and string(FIND/SUBSTRING) are modelled from their documentation.
* C91 A program in several languages is the program in the user's language – proved. `C91_selected`, `C91_locale`, `C91_files`, `C91_messages`, `C91_programs`, `C91_copy`. C91_selected is general; C91_files, C91_programs, C91_messages and C91_copy are about the example. The help() of a multi-language root that returns the text does not compile when it is used (the lambda in it returns nothing), so only parse is modelled. C91_locale shows that fr_FR.UTF-8 is not taken as fr.
* C92 Every program that compiles reads command lines as documented – partial. `C92_ordinary_partial`, `C92_program_partial`, `C92_false`, `C92_does_partial`, `C92_only_partial`. False in full (C92_false): the library lets pass a few declarations that do not work as documented. The conventions that exclude them are spelled out in Spec.Conventional: one-byte separators, only on arguments with a prefixed name that are not switched off; short-form expansion only on flags; no upper limit on a positional argument with an end marker; no alias that is also dependent; no counts on modes; no nested mode switched off; no positional alternatives in a one_of. The command line is assumed to be readable text after the short prefix and to fit into memory. C92_does_partial and C92_only_partial go on from the reading to the calls and errors (C106).
* C93 An error is about what was typed, or about an argument it can be about – proved. `C93_reports`, `C93_message`, `C93_parsers`, `C93_formatters`, `C93_program`. Proved for every tree whose value parsers, custom parsers and help actions report only what they are given (Spec.Reports); C93_parsers and C93_formatters show that those of the library do, C93_program that trees with library formatters satisfy the assumption. C93_message carries it to the text the caller sees with the default translations. The named values of a failed parse may be parts of an argument (after a separator, or letters of a cluster of short flags).
* C94 A compile-time string is the text it was written with, and equal texts are the same name – partial. `C94_cpp17`, `C94_cpp17_char`, `C94_cpp17_concatenation`, `C94_cpp20`, `C94_concatenation`, `C94_part`, `C94_repeated`, `C94_types_partial`, `C94_types_false`, `C94_null_false`, `C94_program_partial`, `C94_program_false`. False in full: in C++20 policy::short_name<'h'> and short_name_t{"h"_S} are different types with the same text, so the validator does not notice two flags with the short name h in one mode (C94_program_false, C94_types_false); null characters are left out in C++17 and end the text in C++20 (C94_null_false). C94_types_partial and C94_program_partial are the statement for names written as literals.
* C95 The generated Unicode tables are the data files – proved. `C95_property`, `C95_line`, `C95_line_unknown`, `C95_grapheme`, `C95_grapheme_unknown`, `C95_version`. The data file format is Spec/Tables (IsFile): lines of blanks, comments and `range ; name # category` entries. What Python's int(…, 16) and strip accept beyond that is modelled only for the characters the format uses.
* C96 Iterating over text gives the grapheme clusters of Unicode – partial. `C96_exact`, `C96_boundaries_partial`, `C96_exceptional`, `C96_clusters_partial`, `C96_count`, `C96_false`. Against the rules of Spec/Uax29, for text without lead bytes DF/EF. The places where the library does not follow the rules are characterised exactly (C96_exceptional). The number of clusters of a text: C96_count. For every well-formed text, also the misread ones, exactly where it is cut: C96_exact.
* C97 Text is wrapped greedily at the line breaks of Unicode – partial. `C97_wrap_partial`, `C97_first_line_partial`, `C97_mark_false`, `C97_quote_false`, `C97_hyphen_false`, `C97_newline_false`, `C97_spaces_false`, `C97_flag_false`. Against the rules of Spec/Uax14, for text without lead bytes DF/EF and without the classes and sequences UsualText lists, for which the library departs from the rules (refuted); the first line is treated for more classes.
* C98 The help page of a program is the documented one – partial. `C98_colour_partial`, `C98_colour_shown_partial`, `C98_colour_root_partial`, `C98_compiled_false`, `C98_page_partial`, `C98_page_decimal_partial`, `C98_shown_partial`, `C98_root_partial`, `C98_false`, `C98_unique`. C98_page_partial gives the whole page of the default formatter by a specification that does not use the model's help data (Spec/Page); C98_colour_partial gives that of the colour formatter; C98_shown_partial and C98_root_partial (C98_colour_shown_partial, C98_colour_root_partial) are the same for programs that compile, from the command line and from root.help(); C98_unique shows that the specification determines the page if descriptions are usual text (C97). Partial because numbers in labels lose zeros (C49, C98_false), because the colour formatter writes a space too much at depth zero (C51_colour_false) and of labels that are 2^31 columns wide.
* C99 A validator's conditions check what they are documented to check – partial. `C99_documented_partial`, `C99_child_partial`, `C99_unique_partial`, `C99_not_rejected`, `C99_compiles`, `C99_rejected_partial`, `C99_false`. Twelve of the fourteen conditions are exactly their documentation (C99_documented_partial); the other two reject less (C99_unique_partial and C99_child_partial say exactly what), and C99_false gives accepted trees they should reject. Nothing that satisfies the documentation is rejected (C99_not_rejected, C99_compiles), for any rule list. Of policies only names are compared by type.
* C100 Policies take part in parsing in the order of their priority – partial. `C100_one_order`, `C100_asked_in_turn`, `C100_fails_in_turn`, `C100_any_order_partial`, `C100_false`, `C100_validation`, `C100_objection`, `C100_validation_false`, `C100_library`, `C100_library_turns`, `C100_library_validation`, `C100_node`. Exactly who is asked, in which order, on what, and what it amounts to (C100_asked_in_turn, C100_fails_in_turn, C100_node) for any policies. The documented independence of the order of declaration holds for different priorities (C100_any_order_partial) and is false for equal ones (C100_false) and for the validation phases, which are called in the order of declaration whatever the priorities (C100_validation_false). That mp_sort is the stable quicksort modelled is read from Boost, which is not in the repository.
* C101 A program compiles exactly if it keeps the rules of the reference – partial. `C101_compiles`, `C101_ruled_out`, `C101_allowed`, `C101_names_partial`, `C101_false`. An equivalence for all trees whose nodes have one alias and one dependency at most (C101_compiles), with the rules of the reference written out in Spec/Reference independently of the model; C101_ruled_out and C101_allowed are its two directions for users, the latter with the documented conditions of the validator. For names, C101_names_partial gives the meaning in terms of Unicode. False as stated: a long name can contain a space after certain characters (C101_false). Assertions about C++ types are not modelled.
* C102 What the default validator accepts – proved. `C102_default`, `C102_compiles`. Equivalences for all trees (C102_default for the rules alone, C102_compiles for all compile-time checks), with what is asked written out by class and by policy in Spec/Default, without the list of rules. Where this is less than the documentation asks for, it is stated as it is; the difference is C99_false.
* C103 Nodes take as many values as their class says, unless their policies say otherwise – proved. `C103_counts`, `C103_given_counts`, `C103_flags`, `C103_not_given`, `C103_forwarded`. Values that the expansion of collapsed short flags adds are C09.
* C104 Help made at compile time is the help shown if nothing is switched off – partial. `C104_page_partial`, `C104_same`, `C104_colour_partial`, `C104_program_partial`, `C104_colour_false`. C104_same is the equality of the two texts for the default formatter; C104_page_partial and C104_program_partial give the whole page, in which nothing is left out, by the specification of C98. The equality is false for the colour formatter, which writes a space before the label of the node whose help is asked for at run time only (C104_colour_false); it holds for the help of the root (C104_colour_partial). Partial also because numbers in labels lose zeros (C49).
* C105 What a router does comes last, and what it throws reaches the caller – proved. `C105_compiled`, `C105_router_outcome`, `C105_seen`.
* C106 What a mode does with the arguments it was given – proved. `C106_total`, `C106_mode`, `C106_argument`. C106_total: the specification has exactly one answer for every mode and all arguments given. C106_mode and C106_argument: that answer is what the code does, for modes and for single arguments with a router. The specification (Spec.Outcome) is a set of relations that do not use the code. Routers return (C105 says what happens if not). C92_does_partial and C92_only_partial carry it to whole command lines.
* C107 A number in a declaration means that number, whatever its type – partial. `C107_compile_time_partial`, `C107_compile_time_false`, `C107_run_time_partial`, `C107_run_time_false`, `C107_some_number`, `C107_no_number`, `C107_default_partial`, `C107_default_false`, `C107_compiled_partial`, `C107_program_false`. False in full, because C++ converts without a word. Bounds given at run time are compared in their own type, so arg<int64_t> with min_max_value(0, 100) routes 4294967346 (C107_program_false); C107_run_time_partial: right for numbers that the type of the bounds holds; C107_run_time_false: for every other number there are bounds that wrongly accept it. Bounds known at compile time are compared in the common type of C++; C107_compile_time_partial: right if one of the two types, or int, holds both; C107_compile_time_false: wrong for all other pairs of types. Defaults: C107_default_partial and C107_default_false, likewise. C107_compiled_partial is about programs that compile. The conversions of C++ (modulo 2^bits, promotion to int, usual arithmetic conversions) are modelled in Parse/Bounds and part of the trusted base; floating point bounds and bounds with a comparator of the user's are not covered (the latter are C25).
* C108 The help page says which program it is about – partial. `C108_compiles`, `C108_first_word_partial`, `C108_program_partial`, `C108_unknown_width`, `C108_false`. What compiles is an equivalence without restriction (C108_compiles), and so is what happens if the width is not known (C108_unknown_width). False for names the decoder mishandles, which can have an unnoticed space in them (C108_false); C108_first_word_partial and C108_program_partial are the statement for all other names.
* C109 The order in which policies are declared does not matter to a program – proved. `C109_program`, `C109_checks`, `C109_compiles`, `C109_compiled`, `C109_types`, `C109_help`. C109_program relates the runs of two whole trees, node by node: the nodes may have other types (σ), what is there for the help only does not count. C109_compiles: the assertions and validator rules hold of both trees or of neither. C109_compiled needs only that the program compiles and that no node has both runtime_enable and runtime_enable_required. C109_help is about programs with their help texts; which formatter and compile-time range a node has is assumed not to depend on the order. C109_checks shows that the order of the checks does count, C109_types that two nodes of one type have to be treated alike. The example turns the policies of every node of basic_cat round.
* C110 A new optional argument leaves old command lines alone – proved. `C110_accepted`, `C110_refused`, `C110_unwanted`, `C110_same_lines`. Spec/Grown says what it means that a program got an optional argument (Upgrade): it may be left out, its default passes its own checks, no node has its type, no alias or dependency names it; and that a command line does not use it (Unused): it has a name, and no token (nor a short flag collapsed in one) is for it. C110_accepted, C110_refused and C110_unwanted cover the ways a run can end, C110_same_lines says accepted exactly if accepted before. Several new arguments are several upgrades. Programs that do not keep to the conventions of C92 and new positional arguments are not covered. The example adds a flag to a program with four arguments, for every command line without it.
* C111 A new mode or argument beside the others leaves old command lines alone – proved. `C111_beside`. C111_beside: the outcome and the state are equal, or both runs ended because of something nobody wants (Lost), with the state as it was. An anonymous mode is not a new child here: it takes every command line. The example puts a mode before another, for every command line that does not begin with its name.
* C112 What is switched off is as if it were not there – proved. `C112_absent`, `C112_beside`. C112_absent for an argument of a mode (the same Upgrade as in C110, but nothing is asked of the command line), C112_beside for a child of the root. An anonymous mode that is switched off, modes in modes that are switched off and separators of arguments that are switched off are not covered (see C77 and C92). Examples: a flag in a mode and a command below the root, for every command line.
* C113 The order in which arguments and modes are declared shows only in the order of the router's arguments – proved. `C113_modes`, `C113_arguments`, `C113_same_lines`, `C113_same_names`. C113_arguments compares the two runs (SwappedRun in Spec/Rearranged): the same calls with two values swapped, the same error, two errors about something nobody wants, or an error of each of the two arguments. C113_same_lines: accepted exactly if accepted before. C113_modes for the children of the root. Other orders are several swaps. Independent (Spec): both have values for the router and names, no token of the command line is for both, they have different types, and no alias or dependency names both; positional arguments are ordered by what they mean and are not covered. C113_same_names: two modes of one name compile and the order decides. Examples: the last two arguments of a program with four, and two modes, for every command line.
* C114 The order in which arguments are typed makes no difference – proved. `C114_swap`, `C114_any_order`, `C114_label`, `C114_separator`. A TypedArg (Spec/Typed) is a run of words that is one whole use of a named argument (Fits): a label with its values, whatever follows, where nothing declared before has that label or takes words without one; C114_label and C114_separator say which words fit. Separate says when two have nothing to do with each other. C114_swap: two neighbours, after any others and before anything; the runs end alike, or each fails as its command line cut after the first of the two. C114_any_order: every permutation of pairwise independent arguments ends alike, or both fail without a call. It extends C27 (successes of complete groups) to failures, one_of, aliases, dependencies and any rest. Collapsed short flags and arguments that take all the rest can only be in what follows. Examples: a program with four arguments, for all values, and two wrong values.
* C115 All labels of an argument are the same – proved. `C115_labels`. C115_labels: two lists of typed arguments that are the same uses (SameUse: argument and values) in other words; the runs are equal in outcome and calls, or both throw argument_has_already_been_set, each with the word that was typed. Example: a flag by short and by long name.
* C116 Giving an optional argument its default value is the same as leaving it out – proved. `C116_left_out`, `C116_given`. C116_left_out: a run that succeeds with the argument and its default value ends alike without it. C116_given: a run that succeeds without it ends alike with it, if the rest of the command line does not mention it, no alias stands for it and it needs no other argument. GivesDefault says what giving the default value is; examples show that the hypotheses are met, and what happens if the argument is given elsewhere or another needs it.
* C117 A program that is less strict does the same with what was accepted – proved. `C117_program`, `C117_accepted`, `C117_refuses`, `C117_default`. C117_program: the two runs are the same in outcome, calls and what is remembered, or the stricter program refuses for one of the named reasons (Refused). C117_accepted: what it accepts the other accepts. Relaxes says what less strict means: the same reading of the command line, weaker checks, and the same for an argument that is not given unless that was an error. C117_refuses: each reason occurs; C117_default: why default values stay. No restriction to conventional programs.
* C118 Typing an alias is the same as typing the arguments it stands for – proved. `C118_same_uses`, `C118_alias`, `C118_needs`. C118_alias: the two command lines end alike if one of them is accepted. C118_same_uses: more generally, any arguments may be replaced by others that mean the same uses. StandsFor and OnItsOwn (Spec/Typed) say when. It lifts C13 and C92 (what an alias means to its mode) to whole runs. C118_needs: the alias does not check what its arguments need. Examples: --size for --width and --height, for every value.
* C119 Another value of an argument makes a difference to nothing else – proved. `C119_value`, `C119_bad_value`. C119_value: two values the argument can have (Gives, from C106); OtherValue says where they go and that nothing else differs. C119_bad_value: a value it cannot have, in an accepted command line. Unrepeated excludes arguments that add up several uses; an argument of a one_of, with a separator, an end marker or several values is included. Examples: --num 5, 2, 9 and x.
* C120 A mode does the same wherever it is in a program and whatever it is called – proved. `C120_moved`. C120_moved, with SameInside (the same children; router or none; plain: no long or short names on a mode; proper: a mode is not part of itself) and SameThere (what the two runs have in common). Each program may have anything around the mode. The example has the only mode of a program against a mode in a mode, the second child of the root of another program.
* C121 What is typed after an error does not change it – proved. `C121_final`, `C121_too_long`. C121_final for the errors in FinalError and for unknown tokens; C121_too_long for unhandled arguments. The hypothesis is about the reading of the command line (the reference of C76/C92), so it does not mix these errors up with those that a value of an argument causes later. ListsNeedNothing is only asked for where the error is that a dependency is missing; an example shows that it is needed.
* C122 New labels leave old command lines alone – proved. `C122_new_labels`. C122_new_labels, with NewLabels (how the policies of a node may differ: the same but for names; labels are kept; the new ones are not referred to and not typed) for all nodes of the mode (Alike, as in C109: the types of nodes change with their policies), SameReason and SameEnd. The tokens of an error are the same, or are what the same object is called in the two modes. The example is a mode of four arguments of which one gets a short name, with all command lines that have no short names.
* C123 A proper command line is accepted – proved. `C123_accepted`, `C123_refused`. C123_accepted (iff, with the values) and C123_refused, with Proper (what may be typed), Adds and HasValue (the value of each argument). The conditions are about what is typed and declared only, not about the reading of C92. Aliases are left out (C118 is about them). The example has a counting flag, a required argument with limits, one that needs it, and a list at the end; others show why the order and the number of uses matter.
* C124 How arguments are called and typed makes no difference to what is done with them – proved. `C124_called`. C124_called, with AboutValues (which policies are about values), SameValues (the two modes), SameInput (the same argument with the same values) and SameWorth (what the two runs have in common; SameReason is that of C122). The conditions on the command lines are those of C123. The example is a program and the same program with all names changed, a mode that has a name, another separator and a short name in place of a long one.
* C125 Doing what the error messages say leads to success – proved. `C125_first`, `C125_following`. C125_first (which one is named) and C125_following (all steps and the success in the end, for every split of the arguments that are added). Supplies says that an argument is required and not there yet. Every try is a run of its own, from the same history. The example has two missing arguments.
* C126 Values that are handed over arrive – proved. `C126_arrive`, `C126_numbers`, `C126_label`. C126_arrive, for all values and all words that write them (HandsAll, an inductive relation from values to words). C126_numbers: every number has a notation; C126_label: a long name is a label nothing else claims if the names differ. Outside the claim: the 8-bit types and unsigned numbers with a minus (see C85), multi_arg without a fixed number of values or an end marker (it takes all that follows), custom parsers. The example has all these kinds of arguments.
* C127 Characters have the properties that Unicode gives them – proved. `C127_columns`, `C127_classes`, `C127_lines`, `C127_punctuation`, `C127_clusters`, `C127_line_classes`, `C127_line_class`. The data in Spec/Ucd14 are from the Unicode character database in Python (tools/gen_ucd.py) and those in Spec/Ucd15 from that in Perl (tools/gen_ucd15.py), not from the library; the lists in Spec/Characters are those of the annexes. The comparison is for all code points: both sides are step functions, compared at their steps (Lemmas/Steps). Perl has version 15, so C127_line_classes and C127_line_class are about the code points that are not among the three whose line breaking class that version changed, and its new characters are left out of the data or have the class they had unassigned.
