{
 "C03": {
  "note": "insert at the end position returns an iterator that is one off (refuted); every other operation proved."
 },
 "C08": {
  "note": "Proved for one-byte separators; false for separators outside ASCII (refuted: any byte of the separator splits, and std::out_of_range escapes). C08_exact says what happens with a separator of any number of bytes."
 },
 "C09": {
  "note": "C09_any is for every program of C92 and arguments of every sort (repeated, dependent, aliases, alternatives of a one_of; the last may have values) and includes the errors; the other theorems need no such program but are for flags."
 },
 "C10": {
  "note": "Named nodes: proved outright. Nodes without a name: false when the marker comes first, tokens follow it and the maximum is finite (refuted), proved otherwise; C10_unnamed_exact says what is taken in that case."
 },
 "C11": {
  "note": "Direct selection proved impossible for leaves, groups and named modes. False through an alias, and a disabled node with a value separator can still raise an error (refuted). C11_program_partial states it of whole programs: the router gets the fallback of a child whose arguments are all switched off. C11_alias_exact: an alias hands its values to every argument it names, disabled or not."
 },
 "C12": {
  "note": "Proved for a dependent node that is not also an alias. False for an alias that is itself dependent: its unmet dependency is reported as an unknown argument, with the alias itself as the suggestion (C12_alias_false). C12_alias_exact says what such an alias does in every case."
 },
 "C13": {
  "note": "Proved for aliases of non-alias arguments; an alias of an alias has no effect (refuted; C13_nested_exact: its use changes nothing in any mode, whatever else is used)."
 },
 "C14": {
  "note": "Proved for modes of plain arguments and flat groups without aliases; refuted for aliases of alternatives (other error) and for groups nested in a one_of (always rejected). In programs that compile with the default validator there are no nested groups (C14_never_nested), and no command line with two uses of a one_of is accepted, whichever aliases are used (C14_accepted); only the error differs (C14_alias_compiled_false)."
 },
 "C15": {
  "note": "False in the presence of a one_of (refuted, also after a failed parse); proved for all trees without one. For all trees: a parse does what it does on a fresh tree unless it switches a one_of away from the remembered alternative (C15_same_choice), and then it is refused for that one_of (C15_other_choice); the same arguments always give the same outcome (C15_repeat)."
 },
 "C24": {
  "note": "The count routed is the number of uses modulo 2^width of the value type (C24_count_modulo); it equals the number of uses below that bound. A counter of a narrow type wraps, so the unconditional claim is false."
 },
 "C25": {
  "note": "For an argument every routed value is within its bounds and approved (C25_within_bounds_partial; C25_compiled_partial for every program that compiles, arguments of the program itself and groups with a merging alternative included). False in one case: an alias_group that has the bounds itself and no alternative whose uses are merged (such as a counting_flag) compares them with its fallback only, so --level 9 is routed by a group with a maximum of 3 (C25_group_false)."
 },
 "C29": {
  "note": "False when the first argument is the empty string: the error is no_arguments_passed although there are arguments (C29_false, and C29_empty_first for every program). C29_unknown_partial covers every first argument that is not empty and for which the suggestion search does not fail (C41)."
 },
 "C34": {
  "note": "False for scalars with lead byte DF/EF (refuted); proved for all others, with the exact extent of the defect. C34_misread says what those decode to."
 },
 "C35": {
  "note": "False for text containing lead byte DF/EF (refuted, undefined behaviour at the end of the string); proved for all other well-formed text. Exactly which well-formed texts are read past their end: C35_exact. What every well-formed text that is not left is read as: C35_read_as."
 },
 "C36": {
  "note": ""
 },
 "C39": {
  "note": "False after a lead byte DF/EF, in both directions: whitespace is missed and other text is taken for whitespace (refuted); proved for all other well-formed text. The answer for every well-formed text, misread or not: C39_exact."
 },
 "C40": {
  "note": "False after a lead byte DF/EF (refuted); sum, additivity, bound and ASCII case proved for all other well-formed text. Exactly which well-formed texts have a width: C40_defined. The width of every well-formed text, misread or not: C40_exact."
 },
 "C41": {
  "note": "False for text containing lead byte DF/EF (refuted); proved for all other well-formed text, plus a weaker statement for arbitrary bytes. Exactly which well-formed texts are read past their end: C41_exact. For any bytes, clusters are groups of whole characters as they are read: C41_whole."
 },
 "C43": {
  "note": "Controls do not stand alone (GB4/GB5 are missing in the code; refuted); no break before marks/joiners proved. Exactly where text is cut beside a control character: C43_exact."
 },
 "C44": {
  "note": "False from 18 regional indicators on (window of 16; refuted); proved for runs of up to 17. C44_exact says what becomes of a run of any length: pairs up to the sixteenth, then singles."
 },
 "C45": {
  "note": "Proved for all well-formed text without lead bytes DF/EF and every column count. C45_false: a line of fullwidth characters (lead bytes EF, DF) is too long."
 },
 "C46": {
  "note": "Proved for all well-formed text without lead bytes DF/EF and non-zero column counts; a count of zero drops the text (refuted). C46_cut_false: a word of characters with lead byte DF is cut within a character."
 },
 "C47": {
  "note": "False when a character is wider than the column count (C47_false, for every number of steps). C47_exact_partial says exactly when the iteration ends: for one or more columns, if and only if the first character fits and all others that do not are whitespace. Partial because it is about text without lead bytes DF/EF."
 },
 "C48": {
  "note": "Proved against the implemented rules for text without lead bytes DF/EF, and for words outright; grapheme clusters can be split (refuted)."
 },
 "C49": {
  "note": "False: every zero that is followed by another digit is dropped (105 is shown as 15). C49_exact states what is produced, C49_decimal_partial characterises when it is the decimal notation."
 },
 "C51": {
  "note": "Proved for the default formatter (C51_column_right_of_labels, C51_aligned). False for the colour formatter at depth zero (C51_colour_false); C51_colour_partial covers the other depths."
 },
 "C52": {
  "note": "Proved for texts the decoder handles (C34) and terminals wide enough for wrapping. An offset of one column can make the output endless (C52_false)."
 },
 "C53": {
  "note": "False for disabled targets: undefined behaviour or the wrong name in the error (C53_false). C53_exact states all outcomes; C53_target_partial is the property without disabled nodes."
 },
 "C55": {
  "note": "Braces appear in a translated message only where its format string has placeholders; see C55_stray_brace for a stray one."
 },
 "C57": {
  "note": "False for a last argument that is just the short prefix and for text the decoder mishandles (C57_false). C57_safe_partial covers well-formed trees and all other text; a program in which no flag has a short name may be given the short prefix too. C57_lone_prefix and C57_lone_program: a node with a short name that expands short flags always throws a std::length_error when only the short prefix is left."
 },
 "C60": {
  "note": "Proved for every list of nodes and policies. A list inside a list does not compile (list.hpp static assertion), so one level is all there is."
 },
 "C63": {
  "note": "False in two cases: copying an empty container throws std::bad_function_call, and a small value that knows its own address is moved bytewise (C63_false). Ownership (C63_once, C63_no_leak) holds for every program; the value read back (C63_value_partial) for programs without these two cases. For every program: which operations throw, and that reading never gives a wrong value (C63_exact)."
 },
 "C67": {
  "note": "Proved for trees whose siblings have distinct types, within one mode and without none-names that start with a prefix. Refuted otherwise: the same node twice in a mode, two sibling modes of one name and the none-name '--ab' beside the long name 'ab' are accepted (C67_false)."
 },
 "C68": {
  "note": "The order of positional arguments, that root has at most one anonymous mode and that only modes follow it are proved. That it comes last is refuted: an anonymous mode before a named one is accepted, and the named one can then never be selected (C68_false). C68_shadowed says it of every compiled program: a parse that succeeds calls nothing of a child after an anonymous mode."
 },
 "C70": {
  "note": "False: 'children must not have the policy' only rejects when all children have it (C70_false); that case, and 'children must have the policy', are proved."
 },
 "C71": {
  "note": ""
 },
 "C77": {
  "note": "False for a mode without a name: it handles the command line although it is switched off (C77_anonymous_false). C77_named_partial covers every mode with a name; C77_program_partial says the same of whole programs. C77_anonymous_exact: a mode without a name is never passed over, switched off or not."
 },
 "C78": {
  "note": "False when a nested mode that contains an argument of the same type is declared before the argument (C78_nested_false). C78_nested_exact: the use is then lost, whatever else is given. C78_partial is about all other uses."
 },
 "C79": {
  "note": "False for collapsed short flags: -fx hands x to a positional argument (C79_collapsed_false). C79_program_partial proves the claim for all ordinary programs (C88; by C92 those that compile and keep to the conventions), with modes, aliases and collapsed short flags, when each flag of a collapsed group counts as an argument of its own. C79_partial is the literal claim, for modes without short-form expansion and without aliases."
 },
 "C80": {
  "note": "False: C80_false has four programs that compile and crash (a short prefix alone at the end of the command line, a separator of two bytes, a separator combined with short-form expansion, a character the decoder mishandles). C80_compiled_partial is the statement without these cases, for authors whose own parsers neither crash nor hang."
 },
 "C82": {
  "note": "False for numbers with a zero before the last digit, which are shown without it (C82_false): 105 as 15. C82_exact says exactly what is shown; C82_label_partial is the statement for all other numbers. C82_members and C82_description hold without restriction."
 },
 "C83": {
  "note": "False: asking for the help of an argument that is switched off at run time is undefined behaviour (C83_false; tokens.front() of an empty vector). C83_exact is the full behaviour in terms of the help output; C83_partial covers programs that compile, with either of the library's formatters, and paths that do not lead to something switched off."
 },
 "C84": {
  "note": "The terminal width is assumed to be the same for both calls."
 },
 "C85": {
  "note": "False (C85_false): a negative number given for an unsigned type is accepted and wraps round, and for the 8-bit types std::int8_t and std::uint8_t the character itself is taken, not the number. Proved for signed types of more than 8 bits and, for texts without a minus sign, for unsigned ones; C85_wraps and C85_byte_partial say exactly what is done in the other cases. Boost's conversion is modelled from its documentation and source, in the classic locale; floating point types are not modelled."
 },
 "C87": {
  "note": "False (C87_false): `-` alone makes four of the programs throw a std::length_error, text the decoder mishandles is undefined behaviour in simple, and so is `runtime_node_enable --help advanced` without a licence. C87_safe_partial is the statement without these; all five programs pass the model of the compile-time checks (C87_compiles)."
 },
 "C88": {
  "note": "Programs with every child of root an argument with a name (not an alias, not dependent) or a mode whose nested modes have names; one_of alternatives have names and are not inside a further group. C88_examples: all five example programs are such programs."
 },
 "C89": {
  "note": "False for a program started without a name (argc = 0, which execve allows on some systems): the environment is read as the command line and then the null pointer behind it (C89_no_name_false). C89_name_skipped_partial is the statement for every other start."
 },
 "C90": {
  "note": "False (C90_false): a comment or empty line after the last error leaves a comma that does not compile, a bracket without a partner or a backslash at the end of a line makes CMake merge lines and lose entries. C90_header_partial is the statement without these. CMake file(STRINGS), foreach over lists and string(FIND/SUBSTRING) are modelled from their documentation."
 },
 "C91": {
  "note": "C91_selected is general; C91_files, C91_programs, C91_messages and C91_copy are about the example. The help() of a multi-language root that returns the text does not compile when it is used (the lambda in it returns nothing), so only parse is modelled. C91_locale shows that fr_FR.UTF-8 is not taken as fr."
 },
 "C92": {
  "note": "False in full (C92_false): the library lets pass a few declarations that do not work as documented. The conventions that exclude them are spelled out in Spec.Conventional: one-byte separators, only on arguments with a prefixed name that are not switched off; short-form expansion only on flags; no upper limit on a positional argument with an end marker; no alias that is also dependent; no counts on modes; no nested mode switched off; no positional alternatives in a one_of. The command line is assumed to be readable text after the short prefix and to fit into memory. C92_does_partial and C92_only_partial go on from the reading to the calls and errors (C106)."
 },
 "C93": {
  "note": "Proved for every tree whose value parsers, custom parsers and help actions report only what they are given (Spec.Reports); C93_parsers and C93_formatters show that those of the library do, C93_program that trees with library formatters satisfy the assumption. C93_message carries it to the text the caller sees with the default translations. The named values of a failed parse may be parts of an argument (after a separator, or letters of a cluster of short flags)."
 },
 "C94": {
  "note": "False in full: in C++20 policy::short_name<'h'> and short_name_t{\"h\"_S} are different types with the same text, so the validator does not notice two flags with the short name h in one mode (C94_program_false, C94_types_false); null characters are left out in C++17 and end the text in C++20 (C94_null_false). C94_types_partial and C94_program_partial are the statement for names written as literals."
 },
 "C95": {
  "note": "The data file format is Spec/Tables (IsFile): lines of blanks, comments and `range ; name # category` entries. What Python's int(…, 16) and strip accept beyond that is modelled only for the characters the format uses."
 },
 "C96": {
  "note": "Against the rules of Spec/Uax29, for text without lead bytes DF/EF. The places where the library does not follow the rules are characterised exactly (C96_exceptional). The number of clusters of a text: C96_count. For every well-formed text, also the misread ones, exactly where it is cut: C96_exact."
 },
 "C97": {
  "note": "Against the rules of Spec/Uax14, for text without lead bytes DF/EF and without the classes and sequences UsualText lists, for which the library departs from the rules (refuted); the first line is treated for more classes."
 },
 "C98": {
  "note": "C98_page_partial gives the whole page of the default formatter by a specification that does not use the model's help data (Spec/Page); C98_colour_partial gives that of the colour formatter; C98_shown_partial and C98_root_partial (C98_colour_shown_partial, C98_colour_root_partial) are the same for programs that compile, from the command line and from root.help(); C98_unique shows that the specification determines the page if descriptions are usual text (C97). Partial because numbers in labels lose zeros (C49, C98_false), because the colour formatter writes a space too much at depth zero (C51_colour_false) and of labels that are 2^31 columns wide."
 },
 "C99": {
  "note": "Twelve of the fourteen conditions are exactly their documentation (C99_documented_partial); the other two reject less (C99_unique_partial and C99_child_partial say exactly what), and C99_false gives accepted trees they should reject. Nothing that satisfies the documentation is rejected (C99_not_rejected, C99_compiles), for any rule list. Of policies only names are compared by type."
 },
 "C100": {
  "note": "Exactly who is asked, in which order, on what, and what it amounts to (C100_asked_in_turn, C100_fails_in_turn, C100_node) for any policies. The documented independence of the order of declaration holds for different priorities (C100_any_order_partial) and is false for equal ones (C100_false) and for the validation phases, which are called in the order of declaration whatever the priorities (C100_validation_false). That mp_sort is the stable quicksort modelled is read from Boost, which is not in the repository."
 },
 "C101": {
  "note": "An equivalence for all trees whose nodes have one alias and one dependency at most (C101_compiles), with the rules of the reference written out in Spec/Reference independently of the model; C101_ruled_out and C101_allowed are its two directions for users, the latter with the documented conditions of the validator. For names, C101_names_partial gives the meaning in terms of Unicode. False as stated: a long name can contain a space after certain characters (C101_false). Assertions about C++ types are not modelled."
 },
 "C102": {
  "note": "Equivalences for all trees (C102_default for the rules alone, C102_compiles for all compile-time checks), with what is asked written out by class and by policy in Spec/Default, without the list of rules. Where this is less than the documentation asks for, it is stated as it is; the difference is C99_false."
 },
 "C103": {
  "note": "Values that the expansion of collapsed short flags adds are C09."
 },
 "C104": {
  "note": "C104_same is the equality of the two texts for the default formatter; C104_page_partial and C104_program_partial give the whole page, in which nothing is left out, by the specification of C98. The equality is false for the colour formatter, which writes a space before the label of the node whose help is asked for at run time only (C104_colour_false); it holds for the help of the root (C104_colour_partial). Partial also because numbers in labels lose zeros (C49)."
 },
 "C106": {
  "note": "C106_total: the specification has exactly one answer for every mode and all arguments given. C106_mode and C106_argument: that answer is what the code does, for modes and for single arguments with a router. The specification (Spec.Outcome) is a set of relations that do not use the code. Routers return (C105 says what happens if not). C92_does_partial and C92_only_partial carry it to whole command lines."
 },
 "C107": {
  "note": "False in full, because C++ converts without a word. Bounds given at run time are compared in their own type, so arg<int64_t> with min_max_value(0, 100) routes 4294967346 (C107_program_false); C107_run_time_partial: right for numbers that the type of the bounds holds; C107_run_time_false: for every other number there are bounds that wrongly accept it. Bounds known at compile time are compared in the common type of C++; C107_compile_time_partial: right if one of the two types, or int, holds both; C107_compile_time_false: wrong for all other pairs of types. Defaults: C107_default_partial and C107_default_false, likewise. C107_compiled_partial is about programs that compile. The conversions of C++ (modulo 2^bits, promotion to int, usual arithmetic conversions) are modelled in Parse/Bounds and part of the trusted base; floating point bounds and bounds with a comparator of the user's are not covered (the latter are C25)."
 },
 "C108": {
  "note": "What compiles is an equivalence without restriction (C108_compiles), and so is what happens if the width is not known (C108_unknown_width). False for names the decoder mishandles, which can have an unnoticed space in them (C108_false); C108_first_word_partial and C108_program_partial are the statement for all other names."
 },
 "C109": {
  "note": "C109_program relates the runs of two whole trees, node by node: the nodes may have other types (σ), what is there for the help only does not count. C109_compiles: the assertions and validator rules hold of both trees or of neither. C109_compiled needs only that the program compiles and that no node has both runtime_enable and runtime_enable_required. C109_help is about programs with their help texts; which formatter and compile-time range a node has is assumed not to depend on the order. C109_checks shows that the order of the checks does count, C109_types that two nodes of one type have to be treated alike. The example turns the policies of every node of basic_cat round."
 },
 "C110": {
  "note": "Spec/Grown says what it means that a program got an optional argument (Upgrade): it may be left out, its default passes its own checks, no node has its type, no alias or dependency names it; and that a command line does not use it (Unused): it has a name, and no token (nor a short flag collapsed in one) is for it. C110_accepted, C110_refused and C110_unwanted cover the ways a run can end, C110_same_lines says accepted exactly if accepted before. Several new arguments are several upgrades. Programs that do not keep to the conventions of C92 and new positional arguments are not covered. The example adds a flag to a program with four arguments, for every command line without it."
 },
 "C111": {
  "note": "C111_beside: the outcome and the state are equal, or both runs ended because of something nobody wants (Lost), with the state as it was. An anonymous mode is not a new child here: it takes every command line. The example puts a mode before another, for every command line that does not begin with its name."
 },
 "C112": {
  "note": "C112_absent for an argument of a mode (the same Upgrade as in C110, but nothing is asked of the command line), C112_beside for a child of the root. An anonymous mode that is switched off, modes in modes that are switched off and separators of arguments that are switched off are not covered (see C77 and C92). Examples: a flag in a mode and a command below the root, for every command line."
 },
 "C113": {
  "note": "C113_arguments compares the two runs (SwappedRun in Spec/Rearranged): the same calls with two values swapped, the same error, two errors about something nobody wants, or an error of each of the two arguments. C113_same_lines: accepted exactly if accepted before. C113_modes for the children of the root. Other orders are several swaps. Independent (Spec): both have values for the router and names, no token of the command line is for both, they have different types, and no alias or dependency names both; positional arguments are ordered by what they mean and are not covered. C113_same_names: two modes of one name compile and the order decides. Examples: the last two arguments of a program with four, and two modes, for every command line."
 },
 "C114": {
  "note": "A TypedArg (Spec/Typed) is a run of words that is one whole use of a named argument (Fits): a label with its values, whatever follows, where nothing declared before has that label or takes words without one; C114_label and C114_separator say which words fit. Separate says when two have nothing to do with each other. C114_swap: two neighbours, after any others and before anything; the runs end alike, or each fails as its command line cut after the first of the two. C114_any_order: every permutation of pairwise independent arguments ends alike, or both fail without a call. It extends C27 (successes of complete groups) to failures, one_of, aliases, dependencies and any rest. Collapsed short flags and arguments that take all the rest can only be in what follows. Examples: a program with four arguments, for all values, and two wrong values."
 },
 "C115": {
  "note": "C115_labels: two lists of typed arguments that are the same uses (SameUse: argument and values) in other words; the runs are equal in outcome and calls, or both throw argument_has_already_been_set, each with the word that was typed. Example: a flag by short and by long name."
 },
 "C116": {
  "note": "C116_left_out: a run that succeeds with the argument and its default value ends alike without it. C116_given: a run that succeeds without it ends alike with it, if the rest of the command line does not mention it, no alias stands for it and it needs no other argument. GivesDefault says what giving the default value is; examples show that the hypotheses are met, and what happens if the argument is given elsewhere or another needs it."
 },
 "C117": {
  "note": "C117_program: the two runs are the same in outcome, calls and what is remembered, or the stricter program refuses for one of the named reasons (Refused). C117_accepted: what it accepts the other accepts. Relaxes says what less strict means: the same reading of the command line, weaker checks, and the same for an argument that is not given unless that was an error. C117_refuses: each reason occurs; C117_default: why default values stay. No restriction to conventional programs."
 },
 "C118": {
  "note": "C118_alias: the two command lines end alike if one of them is accepted. C118_same_uses: more generally, any arguments may be replaced by others that mean the same uses. StandsFor and OnItsOwn (Spec/Typed) say when. It lifts C13 and C92 (what an alias means to its mode) to whole runs. C118_needs: the alias does not check what its arguments need. Examples: --size for --width and --height, for every value."
 },
 "C119": {
  "note": "C119_value: two values the argument can have (Gives, from C106); OtherValue says where they go and that nothing else differs. C119_bad_value: a value it cannot have, in an accepted command line. Unrepeated excludes arguments that add up several uses; an argument of a one_of, with a separator, an end marker or several values is included. Examples: --num 5, 2, 9 and x."
 },
 "C120": {
  "note": "C120_moved, with SameInside (the same children; router or none; plain: no long or short names on a mode; proper: a mode is not part of itself) and SameThere (what the two runs have in common). Each program may have anything around the mode. The example has the only mode of a program against a mode in a mode, the second child of the root of another program."
 },
 "C121": {
  "note": "C121_final for the errors in FinalError and for unknown tokens; C121_too_long for unhandled arguments. The hypothesis is about the reading of the command line (the reference of C76/C92), so it does not mix these errors up with those that a value of an argument causes later. ListsNeedNothing is only asked for where the error is that a dependency is missing; an example shows that it is needed."
 },
 "C122": {
  "note": "C122_new_labels, with NewLabels (how the policies of a node may differ: the same but for names; labels are kept; the new ones are not referred to and not typed) for all nodes of the mode (Alike, as in C109: the types of nodes change with their policies), SameReason and SameEnd. The tokens of an error are the same, or are what the same object is called in the two modes. The example is a mode of four arguments of which one gets a short name, with all command lines that have no short names."
 },
 "C123": {
  "note": "C123_accepted (iff, with the values) and C123_refused, with Proper (what may be typed), Adds and HasValue (the value of each argument). The conditions are about what is typed and declared only, not about the reading of C92. Aliases are left out (C118 is about them). The example has a counting flag, a required argument with limits, one that needs it, and a list at the end; others show why the order and the number of uses matter."
 },
 "C124": {
  "note": "C124_called, with AboutValues (which policies are about values), SameValues (the two modes), SameInput (the same argument with the same values) and SameWorth (what the two runs have in common; SameReason is that of C122). The conditions on the command lines are those of C123. The example is a program and the same program with all names changed, a mode that has a name, another separator and a short name in place of a long one."
 },
 "C125": {
  "note": "C125_first (which one is named) and C125_following (all steps and the success in the end, for every split of the arguments that are added). Supplies says that an argument is required and not there yet. Every try is a run of its own, from the same history. The example has two missing arguments."
 },
 "C126": {
  "note": "C126_arrive, for all values and all words that write them (HandsAll, an inductive relation from values to words). C126_numbers: every number has a notation; C126_label: a long name is a label nothing else claims if the names differ. Outside the claim: the 8-bit types and unsigned numbers with a minus (see C85), multi_arg without a fixed number of values or an end marker (it takes all that follows), custom parsers. The example has all these kinds of arguments."
 },
 "C127": {
  "note": "The data in Spec/Ucd14 are from the Unicode character database in Python (tools/gen_ucd.py) and those in Spec/Ucd15 from that in Perl (tools/gen_ucd15.py), not from the library; the lists in Spec/Characters are those of the annexes. The comparison is for all code points: both sides are step functions, compared at their steps (Lemmas/Steps). Perl has version 15, so C127_line_classes and C127_line_class are about the code points that are not among the three whose line breaking class that version changed, and its new characters are left out of the data or have the class they had unassigned."
 }
}