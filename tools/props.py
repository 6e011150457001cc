import json
I='include/arg_router/'
P=[]
def p(title,statement,quant,why,*anchors):
    P.append(dict(id=f"C{len(P)+1:02d}",title=title,statement=statement,quantifier=quant,why_tests_cant=why,anchors=[a[6:] if a.startswith("../../") else I+a for a in anchors]))

# 1 tokens
p("Token classification loses nothing",
  "Classifying a raw command line string into (prefix, name) and printing the token again gives back exactly the original string, with or without a node to guide the classification.",
  "every byte string and every combination of node names",
  "The domain is all byte strings; a test only tries a handful of spellings.",
  "parsing/token_type.hpp: get_token_type, to_string")
p("A raw argument selects a named node exactly when it is spelled prefix+name",
  "A raw command line string selects a named node if and only if it equals the long prefix followed by the long name, or the short prefix followed by the short name (and does not start with the long prefix), or the bare none-name; no other string selects it.",
  "every byte string and every node name set",
  "The 'only if' half is a statement about all strings that must not match.",
  "parsing/parsing.hpp: match","parsing/token_type.hpp: get_token_type","tree_node.hpp: pre_parse_impl")
p("The token adapter reads and writes like one list",
  "Reading, iterating, sizing, overwriting, inserting into and erasing from the adapter over (processed, unprocessed) has the same observable effect as doing so on the single list processed followed by unprocessed.",
  "every pair of token lists, every in-range position, every token",
  "The behaviour depends on where the processed/unprocessed boundary lies relative to the position, for all lengths.",
  "parsing/dynamic_token_adapter.hpp: iterator, insert, erase, set")
p("Transferring tokens only moves the boundary",
  "Transferring up to a position never loses, duplicates, reorders or alters a token, never shrinks the processed part, and leaves exactly the tokens up to and including that position processed.",
  "every adapter state and iterator position, including end and negative offsets",
  "Holds for all lengths and all histories of transfers.",
  "parsing/dynamic_token_adapter.hpp: transfer")
p("A node that does not match leaves the command line alone",
  "If a leaf node's pre-parse reports no match, or throws, the caller's remaining arguments are exactly what they were before the call.",
  "every node, every policy set, every argument list, every validator",
  "Policies rewrite tokens destructively while deciding; only a proof over all policy sets shows none of it leaks.",
  "tree_node.hpp: pre_parse_impl")
p("A matching node accounts for every token",
  "For a node without token-rewriting policies, a match splits the command line into label (if named), the node's value tokens and the remaining arguments, in that order, with nothing lost or reordered.",
  "every such node and every argument list",
  "Conservation over all argument lists cannot be enumerated.",
  "tree_node.hpp: pre_parse_impl","policy/min_max_count.hpp: pre_parse_phase")
p("Value counts respect the declared minimum and maximum",
  "A matching node with declared counts gets exactly min(max, available) value tokens, which is at least the declared minimum; if fewer than the minimum are available the parse fails with minimum_count_not_reached.",
  "every count range including unbounded, named or not, every argument list",
  "Unbounded ranges and size_t wrap-around are not covered by sampled counts.",
  "policy/min_max_count.hpp: pre_parse_phase")
p("Value separator splits at the first separator only",
  "With a value separator, '<label><sep><value>' is treated as the label followed by the value, where the value is everything after the first separator; a lone label is rejected with missing_value_separator; '<label><sep>' with nothing after it does not match.",
  "every label, separator and value (values may contain further separators)",
  "Quantifies over all value strings and separators, including multi-byte ones.",
  "policy/value_separator.hpp: pre_parse_phase")
p("Collapsed short flags mean the same as separate ones",
  "Writing '-xyz' has the same effect as writing '-x -y -z' for short-named flags, whatever follows on the command line.",
  "every sequence of short flags and every continuation of the command line",
  "All lengths of collapsed groups and all continuations.",
  "policy/short_form_expander.hpp: pre_parse_phase","flag.hpp: flag","counting_flag.hpp: counting_flag")
p("A token end marker ends the list it belongs to",
  "A node with an end marker receives exactly the tokens before the first occurrence of the marker, the marker itself is dropped, and every later token stays available to later nodes.",
  "every marker, every argument list, every count range",
  "Needs all positions of the marker (including first) and all count limits.",
  "policy/token_end_marker.hpp: pre_parse_phase","policy/min_max_count.hpp: pre_parse_phase")
p("A runtime-disabled node can never be selected",
  "A leaf node or named mode whose runtime_enable policy is false never matches any command line, whatever its other policies are.",
  "every argument list and policy set",
  "A negative statement about all inputs.",
  "policy/runtime_enable.hpp: runtime_enable","tree_node.hpp: pre_parse_impl")
p("Dependent arguments are only accepted after their dependencies",
  "A node with a dependent policy matches only if every argument it depends on has already been seen in the same mode; otherwise the parse fails with dependent_argument_missing naming the first missing dependency.",
  "every dependency list and every history of previously matched arguments",
  "All interleavings of arguments on the command line.",
  "policy/dependent.hpp: pre_parse_phase")
p("An alias stands for its targets",
  "Using an alias followed by its values has the same effect on each aliased argument as giving that argument those values directly, and consumes exactly the alias label and its values.",
  "every alias list, every value count, every command line",
  "Covers all trees and all value tokens, including chains of aliases.",
  "policy/alias.hpp: pre_parse_phase")
p("Only one alternative of a one_of can be used",
  "Within one parse, once an alternative of a one_of has been used, any other alternative of it is rejected with one_of_selected_type_mismatch.",
  "every one_of, every order of alternatives, every command line",
  "All sequences of alternatives.",
  "dependency/one_of.hpp: pre_parse")
p("Parsing does not remember earlier parses",
  "The outcome of root.parse depends only on the tree and the arguments: parsing the same arguments again with the same root object gives the same outcome, whatever was parsed before.",
  "every history of earlier parse calls on the same root object",
  "History-dependence is only visible across unbounded sequences of calls.",
  "dependency/one_of.hpp: pre_parse, last_typeid_","root.hpp: parse")
p("An alias_group takes the first child that matches",
  "An alias_group matches exactly when one of its children matches, and then behaves as the first such child in declaration order.",
  "every group and every command line",
  "All child lists and inputs.",
  "dependency/alias_group.hpp: pre_parse")
p("Order of policies in a declaration is irrelevant to matching",
  "Permuting the policies given to a node does not change which command lines it matches or which tokens it takes.",
  "every permutation of every policy list with distinct priorities",
  "Factorially many permutations.",
  "tree_node.hpp: priority_ordered_policies_type, pre_parse_impl")
p("Pre-parsing a mode always terminates",
  "The argument-consuming loop of a mode terminates on every command line.",
  "every mode tree with non-empty names and every argument list",
  "Termination is not testable; short-form expansion makes the argument list grow.",
  "mode.hpp: pre_parse_impl")
p("A mode succeeds only if it consumed the whole command line",
  "If pre-parsing a mode returns a target, no argument is left unconsumed, and every sub-target belongs to one of the mode's nodes.",
  "every mode and argument list",
  "All inputs.",
  "mode.hpp: pre_parse_impl")
p("Router arguments follow declaration order, one per value-bearing child",
  "When a mode's router is called it gets exactly one argument per child that has a value, in declaration order, each either the value parsed from that child's tokens or that child's missing-value fallback, independent of the order on the command line.",
  "every mode, every set of matched sub-targets in every order",
  "All orders and subsets of arguments.",
  "mode.hpp: parse_impl, process_result, process_missing_token")
p("A missing required argument fails the parse",
  "If a required child was not given a value, the parse fails and the router is not called; unless something else is wrong first, the error is missing_required_argument and names that child.",
  "every mode and every command line not mentioning the child",
  "All command lines.",
  "policy/required.hpp: missing_phase","policy/runtime_enable.hpp: runtime_enable_required","mode.hpp: process_missing_token")
p("A missing optional argument gets its default",
  "If a child with a default value was not given a value the router receives exactly that default; without a default it receives a default-constructed value; flags receive false.",
  "every mode and every command line not mentioning the child",
  "All command lines and all sibling configurations.",
  "policy/default_value.hpp: missing_phase","mode.hpp: process_missing_token","flag.hpp: flag_t")
p("Giving a single-use argument twice is an error",
  "A named argument that is not a counting flag can be matched at most once per parse; a second occurrence fails with argument_has_already_been_set, also when the second value comes through an alias.",
  "every command line",
  "All positions of the repetition.",
  "mode.hpp: verify_match, process_result")
p("A counting flag's value is its number of occurrences",
  "The value routed for a counting flag is the number of times it was matched, in any position and mixture.",
  "every number of occurrences and every interleaving",
  "Unbounded number of repetitions.",
  "counting_flag.hpp: merge_impl","mode.hpp: process_result")
p("Bounded values reach the router only within their bounds",
  "If a value-bearing child has a min/max value policy then any value routed for it lies within the inclusive bounds, whether it came from the command line, a default, or counting; a value outside fails with minimum_value_not_reached or maximum_value_exceeded. Likewise a value that a validation policy of the user's objects to is not routed, and what that policy throws ends the parse.",
  "every value, bound pair, validation policy of the user's and source of the value",
  "All integers and all sources.",
  "policy/min_max_value.hpp: validation_phase","multi_arg_base.hpp: parse","mode.hpp: process_missing_token, multi_stage_validation")
p("A parse calls at most one router and none if it fails",
  "One call of root.parse invokes at most one router, invokes it after everything else has succeeded, and if the parse throws no router has been invoked.",
  "every tree and every argument list",
  "All trees and failure points.",
  "root.hpp: parse","mode.hpp: parse_impl","multi_arg_base.hpp: parse","flag.hpp: parse")
p("Named arguments can be given in any order",
  "For a mode of distinct-named flags, counting flags and fixed-count arguments, the router arguments depend only on which groups (label with its values) appear, not on the order of the groups.",
  "every permutation of every well-formed sequence of groups",
  "Factorially many orders of unboundedly many groups.",
  "mode.hpp: pre_parse_impl, parse_impl")
p("Root children are tried in order and are mutually exclusive",
  "root.parse hands the command line to the first child that matches; if that child leaves arguments over, the parse fails with unhandled_arguments carrying exactly the leftovers, and no other child runs.",
  "every tree and argument list",
  "All inputs.",
  "root.hpp: parse")
p("Unmatched command lines are reported as unknown or empty",
  "If no child of the root matches, the parse fails with no_arguments_passed when the command line is empty and otherwise with unknown_argument or unknown_argument_with_suggestion carrying the first argument.",
  "every argument list that matches nothing",
  "All inputs.",
  "root.hpp: parse","parsing/unknown_argument_handling.hpp: unknown_argument_exception")
p("The suggested argument is a closest enabled one",
  "When an unknown argument is reported with a suggestion, the suggested node is enabled (as are all its ancestors) and no enabled named node below the reporting node has a smaller edit distance; earlier nodes win ties; there is no suggestion only if there is no enabled named node.",
  "every tree, every unknown token",
  "Minimality quantifies over all nodes and strings.",
  "utility/utf8/levenshtein_distance.hpp: closest_matching_child_node","parsing/unknown_argument_handling.hpp: unknown_argument_exception")
p("The similarity score is the true edit distance",
  "The distance between two strings is the length of a shortest sequence of single-character insertions, deletions and substitutions turning one into the other, where characters are grapheme clusters.",
  "every pair of strings",
  "Minimality over all edit scripts.",
  "utility/utf8/levenshtein_distance.hpp: levenshtein_distance")
p("Nested modes are selected by their path",
  "A command line that starts with the names of a chain of nested modes is handled by the deepest mode of the chain; the remaining arguments go to it.",
  "every nesting depth and tree",
  "Unbounded nesting.",
  "mode.hpp: pre_parse_impl")
p("Trees without one_of are history independent",
  "For a tree containing no one_of, root.parse leaves no trace: any sequence of earlier parses has no influence on a later one.",
  "every such tree and every history",
  "Unbounded histories.",
  "root.hpp: parse","mode.hpp: pre_parse_impl")
# utf8
p("Decoding inverts UTF-8 encoding",
  "Decoding the UTF-8 encoding of a Unicode scalar value yields that scalar, and its measured size is the length of the encoding.",
  "all 1,112,064 scalar values and any following text",
  "Tests sample a few characters; the boundaries of the lead-byte classes are what matters.",
  "utility/utf8/code_point.hpp: size, decode")
p("Iterating code points walks well-formed text exactly",
  "Iterating the code points of a well-formed UTF-8 string yields exactly its characters in order and never steps outside the string.",
  "every well-formed string",
  "Memory safety for all strings, including every last character.",
  "utility/utf8/code_point.hpp: iterator")
p("Code point count",
  "The code point count of a well-formed UTF-8 string is its number of characters.",
  "every well-formed string",
  "All strings.",
  "utility/utf8/code_point.hpp: count")
p("Range entries survive packing",
  "Packing a code point range with metadata into the compact table entry and reading it back gives the same first, last and metadata.",
  "all 21-bit code point pairs and 6-bit metadata",
  "2^48 combinations.",
  "utility/utf8/code_point.hpp: range")
p("Table lookup is exact",
  "Looking a code point up in a sorted table of disjoint ranges finds a range containing it if and only if one exists; and the five shipped Unicode tables are sorted and disjoint.",
  "every code point, every sorted table, all shipped tables",
  "Binary search correctness for all tables; all 1.1M code points.",
  "utility/utf8.hpp: find_range","utility/utf8/grapheme_cluster_break.hpp","utility/utf8/line_break.hpp","utility/utf8/double_width.hpp","utility/utf8/zero_width.hpp","utility/utf8/whitespace.hpp")
p("Whitespace detection",
  "A string is reported to contain whitespace if and only if one of its characters is a Unicode White_Space character.",
  "every well-formed string",
  "All strings and all code points.",
  "utility/utf8.hpp: is_whitespace, contains_whitespace","utility/utf8/whitespace.hpp")
p("Terminal width is additive and bounded",
  "The terminal width of a concatenation of well-formed strings is the sum of the widths, is at most twice the number of characters, and equals the length for printable ASCII.",
  "every pair of well-formed strings",
  "All strings.",
  "utility/utf8.hpp: terminal_width")
p("Grapheme clusters partition the text",
  "Iterating grapheme clusters yields non-empty pieces whose concatenation is the string; the iteration terminates and a cluster boundary is always a character boundary.",
  "every well-formed string",
  "All strings.",
  "utility/utf8.hpp: iterator")
p("ASCII text has one cluster per character",
  "In ASCII text every character is its own grapheme cluster except that CR LF is a single cluster.",
  "every ASCII string",
  "All ASCII strings.",
  "utility/utf8.hpp: iterator","utility/utf8/grapheme_cluster_break.hpp")
p("Clusters never start with a combining mark, and controls stand alone",
  "No grapheme cluster boundary separates a character from a following combining mark, joiner or spacing mark, except after a control character, which always stands alone (UAX #29 GB4, GB5, GB9, GB9a).",
  "every well-formed string",
  "All strings.",
  "utility/utf8.hpp: iterator","utility/utf8/grapheme_cluster_break.hpp")
p("Regional indicators pair up",
  "A run of regional indicators is divided into clusters of two, with a final single one if the run is odd (UAX #29 GB12/13).",
  "every run length",
  "Unbounded run length; the implementation keeps a bounded window.",
  "utility/utf8/grapheme_cluster_break.hpp: GB12_13","utility/utf8.hpp: iterator")
p("Wrapped lines fit",
  "Every line produced by the line wrapper is at most the requested number of terminal columns wide.",
  "every well-formed text and every column count",
  "All texts and widths.",
  "utility/utf8.hpp: line_iterator")
p("Wrapping loses only whitespace at line starts",
  "The lines in order are disjoint pieces of the text, and what is dropped between two lines is only whitespace.",
  "every well-formed text and every column count",
  "All texts and widths.",
  "utility/utf8.hpp: line_iterator")
p("Wrapping terminates",
  "Iterating the lines of any text at any column count terminates.",
  "every well-formed text and every column count",
  "Termination is not testable.",
  "utility/utf8.hpp: line_iterator")
p("Wrapping breaks at an allowed opportunity when there is one",
  "A line is only broken inside an unbreakable run when no break opportunity fits on the line; a line boundary never splits a character.",
  "every well-formed text and every column count",
  "All texts and widths.",
  "utility/utf8.hpp: line_iterator","utility/utf8/line_break.hpp")
# ints & help
p("Integers are rendered in decimal",
  "Converting an integer to a compile-time string (used for value ranges and counts in help output) gives its decimal representation.",
  "every integer",
  "All integers; tests happen to use numbers without zeros.",
  "utility/compile_time_string.hpp: convert_integral_to_cts","math.hpp: num_digits, pow")
p("Digit count",
  "The number of digits computed for an integer is the length of its decimal representation.",
  "every integer",
  "All integers.",
  "math.hpp: num_digits")
p("Help labels fit in front of the description column",
  "The description column lies strictly to the right of every printed label at its indentation, so descriptions are aligned and never overlap a label.",
  "every help tree of any depth",
  "Unbounded trees.",
  "policy/default_help_formatter.hpp: description_column_start","policy/colour_help_formatter.hpp")
p("Help output respects the terminal width",
  "Each line of wrapped description text fits between the description column and the requested number of columns.",
  "every help tree, every column count wide enough",
  "Unbounded trees and texts.",
  "policy/default_help_formatter.hpp: default_line_formatter, format")
p("Help target lookup is safe and follows the path",
  "Asking for help on a path of names either selects the node reached by following those names through the tree or fails with unknown_argument naming the first name that cannot be followed; it never has undefined behaviour.",
  "every tree and every path",
  "All paths, including ones ending on disabled nodes.",
  "help.hpp: find_help_target")
p("Help hides disabled nodes",
  "Runtime help data contains exactly the enabled nodes below the target, in declaration order; nothing below a disabled node is shown.",
  "every tree",
  "Unbounded trees.",
  "help.hpp: generate_runtime_help_data","tree_node.hpp: default_leaf_help_data_type::runtime_children")
# exceptions
p("Error messages substitute tokens in order",
  "Formatting an error message replaces each placeholder by the next token (a final joining placeholder takes all remaining tokens), and appends the joined tokens after ': ' when the message has no placeholder.",
  "every well-formed message and token list",
  "All messages and tokens, including tokens that look like placeholders.",
  "utility/exception_formatter.hpp: exception_formatter","exception.hpp: parse_exception")
p("Every error code has a translation and custom ones win",
  "Translating an error uses the first custom translation for its code, else the fallback translation, else an 'Untranslated error code' message; with the defaults every library error code is translated.",
  "every translation table and error code",
  "All tables.",
  "policy/exception_translator.hpp: translate_exception","exception.hpp: default_error_code_translations")
p("Parse failures surface as translated parse errors with their tokens",
  "Whenever root.parse fails because of the command line, the caller sees a parse_exception whose message is the translation of the error code formatted with the offending tokens.",
  "every tree and argument list",
  "All failure points.",
  "root.hpp: parse","exception.hpp: parse_exception")
p("Locale names are normalised",
  "Normalising a locale name drops the encoding suffix and uses underscores: the result contains neither '.' nor '-', and normalising twice changes nothing.",
  "every locale string",
  "All strings.",
  "multi_lang/iso_locale.hpp: iso_locale")
p("Language selection falls back to the first language",
  "The selected translation is the first supported language equal to the requested one, or the first declared language when there is none.",
  "every language list and request",
  "All lists.",
  "multi_lang/root.hpp: root_t","multi_lang/root_wrapper.hpp: root_wrapper_t")
p("Lists splice in place",
  "Using list(...) inside a node, to any nesting depth, is the same as writing its contents in place, in order.",
  "every nesting of lists",
  "Unbounded nesting.",
  "list.hpp: list_expander")
p("Bare strings map to the documented policies",
  "Each bare string given to a node factory becomes exactly one policy: the first multi-character string the long name, the second the description, the single-character one the short name; other parameters are kept in order.",
  "every parameter list accepted by the factory",
  "All interleavings.",
  "utility/string_to_policy.hpp: convert")
p("A dynamic string view always shows the right text",
  "After any sequence of constructions, copies and appends the text seen through a dynamic_string_view is the concatenation of what was put in, and string data it owns is never a dangling view.",
  "every sequence of operations",
  "All histories.",
  "utility/dynamic_string_view.hpp: dynamic_string_view")
p("The type-erased result container owns its value exactly once",
  "After any sequence of constructions, copies, moves and destructions of the container, reading returns the value last stored, and every stored value is destroyed exactly once.",
  "every sequence of operations",
  "All histories.",
  "utility/unsafe_any.hpp: unsafe_any")
p("A result is a value or an error",
  "A result object holds either a value or an error, equality with a value holds only when it holds that value, and throwing happens exactly when it holds an error.",
  "every result",
  "All values.",
  "utility/result.hpp: result")
p("A parse target runs once",
  "Invoking a parse target runs the node's parse on the first invocation only; any later invocation does nothing and yields an empty result.",
  "every number of invocations",
  "All histories.",
  "parsing/parse_target.hpp: operator()")
p("Boolean words",
  "The boolean parser accepts exactly the documented true words as true and false words as false, and every other string fails with failed_to_parse carrying that string.",
  "every string",
  "All strings.",
  "parsing/global_parser.hpp: parser<bool>")
p("Unique names make label lookup unambiguous",
  "If the validator's uniqueness rule holds for a mode, no raw argument is the label of two different nodes of that mode.",
  "every mode tree that passes validation and every string",
  "All trees and strings.",
  "policy/validator.hpp: policy_unique_from_owner_parent_to_mode_or_root")
p("Positional arguments are last",
  "A tree accepted by the validator has all positional-like nodes of a mode after all other nodes, and an anonymous mode last in the root.",
  "every tree",
  "All trees.",
  "policy/validator.hpp: node_types_must_be_at_end, anonymous_mode_must_be_at_end, single_anonymous_mode")
p("Variable-length lists do not starve later ones",
  "A tree accepted by the validator has, among consecutive list-like nodes, only the last with a variable count unless an end marker is used.",
  "every tree",
  "All trees.",
  "policy/validator.hpp: list_like_nodes_must_have_fixed_count_if_not_at_end")
p("Forbidden child policies are rejected",
  "If a node type's rule says its children must not have a policy, a tree in which any child has that policy is rejected.",
  "every tree",
  "All trees.",
  "policy/validator.hpp: child_must_not_have_policy")
p("Rules are looked up by first match and editable",
  "Validating a node uses the first rule for its type; inserting, removing and replacing rules affects exactly the rule named and no other.",
  "every rule list",
  "All rule lists.",
  "policy/validator.hpp: validator","policy/validator_rule_utilities.hpp")
p("Tree walks visit every node once, parents first",
  "A tree walk calls the visitor once for every node, parents before children and siblings in declaration order, passing the chain of ancestors.",
  "every tree",
  "Unbounded trees.",
  "utility/tree_recursor.hpp: tree_recursor")
p("Cyclic aliases and dependencies are rejected",
  "A cycle among alias (or dependent) policies in a mode is detected when the tree is checked.",
  "every mode and every chain length",
  "All graphs.",
  "policy/alias.hpp: cyclic_dependency_checker","policy/dependent.hpp: cyclic_dependency_checker")
p("Accepted trees are well-shaped",
  "In a tree accepted by the default validator no node has two policies of one kind, no node combines policies that exclude each other, every node sits under a parent of a permitted class, and no policy sits on a class it is forbidden for.",
  "every tree",
  "All trees.",
  "policy/validator.hpp: default_validator, policy_unique_from_owner, parent_types, despecialised_any_of_rule")
p("An alias takes as many values as the arguments it stands for",
  "If an alias passes its compile-time checks, it takes a fixed number of values and every argument it names takes exactly that number.",
  "every mode, every alias in it",
  "All trees.",
  "policy/alias.hpp: node_fixed_count, check_target_counts")
p("Every command line is read the documented way",
  "A mode reads a command line from left to right. At each point the first argument that recognises what is left gets it: by its label (long name, short name, or first of a group of collapsed short flags), by label and separator, or by position. It takes the number of values it was declared with (up to its end marker if it has one) and leaves the rest. An alias counts as the arguments it stands for. It is an error if the argument was given before and is not repeatable, if the values are too few or too many, if the separator is missing, if an argument it depends on was not given before, or if it is an alternative to an argument that was chosen before. If no argument recognises what is left, it is reported as unhandled (all arguments used) or unknown. When everything has been read, exactly the values so taken are handed on. Every command line has exactly one such reading.",
  "every mode built of arguments, flags, alias groups, one_of alternatives, aliases, dependent arguments and arguments switched off at runtime, every command line",
  "Unboundedly many declarations and command lines, and all interactions of the policies.",
  "mode.hpp: pre_parse_impl","parsing/parsing.hpp: pre_parse","policy/*.hpp: pre_parse_phase","dependency/alias_group.hpp: pre_parse","root.hpp: parse")
p("A mode switched off at runtime does not handle the command line",
  "A mode whose runtime_enable policy is false never handles a command line and its router is never called.",
  "every mode, every command line",
  "A negative statement about all inputs.",
  "policy/runtime_enable.hpp: runtime_enable","mode.hpp: pre_parse_impl")
p("A given value reaches the router of the mode it was given to",
  "If an argument of a mode is used on the command line and the parse succeeds, the mode's router receives the value given, at the place where that argument is declared, whatever else is declared in the mode.",
  "every mode including ones with nested modes, every command line",
  "All trees and command lines.",
  "mode.hpp: parse_impl, match_child, process_result")
p("Values are taken from the command line as typed, once, in order",
  "The values handed to the arguments' parsers are command line arguments as typed, or the part of one after the argument's separator; each command line argument is used at most once, and the values are in command line order (aliases apart, which hand the same values to several arguments).",
  "every mode without aliases, every command line",
  "All modes and command lines.",
  "tree_node.hpp: pre_parse_impl","policy/short_form_expander.hpp: pre_parse_phase","policy/value_separator.hpp: pre_parse_phase","mode.hpp: pre_parse_impl")
p("A program that compiles does not crash",
  "If a tree satisfies the compile-time checks of the library (the static assertions of its nodes and policies and the default validator), then root.parse returns or throws a parse_exception with the documented message, for every command line.",
  "every tree the library's compile-time checks accept, every command line",
  "All accepted trees times all command lines.",
  "root.hpp: root_t", "mode.hpp: mode_t", "policy/validator.hpp: default_validator", "policy/alias.hpp: pre_parse_phase", "policy/value_separator.hpp: value_separator_t")
p("Every argument has a name to be reported by",
  "In every program that compiles, every node below the root has a name that error messages can use, and that name is not empty. With the default validator it is the error name of the node, otherwise its display name, otherwise its long, short or only name; a mode without any name is called \"(Anon mode)\".",
  "every tree the library's compile-time checks accept, with any validator",
  "All accepted trees.",
  "parsing/parsing.hpp: node_token_type", "mode.hpp: add_anonymous_error_name_to_mode", "policy/long_name.hpp: long_name_t", "multi_arg_base.hpp: multi_arg_base_t")
p("Help labels say what can be typed",
  "The label of a node in the help output consists of its names with their prefixes, the value it takes (behind its separator, or a space if it takes exactly one value; with the value range if it has one), and for nodes that take several values the smallest and largest number of them; all numbers are shown in decimal. Members of a group are listed below it in order, joined by a bracket.",
  "every node of every class, every range and count",
  "All names, ranges and counts; tests use a few numbers.",
  "tree_node.hpp: default_leaf_help_data_type::label_generator, value_suffix, value_separator_suffix, count_suffix","positional_arg.hpp: help_data_type","multi_arg.hpp: help_data_type","dependency/detail.hpp: basic_one_of_t::children_help_data_type")
p("Asking for help shows the help asked for, and nothing else happens",
  "A command line that consists of a name of the help node and a path of names shows the help output of the node the path leads to (of the whole program if the path is empty), or reports the first name that leads nowhere as unknown; no other router is called.",
  "every tree with a help node, every command line starting with a name of it",
  "All trees and paths.",
  "help.hpp: help_t::parse, find_help_target", "root.hpp: root_t::parse", "tree_node.hpp: pre_parse_impl")
p("help() and --help show the same",
  "The text root.help() returns is the text shown for a command line that has nothing but a name of the (first) help node; without a help node it is empty.",
  "every tree, every formatter setting",
  "All trees and settings.",
  "root.hpp: root_t::help", "help.hpp: help_t::parse")
p("A number argument accepts exactly the numbers of its type",
  "An argument with an integer value type accepts a text if and only if it is an optional sign and decimal digits that denote a number the type can hold, and the router receives that number; every other text is reported as failed to parse.",
  "every text, every integer type",
  "All texts; tests try a few numbers.",
  "parsing/global_parser.hpp: parser", "arg.hpp: arg_t")
p("Errors about a group name all its alternatives",
  "What an error message calls a one_of or alias_group is its display name (\"One of: \" or \"Alias Group: \" if it has none) followed by the names of all of its alternatives, with prefixes, in order and separated by commas; this is what the message shows when a second alternative is used or a required group is missing.",
  "every group, any number of alternatives",
  "All lists of alternatives.",
  "dependency/detail.hpp: generate_string_of_child_names, add_names", "parsing/parsing.hpp: node_token_type")
p("The example programs do not crash",
  "Each of the example programs of the library returns or throws a parse_exception with the documented message, whatever it is given on the command line and however wide the terminal is.",
  "the example programs just_cats, simple, launcher, runtime_node_enable and basic_cat, every command line, every terminal width",
  "All command lines; the programs are run by hand, if at all.",
  "../../examples/c++17/just_cats/main.cpp: main", "../../examples/c++17/simple/main.cpp: main", "../../examples/c++17/launcher/main.cpp: main", "../../examples/c++17/runtime_node_enable/main.cpp: main", "../../examples/c++17/basic_cat/main.cpp: main")

p("A program does with every command line what its declaration says",
  "The children of root are tried in order, and the first that responds to the command line has all of it: an argument whose name it begins with (which must use up everything), a mode whose name it begins with, the mode the following names lead to where modes are nested, or a mode without a name. What the child makes of the rest is the documented reading (C76); if no child responds, the error is that there are no arguments or that the first one is unknown. In particular the program `simple` given `copy [-f] DST SRC...` calls the router of copy once with exactly the flag, DST and SRC..., whatever the files are called (if DST and the first SRC do not begin with a dash).",
  "every tree of arguments, one_of groups and nested modes, every command line",
  "All trees and all command lines.",
  "root.hpp: root_t::parse", "mode.hpp: mode_t::pre_parse, mode_t::parse", "tree_node.hpp: tree_node::pre_parse", "../../examples/c++17/simple/main.cpp: main")

p("A program started from main sees the arguments after its name",
  "Calling parse with the argc and argv of main does exactly what calling it with the list of the arguments after the program's name does; the name and whatever lies in memory behind argv play no part.",
  "every tree, every program name, every list of arguments, everything that follows argv in memory",
  "All command lines and all memory contents.",
  "root.hpp: root_t::parse(int, char**)")
p("The generated translations are those in the file",
  "For a translation file made of comments, empty lines, `name = \"text\"` lines and optionally an error section, the generated header is the translation class of the language with exactly the names and texts of the file, in order, and exactly the listed error messages; a line of any other kind stops the generator.",
  "every file, every language",
  "All files; the examples have three.",
  "../../cmake/translation_generator/translation_generator_script.cmake")
p("A program in several languages is the program in the user's language",
  "Whatever a multi-language program is given on the command line, it does what the program in the user's language does, or that in the first language if the user's is not supported; errors are reported with that language's messages. In particular the example simple_ml_gen, whose words are those of its translation files, copies files on the command `copy`, `copier` or `コピー`, and reports every error with the text in the language's file.",
  "every list of languages, every factory, every requested language, every command line",
  "All languages and command lines.",
  "multi_lang/root.hpp: root_t", "multi_lang/root_wrapper.hpp", "multi_lang/iso_locale.hpp: iso_locale", "multi_lang/translation.hpp", "../../examples/c++17/simple_ml_gen/main.cpp: main", "../../examples/resources/simple_ml_gen")
p("Every program that compiles reads command lines as documented",
  "A program that compiles with the default validator has exactly one documented reading of each command line (C88), and does what that reading says.",
  "every tree that passes the static assertions and the default validator, every command line",
  "All programs; the tests contain a few that compile and a few that do not.",
  "policy/validator.hpp: validation::default_validator", "root.hpp: root_t::parse", "tree_node.hpp: tree_node::pre_parse", "policy/alias.hpp: alias_t::pre_parse_phase", "policy/value_separator.hpp: value_separator_t", "policy/short_form_expander.hpp: short_form_expander_t")
p("An error is about what was typed, or about an argument it can be about",
  "Every error names, apart from a documented message, only parts of the command line or arguments of the program that the error can be about: an argument is named as having too few or too many values only if it has such a limit, as missing its separator only if it has one, as required only if it is, as an alternative only within a one_of, and a suggestion is a path to an argument of the program. The parsers of the library report exactly the text they were given, and the help action exactly the name it could not find.",
  "every tree whose own parsers report only what they are given, every command line",
  "All trees and all command lines.",
  "exception.hpp: parse_exception", "parsing/parsing.hpp", "policy/value_separator.hpp: value_separator_t", "policy/min_max_count.hpp: min_max_count_t", "policy/dependent.hpp: dependent_t", "policy/validator.hpp", "parsing/global_parser.hpp: parser", "help.hpp: help_t", "policy/default_help_formatter.hpp: default_help_formatter_t")
p("A compile-time string is the text it was written with, and equal texts are the same name",
  "The string made from a literal, a view or a character has exactly that text (or, in C++17, the program does not compile because the text is too long); concatenation concatenates, a part is that part, a repeated character is repeated. Strings with the same text are the same string to the validator, so it makes no difference in which way and for which language version the names of a program are written.",
  "every text, every way of writing it, every program",
  "All texts and programs.",
  "utility/compile_time_string.hpp: str, S_, compile_time_string, create_sequence_cts", "literals.hpp: operator\"\"_S", "policy/short_name.hpp: short_name, short_name_t", "policy/validator.hpp: policy_unique_from_owner_parent_to_mode_or_root")
p("The generated Unicode tables are the data files",
  "For a Unicode data file that assigns each code point at most once and only classes the script knows, the script prints a table of as many rows as it announces, and looking a code point up in the printed table as the library does finds exactly what the file says: membership for the whitespace and width tables, the break class for the grapheme and line tables, after the resolution of the classes AI, SG, XX, SA and CJ that UAX 14 gives, and with the pictographs of the emoji file added. A file with another class, or without the version of the database in its first line, stops the script.",
  "every data file in the format of the Unicode Character Database, every code point",
  "All data files: the tables are regenerated for each version of Unicode.",
  "../../scripts/unicode_table_generators.py: run, run_grapheme_cluster_break, line_break, get_abbreviation, extract_version, sort_code_points, print_code_points", "utility/utf8.hpp: detail::find_range", "utility/utf8/code_point.hpp: code_point::range")
p("Iterating over text gives the grapheme clusters of Unicode",
  "Iterating over well-formed text gives consecutive parts of it that meet exactly at the boundaries that the rules of Unicode Standard Annex 29 for extended grapheme clusters (GB1 to GB999) give.",
  "every well-formed UTF-8 text, every place in it",
  "All texts: the rules look arbitrarily far back, and all pairs of classes occur.",
  "utility/utf8.hpp: iterator", "utility/utf8/grapheme_cluster_break.hpp: no_break_rules")
p("Text is wrapped greedily at the line breaks of Unicode",
  "Each line is the rest of the text if it fits; otherwise it ends at the last place that fits and where the rules of Unicode Standard Annex 14 allow a line to end; if there is none, before the first character that does not fit. The whitespace after it is left out. Where a line ends depends on the text only, not on how the earlier lines were found.",
  "every well-formed UTF-8 text, every number of columns",
  "All texts and all widths: the rules look arbitrarily far back, and all pairs of classes occur.",
  "utility/utf8.hpp: line_iterator", "utility/utf8/line_break.hpp: no_break_rules", "policy/default_help_formatter.hpp: default_help_formatter_t")

p("The help page of a program is the documented one",
  "The text shown for `--help names...` and returned by root.help() is, from the first byte to the last: the program's name and version and its introduction; then for the node asked for and each enabled node below it (not below a named mode, unless flattened), in declaration order, a line with the node's label, indented by its depth and behind a bracket if it is in a group, and its description, which starts at one common column, the smallest that leaves room for every label, is wrapped greedily by UAX 14 to the width of the terminal and continues at that column; then the addendum. For usual texts this determines every byte.",
  "every tree of nodes that compiles, every format, introduction, addendum and indentation, every terminal width, every node asked for, every set of disabled nodes",
  "The layout depends on all labels and descriptions of a tree at once; tests compare a few pages.",
  "help.hpp:help_t::parse", "policy/default_help_formatter.hpp:default_help_formatter_t::generate_help", "tree_node.hpp:default_leaf_help_data_type", "dependency/detail.hpp:children_help_data_type", "root.hpp:help")

p("A validator's conditions check what they are documented to check",
  "Every condition a rule of a validator can have, in the default validator or in one of the user's own, lets a program compile exactly if the node or policy it is applied to is as the documentation of the condition says.",
  "All rule lists built from the library's conditions, all trees, all nodes and policies in them",
  "Conditions are template metaprograms over arbitrary trees; a test compiles one tree, and a tree that must not compile cannot be in an ordinary test at all",
  "policy/validator.hpp: despecialised_unique_in_owner, policy_unique_from_owner_parent_to_mode_or_root, parent_types, must_have_policies, must_not_have_policies, child_must_have_policy, child_must_not_have_policy, policy_parent_must_not_have_policy, single_anonymous_mode, at_least_one_of_policies, node_types_must_be_at_end, anonymous_mode_must_be_at_end, list_like_nodes_must_have_fixed_count_if_not_at_end, must_have_at_least_min_count_of_1_if_required",
  "utility/tree_recursor.hpp: tree_type_recursor")

p("Policies take part in parsing in the order of their priority",
  "A node asks all its policies that have a pre-parse phase, the user's own included: in the order of their priority (0 if they have none), each once, each on the tokens the one before left, until one says that the tokens are not for this node or reports an error. An error is thrown only once it is known that the label is the node's and that the node is wanted. A value is accepted if every validating policy accepts it. The order in which the policies are declared makes no difference.",
  "every list of policies with any priorities and any phases, all tokens, all ways in which a phase can end",
  "Policies are written by users: any number, any priority, any effect on the tokens",
  "tree_node.hpp: priority_ordered_policies_type, pre_parse_impl", "multi_arg_base.hpp: parse", "policy/policy.hpp: has_priority, has_pre_parse_phase_method, has_validation_phase_method", "../../docs/related_pages/policies.doxy", "../../docs/related_pages/nodes.doxy")

p("A program compiles exactly if it keeps the rules of the reference",
  "root.parse(...) compiles exactly if the validator accepts the tree and every node keeps the restrictions that the reference states for its class and for its policies: which names it must, may and must not have, how many characters names have and that there is no whitespace in them, how many values it takes, which phases its policies may take part in, what its children may be, that the names in aliases and dependencies are found and lead to no cycle, and that no description has a tab if the program has help.",
  "every tree of nodes with any policies, every prefix configuration, every list of rules",
  "A tree that must not compile cannot be in an ordinary test, and the restrictions range over all trees and all texts",
  "policy/long_name.hpp: long_name_t", "policy/short_name.hpp: short_name_t", "policy/alias.hpp: pre_parse_phase, alias_targets, cyclic_dependency_checker", "policy/dependent.hpp: pre_parse_phase", "policy/token_end_marker.hpp: pre_parse_phase", "multi_arg_base.hpp: multi_arg_base", "dependency/detail.hpp: basic_one_of_t", "mode.hpp: mode_t", "help.hpp: help_t", "root.hpp: root_t", "../../docs/related_pages/nodes.doxy", "../../docs/related_pages/policies.doxy")

p("What the default validator accepts",
  "With the default validator root.parse(...) compiles exactly if the restrictions of the reference hold and, for every node: it has each policy template once at most and none of those its class must not have; positional arguments come last in a mode and list-like children only at its end; required positional arguments take at least one value; one_of and alias_group are in a mode, and not all of their children are required or have a default value; modes are in the root or a mode, and a nameless one is alone and last; help is in the root. And for every policy: a name is given once among the nodes of the nearest mode, where nodes reached through the same types count as one; no name is combined with a none name or a display name; required and default_value exclude each other; a router is in a mode or directly below the root; a validator is in the root.",
  "every tree of nodes with any policies",
  "A tree that must not compile cannot be in an ordinary test, and the rules range over all trees",
  "policy/validator.hpp: default_validator, rule_q, validator", "root.hpp: root_t", "../../docs/related_pages/validation.doxy")

p("Nodes take as many values as their class says, unless their policies say otherwise",
  "Typed with its label, a flag or counting_flag takes no value, an arg exactly one, a multi_arg all that follow and at least one, a forwarding_arg and help all that follow; a positional_arg takes all arguments there are. With a count policy multi_arg, forwarding_arg and positional_arg take that many. Not given, a flag is false, a counting_flag 0 and a forwarding_arg empty; the value of a forwarding_arg is its tokens unchanged.",
  "every list of policies that does not otherwise concern matching, every label and every remaining command line",
  "All policy lists and all command lines.",
  "flag.hpp: flag_t", "counting_flag.hpp: counting_flag_t", "arg.hpp: arg_t", "multi_arg.hpp: multi_arg_t", "forwarding_arg.hpp: forwarding_arg_t", "positional_arg.hpp: positional_arg_t", "help.hpp: help_t", "policy/min_max_count.hpp: add_missing_min_max_policy", "../../docs/related_pages/nodes.doxy")

p("Help made at compile time is the help shown if nothing is switched off",
  "The help formatters can write the help of a node without an instance of the tree (`generate_help<Node, HelpNode, Flatten>(stream)`; a help node does so for a formatter that has no other overload). What they write is the page that lists every node below, whatever is switched off at run time; if nothing is, it is the text that help shows at run time.",
  "every tree that compiles, every node of it, every format, label, description and terminal width",
  "The two pages are made by different code from different data, for all trees and texts",
  "policy/default_help_formatter.hpp: default_line_formatter, default_help_formatter_t, generate_help, line_formatter_dispatch", "policy/colour_help_formatter.hpp: colour_line_formatter", "dependency/detail.hpp: basic_one_of_t, children_help_data_type", "tree_node.hpp: default_leaf_help_data_type", "../../docs/related_pages/help.doxy")

p("What a router does comes last, and what it throws reaches the caller",
  "Whatever the routers of a program do, root.parse(...) ends as the router that it called: it returns if the router returns, an exception of the user's passes through unchanged, and an exception of the library's own is reported with its message. No other router is called, before or after, and the arguments passed and the state left in the tree do not depend on what the routers do.",
  "every tree of nodes in which routers are where the default validator allows them, every command line and history, every way in which routers may end",
  "All trees, command lines and routers, and the code after a call of a router would have to be seen not to run",
  "root.hpp: parse", "mode.hpp: parse", "flag.hpp: parse", "multi_arg_base.hpp: parse", "policy/router.hpp: router", "exception.hpp: multi_lang_exception")

p("What a mode does with the arguments it was given",
  "What happens once the arguments for a mode have been read is determined by the declarations of its children: the router is called with exactly the values the children have for what was typed (read by each one's parser, counted, collected in order, or its default), or exactly one error is reported. The arguments typed are looked at first, one by one in the order typed: each is parsed, then validated, then combined with what was typed before (an error if it may be given once only). Then the children in the order declared: one that has no value and is required is reported, otherwise its default is used, and validated. Then the values of children that may be repeated are validated as a whole. A mode without a router reports an error only after all this. The same holds for a single argument with a router of its own.",
  "every mode with any children and policies, any arguments typed, any history",
  "Any number of arguments in any order with any of them in error: which error is reported, and with which values the router is called, ranges over all of them",
  "mode.hpp: parse, parse_impl, process_result, process_missing_token", "multi_arg_base.hpp: parse", "policy/multi_stage_value.hpp: merge", "policy/required.hpp: missing_phase", "policy/default_value.hpp: missing_phase", "policy/router.hpp: routing_phase")

p("A number in a declaration means that number, whatever its type",
  "The bounds of min_max_value, min_value and max_value and the number of default_value mean the numbers that were written, also if their type is not the type of the argument: a number is accepted exactly if it is at least the minimum and at most the maximum, and reported as below or above otherwise; an argument that is not given has the number declared. Bounds known at compile time leave a number to be accepted.",
  "every two integral types, all bounds, defaults and values of them; every program and command line",
  "All pairs of types and all numbers; C++ converts silently, and tests use the same type for both",
  "policy/min_max_value.hpp: min_max_value_t, min_max_value_ct, validation_phase", "policy/default_value.hpp: default_value, missing_phase")

p("The help page says which program it is about",
  "A program compiles exactly if its name, version, introduction and addendum and the settings of its help formatter are as the reference asks. So the first word of every page of help is the whole name of the program; and on a terminal whose width is not known the page is the one for a terminal of unlimited width.",
  "every name, version, introduction, addendum, indentation and offset, every tree, node asked for and formatter with the heading of the library",
  "All texts, trees and settings, and what does not compile cannot be run in a test",
  "policy/program_name.hpp: program_name_t", "policy/program_version.hpp: program_version_t", "policy/program_intro.hpp: program_intro_t", "policy/program_addendum.hpp: program_addendum_t", "policy/default_help_formatter.hpp: default_help_formatter_t, default_preamble_formatter, default_line_formatter", "utility/terminal.hpp: columns")

p("The order in which policies are declared does not matter to a program",
  "Giving the policies of any of the nodes of a program in another order leaves it compiling exactly if it did, and changes nothing that can be seen when it runs: on every command line it succeeds, or fails with the same error, shows the same help, and calls the same routers with the same arguments, and so do all later parses of the same tree. Only the policies that check a value (min_max_value and those of the user's) and those that stand in for a missing one (default_value, required, runtime_enable_required) have to keep their order among themselves; if they do not, another one of the errors may be reported.",
  "every tree of nodes, every permutation of the policies of every node (of a program that compiles, or in which no policy is given twice; nodes of the same type are permuted alike), every command line and history",
  "All trees and all permutations, of any number of nodes at a time; every order is a different type",
  "tree_node.hpp: priority_ordered_policies_type, pre_parse_impl, phase_finder_t", "mode.hpp: pre_parse_impl, parse_impl, process_missing_token", "multi_arg_base.hpp: parse", "policy/alias.hpp: pre_parse_phase", "policy/dependent.hpp: pre_parse_phase", "utility/utf8/levenshtein_distance.hpp: closest_matching_child_node", "policy/validator.hpp: validator, default_validator", "help.hpp: parse, generate_runtime_help_data", "tree_node.hpp: default_leaf_help_data_type")

p("A new optional argument leaves old command lines alone",
  "If an optional argument with a name is added to a mode of a program, wherever the mode is and wherever among its children, then every command line that does not use it (and does not ask for help) is accepted exactly if it was: the same routers are called with the same arguments, except that the router of that mode gets the default value of the new argument as well, in its place. A command line that was refused is refused with the same error, and nothing else is remembered; only errors about arguments nobody wants may be worded differently, as the new name may be suggested.",
  "every two programs that compile and keep to the conventions of C92 and differ by one named optional argument in one mode (and in their help), every command line of readable tokens that does not use the argument, every history",
  "All programs, all places for the new argument and all old command lines; a test has one program",
  "root.hpp: parse", "mode.hpp: pre_parse_impl, parse_impl, process_result, process_missing_token", "tree_node.hpp: pre_parse_impl", "policy/default_value.hpp: missing_phase", "utility/utf8/levenshtein_distance.hpp: closest_matching_child_node")

p("A new mode or argument beside the others leaves old command lines alone",
  "If a mode with a name, or an argument, is added directly below the root of a program, wherever among its children, then every command line that does not begin with its name (and does not ask for help) has exactly the outcome it had: the same error or the same calls of routers with the same arguments, and the same is remembered. Only errors about arguments nobody wants may be worded differently, as the new name may be suggested.",
  "every two programs that compile and keep to the conventions of C92 and differ by one child of the root (and in their help), every command line of readable tokens that does not begin with its name, every history",
  "All programs, all new modes with any contents and all old command lines; a test has one program",
  "root.hpp: parse", "mode.hpp: pre_parse_impl, parse_impl", "tree_node.hpp: pre_parse_impl", "utility/utf8/levenshtein_distance.hpp: closest_matching_child_node")

p("What is switched off is as if it were not there",
  "A program with an optional argument that is switched off by runtime_enable does with every command line (that does not ask for help), also with one that names the argument, what the program without that argument does: the same error, or the same routers called with the same arguments, except that the router of the mode gets the default value of the argument in its place. A mode with a name or an argument directly below the root that is switched off makes no difference at all. Only errors about arguments nobody wants may be worded differently.",
  "every two programs that compile and keep to the conventions of C92 and differ by one switched-off argument or named mode (and in their help), every command line of readable tokens, every history",
  "All programs, all places for the argument and all command lines, also those with the name of what is switched off",
  "policy/runtime_enable.hpp: pre_parse_phase, runtime_enabled", "root.hpp: parse", "mode.hpp: pre_parse_impl, parse_impl, process_result, process_missing_token", "tree_node.hpp: pre_parse_impl", "policy/default_value.hpp: missing_phase")

p("The order in which arguments and modes are declared shows only in the order of the router's arguments",
  "If two neighbouring arguments (or groups of arguments) of a mode, with names and independent of each other, are declared in the other order, then every command line (that does not ask for help) is accepted exactly if it was: the same routers are called with the same arguments, except that the router of that mode gets the two values in the other order. A command line that was refused is refused with the same error, unless both arguments cause one: then each program reports that of the argument it declares first. Modes and arguments directly below the root may be given in any order (an anonymous mode last) as long as no two share a name: it makes no difference at all. Only errors about arguments nobody wants may be worded differently. (Two modes of one name compile: then the first one runs.)",
  "every two programs that compile and keep to the conventions of C92 and differ by the order of two arguments of a mode at any depth, or of all children of the root (and in their help), every command line of readable tokens, every history",
  "All programs, all orders and all command lines; every order is a different type, and a test has one",
  "root.hpp: parse", "mode.hpp: pre_parse_impl, parse_impl, process_result, process_missing_token", "tree_node.hpp: pre_parse_impl", "policy/alias.hpp: pre_parse_phase", "policy/dependent.hpp: pre_parse_phase", "utility/utf8/levenshtein_distance.hpp: closest_matching_child_node")

p("The order in which arguments are typed makes no difference",
  "On a command line for a mode, arguments given by label with all their values may be typed in any order as long as they are independent of each other (given to different children of the mode, for values of different children, neither needing the other): the outcome and the calls, with the same arguments, are the same, whatever follows them on the command line. Two neighbours that are both wrong are the exception: the one that is typed first is reported, exactly as if the command line ended with it.",
  "every program that compiles and keeps to the conventions of C92, every mode of it, every list of arguments and every permutation of it, with labels, separators, end markers, aliases, dependencies and one_of groups, every rest of the command line of readable tokens, every history",
  "All programs, all arguments, all permutations and all kinds of failure; a test has one order of one program",
  "mode.hpp: pre_parse_impl, parse_impl, process_result", "dependency/one_of.hpp: pre_parse", "tree_node.hpp: pre_parse_impl", "policy/dependent.hpp: pre_parse_phase", "policy/alias.hpp: pre_parse_phase")

p("All labels of an argument are the same",
  "On a command line for a mode, any number of the arguments may be typed with other labels of theirs (the short name for the long one, say), with the same values: the outcome, the calls and what is remembered are the same, whatever follows. Only the error about an argument that has been given before names it as it was typed.",
  "every program that compiles and keeps to the conventions of C92, every mode of it, every list of arguments in two spellings, every rest of the command line of readable tokens, every history",
  "All programs, all arguments and all combinations of spellings",
  "tree_node.hpp: pre_parse_impl", "mode.hpp: pre_parse_impl", "parsing/token_type.hpp: get_token_type", "parsing/parsing.hpp: match")

p("Giving an optional argument its default value is the same as leaving it out",
  "On a command line for a mode, an optional argument of the mode that is given its default value may be left out, provided no other argument needs it: if the command line was accepted it is accepted without it, and the same routers are called with the same arguments. The other way round, if a command line that does not use the argument is accepted, then the argument may be added with its default value, anywhere between whole arguments: the outcome, the calls and what is remembered are the same. (The argument is for one value, is the only one of its type, no alias stands for it and it needs no other.)",
  "every program that compiles and keeps to the conventions of C92, every mode of it, every optional argument and its default value, every list of arguments before it and every rest of the command line of readable tokens, every history",
  "All programs, all default values, all places on all command lines; a test has one",
  "mode.hpp: pre_parse_impl, parse_impl, process_result, process_missing_token", "policy/default_value.hpp: missing_phase", "tree_node.hpp: pre_parse_impl", "policy/dependent.hpp: pre_parse_phase")

p("A program that is less strict does the same with what was accepted",
  "If checks of values (min_max_value and those of the user's) are dropped or weakened, anywhere in a program and for any number of arguments, or arguments that were required may be left out, then every command line that was accepted is still accepted, and the same routers are called with the same arguments. A command line that was refused is refused with the same error, unless a required argument was missing, a value was out of bounds or a check of the user's failed. The other way round, making a program stricter in these ways only adds refusals of these kinds. (Default values have to stay: if one changes, the routers get the new one.)",
  "every two trees of nodes of the same shape of which one is less strict, every command line and history",
  "All programs, all checks and all command lines; a test has one program",
  "mode.hpp: parse_impl, process_missing_token, multi_stage_validation", "multi_arg_base.hpp: parse", "policy/min_max_value.hpp: validation_phase", "policy/required.hpp: missing_phase", "policy/default_value.hpp: missing_phase")

p("Typing an alias is the same as typing the arguments it stands for",
  "On a command line for a mode, an alias with its values may be replaced by the arguments it stands for, each by label and with those values, in the order of their declaration, and the other way round: if one of the two command lines is accepted, then so is the other, the same routers are called with the same arguments and the same is remembered, whatever else is on the command line. (The arguments and the alias are children of the mode of their own, need no other arguments, are no aliases of others, and may be repeated or are not used in the rest of the command line.) An argument that needs another is the exception: through its alias it may be given without the other, directly it may not.",
  "every program that compiles and keeps to the conventions of C92, every mode of it, every alias and every values, every list of arguments before it and every rest of the command line of readable tokens, every history",
  "All programs, all aliases and all places on all command lines; a test has one",
  "policy/alias.hpp: pre_parse_phase", "mode.hpp: pre_parse_impl, parse_impl, process_result", "tree_node.hpp: pre_parse_impl", "policy/dependent.hpp: pre_parse_phase")

p("Another value of an argument makes a difference to nothing else",
  "If on a command line for a mode an argument that can be given once is given with another value, then the router gets this value in its place and all other values are the same, or both command lines fail, for the same reason (only the error about an argument that has been given before names the argument as it was typed). What the value is never decides how the rest of the command line is read. If the value is one the argument cannot have, then a command line that was accepted fails with exactly the error that the value causes, and no router is called.",
  "every program that compiles and keeps to the conventions of C92, every mode of it, every argument with a name and any two values of it, every list of arguments before it and every rest of the command line of readable tokens, every history",
  "All programs, all values (also those that look like labels) and all command lines; a test has one value",
  "mode.hpp: pre_parse_impl, parse_impl, process_result, process_missing_token, multi_stage_validation", "multi_arg_base.hpp: parse", "tree_node.hpp: pre_parse_impl, parse")

p("A mode does the same wherever it is in a program and whatever it is called",
  "If two programs have modes with the same arguments (children), where each is reached by its own names (or without any, as the only mode), and what is typed after the names is the same, then the two programs do the same: each calls the router of its mode, with the same values, or both fail without a call, with the same error about the same tokens, including the suggestion for an unknown argument. So the only mode of a program can become a command, or a command can be renamed or put into another one, and the rest of each command line keeps its meaning. Only the error about a mode that has no router names the mode.",
  "every two programs that compile and keep to the conventions of C92, every two modes of them with the same children, every rest of a command line of readable tokens, every history",
  "All programs, all places of the mode and all command lines; a test has one program",
  "mode.hpp: pre_parse_impl, parse_impl", "root.hpp: parse", "policy/alias.hpp: pre_parse_phase", "policy/dependent.hpp: pre_parse_phase", "utility/utf8/levenshtein_distance.hpp: closest_matching_child_node")

p("What is typed after an error does not change it",
  "If, in the reading of a command line for a mode, there is a token that is unknown, an argument that is given a second time, one that is given beside an alternative of it, without what it needs or without its separator, or a list with too many values, then the command line with anything typed after it does exactly the same: the same error about the same tokens, with the same suggestion, nothing is called and the same is remembered. If a command line is too long, the error shows all that is left, so also what is typed after it. (The other errors can be undone by typing more: a missing value or a missing argument can be supplied.) The exception is a list with an end marker that also needs other arguments: it may get too long instead.",
  "every program that compiles and keeps to the conventions of C92, every mode of it, every command line of readable tokens with such an error and every continuation of it, every history",
  "All programs, all command lines and all continuations; a test has one",
  "mode.hpp: pre_parse_impl", "tree_node.hpp: pre_parse_impl", "policy/min_max_count.hpp: pre_parse_phase", "policy/token_end_marker.hpp: pre_parse_phase", "policy/dependent.hpp: pre_parse_phase", "dependency/one_of.hpp: pre_parse", "parsing/unknown_argument_handling.hpp: unknown_argument_exception")

p("New labels leave old command lines alone",
  "If arguments of a mode that have a label get another one (a long name beside the short name, or the other way round), and perhaps other names for messages, then every command line on which the new labels are not used does the same as before: the same router is called with the same values and the same alternatives are remembered; or it fails with the same error, about the same tokens or the same arguments (which may be called by another of their names in the message); or as before there is something that no argument wants, where only the suggestion can differ. Not used means: no token is a new label, has it before a separator, or is collapsed short flags with it, and no alias or dependency refers to it.",
  "every two programs that compile and keep to the conventions of C92 and every two modes of them of which one is the other with more labels (on any number of arguments, at any depth), every command line of readable tokens that does not use the new labels, every history",
  "All programs, all sets of new labels and all old command lines; a test has one",
  "tree_node.hpp: pre_parse_impl", "mode.hpp: pre_parse_impl, parse_impl", "parsing/parsing.hpp: match", "policy/short_form_expander.hpp: pre_parse_phase", "policy/value_separator.hpp: pre_parse_phase", "policy/alias.hpp: pre_parse_phase", "policy/dependent.hpp: pre_parse_phase")

p("A proper command line is accepted",
  "If the arguments on a command line for a mode are each typed as declared (a label and as many values as it takes, or the words of a positional argument at the end), those that can be given once are given once, those that an argument needs come before it and of a one_of only one alternative is used, then the router is called if and only if each value typed is one its argument can have and each argument of the mode gets a value, from what is typed or its default, that is within its limits; and these are the values the router gets, in the order of declaration. Otherwise nothing is called.",
  "every program that compiles and keeps to the conventions of C92, every mode of it with a router, every such list of typed arguments of readable tokens (aliases not among them), every history",
  "All programs and all lists of arguments; a test has one of each",
  "mode.hpp: pre_parse_impl, parse_impl, process_result, process_missing_token, multi_stage_validation", "tree_node.hpp: pre_parse_impl, parse", "multi_arg_base.hpp: parse", "root.hpp: parse")

p("How arguments are called and typed makes no difference to what is done with them",
  "If two programs have modes with the same arguments as far as their values go (types, defaults, limits, checks, what is required), then it makes no difference how the arguments are called, described and typed: with which names, prefixes, separators, end markers and numbers of values, and after which others. Whoever types the same arguments with the same values in the same order, each in the way of the program, gets the same: the routers of the modes are called with the same values, or nothing is called and there is the same error, about the same argument. So all names in a program and in its command lines can be exchanged for others.",
  "every two programs that compile and keep to the conventions of C92 (also with different prefixes), every two such modes of them, every two such proper command lines (C123) of readable tokens, every two histories",
  "All programs, all ways of calling and typing their arguments and all command lines; a test has one of each",
  "mode.hpp: parse_impl, process_result, process_missing_token, multi_stage_validation", "multi_arg_base.hpp: parse", "tree_node.hpp: pre_parse_impl, parse", "parsing/parsing.hpp: match", "policy/value_separator.hpp: pre_parse_phase", "policy/dependent.hpp: pre_parse_phase")

p("Doing what the error messages say leads to success",
  "If required arguments are missing on an otherwise proper command line, the error names the one of them that is declared first, by its name, and nothing is called. Someone who adds each time the argument the error names (with a value it can have) is told about the next one each time, and has got the router called when none is missing: there are as many errors as there were missing arguments.",
  "every program that compiles and keeps to the conventions of C92, every mode of it with a router, every accepted proper command line (C123) and every number of required arguments at its end, every history",
  "All programs and all sets of missing arguments; a test has one",
  "mode.hpp: parse_impl, process_missing_token", "policy/required.hpp: missing_phase", "tree_node.hpp: pre_parse_impl, parse")

p("Values that are handed over arrive",
  "A program that starts another one may write values on its command line: numbers in decimal notation, texts as they are, truth values as true or false, flags and counting flags as often as they count, lists as the number of values the argument takes or up to its end marker, the values of the last positional argument one after the other, and nothing for those that have their default anyway; a value may be joined to the label with the separator of the argument (unless it is the empty text). Then the router is called with exactly these values, in the order of declaration; a text may be anything, also a label of another argument. Every number that a type of more than eight bits can hold can be written like this.",
  "every program that compiles and keeps to the conventions of C92, every mode of it with a router and arguments of the types of the library that do not depend on each other, all values for them that their limits allow, all ways to write them in readable tokens, every history",
  "All programs and all values; a test has one of each",
  "parsing/global_parser.hpp: parse", "multi_arg_base.hpp: parse", "counting_flag.hpp: merge_impl", "flag.hpp: parse", "mode.hpp: pre_parse_impl, parse_impl", "tree_node.hpp: pre_parse_impl, parse")

p("Characters have the properties that Unicode gives them",
  "A text takes as many columns on a terminal as version 14 of the Unicode character database gives its characters: two for each that is wide or fullwidth (and for the unassigned code points of the blocks that are wide by default), none for each other nonspacing or enclosing mark, one for each other character. Characters are joined to clusters by the classes of UAX #29, table 2, and lines are broken by those of UAX #14, section 5.1, resolved as its rule LB1 says (for three code points only as far as the classes are given by list or by general category); no assigned character is without a line breaking class.",
  "every text of characters that the decoder handles (C34); for the classes every code point",
  "There are more than a million code points, and any table entry may be wrong; tests look at a few",
  "utility/utf8/double_width.hpp: double_width_table", "utility/utf8/zero_width.hpp: zero_width_table", "utility/utf8/grapheme_cluster_break.hpp: grapheme_cluster_break_table", "utility/utf8/line_break.hpp: line_break_table", "utility/utf8.hpp: terminal_width")

with open('/verif/properties.jsonl','w') as f:
    for x in P: f.write(json.dumps(x,ensure_ascii=False)+'\n')
print(len(P))
