{"id": "C01", "title": "Token classification loses nothing", "statement": "Classifying a raw command line string into (prefix, name) and printing the token again gives back exactly the original string, with or without a node to guide the classification.", "quantifier": "every byte string and every combination of node names", "why_tests_cant": "The domain is all byte strings; a test only tries a handful of spellings.", "anchors": ["include/arg_router/parsing/token_type.hpp: get_token_type, to_string"]}
{"id": "C02", "title": "A raw argument selects a named node exactly when it is spelled prefix+name", "statement": "A raw command line string selects a named node if and only if it equals the long prefix followed by the long name, or the short prefix followed by the short name (and does not start with the long prefix), or the bare none-name; no other string selects it.", "quantifier": "every byte string and every node name set", "why_tests_cant": "The 'only if' half is a statement about all strings that must not match.", "anchors": ["include/arg_router/parsing/parsing.hpp: match", "include/arg_router/parsing/token_type.hpp: get_token_type", "include/arg_router/tree_node.hpp: pre_parse_impl"]}
{"id": "C03", "title": "The token adapter reads and writes like one list", "statement": "Reading, iterating, sizing, overwriting, inserting into and erasing from the adapter over (processed, unprocessed) has the same observable effect as doing so on the single list processed followed by unprocessed.", "quantifier": "every pair of token lists, every in-range position, every token", "why_tests_cant": "The behaviour depends on where the processed/unprocessed boundary lies relative to the position, for all lengths.", "anchors": ["include/arg_router/parsing/dynamic_token_adapter.hpp: iterator, insert, erase, set"]}
{"id": "C04", "title": "Transferring tokens only moves the boundary", "statement": "Transferring up to a position never loses, duplicates, reorders or alters a token, never shrinks the processed part, and leaves exactly the tokens up to and including that position processed.", "quantifier": "every adapter state and iterator position, including end and negative offsets", "why_tests_cant": "Holds for all lengths and all histories of transfers.", "anchors": ["include/arg_router/parsing/dynamic_token_adapter.hpp: transfer"]}
{"id": "C05", "title": "A node that does not match leaves the command line alone", "statement": "If a leaf node's pre-parse reports no match, or throws, the caller's remaining arguments are exactly what they were before the call.", "quantifier": "every node, every policy set, every argument list, every validator", "why_tests_cant": "Policies rewrite tokens destructively while deciding; only a proof over all policy sets shows none of it leaks.", "anchors": ["include/arg_router/tree_node.hpp: pre_parse_impl"]}
{"id": "C06", "title": "A matching node accounts for every token", "statement": "For a node without token-rewriting policies, a match splits the command line into label (if named), the node's value tokens and the remaining arguments, in that order, with nothing lost or reordered.", "quantifier": "every such node and every argument list", "why_tests_cant": "Conservation over all argument lists cannot be enumerated.", "anchors": ["include/arg_router/tree_node.hpp: pre_parse_impl", "include/arg_router/policy/min_max_count.hpp: pre_parse_phase"]}
{"id": "C07", "title": "Value counts respect the declared minimum and maximum", "statement": "A matching node with declared counts gets exactly min(max, available) value tokens, which is at least the declared minimum; if fewer than the minimum are available the parse fails with minimum_count_not_reached.", "quantifier": "every count range including unbounded, named or not, every argument list", "why_tests_cant": "Unbounded ranges and size_t wrap-around are not covered by sampled counts.", "anchors": ["include/arg_router/policy/min_max_count.hpp: pre_parse_phase"]}
{"id": "C08", "title": "Value separator splits at the first separator only", "statement": "With a value separator, '<label><sep><value>' is treated as the label followed by the value, where the value is everything after the first separator; a lone label is rejected with missing_value_separator; '<label><sep>' with nothing after it does not match.", "quantifier": "every label, separator and value (values may contain further separators)", "why_tests_cant": "Quantifies over all value strings and separators, including multi-byte ones.", "anchors": ["include/arg_router/policy/value_separator.hpp: pre_parse_phase"]}
{"id": "C09", "title": "Collapsed short flags mean the same as separate ones", "statement": "Writing '-xyz' has the same effect as writing '-x -y -z' for short-named flags, whatever follows on the command line.", "quantifier": "every sequence of short flags and every continuation of the command line", "why_tests_cant": "All lengths of collapsed groups and all continuations.", "anchors": ["include/arg_router/policy/short_form_expander.hpp: pre_parse_phase", "include/arg_router/flag.hpp: flag", "include/arg_router/counting_flag.hpp: counting_flag"]}
{"id": "C10", "title": "A token end marker ends the list it belongs to", "statement": "A node with an end marker receives exactly the tokens before the first occurrence of the marker, the marker itself is dropped, and every later token stays available to later nodes.", "quantifier": "every marker, every argument list, every count range", "why_tests_cant": "Needs all positions of the marker (including first) and all count limits.", "anchors": ["include/arg_router/policy/token_end_marker.hpp: pre_parse_phase", "include/arg_router/policy/min_max_count.hpp: pre_parse_phase"]}
{"id": "C11", "title": "A runtime-disabled node can never be selected", "statement": "A leaf node or named mode whose runtime_enable policy is false never matches any command line, whatever its other policies are.", "quantifier": "every argument list and policy set", "why_tests_cant": "A negative statement about all inputs.", "anchors": ["include/arg_router/policy/runtime_enable.hpp: runtime_enable", "include/arg_router/tree_node.hpp: pre_parse_impl"]}
{"id": "C12", "title": "Dependent arguments are only accepted after their dependencies", "statement": "A node with a dependent policy matches only if every argument it depends on has already been seen in the same mode; otherwise the parse fails with dependent_argument_missing naming the first missing dependency.", "quantifier": "every dependency list and every history of previously matched arguments", "why_tests_cant": "All interleavings of arguments on the command line.", "anchors": ["include/arg_router/policy/dependent.hpp: pre_parse_phase"]}
{"id": "C13", "title": "An alias stands for its targets", "statement": "Using an alias followed by its values has the same effect on each aliased argument as giving that argument those values directly, and consumes exactly the alias label and its values.", "quantifier": "every alias list, every value count, every command line", "why_tests_cant": "Covers all trees and all value tokens, including chains of aliases.", "anchors": ["include/arg_router/policy/alias.hpp: pre_parse_phase"]}
{"id": "C14", "title": "Only one alternative of a one_of can be used", "statement": "Within one parse, once an alternative of a one_of has been used, any other alternative of it is rejected with one_of_selected_type_mismatch.", "quantifier": "every one_of, every order of alternatives, every command line", "why_tests_cant": "All sequences of alternatives.", "anchors": ["include/arg_router/dependency/one_of.hpp: pre_parse"]}
{"id": "C15", "title": "Parsing does not remember earlier parses", "statement": "The outcome of root.parse depends only on the tree and the arguments: parsing the same arguments again with the same root object gives the same outcome, whatever was parsed before.", "quantifier": "every history of earlier parse calls on the same root object", "why_tests_cant": "History-dependence is only visible across unbounded sequences of calls.", "anchors": ["include/arg_router/dependency/one_of.hpp: pre_parse, last_typeid_", "include/arg_router/root.hpp: parse"]}
{"id": "C16", "title": "An alias_group takes the first child that matches", "statement": "An alias_group matches exactly when one of its children matches, and then behaves as the first such child in declaration order.", "quantifier": "every group and every command line", "why_tests_cant": "All child lists and inputs.", "anchors": ["include/arg_router/dependency/alias_group.hpp: pre_parse"]}
{"id": "C17", "title": "Order of policies in a declaration is irrelevant to matching", "statement": "Permuting the policies given to a node does not change which command lines it matches or which tokens it takes.", "quantifier": "every permutation of every policy list with distinct priorities", "why_tests_cant": "Factorially many permutations.", "anchors": ["include/arg_router/tree_node.hpp: priority_ordered_policies_type, pre_parse_impl"]}
{"id": "C18", "title": "Pre-parsing a mode always terminates", "statement": "The argument-consuming loop of a mode terminates on every command line.", "quantifier": "every mode tree with non-empty names and every argument list", "why_tests_cant": "Termination is not testable; short-form expansion makes the argument list grow.", "anchors": ["include/arg_router/mode.hpp: pre_parse_impl"]}
{"id": "C19", "title": "A mode succeeds only if it consumed the whole command line", "statement": "If pre-parsing a mode returns a target, no argument is left unconsumed, and every sub-target belongs to one of the mode's nodes.", "quantifier": "every mode and argument list", "why_tests_cant": "All inputs.", "anchors": ["include/arg_router/mode.hpp: pre_parse_impl"]}
{"id": "C20", "title": "Router arguments follow declaration order, one per value-bearing child", "statement": "When a mode's router is called it gets exactly one argument per child that has a value, in declaration order, each either the value parsed from that child's tokens or that child's missing-value fallback, independent of the order on the command line.", "quantifier": "every mode, every set of matched sub-targets in every order", "why_tests_cant": "All orders and subsets of arguments.", "anchors": ["include/arg_router/mode.hpp: parse_impl, process_result, process_missing_token"]}
{"id": "C21", "title": "A missing required argument fails the parse", "statement": "If a required child was not given a value, the parse fails and the router is not called; unless something else is wrong first, the error is missing_required_argument and names that child.", "quantifier": "every mode and every command line not mentioning the child", "why_tests_cant": "All command lines.", "anchors": ["include/arg_router/policy/required.hpp: missing_phase", "include/arg_router/policy/runtime_enable.hpp: runtime_enable_required", "include/arg_router/mode.hpp: process_missing_token"]}
{"id": "C22", "title": "A missing optional argument gets its default", "statement": "If a child with a default value was not given a value the router receives exactly that default; without a default it receives a default-constructed value; flags receive false.", "quantifier": "every mode and every command line not mentioning the child", "why_tests_cant": "All command lines and all sibling configurations.", "anchors": ["include/arg_router/policy/default_value.hpp: missing_phase", "include/arg_router/mode.hpp: process_missing_token", "include/arg_router/flag.hpp: flag_t"]}
{"id": "C23", "title": "Giving a single-use argument twice is an error", "statement": "A named argument that is not a counting flag can be matched at most once per parse; a second occurrence fails with argument_has_already_been_set, also when the second value comes through an alias.", "quantifier": "every command line", "why_tests_cant": "All positions of the repetition.", "anchors": ["include/arg_router/mode.hpp: verify_match, process_result"]}
{"id": "C24", "title": "A counting flag's value is its number of occurrences", "statement": "The value routed for a counting flag is the number of times it was matched, in any position and mixture.", "quantifier": "every number of occurrences and every interleaving", "why_tests_cant": "Unbounded number of repetitions.", "anchors": ["include/arg_router/counting_flag.hpp: merge_impl", "include/arg_router/mode.hpp: process_result"]}
{"id": "C25", "title": "Bounded values reach the router only within their bounds", "statement": "If a value-bearing child has a min/max value policy then any value routed for it lies within the inclusive bounds, whether it came from the command line, a default, or counting; a value outside fails with minimum_value_not_reached or maximum_value_exceeded. Likewise a value that a validation policy of the user's objects to is not routed, and what that policy throws ends the parse.", "quantifier": "every value, bound pair, validation policy of the user's and source of the value", "why_tests_cant": "All integers and all sources.", "anchors": ["include/arg_router/policy/min_max_value.hpp: validation_phase", "include/arg_router/multi_arg_base.hpp: parse", "include/arg_router/mode.hpp: process_missing_token, multi_stage_validation"]}
{"id": "C26", "title": "A parse calls at most one router and none if it fails", "statement": "One call of root.parse invokes at most one router, invokes it after everything else has succeeded, and if the parse throws no router has been invoked.", "quantifier": "every tree and every argument list", "why_tests_cant": "All trees and failure points.", "anchors": ["include/arg_router/root.hpp: parse", "include/arg_router/mode.hpp: parse_impl", "include/arg_router/multi_arg_base.hpp: parse", "include/arg_router/flag.hpp: parse"]}
{"id": "C27", "title": "Named arguments can be given in any order", "statement": "For a mode of distinct-named flags, counting flags and fixed-count arguments, the router arguments depend only on which groups (label with its values) appear, not on the order of the groups.", "quantifier": "every permutation of every well-formed sequence of groups", "why_tests_cant": "Factorially many orders of unboundedly many groups.", "anchors": ["include/arg_router/mode.hpp: pre_parse_impl, parse_impl"]}
{"id": "C28", "title": "Root children are tried in order and are mutually exclusive", "statement": "root.parse hands the command line to the first child that matches; if that child leaves arguments over, the parse fails with unhandled_arguments carrying exactly the leftovers, and no other child runs.", "quantifier": "every tree and argument list", "why_tests_cant": "All inputs.", "anchors": ["include/arg_router/root.hpp: parse"]}
{"id": "C29", "title": "Unmatched command lines are reported as unknown or empty", "statement": "If no child of the root matches, the parse fails with no_arguments_passed when the command line is empty and otherwise with unknown_argument or unknown_argument_with_suggestion carrying the first argument.", "quantifier": "every argument list that matches nothing", "why_tests_cant": "All inputs.", "anchors": ["include/arg_router/root.hpp: parse", "include/arg_router/parsing/unknown_argument_handling.hpp: unknown_argument_exception"]}
{"id": "C30", "title": "The suggested argument is a closest enabled one", "statement": "When an unknown argument is reported with a suggestion, the suggested node is enabled (as are all its ancestors) and no enabled named node below the reporting node has a smaller edit distance; earlier nodes win ties; there is no suggestion only if there is no enabled named node.", "quantifier": "every tree, every unknown token", "why_tests_cant": "Minimality quantifies over all nodes and strings.", "anchors": ["include/arg_router/utility/utf8/levenshtein_distance.hpp: closest_matching_child_node", "include/arg_router/parsing/unknown_argument_handling.hpp: unknown_argument_exception"]}
{"id": "C31", "title": "The similarity score is the true edit distance", "statement": "The distance between two strings is the length of a shortest sequence of single-character insertions, deletions and substitutions turning one into the other, where characters are grapheme clusters.", "quantifier": "every pair of strings", "why_tests_cant": "Minimality over all edit scripts.", "anchors": ["include/arg_router/utility/utf8/levenshtein_distance.hpp: levenshtein_distance"]}
{"id": "C32", "title": "Nested modes are selected by their path", "statement": "A command line that starts with the names of a chain of nested modes is handled by the deepest mode of the chain; the remaining arguments go to it.", "quantifier": "every nesting depth and tree", "why_tests_cant": "Unbounded nesting.", "anchors": ["include/arg_router/mode.hpp: pre_parse_impl"]}
{"id": "C33", "title": "Trees without one_of are history independent", "statement": "For a tree containing no one_of, root.parse leaves no trace: any sequence of earlier parses has no influence on a later one.", "quantifier": "every such tree and every history", "why_tests_cant": "Unbounded histories.", "anchors": ["include/arg_router/root.hpp: parse", "include/arg_router/mode.hpp: pre_parse_impl"]}
{"id": "C34", "title": "Decoding inverts UTF-8 encoding", "statement": "Decoding the UTF-8 encoding of a Unicode scalar value yields that scalar, and its measured size is the length of the encoding.", "quantifier": "all 1,112,064 scalar values and any following text", "why_tests_cant": "Tests sample a few characters; the boundaries of the lead-byte classes are what matters.", "anchors": ["include/arg_router/utility/utf8/code_point.hpp: size, decode"]}
{"id": "C35", "title": "Iterating code points walks well-formed text exactly", "statement": "Iterating the code points of a well-formed UTF-8 string yields exactly its characters in order and never steps outside the string.", "quantifier": "every well-formed string", "why_tests_cant": "Memory safety for all strings, including every last character.", "anchors": ["include/arg_router/utility/utf8/code_point.hpp: iterator"]}
{"id": "C36", "title": "Code point count", "statement": "The code point count of a well-formed UTF-8 string is its number of characters.", "quantifier": "every well-formed string", "why_tests_cant": "All strings.", "anchors": ["include/arg_router/utility/utf8/code_point.hpp: count"]}
{"id": "C37", "title": "Range entries survive packing", "statement": "Packing a code point range with metadata into the compact table entry and reading it back gives the same first, last and metadata.", "quantifier": "all 21-bit code point pairs and 6-bit metadata", "why_tests_cant": "2^48 combinations.", "anchors": ["include/arg_router/utility/utf8/code_point.hpp: range"]}
{"id": "C38", "title": "Table lookup is exact", "statement": "Looking a code point up in a sorted table of disjoint ranges finds a range containing it if and only if one exists; and the five shipped Unicode tables are sorted and disjoint.", "quantifier": "every code point, every sorted table, all shipped tables", "why_tests_cant": "Binary search correctness for all tables; all 1.1M code points.", "anchors": ["include/arg_router/utility/utf8.hpp: find_range", "include/arg_router/utility/utf8/grapheme_cluster_break.hpp", "include/arg_router/utility/utf8/line_break.hpp", "include/arg_router/utility/utf8/double_width.hpp", "include/arg_router/utility/utf8/zero_width.hpp", "include/arg_router/utility/utf8/whitespace.hpp"]}
{"id": "C39", "title": "Whitespace detection", "statement": "A string is reported to contain whitespace if and only if one of its characters is a Unicode White_Space character.", "quantifier": "every well-formed string", "why_tests_cant": "All strings and all code points.", "anchors": ["include/arg_router/utility/utf8.hpp: is_whitespace, contains_whitespace", "include/arg_router/utility/utf8/whitespace.hpp"]}
{"id": "C40", "title": "Terminal width is additive and bounded", "statement": "The terminal width of a concatenation of well-formed strings is the sum of the widths, is at most twice the number of characters, and equals the length for printable ASCII.", "quantifier": "every pair of well-formed strings", "why_tests_cant": "All strings.", "anchors": ["include/arg_router/utility/utf8.hpp: terminal_width"]}
{"id": "C41", "title": "Grapheme clusters partition the text", "statement": "Iterating grapheme clusters yields non-empty pieces whose concatenation is the string; the iteration terminates and a cluster boundary is always a character boundary.", "quantifier": "every well-formed string", "why_tests_cant": "All strings.", "anchors": ["include/arg_router/utility/utf8.hpp: iterator"]}
{"id": "C42", "title": "ASCII text has one cluster per character", "statement": "In ASCII text every character is its own grapheme cluster except that CR LF is a single cluster.", "quantifier": "every ASCII string", "why_tests_cant": "All ASCII strings.", "anchors": ["include/arg_router/utility/utf8.hpp: iterator", "include/arg_router/utility/utf8/grapheme_cluster_break.hpp"]}
{"id": "C43", "title": "Clusters never start with a combining mark, and controls stand alone", "statement": "No grapheme cluster boundary separates a character from a following combining mark, joiner or spacing mark, except after a control character, which always stands alone (UAX #29 GB4, GB5, GB9, GB9a).", "quantifier": "every well-formed string", "why_tests_cant": "All strings.", "anchors": ["include/arg_router/utility/utf8.hpp: iterator", "include/arg_router/utility/utf8/grapheme_cluster_break.hpp"]}
{"id": "C44", "title": "Regional indicators pair up", "statement": "A run of regional indicators is divided into clusters of two, with a final single one if the run is odd (UAX #29 GB12/13).", "quantifier": "every run length", "why_tests_cant": "Unbounded run length; the implementation keeps a bounded window.", "anchors": ["include/arg_router/utility/utf8/grapheme_cluster_break.hpp: GB12_13", "include/arg_router/utility/utf8.hpp: iterator"]}
{"id": "C45", "title": "Wrapped lines fit", "statement": "Every line produced by the line wrapper is at most the requested number of terminal columns wide.", "quantifier": "every well-formed text and every column count", "why_tests_cant": "All texts and widths.", "anchors": ["include/arg_router/utility/utf8.hpp: line_iterator"]}
{"id": "C46", "title": "Wrapping loses only whitespace at line starts", "statement": "The lines in order are disjoint pieces of the text, and what is dropped between two lines is only whitespace.", "quantifier": "every well-formed text and every column count", "why_tests_cant": "All texts and widths.", "anchors": ["include/arg_router/utility/utf8.hpp: line_iterator"]}
{"id": "C47", "title": "Wrapping terminates", "statement": "Iterating the lines of any text at any column count terminates.", "quantifier": "every well-formed text and every column count", "why_tests_cant": "Termination is not testable.", "anchors": ["include/arg_router/utility/utf8.hpp: line_iterator"]}
{"id": "C48", "title": "Wrapping breaks at an allowed opportunity when there is one", "statement": "A line is only broken inside an unbreakable run when no break opportunity fits on the line; a line boundary never splits a character.", "quantifier": "every well-formed text and every column count", "why_tests_cant": "All texts and widths.", "anchors": ["include/arg_router/utility/utf8.hpp: line_iterator", "include/arg_router/utility/utf8/line_break.hpp"]}
{"id": "C49", "title": "Integers are rendered in decimal", "statement": "Converting an integer to a compile-time string (used for value ranges and counts in help output) gives its decimal representation.", "quantifier": "every integer", "why_tests_cant": "All integers; tests happen to use numbers without zeros.", "anchors": ["include/arg_router/utility/compile_time_string.hpp: convert_integral_to_cts", "include/arg_router/math.hpp: num_digits, pow"]}
{"id": "C50", "title": "Digit count", "statement": "The number of digits computed for an integer is the length of its decimal representation.", "quantifier": "every integer", "why_tests_cant": "All integers.", "anchors": ["include/arg_router/math.hpp: num_digits"]}
{"id": "C51", "title": "Help labels fit in front of the description column", "statement": "The description column lies strictly to the right of every printed label at its indentation, so descriptions are aligned and never overlap a label.", "quantifier": "every help tree of any depth", "why_tests_cant": "Unbounded trees.", "anchors": ["include/arg_router/policy/default_help_formatter.hpp: description_column_start", "include/arg_router/policy/colour_help_formatter.hpp"]}
{"id": "C52", "title": "Help output respects the terminal width", "statement": "Each line of wrapped description text fits between the description column and the requested number of columns.", "quantifier": "every help tree, every column count wide enough", "why_tests_cant": "Unbounded trees and texts.", "anchors": ["include/arg_router/policy/default_help_formatter.hpp: default_line_formatter, format"]}
{"id": "C53", "title": "Help target lookup is safe and follows the path", "statement": "Asking for help on a path of names either selects the node reached by following those names through the tree or fails with unknown_argument naming the first name that cannot be followed; it never has undefined behaviour.", "quantifier": "every tree and every path", "why_tests_cant": "All paths, including ones ending on disabled nodes.", "anchors": ["include/arg_router/help.hpp: find_help_target"]}
{"id": "C54", "title": "Help hides disabled nodes", "statement": "Runtime help data contains exactly the enabled nodes below the target, in declaration order; nothing below a disabled node is shown.", "quantifier": "every tree", "why_tests_cant": "Unbounded trees.", "anchors": ["include/arg_router/help.hpp: generate_runtime_help_data", "include/arg_router/tree_node.hpp: default_leaf_help_data_type::runtime_children"]}
{"id": "C55", "title": "Error messages substitute tokens in order", "statement": "Formatting an error message replaces each placeholder by the next token (a final joining placeholder takes all remaining tokens), and appends the joined tokens after ': ' when the message has no placeholder.", "quantifier": "every well-formed message and token list", "why_tests_cant": "All messages and tokens, including tokens that look like placeholders.", "anchors": ["include/arg_router/utility/exception_formatter.hpp: exception_formatter", "include/arg_router/exception.hpp: parse_exception"]}
{"id": "C56", "title": "Every error code has a translation and custom ones win", "statement": "Translating an error uses the first custom translation for its code, else the fallback translation, else an 'Untranslated error code' message; with the defaults every library error code is translated.", "quantifier": "every translation table and error code", "why_tests_cant": "All tables.", "anchors": ["include/arg_router/policy/exception_translator.hpp: translate_exception", "include/arg_router/exception.hpp: default_error_code_translations"]}
{"id": "C57", "title": "Parse failures surface as translated parse errors with their tokens", "statement": "Whenever root.parse fails because of the command line, the caller sees a parse_exception whose message is the translation of the error code formatted with the offending tokens.", "quantifier": "every tree and argument list", "why_tests_cant": "All failure points.", "anchors": ["include/arg_router/root.hpp: parse", "include/arg_router/exception.hpp: parse_exception"]}
{"id": "C58", "title": "Locale names are normalised", "statement": "Normalising a locale name drops the encoding suffix and uses underscores: the result contains neither '.' nor '-', and normalising twice changes nothing.", "quantifier": "every locale string", "why_tests_cant": "All strings.", "anchors": ["include/arg_router/multi_lang/iso_locale.hpp: iso_locale"]}
{"id": "C59", "title": "Language selection falls back to the first language", "statement": "The selected translation is the first supported language equal to the requested one, or the first declared language when there is none.", "quantifier": "every language list and request", "why_tests_cant": "All lists.", "anchors": ["include/arg_router/multi_lang/root.hpp: root_t", "include/arg_router/multi_lang/root_wrapper.hpp: root_wrapper_t"]}
{"id": "C60", "title": "Lists splice in place", "statement": "Using list(...) inside a node, to any nesting depth, is the same as writing its contents in place, in order.", "quantifier": "every nesting of lists", "why_tests_cant": "Unbounded nesting.", "anchors": ["include/arg_router/list.hpp: list_expander"]}
{"id": "C61", "title": "Bare strings map to the documented policies", "statement": "Each bare string given to a node factory becomes exactly one policy: the first multi-character string the long name, the second the description, the single-character one the short name; other parameters are kept in order.", "quantifier": "every parameter list accepted by the factory", "why_tests_cant": "All interleavings.", "anchors": ["include/arg_router/utility/string_to_policy.hpp: convert"]}
{"id": "C62", "title": "A dynamic string view always shows the right text", "statement": "After any sequence of constructions, copies and appends the text seen through a dynamic_string_view is the concatenation of what was put in, and string data it owns is never a dangling view.", "quantifier": "every sequence of operations", "why_tests_cant": "All histories.", "anchors": ["include/arg_router/utility/dynamic_string_view.hpp: dynamic_string_view"]}
{"id": "C63", "title": "The type-erased result container owns its value exactly once", "statement": "After any sequence of constructions, copies, moves and destructions of the container, reading returns the value last stored, and every stored value is destroyed exactly once.", "quantifier": "every sequence of operations", "why_tests_cant": "All histories.", "anchors": ["include/arg_router/utility/unsafe_any.hpp: unsafe_any"]}
{"id": "C64", "title": "A result is a value or an error", "statement": "A result object holds either a value or an error, equality with a value holds only when it holds that value, and throwing happens exactly when it holds an error.", "quantifier": "every result", "why_tests_cant": "All values.", "anchors": ["include/arg_router/utility/result.hpp: result"]}
{"id": "C65", "title": "A parse target runs once", "statement": "Invoking a parse target runs the node's parse on the first invocation only; any later invocation does nothing and yields an empty result.", "quantifier": "every number of invocations", "why_tests_cant": "All histories.", "anchors": ["include/arg_router/parsing/parse_target.hpp: operator()"]}
{"id": "C66", "title": "Boolean words", "statement": "The boolean parser accepts exactly the documented true words as true and false words as false, and every other string fails with failed_to_parse carrying that string.", "quantifier": "every string", "why_tests_cant": "All strings.", "anchors": ["include/arg_router/parsing/global_parser.hpp: parser<bool>"]}
{"id": "C67", "title": "Unique names make label lookup unambiguous", "statement": "If the validator's uniqueness rule holds for a mode, no raw argument is the label of two different nodes of that mode.", "quantifier": "every mode tree that passes validation and every string", "why_tests_cant": "All trees and strings.", "anchors": ["include/arg_router/policy/validator.hpp: policy_unique_from_owner_parent_to_mode_or_root"]}
{"id": "C68", "title": "Positional arguments are last", "statement": "A tree accepted by the validator has all positional-like nodes of a mode after all other nodes, and an anonymous mode last in the root.", "quantifier": "every tree", "why_tests_cant": "All trees.", "anchors": ["include/arg_router/policy/validator.hpp: node_types_must_be_at_end, anonymous_mode_must_be_at_end, single_anonymous_mode"]}
{"id": "C69", "title": "Variable-length lists do not starve later ones", "statement": "A tree accepted by the validator has, among consecutive list-like nodes, only the last with a variable count unless an end marker is used.", "quantifier": "every tree", "why_tests_cant": "All trees.", "anchors": ["include/arg_router/policy/validator.hpp: list_like_nodes_must_have_fixed_count_if_not_at_end"]}
{"id": "C70", "title": "Forbidden child policies are rejected", "statement": "If a node type's rule says its children must not have a policy, a tree in which any child has that policy is rejected.", "quantifier": "every tree", "why_tests_cant": "All trees.", "anchors": ["include/arg_router/policy/validator.hpp: child_must_not_have_policy"]}
{"id": "C71", "title": "Rules are looked up by first match and editable", "statement": "Validating a node uses the first rule for its type; inserting, removing and replacing rules affects exactly the rule named and no other.", "quantifier": "every rule list", "why_tests_cant": "All rule lists.", "anchors": ["include/arg_router/policy/validator.hpp: validator", "include/arg_router/policy/validator_rule_utilities.hpp"]}
{"id": "C72", "title": "Tree walks visit every node once, parents first", "statement": "A tree walk calls the visitor once for every node, parents before children and siblings in declaration order, passing the chain of ancestors.", "quantifier": "every tree", "why_tests_cant": "Unbounded trees.", "anchors": ["include/arg_router/utility/tree_recursor.hpp: tree_recursor"]}
{"id": "C73", "title": "Cyclic aliases and dependencies are rejected", "statement": "A cycle among alias (or dependent) policies in a mode is detected when the tree is checked.", "quantifier": "every mode and every chain length", "why_tests_cant": "All graphs.", "anchors": ["include/arg_router/policy/alias.hpp: cyclic_dependency_checker", "include/arg_router/policy/dependent.hpp: cyclic_dependency_checker"]}
{"id": "C74", "title": "Accepted trees are well-shaped", "statement": "In a tree accepted by the default validator no node has two policies of one kind, no node combines policies that exclude each other, every node sits under a parent of a permitted class, and no policy sits on a class it is forbidden for.", "quantifier": "every tree", "why_tests_cant": "All trees.", "anchors": ["include/arg_router/policy/validator.hpp: default_validator, policy_unique_from_owner, parent_types, despecialised_any_of_rule"]}
{"id": "C75", "title": "An alias takes as many values as the arguments it stands for", "statement": "If an alias passes its compile-time checks, it takes a fixed number of values and every argument it names takes exactly that number.", "quantifier": "every mode, every alias in it", "why_tests_cant": "All trees.", "anchors": ["include/arg_router/policy/alias.hpp: node_fixed_count, check_target_counts"]}
{"id": "C76", "title": "Every command line is read the documented way", "statement": "A mode reads a command line from left to right. At each point the first argument that recognises what is left gets it: by its label (long name, short name, or first of a group of collapsed short flags), by label and separator, or by position. It takes the number of values it was declared with (up to its end marker if it has one) and leaves the rest. An alias counts as the arguments it stands for. It is an error if the argument was given before and is not repeatable, if the values are too few or too many, if the separator is missing, if an argument it depends on was not given before, or if it is an alternative to an argument that was chosen before. If no argument recognises what is left, it is reported as unhandled (all arguments used) or unknown. When everything has been read, exactly the values so taken are handed on. Every command line has exactly one such reading.", "quantifier": "every mode built of arguments, flags, alias groups, one_of alternatives, aliases, dependent arguments and arguments switched off at runtime, every command line", "why_tests_cant": "Unboundedly many declarations and command lines, and all interactions of the policies.", "anchors": ["include/arg_router/mode.hpp: pre_parse_impl", "include/arg_router/parsing/parsing.hpp: pre_parse", "include/arg_router/policy/*.hpp: pre_parse_phase", "include/arg_router/dependency/alias_group.hpp: pre_parse", "include/arg_router/root.hpp: parse"]}
{"id": "C77", "title": "A mode switched off at runtime does not handle the command line", "statement": "A mode whose runtime_enable policy is false never handles a command line and its router is never called.", "quantifier": "every mode, every command line", "why_tests_cant": "A negative statement about all inputs.", "anchors": ["include/arg_router/policy/runtime_enable.hpp: runtime_enable", "include/arg_router/mode.hpp: pre_parse_impl"]}
{"id": "C78", "title": "A given value reaches the router of the mode it was given to", "statement": "If an argument of a mode is used on the command line and the parse succeeds, the mode's router receives the value given, at the place where that argument is declared, whatever else is declared in the mode.", "quantifier": "every mode including ones with nested modes, every command line", "why_tests_cant": "All trees and command lines.", "anchors": ["include/arg_router/mode.hpp: parse_impl, match_child, process_result"]}
{"id": "C79", "title": "Values are taken from the command line as typed, once, in order", "statement": "The values handed to the arguments' parsers are command line arguments as typed, or the part of one after the argument's separator; each command line argument is used at most once, and the values are in command line order (aliases apart, which hand the same values to several arguments).", "quantifier": "every mode without aliases, every command line", "why_tests_cant": "All modes and command lines.", "anchors": ["include/arg_router/tree_node.hpp: pre_parse_impl", "include/arg_router/policy/short_form_expander.hpp: pre_parse_phase", "include/arg_router/policy/value_separator.hpp: pre_parse_phase", "include/arg_router/mode.hpp: pre_parse_impl"]}
{"id": "C80", "title": "A program that compiles does not crash", "statement": "If a tree satisfies the compile-time checks of the library (the static assertions of its nodes and policies and the default validator), then root.parse returns or throws a parse_exception with the documented message, for every command line.", "quantifier": "every tree the library's compile-time checks accept, every command line", "why_tests_cant": "All accepted trees times all command lines.", "anchors": ["include/arg_router/root.hpp: root_t", "include/arg_router/mode.hpp: mode_t", "include/arg_router/policy/validator.hpp: default_validator", "include/arg_router/policy/alias.hpp: pre_parse_phase", "include/arg_router/policy/value_separator.hpp: value_separator_t"]}
{"id": "C81", "title": "Every argument has a name to be reported by", "statement": "In every program that compiles, every node below the root has a name that error messages can use, and that name is not empty. With the default validator it is the error name of the node, otherwise its display name, otherwise its long, short or only name; a mode without any name is called \"(Anon mode)\".", "quantifier": "every tree the library's compile-time checks accept, with any validator", "why_tests_cant": "All accepted trees.", "anchors": ["include/arg_router/parsing/parsing.hpp: node_token_type", "include/arg_router/mode.hpp: add_anonymous_error_name_to_mode", "include/arg_router/policy/long_name.hpp: long_name_t", "include/arg_router/multi_arg_base.hpp: multi_arg_base_t"]}
{"id": "C82", "title": "Help labels say what can be typed", "statement": "The label of a node in the help output consists of its names with their prefixes, the value it takes (behind its separator, or a space if it takes exactly one value; with the value range if it has one), and for nodes that take several values the smallest and largest number of them; all numbers are shown in decimal. Members of a group are listed below it in order, joined by a bracket.", "quantifier": "every node of every class, every range and count", "why_tests_cant": "All names, ranges and counts; tests use a few numbers.", "anchors": ["include/arg_router/tree_node.hpp: default_leaf_help_data_type::label_generator, value_suffix, value_separator_suffix, count_suffix", "include/arg_router/positional_arg.hpp: help_data_type", "include/arg_router/multi_arg.hpp: help_data_type", "include/arg_router/dependency/detail.hpp: basic_one_of_t::children_help_data_type"]}
{"id": "C83", "title": "Asking for help shows the help asked for, and nothing else happens", "statement": "A command line that consists of a name of the help node and a path of names shows the help output of the node the path leads to (of the whole program if the path is empty), or reports the first name that leads nowhere as unknown; no other router is called.", "quantifier": "every tree with a help node, every command line starting with a name of it", "why_tests_cant": "All trees and paths.", "anchors": ["include/arg_router/help.hpp: help_t::parse, find_help_target", "include/arg_router/root.hpp: root_t::parse", "include/arg_router/tree_node.hpp: pre_parse_impl"]}
{"id": "C84", "title": "help() and --help show the same", "statement": "The text root.help() returns is the text shown for a command line that has nothing but a name of the (first) help node; without a help node it is empty.", "quantifier": "every tree, every formatter setting", "why_tests_cant": "All trees and settings.", "anchors": ["include/arg_router/root.hpp: root_t::help", "include/arg_router/help.hpp: help_t::parse"]}
{"id": "C85", "title": "A number argument accepts exactly the numbers of its type", "statement": "An argument with an integer value type accepts a text if and only if it is an optional sign and decimal digits that denote a number the type can hold, and the router receives that number; every other text is reported as failed to parse.", "quantifier": "every text, every integer type", "why_tests_cant": "All texts; tests try a few numbers.", "anchors": ["include/arg_router/parsing/global_parser.hpp: parser", "include/arg_router/arg.hpp: arg_t"]}
{"id": "C86", "title": "Errors about a group name all its alternatives", "statement": "What an error message calls a one_of or alias_group is its display name (\"One of: \" or \"Alias Group: \" if it has none) followed by the names of all of its alternatives, with prefixes, in order and separated by commas; this is what the message shows when a second alternative is used or a required group is missing.", "quantifier": "every group, any number of alternatives", "why_tests_cant": "All lists of alternatives.", "anchors": ["include/arg_router/dependency/detail.hpp: generate_string_of_child_names, add_names", "include/arg_router/parsing/parsing.hpp: node_token_type"]}
{"id": "C87", "title": "The example programs do not crash", "statement": "Each of the example programs of the library returns or throws a parse_exception with the documented message, whatever it is given on the command line and however wide the terminal is.", "quantifier": "the example programs just_cats, simple, launcher, runtime_node_enable and basic_cat, every command line, every terminal width", "why_tests_cant": "All command lines; the programs are run by hand, if at all.", "anchors": ["examples/c++17/just_cats/main.cpp: main", "examples/c++17/simple/main.cpp: main", "examples/c++17/launcher/main.cpp: main", "examples/c++17/runtime_node_enable/main.cpp: main", "examples/c++17/basic_cat/main.cpp: main"]}
{"id": "C88", "title": "A program does with every command line what its declaration says", "statement": "The children of root are tried in order, and the first that responds to the command line has all of it: an argument whose name it begins with (which must use up everything), a mode whose name it begins with, the mode the following names lead to where modes are nested, or a mode without a name. What the child makes of the rest is the documented reading (C76); if no child responds, the error is that there are no arguments or that the first one is unknown. In particular the program `simple` given `copy [-f] DST SRC...` calls the router of copy once with exactly the flag, DST and SRC..., whatever the files are called (if DST and the first SRC do not begin with a dash).", "quantifier": "every tree of arguments, one_of groups and nested modes, every command line", "why_tests_cant": "All trees and all command lines.", "anchors": ["include/arg_router/root.hpp: root_t::parse", "include/arg_router/mode.hpp: mode_t::pre_parse, mode_t::parse", "include/arg_router/tree_node.hpp: tree_node::pre_parse", "examples/c++17/simple/main.cpp: main"]}
{"id": "C89", "title": "A program started from main sees the arguments after its name", "statement": "Calling parse with the argc and argv of main does exactly what calling it with the list of the arguments after the program's name does; the name and whatever lies in memory behind argv play no part.", "quantifier": "every tree, every program name, every list of arguments, everything that follows argv in memory", "why_tests_cant": "All command lines and all memory contents.", "anchors": ["include/arg_router/root.hpp: root_t::parse(int, char**)"]}
{"id": "C90", "title": "The generated translations are those in the file", "statement": "For a translation file made of comments, empty lines, `name = \"text\"` lines and optionally an error section, the generated header is the translation class of the language with exactly the names and texts of the file, in order, and exactly the listed error messages; a line of any other kind stops the generator.", "quantifier": "every file, every language", "why_tests_cant": "All files; the examples have three.", "anchors": ["cmake/translation_generator/translation_generator_script.cmake"]}
{"id": "C91", "title": "A program in several languages is the program in the user's language", "statement": "Whatever a multi-language program is given on the command line, it does what the program in the user's language does, or that in the first language if the user's is not supported; errors are reported with that language's messages. In particular the example simple_ml_gen, whose words are those of its translation files, copies files on the command `copy`, `copier` or `コピー`, and reports every error with the text in the language's file.", "quantifier": "every list of languages, every factory, every requested language, every command line", "why_tests_cant": "All languages and command lines.", "anchors": ["include/arg_router/multi_lang/root.hpp: root_t", "include/arg_router/multi_lang/root_wrapper.hpp", "include/arg_router/multi_lang/iso_locale.hpp: iso_locale", "include/arg_router/multi_lang/translation.hpp", "examples/c++17/simple_ml_gen/main.cpp: main", "examples/resources/simple_ml_gen"]}
{"id": "C92", "title": "Every program that compiles reads command lines as documented", "statement": "A program that compiles with the default validator has exactly one documented reading of each command line (C88), and does what that reading says.", "quantifier": "every tree that passes the static assertions and the default validator, every command line", "why_tests_cant": "All programs; the tests contain a few that compile and a few that do not.", "anchors": ["include/arg_router/policy/validator.hpp: validation::default_validator", "include/arg_router/root.hpp: root_t::parse", "include/arg_router/tree_node.hpp: tree_node::pre_parse", "include/arg_router/policy/alias.hpp: alias_t::pre_parse_phase", "include/arg_router/policy/value_separator.hpp: value_separator_t", "include/arg_router/policy/short_form_expander.hpp: short_form_expander_t"]}
{"id": "C93", "title": "An error is about what was typed, or about an argument it can be about", "statement": "Every error names, apart from a documented message, only parts of the command line or arguments of the program that the error can be about: an argument is named as having too few or too many values only if it has such a limit, as missing its separator only if it has one, as required only if it is, as an alternative only within a one_of, and a suggestion is a path to an argument of the program. The parsers of the library report exactly the text they were given, and the help action exactly the name it could not find.", "quantifier": "every tree whose own parsers report only what they are given, every command line", "why_tests_cant": "All trees and all command lines.", "anchors": ["include/arg_router/exception.hpp: parse_exception", "include/arg_router/parsing/parsing.hpp", "include/arg_router/policy/value_separator.hpp: value_separator_t", "include/arg_router/policy/min_max_count.hpp: min_max_count_t", "include/arg_router/policy/dependent.hpp: dependent_t", "include/arg_router/policy/validator.hpp", "include/arg_router/parsing/global_parser.hpp: parser", "include/arg_router/help.hpp: help_t", "include/arg_router/policy/default_help_formatter.hpp: default_help_formatter_t"]}
{"id": "C94", "title": "A compile-time string is the text it was written with, and equal texts are the same name", "statement": "The string made from a literal, a view or a character has exactly that text (or, in C++17, the program does not compile because the text is too long); concatenation concatenates, a part is that part, a repeated character is repeated. Strings with the same text are the same string to the validator, so it makes no difference in which way and for which language version the names of a program are written.", "quantifier": "every text, every way of writing it, every program", "why_tests_cant": "All texts and programs.", "anchors": ["include/arg_router/utility/compile_time_string.hpp: str, S_, compile_time_string, create_sequence_cts", "include/arg_router/literals.hpp: operator\"\"_S", "include/arg_router/policy/short_name.hpp: short_name, short_name_t", "include/arg_router/policy/validator.hpp: policy_unique_from_owner_parent_to_mode_or_root"]}
{"id": "C95", "title": "The generated Unicode tables are the data files", "statement": "For a Unicode data file that assigns each code point at most once and only classes the script knows, the script prints a table of as many rows as it announces, and looking a code point up in the printed table as the library does finds exactly what the file says: membership for the whitespace and width tables, the break class for the grapheme and line tables, after the resolution of the classes AI, SG, XX, SA and CJ that UAX 14 gives, and with the pictographs of the emoji file added. A file with another class, or without the version of the database in its first line, stops the script.", "quantifier": "every data file in the format of the Unicode Character Database, every code point", "why_tests_cant": "All data files: the tables are regenerated for each version of Unicode.", "anchors": ["scripts/unicode_table_generators.py: run, run_grapheme_cluster_break, line_break, get_abbreviation, extract_version, sort_code_points, print_code_points", "include/arg_router/utility/utf8.hpp: detail::find_range", "include/arg_router/utility/utf8/code_point.hpp: code_point::range"]}
{"id": "C96", "title": "Iterating over text gives the grapheme clusters of Unicode", "statement": "Iterating over well-formed text gives consecutive parts of it that meet exactly at the boundaries that the rules of Unicode Standard Annex 29 for extended grapheme clusters (GB1 to GB999) give.", "quantifier": "every well-formed UTF-8 text, every place in it", "why_tests_cant": "All texts: the rules look arbitrarily far back, and all pairs of classes occur.", "anchors": ["include/arg_router/utility/utf8.hpp: iterator", "include/arg_router/utility/utf8/grapheme_cluster_break.hpp: no_break_rules"]}
{"id": "C97", "title": "Text is wrapped greedily at the line breaks of Unicode", "statement": "Each line is the rest of the text if it fits; otherwise it ends at the last place that fits and where the rules of Unicode Standard Annex 14 allow a line to end; if there is none, before the first character that does not fit. The whitespace after it is left out. Where a line ends depends on the text only, not on how the earlier lines were found.", "quantifier": "every well-formed UTF-8 text, every number of columns", "why_tests_cant": "All texts and all widths: the rules look arbitrarily far back, and all pairs of classes occur.", "anchors": ["include/arg_router/utility/utf8.hpp: line_iterator", "include/arg_router/utility/utf8/line_break.hpp: no_break_rules", "include/arg_router/policy/default_help_formatter.hpp: default_help_formatter_t"]}
{"id": "C98", "title": "The help page of a program is the documented one", "statement": "The text shown for `--help names...` and returned by root.help() is, from the first byte to the last: the program's name and version and its introduction; then for the node asked for and each enabled node below it (not below a named mode, unless flattened), in declaration order, a line with the node's label, indented by its depth and behind a bracket if it is in a group, and its description, which starts at one common column, the smallest that leaves room for every label, is wrapped greedily by UAX 14 to the width of the terminal and continues at that column; then the addendum. For usual texts this determines every byte.", "quantifier": "every tree of nodes that compiles, every format, introduction, addendum and indentation, every terminal width, every node asked for, every set of disabled nodes", "why_tests_cant": "The layout depends on all labels and descriptions of a tree at once; tests compare a few pages.", "anchors": ["include/arg_router/help.hpp:help_t::parse", "include/arg_router/policy/default_help_formatter.hpp:default_help_formatter_t::generate_help", "include/arg_router/tree_node.hpp:default_leaf_help_data_type", "include/arg_router/dependency/detail.hpp:children_help_data_type", "include/arg_router/root.hpp:help"]}
{"id": "C99", "title": "A validator's conditions check what they are documented to check", "statement": "Every condition a rule of a validator can have, in the default validator or in one of the user's own, lets a program compile exactly if the node or policy it is applied to is as the documentation of the condition says.", "quantifier": "All rule lists built from the library's conditions, all trees, all nodes and policies in them", "why_tests_cant": "Conditions are template metaprograms over arbitrary trees; a test compiles one tree, and a tree that must not compile cannot be in an ordinary test at all", "anchors": ["include/arg_router/policy/validator.hpp: despecialised_unique_in_owner, policy_unique_from_owner_parent_to_mode_or_root, parent_types, must_have_policies, must_not_have_policies, child_must_have_policy, child_must_not_have_policy, policy_parent_must_not_have_policy, single_anonymous_mode, at_least_one_of_policies, node_types_must_be_at_end, anonymous_mode_must_be_at_end, list_like_nodes_must_have_fixed_count_if_not_at_end, must_have_at_least_min_count_of_1_if_required", "include/arg_router/utility/tree_recursor.hpp: tree_type_recursor"]}
{"id": "C100", "title": "Policies take part in parsing in the order of their priority", "statement": "A node asks all its policies that have a pre-parse phase, the user's own included: in the order of their priority (0 if they have none), each once, each on the tokens the one before left, until one says that the tokens are not for this node or reports an error. An error is thrown only once it is known that the label is the node's and that the node is wanted. A value is accepted if every validating policy accepts it. The order in which the policies are declared makes no difference.", "quantifier": "every list of policies with any priorities and any phases, all tokens, all ways in which a phase can end", "why_tests_cant": "Policies are written by users: any number, any priority, any effect on the tokens", "anchors": ["include/arg_router/tree_node.hpp: priority_ordered_policies_type, pre_parse_impl", "include/arg_router/multi_arg_base.hpp: parse", "include/arg_router/policy/policy.hpp: has_priority, has_pre_parse_phase_method, has_validation_phase_method", "docs/related_pages/policies.doxy", "docs/related_pages/nodes.doxy"]}
{"id": "C101", "title": "A program compiles exactly if it keeps the rules of the reference", "statement": "root.parse(...) compiles exactly if the validator accepts the tree and every node keeps the restrictions that the reference states for its class and for its policies: which names it must, may and must not have, how many characters names have and that there is no whitespace in them, how many values it takes, which phases its policies may take part in, what its children may be, that the names in aliases and dependencies are found and lead to no cycle, and that no description has a tab if the program has help.", "quantifier": "every tree of nodes with any policies, every prefix configuration, every list of rules", "why_tests_cant": "A tree that must not compile cannot be in an ordinary test, and the restrictions range over all trees and all texts", "anchors": ["include/arg_router/policy/long_name.hpp: long_name_t", "include/arg_router/policy/short_name.hpp: short_name_t", "include/arg_router/policy/alias.hpp: pre_parse_phase, alias_targets, cyclic_dependency_checker", "include/arg_router/policy/dependent.hpp: pre_parse_phase", "include/arg_router/policy/token_end_marker.hpp: pre_parse_phase", "include/arg_router/multi_arg_base.hpp: multi_arg_base", "include/arg_router/dependency/detail.hpp: basic_one_of_t", "include/arg_router/mode.hpp: mode_t", "include/arg_router/help.hpp: help_t", "include/arg_router/root.hpp: root_t", "docs/related_pages/nodes.doxy", "docs/related_pages/policies.doxy"]}
{"id": "C102", "title": "What the default validator accepts", "statement": "With the default validator root.parse(...) compiles exactly if the restrictions of the reference hold and, for every node: it has each policy template once at most and none of those its class must not have; positional arguments come last in a mode and list-like children only at its end; required positional arguments take at least one value; one_of and alias_group are in a mode, and not all of their children are required or have a default value; modes are in the root or a mode, and a nameless one is alone and last; help is in the root. And for every policy: a name is given once among the nodes of the nearest mode, where nodes reached through the same types count as one; no name is combined with a none name or a display name; required and default_value exclude each other; a router is in a mode or directly below the root; a validator is in the root.", "quantifier": "every tree of nodes with any policies", "why_tests_cant": "A tree that must not compile cannot be in an ordinary test, and the rules range over all trees", "anchors": ["include/arg_router/policy/validator.hpp: default_validator, rule_q, validator", "include/arg_router/root.hpp: root_t", "docs/related_pages/validation.doxy"]}
{"id": "C103", "title": "Nodes take as many values as their class says, unless their policies say otherwise", "statement": "Typed with its label, a flag or counting_flag takes no value, an arg exactly one, a multi_arg all that follow and at least one, a forwarding_arg and help all that follow; a positional_arg takes all arguments there are. With a count policy multi_arg, forwarding_arg and positional_arg take that many. Not given, a flag is false, a counting_flag 0 and a forwarding_arg empty; the value of a forwarding_arg is its tokens unchanged.", "quantifier": "every list of policies that does not otherwise concern matching, every label and every remaining command line", "why_tests_cant": "All policy lists and all command lines.", "anchors": ["include/arg_router/flag.hpp: flag_t", "include/arg_router/counting_flag.hpp: counting_flag_t", "include/arg_router/arg.hpp: arg_t", "include/arg_router/multi_arg.hpp: multi_arg_t", "include/arg_router/forwarding_arg.hpp: forwarding_arg_t", "include/arg_router/positional_arg.hpp: positional_arg_t", "include/arg_router/help.hpp: help_t", "include/arg_router/policy/min_max_count.hpp: add_missing_min_max_policy", "docs/related_pages/nodes.doxy"]}
{"id": "C104", "title": "Help made at compile time is the help shown if nothing is switched off", "statement": "The help formatters can write the help of a node without an instance of the tree (`generate_help<Node, HelpNode, Flatten>(stream)`; a help node does so for a formatter that has no other overload). What they write is the page that lists every node below, whatever is switched off at run time; if nothing is, it is the text that help shows at run time.", "quantifier": "every tree that compiles, every node of it, every format, label, description and terminal width", "why_tests_cant": "The two pages are made by different code from different data, for all trees and texts", "anchors": ["include/arg_router/policy/default_help_formatter.hpp: default_line_formatter, default_help_formatter_t, generate_help, line_formatter_dispatch", "include/arg_router/policy/colour_help_formatter.hpp: colour_line_formatter", "include/arg_router/dependency/detail.hpp: basic_one_of_t, children_help_data_type", "include/arg_router/tree_node.hpp: default_leaf_help_data_type", "docs/related_pages/help.doxy"]}
{"id": "C105", "title": "What a router does comes last, and what it throws reaches the caller", "statement": "Whatever the routers of a program do, root.parse(...) ends as the router that it called: it returns if the router returns, an exception of the user's passes through unchanged, and an exception of the library's own is reported with its message. No other router is called, before or after, and the arguments passed and the state left in the tree do not depend on what the routers do.", "quantifier": "every tree of nodes in which routers are where the default validator allows them, every command line and history, every way in which routers may end", "why_tests_cant": "All trees, command lines and routers, and the code after a call of a router would have to be seen not to run", "anchors": ["include/arg_router/root.hpp: parse", "include/arg_router/mode.hpp: parse", "include/arg_router/flag.hpp: parse", "include/arg_router/multi_arg_base.hpp: parse", "include/arg_router/policy/router.hpp: router", "include/arg_router/exception.hpp: multi_lang_exception"]}
{"id": "C106", "title": "What a mode does with the arguments it was given", "statement": "What happens once the arguments for a mode have been read is determined by the declarations of its children: the router is called with exactly the values the children have for what was typed (read by each one's parser, counted, collected in order, or its default), or exactly one error is reported. The arguments typed are looked at first, one by one in the order typed: each is parsed, then validated, then combined with what was typed before (an error if it may be given once only). Then the children in the order declared: one that has no value and is required is reported, otherwise its default is used, and validated. Then the values of children that may be repeated are validated as a whole. A mode without a router reports an error only after all this. The same holds for a single argument with a router of its own.", "quantifier": "every mode with any children and policies, any arguments typed, any history", "why_tests_cant": "Any number of arguments in any order with any of them in error: which error is reported, and with which values the router is called, ranges over all of them", "anchors": ["include/arg_router/mode.hpp: parse, parse_impl, process_result, process_missing_token", "include/arg_router/multi_arg_base.hpp: parse", "include/arg_router/policy/multi_stage_value.hpp: merge", "include/arg_router/policy/required.hpp: missing_phase", "include/arg_router/policy/default_value.hpp: missing_phase", "include/arg_router/policy/router.hpp: routing_phase"]}
{"id": "C107", "title": "A number in a declaration means that number, whatever its type", "statement": "The bounds of min_max_value, min_value and max_value and the number of default_value mean the numbers that were written, also if their type is not the type of the argument: a number is accepted exactly if it is at least the minimum and at most the maximum, and reported as below or above otherwise; an argument that is not given has the number declared. Bounds known at compile time leave a number to be accepted.", "quantifier": "every two integral types, all bounds, defaults and values of them; every program and command line", "why_tests_cant": "All pairs of types and all numbers; C++ converts silently, and tests use the same type for both", "anchors": ["include/arg_router/policy/min_max_value.hpp: min_max_value_t, min_max_value_ct, validation_phase", "include/arg_router/policy/default_value.hpp: default_value, missing_phase"]}
{"id": "C108", "title": "The help page says which program it is about", "statement": "A program compiles exactly if its name, version, introduction and addendum and the settings of its help formatter are as the reference asks. So the first word of every page of help is the whole name of the program; and on a terminal whose width is not known the page is the one for a terminal of unlimited width.", "quantifier": "every name, version, introduction, addendum, indentation and offset, every tree, node asked for and formatter with the heading of the library", "why_tests_cant": "All texts, trees and settings, and what does not compile cannot be run in a test", "anchors": ["include/arg_router/policy/program_name.hpp: program_name_t", "include/arg_router/policy/program_version.hpp: program_version_t", "include/arg_router/policy/program_intro.hpp: program_intro_t", "include/arg_router/policy/program_addendum.hpp: program_addendum_t", "include/arg_router/policy/default_help_formatter.hpp: default_help_formatter_t, default_preamble_formatter, default_line_formatter", "include/arg_router/utility/terminal.hpp: columns"]}
{"id": "C109", "title": "The order in which policies are declared does not matter to a program", "statement": "Giving the policies of any of the nodes of a program in another order leaves it compiling exactly if it did, and changes nothing that can be seen when it runs: on every command line it succeeds, or fails with the same error, shows the same help, and calls the same routers with the same arguments, and so do all later parses of the same tree. Only the policies that check a value (min_max_value and those of the user's) and those that stand in for a missing one (default_value, required, runtime_enable_required) have to keep their order among themselves; if they do not, another one of the errors may be reported.", "quantifier": "every tree of nodes, every permutation of the policies of every node (of a program that compiles, or in which no policy is given twice; nodes of the same type are permuted alike), every command line and history", "why_tests_cant": "All trees and all permutations, of any number of nodes at a time; every order is a different type", "anchors": ["include/arg_router/tree_node.hpp: priority_ordered_policies_type, pre_parse_impl, phase_finder_t", "include/arg_router/mode.hpp: pre_parse_impl, parse_impl, process_missing_token", "include/arg_router/multi_arg_base.hpp: parse", "include/arg_router/policy/alias.hpp: pre_parse_phase", "include/arg_router/policy/dependent.hpp: pre_parse_phase", "include/arg_router/utility/utf8/levenshtein_distance.hpp: closest_matching_child_node", "include/arg_router/policy/validator.hpp: validator, default_validator", "include/arg_router/help.hpp: parse, generate_runtime_help_data", "include/arg_router/tree_node.hpp: default_leaf_help_data_type"]}
{"id": "C110", "title": "A new optional argument leaves old command lines alone", "statement": "If an optional argument with a name is added to a mode of a program, wherever the mode is and wherever among its children, then every command line that does not use it (and does not ask for help) is accepted exactly if it was: the same routers are called with the same arguments, except that the router of that mode gets the default value of the new argument as well, in its place. A command line that was refused is refused with the same error, and nothing else is remembered; only errors about arguments nobody wants may be worded differently, as the new name may be suggested.", "quantifier": "every two programs that compile and keep to the conventions of C92 and differ by one named optional argument in one mode (and in their help), every command line of readable tokens that does not use the argument, every history", "why_tests_cant": "All programs, all places for the new argument and all old command lines; a test has one program", "anchors": ["include/arg_router/root.hpp: parse", "include/arg_router/mode.hpp: pre_parse_impl, parse_impl, process_result, process_missing_token", "include/arg_router/tree_node.hpp: pre_parse_impl", "include/arg_router/policy/default_value.hpp: missing_phase", "include/arg_router/utility/utf8/levenshtein_distance.hpp: closest_matching_child_node"]}
{"id": "C111", "title": "A new mode or argument beside the others leaves old command lines alone", "statement": "If a mode with a name, or an argument, is added directly below the root of a program, wherever among its children, then every command line that does not begin with its name (and does not ask for help) has exactly the outcome it had: the same error or the same calls of routers with the same arguments, and the same is remembered. Only errors about arguments nobody wants may be worded differently, as the new name may be suggested.", "quantifier": "every two programs that compile and keep to the conventions of C92 and differ by one child of the root (and in their help), every command line of readable tokens that does not begin with its name, every history", "why_tests_cant": "All programs, all new modes with any contents and all old command lines; a test has one program", "anchors": ["include/arg_router/root.hpp: parse", "include/arg_router/mode.hpp: pre_parse_impl, parse_impl", "include/arg_router/tree_node.hpp: pre_parse_impl", "include/arg_router/utility/utf8/levenshtein_distance.hpp: closest_matching_child_node"]}
{"id": "C112", "title": "What is switched off is as if it were not there", "statement": "A program with an optional argument that is switched off by runtime_enable does with every command line (that does not ask for help), also with one that names the argument, what the program without that argument does: the same error, or the same routers called with the same arguments, except that the router of the mode gets the default value of the argument in its place. A mode with a name or an argument directly below the root that is switched off makes no difference at all. Only errors about arguments nobody wants may be worded differently.", "quantifier": "every two programs that compile and keep to the conventions of C92 and differ by one switched-off argument or named mode (and in their help), every command line of readable tokens, every history", "why_tests_cant": "All programs, all places for the argument and all command lines, also those with the name of what is switched off", "anchors": ["include/arg_router/policy/runtime_enable.hpp: pre_parse_phase, runtime_enabled", "include/arg_router/root.hpp: parse", "include/arg_router/mode.hpp: pre_parse_impl, parse_impl, process_result, process_missing_token", "include/arg_router/tree_node.hpp: pre_parse_impl", "include/arg_router/policy/default_value.hpp: missing_phase"]}
{"id": "C113", "title": "The order in which arguments and modes are declared shows only in the order of the router's arguments", "statement": "If two neighbouring arguments (or groups of arguments) of a mode, with names and independent of each other, are declared in the other order, then every command line (that does not ask for help) is accepted exactly if it was: the same routers are called with the same arguments, except that the router of that mode gets the two values in the other order. A command line that was refused is refused with the same error, unless both arguments cause one: then each program reports that of the argument it declares first. Modes and arguments directly below the root may be given in any order (an anonymous mode last) as long as no two share a name: it makes no difference at all. Only errors about arguments nobody wants may be worded differently. (Two modes of one name compile: then the first one runs.)", "quantifier": "every two programs that compile and keep to the conventions of C92 and differ by the order of two arguments of a mode at any depth, or of all children of the root (and in their help), every command line of readable tokens, every history", "why_tests_cant": "All programs, all orders and all command lines; every order is a different type, and a test has one", "anchors": ["include/arg_router/root.hpp: parse", "include/arg_router/mode.hpp: pre_parse_impl, parse_impl, process_result, process_missing_token", "include/arg_router/tree_node.hpp: pre_parse_impl", "include/arg_router/policy/alias.hpp: pre_parse_phase", "include/arg_router/policy/dependent.hpp: pre_parse_phase", "include/arg_router/utility/utf8/levenshtein_distance.hpp: closest_matching_child_node"]}
{"id": "C114", "title": "The order in which arguments are typed makes no difference", "statement": "On a command line for a mode, arguments given by label with all their values may be typed in any order as long as they are independent of each other (given to different children of the mode, for values of different children, neither needing the other): the outcome and the calls, with the same arguments, are the same, whatever follows them on the command line. Two neighbours that are both wrong are the exception: the one that is typed first is reported, exactly as if the command line ended with it.", "quantifier": "every program that compiles and keeps to the conventions of C92, every mode of it, every list of arguments and every permutation of it, with labels, separators, end markers, aliases, dependencies and one_of groups, every rest of the command line of readable tokens, every history", "why_tests_cant": "All programs, all arguments, all permutations and all kinds of failure; a test has one order of one program", "anchors": ["include/arg_router/mode.hpp: pre_parse_impl, parse_impl, process_result", "include/arg_router/dependency/one_of.hpp: pre_parse", "include/arg_router/tree_node.hpp: pre_parse_impl", "include/arg_router/policy/dependent.hpp: pre_parse_phase", "include/arg_router/policy/alias.hpp: pre_parse_phase"]}
{"id": "C115", "title": "All labels of an argument are the same", "statement": "On a command line for a mode, any number of the arguments may be typed with other labels of theirs (the short name for the long one, say), with the same values: the outcome, the calls and what is remembered are the same, whatever follows. Only the error about an argument that has been given before names it as it was typed.", "quantifier": "every program that compiles and keeps to the conventions of C92, every mode of it, every list of arguments in two spellings, every rest of the command line of readable tokens, every history", "why_tests_cant": "All programs, all arguments and all combinations of spellings", "anchors": ["include/arg_router/tree_node.hpp: pre_parse_impl", "include/arg_router/mode.hpp: pre_parse_impl", "include/arg_router/parsing/token_type.hpp: get_token_type", "include/arg_router/parsing/parsing.hpp: match"]}
{"id": "C116", "title": "Giving an optional argument its default value is the same as leaving it out", "statement": "On a command line for a mode, an optional argument of the mode that is given its default value may be left out, provided no other argument needs it: if the command line was accepted it is accepted without it, and the same routers are called with the same arguments. The other way round, if a command line that does not use the argument is accepted, then the argument may be added with its default value, anywhere between whole arguments: the outcome, the calls and what is remembered are the same. (The argument is for one value, is the only one of its type, no alias stands for it and it needs no other.)", "quantifier": "every program that compiles and keeps to the conventions of C92, every mode of it, every optional argument and its default value, every list of arguments before it and every rest of the command line of readable tokens, every history", "why_tests_cant": "All programs, all default values, all places on all command lines; a test has one", "anchors": ["include/arg_router/mode.hpp: pre_parse_impl, parse_impl, process_result, process_missing_token", "include/arg_router/policy/default_value.hpp: missing_phase", "include/arg_router/tree_node.hpp: pre_parse_impl", "include/arg_router/policy/dependent.hpp: pre_parse_phase"]}
{"id": "C117", "title": "A program that is less strict does the same with what was accepted", "statement": "If checks of values (min_max_value and those of the user's) are dropped or weakened, anywhere in a program and for any number of arguments, or arguments that were required may be left out, then every command line that was accepted is still accepted, and the same routers are called with the same arguments. A command line that was refused is refused with the same error, unless a required argument was missing, a value was out of bounds or a check of the user's failed. The other way round, making a program stricter in these ways only adds refusals of these kinds. (Default values have to stay: if one changes, the routers get the new one.)", "quantifier": "every two trees of nodes of the same shape of which one is less strict, every command line and history", "why_tests_cant": "All programs, all checks and all command lines; a test has one program", "anchors": ["include/arg_router/mode.hpp: parse_impl, process_missing_token, multi_stage_validation", "include/arg_router/multi_arg_base.hpp: parse", "include/arg_router/policy/min_max_value.hpp: validation_phase", "include/arg_router/policy/required.hpp: missing_phase", "include/arg_router/policy/default_value.hpp: missing_phase"]}
{"id": "C118", "title": "Typing an alias is the same as typing the arguments it stands for", "statement": "On a command line for a mode, an alias with its values may be replaced by the arguments it stands for, each by label and with those values, in the order of their declaration, and the other way round: if one of the two command lines is accepted, then so is the other, the same routers are called with the same arguments and the same is remembered, whatever else is on the command line. (The arguments and the alias are children of the mode of their own, need no other arguments, are no aliases of others, and may be repeated or are not used in the rest of the command line.) An argument that needs another is the exception: through its alias it may be given without the other, directly it may not.", "quantifier": "every program that compiles and keeps to the conventions of C92, every mode of it, every alias and every values, every list of arguments before it and every rest of the command line of readable tokens, every history", "why_tests_cant": "All programs, all aliases and all places on all command lines; a test has one", "anchors": ["include/arg_router/policy/alias.hpp: pre_parse_phase", "include/arg_router/mode.hpp: pre_parse_impl, parse_impl, process_result", "include/arg_router/tree_node.hpp: pre_parse_impl", "include/arg_router/policy/dependent.hpp: pre_parse_phase"]}
{"id": "C119", "title": "Another value of an argument makes a difference to nothing else", "statement": "If on a command line for a mode an argument that can be given once is given with another value, then the router gets this value in its place and all other values are the same, or both command lines fail, for the same reason (only the error about an argument that has been given before names the argument as it was typed). What the value is never decides how the rest of the command line is read. If the value is one the argument cannot have, then a command line that was accepted fails with exactly the error that the value causes, and no router is called.", "quantifier": "every program that compiles and keeps to the conventions of C92, every mode of it, every argument with a name and any two values of it, every list of arguments before it and every rest of the command line of readable tokens, every history", "why_tests_cant": "All programs, all values (also those that look like labels) and all command lines; a test has one value", "anchors": ["include/arg_router/mode.hpp: pre_parse_impl, parse_impl, process_result, process_missing_token, multi_stage_validation", "include/arg_router/multi_arg_base.hpp: parse", "include/arg_router/tree_node.hpp: pre_parse_impl, parse"]}
{"id": "C120", "title": "A mode does the same wherever it is in a program and whatever it is called", "statement": "If two programs have modes with the same arguments (children), where each is reached by its own names (or without any, as the only mode), and what is typed after the names is the same, then the two programs do the same: each calls the router of its mode, with the same values, or both fail without a call, with the same error about the same tokens, including the suggestion for an unknown argument. So the only mode of a program can become a command, or a command can be renamed or put into another one, and the rest of each command line keeps its meaning. Only the error about a mode that has no router names the mode.", "quantifier": "every two programs that compile and keep to the conventions of C92, every two modes of them with the same children, every rest of a command line of readable tokens, every history", "why_tests_cant": "All programs, all places of the mode and all command lines; a test has one program", "anchors": ["include/arg_router/mode.hpp: pre_parse_impl, parse_impl", "include/arg_router/root.hpp: parse", "include/arg_router/policy/alias.hpp: pre_parse_phase", "include/arg_router/policy/dependent.hpp: pre_parse_phase", "include/arg_router/utility/utf8/levenshtein_distance.hpp: closest_matching_child_node"]}
{"id": "C121", "title": "What is typed after an error does not change it", "statement": "If, in the reading of a command line for a mode, there is a token that is unknown, an argument that is given a second time, one that is given beside an alternative of it, without what it needs or without its separator, or a list with too many values, then the command line with anything typed after it does exactly the same: the same error about the same tokens, with the same suggestion, nothing is called and the same is remembered. If a command line is too long, the error shows all that is left, so also what is typed after it. (The other errors can be undone by typing more: a missing value or a missing argument can be supplied.) The exception is a list with an end marker that also needs other arguments: it may get too long instead.", "quantifier": "every program that compiles and keeps to the conventions of C92, every mode of it, every command line of readable tokens with such an error and every continuation of it, every history", "why_tests_cant": "All programs, all command lines and all continuations; a test has one", "anchors": ["include/arg_router/mode.hpp: pre_parse_impl", "include/arg_router/tree_node.hpp: pre_parse_impl", "include/arg_router/policy/min_max_count.hpp: pre_parse_phase", "include/arg_router/policy/token_end_marker.hpp: pre_parse_phase", "include/arg_router/policy/dependent.hpp: pre_parse_phase", "include/arg_router/dependency/one_of.hpp: pre_parse", "include/arg_router/parsing/unknown_argument_handling.hpp: unknown_argument_exception"]}
{"id": "C122", "title": "New labels leave old command lines alone", "statement": "If arguments of a mode that have a label get another one (a long name beside the short name, or the other way round), and perhaps other names for messages, then every command line on which the new labels are not used does the same as before: the same router is called with the same values and the same alternatives are remembered; or it fails with the same error, about the same tokens or the same arguments (which may be called by another of their names in the message); or as before there is something that no argument wants, where only the suggestion can differ. Not used means: no token is a new label, has it before a separator, or is collapsed short flags with it, and no alias or dependency refers to it.", "quantifier": "every two programs that compile and keep to the conventions of C92 and every two modes of them of which one is the other with more labels (on any number of arguments, at any depth), every command line of readable tokens that does not use the new labels, every history", "why_tests_cant": "All programs, all sets of new labels and all old command lines; a test has one", "anchors": ["include/arg_router/tree_node.hpp: pre_parse_impl", "include/arg_router/mode.hpp: pre_parse_impl, parse_impl", "include/arg_router/parsing/parsing.hpp: match", "include/arg_router/policy/short_form_expander.hpp: pre_parse_phase", "include/arg_router/policy/value_separator.hpp: pre_parse_phase", "include/arg_router/policy/alias.hpp: pre_parse_phase", "include/arg_router/policy/dependent.hpp: pre_parse_phase"]}
{"id": "C123", "title": "A proper command line is accepted", "statement": "If the arguments on a command line for a mode are each typed as declared (a label and as many values as it takes, or the words of a positional argument at the end), those that can be given once are given once, those that an argument needs come before it and of a one_of only one alternative is used, then the router is called if and only if each value typed is one its argument can have and each argument of the mode gets a value, from what is typed or its default, that is within its limits; and these are the values the router gets, in the order of declaration. Otherwise nothing is called.", "quantifier": "every program that compiles and keeps to the conventions of C92, every mode of it with a router, every such list of typed arguments of readable tokens (aliases not among them), every history", "why_tests_cant": "All programs and all lists of arguments; a test has one of each", "anchors": ["include/arg_router/mode.hpp: pre_parse_impl, parse_impl, process_result, process_missing_token, multi_stage_validation", "include/arg_router/tree_node.hpp: pre_parse_impl, parse", "include/arg_router/multi_arg_base.hpp: parse", "include/arg_router/root.hpp: parse"]}
{"id": "C124", "title": "How arguments are called and typed makes no difference to what is done with them", "statement": "If two programs have modes with the same arguments as far as their values go (types, defaults, limits, checks, what is required), then it makes no difference how the arguments are called, described and typed: with which names, prefixes, separators, end markers and numbers of values, and after which others. Whoever types the same arguments with the same values in the same order, each in the way of the program, gets the same: the routers of the modes are called with the same values, or nothing is called and there is the same error, about the same argument. So all names in a program and in its command lines can be exchanged for others.", "quantifier": "every two programs that compile and keep to the conventions of C92 (also with different prefixes), every two such modes of them, every two such proper command lines (C123) of readable tokens, every two histories", "why_tests_cant": "All programs, all ways of calling and typing their arguments and all command lines; a test has one of each", "anchors": ["include/arg_router/mode.hpp: parse_impl, process_result, process_missing_token, multi_stage_validation", "include/arg_router/multi_arg_base.hpp: parse", "include/arg_router/tree_node.hpp: pre_parse_impl, parse", "include/arg_router/parsing/parsing.hpp: match", "include/arg_router/policy/value_separator.hpp: pre_parse_phase", "include/arg_router/policy/dependent.hpp: pre_parse_phase"]}
{"id": "C125", "title": "Doing what the error messages say leads to success", "statement": "If required arguments are missing on an otherwise proper command line, the error names the one of them that is declared first, by its name, and nothing is called. Someone who adds each time the argument the error names (with a value it can have) is told about the next one each time, and has got the router called when none is missing: there are as many errors as there were missing arguments.", "quantifier": "every program that compiles and keeps to the conventions of C92, every mode of it with a router, every accepted proper command line (C123) and every number of required arguments at its end, every history", "why_tests_cant": "All programs and all sets of missing arguments; a test has one", "anchors": ["include/arg_router/mode.hpp: parse_impl, process_missing_token", "include/arg_router/policy/required.hpp: missing_phase", "include/arg_router/tree_node.hpp: pre_parse_impl, parse"]}
{"id": "C126", "title": "Values that are handed over arrive", "statement": "A program that starts another one may write values on its command line: numbers in decimal notation, texts as they are, truth values as true or false, flags and counting flags as often as they count, lists as the number of values the argument takes or up to its end marker, the values of the last positional argument one after the other, and nothing for those that have their default anyway; a value may be joined to the label with the separator of the argument (unless it is the empty text). Then the router is called with exactly these values, in the order of declaration; a text may be anything, also a label of another argument. Every number that a type of more than eight bits can hold can be written like this.", "quantifier": "every program that compiles and keeps to the conventions of C92, every mode of it with a router and arguments of the types of the library that do not depend on each other, all values for them that their limits allow, all ways to write them in readable tokens, every history", "why_tests_cant": "All programs and all values; a test has one of each", "anchors": ["include/arg_router/parsing/global_parser.hpp: parse", "include/arg_router/multi_arg_base.hpp: parse", "include/arg_router/counting_flag.hpp: merge_impl", "include/arg_router/flag.hpp: parse", "include/arg_router/mode.hpp: pre_parse_impl, parse_impl", "include/arg_router/tree_node.hpp: pre_parse_impl, parse"]}
{"id": "C127", "title": "Characters have the properties that Unicode gives them", "statement": "A text takes as many columns on a terminal as version 14 of the Unicode character database gives its characters: two for each that is wide or fullwidth (and for the unassigned code points of the blocks that are wide by default), none for each other nonspacing or enclosing mark, one for each other character. Characters are joined to clusters by the classes of UAX #29, table 2, and lines are broken by those of UAX #14, section 5.1, resolved as its rule LB1 says (for three code points only as far as the classes are given by list or by general category); no assigned character is without a line breaking class.", "quantifier": "every text of characters that the decoder handles (C34); for the classes every code point", "why_tests_cant": "There are more than a million code points, and any table entry may be wrong; tests look at a few", "anchors": ["include/arg_router/utility/utf8/double_width.hpp: double_width_table", "include/arg_router/utility/utf8/zero_width.hpp: zero_width_table", "include/arg_router/utility/utf8/grapheme_cluster_break.hpp: grapheme_cluster_break_table", "include/arg_router/utility/utf8/line_break.hpp: line_break_table", "include/arg_router/utility/utf8.hpp: terminal_width"]}
