{
 "claims": [
  {
   "property": "C01",
   "status": "proved",
   "theorems": [
    "Tok3n.C01_failure_restores_input"
   ],
   "note": ""
  },
  {
   "property": "C02",
   "status": "proved",
   "theorems": [
    "Tok3n.C02_success_consumes_prefix"
   ],
   "note": ""
  },
  {
   "property": "C03",
   "status": "proved",
   "theorems": [
    "Tok3n.C03_memory_safe",
    "Tok3n.C03_lookahead_memory_safe",
    "Tok3n.C03_foreign_join_undefined"
   ],
   "note": ""
  },
  {
   "property": "C04",
   "status": "proved",
   "theorems": [
    "Tok3n.C04_spans_in_consumed_text"
   ],
   "note": ""
  },
  {
   "property": "C05",
   "status": "partial",
   "theorems": [
    "Tok3n.C05_exact_partial",
    "Tok3n.C05_lookahead_partial",
    "Tok3n.C05_never_rejects_partial",
    "Tok3n.C05_same_verdict_partial",
    "Tok3n.C05_refuted_filter",
    "Tok3n.C05_refuted_lookahead_fails",
    "Tok3n.C05_refuted_join"
   ],
   "note": "Proved for exactly the parsers in which no filter and no join (other than below ignore) ever rejects what the parser in it matched, in particular those without filter whose joins are over parsers that drop nothing (C30_lookahead); refuted for filter and join in general."
  },
  {
   "property": "C06",
   "status": "proved",
   "theorems": [
    "Tok3n.C06_lookahead_runs_no_user_code"
   ],
   "note": ""
  },
  {
   "property": "C07",
   "status": "proved",
   "theorems": [
    "Tok3n.C07_literals",
    "Tok3n.C07_basic_parse",
    "Tok3n.C07_basic_lookahead",
    "Tok3n.C07_epsilon"
   ],
   "note": ""
  },
  {
   "property": "C08",
   "status": "proved",
   "theorems": [
    "Tok3n.C08_same_set_same_parser",
    "Tok3n.C08_accepts_what_is_written"
   ],
   "note": ""
  },
  {
   "property": "C09",
   "status": "proved",
   "theorems": [
    "Tok3n.C09_involution",
    "Tok3n.C09_complement"
   ],
   "note": ""
  },
  {
   "property": "C10",
   "status": "proved",
   "theorems": [
    "Tok3n.C10_class_union",
    "Tok3n.C10_class_union_any_equality",
    "Tok3n.C10_operations",
    "Tok3n.C10_needs_unique_equality"
   ],
   "note": "For element comparisons under which no input element equals two different literal elements (as for ==); refuted without that, except for any|any, p|p and p|!p, which hold for every comparison."
  },
  {
   "property": "C11",
   "status": "partial",
   "theorems": [
    "Tok3n.C11_lookahead",
    "Tok3n.C11_ordered_choice_partial",
    "Tok3n.C11_first_success",
    "Tok3n.C11_refuted_void_filter",
    "Tok3n.C11_refuted_index",
    "Tok3n.C11_first_verdict"
   ],
   "note": "lookahead: fully. parse: for every choice, if the alternatives recorded without index are looked ahead exactly; for choices whose variant indices are right, void alternatives being run by lookahead; for all choices without filter and join. Refuted in general (void filters, wrong indices). What every choice does is C60."
  },
  {
   "property": "C12",
   "status": "partial",
   "theorems": [
    "Tok3n.C12_type",
    "Tok3n.C12_distinct",
    "Tok3n.C12_index_partial",
    "Tok3n.C12_indices_right_iff",
    "Tok3n.C12_indexable_of",
    "Tok3n.C12_refuted_void_first",
    "Tok3n.C12_refuted_repeat"
   ],
   "note": "Proved exactly for the type lists whose indices are recorded right, which are characterised; refuted for others. What happens for the others is C60."
  },
  {
   "property": "C13",
   "status": "partial",
   "theorems": [
    "Tok3n.C13_lookahead",
    "Tok3n.C13_flatten_partial",
    "Tok3n.C13_flatten_plain",
    "Tok3n.C13_regroup_lookahead",
    "Tok3n.C13_regroup_plain",
    "Tok3n.C13_regroup_partial",
    "Tok3n.C13_refuted_same",
    "Tok3n.C13_refuted_flatten",
    "Tok3n.C13_flatten_exact",
    "Tok3n.C13_regroup_exact"
   ],
   "note": "lookahead: fully. parse: for choices with right variant indices and no p|p of a void p; for all parsers without filter and join; and for all whose alternatives are looked ahead exactly. Refuted in the remaining cases."
  },
  {
   "property": "C14",
   "status": "partial",
   "theorems": [
    "Tok3n.C14_same",
    "Tok3n.C14_idempotent_partial",
    "Tok3n.C14_idempotent_plain",
    "Tok3n.C14_refuted_void_filter",
    "Tok3n.C14_exactly"
   ],
   "note": "Proved exactly for p with a value and for p whose lookahead says what its parse says (C14_exactly is an equivalence); refuted for void filters."
  },
  {
   "property": "C15",
   "status": "partial",
   "theorems": [
    "Tok3n.C15_in_turn",
    "Tok3n.C15_exactly",
    "Tok3n.C15_type",
    "Tok3n.C15_sequence_partial",
    "Tok3n.C15_lookahead",
    "Tok3n.C15_parts_parse",
    "Tok3n.C15_lookahead_exact",
    "Tok3n.C15_refuted_void_filter"
   ],
   "note": "lookahead: fully. parse: every sequence, parts without value being run by lookahead; with parse throughout exactly if their lookahead agrees with parse (C15_exactly is an equivalence; eps, ignore, no rejecting filter and join). Refuted for void filters."
  },
  {
   "property": "C16",
   "status": "proved",
   "theorems": [
    "Tok3n.C16_flatten",
    "Tok3n.C16_then",
    "Tok3n.C16_regroup"
   ],
   "note": ""
  },
  {
   "property": "C17",
   "status": "proved",
   "theorems": [
    "Tok3n.C17_fusion"
   ],
   "note": ""
  },
  {
   "property": "C18",
   "status": "proved",
   "theorems": [
    "Tok3n.C18_maybe",
    "Tok3n.C18_lookahead"
   ],
   "note": ""
  },
  {
   "property": "C19",
   "status": "proved",
   "theorems": [
    "Tok3n.C19_zero_or_more",
    "Tok3n.C19_lookahead"
   ],
   "note": ""
  },
  {
   "property": "C20",
   "status": "proved",
   "theorems": [
    "Tok3n.C20_one_or_more",
    "Tok3n.C20_lookahead",
    "Tok3n.C20_then",
    "Tok3n.C20_sequence"
   ],
   "note": ""
  },
  {
   "property": "C21",
   "status": "proved",
   "theorems": [
    "Tok3n.C21_maybe_maybe",
    "Tok3n.C21_maybe_one_or_more",
    "Tok3n.C21_maybe_zero_or_more",
    "Tok3n.C21_zero_or_more_one_or_more",
    "Tok3n.C21_one_or_more_one_or_more"
   ],
   "note": ""
  },
  {
   "property": "C22",
   "status": "proved",
   "theorems": [
    "Tok3n.C22_endless",
    "Tok3n.C22_operators",
    "Tok3n.C22_never_built",
    "Tok3n.C22_name_defeats"
   ],
   "note": ""
  },
  {
   "property": "C23",
   "status": "proved",
   "theorems": [
    "Tok3n.C23_modifier",
    "Tok3n.C23_exactly",
    "Tok3n.C23_sequence",
    "Tok3n.C23_type"
   ],
   "note": ""
  },
  {
   "property": "C24",
   "status": "proved",
   "theorems": [
    "Tok3n.C24_modifier",
    "Tok3n.C24_delimit",
    "Tok3n.C24_sequence",
    "Tok3n.C24_verdict",
    "Tok3n.C24_operators"
   ],
   "note": ""
  },
  {
   "property": "C25",
   "status": "proved",
   "theorems": [
    "Tok3n.C25_modifier",
    "Tok3n.C25_delimit_keep",
    "Tok3n.C25_between",
    "Tok3n.C25_type"
   ],
   "note": ""
  },
  {
   "property": "C26",
   "status": "partial",
   "theorems": [
    "Tok3n.C26_exactly",
    "Tok3n.C26_ignore",
    "Tok3n.C26_lookahead",
    "Tok3n.C26_idempotent",
    "Tok3n.C26_sequence_type",
    "Tok3n.C26_sequence_partial",
    "Tok3n.C26_refuted_filter"
   ],
   "note": "ignore itself: fully. Inside a sequence: exactly for parsers whose lookahead agrees with parse, or without value (C26_exactly is an equivalence); refuted for filters."
  },
  {
   "property": "C27",
   "status": "proved",
   "theorems": [
    "Tok3n.C27_complete",
    "Tok3n.C27_lookahead",
    "Tok3n.C27_idempotent"
   ],
   "note": ""
  },
  {
   "property": "C28",
   "status": "proved",
   "theorems": [
    "Tok3n.C28_join",
    "Tok3n.C28_idempotent"
   ],
   "note": ""
  },
  {
   "property": "C29",
   "status": "proved",
   "theorems": [
    "Tok3n.C29_specialisations",
    "Tok3n.C29_any_compiler"
   ],
   "note": ""
  },
  {
   "property": "C30",
   "status": "proved",
   "theorems": [
    "Tok3n.Json.C30_lookahead_tells",
    "Tok3n.Algebraic.C30_lookahead_tells",
    "Tok3n.C30_spans",
    "Tok3n.C30_text",
    "Tok3n.C30_join",
    "Tok3n.C30_lookahead",
    "Tok3n.C30_checked",
    "Tok3n.C30_ignore_drops",
    "Tok3n.C30_delimit_drops",
    "Tok3n.C30_join_trimmed",
    "Tok3n.C30_lookahead_checked"
   ],
   "note": ""
  },
  {
   "property": "C31",
   "status": "proved",
   "theorems": [
    "Tok3n.C31_modifier",
    "Tok3n.C31_map",
    "Tok3n.C31_lookahead"
   ],
   "note": ""
  },
  {
   "property": "C32",
   "status": "proved",
   "theorems": [
    "Tok3n.C32_modifier",
    "Tok3n.C32_filter"
   ],
   "note": ""
  },
  {
   "property": "C33",
   "status": "proved",
   "theorems": [
    "Tok3n.C33_names",
    "Tok3n.C33_compiles"
   ],
   "note": ""
  },
  {
   "property": "C34",
   "status": "proved",
   "theorems": [
    "Tok3n.C34_one_by_one"
   ],
   "note": ""
  },
  {
   "property": "C35",
   "status": "partial",
   "theorems": [
    "Tok3n.C35_everywhere_partial",
    "Tok3n.C35_absent",
    "Tok3n.C35_names_partial",
    "Tok3n.C35_exactly",
    "Tok3n.C35_modifiers",
    "Tok3n.C35_refuted_character_type"
   ],
   "note": "Proved exactly for the expressions in which the substituted name does not occur below a name of another character type: below such a name nothing is substituted (C35_exactly is an equivalence; refuted with a witness). A parser without the name is left alone in all cases."
  },
  {
   "property": "C36",
   "status": "proved",
   "theorems": [
    "Tok3n.C36_modifiers",
    "Tok3n.C36_parser",
    "Tok3n.C36_limits"
   ],
   "note": ""
  },
  {
   "property": "C37",
   "status": "proved",
   "theorems": [
    "Tok3n.C37_modifiers",
    "Tok3n.C37_prefix_infix",
    "Tok3n.C37_families",
    "Tok3n.C37_collapse"
   ],
   "note": ""
  },
  {
   "property": "C38",
   "status": "proved",
   "theorems": [
    "Tok3n.C38_apply",
    "Tok3n.C38_apply_filter",
    "Tok3n.C38_into",
    "Tok3n.C38_apply_into",
    "Tok3n.C38_constant",
    "Tok3n.C38_defaulted"
   ],
   "note": ""
  },
  {
   "property": "C39",
   "status": "proved",
   "theorems": [
    "Tok3n.C39_returns",
    "Tok3n.C39_checked",
    "Tok3n.C39_closed",
    "Tok3n.C39_left_recursion"
   ],
   "note": ""
  },
  {
   "property": "C40",
   "status": "proved",
   "theorems": [
    "Tok3n.C40_repetition",
    "Tok3n.C40_lookahead",
    "Tok3n.C40_delimit"
   ],
   "note": ""
  },
  {
   "property": "C41",
   "status": "proved",
   "theorems": [
    "Tok3n.C41_custom",
    "Tok3n.C41_verdict",
    "Tok3n.C41_refuted_body_fails"
   ],
   "note": ""
  },
  {
   "property": "C42",
   "status": "proved",
   "theorems": [
    "Tok3n.C42_relocation",
    "Tok3n.C42_consumed"
   ],
   "note": ""
  },
  {
   "property": "C43",
   "status": "proved",
   "theorems": [
    "Tok3n.C43_value_has_type",
    "Tok3n.C43_documented_types",
    "Tok3n.C43_result_for"
   ],
   "note": ""
  },
  {
   "property": "C44",
   "status": "partial",
   "theorems": [
    "Tok3n.C44_sequence_exactly",
    "Tok3n.C44_every_choice",
    "Tok3n.C44_choice_exactly",
    "Tok3n.C44_filter_not_exact",
    "Tok3n.C44_complete_exact",
    "Tok3n.C44_sequence_partial",
    "Tok3n.C44_choice_partial",
    "Tok3n.C44_refuted_sequence",
    "Tok3n.C44_refuted_choice"
   ],
   "note": "Proved exactly for the void parts whose lookahead fails where their parse fails (C44_sequence_exactly and C44_choice_exactly are equivalences); refuted for void filters."
  },
  {
   "property": "C45",
   "status": "proved",
   "theorems": [
    "Tok3n.C45_lookahead",
    "Tok3n.C45_deterministic",
    "Tok3n.C45_parse_plain",
    "Tok3n.C45_parse"
   ],
   "note": ""
  },
  {
   "property": "C46",
   "status": "proved",
   "theorems": [
    "Tok3n.Json.C46_returns",
    "Tok3n.Json.C46_lookahead_returns",
    "Tok3n.Json.C46_leftover"
   ],
   "note": ""
  },
  {
   "property": "C47",
   "status": "proved",
   "theorems": [
    "Tok3n.Algebraic.C47_returns",
    "Tok3n.Algebraic.C47_shape",
    "Tok3n.Algebraic.C47_complete",
    "Tok3n.Algebraic.C47_evaluate",
    "Tok3n.Algebraic.C47_print",
    "Tok3n.Algebraic.C47_print_deep"
   ],
   "note": "print() additionally runs past its 1025 character buffer of tabs from 205 nested parentheses or minus signs on (C47_print, C47_print_deep); it never runs past a vector."
  },
  {
   "property": "C48",
   "status": "proved",
   "theorems": [
    "Tok3n.C48_argument",
    "Tok3n.C48_no_nul",
    "Tok3n.C48_mutable_array"
   ],
   "note": ""
  },
  {
   "property": "C49",
   "status": "proved",
   "theorems": [
    "Tok3n.C49_exceptions",
    "Tok3n.C49_no_throw",
    "Tok3n.C49_lookahead",
    "Tok3n.C49_deterministic"
   ],
   "note": ""
  },
  {
   "property": "C50",
   "status": "proved",
   "theorems": [
    "Tok3n.C50_any_compiler",
    "Tok3n.C50_callback_free"
   ],
   "note": ""
  },
  {
   "property": "C51",
   "status": "proved",
   "theorems": [
    "Tok3n.C51_span_equality"
   ],
   "note": ""
  },
  {
   "property": "C52",
   "status": "proved",
   "theorems": [
    "Tok3n.C52_void_alternative"
   ],
   "note": ""
  },
  {
   "property": "C53",
   "status": "proved",
   "theorems": [
    "Tok3n.C53_sequence",
    "Tok3n.C53_repetition",
    "Tok3n.C53_exactly",
    "Tok3n.C53_delimit",
    "Tok3n.C53_choice",
    "Tok3n.C53_wrapped",
    "Tok3n.C53_callback"
   ],
   "note": ""
  },
  {
   "property": "C54",
   "status": "proved",
   "theorems": [
    "Tok3n.Json.C54_sound",
    "Tok3n.Json.C54_complete",
    "Tok3n.Json.C54_accepts",
    "Tok3n.Json.C54_object",
    "Tok3n.Json.C54_array",
    "Tok3n.Json.C54_string",
    "Tok3n.Json.C54_unambiguous",
    "Tok3n.Json.C54_control_character"
   ],
   "note": ""
  },
  {
   "property": "C55",
   "status": "proved",
   "theorems": [
    "Tok3n.Algebraic.C55_sound",
    "Tok3n.Algebraic.C55_complete",
    "Tok3n.Algebraic.C55_greedy_exists",
    "Tok3n.Algebraic.C55_greedy_unique",
    "Tok3n.Algebraic.C55_accepts",
    "Tok3n.Algebraic.C55_ambiguous"
   ],
   "note": ""
  },
  {
   "property": "C56",
   "status": "proved",
   "theorems": [
    "Tok3n.Algebraic.C56_evaluate",
    "Tok3n.Algebraic.C56_minus",
    "Tok3n.Algebraic.C56_power",
    "Tok3n.Algebraic.C56_exponent"
   ],
   "note": ""
  },
  {
   "property": "C57",
   "status": "proved",
   "theorems": [
    "Tok3n.C57_compiles",
    "Tok3n.C57_classes",
    "Tok3n.C57_sequence",
    "Tok3n.C57_choice",
    "Tok3n.C57_others",
    "Tok3n.C57_expressions",
    "Tok3n.C57_operators",
    "Tok3n.C57_choice_refuted",
    "Tok3n.C57_every_choice"
   ],
   "note": "Choices: C57_choice for value types whose indices are recorded right, C57_every_choice for all."
  },
  {
   "property": "C58",
   "status": "proved",
   "theorems": [
    "Tok3n.Algebraic.C58_print",
    "Tok3n.Algebraic.C58_prints",
    "Tok3n.Algebraic.C58_distinct",
    "Tok3n.Algebraic.C58_tells",
    "Tok3n.Algebraic.C58_limit",
    "Tok3n.Algebraic.C58_same"
   ],
   "note": ""
  },
  {
   "property": "C59",
   "status": "proved",
   "theorems": [
    "Tok3n.C59_compare",
    "Tok3n.C59_same",
    "Tok3n.C59_mutable_array"
   ],
   "note": ""
  },
  {
   "property": "C60",
   "status": "proved",
   "theorems": [
    "Tok3n.C60_recorded",
    "Tok3n.C60_every_choice",
    "Tok3n.C60_converts",
    "Tok3n.C60_right_or_default"
   ],
   "note": ""
  },
  {
   "property": "C61",
   "status": "proved",
   "theorems": [
    "Tok3n.C61_gap",
    "Tok3n.C61_never",
    "Tok3n.C61_readme"
   ],
   "note": ""
  },
  {
   "property": "C62",
   "status": "proved",
   "theorems": [
    "Tok3n.C62_replace",
    "Tok3n.C62_lookahead",
    "Tok3n.C62_equivalence",
    "Tok3n.C62_named",
    "Tok3n.C62_custom",
    "Tok3n.C62_compiles",
    "Tok3n.C62_type_needed"
   ],
   "note": ""
  },
  {
   "property": "C63",
   "status": "proved",
   "theorems": [
    "Tok3n.C63_maybe",
    "Tok3n.C63_one_or_more",
    "Tok3n.C63_zero_or_more",
    "Tok3n.C63_unfold",
    "Tok3n.C63_exactly",
    "Tok3n.C63_delimit",
    "Tok3n.C63_factor",
    "Tok3n.C63_sequence_group",
    "Tok3n.C63_choice_group",
    "Tok3n.C63_epsilon",
    "Tok3n.C63_unreachable",
    "Tok3n.C63_repeated",
    "Tok3n.C63_complete",
    "Tok3n.C63_parse",
    "Tok3n.C63_no_right_factor",
    "Tok3n.C63_order_matters"
   ],
   "note": ""
  },
  {
   "property": "C64",
   "status": "proved",
   "theorems": [
    "Tok3n.C64_no_recursion",
    "Tok3n.C64_expression",
    "Tok3n.C64_ranked",
    "Tok3n.C64_linear",
    "Tok3n.C64_productive",
    "Tok3n.C64_returns",
    "Tok3n.C64_left_recursion",
    "Tok3n.C64_needed",
    "Tok3n.Json.C64_json",
    "Tok3n.Algebraic.C64_algebraic"
   ],
   "note": ""
  },
  {
   "property": "C65",
   "status": "proved",
   "theorems": [
    "Tok3n.C65_lookahead_exact",
    "Tok3n.C65_parse_exact",
    "Tok3n.C65_parse_within",
    "Tok3n.C65_counts",
    "Tok3n.C65_each_call",
    "Tok3n.C65_bound",
    "Tok3n.C65_polynomial",
    "Tok3n.C65_constant",
    "Tok3n.C65_linear",
    "Tok3n.C65_degree",
    "Tok3n.C65_exponential",
    "Tok3n.C65_recursive",
    "Tok3n.C65_productive",
    "Tok3n.Algebraic.C65_exponential_input",
    "Tok3n.Algebraic.C65_at_most_exponential",
    "Tok3n.Algebraic.C65_accepted",
    "Tok3n.Algebraic.C65_accepted_needed",
    "Tok3n.Json.C65_linear_json"
   ],
   "note": ""
  },
  {
   "property": "C66",
   "status": "proved",
   "theorems": [
    "Tok3n.Result.C66_verdict",
    "Tok3n.Result.C66_value",
    "Tok3n.Result.C66_throws",
    "Tok3n.Result.C66_undefined",
    "Tok3n.Result.C66_indeterminate",
    "Tok3n.Result.C66_parse"
   ],
   "note": ""
  },
  {
   "property": "C67",
   "status": "proved",
   "theorems": [
    "Tok3n.C67_result",
    "Tok3n.C67_exception",
    "Tok3n.C67_origin",
    "Tok3n.C67_once"
   ],
   "note": ""
  },
  {
   "property": "C68",
   "status": "proved",
   "theorems": [
    "Tok3n.C68_one_element_type",
    "Tok3n.C68_no_mixture",
    "Tok3n.C68_input",
    "Tok3n.C68_single"
   ],
   "note": ""
  },
  {
   "property": "C69",
   "status": "proved",
   "theorems": [
    "Tok3n.C69_reorder",
    "Tok3n.C69_dead",
    "Tok3n.C69_reorder_parse",
    "Tok3n.C69_same_value",
    "Tok3n.C69_dead_parse",
    "Tok3n.C69_begins",
    "Tok3n.C69_apart",
    "Tok3n.C69_prefix",
    "Tok3n.Json.C69_json"
   ],
   "note": ""
  },
  {
   "property": "C70",
   "status": "proved",
   "theorems": [
    "Tok3n.C70_once",
    "Tok3n.C70_disjoint",
    "Tok3n.C70_length",
    "Tok3n.C70_in_order"
   ],
   "note": ""
  },
  {
   "property": "C71",
   "status": "proved",
   "theorems": [
    "Tok3n.C71_linear",
    "Tok3n.C71_nothing_consumed",
    "Tok3n.Json.C71_json",
    "Tok3n.Algebraic.C71_algebraic",
    "Tok3n.C71_needs_bounded_callbacks"
   ],
   "note": ""
  },
  {
   "property": "C72",
   "status": "proved",
   "theorems": [
    "Tok3n.C72_respelt",
    "Tok3n.C72_types",
    "Tok3n.C72_compiles",
    "Tok3n.C72_converted",
    "Tok3n.C72_converted_compiles",
    "Tok3n.C72_indistinguishable",
    "Tok3n.C72_needs_indistinguishable",
    "Tok3n.Json.C72_json"
   ],
   "note": ""
  },
  {
   "property": "C73",
   "status": "proved",
   "theorems": [
    "Tok3n.C73_parse",
    "Tok3n.C73_lookahead",
    "Tok3n.C73_expression",
    "Tok3n.C73_recursion",
    "Tok3n.C73_needs_finite"
   ],
   "note": ""
  },
  {
   "property": "C74",
   "status": "proved",
   "theorems": [
    "Tok3n.C74_opaque",
    "Tok3n.C74_invariant",
    "Tok3n.C74_evaluation",
    "Tok3n.C74_needs_truthy"
   ],
   "note": ""
  },
  {
   "property": "C75",
   "status": "proved",
   "theorems": [
    "Tok3n.C75_stateless",
    "Tok3n.C75_lookahead",
    "Tok3n.C75_input",
    "Tok3n.C75_effects",
    "Tok3n.C75_invariant",
    "Tok3n.C75_safe",
    "Tok3n.C75_sequence",
    "Tok3n.C75_choice",
    "Tok3n.C75_every_choice",
    "Tok3n.C75_maybe",
    "Tok3n.C75_zero_or_more",
    "Tok3n.C75_one_or_more",
    "Tok3n.C75_exactly",
    "Tok3n.C75_delimit",
    "Tok3n.C75_map",
    "Tok3n.C75_filter",
    "Tok3n.C75_same_answers",
    "Tok3n.C75_used",
    "Tok3n.C75_no_callbacks",
    "Tok3n.C75_basic",
    "Tok3n.C75_ignore",
    "Tok3n.C75_complete",
    "Tok3n.C75_join",
    "Tok3n.C75_custom",
    "Tok3n.C75_returns",
    "Tok3n.C75_checked",
    "Tok3n.C75_verdict",
    "Tok3n.C75_same_verdict"
   ],
   "note": ""
  },
  {
   "property": "C76",
   "status": "proved",
   "theorems": [
    "Tok3n.C76_lookahead",
    "Tok3n.C76_parse",
    "Tok3n.C76_compiles",
    "Tok3n.C76_of_compiles",
    "Tok3n.C76_alone",
    "Tok3n.C76_value_has_type"
   ],
   "note": ""
  },
  {
   "property": "C77",
   "status": "proved",
   "theorems": [
    "Tok3n.C77_itself",
    "Tok3n.C77_protocol",
    "Tok3n.C77_lookahead_quiet",
    "Tok3n.C77_delivers",
    "Tok3n.C77_memory_safe",
    "Tok3n.C77_lookahead_tells",
    "Tok3n.C77_in_place",
    "Tok3n.C77_none",
    "Tok3n.C77_careless",
    "Tok3n.C77_returns",
    "Tok3n.C77_idle"
   ],
   "note": ""
  },
  {
   "property": "C78",
   "status": "proved",
   "theorems": [
    "Tok3n.C78_cut",
    "Tok3n.C78_fails",
    "Tok3n.C78_inside",
    "Tok3n.C78_more",
    "Tok3n.C78_parse",
    "Tok3n.C78_refuted",
    "Tok3n.C78_short_refuted",
    "Tok3n.Json.C78_json_string",
    "Tok3n.Json.C78_json_number",
    "Tok3n.Json.C78_json_alone"
   ],
   "note": ""
  },
  {
   "property": "C79",
   "status": "proved",
   "theorems": [
    "Tok3n.C79_lasting",
    "Tok3n.C79_views",
    "Tok3n.C79_standard",
    "Tok3n.C79_join",
    "Tok3n.C79_refuted"
   ],
   "note": ""
  },
  {
   "property": "C80",
   "status": "proved",
   "theorems": [
    "Tok3n.C80_uninterrupted",
    "Tok3n.C80_own_state",
    "Tok3n.C80_no_state",
    "Tok3n.C80_every_order",
    "Tok3n.C80_input",
    "Tok3n.C80_verdict",
    "Tok3n.C80_safe",
    "Tok3n.C80_returns",
    "Tok3n.C80_refuted"
   ],
   "note": ""
  },
  {
   "property": "C81",
   "status": "proved",
   "theorems": [
    "Tok3n.C81_linear",
    "Tok3n.C81_rejects"
   ],
   "note": ""
  },
  {
   "property": "C82",
   "status": "proved",
   "theorems": [
    "Tok3n.C82_parse",
    "Tok3n.C82_lookahead",
    "Tok3n.C82_stops",
    "Tok3n.C82_points",
    "Tok3n.C82_calm",
    "Tok3n.C82_endless"
   ],
   "note": ""
  },
  {
   "property": "C83",
   "status": "proved",
   "theorems": [
    "Tok3n.C83_deterministic",
    "Tok3n.C83_lookahead_exact",
    "Tok3n.C83_parse_exact",
    "Tok3n.C83_literal",
    "Tok3n.C83_linear"
   ],
   "note": ""
  },
  {
   "property": "C84",
   "status": "proved",
   "theorems": [
    "Tok3n.C84_parse",
    "Tok3n.C84_deterministic"
   ],
   "note": ""
  },
  {
   "property": "C85",
   "status": "proved",
   "theorems": [
    "Tok3n.C85_lookahead_sound",
    "Tok3n.C85_parse_sound",
    "Tok3n.C85_complete",
    "Tok3n.C85_language",
    "Tok3n.C85_unique",
    "Tok3n.C85_refuses",
    "Tok3n.C85_leaves",
    "Tok3n.C85_refuted_order",
    "Tok3n.C85_refuted_pretends",
    "Tok3n.C85_one_ahead",
    "Tok3n.C85_decides"
   ],
   "note": ""
  },
  {
   "property": "C86",
   "status": "proved",
   "theorems": [
    "Tok3n.C86_without",
    "Tok3n.C86_unique",
    "Tok3n.C86_exists",
    "Tok3n.C86_get_parser",
    "Tok3n.C86_refuted_own_names"
   ],
   "note": ""
  },
  {
   "property": "C87",
   "status": "proved",
   "theorems": [
    "Tok3n.C87_sound",
    "Tok3n.C87_unique",
    "Tok3n.C87_found",
    "Tok3n.C87_complete",
    "Tok3n.C87_value",
    "Tok3n.C87_decides",
    "Tok3n.C87_text",
    "Tok3n.C87_behind",
    "Tok3n.C87_refuted_ambiguous"
   ],
   "note": ""
  },
  {
   "property": "C88",
   "status": "proved",
   "theorems": [
    "Tok3n.C88_repetition",
    "Tok3n.C88_repetition_part",
    "Tok3n.C88_delimit",
    "Tok3n.C88_last",
    "Tok3n.C88_choice",
    "Tok3n.C88_never",
    "Tok3n.C88_never_parse",
    "Tok3n.C88_absorb",
    "Tok3n.C88_optional",
    "Tok3n.C88_classes",
    "Tok3n.C88_language",
    "Tok3n.C88_trailing",
    "Tok3n.C88_refuted_optional"
   ],
   "note": ""
  },
  {
   "property": "C89",
   "status": "proved",
   "theorems": [
    "Tok3n.Algebraic.C89_report",
    "Tok3n.Algebraic.C89_evaluate",
    "Tok3n.Algebraic.C89_program",
    "Tok3n.Json.C89_json",
    "Tok3n.Json.C89_json_program"
   ],
   "note": ""
  },
  {
   "property": "C90",
   "status": "proved",
   "theorems": [
    "Tok3n.Algebraic.C90_expression",
    "Tok3n.Algebraic.C90_read",
    "Tok3n.Algebraic.C90_results",
    "Tok3n.Algebraic.C90_distinct",
    "Tok3n.Json.C90_document",
    "Tok3n.Json.C90_read",
    "Tok3n.Json.C90_results",
    "Tok3n.Json.C90_distinct"
   ],
   "note": ""
  }
 ]
}