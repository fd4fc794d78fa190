import Verif.Props.Algebraic
import Verif.Props.AlgebraicMain
import Verif.Props.Api
import Verif.Props.CallCount
import Verif.Props.Calls
import Verif.Props.CanParse
import Verif.Props.Causes
import Verif.Props.Choice
import Verif.Props.Compare
import Verif.Props.Comparisons
import Verif.Props.Compile
import Verif.Props.Cut
import Verif.Props.Dropped
import Verif.Props.Effort
import Verif.Props.EffortRecursive
import Verif.Props.Exact
import Verif.Props.ExamplesCalls
import Verif.Props.ExamplesLook
import Verif.Props.Exceptions
import Verif.Props.Exhausts
import Verif.Props.Gives
import Verif.Props.Independence
import Verif.Props.Input
import Verif.Props.Interrupted
import Verif.Props.Json
import Verif.Props.JsonMain
import Verif.Props.Keeps
import Verif.Props.Language
import Verif.Props.Laws
import Verif.Props.Lifetime
import Verif.Props.Literals
import Verif.Props.Lookahead
import Verif.Props.Means
import Verif.Props.Modify
import Verif.Props.Once
import Verif.Props.OneAhead
import Verif.Props.Opaque
import Verif.Props.Order
import Verif.Props.Peg
import Verif.Props.Places
import Verif.Props.Predict
import Verif.Props.Print
import Verif.Props.Repetition
import Verif.Props.Replace
import Verif.Props.Respelt
import Verif.Props.Result
import Verif.Props.Safety
import Verif.Props.Sequence
import Verif.Props.Size
import Verif.Props.Stack
import Verif.Props.Stateful
import Verif.Props.Substitution
import Verif.Props.Templates
import Verif.Props.Terminate
import Verif.Props.Together
import Verif.Props.Trim
import Verif.Props.Types
import Verif.Props.Unparse
import Verif.Props.Used
import Verif.Props.ValueType
import Verif.Props.Written

/-! The axioms each property theorem depends on (generated by tools/manifest.py). -/

#print axioms Tok3n.Algebraic.C47_returns
#print axioms Tok3n.Algebraic.C55_sound
#print axioms Tok3n.Algebraic.C55_complete
#print axioms Tok3n.Algebraic.C55_greedy_exists
#print axioms Tok3n.Algebraic.C55_greedy_unique
#print axioms Tok3n.Algebraic.C55_accepts
#print axioms Tok3n.Algebraic.C47_shape
#print axioms Tok3n.Algebraic.C47_complete
#print axioms Tok3n.Algebraic.C56_evaluate
#print axioms Tok3n.Algebraic.C47_evaluate
#print axioms Tok3n.Algebraic.C47_print
#print axioms Tok3n.Algebraic.C56_minus
#print axioms Tok3n.Algebraic.C56_power
#print axioms Tok3n.Algebraic.C56_exponent
#print axioms Tok3n.Algebraic.C47_print_deep
#print axioms Tok3n.Algebraic.C55_ambiguous
#print axioms Tok3n.Algebraic.C89_report
#print axioms Tok3n.Algebraic.C89_evaluate
#print axioms Tok3n.Algebraic.C89_program
#print axioms Tok3n.C07_literals
#print axioms Tok3n.C23_modifier
#print axioms Tok3n.C24_modifier
#print axioms Tok3n.C25_modifier
#print axioms Tok3n.C31_modifier
#print axioms Tok3n.C32_modifier
#print axioms Tok3n.C37_modifiers
#print axioms Tok3n.C65_lookahead_exact
#print axioms Tok3n.C65_parse_exact
#print axioms Tok3n.C65_parse_within
#print axioms Tok3n.C53_sequence
#print axioms Tok3n.C53_repetition
#print axioms Tok3n.C53_exactly
#print axioms Tok3n.C53_delimit
#print axioms Tok3n.C53_choice
#print axioms Tok3n.C53_wrapped
#print axioms Tok3n.C53_callback
#print axioms Tok3n.C57_compiles
#print axioms Tok3n.C73_parse
#print axioms Tok3n.C73_lookahead
#print axioms Tok3n.C73_expression
#print axioms Tok3n.C73_recursion
#print axioms Tok3n.C73_needs_finite
#print axioms Tok3n.C10_class_union
#print axioms Tok3n.C10_class_union_any_equality
#print axioms Tok3n.C10_operations
#print axioms Tok3n.C10_needs_unique_equality
#print axioms Tok3n.C11_lookahead
#print axioms Tok3n.C11_ordered_choice_partial
#print axioms Tok3n.C11_first_success
#print axioms Tok3n.C11_refuted_void_filter
#print axioms Tok3n.C11_refuted_index
#print axioms Tok3n.C12_type
#print axioms Tok3n.C12_distinct
#print axioms Tok3n.C12_index_partial
#print axioms Tok3n.C12_indices_right_iff
#print axioms Tok3n.C12_indexable_of
#print axioms Tok3n.C12_refuted_void_first
#print axioms Tok3n.C12_refuted_repeat
#print axioms Tok3n.C52_void_alternative
#print axioms Tok3n.C13_lookahead
#print axioms Tok3n.C13_flatten_partial
#print axioms Tok3n.C13_flatten_plain
#print axioms Tok3n.C13_regroup_lookahead
#print axioms Tok3n.C13_regroup_plain
#print axioms Tok3n.C13_regroup_partial
#print axioms Tok3n.C13_refuted_same
#print axioms Tok3n.C13_refuted_flatten
#print axioms Tok3n.C14_same
#print axioms Tok3n.C14_idempotent_partial
#print axioms Tok3n.C14_idempotent_plain
#print axioms Tok3n.C14_refuted_void_filter
#print axioms Tok3n.C59_compare
#print axioms Tok3n.C59_same
#print axioms Tok3n.C59_mutable_array
#print axioms Tok3n.C83_deterministic
#print axioms Tok3n.C83_lookahead_exact
#print axioms Tok3n.C83_parse_exact
#print axioms Tok3n.C83_literal
#print axioms Tok3n.C83_linear
#print axioms Tok3n.C57_classes
#print axioms Tok3n.C57_sequence
#print axioms Tok3n.C57_choice
#print axioms Tok3n.C57_others
#print axioms Tok3n.C57_expressions
#print axioms Tok3n.C57_operators
#print axioms Tok3n.C57_choice_refuted
#print axioms Tok3n.C78_cut
#print axioms Tok3n.C78_fails
#print axioms Tok3n.C78_inside
#print axioms Tok3n.C78_more
#print axioms Tok3n.C78_parse
#print axioms Tok3n.C78_refuted
#print axioms Tok3n.C78_short_refuted
#print axioms Tok3n.Json.C78_json_string
#print axioms Tok3n.Json.C78_json_number
#print axioms Tok3n.Json.C78_json_alone
#print axioms Tok3n.C61_gap
#print axioms Tok3n.C61_never
#print axioms Tok3n.C61_readme
#print axioms Tok3n.C65_counts
#print axioms Tok3n.C65_each_call
#print axioms Tok3n.C65_bound
#print axioms Tok3n.C65_polynomial
#print axioms Tok3n.C65_constant
#print axioms Tok3n.C65_linear
#print axioms Tok3n.C65_degree
#print axioms Tok3n.C65_exponential
#print axioms Tok3n.C65_recursive
#print axioms Tok3n.C65_productive
#print axioms Tok3n.C60_recorded
#print axioms Tok3n.C60_every_choice
#print axioms Tok3n.C11_first_verdict
#print axioms Tok3n.C60_converts
#print axioms Tok3n.C60_right_or_default
#print axioms Tok3n.C57_every_choice
#print axioms Tok3n.C05_exact_partial
#print axioms Tok3n.C14_exactly
#print axioms Tok3n.C15_in_turn
#print axioms Tok3n.C15_exactly
#print axioms Tok3n.C26_exactly
#print axioms Tok3n.C44_sequence_exactly
#print axioms Tok3n.C44_every_choice
#print axioms Tok3n.C44_choice_exactly
#print axioms Tok3n.C13_flatten_exact
#print axioms Tok3n.C13_regroup_exact
#print axioms Tok3n.C44_filter_not_exact
#print axioms Tok3n.C44_complete_exact
#print axioms Tok3n.Algebraic.C65_exponential_input
#print axioms Tok3n.Algebraic.C65_at_most_exponential
#print axioms Tok3n.Algebraic.C65_accepted
#print axioms Tok3n.Algebraic.C65_accepted_needed
#print axioms Tok3n.Json.C65_linear_json
#print axioms Tok3n.Json.C30_lookahead_tells
#print axioms Tok3n.Algebraic.C30_lookahead_tells
#print axioms Tok3n.C49_exceptions
#print axioms Tok3n.C49_no_throw
#print axioms Tok3n.C49_lookahead
#print axioms Tok3n.C49_deterministic
#print axioms Tok3n.C88_repetition
#print axioms Tok3n.C88_repetition_part
#print axioms Tok3n.C88_delimit
#print axioms Tok3n.C88_last
#print axioms Tok3n.C88_choice
#print axioms Tok3n.C88_never
#print axioms Tok3n.C88_never_parse
#print axioms Tok3n.C88_absorb
#print axioms Tok3n.C88_optional
#print axioms Tok3n.C88_classes
#print axioms Tok3n.C88_language
#print axioms Tok3n.C88_trailing
#print axioms Tok3n.C88_refuted_optional
#print axioms Tok3n.C84_parse
#print axioms Tok3n.C84_deterministic
#print axioms Tok3n.C33_names
#print axioms Tok3n.C33_compiles
#print axioms Tok3n.C42_relocation
#print axioms Tok3n.C42_consumed
#print axioms Tok3n.C50_any_compiler
#print axioms Tok3n.C50_callback_free
#print axioms Tok3n.C48_argument
#print axioms Tok3n.C48_no_nul
#print axioms Tok3n.C48_mutable_array
#print axioms Tok3n.C82_parse
#print axioms Tok3n.C82_lookahead
#print axioms Tok3n.C82_stops
#print axioms Tok3n.C82_points
#print axioms Tok3n.C82_calm
#print axioms Tok3n.C82_endless
#print axioms Tok3n.Json.C46_returns
#print axioms Tok3n.Json.C46_lookahead_returns
#print axioms Tok3n.Json.C54_sound
#print axioms Tok3n.Json.C54_complete
#print axioms Tok3n.Json.C54_accepts
#print axioms Tok3n.Json.C54_object
#print axioms Tok3n.Json.C54_array
#print axioms Tok3n.Json.C54_string
#print axioms Tok3n.Json.C46_leftover
#print axioms Tok3n.Json.C54_unambiguous
#print axioms Tok3n.Json.C54_control_character
#print axioms Tok3n.Json.C89_json
#print axioms Tok3n.Json.C89_json_program
#print axioms Tok3n.C30_spans
#print axioms Tok3n.C30_text
#print axioms Tok3n.C30_join
#print axioms Tok3n.C30_lookahead
#print axioms Tok3n.C30_checked
#print axioms Tok3n.C30_ignore_drops
#print axioms Tok3n.C30_delimit_drops
#print axioms Tok3n.C85_lookahead_sound
#print axioms Tok3n.C85_parse_sound
#print axioms Tok3n.C85_complete
#print axioms Tok3n.C85_language
#print axioms Tok3n.C85_unique
#print axioms Tok3n.C85_refuses
#print axioms Tok3n.C85_leaves
#print axioms Tok3n.C85_refuted_order
#print axioms Tok3n.C85_refuted_pretends
#print axioms Tok3n.C63_maybe
#print axioms Tok3n.C63_one_or_more
#print axioms Tok3n.C63_zero_or_more
#print axioms Tok3n.C63_unfold
#print axioms Tok3n.C63_exactly
#print axioms Tok3n.C63_delimit
#print axioms Tok3n.C63_factor
#print axioms Tok3n.C63_sequence_group
#print axioms Tok3n.C63_choice_group
#print axioms Tok3n.C63_epsilon
#print axioms Tok3n.C63_unreachable
#print axioms Tok3n.C63_repeated
#print axioms Tok3n.C63_complete
#print axioms Tok3n.C63_parse
#print axioms Tok3n.C63_no_right_factor
#print axioms Tok3n.C63_order_matters
#print axioms Tok3n.C79_lasting
#print axioms Tok3n.C79_views
#print axioms Tok3n.C79_standard
#print axioms Tok3n.C79_join
#print axioms Tok3n.C79_refuted
#print axioms Tok3n.C51_span_equality
#print axioms Tok3n.C07_basic_parse
#print axioms Tok3n.C07_basic_lookahead
#print axioms Tok3n.C07_epsilon
#print axioms Tok3n.C08_same_set_same_parser
#print axioms Tok3n.C08_accepts_what_is_written
#print axioms Tok3n.C09_involution
#print axioms Tok3n.C09_complement
#print axioms Tok3n.C05_lookahead_partial
#print axioms Tok3n.C05_never_rejects_partial
#print axioms Tok3n.C05_same_verdict_partial
#print axioms Tok3n.C05_refuted_filter
#print axioms Tok3n.C05_refuted_lookahead_fails
#print axioms Tok3n.C05_refuted_join
#print axioms Tok3n.C87_sound
#print axioms Tok3n.C87_unique
#print axioms Tok3n.C87_found
#print axioms Tok3n.C87_complete
#print axioms Tok3n.C87_value
#print axioms Tok3n.C87_decides
#print axioms Tok3n.C87_text
#print axioms Tok3n.C87_behind
#print axioms Tok3n.C87_refuted_ambiguous
#print axioms Tok3n.C26_ignore
#print axioms Tok3n.C26_lookahead
#print axioms Tok3n.C26_idempotent
#print axioms Tok3n.C26_sequence_type
#print axioms Tok3n.C26_sequence_partial
#print axioms Tok3n.C26_refuted_filter
#print axioms Tok3n.C27_complete
#print axioms Tok3n.C27_lookahead
#print axioms Tok3n.C27_idempotent
#print axioms Tok3n.C28_join
#print axioms Tok3n.C28_idempotent
#print axioms Tok3n.C29_specialisations
#print axioms Tok3n.C29_any_compiler
#print axioms Tok3n.C31_map
#print axioms Tok3n.C31_lookahead
#print axioms Tok3n.C32_filter
#print axioms Tok3n.C37_prefix_infix
#print axioms Tok3n.C37_families
#print axioms Tok3n.C37_collapse
#print axioms Tok3n.C38_apply
#print axioms Tok3n.C38_apply_filter
#print axioms Tok3n.C38_into
#print axioms Tok3n.C38_apply_into
#print axioms Tok3n.C38_constant
#print axioms Tok3n.C38_defaulted
#print axioms Tok3n.C41_custom
#print axioms Tok3n.C41_verdict
#print axioms Tok3n.C41_refuted_body_fails
#print axioms Tok3n.C67_result
#print axioms Tok3n.C67_exception
#print axioms Tok3n.C67_origin
#print axioms Tok3n.C67_once
#print axioms Tok3n.C85_one_ahead
#print axioms Tok3n.C85_decides
#print axioms Tok3n.C74_opaque
#print axioms Tok3n.C74_invariant
#print axioms Tok3n.C74_evaluation
#print axioms Tok3n.C74_needs_truthy
#print axioms Tok3n.C69_reorder
#print axioms Tok3n.C69_dead
#print axioms Tok3n.C69_reorder_parse
#print axioms Tok3n.C69_same_value
#print axioms Tok3n.C69_dead_parse
#print axioms Tok3n.C69_begins
#print axioms Tok3n.C69_apart
#print axioms Tok3n.C69_prefix
#print axioms Tok3n.Json.C69_json
#print axioms Tok3n.C45_lookahead
#print axioms Tok3n.C45_deterministic
#print axioms Tok3n.C45_parse_plain
#print axioms Tok3n.C45_parse
#print axioms Tok3n.C70_once
#print axioms Tok3n.C70_disjoint
#print axioms Tok3n.C70_length
#print axioms Tok3n.C70_in_order
#print axioms Tok3n.C81_linear
#print axioms Tok3n.C81_rejects
#print axioms Tok3n.Algebraic.C58_print
#print axioms Tok3n.Algebraic.C58_prints
#print axioms Tok3n.Algebraic.C58_distinct
#print axioms Tok3n.Algebraic.C58_tells
#print axioms Tok3n.Algebraic.C58_limit
#print axioms Tok3n.Algebraic.C58_same
#print axioms Tok3n.C18_maybe
#print axioms Tok3n.C18_lookahead
#print axioms Tok3n.C19_zero_or_more
#print axioms Tok3n.C19_lookahead
#print axioms Tok3n.C20_one_or_more
#print axioms Tok3n.C20_lookahead
#print axioms Tok3n.C20_then
#print axioms Tok3n.C20_sequence
#print axioms Tok3n.C21_maybe_maybe
#print axioms Tok3n.C21_maybe_one_or_more
#print axioms Tok3n.C21_maybe_zero_or_more
#print axioms Tok3n.C21_zero_or_more_one_or_more
#print axioms Tok3n.C21_one_or_more_one_or_more
#print axioms Tok3n.C22_endless
#print axioms Tok3n.C22_operators
#print axioms Tok3n.C22_never_built
#print axioms Tok3n.C22_name_defeats
#print axioms Tok3n.C40_repetition
#print axioms Tok3n.C40_lookahead
#print axioms Tok3n.C40_delimit
#print axioms Tok3n.C23_exactly
#print axioms Tok3n.C23_sequence
#print axioms Tok3n.C23_type
#print axioms Tok3n.C24_delimit
#print axioms Tok3n.C24_sequence
#print axioms Tok3n.C24_verdict
#print axioms Tok3n.C24_operators
#print axioms Tok3n.C25_delimit_keep
#print axioms Tok3n.C25_between
#print axioms Tok3n.C25_type
#print axioms Tok3n.C62_replace
#print axioms Tok3n.C62_lookahead
#print axioms Tok3n.C62_equivalence
#print axioms Tok3n.C62_named
#print axioms Tok3n.C62_custom
#print axioms Tok3n.C62_compiles
#print axioms Tok3n.C62_type_needed
#print axioms Tok3n.C72_respelt
#print axioms Tok3n.C72_types
#print axioms Tok3n.C72_compiles
#print axioms Tok3n.C72_converted
#print axioms Tok3n.C72_converted_compiles
#print axioms Tok3n.C72_indistinguishable
#print axioms Tok3n.C72_needs_indistinguishable
#print axioms Tok3n.Json.C72_json
#print axioms Tok3n.Result.C66_verdict
#print axioms Tok3n.Result.C66_value
#print axioms Tok3n.Result.C66_throws
#print axioms Tok3n.Result.C66_undefined
#print axioms Tok3n.Result.C66_indeterminate
#print axioms Tok3n.Result.C66_parse
#print axioms Tok3n.C01_failure_restores_input
#print axioms Tok3n.C02_success_consumes_prefix
#print axioms Tok3n.C03_memory_safe
#print axioms Tok3n.C03_lookahead_memory_safe
#print axioms Tok3n.C03_foreign_join_undefined
#print axioms Tok3n.C04_spans_in_consumed_text
#print axioms Tok3n.C06_lookahead_runs_no_user_code
#print axioms Tok3n.C43_value_has_type
#print axioms Tok3n.C43_documented_types
#print axioms Tok3n.C15_type
#print axioms Tok3n.C15_sequence_partial
#print axioms Tok3n.C15_lookahead
#print axioms Tok3n.C15_parts_parse
#print axioms Tok3n.C15_lookahead_exact
#print axioms Tok3n.C15_refuted_void_filter
#print axioms Tok3n.C16_flatten
#print axioms Tok3n.C16_then
#print axioms Tok3n.C16_regroup
#print axioms Tok3n.C17_fusion
#print axioms Tok3n.C44_sequence_partial
#print axioms Tok3n.C44_choice_partial
#print axioms Tok3n.C44_refuted_sequence
#print axioms Tok3n.C44_refuted_choice
#print axioms Tok3n.C71_linear
#print axioms Tok3n.C71_nothing_consumed
#print axioms Tok3n.Json.C71_json
#print axioms Tok3n.Algebraic.C71_algebraic
#print axioms Tok3n.C71_needs_bounded_callbacks
#print axioms Tok3n.C64_no_recursion
#print axioms Tok3n.C64_expression
#print axioms Tok3n.C64_ranked
#print axioms Tok3n.C64_linear
#print axioms Tok3n.C64_productive
#print axioms Tok3n.C64_returns
#print axioms Tok3n.C64_left_recursion
#print axioms Tok3n.C64_needed
#print axioms Tok3n.Json.C64_json
#print axioms Tok3n.Algebraic.C64_algebraic
#print axioms Tok3n.C75_stateless
#print axioms Tok3n.C75_lookahead
#print axioms Tok3n.C75_input
#print axioms Tok3n.C75_effects
#print axioms Tok3n.C75_invariant
#print axioms Tok3n.C75_safe
#print axioms Tok3n.C75_sequence
#print axioms Tok3n.C75_choice
#print axioms Tok3n.C75_every_choice
#print axioms Tok3n.C75_maybe
#print axioms Tok3n.C75_zero_or_more
#print axioms Tok3n.C75_one_or_more
#print axioms Tok3n.C75_exactly
#print axioms Tok3n.C75_delimit
#print axioms Tok3n.C75_map
#print axioms Tok3n.C75_filter
#print axioms Tok3n.C75_same_answers
#print axioms Tok3n.C75_used
#print axioms Tok3n.C75_no_callbacks
#print axioms Tok3n.C75_basic
#print axioms Tok3n.C75_ignore
#print axioms Tok3n.C75_complete
#print axioms Tok3n.C75_join
#print axioms Tok3n.C75_custom
#print axioms Tok3n.C75_returns
#print axioms Tok3n.C75_checked
#print axioms Tok3n.C75_verdict
#print axioms Tok3n.C75_same_verdict
#print axioms Tok3n.C34_one_by_one
#print axioms Tok3n.C35_everywhere_partial
#print axioms Tok3n.C35_absent
#print axioms Tok3n.C35_names_partial
#print axioms Tok3n.C35_exactly
#print axioms Tok3n.C35_modifiers
#print axioms Tok3n.C35_refuted_character_type
#print axioms Tok3n.C36_modifiers
#print axioms Tok3n.C36_parser
#print axioms Tok3n.C36_limits
#print axioms Tok3n.C86_without
#print axioms Tok3n.C86_unique
#print axioms Tok3n.C86_exists
#print axioms Tok3n.C86_get_parser
#print axioms Tok3n.C86_refuted_own_names
#print axioms Tok3n.C39_returns
#print axioms Tok3n.C39_checked
#print axioms Tok3n.C39_closed
#print axioms Tok3n.C39_left_recursion
#print axioms Tok3n.C80_uninterrupted
#print axioms Tok3n.C80_own_state
#print axioms Tok3n.C80_no_state
#print axioms Tok3n.C80_every_order
#print axioms Tok3n.C80_input
#print axioms Tok3n.C80_verdict
#print axioms Tok3n.C80_safe
#print axioms Tok3n.C80_returns
#print axioms Tok3n.C80_refuted
#print axioms Tok3n.C30_join_trimmed
#print axioms Tok3n.C30_lookahead_checked
#print axioms Tok3n.C43_result_for
#print axioms Tok3n.Algebraic.C90_expression
#print axioms Tok3n.Algebraic.C90_read
#print axioms Tok3n.Algebraic.C90_results
#print axioms Tok3n.Algebraic.C90_distinct
#print axioms Tok3n.Json.C90_document
#print axioms Tok3n.Json.C90_read
#print axioms Tok3n.Json.C90_results
#print axioms Tok3n.Json.C90_distinct
#print axioms Tok3n.C76_lookahead
#print axioms Tok3n.C76_parse
#print axioms Tok3n.C76_compiles
#print axioms Tok3n.C76_of_compiles
#print axioms Tok3n.C76_alone
#print axioms Tok3n.C76_value_has_type
#print axioms Tok3n.C68_one_element_type
#print axioms Tok3n.C68_no_mixture
#print axioms Tok3n.C68_input
#print axioms Tok3n.C68_single
#print axioms Tok3n.C77_itself
#print axioms Tok3n.C77_protocol
#print axioms Tok3n.C77_lookahead_quiet
#print axioms Tok3n.C77_delivers
#print axioms Tok3n.C77_memory_safe
#print axioms Tok3n.C77_lookahead_tells
#print axioms Tok3n.C77_in_place
#print axioms Tok3n.C77_none
#print axioms Tok3n.C77_careless
#print axioms Tok3n.C77_returns
#print axioms Tok3n.C77_idle
