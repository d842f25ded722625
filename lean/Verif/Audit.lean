import Verif.Props.ActionText
import Verif.Props.Actions
import Verif.Props.ApplyAll
import Verif.Props.Arguments
import Verif.Props.Calls
import Verif.Props.CallsFactorial
import Verif.Props.CallsLess
import Verif.Props.CallsMore
import Verif.Props.CandidateText
import Verif.Props.Clues
import Verif.Props.Codec
import Verif.Props.Compare
import Verif.Props.Complement
import Verif.Props.Complete
import Verif.Props.DecodeArgs
import Verif.Props.Deterministic
import Verif.Props.Divisible
import Verif.Props.ErrorText
import Verif.Props.ExactCover
import Verif.Props.FewClues
import Verif.Props.FirstSolutions
import Verif.Props.Game
import Verif.Props.GameCommands
import Verif.Props.GameRun
import Verif.Props.Generate
import Verif.Props.GenerateArgs
import Verif.Props.GenerateCalls
import Verif.Props.Generators
import Verif.Props.Geometry
import Verif.Props.Help
import Verif.Props.HintOrder
import Verif.Props.IntBlanks
import Verif.Props.IntCoordinates
import Verif.Props.IntSizes
import Verif.Props.Interrupt
import Verif.Props.Lazy
import Verif.Props.Limits
import Verif.Props.Literals
import Verif.Props.Main
import Verif.Props.Messages
import Verif.Props.MoreClues
import Verif.Props.Needed
import Verif.Props.NewArgs
import Verif.Props.NewGame
import Verif.Props.NormalText
import Verif.Props.Notation
import Verif.Props.NotationLanguage
import Verif.Props.OddCopy
import Verif.Props.Rate
import Verif.Props.RateScore
import Verif.Props.Reach
import Verif.Props.Redraw
import Verif.Props.ScoreBound
import Verif.Props.ScoreMonotone
import Verif.Props.Scripts
import Verif.Props.SeparatedText
import Verif.Props.Shell
import Verif.Props.ShellCandidates
import Verif.Props.ShellErrors
import Verif.Props.ShellLib
import Verif.Props.ShellRun
import Verif.Props.ShellValues
import Verif.Props.Solve
import Verif.Props.Solvers
import Verif.Props.StepObjects
import Verif.Props.StepText
import Verif.Props.Store
import Verif.Props.Thin
import Verif.Props.Unavoidable
import Verif.Props.UniqueCalls
import Verif.Props.UnitOrder
import Verif.Props.Unsolvable
import Verif.Props.Upstream
import Verif.Props.View
import Verif.Props.ViewFaithful
import Verif.Props.Winning

set_option autoImplicit false

/-! The axioms of all property theorems (written by tools/mkmanifest.py). -/

#print axioms Props.C01_row_of
#print axioms Props.C01_column_of
#print axioms Props.C01_box_of
#print axioms Props.C01_methods_agree
#print axioms Props.C01_lengths
#print axioms Props.C01_order
#print axioms Props.C02_surrounding_of
#print axioms Props.C02_symmetric
#print axioms Props.C02_order
#print axioms Props.C03_the_row
#print axioms Props.C03_the_column
#print axioms Props.C03_the_box
#print axioms Props.C03_the_part
#print axioms Props.C03_order
#print axioms Props.C04_box_at
#print axioms Props.C04_box_part_bijection
#print axioms Props.C05_last_write
#print axioms Props.C05_setter_errors
#print axioms Props.C06_independent
#print axioms Props.C06_copy
#print axioms Props.C07_eq_iff
#print axioms Props.C07_equivalence
#print axioms Props.C07_eq_general
#print axioms Props.C07_not_symmetric
#print axioms Props.C07_ignores_shape_and_candidates
#print axioms Props.C07_equals
#print axioms Props.C08_iter
#print axioms Props.C08_empty_filled
#print axioms Props.C08_count
#print axioms Props.C08_diff
#print axioms Props.C09_roundtrip
#print axioms Props.C09_separator
#print axioms Props.C09_two_digits
#print axioms Props.C10_roundtrip
#print axioms Props.C10_two_digits
#print axioms Props.C10_separator
#print axioms Props.C11_fields
#print axioms Props.C11_inferred
#print axioms Props.C11_exceptions
#print axioms Props.C11_index_error
#print axioms Props.C11_blank
#print axioms Props.C12_layout
#print axioms Props.C12_faithful
#print axioms Props.C12_error
#print axioms Props.C12_str
#print axioms Props.C13_empty
#print axioms Props.C13_filled
#print axioms Props.C14_init
#print axioms Props.C14_from_numbers_only
#print axioms Props.C14_idempotent
#print axioms Props.C15_conflicts
#print axioms Props.C15_all
#print axioms Props.C16_is_solved
#print axioms Props.C16_units
#print axioms Props.C17_dlx_sound
#print axioms Props.C18_dlx_complete
#print axioms Props.C19_dlx_nodup
#print axioms Props.C20_bruteforce
#print axioms Props.C21_agree
#print axioms Props.C21_differ
#print axioms Props.C22_is_unique
#print axioms Props.C23_naked_single
#print axioms Props.C23_hidden_single
#print axioms Props.C24_naked_tuple
#print axioms Props.C25_hidden_tuple
#print axioms Props.C26_pointing_tuple
#print axioms Props.C27_basic_fish
#print axioms Props.C28_removals
#print axioms Props.C28_singles
#print axioms Props.C29_same
#print axioms Props.C29_wrong_candidates
#print axioms Props.C29_true
#print axioms Props.C29_any_order
#print axioms Props.C30_solve
#print axioms Props.C30_unique
#print axioms Props.C30_returns
#print axioms Props.C31_never_ends
#print axioms Props.C31_witness
#print axioms Props.C31_wrong_solution
#print axioms Props.C31_incomplete
#print axioms Props.C32_rate
#print axioms Props.C32_zero_not_solved
#print axioms Props.C33_bound_false
#print axioms Props.C33_score
#print axioms Props.C33_upper
#print axioms Props.C34_create_solution
#print axioms Props.C34_zero
#print axioms Props.C35_unique
#print axioms Props.C36_min_count
#print axioms Props.C37_symmetry
#print axioms Props.C38_irreducible
#print axioms Props.C38_min_count
#print axioms Props.C38_stops_early
#print axioms Props.C39_value_error
#print axioms Props.C39_empty_box
#print axioms Props.C40_result
#print axioms Props.C40_success
#print axioms Props.C40_gives_up
#print axioms Props.C40_endless
#print axioms Props.C41_roundtrip
#print axioms Props.C41_default
#print axioms Props.C41_empty
#print axioms Props.C41_no_separator
#print axioms Props.C42_form
#print axioms Props.C42_unique
#print axioms Props.C42_order
#print axioms Props.C42_injective
#print axioms Props.C43_shorter
#print axioms Props.C44_decode
#print axioms Props.C44_exceptions
#print axioms Props.C45_errors
#print axioms Props.C46_meaning
#print axioms Props.C46_illegal
#print axioms Props.C46_blank
#print axioms Props.C46_repeated
#print axioms Props.C46_no_number
#print axioms Props.C47_set
#print axioms Props.C47_remove
#print axioms Props.C47_idempotent
#print axioms Props.C47_index_error
#print axioms Props.C48_set
#print axioms Props.C48_remove
#print axioms Props.C48_minus
#print axioms Props.C48_exceptions
#print axioms Props.C48_type_error
#print axioms Props.C49_reachable
#print axioms Props.C49_run
#print axioms Props.C49_push
#print axioms Props.C49_pop
#print axioms Props.C49_pop_at
#print axioms Props.C49_pop_error
#print axioms Props.C49_isolated
#print axioms Props.C49_restore
#print axioms Props.C49_contents
#print axioms Props.C50_loop
#print axioms Props.C50_body
#print axioms Props.C50_errors
#print axioms Props.C50_no_number
#print axioms Props.C50_stray_end
#print axioms Props.C51_blanks
#print axioms Props.C51_silent
#print axioms Props.C51_script
#print axioms Props.C51_joined
#print axioms Props.C52_script
#print axioms Props.C52_rest_of_line
#print axioms Props.C52_rest_of_script
#print axioms Props.C52_interactive
#print axioms Props.C52_unchanged
#print axioms Props.C52_crash
#print axioms Props.C53_step
#print axioms Props.C53_undo
#print axioms Props.C53_undo_redo
#print axioms Props.C53_redo_undo
#print axioms Props.C53_run
#print axioms Props.C53_start
#print axioms Props.C54_terminates
#print axioms Props.C54_forever
#print axioms Props.C54_closed
#print axioms Props.C54_only
#print axioms Props.C54_sound
#print axioms Props.C54_default
#print axioms Props.C54_no_exception
#print axioms Props.C54_exception
#print axioms Props.C55_order
#print axioms Props.C55_eq
#print axioms Props.C55_arguments
#print axioms Props.C55_class_ignored
#print axioms Props.C56_twice
#print axioms Props.C56_stale
#print axioms Props.C57_depth
#print axioms Props.C58_steps
#print axioms Props.C58_none
#print axioms Props.C59_calculate
#print axioms Props.C60_naked_single
#print axioms Props.C61_hidden_single
#print axioms Props.C61_not_a_candidate
#print axioms Props.C62_naked_tuple
#print axioms Props.C62_none_missed
#print axioms Props.C62_box_dropped
#print axioms Props.C63_hidden_tuple
#print axioms Props.C63_multiplicity
#print axioms Props.C63_at_least_twice
#print axioms Props.C63_repeats
#print axioms Props.C64_pointing_tuple
#print axioms Props.C65_basic_fish
#print axioms Props.C66_hints
#print axioms Props.C67_never
#print axioms Props.C67_only
#print axioms Props.C67_invalid
#print axioms Props.C67_string
#print axioms Props.C68_get
#print axioms Props.C69_set
#print axioms Props.C69_field
#print axioms Props.C69_new
#print axioms Props.C69_new_two
#print axioms Props.C69_print
#print axioms Props.C69_print_error
#print axioms Props.C70_solve
#print axioms Props.C71_first
#print axioms Props.C71_next
#print axioms Props.C71_kept
#print axioms Props.C71_all
#print axioms Props.C71_hints
#print axioms Props.C71_stale
#print axioms Props.C72_endings
#print axioms Props.C72_unknown
#print axioms Props.C72_help
#print axioms Props.C72_answers
#print axioms Props.C73_check
#print axioms Props.C73_conflicts
#print axioms Props.C74_new_game
#print axioms Props.C74_check
#print axioms Props.C75_calculate
#print axioms Props.C75_init
#print axioms Props.C75_idempotent
#print axioms Props.C75_not_init
#print axioms Props.C76_class
#print axioms Props.C76_bruteforce
#print axioms Props.C76_pass
#print axioms Props.C76_unique
#print axioms Props.C76_misled
#print axioms Props.C77_line
#print axioms Props.C77_run
#print axioms Props.C77_compact
#print axioms Props.C78_command
#print axioms Props.C78_script
#print axioms Props.C79_command
#print axioms Props.C79_script
#print axioms Props.C80_filename
#print axioms Props.C80_unreadable
#print axioms Props.C80_unreadable_status
#print axioms Props.C80_stdin
#print axioms Props.C80_command
#print axioms Props.C80_exit
#print axioms Props.C80_status
#print axioms Props.C80_terminal
#print axioms Props.C81_binds
#print axioms Props.C81_last
#print axioms Props.C81_type_error
#print axioms Props.C81_same
#print axioms Props.C81_decode
#print axioms Props.C81_shell
#print axioms Props.C81_literals
#print axioms Props.C82_numbers
#print axioms Props.C82_candidates
#print axioms Props.C83_generate
#print axioms Props.C83_error
#print axioms Props.C83_template
#print axioms Props.C84_set
#print axioms Props.C84_remove
#print axioms Props.C84_number
#print axioms Props.C84_init
#print axioms Props.C84_encode
#print axioms Props.C84_view
#print axioms Props.C85_text
#print axioms Props.C85_right
#print axioms Props.C85_wrong
#print axioms Props.C85_commands
#print axioms Props.C85_table
#print axioms Props.C86_all
#print axioms Props.C86_help
#print axioms Props.C86_command
#print axioms Props.C86_error
#print axioms Props.C87_repr
#print axioms Props.C87_again
#print axioms Props.C87_str
#print axioms Props.C87_hints
#print axioms Props.C88_least
#print axioms Props.C88_attained
#print axioms Props.C88_orders
#print axioms Props.C88_needed
#print axioms Props.C88_score
#print axioms Props.C89_candidates
#print axioms Props.C89_conflicts
#print axioms Props.C89_solved
#print axioms Props.C89_dlx
#print axioms Props.C89_bruteforce
#print axioms Props.C89_unique
#print axioms Props.C89_rate
#print axioms Props.C90_candidates
#print axioms Props.C90_solutions
#print axioms Props.C90_unique
#print axioms Props.C90_rate
#print axioms Props.C91_line
#print axioms Props.C91_entry
#print axioms Props.C91_won
#print axioms Props.C91_lines
#print axioms Props.C91_new_game
#print axioms Props.C92_find
#print axioms Props.C92_apply_all
#print axioms Props.C92_hints
#print axioms Props.C92_steps
#print axioms Props.C92_solve
#print axioms Props.C92_score
#print axioms Props.C92_several
#print axioms Props.C92_torn
#print axioms Props.C93_create_solution
#print axioms Props.C93_generate
#print axioms Props.C93_template
#print axioms Props.C94_row_col
#print axioms Props.C94_first_box
#print axioms Props.C94_factorial
#print axioms Props.C94_missing
#print axioms Props.C95_exact_cover
#print axioms Props.C95_exact_cover_error
#print axioms Props.C95_select
#print axioms Props.C95_rest
#print axioms Props.C95_deselect
#print axioms Props.C95_solve_rest
#print axioms Props.C95_solve
#print axioms Props.C95_repeated
#print axioms Props.C95_empty_row
#print axioms Props.C96_same
#print axioms Props.C96_first
#print axioms Props.C96_as_fresh
#print axioms Props.C96_keeps
#print axioms Props.C96_hints
#print axioms Props.C97_uninterrupted
#print axioms Props.C97_empty_line
#print axioms Props.C97_continued
#print axioms Props.C97_script_reading
#print axioms Props.C97_script_executing
#print axioms Props.C97_status
#print axioms Props.C97_kept
#print axioms Props.C97_again
#print axioms Props.C97_untouched
#print axioms Props.C97_loop
#print axioms Props.C98_same
#print axioms Props.C98_zero
#print axioms Props.C98_box
#print axioms Props.C98_surrounding
#print axioms Props.C98_surrounding_include
#print axioms Props.C98_calc
#print axioms Props.C98_conflicts
#print axioms Props.C98_self
#print axioms Props.C98_conflicts_bad
#print axioms Props.C98_conflicts_all
#print axioms Props.C99_bruteforce
#print axioms Props.C99_dlx
#print axioms Props.C99_safe
#print axioms Props.C99_completions
#print axioms Props.C99_solutions
#print axioms Props.C100_order
#print axioms Props.C100_same
#print axioms Props.C100_fill
#print axioms Props.C100_clear
#print axioms Props.C100_align
#print axioms Props.C100_conflicts_same
#print axioms Props.C100_resolve
#print axioms Props.C100_clear_conflicts
#print axioms Props.C100_stale
#print axioms Props.C100_ahead
#print axioms Props.C101_eq
#print axioms Props.C101_true
#print axioms Props.C101_equals
#print axioms Props.C101_diff
#print axioms Props.C101_sudoku
#print axioms Props.C101_dict
#print axioms Props.C102_is_unique
#print axioms Props.C102_generate
#print axioms Props.C102_template_error
#print axioms Props.C102_template_endless
#print axioms Props.C103_same
#print axioms Props.C103_same_units
#print axioms Props.C103_no_fields
#print axioms Props.C103_rows
#print axioms Props.C103_units
#print axioms Props.C103_calc
#print axioms Props.C103_conflicts
#print axioms Props.C103_solved
#print axioms Props.C103_dlx
#print axioms Props.C103_create
#print axioms Props.C104_pieces
#print axioms Props.C104_layout
#print axioms Props.C104_fields
#print axioms Props.C104_candidates
#print axioms Props.C104_no_fields
#print axioms Props.C105_blanks
#print axioms Props.C105_separators
#print axioms Props.C105_fields
#print axioms Props.C105_inferred
#print axioms Props.C105_two_gaps
#print axioms Props.C105_candidates
#print axioms Props.C105_blank_before_bar
#print axioms Props.C106_numbers
#print axioms Props.C106_candidates
#print axioms Props.C106_hidden
#print axioms Props.C106_no_prefix
#print axioms Props.C106_out_of_range
#print axioms Props.C107_unknown
#print axioms Props.C107_any_name
#print axioms Props.C107_argument
#print axioms Props.C107_semicolon
#print axioms Props.C108_injective
#print axioms Props.C108_text
#print axioms Props.C108_sequences
#print axioms Props.C109_language
#print axioms Props.C109_separators
#print axioms Props.C109_typeError
#print axioms Props.C109_set
#print axioms Props.C109_remove
#print axioms Props.C110_same
#print axioms Props.C110_units
#print axioms Props.C110_units_limit
#print axioms Props.C110_generate
#print axioms Props.C110_template
#print axioms Props.C110_size
#print axioms Props.C110_number
#print axioms Props.C110_encode
#print axioms Props.C110_decode
#print axioms Props.C110_unique
#print axioms Props.C110_decode_size
#print axioms Props.C110_action
#print axioms Props.C110_action_minus
#print axioms Props.C110_action_remove
#print axioms Props.C110_action_set
#print axioms Props.C111_numbers
#print axioms Props.C111_candidates
#print axioms Props.C111_same
#print axioms Props.C111_again
#print axioms Props.C112_decode
#print axioms Props.C112_size
#print axioms Props.C112_digit
#print axioms Props.C112_generate
#print axioms Props.C112_template
#print axioms Props.C113_dlx
#print axioms Props.C113_bruteforce
#print axioms Props.C113_illegal
#print axioms Props.C114_rate_score
#print axioms Props.C115_score_grows
#print axioms Props.C115_score_turned
#print axioms Props.C116_naked
#print axioms Props.C116_hidden
#print axioms Props.C116_fish
#print axioms Props.C116_pointing
#print axioms Props.C116_quint
#print axioms Props.C116_four
#print axioms Props.C116_attained
#print axioms Props.C117_three
#print axioms Props.C117_line
#print axioms Props.C117_unique
#print axioms Props.C117_singles
#print axioms Props.C117_generate
#print axioms Props.C117_template
#print axioms Props.C117_four
#print axioms Props.C118_same
#print axioms Props.C118_ends
#print axioms Props.C118_dlx
#print axioms Props.C118_bruteforce
#print axioms Props.C118_rate
#print axioms Props.C118_steps
#print axioms Props.C118_compare
#print axioms Props.C118_unique
#print axioms Props.C118_thin
#print axioms Props.C119_is_unique
#print axioms Props.C119_irreducible
#print axioms Props.C119_generate
#print axioms Props.C119_exactly
#print axioms Props.C119_template_error
#print axioms Props.C119_template_endless
#print axioms Props.C120_same
#print axioms Props.C120_ends
#print axioms Props.C120_at_most
#print axioms Props.C120_exactly
#print axioms Props.C120_tested
#print axioms Props.C120_last
#print axioms Props.C120_accepted
#print axioms Props.C120_accepted_even
#print axioms Props.C120_rejected
#print axioms Props.C121_is_unique
#print axioms Props.C121_generate
#print axioms Props.C121_needed
#print axioms Props.C121_rows
#print axioms Props.C121_columns
#print axioms Props.C121_numbers
#print axioms Props.C121_rectangle
#print axioms Props.C122_is_unique
#print axioms Props.C122_generate
#print axioms Props.C122_at_most
#print axioms Props.C122_exactly
#print axioms Props.C122_boxes
#print axioms Props.C122_boxes_generate
#print axioms Props.C123_cases
#print axioms Props.C123_accepts
#print axioms Props.C123_refuses
#print axioms Props.C123_template
#print axioms Props.C123_same
#print axioms Props.C123_shell
#print axioms Props.C124_dlx
#print axioms Props.C124_bruteforce
#print axioms Props.C124_unique
#print axioms Props.C124_missing
#print axioms Props.C124_empty
#print axioms Props.C125_cases
#print axioms Props.C125_builds
#print axioms Props.C125_fails
#print axioms Props.C125_handler
#print axioms Props.C125_size
#print axioms Props.C125_len
#print axioms Props.C125_create
#print axioms Props.C125_create_fails
#print axioms Props.C125_shell
#print axioms Props.C126_default
#print axioms Props.C126_sizes
#print axioms Props.C126_integers
#print axioms Props.C126_dict
#print axioms Props.C126_empty
#print axioms Props.C126_fails
#print axioms Props.C126_errors
#print axioms Props.C127_dlx
#print axioms Props.C127_bruteforce
#print axioms Props.C127_always
#print axioms Props.C127_one
#print axioms Props.C127_solutions
#print axioms Props.C127_power
#print axioms Props.C128_copy
#print axioms Props.C128_dict
#print axioms Props.C128_boxes
#print axioms Props.C128_text
#print axioms Props.C128_encode
#print axioms Props.C128_zeros
#print axioms Props.C129_dlx
#print axioms Props.C129_bruteforce
#print axioms Props.C129_lines_dlx
#print axioms Props.C129_lines_bruteforce
#print axioms Props.C129_boxes
#print axioms Props.C129_each
#print axioms Props.C129_legal
#print axioms Props.C130_same
#print axioms Props.C130_calls
#print axioms Props.C130_bound
#print axioms Props.C130_true
#print axioms Props.C131_dlx
#print axioms Props.C131_bruteforce
#print axioms Props.C131_calls
#print axioms Props.C131_next
#print axioms Props.C131_least_dlx
#print axioms Props.C131_least_bruteforce
#print axioms Props.C132_dlx_first
#print axioms Props.C132_bruteforce_first
#print axioms Props.C132_dlx
#print axioms Props.C132_bruteforce
#print axioms Props.C132_is_unique
#print axioms Props.C132_enough
