{
 "claims": [
  {
   "property": "C01",
   "status": "proved",
   "theorems": [
    "Props.C01_row_of",
    "Props.C01_column_of",
    "Props.C01_box_of",
    "Props.C01_methods_agree",
    "Props.C01_lengths",
    "Props.C01_order"
   ],
   "note": "row_of, column_of, box_of list the fields of the unit once each; the Sudoku methods agree with the functions of coordinates.py."
  },
  {
   "property": "C02",
   "status": "proved",
   "theorems": [
    "Props.C02_surrounding_of",
    "Props.C02_symmetric",
    "Props.C02_order"
   ],
   "note": "surrounding_of lists exactly the peers."
  },
  {
   "property": "C03",
   "status": "proved",
   "theorems": [
    "Props.C03_the_row",
    "Props.C03_the_column",
    "Props.C03_the_box",
    "Props.C03_the_part",
    "Props.C03_order"
   ],
   "note": "the_row/the_column/the_box/the_part with their ValueError branch."
  },
  {
   "property": "C04",
   "status": "proved",
   "theorems": [
    "Props.C04_box_at",
    "Props.C04_box_part_bijection"
   ],
   "note": "box_at numbers boxes row by row; box and position in box determine the field."
  },
  {
   "property": "C05",
   "status": "proved",
   "theorems": [
    "Props.C05_last_write",
    "Props.C05_setter_errors"
   ],
   "note": "Store model with list references and Python indexing; every sequence of setter calls."
  },
  {
   "property": "C06",
   "status": "proved",
   "theorems": [
    "Props.C06_independent",
    "Props.C06_copy"
   ],
   "note": "Heap model with aliasing: copies are independent of the original."
  },
  {
   "property": "C07",
   "status": "proved",
   "theorems": [
    "Props.C07_eq_iff",
    "Props.C07_equivalence",
    "Props.C07_eq_general",
    "Props.C07_not_symmetric",
    "Props.C07_ignores_shape_and_candidates",
    "Props.C07_equals"
   ],
   "note": "Equivalence on sudokus with equally many rows; asymmetry across sizes and blindness to the box shape proved with witnesses."
  },
  {
   "property": "C08",
   "status": "proved",
   "theorems": [
    "Props.C08_iter",
    "Props.C08_empty_filled",
    "Props.C08_count",
    "Props.C08_diff"
   ],
   "note": "Iteration, empty, filled, count, len, diff."
  },
  {
   "property": "C09",
   "status": "proved",
   "theorems": [
    "Props.C09_roundtrip",
    "Props.C09_separator",
    "Props.C09_two_digits"
   ],
   "note": "Separators of any length, or none; with witnesses for what goes wrong with two-digit numbers without a separator."
  },
  {
   "property": "C10",
   "status": "proved",
   "theorems": [
    "Props.C10_roundtrip",
    "Props.C10_two_digits",
    "Props.C10_separator"
   ],
   "note": "One-digit candidates; C10_separator and C10_two_digits show the cases that do not round trip."
  },
  {
   "property": "C11",
   "status": "proved",
   "theorems": [
    "Props.C11_fields",
    "Props.C11_inferred",
    "Props.C11_exceptions",
    "Props.C11_index_error",
    "Props.C11_blank"
   ],
   "note": "Including the IndexError for a candidate part without numbers and the lost leading blanks for empty=' '."
  },
  {
   "property": "C12",
   "status": "proved",
   "theorems": [
    "Props.C12_layout",
    "Props.C12_faithful",
    "Props.C12_error",
    "Props.C12_str"
   ],
   "note": "All sizes; the ragged rules for box height 1 are part of the statement. The argument number_sep of view is ignored by the code."
  },
  {
   "property": "C13",
   "status": "proved",
   "theorems": [
    "Props.C13_empty",
    "Props.C13_filled"
   ],
   "note": ""
  },
  {
   "property": "C14",
   "status": "proved",
   "theorems": [
    "Props.C14_init",
    "Props.C14_from_numbers_only",
    "Props.C14_idempotent"
   ],
   "note": ""
  },
  {
   "property": "C15",
   "status": "proved",
   "theorems": [
    "Props.C15_conflicts",
    "Props.C15_all"
   ],
   "note": "Coordinates of the grid; multiplicities included."
  },
  {
   "property": "C16",
   "status": "proved",
   "theorems": [
    "Props.C16_is_solved",
    "Props.C16_units"
   ],
   "note": "Including the equivalence with 'each unit shows each number exactly once'."
  },
  {
   "property": "C17",
   "status": "proved",
   "theorems": [
    "Props.C17_dlx_sound"
   ],
   "note": "All sizes, all dict/set orders."
  },
  {
   "property": "C18",
   "status": "proved",
   "theorems": [
    "Props.C18_dlx_complete"
   ],
   "note": "All sizes, all dict/set orders; recursion depth > number of empty fields."
  },
  {
   "property": "C19",
   "status": "proved",
   "theorems": [
    "Props.C19_dlx_nodup"
   ],
   "note": ""
  },
  {
   "property": "C20",
   "status": "proved",
   "theorems": [
    "Props.C20_bruteforce"
   ],
   "note": "All sizes, all set orders; recursion depth > number of empty fields."
  },
  {
   "property": "C21",
   "status": "proved",
   "theorems": [
    "Props.C21_agree",
    "Props.C21_differ"
   ],
   "note": "Equality for legal clues; the difference for an illegal clue is proved with a witness."
  },
  {
   "property": "C22",
   "status": "proved",
   "theorems": [
    "Props.C22_is_unique"
   ],
   "note": ""
  },
  {
   "property": "C23",
   "status": "proved",
   "theorems": [
    "Props.C23_naked_single",
    "Props.C23_hidden_single"
   ],
   "note": "All sizes, any consumer that keeps the solution, all set orders."
  },
  {
   "property": "C24",
   "status": "proved",
   "theorems": [
    "Props.C24_naked_tuple"
   ],
   "note": "All n, all sizes, any consumer that keeps the solution."
  },
  {
   "property": "C25",
   "status": "proved",
   "theorems": [
    "Props.C25_hidden_tuple"
   ],
   "note": "All n, all sizes, any consumer that keeps the solution."
  },
  {
   "property": "C26",
   "status": "proved",
   "theorems": [
    "Props.C26_pointing_tuple"
   ],
   "note": "All n, all box shapes, any consumer that keeps the solution."
  },
  {
   "property": "C27",
   "status": "proved",
   "theorems": [
    "Props.C27_basic_fish"
   ],
   "note": "All n, all sizes, any consumer that keeps the solution, all dict orders."
  },
  {
   "property": "C28",
   "status": "proved",
   "theorems": [
    "Props.C28_removals",
    "Props.C28_singles"
   ],
   "note": "Arbitrary candidates, any consumer that keeps the size. Bruteforce steps: C58_steps."
  },
  {
   "property": "C29",
   "status": "proved",
   "theorems": [
    "Props.C29_same",
    "Props.C29_wrong_candidates",
    "Props.C29_true",
    "Props.C29_any_order"
   ],
   "note": ""
  },
  {
   "property": "C30",
   "status": "proved",
   "theorems": [
    "Props.C30_solve",
    "Props.C30_unique",
    "Props.C30_returns"
   ],
   "note": "At most E * (N + 1) rounds; all orders. The report callback is assumed not to change the sudoku."
  },
  {
   "property": "C31",
   "status": "proved",
   "theorems": [
    "Props.C31_never_ends",
    "Props.C31_witness",
    "Props.C31_wrong_solution",
    "Props.C31_incomplete"
   ],
   "note": "Non-termination proved for all sudokus with an empty field that sees all numbers; witnesses for it and for the two kinds of wrong results."
  },
  {
   "property": "C32",
   "status": "proved",
   "theorems": [
    "Props.C32_rate",
    "Props.C32_zero_not_solved"
   ],
   "note": "With a witness for the full, conflicting sudoku that gets 0."
  },
  {
   "property": "C33",
   "status": "proved",
   "theorems": [
    "Props.C33_bound_false",
    "Props.C33_score",
    "Props.C33_upper"
   ],
   "note": "Lower and upper bound and zero case proved; the documented upper bound is refuted by C33_bound_false."
  },
  {
   "property": "C34",
   "status": "proved",
   "theorems": [
    "Props.C34_create_solution",
    "Props.C34_zero"
   ],
   "note": "All sizes and random outcomes; IndexError for empty boxes."
  },
  {
   "property": "C35",
   "status": "proved",
   "theorems": [
    "Props.C35_unique"
   ],
   "note": ""
  },
  {
   "property": "C36",
   "status": "proved",
   "theorems": [
    "Props.C36_min_count"
   ],
   "note": ""
  },
  {
   "property": "C37",
   "status": "proved",
   "theorems": [
    "Props.C37_symmetry"
   ],
   "note": ""
  },
  {
   "property": "C38",
   "status": "proved",
   "theorems": [
    "Props.C38_irreducible",
    "Props.C38_min_count",
    "Props.C38_stops_early"
   ],
   "note": "Also for larger min_count unless the number of clues is close to it; C38_stops_early shows why this exception is needed."
  },
  {
   "property": "C39",
   "status": "proved",
   "theorems": [
    "Props.C39_value_error",
    "Props.C39_empty_box"
   ],
   "note": "Unhashable symmetry arguments (TypeError in Python) are outside the model."
  },
  {
   "property": "C40",
   "status": "proved",
   "theorems": [
    "Props.C40_result",
    "Props.C40_success",
    "Props.C40_gives_up",
    "Props.C40_endless"
   ],
   "note": ""
  },
  {
   "property": "C41",
   "status": "proved",
   "theorems": [
    "Props.C41_roundtrip",
    "Props.C41_default",
    "Props.C41_empty",
    "Props.C41_no_separator"
   ],
   "note": "Conditions on the separators as stated; C41_no_separator and C41_empty show the cases that do not round trip."
  },
  {
   "property": "C42",
   "status": "proved",
   "theorems": [
    "Props.C42_form",
    "Props.C42_unique",
    "Props.C42_order",
    "Props.C42_injective"
   ],
   "note": ""
  },
  {
   "property": "C43",
   "status": "proved",
   "theorems": [
    "Props.C43_shorter"
   ],
   "note": ""
  },
  {
   "property": "C44",
   "status": "proved",
   "theorems": [
    "Props.C44_decode",
    "Props.C44_exceptions"
   ],
   "note": ""
  },
  {
   "property": "C45",
   "status": "proved",
   "theorems": [
    "Props.C45_errors"
   ],
   "note": ""
  },
  {
   "property": "C46",
   "status": "proved",
   "theorems": [
    "Props.C46_meaning",
    "Props.C46_illegal",
    "Props.C46_blank",
    "Props.C46_repeated",
    "Props.C46_no_number"
   ],
   "note": "With witnesses for the differences between code comments and behaviour."
  },
  {
   "property": "C47",
   "status": "proved",
   "theorems": [
    "Props.C47_set",
    "Props.C47_remove",
    "Props.C47_idempotent",
    "Props.C47_index_error"
   ],
   "note": "Numbers and candidates are integers."
  },
  {
   "property": "C48",
   "status": "proved",
   "theorems": [
    "Props.C48_set",
    "Props.C48_remove",
    "Props.C48_minus",
    "Props.C48_exceptions",
    "Props.C48_type_error"
   ],
   "note": "Default box sizes and all others; witnesses for the TypeError."
  },
  {
   "property": "C49",
   "status": "proved",
   "theorems": [
    "Props.C49_reachable",
    "Props.C49_run",
    "Props.C49_push",
    "Props.C49_pop",
    "Props.C49_pop_at",
    "Props.C49_pop_error",
    "Props.C49_isolated",
    "Props.C49_restore",
    "Props.C49_contents"
   ],
   "note": "For any library functions behind the commands and any literal_eval; C49_contents with the real copy."
  },
  {
   "property": "C50",
   "status": "proved",
   "theorems": [
    "Props.C50_loop",
    "Props.C50_body",
    "Props.C50_errors",
    "Props.C50_no_number",
    "Props.C50_stray_end"
   ],
   "note": "For any library functions and any literal_eval that reads n as n."
  },
  {
   "property": "C51",
   "status": "proved",
   "theorems": [
    "Props.C51_blanks",
    "Props.C51_silent",
    "Props.C51_script",
    "Props.C51_joined"
   ],
   "note": "KeyboardInterrupt is the subject of C97; greeting and prompts are left out of the comparison."
  },
  {
   "property": "C52",
   "status": "proved",
   "theorems": [
    "Props.C52_script",
    "Props.C52_rest_of_line",
    "Props.C52_rest_of_script",
    "Props.C52_interactive",
    "Props.C52_unchanged",
    "Props.C52_crash"
   ],
   "note": "The texts of the messages are the subject of C107 and C110."
  },
  {
   "property": "C53",
   "status": "proved",
   "theorems": [
    "Props.C53_step",
    "Props.C53_undo",
    "Props.C53_undo_redo",
    "Props.C53_redo_undo",
    "Props.C53_run",
    "Props.C53_start"
   ],
   "note": "Input lines are given as a list; KeyboardInterrupt and the menu texts are not modelled."
  },
  {
   "property": "C54",
   "status": "proved",
   "theorems": [
    "Props.C54_terminates",
    "Props.C54_forever",
    "Props.C54_closed",
    "Props.C54_only",
    "Props.C54_sound",
    "Props.C54_default",
    "Props.C54_no_exception",
    "Props.C54_exception"
   ],
   "note": "C54_forever and C54_exception show the limits of the plain claim."
  },
  {
   "property": "C55",
   "status": "proved",
   "theorems": [
    "Props.C55_order",
    "Props.C55_eq",
    "Props.C55_arguments",
    "Props.C55_class_ignored"
   ],
   "note": "Also: the class is not compared."
  },
  {
   "property": "C56",
   "status": "proved",
   "theorems": [
    "Props.C56_twice",
    "Props.C56_stale"
   ],
   "note": "Also: a used step object applied to another sudoku repeats its old actions (C56_stale)."
  },
  {
   "property": "C57",
   "status": "proved",
   "theorems": [
    "Props.C57_depth"
   ],
   "note": "Exact depth; contradicts the warning in the module documentation."
  },
  {
   "property": "C58",
   "status": "proved",
   "theorems": [
    "Props.C58_steps",
    "Props.C58_none"
   ],
   "note": ""
  },
  {
   "property": "C59",
   "status": "proved",
   "theorems": [
    "Props.C59_calculate"
   ],
   "note": ""
  },
  {
   "property": "C60",
   "status": "proved",
   "theorems": [
    "Props.C60_naked_single"
   ],
   "note": ""
  },
  {
   "property": "C61",
   "status": "proved",
   "theorems": [
    "Props.C61_hidden_single",
    "Props.C61_not_a_candidate"
   ],
   "note": "With a witness that a number may be found that is no candidate of the field."
  },
  {
   "property": "C62",
   "status": "proved",
   "theorems": [
    "Props.C62_naked_tuple",
    "Props.C62_none_missed",
    "Props.C62_box_dropped"
   ],
   "note": "With a witness for the missing eliminations in a box."
  },
  {
   "property": "C63",
   "status": "proved",
   "theorems": [
    "Props.C63_hidden_tuple",
    "Props.C63_multiplicity",
    "Props.C63_at_least_twice",
    "Props.C63_repeats"
   ],
   "note": "With a witness for the repetitions."
  },
  {
   "property": "C64",
   "status": "proved",
   "theorems": [
    "Props.C64_pointing_tuple"
   ],
   "note": "n >= 2, as in the classes of the code."
  },
  {
   "property": "C65",
   "status": "proved",
   "theorems": [
    "Props.C65_basic_fish"
   ],
   "note": ""
  },
  {
   "property": "C66",
   "status": "proved",
   "theorems": [
    "Props.C66_hints"
   ],
   "note": ""
  },
  {
   "property": "C67",
   "status": "proved",
   "theorems": [
    "Props.C67_never",
    "Props.C67_only",
    "Props.C67_invalid",
    "Props.C67_string"
   ],
   "note": "Documents a defect of encode_action."
  },
  {
   "property": "C68",
   "status": "proved",
   "theorems": [
    "Props.C68_get"
   ],
   "note": "Integer arguments."
  },
  {
   "property": "C69",
   "status": "proved",
   "theorems": [
    "Props.C69_set",
    "Props.C69_field",
    "Props.C69_new",
    "Props.C69_new_two",
    "Props.C69_print",
    "Props.C69_print_error"
   ],
   "note": "Integer arguments; for new also pairs."
  },
  {
   "property": "C70",
   "status": "proved",
   "theorems": [
    "Props.C70_solve"
   ],
   "note": "Recursion limit larger than the number of empty fields."
  },
  {
   "property": "C71",
   "status": "proved",
   "theorems": [
    "Props.C71_first",
    "Props.C71_next",
    "Props.C71_kept",
    "Props.C71_all",
    "Props.C71_hints",
    "Props.C71_stale"
   ],
   "note": "With a witness for stale hints."
  },
  {
   "property": "C72",
   "status": "proved",
   "theorems": [
    "Props.C72_endings",
    "Props.C72_unknown",
    "Props.C72_help",
    "Props.C72_answers"
   ],
   "note": ""
  },
  {
   "property": "C73",
   "status": "proved",
   "theorems": [
    "Props.C73_check",
    "Props.C73_conflicts"
   ],
   "note": ""
  },
  {
   "property": "C74",
   "status": "proved",
   "theorems": [
    "Props.C74_new_game",
    "Props.C74_check"
   ],
   "note": "The default dimension 3x3, which is the only one the code uses."
  },
  {
   "property": "C75",
   "status": "proved",
   "theorems": [
    "Props.C75_calculate",
    "Props.C75_init",
    "Props.C75_idempotent",
    "Props.C75_not_init"
   ],
   "note": "With a witness against the README's remark."
  },
  {
   "property": "C76",
   "status": "proved",
   "theorems": [
    "Props.C76_class",
    "Props.C76_bruteforce",
    "Props.C76_pass",
    "Props.C76_unique",
    "Props.C76_misled"
   ],
   "note": "Recursion limit larger than the number of empty fields."
  },
  {
   "property": "C77",
   "status": "proved",
   "theorems": [
    "Props.C77_line",
    "Props.C77_run",
    "Props.C77_compact"
   ],
   "note": ""
  },
  {
   "property": "C78",
   "status": "proved",
   "theorems": [
    "Props.C78_command",
    "Props.C78_script"
   ],
   "note": "Recursion limit larger than 81 for solve."
  },
  {
   "property": "C79",
   "status": "proved",
   "theorems": [
    "Props.C79_command",
    "Props.C79_script"
   ],
   "note": "Recursion limit larger than 81 for solve."
  },
  {
   "property": "C80",
   "status": "proved",
   "theorems": [
    "Props.C80_filename",
    "Props.C80_unreadable",
    "Props.C80_unreadable_status",
    "Props.C80_stdin",
    "Props.C80_command",
    "Props.C80_exit",
    "Props.C80_status",
    "Props.C80_terminal"
   ],
   "note": "argparse itself (such as -h, status 2), KeyboardInterrupt and IOErrors while reading are not modelled."
  },
  {
   "property": "C81",
   "status": "proved",
   "theorems": [
    "Props.C81_binds",
    "Props.C81_last",
    "Props.C81_type_error",
    "Props.C81_same",
    "Props.C81_decode",
    "Props.C81_shell",
    "Props.C81_literals"
   ],
   "note": "Literals: None, booleans, integers, strings without escapes, tuples/lists/sets of integers."
  },
  {
   "property": "C82",
   "status": "proved",
   "theorems": [
    "Props.C82_numbers",
    "Props.C82_candidates"
   ],
   "note": "One-digit numbers and candidates, as in C09 and C10."
  },
  {
   "property": "C83",
   "status": "proved",
   "theorems": [
    "Props.C83_generate",
    "Props.C83_error",
    "Props.C83_template"
   ],
   "note": "Box sizes > 0; generate_from_template with tries >= 0 (otherwise it may run forever, C40_endless)."
  },
  {
   "property": "C84",
   "status": "proved",
   "theorems": [
    "Props.C84_set",
    "Props.C84_remove",
    "Props.C84_number",
    "Props.C84_init",
    "Props.C84_encode",
    "Props.C84_view"
   ],
   "note": "Integer row and col."
  },
  {
   "property": "C85",
   "status": "proved",
   "theorems": [
    "Props.C85_text",
    "Props.C85_right",
    "Props.C85_wrong",
    "Props.C85_commands",
    "Props.C85_table"
   ],
   "note": "Documents a defect of signature_str; inspect.getargspec as up to Python 3.10."
  },
  {
   "property": "C86",
   "status": "proved",
   "theorems": [
    "Props.C86_all",
    "Props.C86_help",
    "Props.C86_command",
    "Props.C86_error"
   ],
   "note": "inspect.getargspec as up to Python 3.10; the documentation strings are a parameter."
  },
  {
   "property": "C87",
   "status": "proved",
   "theorems": [
    "Props.C87_repr",
    "Props.C87_again",
    "Props.C87_str",
    "Props.C87_hints"
   ],
   "note": "For the classes in SOLVERS."
  },
  {
   "property": "C88",
   "status": "proved",
   "theorems": [
    "Props.C88_least",
    "Props.C88_attained",
    "Props.C88_orders",
    "Props.C88_needed",
    "Props.C88_score"
   ],
   "note": "Recursion limit larger than the number of empty fields."
  },
  {
   "property": "C89",
   "status": "proved",
   "theorems": [
    "Props.C89_candidates",
    "Props.C89_conflicts",
    "Props.C89_solved",
    "Props.C89_dlx",
    "Props.C89_bruteforce",
    "Props.C89_unique",
    "Props.C89_rate"
   ],
   "note": "Recursion limit larger than the number of empty fields; for rate also: both calls finish (they do, C32)."
  },
  {
   "property": "C90",
   "status": "proved",
   "theorems": [
    "Props.C90_candidates",
    "Props.C90_solutions",
    "Props.C90_unique",
    "Props.C90_rate"
   ],
   "note": "Recursion limit larger than the number of empty fields; for rate also: both calls finish (they do, C32)."
  },
  {
   "property": "C91",
   "status": "proved",
   "theorems": [
    "Props.C91_line",
    "Props.C91_entry",
    "Props.C91_won",
    "Props.C91_lines",
    "Props.C91_new_game"
   ],
   "note": "With autoset: if no empty field has the candidate 0."
  },
  {
   "property": "C92",
   "status": "proved",
   "theorems": [
    "Props.C92_find",
    "Props.C92_apply_all",
    "Props.C92_hints",
    "Props.C92_steps",
    "Props.C92_solve",
    "Props.C92_score",
    "Props.C92_several",
    "Props.C92_torn"
   ],
   "note": "Recursion limit larger than the number of empty fields; both calls of solve finish; dicts keep the order of insertion."
  },
  {
   "property": "C93",
   "status": "proved",
   "theorems": [
    "Props.C93_create_solution",
    "Props.C93_generate",
    "Props.C93_template"
   ],
   "note": "Box sizes > 0; recursion limit larger than the number of fields. Possible means: for some outcome of random and some iteration orders."
  },
  {
   "property": "C94",
   "status": "proved",
   "theorems": [
    "Props.C94_row_col",
    "Props.C94_first_box",
    "Props.C94_factorial",
    "Props.C94_missing"
   ],
   "note": "Box sizes > 0; recursion limit larger than the number of fields. Documents a limitation of create_solution."
  },
  {
   "property": "C95",
   "status": "proved",
   "theorems": [
    "Props.C95_exact_cover",
    "Props.C95_exact_cover_error",
    "Props.C95_select",
    "Props.C95_rest",
    "Props.C95_deselect",
    "Props.C95_solve_rest",
    "Props.C95_solve",
    "Props.C95_repeated",
    "Props.C95_empty_row"
   ],
   "note": "Rows without repeated columns (C95_repeated shows why); recursion limit larger than the number of columns."
  },
  {
   "property": "C96",
   "status": "proved",
   "theorems": [
    "Props.C96_same",
    "Props.C96_first",
    "Props.C96_as_fresh",
    "Props.C96_keeps",
    "Props.C96_hints"
   ],
   "note": "For the classes in SOLVERS."
  },
  {
   "property": "C97",
   "status": "proved",
   "theorems": [
    "Props.C97_uninterrupted",
    "Props.C97_empty_line",
    "Props.C97_continued",
    "Props.C97_script_reading",
    "Props.C97_script_executing",
    "Props.C97_status",
    "Props.C97_kept",
    "Props.C97_again",
    "Props.C97_untouched",
    "Props.C97_loop"
   ],
   "note": "Interrupts while the shell waits for a line, while a library function runs, or just before a function is called; not between two instructions of the shell itself. Documents defects."
  },
  {
   "property": "C98",
   "status": "proved",
   "theorems": [
    "Props.C98_same",
    "Props.C98_zero",
    "Props.C98_box",
    "Props.C98_surrounding",
    "Props.C98_surrounding_include",
    "Props.C98_calc",
    "Props.C98_conflicts",
    "Props.C98_self",
    "Props.C98_conflicts_bad",
    "Props.C98_conflicts_all"
   ],
   "note": "Box sizes are natural numbers. Documents a defect of find_conflicts (negative coordinates)."
  },
  {
   "property": "C99",
   "status": "proved",
   "theorems": [
    "Props.C99_bruteforce",
    "Props.C99_dlx",
    "Props.C99_safe",
    "Props.C99_completions",
    "Props.C99_solutions"
   ],
   "note": "A loop begins with the first call of next, at which the generators copy their argument; what is written between calling bruteforce(sudoku) and the first next does count."
  },
  {
   "property": "C100",
   "status": "proved",
   "theorems": [
    "Props.C100_order",
    "Props.C100_same",
    "Props.C100_fill",
    "Props.C100_clear",
    "Props.C100_align",
    "Props.C100_conflicts_same",
    "Props.C100_resolve",
    "Props.C100_clear_conflicts",
    "Props.C100_stale",
    "Props.C100_ahead"
   ],
   "note": "The program is a state with an arbitrary loop body; grids are functions. diff: other is at least as large as the sudoku."
  },
  {
   "property": "C101",
   "status": "proved",
   "theorems": [
    "Props.C101_eq",
    "Props.C101_true",
    "Props.C101_equals",
    "Props.C101_diff",
    "Props.C101_sudoku",
    "Props.C101_dict"
   ],
   "note": "An object is what [row, col] and get_candidates(row, col) give or raise, without side effects. Comparing the items (!=) does not raise."
  },
  {
   "property": "C102",
   "status": "proved",
   "theorems": [
    "Props.C102_is_unique",
    "Props.C102_generate",
    "Props.C102_template_error",
    "Props.C102_template_endless"
   ],
   "note": "Recursion limit larger than the number of fields. These are necessary conditions, not sufficient ones (the least number of clues is larger, 17 for 9x9, which is not proved here)."
  },
  {
   "property": "C103",
   "status": "proved",
   "theorems": [
    "Props.C103_same",
    "Props.C103_same_units",
    "Props.C103_no_fields",
    "Props.C103_rows",
    "Props.C103_units",
    "Props.C103_calc",
    "Props.C103_conflicts",
    "Props.C103_solved",
    "Props.C103_dlx",
    "Props.C103_create"
   ],
   "note": "coordinates.py, calc_candidates, find_conflicts and is_solved completely; dlx up to exact_cover, create_solution up to the calls of choice; numbers are integers. Documents missing checks."
  },
  {
   "property": "C104",
   "status": "proved",
   "theorems": [
    "Props.C104_pieces",
    "Props.C104_layout",
    "Props.C104_fields",
    "Props.C104_candidates",
    "Props.C104_no_fields"
   ],
   "note": "No number_sep; sudoku_sep and candidate_sep are the default ones. Whitespace outside of string.whitespace is excluded, as in C11."
  },
  {
   "property": "C105",
   "status": "proved",
   "theorems": [
    "Props.C105_blanks",
    "Props.C105_separators",
    "Props.C105_fields",
    "Props.C105_inferred",
    "Props.C105_two_gaps",
    "Props.C105_candidates",
    "Props.C105_blank_before_bar"
   ],
   "note": "The first and the last item of the field part are not empty; items share no character with the separators, and number_sep shares none with the other two. The candidate theorem is about texts whose only whitespace is in the separators. int is Python's int on ASCII texts."
  },
  {
   "property": "C106",
   "status": "proved",
   "theorems": [
    "Props.C106_numbers",
    "Props.C106_candidates",
    "Props.C106_hidden",
    "Props.C106_no_prefix",
    "Props.C106_out_of_range"
   ],
   "note": "Box sizes > 0."
  },
  {
   "property": "C107",
   "status": "proved",
   "theorems": [
    "Props.C107_unknown",
    "Props.C107_any_name",
    "Props.C107_argument",
    "Props.C107_semicolon"
   ],
   "note": "Characters beyond ASCII are taken to be printable. Texts of exceptions raised by library functions: C112."
  },
  {
   "property": "C108",
   "status": "proved",
   "theorems": [
    "Props.C108_injective",
    "Props.C108_text",
    "Props.C108_sequences"
   ],
   "note": "The attributes are lists or tuples of integers; other iterables (sets, generators) are not modelled."
  },
  {
   "property": "C109",
   "status": "proved",
   "theorems": [
    "Props.C109_language",
    "Props.C109_separators",
    "Props.C109_typeError",
    "Props.C109_set",
    "Props.C109_remove"
   ],
   "note": "Integer box sizes; nsep of at most one character; strings without the text made up of all six whitespace characters (which decode removes, C46_blank). int() as in Model/Strings."
  },
  {
   "property": "C110",
   "status": "proved",
   "theorems": [
    "Props.C110_same",
    "Props.C110_units",
    "Props.C110_units_limit",
    "Props.C110_generate",
    "Props.C110_template",
    "Props.C110_size",
    "Props.C110_number",
    "Props.C110_encode",
    "Props.C110_decode",
    "Props.C110_unique",
    "Props.C110_decode_size",
    "Props.C110_action",
    "Props.C110_action_minus",
    "Props.C110_action_remove",
    "Props.C110_action_set"
   ],
   "note": "Model/ErrorText repeats the functions with the texts of the exceptions they raise themselves; C110_same: without the texts they are the functions of the other claims. The texts of built-in operations (other than which string int() is given) are not modelled. Sudoku.decode only for texts without candidates."
  },
  {
   "property": "C111",
   "status": "proved",
   "theorems": [
    "Props.C111_numbers",
    "Props.C111_candidates",
    "Props.C111_same",
    "Props.C111_again"
   ],
   "note": "Sudokus with at least one field. Whitespace is that of the module string, as in C11."
  },
  {
   "property": "C112",
   "status": "proved",
   "theorems": [
    "Props.C112_decode",
    "Props.C112_size",
    "Props.C112_digit",
    "Props.C112_generate",
    "Props.C112_template"
   ],
   "note": "Library functions as in Model/ShellLib (Real, RealGenerate), with the texts of Model/ErrorText. The text of int() is that of CPython 3."
  },
  {
   "property": "C113",
   "status": "proved",
   "theorems": [
    "Props.C113_dlx",
    "Props.C113_bruteforce",
    "Props.C113_illegal"
   ],
   "note": "dlx: whenever it ends without RecursionError (a recursion limit larger than the number of empty fields suffices, C18). The conditions are sufficient for divisibility, nothing is said about larger divisors."
  },
  {
   "property": "C114",
   "status": "proved",
   "theorems": [
    "Props.C114_rate_score"
   ],
   "note": "Recursion limit larger than the number of empty fields, both calls finish (they do, C32, C33)."
  },
  {
   "property": "C115",
   "status": "proved",
   "theorems": [
    "Props.C115_score_grows",
    "Props.C115_score_turned"
   ],
   "note": "The runs are checked round by round by the kernel for one order (tables in Proofs/TraceTables, Proofs/TurnedTables) and transferred to all orders by C92."
  },
  {
   "property": "C116",
   "status": "proved",
   "theorems": [
    "Props.C116_naked",
    "Props.C116_hidden",
    "Props.C116_fish",
    "Props.C116_pointing",
    "Props.C116_quint",
    "Props.C116_four",
    "Props.C116_attained"
   ],
   "note": "The samples that attain the bounds are evaluated by the kernel for one order of the sets."
  },
  {
   "property": "C117",
   "status": "proved",
   "theorems": [
    "Props.C117_three",
    "Props.C117_line",
    "Props.C117_unique",
    "Props.C117_singles",
    "Props.C117_generate",
    "Props.C117_template",
    "Props.C117_four"
   ],
   "note": "Recursion limit larger than the number of empty fields (see C18, C32). The number of rounds of solve is bounded as in C32."
  },
  {
   "property": "C118",
   "status": "proved",
   "theorems": [
    "Props.C118_same",
    "Props.C118_ends",
    "Props.C118_dlx",
    "Props.C118_bruteforce",
    "Props.C118_rate",
    "Props.C118_steps",
    "Props.C118_compare",
    "Props.C118_unique",
    "Props.C118_thin"
   ],
   "note": "Model/Calls repeats the two searches with a counter; C118_same: without it they are the functions of the other claims. The generators are run until they are exhausted; recursion limit larger than the number of empty fields (C118_ends)."
  },
  {
   "property": "C119",
   "status": "proved",
   "theorems": [
    "Props.C119_is_unique",
    "Props.C119_irreducible",
    "Props.C119_generate",
    "Props.C119_exactly",
    "Props.C119_template_error",
    "Props.C119_template_endless"
   ],
   "note": "All 288 full grids are enumerated in the kernel and the enumeration is proved complete; the search for sets of clues is a proved algorithm evaluated on them. Only boxes of 2x2 fields; for other sizes see C102 (N - 1 clues)."
  },
  {
   "property": "C120",
   "status": "proved",
   "theorems": [
    "Props.C120_same",
    "Props.C120_ends",
    "Props.C120_at_most",
    "Props.C120_exactly",
    "Props.C120_tested",
    "Props.C120_last",
    "Props.C120_accepted",
    "Props.C120_accepted_even",
    "Props.C120_rejected"
   ],
   "note": "The calls are recorded in a second model of generate, proved to give the same result (C120_same). C120_ends: valid arguments always give a result; for the others see C39."
  },
  {
   "property": "C121",
   "status": "proved",
   "theorems": [
    "Props.C121_is_unique",
    "Props.C121_generate",
    "Props.C121_needed",
    "Props.C121_rows",
    "Props.C121_columns",
    "Props.C121_numbers",
    "Props.C121_rectangle"
   ],
   "note": "C121_is_unique for all sets; C121_rows, C121_columns, C121_numbers, C121_rectangle show that the named ones are among them."
  },
  {
   "property": "C122",
   "status": "proved",
   "theorems": [
    "Props.C122_is_unique",
    "Props.C122_generate",
    "Props.C122_at_most",
    "Props.C122_exactly",
    "Props.C122_boxes",
    "Props.C122_boxes_generate"
   ],
   "note": "C122_is_unique, C122_generate, C122_at_most, C122_exactly; C122_boxes, C122_boxes_generate for real boxes. Only for symmetry None: with symmetry the loop may stop earlier (C38_stops_early)."
  },
  {
   "property": "C123",
   "status": "proved",
   "theorems": [
    "Props.C123_cases",
    "Props.C123_accepts",
    "Props.C123_refuses",
    "Props.C123_template",
    "Props.C123_same",
    "Props.C123_shell"
   ],
   "note": "C123_cases, C123_accepts, C123_refuses, C123_template; C123_shell for the command, C123_same: it is the generate of the other claims about the shell. Floats, nested collections and other objects are not modelled; collections contain integers."
  },
  {
   "property": "C124",
   "status": "proved",
   "theorems": [
    "Props.C124_dlx",
    "Props.C124_bruteforce",
    "Props.C124_unique",
    "Props.C124_missing",
    "Props.C124_empty"
   ],
   "note": "C124_dlx, C124_bruteforce, C124_unique, C124_missing, C124_empty, about the counting searches of C118 (C118_same: the same results, C118_ends: they end if the recursion limit is larger than the number of empty fields)."
  },
  {
   "property": "C125",
   "status": "proved",
   "theorems": [
    "Props.C125_cases",
    "Props.C125_builds",
    "Props.C125_fails",
    "Props.C125_handler",
    "Props.C125_size",
    "Props.C125_len",
    "Props.C125_create",
    "Props.C125_create_fails",
    "Props.C125_shell"
   ],
   "note": "C125_cases, C125_builds, C125_fails, C125_handler, C125_size, C125_len for Sudoku(); C125_create, C125_create_fails for create_solution(); C125_shell for the command new (two sizes with a negative one are left out in the model of the shell). Floats, nested collections and other objects are not modelled."
  },
  {
   "property": "C126",
   "status": "proved",
   "theorems": [
    "Props.C126_default",
    "Props.C126_sizes",
    "Props.C126_integers",
    "Props.C126_dict",
    "Props.C126_empty",
    "Props.C126_fails",
    "Props.C126_errors"
   ],
   "note": "C126_default, C126_sizes, C126_integers, C126_dict, C126_empty, C126_fails, C126_errors. Compared with decode for natural sizes (C10, C11, C111); exception classes without messages. Floats, nested collections and other objects are not modelled."
  },
  {
   "property": "C127",
   "status": "proved",
   "theorems": [
    "Props.C127_dlx",
    "Props.C127_bruteforce",
    "Props.C127_always",
    "Props.C127_one",
    "Props.C127_solutions",
    "Props.C127_power"
   ],
   "note": "C127_dlx, C127_bruteforce, C127_always, C127_one, C127_solutions, C127_power, about the counting searches of C118. The bounds are not sharp for larger k (9 of 31 calls for the empty 2x2 sudoku)."
  },
  {
   "property": "C128",
   "status": "proved",
   "theorems": [
    "Props.C128_copy",
    "Props.C128_dict",
    "Props.C128_boxes",
    "Props.C128_text",
    "Props.C128_encode",
    "Props.C128_zeros"
   ],
   "note": "C128_copy, C128_dict, C128_boxes, C128_text, C128_encode, C128_zeros. C128_boxes is about the functions of Model/IntSizes, which the methods repeat with the box sizes of the instance."
  },
  {
   "property": "C129",
   "status": "proved",
   "theorems": [
    "Props.C129_dlx",
    "Props.C129_bruteforce",
    "Props.C129_lines_dlx",
    "Props.C129_lines_bruteforce",
    "Props.C129_boxes",
    "Props.C129_each",
    "Props.C129_legal"
   ],
   "note": "C129_dlx, C129_bruteforce, C129_lines_dlx, C129_lines_bruteforce, C129_boxes, C129_each, C129_legal, about the counting searches of C118. Sharper than C127 for grids with many empty fields, but still not sharp (9 of 20 calls for the empty 2x2 sudoku)."
  },
  {
   "property": "C130",
   "status": "proved",
   "theorems": [
    "Props.C130_same",
    "Props.C130_calls",
    "Props.C130_bound",
    "Props.C130_true"
   ],
   "note": "C130_same, C130_calls, C130_bound, C130_true. The generator suspended at its k-th yield is modelled by a search that returns there (Model/UniqueCalls)."
  },
  {
   "property": "C131",
   "status": "proved",
   "theorems": [
    "Props.C131_dlx",
    "Props.C131_bruteforce",
    "Props.C131_calls",
    "Props.C131_next",
    "Props.C131_least_dlx",
    "Props.C131_least_bruteforce"
   ],
   "note": "C131_dlx, C131_bruteforce, C131_calls, C131_least_dlx, C131_least_bruteforce, C131_next. The generator suspended at its k-th yield is modelled by a search that returns there (Model/UniqueCalls, Model/FirstSolutions); what users do with the sudoku while the generator is suspended is C99."
  },
  {
   "property": "C132",
   "status": "proved",
   "theorems": [
    "Props.C132_dlx_first",
    "Props.C132_bruteforce_first",
    "Props.C132_dlx",
    "Props.C132_bruteforce",
    "Props.C132_is_unique",
    "Props.C132_enough"
   ],
   "note": "C132_dlx_first, C132_bruteforce_first, C132_dlx, C132_bruteforce, C132_is_unique, C132_enough. The limit counts the levels of the recursive generators, not other frames of Python."
  }
 ]
}