# property -> (status, note).  Theorem names are taken from lean/Verif/Props (prefix <id>_).
CLAIMS = {
 "C01": ("proved", "row_of, column_of, box_of list the fields of the unit once each; the Sudoku methods agree with the functions of coordinates.py."),
 "C02": ("proved", "surrounding_of lists exactly the peers."),
 "C03": ("proved", "the_row/the_column/the_box/the_part with their ValueError branch."),
 "C04": ("proved", "box_at numbers boxes row by row; box and position in box determine the field."),
 "C05": ("proved", "Store model with list references and Python indexing; every sequence of setter calls."),
 "C06": ("proved", "Heap model with aliasing: copies are independent of the original."),
 "C07": ("proved", "Equivalence on sudokus with equally many rows; asymmetry across sizes and blindness to the box shape proved with witnesses."),
 "C08": ("proved", "Iteration, empty, filled, count, len, diff."),
 "C13": ("proved", ""), "C14": ("proved", ""), 
 "C15": ("proved", "Coordinates of the grid; multiplicities included."),
 "C16": ("proved", "Including the equivalence with 'each unit shows each number exactly once'."),
 "C17": ("proved", "All sizes, all dict/set orders."),
 "C18": ("proved", "All sizes, all dict/set orders; recursion depth > number of empty fields."),
 "C19": ("proved", ""),
 "C20": ("proved", "All sizes, all set orders; recursion depth > number of empty fields."),
 "C21": ("proved", "Equality for legal clues; the difference for an illegal clue is proved with a witness."),
 "C22": ("proved", ""),
 "C23": ("proved", "All sizes, any consumer that keeps the solution, all set orders."),
 "C24": ("proved", "All n, all sizes, any consumer that keeps the solution."),
 "C25": ("proved", "All n, all sizes, any consumer that keeps the solution."),
 "C26": ("proved", "All n, all box shapes, any consumer that keeps the solution."),
 "C27": ("proved", "All n, all sizes, any consumer that keeps the solution, all dict orders."),
 "C28": ("proved", "Arbitrary candidates, any consumer that keeps the size. Bruteforce steps: C58_steps."),
 "C29": ("proved", ""),
 "C30": ("proved", "At most E * (N + 1) rounds; all orders. The report callback is assumed not to change the sudoku."),
 "C31": ("proved", "Non-termination proved for all sudokus with an empty field that sees all numbers; witnesses for it and for the two kinds of wrong results."),
 "C32": ("proved", "With a witness for the full, conflicting sudoku that gets 0."),
 "C33": ("proved", "Lower and upper bound and zero case proved; the documented upper bound is refuted by C33_bound_false."),
 "C55": ("proved", "Also: the class is not compared."),
 "C56": ("proved", "Also: a used step object applied to another sudoku repeats its old actions (C56_stale)."),
 "C58": ("proved", ""),
 "C57": ("proved", "Exact depth; contradicts the warning in the module documentation."),
 "C34": ("proved", "All sizes and random outcomes; IndexError for empty boxes."),
 "C35": ("proved", ""), "C36": ("proved", ""), "C37": ("proved", ""),
 "C38": ("proved", "Also for larger min_count unless the number of clues is close to it; C38_stops_early shows why this exception is needed."),
 "C39": ("proved", "Unhashable symmetry arguments (TypeError in Python) are outside the model."),
 "C40": ("proved", ""),
 "C09": ("proved", "Separators of any length, or none; with witnesses for what goes wrong with two-digit numbers without a separator."),
 "C10": ("proved", "One-digit candidates; C10_separator and C10_two_digits show the cases that do not round trip."),
 "C11": ("proved", "Including the IndexError for a candidate part without numbers and the lost leading blanks for empty=' '."),
 "C12": ("proved", "All sizes; the ragged rules for box height 1 are part of the statement. The argument number_sep of view is ignored by the code."),
 "C59": ("proved", ""), "C60": ("proved", ""),
 "C61": ("proved", "With a witness that a number may be found that is no candidate of the field."),
 "C62": ("proved", "With a witness for the missing eliminations in a box."),
 "C63": ("proved", "With a witness for the repetitions."),
 "C64": ("proved", "n >= 2, as in the classes of the code."), "C65": ("proved", ""), "C66": ("proved", ""),
 "C41": ("proved", "Conditions on the separators as stated; C41_no_separator and C41_empty show the cases that do not round trip."),
 "C42": ("proved", ""), "C43": ("proved", ""), "C44": ("proved", ""), "C45": ("proved", ""),
 "C46": ("proved", "With witnesses for the differences between code comments and behaviour."),
 "C47": ("proved", "Numbers and candidates are integers."),
 "C48": ("proved", "Default box sizes and all others; witnesses for the TypeError."),
 "C67": ("proved", "Documents a defect of encode_action."),
 "C49": ("proved", "For any library functions behind the commands and any literal_eval; C49_contents with the real copy."),
 "C50": ("proved", "For any library functions and any literal_eval that reads n as n."),
 "C51": ("proved", "KeyboardInterrupt is the subject of C97; greeting and prompts are left out of the comparison."),
 "C52": ("proved", "The texts of the messages are the subject of C107 and C110."),
 "C68": ("proved", "Integer arguments."), "C69": ("proved", "Integer arguments; for new also pairs."), "C70": ("proved", "Recursion limit larger than the number of empty fields."),
 "C53": ("proved", "Input lines are given as a list; KeyboardInterrupt and the menu texts are not modelled."),
 "C54": ("proved", "C54_forever and C54_exception show the limits of the plain claim."),
 "C71": ("proved", "With a witness for stale hints."), "C72": ("proved", ""), "C73": ("proved", ""),
 "C74": ("proved", "The default dimension 3x3, which is the only one the code uses."),
 "C75": ("proved", "With a witness against the README's remark."), "C76": ("proved", "Recursion limit larger than the number of empty fields."),
 "C77": ("proved", ""),
 "C78": ("proved", "Recursion limit larger than 81 for solve."), "C79": ("proved", "Recursion limit larger than 81 for solve."),
 "C80": ("proved", "argparse itself (such as -h, status 2), KeyboardInterrupt and IOErrors while reading are not modelled."),
 "C81": ("proved", "Literals: None, booleans, integers, strings without escapes, tuples/lists/sets of integers."),
 "C82": ("proved", "One-digit numbers and candidates, as in C09 and C10."),
 "C83": ("proved", "Box sizes > 0; generate_from_template with tries >= 0 (otherwise it may run forever, C40_endless)."),
 "C84": ("proved", "Integer row and col."),
 "C85": ("proved", "Documents a defect of signature_str; inspect.getargspec as up to Python 3.10."),
 "C86": ("proved", "inspect.getargspec as up to Python 3.10; the documentation strings are a parameter."),
 "C87": ("proved", "For the classes in SOLVERS."),
 "C88": ("proved", "Recursion limit larger than the number of empty fields."),
 "C89": ("proved", "Recursion limit larger than the number of empty fields; for rate also: both calls finish (they do, C32)."),
 "C90": ("proved", "Recursion limit larger than the number of empty fields; for rate also: both calls finish (they do, C32)."),
 "C91": ("proved", "With autoset: if no empty field has the candidate 0."),
 "C92": ("proved", "Recursion limit larger than the number of empty fields; both calls of solve finish; dicts keep the order of insertion."),
 "C93": ("proved", "Box sizes > 0; recursion limit larger than the number of fields. Possible means: for some outcome of random and some iteration orders."),
 "C94": ("proved", "Box sizes > 0; recursion limit larger than the number of fields. Documents a limitation of create_solution."),
 "C95": ("proved", "Rows without repeated columns (C95_repeated shows why); recursion limit larger than the number of columns."),
 "C96": ("proved", "For the classes in SOLVERS."),
 "C97": ("proved", "Interrupts while the shell waits for a line, while a library function runs, or just before a function is called; not between two instructions of the shell itself. Documents defects."),
 "C98": ("proved", "Box sizes are natural numbers. Documents a defect of find_conflicts (negative coordinates)."),
 "C99": ("proved", "A loop begins with the first call of next, at which the generators copy their argument; what is written between calling bruteforce(sudoku) and the first next does count."),
 "C100": ("proved", "The program is a state with an arbitrary loop body; grids are functions. diff: other is at least as large as the sudoku."),
 "C101": ("proved", "An object is what [row, col] and get_candidates(row, col) give or raise, without side effects. Comparing the items (!=) does not raise."),
 "C102": ("proved", "Recursion limit larger than the number of fields. These are necessary conditions, not sufficient ones (the least number of clues is larger, 17 for 9x9, which is not proved here)."),
 "C103": ("proved", "coordinates.py, calc_candidates, find_conflicts and is_solved completely; dlx up to exact_cover, create_solution up to the calls of choice; numbers are integers. Documents missing checks."),
 "C104": ("proved", "No number_sep; sudoku_sep and candidate_sep are the default ones. Whitespace outside of string.whitespace is excluded, as in C11."),
 "C105": ("proved", "The first and the last item of the field part are not empty; items share no character with the separators, and number_sep shares none with the other two. The candidate theorem is about texts whose only whitespace is in the separators. int is Python's int on ASCII texts."),
 "C106": ("proved", "Box sizes > 0."),
 "C107": ("proved", "Characters beyond ASCII are taken to be printable. Texts of exceptions raised by library functions: C112."),
 "C108": ("proved", "The attributes are lists or tuples of integers; other iterables (sets, generators) are not modelled."),
 "C109": ("proved", "Integer box sizes; nsep of at most one character; strings without the text made up of all six whitespace characters (which decode removes, C46_blank). int() as in Model/Strings."),
 "C110": ("proved", "Model/ErrorText repeats the functions with the texts of the exceptions they raise themselves; C110_same: without the texts they are the functions of the other claims. The texts of built-in operations (other than which string int() is given) are not modelled. Sudoku.decode only for texts without candidates."),
 "C111": ("proved", "Sudokus with at least one field. Whitespace is that of the module string, as in C11."),
 "C113": ("proved", "dlx: whenever it ends without RecursionError (a recursion limit larger than the number of empty fields suffices, C18). The conditions are sufficient for divisibility, nothing is said about larger divisors."),
 "C114": ("proved", "Recursion limit larger than the number of empty fields, both calls finish (they do, C32, C33)."),
 "C115": ("proved", "The runs are checked round by round by the kernel for one order (tables in Proofs/TraceTables, Proofs/TurnedTables) and transferred to all orders by C92."),
 "C116": ("proved", "The samples that attain the bounds are evaluated by the kernel for one order of the sets."),
 "C117": ("proved", "Recursion limit larger than the number of empty fields (see C18, C32). The number of rounds of solve is bounded as in C32."),
 "C118": ("proved", "Model/Calls repeats the two searches with a counter; C118_same: without it they are the functions of the other claims. The generators are run until they are exhausted; recursion limit larger than the number of empty fields (C118_ends)."),
 "C122": ("proved", "C122_is_unique, C122_generate, C122_at_most, C122_exactly; C122_boxes, C122_boxes_generate for real boxes. Only for symmetry None: with symmetry the loop may stop earlier (C38_stops_early)."),
 "C121": ("proved", "C121_is_unique for all sets; C121_rows, C121_columns, C121_numbers, C121_rectangle show that the named ones are among them."),
 "C120": ("proved", "The calls are recorded in a second model of generate, proved to give the same result (C120_same). C120_ends: valid arguments always give a result; for the others see C39."),
 "C123": ("proved", "C123_cases, C123_accepts, C123_refuses, C123_template; C123_shell for the command, C123_same: it is the generate of the other claims about the shell. Floats, nested collections and other objects are not modelled; collections contain integers."),
 "C119": ("proved", "All 288 full grids are enumerated in the kernel and the enumeration is proved complete; the search for sets of clues is a proved algorithm evaluated on them. Only boxes of 2x2 fields; for other sizes see C102 (N - 1 clues)."),
 "C124": ("proved", "C124_dlx, C124_bruteforce, C124_unique, C124_missing, C124_empty, about the counting searches of C118 (C118_same: the same results, C118_ends: they end if the recursion limit is larger than the number of empty fields)."),
 "C125": ("proved", "C125_cases, C125_builds, C125_fails, C125_handler, C125_size, C125_len for Sudoku(); C125_create, C125_create_fails for create_solution(); C125_shell for the command new (two sizes with a negative one are left out in the model of the shell). Floats, nested collections and other objects are not modelled."),
 "C126": ("proved", "C126_default, C126_sizes, C126_integers, C126_dict, C126_empty, C126_fails, C126_errors. Compared with decode for natural sizes (C10, C11, C111); exception classes without messages. Floats, nested collections and other objects are not modelled."),
 "C127": ("proved", "C127_dlx, C127_bruteforce, C127_always, C127_one, C127_solutions, C127_power, about the counting searches of C118. The bounds are not sharp for larger k (9 of 31 calls for the empty 2x2 sudoku)."),
 "C128": ("proved", "C128_copy, C128_dict, C128_boxes, C128_text, C128_encode, C128_zeros. C128_boxes is about the functions of Model/IntSizes, which the methods repeat with the box sizes of the instance."),
 "C129": ("proved", "C129_dlx, C129_bruteforce, C129_lines_dlx, C129_lines_bruteforce, C129_boxes, C129_each, C129_legal, about the counting searches of C118. Sharper than C127 for grids with many empty fields, but still not sharp (9 of 20 calls for the empty 2x2 sudoku)."),
 "C130": ("proved", "C130_same, C130_calls, C130_bound, C130_true. The generator suspended at its k-th yield is modelled by a search that returns there (Model/UniqueCalls)."),
 "C131": ("proved", "C131_dlx, C131_bruteforce, C131_calls, C131_least_dlx, C131_least_bruteforce, C131_next. The generator suspended at its k-th yield is modelled by a search that returns there (Model/UniqueCalls, Model/FirstSolutions); what users do with the sudoku while the generator is suspended is C99."),
 "C132": ("proved", "C132_dlx_first, C132_bruteforce_first, C132_dlx, C132_bruteforce, C132_is_unique, C132_enough. The limit counts the levels of the recursive generators, not other frames of Python."),
 "C112": ("proved", "Library functions as in Model/ShellLib (Real, RealGenerate), with the texts of Model/ErrorText. The text of int() is that of CPython 3."),
}
