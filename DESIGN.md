# A Lean 4 model of sudokutools

Subject: the Python package in `/repo/sudokutools` (version 0.5.0-dev), read as text.

## 1. Layout

```
lean/Verif.lean               imports everything
lean/Verif/Spec.lean          what sudoku means: cells, rows, columns, boxes, peers, solutions (no model code)
lean/Verif/StepSpec.lean      what it means that a solving step is true, consumers of generators
lean/Verif/FindSpec.lean      which steps of each class there are (naked tuple, fish, ...)
lean/Verif/NotationSpec.lean  canonical descriptions of sets of fields, meaning of groups of letters; LanguageSpec.lean: all texts that are accepted;
                              ErrorSpec.lean: what is said about the others
lean/Verif/ShellSpec.lean     scripts; GameSpec.lean: history with undo and redo
lean/Verif/RateSpec.lean      what can be reached with some classes of steps; RedrawSpec.lean: redrawn sudokus; CountSpec.lean: what does not occur in a sudoku; CallsSpec.lean: forced numbers
lean/Verif/Model/*.lean       the code, function by function, each definition with file:line citations
lean/Verif/Proofs/*.lean      helper lemmas
lean/Verif/Props/*.lean       the property theorems, witnesses and examples
lean/Verif/Audit.lean         `#print axioms` for every property theorem (generated)
lean/Verif/Props/Upstream.lean  no theorems: the expected values of the project's tests and of the README, evaluated in the model
properties.jsonl, MANIFEST.json   generated by tools/mkprops.py, tools/mkmanifest.py (claims in tools/claims.py)
seeded/LOG.jsonl              mutation tests (tools/mutations.py, tools/mutate.py)
```

A property `Cnn` is proved by the theorems `Props.Cnn_*`.  Statements in `Props` mention notions of the `*Spec` files and those
functions of the model which a caller of the Python library would call.  Beside the theorems there are `example`s with concrete
sudokus that meet the hypotheses.

## 2. How Python is represented

* `int` values are `Int` (unbounded).  Coordinates inside algorithms are `Nat`; API functions that take
  user indices take `Int` and model Python's negative indexing and `IndexError`.
* `str` is `List Char`.
* Exceptions are values: `Except PyErr α`; where the state can be observed after an exception (actions, autofill, shells) the result is a
  pair of state and exception.
* A `Sudoku` instance is `{bw, bh, num : Cell → Int, cand : Cell → Finset Int}`: the two lists of lists are represented by
  their lookup functions; only arguments in the grid are meaningful.  `Model/Store.lean` models the real lists of lists with Python
  indexing, objects and references; C05 and C06 show that it behaves like the lookup functions.
* `set`/`frozenset` of ints are `Finset Int`.  Wherever Python iterates over a set or dict and the order can be
  observed, the model takes an *order oracle* as an argument and the theorems hold for every oracle.  The oracle
  is indexed by the position in the search (path, round, field), so that each iteration may use its own order.
* `random.choice`/`random.shuffle` become arguments: any element, any permutation.
* In-place mutation becomes state passing; recursion with backtracking returns the state after the
  restoration code has run, so restoring wrongly is visible.
* Generators that are consumed while the sudoku is changed (`for step in cls.find(s): step.apply(s)`) are modelled
  as functions taking the *consumer* (what happens to the sudoku between two `next()` calls) as an argument.
  For `bruteforce` and `dlx` Model/Generators has a second version, on the objects and lists of Model/Store: each call of a method is one step, and at each `yield` the
  program goes on with any calls on any objects.  Where only the first items of a generator are taken (`next(dlx(s))`, `is_unique`) the model looks at the result of the whole run; C130 and C131 show that this is the same.
* `while`/recursion gets fuel.  For recursion the fuel is Python's recursion limit (running out is a `RecursionError`); for `while` running out
  means "not finished yet".  Theorems show which fuel suffices (termination), or that none does.
* In the shells sudokus are objects in a heap and the shell holds addresses, so that sharing would be visible.  What the library functions
  and `literal_eval` do is a parameter (`Shell.Lib`); `Shell.Real` (Model/ShellLib.lean) says what it is for the values of
  Model/PyValues.lean: `None`, booleans, integers, strings without escapes, and tuples, lists and sets of integers, written in the
  canonical way.  Arguments are bound to parameters by `bindArgs`, with the signatures of the functions in `COMMANDS`.

## 3. What is modelled

| File | Modelled | Not modelled |
|---|---|---|
| coordinates.py | everything (for any integers as row and column in Model/IntCoordinates, also as box sizes in Model/IntSizes) | |
| sudoku.py | everything | negative sizes but for the functions in Model/IntSizes, Model/NewArgs, Model/DecodeArgs and Model/OddCopy, non-integer sizes and numbers; `count**0.5` is the integer square root (agrees with IEEE doubles below 2^52 fields) |
| solve.py, dlx.py | everything (dicts and sets with arbitrary order, the in-place cover/uncover, backtracking) | |
| solvers.py | everything (texts of steps in Model/StepText) | `NotImplementedError` of the abstract classes |
| analyze.py | everything | |
| generate.py | everything (arguments of any kind in Model/GenerateArgs) | other objects than `None`, booleans, integers, strings and collections of integers as arguments |
| actions.py, notation.py | everything | the limit of 4300 digits of `int()`; decimal digits of other scripts are those of Unicode 14.0 (see Model/Strings.lean) |
| shell.py | `parse`, `Shell`, `GameShell`, `signature_str` (documentation strings are a parameter; `inspect.getargspec` as up to Python 3.10, see Model/Help.lean) | `clear`, texts of exceptions made by Python itself, `KeyboardInterrupt` in the game and between two instructions of the shell (see Model/Interrupt.lean), terminal and file access, `literal_eval` for other values (floats, nested collections, escapes; the limit of 4300 digits), library functions given such values or values that do not fit (e.g. strings as numbers of fields) |
| `__main__.py` | `main` | `argparse` (its errors and `-h`), `IOError` while reading, writing to stderr |

Also not modelled: memory, time, Python 2 (in which `!=` of sudokus compares identities, so that the game would calculate new hints each time).

## 4. Trusted base

* Lean's kernel.
* The axioms `propext`, `Classical.choice`, `Quot.sound`, nothing else; `Verif/Audit.lean` prints the axioms of each property
  theorem in every build. (No `native_decide`; concrete witnesses are computed with `decide +kernel`, i.e. by the kernel.)
* Definitions of Lean/Mathlib used in statements (`Finset`, `List.Perm`, `Nodup`, `Pairwise`, `Forall₂`, ...).
* `Spec.lean` and the other specification files (about 950 lines with comments).
* The reading of the Python source recorded in the comments of `Verif/Model`, including the semantics of the Python built-ins used
  (`str.split`, `join`, `strip`, `rjust`, `sorted`, `int`, indexing, sets), which are modelled in `Model/Strings.lean` and in place.

## 5. Where code and documentation disagree, and other defects

All of these are proved with a concrete witness (theorem in brackets), unless marked "reading".

Solving
* `solve`, `rate` and `score` never return if an empty field sees all numbers (C31_never_ends, C31_witness). For other unsolvable
  sudokus without conflicts `solve` returns, without any error, a full grid with conflicts (C31_wrong_solution) or a grid
  with empty fields (C31_incomplete).
* `rate` is 0 for full grids with conflicts, although "only completely solved sudokus get a rating of 0" (C32_zero_not_solved).
* `score` can exceed 10 * empty, the documented bound (C33_bound_false: 142 for 14 empty fields); E * (7N + 10) is a bound (C33_upper).
* The warning about `RecursionError` in solve.py and generate.py is wrong: the depth is the number of empty fields plus one, not related to
  `box_width * box_height` as stated (C57_depth).
* `bruteforce` keeps numbers outside 1..N, `dlx` yields nothing then (C21_differ).
* HiddenSingle does not look at the candidates of the field itself (C61_not_a_candidate); HiddenTuple yields steps repeatedly (C63_repeats, exactly how often: C63_multiplicity);
  NakedTuple drops eliminations in a box if the same fields were found in a row or column (C62_box_dropped).
* `CalculateCandidates.apply_all` skips fields that have candidates, so it does not "basically the same as init_candidates" (README) once
  candidates are out of date (C75_not_init). One pass of `apply_all` over all classes solves (C76_pass), unless candidates are wrong (C76_misled).
* README, "Solving sudokus": the sudoku "from the code above" has conflicts, so nothing is yielded for it (Props/Upstream); the output shown is the
  solution of the first sudoku of the README.
* `test_score_works_on_random_sudoku` asserts a bound that does not hold for all sudokus (C33_bound_false); the shell test of `get` passes only because
  it replaces `_print` (C68).
* `==` of steps ignores their class (C55_class_ignored); `apply` keeps the actions calculated the first time, so a step object applied to another
  sudoku repeats them (C56_stale).

Sudokus
* Negative box sizes are not rejected: with one, there are no fields but `len` says otherwise (C103_no_fields); with two, there are no boxes, so that Latin squares are "solved"
  (C103_solved), and `dlx` and `is_unique` raise KeyError (C103_dlx).
* A sudoku without fields is equal to everything (C101_dict); `equals` raises for objects that `==` calls unequal (C101_equals).
* `==` is not symmetric for different sizes and ignores the box shape (C07_not_symmetric, C07_ignores_shape_and_candidates).
* `encode` without separators loses two-digit numbers and candidates; candidate lists are always written without separator
  (C09_two_digits, C10_two_digits, C10_separator); `decode` raises IndexError for a candidate part without numbers (C11_index_error) and
  drops leading blanks also if blank means empty (C11_blank).
* `decode` with `number_sep`: whitespace is not ignored but replaced by the separator, so "1; 2" is refused (C105_two_gaps, C105_blank_before_bar), and candidate pieces must not be
  empty (C105_candidates), which makes the texts of `encode` with candidates unreadable (C10_separator).
* `view` ignores its argument `number_sep` (reading); candidates of filled fields are not shown but make the columns wider (C106_hidden); rule lines are too long for box height 1 (C12_layout); ValueError for size 0 (C12_error).
* `decode` makes a `Sudoku` even for subclasses; `item is empty` compares identities (reading; modelled as a parameter `same`).

Generating
* `generate` stops at the first orbit that would go below `min_count`, even if smaller orbits follow (C38_stops_early);
  `create_solution` raises IndexError for empty boxes (C34_zero).
* The constructor of `Sudoku` turns IndexError and KeyError into ValueError "Invalid sudoku box_size", but wrong sequences fail earlier with other exceptions; only dictionaries with two keys get there, and a dictionary with the keys 0 and 1 is accepted: `Sudoku({0: 3, 1: 3})` has 81 fields, `box_size` (0, 1) and `len()` 0 (C125_handler, C125_len); `decode` with this `box_size` stores a single number (C126_dict), and `copy()` raises IndexError (C128_dict).
* The docstring of `generate` says ValueError "if symmetry is not a valid argument"; lists and sets raise TypeError, and unsuitable `box_size` or `min_count` values TypeError, IndexError or an undocumented ValueError (C123_refuses).
* `create_solution` chooses a field at random, which has no effect, as all fields chosen are in the first box (C94_row_col); with fixed iteration orders (CPython) it has
  only (w*h)! results, so most full sudokus are never made (C94_factorial, C94_missing).

Notation
* `decode` does not remove whitespace, accepts immediately repeated letters, and treats a last letter without number as absent, contrary to its
  comments (C46_blank, C46_repeated, C46_no_number); the docstring mentions an argument `allow_boxes` that does not exist (reading).
* Precisely: "r0r1c1" is accepted although there is no row 0, "r1r2r3" is not; leading zeros are accepted only for sudokus with more than 9 numbers (C109_language and cases).
* The messages of `the_row` etc. are repeated `height` times and show the box width as limit (string times int, `%` binds first; C110_units, C110_units_limit). The message "No numbers given for" is only
  possible if numbers are not separated; otherwise `int('')` fails first (C110_decode: `Complaint.noNumbers`, `Complaint.missing`).
* `decode_action`: strings beginning with '-' always raise, "r=1" raises TypeError (C48_minus, C48_type_error).
* `encode_action` does not work for ints (C67_never); of all actions only SetNumber with a string is ever encoded (C67_only).

Shells
* `get` and `get_candidates` always end in an error (C68_get).
* `find_conflicts(sudoku, (-1, -1))` reports a conflict of the field with itself, twice, if it is filled, although `sudoku[-1, -1]` and `calc_candidates` accept negative coordinates (C98_self);
  `surrounding_of(include=True)` raises ValueError outside of the grid (C98_surrounding_include). The comment in coordinates.py:140 "remove two items (there are three)" is wrong: there are two, one is removed.
* After `exit` the rest of a `;`-joined line is executed (C51); `exit` inside a loop definition is executed at once (C50_body).
* A command continued by a backslash at the end of the file is dropped (C51). Two blanks between arguments are an error (reading).
* `sudokutools -c "exit; stack"` still executes `stack`; a script stops at `exit` (C80_exit).
* Strings with blanks or semicolons cannot be given to commands, and with `=` only by name (`Item.Ok`, sample in Props/Arguments); `new w h`, as one might guess from
  the other commands, is an error, the box size is one argument (C69_new_two).
* The message for unknown commands is shown with quotation marks (and, if the name contains some, with backslashes), because `"%s" % e` of a `KeyError` is a `repr` (C107_unknown). Arguments are
  read before the name of the command is looked up, so `foo bar` complains about `bar` (C107_argument). A semicolon at the end of a line is an error and ends scripts (C107_semicolon).
* Exceptions of `literal_eval` other than SyntaxError and ValueError end the shell (C52_crash).
* When a command is interrupted in an interactive shell, the text of the line is not discarded but glued to the next line, so that the next command fails or means something else (C97_kept,
  C97_again, samples in Props/Interrupt); Ctrl-C on a continuation line executes the command begun (C97_continued); an interrupted loop stays defined although the prompt is reset (C97_loop).
* The help text shows wrong defaults for `decode`, `encode`, `view` and `help` (C85_commands); `signature_str` raises IndexError if fewer than half of the
  parameters, but at least one, have defaults (C85_text).
* `clear` always writes to the standard output, not to the `outfile` of the shell; with `python -O` the checks of `loop` and `pop`, which are assertions, are left out (reading).
* The constructor arguments `commands` and `keywords` are not used; `loop ('end',)` acts as `loop end`; `help` uses
  `inspect.getargspec`, which Python 3.11 removed (reading).
* `score` is said to measure the difficulty, but a sudoku may get a larger score when a right number is entered, and another score when rows and columns are exchanged (C115).
* `generate`: "unique sudokus must have at least 17 filled fields" and "any number above 81" are about 9x9 sudokus only; for 4x4 sudokus the numbers are 4 (C119) and 16 (C39).
* `SOLVERS` contains `NakedQuint` and `HiddenQuint`, which can never report anything for the usual sudokus of size 9 that have a solution (C116); they only cost time there.
* Game: no command ends the game; "help", which the greeting advertises, is unknown (C72_help); "settings" and blank lines raise (C72_endings).
* Game: hints are not renewed when only candidates change (C71_stale).
* Game: with `autoset`, `autofill` never ends if an empty field has the only candidate 0 (C54_forever); its messages name the fields as if boxes were
  3 by 3, and for more than 9 numbers this raises ValueError (C54_exception).
* Game: the settings `dim`, `rating`, `autocheck`, `autoconflicts` are not used; `get_setting` cannot work (reading).

## 6. Properties

Every property is stated in `properties.jsonl`; all are proved (status in `MANIFEST.json`, which lists the theorems), where the
first version of a statement was false of the code, the statement has been corrected and the failing part is a theorem with a witness.

* **C01-C04 geometry** (Model/Coordinates, Sudoku; Proofs/Geometry). Membership and `Nodup` of the lists, and their order, by arithmetic on `/` and `%`.
* **C05-C08 store** (Model/Store; Proofs/Store). Heap of rows and cells with references; a sequence of setter calls refines function update;
  copies share nothing (invariant: references of different sudokus are different).
* **C09-C12 text** (Model/Strings, Codec; Proofs/Strings, Codec, View). Characters read back by induction over the fields;
  layout of `view` line by line.
* **C13-C16** (Model/Solve; Proofs/Solve). Folds over `surrounding_of`.
* **C17-C19, C22 dlx** (Model/Dlx; Proofs/ExactCover, DlxDict, DlxSearch). The dict X after any sequence of select/deselect is determined by the set of
  selected rows; `deselect` undoes `select`; exact covers correspond to completed grids; search enumerates them once each.
* **C20-C21, C57 bruteforce**. Invariant "candidates of empty fields = admissible numbers"; the restoration code restores; induction over the
  number of empty fields. C57: exact depth.
* **C23-C29 soundness of steps** (Model/Solvers; Proofs/Solvers, Units, UnitSurj, Watch). `Contains s g`: solution g is within numbers and
  candidates. Each step yielded is true of g, for every consumer that keeps `Contains`. Pigeonhole on finite sets for tuples and fishes.
  C29_same (Proofs/Commute): a step that is true of g copies numbers of g and filters candidates, independently of the sudoku, so applying a list of steps depends on the set of them only.
* **C30-C33, C58 solve, rate, score** (Proofs/Apply, SolveRun). Measure: candidates + empty fields; divergence by an invariant.
* **C34-C40 generate** (Proofs/Generate). Existence of a completion of any first box by an explicit shifted grid; uniqueness is inherited by supersets
  of clues, hence irreducibility.
* **C41-C46 notation, C47-C48, C67 actions** (Proofs/Notation, NotationEncode, SplitGroups, Actions). The written text is the canonical description;
  reading it gives the set back.
* **C49-C52 shell, C68-C70** (Proofs/Shell). Simulation arguments over the state machine; heap invariant (addresses in range, stack and current
  sudoku not shared).
* **C77** (Props/ShellValues). Bisimulation: shells whose sudokus have the same contents; every command is a function of the contents (`executeBody_form`).
* **C78-C79 README scripts** (Props/Scripts). Composition of C35, C37, C20, C50, C51 with a small calculus of line sequences (`Does`).
* **C80 command line** (Model/Main, Props/Main). Case analysis over C51, C52.
* **C81-C83 arguments** (Model/PyValues, Proofs/ShellLib, Proofs/Literals, Props/Arguments, Props/Literals). `C81_literals` says which texts the model of `literal_eval` reads: exactly those of the relation `Literal`; anything else is left open. `C81_decode` is the error branch of `decode` for values other than strings. `bindArgs` is characterised by the relation `Binds`; the texts of literals are read back;
  C82 and C83 compose this with C09, C10 and C35-C40.
* **C84 candidates in the shell** (Props/ShellCandidates). Like C81-C83, with C14.
* **C85-C86 help** (Model/Help, Props/Help). Induction over the parameters with Python's negative indices; the lines of the text are read back by splitting it.
* **C53-C54, C71-C74 game** (Proofs/Game, GameRun, GameCommands). Each line of input refines an operation on the abstract history; measure for autofill.
  C74 composes generate (C35), bruteforce (C20), rate (C32) and autofill (C54).
* **C75-C76 apply_all** (Proofs/ApplyAll). The generator is consumed while its steps are applied; instances of the consumer theorems behind C23-C29, C58.
* **C87 texts of steps** (Model/StepText, Props/StepText). The texts form a uniquely readable code (tuples are read back item by item); C87_hints uses C66.
* **C55-C56 steps as values**; **C59-C66 completeness of the searches** (FindSpec, Proofs/Complete): for a consumer that leaves the sudoku alone, the list
  of steps is exactly the set described in FindSpec (order and multiplicity where stated).
* **C88 rate** (RateSpec, Proofs/Confluence, Silent, Rate, RateRun; Props/Rate). `Reached K s t`: what can be got from s with the classes K in whatever order.
  A step found in s stays justified in every sudoku `T` below s (fewer candidates, more numbers): with filled fields removed its pattern is a pattern of the same kind
  and at most the same size, or a single. So if the classes (closed under `needs`) find nothing in `T`, no sequence of their steps gets below `T` (`reached_over`).
  `T` is taken from the run of `solve` (for `C88_least`, `C88_needed`), or as an end point of the classes (for `C88_attained`).
  That a class that yields nothing in `solve` finds no pattern follows from completeness (C59-C65) and a comparison of two consumers up to the first step (Proofs/Silent).
* **C89 redrawing** (RedrawSpec, Proofs/Redraw, Props/Redraw). A redrawing is a bijection of fields and one of numbers that keep the grid, sharing a row, column or box, 0 and
  the range of numbers; transposition, relabelling, permutation of rows/columns within the box structure, inverses and compositions are shown to be such. Patterns are mapped to patterns (a row may
  become a column), so a sudoku in which a class finds nothing is mapped to such a sudoku; for `rate` this is used with the sudokus `T` of C88. For the solution counts: an injection both ways.
* **C90 more clues** (Props/MoreClues). The sudoku `T` of C88 for t is also below s.
* **C91 winning** (Props/Winning). C48 (the line is read as this move), C72 (it does not end the shell), C54 (autofill ends and keeps filled fields), C53 (the position becomes the
  current one); induction over the lines; C73 for "check" and "conflicts".
* **C92 set orders** (Props/Deterministic). Two runs side by side. In a sudoku whose candidates contain a solution, the set iterated by `HiddenSingle.find` has at most one
  element, so its order is irrelevant; the other classes but `Bruteforce` iterate over no unordered set that matters (BasicFish: over a dict). `solve`: C88's invariant (`Past`) shows that
  after `Bruteforce` nothing more is found, and before it the two runs are in the same state. Witnesses: several solutions, no solution.
* **C93 what can be generated** (Proofs/Reach, Props/Reach). `create_solution`: orders that try the rows of a given grid first make the search find this grid first (induction over the recursion).
  `generate`: shuffle the fields such that those empty in the target come first, then a group that is too large, then the rest; the target is a subset of the current sudoku until it is reached, and
  then nothing changes. The smallest symmetric groups are stated as minimal closed sets, not with `Sym.fields`. Converse: C35-C38.
* **C94 determined orders** (Props/Reach). The first box of the result is the shuffled list, so different lists give different results; two different full grids with the same first
  box (two rows swapped outside of it) cannot both be returned.
* **C95 exact covers in general** (CoverSpec, Proofs/ExactCover, Props/ExactCover). The functions of dlx.py are modelled for any types of columns and rows; the invariant `Cover.Rep` says what X holds
  when the columns D are covered, `select` and `deselect` move between invariants, the search is done by induction over the recursion. The sudoku solver `dlx` (C17-C19) uses the same lemmas with the matrix of a sudoku.
* **C96 step objects** (Proofs/StepObjects, Props/StepObjects). `StepObj` is the mutable object of Model/Solvers; its remembered actions only remove candidates or set the number of a true step, and
  building the actions again from fewer candidates gives a subset with the same effect.
* **C97 interrupts** (Model/Interrupt, Proofs/Interrupt, Props/Interrupt). A second version of the loop of `run`, on the same functions, in which commands may be cut off (`Cut`); C97_uninterrupted says
  that without cuts it is the first one. For C97_empty_line: what a line does depends on the output so far only by appending to it (`Shifts`).
* **C98 any integers as coordinates** (Model/IntCoordinates, Proofs/IntCoordinates, Props/IntCoordinates). Counting how often each coordinate is in the list of `surrounding_of`; a box of the plane that
  meets the accepted coordinates lies within them, since the box sizes divide the grid size, and counting from the end maps it to the box of the field meant.

* **C99 bruteforce and dlx as generators** (Model/Generators, Proofs/Generators, Proofs/GeneratorsHeap, Props/Generators). `Prog` is a computation that reads and writes one object by its methods and yields
  copies of it. Proofs/Generators: run on a value alone, these computations do the same as `Solve.bruteforce` and `Dlx.dlx`. Proofs/GeneratorsHeap: run on the heap, interleaved with a program that has no
  reference to the object, they do the same as on the value (by the representation of C05/C06). So C17-C20 hold for the loops. Not covered: a program that gets at the hidden copy (by `gi_frame`).

* **C100 lazy generators** (Model/Lazy, Proofs/Lazy, Props/Lazy). Induction over the list of fields; for conflicts: a conflict in the new state is one of the old state, between fields not changed.
  C100_stale: conflicts that are not there any more.

* **C101 comparing with any object** (Model/Compare, Props/Compare). The first field that is not equal decides; C101_sudoku connects with C07.

* **C102 clues** (Proofs/Clues, Props/Clues). Exchanging two missing numbers, two empty rows through the same boxes, or two empty rows of boxes in the solution gives another solution.
  The documentation of `generate_from_template` warns that `tries < 0` may "deadlock your program, if a solution is not possible"; C102 says for which templates this is so for certain.
* **C113 number of solutions** (CountSpec, Proofs/FreeAction, Proofs/Divisible, Props/Divisible). The permutations of the missing numbers (of the empty rows through the same boxes, of the empty rows of
  boxes, ...) act on the list of solutions, and only the identity fixes a solution, because every number occurs in it and its rows differ; so the order of the group divides the length
  (`MulAction.selfEquivOrbitsQuotientProd` of Mathlib). Rows and columns together act freely if a row stays, that is if some field is filled. C102 is the case of one solution.
* **C114 rate and score** (Proofs/RateScore, Props/RateScore). Maximum and sum over the same list of steps, of which exactly E fill a field (solve_spec); C88 makes `rate` independent of the orders.
* **C115 score is not monotone** (Proofs/Trace, Proofs/TraceTables, Proofs/TurnedTables, Props/ScoreMonotone). `find_hom`: the searches see the rest of the program only through the sudoku, so a round can be evaluated with an empty log. A round never writes outside the grid (`tidy_find`), hence a sudoku is determined by its table. Each round is one kernel evaluation from table to table (`roundTo`); `score_of_runs` adds up the points, C92_score transfers the result to all orders.
* **C116 complementary tuples** (Proofs/Complement, Proofs/ComplementTables, Props/Complement). When a class reports something in a round, the classes before it in `SOLVERS` have no pattern in the sudoku as it was at the start of the round, and the class itself has one (`solve_used`, via the completeness of `find`, `complete_find`, and `silent_of_idle`). If F is a naked tuple of n of the m < 2n empty fields of a unit, the numbers of the solution in the other m - n fields are a hidden set of at most n - 1 numbers; by `hidden_mono` its fields have no other candidates, so the tuple removes nothing. Dually for hidden tuples (`naked_mono`, at most n fields, since naked tuples of the same size come first) and for fishes (`fish_mono` with rows and columns exchanged). That 5-tuples are useless for size 9 is not wrong, only superfluous: on larger sudokus they can be needed.
* **C117 thin empty fields** (Proofs/Thin, Props/Thin). Uniqueness: the set of fields where two solutions differ consists of empty fields; the field that is alone in some unit has to differ from itself, since its number of the second solution is elsewhere in that unit in the first one. Singles: if something later than NakedSingle is reported, no field has a single candidate at the start of that round; but the field that is alone among the empty fields of a unit has just the candidate that is missing there (`cand_open`). Three fields: a field, its partner in the row, and the partners of both in their columns are four fields. The converse does not hold: a sudoku with rate 1 need not have thin empty fields. The claim on generate follows with C38 (nothing more can be cleared), the one on templates with C40.
* **C118 number of calls** (Model/Calls, CallsSpec, Proofs/Calls, CallsGrid, CallsRate, CallsBrute, Props/Calls). Exact cover: by induction on the search, the number of calls is compared with the size of any cover T of the rest (`Cover.Count`): at least |T| + 1; equal if for each proper part S of T some column has only one row left after S has been chosen (the column chosen is a smallest one, so it has one row, too); at least |T| + 2 if that fails for some S (either a column with several rows is met on the way, or each chosen row belongs to S, since otherwise its column would have one row left after S, too). Columns with one row left are fields with one number or numbers with one place (`hasAlone_iff`). Rate: grids without such a field or number are those in which the classes for singles find nothing (`idle_naked`, `idle_hidden`, `stuck_naked`, `stuck_hidden`); now C88. The search of bruteforce is treated in the same way on the grids themselves.
* **C119 4x4 sudokus** (Proofs/FewClues, FewTables, FewPuzzles, Props/FewClues). A set of clues fixes a full grid iff it meets every set of fields in which another full grid differs. With the first row of the
  solution as names of the numbers there are 12 full grids (and 288 others to compare with). `grids` enumerates them field by field (complete: `mem_grids`, correct: `of_mem_grids`). For each the smallest of these sets are given by
  a table, which is checked; `noHit` shows that no three fields meet them all, `noIrr` that in no seven fields each has a set that it alone meets. The two searches are proved correct in general (`noHit_spec`, `noIrr_spec`), the evaluation is
  done by the kernel (`decide +kernel`) on the whole domain. C93 turns this into the numbers of clues of `generate`.
* **C120 calls of `is_unique`** (Model/GenerateCalls, Proofs/GenerateCalls, GroupCount, Props/GenerateCalls). `generate` with the list of the tested sudokus and the answers. One field is singled out in each group (`Sym.rep`), each round
  removes exactly one of them from `coords`, so their number in the grid is the number of rounds; it is counted row by row. The rest is the invariant of C35-C38 with the list added.
* **C103 box sizes** (Model/IntSizes, Props/IntSizes). With two negative sizes the code computes what it would compute for boxes that are the rows (`latin`), so C13, C15 and C16 apply.
* **C104, C105 texts** (Model/Codec; Props/CandidateText, Props/SeparatedText, Props/IntBlanks for blanks around items). What `decode` makes of a text is stated in terms of the text alone (pieces between commas, digits in a
  piece, items and gaps); C09 and C10, the round trips, say nothing about texts that `encode` does not produce. Both reading loops are `fill` (Proofs/Codec), the fields numbered row by row.
* **C112 messages of the library in the shell** (Model/Shell: `Err.exn` with the text, `Err.line`; Model/ShellLib; Props/ShellErrors). Exceptions of commands carry their texts (Model/Exceptions,
  the functions of Model/ErrorText), so that C110 carries over; C83 states the messages, too. Texts of built-in operations stay unknown (`Why.builtin`), but for `int(item)`.
* **C111 normal forms** (Props/NormalText). Composition of C11 and C104 with the text of a sudoku with one-digit contents; the normal form is computed from the text alone.
* **C106 the text of `view`** (Props/ViewFaithful). The first rule gives the box height, the number of lines the box width, the length of a line the width of the fields; then C12_layout
  gives the text of each field.
* **C107 messages** (Model/Shell, Props/Messages). `Err.message` carries the text the shell passes to `error`; C49 and C50 state those of `pop` and `loop`. The `repr` in the message for unknown
  commands is compared with an independent reader of string literals (`literalValue`).
* **C108 texts of actions** (Model/ActionText, Props/ActionText). `C108_text` and `C108_sequences` give the texts, `C108_injective` reads a text back: a list or tuple
  can be read off the front of any text, whatever follows, because no number contains a comma, a bracket or a blank. The type of each sequence is a parameter: `decode` returns a tuple
  (notation.py:205), the candidates of a decoded action are a list. (A first version took both to be lists and so showed wrong texts for decoded actions.)
* **C109 the language of `decode`** (LanguageSpec, Proofs/NotationLanguage, Props/NotationLanguage). Every text can be cut at its letters (`exists_raw`); reading it character by
  character amounts to reading the pieces (`readAll_raw`, `reads_iff`), where a piece is a list of numerals (`readNumbers_iff`); what is left in `all_numbers` is what counts (`putAll_kept`). Splitting into groups
  loses nothing (`join_splitGroups`), and for accepted groups it gives them back (`splitGroups_join`, as for C41). C46 says what well-formed texts mean, C109 also that nothing else
  is accepted than what `Accepted` says. For `decode_action` no condition on the characters of the coordinates is needed, because `decode` accepts none of `=<-` (C46_illegal).
* **C110 texts of exceptions** (Model/ErrorText, ErrorSpec, Proofs/ErrorText, Proofs/Complaint, Props/ErrorText). The functions are written once more with exceptions that carry a text; `forget` removes the texts and gives
  the functions of the other models (C110_same), so the new models are tied to the old ones. For `decode`: a group is accepted or there is a complaint about it (`group_cases`, by induction over the text behind an `Opening`), and
  complaints are raised (`complaint_error`), so both are exact. Cutting a text into groups is described by `Groups` alone: every text has groups (`exists_groups`) and `splitGroups` finds them
  (`splitGroups_groups`, four passes of `split` for the four letters amount to one cut).
* **C121 sets that need a clue** (Proofs/Unavoidable, Props/Unavoidable). `Unavoidable` says that another full grid differs only there. Two rows exchanged in some columns: boxes and columns keep their fields, the rows their numbers in these
  columns; columns by transposition; two numbers exchanged on a closed set. With C22, C35, C38.
* **C122 no superfluous clues** (Proofs/Needed, Props/Needed). Without the clue a there is another solution; in each unit of a its number moves to an empty field. If a row has only one empty field, all numbers of the row
  can move there, so all other fields of this column must be empty. Counting: either each row has two empty fields, or one column is empty and each other one has an empty field; 2N - 1 in any case. If there are at least two rows and columns of boxes, 2N: a column outside with one empty field would have an empty row,
  and a box away from both has another empty field (`two_in_column`).
* **C123 arguments of any kind** (Model/GenerateArgs, Props/GenerateArgs). The checks and the built-in operations (`[i]`, `**`, `>`, dictionary lookup, unpacking, `choice`) in the order in which they are executed; `Refuses` lists the
  causes without reference to the model, and `C123_cases` says that they are complete.
* **C124 solutions and calls** (Proofs/CallsMore, Props/CallsMore). Induction as for C118: if T covers the rest, at least |T| + m calls are made for m solutions; the branch with the row of T has at least |T| - 1 + its own solutions, the others at
  least as many calls as solutions. Different solutions give different elements of the result (completeness of the searches).
* **C125 arguments of `Sudoku`** (Model/NewArgs, Props/NewArgs). The built-in operations in their order (`tuple`, unpacking, `[0]`, `[1]`, `*`, `range`), then the handler; `Builds` and `NewFails` list the cases without reference to the model.
* **C126 `decode` with any `box_size`** (Model/DecodeArgs, Proofs/DecodeArgs, Props/DecodeArgs). The loops of `decode` with two limits: the rows of the instance (where a store raises IndexError) and `box_width * box_height` (where they stop).
  Simulation by the model for natural sizes whenever both limits agree, and by a single field for dictionaries.
* **C127 upper bounds** (Proofs/CallsLess, Props/CallsLess). The search tree has depth E at most; dlx takes a column with fewest rows, and as long as any column is left some *field* is left (else the chosen rows would form a full
  grid without conflicts, which covers all columns), so that at most k rows are tried. Solutions are counted by the numbers in the empty fields (`Finset.pi`).
* **C128 copies** (Model/OddCopy, Props/OddCopy). `copy` makes a new instance from the stored tuple of box sizes and stores each number; the loops write exactly the fields of the source, and fail at the first one if the new instance has none.
* **C129 bounds by the missing numbers** (Proofs/CallsFactorial, Props/CallsFactorial). The product of the factorials of the numbers missing in the units is a potential: a choice in a unit with m missing numbers divides it by m, and there are
  at most m choices. For dlx the choices of one call may lie in different units, but as a column with fewest rows is taken, their number is at most m for each of these units. `C129_legal` shows that bruteforce needs numbers up to N.
* **C130 `is_unique`** (Model/UniqueCalls, Proofs/UniqueCalls, Props/UniqueCalls). The search that stops at its k-th yield runs along the whole search (`searchK_spec`); if the recursion limit is too low for any solution it never
  stops early (`searchK_deep`), so both fail alike. This justifies `Dlx.isUnique`, which looks at the result of the whole search.
* **C131 first solutions** (Model/FirstSolutions, Proofs/FirstSolutions, Proofs/FirstCalls, Props/FirstSolutions). As C130, with any k and for both searches. No search goes deeper than its number of calls m, so a limit of m levels suffices, and E + 1 are needed (C57). This justifies the models of the callers of `next(...)`, which take the head of the whole result.
* **C132 recursion limits** (Proofs/FirstCalls, Props/Limits). A run that succeeds with m calls succeeds in the same way with every limit of at least m levels; two runs are compared with a third one whose limit is large enough for both.

## 7. Mutation tests and tests of the project

`Props/Upstream.lean` evaluates the model (`#guard`) on the inputs of `/repo/sudokutools/tests` and of the README and compares with the values expected there,
to check the transcription. This is a test of the model, no claim. Left out: tests with random numbers, and brute force on two of the four examples and the 1540 solutions in the README, which
take too long in the interpreter.

`tools/mutations.py` lists wrong (or repaired) versions of definitions; `tools/mutate.py` applies each to a scratch copy of the last commit in
`/tmp`, builds and logs which declarations fail.  Survivors and what was tightened are in `seeded/LOG.jsonl`.  A mutation that changes no claimed behaviour is
marked in its note.
