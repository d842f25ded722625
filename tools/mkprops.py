#!/usr/bin/env python3
"""Writes /verif/properties.jsonl.  Kept as a script so the list stays easy to edit."""
import json, os
from why import WHY
P = []
def p(i, title, statement, quantifier, why, anchors):
    P.append(dict(id=i, title=title, statement=statement, quantifier=quantifier,
                  why_tests_cant=WHY.get(i, why), anchors=anchors))

C = "sudokutools/coordinates.py"; S = "sudokutools/sudoku.py"; V = "sudokutools/solve.py"
D = "sudokutools/dlx.py"; A = "sudokutools/analyze.py"; G = "sudokutools/generate.py"
L = "sudokutools/solvers.py"; N = "sudokutools/notation.py"; H = "sudokutools/shell.py"
AC = "sudokutools/actions.py"

p("C01", "row_of/column_of/box_of list exactly the unit of a field",
  "For every box size and every field, row_of, column_of and box_of (module functions and Sudoku methods) return exactly the fields of the grid lying in the same row, column or box, each exactly once, in row-major order; with include=False the field itself, and nothing else, is missing.",
  "all box widths and heights >= 1, all fields of the grid, both values of include",
  "tests iterate five box sizes; the claim ranges over all of them", [C+":row_of", C+":column_of", C+":box_of", S+":Sudoku.row_of", S+":Sudoku.column_of", S+":Sudoku.box_of"])
p("C02", "surrounding_of lists exactly the peers, once each",
  "surrounding_of(row, col, include=False) contains a field exactly when it is a different field of the grid in the same row, column or box, and no field twice; include=True additionally contains (row, col) exactly once. First come the fields of the row, then those of the column (with (row, col), if included), then the rest of the box. Being a peer is symmetric.",
  "all box sizes >= 1, all fields", "finite samples of sizes; all solvers depend on it for every size", [C+":surrounding_of", S+":Sudoku.surrounding_of"])
p("C03", "the_row/the_column/the_box/the_part name units and reject bad indices",
  "the_X(k) returns, each once and in row-major order, exactly the fields whose row / column / box / part index is k when 0 <= k < width*height, and raises ValueError for every other integer k.",
  "all integers k, all box sizes >= 1", "unbounded integers and sizes", [C+":the_row", C+":the_column", C+":the_box", C+":the_part", C+":box_at"])
p("C04", "box/part numbering is a bijection",
  "box_at maps fields into 0..N-1; two fields are in the same box iff box_at agrees; and (box, part) determines the field: for every b, p < N exactly one field lies in the_box(b) and the_part(p).",
  "all box sizes >= 1, all b and p", "the bnpn notation relies on this for every size", [C+":box_at", C+":the_box", C+":the_part", N+":encode"])
p("C05", "A Sudoku stores exactly what was last written",
  "After any sequence of set_number / set_candidates / remove_candidates calls, reading a field returns what the last writes to that field left there (new sudokus read 0 and the empty set); writes to other fields, and writes of the other kind, do not interfere; an index outside -N..N-1 raises IndexError and changes nothing; negative indices alias the field N+i.",
  "all box sizes, all finite sequences of operations with arbitrary integer indices and values", "histories of unbounded length", [S+":Sudoku.__getitem__", S+":Sudoku.__setitem__", S+":Sudoku.get_candidates", S+":Sudoku.set_candidates", S+":Sudoku.remove_candidates"])
p("C06", "copy() returns an equal, independent sudoku",
  "copy() has the same size and numbers and no candidates; copy(include_candidates=True) also has the same candidates; later changes to either object never show in the other.",
  "all sudokus, all later histories of writes to both objects", "aliasing bugs show only under particular later histories", [S+":Sudoku.copy"])
p("C07", "== compares numbers field by field",
  "For sudokus with the same number of rows, a == b iff all numbers agree (candidates and box shape are ignored), and == is reflexive, symmetric and transitive. (For different row counts == is not symmetric: it only looks at the fields of the left operand.)",
  "all pairs/triples of sudokus", "equivalence laws quantify over triples", [S+":Sudoku.__eq__", S+":Sudoku.equals"])
p("C08", "empty/filled/count/diff/len agree with the stored numbers",
  "Iteration visits each field once in row-major order; empty() and filled() partition the fields by zero / non-zero, count() is the number of filled fields, len() the number of fields, diff(other) lists exactly the fields with different numbers, and is empty iff the sudokus are ==.",
  "all sudokus of all sizes", "all grids", [S+":Sudoku.__iter__", S+":Sudoku.empty", S+":Sudoku.filled", S+":Sudoku.count", S+":Sudoku.diff", S+":Sudoku.__len__"])
p("C09", "decode(encode(s)) restores the numbers",
  "Numbers survive a round trip: with the default arguments for every sudoku whose numbers are 0..9 (when box_size is given, or when the box is square so it can be inferred), and with separators (col_sep = number_sep any text without digits, '-' and '|', e.g. ' ' or ', '; row_sep the same, or a whitespace character not in it) for every sudoku with any integers in its fields and box width, height >= 1 (box_size again given or inferable).",
  "all sudokus of all sizes", "round trip over all grids", [S+":Sudoku.encode", S+":Sudoku.decode"])
p("C10", "decode(encode(s, include_candidates=True)) restores candidates",
  "With default separators, numbers 0..9 and candidates 0..9, encode(include_candidates=True) followed by decode restores all numbers and all candidate sets. (With a number separator this fails: the candidate lists are always written without separator.)",
  "all sudokus with one-digit contents", "round trip over all grids and candidate sets", [S+":Sudoku.encode", S+":Sudoku.decode"])
p("C11", "decode infers the box size and otherwise raises ValueError",
  "Without box_size, decode of a string with k one-digit fields gives a sudoku with k fields and square boxes when k is a fourth power; it raises ValueError when k is not a square, or is the square of a prime; otherwise the box width is the smallest divisor > 1 of the row length. Surplus characters beyond N*N fields are ignored, missing ones read as empty when box_size is given. Decimal digits of other scripts count as digits. A character used that is no digit (and not `empty`) is a ValueError. No other exception is possible, apart from an IndexError if there are candidates but no fields.",
  "all strings without '|' (C104 has those with candidates), blanks being ASCII whitespace, with the default separators and any `empty` character below 256; the exceptions: all strings and arguments", "all strings and all lengths", [S+":Sudoku.decode"])
p("C12", "view()/str() print an aligned rectangle",
  "For box height >= 2 and stored numbers within 0..N, every line of view() has the same length, there are N field lines and a rule line after every full band of boxes except the last, and the column marks of the rules are exactly below the '|' of the field lines. For box height 1 with box width > 1 the rule lines are too long. Sudokus of equal box size with the same text have the same numbers.",
  "all sudokus of all sizes, with and without candidates, any candidate prefix, both alignments", "layout over all grids", [S+":view", S+":Sudoku.__str__"])
p("C13", "calc_candidates returns exactly the admissible numbers",
  "For a filled field calc_candidates is the set of its number; for an empty field it is exactly the set of numbers 1..N not present in any peer.",
  "all sudokus, all fields", "all grids", [V+":calc_candidates"])
p("C14", "init_candidates sets every field's candidates from the numbers only",
  "After init_candidates each field holds calc_candidates of the unchanged numbers, whatever the candidates were before; with filled_only=True only filled fields change. Applying it twice is the same as once.",
  "all sudokus", "all grids and candidate states", [V+":init_candidates"])
p("C15", "find_conflicts reports exactly the conflicting pairs",
  "((r,c),(i,j),v) is yielded iff (r,c) is among the searched fields and both peers (r,c), (i,j) hold the same non-zero v; each is yielded once per searched field; with no coords all fields are searched; a full report is symmetric.",
  "all sudokus and coordinate lists", "all grids", [A+":find_conflicts"])
p("C16", "is_solved is true exactly for full grids without conflict",
  "is_solved(s) iff every field is non-zero and no two peers are equal; for grids with numbers within 1..N this means every row, column and box contains each number exactly once.",
  "all sudokus", "all grids", [A+":is_solved"])
p("C17", "dlx yields only solutions",
  "Every sudoku yielded by dlx(s) agrees with s on the filled fields, is completely filled with 1..N and has no conflict.",
  "all sudokus of all sizes, all set/dict iteration orders", "all puzzles, any hash order", [V+":dlx", D+":do_dlx", D+":solve", D+":select", D+":deselect", D+":exact_cover"])
p("C18", "dlx yields every solution",
  "If g is a completion of s (agrees with the filled fields, all rows, columns, boxes are permutations of 1..N) then dlx(s) yields it. In particular dlx yields nothing iff there is no solution (conflicts and out-of-range numbers included), and it raises no exception.",
  "all sudokus of all sizes, all iteration orders", "completeness over all puzzles", [V+":dlx", D+":do_dlx"])
p("C19", "dlx yields no solution twice",
  "The sudokus yielded by dlx(s) are pairwise different; so their number is the number of solutions.",
  "all sudokus, all iteration orders", "needs all search trees", [V+":dlx", D+":do_dlx"])
p("C20", "bruteforce enumerates exactly the completions",
  "bruteforce(s) yields, each exactly once, the grids that agree with s on the filled fields, use numbers 1..N elsewhere and contain no conflict; nothing when s itself has a conflict.",
  "all sudokus of all sizes, all set iteration orders", "all puzzles; backtracking restores in-place state", [V+":bruteforce", V+":_do_bruteforce"])
p("C21", "bruteforce and dlx agree",
  "For sudokus with numbers in 0..N, list(bruteforce(s)) and list(dlx(s)) are permutations of each other. (They differ when a field holds a number outside 0..N: dlx yields nothing, bruteforce keeps it.)",
  "all sudokus, all iteration orders", "compared on ten random grids only", [V+":bruteforce", V+":dlx"])
p("C22", "is_unique is true exactly when there is one solution",
  "is_unique(s) iff exactly one completion of s exists.",
  "all sudokus of all sizes, all iteration orders", "all puzzles", [A+":is_unique"])
p("C23", "NakedSingle and HiddenSingle steps are forced",
  "If every field's candidates contain the value of solution g, every NakedSingle / HiddenSingle step found names a field and the value g has there, even while found steps are applied during the search; applying it keeps g's values among the candidates.",
  "all sudokus, all candidate states, all solutions g, any consumer interleaving, all set orders", "interleavings of generator and mutation", [L+":NakedSingle", L+":HiddenSingle", L+":_SingleFieldStep"])
p("C24", "NakedTuple steps never remove a solution's candidate",
  "For every tuple size n, a NakedTuple step found while every field's candidates contain g's value removes only candidates that g does not use.",
  "all n, sudokus, candidate states, solutions, consumer interleavings", "all candidate states", [L+":NakedTuple"])
p("C25", "HiddenTuple steps never remove a solution's candidate",
  "Same as C24 for HiddenTuple, including the steps found from candidate positions collected before earlier steps were applied.",
  "all n, sudokus, candidate states, solutions, consumer interleavings", "stale data across yields", [L+":HiddenTuple"])
p("C26", "PointingTuple steps never remove a solution's candidate",
  "Same as C24 for PointingTuple (both directions: box to line and line to box), all box shapes.",
  "all n, sizes, candidate states, solutions, interleavings", "all sizes", [L+":PointingTuple"])
p("C27", "BasicFish steps never remove a solution's candidate",
  "Same as C24 for BasicFish (XWing, Swordfish, Jellyfish, any n), rows and columns.",
  "all n, sizes, candidate states, solutions, interleavings", "all candidate states", [L+":BasicFish"])
p("C28", "Every step found does something",
  "Each step yielded by the tuple, pointing and fish solvers removes at least one candidate when applied right away, and each single/bruteforce step fills an empty field, so the candidates/empty fields strictly shrink.",
  "all sudokus and candidate states, consumer interleavings", "termination argument", [L+":SolveStep.apply"])
p("C29", "hints() are valid advice",
  "For a sudoku whose candidates contain every solution's value, each hint is true of every solution, and the hint can still be applied after other hints have been applied, in any order, without losing any solution. If the candidates contain a solution, the order and repetitions do not matter: the numbers and the candidates in the end are the same. (If they contain none, the order can matter: witness.)",
  "all sudokus, all subsets and orders of applied hints", "orders of application", [L+":hints"])
p("C30", "solvers.solve solves every solvable sudoku",
  "If s has at least one solution, solve(s) terminates and returns a completely filled conflict-free sudoku extending s; with exactly one solution it returns that one. The reported steps are the applied ones, and with E empty fields and numbers 1..N there are at most E * (N + 1) of them.",
  "all solvable sudokus of all sizes, all iteration orders", "liveness over all puzzles", [L+":solve", L+":SOLVERS"])
p("C31", "solvers.solve on unsolvable sudokus",
  "solve(s) should terminate for unsolvable s too. It does not: whenever an empty field sees all numbers 1..N, solve (and rate, score) never returns. Other unsolvable sudokus without conflicts may lead to a wrong result without any error: a full grid with conflicts (witness), or a grid with empty fields (witness).",
  "all sudokus with an empty field that has no admissible number", "non-termination cannot be observed by a test", [L+":solve", L+":CalculateCandidates"])
p("C32", "rate() of solvable sudokus is 0..7 or 10, and 0 exactly if no field is empty",
  "For every solvable s, rate(s) is 10 or at most 7, rate(s) = 0 iff s is completely filled, and rate(s) = 10 iff a Bruteforce step was used. (Documented note 'only completely solved sudokus get 0' fails for full grids with conflicts.)",
  "all solvable sudokus", "all puzzles", [A+":rate", A+":RATINGS"])
p("C33", "score() is at least the number of empty fields; the documented upper bound is wrong",
  "For solvable s: score(s) >= number of empty fields, and score(s) = 0 iff s is full. The documented bound score(s) <= 10 * number of empty fields is false: a 4x4 sudoku with 14 empty fields has score 142. With E empty fields and numbers 1..N, score(s) <= E * (7 * N + 10).",
  "all solvable sudokus", "all puzzles", [A+":score"])
p("C34", "create_solution returns a full valid grid for every box size",
  "For every box size (w, h >= 1) and every outcome of the random choices create_solution returns a completely filled conflict-free sudoku; it never raises StopIteration: any filled first box can be completed.",
  "all sizes, all random outcomes", "all permutations and sizes", [G+":create_solution"])
p("C35", "generate returns a sudoku with exactly one solution",
  "For every box size, symmetry, min_count <= N*N and random outcome, generate returns a sudoku with exactly one solution, whose clues come from that solution.",
  "all arguments, all random outcomes", "random outcomes sampled once per run", [G+":generate"])
p("C36", "generate keeps at least min_count clues",
  "The result of generate has at least min_count filled fields.",
  "all arguments, all random outcomes", "sampled", [G+":generate"])
p("C37", "generate respects the requested symmetry",
  "The set of filled fields of the result is invariant under the requested symmetry.",
  "all symmetries, sizes, random outcomes", "not tested at all", [G+":generate", G+":SYMMETRY"])
p("C38", "generate() with min_count <= 0 is irreducible",
  "With min_count <= 0 no symmetry orbit of clues can be removed from the result without losing uniqueness (for symmetry None: no single clue).",
  "all sizes, symmetries, random outcomes", "minimality over all outcomes", [G+":generate"])
p("C39", "generate raises ValueError exactly for bad arguments",
  "generate raises ValueError iff min_count > N*N or the symmetry is unknown; in all other cases (w, h >= 1) it terminates without exception.",
  "all arguments, all random outcomes", "no-exception claim over all runs (coords.remove)", [G+":generate"])
p("C40", "generate_from_template matches the template or raises RuntimeError",
  "A returned sudoku has exactly one solution and exactly the template's filled fields; RuntimeError is raised iff tries >= 0 attempts all failed; with tries = 0 always.",
  "all templates, tries, random outcomes", "random", [G+":generate_from_template"])
p("C41", "notation.decode(notation.encode(cs)) returns the sorted coordinates",
  "For every non-empty collection of valid coordinates, every box size and every use_boxes setting, decode(encode(cs)) is the sorted tuple of the distinct coordinates, for every non-empty group separator without the letters r, c, b, p that does not end in a digit, and every number separator (which may be left out) without digits and these letters, the same in both calls. For the empty collection encode gives '' and decode raises ValueError; with an empty group separator decode rejects what encode writes.",
  "all coordinate collections, all sizes, all such separators, use_boxes in None/True/False", "2^(N*N) sets", [N+":encode", N+":decode"])
p("C42", "notation.encode is canonical",
  "encode writes the unique canonical description of the set of coordinates: by rows and columns (or boxes and places), joining the rows with the same columns, everything sorted. So it depends only on the set of coordinates, not on order or repetition, and different sets give different strings (with separators as in C41).",
  "all coordinate collections, sizes", "all permutations", [N+":encode", N+":_join_keys", N+":_dict_to_str"])
p("C43", "notation.encode with use_boxes=None picks the shorter form",
  "encode(use_boxes=None) returns the box form when strictly shorter than the row form, else the row form.",
  "all coordinate collections", "all sets", [N+":encode"])
p("C44", "notation.decode returns only fields of the grid, sorted, without duplicates",
  "Whatever string is given, decode either raises or returns a strictly increasing tuple of fields within the grid; the only exceptions are ValueError and, without a number separator and up to 9 numbers, TypeError.",
  "all strings, sizes, separators", "all strings", [N+":decode", N+":_decode_single"])
p("C45", "notation.encode rejects invalid coordinates",
  "encode raises iff width or height < 1 or some coordinate lies outside the grid, and then always a ValueError.",
  "all integer coordinates", "unbounded integers", [N+":encode"])
p("C46", "Meaning of the texts notation.decode understands",
  "A group of different letters r, c, b, p, each with numbers from 1 to N, in any combination and order, names the fields for which every letter of the group has one of its numbers; a text of several groups names the fields named by one of them. A character that is no digit, letter or part of a separator makes decode raise. Contrary to the comments in the code this includes blanks (whitespace is not removed), an immediately repeated letter ('r1r2') silently replaces the first one, a letter without numbers is ignored as the last one, and alone it raises a TypeError.",
  "all texts built from groups, all sizes, separators as in C41; all strings with an illegal character", "all strings", [N+":decode", N+":_decode_single"])
p("C47", "Actions change exactly the named fields",
  "SetNumber(cs, n) sets number n and candidates {n} in the fields of cs and changes nothing else; RemoveCandidates(cs, vs) removes vs there and changes nothing else; both are idempotent. Negative indices count from the end; at the first coordinates that name no field an IndexError is raised after the fields before them were changed.",
  "all sudokus, coordinate lists, values", "all states", [AC+":SetNumber", AC+":RemoveCandidates"])
p("C48", "decode_action understands 'coords=number' and 'coords<>candidates'",
  "For every valid non-empty coordinate set cs and number n, decode_action(encode(cs) + '=' + str(n)) is SetNumber on sorted(cs), n; likewise '<>' with digits; whitespace around it is ignored. Strings beginning with '-' always raise, although there is code for them. The only exceptions are ValueError and, up to 9 numbers, TypeError ('r=1').",
  "all coordinate sets and numbers, all strings", "all strings", [N+":decode_action"])
p("C49", "Shell stack is LIFO and isolated",
  "push then pop restores the pushed sudoku with its candidates whatever commands (other than stack commands) ran in between; pop i removes exactly position i; pop on an empty stack reports 'stack is empty', with a bad index '0 <= position < ' and the size of the stack, and changes nothing.",
  "all command sequences", "histories; aliasing between stack and current sudoku", [H+":Shell.push_command", H+":Shell.pop_command"])
p("C50", "Shell loops repeat their body n times",
  "'loop n; c1; ...; ck; loop end' has the same effect as executing c1..ck n times in sequence, if they are neither loop nor exit commands (commands are bound to the sudoku at execution time, not at definition); nested loops, n <= 0, n that is no number and a stray 'loop end' only report an error (with the texts of the source); a loop body never contains loop or exit commands.",
  "all n, all bodies", "unbounded n and bodies", [H+":Shell.execute_line", H+":Shell.loop_command"])
p("C51", "A script and the ';'-joined line have the same effect",
  "Running the commands one per line (with comments, blank lines, indentation and backslash continuation) has the same effect as executing them one after the other until exit, and the same as execute_line of the ';'-joined commands, as long as no exit is executed (after exit the rest of a ';'-joined line still is executed, the following lines of a script are not). A command whose last line ends in a backslash at the end of the file is dropped.",
  "all scripts", "all scripts", [H+":Shell.run", H+":Shell.execute_line"])
p("C52", "Non-interactive shells stop at the first error, interactive ones continue",
  "A non-interactive shell exits with code 1 after reporting exactly one error and executes nothing after it, and it reports no error otherwise; an interactive shell never exits because of an error; a command reporting an error leaves the stack, the choice of the current sudoku and the output unchanged, and the sudoku itself if the called function does so. The process dies from an exception only if literal_eval raises something else than SyntaxError or ValueError.",
  "all command sequences", "histories", [H+":Shell.error", H+":Shell.execute"])
p("C53", "Game undo/redo walk the history",
  "In GameShell the history index always stays within the history; a command other than undo/redo appends the new position behind the current one (dropping those that came later) exactly if numbers or candidates changed; undo after a change restores the position before it including candidates; undo then redo and redo then undo are the identity; sudokus of earlier positions and the solution are never modified by later commands. A new game has one position with the numbers of the generated sudoku.",
  "all command histories", "histories of unbounded length; aliasing", [H+":GameShell.run", H+":GameShell.new_sudoku"])
p("C54", "GameShell.autofill: termination, result and soundness",
  "autofill terminates for every sudoku in which no empty field has the candidate 0 (and never, with autoset, if an empty field has candidates {0}: the documented loop has no other end); with autoremove afterwards no peer of a filled field keeps its number as a candidate, with autoset no empty field has exactly one candidate; it only removes candidates and fills empty fields; for a solution g contained in numbers and candidates, g remains contained. With the default settings the numbers are unchanged and exactly the candidates equal to the number of a filled peer vanish. For sudokus up to 9x9 no exception is raised; for larger ones the verbose output can raise ValueError.",
  "all sudokus, all settings", "termination for all states", [H+":GameShell.autofill"])
p("C55", "solve steps are totally ordered by their content",
  "SolveStep comparison is a total order on (clues, affected, values) and == is equality of these; construction sorts them, so the order in which coordinates are given does not matter.",
  "all steps", "order laws quantify over triples", [L+":SolveStep"])
p("C56", "Applying a step twice equals applying it once",
  "SolveStep.apply on the same sudoku is idempotent for all step classes, when nothing changed in between.",
  "all steps and sudokus", "all states", [L+":SolveStep.apply", L+":SolveStep.build_actions"])
p("C57", "dlx and bruteforce need one level of recursion per empty field plus one",
  "For a solvable sudoku dlx(s) and bruteforce(s) recurse exactly (number of empty fields)+1 deep: with that depth available they raise nothing, with less they end in RecursionError. (The module documentation instead states that a RecursionError occurs if box_width * box_height >= sys.getrecursionlimit().)",
  "all solvable sudokus, all iteration orders", "depth of all search trees", [V+":dlx", V+":bruteforce", D+":solve", V+":_do_bruteforce"])

p("C58", "Bruteforce.find yields one solution, field by field",
  "If s has a solution, Bruteforce.find(s) yields exactly one step per empty field, in field order, all with the values of one fixed solution, and each field is still empty when its step is yielded, provided the consumer changes at most the numbers of the affected fields in between. If s has no solution, nothing is yielded and nothing raised.",
  "all sudokus, all iteration orders, all such consumers", "unbounded sizes and consumer behaviours", [L+":Bruteforce.find"])

p("C59", "CalculateCandidates.find lists exactly the fields without candidates",
  "list(CalculateCandidates.find(s)) has one step for each field without candidates, row by row, and no other; the values are the admissible numbers of the field (see calc_candidates).",
  "all sudokus with arbitrary candidates, all sizes", "all states", [L+":CalculateCandidates.find"])
p("C60", "NakedSingle.find lists exactly the empty fields with one candidate",
  "list(NakedSingle.find(s)) has one step for each empty field with exactly one candidate, row by row, and no other.",
  "all sudokus with arbitrary candidates, all sizes", "all states", [L+":NakedSingle.find"])
p("C61", "HiddenSingle.find misses no hidden single",
  "list(HiddenSingle.find(s)) has exactly one step for each empty field for which some number is no candidate of any other field of its column, row or box, row by row, and no other; the value is such a number of the first of these units that has one. The documentation says 'a field containing a candidate'; the code does not look at the candidates of the field itself.",
  "all sudokus with arbitrary candidates, all sizes, all set orders", "all states", [L+":HiddenSingle.find"])
p("C62", "NakedTuple.find misses no naked tuple",
  "list(NakedTuple.find(s)) names every set of n fields of a unit (with an empty field) with 2 to n candidates each and at most n together, where some other field of the unit has one of these, exactly once; with the eliminations of the first kind of unit (row, column, box) only, so eliminations in a box can be missing.",
  "all sudokus with arbitrary candidates, all sizes, all n", "all states", [L+":NakedTuple.find"])
p("C63", "HiddenTuple.find misses no hidden tuple",
  "list(HiddenTuple.find(s)) contains exactly the steps for n numbers with 2 to n places each and at most n places together in a unit (with an empty field), if these places have other candidates. Each is repeated: it occurs once for every field of the unit that is a place of one of the numbers (in grids with one-field-wide boxes once more for each kind of unit with the same fields), hence at least twice in ordinary grids.",
  "all sudokus with arbitrary candidates, all sizes, all n", "all states", [L+":HiddenTuple.find"])
p("C64", "PointingTuple.find misses no pointing tuple",
  "For n >= 2 list(PointingTuple.find(s)) contains exactly the steps for the numbers that have n places in a box, all in one row or column (or n places in a row or column, all in one box), if that row or column (box) has other places; each step once.",
  "all sudokus with arbitrary candidates, all box shapes, all n >= 2", "all states", [L+":PointingTuple.find"])
p("C65", "BasicFish.find misses no fish",
  "list(BasicFish.find(s)) contains exactly the steps for numbers with 2 to n places in each of n rows (columns), in at most n columns (rows) with at least two of the places in each of these, if these columns (rows) contain other places; each step once.",
  "all sudokus with arbitrary candidates, all sizes, all n >= 1, all dict orders", "all states", [L+":BasicFish.find"])
p("C66", "hints() lists all steps of all classes but Bruteforce, in order of difficulty",
  "list(hints(s)) is the concatenation of the lists of all steps (C59 - C65) of CalculateCandidates, NakedSingle, HiddenSingle, NakedTuple/HiddenTuple for 2, 3, 4, 5, PointingTuple 2, 3 and BasicFish 2, 3, 4 in this order, and s is not changed.",
  "all sudokus with arbitrary candidates, all sizes, all orders", "all states", [L+":hints"])
p("C67", "encode_action does not work for the actions of the library",
  "encode_action raises TypeError for SetNumber with an int and for RemoveCandidates with ints; for RemoveCandidates without candidates it returns None, and ValueError for invalid coordinates. Only a SetNumber holding its number as a string is ever written (a RemoveCandidates never, whatever its candidates), and decode_action reads it back as the int.",
  "all actions, all sizes", "all actions", [N+":encode_action", N+":decode_action"])

p("C68", "get and get_candidates never work in the shell",
  "In the shell 'get row col' and 'get_candidates row col' always end in an error (TypeError from writing a non-string, or IndexError), print nothing and change nothing, although help lists them.",
  "all states, all row and col", "all states", [H+":Shell.execute", H+":Shell._print", S+":Sudoku.get_number"])
p("C69", "set, new, print, view and encode act on the current sudoku only",
  "'set row col v' puts v into this field of the current sudoku and changes nothing else; outside the grid it reports an error and changes nothing; 'new w,h' (also with parentheses, brackets, or as box_size=(w,h)) makes an empty sudoku current without touching the stack, while 'new w h' is an error that changes nothing; encode, print and view print exactly what the functions return and change nothing (for a sudoku without fields print and view report a ValueError).",
  "all states, all integers", "all states; aliasing with the stack", [H+":Shell.execute", H+":parse"])
p("C70", "solve in the shell",
  "'solve' replaces the current sudoku by a completion of it, leaving the stack alone; if there is none it reports an error (StopIteration) and changes nothing.",
  "all states", "all sudokus", [H+":Shell.solve_command", H+":Shell.execute"])
p("C71", "Hints of the game",
  "The first 'hint' after a change of the numbers prints the first step that hints() yields for the position, each further 'hint' the next one (whatever other commands come between, as long as the numbers stay the same), and after the last one always 'No more hints available.'; it changes neither the position nor the history; every hint is true of every solution contained in the position the list was made for. The list is made anew only when the numbers change: after a change of candidates only, stale hints are printed (witness).",
  "all positions, all numbers of repetitions", "hints of all positions; hidden state between commands", [H+":GameShell.run"])
p("C72", "How a game ends, unknown commands",
  "While reading a line the game ends exactly if the line is blank (IndexError), its first word is settings (TypeError), decode_action raises TypeError for it (such as 'r=1'), or autofill does not terminate; no command ends it. Any other line that is neither a command nor a legal move is answered by 'Unknown command' and leaves position and history alone; this includes 'help', which the greeting advertises.",
  "all positions, all lines", "all input lines", [H+":GameShell.run"])
p("C73", "check and conflicts in the game",
  "'check' prints exactly the filled fields whose number differs from the solution, each once, in reading order; 'conflicts' prints every pair of conflicting fields exactly once. Neither changes anything.",
  "all positions", "all positions", [H+":GameShell.run"])
p("C74", "How a game begins",
  "Starting a game of GameShell yields a sudoku with exactly one solution; this solution is kept for 'check'; the history consists of the one position; all clues are shown (and no other numbers unless the setting autoset is on); every filled field has its number as only candidate; with autocandidates an empty field has exactly the numbers as candidates that no peer has (without autoset), otherwise none; the rating (0..7 or 10) is announced. With autocandidates 'check' finds no mistake.",
  "all settings, all random outcomes, all iteration orders", "random outcomes; interplay of generate, bruteforce, rate and autofill", [H+":GameShell.new_sudoku", H+":GameShell.autofill", G+":generate"])
p("C75", "CalculateCandidates.apply_all and init_candidates",
  "CalculateCandidates.apply_all(s) changes no numbers and no field that has candidates; each other field gets its number, or (if empty) exactly the numbers that no peer has. For sudokus without candidates this is init_candidates(s); for others it differs (witness), although the README says that it basically does the same. Applying it again changes nothing.",
  "all sudokus with arbitrary candidates, all sizes", "all states", [L+":SolveStep.apply_all", L+":CalculateCandidates.find", V+":init_candidates"])
p("C76", "apply_all of all classes solves a sudoku in one pass",
  "cls.apply_all(s) for any class but Bruteforce raises nothing, changes no filled field and loses no solution contained in the candidates; Bruteforce.apply_all fills in a solution or, if there is none, changes nothing. Calling apply_all of every class in SOLVERS once solves every solvable sudoku without candidates (or whose candidates do not exclude all solutions). With wrong candidates it can end with conflicts (witness).",
  "all sudokus with arbitrary candidates, all sizes, all orders", "all states; steps are found while earlier ones are applied", [L+":SolveStep.apply_all", L+":SOLVERS"])
p("C77", "Only the contents of the sudokus matter to the shell",
  "Two shells whose current sudokus, stacks (by contents), loop state, output and errors are equal stay so under every line of input, script or session, and end in the same way, however the sudoku objects are arranged; in particular sudokus that are neither current nor on the stack have no effect.",
  "all states without shared objects, all input", "all input; hidden identity of objects", [H+":Shell.execute", H+":Shell.push_command", H+":Shell.pop_command"])
p("C78", "The README's script for puzzles and solutions",
  "'loop n; generate; encode; solve; encode; loop end', as a line, with -c or as a script with comments and indentation, prints exactly 2n lines: n times the code of a valid 9x9 puzzle with exactly one solution and no superfluous clue, followed by the code of its solution; no errors; the stack is unchanged. Nothing else (no prompt, no greeting) is printed by a script.",
  "all n > 0, all random outcomes, all states (for the line)", "all n and random outcomes", [H+":Shell.loop_command", H+":Shell.run", G+":generate"])
p("C79", "The README's script with the stack",
  "'loop n; generate; encode; push; loop end' followed by 'loop n; pop 0; solve; encode; loop end', started with an empty stack, prints the codes of n puzzles as in C78 and then the codes of their solutions in the same order; the stack is empty afterwards.",
  "all n > 0, all random outcomes", "all n and random outcomes; order of the stack", [H+":Shell.loop_command", H+":Shell.push_command", H+":Shell.pop_command"])
p("C80", "Command line",
  "With a file name, neither -c nor the standard input matters; with -c the standard input is not read; empty arguments count as missing; a file that cannot be opened gives status 1 and no output. -c with commands separated by ; does the same as a script with these commands (same output, errors, status), unless exit is among them (witness: the rest of the line is still executed). Without a terminal the status is 0 if and only if no error was reported and no exception left uncaught, otherwise 1; at a terminal errors do not affect it.",
  "all arguments, files and inputs", "all inputs", ["sudokutools/__main__.py:main", H+":Shell.run", H+":Shell.error"])
p("C81", "Arguments by position and by name in the shell",
  "Each parameter of a command gets the value given by position, else the one given by name (of several with the same name in a line the last one), else its default; lines that give the same values do the same, whatever the way and order; too many arguments, unknown names, a name whose parameter is given by position, and missing arguments are a TypeError, which is reported and changes nothing. decode reports an AttributeError, which changes nothing, if s is not a string. The literals that are modelled are exactly None, True, False, integers in decimal, strings in quotation marks without these, backslashes and line ends, and tuples, lists and sets of integers. The commands loop and pop get their argument in the same way.",
  "all commands that are library functions, all literals of the modelled kinds, all orders", "all ways to write a line", [H+":parse", H+":Shell.execute", H+":COMMANDS"])
p("C82", "encode and decode in the shell are inverse",
  "The text printed by 'encode' (or 'encode include_candidates=True'), given in quotation marks to 'decode' in any shell, makes a sudoku with the same numbers (and candidates) the current one, and changes neither the stack nor the output; for one-digit numbers, the box size being given or the boxes square.",
  "all states with one-digit numbers", "all sudokus", [H+":Shell.execute", H+":parse", S+":Sudoku.encode", S+":Sudoku.decode"])
p("C83", "generate with options in the shell",
  "'generate' with min_count, symmetry and box_size in any order, by position or by name: the current sudoku becomes one with exactly one solution, at least min_count filled fields and the symmetry; if min_count is too large or the symmetry unknown, a ValueError is reported and the current sudoku and the stack stay. 'generate_from_template': the current sudoku becomes one with exactly one solution and its filled fields where the current one had them, or a RuntimeError is reported and the current sudoku stays.",
  "all arguments, all random outcomes", "random outcomes", [H+":Shell.execute", G+":generate", G+":generate_from_template"])
p("C84", "Candidates, encode and view with arguments in the shell",
  "'set_candidates row col c' and 'remove_candidates row col c' replace or reduce the candidates of this field of the current sudoku and change nothing else, for c a tuple, list or set, given by position or name; outside of the grid, or for a single number instead of a collection, an error is reported and nothing changes. 'init_candidates' gives each field its number or the numbers that no peer has (with filled_only only the filled ones). 'encode' and 'view' with arguments print what the functions return; number_sep has no effect on view.",
  "all states, all arguments, by position or name in any order", "all states; aliasing with the stack", [H+":Shell.execute", S+":Sudoku.set_candidates", S+":Sudoku.remove_candidates", V+":init_candidates", S+":view"])
p("C85", "Signatures in the help text have wrong defaults",
  "signature_str shows the right defaults if and only if (for different defaults) no parameter, all parameters, or exactly half of them have defaults; if fewer than half (and at least one) have, it raises IndexError; otherwise the defaults shown are rotated. Of the commands of the shell, decode, encode, view and help are shown with wrong defaults, and none raises.",
  "all signatures", "all signatures; the tests check no help text", [H+":signature_str"])
p("C86", "help in the shell",
  "'help' prints a text in which each command is listed exactly once, with its signature and the first line of its documentation, and changes nothing else; 'help name' prints this line for the command, followed by the rest of its documentation; 'help end' is a KeyError, a number other than 0 an AttributeError, and these change nothing.",
  "all states, all documentation strings", "all documentation strings", [H+":Shell.help_command", H+":COMMANDS_HELP"])
p("C87", "Texts of solving steps",
  "repr(step) has a text from which class, clues, affected fields and values can be read off: it shows the arguments of the constructor, which make the same step; steps with equal repr are equal. str(step) tells exactly the class, the clues and the values. In list(hints(s)) steps with equal str are equal in everything.",
  "all steps that the constructors make; all sudokus with arbitrary candidates, all sizes", "all steps and sudokus", [L+":SolveStep.__repr__", L+":SolveStep.__str__", L+":_SingleFieldStep.__str__"])
p("C88", "rate is the least rating that suffices, however one works",
  "Let rate(s) = r > 0 for a solvable s. Starting from init_candidates(s) and using only classes of rating below r - collecting lists of steps, applying any of them in any order, also to other sudokus reached, or calling apply_all - one never fills all fields; with the classes of rating up to r one can reach a solution. Hence rate does not depend on iteration orders of sets and dicts. If solve reports a step of some class (other than CalculateCandidates), the classes before it in SOLVERS do not suffice. score(s) is the number of empty fields exactly if rate(s) <= 1.",
  "all solvable sudokus of all sizes (also with several solutions), all orders of working, all iteration orders", "all sequences of steps; confluence of the solving methods", [A+":rate", A+":RATINGS", A+":score", L+":SOLVERS", L+":solve"])
p("C89", "Redrawn sudokus",
  "If t shows s redrawn - other symbols for the numbers, rows exchanged with columns (the boxes then having the other shape), rows and columns permuted such that boxes stay together, or any combination - then calc_candidates, find_conflicts, is_solved, dlx, bruteforce and is_unique give for t the redrawn results for s (same number of conflicts and solutions), and, if s is solvable, rate(t) = rate(s).",
  "all sudokus of all sizes, all such redrawings, all iteration orders", "all sudokus and symmetries; two runs are compared", [V+":calc_candidates", A+":find_conflicts", A+":is_solved", A+":is_unique", V+":bruteforce", V+":dlx", A+":rate"])
p("C90", "More right clues never make a sudoku more difficult",
  "If t has all numbers of s and perhaps more, the solutions that dlx finds for t are among those for s. If moreover t is solvable: calc_candidates gives subsets, uniqueness of the solution is kept, and rate(t) <= rate(s).",
  "all sudokus of all sizes, all iteration orders", "all pairs of sudokus; two runs are compared", [V+":calc_candidates", A+":is_unique", V+":dlx", A+":rate"])
p("C91", "Every game can be won",
  "In a game (as begun by new_sudoku, and after any input that did not end the shell), entering 'field=number' sets the number of this field, whatever it was, and leaves the others alone (unless autoset fills empty ones). Entering so the numbers of the solution in all fields that are empty or wrong, in any order, leads to the solution of the generated sudoku; then is_solved holds, and 'check' and 'conflicts' print nothing.",
  "all sizes, all states that can be reached, all orders of moves", "all sequences of input", [H+":GameShell.run", H+":GameShell.autofill", N+":decode_action", AC+":SetNumber"])
p("C92", "The order in which sets are visited does not matter",
  "If dicts keep the order of insertion (Python 3.7 and later), then for a sudoku whose candidates contain a solution every solver class but Bruteforce, hints and apply_all give the same steps in the same order, whatever the iteration order of sets and whatever is done with the steps in between (as long as the solution is kept). Two calls of solve on a solvable sudoku report the same steps, except that the final Bruteforce steps may have the numbers of different solutions; so if the solution is unique solve is deterministic, and score is deterministic in any case. Without a solution the steps do depend on the order.",
  "all sudokus of all sizes, all iteration orders of sets", "iteration orders of sets cannot be chosen in a test; two runs are compared", [L+":solve", L+":hints", L+":SolveStep.apply_all", L+":HiddenSingle.find", A+":score"])
p("C93", "Exactly which sudokus can be returned by create_solution, generate and generate_from_template",
  "For suitable outcomes of random and iteration orders of sets, create_solution can return every full sudoku without conflicts. generate(min_count, symmetry) can return exactly the sudokus that have one solution, the symmetry, at least min_count clues, and from which no symmetric set of clues can be left out without losing uniqueness - or in which some smallest symmetric group of clues is needed to have min_count clues. generate_from_template(template, tries) can return (if tries is not 0) exactly the sudokus with one solution that are filled exactly where the template is.",
  "all sizes, all sudokus, all min_count, symmetries, templates", "which results are possible at all cannot be seen from runs", [G+":create_solution", G+":generate", G+":generate_from_template", D+":solve"])
p("C94", "create_solution has only N! results if sets have a fixed order",
  "The field chosen at random in create_solution has no influence; the first box of the result shows the shuffled numbers, last one first. So if iteration orders depend on nothing else (as in CPython 3.7 and later, where tuples of ints are hashed without a random seed), create_solution has exactly (w*h)! different results, one for each filling of the first box (362880 for 9x9). For more than two rows some full sudoku without conflicts is never returned then, and generate never returns a sudoku with this solution, whatever its arguments.",
  "all sizes, all determined iteration orders", "the set of all results cannot be enumerated", [G+":create_solution", G+":generate", S+":Sudoku.box_of"])
p("C95", "exact_cover, select, deselect and solve work for every exact cover problem",
  "For columns X and a dict Y of rows (lists of different columns of X): exact_cover gives each column the set of its rows (KeyError if a row has a column not in X); rows can be selected one after the other iff they exist and share no column (KeyError otherwise), what is left are the uncovered columns with the rows disjoint from the selected ones; deselect undoes select; solve yields every exact cover (of rows with columns) exactly once, as a list without repetition, leaves X as it was, and recurses at most one deeper than there are columns. Rows with a column twice are accepted by exact_cover, but solve can raise KeyError then.",
  "all types of columns and rows, all problems, all iteration orders of dicts and sets", "do_dlx only uses the matrices of sudokus; the backtracking on mutable sets is checked for all problems and orders", [D+":exact_cover", D+":solve", D+":select", D+":deselect"])
p("C96", "Step objects that are kept and applied again",
  "A step object remembers the actions calculated by its first apply. The first apply of an object does what the step says (or raises the exception of build_actions). An object first applied to s does to t what a new step does, if t has the size of s and no candidates that s had not. Objects with true steps may be applied to any sudokus of the right size, in any order and as often as one likes: nothing is raised and no solution is lost. If the candidates of s contain a solution, the objects yielded by hints(s) may be collected and applied to s in any order, also repeatedly, each time like new ones; the result depends only on which of them are applied.",
  "all steps, all sudokus of all sizes, all sequences of applications", "all sequences; objects with hidden state", [L+":SolveStep.apply", L+":SolveStep.actions", L+":hints"])
p("C97", "Interrupts (Ctrl-C) in the shell",
  "Without interrupts run is as described elsewhere. In an interactive shell that waits for a line, an interrupt is as good as an empty line (only a message is printed in addition): a command begun on continued lines is executed. A script exits with status 2. An interactive shell goes on when a command is interrupted, but the text of the interrupted line is put in front of the next line (an empty line executes it again); an interrupted command that is no loop changes nothing but the contents of the current sudoku and the outside world; an interrupted loop stays defined, although the prompt is the usual one. KeyboardInterrupt never leaves run.",
  "all inputs, all interrupts at the prompt and during library functions, all states", "interrupts at all times", [H+":Shell.run", H+":Shell.execute_line", H+":Shell.loop_command"])
p("C98", "Any integers as coordinates",
  "For fields of the grid row_of, column_of, box_of, surrounding_of and box_at are as in C01-C04. For any integers box_of gives the box of the plane divided into boxes; surrounding_of with include=False the other fields of the row and the column (within the grid) and the box, without repetition; with include=True it raises ValueError if both coordinates are outside of the grid, and leaves out the field itself if one of them is. Boxes of size 0 are a ZeroDivisionError (for box_at, box_of and surrounding_of; row_of and column_of give nothing). calc_candidates works for the negative coordinates that Python accepts (counted from the end) and raises IndexError for others. find_conflicts for such coordinates yields the conflicts of the fields meant, and besides, for a filled field, a conflict of the field with itself for each negative coordinate; at another coordinate it raises IndexError after the conflicts of those before.",
  "all integers, all box sizes, all sudokus", "all integers; the tests use no negative coordinates", [C+":box_of", C+":surrounding_of", C+":box_at", V+":calc_candidates", A+":find_conflicts"])
p("C99", "Using sudokus while iterating over bruteforce and dlx",
  "for x in bruteforce(sudoku) and for x in dlx(sudoku) give the same sudokus in the same order whatever the body of the loop does: writing to the argument, to the sudokus got so far, to copies and other sudokus, creating sudokus. In particular a loop that is not left gets every completion (solution) exactly once, and nothing else. The generators change no sudoku of the program, neither the argument nor those yielded before, also if the loop is left; each sudoku yielded is a new object that shares nothing with others.",
  "all programs of calls of Sudoku methods and of such loops, all loop bodies, all orders of sets and dicts", "all interleavings with all programs; aliasing shows only in some of them", [V+":bruteforce", V+":dlx", V+":_do_bruteforce", V+":do_dlx", S+":Sudoku.copy"])
p("C100", "Changing the sudoku in loops over empty(), filled(), diff() and find_conflicts()",
  "Whatever the body of the loop does, the fields come in order, each at most once. If the body changes no field after the one it is at, they are those that were empty (filled, different) at the beginning. A loop over empty() that fills each field it gets (and empties none) leaves no field empty; over filled() correspondingly; a loop over diff(other) that makes each field it gets equal leaves equal sudokus. A loop over find_conflicts(sudoku) that resolves each conflict it gets leaves no conflicts, if each number it writes is without conflict; for example one that empties the first (or second) field of each. But the number of the first field is read only once: conflicts may be yielded that are not there any more.",
  "all sudokus, all loop bodies", "all loop bodies and grids", [S+":Sudoku.empty", S+":Sudoku.filled", S+":Sudoku.diff", A+":find_conflicts"])
p("C101", "Comparing sudokus with any object",
  "sudoku == x is true exactly if x[row, col] is the number of the sudoku for every field; otherwise the first field where this is not so decides: it is false if x[row, col] is something else there or raises IndexError, KeyError or TypeError, and any other exception is raised. So a dict is equal if it has the right entries for all fields, and None, lists and strings are equal to no sudoku but those without fields. diff(x) yields the fields in which x[row, col] is not the number of the sudoku up to the first one for which it raises an exception, which is raised. equals(x) is the same comparison as ==, but raises every exception; equals(x, candidates=True) compares numbers and candidates.",
  "all sudokus, all objects", "all objects", [S+":Sudoku.__eq__", S+":Sudoku.diff", S+":Sudoku.equals"])
p("C102", "What sudokus with one solution look like, and templates that never succeed",
  "If is_unique(sudoku) is true, at most one of the numbers 1..N is missing among the filled fields (so at least N-1 are filled), among the rows through one row of boxes at most one is empty, likewise for the columns through one column of boxes, and at most one row (column) of boxes is empty. The same holds for every result of generate. For a template whose filled fields are fewer than N-1 or not spread in this way generate_from_template raises RuntimeError after any number of tries, and with tries < 0 it never returns.",
  "all sizes, all sudokus, all templates, all outcomes of random, all orders", "no number of tries shows that none succeeds", [V+":is_unique", G+":generate", G+":generate_from_template"])
p("C103", "Negative box sizes",
  "Nothing rejects negative box sizes. For natural numbers all functions of coordinates.py are those of C01-C04 and C98. If the product of the sizes is not positive the sudoku has no fields (every access is an IndexError, the_row, the_column, the_box and the_part raise ValueError, is_solved is True), although len(sudoku) is the square of the product. If both are negative, rows and columns are as usual and all boxes are empty (box_of with include=False raises ValueError): surrounding_of gives the row and the column, calc_candidates the numbers missing in them, find_conflicts their conflicts, and is_solved is true exactly for full grids without repetition in rows and columns. But dlx and is_unique raise KeyError, whatever the numbers, except for (-1, -1), and create_solution raises IndexError.",
  "all integers as box sizes, rows and columns, all numbers", "all integers; the tests use no negative sizes", [C+":surrounding_of", C+":box_of", C+":the_box", S+":Sudoku.__init__", S+":Sudoku.__len__", V+":calc_candidates", A+":find_conflicts", A+":is_solved", D+":do_dlx", G+":create_solution"])
p("C104", "What the candidate part of a text means",
  "decode(s) without number_sep reads the text before the first '|' as if it stood alone (its exception is raised; size and numbers are those of this text), and the text behind it as pieces between commas: the i-th piece holds the candidates of the i-th field, row by row, and every digit in it (also of other scripts) is a candidate, whatever the order, repetitions and whitespace. Fields without a piece have no candidates, surplus pieces are ignored whatever they contain, and ValueError is raised exactly if one of the pieces used contains something other than digits and whitespace (also another '|'). Two texts with the same visible characters mean the same. If there are no fields, any visible candidate part is an IndexError (first piece digits only) or a ValueError.",
  "all texts with a '|', with the whitespace characters of string.whitespace, all box sizes, all one-character values of empty", "all texts; the tests decode a few", [S+":Sudoku.decode"])
p("C105", "What a text means if number_sep is given",
  "decode(s, number_sep=d, sudoku_sep=b, candidate_sep=k) for non-empty strings d, b, k of any length: if d or one whitespace character (in none of the separators) stands between two items and whitespace at both ends, the items are read row by row as numbers of any length and sign (empty: 0), missing ones are 0, surplus ones ignored, ValueError exactly if one of the items used is no number; the box size is inferred from the number of items as in C11. So two gaps in a row are an error, contrary to 'Whitespace is ignored', as is whitespace before the '|' if the box size is inferred. The i-th candidate piece, numbers separated by d, gives the candidates of the i-th field; an empty piece is a ValueError, so that a field before one with candidates cannot be without candidates. Blanks beyond ASCII at both ends of an item are ignored, but the separators 28 to 31 of ASCII, which strip() removes from the whole text, make an item a ValueError.",
  "all texts of this form, all separators without common characters, all box sizes, all one-character values of empty", "all texts; the tests use one separator", [S+":Sudoku.decode"])
p("C106", "Nothing is lost in the text made by view",
  "If the numbers and candidates of two sudokus are within 0..N and view() gives the same text for both, they have the same box size, the same numbers and, if candidates are shown, the same candidates in the empty fields. For candidates the prefix must not begin with a digit and contain no blank, line break or '-' (the default '*' is one). Without a prefix, or with candidates out of range, different sudokus can look the same. Candidates of filled fields are not shown but can make the columns wider.",
  "all pairs of sudokus of all positive sizes, both alignments, all such prefixes", "all pairs of sudokus", [S+":view", S+":Sudoku.__str__"])
p("C107", "What the shell says about commands it cannot read",
  "A command that does not exist is reported as \"Unknown command: NAME. Type 'help' for a list of commands.\" (including the quotation marks: it is the repr of the message, from which every NAME can be recovered and which has no control characters); an argument that cannot be read as 'Invalid argument: VALUE (Did you forget quotation marks?)' with the first such value, even if the command does not exist, and for name=value only the value; a line ending with ';' ends with the unknown command ''. Nothing else happens, whether a loop is being defined or not.",
  "all lines, all states of the shell, any literal_eval", "all lines and states", [H+":parse", H+":Shell.execute_line", H+":Shell.error"])
p("C108", "Texts of actions",
  "str(action) is 'SetNumber(COORDINATES, n)' or 'RemoveCandidates(COORDINATES, CANDIDATES)', the lists or tuples as Python shows them; for the actions made by decode_action, e.g. 'SetNumber(((0, 1),), 4)' and 'RemoveCandidates(((0, 1), (0, 2)), [4, 7])'. Actions with the same text have the same class, coordinates and numbers, whatever mixture of lists and tuples they were made with.",
  "all coordinates and numbers, in lists or tuples", "all pairs of actions; the texts are not tested", [AC+":SetNumber.__str__", AC+":RemoveCandidates.__str__"])
p("C109", "Exactly which texts notation.decode and decode_action accept",
  "notation.decode(s) returns coordinates if and only if s is a list of accepted groups joined by sep. A group is accepted if it is a sequence of letters r, c, b, p with decimal numerals (one digit each if there is no nsep, any number of digits otherwise), in which a letter returns only immediately after itself, only the last letter may have no numeral (and only if there is no nsep), and what counts (not a letter followed by the same letter, not a last letter without numeral) contains a letter and only numbers in 1..width*height. The result are the fields named by what counts of one of the groups, in reading order. A text of a single group raises TypeError exactly if it is 'x' or 'x<digits>x' for a letter x. decode_action(s) is SetNumber exactly for texts COORDS=INT and RemoveCandidates exactly for COORDS<>DIGITS (after strip), COORDS being a text that decode accepts. If sep ends in a digit, the text is cut where a letter follows sep.",
  "all strings (without the six whitespace characters in a row), all box sizes, separators of groups without letters, nsep of at most one character that is no digit or letter", "all strings; the tests try a few well-formed ones", [N+":decode", N+":_decode_single", N+":decode_action"])
p("C110", "What the exceptions of the library say",
  "The texts of the exceptions raised by the_row, the_column, the_box, the_part, generate, generate_from_template, Sudoku.decode, notation.encode, notation.decode and decode_action are determined. The coordinate functions raise exactly for numbers out of range; their message is repeated height times and names the box width instead of width*height, so it is right only for height 1. generate reports a min_count above width^2*height^2 first, then an unknown symmetry with the list of the known ones. generate_from_template raises nothing but RuntimeError with the number of tries. Sudoku.decode reports the number of visible characters if it is no square and the row length if that is prime; with a given box size the first visible character that stands for no number. encode reports sizes below 1, then the first pair that is no field. decode reports sizes below 1, then what is wrong with the first group that is not accepted: empty group, digit before the first letter, illegal character, letter that came before, letter without number, missing number between separators, or the first number out of range in the order r, c, b, p; the groups of a text and the complaint about a group are unique. decode_action refuses every text beginning with '-' (its minus sign is read as a candidate), reports the first character behind '<>' that is no digit, or what follows '=' if that is no integer, and otherwise what decode says about the coordinates; any other text is quoted.",
  "all arguments; for Sudoku.decode texts with the standard separators, for notation.decode all strings (without the six whitespace characters in a row), separators of groups without letters and nsep of at most one character that is no digit or letter", "all texts; the tests only check that some calls raise ValueError", [C+":the_row", G+":generate", G+":generate_from_template", S+":Sudoku.decode", N+":encode", N+":decode", N+":_decode_single", N+":decode_action"])
p("C111", "encode(decode(s)) is the normal form of s",
  "With the default separators, encode() of a sudoku made by decode(s) is: the first N*N visible characters of s, with '0' in place of empty and 0-9 for digits of other scripts, filled up with '0'; with include_candidates=True followed by '|' and, for every field, the digits of its candidate piece in order, each once. Two texts (of sudokus of the same size) mean the same numbers exactly if these normal forms are equal, the normal form is read as the same numbers, and it is its own normal form (unless empty is a digit other than 0 and the text contains digits of other scripts).",
  "all accepted texts, all box sizes, all one-character values of empty (other than whitespace and '|')", "all texts", [S+":Sudoku.decode", S+":Sudoku.encode"])

p("C112", "What the shell says when the library refuses",
  "In the shell, decode \"t\" reports exactly the exception of Sudoku.decode: 'Error: Invalid number of fields given (must be square number): n', 'Error: Invalid row length: m', or 'Error: invalid literal for int() with base 10: ' with the first character that is no digit. generate reports 'Error: min_count must be <= n (m was given).' or the list of the known symmetries, generate_from_template the number of tries. In each case the current sudoku, the stack and the output stay, and a shell that is not interactive ends with status 1.",
  "any state of the shell outside of a loop definition, any text in quotation marks that can be typed (no blanks, semicolons, =, quotation marks, backslashes), any arguments of generate and generate_from_template however they are given", "all texts and arguments; the shell tests do not look at stderr", [H+":Shell.execute", H+":Shell.error", S+":Sudoku.decode", G+":generate", G+":generate_from_template"])
p("C113", "The number of solutions is a multiple of certain factorials",
  "If k of the numbers 1..N do not occur in s, len(list(dlx(s))) is divisible by k!. It is divisible by k! too if k rows (or columns) of boxes are empty, and by the product of the k! for the numbers k of empty rows through each row of boxes (likewise for columns). If some field is filled, it is divisible by these two products multiplied. The same holds for bruteforce(s) if s has only numbers from 1 to N; otherwise it can fail (witness).",
  "all sudokus of all sizes, all iteration orders", "relates the results for s to exchanges of numbers, rows and columns; all sudokus", [V+":dlx", V+":bruteforce"])
p("C114", "How rate() and score() are related",
  "For a solvable sudoku with E empty fields and numbers 1..N, with r = rate(s) and q = score(s): E + r <= q + 1 and q <= r * E * (N + 1); q = E exactly if r <= 1 (singles suffice); if 2 <= r <= 7, then E + r <= q.",
  "all solvable sudokus of all sizes, all iteration orders (also different ones in the two calls)", "all puzzles; relates two functions", [A+":rate", A+":score", L+":solve"])

p("C115", "score() may grow with a right clue and may change when the sudoku is turned",
  "Unlike rate() (C89, C90), score() is neither monotone nor invariant: there is a 6x6 sudoku with 19 empty fields and score 27 whose score is 30 after the number of its solution is entered in one field; and there is a 6x6 sudoku with score 25 whose score is 27 after rows and columns are exchanged. Both hold whatever the order in which sets are visited (dicts in the order of insertion).",
  "all iteration orders of sets, all recursion limits and numbers of rounds that suffice; concrete sudokus", "all iteration orders; two complete runs are compared", [A+":score", L+":solve"])

p("C116", "Tuples and fishes of more than half of what is open are never reported by solve()",
  "For a sudoku with a solution, solve() reports a naked tuple of n fields only if some row, column or box has at least 2n empty fields, a hidden tuple of n numbers only if some unit has more than 2n empty fields, a fish of n rows only if some number is missing in at least 2n rows, and a pointing tuple of n fields only if a box is n wide or high. So NakedQuint and HiddenQuint are never used for sudokus of size 9 or smaller, and of the tuples and fishes only those of size 2 (and no hidden one) for sudokus of size 4. The bounds are attained by sudokus of size 6.",
  "all solvable sudokus of any size, all iteration orders of sets and dictionaries, all limits", "all solvable sudokus", [L+":solve", L+":NakedTuple", L+":HiddenTuple", L+":BasicFish", L+":PointingTuple"])

p("C117", "Sudokus with at most three empty fields have at most one solution and need only singles",
  "Call the empty fields thin if each nonempty set of them contains a field that is the only one of the set in its row, column or box (so at most three empty fields, or empty fields in different rows). If they are thin and the sudoku has a solution, is_unique() returns True, solve() reports only CalculateCandidates and NakedSingle steps, rate() is 1 (0 if nothing is empty) and score() is the number of empty fields. So a sudoku of generate() without symmetry has at least three empty fields unless it has exactly min_count clues (or none), and generate_from_template() with such a template succeeds at the first try. With four empty fields there may be two solutions and rate 10.",
  "all solvable sudokus of any size with thin empty fields, all iteration orders, all random outcomes", "all solvable sudokus", [A+":is_unique", A+":rate", A+":score", L+":solve", G+":generate", G+":generate_from_template"])

p("C118", "dlx() never guesses exactly if rate() is at most 1",
  "For a solvable sudoku with E empty fields, a full run of dlx(s) calls its recursive function solve at least E + 1 times. It calls it exactly E + 1 times (so it never has to try two rows) if and only if in every grid between s and a solution of s some empty field can get only one number or some number has only one place in a row, column or box; and this holds if and only if rate(s) <= 1. Then s has only one solution. Likewise a full run of bruteforce(s) calls _do_bruteforce at least E + 1 times, and exactly E + 1 times if and only if solve(s) reports only CalculateCandidates and NakedSingle steps. So if bruteforce does not have to guess, neither has dlx; and neither has to if the empty fields are thin (C117).",
  "all solvable sudokus of any size, all iteration orders of sets and dictionaries", "all solvable sudokus; the number of calls is not visible in the result", [V+":dlx", D+":solve", V+":bruteforce", V+":_do_bruteforce", A+":rate", L+":solve"])

p("C119", "4x4 sudokus: four clues are needed, six are enough",
  "If is_unique(s) is true for a sudoku with boxes of 2x2 fields, at least 4 fields are filled; if moreover no clue can be left out without losing uniqueness, at most 6 are. So generate(box_size=(2, 2)) returns at least 4 clues whatever the other arguments are, and for symmetry None and min_count <= 16 the numbers of clues that can be returned are exactly those from max(4, min_count) to max(6, min_count). generate_from_template with a 4x4 template of at most 3 filled fields raises RuntimeError after any number of tries and never returns for tries < 0. (The docstring of generate says 17 for all sizes.)",
  "all 4x4 sudokus, all random outcomes, all iteration orders", "all sets of clues of all 288 full grids", [A+":is_unique", G+":generate", G+":generate_from_template"])

p("C120", "generate() tests each group of fields at most once",
  "One call of generate makes at most as many calls of is_unique as there are groups of fields that belong together: for a grid with N rows N^2 (symmetry None), ceil(N^2/4) (rotate-90), ceil(N^2/2) (rotate-180), N*ceil(N/2) (mirror-x, mirror-y), ceil(N/2)^2 (mirror-xy), and exactly as many if min_count <= 0. Every sudoku handed to is_unique consists of numbers of the solution made at the beginning and has at least min_count of them; the answer is true iff it has exactly one solution. The result is the last one answered with True (or the full grid). Each True clears one group: the number of cleared fields is between the number of these answers and 4 (2, 1) times this number, and exactly the latter without symmetry or for even N. So without symmetry and minimum exactly N^2 tests are made, and as many fail as the result has clues.",
  "all sizes, arguments, random outcomes, iteration orders", "the inner calls are not visible in the result; all random outcomes", [G+":generate", A+":is_unique"])

p("C121", "Which sets of fields must contain a clue",
  "Let g be a solution of s. is_unique(s) is true iff s has a clue in every set of fields in which g can be changed into another full grid without conflicts. Such sets are: the fields of two rows (columns) through the same boxes in those columns (rows) where they have the same numbers in another order, in particular the four corners of a rectangle with two numbers in two boxes; and every set of fields with two numbers that contains with each field all its peers with these numbers. So every result of generate() has a clue in all of them. With symmetry None and min_count <= 0 each clue of the result is the only clue of such a set.",
  "all sizes, all sudokus with a solution, all arguments, random outcomes, iteration orders", "all full grids and all sets of fields; random results", [A+":is_unique", G+":generate", V+":dlx"])

p("C122", "generate() returns at most max(min_count, (N-1)^2) clues",
  "If is_unique(s) is true but false as soon as any one clue is removed, then every row, every column and every box of s has an empty field, and at most (N-1)^2 fields are filled (N = box width * box height >= 1). So a result of generate(min_count) without symmetry with more than min_count clues has an empty field in every row, column and box; it never has more than max(min_count, (N-1)^2) clues, and exactly min_count if min_count >= (N-1)^2. The bound is reached for N = 2. If box width and height are at least 2, all this holds with N*(N-2) (63 for 9x9 sudokus) in place of (N-1)^2.",
  "all sizes, all sudokus, all random outcomes and iteration orders", "all random outcomes, all sizes", [A+":is_unique", G+":generate"])

p("C123", "What generate() does with arguments of any kind",
  "generate(min_count, symmetry, box_size) returns a sudoku exactly if min_count is an integer or boolean, box_size a tuple or list of two positive integers with min_count <= (w*h)^2, and symmetry None or one of the five names; it has one solution, at least min_count clues and the symmetry. Otherwise, whichever comes first: TypeError if box_size is no tuple or list (IndexError for the empty string), IndexError if it has less than two items, TypeError if min_count is no number, ValueError with the limit and the number if it is too large, TypeError for unhashable symmetries (lists, sets), ValueError with the known names for other unknown ones, ValueError if box_size has more than two items, IndexError if a size is not positive. (The docstring mentions two ValueErrors only.) generate_from_template(template, tries) raises TypeError exactly if tries is neither an integer nor a boolean. The shell command generate makes the result the current sudoku, or reports the exception and leaves current sudoku, stack and output alone.",
  "None, booleans, integers, strings, tuples, lists and sets of integers, and the named tuples of the shell, in any combination; all random outcomes", "all combinations of values; the tests only use valid ones and a too large min_count", [G+":generate", G+":create_solution", G+":generate_from_template", S+":Sudoku.__init__", H+":Shell.execute"])

p("C124", "Each solution costs a call of its own",
  "If s has at least S >= 1 different solutions and E empty fields, a full run of dlx(s) calls its recursive function solve at least E + S times, and a full run of bruteforce(s) calls _do_bruteforce at least E + S times. So if one of them needs only E + 1 calls for a solvable sudoku, it has exactly one solution. For one solution the bound is reached (C118 says when). If m of the numbers do not occur among the clues of a solvable sudoku, both need at least E + m! calls; for the empty sudoku with N rows that is N^2 + N!.",
  "all sudokus of any size, all iteration orders of sets and dictionaries", "the number of calls is not visible in the result; all sudokus", [V+":dlx", D+":solve", V+":bruteforce", V+":_do_bruteforce"])

p("C125", "What Sudoku() and create_solution() do with arguments of any kind",
  "Sudoku(box_size) returns an instance exactly if box_size is a tuple or list of two integers (of any sign), or a dictionary with the keys 0 and 1. In the first case box_width and box_height are these integers and there are max(0, w*h) rows; len() is the number of fields iff w*h >= 0. For a dictionary the keys become the box sizes and the product of the values the number of rows, so that len() is 0 whatever the number of fields is. TypeError for None, booleans, integers, strings of two characters, and sets of two elements; ValueError for everything else. The message 'Invalid sudoku box_size: ...' occurs exactly for dictionaries with two keys other than 0 and 1. create_solution(box_size) returns a full grid without conflicts exactly if box_size is a tuple or list of two positive integers; otherwise it raises the exception of Sudoku(box_size), or IndexError if a size is not positive. The shell command new calls this function.",
  "None, booleans, integers, strings, tuples, lists and sets of integers, named tuples of the shell, dictionaries from integers to integers; all random outcomes", "all values; the tests use valid sizes only", [S+":Sudoku.__init__", S+":Sudoku.__len__", G+":create_solution", H+":Shell.execute"])

p("C126", "decode() with box_size of any kind",
  "Sudoku.decode(s, ..., box_size=x): if x is None the size is guessed (C10, C12); for a tuple or list of two natural numbers the result is the sudoku of that size. For two integers w, h of any sign the numbers and candidates are those of a string decoded with max(0, w*h) rows, also for two negative ones; if exactly one is negative nothing can be stored, and every result has empty fields only. A dictionary {0: v, 1: v'} is accepted, but as the loops stop at box_width*box_height = 0 only the first number and the first candidate piece are read, whatever the number of rows v*v' is; all other fields stay empty. Any other x raises the exception of Sudoku(x) for every string (an empty sudoku_sep is found before, with ValueError). No other exceptions than ValueError, IndexError and TypeError occur.",
  "all strings and separators; box_size: None, booleans, integers, strings, tuples, lists and sets of integers, named tuples of the shell, dictionaries from integers to integers", "all strings and values; the tests use None or valid sizes", [S+":Sudoku.decode", S+":Sudoku.__init__"])

p("C127", "Upper bounds for the searches",
  "If at most k numbers fit in each of the E empty fields of s (differ from all numbers in the row, column and box), a full run of dlx(s) calls its recursive function solve at most 1 + k + k^2 + ... + k^E times, and a full run of bruteforce(s) calls _do_bruteforce at most that often; so at most 1 + N + ... + N^E times in any case. If only one number fits in each empty field, at most E + 1 calls are made, and exactly E + 1 if there is a solution, which is then the only one. dlx yields at most as many sudokus as there are ways to put a fitting number into each empty field, so at most k^E.",
  "all sudokus of any size, all iteration orders of sets and dictionaries", "the number of calls is not visible in the result; all sudokus and orders", [V+":dlx", D+":solve", V+":bruteforce", V+":_do_bruteforce"])

p("C128", "Copies of instances with unusual box sizes",
  "If s was made by Sudoku(box_size) from a tuple or list of two integers of any sign (also negative or zero), s.copy() succeeds, with the same box sizes, rows and numbers, without candidates, and with the same candidates if include_candidates is set; it is encoded like s (also with the candidates, if they were copied). If s was made from a dictionary (which the constructor accepts) and has any fields, s.copy() raises IndexError, with any contents and flag, and box_at and box_of raise ZeroDivisionError for every field. encode() of a new instance with n rows is n rows of n zeros, although len() may be 0.",
  "all instances Sudoku() returns for the values of C125, any contents", "all values; no test copies an instance made from unusual values", [S+":Sudoku.copy", S+":Sudoku.__init__", S+":Sudoku.encode", S+":Sudoku.box_at", S+":Sudoku.box_of"])

p("C129", "Upper bounds by the numbers missing in rows, columns and boxes",
  "Let m_i be the number of empty fields in row i of s, E the number of all empty fields. Then dlx(s) yields at most the product of all m_i! sudokus, a full run of dlx(s) calls its recursive function solve at most (E + 1) times this product, and a full run of bruteforce(s) calls _do_bruteforce at most that often if all numbers of s are between 1 and N (with greater numbers in the grid it may need more). The same holds for the columns, for the boxes, and for any other division of the grid in which fields of the same part are in a common row, column or box. So with at most r empty fields in each row there are at most (r!)^N solutions and (E + 1)*(r!)^N calls of solve.",
  "all sudokus of any size, all iteration orders of sets and dictionaries", "the number of calls is not visible in the result; all sudokus and orders", [V+":dlx", D+":solve", V+":bruteforce", V+":_do_bruteforce"])

p("C130", "is_unique() stops at the second solution",
  "is_unique(s) calls next() at most twice on the generator of dlx(s). Its answer is that of the whole search (true iff dlx(s) yields exactly one sudoku), for every limit of the recursion; it raises RecursionError exactly if a full run of dlx(s) does. If dlx(s) yields at most one sudoku, is_unique(s) makes as many calls of the recursive function solve as a full run; otherwise every solution from the third on saves at least one call. So it never makes more than (E + 1) times the product of m_i! calls, m_i being the number of empty fields in row (or column) i and E that of all empty fields, and at least E + 1 calls if it is true.",
  "all sudokus of any size, all iteration orders, all recursion limits", "which part of the search is run is not visible in the result; all sudokus, orders and limits", [A+":is_unique", V+":dlx", D+":solve"])

p("C131", "Taking only the first solutions from dlx() and bruteforce()",
  "Whoever takes k >= 1 sudokus from the generators dlx(s) or bruteforce(s) and drops them then (as create_solution, Bruteforce.find, the game and the shell's solve do with k = 1) gets the first k sudokus of a full run, for every limit of the recursion, and RecursionError exactly if the full run raises it. The number of calls of the recursive function made until then is that of the full run if fewer than k sudokus are yielded, and smaller by at least one for each sudoku not taken otherwise; it is at least E + 1 (E empty fields) if any sudoku is yielded. With one level of recursion per empty field plus one, next(dlx(s)) and next(bruteforce(s)) both return a solution if there is one and raise StopIteration otherwise, if all numbers of s are between 1 and N.",
  "all sudokus of any size, all k >= 1, all iteration orders, all recursion limits", "which part of the search is run is not visible in the result; all sudokus, orders and limits", [V+":dlx", D+":solve", V+":bruteforce", V+":_do_bruteforce", G+":create_solution"])

p("C132", "The recursion limit does not change what is found",
  "Two runs of dlx(s), or of bruteforce(s), with different recursion limits and the same iteration orders, neither of which raises RecursionError, yield the same sudokus in the same order with the same number of calls of the recursive function; the same holds if only the first k sudokus are taken, and is_unique(s) gives the same answer. As many levels of recursion as a run makes calls are always enough for it.",
  "all sudokus of any size, all recursion limits, all iteration orders", "all sudokus, limits and orders; the tests run with one limit", [V+":dlx", D+":solve", V+":bruteforce", V+":_do_bruteforce", A+":is_unique"])

with open(os.path.join(os.path.dirname(__file__), "..", "properties.jsonl"), "w") as f:
    for x in P:
        f.write(json.dumps(x) + "\n")
print(len(P))
