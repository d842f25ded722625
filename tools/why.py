"""Why tests cannot establish the properties: longer texts, used by mkprops.py in place of its short ones."""
WHY = {
"C03": "The index is an unbounded integer and the box size arbitrary; tests try the valid indices of a few sizes and no negative or large ones.",
"C04": "Injectivity and surjectivity for every box size; a test can only enumerate the fields of chosen sizes, and the bnpn notation relies on it for all.",
"C05": "The claim is about histories of reads and writes of any length on any number of sudokus; tests look at one or two writes.",
"C06": "Aliasing between a copy and its original shows only after particular later writes; tests try single ones.",
"C07": "Reflexivity, symmetry and transitivity quantify over pairs and triples of sudokus, also of different sizes.",
"C08": "There are 10^81 grids of the usual size alone; tests use one example and the empty grid.",
"C09": "The round trip is claimed for all grids of all sizes and all separators; tests decode and encode a handful of examples.",
"C10": "2^729 states of candidates for 9x9 alone, and all box sizes; one example is tested.",
"C11": "The claim is about every string of every length, including which ones are rejected; tests give a few well-formed ones.",
"C12": "Alignment depends on the longest number or candidate set anywhere in the grid; tests compare one printed grid.",
"C13": "All grids of all sizes, also invalid ones and numbers out of range; tests look at one field of an example.",
"C14": "All grids and all states of candidates before the call; tests start from examples without candidates.",
"C15": "Soundness and completeness over all grids, and each pair exactly once; tests count conflicts in a few grids.",
"C16": "Equivalence with the rules of the game for all grids; tests show one solved and one unsolved example.",
"C17": "All puzzles, and all iteration orders of sets and dicts, which a test cannot choose.",
"C18": "A missing solution cannot be seen in the output; completeness needs an argument about all search trees.",
"C19": "Absence of repetitions for all puzzles and all orders in which the search may go.",
"C20": "All puzzles; backtracking changes the sudoku in place, and a wrong restoration shows only in some search trees.",
"C22": "Equivalence for all puzzles, and all iteration orders; tests have one unique and one ambiguous example.",
"C23": "The sudoku may be changed between two steps of the generator; tests run a few puzzles to the end.",
"C24": "That no solution is lost must hold for every state of the candidates and every solution; tests look at final results of a few puzzles, where a wrong removal may go unnoticed.",
"C25": "The generator works on data collected before earlier steps were applied; whether stale data can mislead it depends on all interleavings.",
"C26": "Every state of the candidates and every box shape; there are no tests of the class by itself.",
"C27": "Every state of the candidates, every size of fish; the tests look at three hand-made positions.",
"C28": "The statement is the core of a termination argument: it must hold at every state that can be reached, not at sampled ones.",
"C29": "Hints may be applied in any order and subset; the number of orders grows factorially.",
"C30": "Success on every solvable sudoku of every size; a test run shows it for single puzzles.",
"C32": "All solvable puzzles; which ratings occur for a puzzle depends on the whole run of the solver. Tests rate random puzzles.",
"C33": "Bounds over all puzzles; the counterexample to the documented bound was found by looking for a proof.",
"C34": "All permutations of the numbers, all random choices, all sizes and iteration orders; each test run samples a few.",
"C35": "Each run of a test samples one outcome of random; the claim is about every outcome.",
"C36": "Each run of a test samples one outcome of random; min_count is any integer.",
"C37": "No test looks at the symmetry of a result; and a run samples one outcome of random.",
"C38": "Minimality quantifies over all sets of clues that could be left out, for every outcome of random.",
"C39": "That no other exception (such as ValueError of coords.remove) can occur is a claim about all runs.",
"C40": "The result and the number of tries depend on random; tests use one template that works and one that cannot.",
"C41": "There are 2^(N*N) sets of coordinates for every size, and all separators; tests use listed examples.",
"C42": "All permutations and repetitions of the coordinates; tests try two orders.",
"C43": "Comparing the two forms for all sets of fields of all sizes; tests compare in two examples.",
"C44": "All strings, well-formed or not; tests contain only well-formed ones.",
"C45": "Unbounded integers as coordinates and sizes.",
"C46": "The language is infinite; tests decode listed examples.",
"C47": "All sudokus and all lists of coordinates, also invalid and repeated ones; actions are not tested at all.",
"C48": "All texts of actions; actions are not tested at all.",
"C50": "Any number of rounds and any bodies, nested and failing ones included.",
"C51": "All scripts with any comments, blank lines and continuation; the equality is between two different paths through the code.",
"C52": "The behaviour after an error depends on everything executed before; tests look at the end of single scripts.",
"C54": "Termination is claimed for all states; a test cannot tell a long run from an endless one.",
"C56": "All steps of all states; tests never apply a step twice.",
"C57": "The depth of recursion is a maximum over all search trees and iteration orders.",
"C59": "Exactly the right steps in all states of the candidates; a test sees the steps of sampled states.",
"C60": "Exactly the right steps in all states of the candidates; a test sees the steps of sampled states.",
"C61": "Completeness of the search in all states and for all iteration orders; a missed step does not show in a solved puzzle, since other classes take over.",
"C62": "Completeness of the search in all states and for all n; a missed step does not show in a solved puzzle, since other classes take over.",
"C63": "Completeness and the exact multiplicity of each step in all states; a missed or repeated step does not show in a solved puzzle.",
"C64": "Completeness of the search in all states; a missed step does not show in a solved puzzle, since other classes take over.",
"C65": "Completeness of the search in all states; the tests look at one position for each size of fish.",
"C66": "The list of all steps of all states; hints is not tested.",
"C67": "All actions and sizes; encode_action is not tested, otherwise the defect would have been noticed.",
"C68": "All states and arguments; the tests of the shell commands replace the method that prints, where the error occurs.",
"C69": "All states; aliasing of the current sudoku with one on the stack shows only in some histories.",
"C70": "All sudokus, solvable or not, in all states of the shell.",
"C72": "All input lines in all positions; the game is not tested.",
"C73": "All positions that can be reached; the game is not tested.",
"C75": "All states of the candidates; the README's remark on apply_all holds for the states one would try.",
"C80": "All combinations of arguments, files and standard input; the tests do not call main.",
"C81": "All ways to write the same arguments; the equality of effects is about pairs of lines.",
"C82": "All sudokus in all states of two shells.",
"C83": "All outcomes of random and all ways to give the arguments.",
"C86": "All documentation strings; the test of the help only counts the commands in the list of sections.",
"C87": "Injectivity is a statement about all pairs of steps.",
"C91": "All sequences of input before, and all orders of moves; the game is not tested.",
"C96": "Objects with hidden state: what an application does depends on the first one, in any sequence of applications.",
"C97": "Interrupts can come at any time; a test cannot choose the moment.",
"C101": "All objects that can be on the right of ==, with all exceptions they can raise; tests use a few types.",
"C106": "Injectivity is a statement about all pairs of sudokus of any sizes.",
"C113": "A statement about the number of all solutions of any sudoku; the number is astronomical for sparse sudokus.",
"C114": "Two independent calls on any solvable sudoku are compared; no finite set of sudokus shows the bounds.",
"C115": "A test could only run these sudokus under the iteration order of one interpreter; here every order of the sets is covered. Without the sudokus found by a search nobody would write the test.",
"C116": "That a class is never used can not be seen from finitely many sudokus: there are about 10^21 solved grids of size 9 alone, each with very many sub-sudokus.",
"C117": "All positions of up to three empty fields in all solved grids of all sizes; for the generators also all random outcomes.",
"C118": "Relates the cost of two searches to the classes of steps a third algorithm needs, for all solvable sudokus and iteration orders; results alone do not show it.",
"C120": "The calls are not part of the result; a timing measurement or a mock shows a few random runs, not all outcomes of shuffle and all sizes.",
"C122": "An upper bound for all random outcomes; typical runs end far below it (20 to 30 clues of 81), so a defect that keeps superfluous clues would not be noticed.",
"C121": "The set of all full grids is too large to compare with (6.7e21 for 9x9); that a rectangle is never left open is a statement about every random outcome.",
"C123": "All combinations of kinds of values in three arguments, where the first complaint wins; and for accepted ones all random outcomes.",
"C119": "A bound for all results of a random generator, and for all sets of clues in all full grids; runs only show that some numbers of clues occur, not that others cannot.",
"C124": "A lower bound for the work of every run, for all sudokus and iteration orders; a profile shows single runs.",
"C125": "All kinds of values; the handler in the constructor looks as if it caught wrong sizes, but no test reaches it.",
"C126": "All kinds of values and all strings; the two limits (the rows of the instance and the product of the box sizes) differ only for values no test passes.",
"C127": "A bound for the work of every run, whatever the iteration order is; tests measure single runs.",
"C128": "All instances the constructor returns, with any contents; no test makes one from a dictionary or from negative sizes.",
"C129": "A bound for the work of every run by the number of empty fields in each unit, whatever the iteration order is; tests measure single runs.",
"C130": "The suspended generator is compared with the whole search for all sudokus, orders and recursion limits; the tests see the answer only.",
"C131": "The suspended generators are compared with the whole searches for all sudokus, orders, recursion limits and k; the tests see results for a few sudokus.",
"C132": "Two runs with any two limits are compared; the tests never change the limit.",
"C111": "All texts; equality of normal forms is compared with equality of meaning for all pairs of texts.",
}
