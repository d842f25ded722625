"""Wrong edits of model definitions, see mutate.py."""
MUTATIONS = []
def m(i, file, definition, old, new, claims, **kw):
    MUTATIONS.append(dict(id=i, file=file, definition=definition, old=old, new=new, claims=claims, **kw))

CO = "Model/Coordinates.lean"; SU = "Model/Sudoku.lean"; ST = "Model/Store.lean"; SO = "Model/Solve.lean"; DL = "Model/Dlx.lean"; SV = "Model/Solvers.lean"
# coordinates
m("M001", CO, "Coordinates.boxAt", "col / width + row - row % height", "col / height + row - row % height", ["C04"])
m("M002", CO, "Coordinates.boxOf", "if !incl then coords.erase (row, col) else coords\n\n/-- coordinates.py:88", "if !incl then coords.erase (gridY, gridX) else coords\n\n/-- coordinates.py:88", ["C01"])
m("M003", CO, "Coordinates.columnOf", "filter fun i => incl || i != row", "filter fun i => incl || i != col", ["C01"])
m("M004", CO, "Coordinates.boxWithoutRowAndColumnOf", "gridY + p.1 != row && gridX + p.2 != col", "gridY + p.1 != row || gridX + p.2 != col", ["C02"])
m("M005", CO, "Coordinates.theBox", "box < (width * height : Nat)", "box ≤ (width * height : Nat)", ["C03"])
m("M006", CO, "Coordinates.theBox", "let x := (b % height) * width", "let x := (b % width) * width", ["C03", "C04"])
m("M007", CO, "Coordinates.thePart", "let row := p / width", "let row := p / height", ["C03", "C04"])
# store
m("M010", ST, "Store.pyIdx", "if -(n : Int) ≤ i ∧ i < 0 then", "if -(n : Int) < i ∧ i < 0 then", ["C05"])
m("M011", ST, "Store.init", "H.nums ++ List.replicate n (List.replicate n 0)", "H.nums ++ List.replicate n (List.replicate n 1)", ["C05"])
m("M012", ST, "Store.init", "numRows := List.range' H.nums.length n", "numRows := List.replicate n H.nums.length", ["C05", "C06"], note="all rows are one list")
m("M013", ST, "Store.removeCandidates", "setCandidates H o i j (c \\ v)", "setCandidates H o i j (v \\ c)", ["C05"])
m("M014", ST, "Store.copy", "let (H, t) := init H o.bw o.bh", "let (H, t) := (H, o)", ["C06"], note="copy returns the object itself")
m("M015", ST, "Store.copy", "let (H, t) := init H o.bw o.bh", "let (H, t) := ((init H o.bw o.bh).1, { (init H o.bw o.bh).2 with candRows := o.candRows })", ["C06"], note="the copy shares the candidate lists")
m("M016", SU, "Sudoku.eq", "| some v => s.get a == v\n    | none => false", "| some v => s.get a == v\n    | none => true", ["C07"])
m("M017", SU, "Sudoku.len", "s.bw ^ 2 * s.bh ^ 2", "s.bw * s.bh ^ 2", ["C08"])
m("M018", SU, "Sudoku.diff", "s.get a != other.get a", "s.get a == other.get a", ["C08"])
# solve
m("M020", SO, "Solve.calcCandidates", "(s.surroundingOf a false).foldl", "(s.rowOf a false ++ s.columnOf a false).foldl", ["C13"])
m("M021", SO, "Solve.initCandidates", "!filledOnly || s.get a != 0", "filledOnly || s.get a != 0", ["C14"])
m("M022", SO, "Solve.saveAndRemove", "(p.1.removeCandidates b {candidate}, dictSet p.2 b (p.1.getCandidates b))", "(p.1.removeCandidates b {candidate}, dictSet p.2 b ((p.1.removeCandidates b {candidate}).getCandidates b))", ["C20"], note="candidates saved after the removal")
m("M023", SO, "Solve.bfLoop", "      let s := s.setNumber a 0\n", "", ["C20"], note="the tried number is not taken back")
m("M024", SO, "Solve.bfLoop", "      let s := restore s saved\n", "", ["C20"], note="the candidates are not restored")
m("M025", SO, "Solve.bruteforce", "if hasConflict s then some []\n  else\n", "if false then some []\n  else\n", ["C20", "C21"], note="no check for conflicts among the clues")
m("M026", SO, "Solve.pickEmpty", "(s.getCandidates a).card ≤ (s.getCandidates b).card", "(s.getCandidates b).card ≤ (s.getCandidates a).card", ["C20"], note="only the order of the search changes: the set of solutions stays the same, so surviving would be right")
m("M027", SO, "Solve.findConflicts", "if value = 0 then []\n    else", "if false then []\n    else", ["C15"])
m("M028", SO, "Solve.isSolved", "s.empty.isEmpty && (findConflicts s).isEmpty", "(findConflicts s).isEmpty", ["C16"])
# dlx
m("M030", DL, "Dlx.colsOf", "(i.1 / R) * R + i.2.1 / C", "(i.1 / R) * C + i.2.1 / C", ["C17", "C18"], note="agrees only for square boxes")
m("M031", DL, "Dlx.deselect", "js.reverse.foldlM", "js.foldlM", ["C18"], note="columns uncovered in the wrong order")
m("M032", DL, "Dlx.selectGiven", "| .error .KeyError => .ok none", "| .error .KeyError => .error .KeyError", ["C18"])
m("M033", DL, "Dlx.isUnique", "| .ok [_] => .ok true", "| .ok [_] => .ok false", ["C22"])
m("M034", DL, "Dlx.searchLoop", "rec X (solution ++ [r])", "rec X [r]", ["C17"])
m("M035", DL, "Dlx.writeSolutions", "s.copy :: writeSolutions sols s", "s :: writeSolutions sols s", ["C17"], note="yields the working sudoku; in this model equal up to the candidates and the fields outside")
m("M036", DL, "Dlx.removeRow", "if k ≠ j then Dict.modify X k (setRemove i) else .ok X", "Dict.modify X k (setRemove i)", ["C18"])
# solvers
m("M040", SV, "Solvers.findNakedSingle", "| [v] => κ w (Step.single .nakedSingle a v)", "| v :: _ => κ w (Step.single .nakedSingle a v)", ["C23"])
m("M041", SV, "Solvers.hiddenUnits", "unitOf (view p.1) k a false", "unitOf (view p.1) k a true", ["C23", "C61"], tightened=["C61_hidden_single (new): no hidden single is missed"], note="the field itself counts: no step is found at all unless a field lacks candidates")
m("M042", SV, "Solvers.findHiddenSingle", "if (view p.1).get a = 0 then hiddenUnits view κ π a [0, 1, 2] p else p", "hiddenUnits view κ π a [0, 1, 2] p", ["C23", "C28"])
m("M043", SV, "Solvers.nakedAt", "if all.card ≤ n then\n", "if all.card ≤ n + 1 then\n", ["C24"])
m("M044", SV, "Solvers.nakedAt", "decide (a ∉ fields ∧ all ∩ (view p.1).getCandidates a ≠ ∅)", "decide (all ∩ (view p.1).getCandidates a ≠ ∅)", ["C24"])
m("M045", SV, "Solvers.hiddenAt", "if maxSet.card ≤ n then\n", "if maxSet.card ≤ n + 1 then\n", ["C25"])
m("M046", SV, "Solvers.hiddenAt", "decide (a ∈ maxSet ∧ (view w)", "decide ((view w)", ["C25"])
m("M047", SV, "Solvers.pointingInBox", "if (clues.map Prod.fst).toFinset.card = 1 then", "if (clues.map Prod.fst).toFinset.card ≤ 2 then", ["C26"])
m("M048", SV, "Solvers.pointingInBox", "let col := box % (view w).bh * (view w).bw", "let col := box % (view w).bw * (view w).bw", ["C26"])
m("M049", SV, "Solvers.fishFor", "if other.any fun x => decide (other.count x < 2) then w\n    else if", "if", ["C27"], note="sound without this test, but other steps are found")
m("M050", SV, "Solvers.fishFor", "other.dedup.length > n then w", "other.dedup.length > n + 1 then w", ["C27"])
m("M051", SV, "Solvers.fishFor", "others s covered baseFields candidate", "others s covered [] candidate", ["C27"])
m("M052", SV, "Solvers.findBruteforce", "(view w).get a ≠ solution.get a then", "true then", ["C58"])
m("M053", SV, "Solvers.solvers", ", .bruteforce]", "]", ["C30"])
m("M054", SV, "Solvers.solve", "Solve.initCandidates s.copy true", "Solve.initCandidates s true", ["C30"], note="in this model (values) equal to the copy up to the candidates, which may be wrong")
m("M055", SV, "Solvers.rating", "| .bruteforce => some 10", "| .bruteforce => some 11", ["C32"])
m("M056", SV, "Solvers.rating", "| .basicFish 4 => some 7", "", ["C32"])
m("M057", SV, "Solvers.Step.lt", "if a.affected = b.affected then\n      tupleLt (fun x y : Int => decide (x < y)) a.values b.values", "if a.affected = b.affected then\n      tupleLt (fun x y : Int => decide (x ≤ y)) a.values b.values", ["C55"], note="tupleLt compares only different elements: equivalent")
m("M058", SV, "Solvers.Step.lt", "else tupleLt cellLt a.affected b.affected\n", "else false\n", ["C55"])
m("M059", SV, "Solvers.Step.mk'", "values := sortInts values }\n\n/-- The same", "values := values }\n\n/-- The same", ["C55"])
m("M060", SV, "Solvers.buildSingle", "(s.surroundingOf a false).filter", "(s.rowOf a false).filter", ["C28"], note="candidates in column and box are kept")
m("M061", SV, "Solvers.hints", "if k = .bruteforce then w else", "if k = .nakedSingle then w else", ["C29", "C66"], tightened=["C66_hints (new): the list of hints is complete"], note="hints omits naked singles")
m("M062", SV, "Solvers.pointingInLine", "decide", "decide", [], count=0) if False else None
m("M063", SV, "Solvers.findFish", "Coordinates.product [true, false]", "Coordinates.product [true]", ["C27", "C65"], tightened=["C65_basic_fish (new): before, only an example failed"], note="columns are not searched")
m("M064", SV, "Solvers.findNakedTuple", "[1, 0, 2].foldl (fun (p : W × List (List Cell)) k =>", "[1, 0].foldl (fun (p : W × List (List Cell)) k =>", ["C24", "C62"], tightened=["C62_naked_tuple (new): before, this edit was not noticed"], note="boxes are not searched")
m("M065", SV, "Solvers.StepObj.apply", "{ o with actions := acts }", "o", ["C56"], note="actions are not remembered")

# generate
GE = "Model/Generate.lean"; CD = "Model/Codec.lean"
m("M066", GE, "Generate.Sym.fields", "| .rotate90 => [(a.1, a.2), (w*h-1-a.2, a.1),", "| .rotate90 => [(a.1, a.2), (a.2, a.1),", ["C37"], note="transposition instead of rotation")
m("M067", GE, "Generate.Sym.fields", "| .mirrorY => [(a.1, a.2), (a.1, w*h-1-a.2)]", "| .mirrorY => [(a.1, a.2), (w*h-1-a.1, a.2)]", ["C37"])
m("M068", GE, "Generate.reduce", "if count - stepCoords.length < minCount then .ok (some sudoku)", "if count < minCount then .ok (some sudoku)", ["C36"])
m("M069", GE, "Generate.reduce", "| .ok true => reduce ρ fuel sym minCount solution rounds coords count sudoku", "| .ok true => .ok (some sudoku)", ["C38"], note="stops after the first success")
m("M070", GE, "Generate.reduce", "b (solution.get b), p.2 + 1)) (sudoku, count)", "b (solution.get b), p.2)) (sudoku, count)", ["C36", "C38"], note="count is not restored")
m("M071", GE, "Generate.reduce", "p.1.setNumber b (solution.get b)", "p.1.setNumber b (solution.get a)", ["C35"])
m("M072", GE, "Generate.generate", "if minCount > countLimit then", "if minCount ≥ countLimit then", ["C39"])
m("M073", GE, "Generate.createSolution", "(sudoku.boxOf (c.row, c.col) true)", "(sudoku.rowOf (c.row, c.col) true)", [], note="fills a row instead of a box: equally valid, so only the helper proofs may notice")
m("M074", GE, "Generate.mask", "if template.get a = 0 then s.setNumber a 0 else s", "if template.get a ≠ 0 then s.setNumber a 0 else s", ["C40"])
m("M075", GE, "Generate.templateLoop", "if (t : Int) < tries ∨ tries < 0 then", "if (t : Int) ≤ tries ∨ tries < 0 then", ["C40"], note="one try too many")
m("M076", GE, "Generate.templateLoop", "| .ok true => .ok (some sudoku)\n        | .ok false => templateLoop", "| .ok false => .ok (some sudoku)\n        | .ok true => templateLoop", ["C40"])
m("M077", GE, "Generate.Sym.lookup", "| some _ => Option.none", "| some _ => some .none", ["C39"], note="unknown symmetries are accepted")
m("M078", GE, "Generate.reduce", "(fun (p : Sudoku × Int) b => (p.1.setNumber b 0, p.2 - 1)) (sudoku, count)", "(fun (p : Sudoku × Int) b => (p.1.setNumber a 0, p.2 - 1)) (sudoku, count)", ["C37", "C38"], note="only the field itself is cleared")
# encode, decode, view
m("M080", CD, "Codec.encodeNumbers", "Py.intStr (s.get (row, col))", "Py.intStr (s.get (col, row))", ["C09"])
m("M081", CD, "Codec.encode", "Py.join [','] (s.cells.map", "Py.join [] (s.cells.map", ["C10"])
m("M082", CD, "Codec.encode", "encodeNumbers s rowSep colSep ++ '|' ::", "encodeNumbers s rowSep colSep ++ ';' ::", ["C10"])
m("M083", CD, "Codec.readNumbers", "let col' := if col + 1 ≥ s.n then 0 else col + 1\n        if row' ≥ s.n", "let col' := if col + 1 ≥ s.n then 1 else col + 1\n        if row' ≥ s.n", ["C09"])
m("M084", CD, "Codec.readNumbers", "let row' := if col + 1 ≥ s.n then row + 1 else row", "let row' := if col ≥ s.n then row + 1 else row", ["C09"])
m("M085", CD, "Codec.guessBox", "if width = length then .error .ValueError else .ok (width, length / width)", "if width = length then .error .ValueError else .ok (length / width, width)", ["C11"])
m("M086", CD, "Codec.guessBox", "if length.sqrt * length.sqrt = length then .ok (length.sqrt, length.sqrt)", "if length.sqrt * length.sqrt = count then .ok (length.sqrt, length.sqrt)", ["C11"])
m("M087", CD, "Codec.itemNumber", "if p.same item = true then .ok 0 else Py.int item", "if p.same item = true then .ok 1 else Py.int item", ["C09"])
m("M088", CD, "Codec.readCandidates", "let row' := if col + 1 = s.n then row + 1 else row", "let row' := if col + 1 = s.n then row else row", ["C10"])
m("M089", CD, "Codec.decode", "| .ok s => decodeCandidates p candidates s", "| .ok s => .ok s", ["C10"])
m("M090", CD, "Codec.removeSpace", "if c ∉ special then", "if c ∈ special then", ["C09", "C11"])
m("M091", CD, "Codec.fieldText", "if alignRight then Py.rjust m val else Py.ljust m val", "if alignRight then Py.ljust m val else Py.rjust m val", ["C12"])
m("M092", CD, "Codec.linePieces", "if (col + 1) % s.bw = 0 ∧ col + 1 < s.n then", "if (col + 1) % s.bh = 0 ∧ col + 1 < s.n then", ["C12"])
m("M093", CD, "Codec.view", "if (row + 1) % s.bh = 0 ∧ row + 1 < s.n then text ++ rule s m else text", "if (row + 1) % s.bw = 0 ∧ row + 1 < s.n then text ++ rule s m else text", ["C12"])
m("M094", CD, "Codec.fieldLength", "if length > m then length else m", "if length < m then length else m", ["C12"])
m("M095", CD, "Codec.rule", "(List.replicate (dash + 1) '-' ++ ['+'])", "(List.replicate dash '-' ++ ['+'])", ["C12"])
# completeness
m("M100", SV, "Solvers.findCalc", "κ w (Step.mkSet .calculateCandidates [a] [a] (Solve.calcCandidates (view w) a))", "if (view w).get a = 0 then κ w (Step.mkSet .calculateCandidates [a] [a] (Solve.calcCandidates (view w) a)) else w", ["C59"], note="filled fields are skipped")
m("M101", SV, "Solvers.hiddenUnits", "if r.2.2 then (r.1, r.2.1) else hiddenUnits π a ks (r.1, r.2.1)", "(r.1, r.2.1)", ["C61"], note="rows and boxes are not searched")
m("M102", SV, "Solvers.findHiddenSingle", "hiddenUnits view κ π a [0, 1, 2] p else p", "hiddenUnits view κ π a [1, 0, 2] p else p", ["C61"], note="rows before columns")
m("M103", SV, "Solvers.nakedAt", "if step.clues ∉ p.2 then (κ p.1 step, p.2 ++ [step.clues]) else p", "(κ p.1 step, p.2 ++ [step.clues])", ["C62"], note="repetitions")
m("M104", SV, "Solvers.nakedAt", "decide (1 < ((view p.1).getCandidates a).card", "decide (2 < ((view p.1).getCandidates a).card", ["C62"])
m("M105", SV, "Solvers.hiddenAt", "decide (1 < (candCoords c).card ∧", "decide (2 < (candCoords c).card ∧", ["C63"])
m("M106", SV, "Solvers.findHiddenTuple", "[1, 0, 2].foldl (fun w k => (unitList", "[1, 2].foldl (fun w k => (unitList", ["C63"], note="columns are not searched")
m("M107", SV, "Solvers.pointingInLine", "[1, 0].foldl (fun w k =>", "[1].foldl (fun w k =>", ["C64"], note="columns are not searched")
m("M108", SV, "Solvers.findPointing", "indices.foldl (fun w x => pointingInLine view κ n x w) w", "w", ["C64"], note="lines are not searched")
m("M109", SV, "Solvers.fishFor", "decide (2 ≤ (fields i).length ∧ (fields i).length ≤ n)", "decide (n = (fields i).length)", ["C65"], note="only perfect fishes")
m("M110", SV, "Solvers.solvers", ".pointingTuple 2, .pointingTuple 3,", ".pointingTuple 3, .pointingTuple 2,", ["C66"])
m("M111", SV, "Solvers.unitList", "if unitOf s k a true ∈ clist then clist else clist ++ [unitOf s k a true]", "clist ++ [unitOf s k a true]", ["C62", "C63"], note="units are searched once per empty field; the set of steps stays the same, NakedTuple still drops repetitions")
# notation, actions
NO = "Model/Notation.lean"
AN = "Model/Actions.lean"
m("M120", NO, "Notation.collect", "let part := col % width + (row % height) * width", "let part := col % width + (row % height) * height", ["C41", "C42"])
m("M121", NO, "Notation.collect", "let box := col / width + row - row % height", "let box := col / height + row - row % height", ["C41", "C42"])
m("M122", NO, "Notation.collect", "(0 ≤ row ∧ row < (width * height : Nat))", "(0 ≤ row ∧ row ≤ (width * height : Nat))", ["C45"])
m("M123", NO, "Notation.numberSep", "if length > 9 then", "if length > 10 then", ["C41"])
m("M124", NO, "Notation.joinStep", "new.find? fun f => f.2 = e.2", "new.find? fun f => f.2 ⊆ e.2", ["C41", "C42"])
m("M125", NO, "Notation.joinStep", "[(sortNats (e.1 :: f.1), e.2)]", "[(e.1 :: f.1, e.2)]", ["C42"], note="may be equivalent: the keys are sorted again when written, but not before the groups are sorted")
m("M126", NO, "Notation.dictToStr", "(d.insertionSort fun a b => tupleLe a.1 b.1).map", "d.map", ["C42"])
m("M127", NO, "Notation.encode", "if boxStr.length < rowStr.length then", "if boxStr.length ≤ rowStr.length then", ["C43"])
m("M128", NO, "Notation.readChar", "if q ∈ st.present then .error .ValueError\n    else match", "if false then .error .ValueError\n    else match", ["C46"], note="repeated letters are accepted")
m("M129", NO, "Notation.readChar", "present := st.present ++ [cur]", "present := st.present ++ [q]", ["C46"], note="what the code probably means to do")
m("M130", NO, "Notation.finish", ".ok (State.put st.nums cur numbers)", "if numbers = [] then .error .ValueError else .ok (State.put st.nums cur numbers)", ["C46"], note="repaired: no numbers after the last letter")
m("M131", NO, "Notation.allSets", "if nums q = [] then more else cells :: more", "cells :: more", ["C46"])
m("M132", NO, "Notation.intersection", "l.all fun T", "l.any fun T", ["C46"])
m("M133", NO, "Notation.removeWhitespace", "Py.join [] (Py.splitGo Py.whitespace s 0 [])", "s.filter fun c => decide (c ∉ Py.whitespace)", ["C46"], note="repaired: whitespace is removed")
m("M134", NO, "Notation.splitGroup", "gs.map (c :: ·)", "gs", ["C41"])
m("M135", NO, "Notation.decode", ".ok (Solvers.sortCells cells.dedup)", ".ok (Solvers.sortCells cells)", ["C44"])
m("M136", NO, "Notation.encodeAction", "| .int _ => .error .TypeError\n      | .str t", "| .int i => .ok (some (s ++ '=' :: Py.intStr i))\n      | .str t", ["C67"], note="repaired")
m("M137", NO, "Notation.decodeAction", "let s := Py.strip s\n  if", "if", ["C48"])
m("M138", NO, "Notation.decodeAction", "match Py.ints (left.map fun c => [c]) with", "match Py.ints ((left.drop 1).map fun c => [c]) with", ["C48"], note="repaired: the minus sign is skipped")
m("M139", NO, "Notation.readNumbers", ".ok (l.map (· - 1))", ".ok l", ["C41"])
m("M140", AN, "Actions.setLoop", "((s.setNumber a v).setCandidates a {v})", "(s.setNumber a v)", ["C47"])
m("M141", AN, "Actions.removeLoop", "| .error e => (s, .error e)\n    | .ok a => removeLoop vs l (s.removeCandidates a vs)", "| .error _ => removeLoop vs l s\n    | .ok a => removeLoop vs l (s.removeCandidates a vs)", ["C47"], note="bad coordinates are skipped")
m("M142", AN, "Actions.locate", "match Store.pyIdx s.n rc.1, Store.pyIdx s.n rc.2 with", "match Store.pyIdx s.n rc.2, Store.pyIdx s.n rc.1 with", ["C47"])
m("M143", AN, "Actions.call", "removeLoop vs.toFinset cs s", "removeLoop vs.toFinset cs.dedup s", ["C47"], note="equivalent as long as all coordinates are legal")
# the command shell
SH = "Model/Shell.lean"
SL = "Model/ShellLib.lean"
m("M150", SH, "Shell.callWith", "heap := s.heap ++ [lib.copy (s.sudoku lib)], stack := s.stack ++ [s.heap.length]", "heap := s.heap ++ [lib.copy (s.sudoku lib)], stack := s.stack ++ [s.cur]", ["C49"], note="push without a copy")
m("M151", SH, "Shell.callWith", "heap := s.heap ++ [lib.copy (s.sudoku lib)], stack := s.stack ++ [s.heap.length]", "heap := s.heap ++ [lib.copy (s.sudoku lib)], stack := s.heap.length :: s.stack", ["C49"], note="push at the bottom")
m("M152", SH, "Shell.pop", "if 0 ≤ k ∧ k < s.stack.length then", "if 0 ≤ k ∧ k ≤ s.stack.length then", ["C49"])
m("M153", SH, "Shell.pop", "if s.stack = [] then returnError interactive s", "if s.stack = [] then (s, .returned .none)", ["C49"], note="no error for an empty stack")
m("M154", SH, "Shell.pop", "stack := s.stack.eraseIdx k.toNat }", "stack := s.stack.take k.toNat }", ["C49"])
m("M155", SH, "Shell.pop", "{ s with cur := s.stack.getD (s.stack.length - 1) 0, stack", "{ s with cur := s.stack.getD 0 0, stack", ["C49"])
m("M156", SH, "Shell.loop", "(s, none) => ({ s with loopN := none, body := [] }, .returned .none)", "(s, none) => ({ s with loopN := none }, .returned .none)", ["C50"], note="the body is kept for the next loop")
m("M157", SH, "Shell.loop", "(List.range k) s with", "(List.range (k - 1)) s with", ["C50"])
m("M158", SH, "Shell.loop", "if k ≤ 0 then returnError", "if k < 0 then returnError", ["C50"])
m("M159", SH, "Shell.loop", "else if s.loopN.isSome then returnError interactive s", "else if false then returnError interactive s", ["C50"], note="nested loops replace the outer one")
m("M160", SH, "Shell.executePart", "else if s.loopN.isSome ∧ c.name ≠ .loop then", "else if s.loopN.isSome then", ["C50"], note="loop end is stored as well")
m("M161", SH, "Shell.executePart", "if c.name = .exit then execute lib interactive c s\n    else if", "if", ["C50"], note="exit is stored as well")
m("M162", SH, "Shell.error", "if interactive then none else some (.exit 1)", "if interactive then none else some (.exit 0)", ["C52"])
m("M163", SH, "Shell.error", "if interactive then none else some (.exit 1)", "none", ["C52"])
m("M164", SH, "Shell.executePart", "| .error .KeyError => error interactive (.exn .KeyError) s\n", "", ["C52"], note="unknown commands crash the shell")
m("M165", SH, "Shell.executeWith", "| (s, .returned .other) => error interactive (.exn .TypeError) s", "| (s, .returned .other) => (s, none)", ["C68"])
m("M166", SH, "Shell.executeWith", "| (s, .returned (.sudoku x)) => ({ s with heap := s.heap ++ [x], cur := s.heap.length }, none)", "| (s, .returned (.sudoku x)) => ({ s with heap := s.heap.set s.cur x }, none)", ["C49", "C69", "C70"], note="the old sudoku object is overwritten; the difference can only be seen if the object is shared")
m("M167", SH, "Shell.clean", "(line.filter fun c => c != '\\n')", "line", ["C51"], note="equivalent for lines of a file, where the newline comes last and is stripped")
m("M168", SH, "Shell.clean", ".takeWhile fun c => c != '#')", ".takeWhile fun c => c != ';')", ["C51"])
m("M169", SH, "Shell.runLoop", "runLoop lib interactive input (lines ++ line.dropLast) s", "runLoop lib interactive input line.dropLast s", ["C51"])
m("M170", SH, "Shell.runLoop", "| (s, none) => runLoop lib interactive input [] s", "| (s, none) => runLoop lib interactive input lines s", ["C51"])
m("M171", SH, "Shell.runLoop", "if s.running = false then (s, none)\n    else", "if false then (s, none)\n    else", ["C51"], note="exit does not end the shell")
m("M172", SH, "Shell.parseItems", "parseItems lib items (args ++ [.value v]) kwargs", "parseItems lib items (.value v :: args) kwargs", ["C69"])
m("M173", SH, "Shell.setKwarg", "if p.1 = name then (name, v) else p", "p", ["C51"], note="the first of two equal keyword arguments wins; no theorem is about the choice")
m("M174", SL, "Shell.Real.set", "| .ok a => (x.setNumber a v, u, .ok .none)", "| .ok a => ((x.setNumber a v).setCandidates a {v}, u, .ok .none)", ["C69"])
m("M175", SL, "Shell.Real.view", "match Codec.view x true ['*'] true with", "match Codec.view x false ['*'] true with", ["C69"])
m("M176", SL, "Shell.Real.solve", "| some [] => .error .StopIteration", "| some [] => .ok .none", ["C70"])
m("M177", SH, "Shell.executeLine", "(Py.splitGo [';'] line 0 [])", "[line]", ["C51"])
m("M178", SH, "Shell.callWith", "fun s => ({ s with running := false }, .returned .none)", "fun s => ({ s with running := false, stack := [] }, .returned .none)", ["C49"], note="exit empties the stack")
m("M179", SH, "Shell.commandPrompt", "if interactive then \"> \"", "if !interactive then \"> \"", ["C51"], note="prompts are left out of the comparison")
# the game
GA = "Model/Game.lean"
m("M190", GA, "Game.record", "s.sudokus.take (s.index + 1) ++ [k]", "s.sudokus ++ [k]", ["C53"], note="the redo part is kept")
m("M191", GA, "Game.record", "if (s.at k).equals (s.at s.cur) true then s", "if (s.at k).equals (s.at s.cur) false then s", ["C53"], note="changes of candidates are lost")
m("M192", GA, "Game.step", "heap := s.heap ++ [(s.at s.cur).copy true]", "heap := s.heap ++ [(s.at s.cur).copy false]", ["C53"])
m("M193", GA, "Game.dispatch", "if s.index + 1 = s.sudokus.length then { s with out", "if s.index = s.sudokus.length then { s with out", ["C53"])
m("M194", GA, "Game.dispatch", "else { s with index := s.index - 1 }, none)", "else { s with index := 0 }, none)", ["C53"])
m("M195", GA, "Game.step", "if word = \"undo\".toList ∨ word = \"redo\".toList then s else record k s", "record k s", ["C53"], note="undo is recorded as a change")
m("M196", GA, "Game.removeFrom", "s.sudoku.removeCandidates b {value}, changed := true }", "s.sudoku.removeCandidates b {value} }", ["C54"], note="equivalent without autoset? one round is enough for autoremove alone")
m("M197", GA, "Game.removeStep", "s.sudoku.surroundingOf a false", "s.sudoku.surroundingOf a true", ["C54"], note="the field itself loses its candidate")
m("M198", GA, "Game.setStep", "(s.sudoku.getCandidates a).card = 1", "(s.sudoku.getCandidates a).card = 2", ["C54"])
m("M199", GA, "Game.setStep", "if s.sudoku.get a = 0 ∧ (s.sudoku", "if (s.sudoku", ["C54"], note="filled fields are set again and again")
m("M200", GA, "Game.removeStep", "Notation.encode (coordinates.map Notation.toPair) 3 3 none", "Notation.encode (coordinates.map Notation.toPair) s.sudoku.bw s.sudoku.bh none", ["C54"], note="repaired")
m("M201", GA, "Game.nextHint", "hints := some (k, i + 1), out := s.out ++ [.hint st]", "hints := some (k, i), out := s.out ++ [.hint st]", ["C71"])
m("M202", GA, "Game.fresh", "| some _, some h => !(s.at h).eq (s.at k)", "| some _, some h => !(s.at h).equals (s.at k) true", ["C71"], note="repaired: candidates are compared")
m("M203", GA, "Game.fresh", "| _, _ => true", "| _, _ => false", ["C71"])
m("M204", GA, "Game.wrongFields", "x.get a != 0 && x.get a != solution.get a", "x.get a != solution.get a", ["C73"])
m("M205", GA, "Game.listConflicts", "then listed else listed ++ [p]) []", "then listed ++ [p] else listed ++ [p]) []", ["C73"], note="every conflict is listed twice")
m("M206", GA, "Game.act", "| .error .ValueError => unknown line s\n  | .error e", "| .error .ValueError => unknown line s\n  | .error .TypeError => unknown line s\n  | .error e", ["C72"], note="repaired")
m("M207", GA, "Game.firstWord", "| [] => none", "| [] => some []", ["C72"], note="blank lines are unknown commands")
m("M208", GA, "Game.newSudoku", "Solve.initCandidates generated true", "Solve.initCandidates generated", ["C53"], note="autocandidates is ignored")
m("M209", GA, "Game.autofillLoop", "if s.changed then autofillLoop set verbose rounds s else some (s, none)", "some (s, none)", ["C54"], note="one round only")
m("M210", GA, "Game.act", "| some (r, none) => ({ s with heap := s.heap.set k r.sudoku, out := r.out }, none)", "| some (r, none) => ({ s with heap := s.heap.set k x, out := r.out }, none)", ["C53"], note="the result of autofill is dropped")
m("M211", GA, "Game.conflictText", "t ++ \" = \".toList ++ u", "u ++ \" = \".toList ++ t", ["C73"])
# values, arguments and the library behind the shell
PV = "Model/PyValues.lean"
m("M220", PV, "Shell.bindArgs", "if sig.length < args.length then .error .TypeError\n  else if", "if", ["C81"], note="too many arguments are passed on")
m("M221", PV, "Shell.bindArgs", "!((sig.drop args.length).map Prod.fst).contains p.1", "!(sig.map Prod.fst).contains p.1", ["C81"], note="a name may repeat a positional argument")
m("M222", PV, "Shell.bindArgs", "| .ok vs => .ok (args ++ vs)", "| .ok vs => .ok (vs ++ args)", ["C81"])
m("M223", PV, "Shell.valueFor", "| some p => some p.2\n  | none => dflt", "| some p => match dflt with | some d => some d | none => some p.2\n  | none => dflt", ["C81", "C83"], note="defaults win over names")
m("M224", PV, "Shell.fill", "| none => .error .TypeError", "| none => .error .ValueError", ["C81"])
m("M225", PV, "Shell.signature", "(\"tries\".toList, some (.int 100))", "(\"tries\".toList, some (.int 0))", ["C83"], note="the number of tries only decides whether a RuntimeError comes")
m("M226", PV, "Shell.signature", "(\"include_candidates\".toList, some (.bool false))]", "(\"include_candidates\".toList, some (.bool true))]", ["C82", "C84"])
m("M227", PV, "Shell.signature", "[(\"filled_only\".toList, some (.bool false))]", "[(\"filled_only\".toList, some (.bool true))]", ["C84"])
m("M228", PV, "Shell.signature", "[(\"row\".toList, none), (\"col\".toList, none), (\"value\".toList, none)]", "[(\"col\".toList, none), (\"row\".toList, none), (\"value\".toList, none)]", ["C81", "C84"])
m("M229", PV, "Shell.signature", "(\"sudoku_sep\".toList, some (.str ['|']))", "(\"sudoku_sep\".toList, some (.str ['/']))", ["C82"])
m("M230", PV, "Shell.litStr", "c != q && c != '\\\\' && ", "c != '\\\\' && ", ["C81"], tightened=["C81_literals"], note="quotation marks inside a string; survived until C81_literals was added")
m("M231", PV, "Shell.literalEval", "litColl '{' '}' .set 1 t", "litColl '{' '}' .list 1 t", ["C84"], note="sets and lists are treated alike by the functions")
m("M232", PV, "Shell.literalEval", "| some [k] => some (.int k)\n", "", ["C81"], note="an integer is read as a tuple with one element")
m("M233", SL, "Shell.newFn", "some (.ok (Sudoku.new w.toNat h.toNat))", "some (.ok (Sudoku.new h.toNat w.toNat))", ["C69"])
m("M234", SL, "Shell.newFn", "| .value (.ints _ _) => some (.error .ValueError)", "| .value (.ints _ _) => some (.error .TypeError)", ["C69"])
m("M235", SL, "Shell.decodeFn", "| _ :: _ => some (.error .AttributeError)", "| _ :: _ => some (.error .TypeError)", ["C81"])
m("M236", SL, "Shell.decodeArgs", "some { empty := [c], numberSep, sudokuSep, candidateSep,", "some { empty := [c], numberSep, sudokuSep := candidateSep, candidateSep := sudokuSep,", ["C82"])
m("M237", SL, "Shell.decodeArgs", "some (some (w.toNat, h.toNat))", "some none", ["C82"], note="box_size is ignored")
m("M238", SL, "Shell.setCandidatesFn", "| .ok a => (x.setCandidates a l.toFinset, .ok .none)", "| .ok a => (x.setCandidates a (x.getCandidates a ∪ l.toFinset), .ok .none)", ["C84"])
m("M239", SL, "Shell.removeCandidatesFn", "| .ok _ => .error .TypeError\n", "| .ok _ => .ok .none\n", ["C84"])
m("M240", SL, "Shell.callFn", "| .initCandidates, [f] => some (Solve.initCandidates x f.truth, .ok .none)", "| .initCandidates, [f] => some (Solve.initCandidates x (!f.truth), .ok .none)", ["C84"])
m("M241", SL, "Shell.callFn", "Codec.encode x rowSep colSep f.truth", "Codec.encode x colSep rowSep f.truth", ["C84"])
m("M242", SL, "Shell.callFn", "Codec.view x f.truth prefix_ right.truth", "Codec.view x right.truth prefix_ f.truth", ["C84"])
m("M243", SL, "Shell.callFn", "| some (t :: _) => .ok (.sudoku t))", "| some l => .ok (.sudoku (l.getLastD x)))", ["C70"], note="the last solution")
m("M244", SL, "Shell.generateArgs", "| .none => some (m, none, w.toNat, h.toNat)", "| .none => some (m, none, h.toNat, w.toNat)", ["C83"])
m("M245", SL, "Shell.ofGenerated", "| .error e => .error e\n  | .ok none => .error .RecursionError", "| .error _ => .error .TypeError\n  | .ok none => .error .RecursionError", ["C83"])
m("M246", SL, "Shell.Arg.truth", "| .value v => v.truth\n", "| .value v => !v.truth\n", ["C84", "C86"])
# help
HE = "Model/Help.lean"
m("M250", HE, "Shell.sigItem", "Store.pyGet defaults ((i : Int) - defaults.length)", "Store.pyGet defaults ((i : Int) - n)", ["C85"], note="repaired")
m("M251", HE, "Shell.sigItem", "(n : Int) - defaults.length ≤ i then", "(n : Int) - defaults.length < i then", ["C85"])
m("M252", HE, "Shell.Func.shown", "if f.isMethod then f.args.drop 1 else f.args", "f.args", ["C85"])
m("M253", HE, "Shell.helpOne", "helpFirst (docs n) ++ helpRest verbose (docs n)", "helpFirst (docs n) ++ helpRest true (docs n)", ["C86"])
m("M254", HE, "Shell.sections", "[\"loop\".toList, \"stack\".toList, \"push\".toList, \"pop\".toList]", "[\"loop\".toList, \"stack\".toList, \"push\".toList]", ["C86"])
m("M255", HE, "Shell.helpFn", "| .value _ => .error .AttributeError", "| .value _ => helpAll docs", ["C86"])
m("M256", HE, "Shell.helpRest", "((Py.splitGo ['\\n'] d 0 []).drop 1)", "(Py.splitGo ['\\n'] d 0 [])", ["C86"])
m("M257", HE, "Shell.helpFirst", "| some d => Py.strip ((Py.splitGo ['\\n'] d 0 []).headD [])", "| some d => Py.strip d", ["C86"])
m("M258", HE, "Shell.func", "defaults := (signature n).filterMap fun p => p.2.map Val.repr", "defaults := []", ["C85"])
# the command line
MA = "Model/Main.lean"
m("M260", MA, "Main.given", "if x = some [] then none else x", "x", ["C80"])
m("M261", MA, "Main.main", "| none => .unreadable\n    | some (input, tty) => runShell lib sys input tty", "| none => runShell lib sys sys.stdin sys.stdinTty\n    | some (input, tty) => runShell lib sys input tty", ["C80"])
m("M262", MA, "Main.main", "executeLine lib false line", "executeLine lib sys.stdinTty line", ["C80"])
m("M263", MA, "Main.Ending.status", "| .ran _ (some (.crash _)) => 1", "| .ran _ (some (.crash _)) => 0", ["C80"])
m("M264", MA, "Main.runShell", "run lib tty sys.greeting input (init lib tty sys.world)", "run lib sys.stdinTty sys.greeting input (init lib sys.stdinTty sys.world)", ["C80"])
# texts of steps
ST = "Model/StepText.lean"
m("M270", ST, "Solvers.Kind.className", "| .nakedTuple 5 => \"NakedQuint\".toList", "| .nakedTuple 5 => \"NakedQuad\".toList", ["C87"])
m("M271", ST, "Solvers.tupleText", "'(' :: (Py.join [',', ' '] l ++ [')'])", "'(' :: (Py.join [] l ++ [')'])", ["C87"])
m("M272", ST, "Solvers.Step.repr", "cellsText st.clues ++ [',', ' '] ++ cellsText st.affected", "cellsText st.affected ++ [',', ' '] ++ cellsText st.clues", ["C87"])
m("M273", ST, "Solvers.Step.str", "\" at \".toList ++ cellsText st.clues ++ [':', ' ']", "\" at \".toList ++ cellsText st.affected ++ [':', ' ']", ["C87"])
m("M274", ST, "Solvers.Step.str", "cellText a ++ [':', ' '] ++ Py.intStr v)", "cellText a)", ["C87"])
m("M275", ST, "Solvers.Kind.isSingle", "| .nakedSingle | .hiddenSingle | .bruteforce => true", "| .nakedSingle | .hiddenSingle => true", ["C87"])
# beginning of a game
m("M280", GA, "Game.newGame", "| some (solution :: _) => match Solvers.rate", "| some (_ :: _) => let solution := x\n      match Solvers.rate", ["C74"], note="the puzzle is kept as the solution")
m("M281", GA, "Game.newGame", "| some (s, none) =>\n          some (.ok { s with out", "| some (s, none) =>\n          some (.ok { s with index := 1, out", ["C74"])
m("M282", GA, "Game.newSudoku", "autofill set false rounds (Solve.initCandidates generated) []", "autofill set false rounds generated []", ["C74"])
# rate, solve
m("M290", SV, "Solvers.rating", "| .pointingTuple 2 => some 4", "| .pointingTuple 2 => some 1", ["C88", "C89", "C90"], note="ratings no longer in the order of SOLVERS")
m("M291", SV, "Solvers.solvers", ".basicFish 2, .basicFish 3,", ".basicFish 3, .basicFish 2,", ["C88"])
m("M292", SV, "Solvers.solvers", ".nakedTuple 2, .hiddenTuple 2, .nakedTuple 3", ".hiddenTuple 2, .nakedTuple 2, .nakedTuple 3", ["C30"], note="same ratings; observable in the list of hints only")
m("M293", SV, "Solvers.round", ".ok (some w') else round π fuel ks w", "(match round π fuel ks w' with | .ok none => .ok (some w') | x => x) else round π fuel ks w", ["C88"], note="the classes after a successful one are tried before the first again")
m("M294", SV, "Solvers.maxList", "l.foldl max 0", "l.foldl min 10", ["C32", "C88"])
m("M295", SV, "Solvers.rate", "if rs = [] then 0 else maxList rs", "if rs = [] then 0 else rs.sum", ["C32", "C88"])
m("M296", SV, "Solvers.score", "some rs.sum", "some (maxList rs)", ["C33"])
m("M297", SV, "Solvers.nakedAt", "if all.card ≤ n then\n", "if all.card = n then\n", ["C62"], note="the same where every field has candidates")
m("M298", SV, "Solvers.round", "w'.2.length > w.2.length", "w'.2.length ≥ w.2.length", ["C30"])
m("M299", SV, "Solvers.solve", "Solve.initCandidates s.copy true", "Solve.initCandidates s.copy false", ["C30"], note="no CalculateCandidates steps reported")
m("M300", SV, "Solvers.pointingInLine", "(n : Nat) (x : Nat)", "(n : Nat) (_x : Nat)", [], count=0) if False else None
m("M301", SV, "Solvers.rating", "| .nakedTuple 3 => some 2", "| .nakedTuple 3 => some 3", ["C88"], note="NakedTriple as difficult as NakedQuad, while HiddenTriple after it is easier")
m("M302", SV, "Solvers.ratings", ".ok (r :: rs)", ".ok (if r = 0 then rs else r :: rs)", ["C32"], note="steps of rating 0 do not count: neither rate nor score changes")
m("M303", SV, "Solvers.loop", "| .ok none => .ok (some w)\n", "| .ok none => .ok none\n", ["C30", "C31"])
# what can be generated
m("M310", GE, "Generate.fillBox", "match ns.getLast? with\n    | none => .error .IndexError\n    | some v => fillBox l ns.dropLast", "match ns.head? with\n    | none => .error .IndexError\n    | some v => fillBox l ns.tail", ["C94"], note="numbers.pop(0)")
m("M311", GE, "Generate.createSolution", "| .ok (t :: _) => .ok t", "| .ok (t :: l) => .ok (l.getLastD t)", ["C94"], note="the last solution: also a full sudoku")
m("M312", GE, "Generate.reduce", "b (solution.get b), p.2 + 1)) (sudoku, count)", "b 0, p.2 + 1)) (sudoku, count)", ["C35", "C93"], note="fields are not restored")
m("M313", GE, "Generate.templateLoop", "if (t : Int) < tries ∨ tries < 0 then", "if (t : Int) < tries then", ["C40", "C93"], note="negative numbers of tries mean none")
m("M314", GE, "Generate.reduce", "if count - stepCoords.length < minCount then .ok (some sudoku)", "if count - stepCoords.length ≤ minCount then .ok (some sudoku)", ["C93"], note="stops one number too early")
m("M315", GE, "Generate.templateLoop", "let sudoku := mask template solution.copy", "let sudoku := mask template template", ["C40", "C93"])
m("M316", GE, "Generate.Sym.fields", "| .mirrorXY => [(a.1, a.2), (w*h-1-a.1, a.2), (a.1, w*h-1-a.2), (w*h-1-a.1, w*h-1-a.2)]", "| .mirrorXY => [(a.1, a.2), (w*h-1-a.1, a.2), (a.1, w*h-1-a.2)]", ["C37", "C93"])
# exact covers
m("M320", DL, "Dlx.minKey", "if ((List.lookup k X).getD []).length ≤ ((List.lookup k' X).getD []).length then some k else some k'", "if ((List.lookup k X).getD []).length ≤ ((List.lookup k' X).getD []).length then some k' else some k", [], note="the column with most rows: the same covers are found, in more time and another order")
m("M321", DL, "Dlx.selStep", "let (v, X) ← Dict.pop X j\n  pure (X, v :: p.2)", "pure (X, is :: p.2)", ["C95"], note="the column is not taken out")
m("M322", DL, "Dlx.deselStep", "let X := Dict.set p.1 j v\n", "let X := Dict.set p.1 j []\n", ["C95"])
m("M323", DL, "Dlx.search", "| none => .ok ([solution], X)", "| none => .ok ([solution.reverse], X)", ["C95"])
m("M324", DL, "Dlx.exactCover", "(X.dedup.map fun j => (j, []))", "([] : Dict κ (List ρ))", ["C95"])
m("M325", DL, "Dlx.searchLoop", "| .ok X => match searchLoop rec Y rs X solution with\n          | .error e => .error e\n          | .ok (sols', X) => .ok (sols ++ sols', X)", "| .ok X => match searchLoop rec Y rs X solution with\n          | .error e => .error e\n          | .ok (sols', _) => .ok (sols ++ sols', X)", ["C95"], note="equivalent: the dict is the same up to the order of entries")
m("M326", DL, "Dlx.setRemove", "if i ∈ l then .ok (l.erase i) else .error .KeyError", ".ok (l.erase i)", ["C95"], note="discard instead of remove: the same except for rows with repeated columns")
m("M327", DL, "Dlx.searchLoop", "match deselect X Y r cols with", "match (if cols.length > 4 then .ok X else deselect X Y r cols) with", ["C95"], note="rows with more than four columns are not deselected: the same for sudokus")
# step objects
m("M330", SV, "Solvers.StepObj.apply", ".ok ({ o with actions := acts }, acts.foldl Action.exec s)", ".ok (o, acts.foldl Action.exec s)", ["C56", "C96"], note="the actions are not remembered")
m("M331", SV, "Solvers.StepObj.apply", "else .ok (o, o.actions.foldl Action.exec s)", "else .ok (o, s)", ["C96"], note="an object can be applied only once")
m("M332", SV, "Solvers.StepObj.apply", "match o.step.build s with\n    | .error e => .error e\n", "match o.step.build s with\n    | .error _ => .ok (o, s)\n", ["C96"])
m("M333", SV, "Solvers.StepObj.apply", "else .ok (o, o.actions.foldl Action.exec s)", "else .ok ({ o with actions := [] }, o.actions.foldl Action.exec s)", ["C56", "C96"], note="remembered for one time only")
# interrupts
IT = "Model/Interrupt.lean"
m("M334", IT, "Shell.runLoopI", "if interactive then runLoopI lib interactive cut input (lines ++ line) s else", "if interactive then runLoopI lib interactive cut input [] s else", ["C97"], note="the interrupted text is discarded (repaired)")
m("M335", IT, "Shell.runLoopI", "          if lines = [] then runLoopI lib interactive cut input [] s\n          else match", "          if interactive then runLoopI lib interactive cut input [] s\n          else match", ["C97"], note="a command begun is discarded (repaired)")
m("M336", IT, "Shell.runLoopI", "        else (s, some (.exit 2))\n", "        else (s, some (.exit 1))\n", ["C97"])
m("M337", IT, "Shell.interruptible", "if c.name.takesSudoku then s.heap.set s.cur x else s.heap", "[x]", ["C97"], note="all sudokus are lost")
m("M338", IT, "Shell.runLoopI", "s.write (.prompt useExit)", "s.write (.text useExit)", ["C97"])
m("M339", IT, "Shell.executeI", "(loopWith lib interactive (interruptible cut (executeBody lib interactive)))", "(loopWith lib interactive (executeBody lib interactive))", ["C97"], note="loops cannot be interrupted")
m("M340", IT, "Shell.runLoopI", "(lines ++ line) s else (s, some (.exit 2))", "(lines ++ line) s else (s, some .interrupt)", ["C97"], note="KeyboardInterrupt is not caught in scripts")
m("M341", IT, "Shell.runLoopI", "| (s, some .interrupt) => runLoopI lib interactive cut input lines (s.write (.prompt ['\\n']))", "| (s, some .interrupt) => (s, some .interrupt)", ["C97"])
# integers as coordinates
IC = "Model/IntCoordinates.lean"
m("M342", IC, "IntCoordinates.columnOf", "incl || i != row", "incl || i != row % (width * height : Nat)", ["C98"], note="repaired")
m("M343", IC, "IntCoordinates.number", "match Store.pyIdx s.n a.1, Store.pyIdx s.n a.2 with", "match (if a.1 < 0 then none else Store.pyIdx s.n a.1), Store.pyIdx s.n a.2 with", ["C98"], note="negative rows are rejected")
m("M344", IC, "IntCoordinates.pyRemove", "else .error .ValueError", "else .ok l", ["C98"])
m("M345", IC, "IntCoordinates.boxOf", "let gridY := row - row % height\n    let coords", "let gridY := row - row.tmod height\n    let coords", ["C98"], note="% as in C")
m("M347", IC, "IntCoordinates.conflictsWith", "(if x = v then (a, b, v) :: r.1 else r.1, r.2)", "(if x = v ∧ a ≠ b then (b, a, v) :: r.1 else r.1, r.2)", ["C98"])
m("M348", IC, "IntCoordinates.discardAll", "discardAll s l (cs.erase x)", "discardAll s l (if b.1 < 0 then cs else cs.erase x)", ["C98"])
# generators
GN = "Model/Generators.lean"
m("M350", GN, "Generators.onCopy", "reading k W (fun o => Store.copy W.state.heap o false) fun q =>\n    runOn user W.state.objs.length p { W with state := ⟨q.1, W.state.objs ++ [q.2]⟩ }", "runOn user k p W", ["C99"], note="the generators work on the argument itself")
m("M351", GN, "Generators.onCopy", "(fun o => Store.copy W.state.heap o false) fun q =>\n    runOn", "(fun o => .ok (W.state.heap, o)) fun q =>\n    runOn", ["C99"], note="a second name for the argument instead of a copy")
m("M352", GN, "Generators.runOn", "reading i W (fun o => Store.copy W.state.heap o false) fun p =>\n      let W", "reading i W (fun o => .ok (W.state.heap, o)) fun p =>\n      let W", ["C99"], note="yield solution instead of solution.copy()")
m("M353", GN, "Generators.runOn", "reading i W (fun o => Store.copy W.state.heap o false) fun p =>\n      let W", "reading i W (fun o => Store.copy W.state.heap o true) fun p =>\n      let W", ["C99"], note="candidates are copied too")
m("M354", GN, "Generators.bfLoop", "    restore saved\n    setNum a 0\n", "    setNum a 0\n", ["C99"])
m("M355", GN, "Generators.bfLoop", "    restore saved\n    setNum a 0\n", "    restore saved\n", ["C99"])
m("M356", GN, "Generators.search", "      writeAll solution\n      give\n", "      give\n      writeAll solution\n", ["C99"])
m("M357", GN, "Generators.runOn", "| some cmds => runOn user i k { W with state := (Store.run W.state cmds).1 }", "| some _ => runOn user i k W", [], note="the body of the loop has no effect: the consumer as such; C99 must not hold trivially")
m("M358", GN, "Generators.bruteforce", "| (W, .ok false) => onCopy user k (do initCandidates w h (Sudoku.new w h).cells; doBruteforce w h π fuel []) W", "| (W, .ok false) => match runOn user k (initCandidates w h (Sudoku.new w h).cells) W with\n    | (W, .error e) => (W, .error e)\n    | (W, .ok _) => onCopy user k (do initCandidates w h (Sudoku.new w h).cells; doBruteforce w h π fuel []) W", ["C99"], note="init_candidates also on the argument")
m("M359", GN, "Generators.selectGiven", "| .error .KeyError => return none", "| .error .KeyError => selectGiven Y l X", ["C99"], note="numbers that do not fit are ignored")
# loops that change the sudoku
LZ = "Model/Lazy.lean"
m("M360", LZ, "Lazy.filterLoop", "| some s => let r := filterLoop p body l s; (a :: r.1, r.2)", "| some s' => let r := filterLoop (fun _ b => p s b) body l s'; (a :: r.1, r.2)", ["C100"], note="a list made in the beginning")
m("M361", LZ, "Lazy.conflictsAt", "if num s b = v then", "if num s b = v ∧ num s a = v then", ["C100"], note="the number of the first field is read again (repaired)")
m("M362", LZ, "Lazy.conflictsLoop", "let value := num s a\n    if value = 0 then conflictsLoop num w h body l s", "let value := num s a\n    if value = 0 then ([], s, true)", ["C100"])
m("M363", LZ, "Lazy.diff", "num s a != other s a", "num s a != other s a && num s a != 0", ["C100"])
m("M364", LZ, "Lazy.filterLoop", "| none => ([a], s, false)", "| none => ([], s, false)", [], note="the last field is missing when the loop is left: a prefix all the same")
# comparing
CM = "Model/Compare.lean"
m("M365", CM, "Compare.eq", "e = .IndexError ∨ e = .KeyError ∨ e = .TypeError", "e = .IndexError ∨ e = .TypeError", ["C101"])
m("M366", CM, "Compare.eqLoop", "if Item.int (s.get a) ≠ x then .ok false else eqLoop s o l", "match eqLoop s o l with | .error e => .error e | .ok b => .ok (b && decide (Item.int (s.get a) = x))", ["C101"], note="all fields are compared")
m("M367", CM, "Compare.diffLoop", "| .error e => ([], some e)", "| .error _ => diffLoop s o l", ["C101"])
m("M368", CM, "Compare.equalsLoop", "      if Item.int (s.get a) ≠ x then .ok false\n      else if candidates then", "      if candidates = false ∧ Item.int (s.get a) ≠ x then .ok false\n      else if candidates then", ["C101"], note="with candidates the numbers are not compared")
# texts of sudokus (C104-C106)
CO = "Model/Codec.lean"
m("M369", CO, "Codec.pieceCandidates", "else Py.ints ((Py.strip c).map fun c => [c])", "else match Py.ints ((Py.strip c).map fun c => [c]) with | .ok (v :: _) => .ok [v] | r => r", ["C104"], note="only the first digit of a piece counts")
m("M370", CO, "Codec.readCandidates", "let col' := if col + 1 = s.n then 0 else col + 1\n        if row' = s.n then .ok s", "let col' := if col + 1 = s.n then 0 else col + 1\n        if row' = s.n then (if l = [] then .ok s else .error .ValueError)", ["C104"], note="too many pieces are an error")
m("M371", CO, "Codec.decodeCandidates", "if candidates = [] then .ok s", "if candidates = [] then .error .ValueError", ["C104"], note="a separator without candidates is an error")
m("M372", CO, "Codec.removeSpace", "if c ∉ special then Py.replaceChar c p.numberSep s else s", "if c ∉ special then Py.replaceChar c [] s else s", ["C105"], note="whitespace is ignored also if there is a separator (repaired)")
m("M373", CO, "Codec.pieceCandidates", "    | .ok l => Py.ints l\n", "    | .ok l => Py.ints (l.filter (· ≠ []))\n", ["C105"], note="empty candidate pieces are accepted (repaired)")
m("M374", CO, "Codec.items", "if p.numberSep ≠ [] then Py.split fields p.numberSep", "if p.numberSep ≠ [] then (Py.split fields p.numberSep).map (·.filter (· ≠ []))", ["C105"], note="empty items are dropped")
m("M375", CO, "Codec.fieldText", "else prefix_ ++ Py.join (viewSep s) ((Solvers.sortSet (s.getCandidates a)).map Py.intStr)", "else Py.join (viewSep s) ((Solvers.sortSet (s.getCandidates a)).map Py.intStr)", ["C106", "C12"], note="the prefix is not printed")
m("M376", CO, "Codec.fieldText", "if s.get a ≠ 0 then Py.intStr (s.get a)", "if s.get a ≠ 0 ∧ s.getCandidates a = ∅ then Py.intStr (s.get a)", ["C106"], note="filled fields with candidates are shown like empty ones")
m("M377", CO, "Codec.viewSep", "if maxLength s > 1 then [','] else []", "[]", ["C106"], note="no commas between candidates of two digits")
m("M378", CO, "Codec.rule", "List.replicate dash '-' ++ ['\\n'])", "List.replicate (dash - 1) '-' ++ ['\\n'])", ["C12"])
# messages (C107, C49, C50, C108)
SH = "Model/Shell.lean"
m("M379", SH, "Shell.unknownMessage", "  pyRepr (\"Unknown", "  id (\"Unknown", ["C107"], note="without the quotation marks (repaired)")
m("M380", SH, "Shell.parseItems", "      | .error e => .error (literalErr value e)", "      | .error e => .error (literalErr item e)", ["C107"], note="the whole of name=value is shown")
m("M381", SH, "Shell.parse", "  | funcname :: items => match parseItems lib items [] [] with\n    | .error e => .error e\n", "  | funcname :: items => match parseItems lib items [] [] with\n    | .error e => if (command? funcname).isSome then .error e else .error (.unknown funcname)\n", ["C107"], note="unknown commands are reported first")
m("M382", SH, "Shell.pyRepr", "if '\\'' ∈ s ∧ '\"' ∉ s then '\"' else '\\''", "'\"'", ["C107"], note="always double quotation marks: also a literal of the same string")
m("M383", SH, "Shell.reprChar", "c.toNat < 32 ∨ c.toNat = 127", "c.toNat < 32", ["C107"])
m("M384", SH, "Shell.positionMessage", "\"0 <= position < \".toList ++ Py.natStr n", "\"0 <= position < \".toList ++ Py.natStr (n + 1)", ["C49"])
m("M385", SH, "Shell.loopWith", "if k ≤ 0 then returnError interactive (countMessage (Py.intStr k)) s", "if k ≤ 0 then returnError interactive (countMessage (argStr lib n)) s", ["C50"], note="what was typed is shown, not the number")
m("M386", SH, "Shell.hexDigit", "Char.ofNat (87 + n)", "Char.ofNat (55 + n)", ["C107"], note="capital letters")
AT = "Model/ActionText.lean"
m("M387", AT, "Actions.str", "seqText q' (vs.map Py.intStr) ++ [')']", "seqText q' ((vs.take 1).map Py.intStr) ++ [')']", ["C108"])
m("M388", AT, "Actions.pairText", "Solvers.tupleText [Py.intStr p.1, Py.intStr p.2]", "Solvers.tupleText [Py.intStr p.1 ++ Py.intStr p.2]", ["C108"])
m("M389", AT, "Actions.seqText", "Py.join [',', ' '] l", "Py.join [','] l", ["C108"])
m("M390", AT, "Actions.decodedCoordinates", "def decodedCoordinates : Seq := .tuple", "def decodedCoordinates : Seq := .list", ["C108"], note="the first version of the model")
# the language of decode (C109) and the texts of exceptions (C110)
NO = "Model/Notation.lean"
ET = "Model/ErrorText.lean"
m("M391", NO, "Notation.readChar", "    if q ∈ st.present then .error .ValueError", "    if q ∈ st.present ∨ some q = st.current then .error .ValueError", ["C109"], note="a letter may not come twice (repaired)")
m("M392", NO, "Notation.finish", "    | .ok numbers => .ok (State.put st.nums cur numbers)", "    | .ok numbers => if numbers = [] then .error .ValueError else .ok (State.put st.nums cur numbers)", ["C109"], note="the last letter needs a number (repaired)")
m("M393", NO, "Notation.finish", "    | .ok numbers => .ok (State.put st.nums cur numbers)", "    | .ok numbers => .ok (State.put st.nums cur (st.nums cur ++ numbers))", ["C109"], note="the numbers of a repeated letter are collected")
m("M394", NO, "Notation.splitGroups", "['r', 'c', 'b', 'p'].foldl", "['r', 'c', 'b'].foldl", ["C109"], note="groups beginning with p are not found")
m("M395", NO, "Notation.intersection", "l.all fun T => decide (a ∈ T)", "l.any fun T => decide (a ∈ T)", ["C109"])
m("M396", ET, "ErrorText.unitText", "Py.natStr width)).flatten", "Py.natStr (width * height))).flatten", ["C110"], note="only half repaired")
m("M397", ET, "ErrorText.unitText", "(List.replicate height (name", "(List.replicate 1 (name", ["C110"], note="only half repaired")
m("M398", ET, "ErrorText.theColumn", "unitText \"col\".toList", "unitText \"column\".toList", ["C110"])
m("M399", ET, "ErrorText.generate", "  if minCount > countLimit then\n", "  if minCount > countLimit ∧ (Generate.Sym.lookup symmetry).isSome then\n", ["C110"], note="the symmetry is checked first")
m("M400", ET, "ErrorText.symmetryNames", "\"None, rotate-90, rotate-180,", "\"rotate-90, rotate-180,", ["C110"])
m("M401", ET, "ErrorText.templateLoop", "++ Py.intStr tries ++ \" tries.\".toList)⟩", "++ Py.intStr t ++ \" tries.\".toList)⟩", ["C110"], note="t = tries here if tries >= 0")
m("M402", ET, "ErrorText.guessBox", "(must be square number): \".toList ++ Py.natStr count)", "(must be square number): \".toList ++ Py.natStr count.sqrt)", ["C110"])
m("M403", ET, "ErrorText.guessBox", "\"Invalid row length: \".toList ++ Py.natStr length)", "\"Invalid row length: \".toList ++ Py.natStr count)", ["C110"])
m("M404", ET, "ErrorText.int", "| .error e => .error ⟨e, .badInt item⟩", "| .error e => .error ⟨e, .badInt (Py.strip item)⟩", ["C110"], note="int strips its argument, but shows it as it is; in the texts covered there is no blank in an item")
m("M405", ET, "ErrorText.collect", "\"Invalid coordinates (\".toList ++ Py.intStr row ++ \", \".toList ++ Py.intStr col", "\"Invalid coordinates (\".toList ++ Py.intStr col ++ \", \".toList ++ Py.intStr row", ["C110"])
m("M406", ET, "ErrorText.readChar", "\"No numbers given for '\".toList ++ [qualChar cur]", "\"No numbers given for '\".toList ++ [ch]", ["C110"])
m("M407", ET, "ErrorText.readChar", "    if q ∈ st.present then valueError (malformed group ++ \"'\".toList ++ [ch] ++ \"' has multiple occurrences.\".toList)\n    else match st.current with\n", "    if q ∈ st.present ∧ st.str ≠ [] then valueError (malformed group ++ \"'\".toList ++ [ch] ++ \"' has multiple occurrences.\".toList)\n    else match st.current with\n", ["C110"], note="'No numbers given' comes first")
m("M408", ET, "ErrorText.decodeSingle", "allSets nums width height [.r, .c, .b, .p]", "allSets nums width height [.b, .p, .r, .c]", ["C110"], note="the box is looked at first")
m("M409", ET, "ErrorText.finish", "valueError (\"Empty group '\".toList ++ group ++ \"'\".toList)", "valueError (\"Empty group\".toList)", ["C110"])
m("M410", ET, "ErrorText.decodeAction", "      | none => valueError (\"Cannot decode action '\".toList ++ s ++ \"'\".toList)", "      | none => valueError (\"Cannot decode action '\".toList ++ s.dropLast ++ \"'\".toList)", ["C110"])
m("M411", ET, "ErrorText.decodeGroups", "  | g :: l => match decodeSingle g width height nsep with\n    | .error e => .error e\n    | .ok cells => match decodeGroups width height nsep l with\n      | .error e => .error e\n      | .ok more => .ok (cells ++ more)", "  | g :: l => match decodeGroups width height nsep l with\n    | .error e => .error e\n    | .ok more => match decodeSingle g width height nsep with\n      | .error e => .error e\n      | .ok cells => .ok (cells ++ more)", ["C110"], note="the last wrong group is reported")
m("M412", ET, "ErrorText.readChar", "\"' is illegal at this position.\".toList)", "\"' is illegal at this position\".toList)", ["C110"])
m("M413", ET, "ErrorText.malformed", "group ++ \"'. \".toList", "group ++ \"'\".toList", ["C110"])
m("M414", ET, "ErrorText.checkSize", "if width < 1 ∨ height < 1 then", "if width < 1 ∧ height < 1 then", ["C110"])
CX = "Model/Codec.lean"
m("M415", CX, "Codec.removeSpace", "Py.replaceChar c p.numberSep s else s", "Py.replaceChar c (p.numberSep.take 1) s else s", ["C105"], note="only the first character of the separator")
m("M416", CX, "Codec.removeSpace", "p.empty ++ p.sudokuSep ++ p.candidateSep ++ p.numberSep", "p.empty ++ p.sudokuSep ++ p.candidateSep", ["C105"])
m("M417", CX, "Codec.items", "then Py.split fields p.numberSep else", "then Py.split fields (p.numberSep.take 1) else", ["C105"])
m("M418", CX, "Codec.decodeCandidates", "else match Py.split candidates p.candidateSep with", "else match Py.split candidates (p.candidateSep.take 1) with", ["C105"])
m("M419", CX, "Codec.encodeField", "((Solvers.sortSet c).map Py.intStr).flatten", "((Solvers.sortSet c).reverse.map Py.intStr).flatten", ["C111", "C10"])
m("M420", CX, "Codec.pieceCandidates", "    match Py.split (Py.strip c) p.numberSep with", "    match Py.split c p.numberSep with", ["C105"])
m("M421", CX, "Codec.parts", "| some ab => if p.sudokuSep = [] then .error .ValueError else .ok ab", "| some ab => if p.sudokuSep = [] then .error .ValueError else .ok (ab.1, ab.2.drop 1)", ["C104", "C111"])
m("M422", CX, "Codec.encode", "++ '|' :: Py.join [',']", "++ '|' :: Py.join [';']", ["C111", "C10"])
SH = "Model/Shell.lean"
SL = "Model/ShellLib.lean"
m("M423", SH, "Shell.Err.line", "| .exn _ (.text t) => some (\"Error: \".toList ++ t ++", "| .exn _ (.text t) => some (t ++", ["C112"])
m("M424", SH, "Shell.Err.line", "(pyRepr item).take 200", "(pyRepr item).take 2", ["C112"])
m("M425", SH, "Shell.executeWith", "| (s, .raised e) => error interactive (.exn e.cls e.why) s", "| (s, .raised e) => error interactive (.exn e.cls) s", ["C112"])
m("M426", SL, "Shell.ofSudoku", "  | .ok x => .ok (.sudoku x)\n  | .error e => .error e", "  | .ok x => .ok (.sudoku x)\n  | .error e => .error ⟨e.cls, .builtin⟩", ["C112"])
m("M427", "Model/ErrorText.lean", "ErrorText.guessBox", "then valueError (\"Invalid row length: \".toList ++ Py.natStr length)", "then valueError (\"Invalid row length: \".toList ++ Py.natStr count)", ["C112", "C110"])
m("M428", SH, "Shell.error", "errors := s.errors ++ [e]", "errors := [e]", ["C112"])
m("M429", SH, "Shell.pyRepr", "let q := if '\\'' ∈ s ∧ '\"' ∉ s then '\"' else '\\''", "let q := if '\\'' ∈ s then '\"' else '\\''", ["C107", "C112"])
ST = "Model/Strings.lean"
m("M430", ST, "Py.asciiChar", "else if isSpace c then ' '", "else if isSpace c then '?'", ["C105", "C104"], tightened=["C105_blanks"], note="int refuses surrounding blanks that are not ASCII; survived until C105_blanks was added")
m("M431", ST, "Py.asciiChar", "    | some d => digitChar d\n    | none => '?'", "    | some d => '?'\n    | none => '?'", ["C11", "C104", "C111"], note="only ASCII digits")
m("M432", ST, "Py.asciiChar", "    | some d => digitChar d\n    | none => '?'", "    | some d => digitChar d\n    | none => '0'", ["C11", "C104"], note="other characters count as 0")
m("M433", ST, "Py.decimal", "    | some z => some (c.toNat - z)", "    | some z => some (c.toNat - z + 1)", ["C104"], note="the digits of other scripts begin with one")
m("M434", ST, "Py.readDigits", "else if c = '_' ∧ afterDigit = true then readDigits s acc false else none", "else none", ["C105"], note="no underscores")
m("M435", ST, "Py.readDigits", "if afterDigit then some acc else none", "some acc", ["C105", "C11"], note="int('') is 0")
m("M436", ST, "Py.asciiInt", "    | some k => .ok (-(k : Int))", "    | some k => .ok (k : Int)", ["C105"], note="the sign is ignored")
SV = "Model/Solvers.lean"
m("M437", SV, "Solvers.solvers", ".hiddenSingle, .nakedTuple 2, .hiddenTuple 2, .nakedTuple 3", ".hiddenSingle, .hiddenTuple 2, .nakedTuple 2, .nakedTuple 3", ["C116", "C115"], note="hidden pairs before naked pairs")
m("M438", SV, "Solvers.solvers", ".nakedTuple 4, .hiddenTuple 4, .nakedTuple 5, .hiddenTuple 5", ".nakedTuple 4, .nakedTuple 5, .hiddenTuple 4, .hiddenTuple 5", ["C116"], note="naked quintuples before hidden quadruples")
m("M439", SV, "Solvers.solvers", ".basicFish 2, .basicFish 3, .basicFish 4", ".basicFish 3, .basicFish 2, .basicFish 4", ["C116"])
m("M440", SV, "Solvers.solvers", ".nakedTuple 3, .hiddenTuple 3,\n", ".nakedTuple 3,\n", ["C116"], note="no hidden triples")
m("M441", SV, "Solvers.round", "then .ok (some w') else round π fuel ks w", "then round π fuel ks w' else round π fuel ks w", ["C116", "C115"], note="a round goes on with the later classes")
m("M442", SV, "Solvers.consume", "w.2 ++ [st])", "w.2)", ["C116", "C33", "C114"], note="nothing is reported")
m("M443", SV, "Solvers.rating", "| .pointingTuple 2 => some 4", "| .pointingTuple 2 => some 2", ["C114", "C115"])
m("M444", SV, "Solvers.rating", "| .nakedSingle => some 1", "| .nakedSingle => some 0", ["C33", "C114", "C115"])
m("M445", SV, "Solvers.score", "| .ok rs => .ok (some rs.sum)", "| .ok rs => .ok (some rs.length)", ["C114", "C115"])
PV = "Model/PyValues.lean"
CA = "Model/Calls.lean"
m("M446", PV, "Shell.signature", "| .loop => [(['n'], none)]", "| .loop => [(['%'], none)]", ["C85"], tightened=["C85_table (new): the automatic mutation A2-047 was not noticed before"], note="same edit as A2-047")
m("M447", DL, "Dlx.minKey", "      if ((List.lookup k X).getD []).length ≤ ((List.lookup k' X).getD []).length then some k else some k'", "      if ((List.lookup k X).getD []).length ≤ ((List.lookup k' X).getD []).length then some k' else some k", ["C118"], note="a column with most rows; the solutions are the same")
m("M448", DL, "Dlx.minKey", "      if ((List.lookup k X).getD []).length ≤ ((List.lookup k' X).getD []).length then some k else some k'", "      some k", ["C118"], note="the first column; the solutions are the same")
m("M449", SO, "Solve.pickEmpty", "(s.getCandidates a).card ≤ (s.getCandidates b).card).head?", "(s.getCandidates b).card ≤ (s.getCandidates a).card).head?", ["C118"], note="a field with most candidates; the solutions are the same")
m("M450", SO, "Solve.pickEmpty", "  (s.empty.insertionSort fun a b => (s.getCandidates a).card ≤ (s.getCandidates b).card).head?", "  s.empty.head?", ["C118"], note="the first empty field; the solutions are the same")
m("M451", CA, "Dlx.searchLoopN", ".ok (sols ++ sols', X, n + n')", ".ok (sols ++ sols', X, n)", ["C118"], note="only the calls for the first row are counted")
m("M452", CA, "Dlx.searchN", ".ok (sols, X, n) => .ok (sols, X, n + 1)", ".ok (sols, X, n) => .ok (sols, X, n)", ["C118"])
m("M453", CA, "Dlx.searchN", "| none => .ok ([solution], X, 1)", "| none => .ok ([solution], X, 0)", ["C118"])
m("M454", CA, "Solve.bfLoopN", "some (sols ++ sols', s, n + n')", "some (sols ++ sols', s, max n n')", ["C118"])
m("M455", CA, "Solve.doBruteforceN", "| some (sols, s, n) => some (sols, s, n + 1)", "| some (sols, s, n) => some (sols, s, n)", ["C118"])
GC = "Model/GenerateCalls.lean"
m("M456", GC, "Generate.push", "(t, (u, b) :: calls)", "(t, calls)", ["C120"], note="the calls are not recorded")
m("M457", GC, "Generate.push", "(t, (u, b) :: calls)", "(t, calls ++ [(u, b)])", ["C120"], note="the calls in reverse order")
m("M458", GC, "Generate.reduceT", "push tested false", "push sudoku false", ["C120"], note="the sudoku after the revert is recorded")
m("M459", GC, "Generate.reduceT", "push tested false", "push tested true", ["C120"])
m("M460", GC, "Generate.reduceT", "          push tested false (reduceT", "          (reduceT", ["C120"], note="rejected sudokus are not recorded")
m("M461", GE, "Generate.Sym.fields", "(w*h-1-a.2, a.1), (w*h-1-a.1, w*h-1-a.2), (a.2, w*h-1-a.1)]", "(w*h-1-a.1, w*h-1-a.2)]", ["C120", "C37"], note="rotate-90 as rotate-180")
m("M462", GC, "Generate.reduceT", "if count - stepCoords.length < minCount then", "if count - stepCoords.length ≤ minCount then", ["C120"], note="the two models differ")
GA = "Model/GenerateArgs.lean"
m("M463", GA, "GenerateArgs.item", "  | .value (.ints .set _) => .error .TypeError\n", "", ["C123"], note="sets have items")
m("M464", GA, "GenerateArgs.number", "  | .value (.bool b) => .ok (if b then 1 else 0)\n", "", ["C123"], note="booleans are no numbers")
m("M465", GA, "GenerateArgs.number", "  | .value (.int k) => .ok k\n", "  | .value (.int k) => .ok k\n  | .value .none => .ok 0\n", ["C123"], note="None counts as 0")
m("M466", GA, "GenerateArgs.symmetryKey", "  | .value (.ints .list _) | .value (.ints .set _) => .error ⟨.TypeError, .builtin⟩\n", "", ["C123"], note="unhashable symmetries are unknown names")
m("M467", GA, "GenerateArgs.sizes", "  | .value (.ints _ [w, h]) =>", "  | .value (.ints _ (w :: h :: _)) =>", ["C123"], note="more than two sizes are accepted")
m("M468", GA, "GenerateArgs.sizes", "if h ≤ 0 then .error .IndexError else ", "", ["C123"], note="heights are not checked")
m("M469", GA, "GenerateArgs.check", "if m > limit then", "if m ≥ limit then", ["C123"])
m("M470", GA, "GenerateArgs.countLimit", ".ok (p * q)", ".ok (p + q)", ["C123"])
m("M471", GA, "GenerateArgs.generateFromTemplate", "  match number tries with\n  | .error e => .error ⟨e, .builtin⟩\n", "  match number tries with\n  | .error _ => ErrorText.generateFromTemplate fuel rounds f template 100\n", ["C123"], note="the default for other values")
NA = "Model/NewArgs.lean"
m("M472", NA, "NewArgs.elements", "(l.dedup.map .int)", "(l.map .int)", ["C125"], note="equal elements of a set are counted twice")
m("M473", NA, "NewArgs.subscript", "  | .dict l => match l.lookup (i : Int) with\n    | some v => .ok (.int v)\n    | none => .error .KeyError", "  | .dict l => match l[i]? with\n    | some v => .ok (.int v.2)\n    | none => .error .KeyError", ["C125"], note="the values in their order")
m("M474", NA, "NewArgs.new", "  | .error .IndexError | .error .KeyError =>", "  | .error .IndexError | .error .KeyError | .error .ValueError =>", ["C125"], note="the message for all wrong lengths")
m("M475", NA, "NewArgs.body", ".ok ⟨w, h, n⟩", ".ok ⟨h, w, n⟩", ["C125"])
m("M476", NA, "NewArgs.rangeLength", "(a * b).toNat", "(a * b).natAbs", ["C125"], note="negative products")
m("M477", NA, "NewArgs.shown", "Py.intStr p.1 ++ \": \".toList", "Py.intStr p.1 ++ \":\".toList", ["C125"])
m("M479", "Model/ShellLib.lean", "Shell.newFn", "(if l.dedup.length = 2 then .TypeError else .ValueError)", ".TypeError", ["C125"], note="any set")
m("M480", "Model/Calls.lean", "Solve.bfLoopN", "some (sols ++ sols', s, n + n')", "some (sols ++ sols', s, n')", ["C118", "C124"], note="only the calls for the last candidate are counted")
m("M481", "Model/Calls.lean", "Dlx.searchN", ".ok (sols, X, n) => .ok (sols, X, n + 1)", ".ok (sols, X, n) => .ok (sols, X, min n 1 + n)", ["C118"], note="a call without any further call is not counted")
DA = "Model/DecodeArgs.lean"
m("M482", DA, "DecodeArgs.readNumbers", "if (row' : Int) ≥ s.limit then .ok s", "if row' ≥ s.made.size then .ok s", ["C126"], note="the loop stops at the rows of the instance")
m("M483", DA, "DecodeArgs.Raw.limit", "s.made.width * s.made.height", "(s.made.size : Int)", ["C126"])
m("M484", DA, "DecodeArgs.readCandidates", "if (row' : Int) = s.limit then .ok s", "if (row' : Int) > s.limit then .ok s", ["C126"])
m("M485", DA, "DecodeArgs.instanceFor", "[(w : Int), h]", "[(h : Int), w]", ["C126"], note="guessed sizes exchanged")
m("M486", DA, "DecodeArgs.decode", "decodeCandidates p candidates s", ".ok s", ["C126"], note="no candidates")
m("M487", DA, "DecodeArgs.readNumbers", "      if row < s.made.size ∧ col < s.made.size then\n        let s : Raw := { s with num", "      if row < s.made.size ∧ col < s.made.size ∨ s.limit ≤ 0 then\n        let s : Raw := { s with num", ["C126"], note="no IndexError if there are no rows")
m("M488", "Model/Calls.lean", "Dlx.searchN", ".ok (sols, X, n) => .ok (sols, X, n + 1)", ".ok (sols, X, n) => .ok (sols, X, n + 2)", ["C127", "C118"])
m("M489", "Model/Calls.lean", "Solve.doBruteforceN", "| some (sols, s, n) => some (sols, s, n + 1)", "| some (sols, s, n) => some (sols, s, 2 * n + 1)", ["C127", "C118"])
OC = "Model/OddCopy.lean"
m("M490", OC, "DecodeArgs.Raw.copy", "[s.made.width, s.made.height]", "[s.made.height, s.made.width]", ["C128"])
m("M491", OC, "DecodeArgs.Raw.copy", "if includeCandidates then", "if !includeCandidates then", ["C128"])
m("M493", OC, "DecodeArgs.Raw.encode", "Py.intStr (s.num (i, j))", "Py.intStr (s.num (j, i))", ["C128"], note="transposed")
m("M494", OC, "DecodeArgs.copyNumbers", "    else .error .IndexError\n\n/-- sudoku.py:139-141", "    else .ok t\n\n/-- sudoku.py:139-141", ["C128"], note="the loop stops without an exception")
UC = "Model/UniqueCalls.lean"
m("M495", UC, "Dlx.searchLoopK", "if sols.length = k then", "if sols.length ≥ 1 then", ["C130"], note="stops at the first solution")
m("M496", UC, "Dlx.searchLoopK", "searchLoopK rec Y rs (k - sols.length) X solution", "searchLoopK rec Y rs k X solution", ["C130"], note="the solutions found are not counted")
m("M497", UC, "Dlx.isUniqueN", "| .ok ([_], _, n) => .ok (true, n)", "| .ok ([_], _, n) => .ok (true, n + 1)", ["C130"], note="one call more")
m("M498", UC, "Dlx.isUniqueN", "searchK π Y fuel 2 X []", "searchK π Y fuel 3 X []", ["C130"], note="three solutions are looked for")
FS = "Model/FirstSolutions.lean"
m("M499", FS, "Solve.bfLoopK", "if sols.length = k then", "if sols.length + 1 = k then", ["C131"], note="stops one solution too early")
m("M500", FS, "Solve.bfLoopK", "        let s := s.setNumber a 0\n", "", ["C131"], note="the field is not emptied again")
m("M501", FS, "Solve.bruteforceK", "  if hasConflict s then some ([], 0)\n", "  if hasConflict s then some ([s], 0)\n", ["C131"])
m("M502", FS, "Dlx.dlxK", "| .ok (sols, _, n) => .ok (writeSolutions sols s, n)", "| .ok (sols, _, n) => .ok (writeSolutions sols.reverse s, n)", ["C131"], note="the order of the solutions")
# the present forms of M153, M159, M161, M164, M174, M235 and M245
SH = "Model/Shell.lean"; SL = "Model/ShellLib.lean"
m("M503", SH, "Shell.pop", 'if s.stack = [] then returnError interactive "stack is empty".toList s', "if s.stack = [] then (s, .returned .none)", ["C49"], note="no error for an empty stack")
m("M504", SH, "Shell.executePartWith", "if c.name = .exit then exec c s\n    else if", "if", ["C50"], note="exit is stored as well")
m("M505", SH, "Shell.executePartWith", "  | .error (.other .KeyError) => error interactive (.exn .KeyError) s\n", "", ["C52"], note="a KeyError while parsing crashes the shell")
m("M506", SL, "Shell.callFn", "| .ok a => (x.setNumber a v, .ok .none)", "| .ok a => ((x.setNumber a v).setCandidates a {v}, .ok .none)", ["C69"])
m("M507", SL, "Shell.callFn", "ofText (Codec.view x f.truth prefix_ right.truth)", "ofText (Codec.view x (!f.truth) prefix_ right.truth)", ["C69"])
m("M508", SL, "Shell.decodeFn", "some (.error ⟨.AttributeError, .builtin⟩)", "some (.error ⟨.TypeError, .builtin⟩)", ["C81"], tightened=["C81_decode"], note="survived until C81_decode was added (so did M235)")
m("M509", SL, "Shell.ofGenerated", "  | .error e => .error e\n  | .ok none => .error ⟨.RecursionError", "  | .error e => .error ⟨.TypeError, e.2⟩\n  | .ok none => .error ⟨.RecursionError", ["C83"])
m("M510", "Model/OddCopy.lean", "DecodeArgs.Raw.encode", "Py.join [','] (s.fields.map", "Py.join [','] (s.fields.reverse.map", ["C128"], note="the candidates in reverse order")
