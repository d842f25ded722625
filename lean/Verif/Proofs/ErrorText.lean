import Verif.Model.ErrorText
import Verif.Proofs.NotationLanguage

set_option autoImplicit false

/-!
# Without the texts, the functions of `Model/ErrorText.lean` are those of the other models
-/

open Spec

namespace ErrorText

theorem forget_builtin {α : Type} (x : Except PyErr α) : forget (builtin x) = x := by cases x <;> rfl

theorem forget_error {α : Type} {x : Except Exn α} {e : Exn} (h : x = .error e) : forget x = .error e.cls := by rw [h]; rfl

theorem forget_val {α : Type} (x : α) : forget (.ok x) = .ok x := rfl

theorem forget_int (x : List Char) : forget (int x) = Py.int x := by
  unfold int
  cases Py.int x <;> rfl

theorem forget_ints (l : List (List Char)) : forget (ints l) = Py.ints l := by
  induction l with
  | nil => rfl
  | cons x l ih =>
    rw [ints, Py.ints, ← forget_int, ← ih]
    cases int x with
    | error e => rfl
    | ok v => cases ints l <;> rfl

theorem forget_theBox (x : Int) (w h : Nat) : forget (theBox x w h) = Coordinates.theBox x w h := by
  unfold theBox
  split
  · rename_i hx
    rw [Coordinates.theBox, if_pos hx]; rfl
  · exact forget_builtin _

theorem forget_theColumn (x : Int) (w h : Nat) : forget (theColumn x w h) = Coordinates.theColumn x w h := by
  unfold theColumn
  split
  · rename_i hx
    rw [Coordinates.theColumn, if_pos hx]; rfl
  · exact forget_builtin _

theorem forget_thePart (x : Int) (w h : Nat) : forget (thePart x w h) = Coordinates.thePart x w h := by
  unfold thePart
  split
  · rename_i hx
    rw [Coordinates.thePart, if_pos hx]; rfl
  · exact forget_builtin _

theorem forget_theRow (x : Int) (w h : Nat) : forget (theRow x w h) = Coordinates.theRow x w h := by
  unfold theRow
  split
  · rename_i hx
    rw [Coordinates.theRow, if_pos hx]; rfl
  · exact forget_builtin _

theorem forget_generate (π : Dlx.Orders) (ρ : List Cell → Generate.RoundOrders) (fuel rounds : Nat) (c : Generate.Choices)
    (coords : List Cell) (minCount : Int) (symmetry : Option String) (w h : Nat) :
    forget (generate π ρ fuel rounds c coords minCount symmetry w h) =
      Generate.generate π ρ fuel rounds c coords minCount symmetry w h := by
  unfold generate
  simp only
  split
  · rename_i hc
    rw [Generate.generate, if_pos hc]; rfl
  · rename_i hc
    split
    · rename_i hs
      rw [Generate.generate, if_neg hc, hs]; rfl
    · exact forget_builtin _

theorem forget_templateLoop (fuel : Nat) (f : Nat → Generate.Try) (template : Sudoku) (tries : Int) (rounds t : Nat) :
    forget (templateLoop fuel f template tries rounds t) = Generate.templateLoop fuel f template tries rounds t := by
  induction rounds generalizing t with
  | zero => rfl
  | succ rounds ih =>
    rw [templateLoop, Generate.templateLoop]
    split
    · cases Generate.createSolution (f t).create fuel (f t).choices template.bw template.bh with
      | error e => rfl
      | ok solution =>
        simp only
        cases Dlx.isUnique (f t).unique fuel (Generate.mask template solution.copy) with
        | error e => rfl
        | ok b => cases b with
          | true => rfl
          | false => exact ih _
    · rfl

theorem forget_guessBox (k : Nat) : forget (guessBox k) = Codec.guessBox k := by
  unfold guessBox Codec.guessBox
  simp only
  split
  · split
    · rfl
    · split <;> rfl
  · rfl

theorem forget_itemNumber (p : Codec.Args) (x : List Char) : forget (itemNumber p x) = Codec.itemNumber p x := by
  unfold itemNumber Codec.itemNumber
  split
  · rfl
  · exact forget_int x

theorem forget_readNumbers (p : Codec.Args) (l : List (List Char)) (row col : Nat) (s : Sudoku) :
    forget (readNumbers p l row col s) = Codec.readNumbers p l row col s := by
  induction l generalizing row col s with
  | nil => rfl
  | cons x l ih =>
    rw [readNumbers, Codec.readNumbers, ← forget_itemNumber]
    cases itemNumber p x with
    | error e => rfl
    | ok v =>
      simp only [forget_val]
      split
      · split
        all_goals
          split
          · rfl
          · exact ih _ _ _
      · rfl

theorem forget_pieceCandidates (p : Codec.Args) (x : List Char) : forget (pieceCandidates p x) = Codec.pieceCandidates p x := by
  unfold pieceCandidates Codec.pieceCandidates
  split
  · cases Py.split (Py.strip x) p.numberSep with
    | error e => rfl
    | ok l => exact forget_ints _
  · exact forget_ints _

theorem forget_readCandidates (p : Codec.Args) (l : List (List Char)) (row col : Nat) (s : Sudoku) :
    forget (readCandidates p l row col s) = Codec.readCandidates p l row col s := by
  induction l generalizing row col s with
  | nil => rfl
  | cons x l ih =>
    rw [readCandidates, Codec.readCandidates, ← forget_pieceCandidates]
    cases pieceCandidates p x with
    | error e => rfl
    | ok v =>
      simp only [forget_val]
      split
      · split
        all_goals
          split
          · rfl
          · exact ih _ _ _
      · rfl

theorem forget_decodeCandidates (p : Codec.Args) (c : List Char) (s : Sudoku) :
    forget (decodeCandidates p c s) = Codec.decodeCandidates p c s := by
  unfold decodeCandidates Codec.decodeCandidates
  split
  · rfl
  · cases Py.split c p.candidateSep with
    | error e => rfl
    | ok l => exact forget_readCandidates _ _ _ _ _

theorem forget_boxFor (p : Codec.Args) (x : List Char) : forget (boxFor p x) = Codec.boxFor p x := by
  unfold boxFor Codec.boxFor
  cases p.boxSize with
  | some b => rfl
  | none =>
    simp only
    cases Codec.items p x with
    | error e => rfl
    | ok l => exact forget_guessBox _

theorem forget_decodeSudoku (p : Codec.Args) (s : List Char) : forget (decodeSudoku p s) = Codec.decode p s := by
  unfold decodeSudoku Codec.decode
  cases Codec.parts p (Codec.removeSpace p (Py.strip s)) with
  | error e => rfl
  | ok parts =>
    obtain ⟨fields, candidates⟩ := parts
    simp only
    rw [← forget_boxFor]
    cases boxFor p fields with
    | error e => rfl
    | ok b =>
      obtain ⟨w, h⟩ := b
      simp only [forget_val]
      cases Codec.items p fields with
      | error e => rfl
      | ok l =>
        simp only
        rw [← forget_readNumbers]
        cases readNumbers p l 0 0 (Sudoku.new w h) with
        | error e => rfl
        | ok t => exact forget_decodeCandidates _ _ _

theorem forget_checkSize (w h : Int) : forget (checkSize w h) = Notation.checkSize w h := by
  unfold checkSize Notation.checkSize
  split <;> rfl

theorem forget_collect (w h : Nat) (cs : List (Int × Int)) (rows boxes : Notation.Dict) :
    forget (collect w h cs rows boxes) = Notation.collect w h cs rows boxes := by
  induction cs generalizing rows boxes with
  | nil => rfl
  | cons a cs ih =>
    obtain ⟨r, c⟩ := a
    rw [collect, Notation.collect]
    split
    · rfl
    · exact ih _ _

theorem forget_encode (cs : List (Int × Int)) (w h : Int) (b : Option Bool) (sep nsep : List Char) :
    forget (encode cs w h b sep nsep) = Notation.encode cs w h b sep nsep := by
  unfold encode Notation.encode
  rw [← forget_checkSize]
  cases checkSize w h with
  | error e => rfl
  | ok p =>
    obtain ⟨w, h⟩ := p
    simp only [forget_val]
    rw [← forget_collect]
    cases collect w h cs [] [] with
    | error e => rfl
    | ok p =>
      obtain ⟨rows, boxes⟩ := p
      simp only [forget_val]
      cases b with
      | none => simp only; split <;> rfl
      | some b => cases b <;> rfl

theorem forget_func (q : Notation.Qual) (x : Int) (w h : Nat) : forget (func q x w h) = Notation.func q x w h := by
  cases q
  · exact forget_theRow ..
  · exact forget_theColumn ..
  · exact forget_theBox ..
  · exact forget_thePart ..

theorem forget_readQualNumbers (nsep str : List Char) : forget (readQualNumbers nsep str) = Notation.readNumbers nsep str := by
  unfold readQualNumbers Notation.readNumbers
  rw [← forget_ints]
  generalize ints _ = x
  cases x <;> rfl

theorem forget_readChar (group nsep : List Char) (st : Notation.State) (ch : Char) :
    forget (readChar group nsep st ch) = Notation.readChar nsep st ch := by
  unfold readChar Notation.readChar
  cases Notation.qual? ch with
  | none =>
    simp only
    split
    · split <;> rfl
    · rfl
  | some q =>
    simp only
    split
    · rfl
    · cases st.current with
      | none => rfl
      | some cur =>
        simp only
        rw [← forget_readQualNumbers]
        cases readQualNumbers nsep st.str with
        | error e => rfl
        | ok ns => simp only [forget_val]; split <;> rfl

theorem forget_readChars (group nsep s : List Char) (st : Notation.State) :
    forget (readChars group nsep s st) = Notation.readChars nsep s st := by
  induction s generalizing st with
  | nil => rfl
  | cons ch s ih =>
    rw [readChars, Notation.readChars, ← forget_readChar group]
    cases readChar group nsep st ch with
    | error e => rfl
    | ok st => exact ih st

theorem forget_finish (group nsep : List Char) (st : Notation.State) :
    forget (finish group nsep st) = Notation.finish nsep st := by
  unfold finish Notation.finish
  cases st.current with
  | none => simp only; split <;> rfl
  | some cur =>
    simp only
    rw [← forget_readQualNumbers]
    cases readQualNumbers nsep st.str <;> rfl

theorem forget_fieldsOf (q : Notation.Qual) (w h : Nat) (l : List Int) : forget (fieldsOf q w h l) = Notation.fieldsOf q w h l := by
  induction l with
  | nil => rfl
  | cons x l ih =>
    rw [fieldsOf, Notation.fieldsOf, ← forget_func, ← ih]
    cases func q x w h with
    | error e => rfl
    | ok cells => cases fieldsOf q w h l <;> rfl

theorem forget_allSets (nums : Notation.Qual → List Int) (w h : Nat) (l : List Notation.Qual) :
    forget (allSets nums w h l) = Notation.allSets nums w h l := by
  induction l with
  | nil => rfl
  | cons q l ih =>
    rw [allSets, Notation.allSets, ← forget_fieldsOf, ← ih]
    cases fieldsOf q w h (nums q) with
    | error e => rfl
    | ok cells => cases allSets nums w h l <;> rfl

theorem forget_decodeSingle (group : List Char) (w h : Nat) (nsep : List Char) :
    forget (decodeSingle group w h nsep) = Notation.decodeSingle group w h nsep := by
  unfold decodeSingle Notation.decodeSingle
  rw [← forget_readChars group]
  cases readChars group nsep group .init with
  | error e => rfl
  | ok st =>
    simp only [forget_val]
    rw [← forget_finish group]
    cases finish group nsep st with
    | error e => rfl
    | ok nums =>
      simp only [forget_val]
      rw [← forget_allSets]
      cases allSets nums w h [.r, .c, .b, .p] with
      | error e => rfl
      | ok sets => exact forget_builtin _

theorem forget_decodeGroups (w h : Nat) (nsep : List Char) (gs : List (List Char)) :
    forget (decodeGroups w h nsep gs) = Notation.decodeGroups w h nsep gs := by
  induction gs with
  | nil => rfl
  | cons g gs ih =>
    rw [decodeGroups, Notation.decodeGroups, ← forget_decodeSingle, ← ih]
    cases decodeSingle g w h nsep with
    | error e => rfl
    | ok cells => cases decodeGroups w h nsep gs <;> rfl

theorem forget_decode (s : List Char) (w h : Int) (sep nsep : List Char) :
    forget (decode s w h sep nsep) = Notation.decode s w h sep nsep := by
  unfold decode Notation.decode
  rw [← forget_checkSize]
  cases checkSize w h with
  | error e => rfl
  | ok p =>
    obtain ⟨w, h⟩ := p
    simp only [forget_val]
    rw [← forget_decodeGroups]
    generalize decodeGroups w h _ _ = x
    cases x <;> rfl

theorem forget_decodeAction (s : List Char) (w h : Int) : forget (decodeAction s w h) = Notation.decodeAction s w h := by
  unfold decodeAction Notation.decodeAction
  simp only
  split
  · rw [← forget_decode, ← forget_ints]
    generalize decode _ w h _ _ = x
    cases x with
    | error e => rfl
    | ok cs =>
      simp only [forget_val]
      generalize ints _ = y
      cases y <;> rfl
  · cases Py.cut ['<', '>'] (Py.strip s) with
    | some c =>
      simp only
      rw [← forget_decode, ← forget_ints]
      generalize ints _ = y
      cases y with
      | error e => rfl
      | ok ns =>
        simp only [forget_val]
        generalize decode _ w h _ _ = x
        cases x <;> rfl
    | none => cases Py.cut ['='] (Py.strip s) with
      | some c =>
        simp only
        rw [← forget_decode, ← forget_int]
        generalize int _ = y
        cases y with
        | error e => rfl
        | ok ns =>
          simp only [forget_val]
          generalize decode _ w h _ _ = x
          cases x <;> rfl
      | none => rfl

theorem forget_ok {α : Type} {x : Except Exn α} {v : α} (h : forget x = .ok v) : x = .ok v := by
  cases x with
  | error e => cases h
  | ok y => cases h; rfl

theorem envGenerate_ok {w h : Nat} {e : Generate.Env w h} {m : Int} {sym : Option String} {x : Option Sudoku} (hx : e.generate m sym = .ok x) :
    envGenerate e m sym = .ok x :=
  forget_ok ((forget_generate e.π e.ρ e.fuel e.rounds e.c e.coords m sym w h).trans hx)

theorem forget_generateFromTemplate (fuel rounds : Nat) (f : Nat → Generate.Try) (template : Sudoku) (tries : Int) :
    forget (generateFromTemplate fuel rounds f template tries) = Generate.generateFromTemplate fuel rounds f template tries :=
  forget_templateLoop fuel f template tries rounds 0

theorem generateFromTemplate_ok {fuel rounds : Nat} {f : Nat → Generate.Try} {template : Sudoku} {tries : Int} {x : Option Sudoku}
    (hx : Generate.generateFromTemplate fuel rounds f template tries = .ok x) : generateFromTemplate fuel rounds f template tries = .ok x :=
  forget_ok ((forget_templateLoop fuel f template tries rounds 0).trans hx)

theorem decodeSudoku_ok {p : Codec.Args} {s : List Char} {x : Sudoku} (hx : Codec.decode p s = .ok x) : decodeSudoku p s = .ok x :=
  forget_ok ((forget_decodeSudoku p s).trans hx)

/-! ## Reading a group -/

open Spec.Text Notation in
theorem readNumbers_numerals {nsep : List Char} (hn : NumSepOk nsep) (h1 : nsep.length ≤ 1) {ts : List (List Char)}
    (h : Numerals nsep ts) (h0 : ts ≠ []) : ∃ ns, Notation.readNumbers nsep (Py.join nsep ts) = .ok ns ∧ ns ≠ [] :=
  ⟨_, (readNumbers_iff hn h1 _ (legal_numerals h)).2 ⟨ts, rfl, h, fun _ => h0, rfl⟩, by simpa using h0⟩

open Spec.Text Notation in
theorem readChar_letter {nsep : List Char} (l cur : Letter) (nums : Qual → List Int) (present : List Qual) (str : List Char)
    {ns : List Int} (hp : ofLetter l ∉ present) (h1 : Notation.readNumbers nsep str = .ok ns) (h2 : ns ≠ []) :
    Notation.readChar nsep ⟨nums, some (ofLetter cur), present, str⟩ l.char =
      .ok ⟨State.put nums (ofLetter cur) ns, some (ofLetter l), present ++ [ofLetter cur], []⟩ := by
  unfold Notation.readChar
  simp only [qual?_char]
  rw [if_neg hp, h1]
  simp only
  rw [if_neg h2]

open Spec.Text Notation in
theorem readChars_opening_aux {nsep : List Char} (hn : NumSepOk nsep) (h1 : nsep.length ≤ 1) (g : Written) (l : Letter) (x : List Char)
    (hx : Legal nsep x) (cur : Letter) (ts : List (List Char)) (nums : Qual → List Int) (present : List Qual)
    (hg : ∀ q ∈ (cur, ts) :: g, Numerals nsep q.2 ∧ q.2 ≠ []) (ht : Tidy (cur :: g.map Prod.fst ++ [l]))
    (hp : ∀ m ∈ g.map Prod.fst ++ [l], ofLetter m ∉ present) :
    ∃ nums', Notation.readChars nsep (writtenText nsep g ++ l.char :: x) ⟨nums, some (ofLetter cur), present, Py.join nsep ts⟩ =
      .ok ⟨nums', some (ofLetter l), present ++ (cur :: g.map Prod.fst).map ofLetter, x⟩ := by
  induction g generalizing cur ts nums present with
  | nil =>
    obtain ⟨ns, h2, h3⟩ := readNumbers_numerals hn h1 (hg (cur, ts) (by simp)).1 (hg (cur, ts) (by simp)).2
    refine ⟨State.put nums (ofLetter cur) ns, ?_⟩
    show Notation.readChars nsep (l.char :: x) _ = _
    rw [Notation.readChars, readChar_letter l cur nums present _ (hp l (by simp)) h2 h3]
    simp only
    rw [readChars_digits hn hx _ (by simp)]
    simp
  | cons q g ih =>
    obtain ⟨m, us⟩ := q
    obtain ⟨ns, h2, h3⟩ := readNumbers_numerals hn h1 (hg (cur, ts) (by simp)).1 (hg (cur, ts) (by simp)).2
    have hm := hg (m, us) (by simp)
    have ht' : cur ∉ g.map Prod.fst ++ [l] ∧ Tidy (m :: g.map Prod.fst ++ [l]) := ht
    obtain ⟨nums', h4⟩ := ih m us (State.put nums (ofLetter cur) ns) (present ++ [ofLetter cur])
      (fun q hq => hg q (List.mem_cons_of_mem _ hq)) ht'.2 (by
        intro k hk hmem
        rcases List.mem_append.1 hmem with h | h
        · exact hp k (by rw [List.map_cons]; exact List.mem_cons_of_mem _ hk) h
        · rw [List.mem_singleton] at h
          rw [ofLetter_inj h] at hk
          exact ht'.1 hk)
    refine ⟨nums', ?_⟩
    have hw : writtenText nsep ((m, us) :: g) ++ l.char :: x =
        m.char :: (Py.join nsep us ++ (writtenText nsep g ++ l.char :: x)) := by simp [writtenText]
    rw [hw, Notation.readChars, readChar_letter m cur nums present _ (hp m (by simp)) h2 h3]
    simp only
    rw [readChars_append, readChars_digits hn (legal_numerals hm.1) _ (by simp)]
    simp only [List.nil_append]
    rw [h4]
    simp

open Spec.Text Notation in
theorem readChars_opening {nsep : List Char} (hn : NumSepOk nsep) (h1 : nsep.length ≤ 1) {g : Written} {l : Letter} {x : List Char}
    (ho : Opening nsep g l x) : ∃ nums, Notation.readChars nsep (openingText nsep g l x) State.init =
      .ok ⟨nums, some (ofLetter l), (g.map Prod.fst).map ofLetter, x⟩ := by
  have start : ∀ (l : Letter) (t : List Char), Notation.readChars nsep (l.char :: t) State.init =
      Notation.readChars nsep t ⟨fun _ => [], some (ofLetter l), [], []⟩ := by
    intro l t
    rw [Notation.readChars]
    unfold Notation.readChar
    simp [qual?_char, State.init]
  have hx : Legal nsep x := fun c hc => (ho.legal c hc).imp (isDigit_iff c).2 id
  unfold openingText
  cases g with
  | nil =>
    refine ⟨fun _ => [], ?_⟩
    show Notation.readChars nsep (l.char :: x) _ = _
    rw [start, readChars_digits hn hx _ (by simp)]
    simp
  | cons q g =>
    obtain ⟨m, us⟩ := q
    have hm := ho.numerals (m, us) (by simp)
    have hw : writtenText nsep ((m, us) :: g) ++ l.char :: x =
        m.char :: (Py.join nsep us ++ (writtenText nsep g ++ l.char :: x)) := by simp [writtenText]
    rw [hw, start, readChars_append, readChars_digits hn (legal_numerals hm.1) _ (by simp)]
    simp only [List.nil_append]
    obtain ⟨nums, h⟩ := readChars_opening_aux hn h1 g l x hx m us (fun _ => []) [] ho.numerals ho.tidy (by simp)
    exact ⟨nums, by rw [h]; simp⟩

theorem readChars_stop {group nsep pre rest : List Char} {ch : Char} {st st' : Notation.State} {e : Exn}
    (h : readChars group nsep pre st = .ok st') (he : readChar group nsep st' ch = .error e) :
    readChars group nsep (pre ++ ch :: rest) st = .error e := by
  induction pre generalizing st with
  | nil =>
    cases h
    rw [List.nil_append, readChars, he]
  | cons c pre ih =>
    rw [readChars] at h
    rw [List.cons_append, readChars]
    split at h
    · cases h
    · rename_i st1 h1
      exact ih h

theorem decodeSingle_stop {group : List Char} {w h : Nat} {nsep : List Char} {e : Exn}
    (he : readChars group nsep group .init = .error e) : decodeSingle group w h nsep = .error e := by
  unfold decodeSingle
  rw [he]

open Spec.Text Notation in
/-- One group: what `decode` raises is what is raised for the group. -/
theorem decode_single {s : List Char} {w h : Nat} {sep nsep : List Char} (hw : 0 < w) (hh : 0 < h) (hsp : ¬ Py.whitespace <:+: s)
    (hone : splitGroups sep s = [s]) {e : Exn} (he : decodeSingle s w h (between w h nsep) = .error e) :
    decode s w h sep nsep = .error e := by
  unfold decode
  rw [forget_ok (forget_checkSize (w : Int) (h : Int) |>.trans (checkSize_ok hw hh))]
  simp only
  rw [numberSep_eq, removeWhitespace_eq hsp, hone, decodeGroups, he]

end ErrorText
