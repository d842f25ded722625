import Verif.Props.Shell

set_option autoImplicit false

/-!
# Properties of the shell: loops, scripts, errors (C50 - C52)
-/

namespace Props

open Shell

variable {σ ν ω : Type}

/-! ## C50: loops -/

private theorem define_body (lib : Lib σ ν ω) (i : Bool) (bs : List (List Char))
    (hbs : ∀ b ∈ bs, ∃ c, parse lib (Py.strip b) = .ok c ∧ c.name ≠ .loop ∧ c.name ≠ .exit) :
    ∃ cs : List (Command ν), (∀ c ∈ cs, c.name ≠ .loop) ∧
      (∀ s : State σ ν ω, s.loopN.isSome = true → seq (executePart lib i) bs s = ({ s with body := s.body ++ cs }, none)) ∧
      (∀ s : State σ ν ω, s.loopN = none → seq (executePart lib i) bs s = seq (executeBody lib i) cs s) := by
  induction bs with
  | nil => exact ⟨[], by simp, fun s _ => by simp [seq], fun s _ => rfl⟩
  | cons b bs ih =>
    obtain ⟨cs, h1, h2, h3⟩ := ih fun b' hb' => hbs b' (List.mem_cons_of_mem _ hb')
    obtain ⟨c, hc, hn, he⟩ := hbs b (by simp)
    refine ⟨c :: cs, ?_, fun s hs => ?_, fun s hs => ?_⟩
    · intro d hd
      rcases List.mem_cons.1 hd with rfl | hd
      · exact hn
      · exact h1 d hd
    · have : executePart lib i b s = ({ s with body := s.body ++ [c] }, none) := by
        unfold executePart executePartWith
        rw [hc]
        simp only
        rw [if_neg he, if_pos ⟨hs, hn⟩]
      rw [seq, this]
      simp only
      rw [h2 { s with body := s.body ++ [c] } hs]
      simp
    · rw [seq, seq, part_plain hs hc, execute_eq_body lib i c hn]
      have hk := (executeBody_fields lib i c s).2.1
      cases hx : executeBody lib i c s with
      | mk t o =>
        rw [hx] at hk
        cases o with
        | some g => rfl
        | none => exact h3 t (hk.trans hs)

theorem seqBody_loopN (lib : Lib σ ν ω) (i : Bool) (cs : List (Command ν)) (s : State σ ν ω) :
    (seq (executeBody lib i) cs s).1.loopN = s.loopN ∧ (seq (executeBody lib i) cs s).1.body = s.body ∧
    (seq (executeBody lib i) cs s).1.prompt = s.prompt := by
  refine seq_inv (P := fun t => t.loopN = s.loopN ∧ t.body = s.body ∧ t.prompt = s.prompt) (fun c _ t ht => ?_) ⟨rfl, rfl, rfl⟩
  obtain ⟨h1, h2, h3⟩ := executeBody_fields lib i c t
  exact ⟨h2.trans ht.1, h1.trans ht.2.1, h3.trans ht.2.2⟩

private theorem parse_loop_end (lib : Lib σ ν ω) :
    parse lib (Py.strip "loop end".toList) = .ok ⟨.loop, [.keyword "end".toList], []⟩ := rfl

theorem line_seq (lib : Lib σ ν ω) (i : Bool) {bs : List (List Char)} (h : ∀ b ∈ bs, ';' ∉ b) (s : State σ ν ω) :
    seq (executeLine lib i) bs s = seq (executePart lib i) bs s :=
  seq_congr (P := fun _ => True) (fun b hb t _ => ⟨line_part lib i (h b hb) t, trivial⟩) trivial

/-- **C50** `loop n; c1; ...; ck; loop end` does the same as executing `c1`, ..., `ck` one after the other `n` times.  If the
process ends on the way (error in a script), it ends in the same way, with the loop still defined. -/
theorem C50_loop (lib : Lib σ ν ω) (i : Bool) (s : State σ ν ω) (hl : s.loopN = none) (hb : s.body = []) (hp : s.prompt = commandPrompt i)
    (n : Nat) (hn : 0 < n) (v : ν) (hv : Reads lib n v) (bs : List (List Char))
    (hbs : ∀ b ∈ bs, ';' ∉ b ∧ ∃ c, parse lib (Py.strip b) = .ok c ∧ c.name ≠ .loop ∧ c.name ≠ .exit) :
    let r := executeLine lib i (Py.join [';'] (("loop".toList ++ ' ' :: Py.natStr n) :: (bs ++ ["loop end".toList]))) s
    let r' := seq (executeLine lib i) (List.replicate n bs).flatten s
    r.2 = r'.2 ∧ (r.2 = none → r.1 = r'.1) ∧ ∃ m b, r.1 = { r'.1 with loopN := m, body := b } := by
  obtain ⟨cs, h1, h2, h3⟩ := define_body (i := i) lib bs fun b hb => (hbs b hb).2
  -- the repeated commands
  have hr' : seq (executeLine lib i) (List.replicate n bs).flatten s = seq (executeBody lib i) (List.replicate n cs).flatten s := by
    rw [line_seq lib i, ← seq_repeat, ← seq_repeat]
    · refine seq_congr (P := fun t => t.loopN = none) (fun _ _ t ht => ?_) hl
      rw [h3 t ht]
      exact ⟨rfl, (seqBody_loopN lib i cs t).1.trans ht⟩
    · intro b hb'
      obtain ⟨l, hl', hb'⟩ := List.mem_flatten.1 hb'
      rw [List.eq_of_mem_replicate hl'] at hb'
      exact (hbs b hb').1
  -- the loop
  have e1 : executeLine lib i ("loop".toList ++ ' ' :: Py.natStr n) s =
      ({ s with prompt := if i then "loop ".toList ++ Py.intStr n ++ "> ".toList else s.prompt, loopN := some n }, none) := by
    rw [line_part lib i (semicolon_number _ (by decide) n), part_plain hl (parse_number lib _ (by decide) (by decide) .loop rfl n v hv.literal),
      execute_loop_arg lib i _ rfl (.value v) rfl, if_neg (by simp [argIsEnd, hv.isEnd])]
    simp only [argInt, hv.toInt]
    rw [if_neg (by omega), if_neg (by rw [hl]; simp)]
    simp
  have hr : executeLine lib i (Py.join [';'] (("loop".toList ++ ' ' :: Py.natStr n) :: (bs ++ ["loop end".toList]))) s =
      endLoop (seq (executeBody lib i) (List.replicate n cs).flatten { s with loopN := some n, body := cs }) := by
    rw [executeLine_join, seq, e1]
    simp only
    rw [line_seq lib i, seq_append, h2 _ rfl]
    · simp only
      rw [seq, executePart, executePartWith, parse_loop_end]
      simp only
      rw [if_neg (by simp), if_neg (by simp), execute_loop_arg lib i _ rfl (.keyword "end".toList) rfl, if_pos (by simp [argIsEnd])]
      simp only [runBody, hb, List.nil_append]
      have : ({ s with prompt := commandPrompt i, loopN := some n, body := cs } : State σ ν ω) = { s with loopN := some n, body := cs } := by
        rw [← hp]
      rw [this]
      cases hx : seq (executeBody lib i) (List.replicate n cs).flatten { s with loopN := some n, body := cs } with
      | mk t o => cases o <;> rfl
    · intro b hb'
      rcases List.mem_append.1 hb' with hb' | hb'
      · exact (hbs b hb').1
      · simp at hb'; subst hb'; decide
  intro r r'
  show r.2 = r'.2 ∧ _
  have hc : ∀ c ∈ (List.replicate n cs).flatten, c.name ≠ .loop := by
    intro c hc
    obtain ⟨l, hl', hc⟩ := List.mem_flatten.1 hc
    rw [List.eq_of_mem_replicate hl'] at hc
    exact h1 c hc
  have hput := seqBody_put lib i _ hc s (some n) cs
  obtain ⟨f1, f2, _⟩ := seqBody_loopN lib i (List.replicate n cs).flatten s
  have er : r = endLoop ({ r'.1 with loopN := some n, body := cs }, r'.2) := by
    show executeLine lib i _ s = _
    rw [hr, hput]
    show _ = endLoop ({ (seq (executeLine lib i) (List.replicate n bs).flatten s).1 with loopN := some n, body := cs },
      (seq (executeLine lib i) (List.replicate n bs).flatten s).2)
    rw [hr']
  have er1 : r'.1.loopN = none ∧ r'.1.body = [] := by
    show (seq (executeLine lib i) (List.replicate n bs).flatten s).1.loopN = none ∧ _
    rw [hr']
    exact ⟨f1.trans hl, by show (seq (executeLine lib i) (List.replicate n bs).flatten s).1.body = []; rw [hr']; exact f2.trans hb⟩
  rw [er]
  cases h : r'.2 with
  | some g => exact ⟨rfl, by simp [endLoop], some n, cs, rfl⟩
  | none =>
    refine ⟨rfl, fun _ => ?_, none, [], rfl⟩
    show { r'.1 with loopN := none, body := [] } = r'.1
    obtain ⟨g1, g2⟩ := er1
    rw [← g1, ← g2]

/-- What holds between the commands of a loop, the prompt and `loop_n`. -/
structure LoopOk (i : Bool) (s : State σ ν ω) : Prop where
  body : ∀ c ∈ s.body, c.name ≠ .loop ∧ c.name ≠ .exit
  none : s.loopN = none → s.body = [] ∧ s.prompt = commandPrompt i
  some : ∀ k, s.loopN = some k → 0 < k

private theorem loopOk_execute (lib : Lib σ ν ω) (i : Bool) (c : Command ν) {s : State σ ν ω} (hs : LoopOk i s) :
    LoopOk i (execute lib i c s).1 := by
  by_cases hc : c.name = .loop
  · rcases execute_loop lib i c hc s with ⟨e, he⟩ | ⟨k, p, h0, hk, _, he⟩ | ⟨k, h0, he⟩
    · rw [he]; exact ⟨hs.body, hs.none, hs.some⟩
    · rw [he]
      refine ⟨hs.body, by simp, ?_⟩
      rintro k' h
      cases h
      exact hk
    · rw [he]
      unfold endLoop
      have h1 := seqBody_loopN lib i (List.replicate k s.body).flatten { s with prompt := commandPrompt i }
      unfold runBody
      cases hx : seq (executeBody lib i) (List.replicate k s.body).flatten { s with prompt := commandPrompt i } with
      | mk t o =>
        rw [hx] at h1
        cases o with
        | some g =>
          refine ⟨?_, ?_, ?_⟩
          · show ∀ c ∈ t.body, _
            rw [h1.2.1]; exact hs.body
          · intro h
            rw [show t.loopN = s.loopN from h1.1, h0] at h
            cases h
          · intro k' h
            rw [show t.loopN = s.loopN from h1.1] at h
            exact hs.some k' h
        | none => exact ⟨by simp, fun _ => ⟨rfl, h1.2.2⟩, by simp⟩
  · rw [execute_eq_body lib i c hc]
    obtain ⟨h1, h2, h3⟩ := executeBody_fields lib i c s
    refine ⟨?_, ?_, ?_⟩
    · rw [h1]; exact hs.body
    · rw [h2, h1, h3]; exact hs.none
    · rw [h2]; exact hs.some

/-- **C50** In every reachable state: the commands of a loop being defined are neither loop commands nor `exit`, and when
no loop is being defined there are none. -/
theorem C50_body (lib : Lib σ ν ω) (i : Bool) (w : ω) (lines : List (List Char)) :
    LoopOk i (seq (executeLine lib i) lines (init lib i w)).1 := by
  refine seq_inv (fun line _ s hs => seq_inv (fun part _ s hs => ?_) hs) ⟨by simp [init], by simp [init], by simp [init]⟩
  unfold executePart executePartWith
  cases hc : parse lib (Py.strip part) with
  | error e => rcases e with _ | _ | e <;> first | exact ⟨hs.body, hs.none, hs.some⟩ | (cases e <;> exact ⟨hs.body, hs.none, hs.some⟩)
  | ok c =>
    simp only
    split
    · exact loopOk_execute lib i c hs
    · rename_i hne
      split
      · rename_i h
        refine ⟨fun d hd => ?_, fun h' => ?_, hs.some⟩
        · rcases List.mem_append.1 hd with hd | hd
          · exact hs.body d hd
          · simp at hd
            subst hd
            exact ⟨h.2, hne⟩
        · rw [show s.loopN = none from h'] at h
          simp at h
      · exact loopOk_execute lib i c hs

/-- **C50** A loop in a loop, and `loop n` with `n <= 0`, only report an error. -/
theorem C50_errors (lib : Lib σ ν ω) (i : Bool) (s : State σ ν ω) (v : ν) (k : Int) (h1 : lib.isEnd v = false) (h2 : lib.toInt v = .ok k) :
    (k ≤ 0 → execute lib i ⟨.loop, [.value v], []⟩ s =
      error i (.message ("loop command n must be int > 0, got ".toList ++ Py.intStr k)) s) ∧
    (0 < k → s.loopN ≠ none → execute lib i ⟨.loop, [.value v], []⟩ s =
      error i (.message "Run current loop first ('loop end').".toList) s) := by
  rw [execute_loop_arg lib i _ rfl (.value v) rfl, if_neg (by simp [argIsEnd, h1])]
  simp only [argInt, h2]
  constructor
  · intro h
    rw [if_pos h]
    rfl
  · intro h0 h
    rw [if_neg (by omega), if_pos (Option.isSome_iff_ne_none.2 h)]

/-- **C50** What is no number at all is named in the message, even within a loop. -/
theorem C50_no_number (lib : Lib σ ν ω) (i : Bool) (s : State σ ν ω) (v : ν) (h1 : lib.isEnd v = false) (h2 : lib.toInt v = .error .ValueError) :
    execute lib i ⟨.loop, [.value v], []⟩ s = error i (.message ("loop command n must be int > 0, got ".toList ++ lib.str v)) s := by
  rw [execute_loop_arg lib i _ rfl (.value v) rfl, if_neg (by simp [argIsEnd, h1])]
  simp only [argInt, h2]
  rfl

/-- **C50** `loop end` without a loop only reports an error. -/
theorem C50_stray_end (lib : Lib σ ν ω) (i : Bool) (s : State σ ν ω) (hl : s.loopN = none) :
    executeLine lib i "loop end".toList s = error i (.message "No loop defined.".toList) s := by
  rw [line_part lib i (by decide), part_plain hl (parse_loop_end lib), execute_loop_arg lib i _ rfl (.keyword "end".toList) rfl,
    if_pos (by simp [argIsEnd]), hl]

/-! ## C51: scripts -/

open Spec.Script

private theorem blank_filter {b : List Char} (h : Blank b) (p : Char → Bool) : Blank (b.filter p) :=
  fun c hc => h c (List.mem_filter.1 hc).1

private theorem blank_hash {b : List Char} (h : Blank b) : '#' ∉ b := fun hm => absurd (h _ hm) (by decide)

private theorem strip_blank {b : List Char} (h : Blank b) : Py.strip b = [] := by
  unfold Py.strip Py.stripBy
  have := Py.dropWhile_all (y := []) h
  rw [List.append_nil] at this
  rw [this]
  rfl

private theorem takeWhile_hash {x : List Char} (h : '#' ∉ x) (k : List Char) (hk : k = [] ∨ ∃ y, k = '#' :: y) :
    (x ++ k).takeWhile (fun c => c != '#') = x := by
  rw [List.takeWhile_append_of_pos]
  · rcases hk with rfl | ⟨y, rfl⟩ <;> simp
  · intro c hc
    simp only [bne_iff_ne, ne_eq]
    rintro rfl
    exact h hc

/-- What is left of a line. -/
private theorem clean_line {b c t : List Char} (hb : Blank b) (h1 : '#' ∉ c) (h2 : '\n' ∉ c)
    (h3 : ∀ ch, c.head? = some ch → Py.isSpace ch = false) (h4 : ∀ ch, c.getLast? = some ch → Py.isSpace ch = false)
    (ht : Spec.Script.Tail t) : clean (b ++ c ++ t) = c := by
  obtain ⟨b', k, hb', hk, rfl⟩ := ht
  unfold clean
  have e1 : (b ++ c ++ (b' ++ k)).filter (fun c => c != '\n') =
      (b.filter (fun c => c != '\n') ++ c ++ b'.filter (fun c => c != '\n')) ++ k.filter (fun c => c != '\n') := by
    have : c.filter (fun c => c != '\n') = c := by
      rw [List.filter_eq_self]
      intro ch hch
      simp only [bne_iff_ne, ne_eq]
      rintro rfl
      exact h2 hch
    simp [this]
  rw [e1, takeWhile_hash]
  · by_cases h0 : c = []
    · subst h0
      refine strip_blank fun ch hch => ?_
      rcases List.mem_append.1 hch with hch | hch
      · rw [List.append_nil] at hch
        exact blank_filter hb _ ch hch
      · exact blank_filter hb' _ ch hch
    · exact Py.strip_blanks (blank_filter hb _) (blank_filter hb' _) h0 h3 h4
  · intro hm
    rcases List.mem_append.1 hm with hm | hm
    · rcases List.mem_append.1 hm with hm | hm
      · exact blank_hash (blank_filter hb _) hm
      · exact h1 hm
    · exact blank_hash (blank_filter hb' _) hm
  · rcases hk with rfl | ⟨y, rfl⟩
    · exact .inl rfl
    · exact .inr ⟨_, by simp; rfl⟩

private theorem clean_last {b c t : List Char} (hb : Blank b) (hc : Piece c) (he : Ends c) (ht : Spec.Script.Tail t) :
    clean (b ++ c ++ t) = c ∧ c.getLast? ≠ some '\\' :=
  ⟨clean_line hb hc.comment hc.newline hc.first (fun ch h => (he ch h).1) ht, fun h => (he _ h).2 rfl⟩

private theorem clean_continued {b p t : List Char} (hb : Blank b) (hp : Piece p) (ht : Spec.Script.Tail t) :
    clean (b ++ (p ++ ['\\']) ++ t) = p ++ ['\\'] := by
  refine clean_line hb ?_ ?_ ?_ ?_ ht
  · intro hm
    rcases List.mem_append.1 hm with hm | hm
    · exact hp.comment hm
    · exact absurd hm (by decide)
  · intro hm
    rcases List.mem_append.1 hm with hm | hm
    · exact hp.newline hm
    · exact absurd hm (by decide)
  · intro ch h
    cases p with
    | nil => simp at h; subst h; decide
    | cons d p => exact hp.first ch h
  · intro ch h
    rw [List.getLast?_append] at h
    simp at h
    subst h
    decide

/-- The commands one after the other, until the shell is left. -/
def runCommands (lib : Lib σ ν ω) (i : Bool) : List (List Char) → State σ ν ω → State σ ν ω × Option Signal
  | [], s => (s, none)
  | c :: cs, s =>
    if s.running = false then (s, none)
    else match executeLine lib i c s with
      | (s, some g) => (s, some g)
      | (s, none) => runCommands lib i cs s

private theorem runCommands_stopped (lib : Lib σ ν ω) (i : Bool) (cs : List (List Char)) {s : State σ ν ω} (h : s.running = false) :
    runCommands lib i cs s = (s, none) := by
  cases cs with
  | nil => rfl
  | cons c cs => rw [runCommands, if_pos h]

private theorem runLoop_stopped (lib : Lib σ ν ω) (i : Bool) (ls : List (List Char)) (pend : List Char) {s : State σ ν ω}
    (h : s.running = false) : runLoop lib i ls pend s = (s, none) := by
  cases ls <;> rw [runLoop, if_pos h]

private theorem runLoop_lines (lib : Lib σ ν ω) (i : Bool) {ls : List (List Char)} {c : List Char} (hl : Lines ls c)
    (rest : List (List Char)) (pend : List Char) (s : State σ ν ω) (hr : s.running = true) :
    ∃ s' : State σ ν ω, s'.quiet = s.quiet ∧ runLoop lib i (ls ++ rest) pend s =
      if pend ++ c = [] then runLoop lib i rest [] s' else match executeLine lib i (pend ++ c) s' with
        | (t, some g) => (t, some g)
        | (t, none) => runLoop lib i rest [] t := by
  induction hl generalizing pend s with
  | @last b c t hb hc he ht =>
    obtain ⟨h1, h2⟩ := clean_last hb hc he ht
    refine ⟨s.write (.prompt s.prompt), State.quiet_write _ _, ?_⟩
    rw [List.cons_append, List.nil_append, runLoop, if_neg (by rw [hr]; simp)]
    simp only
    rw [h1, if_neg h2]
    split
    · rfl
    · cases executeLine lib i (pend ++ c) (s.write (.prompt s.prompt)) with
      | mk u o => cases o <;> rfl
  | @continued b p t ls c hb hp ht _ ih =>
    obtain ⟨s', h1, h2⟩ := ih (pend ++ p) (s.write (.prompt s.prompt)) hr
    refine ⟨s', h1.trans (State.quiet_write _ _), ?_⟩
    rw [List.cons_append, runLoop, if_neg (by rw [hr]; simp)]
    simp only
    rw [clean_continued hb hp ht, if_pos (by simp), List.dropLast_concat, h2, List.append_assoc]

private theorem quiet_flat {s t : State σ ν ω} (h : s.quiet = t.quiet) (ht : FlatBody t) : FlatBody s := by
  have : s.quiet.body = t.quiet.body := congrArg State.body h
  change s.body = t.body at this
  intro c hc
  rw [this] at hc
  exact ht c hc

private theorem runLoop_unfinished (lib : Lib σ ν ω) (i : Bool) {ls : List (List Char)} (hl : Unfinished ls) (pend : List Char)
    (s : State σ ν ω) : (runLoop lib i ls pend s).1.quiet = s.quiet ∧ (runLoop lib i ls pend s).2 = none := by
  induction hl generalizing pend s with
  | nil =>
    by_cases hr : s.running = false
    · rw [runLoop_stopped lib i _ _ hr]; exact ⟨rfl, rfl⟩
    · rw [runLoop, if_neg hr]
      simp only
      split <;> simp
  | @cons b p t ls hb hp ht _ ih =>
    by_cases hr : s.running = false
    · rw [runLoop_stopped lib i _ _ hr]; exact ⟨rfl, rfl⟩
    · rw [runLoop, if_neg hr]
      simp only
      rw [clean_continued hb hp ht, if_pos (by simp)]
      have := ih (pend ++ (p ++ ['\\']).dropLast) (s.write (.prompt s.prompt))
      rw [State.quiet_write] at this
      exact this

private theorem runLoop_file (lib : Lib σ ν ω) (i : Bool) {ls cs : List (List Char)} (hf : File ls cs) (s s' : State σ ν ω)
    (hq : s.quiet = s'.quiet) (hs : FlatBody s') :
    (runLoop lib i ls [] s).1.quiet = (runCommands lib i cs s').1.quiet ∧ (runLoop lib i ls [] s).2 = (runCommands lib i cs s').2 := by
  induction hf generalizing s s' with
  | unfinished hl =>
    obtain ⟨h1, h2⟩ := runLoop_unfinished lib i hl [] s
    exact ⟨h1.trans hq, h2⟩
  | @command ls rest c cs hl hc _ ih =>
    have hrun : s.quiet.running = s'.quiet.running := congrArg State.running hq
    change s.running = s'.running at hrun
    by_cases hr : s.running = false
    · rw [runLoop_stopped lib i _ _ hr, runCommands_stopped lib i _ (hrun ▸ hr)]
      exact ⟨hq, rfl⟩
    · obtain ⟨s1, h1, h2⟩ := runLoop_lines lib i hl rest [] s (by simpa using hr)
      rw [h2, List.nil_append, if_neg hc, runCommands, if_neg (hrun ▸ hr)]
      have hs1 : FlatBody s1 := quiet_flat (h1.trans hq) hs
      have e1 := executeLine_quiet lib i c hs1
      have e2 := executeLine_quiet lib i c hs
      rw [h1.trans hq, e2] at e1
      have f1 := executeLine_flat lib i c hs1
      have f2 := executeLine_flat lib i c hs
      cases hx : executeLine lib i c s1 with
      | mk t o =>
        cases hy : executeLine lib i c s' with
        | mk t' o' =>
          rw [hx, hy] at e1
          rw [hy] at f2
          simp only [Prod.mk.injEq] at e1
          obtain ⟨e1, rfl⟩ := e1
          cases o' with
          | some g => exact ⟨e1.symm, rfl⟩
          | none => exact ih t t' e1.symm f2
  | @blank ls rest cs hl _ ih =>
    by_cases hr : s.running = false
    · have hrun : s.quiet.running = s'.quiet.running := congrArg State.running hq
      change s.running = s'.running at hrun
      rw [runLoop_stopped lib i _ _ hr, runCommands_stopped lib i _ (hrun ▸ hr)]
      exact ⟨hq, rfl⟩
    · obtain ⟨s1, h1, h2⟩ := runLoop_lines lib i hl rest [] s (by simpa using hr)
      rw [h2, List.nil_append, if_pos rfl]
      exact ih s1 s' (h1.trans hq) hs

/-- **C51** A script does what its commands do one after the other, until `exit` (or an error, if not interactive), however
they are spread over the lines: indented, with comments and blank lines, continued with backslashes.  (`quiet` leaves out the
greeting and the prompts.) -/
theorem C51_script (lib : Lib σ ν ω) (i : Bool) (greeting : List Char) (ls cs : List (List Char)) (hf : File ls cs) (s : State σ ν ω)
    (hs : ∀ c ∈ s.body, c.name ≠ .loop) :
    (run lib i greeting ls s).1.quiet = (runCommands lib i cs s).1.quiet ∧ (run lib i greeting ls s).2 = (runCommands lib i cs s).2 := by
  unfold run
  refine runLoop_file lib i hf _ s ?_ hs
  split
  · exact State.quiet_write _ _
  · rfl

/-- **C51** Without `exit` it does the same as the single line with the commands separated by `;`. -/
theorem C51_joined (lib : Lib σ ν ω) (i : Bool) (greeting : List Char) (ls : List (List Char)) (c : List Char) (cs : List (List Char))
    (hf : File ls (c :: cs)) (s : State σ ν ω) (hs : ∀ c ∈ s.body, c.name ≠ .loop)
    (hr : (executeLine lib i (Py.join [';'] (c :: cs)) s).1.running = true) :
    (run lib i greeting ls s).1.quiet = (executeLine lib i (Py.join [';'] (c :: cs)) s).1.quiet ∧
    (run lib i greeting ls s).2 = (executeLine lib i (Py.join [';'] (c :: cs)) s).2 := by
  obtain ⟨h1, h2⟩ := C51_script lib i greeting ls (c :: cs) hf s hs
  have key : ∀ (ds : List (List Char)) (t : State σ ν ω), FlatBody t → (seq (executeLine lib i) ds t).1.running = true →
      runCommands lib i ds t = seq (executeLine lib i) ds t := by
    intro ds
    induction ds with
    | nil => intro t _ _; rfl
    | cons d ds ih =>
      intro t ht hrun
      have hrt : t.running = true := by
        by_contra hcon
        have hcon : t.running = false := by simpa using hcon
        have : (seq (executeLine lib i) (d :: ds) t).1.running = false ∧ FlatBody (seq (executeLine lib i) (d :: ds) t).1 :=
          seq_inv (P := fun u => u.running = false ∧ FlatBody u)
            (fun x _ u hu => ⟨executeLine_stopped lib i x hu.2 hu.1, executeLine_flat lib i x hu.2⟩) ⟨hcon, ht⟩
        rw [this.1] at hrun
        cases hrun
      rw [runCommands, if_neg (by rw [hrt]; simp), seq]
      rw [seq] at hrun
      have hfl := executeLine_flat lib i d ht
      cases hx : executeLine lib i d t with
      | mk u o =>
        rw [hx] at hrun hfl
        cases o with
        | some g => rfl
        | none => exact ih u hfl hrun
  rw [executeLine_join] at hr ⊢
  rw [h1, h2, key _ s hs hr]
  exact ⟨rfl, rfl⟩

example : File ["# comment\n".toList, "  new \\\n".toList, " 2,3\n".toList, "\n".toList, "solve # now\n".toList, "view".toList]
    ["new 2,3".toList, "solve".toList, "view".toList] := by
  have nil : Piece [] := ⟨by simp, by simp, by simp⟩
  have b0 : Blank [] := by simp [Blank]
  have t0 : Spec.Script.Tail ['\n'] := ⟨['\n'], [], by simp [Blank]; decide, .inl rfl, rfl⟩
  refine .blank (ls := ["# comment\n".toList])
    (.last (b := []) (c := []) (t := "# comment\n".toList) b0 nil (by simp [Ends]) ⟨[], _, b0, .inr ⟨_, rfl⟩, rfl⟩) ?_
  refine .command (ls := ["  new \\\n".toList, " 2,3\n".toList]) (c := "new 2,3".toList) ?_ (by decide) ?_
  · refine .continued (b := "  ".toList) (p := "new ".toList) (t := ['\n']) (c := "2,3".toList) (by simp [Blank]; decide)
      ⟨by decide, by decide, by simp; decide⟩ t0 ?_
    exact .last (b := " ".toList) (c := "2,3".toList) (t := ['\n']) (by simp [Blank]; decide)
      ⟨by decide, by decide, by simp; decide⟩ (by simp [Ends]; decide) t0
  refine .blank (ls := ["\n".toList]) (.last (b := []) (c := []) (t := ['\n']) b0 nil (by simp [Ends]) t0) ?_
  refine .command (ls := ["solve # now\n".toList]) (c := "solve".toList) ?_ (by decide) ?_
  · exact .last (b := []) (c := "solve".toList) (t := " # now\n".toList) b0 ⟨by decide, by decide, by simp; decide⟩ (by simp [Ends]; decide)
      ⟨" ".toList, "# now\n".toList, by simp [Blank]; decide, .inr ⟨_, rfl⟩, rfl⟩
  refine .command (ls := ["view".toList]) (rest := []) (c := "view".toList) ?_ (by decide) (.unfinished .nil)
  exact .last (b := []) (c := "view".toList) (t := []) b0 ⟨by decide, by decide, by simp; decide⟩ (by simp [Ends]; decide)
      ⟨[], [], b0, .inl rfl, rfl⟩

/-! ## C52: errors -/

/-- How errors and the end of the process belong together. -/
def Reported (i : Bool) (s : State σ ν ω) (r : State σ ν ω × Option Signal) : Prop :=
  match r.2 with
  | none => if i then s.errors <+: r.1.errors else r.1.errors = s.errors
  | some (.exit code) => i = false ∧ code = 1 ∧ ∃ e, r.1.errors = s.errors ++ [e]
  | some (.crash _) => if i then s.errors <+: r.1.errors else r.1.errors = s.errors
  | some .interrupt => False

private theorem reported_trans {i : Bool} {s t : State σ ν ω} {r : State σ ν ω × Option Signal} (h1 : Reported i s (t, none))
    (h2 : Reported i t r) : Reported i s r := by
  obtain ⟨u, g⟩ := r
  cases i with
  | true =>
    simp only [Reported, if_true] at h1
    rcases g with _ | g | e | _
    · simp only [Reported, if_true] at h2 ⊢; exact h1.trans h2
    · simp only [Reported] at h2; cases h2.1
    · simp only [Reported, if_true] at h2 ⊢; exact h1.trans h2
    · exact h2.elim
  | false =>
    simp only [Reported, Bool.false_eq_true, if_false] at h1
    simp only [Reported] at h2 ⊢
    rw [h1] at h2
    exact h2

private theorem reported_error (i : Bool) (e : Err) (s : State σ ν ω) : Reported i s (error i e s) := by
  unfold error
  cases i with
  | true => simp [Reported]
  | false => simp [Reported]

private theorem reported_same {i : Bool} {s t : State σ ν ω} (h : t.errors = s.errors) : Reported i s (t, none) := by
  cases i <;> simp [Reported, h]

private theorem reported_seq {α : Type} {f : α → State σ ν ω → State σ ν ω × Option Signal} {i : Bool} {P : State σ ν ω → Prop} {l : List α}
    (h : ∀ x ∈ l, ∀ s, P s → Reported i s (f x s) ∧ P (f x s).1) {s : State σ ν ω} (hs : P s) : Reported i s (seq f l s) := by
  induction l generalizing s with
  | nil => exact reported_same rfl
  | cons x l ih =>
    obtain ⟨h1, h2⟩ := h x (by simp) s hs
    rw [seq]
    cases hx : f x s with
    | mk t o =>
      rw [hx] at h1 h2
      cases o with
      | some g => exact h1
      | none => exact reported_trans h1 (ih (fun y hy => h y (List.mem_cons_of_mem _ hy)) h2)

private theorem reported_body (lib : Lib σ ν ω) (i : Bool) (c : Command ν) (hc : c.name ≠ .loop) (s : State σ ν ω) :
    Reported i s (executeBody lib i c s) := by
  obtain ⟨f, _, hf⟩ := executeBody_form lib i c hc
  rw [hf]
  have h0 : ((f (s.core lib)).1.apply lib s).errors = s.errors := by simp
  cases (f (s.core lib)).2 with
  | done => exact reported_same h0
  | alloc x => exact reported_same h0
  | text t => exact reported_same h0
  | error e => exact reported_trans (reported_same h0) (reported_error i e _)

private theorem reported_execute (lib : Lib σ ν ω) (i : Bool) (c : Command ν) {s : State σ ν ω} (hs : FlatBody s) :
    Reported i s (execute lib i c s) := by
  by_cases hc : c.name = .loop
  · rcases execute_loop lib i c hc s with ⟨e, he⟩ | ⟨k, p, _, _, _, he⟩ | ⟨k, _, he⟩
    · rw [he]; exact reported_error i e s
    · rw [he]; exact reported_same rfl
    · rw [he]
      have h1 : Reported i s (runBody lib i k s) := by
        unfold runBody
        refine reported_trans (reported_same (t := { s with prompt := commandPrompt i }) rfl)
          (reported_seq (P := fun _ => True) (fun c hc t _ => ⟨?_, trivial⟩) trivial)
        obtain ⟨l, hl, hc⟩ := List.mem_flatten.1 hc
        rw [List.eq_of_mem_replicate hl] at hc
        exact reported_body lib i c (hs c hc) t
      cases hx : runBody lib i k s with
      | mk t o =>
        rw [hx] at h1
        cases o with
        | some g => exact h1
        | none => exact reported_trans h1 (reported_same rfl)
  · rw [execute_eq_body lib i c hc]
    exact reported_body lib i c hc s

private theorem part_flat (lib : Lib σ ν ω) (i : Bool) (part : List Char) {s : State σ ν ω} (hs : FlatBody s) :
    FlatBody (executePart lib i part s).1 :=
  flat_good.2 ((flat_kept lib i).part (fun _ _ => .inl trivial) (flat_good.1 hs))

private theorem reported_part (lib : Lib σ ν ω) (i : Bool) (part : List Char) {s : State σ ν ω} (hs : FlatBody s) :
    Reported i s (executePart lib i part s) := by
  have crash : ∀ e, Reported i s (s, some (.crash e)) := by intro e; cases i <;> simp [Reported]
  unfold executePart executePartWith
  cases parse lib (Py.strip part) with
  | error e => rcases e with _ | _ | e <;> first | exact reported_error i _ s | (cases e <;> first | exact reported_error i _ s | exact crash _)
  | ok c =>
    simp only
    split
    · exact reported_execute lib i c hs
    · split
      · exact reported_same rfl
      · exact reported_execute lib i c hs

theorem reported_line (lib : Lib σ ν ω) (i : Bool) (line : List Char) {s : State σ ν ω} (hs : FlatBody s) :
    Reported i s (executeLine lib i line s) :=
  reported_seq (P := FlatBody) (fun part _ _ ht => ⟨reported_part lib i part ht, part_flat lib i part ht⟩) hs

theorem reported_run (lib : Lib σ ν ω) (i : Bool) (input : List (List Char)) (pend : List Char) {s : State σ ν ω}
    (hs : FlatBody s) : Reported i s (runLoop lib i input pend s) := by
  induction input generalizing pend s with
  | nil =>
    rw [runLoop]
    split
    · exact reported_same rfl
    · simp only
      split <;> exact reported_same rfl
  | cons line input ih =>
    have h0 : Reported i s (s.write (.prompt s.prompt), none) := reported_same rfl
    have hw : FlatBody (s.write (.prompt s.prompt)) := hs
    rw [runLoop]
    split
    · exact reported_same rfl
    · simp only
      split
      · exact reported_trans h0 (ih _ hw)
      · split
        · exact reported_trans h0 (ih _ hw)
        · have h1 := reported_line lib i (pend ++ clean line) hw
          have h2 := executeLine_flat lib i (pend ++ clean line) hw
          cases hx : executeLine lib i (pend ++ clean line) (s.write (.prompt s.prompt)) with
          | mk t o =>
            rw [hx] at h1 h2
            cases o with
            | some g => exact reported_trans h0 h1
            | none => exact reported_trans h0 (reported_trans h1 (ih _ h2))

/-- **C52** A script ends with exit code 1 at the first error: when it ends this way exactly one error has been reported,
when it ends otherwise none has. -/
theorem C52_script (lib : Lib σ ν ω) (w : ω) (greeting : List Char) (input : List (List Char)) :
    let r := run lib false greeting input (init lib false w)
    (∀ code, r.2 = some (.exit code) → code = 1 ∧ r.1.errors.length = 1) ∧
    ((∀ code, r.2 ≠ some (.exit code)) → r.1.errors = []) := by
  intro r
  have h : Reported false (init lib false w) r := reported_run lib false input [] (s := init lib false w) (by simp [FlatBody, init])
  obtain ⟨t, g⟩ := r
  rcases g with _ | g | e | _
  · exact ⟨by simp, fun _ => h⟩
  · refine ⟨fun code hc => ?_, fun hc => absurd rfl (hc g)⟩
    obtain ⟨_, h1, e, h2⟩ := h
    simp at hc
    refine ⟨hc ▸ h1, ?_⟩
    simp only at h2 ⊢
    rw [h2]; simp [init]
  · exact ⟨by simp, fun _ => h⟩
  · exact h.elim

/-- **C52** After the error nothing more is executed: neither on the same line ... -/
theorem C52_rest_of_line (lib : Lib σ ν ω) (i : Bool) (a b : List Char) (s : State σ ν ω) (h : (executeLine lib i a s).2 ≠ none) :
    executeLine lib i (a ++ ';' :: b) s = executeLine lib i a s := by
  unfold executeLine at h ⊢
  rw [splitGo_semicolon, seq_append]
  cases hx : seq (executePart lib i) (Py.splitGo [';'] a 0 []) s with
  | mk t o =>
    rw [hx] at h
    cases o with
    | none => exact absurd rfl h
    | some g => rfl

/-- **C52** ... nor on the following lines. -/
theorem C52_rest_of_script (lib : Lib σ ν ω) (i : Bool) (input more : List (List Char)) (pend : List Char) (s : State σ ν ω)
    (h : (runLoop lib i input pend s).2 ≠ none) : runLoop lib i (input ++ more) pend s = runLoop lib i input pend s := by
  induction input generalizing pend s with
  | nil =>
    exfalso
    apply h
    rw [runLoop]
    split
    · rfl
    · simp only
  | cons line input ih =>
    rw [List.cons_append, runLoop]
    rw [runLoop] at h
    conv_rhs => rw [runLoop]
    by_cases hr : s.running = false
    · rw [if_pos hr, if_pos hr]
    · rw [if_neg hr, if_neg hr]
      rw [if_neg hr] at h
      simp only at h ⊢
      by_cases h1 : (clean line).getLast? = some '\\'
      · rw [if_pos h1, if_pos h1]
        rw [if_pos h1] at h
        exact ih _ _ h
      · rw [if_neg h1, if_neg h1]
        rw [if_neg h1] at h
        by_cases h2 : pend ++ clean line = []
        · rw [if_pos h2, if_pos h2]
          rw [if_pos h2] at h
          exact ih _ _ h
        · rw [if_neg h2, if_neg h2]
          rw [if_neg h2] at h
          cases hx : executeLine lib i (pend ++ clean line) (s.write (.prompt s.prompt)) with
          | mk t o =>
            rw [hx] at h
            cases o with
            | some g => rfl
            | none => exact ih _ _ h

/-- **C52** An interactive shell is not left because of an error. -/
theorem C52_interactive (lib : Lib σ ν ω) (w : ω) (greeting : List Char) (input : List (List Char)) (code : Nat) :
    (run lib true greeting input (init lib true w)).2 ≠ some (.exit code) := by
  intro h
  have h1 : Reported true (init lib true w) (run lib true greeting input (init lib true w)) := by
    refine reported_trans (reported_same (t := (init lib true w).write (.prompt greeting)) rfl) (reported_run lib true input [] ?_)
    simp [FlatBody, init, State.write]
  unfold Reported at h1
  rw [h] at h1
  cases h1.1

/-- A library function that raises, or returns something the shell cannot print, leaves the sudoku as it was. -/
def Atomic (lib : Lib σ ν ω) : Prop := ∀ n args kwargs x w,
  (lib.call n args kwargs x w).2.2 = .ok .other ∨ (∃ e, (lib.call n args kwargs x w).2.2 = .error e) → (lib.call n args kwargs x w).1 = x

/-- **C52** A command that reports an error changes neither the stack nor which sudoku is the current one; it does not change
this sudoku either, if the library functions do not when they fail. -/
theorem C52_unchanged (lib : Lib σ ν ω) (i : Bool) (c : Command ν) (hc : c.name ≠ .loop) (s : State σ ν ω)
    (he : (execute lib i c s).1.errors ≠ s.errors) :
    let t := (execute lib i c s).1
    t.stack = s.stack ∧ t.cur = s.cur ∧ t.out = s.out ∧ t.running = s.running ∧ (Atomic lib → s.cur < s.heap.length → t.heap = s.heap) := by
  intro t
  rw [execute_eq_body lib i c hc] at he
  by_cases hn : c.name ≠ .loop ∧ c.name ≠ .exit ∧ c.name ≠ .stack ∧ c.name ≠ .push ∧ c.name ≠ .pop ∧ c.name ≠ .help
  · have hl := library lib i c hn s
    have ht : t = (executeBody lib i c s).1 := by show (execute lib i c s).1 = _; rw [execute_eq_body lib i c hc]
    rw [ht, hl]
    rw [hl] at he
    by_cases hs : c.name.takesSudoku = true
    · rw [if_pos hs, if_pos hs] at he ⊢
      generalize hr : lib.call c.name c.args c.kwargs (s.sudoku lib) s.world = r at he ⊢
      obtain ⟨x, w, r⟩ := r
      have hx : Atomic lib → (r = .ok .other ∨ ∃ e, r = .error e) → s.cur < s.heap.length → s.heap.set s.cur x = s.heap := by
        intro ha hr' hlt
        have := ha c.name c.args c.kwargs (s.sudoku lib) s.world
        rw [hr] at this
        have h1 : x = s.sudoku lib := this hr'
        rw [h1]
        unfold State.sudoku
        rw [List.getD_eq_getElem?_getD, List.getElem?_eq_getElem hlt, Option.getD_some, List.set_getElem_self]
      rcases r with e | r
      · exact ⟨rfl, rfl, rfl, rfl, fun ha => hx ha (.inr ⟨e, rfl⟩)⟩
      · cases r with
        | other => exact ⟨rfl, rfl, rfl, rfl, fun ha => hx ha (.inl rfl)⟩
        | none => exact absurd rfl he
        | same => exact absurd rfl he
        | text _ => exact absurd rfl he
        | sudoku _ => exact absurd rfl he
    · rw [if_neg hs, if_neg hs] at he ⊢
      generalize lib.create c.name c.args c.kwargs s.world = r at he ⊢
      obtain ⟨w, r⟩ := r
      rcases r with e | r
      · exact ⟨rfl, rfl, rfl, rfl, fun _ _ => rfl⟩
      · cases r with
        | other => exact ⟨rfl, rfl, rfl, rfl, fun _ _ => rfl⟩
        | none => exact absurd rfl he
        | same => exact absurd rfl he
        | text _ => exact absurd rfl he
        | sudoku _ => exact absurd rfl he
  · obtain ⟨f, hfit, hf⟩ := executeBody_form lib i c hc
    have ht : t = (executeBody lib i c s).1 := by show (execute lib i c s).1 = _; rw [execute_eq_body lib i c hc]
    rw [ht, hf s]
    rw [hf s] at he
    have hk := (hfit (s.core lib)).failed (by
      by_contra hcon
      simp only [not_or] at hcon
      exact hn ⟨hc, hcon.2.2.1, hcon.2.2.2.1, hcon.1, hcon.2.1, hcon.2.2.2.2⟩)
    cases hq : (f (s.core lib)).2 with
    | error e =>
      rw [hk e hq]
      exact ⟨rfl, rfl, rfl, rfl, fun _ _ => rfl⟩
    | done => rw [hq] at he; exact absurd (Pre.apply_errors lib _ s) he
    | alloc x => rw [hq] at he; exact absurd (Pre.apply_errors lib _ s) he
    | text x => rw [hq] at he; exact absurd (Pre.apply_errors lib _ s) he

private theorem splitGo_ne_nil (sep s : List Char) (n : Nat) (acc : List Char) : Py.splitGo sep s n acc ≠ [] := by
  induction s generalizing n acc with
  | nil => cases n <;> simp [Py.splitGo]
  | cons c s ih =>
    cases n with
    | zero =>
      unfold Py.splitGo
      split
      · simp
      · exact ih _ _
    | succ n => unfold Py.splitGo; exact ih _ _

private theorem parseItems_error (lib : Lib σ ν ω) (items : List (List Char)) (args : List (Arg ν)) (kwargs : List (List Char × ν)) (e : PyErr)
    (h : parseItems lib items args kwargs = .error (.other e)) : ∃ x, lib.literal x = .error (.other e) := by
  induction items generalizing args kwargs with
  | nil => simp [parseItems] at h
  | cons item items ih =>
    have lit : ∀ x e', lib.literal x = .error e' → literalErr x e' = .other e → ∃ x, lib.literal x = .error (.other e) := by
      intro x e' h1 h2
      cases e' with
      | syntaxOrValue => cases h2
      | other e' => cases h2; exact ⟨x, h1⟩
    unfold parseItems at h
    cases hc : Py.cut ['='] item with
    | some p =>
      obtain ⟨name, value⟩ := p
      rw [hc] at h
      simp only at h
      cases hv : lib.literal value with
      | error e' => rw [hv] at h; exact lit value e' hv (by simpa using h)
      | ok v => rw [hv] at h; exact ih _ _ h
    | none =>
      rw [hc] at h
      simp only at h
      split at h
      · exact ih _ _ h
      · split at h
        · exact ih _ _ h
        · cases hv : lib.literal item with
          | error e' => rw [hv] at h; exact lit item e' hv (by simpa using h)
          | ok v => rw [hv] at h; exact ih _ _ h

private theorem parse_error (lib : Lib σ ν ω) (x : List Char) (e : PyErr) (h : parse lib x = .error (.other e)) :
    ∃ x, lib.literal x = .error (.other e) := by
  unfold parse at h
  cases hs : Py.splitGo [' '] x 0 [] with
  | nil => exact absurd hs (splitGo_ne_nil _ _ _ _)
  | cons f items =>
    rw [hs] at h
    simp only at h
    cases hp : parseItems lib items [] [] with
    | error e' =>
      rw [hp] at h
      simp only [Except.error.injEq] at h
      subst h
      exact parseItems_error lib items [] [] _ hp
    | ok r =>
      rw [hp] at h
      simp only at h
      cases hn : command? f with
      | none => rw [hn] at h; cases h
      | some n => rw [hn] at h; cases h

private theorem error_no_crash (i : Bool) (x : Err) (s : State σ ν ω) (e : PyErr) : (error i x s).2 ≠ some (.crash e) := by
  unfold error
  cases i <;> simp

private theorem body_no_crash (lib : Lib σ ν ω) (i : Bool) (c : Command ν) (hc : c.name ≠ .loop) (s : State σ ν ω) (e : PyErr) :
    (executeBody lib i c s).2 ≠ some (.crash e) := by
  obtain ⟨f, _, hf⟩ := executeBody_form lib i c hc
  rw [hf]
  cases (f (s.core lib)).2 with
  | done => simp [Post.apply]
  | alloc x => simp [Post.apply]
  | text t => simp [Post.apply]
  | error x => exact error_no_crash i x _ e

private theorem seq_no_crash {α : Type} {f : α → State σ ν ω → State σ ν ω × Option Signal} {P : State σ ν ω → Prop} {l : List α} {e : PyErr}
    (h : ∀ x ∈ l, ∀ s, P s → (f x s).2 ≠ some (.crash e) ∧ P (f x s).1) {s : State σ ν ω} (hs : P s) : (seq f l s).2 ≠ some (.crash e) := by
  induction l generalizing s with
  | nil => simp [seq]
  | cons x l ih =>
    obtain ⟨h1, h2⟩ := h x (by simp) s hs
    rw [seq]
    cases hx : f x s with
    | mk t o =>
      rw [hx] at h1 h2
      cases o with
      | some g => exact h1
      | none => exact ih (fun y hy => h y (List.mem_cons_of_mem _ hy)) h2

private theorem execute_no_crash (lib : Lib σ ν ω) (i : Bool) (c : Command ν) {s : State σ ν ω} (hs : FlatBody s) (e : PyErr) :
    (execute lib i c s).2 ≠ some (.crash e) := by
  by_cases hc : c.name = .loop
  · rcases execute_loop lib i c hc s with ⟨x, he⟩ | ⟨k, p, _, _, _, he⟩ | ⟨k, _, he⟩
    · rw [he]; exact error_no_crash i x s e
    · rw [he]; simp
    · rw [he]
      have h1 : (runBody lib i k s).2 ≠ some (.crash e) := by
        unfold runBody
        refine seq_no_crash (P := fun _ => True) (fun c hc t _ => ⟨?_, trivial⟩) trivial
        obtain ⟨l, hl, hc⟩ := List.mem_flatten.1 hc
        rw [List.eq_of_mem_replicate hl] at hc
        exact body_no_crash lib i c (hs c hc) t e
      cases hx : runBody lib i k s with
      | mk t o =>
        rw [hx] at h1
        cases o with
        | some g => exact h1
        | none => simp [endLoop]
  · rw [execute_eq_body lib i c hc]
    exact body_no_crash lib i c hc s e

/-- **C52** The process dies of an exception only if `literal_eval` raises it, being neither `SyntaxError` nor `ValueError`. -/
theorem C52_crash (lib : Lib σ ν ω) (i : Bool) (line : List Char) (s : State σ ν ω) (hs : ∀ c ∈ s.body, c.name ≠ .loop) (e : PyErr)
    (h : (executeLine lib i line s).2 = some (.crash e)) : ∃ x, lib.literal x = .error (.other e) := by
  by_contra hcon
  refine seq_no_crash (P := FlatBody) (e := e) (fun part _ t ht => ⟨?_, part_flat lib i part ht⟩) hs h
  intro hx
  unfold executePart executePartWith at hx
  cases hp : parse lib (Py.strip part) with
  | error e' =>
    rw [hp] at hx
    rcases e' with _ | _ | e'
    · exact error_no_crash i _ t e hx
    · exact error_no_crash i _ t e hx
    · have hl := parse_error lib _ _ hp
      cases e' <;> simp only at hx <;> first | exact error_no_crash i _ t e hx | (cases hx; exact hcon hl)
  | ok c =>
    rw [hp] at hx
    simp only at hx
    split at hx
    · exact execute_no_crash lib i c ht e hx
    · split at hx
      · cases hx
      · exact execute_no_crash lib i c ht e hx

end Props
