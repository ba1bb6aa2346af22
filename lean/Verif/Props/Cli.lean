import Verif.Proofs.Bufio
import Verif.Props.Pipeline

/-! Properties of the command line program: C47, C48, C49, C50, C60, C61. -/

namespace Jargon

/-! ### C47 -/

theorem piped_eq (mode : Nat) : (mode &&& modeCharDevice == 0) = !isTerminal mode := by
  have h : modeCharDevice = 2 ^ 21 := by decide
  rw [h, isTerminal]
  cases hb : mode.testBit 21 with
  | true =>
    have : (mode &&& 2 ^ 21).testBit 21 = true := by
      rw [Nat.testBit_and, hb, Nat.testBit_two_pow_self]; rfl
    have hne : mode &&& 2 ^ 21 ≠ 0 := by intro h0; rw [h0] at this; simp at this
    simpa using hne
  | false =>
    have : mode &&& 2 ^ 21 = 0 := by
      apply Nat.eq_of_testBit_eq
      intro i
      rw [Nat.testBit_and, Nat.testBit_two_pow]
      by_cases hi : 21 = i
      · subst hi; simp [hb]
      · simp [hi]
    simp [this]

/-- **C47.** The input is chosen as specified, or the right error is reported; the rest of the
configuration is not touched. -/
theorem C47_input {ω : Type} (fs : Fs) (c : Config ω) (hc : c.filein = none) (mode : Nat)
    (filein : Bytes) :
    match inputChoice (isTerminal mode) (named fs.openFile filein) with
    | .error e => (setInput fs c mode filein).1 = some e
    | .ok .std => setInput fs c mode filein = (none, { c with pipedin := true, filein := none })
    | .ok (.file i) => setInput fs c mode filein = (none, { c with pipedin := false, filein := some i }) := by
  obtain ⟨html, count, lines, filters, fin, fout, pin, pout, rd, wr⟩ := c
  simp only at hc
  subst hc
  unfold setInput named inputChoice
  rw [piped_eq]
  by_cases hn : filein = []
  · subst hn
    cases isTerminal mode <;> simp
  · cases ho : fs.openFile filein with
    | error e => cases isTerminal mode <;> simp [hn]
    | ok i => cases isTerminal mode <;> simp [hn]

/-- A file system with one file, number 1, of 13 bytes, at the path "in". -/
def sampleFs : Fs where
  openFile p := if p = str "in" then .ok 1 else .error (.ext 7)
  create p := if p = str "in" then .ok 1 else .ok 2
  stat i := .ok (if i = 1 then 13 else 0)
  content i := if i = 1 then { data := str "Ruby on Rails" } else { data := [] }

example : inputChoice (isTerminal (2 ^ 21)) (named sampleFs.openFile (str "in")) = .ok (.file 1) := by
  decide +kernel

example : inputChoice (isTerminal 0) (named sampleFs.openFile (str "nowhere")) = .error (.other (.ext 7)) := by
  decide +kernel

/-! ### C48 -/

theorem filterMap_lookup (E : Env) (sb : Snowball) (arg : Bytes) :
    (filterMap E sb).lookup arg = (flagOf arg).map fun f => (f.filter sb .english).apply E := by
  have hb : ∀ s : String, (arg == str s) = decide (str s = arg) := fun s => by
    rw [Bool.eq_iff_iff, beq_iff_eq, decide_eq_true_iff]; exact eq_comm
  have e1 : str "-" ++ FilterFlag.ascii.name = str "-ascii" := by decide +kernel
  have e2 : str "-" ++ FilterFlag.contractions.name = str "-contractions" := by decide +kernel
  have e3 : str "-" ++ FilterFlag.lemmas.name = str "-lemmas" := by decide +kernel
  have e4 : str "-" ++ FilterFlag.distinct.name = str "-distinct" := by decide +kernel
  have e5 : str "-" ++ FilterFlag.stack.name = str "-stack" := by decide +kernel
  have e6 : str "-" ++ FilterFlag.stem.name = str "-stem" := by decide +kernel
  simp only [filterMap, flagOf, allFlags, List.lookup_cons, List.find?_cons, hb, e1, e2, e3, e4, e5, e6]
  generalize decide (str "-ascii" = arg) = b1
  generalize decide (str "-contractions" = arg) = b2
  generalize decide (str "-lemmas" = arg) = b3
  generalize decide (str "-distinct" = arg) = b4
  generalize decide (str "-stack" = arg) = b5
  generalize decide (str "-stem" = arg) = b6
  cases b1 <;> cases b2 <;> cases b3 <;> cases b4 <;> cases b5 <;> cases b6 <;> rfl

theorem stemmerMap_lookup (E : Env) (sb : Snowball) {lang : Bytes} (h : lang ≠ []) :
    (stemmerMap E sb).lookup lang = (langOf lang).map fun l => stemmer E.U (sb.of l) := by
  have hb : ∀ x : Bytes, (lang == x) = decide (x = lang) := fun x => by
    rw [Bool.eq_iff_iff, beq_iff_eq, decide_eq_true_iff]; exact eq_comm
  have hmap : stemmerMap E sb = allLanguages.map fun l => (l.name, stemmer E.U (sb.of l)) := rfl
  rw [hmap, langOf, if_neg h]
  generalize allLanguages = ls
  induction ls with
  | nil => rfl
  | cons l ls ih =>
    simp only [List.map_cons, List.lookup_cons, List.find?_cons, hb]
    cases decide (l.name = lang)
    · exact ih
    · rfl

theorem flagOf_stem {arg : Bytes} {f : FilterFlag} (h : flagOf arg = some f) :
    (f = .stem ↔ arg = str "-stem") := by
  have := List.find?_some h
  simp only [decide_eq_true_eq] at this
  subst this
  cases f <;> decide +kernel

/-- **C48.** The filters appended are those of the recognised arguments, in their order and number, with
the stemmer of the chosen language. An unknown language is an error exactly if -stem is among the
arguments. -/
theorem C48_filters {ω : Type} (E : Env) (sb : Snowball) (c : Config ω) (args : List Bytes)
    (lang : Bytes) :
    (∀ l, langOf lang = some l → setFilters E sb c args lang =
      (none, { c with filters := c.filters ++
        (args.filterMap flagOf).map fun f => (f.filter sb l).apply E })) ∧
    (langOf lang = none → FilterFlag.stem ∈ args.filterMap flagOf →
      (setFilters E sb c args lang).1 = some (.unknownLang lang)) ∧
    (langOf lang = none → FilterFlag.stem ∉ args.filterMap flagOf → ∀ l, setFilters E sb c args lang =
      (none, { c with filters := c.filters ++
        (args.filterMap flagOf).map fun f => (f.filter sb l).apply E })) := by
  induction args generalizing c with
  | nil => simp [setFilters]
  | cons arg args ih =>
    rw [setFilters, filterMap_lookup]
    cases hf : flagOf arg with
    | none =>
      simp only [Option.map_none, List.filterMap_cons, hf]
      exact ih c
    | some f =>
      simp only [Option.map_some, List.filterMap_cons, hf, List.map_cons]
      have hstem := flagOf_stem hf
      by_cases hs : f = .stem
      · have harg := hstem.mp hs
        subst hs
        by_cases hl : lang = []
        · subst hl
          rw [if_neg (by simp)]
          obtain ⟨i1, i2, i3⟩ := ih { c with filters := c.filters ++ [(FilterFlag.stem.filter sb .english).apply E] }
          have he : langOf [] = some .english := by simp [langOf]
          refine ⟨?_, ?_, ?_⟩
          · intro l hl
            rw [he] at hl
            cases hl
            rw [i1 _ he]
            simp
          · rw [he]; intro h; cases h
          · rw [he]; intro h; cases h
        · rw [if_pos ⟨harg, hl⟩, stemmerMap_lookup E sb hl]
          cases hlo : langOf lang with
          | none =>
            simp only [Option.map_none]
            refine ⟨fun l h => ?_, fun _ _ => by trivial, fun _ h => ?_⟩
            · cases h
            · simp at h
          | some l =>
            simp only [Option.map_some]
            refine ⟨?_, (fun h => nomatch h), (fun h => nomatch h)⟩
            intro l' hl'
            cases hl'
            rw [(ih _).1 l hlo]
            simp [FilterFlag.filter, Builtin.apply]
      · rw [if_neg (fun h => hs (hstem.mpr h.1))]
        have hsame : ∀ l l', (f.filter sb l).apply E = (f.filter sb l').apply E := by
          intro l l'; cases f <;> first | rfl | exact absurd rfl hs
        obtain ⟨i1, i2, i3⟩ := ih { c with filters := c.filters ++ [(f.filter sb .english).apply E] }
        refine ⟨?_, ?_, ?_⟩
        · intro l hl
          rw [i1 l hl, hsame l .english]
          simp
        · intro h1 h2
          rcases List.mem_cons.mp h2 with h2 | h2
          · exact absurd h2.symm hs
          · exact i2 h1 h2
        · intro h1 h2 l
          rw [i3 h1 (fun h => h2 (List.mem_cons_of_mem _ h)) l, hsame l .english]
          simp

example : (["-stack", "x", "-stem", "-ascii", "-stem"].map str).filterMap flagOf =
    [.stack, .stem, .ascii, .stem] := by decide +kernel

example : langOf (str "french") = some .french ∧ langOf [] = some .english ∧
    langOf (str "klingon") = none := by decide +kernel

/-! ### C50 -/

/-- **C50.** After input and output have been chosen: the reader, if the file's size can be asked for,
reads the chosen source, its buffer and the writer's are equal and between 4 KiB and 1 MiB, and the
writer writes to the output file, or else to stdout. -/
theorem C50_buffers {ω : Type} (fs : Fs) (under : Place → ω) (c : Config ω) (src : Place)
    (hsrc : match src with
      | .std => c.pipedin = true ∧ c.filein = none
      | .file i => c.pipedin = false ∧ c.filein = some i)
    (hout : c.pipedout = c.fileout.isNone)
    (hstat : ∀ i, src = .file i → ∃ n, fs.stat i = .ok n) :
    ∃ c' size, (setReader fs c) = (none, c') ∧ c'.reader = some ⟨src, size⟩ ∧
      4 * 1024 ≤ size ∧ size ≤ 1024 * 1024 ∧
      setWriter under c' = (none, { c with
        reader := some ⟨src, size⟩
        writer := some ((match c.fileout with | none => .std | some i => .file i),
          BufWriter.new size (under (match c.fileout with | none => .std | some i => .file i))) }) := by
  obtain ⟨html, count, lines, filters, fin, fout, pin, pout, rd, wr⟩ := c
  cases src with
  | std =>
    obtain ⟨h1, h2⟩ := hsrc
    simp only at h1 h2 hout
    subst h1 h2 hout
    refine ⟨_, 64 * 1024, rfl, rfl, by omega, by omega, ?_⟩
    cases fout <;> rfl
  | file i =>
    obtain ⟨h1, h2⟩ := hsrc
    simp only at h1 h2 hout
    subst h1 h2 hout
    obtain ⟨n, hn⟩ := hstat i rfl
    unfold setReader
    have key : ∀ m : Int, 4 * 1024 ≤ m → m ≤ 1024 * 1024 →
        ∃ size, newReaderSize (.file i) m = ⟨.file i, size⟩ ∧ 4 * 1024 ≤ size ∧ size ≤ 1024 * 1024 := by
      intro m h1 h2
      exact ⟨_, rfl, by omega, by omega⟩
    cases fout with
    | none =>
      simp only [Option.isNone_none, Bool.false_or, ↓reduceIte, Bool.false_eq_true, hn]
      split
      · obtain ⟨size, h1, h2, h3⟩ := key (4 * 1024) (by omega) (by omega)
        exact ⟨_, size, rfl, by rw [h1], h2, h3, by rw [h1]; rfl⟩
      · split
        · obtain ⟨size, h1, h2, h3⟩ := key n (by omega) (by omega)
          exact ⟨_, size, rfl, by rw [h1], h2, h3, by rw [h1]; rfl⟩
        · obtain ⟨size, h1, h2, h3⟩ := key (1024 * 1024) (by omega) (by omega)
          exact ⟨_, size, rfl, by rw [h1], h2, h3, by rw [h1]; rfl⟩
    | some j =>
      simp only [Option.isNone_some, Bool.or_self, ↓reduceIte, Bool.false_eq_true, hn]
      split
      · obtain ⟨size, h1, h2, h3⟩ := key (4 * 1024) (by omega) (by omega)
        exact ⟨_, size, rfl, by rw [h1], h2, h3, by rw [h1]; rfl⟩
      · split
        · obtain ⟨size, h1, h2, h3⟩ := key n (by omega) (by omega)
          exact ⟨_, size, rfl, by rw [h1], h2, h3, by rw [h1]; rfl⟩
        · obtain ⟨size, h1, h2, h3⟩ := key (1024 * 1024) (by omega) (by omega)
          exact ⟨_, size, rfl, by rw [h1], h2, h3, by rw [h1]; rfl⟩

example : ∃ n, sampleFs.stat 1 = .ok n := ⟨_, rfl⟩

/-! ### C49 -/

theorem isOutput_iff {count lines : Bool} {toks : List Token} :
    IsOutput count lines toks (cliOutput count lines toks) := by
  unfold IsOutput cliOutput
  cases count
  · simp
  · simp only [↓reduceIte]
    exact ⟨_, (itoa_decimal _).1, rfl⟩

/-- **C49 (stream).** For every stream, every buffer size and every writer that, given something, takes
some of it or returns an error: `execute` returns, what the writer has taken is an initial part of the right text, and if
no error is returned then the stream ended normally and the writer has taken all of the text. If no
write fails, the error returned is that of the stream. -/
theorem C49_execute {ω : Type} (direct : Bool) {w : Writer ω} (hw : w.Lawful) (count lines : Bool)
    {ts : TokenStream} {toks : List Token} {e : End} (h : ts.Yields toks e) {size : Nat} (hsz : 0 < size)
    (u : ω) (log : Bytes) :
    ∃ out err b', IsOutput count lines toks out ∧
      executeStream direct (logged w) count lines ts (BufWriter.new size (u, log)) = Go.ret (err, b') ∧
      b'.under.2 <+: log ++ out ∧
      (err = none → e = .eof ∧ b'.under.2 = log ++ out) ∧
      (w.NeverFails → err = e.err) := by
  obtain ⟨err, b', h1, h2, h3, h4⟩ := executeStream_spec direct hw count lines h hsz u log
  exact ⟨_, err, b', isOutput_iff, h1, h2, h3, h4⟩

/-- A writer that takes everything. -/
def goodWriter : Writer Unit where
  write _ p := ((p.length, none), ())

theorem goodWriter_neverFails : goodWriter.NeverFails := fun _ _ => rfl

theorem Writer.NeverFails.lawful {ω : Type} {w : Writer ω} (h : w.NeverFails) : w.Lawful := by
  intro ws p
  rw [h ws p]
  simp

/-- A writer that takes five bytes and then fails. -/
def fullDisk : Writer Nat where
  write room p := if p.length ≤ room then ((p.length, none), room - p.length)
    else ((room, some (.ext 28)), 0)

theorem fullDisk_lawful : fullDisk.Lawful := by
  intro ws p
  unfold fullDisk
  simp only
  split
  · simp
  · simp; omega

/-- A writer that breaks the contract of `io.Writer`: it takes one byte at a time and returns no error. -/
def slowWriter : Writer Unit where
  write _ p := ((min 1 p.length, none), ())

theorem slowWriter_lawful : slowWriter.Lawful := by
  intro ws p
  refine ⟨by simp only [slowWriter]; omega, fun h hp => ?_⟩
  have := List.length_pos_iff.mpr hp
  simp only [slowWriter] at h
  omega

example := C49_execute true slowWriter_lawful false true
  (listStream_yields [mkToken asciiUnicode (str "ab") false, mkToken asciiUnicode (str "cd") false] .eof)
  (size := 3) (by omega) () []

example := C49_execute true fullDisk_lawful false true
  (listStream_yields [mkToken asciiUnicode (str "ab") false, mkToken asciiUnicode (str "cd") false] .eof)
  (size := 3) (by omega) 5 []

/-- Where the output should go, and the file system after the output file is created. -/
def outputChoice (fs : Fs) : Option (Except Err FileId) → Except CliErr (Place × Fs)
  | none => .ok (.std, fs)
  | some (.ok i) => .ok (.file i, fs.truncate i)
  | some (.error e) => .error (.other e)

/-- The stream the program reads: the tokens of the input through the filters asked for. -/
def programStream {ω : Type} (W : World ω) (flags : Flags) (args : List Bytes) (l : Language)
    (input : Reader) : TokenStream :=
  TokenStream.filter
    (if flags.html then tokenizeHTML W.E (W.parse input).1 (W.parse input).2 else tokenize W.E input)
    ((args.filterMap flagOf).map fun f => (f.filter W.snowball l).apply W.E)

/-- The exit that reports an error, or success if there is none. -/
def exitOf : Option Err → Exit
  | none => .success
  | some err => .failure (.other err)

/-- With an input, an output and a language it knows, the program executes. -/
theorem cliMain_runs {ω : Type} (W : World ω) (flags : Flags)
    (hv : flags.version = false) (args : List Bytes) {mode : Nat} (hmode : W.mode = .ok mode)
    {src dst : Place} {fs : Fs} {l : Language}
    (hin : inputChoice (isTerminal mode) (named W.fs.openFile flags.filein) = .ok src)
    (hout : outputChoice W.fs (named W.fs.create flags.fileout) = .ok (dst, fs))
    (hl : langOf flags.lang = some l)
    (hstat : ∀ i, src = .file i → ∃ n, fs.stat i = .ok n) :
    ∃ size, 4 * 1024 ≤ size ∧ size ≤ 1024 * 1024 ∧ cliMain W flags args = (do
      let r ← executeStream W.direct (W.writer dst) flags.count flags.lines
        (programStream W flags args l (W.source fs src)) (BufWriter.new size (W.under dst))
      pure (exitOf r.1, some (dst, r.2))) := by
  unfold cliMain
  simp only [hv, hmode, Bool.false_eq_true, ↓reduceIte]
  -- input
  have h1 := C47_input (ω := ω) W.fs
    { html := flags.html, count := flags.count, lines := flags.lines } rfl mode flags.filein
  rw [hin] at h1
  obtain ⟨c1, hc1, hsrc, hrest⟩ : ∃ c1 : Config ω,
      setInput W.fs { html := flags.html, count := flags.count, lines := flags.lines } mode flags.filein =
        (none, c1) ∧
      (match src with
        | .std => c1.pipedin = true ∧ c1.filein = none
        | .file i => c1.pipedin = false ∧ c1.filein = some i) ∧
      (c1.html = flags.html ∧ c1.count = flags.count ∧ c1.lines = flags.lines ∧ c1.filters = [] ∧
        c1.fileout = none) := by
    cases src with
    | std => exact ⟨_, h1, ⟨rfl, rfl⟩, rfl, rfl, rfl, rfl, rfl⟩
    | file i => exact ⟨_, h1, ⟨rfl, rfl⟩, rfl, rfl, rfl, rfl, rfl⟩
  rw [hc1]
  simp only
  -- filters
  rw [(C48_filters W.E W.snowball c1 args flags.lang).1 l hl]
  simp only
  obtain ⟨r1, r2, r3, r4, r5⟩ := hrest
  rw [r4, List.nil_append]
  -- output
  obtain ⟨c2, hc2, hfo, hpo, hrest2⟩ : ∃ c2 : Config ω,
      setOutput W.fs { c1 with filters := (args.filterMap flagOf).map fun f =>
        (f.filter W.snowball l).apply W.E } flags.fileout = (none, c2, fs) ∧
      (match c2.fileout with | none => Place.std | some i => .file i) = dst ∧
      c2.pipedout = c2.fileout.isNone ∧
      (c2.html = flags.html ∧ c2.count = flags.count ∧ c2.lines = flags.lines ∧
        c2.filters = ((args.filterMap flagOf).map fun f => (f.filter W.snowball l).apply W.E) ∧
        c2.pipedin = c1.pipedin ∧ c2.filein = c1.filein) := by
    unfold setOutput
    unfold named outputChoice at hout
    by_cases hn : flags.fileout = []
    · simp only [hn, ↓reduceIte, Except.ok.injEq, Prod.mk.injEq] at hout
      obtain ⟨rfl, rfl⟩ := hout
      simp only [hn, ne_eq, not_true_eq_false, ↓reduceIte]
      exact ⟨_, rfl, by simp [r5], rfl, r1, r2, r3, rfl, rfl, rfl⟩
    · simp only [hn, ↓reduceIte] at hout
      cases hcr : W.fs.create flags.fileout with
      | error err => rw [hcr] at hout; cases hout
      | ok i =>
        rw [hcr] at hout
        simp only [Except.ok.injEq, Prod.mk.injEq] at hout
        obtain ⟨rfl, rfl⟩ := hout
        simp only [hn, ne_eq, not_false_eq_true, ↓reduceIte]
        exact ⟨_, rfl, rfl, rfl, r1, r2, r3, rfl, rfl, rfl⟩
  rw [hc2]
  simp only
  obtain ⟨q1, q2, q3, q4, q5, q6⟩ := hrest2
  -- reader and writer
  obtain ⟨c3, size, g1, g2, g3, g4, g5⟩ := C50_buffers fs W.under c2 src
    (by cases src <;> simpa [q5, q6] using hsrc) hpo hstat
  rw [g1]
  simp only
  rw [g5]
  simp only [execute]
  rw [hfo]
  have hstream : cliStream W.E W.parse (W.source fs) c2.html c2.filters src =
      programStream W flags args l (W.source fs src) := by
    unfold cliStream programStream TokenStream.filter
    rw [q1, q4]
  rw [hstream, q2, q3]
  refine ⟨size, g3, g4, ?_⟩
  simp only [bind_assoc]
  refine bind_congr fun r => ?_
  obtain ⟨err, b⟩ := r
  cases err <;> rfl

/-- **C49 (program).** Given that the arguments are in order (one input, a known language, files that
can be opened and created): the program reads the chosen input through the chosen filters and writes to
the chosen place; what is taken there is an initial part of the right text; if it ends with success then
it is all of it, and the input was read to its end. If no write fails, it ends with success exactly if
the stream ends without error. -/
theorem C49_program {ω : Type} {w : Place → Writer ω} (hw : ∀ p, (w p).Lawful)
    (W : World (ω × Bytes)) (hW : ∀ p, W.writer p = logged (w p)) (flags : Flags)
    (hv : flags.version = false) (args : List Bytes) {mode : Nat} (hmode : W.mode = .ok mode)
    {src dst : Place} {fs : Fs} {l : Language}
    (hin : inputChoice (isTerminal mode) (named W.fs.openFile flags.filein) = .ok src)
    (hout : outputChoice W.fs (named W.fs.create flags.fileout) = .ok (dst, fs))
    (hl : langOf flags.lang = some l)
    (hstat : ∀ i, src = .file i → ∃ n, fs.stat i = .ok n) {toks : List Token} {e : End}
    (h : (programStream W flags args l (W.source fs src)).Yields toks e) :
    ∃ out exit b, IsOutput flags.count flags.lines toks out ∧
      cliMain W flags args = Go.ret (exit, some (dst, b)) ∧
      b.under.2 <+: (W.under dst).2 ++ out ∧
      (exit = .success ∨ ∃ err, exit = .failure (.other err)) ∧
      (exit = .success → e = .eof ∧ b.under.2 = (W.under dst).2 ++ out) ∧
      ((w dst).NeverFails → exit = exitOf e.err) := by
  obtain ⟨size, g1, g2, hrun⟩ := cliMain_runs W flags hv args hmode hin hout hl hstat
  rw [hrun, hW]
  obtain ⟨err, b, k1, k2, k3, k4⟩ := executeStream_spec W.direct (hw dst) flags.count flags.lines h
    (size := size) (by omega) (W.under dst).1 (W.under dst).2
  have k1' : executeStream W.direct (logged (w dst)) flags.count flags.lines
      (programStream W flags args l (W.source fs src))
      (BufWriter.new size (W.under dst)) = Go.ret (err, b) := k1
  refine ⟨cliOutput flags.count flags.lines toks, exitOf err, b, isOutput_iff, ?_, k2, ?_, ?_, ?_⟩
  · rw [k1']
    rfl
  · cases err
    · exact .inl rfl
    · exact .inr ⟨_, rfl⟩
  · cases err with
    | none => intro _; exact k3 rfl
    | some err => intro h; cases h
  · intro hn
    rw [k4 hn]

/-- **C49 (text).** For text input, filters of the library whose tables the scanner gets through, and a
writer that does not fail: the program ends with success and has written the tokens of the input, passed
through the filters in order. -/
theorem C49_text {ω : Type} {w : Place → Writer ω} (hw : ∀ p, (w p).NeverFails)
    (W : World (ω × Bytes)) (hE : W.E.Lawful) (hW : ∀ p, W.writer p = logged (w p)) (flags : Flags)
    (hv : flags.version = false) (hh : flags.html = false) (args : List Bytes) {mode : Nat}
    (hmode : W.mode = .ok mode) {src dst : Place} {fs : Fs} {l : Language}
    (hin : inputChoice (isTerminal mode) (named W.fs.openFile flags.filein) = .ok src)
    (hout : outputChoice W.fs (named W.fs.create flags.fileout) = .ok (dst, fs))
    (hl : langOf flags.lang = some l)
    (hstat : ∀ i, src = .file i → ∃ n, fs.stat i = .ok n)
    (hok : ∀ f ∈ args.filterMap flagOf, (f.filter W.snowball l).OK W.E)
    (hscan : (W.E.scan (W.source fs src)).2 = none) :
    ∃ toks out b,
      Chain ((args.filterMap flagOf).map fun f => (f.filter W.snowball l).apply W.E)
        (segTokens W.E.U (W.E.scan (W.source fs src)).1) .eof toks .eof ∧
      IsOutput flags.count flags.lines toks out ∧
      cliMain W flags args = Go.ret (.success, some (dst, b)) ∧
      b.under.2 = (W.under dst).2 ++ out := by
  obtain ⟨toks, hc, hy⟩ := C10_pipeline hE ((args.filterMap flagOf).map (FilterFlag.filter W.snowball l))
    (by intro b hb; obtain ⟨f, hf, rfl⟩ := List.mem_map.mp hb; exact hok f hf)
    (segTokens W.E.U (W.E.scan (W.source fs src)).1) .eof
  have ht := tokenize_yields W.E hE (W.source fs src)
  rw [hscan] at ht
  have h : (programStream W flags args l (W.source fs src)).Yields toks .eof := by
    unfold programStream
    rw [hh]
    have := hy _ ht
    rw [List.map_map] at this
    exact this
  obtain ⟨out, exit, b, h1, h2, -, -, h5, h6⟩ := C49_program (fun p => (hw p).lawful) W hW flags hv args
    hmode hin hout hl hstat h
  have hx : exit = .success := h6 (hw dst)
  subst hx
  rw [List.map_map] at hc
  exact ⟨toks, out, b, hc, h1, h2, (h5 rfl).2⟩

/-- **C49 (identity).** Without filters and other flags, the program copies its input. -/
theorem C49_identity {ω : Type} {w : Place → Writer ω} (hw : ∀ p, (w p).NeverFails)
    (W : World (ω × Bytes)) (hE : W.E.Lawful) (hW : ∀ p, W.writer p = logged (w p)) (flags : Flags)
    (hv : flags.version = false) (hh : flags.html = false) (hcount : flags.count = false)
    (hlines : flags.lines = false) (args : List Bytes) (hargs : args.filterMap flagOf = []) {mode : Nat}
    (hmode : W.mode = .ok mode) {src dst : Place} {fs : Fs} {l : Language}
    (hin : inputChoice (isTerminal mode) (named W.fs.openFile flags.filein) = .ok src)
    (hout : outputChoice W.fs (named W.fs.create flags.fileout) = .ok (dst, fs))
    (hl : langOf flags.lang = some l)
    (hstat : ∀ i, src = .file i → ∃ n, fs.stat i = .ok n)
    (hscan : (W.E.scan (W.source fs src)).2 = none) :
    ∃ b, cliMain W flags args = Go.ret (.success, some (dst, b)) ∧
      b.under.2 = (W.under dst).2 ++ (W.source fs src).data := by
  obtain ⟨toks, out, b, h1, h2, h3, h4⟩ := C49_text hw W hE hW flags hv hh args hmode hin hout hl hstat
    (by rw [hargs]; simp) hscan
  rw [hargs] at h1
  cases h1
  refine ⟨b, h3, ?_⟩
  rw [h4]
  simp only [IsOutput, hcount, Bool.false_eq_true, ↓reduceIte, hlines, cliText, List.append_nil] at h2
  rw [h2, ← (hE.complete _ hscan).2, ← text_segTokens W.E.U, text]

/-- A world with a terminal at stdin, the file system above and writers that take everything. -/
def sampleWorld : World (Unit × Bytes) where
  E := sampleEnv
  parse _ := ([], none)
  snowball := ⟨id, id, id, id, id, id⟩
  fs := sampleFs
  stdin := { data := [] }
  mode := .ok (2 ^ 21)
  direct := true
  writer _ := logged goodWriter
  under _ := ((), [])

/-- `jargon -file in -out copy` copies the file. -/
example : ∃ b, cliMain sampleWorld { filein := str "in", fileout := str "copy" }
      (["-file", "in", "-out", "copy"].map str) = Go.ret (.success, some (.file 2, b)) ∧
    b.under.2 = str "Ruby on Rails" := by
  have := C49_identity (w := fun _ => goodWriter) (fun _ => goodWriter_neverFails) sampleWorld
    sampleEnv_lawful (fun _ => rfl) { filein := str "in", fileout := str "copy" } rfl rfl rfl rfl
    (["-file", "in", "-out", "copy"].map str) (by decide +kernel) rfl (src := .file 1) (dst := .file 2)
    (fs := sampleFs.truncate 2) (l := .english) (by decide +kernel)
    (by
      have : named sampleFs.create (str "copy") = some (.ok 2) := by decide +kernel
      show outputChoice sampleFs (named sampleFs.create (str "copy")) = _
      rw [this]; rfl) (by decide +kernel)
    (fun i hi => by cases hi; exact ⟨_, rfl⟩) rfl
  exact this

/-! ### C60 -/

/-- **C60, as one would like it.** When reading fails, what was read before is still written. -/
def C60_full : Prop := ∀ (ω : Type) (w : Writer ω), w.NeverFails → ∀ (direct lines : Bool)
  (ts : TokenStream) (toks : List Token) (err : Err), ts.Yields toks (.fail err) → ∀ (size : Nat), 0 < size →
  ∀ (u : ω) (log : Bytes) (b' : BufWriter (ω × Bytes)),
  executeStream direct (logged w) false lines ts (BufWriter.new size (u, log)) = Go.ret (some err, b') →
  b'.under.2 = log ++ cliText lines toks

/-- **C60 is violated.** On an error `execute` returns without flushing the writer's buffer. -/
theorem C60_violated : ¬ C60_full := by
  intro h
  have hy := listStream_yields [mkToken asciiUnicode (str "ab") false] (.fail (.ext 1))
  obtain ⟨err, b', h1, h2, h3, h4, h5⟩ := executeLoop_spec true goodWriter_neverFails.lawful false _ _ _
    (BufWriter.new 4096 ((), [])) [] (by decide) (BufInv.new _ _ _) rfl hy
  have herr := (h4 goodWriter_neverFails).1
  subst herr
  have := h Unit goodWriter goodWriter_neverFails true false _ _ _ hy 4096 (by omega) () [] b' h1
  -- the loop, step by step
  have hrun : executeLoop true (logged goodWriter) false
      (listStream [mkToken asciiUnicode (str "ab") false] (.fail (.ext 1))).call
      (listStream [mkToken asciiUnicode (str "ab") false] (.fail (.ext 1))).st
      (BufWriter.new 4096 ((), [])) = Go.ret (some (.ext 1), ⟨4096, str "ab", none, ((), [])⟩) := by
    rw [executeLoop]
    have hw : bufWriteString true (logged goodWriter) (BufWriter.new 4096 ((), [])) (str "ab") 0 =
        Go.ret ((2, none), ⟨4096, str "ab", none, ((), [])⟩) := by
      rw [bufWriteString]
      rw [if_neg (by decide +kernel)]
      simp only [BufWriter.new, List.nil_append, Nat.zero_add]
      rw [show (str "ab").length = 2 by decide +kernel]
    simp only [TS.scan, TS.next, listStream, newTokenStream, TS.new, listNext, Go.ret_bind, Go.pure_eq,
      Option.isSome_some, Option.isNone_none, Bool.and_self, ↓reduceIte, Token.string, mkToken, hw,
      Bool.false_eq_true]
    rw [executeLoop]
    simp only [TS.scan, TS.next, listNext, Go.ret_bind, Go.pure_eq, Option.isSome_none, Bool.false_and,
      ↓reduceIte, Bool.false_eq_true]
  rw [h1] at hrun
  have := (Prod.mk.inj (Go.ret_inj.mp hrun)).2
  subst this
  exact absurd this (by decide +kernel)

/-- **C60, partial.** When reading fails, all that was read before is written except for what is still in
the buffer, which is at most as much as fits there (at most 1 MiB, by C50). Missing: the rest. -/
theorem C60_lost_at_most_buffer_partial {ω : Type} (direct : Bool) {w : Writer ω} (hw : w.NeverFails)
    (lines : Bool) {ts : TokenStream} {toks : List Token} {e : Err} (h : ts.Yields toks (.fail e))
    {size : Nat} (hsz : 0 < size) (u : ω) (log : Bytes) :
    ∃ b' lost, executeStream direct (logged w) false lines ts (BufWriter.new size (u, log)) =
        Go.ret (some e, b') ∧
      b'.under.2 ++ lost = log ++ cliText lines toks ∧ lost.length ≤ size := by
  obtain ⟨err, b', h1, h2, h3, h4, h5⟩ := executeLoop_spec direct hw.lawful lines toks (.fail e) _ _ _
    (show 0 < (BufWriter.new size (u, log)).size from hsz) (BufInv.new size u log) rfl h
  obtain ⟨rfl, herr⟩ := h4 hw
  refine ⟨b', b'.buf, h1, h2.all herr, ?_⟩
  have := h2.fits
  rw [h5] at this
  exact this

/-- **C60, partial, for the program.** When reading fails, the program ends with that error, and at most 1 MiB at the
end of what was read before is not written. -/
theorem C60_program_partial {ω : Type} {w : Place → Writer ω} (hw : ∀ p, (w p).NeverFails)
    (W : World (ω × Bytes)) (hW : ∀ p, W.writer p = logged (w p)) (flags : Flags)
    (hv : flags.version = false) (hcount : flags.count = false) (args : List Bytes) {mode : Nat}
    (hmode : W.mode = .ok mode) {src dst : Place} {fs : Fs} {l : Language}
    (hin : inputChoice (isTerminal mode) (named W.fs.openFile flags.filein) = .ok src)
    (hout : outputChoice W.fs (named W.fs.create flags.fileout) = .ok (dst, fs))
    (hl : langOf flags.lang = some l)
    (hstat : ∀ i, src = .file i → ∃ n, fs.stat i = .ok n) {toks : List Token} {e : Err}
    (h : (programStream W flags args l (W.source fs src)).Yields toks (.fail e)) :
    ∃ b lost, cliMain W flags args = Go.ret (.failure (.other e), some (dst, b)) ∧
      b.under.2 ++ lost = (W.under dst).2 ++ cliText flags.lines toks ∧ lost.length ≤ 1024 * 1024 := by
  obtain ⟨size, g1, g2, hrun⟩ := cliMain_runs W flags hv args hmode hin hout hl hstat
  obtain ⟨b, lost, k1, k2, k3⟩ := C60_lost_at_most_buffer_partial W.direct (hw dst) flags.lines h (size := size)
    (by omega) (W.under dst).1 (W.under dst).2
  refine ⟨b, lost, ?_, k2, by omega⟩
  rw [hrun, hW, hcount]
  exact (congrArg (· >>= fun r => pure (exitOf r.1, some (dst, r.2))) k1).trans rfl

example := C60_lost_at_most_buffer_partial false goodWriter_neverFails true
  (listStream_yields [mkToken asciiUnicode (str "ab") false, mkToken asciiUnicode (str "cd") false]
    (.fail (.ext 1))) (size := 3) (by omega) () []

/-! ### C61 -/

/-- **C61, as one would like it.** If the program reads a file, writes a file and reports success, then
the output is that of the input file as it was before. -/
def C61_full : Prop := ∀ (ω : Type) (w : Place → Writer ω), (∀ p, (w p).NeverFails) →
  ∀ (W : World (ω × Bytes)), W.E.Lawful → (∀ p, W.writer p = logged (w p)) → ∀ (flags : Flags),
  flags.version = false → ∀ (args : List Bytes) (mode : Nat), W.mode = .ok mode →
  isTerminal mode = true → ∀ (i j : FileId) (l : Language), flags.filein ≠ [] → flags.fileout ≠ [] →
  W.fs.openFile flags.filein = .ok i → W.fs.create flags.fileout = .ok j → langOf flags.lang = some l →
  ∀ (toks : List Token), (programStream W flags args l (W.fs.content i)).Yields toks .eof →
  ∀ (b : BufWriter (ω × Bytes)), cliMain W flags args = Go.ret (.success, some (.file j, b)) →
  ∃ out, IsOutput flags.count flags.lines toks out ∧ b.under.2 = (W.under (.file j)).2 ++ out

/-- **C61 is violated.** With the same path for input and output, `Create` truncates the input before it
is read; the program reports success and the text is lost. -/
theorem C61_violated : ¬ C61_full ∧
    ∃ b, cliMain sampleWorld { filein := str "in", fileout := str "in" }
      (["-file", "in", "-out", "in"].map str) = Go.ret (.success, some (.file 1, b)) ∧ b.under.2 = [] := by
  have hrun := C49_identity (w := fun _ => goodWriter) (fun _ => goodWriter_neverFails) sampleWorld
    sampleEnv_lawful (fun _ => rfl) { filein := str "in", fileout := str "in" } rfl rfl rfl rfl
    (["-file", "in", "-out", "in"].map str) (by decide +kernel) rfl (src := .file 1) (dst := .file 1)
    (fs := sampleFs.truncate 1) (l := .english) (by decide +kernel)
    (by
      have : named sampleFs.create (str "in") = some (.ok 1) := by decide +kernel
      show outputChoice sampleFs (named sampleFs.create (str "in")) = _
      rw [this]; rfl) (by decide +kernel)
    (fun i hi => by cases hi; exact ⟨_, rfl⟩) rfl
  obtain ⟨b, h1, h2⟩ := hrun
  have h2 : b.under.2 = [] := h2
  refine ⟨fun h => ?_, b, h1, h2⟩
  have hy : (programStream sampleWorld { filein := str "in", fileout := str "in" }
      (["-file", "in", "-out", "in"].map str) .english (sampleWorld.fs.content 1)).Yields
      (segTokens sampleEnv.U (sampleEnv.scan { data := str "Ruby on Rails" }).1) .eof := by
    have ha : (["-file", "in", "-out", "in"].map str).filterMap flagOf = [] := by decide +kernel
    have := tokenize_yields sampleEnv sampleEnv_lawful { data := str "Ruby on Rails" }
    unfold programStream
    rw [ha]
    exact this
  obtain ⟨out, ho, hb⟩ := h Unit (fun _ => goodWriter) (fun _ => goodWriter_neverFails) sampleWorld
    sampleEnv_lawful (fun _ => rfl) { filein := str "in", fileout := str "in" } rfl _ _ rfl (by decide) 1 1
    .english (by decide +kernel) (by decide +kernel) (by decide +kernel) (by decide +kernel)
    (by decide +kernel) _ hy b h1
  have hout : out = [] := by
    rw [h2] at hb
    exact hb.symm
  subst hout
  have ho : [] = cliText false (segTokens sampleEnv.U (sampleEnv.scan { data := str "Ruby on Rails" }).1) := ho
  exact absurd ho (by decide +kernel)

/-- **C61, partial.** If the output file is another file than the input file, the output is that of the
input file as it was before. -/
theorem C61_other_file_partial {ω : Type} {w : Place → Writer ω} (hw : ∀ p, (w p).Lawful)
    (W : World (ω × Bytes)) (hW : ∀ p, W.writer p = logged (w p)) (flags : Flags)
    (hv : flags.version = false) (args : List Bytes) {mode : Nat} (hmode : W.mode = .ok mode)
    (hterm : isTerminal mode = true) {i j : FileId} {l : Language} (hfi : flags.filein ≠ [])
    (hfo : flags.fileout ≠ []) (hi : W.fs.openFile flags.filein = .ok i)
    (hj : W.fs.create flags.fileout = .ok j) (hne : i ≠ j) (hl : langOf flags.lang = some l)
    (hstat : ∃ n, W.fs.stat i = .ok n) {toks : List Token}
    (h : (programStream W flags args l (W.fs.content i)).Yields toks .eof)
    {b : BufWriter (ω × Bytes)} (hrun : cliMain W flags args = Go.ret (.success, some (.file j, b))) :
    ∃ out, IsOutput flags.count flags.lines toks out ∧ b.under.2 = (W.under (.file j)).2 ++ out := by
  have hsrc : W.source (W.fs.truncate j) (.file i) = W.fs.content i := by
    simp [World.source, Fs.truncate, hne]
  obtain ⟨out, exit, b', h1, h2, -, -, h5, -⟩ := C49_program hw W hW flags hv args hmode
    (src := .file i) (dst := .file j) (fs := W.fs.truncate j) (l := l)
    (by simp [inputChoice, named, hterm, hfi, hi])
    (by simp [outputChoice, named, hfo, hj]) hl
    (by
      intro k hk
      cases hk
      obtain ⟨n, hn⟩ := hstat
      exact ⟨n, by simp [Fs.truncate, hne, hn]⟩)
    (toks := toks) (e := .eof) (by rw [hsrc]; exact h)
  rw [hrun] at h2
  have h2 := Go.ret_inj.mp h2
  simp only [Prod.mk.injEq, Option.some.injEq, true_and] at h2
  obtain ⟨rfl, rfl⟩ := h2
  exact ⟨out, h1, (h5 rfl).2⟩

example : sampleFs.openFile (str "in") = .ok 1 ∧ sampleFs.create (str "copy") = .ok 2 ∧ (1 : FileId) ≠ 2 := by
  decide +kernel

end Jargon
