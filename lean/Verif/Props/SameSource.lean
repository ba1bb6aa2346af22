import Verif.Props.Cli
import Verif.Props.Html
import Verif.Props.Process
import Verif.Props.Source

/-! C140: it makes no difference where the program's input comes from and where its output goes. -/

namespace Jargon

/-- What a run of the program depends on besides places: the text, the filters asked for, and the kind of output. -/
structure SameTask {ω ω' : Type} (W : World ω) (flags : Flags) (args : List Bytes) (W' : World ω') (flags' : Flags)
    (args' : List Bytes) : Prop where
  env : W'.E = W.E
  parse : W'.parse = W.parse
  snowball : W'.snowball = W.snowball
  html : flags'.html = flags.html
  count : flags'.count = flags.count
  lines : flags'.lines = flags.lines
  lang : flags'.lang = flags.lang
  args : args'.filterMap flagOf = args.filterMap flagOf

/-- Each run finds its input and its output. -/
structure FindsPlaces {ω : Type} (W : World ω) (flags : Flags) (src dst : Place) (fs : Fs) : Prop where
  notVersion : flags.version = false
  input : ∃ mode, W.mode = .ok mode ∧ inputChoice (isTerminal mode) (named W.fs.openFile flags.filein) = .ok src
  output : outputChoice W.fs (named W.fs.create flags.fileout) = .ok (dst, fs)
  stat : ∀ i, src = .file i → ∃ n, fs.stat i = .ok n

/-- **C140.** Two runs with the same filters and the same kind of output, that read the same text, from
wherever, with buffers of whatever size, end in the same way; and if they succeed, they write
the same. -/
theorem C140_runs {ω ω' : Type} {w : Place → Writer ω} {w' : Place → Writer ω'} (hw : ∀ p, (w p).NeverFails)
    (hw' : ∀ p, (w' p).NeverFails) {W : World (ω × Bytes)} {W' : World (ω' × Bytes)} (hE : W.E.Lawful)
    (hW : ∀ p, W.writer p = logged (w p)) (hW' : ∀ p, W'.writer p = logged (w' p)) {flags flags' : Flags}
    {args args' : List Bytes} (hT : SameTask W flags args W' flags' args') {src dst src' dst' : Place} {fs fs' : Fs}
    {l : Language} (hl : langOf flags.lang = some l) (h : FindsPlaces W flags src dst fs) (h' : FindsPlaces W' flags' src' dst' fs')
    (hok : ∀ f ∈ args.filterMap flagOf, (f.filter W.snowball l).OK W.E)
    (hpage : flags.html = true → TextNonempty (W.parse (textAt W fs src)).1)
    (hsame : textAt W' fs' src' = textAt W fs src) :
    ∃ exit out b b', cliMain W flags args = Go.ret (exit, some (dst, b)) ∧ cliMain W' flags' args' = Go.ret (exit, some (dst', b')) ∧
      (exit = .success ∨ ∃ err, exit = .failure (.other err)) ∧
      (exit = .success → b.under.2 = (W.under dst).2 ++ out ∧ b'.under.2 = (W'.under dst').2 ++ out) := by
  rw [← C49_source] at hpage
  rw [← C49_source, ← C49_source] at hsame
  obtain ⟨mode, hmode, hin⟩ := h.input
  obtain ⟨mode', hmode', hin'⟩ := h'.input
  obtain ⟨toks0, e, y⟩ : ∃ toks e, (if flags.html then tokenizeHTML W.E (W.parse (W.source fs src)).1 (W.parse (W.source fs src)).2
      else tokenize W.E (W.source fs src)).Yields toks e := by
    by_cases hh : flags.html = true
    · rw [if_pos hh]
      exact ⟨_, _, html_yields hE _ _ (hpage hh)⟩
    · rw [if_neg hh]
      exact ⟨_, _, tokenize_yields W.E hE _⟩
  obtain ⟨toks, -, hy⟩ := C10_pipeline hE ((args.filterMap flagOf).map (FilterFlag.filter W.snowball l))
    (by intro b hb; obtain ⟨f, hf, rfl⟩ := List.mem_map.1 hb; exact hok f hf) toks0 e
  have hy := hy _ y
  rw [List.map_map] at hy
  have p1 : (programStream W flags args l (W.source fs src)).Yields toks e := hy
  have p2 : (programStream W' flags' args' l (W'.source fs' src')).Yields toks e := by
    have : programStream W' flags' args' l (W'.source fs' src') = programStream W flags args l (W.source fs src) := by
      unfold programStream
      rw [hsame, hT.env, hT.parse, hT.snowball, hT.html, hT.args]
    rw [this]
    exact p1
  obtain ⟨out, exit, b, o1, r1, -, s1, t1, u1⟩ := C49_program (fun p => (hw p).lawful) W hW flags h.notVersion args hmode hin h.output hl
    h.stat p1
  obtain ⟨out', exit', b', o2, r2, -, -, t2, u2⟩ := C49_program (fun p => (hw' p).lawful) W' hW' flags' h'.notVersion args' hmode' hin'
    h'.output (by rw [hT.lang]; exact hl) h'.stat p2
  obtain rfl := (u1 (hw dst)).trans (u2 (hw' dst')).symm
  rw [hT.count, hT.lines] at o2
  obtain rfl : out = out' := IsOutput.unique o1 o2
  exact ⟨exit, out, b, b', r1, r2, s1, fun he => ⟨(t1 he).2, (t2 he).2⟩⟩

/-- **C140 (file, pipe and output file).** `jargon -file name -out target`, at a terminal, puts into the file what
`jargon` writes to its standard output when the content of the file is piped into it, if the two files are not one. -/
theorem C140_file {ω : Type} {w : Place → Writer ω} (hw : ∀ p, (w p).NeverFails) {W : World (ω × Bytes)} (hE : W.E.Lawful)
    (hW : ∀ p, W.writer p = logged (w p)) {flags : Flags} (hv : flags.version = false) {args args' : List Bytes}
    (hargs : args'.filterMap flagOf = args.filterMap flagOf) {mode pipe : Nat} (hmode : W.mode = .ok mode)
    (hterm : isTerminal mode = true) (hpipe : isTerminal pipe = false) {i j : FileId} (hfi : flags.filein ≠ [])
    (hi : W.fs.openFile flags.filein = .ok i) (hfo : flags.fileout ≠ []) (hj : W.fs.create flags.fileout = .ok j) (hne : i ≠ j)
    (hstat : ∃ n, W.fs.stat i = .ok n) {l : Language} (hl : langOf flags.lang = some l)
    (hok : ∀ f ∈ args.filterMap flagOf, (f.filter W.snowball l).OK W.E)
    (hpage : flags.html = true → TextNonempty (W.parse (W.fs.content i)).1) :
    ∃ exit out b b', cliMain W flags args = Go.ret (exit, some (.file j, b)) ∧
      cliMain { W with mode := .ok pipe, stdin := W.fs.content i } { flags with filein := [], fileout := [] } args' =
        Go.ret (exit, some (.std, b')) ∧
      (exit = .success ∨ ∃ err, exit = .failure (.other err)) ∧
      (exit = .success → b.under.2 = (W.under (.file j)).2 ++ out ∧ b'.under.2 = (W.under .std).2 ++ out) := by
  have hsrc : textAt W (W.fs.truncate j) (.file i) = W.fs.content i := by
    simp [textAt, Fs.truncate, hne]
  refine C140_runs (W := W) (flags := flags) (W' := { W with mode := .ok pipe, stdin := W.fs.content i })
    (flags' := { flags with filein := [], fileout := [] }) hw hw hE hW hW ⟨rfl, rfl, rfl, rfl, rfl, rfl, rfl, hargs⟩ hl
    (src := .file i) (dst := .file j) (fs := W.fs.truncate j) (src' := .std) (dst' := .std) (fs' := W.fs)
    ⟨hv, ⟨mode, hmode, by simp [inputChoice, named, hterm, hfi, hi]⟩, by simp [outputChoice, named, hfo, hj], ?_⟩
    ⟨hv, ⟨pipe, rfl, by simp [inputChoice, named, hpipe]⟩, by simp [outputChoice, named], by simp⟩ hok (by rwa [hsrc]) ?_
  · rintro k hk
    cases hk
    obtain ⟨n, hn⟩ := hstat
    exact ⟨n, by simp [Fs.truncate, hne, hn]⟩
  · rw [hsrc]
    rfl

/-- Non-vacuity: the file of the samples, with `-file in -out copy` and piped. -/
example : ∃ exit out b b', cliMain sampleWorld { filein := str "in", fileout := str "copy" }
      (["-file", "in", "-out", "copy", "-ascii"].map str) = Go.ret (exit, some (.file 2, b)) ∧
    cliMain { sampleWorld with mode := .ok 0, stdin := sampleFs.content 1 } {} (["-ascii"].map str) = Go.ret (exit, some (.std, b')) ∧
    (exit = .success ∨ ∃ err, exit = .failure (.other err)) ∧ (exit = .success → b.under.2 = out ∧ b'.under.2 = out) :=
  C140_file (w := fun _ => goodWriter) (fun _ => goodWriter_neverFails) (W := sampleWorld) sampleEnv_lawful (fun _ => rfl)
    (flags := { filein := str "in", fileout := str "copy" }) rfl (args := ["-file", "in", "-out", "copy", "-ascii"].map str)
    (args' := ["-ascii"].map str) (by decide +kernel) (mode := 2 ^ 21) rfl (by decide +kernel) (pipe := 0) (by decide +kernel)
    (i := 1) (j := 2) (by decide +kernel) (by decide +kernel) (by decide +kernel) (by decide +kernel) (by decide) ⟨_, rfl⟩
    (l := .english) (by decide +kernel) (by
      have : (["-file", "in", "-out", "copy", "-ascii"].map str).filterMap flagOf = [.ascii] := by decide +kernel
      rw [this]
      intro f hf
      rw [List.mem_singleton.1 hf]
      trivial) (by intro h; cases h)

end Jargon
