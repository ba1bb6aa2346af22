import Verif.Model.Process
import Verif.Props.Arguments
import Verif.Props.Lines

/-! C111: what the program prints where, and with which code it exits. -/

namespace Jargon

/-- A file that is closed without error has in it what was written. -/
def System.Closes (X : System) : Prop := ∀ i log, (X.close i log).1 = none → (X.close i log).2 = log

/-- Closing what was written to a place fails. -/
def System.CloseFails (X : System) (log : Bytes) : Place → Prop
  | .std => False
  | .file i => (X.close i log).1 ≠ none

/-- The usage is shown only if there is no input. -/
theorem usage_refused {ω : Type} {W : World ω} {args : List Bytes} {w : Option (Place × BufWriter ω)}
    (h : jargonMain W args = Go.ret (.ok (.usage, w))) : Refused W args (.ok .usage) := by
  rw [jargonMain] at h
  cases hp : parseFlags args with
  | error e' => rw [hp] at h; simp [Go.ret_inj] at h
  | ok settings =>
    rw [hp] at h
    obtain ⟨x, hx, h⟩ := Go.bind_eq_ret.1 h
    simp only [Go.pure_eq, Go.ret_inj, Except.ok.injEq] at h
    subst h
    rw [C102_values, cliMain] at hx
    split at hx
    · simp [Go.ret_inj] at hx
    · rename_i hv
      have hv : lastSwitch settings "version" = false := by simpa [valuesOf] using hv
      cases hm : W.mode with
      | error e => simp [hm, Go.ret_inj] at hx
      | ok mode =>
        refine .usage (C102_reads.2 hp) hv hm ?_
        have h47 := C47_input W.fs { html := (valuesOf settings).html, count := (valuesOf settings).count, lines := (valuesOf settings).lines : Config ω } rfl mode (valuesOf settings).filein
        rw [show named W.fs.openFile (valuesOf settings).filein = named W.fs.openFile (lastValue settings "file" []) from rfl] at h47
        simp only [hm] at hx
        generalize setInput W.fs _ mode _ = q at h47 hx
        generalize inputChoice _ _ = r at h47
        obtain ⟨q1, q2⟩ := q
        match q1, h47, hx with
        | some .noInput, h47, hx =>
          cases r with
          | error e => simp only [Option.some.injEq] at h47; rw [h47]
          | ok p => cases p <;> simp at h47
        | some .twoInput, h47, hx => simp [Go.ret_inj] at hx
        | some (.unknownLang _), h47, hx => simp [Go.ret_inj] at hx
        | some .readerRequired, h47, hx => simp [Go.ret_inj] at hx
        | some .writerRequired, h47, hx => simp [Go.ret_inj] at hx
        | some (.other _), h47, hx => simp [Go.ret_inj] at hx
        | none, h47, hx =>
          exfalso
          simp only at hx
          split at hx
          · simp [Go.ret_inj] at hx
          · split at hx
            · simp [Go.ret_inj] at hx
            · split at hx
              · simp [Go.ret_inj] at hx
              · split at hx
                · simp [Go.ret_inj] at hx
                · obtain ⟨y, -, hy⟩ := Go.bind_eq_ret.1 hx
                  obtain ⟨y1, y2⟩ := y
                  cases y1 <;> simp [Go.pure_eq, Go.ret_inj] at hy

/-- **C111.** However the program ends, it ends in one of these ways: the `flag` package ends it since the arguments
cannot be read; or with code 1 and the text of an error on stderr; or with code 0 and the usage on stderr, since there
is no input; or with code 0 and nothing on stderr. And it has written to one place at most. -/
theorem C111_status {ω : Type} {X : System} {W : World ω} {args : List Bytes} {P : Process ω}
    (h : runProcess X W args = Go.ret P) :
    ((∃ e, Reads args (.error e) ∧ (P.code, P.stderr) = X.flagExit e ∧ P.under = W.under) ∨
      (P.code = 1 ∧ ∃ e : CliErr, P.stderr = e.text X ++ [0x0A]) ∨
      (P.code = 0 ∧ P.stderr = usageText X ∧ Refused W args (.ok .usage) ∧ P.under = W.under) ∨
      (P.code = 0 ∧ P.stderr = [])) ∧
    ∃ p, ∀ q, q ≠ p → P.under q = W.under q := by
  have hafter : ∀ w : Option (Place × BufWriter ω), ∃ p, ∀ q, q ≠ p → W.after w q = W.under q := by
    intro w
    cases w with
    | none => exact ⟨.std, fun q _ => rfl⟩
    | some w => exact ⟨w.1, fun q hq => by simp [World.after, hq]⟩
  unfold runProcess at h
  obtain ⟨r, hr, h⟩ := Go.bind_eq_ret.1 h
  match r, hr, h with
  | .error e, hr, h =>
    simp only [Go.pure_eq, Go.ret_inj] at h
    subst h
    refine ⟨.inl ⟨e, ?_, rfl, rfl⟩, .std, fun q _ => rfl⟩
    rw [jargonMain] at hr
    cases hp : parseFlags args with
    | error e' =>
      rw [hp] at hr
      simp only [Go.ret_inj, Except.error.injEq] at hr
      subst hr
      exact C102_reads.2 hp
    | ok s =>
      rw [hp] at hr
      obtain ⟨x, -, hx⟩ := Go.bind_eq_ret.1 hr
      simp [Go.pure_eq, Go.ret_inj] at hx
  | .ok (.version, w), hr, h =>
    simp only [Go.pure_eq, Go.ret_inj] at h
    subst h
    exact ⟨.inr (.inr (.inr ⟨rfl, rfl⟩)), .std, fun q hq => by simp [hq]⟩
  | .ok (.usage, w), hr, h =>
    simp only [Go.pure_eq, Go.ret_inj] at h
    subst h
    refine ⟨.inr (.inr (.inl ⟨rfl, rfl, ?_, rfl⟩)), .std, fun q _ => rfl⟩
    exact usage_refused hr
  | .ok (.failure e, w), hr, h =>
    simp only [Go.pure_eq, Go.ret_inj] at h
    subst h
    exact ⟨.inr (.inl ⟨rfl, e, rfl⟩), hafter w⟩
  | .ok (.success, w), hr, h =>
    simp only [Go.pure_eq, Go.ret_inj] at h
    subst h
    exact ⟨.inr (.inr (.inr ⟨rfl, rfl⟩)), hafter w⟩

/-- What printing the version adds to a writer that takes everything. -/
theorem printVersion_log {ω : Type} {w : Writer ω} (hw : w.NeverFails) (X : System) (s : ω × Bytes) :
    (printVersion X (logged w) s).2 = s.2 ++ (str "Version: " ++ X.version ++ str "\nCommit: " ++ X.commit ++
      str "\nBuild date: " ++ X.date ++ str "\n") := by
  have e1 : str "\nCommit: " = [0x0A] ++ str "Commit: " := by decide +kernel
  have e2 : str "\nBuild date: " = [0x0A] ++ str "Build date: " := by decide +kernel
  have e3 : str "\n" = [0x0A] := by decide +kernel
  simp only [printVersion, logged, hw _ _, List.take_length, e1, e2, e3, List.append_assoc]

/-- **C111.** If the arguments are refused, or only the version or the usage is asked for, the program says so and
writes nothing else: with code 1 and one line on stderr, or with code 0 and the usage on stderr, or with code 0 and the
version on stdout. -/
theorem C111_refused {ω : Type} {w : Place → Writer ω} (X : System) {W : World (ω × Bytes)}
    (hW : ∀ p, W.writer p = logged (w p)) {args : List Bytes} {x : Except FlagErr Exit} (h : Refused W args x) :
    ∃ P, runProcess X W args = Go.ret P ∧ (∀ p, p ≠ .std → P.under p = W.under p) ∧
      (x ≠ .ok .version → P.under = W.under) ∧
      (∀ e, x = .error e → (P.code, P.stderr) = X.flagExit e) ∧
      (∀ e, x = .ok (.failure e) → P.code = 1 ∧ P.stderr = e.text X ++ [0x0A]) ∧
      (x = .ok .usage → P.code = 0 ∧ P.stderr = usageText X) ∧
      (x = .ok .version → P.code = 0 ∧ P.stderr = [] ∧ ((w .std).NeverFails →
        (P.under .std).2 = (W.under .std).2 ++ (str "Version: " ++ X.version ++ str "\nCommit: " ++ X.commit ++
          str "\nBuild date: " ++ X.date ++ str "\n"))) := by
  have hm := refused_main h
  unfold runProcess
  rw [hm, Go.ret_bind]
  match x, h with
  | .error e, h =>
    refine ⟨_, rfl, fun _ _ => rfl, fun _ => rfl, ?_, ?_, ?_, ?_⟩
    · rintro _ ⟨⟩; rfl
    all_goals (intros; contradiction)
  | .ok (.failure e), h =>
    refine ⟨_, rfl, fun _ _ => rfl, fun _ => rfl, ?_, ?_, ?_, ?_⟩
    · intro _ h; contradiction
    · rintro _ ⟨⟩; exact ⟨rfl, rfl⟩
    all_goals (intro h; cases h)
  | .ok .usage, h =>
    refine ⟨_, rfl, fun _ _ => rfl, fun _ => rfl, ?_, ?_, fun _ => ⟨rfl, rfl⟩, ?_⟩
    · intro _ h; contradiction
    · intro _ h; cases h
    · intro h; cases h
  | .ok .version, h =>
    refine ⟨_, rfl, fun p hp => by simp [hp], fun h => absurd rfl h, ?_, ?_, ?_, fun _ => ⟨rfl, rfl, fun hn => ?_⟩⟩
    · intro _ h; contradiction
    · intro _ h; cases h
    · intro h; cases h
    · simp only [↓reduceIte, hW]
      exact printVersion_log hn X _
  | .ok .success, h => cases h

/-- **C111.** An output that cannot be opened is reported so too. -/
theorem C111_unopened {ω : Type} (X : System) {W : World ω} {args : List Bytes} {settings : List (Bytes × FlagValue)}
    {src : Place} (h : Accepted W args settings src) {e : Err}
    (ho : named W.fs.create (lastValue settings "out" []) = some (.error e)) :
    runProcess X W args = Go.ret { code := 1, under := W.under, stderr := X.errorText e ++ [0x0A] } := by
  unfold runProcess
  rw [(C102_accepted h).1 e ho]
  rfl

/-- The program has an input, an output and a language it knows, and the tokens it is to write are these. -/
structure Runs {ω : Type} (w : Place → Writer ω) (W : World (ω × Bytes)) (args : List Bytes) (dst : Place) (out : Bytes)
    (e : End) : Prop where
  writers : ∀ p, (w p).Lawful
  logs : ∀ p, W.writer p = logged (w p) ∧ (W.under p).2 = []
  reads : ∃ settings src mode fs l toks, Reads args (.ok settings) ∧ lastSwitch settings "version" = false ∧
    W.mode = .ok mode ∧
    inputChoice (isTerminal mode) (named W.fs.openFile (lastValue settings "file" [])) = .ok src ∧
    outputChoice W.fs (named W.fs.create (lastValue settings "out" [])) = .ok (dst, fs) ∧
    langOf (lastValue settings "lang" (str "english")) = some l ∧
    (∀ i, src = .file i → ∃ n, fs.stat i = .ok n) ∧
    (programStream W (valuesOf settings) args l (W.source fs src)).Yields toks e ∧
    IsOutput (lastSwitch settings "count") (lastSwitch settings "lines") toks out

/-- **C111.** What one may expect of a program that writes: it ends with code 0 only if all is there. -/
def C111_full : Prop :=
  ∀ (ω : Type) (X : System) (w : Place → Writer ω) (W : World (ω × Bytes)) (args : List Bytes) (dst : Place)
    (out : Bytes) (e : End) (P : Process (ω × Bytes)), X.Closes → Runs w W args dst out e →
    runProcess X W args = Go.ret P → P.code = 0 → leftAt X (P.under dst).2 dst = out

/-- `IsOutput` allows one output. -/
theorem IsOutput.unique {count lines : Bool} {toks : List Token} {out out' : Bytes} (h : IsOutput count lines toks out)
    (h' : IsOutput count lines toks out') : out = out' := by
  cases count with
  | false => exact h.trans h'.symm
  | true =>
    obtain ⟨ds, hd, rfl⟩ := h
    obtain ⟨ds', hd', rfl⟩ := h'
    rw [hd.unique hd']

/-- **C111 (partial).** A run ends with code 0 or 1. With code 0, nothing is on stderr, the input was read to its end,
and the output is complete, unless closing the file has failed, which the program does not notice. With code 1, the text of
an error is on stderr, and what was written is a beginning of the output. Nothing was written anywhere else, and if no
write fails, it ends with code 0 exactly if the input ends without error. What is missing: the error of `Close`. -/
theorem C111_partial {ω : Type} {X : System} {w : Place → Writer ω} {W : World (ω × Bytes)} {args : List Bytes}
    {dst : Place} {out : Bytes} {e : End} (hX : X.Closes) (h : Runs w W args dst out e) :
    ∃ P, runProcess X W args = Go.ret P ∧
      (P.code = 0 ∧ P.stderr = [] ∧ e = .eof ∧ (P.under dst).2 = out ∧
          (leftAt X (P.under dst).2 dst = out ∨ X.CloseFails out dst) ∨
        P.code = 1 ∧ (∃ err, P.stderr = X.errorText err ++ [0x0A]) ∧ (P.under dst).2 <+: out) ∧
      (∀ p, p ≠ dst → P.under p = W.under p) ∧
      ((w dst).NeverFails → (P.code = 0 ↔ e = .eof)) := by
  obtain ⟨hw, hW, settings, src, mode, fs, l, toks, hr, hv, hm, hi, ho, hl, hs, hy, hout⟩ := h
  obtain ⟨out', exit, b, h1, h2, h3, h4, h5, h6⟩ := C49_program hw W (fun p => (hW p).1) (valuesOf settings) hv args hm hi ho hl hs hy
  have := hout.unique h1
  subst this
  rw [(hW dst).2, List.nil_append] at h3 h5
  have main : jargonMain W args = Go.ret (.ok (exit, some (dst, b))) := by
    rw [jargonMain, C102_reads.1 hr]
    simp only [C102_values, h2]
    rfl
  unfold runProcess
  rw [main, Go.ret_bind]
  rcases h4 with rfl | ⟨err, rfl⟩
  · obtain ⟨h5, h5'⟩ := h5 rfl
    refine ⟨_, rfl, .inl ⟨rfl, rfl, h5, ?_, ?_⟩, fun p hp => by simp [World.after, hp], fun _ => ⟨fun _ => h5, fun _ => rfl⟩⟩
    · simpa [World.after] using h5'
    · simp only [World.after, ↓reduceIte, h5']
      cases dst with
      | std => exact .inl rfl
      | file i =>
        by_cases hc : (X.close i out).1 = none
        · exact .inl (hX i out hc)
        · exact .inr hc
  · refine ⟨_, rfl, .inr ⟨rfl, ⟨err, rfl⟩, ?_⟩, fun p hp => by simp [World.after, hp], fun hn => ?_⟩
    · simpa [World.after] using h3
    · have := h6 hn
      constructor
      · intro h; simp at h
      · rintro rfl; simp [exitOf, End.err] at this

/-- **C111.** Whatever a writer has taken before the end is not taken back. -/
theorem C111_kept {ω : Type} (X : System) {W : World ω} {args : List Bytes} {exit : Exit} {dst : Place} {b : BufWriter ω}
    (h : jargonMain W args = Go.ret (.ok (exit, some (dst, b)))) (hv : exit ≠ .version) (hu : exit ≠ .usage) :
    ∃ P, runProcess X W args = Go.ret P ∧ P.under dst = b.under := by
  unfold runProcess
  rw [h, Go.ret_bind]
  cases exit with
  | version => exact absurd rfl hv
  | usage => exact absurd rfl hu
  | failure e => exact ⟨_, rfl, by simp [World.after]⟩
  | success => exact ⟨_, rfl, by simp [World.after]⟩

/-- A system whose files lose what was written when they are closed, with an error. -/
def losing : System where
  errorText _ := str "error"
  isPrint _ := true
  name := str "jargon"
  defaults := []
  version := str "1"
  commit := str "c"
  date := str "d"
  flagExit _ := (2, str "usage")
  close _ log := if log = [] then (none, []) else (some (.ext 28), [])

theorem losing_closes : losing.Closes := by
  intro i log h
  by_cases hl : log = []
  · subst hl; rfl
  · simp [losing, hl] at h

/-- A run of `jargon -file in -out copy`. -/
theorem copy_runs : Runs (fun _ => goodWriter) sampleWorld (["-file", "in", "-out", "copy"].map str) (.file 2)
    (str "Ruby on Rails") .eof where
  writers _ := goodWriter_neverFails.lawful
  logs _ := ⟨rfl, rfl⟩
  reads := by
    have hy : (programStream sampleWorld { filein := str "in", fileout := str "copy" }
        (["-file", "in", "-out", "copy"].map str) .english (sampleWorld.fs.content 1)).Yields
        (segTokens sampleEnv.U (sampleEnv.scan (sampleFs.content 1)).1) .eof := by
      have := tokenize_yields sampleEnv sampleEnv_lawful (sampleFs.content 1)
      unfold programStream
      rw [show (["-file", "in", "-out", "copy"].map str).filterMap flagOf = [] by decide +kernel]
      exact this
    have e1 : valuesOf [(str "file", .string (str "in")), (str "out", .string (str "copy"))] =
        { filein := str "in", fileout := str "copy" } := by decide +kernel
    have e2 : named sampleFs.create (lastValue [(str "file", .string (str "in")), (str "out", .string (str "copy"))] "out" []) =
        some (.ok 2) := by decide +kernel
    have e3 : lastSwitch [(str "file", .string (str "in")), (str "out", .string (str "copy"))] "count" = false ∧
        lastSwitch [(str "file", .string (str "in")), (str "out", .string (str "copy"))] "lines" = false := by decide +kernel
    refine ⟨[(str "file", .string (str "in")), (str "out", .string (str "copy"))], .file 1, 2 ^ 21, sampleFs.truncate 2,
      .english, _, C102_reads.2 (by decide +kernel), by decide +kernel, rfl, by decide +kernel, ?_, by decide +kernel,
      fun i hi => by cases hi; exact ⟨_, rfl⟩, by rw [e1]; exact hy, ?_⟩
    · exact (congrArg (outputChoice sampleFs) e2).trans rfl
    · rw [e3.1, e3.2]
      have hs := (sampleEnv_lawful.complete (sampleFs.content 1) rfl).2
      show str "Ruby on Rails" = cliText false _
      simp only [cliText, Bool.false_eq_true, ↓reduceIte, List.append_nil]
      have := text_segTokens sampleEnv.U (sampleEnv.scan (sampleFs.content 1)).1
      rw [text] at this
      rw [this, hs]; rfl

/-- **C111 is false.** If closing the file fails, the program ends with code 0 and says nothing, and the output is lost. -/
theorem C111_violated : ¬ C111_full ∧ ∃ P, runProcess losing sampleWorld (["-file", "in", "-out", "copy"].map str) = Go.ret P ∧
    P.code = 0 ∧ P.stderr = [] ∧ (P.under (.file 2)).2 = str "Ruby on Rails" ∧
    losing.close 2 (P.under (.file 2)).2 = (some (.ext 28), []) := by
  obtain ⟨P, h1, h2, -, h4⟩ := C111_partial losing_closes copy_runs
  have hc := (h4 goodWriter_neverFails).2 rfl
  rcases h2 with ⟨-, h2, -, h3, -⟩ | ⟨h2, -⟩
  · have hl : losing.close 2 (P.under (.file 2)).2 = (some (.ext 28), []) := by rw [h3]; decide +kernel
    refine ⟨fun h => ?_, P, h1, hc, h2, h3, hl⟩
    have := h _ _ _ _ _ _ _ _ _ losing_closes copy_runs h1 hc
    simp only [leftAt, hl] at this
    exact absurd this (by decide +kernel)
  · simp [hc] at h2

/-- **C111.** The languages the message about an unknown language offers are those that are known. -/
theorem C111_languages (X : System) (lang : Bytes) :
    ∃ pre names, (CliErr.unknownLang lang).text X = pre ++ join (str ", ") names ∧
      (∀ n ∈ names, (0x2C : UInt8) ∉ n) ∧ ∀ n, n ∈ names ↔ n ≠ [] ∧ ∃ l, langOf n = some l := by
  refine ⟨_, langs, rfl, by decide +kernel, fun n => ?_⟩
  constructor
  · intro h
    have : ∀ n ∈ langs, n ≠ [] ∧ (langOf n).isSome := by decide +kernel
    exact ⟨(this n h).1, Option.isSome_iff_exists.1 (this n h).2⟩
  · rintro ⟨hn, l, h⟩
    rw [langOf, if_neg hn] at h
    have h1 := List.find?_some h
    simp only [decide_eq_true_eq] at h1
    rw [← h1]
    cases l <;> decide +kernel

/-- **C111.** The usage begins with the name of the program and ends with its flags, and the arguments of its example
are such that the program accepts, as asking for the filters `-stack` and `-lemmas`. -/
theorem C111_usage (X : System) : X.name <+: usageText X ∧ X.defaults <:+ usageText X ∧
    ∃ pre post args settings, usageText X = pre ++ str " | jargon " ++ join (str " ") args ++ [0x0A] ++ post ∧
      parseFlags args = .ok settings ∧ wanted settings = [.stack, .lemmas] ∧
      args.filterMap flagOf = [.stack, .lemmas] := by
  refine ⟨⟨_, by simp only [usageText, List.append_assoc]; rfl⟩, ⟨_, by simp only [usageText]; rfl⟩,
    X.name ++ str " takes text from std input and processes it with one or more filters.\n\nExample:\n\n  curl -s https://en.wikipedia.org/wiki/Computer_programming",
    str "\nFlags:\n\n" ++ X.defaults, ["-html", "-stack", "-lemmas", "-lines"].map str,
    [(str "html", .bool true), (str "stack", .bool true), (str "lemmas", .bool true), (str "lines", .bool true)],
    ?_, by decide +kernel, by decide +kernel, by decide +kernel⟩
  have e : str " takes text from std input and processes it with one or more filters.\n\n" ++
      str "Example:\n\n  curl -s https://en.wikipedia.org/wiki/Computer_programming | jargon -html -stack -lemmas -lines\n\n" ++
      str "Flags:\n\n" =
      str " takes text from std input and processes it with one or more filters.\n\nExample:\n\n  curl -s https://en.wikipedia.org/wiki/Computer_programming" ++
      str " | jargon " ++ join (str " ") (["-html", "-stack", "-lemmas", "-lines"].map str) ++ [0x0A] ++ str "\nFlags:\n\n" := by
    decide +kernel
  simp only [usageText]
  simp only [List.append_assoc] at e ⊢
  rw [← List.append_assoc _ (str "Flags:\n\n"), ← List.append_assoc _ _ X.defaults, e]
  simp only [List.append_assoc]

/-- Non-vacuity: what some command lines print. -/
example : ∃ P, runProcess losing sampleWorld (["-lines"].map str) = Go.ret P ∧ P.code = 0 ∧ P.stderr = usageText losing := by
  have hr : Refused sampleWorld (["-lines"].map str) (.ok .usage) :=
    .usage (settings := [(str "lines", .bool true)]) (C102_reads.2 (by decide +kernel)) (by decide +kernel) rfl (by decide +kernel)
  obtain ⟨P, h1, -, -, -, -, h2, -⟩ := C111_refused (w := fun _ => goodWriter) losing (fun _ => rfl) hr
  exact ⟨P, h1, h2 rfl⟩

example (X : System) : usageText X = X.name ++ str (" takes text from std input and processes it with one or more filters.\n\n" ++
    "Example:\n\n  curl -s https://en.wikipedia.org/wiki/Computer_programming | jargon -html -stack -lemmas -lines\n\nFlags:\n\n")
    ++ X.defaults := by
  have : str (" takes text from std input and processes it with one or more filters.\n\n" ++
    "Example:\n\n  curl -s https://en.wikipedia.org/wiki/Computer_programming | jargon -html -stack -lemmas -lines\n\nFlags:\n\n") =
    str " takes text from std input and processes it with one or more filters.\n\n" ++
    str "Example:\n\n  curl -s https://en.wikipedia.org/wiki/Computer_programming | jargon -html -stack -lemmas -lines\n\n"
    ++ str "Flags:\n\n" := by decide +kernel
  rw [this]
  simp only [usageText, List.append_assoc]

example : (CliErr.unknownLang (str "latin")).text losing =
    str "lang \"latin\" is not known by jargon; options are english, french, norwegian, russian, spanish, swedish" := by
  decide +kernel

end Jargon
