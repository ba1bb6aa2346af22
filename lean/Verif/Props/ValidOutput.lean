import Verif.Props.ValidText
import Verif.Props.Cli

/-! C134: the output of the program is valid UTF-8 if its input is. -/

namespace Jargon

theorem cliText_valid (lines : Bool) {toks : List Token} (h : ∀ t ∈ toks, ValidText t.value) :
    ValidText (cliText lines toks) := by
  unfold cliText
  rw [List.flatMap_def]
  refine validText_flatten fun s hs => ?_
  obtain ⟨t, ht, rfl⟩ := List.mem_map.1 hs
  cases lines
  · simpa using h t ht
  · simpa using (h t ht).append (str_valid (s := [0x0A]) (by decide))

/-- **C134 (program).** For text input that is valid UTF-8, filters whose tables the scanner gets through and a writer
that does not fail, what the program writes is valid UTF-8. -/
theorem C134_program {ω : Type} {w : Place → Writer ω} (hw : ∀ p, (w p).NeverFails)
    (W : World (ω × Bytes)) (hE : W.E.Lawful) (hcut : W.E.CutsBetween) (hW : ∀ p, W.writer p = logged (w p)) (flags : Flags)
    (hv : flags.version = false) (hh : flags.html = false) (args : List Bytes) {mode : Nat}
    (hmode : W.mode = .ok mode) {src dst : Place} {fs : Fs} {l : Language}
    (hin : inputChoice (isTerminal mode) (named W.fs.openFile flags.filein) = .ok src)
    (hout : outputChoice W.fs (named W.fs.create flags.fileout) = .ok (dst, fs))
    (hl : langOf flags.lang = some l)
    (hstat : ∀ i, src = .file i → ∃ n, fs.stat i = .ok n)
    (hok : ∀ f ∈ args.filterMap flagOf, (f.filter W.snowball l).OK W.E)
    (hstem : ∀ s, ValidText s → ValidText (W.snowball.of l s))
    (hscan : (W.E.scan (W.source fs src)).2 = none) (hvalid : ValidText (W.source fs src).data) :
    ∃ out b, cliMain W flags args = Go.ret (.success, some (dst, b)) ∧ b.under.2 = (W.under dst).2 ++ out ∧
      ValidText out := by
  obtain ⟨toks, out, b, h1, h2, h3, h4⟩ := C49_text hw W hE hW flags hv hh args hmode hin hout hl hstat hok hscan
  refine ⟨out, b, h3, h4, ?_⟩
  have ht : ∀ t ∈ toks, ValidText t.value := by
    obtain ⟨out', y1, y2, -⟩ := C134_filters hE hcut ((args.filterMap flagOf).map (FilterFlag.filter W.snowball l))
      (fun b hb => by
        obtain ⟨f, hf, rfl⟩ := List.mem_map.mp hb
        refine ⟨hok f hf, ?_⟩
        cases f with
        | contractions => exact (C134_tables W.E.U).2.2.1
        | stack => exact (C134_tables W.E.U).1
        | stem => exact hstem
        | _ => trivial)
      (listStream_yields (segTokens W.E.U (W.E.scan (W.source fs src)).1) .eof)
      (segTokens_valid (hcut _ hvalid))
    rw [List.map_map] at y1
    rw [((C10_chain h1 (listStream_yields _ _)).unique y1).1]
    exact y2
  unfold IsOutput at h2
  split at h2
  · obtain ⟨ds, hd, rfl⟩ := h2
    exact (validText_ascii fun b hb => by have := hd.digits b hb; omega).append (str_valid (by decide))
  · rw [h2]
    exact cliText_valid _ ht

-- `jargon -file in -out copy -ascii` in a world with a scanner that follows UAX #29
example : ∃ out b, cliMain { sampleWorld with E := uaxEnv } { filein := str "in", fileout := str "copy" }
      (["-file", "in", "-out", "copy", "-ascii"].map str) = Go.ret (.success, some (.file 2, b)) ∧
    b.under.2 = out ∧ ValidText out := by
  have := C134_program (w := fun _ => goodWriter) (fun _ => goodWriter_neverFails) { sampleWorld with E := uaxEnv }
    uaxEnv_lawful (fun _ h => wordSegs_valid uaxTable h) (fun _ => rfl) { filein := str "in", fileout := str "copy" } rfl rfl
    (["-file", "in", "-out", "copy", "-ascii"].map str) rfl (src := .file 1) (dst := .file 2)
    (fs := sampleFs.truncate 2) (l := .english) (by decide +kernel)
    (by
      have : named sampleFs.create (str "copy") = some (.ok 2) := by decide +kernel
      show outputChoice sampleFs (named sampleFs.create (str "copy")) = _
      rw [this]; rfl) (by decide +kernel)
    (fun i hi => by cases hi; exact ⟨_, rfl⟩)
    (by
      have : (["-file", "in", "-out", "copy", "-ascii"].map str).filterMap flagOf = [.ascii] := by decide +kernel
      rw [this]
      intro f hf
      rw [List.mem_singleton.1 hf]
      trivial)
    (fun _ h => h) rfl (str_valid (s := str "Ruby on Rails") (by decide +kernel))
  exact this

end Jargon
