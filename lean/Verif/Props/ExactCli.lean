import Verif.Props.Cli
import Verif.Props.TokenFlags
import Verif.Props.Failing

/-! C61, C73: exactly what is lost if the output is the input file, and what sigil filters lose at an error. -/

namespace Jargon

/-! ### C61 -/

/-- The filters make nothing of nothing. -/
theorem filters_nil {E : Env} (hE : E.Lawful) (bs : List Builtin) (hb : ∀ b ∈ bs, b.OK E)
    {ts : TokenStream} {e : End} (h : ts.Yields [] e) :
    (ts.filter (bs.map (Builtin.apply E))).Yields [] e := by
  induction bs generalizing ts with
  | nil => exact h
  | cons b bs ih =>
    refine ih (fun b h => hb b (by simp [h])) ?_
    have hb := hb b (by simp)
    cases b with
    | stemmer stem => exact stemmer_yields (fun t _ => hb _) h
    | norm N => exact norm_yields hb h
    | asciiFold => exact asciiFold_yields E.U h
    | stopwords ws ic => exact stop_yields h
    | contractions m => exact expandWith_yields hE hb h
    | sigil f =>
      have := sigil_yields (U := E.U) hb h
      rwa [show sigilActual E.U f none [] e = ([], e) by simp [sigilActual]] at this
    | synonyms m ic ign =>
      have := synonyms_yields hE hb h (Greedy.nil (C := ⟨E.U, ic, ign⟩)
        (D := (Compare.mk E.U ic ign).dict (entries E m)) (maxWords := wordLimit (entries E m)))
      rwa [ite_self] at this
    | where_ p => exact where_yields p h
    | words => exact where_yields _ h
    | lemmas => exact where_yields _ h
    | distinct => exact distinct_yields h

theorem scan_nil {E : Env} (hE : E.Lawful) : (E.scan { data := [] }).1 = [] := by
  have h1 := hE.sound { data := [] }
  rw [List.prefix_nil] at h1
  cases hs : (E.scan { data := [] }).1 with
  | nil => rfl
  | cons seg segs =>
    rw [hs, List.flatten_cons, List.append_eq_nil_iff] at h1
    exact absurd h1.1 (hE.nonempty { data := [] } seg (by simp [hs]))

/-- **C61 (exactly).** When the program reports success for text, with a file to read and one to write, then
the output is that of the input file as it was before if and only if the two are different files, or nothing
is lost anyway: the text to write, or with -count the number of tokens, is that of no tokens at all. -/
theorem C61_exact {ω : Type} {w : Place → Writer ω} (hw : ∀ p, (w p).Lawful)
    (W : World (ω × Bytes)) (hE : W.E.Lawful) (hW : ∀ p, W.writer p = logged (w p)) (flags : Flags)
    (hv : flags.version = false) (hh : flags.html = false) (args : List Bytes) {mode : Nat}
    (hmode : W.mode = .ok mode)
    (hterm : isTerminal mode = true) {i j : FileId} {l : Language} (hfi : flags.filein ≠ [])
    (hfo : flags.fileout ≠ []) (hi : W.fs.openFile flags.filein = .ok i)
    (hj : W.fs.create flags.fileout = .ok j) (hl : langOf flags.lang = some l)
    (hok : ∀ f ∈ args.filterMap flagOf, (f.filter W.snowball l).OK W.E)
    (hstat : ∃ n, W.fs.stat i = .ok n) {toks : List Token}
    (h : (programStream W flags args l (W.fs.content i)).Yields toks .eof)
    {b : BufWriter (ω × Bytes)} (hrun : cliMain W flags args = Go.ret (.success, some (.file j, b))) :
    (∃ out, IsOutput flags.count flags.lines toks out ∧ b.under.2 = (W.under (.file j)).2 ++ out) ↔
      i ≠ j ∨ (if flags.count then toks = [] else cliText flags.lines toks = []) := by
  by_cases hij : i = j
  · subst hij
    have h0 : (programStream W flags args l (W.source (W.fs.truncate i) (.file i))).Yields []
        (endOf (W.E.scan { data := [] }).2) := by
      have ht := tokenize_yields W.E hE { data := [] }
      rw [scan_nil hE] at ht
      have := filters_nil hE ((args.filterMap flagOf).map (FilterFlag.filter W.snowball l))
        (by intro b hb; obtain ⟨f, hf, rfl⟩ := List.mem_map.mp hb; exact hok f hf) ht
      rw [List.map_map] at this
      unfold programStream
      simp only [hh, Bool.false_eq_true, ↓reduceIte, World.source, Fs.truncate]
      exact this
    obtain ⟨out, exit, b', h1, h2, -, -, h5, -⟩ := C49_program hw W hW flags hv args hmode
      (src := .file i) (dst := .file i) (fs := W.fs.truncate i) (l := l)
      (by simp [inputChoice, named, hterm, hfi, hi])
      (by simp [outputChoice, named, hfo, hj]) hl
      (by
        intro k hk
        cases hk
        obtain ⟨n, hn⟩ := hstat
        exact ⟨0, by simp [Fs.truncate, hn]⟩) h0
    rw [hrun] at h2
    have h2 := Go.ret_inj.mp h2
    simp only [Prod.mk.injEq, Option.some.injEq, true_and] at h2
    obtain ⟨rfl, rfl⟩ := h2
    rw [(h5 rfl).2]
    simp only [List.append_cancel_left_eq, ne_eq, not_true_eq_false, false_or]
    unfold IsOutput at h1 ⊢
    cases hc : flags.count
    · simp only [hc, Bool.false_eq_true, ↓reduceIte, cliText, List.flatMap_nil] at h1 ⊢
      rw [h1]
      constructor
      · rintro ⟨o, ho, heq⟩
        rw [← heq] at ho
        exact ho.symm
      · exact fun hn => ⟨[], hn.symm, rfl⟩
    · simp only [hc, ↓reduceIte] at h1 ⊢
      obtain ⟨ds, hd, rfl⟩ := h1
      constructor
      · rintro ⟨o, ⟨ds', hd', rfl⟩, heq⟩
        rw [List.append_left_inj] at heq
        subst heq
        have := hd.value.symm.trans hd'.value
        exact List.length_eq_zero_iff.mp this.symm
      · rintro rfl
        exact ⟨_, ⟨ds, hd, rfl⟩, rfl⟩
  · refine ⟨fun _ => .inl hij, fun _ => ?_⟩
    exact C61_other_file_partial hw W hW flags hv args hmode hterm hfi hfo hi hj hij hl hstat h hrun

/-- Not vacuous: with the same file the text is lost, with another it is not. -/
example : cliText false (segTokens sampleEnv.U (sampleEnv.scan { data := str "Ruby on Rails" }).1) ≠ [] ∧
    sampleFs.openFile (str "in") = .ok 1 ∧ sampleFs.create (str "in") = .ok 1 ∧
    sampleFs.create (str "copy") = .ok 2 := by
  decide +kernel

/-! ### C73 -/

/-- **C73 (sigils, exactly).** At an error a sigil filter has delivered all that it would have delivered had
the input ended there, except for the sigil if that is the last token and not just after a word or the like. -/
theorem C73_sigil_lost (U : Unicode) (f : SigilFilter) (hf : f.sigil ≠ []) (toks : List Token) (err : Err) :
    ∃ out lost, Makes (sigil U f) toks .eof (out ++ lost) .eof ∧ Makes (sigil U f) toks (.fail err) out (.fail err) ∧
      (lost = [] ∨ ∃ c, toks.getLast? = some c ∧ c.value = f.sigil ∧ lost = [c]) := by
  have key : ∀ p, ∃ lost, (sigilActual U f p toks .eof).1 = (sigilActual U f p toks (.fail err)).1 ++ lost ∧
      (lost = [] ∨ ∃ c, toks.getLast? = some c ∧ c.value = f.sigil ∧ lost = [c]) := by
    intro p
    have last : ∀ {c : Token} {rest : List Token} {lost : List Token},
        (lost = [] ∨ ∃ x, rest.getLast? = some x ∧ x.value = f.sigil ∧ lost = [x]) →
        (lost = [] ∨ ∃ x, (c :: rest).getLast? = some x ∧ x.value = f.sigil ∧ lost = [x]) := by
      rintro c rest lost (h | ⟨x, h1, h2⟩)
      · exact .inl h
      · refine .inr ⟨x, ?_, h2⟩
        cases rest with
        | nil => simp at h1
        | cons a as => simpa using h1
    generalize he : End.eof = e
    fun_induction sigilActual U f p toks e with
    | case1 p e => exact ⟨[], by simp [sigilActual]⟩
    | case2 p c h =>
      refine ⟨[c], by simp [sigilActual, h], .inr ⟨c, rfl, ?_, rfl⟩⟩
      simp only [Bool.and_eq_true, decide_eq_true_eq] at h
      exact h.2
    | case3 p c h err => cases he
    | case4 p c e h =>
      have h' : (boundary p && decide (c.value = f.sigil)) = false := by simpa using h
      exact ⟨[], by simp [sigilActual, h']⟩
    | case5 p c l rest e h hl' ih =>
      obtain ⟨lost, h1, h2⟩ := ih he
      refine ⟨lost, ?_, last (last h2)⟩
      rw [sigilActual, h, hl']
      simp only [↓reduceIte, emit, List.cons_append, h1]
    | case6 p c l rest e h hl' ih =>
      obtain ⟨lost, h1, h2⟩ := ih he
      refine ⟨lost, ?_, last (last h2)⟩
      rw [sigilActual, h, Bool.eq_false_iff.mpr hl']
      simp only [↓reduceIte, emit, Bool.false_eq_true, List.cons_append, h1]
    | case7 p c l rest e h ih =>
      have h' : (boundary p && decide (c.value = f.sigil)) = false := by simpa using h
      obtain ⟨lost, h1, h2⟩ := ih he
      refine ⟨lost, ?_, last h2⟩
      rw [sigilActual, h']
      simp only [↓reduceIte, emit, Bool.false_eq_true, List.cons_append, h1]
  obtain ⟨lost, h1, h2⟩ := key none
  refine ⟨(sigilActual U f none toks (.fail err)).1, lost, ?_, ?_, h2⟩
  · intro ts hy
    have := sigil_yields (U := U) hf hy
    rwa [sigilActual_end, h1] at this
  · intro ts hy
    have := sigil_yields (U := U) hf hy
    rwa [sigilActual_end] at this

/-- Not vacuous: something is lost, and nothing is. -/
example : (sigilActual asciiUnicode { sigil := [0x40], legal := legalHandle } none
      [⟨str "@", true, false, false⟩] (.fail (.ext 1))).1 = [] ∧
    (sigilActual asciiUnicode { sigil := [0x40], legal := legalHandle } none
      [⟨str "a", false, false, false⟩, ⟨str "@", true, false, false⟩] (.fail (.ext 1))).1 =
      [⟨str "a", false, false, false⟩, ⟨str "@", true, false, false⟩] := by
  decide +kernel

end Jargon
