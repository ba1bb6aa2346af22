import Verif.Props.Growth
import Verif.Props.Cli
import Verif.Props.ValidText

/-! C135: no text vanishes. -/

namespace Jargon

/-- Filters that replace and do not select: the selecting filters and synonyms of the empty string are excluded. -/
def Builtin.Replaces : Builtin → Prop
  | .stemmer _ | .norm _ | .asciiFold | .contractions _ | .sigil _ => True
  | .synonyms m _ _ => ∀ x ∈ m, x.2 ≠ []
  | .stopwords _ _ | .where_ _ | .words | .lemmas | .distinct => False

/-- How many words one token may stand for. -/
def Builtin.wordFactor (E : Env) : Builtin → Nat
  | .sigil _ => 2
  | .synonyms m _ _ => wordLimit (entries E m)
  | _ => 1

theorem words_nil : words [] = 0 := rfl

theorem words_cons_le (t : Token) (ts : List Token) : words (t :: ts) ≤ words ts + 1 := by
  unfold words
  rw [List.countP_cons]
  split <;> omega

theorem sigil_words (U : Unicode) (f : SigilFilter) (p : Option Token) (toks : List Token) :
    words toks ≤ 2 * (sigilActual U f p toks .eof).1.length := by
  generalize he : End.eof = e
  fun_induction sigilActual U f p toks e with
  | case1 => simp [words_nil]
  | case2 _ t | case4 _ t =>
    have := words_cons_le t []
    simp only [words_nil] at this
    simp only [List.length_singleton]
    omega
  | case3 => cases he
  | case5 p c l rest e _ _ ih =>
    have := ih he
    have := words_cons_le c (l :: rest)
    have := words_cons_le l rest
    simp only [emit, List.length_cons]
    omega
  | case6 p c l rest e _ _ ih =>
    have := ih he
    have := words_cons_le c (l :: rest)
    have := words_cons_le l rest
    simp only [emit, List.length_cons]
    omega
  | case7 p c l rest e _ ih =>
    have := ih he
    have := words_cons_le c (l :: rest)
    simp only [emit, List.length_cons]
    omega

theorem sigil_vanish (U : Unicode) (f : SigilFilter) (p : Option Token) (toks : List Token)
    (h : (sigilActual U f p toks .eof).1 = []) : toks = [] := by
  generalize he : End.eof = e at h
  fun_induction sigilActual U f p toks e <;> simp_all [emit]

theorem greedy_words {C : Compare} {D : Dict} {m : Nat} (hm : 1 ≤ m) (hD : ∀ q c, D q = some c → c ≠ [])
    {toks out : List Token} (h : Greedy C D m toks out) : words toks ≤ m * out.length ∧ (out = [] → toks = []) := by
  induction h with
  | nil => simp [words_nil]
  | @separator t ts out _ _ ih | @word t ts out _ _ _ ih =>
    have := words_cons_le t ts
    rw [List.length_cons, Nat.mul_add]
    exact ⟨by omega, by simp⟩
  | @replace t ts out k c _ hl _ ih =>
    have hne := hD _ _ hl.isSyn
    have e : words (t :: ts) = words ((t :: ts).take k) + words ((t :: ts).drop k) := by
      rw [← words_append, List.take_append_drop]
    have hk : words ((t :: ts).take k) ≤ m := by
      have h1 := hl.mem.limit
      have h2 : (t :: ts).take k = (t :: ts).take (k - 1) ++ (((t :: ts).take k).drop (k - 1)) := by
        conv_lhs => rw [← List.take_append_drop (k - 1) ((t :: ts).take k)]
        rw [List.take_take, Nat.min_eq_left (Nat.sub_le _ _)]
      have h3 : words (((t :: ts).take k).drop (k - 1)) ≤ 1 := by
        refine Nat.le_trans List.countP_le_length ?_
        rw [List.length_drop, List.length_take]
        omega
      rw [h2, words_append]
      omega
    simp only [canonTokens, if_neg hne, List.singleton_append, List.length_cons, Nat.mul_add]
    exact ⟨by omega, by simp⟩

theorem stringTokens_some {E : Env} (hE : E.Lawful) {s : Bytes} (hs : s ≠ []) (hscan : (E.scan { data := s }).2 = none) :
    stringTokens E s ≠ [] := by
  intro h
  simp only [stringTokens, segTokens, List.map_eq_nil_iff] at h
  have := (hE.complete { data := s } hscan).2
  rw [h] at this
  exact hs this.symm

theorem one_le_foldl_max (l : List Nat) : ∀ a, a ≤ l.foldl max a := by
  induction l with
  | nil => simp
  | cons x l ih => exact fun a => Nat.le_trans (Nat.le_max_left a x) (ih _)

theorem Builtin.makes_some {E : Env} (hE : E.Lawful) (b : Builtin) (hb : b.OK E) (hr : b.Replaces) (toks : List Token) :
    ∃ out, Makes (b.apply E) toks .eof out .eof ∧ Jargon.words toks ≤ b.wordFactor E * out.length ∧ (out = [] ↔ toks = []) := by
  have hmap : ∀ f : Token → Token, Jargon.words toks ≤ 1 * (toks.map f).length ∧ (toks.map f = [] ↔ toks = []) := by
    intro f
    rw [List.length_map, Nat.one_mul]
    exact ⟨List.countP_le_length, List.map_eq_nil_iff⟩
  cases b with
  | stemmer stem => exact ⟨_, fun ts h => stemmer_yields (fun t _ => hb _) h, hmap _⟩
  | norm N => exact ⟨_, fun ts h => norm_yields hb h, hmap _⟩
  | asciiFold => exact ⟨_, fun ts h => asciiFold_yields E.U h, hmap _⟩
  | contractions m =>
    have hb : GoodTable E m := hb
    have h1 : ∀ t, expandToken E m t ≠ [] := by
      intro t
      unfold expandToken
      split
      · rename_i x hx
        have hk : ∃ k, (k, x) ∈ m := by
          unfold expansion? at hx
          cases h1 : m.lookup t.value with
          | some y => rw [h1] at hx; exact ⟨_, lookup_mem (h1.trans hx)⟩
          | none => rw [h1] at hx; exact ⟨_, lookup_mem hx⟩
        obtain ⟨k, hk⟩ := hk
        exact stringTokens_some hE (hb.nonempty _ _ hk) (hb.scans _ _ hk)
      · simp
    refine ⟨_, fun ts h => expandWith_yields hE hb h, ?_, ?_⟩
    · show _ ≤ 1 * _
      rw [Nat.one_mul]
      refine Nat.le_trans List.countP_le_length ?_
      clear hmap
      induction toks with
      | nil => simp
      | cons t ts ih =>
        have := List.length_pos_iff.2 (h1 t)
        rw [List.flatMap_cons, List.length_append, List.length_cons]
        omega
    · cases toks with
      | nil => simp
      | cons t ts => simp [h1 t]
  | sigil f =>
    refine ⟨(sigilActual E.U f none toks .eof).1, fun ts h => ?_, sigil_words E.U f none toks, sigil_vanish E.U f none toks, ?_⟩
    · have := sigil_yields (U := E.U) hb h
      rwa [sigilActual_end] at this
    · rintro rfl; simp [sigilActual]
  | synonyms m ic ign =>
    obtain ⟨out, hg⟩ := Greedy.total ⟨E.U, ic, ign⟩ ((Compare.mk E.U ic ign).dict (entries E m))
      (wordLimit (entries E m)) toks
    obtain ⟨h1, h2⟩ := greedy_words (one_le_foldl_max _ 1) (fun q c h => by
      obtain ⟨a, ha, -, rfl⟩ := dict_some h
      simp only [entries, List.mem_flatMap, List.mem_map] at ha
      obtain ⟨kv, hkv, _, _, rfl⟩ := ha
      exact hr _ hkv) hg
    refine ⟨out, fun ts h => by simpa [Builtin.apply] using synonyms_yields hE hb h hg, h1, h2, ?_⟩
    rintro rfl
    cases hg
    rfl
  | _ => exact hr.elim

/-! ### C135 -/

/-- **C135.** A pipeline of filters that replace delivers nothing only if it is given nothing. -/
theorem C135_vanish {E : Env} (hE : E.Lawful) (bs : List Builtin) (hb : ∀ b ∈ bs, b.OK E ∧ b.Replaces)
    {ts : TokenStream} {toks : List Token} (h : ts.Yields toks .eof) :
    ∃ out, (ts.filter (bs.map (Builtin.apply E))).Yields out .eof ∧ (out = [] ↔ toks = []) := by
  induction bs generalizing ts toks with
  | nil => exact ⟨toks, h, .rfl⟩
  | cons b bs ih =>
    obtain ⟨mid, h1, -, h2⟩ := b.makes_some hE (hb b (by simp)).1 (hb b (by simp)).2 toks
    obtain ⟨out, h3, h4⟩ := ih (fun b h => hb b (by simp [h])) (h1 ts h)
    exact ⟨out, h3, h4.trans h2⟩

/-- **C135 (words).** Each of them makes at least one token of so many words: two for a sigil filter, the number of
words of its longest synonym for a synonyms filter, one for the others. -/
theorem C135_words {E : Env} (hE : E.Lawful) (b : Builtin) (hb : b.OK E) (hr : b.Replaces)
    {ts : TokenStream} {toks : List Token} (h : ts.Yields toks .eof) :
    ∃ out, (b.apply E ts).Yields out .eof ∧ (toks.filter fun t => !t.space && !t.punct).length ≤ b.wordFactor E * out.length := by
  obtain ⟨out, h1, h2, -⟩ := b.makes_some hE hb hr toks
  refine ⟨out, h1 ts h, ?_⟩
  rw [← List.countP_eq_length_filter]
  refine Nat.le_trans (Nat.le_of_eq (List.countP_congr fun t _ => ?_)) h2
  rw [decide_eq_true_iff]
  simp [Token.IsWord, and_comm]

/-- **C135 (text).** The text that comes out is empty only if the text that goes in is. -/
theorem C135_text {E : Env} (hE : E.Lawful) (bs : List Builtin) (hb : ∀ b ∈ bs, b.OK E ∧ b.Replaces) (s : Bytes)
    (hs : (E.scan { data := s }).2 = none) :
    ∃ out, ((tokenizeString E s).filter (bs.map (Builtin.apply E))).Yields out .eof ∧
      ((out.map (·.value)).flatten = [] ↔ s = []) := by
  have hy := tokenize_yields E hE { data := s }
  rw [hs] at hy
  have hy : (tokenizeString E s).Yields (stringTokens E s) .eof := hy
  have hne : ∀ t ∈ stringTokens E s, t.value ≠ [] := stringTokens_nonempty hE s
  obtain ⟨out, h1, h2⟩ := C135_vanish hE bs hb hy
  obtain ⟨out', h3, h4⟩ := C52_nonempty hE bs (fun b h => (hb b h).1) hy hne
  obtain rfl := (h3.unique h1).1
  refine ⟨_, h1, fun h => ?_, ?_⟩
  · have : out' = [] := by
      cases out' with
      | nil => rfl
      | cons t ts => simp [h4 t (by simp)] at h
    by_contra hs'
    exact stringTokens_some hE hs' hs (h2.1 this)
  · rintro rfl
    have hd : stringTokens E [] = [] := by
      have := (hE.complete { data := [] } hs).2
      simp only [stringTokens, segTokens, List.map_eq_nil_iff]
      cases hsc : (E.scan { data := [] }).1 with
      | nil => rfl
      | cons a l =>
        rw [hsc] at this
        have ha := hE.nonempty { data := [] } a (by simp [hsc])
        simp at this
        exact absurd this.1 ha
    rw [h2.2 hd]
    rfl

/-- **C135 (shipped).** The shipped tables replace: no expansion and no canonical is empty. -/
theorem C135_shipped : (Builtin.contractions contractionMappings).Replaces ∧
    (Builtin.synonyms stackOverflowMappings tagsArgs.ignoreCase tagsArgs.ignore).Replaces ∧
    (Builtin.synonyms nbaMappings playersArgs.ignoreCase playersArgs.ignore).Replaces := by
  have key : soRows.flatten.all (fun r => decide (textOf r.2 ≠ [])) = true ∧
      nbaRows.flatten.all (fun r => decide (textOf r.2 ≠ [])) = true := by
    refine ⟨?_, ?_⟩ <;> decide +kernel
  exact ⟨trivial,
    fun x hx => of_decide_eq_true (tableOf_valid stackOverflow_rows (P := fun s => decide (s ≠ [])) key.1 x hx),
    fun x hx => of_decide_eq_true (tableOf_valid nba_rows (P := fun s => decide (s ≠ [])) key.2 x hx)⟩

/-- **C135 (program).** For text input, filters whose tables the scanner gets through and a writer that does not fail:
the program writes something if and only if there is a text, unless only the number of tokens is asked for. -/
theorem C135_program {ω : Type} {w : Place → Writer ω} (hw : ∀ p, (w p).NeverFails)
    (W : World (ω × Bytes)) (hE : W.E.Lawful) (hW : ∀ p, W.writer p = logged (w p)) (flags : Flags)
    (hv : flags.version = false) (hh : flags.html = false) (hc : flags.count = false) (args : List Bytes) {mode : Nat}
    (hmode : W.mode = .ok mode) {src dst : Place} {fs : Fs} {l : Language}
    (hin : inputChoice (isTerminal mode) (named W.fs.openFile flags.filein) = .ok src)
    (hout : outputChoice W.fs (named W.fs.create flags.fileout) = .ok (dst, fs))
    (hl : langOf flags.lang = some l)
    (hstat : ∀ i, src = .file i → ∃ n, fs.stat i = .ok n)
    (hok : ∀ f ∈ args.filterMap flagOf, (f.filter W.snowball l).OK W.E ∧ (f.filter W.snowball l).Replaces)
    (hscan : (W.E.scan (W.source fs src)).2 = none) :
    ∃ out b, cliMain W flags args = Go.ret (.success, some (dst, b)) ∧ b.under.2 = (W.under dst).2 ++ out ∧
      (out = [] ↔ (W.source fs src).data = []) := by
  obtain ⟨toks, out, b, h1, h2, h3, h4⟩ := C49_text hw W hE hW flags hv hh args hmode hin hout hl hstat
    (fun f hf => (hok f hf).1) hscan
  refine ⟨out, b, h3, h4, ?_⟩
  let bs := (args.filterMap flagOf).map (FilterFlag.filter W.snowball l)
  have hbs : ∀ b ∈ bs, b.OK W.E ∧ b.Replaces := fun b hb => by
    obtain ⟨f, hf, rfl⟩ := List.mem_map.mp hb
    exact hok f hf
  have hl := listStream_yields (segTokens W.E.U (W.E.scan (W.source fs src)).1) .eof
  have hn : ∀ t ∈ segTokens W.E.U (W.E.scan (W.source fs src)).1, t.value ≠ [] := by
    intro t ht
    simp only [segTokens, List.mem_map] at ht
    obtain ⟨seg, hs, rfl⟩ := ht
    exact hE.nonempty _ seg hs
  obtain ⟨o1, y1, y2⟩ := C135_vanish hE bs hbs hl
  obtain ⟨o2, y3, y4⟩ := C52_nonempty hE bs (fun b h => (hbs b h).1) hl hn
  obtain rfl := (y3.unique y1).1
  rw [List.map_map] at y1
  obtain rfl := ((C10_chain h1 hl).unique y1).1
  have hd : segTokens W.E.U (W.E.scan (W.source fs src)).1 = [] ↔ (W.source fs src).data = [] := by
    rw [segTokens, List.map_eq_nil_iff, ← (hE.complete _ hscan).2, List.flatten_eq_nil_iff]
    refine ⟨fun h => by simp [h], fun h => ?_⟩
    cases hsc : (W.E.scan (W.source fs src)).1 with
    | nil => rfl
    | cons a r => exact absurd (h a (hsc ▸ List.mem_cons_self)) (hE.nonempty _ a (hsc ▸ List.mem_cons_self))
  rw [← hd, ← y2]
  unfold IsOutput at h2
  simp only [hc, Bool.false_eq_true, if_false] at h2
  rw [h2]
  cases toks with
  | nil => simp [cliText]
  | cons t ts => simp [cliText, y4 t (by simp)]

-- a synonym of the empty string is excluded for a reason
example : ∃ out, (Builtin.apply sampleEnv (.synonyms [(str "um", [])] true [])
      (listStream [⟨str "um", false, false, false⟩] .eof)).Yields out .eof ∧ out = [] := by
  have hg : Greedy ⟨sampleEnv.U, true, []⟩ ((Compare.mk sampleEnv.U true []).dict (entries sampleEnv [(str "um", [])]))
      (wordLimit (entries sampleEnv [(str "um", [])])) [⟨str "um", false, false, false⟩] ([] ++ []) := by
    refine .replace (k := 1) (canonical := []) (by decide +kernel) ⟨⟨by decide, by decide, by decide +kernel, by decide +kernel⟩,
      by decide +kernel, fun j hj h => ?_, fun j hj h => ?_⟩ .nil
    · have := hj.le; simp at this; omega
    · have := hj.pos; omega
  exact ⟨_, synonyms_yields sampleEnv_lawful (fun _ _ => rfl) (listStream_yields _ .eof) hg, rfl⟩

-- an empty text and one that is not, through folding, contractions and tags
example (s : Bytes) : ∃ out, ((tokenizeString uaxEnv s).filter ([Builtin.asciiFold, .contractions contractionMappings,
      .synonyms stackOverflowMappings tagsArgs.ignoreCase tagsArgs.ignore].map (Builtin.apply uaxEnv))).Yields out .eof ∧
    ((out.map (·.value)).flatten = [] ↔ s = []) := by
  refine C135_text uaxEnv_lawful _ (fun b hb => ?_) s rfl
  simp only [List.mem_cons, List.not_mem_nil, or_false] at hb
  rcases hb with rfl | rfl | rfl
  · exact ⟨trivial, trivial⟩
  · exact ⟨⟨fun _ _ _ => rfl, fun k x hx => (C24_well_formed k x hx).1⟩, C135_shipped.1⟩
  · exact ⟨fun _ _ => rfl, C135_shipped.2.1⟩

-- `jargon -file in -out copy -ascii`
example : ∃ out b, cliMain sampleWorld { filein := str "in", fileout := str "copy" }
      (["-file", "in", "-out", "copy", "-ascii"].map str) = Go.ret (.success, some (.file 2, b)) ∧
    b.under.2 = out ∧ out ≠ [] := by
  obtain ⟨out, b, h1, h2, h3⟩ := C135_program (w := fun _ => goodWriter) (fun _ => goodWriter_neverFails) sampleWorld
    sampleEnv_lawful (fun _ => rfl) { filein := str "in", fileout := str "copy" } rfl rfl rfl
    (["-file", "in", "-out", "copy", "-ascii"].map str) rfl (src := .file 1) (dst := .file 2)
    (fs := sampleFs.truncate 2) (l := .english) (by decide +kernel)
    (by
      have : named sampleFs.create (str "copy") = some (.ok 2) := by decide +kernel
      show outputChoice sampleFs (named sampleFs.create (str "copy")) = _
      rw [this]; rfl) (by decide +kernel)
    (fun i hi => by cases hi; exact ⟨_, rfl⟩)
    (by
      have : (["-file", "in", "-out", "copy", "-ascii"].map str).filterMap flagOf = [.ascii] := by decide +kernel
      rw [this]
      intro f hf
      rw [List.mem_singleton.1 hf]
      exact ⟨trivial, trivial⟩) rfl
  exact ⟨out, b, h1, h2, fun h => absurd (h3.1 h) (by decide +kernel)⟩

-- a sigil and a word of which Handles makes one token
example : (Builtin.sigil ⟨[0x40], legalHandle⟩).wordFactor sampleEnv = 2 ∧
    ∃ out, (Builtin.apply sampleEnv (.sigil ⟨[0x40], legalHandle⟩)
        (listStream [⟨str "@", true, false, false⟩, ⟨str "ann", false, false, false⟩] .eof)).Yields out .eof ∧
      1 ≤ 2 * out.length := by
  obtain ⟨out, h1, h2⟩ := C135_words sampleEnv_lawful (.sigil ⟨[0x40], legalHandle⟩) (show [0x40] ≠ [] by simp) trivial
    (listStream_yields [⟨str "@", true, false, false⟩, ⟨str "ann", false, false, false⟩] .eof)
  exact ⟨rfl, out, h1, h2⟩

end Jargon
