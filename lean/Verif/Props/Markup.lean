import Verif.Props.Rerun
import Verif.Proofs.HtmlFill

/-! C100, C101: filters, and the markup and the texts of pages. -/

namespace Jargon

/-- The program, with `-html` and these filters, writes `out` for this page. -/
def RewritesPage {ω : Type} (W : World (ω × Bytes)) (fl : List FilterFlag) (doc out : Bytes) : Prop :=
  Writes { W with stdin := { data := doc } } ((str "-" ++ str "html") :: fl.map fun f => str "-" ++ f.name) out

/-- The filters that change words, and do not select. -/
def FilterFlag.Changes (f : FilterFlag) : Prop := f ≠ .lemmas ∧ f ≠ .distinct

/-- The stemmer makes of a word something, and neither a NUL byte nor one that HTML has a use for. -/
def SafeStem (stem : Bytes → Bytes) : Prop :=
  ∀ s, (stem s = [] → s = []) ∧ ∀ b ∈ 0 :: 0x0A :: escapedBytes, b ∈ stem s → b ∈ s

/-- **C100, as one would like it.** Read as HTML, what the program writes for a page has the markup of the page: the
filters leave tags, attributes, comments and doctypes alone, and make none. (Of comments that cannot be written as they
are see C99.) -/
def C100_full [HtmlReader] (E : Env) (cls : WordTable) : Prop :=
  ∀ (ω : Type) (w : Place → Writer ω) (W : World (ω × Bytes)) (input : Bytes), Piped w W input → W.E = E →
  SafeStem (W.snowball.of .english) → ∀ (fl : List FilterFlag), (∀ f ∈ fl, f.Changes) → ∀ doc : Bytes,
  (∀ h ∈ htmlTokens doc, Kept h) → (∀ h ∈ htmlTokens doc, h.type = .text → Fits cls h.string) →
  ∃ out, RewritesPage W fl doc out ∧ markup (htmlTokens out) = markup (htmlTokens doc)

/-- **C101, as one would like it.** Read as HTML, the texts of what the program writes for a page are what it writes
for each of the texts of the page. -/
def C101_full [HtmlReader] (E : Env) (cls : WordTable) : Prop :=
  ∀ (ω : Type) (w : Place → Writer ω) (W : World (ω × Bytes)) (input : Bytes), Piped w W input → W.E = E →
  SafeStem (W.snowball.of .english) → ∀ (fl : List FilterFlag), (∀ f ∈ fl, f.Changes) → ∀ (doc : Bytes) (outs : List Bytes),
  (∀ h ∈ htmlTokens doc, Kept h) → (∀ h ∈ htmlTokens doc, h.type = .text → Fits cls h.string ∧ Fits cls h.data) →
  List.Forall₂ (Rewrites W fl) (pageTexts none (htmlTokens doc)) outs →
  ∃ out, RewritesPage W fl doc out ∧ pageTexts none (htmlTokens out) = outs

/-! ### the command line -/

/-- What the program writes for a page without `-lines` and `-count`: the tokens, one after the other. -/
theorem rewritesPage_tokens [HtmlReader] {ω : Type} {w : Place → Writer ω} {W : World (ω × Bytes)} {input : Bytes} (hW : Piped w W input)
    {fl : List FilterFlag} {doc : Bytes} {toks : List Token}
    (h : ((tokenizeHTML W.E (htmlTokens doc) none).filter
      (fl.map fun f => (f.filter W.snowball .english).apply W.E)).Yields toks .eof) :
    RewritesPage W fl doc (text toks) := by
  have hf : ((str "-" ++ str "html") :: fl.map fun f => str "-" ++ f.name).filterMap flagOf = fl := by
    rw [List.filterMap_cons, show flagOf (str "-" ++ str "html") = none by decide +kernel, List.filterMap_map]
    have : flagOf ∘ (fun f : FilterFlag => str "-" ++ f.name) = some := by
      funext f
      cases f <;> decide +kernel
    simp only [this, List.filterMap_some]
  have hv : flagValues ((str "html", .bool true) :: fl.map fun f => (f.name, FlagValue.bool true)) = { html := true } := by
    rw [flagValues, List.foldl_cons, show setFlag {} (str "html", .bool true) = { html := true } by decide +kernel]
    exact filters_values fl _
  obtain ⟨mode, hm, ht⟩ := hW.pipe
  have hy : (programStream { W with stdin := { data := doc } } { html := true }
      ((str "-" ++ str "html") :: fl.map fun f => str "-" ++ f.name)
      .english (World.source { W with stdin := { data := doc } } W.fs .std)).Yields toks .eof := by
    simp only [programStream, World.source, hf, hW.html]
    exact h
  obtain ⟨out, exit, b, k1, k2, -, -, k5, k6⟩ := C49_program (fun p => (hW.writes p).lawful)
    { W with stdin := { data := doc } } hW.writer
    { html := true } rfl ((str "-" ++ str "html") :: fl.map fun f => str "-" ++ f.name) hm
    (src := .std) (dst := .std) (fs := W.fs) (l := .english)
    (by simp [inputChoice, named, ht]) (by simp [outputChoice, named])
    (show langOf (str "english") = _ by decide +kernel) (by intro i hi; cases hi) hy
  have hx : exit = .success := k6 (hW.writes .std)
  subst hx
  have ho : out = text toks := by
    simp only [IsOutput, Bool.false_eq_true, ↓reduceIte, cliText, List.append_nil] at k1
    exact k1
  subst ho
  refine ⟨b, ?_, (k5 rfl).2⟩
  rw [jargonMain, parse_bool _ (by decide +kernel), parse_filters]
  simp only [Except.map, hv, k2, Go.ret_bind, Go.pure_eq]

theorem RewritesPage.unique {ω : Type} {W : World (ω × Bytes)} {fl : List FilterFlag} {doc out out' : Bytes}
    (h : RewritesPage W fl doc out) (h' : RewritesPage W fl doc out') : out = out' := Writes.unique h h'

/-! ### pages as lists of parts -/

/-- A part of a page: markup, or the tokens of a text. -/
inductive PagePart where
  | markup (s : Bytes)
  | text (toks : List Token)

def PagePart.tokens : PagePart → List Token
  | .markup s => [⟨s, true, false, false⟩]
  | .text toks => toks

def PagePart.isText : PagePart → Bool
  | .markup _ => false
  | .text _ => true

def pageTokens (ps : List PagePart) : List Token := ps.flatMap PagePart.tokens

/-- No two texts next to each other. -/
def TextsApart : Bool → List PagePart → Prop
  | _, [] => True
  | afterText, p :: ps => (p.isText = true → afterText = false) ∧ TextsApart p.isText ps

/-- The tokens are not empty, and there are some. -/
def Solid (toks : List Token) : Prop := toks ≠ [] ∧ ∀ t ∈ toks, t.value ≠ []

/-- What filters make of a part. -/
inductive PartMade (F : Filter) : PagePart → PagePart → Prop where
  | markup (s : Bytes) : PartMade F (.markup s) (.markup s)
  | text {a b : List Token} : Makes F a .eof b .eof →
      (∀ x ∈ 0 :: escapedBytes, (∀ t ∈ a, x ∉ t.value) → ∀ t ∈ b, x ∉ t.value) → (Solid a → Solid b) →
      PartMade F (.text a) (.text b)

theorem PartMade.isText {F : Filter} {p q : PagePart} (h : PartMade F p q) : q.isText = p.isText := by
  cases h <;> rfl

theorem TextsApart.made {F : Filter} {ps qs : List PagePart} (h : List.Forall₂ (PartMade F) ps qs) :
    ∀ {b : Bool}, TextsApart b ps → TextsApart b qs := by
  induction h with
  | nil => exact fun _ => trivial
  | cons h1 _ ih =>
    rintro b ⟨h2, h3⟩
    rw [TextsApart, h1.isText]
    exact ⟨h2, ih h3⟩

theorem made_markup {F : Filter} {ps qs : List PagePart} (h : List.Forall₂ (PartMade F) ps qs) (s : Bytes)
    (hs : .markup s ∈ qs) : .markup s ∈ ps := by
  induction h with
  | nil => exact hs
  | cons h1 _ ih =>
    rcases List.mem_cons.1 hs with h2 | h2
    · cases h1
      · rw [h2]; simp
      · cases h2
    · exact List.mem_cons_of_mem _ (ih h2)

/-- A filter that replaces tokens as `R` says, by parts if they are set apart by markup. -/
theorem parts_made {F : Filter} {R : List Token → List Token → Prop}
    (total : ∀ a, ∃ b, R a b ∧ (∀ x ∈ 0 :: escapedBytes, (∀ t ∈ a, x ∉ t.value) → ∀ t ∈ b, x ∉ t.value) ∧
      (Solid a → Solid b))
    (makes : ∀ a b, R a b → Makes F a .eof b .eof) (nil : R [] [])
    (append : ∀ a b a' b', R a a' → R b b' → PunctBetween a b → R (a ++ b) (a' ++ b')) :
    ∀ (ps : List PagePart) (b : Bool), TextsApart b ps →
      (∀ s, .markup s ∈ ps → R [⟨s, true, false, false⟩] [⟨s, true, false, false⟩]) →
      ∃ qs, List.Forall₂ (PartMade F) ps qs ∧ R (pageTokens ps) (pageTokens qs)
  | [], _, _, _ => ⟨[], .nil, nil⟩
  | p :: ps, b, h, hm => by
    obtain ⟨qs, h1, h2⟩ := parts_made total makes nil append ps _ h.2 fun s hs => hm s (by simp [hs])
    cases p with
    | markup s =>
      refine ⟨.markup s :: qs, .cons (.markup s) h1, append _ _ _ _ (hm s (by simp)) h2 ?_⟩
      exact .inr (.inr (.inl ⟨_, rfl, rfl⟩))
    | text a =>
      obtain ⟨a', h3, h4, h5⟩ := total a
      refine ⟨.text a' :: qs, .cons (.text (makes _ _ h3) h4 h5) h1, append _ _ _ _ h3 h2 ?_⟩
      cases ps with
      | nil => exact .inr (.inl rfl)
      | cons q ps =>
        cases q with
        | markup s => exact .inr (.inr (.inr ⟨_, rfl, rfl⟩))
        | text _ => exact absurd (h.2.1 rfl) (by simp [PagePart.isText])

/-! ### the filters -/

theorem soRows_safe : soRows.flatten.all (fun r => (runesB r.2).all fun x =>
    Nat.blt 13 x && !Nat.beq x 0x22 && !Nat.beq x 0x26 && !Nat.beq x 0x27 && !Nat.beq x 0x3C && !Nat.beq x 0x3E) = true := by
  decide +kernel

theorem contraction_safe : ∀ m ∈ contractionMappings, ∀ x ∈ 0 :: escapedBytes, x ∉ m.2 := by decide +kernel

theorem tagDict_safe {E : Env} : ∀ q c, tagDict E q = some c → ∀ x ∈ 0 :: escapedBytes, x ∉ c := by
  intro q c hq x hx hc
  rw [tagDict, stackOverflow_rows] at hq
  obtain ⟨b, hb, -, rfl⟩ := dict_some hq
  simp only [entries, List.mem_flatMap, List.mem_map] at hb
  obtain ⟨m, hm, p, hp, rfl⟩ := hb
  simp only [tableOf, List.mem_map] at hm
  obtain ⟨row, hrow, rfl⟩ := hm
  have hlt : x.toNat < 0x80 := (show ∀ x ∈ (0 : UInt8) :: escapedBytes, x.toNat < 0x80 by decide +kernel) x hx
  have h1 := List.all_eq_true.1 (List.all_eq_true.1 soRows_safe row hrow) x.toNat
    (by rw [runesB_eq]; exact (mem_runes_iff hlt).2 hc)
  have key : ∀ x ∈ (0 : UInt8) :: escapedBytes, (Nat.blt 13 x.toNat && !Nat.beq x.toNat 0x22 && !Nat.beq x.toNat 0x26 &&
      !Nat.beq x.toNat 0x27 && !Nat.beq x.toNat 0x3C && !Nat.beq x.toNat 0x3E) = false := by decide +kernel
  rw [key x hx] at h1
  cases h1

theorem SafeStem.good {stem : Bytes → Bytes} (h : SafeStem stem) : GoodStem stem :=
  fun s => ⟨(h s).1, (h s).2 0x0A (by simp)⟩

/-- Markup begins with `<`. No contraction does. -/
theorem contraction_markup {U : Unicode} (hU : U.LowersLatin) (s : Bytes) (t : Token) (ht : t.value = 0x3C :: s) :
    expansion? U contractionMappings t = none := by
  have hno : ∀ z, contractionMappings.lookup (0x3C :: z) = none := by
    intro z
    rw [List.lookup_eq_none_iff]
    intro m hm
    have : ∀ m ∈ contractionMappings, m.1.head? ≠ some 0x3C := by decide +kernel
    have h1 := this m hm
    rw [bne_iff_ne]
    intro he
    rw [← he] at h1
    exact h1 rfl
  have hl : U.lowerString t.value = 0x3C :: (U.lowerString s) := by
    rw [ht, Unicode.lowerString, Unicode.lowerString, runes_ascii_cons (by decide)]
    simp only [List.map_cons]
    rw [hU _ (by decide)]
    rfl
  rw [expansion?, ht, hno, ← ht, hl, hno]

/-- What a flag makes of a page. -/
theorem flag_parts {E : Env} {cls : WordTable} (hE : E.Lawful) (hF : E.FollowsUax29 cls) (hR : cls.Right)
    (hU : E.U.LowersLatin) (hP : E.U.PunctLatin) {sb : Snowball} (hst : SafeStem (sb.of .english)) {f : FilterFlag}
    (hf : f.Changes) (ha : f ≠ .ascii) (ps : List PagePart) {b : Bool} (hap : TextsApart b ps)
    (hm : ∀ s, .markup s ∈ ps → ∃ z, s = 0x3C :: z) :
    ∃ qs, List.Forall₂ (PartMade ((f.filter sb .english).apply E)) ps qs ∧
      Makes ((f.filter sb .english).apply E) (pageTokens ps) .eof (pageTokens qs) .eof := by
  have hok := flag_ok hF hR hst.good f
  cases f with
  | lemmas => exact absurd rfl hf.1
  | distinct => exact absurd rfl hf.2
  | ascii => exact absurd rfl ha
  | contractions =>
    have hb : GoodTable E contractionMappings := hok
    have makes : ∀ a, Makes ((FilterFlag.contractions.filter sb .english).apply E) a .eof
        (a.flatMap (expandToken E contractionMappings)) .eof := fun a ts h => expandWith_yields hE hb h
    have hexp : ∀ t : Token, (∃ k x, (k, x) ∈ contractionMappings ∧ expandToken E contractionMappings t = stringTokens E x) ∨
        expandToken E contractionMappings t = [t] := by
      intro t
      unfold expandToken
      split
      · rename_i x hx
        unfold expansion? at hx
        split at hx
        · cases hx
          exact .inl ⟨_, _, lookup_mem ‹_›, rfl⟩
        · exact .inl ⟨_, _, lookup_mem hx, rfl⟩
      · exact .inr rfl
    refine Exists.elim (parts_made (F := (FilterFlag.contractions.filter sb .english).apply E)
      (R := fun a b => b = a.flatMap (expandToken E contractionMappings))
      (fun a => ⟨_, rfl, ?_, ?_⟩) (fun a b h => h ▸ makes a) rfl
      (fun a b a' b' h1 h2 _ => by rw [h1, h2, List.flatMap_append]) ps b hap (fun s hs => ?_))
      (fun qs h => ⟨qs, h.1, h.2 ▸ makes _⟩)
    · intro x hx hc t ht
      obtain ⟨u, hu, ht⟩ := List.mem_flatMap.1 ht
      rcases hexp u with ⟨k, y, hm, he⟩ | he
      · rw [he] at ht
        intro hxt
        refine contraction_safe _ hm x hx ?_
        have hfl := (hE.complete { data := y } (hb.scans k y hm)).2
        simp only [stringTokens, segTokens, List.mem_map] at ht
        obtain ⟨seg, hs, rfl⟩ := ht
        show x ∈ Reader.data { data := y }
        rw [← hfl]
        exact List.mem_flatten.2 ⟨seg, hs, hxt⟩
      · rw [he, List.mem_singleton] at ht
        exact ht ▸ hc u hu
    · rintro ⟨hne, hv⟩
      have one : ∀ u ∈ a, Solid (expandToken E contractionMappings u) := by
        intro u hu
        rcases hexp u with ⟨k, y, hm, he⟩ | he
        · rw [he]
          have hc := hE.complete { data := y } (hb.scans k y hm)
          refine ⟨fun h0 => ?_, fun t ht => ?_⟩
          · refine hb.nonempty k y hm ?_
            have h3 : (E.scan { data := y }).1 = [] := by simpa [stringTokens, segTokens] using h0
            have h4 := hc.2
            rw [h3] at h4
            exact h4.symm
          · simp only [stringTokens, segTokens, List.mem_map] at ht
            obtain ⟨seg, hs, rfl⟩ := ht
            exact hE.nonempty _ seg hs
        · rw [he]
          exact ⟨by simp, by simpa using hv u hu⟩
      obtain ⟨u, a, rfl⟩ := List.exists_cons_of_ne_nil hne
      refine ⟨fun h0 => ?_, fun t ht => ?_⟩
      · rw [List.flatMap_cons, List.append_eq_nil_iff] at h0
        exact (one u (by simp)).1 h0.1
      · obtain ⟨v, hv, ht⟩ := List.mem_flatMap.1 ht
        exact (one v hv).2 t ht
    · obtain ⟨z, rfl⟩ := hm s hs
      simp [expandToken, contraction_markup hU z]
  | stem =>
    have makes : ∀ a, Makes ((FilterFlag.stem.filter sb .english).apply E) a .eof
        (a.map (stemToken E.U (sb.of .english))) .eof := fun a ts h => stemmer_yields (fun t _ => hok _) h
    refine Exists.elim (parts_made (F := (FilterFlag.stem.filter sb .english).apply E)
      (R := fun a b => b = a.map (stemToken E.U (sb.of .english)))
      (fun a => ⟨_, rfl, ?_, ?_⟩) (fun a b h => h ▸ makes a) rfl
      (fun a b a' b' h1 h2 _ => by rw [h1, h2, List.map_append]) ps b hap (fun s hs => ?_))
      (fun qs h => ⟨qs, h.1, h.2 ▸ makes _⟩)
    · intro x hx hc t ht
      obtain ⟨u, hu, rfl⟩ := List.mem_map.1 ht
      unfold stemToken
      split
      · exact fun hxt => hc u hu ((hst _).2 x (by simp only [List.mem_cons] at hx ⊢; tauto) hxt)
      · exact hc u hu
    · rintro ⟨hne, hv⟩
      refine ⟨by simpa using hne, fun t ht => ?_⟩
      obtain ⟨u, hu, rfl⟩ := List.mem_map.1 ht
      unfold stemToken
      split
      · exact fun h0 => hv u hu ((hst _).1 h0)
      · exact hv u hu
    · simp [stemToken, Token.IsWord]
  | stack =>
    have makes : ∀ a b, Greedy (tagCompare E) (tagDict E) (wordLimit (entries E stackOverflowMappings)) a b →
        Makes ((FilterFlag.stack.filter sb .english).apply E) a .eof b .eof := by
      intro a b hg ts h
      have := synonyms_yields hE hok h hg
      rw [if_pos rfl] at this
      exact this
    refine Exists.elim (parts_made (F := (FilterFlag.stack.filter sb .english).apply E)
      (R := Greedy (tagCompare E) (tagDict E) (wordLimit (entries E stackOverflowMappings)))
      (fun a => ?_) makes .nil
      (fun a b a' b' h1 h2 h => h1.append h2 h.noCross) ps b hap
      (fun s hs => .separator (by rintro ⟨h, -⟩; cases h) .nil))
      (fun qs h => ⟨qs, h.1, makes _ _ h.2⟩)
    · obtain ⟨o, hg⟩ := Greedy.total (tagCompare E) (tagDict E) (wordLimit (entries E stackOverflowMappings)) a
      have hmem := greedy_mem hg
      refine ⟨o, hg, ?_, ?_⟩
      · intro x hx hc t ht
        rcases hmem t ht with h | ⟨q, c, hq, rfl⟩
        · exact hc t h
        · exact tagDict_safe q c hq x hx
      · rintro ⟨hne, hv⟩
        refine ⟨?_, fun t ht => ?_⟩
        · cases hg with
          | nil => exact absurd rfl hne
          | separator | word => simp
          | replace _ hl _ =>
            simp [canonTokens, tagDict_ne_nil hP _ _ hl.isSyn]
        · rcases hmem t ht with h | ⟨q, c, hq, rfl⟩
          · exact hv t h
          · exact tagDict_ne_nil hP q c hq

theorem PartMade.trans {F G : Filter} {p q r : PagePart} (h : PartMade F p q) (h' : PartMade G q r) :
    PartMade (fun ts => G (F ts)) p r := by
  cases h with
  | markup s => cases h'; exact .markup s
  | text h1 h2 h3 =>
    cases h' with
    | text k1 k2 k3 => exact .text (fun ts h => k1 _ (h1 ts h)) (fun x hx hc => k2 x hx (h2 x hx hc)) fun h => k3 (h3 h)

theorem parts_trans {F G : Filter} {ps qs rs : List PagePart} (h : List.Forall₂ (PartMade F) ps qs)
    (h' : List.Forall₂ (PartMade G) qs rs) : List.Forall₂ (PartMade fun ts => G (F ts)) ps rs := by
  induction h generalizing rs with
  | nil => cases h'; exact .nil
  | cons h1 _ ih =>
    cases h' with
    | cons k1 k2 => exact .cons (h1.trans k1) (ih k2)

/-- What flags make of a page. -/
theorem flags_parts {E : Env} {cls : WordTable} (hE : E.Lawful) (hF : E.FollowsUax29 cls) (hR : cls.Right)
    (hU : E.U.LowersLatin) (hP : E.U.PunctLatin) {sb : Snowball} (hst : SafeStem (sb.of .english)) {b : Bool} :
    ∀ (fl : List FilterFlag), (∀ f ∈ fl, f.Changes) → .ascii ∉ fl → ∀ (ps : List PagePart), TextsApart b ps →
      (∀ s, .markup s ∈ ps → ∃ z, s = 0x3C :: z) →
      ∃ qs, List.Forall₂ (PartMade fun ts => ts.filter (fl.map fun f => (f.filter sb .english).apply E)) ps qs ∧
        Makes (fun ts => ts.filter (fl.map fun f => (f.filter sb .english).apply E)) (pageTokens ps) .eof (pageTokens qs) .eof
  | [], _, _, ps, hap, hm => by
    refine ⟨ps, ?_, fun _ h => h⟩
    clear hap hm
    induction ps with
    | nil => exact .nil
    | cons p ps ih =>
      refine .cons ?_ ih
      cases p with
      | markup s => exact .markup s
      | text a => exact .text (fun _ h => h) (fun _ _ h => h) id
  | f :: fl, hf, ha, ps, hap, hm => by
    simp only [List.mem_cons, not_or] at ha
    obtain ⟨qs, h1, h2⟩ := flag_parts hE hF hR hU hP hst (hf f (by simp)) (Ne.symm ha.1) ps hap hm
    obtain ⟨rs, h3, h4⟩ := flags_parts hE hF hR hU hP hst fl (fun g hg => hf g (by simp [hg])) ha.2 qs (hap.made h1)
      fun s hs => hm s (made_markup h1 s hs)
    exact ⟨rs, parts_trans h1 h3, fun ts h => h4 _ (h2 ts h)⟩

/-! ### the tokens of a page -/

/-- The parts of a page as TokenizeHTML delivers them. -/
def partsOf (E : Env) : Bool → List HTok → List PagePart
  | _, [] => []
  | raw, h :: hs =>
    if h.type = .text then
      .text (if raw then [⟨h.string, false, false, false⟩] else stringTokens E h.string) :: partsOf E raw hs
    else .markup h.string :: partsOf E (raw || h.opensRaw) hs

theorem partsOf_tokens {E : Env} : ∀ (hs : List HTok) (raw : Bool), TextScans E hs →
    htmlActual E raw hs none = (pageTokens (partsOf E raw hs), .eof)
  | [], _, _ => rfl
  | h :: hs, raw, hsc => by
    have ih := fun raw => partsOf_tokens hs raw fun x hx => hsc x (by simp [hx])
    by_cases ht : h.type = .text
    · have h1 := hsc h (by simp) ht
      cases raw with
      | true => simp [htmlActual, partsOf, ht, ih, emit, pageTokens, PagePart.tokens]
      | false =>
        have e : E.scan { data := h.string } = ((E.scan { data := h.string }).1, none) := Prod.ext rfl h1
        simp only [htmlActual, partsOf, ht, ↓reduceIte, Bool.false_eq_true, ih]
        rw [e]
        simp [pageTokens, PagePart.tokens, stringTokens]
    · simp [htmlActual, partsOf, ht, ih, emit, pageTokens, PagePart.tokens]

theorem partsOf_apart [HtmlReader] {E : Env} : ∀ (hs : List HTok) (raw : Bool) (ctx : Option Bytes) (b : Bool),
    ReadableFrom ctx b hs → TextsApart b (partsOf E raw hs)
  | [], _, _, _, _ => trivial
  | h :: hs, raw, ctx, b, hr => by
    by_cases ht : h.type = .text
    · have h4 := hr.2.2.2
      rw [show (h.type == HType.text) = true by simp [ht]] at h4
      rw [partsOf, if_pos ht]
      exact ⟨fun _ => (hr.2.1 ht).1, partsOf_apart hs _ _ _ h4⟩
    · have h4 := hr.2.2.2
      rw [show (h.type == HType.text) = false by simp [ht]] at h4
      rw [partsOf, if_neg ht]
      exact ⟨fun h => by simp [PagePart.isText] at h, partsOf_apart hs _ _ _ h4⟩

theorem string_lt {h : HTok} (ht : h.type ≠ .text) : ∃ z, h.string = 0x3C :: z := by
  have e1 : str "<" = [0x3C] := by decide +kernel
  have e2 : str "</" = [0x3C, 0x2F] := by decide +kernel
  have e3 : str "<!--" = [0x3C, 0x21, 0x2D, 0x2D] := by decide +kernel
  have e4 : ∃ z, str "<!DOCTYPE " = 0x3C :: z := ⟨str "!DOCTYPE ", by decide +kernel⟩
  obtain ⟨z, e4⟩ := e4
  unfold HTok.string
  split <;> simp_all

theorem partsOf_markup {E : Env} : ∀ (hs : List HTok) (raw : Bool) (s : Bytes), .markup s ∈ partsOf E raw hs →
    ∃ z, s = 0x3C :: z
  | [], _, s, h => by simp [partsOf] at h
  | h :: hs, raw, s, hm => by
    rw [partsOf] at hm
    split at hm
    · rcases List.mem_cons.1 hm with h1 | h1
      · cases h1
      · exact partsOf_markup hs _ s h1
    · rename_i ht
      rcases List.mem_cons.1 hm with h1 | h1
      · cases h1
        exact string_lt ht
      · exact partsOf_markup hs _ s h1

theorem stringTokens_value {E : Env} (hE : E.Lawful) {s : Bytes} (hs : (E.scan { data := s }).2 = none) :
    ∀ t ∈ stringTokens E s, ∀ x ∈ t.value, x ∈ s := by
  intro t ht x hx
  simp only [stringTokens, segTokens, List.mem_map] at ht
  obtain ⟨seg, h1, rfl⟩ := ht
  show x ∈ Reader.data { data := s }
  rw [← (hE.complete { data := s } hs).2]
  exact List.mem_flatten.2 ⟨seg, h1, hx⟩

theorem text_flatMap (l : List Token) : text l = l.flatMap Token.value := by
  induction l with
  | nil => rfl
  | cons t l ih => simp_all [text]

theorem made_filled {E : Env} (hE : E.Lawful) {F : Filter} : ∀ (hs : List HTok) (raw : Bool) (qs : List PagePart), TextScans E hs →
    List.Forall₂ (PartMade F) (partsOf E raw hs) qs → Filled hs (text (pageTokens qs))
  | [], _, qs, _, h => by cases h; exact .nil
  | h :: hs, raw, qs, hsc, hq => by
    have hsc' : TextScans E hs := fun x hx => hsc x (by simp [hx])
    rw [partsOf] at hq
    split at hq
    · rename_i ht
      cases hq with
      | @cons _ q _ qs h1 h2 =>
        cases h1 with
        | @text _ b k1 k2 k3 =>
          have ih := made_filled hE hs raw qs hsc' h2
          have e : text (pageTokens (.text b :: qs)) = text b ++ text (pageTokens qs) := by
            simp [text_flatMap, pageTokens, PagePart.tokens]
          rw [e]
          refine .text ht ?_ ih
          have hfree : (0x3C : UInt8) ∉ h.string := by
            rw [show h.string = htmlEscape h.data by simp [HTok.string, ht]]
            exact (escape_free h.data).1
          have := k2 0x3C (by decide) (by
            intro t ht'
            split at ht'
            · rw [List.mem_singleton] at ht'
              rw [ht']
              exact hfree
            · exact fun hx => hfree (stringTokens_value hE (hsc h (by simp) ht) t ht' _ hx))
          rw [text_flatMap, List.mem_flatMap]
          rintro ⟨t, ht', hx⟩
          exact this t ht' hx
    · rename_i ht
      cases hq with
      | @cons _ q _ qs h1 h2 =>
        cases h1
        have ih := made_filled hE hs _ qs hsc' h2
        have e : text (pageTokens (.markup h.string :: qs)) = h.string ++ text (pageTokens qs) := by
          simp [text_flatMap, pageTokens, PagePart.tokens]
        rw [e]
        exact .other ht ih

/-! ### statements -/

variable {E : Env} {cls : WordTable}

theorem fits_scans [HtmlReader] (hF : E.FollowsUax29 cls) {doc : Bytes}
    (hlen : ∀ h ∈ htmlTokens doc, h.type = .text → Fits cls h.string) : TextScans E (htmlTokens doc) :=
  fun h hh ht => by rw [hF _ (hlen h hh ht)]

/-- **C100, partial.** For all filters that change words but `-ascii`: read as HTML, what the program writes for a page
has the markup of the page. Missing: `-ascii`, where it is false (`C100_violated`, `C100_violated_attribute`). -/
theorem C100_partial [HtmlReader] (hE : E.Lawful) (hF : E.FollowsUax29 cls) (hR : cls.Right) (hU : E.U.LowersLatin)
    (hP : E.U.PunctLatin) {ω : Type} {w : Place → Writer ω} {W : World (ω × Bytes)} {input : Bytes} (hW : Piped w W input)
    (hWE : W.E = E) (hst : SafeStem (W.snowball.of .english)) {fl : List FilterFlag} (hfl : ∀ f ∈ fl, f.Changes)
    (ha : .ascii ∉ fl) {doc : Bytes} (hkept : ∀ h ∈ htmlTokens doc, Kept h)
    (hlen : ∀ h ∈ htmlTokens doc, h.type = .text → Fits cls h.string) :
    ∃ out, RewritesPage W fl doc out ∧ markup (htmlTokens out) = markup (htmlTokens doc) := by
  subst hWE
  have hread := htmlTokens_readable doc
  have hsc := fits_scans hF hlen
  obtain ⟨qs, h1, h2⟩ := flags_parts hE hF hR hU hP hst fl hfl ha _
    (partsOf_apart (E := W.E) (htmlTokens doc) false none false hread) (partsOf_markup _ _)
  have hy := html_yields hE (htmlTokens doc) none (textNonempty_readable hread)
  rw [partsOf_tokens _ _ hsc] at hy
  exact ⟨_, rewritesPage_tokens hW (h2 _ hy), filled_markup hread hkept (made_filled hE _ _ qs hsc h1)⟩

/-! ### the texts of pages -/

/-- The document with its texts replaced. -/
def retext : List HTok → List Bytes → List HTok
  | [], _ => []
  | h :: hs, outs =>
    if h.type = .text then
      match outs with
      | [] => []
      | o :: outs => { h with data := o } :: retext hs outs
    else h :: retext hs outs

theorem stringTokens_solid (hE : E.Lawful) {s : Bytes} (hs : (E.scan { data := s }).2 = none) (hne : s ≠ []) :
    Solid (stringTokens E s) := by
  refine ⟨fun h0 => hne ?_, fun t ht => ?_⟩
  · have h3 : (E.scan { data := s }).1 = [] := by simpa [stringTokens, segTokens] using h0
    have h4 := (hE.complete { data := s } hs).2
    rw [h3] at h4
    exact h4.symm
  · simp only [stringTokens, segTokens, List.mem_map] at ht
    obtain ⟨seg, hs, rfl⟩ := ht
    exact hE.nonempty _ seg hs

theorem retext_made [HtmlReader] (hE : E.Lawful) {ω : Type} {w : Place → Writer ω} {W : World (ω × Bytes)} {input : Bytes}
    (hW : Piped w W input) (hWE : W.E = E) {fl : List FilterFlag} : ∀ (hs : List HTok) (ctx : Option Bytes) (b : Bool)
    (qs : List PagePart) (outs : List Bytes), ReadableFrom ctx b hs → TextScans E hs → (∀ h ∈ hs, Kept h) →
    (∀ h ∈ hs, h.type = .startTag ∨ h.type = .selfClosing → h.data ≠ str "script" ∧ h.data ≠ str "style") →
    ctx ≠ some (str "script") → ctx ≠ some (str "style") →
    (∀ text ∈ pageTexts ctx hs, ∀ x ∈ text, x ∉ escapedBytes) →
    List.Forall₂ (PartMade fun ts => ts.filter (fl.map fun f => (f.filter W.snowball .english).apply E)) (partsOf E false hs) qs →
    List.Forall₂ (Rewrites W fl) (pageTexts ctx hs) outs →
    text (pageTokens qs) = (retext hs outs).flatMap HTok.string ∧ ReadableFrom ctx b (retext hs outs) ∧
      (∀ h ∈ retext hs outs, Kept h) ∧ escapeRaw ctx (retext hs outs) = retext hs outs ∧
      pageTexts ctx (retext hs outs) = outs
  | [], ctx, b, qs, outs, _, _, _, _, _, _, _, hq, ho => by
    cases hq
    simp only [pageTexts] at ho
    cases ho
    exact ⟨rfl, trivial, by simp [retext], rfl, rfl⟩
  | h :: hs, ctx, b, qs, outs, hr, hsc, hk, hno, h1, h2, he, hq, ho => by
    have ih := retext_made hE hW hWE (fl := fl) hs
    have hsc' : TextScans E hs := fun x hx => hsc x (by simp [hx])
    have hk' : ∀ h ∈ hs, Kept h := fun x hx => hk x (by simp [hx])
    have hno' := fun x (hx : x ∈ hs) => hno x (by simp [hx])
    have hr4 := hr.2.2.2
    by_cases ht : h.type = .text
    · have e1 : rawAfter ctx h = ctx := by simp [rawAfter, ht]
      simp only [pageTexts, ht, h1, h2, e1, ne_eq, not_false_eq_true, and_self, ↓reduceIte, List.singleton_append,
        List.mem_cons, forall_eq_or_imp] at he ho
      rw [partsOf, if_pos ht] at hq
      simp only [Bool.false_eq_true, ↓reduceIte] at hq
      rw [e1, show (h.type == HType.text) = true by simp [ht]] at hr4
      cases ho with
      | @cons _ o _ outs o1 o2 =>
        cases hq with
        | @cons _ q _ qs q1 q2 =>
          cases q1 with
          | @text _ c k1 k2 k3 =>
            obtain ⟨i1, i2, i3, i4, i5⟩ := ih ctx true qs outs hr4 hsc' hk' hno' h1 h2 he.2 q2 o2
            have hd : h.data ≠ [] ∧ h.attr = [] ∧ h.dataAtom = .zero := by simpa [Readable, ht] using hr.1
            have hstr : h.string = h.data := by
              rw [show h.string = htmlEscape h.data by simp [HTok.string, ht]]
              exact htmlEscape_self.mpr he.1
            have hscan : (E.scan { data := h.data }).2 = none := by
              have := hsc h (by simp) ht
              rwa [hstr] at this
            rw [hstr] at k1 k2 k3
            -- what the program makes of the text
            have hy := tokenize_yields E hE { data := h.data }
            rw [hscan] at hy
            have hw := k1 _ hy
            rw [← hWE] at hw
            obtain rfl := o1.unique (rewrites_tokens hW hw)
            have hsolid := k3 (stringTokens_solid hE hscan hd.1)
            have hne : text c ≠ [] := by
              obtain ⟨t, c, rfl⟩ := List.exists_cons_of_ne_nil hsolid.1
              have := hsolid.2 t (by simp)
              simp [text_flatMap, this]
            have hfree : ∀ x ∈ text c, x ∉ escapedBytes := by
              intro x hx hxe
              rw [text_flatMap, List.mem_flatMap] at hx
              obtain ⟨t, ht', hx⟩ := hx
              refine k2 x (by simp [hxe]) (fun u hu hxu => ?_) t ht' hx
              exact he.1 x (stringTokens_value hE hscan u hu x hxu) hxe
            have hnul : 0 ∉ h.data → 0 ∉ text c := by
              intro h0 hx
              rw [text_flatMap, List.mem_flatMap] at hx
              obtain ⟨t, ht', hx⟩ := hx
              exact k2 0 (by simp) (fun u hu hxu => h0 (stringTokens_value hE hscan u hu 0 hxu)) t ht' hx
            have hesc : htmlEscape (text c) = text c := htmlEscape_self.mpr hfree
            have e2 : retext (h :: hs) (text c :: outs) = { h with data := text c } :: retext hs outs := by
              rw [retext, if_pos ht]
            have e3 : rawAfter ctx { h with data := text c } = ctx := by simp [rawAfter, ht]
            rw [e2]
            refine ⟨?_, ?_, ?_, ?_, ?_⟩
            · rw [List.flatMap_cons, ← i1, show HTok.string { h with data := text c } = text c by simp [HTok.string, ht, hesc]]
              simp [text_flatMap, pageTokens, PagePart.tokens]
            · refine ⟨by simp [Readable, ht, hne, hd.2.1, hd.2.2], fun _ => ⟨(hr.2.1 ht).1, fun hc => hnul ((hr.2.1 ht).2 hc)⟩,
                fun _ _ hc => absurd ht hc, ?_⟩
              rw [e3]
              simpa [ht] using i2
            · intro x hx
              rcases List.mem_cons.1 hx with rfl | hx
              · exact kept_of_type (by simp [ht]) (by simp [ht])
              · exact i3 x hx
            · rw [escapeRaw, e3, i4]
              simp [hesc]
            · rw [pageTexts, e3, i5]
              simp [ht, h1, h2]
    · have hctx : rawAfter ctx h ≠ some (str "script") ∧ rawAfter ctx h ≠ some (str "style") := by
        rw [rawAfter, if_neg ht]
        split
        · rename_i hop
          have : h.type = .startTag ∨ h.type = .selfClosing := by
            simp only [HTok.opensRawText, Bool.and_eq_true, Bool.or_eq_true, beq_iff_eq] at hop
            exact hop.1
          have := hno h (by simp) this
          simpa using this
        · simp
      simp only [pageTexts, ht, false_and, ↓reduceIte, List.nil_append] at he ho
      rw [partsOf, if_neg ht] at hq
      rw [show (h.type == HType.text) = false by simp [ht]] at hr4
      have hraw : h.opensRaw = false := by
        by_cases hty : h.type = .startTag
        case neg => simp [HTok.opensRaw, hty]
        have hd := hno h (by simp) (.inl hty)
        have := hr.1
        simp only [Readable, hty] at this
        simp [HTok.opensRaw, this.1, atomOf, hd.1, hd.2]
      rw [hraw] at hq
      simp only [Bool.or_false] at hq
      have e2 : retext (h :: hs) outs = h :: retext hs outs := by cases outs <;> simp [retext, ht]
      rw [e2]
      cases hq with
      | @cons _ q _ qs q1 q2 =>
        cases q1
        obtain ⟨i1, i2, i3, i4, i5⟩ := ih (rawAfter ctx h) false qs outs hr4 hsc' hk' hno' hctx.1 hctx.2 he q2 ho
        refine ⟨?_, ⟨hr.1, hr.2.1, hr.2.2.1, by rwa [show (h.type == HType.text) = false by simp [ht]]⟩, ?_, ?_, ?_⟩
        · rw [List.flatMap_cons, ← i1]
          simp [text_flatMap, pageTokens, PagePart.tokens]
        · intro x hx
          rcases List.mem_cons.1 hx with rfl | hx
          · exact hk _ (by simp)
          · exact i3 x hx
        · rw [escapeRaw, i4]
          simp [ht]
        · simp [pageTexts, ht, i5]

/-- **C101, partial.** For all filters that change words but `-ascii`, and for pages without script and style elements
in whose texts there is nothing to be escaped: the texts of what the program writes are what it writes for each of
the texts. Missing: quotation marks and other characters that are escaped (`C101_violated`), what follows a script
(`C86_violated`), and `-ascii` (`C100_violated`). -/
theorem C101_partial [HtmlReader] (hE : E.Lawful) (hF : E.FollowsUax29 cls) (hR : cls.Right) (hU : E.U.LowersLatin)
    (hP : E.U.PunctLatin) {ω : Type} {w : Place → Writer ω} {W : World (ω × Bytes)} {input : Bytes} (hW : Piped w W input)
    (hWE : W.E = E) (hst : SafeStem (W.snowball.of .english)) {fl : List FilterFlag} (hfl : ∀ f ∈ fl, f.Changes)
    (ha : .ascii ∉ fl) {doc : Bytes} {outs : List Bytes} (hkept : ∀ h ∈ htmlTokens doc, Kept h)
    (hlen : ∀ h ∈ htmlTokens doc, h.type = .text → Fits cls h.string)
    (hno : ∀ h ∈ htmlTokens doc, h.type = .startTag ∨ h.type = .selfClosing → h.data ≠ str "script" ∧ h.data ≠ str "style")
    (hesc : ∀ text ∈ pageTexts none (htmlTokens doc), ∀ b ∈ text, b ∉ escapedBytes)
    (ho : List.Forall₂ (Rewrites W fl) (pageTexts none (htmlTokens doc)) outs) :
    ∃ out, RewritesPage W fl doc out ∧ pageTexts none (htmlTokens out) = outs ∧
      markup (htmlTokens out) = markup (htmlTokens doc) := by
  have hread := htmlTokens_readable doc
  have hsc := fits_scans hF hlen
  subst hWE
  obtain ⟨qs, h1, h2⟩ := flags_parts hE hF hR hU hP hst fl hfl ha _
    (partsOf_apart (E := W.E) (htmlTokens doc) false none false hread) (partsOf_markup _ _)
  have hy := html_yields hE (htmlTokens doc) none (textNonempty_readable hread)
  rw [partsOf_tokens _ _ hsc] at hy
  obtain ⟨i1, i2, i3, i4, i5⟩ := retext_made hE hW rfl (htmlTokens doc) none false qs outs hread hsc hkept hno (by simp)
    (by simp) hesc h1 ho
  refine ⟨_, rewritesPage_tokens hW (h2 _ hy), ?_, filled_markup hread hkept (made_filled hE _ _ qs hsc h1)⟩
  rw [i1, htmlTokens_render _ i2 i3, i4, i5]

section

-- The readings below are computed with one concrete reader of HTML.
attribute [local instance] sampleReader

/-- What the program writes for a page, computed. -/
theorem page_rewrites {fl : List FilterFlag} {doc : Bytes} {toks out : List Token}
    (hne : TextNonempty (htmlTokens doc)) (ht : htmlActual uaxEnv false (htmlTokens doc) none = (toks, .eof))
    (hm : Makes (fun ts => ts.filter (fl.map fun f => (f.filter (pipeWorld uaxEnv []).snowball .english).apply uaxEnv))
      toks .eof out .eof) : RewritesPage (pipeWorld uaxEnv []) fl doc (text out) := by
  have hy := html_yields uaxEnv_lawful (htmlTokens doc) none hne
  rw [ht] at hy
  exact rewritesPage_tokens (pipeWorld_piped uaxEnv []) (hm _ hy)

theorem kept_all {hs : List HTok} (h : ∀ h ∈ hs, h.type ≠ .comment ∧ h.type ≠ .doctype) : ∀ h ∈ hs, Kept h :=
  fun x hx => kept_of_type (h x hx).1 (h x hx).2

theorem pipeWorld_safe : SafeStem ((pipeWorld uaxEnv []).snowball.of .english) :=
  fun _ => ⟨id, fun _ _ h => h⟩

/-- **C100 is violated.** With `-ascii`, the text "＜b＞" becomes a tag: signs that are no markup become markup, after
the text has been escaped. -/
theorem C100_violated : ¬ C100_full uaxEnv uaxTable ∧
    RewritesPage (pipeWorld uaxEnv []) [.ascii] (str "＜b＞") (str "<b>") ∧
    markup (htmlTokens (str "＜b＞")) = [] ∧
    markup (htmlTokens (str "<b>")) = [⟨.startTag, .other 0, str "b", []⟩] := by
  have hw : RewritesPage (pipeWorld uaxEnv []) [.ascii] (str "＜b＞") (str "<b>") := by
    have := page_rewrites (fl := [.ascii]) (doc := str "＜b＞") (textNonempty_readable (htmlTokens_readable _))
      (toks := segTokens uaxEnv.U [str "＜", str "b", str "＞"]) (by decide +kernel)
      (fun ts h => asciiFold_yields uaxEnv.U h)
    rwa [show text ((segTokens uaxEnv.U [str "＜", str "b", str "＞"]).map (foldToken uaxEnv.U)) = str "<b>" by
      decide +kernel] at this
  have h1 : markup (htmlTokens (str "＜b＞")) = [] := by decide +kernel
  have h2 : markup (htmlTokens (str "<b>")) = [⟨.startTag, .other 0, str "b", []⟩] := by decide +kernel
  refine ⟨fun h => ?_, hw, h1, h2⟩
  obtain ⟨out, k1, k2⟩ := h _ _ (pipeWorld uaxEnv []) [] (pipeWorld_piped uaxEnv []) rfl pipeWorld_safe [.ascii] (by simp [FilterFlag.Changes])
    (str "＜b＞") (kept_all (by decide +kernel)) (fun x hx ht => .inl ((by decide +kernel :
      ∀ h ∈ htmlTokens (str "＜b＞"), h.type = .text → h.string.length < 0x10000) x hx ht))
  rw [k1.unique hw, h1, h2] at k2
  cases k2

/-- With `-ascii`, attributes change. -/
theorem C100_violated_attribute : RewritesPage (pipeWorld uaxEnv []) [.ascii] (str "<a title=\"é\">") (str "<a title=\"e\">") := by
  have := page_rewrites (fl := [.ascii]) (doc := str "<a title=\"é\">") (textNonempty_readable (htmlTokens_readable _))
    (toks := [⟨str "<a title=\"é\">", true, false, false⟩]) (by decide +kernel)
    (fun ts h => asciiFold_yields uaxEnv.U h)
  rwa [show text ([⟨str "<a title=\"é\">", true, false, false⟩].map (foldToken uaxEnv.U)) = str "<a title=\"e\">" by
    decide +kernel] at this

/-- **C101 is violated.** `-contractions` makes of the text "don't" "do not", and leaves it alone in a page: there the
apostrophe has been escaped before the text is cut into words. -/
theorem C101_violated : ¬ C101_full uaxEnv uaxTable ∧
    Rewrites (pipeWorld uaxEnv []) [.contractions] (str "don't") (str "do not") ∧
    RewritesPage (pipeWorld uaxEnv []) [.contractions] (str "<p>don't</p>") (str "<p>don&#39;t</p>") ∧
    pageTexts none (htmlTokens (str "<p>don't</p>")) = [str "don't"] ∧
    pageTexts none (htmlTokens (str "<p>don&#39;t</p>")) = [str "don't"] := by
  have hgood := (C76_scanner_laws uaxEnv_follows uaxTable_right).2.2.2
  have hx : Rewrites (pipeWorld uaxEnv []) [.contractions] (str "don't") (str "do not") := by
    have := pipe_rewrites (fl := [.contractions]) (expandWith_yields uaxEnv_lawful hgood
      (uax_yields (txt := str "don't") (ws := [str "don't"]) (by decide +kernel)))
    rwa [show text ((segTokens uaxEnv.U [str "don't"]).flatMap (expandToken uaxEnv contractionMappings)) = str "do not" by
      decide +kernel] at this
  have hw : RewritesPage (pipeWorld uaxEnv []) [.contractions] (str "<p>don't</p>") (str "<p>don&#39;t</p>") := by
    have := page_rewrites (fl := [.contractions]) (doc := str "<p>don't</p>") (textNonempty_readable (htmlTokens_readable _))
      (toks := ⟨str "<p>", true, false, false⟩ :: segTokens uaxEnv.U (["don", "&", "#", "39", ";", "t"].map str) ++ [⟨str "</p>", true, false, false⟩])
      (by decide +kernel) (fun ts h => expandWith_yields uaxEnv_lawful hgood h)
    rwa [show text (((⟨str "<p>", true, false, false⟩ :: segTokens uaxEnv.U (["don", "&", "#", "39", ";", "t"].map str) ++ [⟨str "</p>", true, false, false⟩] : List Token)).flatMap
      (expandToken uaxEnv contractionMappings)) = str "<p>don&#39;t</p>" by decide +kernel] at this
  have h1 : pageTexts none (htmlTokens (str "<p>don't</p>")) = [str "don't"] := by decide +kernel
  have h2 : pageTexts none (htmlTokens (str "<p>don&#39;t</p>")) = [str "don't"] := by decide +kernel
  refine ⟨fun h => ?_, hx, hw, h1, h2⟩
  obtain ⟨out, k1, k2⟩ := h _ _ (pipeWorld uaxEnv []) [] (pipeWorld_piped uaxEnv []) rfl pipeWorld_safe [.contractions]
    (by simp [FilterFlag.Changes]) (str "<p>don't</p>") [str "do not"] (kept_all (by decide +kernel))
    (fun x hx ht =>
      have := (by decide +kernel : ∀ h ∈ htmlTokens (str "<p>don't</p>"), h.type = .text →
        h.string.length < 0x10000 ∧ h.data.length < 0x10000) x hx ht
      ⟨.inl this.1, .inl this.2⟩)
    (by rw [h1]; exact .cons hx .nil)
  rw [k1.unique hw, h2] at k2
  revert k2
  decide +kernel

instance [HtmlReader] : DecidablePred Kept := fun h => by
  unfold Kept CommentKept DoctypeKept
  split <;> infer_instance

/-- Non-vacuity. -/
example := C100_partial uaxEnv_lawful uaxEnv_follows uaxTable_right uaxEnv_lowers uaxEnv_punct (pipeWorld_piped uaxEnv [])
  rfl pipeWorld_safe (fl := [.contractions, .stack, .stem]) (by simp [FilterFlag.Changes]) (by simp)
  (doc := str "<p title='x'>We can't <b>Ruby on Rails</b><!-- y --></p>") (by decide +kernel)
  (fun x hx ht => .inl ((by decide +kernel : ∀ h ∈ htmlTokens (str "<p title='x'>We can't <b>Ruby on Rails</b><!-- y --></p>"),
    h.type = .text → h.string.length < 0x10000) x hx ht))

/-- Non-vacuity: "cannot" in a paragraph. -/
example : ∃ out, RewritesPage (pipeWorld uaxEnv []) [.contractions] (str "<p>cannot<br>cannot</p>") out ∧
    pageTexts none (htmlTokens out) = [str "can not", str "can not"] ∧
    markup (htmlTokens out) = markup (htmlTokens (str "<p>cannot<br>cannot</p>")) := by
  have hgood := (C76_scanner_laws uaxEnv_follows uaxTable_right).2.2.2
  have hx : Rewrites (pipeWorld uaxEnv []) [.contractions] (str "cannot") (str "can not") := by
    have := pipe_rewrites (fl := [.contractions]) (expandWith_yields uaxEnv_lawful hgood
      (uax_yields (txt := str "cannot") (ws := [str "cannot"]) (by decide +kernel)))
    rwa [show text ((segTokens uaxEnv.U [str "cannot"]).flatMap (expandToken uaxEnv contractionMappings)) = str "can not" by
      decide +kernel] at this
  have h1 : pageTexts none (htmlTokens (str "<p>cannot<br>cannot</p>")) = [str "cannot", str "cannot"] := by decide +kernel
  exact C101_partial uaxEnv_lawful uaxEnv_follows uaxTable_right uaxEnv_lowers uaxEnv_punct (pipeWorld_piped uaxEnv [])
    rfl pipeWorld_safe (by simp [FilterFlag.Changes]) (by simp) (kept_all (by decide +kernel))
    (fun x hx ht => .inl ((by decide +kernel : ∀ h ∈ htmlTokens (str "<p>cannot<br>cannot</p>"),
      h.type = .text → h.string.length < 0x10000) x hx ht)) (by decide +kernel) (by rw [h1]; decide +kernel)
    (by rw [h1]; exact .cons hx (.cons hx .nil))

end

end Jargon
