import Verif.Props.Brackets

/-! C142: it makes no difference how many spaces are between two words. -/

namespace Jargon

variable {E : Env} {cls : WordTable}

/-- `n + 1` spaces. -/
def blanks (n : Nat) : Bytes := List.replicate (n + 1) 0x20

/-- The text does not begin with a space of any kind, or with a combining character. -/
def BeginsSolid (cls : WordTable) (t : Bytes) : Prop :=
  ∀ r, (runes t).head? = some r → (cls r).1.attached = false ∧ (cls r).1 ≠ .space

/-- The text does not end with a space of any kind. -/
def EndsSolid (cls : WordTable) (t : Bytes) : Prop := ∀ r, (runes t).getLast? = some r → (cls r).1 ≠ .space

theorem runeBytes_blanks (n : Nat) (t : Bytes) :
    runeBytes (blanks n ++ t) = List.replicate (n + 1) ((0x20, [0x20]) : Rune × Bytes) ++ runeBytes t := by
  induction n with
  | zero => exact runeBytes_ascii_cons (b := 0x20) (by decide) t
  | succ n ih =>
    have : blanks (n + 1) ++ t = 0x20 :: (blanks n ++ t) := by simp [blanks, List.replicate_succ]
    rw [this, runeBytes_ascii_cons (by decide), ih]
    rfl

theorem cutWords_blanks (hsp : cls 0x20 = (.space, false)) {l : List (Rune × Bytes)}
    (hl : ∀ p, l.head? = some p → (cls p.1).1.attached = false ∧ (cls p.1).1 ≠ .space) : ∀ (n : Nat) (Y : List (WB × Bool)),
    cutWords (fun p : Rune × Bytes => cls p.1) Y (List.replicate (n + 1) ((0x20, [0x20]) : Rune × Bytes) ++ l) =
      List.replicate (n + 1) (0x20, [0x20]) :: cutWords (fun p : Rune × Bytes => cls p.1) [] l
  | 0, Y => by
    have hj : joins (cls 0x20 :: Y) (l.map fun p => cls p.1) = false := by
      cases l with
      | nil => rfl
      | cons q z =>
        obtain ⟨h1, h2⟩ := hl q rfl
        rw [List.map_cons, joins_cons, hsp, solid_cons_inert (c := (.space, false)) rfl]
        simp only [List.headD_cons]
        rw [ruleJoins_inert _ _ _ _ (.inl rfl)]
        have h3 : ((cls q.1).1 == WB.space) = false := beq_eq_false_iff_ne.2 h2
        have h4 : (WB.space == WB.cr) = false := rfl
        have h5 : (WB.space == WB.zwj) = false := rfl
        have h6 : (WB.space == WB.regional) = false := rfl
        simp [h1, h3, h4, h5, h6]
    show cutWords _ Y ((0x20, [0x20]) :: l) = _
    rw [cutWords, cutWords_restart hj]
    cases hk : cutWords (fun p : Rune × Bytes => cls p.1) [] l with
    | nil => rfl
    | cons g gs => simp [hj]
  | n + 1, Y => by
    have ih := cutWords_blanks hsp hl n (cls 0x20 :: Y)
    rw [List.replicate_succ, List.cons_append, cutWords, ih]
    have hj : joins (cls 0x20 :: Y) ((List.replicate (n + 1) ((0x20, [0x20]) : Rune × Bytes) ++ l).map fun p => cls p.1) = true := by
      rw [List.replicate_succ, List.cons_append, List.map_cons, joins_cons, hsp]
      rfl
    simp only [hj, ↓reduceIte]

theorem wordSegs_blanks (hR : cls.Right) {a b : Bytes} (ha : EndsSolid cls a) (hb : BeginsSolid cls b) (n : Nat) :
    wordSegs cls (a ++ (blanks n ++ b)) = wordSegs cls a ++ blanks n :: wordSegs cls b := by
  have hsp : cls 0x20 = (.space, false) := by rw [hR.latin _ (by decide) (by decide)]; decide +kernel
  have h1 : wordSegs cls (blanks n ++ b) = blanks n :: wordSegs cls b := by
    rw [wordSegs, runeBytes_blanks, cutWords_blanks hsp (fun p hp => hb p.1 (by rw [← runeBytes_fst, List.head?_map, hp]; rfl))]
    rw [List.map_cons, wordSegs]
    congr 1
    induction n with
    | zero => rfl
    | succ n ih => rw [List.replicate_succ, List.flatMap_cons, ih]; rfl
  rw [← h1]
  have he : blanks n ++ b = 0x20 :: (List.replicate n 0x20 ++ b) := by simp [blanks, List.replicate_succ]
  rw [he]
  have hr : runeBytes (a ++ 0x20 :: (List.replicate n 0x20 ++ b)) = runeBytes a ++ runeBytes (0x20 :: (List.replicate n 0x20 ++ b)) := by
    rw [runeBytes_append_ascii a (by decide), runeBytes_ascii_cons (by decide)]
  rcases last_cases (runes a) with h | ⟨z, l, h⟩
  · have : a = [] := by
      cases a with
      | nil => rfl
      | cons x y => rw [runes_cons] at h; cases h
    rw [this]; simp [wordSegs, cutWords, runeBytes, runeBytesAux]
  · refine wordSegs_apart hr (a := l) (b := 0x20) (by rw [h]; simp) (by rw [runes_ascii_cons (by decide)]; rfl) ?_
    rw [hsp]
    refine .right rfl rfl (by simp) (fun hl => absurd hl ?_)
    exact ha l (by rw [h]; simp)

/-! ### tokens -/

/-- A token of spaces. -/
structure Blank (t : Token) : Prop where
  value : ∃ n, t.value = blanks n
  punct : t.punct = false
  space : t.space = true
  lemma_ : t.lemma = false

/-- The same tokens, but for the number of spaces. -/
def Respaced (T T' : List Token) : Prop := List.Forall₂ (fun t t' => t = t' ∨ Blank t ∧ Blank t') T T'

theorem Respaced.refl (T : List Token) : Respaced T T := by
  induction T with
  | nil => exact .nil
  | cons t T ih => exact .cons (.inl rfl) ih

theorem Respaced.append {A A' B B' : List Token} (h : Respaced A A') (h' : Respaced B B') : Respaced (A ++ B) (A' ++ B') :=
  List.rel_append h h'

theorem Respaced.words_eq {A A' : List Token} (h : Respaced A A') {p : Token → Bool} (hp : ∀ t, Blank t → p t = false) :
    A.filter p = A'.filter p := by
  induction h with
  | nil => rfl
  | cons h _ ih =>
    rcases h with rfl | ⟨h1, h2⟩
    · simp only [List.filter_cons, ih]
    · rw [List.filter_cons, List.filter_cons, hp _ h1, hp _ h2]
      exact ih

theorem blanks_runes (n : Nat) : runes (blanks n) = List.replicate (n + 1) 0x20 := by
  induction n with
  | zero => decide +kernel
  | succ n ih =>
    have : blanks (n + 1) = 0x20 :: blanks n := by simp [blanks, List.replicate_succ]
    rw [this, runes_ascii_cons (by decide), ih]
    rfl

theorem Blank.runes {t : Token} (h : Blank t) : ∀ r ∈ runes t.value, r = 0x20 := by
  obtain ⟨n, hn⟩ := h.value
  rw [hn, blanks_runes]
  exact fun r hr => List.eq_of_mem_replicate hr

theorem Blank.not_word {t : Token} (h : Blank t) : ¬ t.IsWord := fun hw => by simp [Token.IsWord, h.space] at hw

/-- The space is among the characters that the filter ignores. -/
theorem Respaced.spell {C : Compare} (hf : C.fold 0x20 = 0x20) (hi : 0x20 ∈ C.ignore) {T T' : List Token} (h : Respaced T T') :
    C.spell T = C.spell T' := by
  have none : ∀ t : Token, Blank t → C.normal (runes t.value) = [] := by
    intro t ht
    rw [Compare.normal, List.filter_eq_nil_iff]
    intro r hr
    obtain ⟨x, hx, rfl⟩ := List.mem_map.1 hr
    rw [ht.runes x hx, hf]
    simpa using hi
  have step : ∀ (t : Token) (T : List Token), C.spell (t :: T) = C.normal (runes t.value) ++ C.spell T := by
    intro t T
    simp [Compare.spell, Compare.normal]
  induction h with
  | nil => rfl
  | cons h _ ih =>
    rw [step, step, ih]
    rcases h with rfl | ⟨h1, h2⟩
    · rfl
    · rw [none _ h1, none _ h2]

theorem Respaced.take {T T' : List Token} (h : Respaced T T') (k : Nat) : Respaced (T.take k) (T'.take k) :=
  List.forall₂_take k h

theorem Respaced.drop {T T' : List Token} (h : Respaced T T') (k : Nat) : Respaced (T.drop k) (T'.drop k) :=
  List.forall₂_drop k h

theorem Respaced.symm {T T' : List Token} (h : Respaced T T') : Respaced T' T := by
  induction h with
  | nil => exact .nil
  | cons h _ ih => exact .cons (h.imp Eq.symm And.symm) ih

theorem Respaced.words {T T' : List Token} (h : Respaced T T') : words T = words T' := by
  unfold Jargon.words
  induction h with
  | nil => rfl
  | cons h _ ih =>
    rcases h with rfl | ⟨h1, h2⟩
    · simp only [List.countP_cons, ih]
    · simp [ih, h1.not_word, h2.not_word]

theorem Respaced.admissible {m k : Nat} {T T' : List Token} (h : Respaced T T') (hk : Admissible m T k) : Admissible m T' k where
  pos := hk.pos
  le := by rw [← h.length_eq]; exact hk.le
  noPunct := by
    have hn := hk.noPunct
    have ht := h.take k
    revert hn
    generalize T.take k = A at ht
    generalize T'.take k = A' at ht
    intro hn
    induction ht with
    | nil => intro t ht; cases ht
    | cons h _ ih =>
      intro t ht
      rcases List.mem_cons.1 ht with rfl | ht
      · rcases h with rfl | ⟨-, h2⟩
        · exact hn _ (by simp)
        · exact h2.punct
      · exact ih (fun t ht => hn t (by simp [ht])) t ht
  limit := by rw [← (h.take _).words]; exact hk.limit

theorem greedy_respaced {C : Compare} {D : Dict} {m : Nat} (hf : C.fold 0x20 = 0x20) (hi : 0x20 ∈ C.ignore) {T out : List Token}
    (h : Greedy C D m T out) : ∀ {T' : List Token}, Respaced T T' → ∃ out', Greedy C D m T' out' ∧ Respaced out out' := by
  induction h with
  | nil =>
    intro T' h
    cases h
    exact ⟨[], .nil, .nil⟩
  | @separator t ts out hw _ ih =>
    intro T' h
    cases h with
    | @cons _ t' _ ts' h1 h2 =>
      obtain ⟨out', g, r⟩ := ih h2
      have hw' : ¬ t'.IsWord := by
        rcases h1 with rfl | ⟨-, h⟩
        · exact hw
        · exact h.not_word
      exact ⟨_, .separator hw' g, .cons h1 r⟩
  | @replace t ts out k c hw hl _ ih =>
    intro T' h
    have h0 := h
    cases h with
    | @cons _ t' _ ts' h1 h2 =>
      obtain rfl : t = t' := h1.resolve_right fun h => h.1.not_word hw
      obtain ⟨out', g, r⟩ := ih (h0.drop k)
      have sp : ∀ j, C.spell ((t :: ts).take j) = C.spell ((t :: ts').take j) := fun j => (h0.take j).spell hf hi
      refine ⟨_, .replace hw ⟨h0.admissible hl.mem, by rw [← sp]; exact hl.isSyn, fun j hj hkj hD => ?_, fun j hj hkj => ?_⟩ g,
        (Respaced.refl _).append r⟩
      · rw [← sp, ← sp]
        exact hl.longest j (h0.symm.admissible hj) hkj (by rw [sp]; exact hD)
      · rw [← sp, ← sp]
        exact hl.fewest j (h0.symm.admissible hj) hkj
  | @word t ts out hw hno _ ih =>
    intro T' h
    have h0 := h
    cases h with
    | @cons _ t' _ ts' h1 h2 =>
      obtain rfl : t = t' := h1.resolve_right fun h => h.1.not_word hw
      obtain ⟨out', g, r⟩ := ih h2
      refine ⟨_, .word hw (fun k hk => ?_) g, .cons (.inl rfl) r⟩
      rw [← (h0.take k).spell hf hi]
      exact hno k (h0.symm.admissible hk)

theorem Respaced.head {f : SigilFilter} (hs : ∀ n, f.sigil ≠ blanks n) {t t' : Token}
    (h : t = t' ∨ Blank t ∧ Blank t') : (t.value = f.sigil ↔ t'.value = f.sigil) ∧ (boundary (some t) = boundary (some t')) := by
  rcases h with rfl | ⟨h1, h2⟩
  · simp
  · obtain ⟨n, hn⟩ := h1.value
    obtain ⟨m, hm⟩ := h2.value
    rw [boundary_some h1.not_word, boundary_some h2.not_word, hn, hm]
    exact ⟨⟨fun h => absurd h.symm (hs n), fun h => absurd h.symm (hs m)⟩, rfl⟩

theorem sigil_respaced {U : Unicode} {f : SigilFilter} (hs : ∀ n, f.sigil ≠ blanks n) (hl : ∀ n, f.legal (blanks n) = false) :
    ∀ {T T' : List Token}, Respaced T T' → ∀ {p p' : Option Token}, boundary p = boundary p' →
      Respaced (sigilActual U f p T .eof).1 (sigilActual U f p' T' .eof).1 := by
  suffices ∀ n (T T' : List Token), T.length = n → Respaced T T' → ∀ {p p' : Option Token}, boundary p = boundary p' →
      Respaced (sigilActual U f p T .eof).1 (sigilActual U f p' T' .eof).1 from fun {_ _} h {_ _} hp => this _ _ _ rfl h hp
  intro n
  induction n using Nat.strongRecOn with
  | ind n ih =>
    intro T T' hn h p p' hp
    cases h with
    | nil => exact .nil
    | @cons c c' T T' h1 h2 =>
      obtain ⟨e1, e2⟩ := Respaced.head hs h1
      cases h2 with
      | nil =>
        simp only [sigilActual, e1, hp]
        split <;> exact .cons h1 .nil
      | @cons l l' T T' h3 h4 =>
        rw [sigilActual, sigilActual]
        simp only [e1, hp]
        have hll : f.legal l.value = f.legal l'.value := by
          rcases h3 with rfl | ⟨h5, h6⟩
          · rfl
          · obtain ⟨n, hn⟩ := h5.value
            obtain ⟨m, hm⟩ := h6.value
            rw [hn, hm, hl, hl]
        split
        · rw [hll]
          split
          · rename_i hleg
            have : l = l' := h3.resolve_right fun h => by
              obtain ⟨n, hn⟩ := h.2.value
              rw [hn, hl] at hleg
              cases hleg
            subst this
            exact .cons (.inl rfl) (ih _ (by simp at hn; omega) T T' rfl h4 rfl)
          · exact .cons h1 (.cons h3 (ih _ (by simp at hn; omega) T T' rfl h4 e2))
        · exact .cons h1 (ih _ (by simp at hn ⊢; omega) (l :: T) (l' :: T') rfl (.cons h3 h4) e2)

/-- What is required of a filter's configuration: that it treats spaces alike, however many there are; that they are not a
sigil or legal after one; and that a synonyms filter ignores spaces. -/
def Builtin.IgnoresBlanks (E : Env) : Builtin → Prop
  | .sigil f => ∀ n, f.sigil ≠ blanks n ∧ f.legal (blanks n) = false
  | .synonyms _ _ ignore => 0x20 ∈ ignore
  | .distinct => False
  | b => (∀ t, Blank t → Makes (b.apply E) [t] .eof [t] .eof) ∨ (∀ t, Blank t → Makes (b.apply E) [t] .eof [] .eof)

theorem Builtin.respaced (hE : E.Lawful) (hU : E.U.LowersLatin) {b : Builtin} (hok : b.OK E) (hp : b.IgnoresBlanks E)
    {T T' : List Token} (h : Respaced T T') :
    ∃ out out', Makes (b.apply E) T .eof out .eof ∧ Makes (b.apply E) T' .eof out' .eof ∧ Respaced out out' := by
  by_cases hb : b.OneByOne
  · obtain ⟨g, hg, -⟩ := Builtin.oneByOne hE hok hb
    refine ⟨_, _, hg T, hg T', ?_⟩
    have one : ∀ t x, Makes (b.apply E) [t] .eof x .eof → g t = x := by
      intro t x hx
      have := hx.unique (hg [t])
      rw [List.flatMap_singleton] at this
      exact this.symm
    have hp : (∀ t, Blank t → g t = [t]) ∨ (∀ t, Blank t → g t = []) := by
      have hp : (∀ t, Blank t → Makes (b.apply E) [t] .eof [t] .eof) ∨ (∀ t, Blank t → Makes (b.apply E) [t] .eof [] .eof) := by
        cases b <;> first | exact hp | exact hb.elim
      exact hp.imp (fun h t ht => one t _ (h t ht)) (fun h t ht => one t _ (h t ht))
    induction h with
    | nil => exact .nil
    | cons h _ ih =>
      rw [List.flatMap_cons, List.flatMap_cons]
      refine Respaced.append ?_ ih
      rcases h with rfl | ⟨h1, h2⟩
      · exact .refl _
      · rcases hp with hp | hp
        · rw [hp _ h1, hp _ h2]; exact .cons (.inr ⟨h1, h2⟩) .nil
        · rw [hp _ h1, hp _ h2]; exact .nil
  · cases b with
    | sigil f => exact ⟨_, _, sigil_makes hok T, sigil_makes hok T', sigil_respaced (fun n => (hp n).1) (fun n => (hp n).2) h rfl⟩
    | distinct => exact hp.elim
    | synonyms m ic ign =>
      have make : ∀ {T out : List Token}, Greedy ⟨E.U, ic, ign⟩ ((Compare.mk E.U ic ign).dict (entries E m))
          (wordLimit (entries E m)) T out → Makes (Builtin.apply E (.synonyms m ic ign)) T .eof out .eof := by
        intro T out hg ts hy
        have := synonyms_yields hE hok hy hg
        rwa [if_pos rfl] at this
      obtain ⟨o, g⟩ := Greedy.total ⟨E.U, ic, ign⟩ ((Compare.mk E.U ic ign).dict (entries E m))
        (wordLimit (entries E m)) T
      have hf : (Compare.mk E.U ic ign).fold 0x20 = 0x20 := by
        cases ic
        · rfl
        · show E.U.toLower 0x20 = 0x20
          rw [hU _ (by decide)]
          decide +kernel
      obtain ⟨o', g', r⟩ := greedy_respaced hf hp g h
      exact ⟨o, o', make g, make g', r⟩
    | _ => exact absurd trivial hb

theorem builtins_respaced (hE : E.Lawful) (hU : E.U.LowersLatin) : ∀ (bs : List Builtin), (∀ b ∈ bs, b.OK E) →
    (∀ b ∈ bs, b.IgnoresBlanks E) → ∀ {T T' : List Token}, Respaced T T' → ∃ out out',
      Makes (fun ts => ts.filter (bs.map (Builtin.apply E))) T .eof out .eof ∧
      Makes (fun ts => ts.filter (bs.map (Builtin.apply E))) T' .eof out' .eof ∧ Respaced out out'
  | [], _, _, T, T', h => ⟨T, T', fun _ h => h, fun _ h => h, h⟩
  | b :: bs, hok, hp, T, T', h => by
    obtain ⟨m, m', h1, h2, h3⟩ := Builtin.respaced hE hU (hok b (by simp)) (hp b (by simp)) h
    obtain ⟨out, out', h4, h5, h6⟩ := builtins_respaced hE hU bs (fun b h => hok b (by simp [h])) (fun b h => hp b (by simp [h])) h3
    exact ⟨out, out', fun ts h => h4 _ (h1 ts h), fun ts h => h5 _ (h2 ts h), h6⟩

theorem blanks_blank (hP : E.U.PunctLatin) (n : Nat) : Blank (mkToken E.U (blanks n) false) := by
  have hf := mkToken_for E.U (blanks n) false
  refine ⟨⟨n, rfl⟩, ?_, hf.space.2 ?_, rfl⟩
  · cases h : (mkToken E.U (blanks n) false).punct with
    | false => rfl
    | true =>
      have := hf.punct.1 h 0x20 (by rw [blanks_runes]; simp)
      rw [hP _ (by decide)] at this
      revert this
      decide +kernel
  · intro r hr
    rw [blanks_runes] at hr
    rw [List.eq_of_mem_replicate hr]
    decide +kernel

/-! ### C142 -/

theorem texts_respaced (hE : E.Lawful) (hF : E.FollowsUax29 cls) (hR : cls.Right) (hU : E.U.LowersLatin) (hP : E.U.PunctLatin)
    {bs : List Builtin} (hok : ∀ b ∈ bs, b.OK E) (hbs : ∀ b ∈ bs, b.IgnoresBlanks E) {a b : Bytes} (ha : EndsSolid cls a)
    (hb : BeginsSolid cls b) {m n : Nat} (h1 : Fits cls (a ++ (blanks m ++ b))) (h2 : Fits cls (a ++ (blanks n ++ b))) :
    ∃ out out', ((tokenize E { data := a ++ (blanks m ++ b) }).filter (bs.map (Builtin.apply E))).Yields out .eof ∧
      ((tokenize E { data := a ++ (blanks n ++ b) }).filter (bs.map (Builtin.apply E))).Yields out' .eof ∧ Respaced out out' := by
  have y1 := tokenize_yields E hE { data := a ++ (blanks m ++ b) }
  have y2 := tokenize_yields E hE { data := a ++ (blanks n ++ b) }
  rw [hF _ h1, wordSegs_blanks hR ha hb, segTokens, List.map_append, List.map_cons] at y1
  rw [hF _ h2, wordSegs_blanks hR ha hb, segTokens, List.map_append, List.map_cons] at y2
  obtain ⟨out, out', h3, h4, h5⟩ := builtins_respaced hE hU bs hok hbs
    ((Respaced.refl ((wordSegs cls a).map fun s => mkToken E.U s false)).append
      (List.Forall₂.cons (Or.inr ⟨blanks_blank hP m, blanks_blank hP n⟩) (Respaced.refl ((wordSegs cls b).map fun s => mkToken E.U s false))))
  exact ⟨out, out', h3 _ y1, h4 _ y2, h5⟩

/-- **C142.** For filters that ignore how many spaces there are: two texts that differ in the number of spaces at some place
have the same tokens, but for tokens that are spaces in both. -/
theorem C142_tokens (hE : E.Lawful) (hF : E.FollowsUax29 cls) (hR : cls.Right) (hU : E.U.LowersLatin) (hP : E.U.PunctLatin)
    {bs : List Builtin} (hok : ∀ b ∈ bs, b.OK E) (hbs : ∀ b ∈ bs, b.IgnoresBlanks E) {a b : Bytes} (ha : EndsSolid cls a)
    (hb : BeginsSolid cls b) {m n : Nat} (h1 : Fits cls (a ++ (blanks m ++ b))) (h2 : Fits cls (a ++ (blanks n ++ b)))
    {out out' : List Token}
    (h : ((tokenize E { data := a ++ (blanks m ++ b) }).filter (bs.map (Builtin.apply E))).Yields out .eof)
    (h' : ((tokenize E { data := a ++ (blanks n ++ b) }).filter (bs.map (Builtin.apply E))).Yields out' .eof) :
    List.Forall₂ (fun t t' => t = t' ∨ ∃ i j, t.value = List.replicate (i + 1) 0x20 ∧ t'.value = List.replicate (j + 1) 0x20 ∧
      t.punct = t'.punct ∧ t.space = t'.space ∧ t.lemma = t'.lemma) out out' := by
  obtain ⟨o, o', y1, y2, r⟩ := texts_respaced hE hF hR hU hP hok hbs ha hb h1 h2
  obtain rfl := (h.unique y1).1
  obtain rfl := (h'.unique y2).1
  refine r.imp fun {t t'} ht => ht.imp id fun ⟨p, q⟩ => ?_
  obtain ⟨i, hi⟩ := p.value
  obtain ⟨j, hj⟩ := q.value
  exact ⟨i, j, hi, hj, p.punct.trans q.punct.symm, p.space.trans q.space.symm, p.lemma_.trans q.lemma_.symm⟩

/-- **C142 (words).** Once only the words are left, or the lemmas, there is no difference at all, whatever filters come
afterwards. -/
theorem C142_words (hE : E.Lawful) (hF : E.FollowsUax29 cls) (hR : cls.Right) (hU : E.U.LowersLatin) (hP : E.U.PunctLatin)
    {bs after : List Builtin} {sel : Builtin} (hsel : sel = .words ∨ sel = .lemmas) (hok : ∀ b ∈ bs, b.OK E)
    (hbs : ∀ b ∈ bs, b.IgnoresBlanks E) (haok : ∀ b ∈ after, b.OK E) {a b : Bytes} (ha : EndsSolid cls a)
    (hb : BeginsSolid cls b) {m n : Nat} (h1 : Fits cls (a ++ (blanks m ++ b))) (h2 : Fits cls (a ++ (blanks n ++ b))) :
    ∃ out, ((tokenize E { data := a ++ (blanks m ++ b) }).filter ((bs ++ sel :: after).map (Builtin.apply E))).Yields out .eof ∧
      ((tokenize E { data := a ++ (blanks n ++ b) }).filter ((bs ++ sel :: after).map (Builtin.apply E))).Yields out .eof := by
  obtain ⟨o, o', y1, y2, r⟩ := texts_respaced hE hF hR hU hP hok hbs ha hb h1 h2
  obtain ⟨p, hp, hmk⟩ : ∃ p : Token → Bool, (∀ t, Blank t → p t = false) ∧
      ∀ T, Makes (sel.apply E) T .eof (T.filter p) .eof := by
    rcases hsel with rfl | rfl
    · exact ⟨fun t => !t.isPunct && !t.isSpace, fun t ht => by simp [Token.isSpace, ht.space], fun T ts hy => where_yields _ hy⟩
    · exact ⟨Token.isLemma, fun t ht => ht.lemma_, fun T ts hy => where_yields _ hy⟩
  obtain ⟨out, -, ho⟩ := C10_pipeline hE after haok (o.filter p) .eof
  have hf : ∀ ts : TokenStream, ts.filter ((bs ++ sel :: after).map (Builtin.apply E)) =
      (sel.apply E (ts.filter (bs.map (Builtin.apply E)))).filter (after.map (Builtin.apply E)) := by
    intro ts
    simp [TokenStream.filter]
  rw [hf, hf]
  refine ⟨out, ho _ (hmk _ _ y1), ?_⟩
  have := hmk _ _ y2
  rw [← r.words_eq hp] at this
  exact ho _ this

/-- **C142 (ready).** All filters that come ready for use are like that, and so are the stemmers, `Words` and `Lemmas`. -/
theorem C142_ready (hE : E.Lawful) (hF : E.FollowsUax29 cls) (hR : cls.Right) (hU : E.U.LowersLatin)
    (hL : E.U.isLetter 0x20 = false) (hN : E.U.isNumber 0x20 = false) :
    (∀ b ∈ readyFilters E, b.OK E ∧ b.IgnoresBlanks E) ∧
      (∀ stem, (Builtin.stemmer stem).OK E → (Builtin.stemmer stem).IgnoresBlanks E) ∧
      (Builtin.words).IgnoresBlanks E ∧ (Builtin.lemmas).IgnoresBlanks E := by
  obtain ⟨-, k1, k2, k3⟩ := C76_scanner_laws hF hR
  have cons : ∀ n, ∃ z, blanks n = 0x20 :: z := fun n => ⟨List.replicate n 0x20, by simp [blanks, List.replicate_succ]⟩
  refine ⟨fun b hb => ?_, fun stem hok => ?_, ?_, ?_⟩
  · simp only [readyFilters, List.mem_cons, List.not_mem_nil, or_false] at hb
    rcases hb with rfl | rfl | rfl | rfl | rfl | rfl
    · refine ⟨trivial, .inl fun t ht ts hy => ?_⟩
      have := asciiFold_yields E.U hy
      obtain ⟨n, hn⟩ := ht.value
      have hf : foldString t.value = (t.value, false) := C17_ascii_unchanged _ (by
        rw [hn]
        intro b hb
        rw [List.eq_of_mem_replicate hb]
        decide)
      simp only [List.map_cons, List.map_nil, foldToken, hf] at this
      exact this
    · refine ⟨k3, .inl fun t ht ts hy => ?_⟩
      have := expandWith_yields hE k3 hy
      obtain ⟨n, hn⟩ := ht.value
      obtain ⟨z, hz⟩ := cons n
      have hno : ∀ z, contractionMappings.lookup (0x20 :: z) = none := by
        intro z
        rw [List.lookup_eq_none_iff]
        intro m hm
        have : ∀ m ∈ contractionMappings, m.1.head? ≠ some 0x20 := by decide +kernel
        have h1 := this m hm
        rw [bne_iff_ne]
        intro he
        rw [← he] at h1
        exact h1 rfl
      have hlow : E.U.lowerString (0x20 :: z) = 0x20 :: E.U.lowerString z := by
        rw [Unicode.lowerString, Unicode.lowerString, runes_ascii_cons (by decide)]
        simp only [List.map_cons]
        rw [hU _ (by decide)]
        rfl
      have he : expansion? E.U contractionMappings t = none := by
        rw [expansion?, hn, hz, hlow, hno, hno]
      simp only [List.flatMap_singleton, expandToken, he] at this
      exact this
    · exact ⟨fun x hx => (k1 x hx).scans, show _ ∈ _ by decide +kernel⟩
    · exact ⟨fun x hx => (k2 x hx).scans, show _ ∈ _ by decide +kernel⟩
    · refine ⟨by simp [Builtin.OK], fun n => ?_⟩
      obtain ⟨z, hz⟩ := cons n
      rw [hz]
      refine ⟨by simp, ?_⟩
      show legalHandleLoop 0 (runes (0x20 :: z)) = false
      rw [runes_ascii_cons (b := 0x20) (by decide) z]
      rfl
    · refine ⟨by simp [Builtin.OK], fun n => ?_⟩
      obtain ⟨z, hz⟩ := cons n
      rw [hz]
      refine ⟨by simp, ?_⟩
      simp only [legalHashtag]
      split
      · have hd : decodeRune (0x20 :: z) = (0x20, 1) := rfl
        rw [hd, hL]
      · have h := runes_ascii_cons (b := 0x20) (by decide) z
        rw [h]
        simp [legalHashtagLoop, hL, hN]
  · refine .inl fun t ht ts hy => ?_
    have := stemmer_yields (U := E.U) (stem := stem) (fun t _ => hok _) hy
    simp only [List.map_cons, List.map_nil, stemToken, ht.not_word, false_and, ↓reduceIte] at this
    exact this
  · refine .inr fun t ht ts hy => ?_
    have : (ts.words).Yields _ .eof := where_yields (fun t => !t.isPunct && !t.isSpace) hy
    simp only [Token.isSpace, ht.space, List.filter_cons, List.filter_nil, Bool.not_true, Bool.and_false, Bool.false_eq_true, ↓reduceIte] at this
    exact this
  · refine .inr fun t ht ts hy => ?_
    have : (ts.lemmas).Yields _ .eof := where_yields Token.isLemma hy
    simp only [Token.isLemma, ht.lemma_, List.filter_cons, List.filter_nil, Bool.false_eq_true, ↓reduceIte] at this
    exact this

/-- **C142 (program).** With `-lemmas` the program writes the same for texts that differ in the number of spaces at some
place, whatever other filters are given, if `-distinct` does not come before it. -/
theorem C142_program [HtmlReader] (hE : E.Lawful) (hF : E.FollowsUax29 cls) (hR : cls.Right) (hU : E.U.LowersLatin)
    (hP : E.U.PunctLatin) (hL : E.U.isLetter 0x20 = false) (hN : E.U.isNumber 0x20 = false) {ω : Type}
    {w : Place → Writer ω} {W : World (ω × Bytes)} {input : Bytes} (hW : Piped w W input) (hWE : W.E = E)
    (hst : GoodStem (W.snowball.of .english)) {fl fl' : List FilterFlag} (hd : .distinct ∉ fl)
    {a b : Bytes} (ha : EndsSolid cls a) (hb : BeginsSolid cls b) {m n : Nat} (h1 : Fits cls (a ++ (blanks m ++ b)))
    (h2 : Fits cls (a ++ (blanks n ++ b))) :
    ∃ out, WritesFor W (fl ++ .lemmas :: fl') (a ++ (blanks m ++ b)) out ∧
      WritesFor W (fl ++ .lemmas :: fl') (a ++ (blanks n ++ b)) out := by
  obtain ⟨rd, rs, -, rl⟩ := C142_ready hE hF hR hU hL hN
  have hok : ∀ f : FilterFlag, (f.filter W.snowball .english).OK E := flag_ok hF hR hst
  have hall : ∀ f ∈ fl, (f.filter W.snowball .english).IgnoresBlanks E := by
    intro f hf
    cases f with
    | distinct => exact absurd hf hd
    | lemmas => exact rl
    | ascii => exact (rd .asciiFold (by simp [readyFilters])).2
    | contractions => exact (rd (.contractions contractionMappings) (by simp [readyFilters])).2
    | stack => exact (rd (.synonyms stackOverflowMappings true stackOverflowIgnore) (by simp [readyFilters])).2
    | stem => exact rs _ (hok .stem)
  obtain ⟨o, h3, h4⟩ := C142_words hE hF hR hU hP (sel := .lemmas) (.inr rfl)
    (bs := fl.map fun f => f.filter W.snowball .english) (after := fl'.map fun f => f.filter W.snowball .english)
    (fun b hb => by obtain ⟨f, -, rfl⟩ := List.mem_map.1 hb; exact hok f)
    (fun b hb => by obtain ⟨f, hf, rfl⟩ := List.mem_map.1 hb; exact hall f hf)
    (fun b hb => by obtain ⟨f, -, rfl⟩ := List.mem_map.1 hb; exact hok f) ha hb h1 h2
  have hmap : ((fl.map fun f => f.filter W.snowball .english) ++ .lemmas :: (fl'.map fun f => f.filter W.snowball .english)).map
      (Builtin.apply E) = (fl ++ .lemmas :: fl').map fun f => (f.filter W.snowball .english).apply E := by
    rw [List.map_append, List.map_cons, List.map_append, List.map_cons, List.map_map, List.map_map]
    rfl
  rw [hmap] at h3 h4
  have hPi : ∀ text, Piped w { W with stdin := { data := text } } text := fun text =>
    ⟨hW.writes, hW.writer, hW.html, hW.pipe, rfl⟩
  have hout : ∀ {text : Bytes} {o : List Token}, ((tokenize E { data := text }).filter
      ((fl ++ .lemmas :: fl').map fun f => (f.filter W.snowball .english).apply E)).Yields o .eof →
      WritesFor W (fl ++ .lemmas :: fl') text (o.flatMap fun t => t.value ++ [0x0A]) := by
    intro text o h
    subst hWE
    exact (C95_outputs (hPi text) (html := false) (fl := fl ++ .lemmas :: fl') (toks := o) h).1
  exact ⟨_, hout h3, hout h4⟩

/-- Non-vacuity: "Ruby on Rails" and "Ruby   on Rails", with all filters that come ready for use, and `Words`. -/
example : ∃ out, ((tokenize uaxEnv { data := str "Ruby" ++ (blanks 0 ++ str "on Rails") }).filter
      ((readyFilters uaxEnv ++ Builtin.words :: []).map (Builtin.apply uaxEnv))).Yields out .eof ∧
    ((tokenize uaxEnv { data := str "Ruby" ++ (blanks 2 ++ str "on Rails") }).filter
      ((readyFilters uaxEnv ++ Builtin.words :: []).map (Builtin.apply uaxEnv))).Yields out .eof := by
  have rd := (C142_ready uaxEnv_lawful uaxEnv_follows uaxTable_right uaxEnv_lowers (by decide +kernel) (by decide +kernel)).1
  refine C142_words uaxEnv_lawful uaxEnv_follows uaxTable_right uaxEnv_lowers uaxEnv_punct (.inl rfl) (fun b hb => (rd b hb).1)
    (fun b hb => (rd b hb).2) (by simp) ?_ ?_ (.inl (by decide +kernel)) (.inl (by decide +kernel))
  · intro r hr
    have h : (runes (str "Ruby")).getLast? = some 0x79 := by decide +kernel
    rw [h] at hr
    cases hr
    decide +kernel
  · intro r hr
    have h : (runes (str "on Rails")).head? = some 0x6F := by decide +kernel
    rw [h] at hr
    cases hr
    decide +kernel

/-- Non-vacuity: what the program writes for "Ruby on Rails" and "Ruby   on Rails" with `-stack -lemmas`. -/
example [HtmlReader] : ∃ out,
    WritesFor (pipeWorld uaxEnv []) ([.stack] ++ .lemmas :: []) (str "Ruby" ++ (blanks 0 ++ str "on Rails")) out ∧
    WritesFor (pipeWorld uaxEnv []) ([.stack] ++ .lemmas :: []) (str "Ruby" ++ (blanks 2 ++ str "on Rails")) out := by
  refine C142_program (E := uaxEnv) uaxEnv_lawful uaxEnv_follows uaxTable_right uaxEnv_lowers uaxEnv_punct (by decide +kernel)
    (by decide +kernel) (pipeWorld_piped uaxEnv []) rfl (fun _ => ⟨id, id⟩) (by simp) ?_ ?_ (.inl (by decide +kernel))
    (.inl (by decide +kernel))
  · intro r hr
    have h : (runes (str "Ruby")).getLast? = some 0x79 := by decide +kernel
    rw [h] at hr
    cases hr
    decide +kernel
  · intro r hr
    have h : (runes (str "on Rails")).head? = some 0x6F := by decide +kernel
    rw [h] at hr
    cases hr
    decide +kernel

end Jargon
