import Verif.Proofs.Filters
import Verif.Spec.Builtin

/-! C16, C20–C23: mapper, stemmer, norm, stopwords, contractions. -/

namespace Jargon

/-! ### C16 -/

/-- Composition of Go functions on tokens, `fn(...f1(t))`. -/
def composed (funcs : List TokenFunc) (t : Option Token) : Go (Option Token) :=
  funcs.foldl (fun acc f => acc >>= f) (Go.ret t)

theorem foldl_bind (funcs : List TokenFunc) (x : Go (Option Token)) :
    funcs.foldl (fun acc f => acc >>= f) x = x >>= applyFuncs funcs := by
  induction funcs generalizing x with
  | nil => rcases Go.cases x with ⟨v, rfl⟩ | ⟨p, rfl⟩ | rfl <;> simp [applyFuncs]
  | cons f fs ih =>
    rw [List.foldl_cons, ih]
    rcases Go.cases x with ⟨v, rfl⟩ | ⟨p, rfl⟩ | rfl <;> simp [applyFuncs]

theorem composed_eq (funcs : List TokenFunc) (t : Option Token) :
    composed funcs t = applyFuncs funcs t := by
  simp [composed, foldl_bind]

/-- **C16 (one-to-one).** -/
theorem C16_mapper_one_to_one {ts : TokenStream} {toks : List Token} {e : End}
    (funcs : List TokenFunc) (f : Token → Token)
    (hf : ∀ t ∈ toks, composed funcs (some t) = Go.ret (some (f t))) (h : ts.Yields toks e) :
    (mapper funcs ts).Yields (toks.map f) e :=
  mapper_yields (fun t ht => by rw [← composed_eq]; exact hf t ht) h

/-- **C16 (nil result).** A nil result looks like the end of the stream, but it is not the end: the
calls after it deliver the rest. -/
theorem C16_mapper_nil {ts : TokenStream} {a b : List Token} {t : Token} {e : End}
    (funcs : List TokenFunc) (f : Token → Token)
    (hf : ∀ t ∈ a ++ b, composed funcs (some t) = Go.ret (some (f t)))
    (ht : composed funcs (some t) = Go.ret none) (h : ts.Yields (a ++ t :: b) e) :
    ∃ s1 s2, Steps (mapper funcs ts).nextFn (mapper funcs ts).st (a.map f) s1 ∧
      (mapper funcs ts).nextFn s1 = Go.ret ({ tok := none, err := none }, s2) ∧
      Emits (mapper funcs ts).nextFn (b.map f) e s2 := by
  obtain ⟨x, h1, h2⟩ := Emits.split h
  rw [Emits.cons] at h2
  obtain ⟨y, h3, h4⟩ := h2
  have hs := mapper_steps (funcs := funcs) (f := f)
    (fun t ht => by rw [← composed_eq]; exact hf t (by simp [ht])) h1
  have hb := mapper_emits (funcs := funcs) (f := f)
    (fun t ht => by rw [← composed_eq]; exact hf t (by simp [ht])) h4
  -- lift to the wrapping stream
  have lift : ∀ (l : List Token) (s s' : TS ts.σ) (w : TS (TS ts.σ)), w.inner = s →
      Steps (mapperNext ts.call funcs) s l s' →
      ∃ w', Steps (mapper funcs ts).nextFn w l w' ∧ w'.inner = s' := by
    intro l
    induction l with
    | nil => rintro s s' w rfl hs; exact ⟨w, rfl, hs⟩
    | cons u us ih =>
      rintro s s' w rfl ⟨z, hz, hs⟩
      obtain ⟨w', h5, h6⟩ := ih z s' ⟨z, some u, none⟩ rfl hs
      exact ⟨w', ⟨_, TS.next_of hz, h5⟩, h6⟩
  obtain ⟨w, h5, h6⟩ := lift _ _ _ (mapper funcs ts).st rfl hs
  refine ⟨w, ⟨y, none, none⟩, h5, ?_, Emits.wrap hb⟩
  refine TS.next_of (r := { tok := none, err := none }) ?_
  show mapperNext ts.call funcs w.inner = _
  rw [h6]
  have ht' : applyFuncs funcs (some t) = Go.ret none := by rw [← composed_eq]; exact ht
  have h3' : TS.next ts.call x = Go.ret ({ tok := some t, err := none }, y) := h3
  simp [mapperNext, h3', ht']
  rfl

example :
    let drop : TokenFunc := fun t => match t with
      | some t => Go.ret (if t.space then none else some t)
      | none => Go.ret none
    let w : Token := ⟨[0x61], false, false, false⟩
    let s : Token := ⟨[0x20], false, true, false⟩
    composed [drop, drop] (some w) = Go.ret (some w) ∧ composed [drop] (some s) = Go.ret none :=
  ⟨rfl, rfl⟩

/-! ### C20 -/

/-- What a stemmer should make of a token. -/
def stemToken (U : Unicode) (stem : Bytes → Bytes) (t : Token) : Token :=
  if t.IsWord ∧ stem t.value ≠ t.value then mkToken U (stem t.value) true else t

theorem stemFunc_eq (U : Unicode) (stem : Bytes → Bytes) (t : Token)
    (h : stem t.value = [] → t.value = []) :
    stemFunc U stem (some t) = Go.ret (some (stemToken U stem t)) := by
  unfold stemFunc stemToken Token.IsWord
  simp only [Token.isPunct, Token.isSpace, Token.string]
  by_cases hv : stem t.value = t.value
  · simp [hv]
  · have hne : stem t.value ≠ [] := fun h0 => hv (h0.trans (h h0).symm)
    by_cases hp : t.punct = true
    · simp [hp]
    · by_cases hs : t.space = true
      · simp [hs]
      · simp [hp, hs, hv, newToken_some hne]

theorem stemmer_yields {U : Unicode} {stem : Bytes → Bytes} {ts : TokenStream} {toks : List Token}
    {e : End} (hstem : ∀ t ∈ toks, stem t.value = [] → t.value = []) (h : ts.Yields toks e) :
    (stemmer U stem ts).Yields (toks.map (stemToken U stem)) e :=
  mapper_yields (fun t ht => by rw [applyFuncs_one, stemFunc_eq U stem t (hstem t ht)]) h

/-- **C20.** For a stem function that does not produce the empty string from a word: punctuation and
space, and words equal to their stem, pass untouched; any other word becomes the lemma token of its
stem. -/
theorem C20_stemmer {ts : TokenStream} {toks : List Token} {e : End} (U : Unicode)
    (stem : Bytes → Bytes) (hstem : ∀ s, stem s = [] → s = []) (h : ts.Yields toks e) :
    ∃ f : Token → Token, (stemmer U stem ts).Yields (toks.map f) e ∧
      ∀ t, ((t.punct = true ∨ t.space = true ∨ stem t.value = t.value) → f t = t) ∧
        (t.punct = false → t.space = false → stem t.value ≠ t.value →
          TokenFor U (stem t.value) true (f t)) := by
  refine ⟨stemToken U stem, stemmer_yields (fun t _ => hstem _) h, fun t => ⟨?_, ?_⟩⟩
  · rintro (h | h | h) <;> simp [stemToken, Token.IsWord, h]
  · intro h1 h2 h3
    simp only [stemToken, Token.IsWord, h1, h2, h3, and_self, ne_eq, not_false_eq_true, ↓reduceIte]
    exact mkToken_for _ _ _

example :
    let stem : Bytes → Bytes := fun s => if s = str "cats" then str "cat" else s
    (∀ s, stem s = [] → s = []) ∧
    stemToken asciiUnicode stem ⟨str "cats", false, false, false⟩ =
      ⟨str "cat", false, false, true⟩ := by
  refine ⟨fun s => ?_, by decide +kernel⟩
  simp only
  split
  · intro h; exact absurd h (by decide +kernel)
  · exact id

/-! ### C21 -/

/-- What a normalization filter should make of a token. -/
def normToken (U : Unicode) (N : NormForm) (t : Token) : Token :=
  if N.isNormalString t.value then t else mkToken U (N.string t.value) true

theorem normFunc_eq (U : Unicode) {N : NormForm} (hN : N.Lawful) (t : Token) :
    normFunc U N (some t) = Go.ret (some (normToken U N t)) := by
  unfold normFunc normToken
  by_cases h : N.isNormalString t.value = true
  · have h' : N.isNormalString t.string = true := h
    simp only [h, h', ↓reduceIte]
  · have h' : ¬ N.isNormalString t.string = true := h
    have hne : N.string t.string ≠ [] := by
      intro h0
      rw [hN.nonempty _ h0, hN.empty] at h'
      exact h' rfl
    simp only [h, h', newToken_some hne]
    rfl

theorem norm_yields {U : Unicode} {N : NormForm} (hN : N.Lawful) {ts : TokenStream}
    {toks : List Token} {e : End} (h : ts.Yields toks e) :
    (normFilter U N ts).Yields (toks.map (normToken U N)) e :=
  mapper_yields (fun t _ => by rw [applyFuncs_one, normFunc_eq U hN t]) h

/-- **C21.** -/
theorem C21_norm {ts : TokenStream} {toks : List Token} {e : End} (U : Unicode) (N : NormForm)
    (hN : N.Lawful) (h : ts.Yields toks e) :
    ∃ f : Token → Token, (normFilter U N ts).Yields (toks.map f) e ∧
      (∀ t, N.isNormalString (f t).value = true) ∧
      (∀ t, N.isNormalString t.value = true → f t = t) ∧
      (∀ t, N.isNormalString t.value = false → TokenFor U (N.string t.value) true (f t)) ∧
      (normFilter U N (normFilter U N ts)).Yields (toks.map f) e := by
  have hn : ∀ t, N.isNormalString (normToken U N t).value = true := by
    intro t
    unfold normToken
    split
    · assumption
    · exact hN.normal _
  refine ⟨normToken U N, norm_yields hN h, hn, ?_, ?_, ?_⟩
  · intro t ht; simp [normToken, ht]
  · intro t ht; simp only [normToken, ht, Bool.false_eq_true, ↓reduceIte]; exact mkToken_for _ _ _
  · have := norm_yields (U := U) hN (norm_yields (U := U) hN h)
    rw [List.map_map] at this
    have heq : (normToken U N) ∘ (normToken U N) = normToken U N := by
      funext t
      show normToken U N (normToken U N t) = _
      rw [normToken, if_pos (hn t)]
    rwa [heq] at this

example : ∃ N : NormForm, N.Lawful ∧ N.isNormalString (str "é") = false :=
  ⟨⟨fun s => decide (s = [] ∨ s = [0x65]), fun _ => [0x65]⟩,
    ⟨fun _ => rfl, rfl, fun _ h => absurd h (by simp)⟩, by decide +kernel⟩

/-! ### C22 -/

/-- **C22 (case-sensitive).** -/
theorem C22_stopwords_case_sensitive {ts : TokenStream} {toks : List Token} {e : End} (U : Unicode)
    (words : List Bytes) (h : ts.Yields toks e) :
    (stopwords U words false ts).Yields (toks.filter fun t => decide (t.value ∉ words)) e := by
  have := stop_yields (U := U) (words := words) (ic := false) h
  have heq : (fun t => !isStop U words false t) = fun t : Token => decide (t.value ∉ words) := by
    funext t; simp [isStop]
  rwa [heq] at this

/-- **C22 (case-insensitive).** -/
theorem C22_stopwords_ignore_case {ts : TokenStream} {toks : List Token} {e : End} (U : Unicode)
    (words : List Bytes) (h : ts.Yields toks e) :
    (stopwords U words true ts).Yields
      (toks.filter fun t => decide (∀ w ∈ words, U.lowerString w ≠ U.lowerString t.value)) e := by
  have := stop_yields (U := U) (words := words) (ic := true) h
  have heq : (fun t => !isStop U words true t) =
      fun t : Token => decide (∀ w ∈ words, U.lowerString w ≠ U.lowerString t.value) := by
    funext t
    simp only [isStop, ↓reduceIte, ne_eq]
    rw [← decide_not]
    congr 1
    simp
  rwa [heq] at this

/-- **C22 (idempotent).** -/
theorem C22_stopwords_idempotent {ts : TokenStream} {toks : List Token} {e : End} (U : Unicode)
    (words : List Bytes) (ic : Bool) (h : ts.Yields toks e) :
    ∃ out, (stopwords U words ic ts).Yields out e ∧
      (stopwords U words ic (stopwords U words ic ts)).Yields out e := by
  refine ⟨_, stop_yields h, ?_⟩
  have := stop_yields (U := U) (words := words) (ic := ic)
    (stop_yields (U := U) (words := words) (ic := ic) h)
  rwa [List.filter_filter, show (fun a => !isStop U words ic a && !isStop U words ic a) =
    fun a => !isStop U words ic a from funext fun a => Bool.and_self _] at this

example : ∃ t u : Token, asciiUnicode.lowerString t.value = asciiUnicode.lowerString (str "the") ∧
    t.value ≠ str "the" ∧ asciiUnicode.lowerString u.value ≠ asciiUnicode.lowerString (str "the") :=
  ⟨⟨str "THE", false, false, false⟩, ⟨str "cat", false, false, false⟩, by decide +kernel⟩

/-! ### C23 -/

/-- **C23.** For a table whose expansions the scanner gets through: each token is replaced, in place,
by the tokens of its expansion if it has one — by its exact text, or else by its lower case — and is
passed through identically otherwise. The text changes only there. -/
theorem C23_contractions {ts : TokenStream} {toks : List Token} {e : End} (E : Env) (hE : E.Lawful)
    (m : StringMap) (hm : GoodTable E m) (h : ts.Yields toks e) :
    ∃ f : Token → List Token, (expandWith E m ts).Yields (toks.flatMap f) e ∧
      ∀ t,
        (∀ x, m.lookup t.value = some x →
          (tokenizeString E x).Yields (f t) .eof ∧ text (f t) = x) ∧
        (∀ x, m.lookup t.value = none → m.lookup (E.U.lowerString t.value) = some x →
          (tokenizeString E x).Yields (f t) .eof ∧ text (f t) = x) ∧
        (m.lookup t.value = none → m.lookup (E.U.lowerString t.value) = none → f t = [t]) := by
  refine ⟨expandToken E m, expandWith_yields hE hm h, fun t => ⟨?_, ?_, ?_⟩⟩
  · intro x hx
    have hs := hm.scans _ _ (lookup_mem hx)
    simp only [expandToken, expansion?, hx]
    exact ⟨stringTokens_yields hE hs, text_stringTokens hE hs⟩
  · intro x h0 hx
    have hs := hm.scans _ _ (lookup_mem hx)
    simp only [expandToken, expansion?, h0, hx]
    exact ⟨stringTokens_yields hE hs, text_stringTokens hE hs⟩
  · intro h0 h1
    simp only [expandToken, expansion?, h0, h1]

example : GoodTable sampleEnv [(str "can't", str "can not")] ∧
    expandToken sampleEnv [(str "can't", str "can not")] ⟨str "CAN'T", false, false, false⟩ =
      [⟨str "can", false, false, false⟩, ⟨str " ", false, true, false⟩,
       ⟨str "not", false, false, false⟩] :=
  ⟨⟨fun _ _ _ => rfl, fun k x h => by
      simp only [List.mem_singleton, Prod.mk.injEq] at h
      rw [h.2]; decide +kernel⟩, by decide +kernel⟩

/-- **C23 (failure).** If the scanner does not get through an expansion, the tokens before it are
delivered as usual and then its error is reported; no text is lost silently. -/
theorem C23_failure {ts : TokenStream} {pre post out : List Token} {t : Token} {e : End} (E : Env)
    (hE : E.Lawful) (m : StringMap) {x : Bytes} {err : Err} (h : ts.Yields (pre ++ t :: post) e)
    (hpre : ∀ t ∈ pre, m.lookup t.value = none ∧ m.lookup (E.U.lowerString t.value) = none)
    (hx : m.lookup t.value = some x ∨
      m.lookup t.value = none ∧ m.lookup (E.U.lowerString t.value) = some x)
    (hf : (tokenizeString E x).Yields out (.fail err)) :
    (expandWith E m ts).Yields pre (.fail err) := by
  have h0 : ∀ t ∈ pre, expansion? E.U m t = none := fun t ht => by
    simp [expansion?, hpre t ht]
  have hx' : expansion? E.U m t = some x := by
    rcases hx with hx | ⟨h1, hx⟩
    · simp [expansion?, hx]
    · simp [expansion?, h1, hx]
  have := expandWith_fails hE (m := m) (fun t ht x hx => by rw [h0 t ht] at hx; cases hx) hx' hf h
  rwa [show pre.flatMap (expandToken E m) = pre from by
    clear h this hpre
    induction pre with
    | nil => rfl
    | cons a as ih =>
      rw [List.flatMap_cons, ih fun t ht => h0 t (by simp [ht])]
      simp [expandToken, h0 a (by simp)]] at this

/-- A scanner that fails on texts of more than five bytes. -/
def shortEnv : Env where
  U := asciiUnicode
  scan r := match r.err with
    | some e => ([], some e)
    | none => if r.data.length ≤ 5 then (sampleEnv.scan r).1 |> (·, none) else ([], some (.ext 7))

theorem shortEnv_lawful : shortEnv.Lawful where
  nonempty r seg h := by
    simp only [shortEnv] at h
    split at h
    · cases h
    · split at h
      · exact sampleEnv_lawful.nonempty _ _ h
      · cases h
  complete r h := by
    simp only [shortEnv] at h ⊢
    split at h
    · cases h
    · rename_i he
      split at h
      · rename_i hl
        have := sampleEnv_lawful.complete r (by simpa [sampleEnv] using he)
        simp [he, hl, this.2]
      · cases h
  sound r := by
    simp only [shortEnv]
    split
    · exact List.nil_prefix
    · split
      · exact sampleEnv_lawful.sound r
      · exact List.nil_prefix

example : ∃ out, (tokenizeString shortEnv (str "can not")).Yields out (.fail (.ext 7)) := by
  have h := tokenize_yields shortEnv shortEnv_lawful { data := str "can not" }
  rw [show (shortEnv.scan { data := str "can not" }).2 = some (.ext 7) from by decide +kernel] at h
  exact ⟨_, h⟩

end Jargon
