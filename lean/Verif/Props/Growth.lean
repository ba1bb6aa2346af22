import Verif.Props.Pipeline
import Verif.Props.Cost
import Verif.Props.Contractions
import Verif.Props.Tables
import Verif.Proofs.Strings

/-! How much longer than its input the output of a pipeline can be: C116. -/

namespace Jargon

/-- The length of the text of some tokens. -/
def textSize (toks : List Token) : Nat := (toks.flatMap Token.value).length

/-- The length of the longest text a table maps to, and 1 at least. -/
def longestValue (m : StringMap) : Nat := (m.map fun kv => kv.2.length).foldl max 1

/-- The most tokens a filter can make of one: one, except for contractions. -/
def Builtin.tokenFactor : Builtin → Nat
  | .contractions m => longestValue m
  | _ => 1

/-- The most bytes a filter can make of one byte, `c` being the most that a stemmer or a normalization can
make of it. -/
def Builtin.byteFactor (c : Nat) : Builtin → Nat
  | .stemmer _ => max 1 c
  | .norm _ => max 1 c
  | .asciiFold => 3
  | .contractions m => longestValue m
  | .synonyms m _ _ => longestValue m
  | _ => 1

/-- What is assumed of the third-party stemmers and normalizations: that each makes at most `c` bytes
of one. -/
def Builtin.GrowsBy (c : Nat) : Builtin → Prop
  | .stemmer stem => ∀ s, (stem s).length ≤ c * s.length
  | .norm form => ∀ s, (form.string s).length ≤ c * s.length
  | _ => True

/-! ### Sizes -/

@[simp] theorem textSize_nil : textSize [] = 0 := rfl

@[simp] theorem textSize_cons (t : Token) (toks : List Token) :
    textSize (t :: toks) = t.value.length + textSize toks := by
  simp [textSize]

@[simp] theorem textSize_append (a b : List Token) : textSize (a ++ b) = textSize a + textSize b := by
  simp [textSize]

theorem textSize_sublist {a b : List Token} (h : a.Sublist b) : textSize a ≤ textSize b := by
  induction h with
  | slnil => simp
  | cons _ _ ih => simp only [textSize_cons]; omega
  | cons_cons _ _ ih => simp only [textSize_cons]; omega

theorem textSize_map {f : Token → Token} {K : Nat} (h : ∀ t, (f t).value.length ≤ K * t.value.length)
    (toks : List Token) : textSize (toks.map f) ≤ K * textSize toks := by
  induction toks with
  | nil => simp
  | cons t ts ih =>
    have := h t
    simp only [List.map_cons, textSize_cons, Nat.mul_add]
    omega

theorem le_longest {m : StringMap} : 1 ≤ longestValue m ∧ ∀ kv ∈ m, kv.2.length ≤ longestValue m := by
  have key : ∀ (l : List Nat) (a : Nat), a ≤ l.foldl max a ∧ ∀ x ∈ l, x ≤ l.foldl max a := by
    intro l
    induction l with
    | nil => intro a; simp
    | cons b l ih =>
      intro a
      have := ih (max a b)
      rw [List.foldl_cons]
      refine ⟨by omega, ?_⟩
      intro x hx
      rcases List.mem_cons.mp hx with rfl | hx
      · omega
      · exact this.2 x hx
  refine ⟨(key _ 1).1, fun kv hkv => (key _ 1).2 _ (List.mem_map_of_mem (f := fun kv => kv.2.length) hkv)⟩

theorem le_mul_one {a b c : Nat} (h : a ≤ b) (hc : 1 ≤ c) : a ≤ c * b :=
  Nat.le_trans h (Nat.le_mul_of_pos_left b hc)

/-! ### Folding -/

theorem foldCases_short : ∀ c ∈ foldCases, c.out.length ≤ 6 ∧ runeError ∉ c.keys := by
  have h : foldCases.all (fun c => decide (c.out.length ≤ 6 ∧ runeError ∉ c.keys)) = true := by
    decide +kernel
  intro c hc
  simpa using List.all_eq_true.mp h c hc

theorem encodeRunes_small {o : List Rune} (h : ∀ x ∈ o, x < 0x80) : (encodeRunes o).length = o.length := by
  induction o with
  | nil => rfl
  | cons r o ih =>
    have h1 : r < 0x80 := h r (by simp)
    have h2 := ih fun x hx => h x (by simp [hx])
    have h3 : encodeRune r = [UInt8.ofNat r] := by
      rw [encodeRune_valid (valid_of_ascii h1), encodeValid, if_pos h1]
    have : encodeRunes (r :: o) = encodeRune r ++ encodeRunes o := by simp [encodeRunes]
    rw [this, h3]
    simp only [List.cons_append, List.nil_append, List.length_cons, h2]

/-- What becomes of the first rune. -/
theorem folded_short (b : UInt8) (t : Bytes) :
    (encodeRunes (folded (decodeRune (b :: t)).1)).length ≤ 3 * (decodeRune (b :: t)).2 := by
  have hp := decodeRune_width_pos b t
  rcases decodeRune_encoded b t with h | ⟨-, h⟩
  · rw [h]
    have : equivalent runeError = none := by
      cases he : equivalent runeError with
      | none => rfl
      | some o =>
        rw [← foldSwitch_eq, Option.map_eq_some_iff] at he
        obtain ⟨c, hc, rfl⟩ := he
        obtain ⟨h1, h2⟩ := foldSwitch_mem hc
        exact absurd h2 (foldCases_short c h1).2
    rw [folded, this]
    decide
  · generalize hr : (decodeRune (b :: t)).1 = r at *
    have hv : ValidRune r := hr ▸ decodeRune_valid _
    rw [h] at hp ⊢
    unfold folded
    cases he : equivalent r with
    | none =>
      have : encodeRunes [r] = encodeRune r := by simp [encodeRunes]
      rw [Option.getD_none, this, encodeRune_valid hv]
      omega
    | some o =>
      obtain ⟨h1, -, h3⟩ := equivalent_sound he
      rw [Option.getD_some, encodeRunes_small h3]
      have h2 : 2 ≤ (encodeValid r).length := by
        unfold encodeValid
        rw [if_neg (by omega)]
        split
        · simp
        · split <;> simp
      rw [← foldSwitch_eq, Option.map_eq_some_iff] at he
      obtain ⟨c, hc, rfl⟩ := he
      have := (foldCases_short c (foldSwitch_mem hc).1).1
      omega

theorem foldString_length (s : Bytes) : (foldString s).1.length ≤ 3 * s.length := by
  have key : ∀ n (s : Bytes), s.length ≤ n → (encodeRunes ((runes s).flatMap folded)).length ≤ 3 * s.length := by
    intro n
    induction n with
    | zero =>
      intro s hs
      have : s = [] := List.length_eq_zero_iff.mp (by omega)
      subst this; simp [encodeRunes]
    | succ n ih =>
      intro s hs
      cases s with
      | nil => simp [encodeRunes]
      | cons b t =>
        have h1 := folded_short b t
        have h2 := decodeRune_width_pos b t
        have h3 := decodeRune_width_le (b :: t)
        have h4 := ih ((b :: t).drop (decodeRune (b :: t)).2) (by rw [List.length_drop]; omega)
        rw [runes_cons, List.flatMap_cons, encodeRunes_append, List.length_append]
        rw [List.length_drop] at h4
        omega
  rw [foldString_eq]
  split
  · exact key _ s (Nat.le_refl _)
  · simp only; omega

/-! ### The filters -/

theorem textSize_segTokens (U : Unicode) (segs : List Bytes) :
    textSize (segTokens U segs) = segs.flatten.length := by
  induction segs with
  | nil => rfl
  | cons a as ih =>
    have : segTokens U (a :: as) = mkToken U a false :: segTokens U as := rfl
    rw [this, textSize_cons, ih]
    simp [mkToken]

theorem expandToken_size {E : Env} (hE : E.Lawful) (m : StringMap) (t : Token) :
    (expandToken E m t).length ≤ longestValue m ∧
      (t.value ≠ [] → textSize (expandToken E m t) ≤ longestValue m * t.value.length) := by
  have hm := le_longest (m := m)
  unfold expandToken
  cases hx : expansion? E.U m t with
  | none =>
    refine ⟨hm.1, fun _ => ?_⟩
    simp only [textSize_cons, textSize_nil, Nat.add_zero]
    exact Nat.le_mul_of_pos_left _ hm.1
  | some x =>
    have hk : ∃ k, (k, x) ∈ m := by
      unfold expansion? at hx
      cases h1 : m.lookup t.value with
      | some y => rw [h1] at hx; exact ⟨_, lookup_mem (h1.trans hx)⟩
      | none => rw [h1] at hx; exact ⟨_, lookup_mem hx⟩
    obtain ⟨k, hk⟩ := hk
    have h1 := hm.2 _ hk
    have h2 := (hE.sound { data := x }).length_le
    have h3 := segments_le (hE.nonempty { data := x })
    simp only at h1 h2
    refine ⟨?_, fun hne => ?_⟩
    · simp only [stringTokens, segTokens, List.length_map]
      omega
    · simp only [stringTokens, textSize_segTokens]
      have := List.length_pos_iff.mpr hne
      exact Nat.le_trans (Nat.le_trans h2 h1) (Nat.le_mul_of_pos_right _ this)

theorem sigil_size (U : Unicode) (f : SigilFilter) (p : Option Token) (toks : List Token) (e : End) :
    (sigilActual U f p toks e).1.length ≤ toks.length ∧
      textSize (sigilActual U f p toks e).1 ≤ textSize toks := by
  fun_induction sigilActual U f p toks e <;> (simp_all [mkToken] <;> omega)

theorem greedy_size {C : Compare} {D : Dict} {w K : Nat} (hK : 1 ≤ K) (hD : ∀ q c, D q = some c → c.length ≤ K)
    {toks out : List Token} (h : Greedy C D w toks out) :
    out.length ≤ toks.length ∧
      ((∀ t ∈ toks, t.value ≠ []) → textSize out ≤ K * textSize toks) := by
  have one : ∀ t : Token, t.value.length ≤ K * t.value.length := fun t => Nat.le_mul_of_pos_left _ hK
  induction h with
  | nil => simp
  | @separator t _ _ _ _ ih | @word t _ _ _ _ _ ih =>
    refine ⟨by simpa using ih.1, fun hne => ?_⟩
    have h1 := ih.2 fun t ht => hne t (by simp [ht])
    have h2 := one t
    simp only [textSize_cons, Nat.mul_add]
    omega
  | @replace t ts out k c _ hl _ ih =>
    have hk := hl.mem.pos
    have hc := hD _ _ hl.isSyn
    obtain ⟨j, rfl⟩ : ∃ j, k = j + 1 := ⟨k - 1, by omega⟩
    rw [List.drop_succ_cons] at ih
    refine ⟨?_, fun hne => ?_⟩
    · have h1 := ih.1
      rw [List.length_drop] at h1
      have h2 : (canonTokens C.U c).length ≤ 1 := by unfold canonTokens; split <;> simp
      rw [List.length_append, List.length_cons]
      omega
    · have h1 := ih.2 fun t ht => hne t (List.mem_cons_of_mem _ (List.mem_of_mem_drop ht))
      have h2 : textSize (canonTokens C.U c) ≤ K := by
        unfold canonTokens
        split
        · simp
        · simpa [mkToken] using hc
      have h3 : K ≤ K * t.value.length :=
        Nat.le_mul_of_pos_right _ (List.length_pos_iff.mpr (hne t (by simp)))
      have h4 := Nat.mul_le_mul_left K (textSize_sublist (List.drop_sublist j ts))
      rw [textSize_append, textSize_cons, Nat.mul_add]
      omega

theorem entries_short {E : Env} {m : StringMap} {C : Compare} {q : List Rune} {c : Bytes}
    (h : C.dict (entries E m) q = some c) : c.length ≤ longestValue m := by
  obtain ⟨a, ha, -, rfl⟩ := dict_some h
  simp only [entries, List.mem_flatMap, List.mem_map] at ha
  obtain ⟨kv, hkv, _, _, rfl⟩ := ha
  exact le_longest.2 _ hkv

/-- What a filter delivers, and how much it is. -/
theorem Builtin.makes_size {E : Env} (hE : E.Lawful) (b : Builtin) (hb : b.OK E) (c : Nat)
    (toks : List Token) (e : End) :
    ∃ out, Makes (b.apply E) toks e out e ∧ out.length ≤ b.tokenFactor * toks.length ∧
      (b.GrowsBy c → (∀ t ∈ toks, t.value ≠ []) → textSize out ≤ b.byteFactor c * textSize toks) := by
  have sub : ∀ {l : List Token}, l.Sublist toks →
      l.length ≤ 1 * toks.length ∧
        (True → (∀ t ∈ toks, t.value ≠ []) → textSize l ≤ 1 * textSize toks) := by
    intro l hl
    have := hl.length_le
    have := textSize_sublist hl
    exact ⟨by omega, fun _ _ => by omega⟩
  cases b with
  | stemmer stem =>
    refine ⟨toks.map (stemToken E.U stem), fun ts h => stemmer_yields (fun t _ => hb _) h,
      by simp [Builtin.tokenFactor], fun hc _ => textSize_map (fun t => ?_) toks⟩
    unfold stemToken
    split
    · exact Nat.le_trans (hc _) (Nat.mul_le_mul_right _ (Nat.le_max_right 1 c))
    · exact le_mul_one (Nat.le_refl _) (Nat.le_max_left 1 c)
  | norm N =>
    have hb : N.Lawful := hb
    refine ⟨toks.map (normToken E.U N), fun ts h => norm_yields hb h,
      by simp [Builtin.tokenFactor], fun hc _ => textSize_map (fun t => ?_) toks⟩
    unfold normToken
    split
    · exact le_mul_one (Nat.le_refl _) (Nat.le_max_left 1 c)
    · exact Nat.le_trans (hc _) (Nat.mul_le_mul_right _ (Nat.le_max_right 1 c))
  | asciiFold =>
    refine ⟨toks.map (foldToken E.U), fun ts h => asciiFold_yields E.U h,
      by simp [Builtin.tokenFactor], fun hc _ => textSize_map (fun t => ?_) toks⟩
    unfold foldToken
    split
    · exact foldString_length _
    · exact le_mul_one (Nat.le_refl _) (show 1 ≤ 3 by decide)
  | stopwords ws ic => exact ⟨_, fun ts h => stop_yields h, sub List.filter_sublist⟩
  | contractions m =>
    refine ⟨_, fun ts h => expandWith_yields hE hb h, ?_⟩
    show _ ≤ longestValue m * _ ∧ (True → _ → _ ≤ longestValue m * _)
    clear sub
    induction toks with
    | nil => simp
    | cons t ts ih =>
      have h1 := expandToken_size hE m t
      rw [List.flatMap_cons, List.length_append, textSize_append, textSize_cons, List.length_cons,
        Nat.mul_add, Nat.mul_add]
      refine ⟨by omega, fun _ hne => ?_⟩
      have h2 := ih.2 trivial fun t ht => hne t (by simp [ht])
      have h3 := h1.2 (hne t (by simp))
      omega
  | sigil f =>
    have hs := sigil_size E.U f none toks e
    refine ⟨(sigilActual E.U f none toks e).1, fun ts h => ?_, ?_, fun _ _ => ?_⟩
    · have := sigil_yields (U := E.U) hb h
      rwa [sigilActual_end] at this
    · exact le_mul_one hs.1 (Nat.le_refl _)
    · exact le_mul_one hs.2 (Nat.le_refl _)
  | synonyms m ic ign =>
    obtain ⟨out, hg⟩ := Greedy.total ⟨E.U, ic, ign⟩ ((Compare.mk E.U ic ign).dict (entries E m))
      (wordLimit (entries E m)) toks
    have hs := greedy_size le_longest.1 (fun _ _ h => entries_short h) hg
    refine ⟨if e = .eof then out else [], fun ts h => synonyms_yields hE hb h hg, ?_, fun _ hne => ?_⟩
    · split
      · exact le_mul_one hs.1 (Nat.le_refl _)
      · simp
    · split
      · exact hs.2 hne
      · simp
  | where_ p => exact ⟨_, fun ts h => where_yields p h, sub List.filter_sublist⟩
  | words => exact ⟨_, fun ts h => where_yields _ h, sub List.filter_sublist⟩
  | lemmas => exact ⟨_, fun ts h => where_yields _ h, sub List.filter_sublist⟩
  | distinct => exact ⟨_, fun ts h => distinct_yields h, sub (firsts_sublist toks)⟩

/-! ### C116 -/

/-- **C116.** A pipeline of filters of the library makes, of any stream that ends, at most so many times as
many tokens, and at most so many times as many bytes, as the stream delivers: the product of factors that
depend on nothing but the filters. -/
theorem C116_linear {E : Env} (hE : E.Lawful) (bs : List Builtin) (hb : ∀ b ∈ bs, b.OK E) {c : Nat}
    (hc : ∀ b ∈ bs, b.GrowsBy c) {ts : TokenStream} {toks : List Token} {e : End} (h : ts.Yields toks e)
    (hne : ∀ t ∈ toks, t.value ≠ []) {out : List Token} {e' : End}
    (ho : (ts.filter (bs.map (Builtin.apply E))).Yields out e') :
    out.length ≤ (bs.map Builtin.tokenFactor).foldr (· * ·) 1 * toks.length ∧
    textSize out ≤ (bs.map (Builtin.byteFactor c)).foldr (· * ·) 1 * textSize toks := by
  induction bs generalizing ts toks with
  | nil =>
    have : out = toks := (TokenStream.Yields.unique ho h).1
    subst this; simp
  | cons b bs ih =>
    obtain ⟨mid, h1, h2, h3⟩ := b.makes_size hE (hb b (by simp)) c toks e
    obtain ⟨mid', h1', hne', -⟩ := b.makes hE (hb b (by simp)) toks e
    obtain rfl : mid' = mid := (TokenStream.Yields.unique (h1' ts h) (h1 ts h)).1
    have := ih (fun b h => hb b (by simp [h])) (fun b h => hc b (by simp [h])) (h1 ts h) (hne' hne) ho
    simp only [List.map_cons, List.foldr_cons]
    refine ⟨Nat.le_trans this.1 ?_, Nat.le_trans this.2 ?_⟩
    · rw [Nat.mul_comm b.tokenFactor, Nat.mul_assoc]
      exact Nat.mul_le_mul_left _ h2
    · rw [Nat.mul_comm (b.byteFactor c), Nat.mul_assoc]
      exact Nat.mul_le_mul_left _ (h3 (hc b (by simp)) hne)

/-- C116, tokens: only contractions add any. -/
theorem C116_no_more_tokens {E : Env} (hE : E.Lawful) (bs : List Builtin) (hb : ∀ b ∈ bs, b.OK E)
    (hc : ∀ b ∈ bs, ∀ m, b ≠ .contractions m) {ts : TokenStream} {toks : List Token} {e : End}
    (h : ts.Yields toks e) {out : List Token} {e' : End}
    (ho : (ts.filter (bs.map (Builtin.apply E))).Yields out e') : out.length ≤ toks.length := by
  induction bs generalizing ts toks with
  | nil => rw [(TokenStream.Yields.unique ho h).1]
  | cons b bs ih =>
    obtain ⟨mid, h1, h2, -⟩ := b.makes_size hE (hb b (by simp)) 0 toks e
    have h3 := ih (fun b h => hb b (by simp [h])) (fun b h => hc b (by simp [h])) (h1 ts h) ho
    have h4 : b.tokenFactor = 1 := by
      have := hc b (by simp)
      cases b <;> first | rfl | exact absurd rfl (this _)
    rw [h4] at h2
    omega

/-- **C116 (texts).** Whatever is read, tokenized and filtered: the text that comes out is at most so many
times as long as the text that went in. -/
theorem C116_text {E : Env} (hE : E.Lawful) (bs : List Builtin) (hb : ∀ b ∈ bs, b.OK E) {c : Nat}
    (hc : ∀ b ∈ bs, b.GrowsBy c) (r : Reader) {out : List Token} {e' : End}
    (ho : ((tokenize E r).filter (bs.map (Builtin.apply E))).Yields out e') :
    out.length ≤ textSize out ∧
    textSize out ≤ (bs.map (Builtin.byteFactor c)).foldr (· * ·) 1 * r.data.length := by
  have h1 : ∀ t ∈ segTokens E.U (E.scan r).1, t.value ≠ [] := by
    intro t ht
    simp only [segTokens, List.mem_map] at ht
    obtain ⟨seg, hs, rfl⟩ := ht
    exact hE.nonempty r seg hs
  have h2 := (C116_linear hE bs hb hc (tokenize_yields E hE r) h1 ho).2
  rw [textSize_segTokens] at h2
  obtain ⟨out', h3, h4⟩ := C52_nonempty hE bs hb (tokenize_yields E hE r) h1
  obtain rfl : out' = out := (TokenStream.Yields.unique h3 ho).1
  refine ⟨?_, Nat.le_trans h2 (Nat.mul_le_mul_left _ (hE.sound r).length_le)⟩
  have h5 := segments_le (segs := out'.map Token.value) (by
    intro s hs
    obtain ⟨t, ht, rfl⟩ := List.mem_map.mp hs
    exact h4 t ht)
  simpa [textSize, List.flatMap] using h5

/-! ### The shipped tables -/

theorem longest_le {m : StringMap} {K : Nat} (hK : 1 ≤ K) (h : ∀ kv ∈ m, kv.2.length ≤ K) :
    longestValue m ≤ K := by
  have key : ∀ (l : List Nat) (a : Nat), a ≤ K → (∀ x ∈ l, x ≤ K) → l.foldl max a ≤ K := by
    intro l
    induction l with
    | nil => intro a ha _; exact ha
    | cons b l ih =>
      intro a ha hl
      rw [List.foldl_cons]
      exact ih _ (Nat.max_le.mpr ⟨ha, hl b (by simp)⟩) fun x hx => hl x (by simp [hx])
  refine key _ 1 hK fun x hx => ?_
  obtain ⟨kv, hkv, rfl⟩ := List.mem_map.mp hx
  exact h kv hkv

theorem longest_rows {rows : List (List (Nat × Nat))} {K : Nat} (hK : 1 ≤ K)
    (h : rows.all (fun rs => rs.all fun r => decide ((textOf r.2).length ≤ K)) = true) :
    longestValue (rows.flatMap tableOf) ≤ K := by
  refine longest_le hK fun kv hkv => ?_
  obtain ⟨rs, hrs, hkv⟩ := List.mem_flatMap.mp hkv
  obtain ⟨r, hr, rfl⟩ := List.mem_map.mp hkv
  simpa using List.all_eq_true.mp (List.all_eq_true.mp h rs hrs) r hr

theorem longest_contractions : longestValue contractionMappings ≤ 11 :=
  longest_le (by decide) (by decide +kernel)
theorem longest_players : longestValue nbaMappings ≤ 24 := longest_rows (by decide) (by decide +kernel)
theorem longest_tags : longestValue stackOverflowMappings ≤ 26 := longest_rows (by decide) (by decide +kernel)

theorem tables_size {E : Env} (hE : E.Lawful) {so nba con : StringMap} {ign ign' : List Rune} {A B C : Nat}
    (hA : longestValue so ≤ A) (hB : longestValue nba ≤ B) (hC : longestValue con ≤ C)
    (hso : ∀ m ∈ so, (E.scan { data := m.1 }).2 = none) (hnba : ∀ m ∈ nba, (E.scan { data := m.1 }).2 = none)
    (hcon : GoodTable E con) (s : Bytes) {out : List Token} {e : End} :
    (((tokenizeString E s).filter [synonyms E so true ign]).Yields out e → textSize out ≤ A * s.length) ∧
    (((tokenizeString E s).filter [synonyms E nba true ign']).Yields out e → textSize out ≤ B * s.length) ∧
    (((tokenizeString E s).filter [expandWith E con]).Yields out e → textSize out ≤ C * s.length) ∧
    (((tokenizeString E s).filter [asciiFold E.U]).Yields out e → textSize out ≤ 3 * s.length) ∧
    (((tokenizeString E s).filter [asciiFold E.U, expandWith E con, synonyms E nba true ign',
        synonyms E so true ign]).Yields out e →
      textSize out ≤ 3 * (C * (B * A)) * s.length) := by
  have run : ∀ (bs : List Builtin), (∀ b ∈ bs, b.OK E) → (∀ b ∈ bs, b.GrowsBy 1) →
      ((tokenizeString E s).filter (bs.map (Builtin.apply E))).Yields out e →
      textSize out ≤ (bs.map (Builtin.byteFactor 1)).foldr (· * ·) 1 * s.length :=
    fun bs hb hc ho => (C116_text hE bs hb hc { data := s } ho).2
  have last : ∀ {a b : Nat}, a ≤ b → textSize out ≤ a * s.length → textSize out ≤ b * s.length :=
    fun h h' => Nat.le_trans h' (Nat.mul_le_mul_right _ h)
  have h1 : (Builtin.synonyms so true ign).OK E := hso
  have h2 : (Builtin.synonyms nba true ign').OK E := hnba
  have h3 : (Builtin.contractions con).OK E := hcon
  have h4 : Builtin.asciiFold.OK E := trivial
  refine ⟨fun ho => ?_, fun ho => ?_, fun ho => ?_, fun ho => ?_, fun ho => ?_⟩
  · refine last ?_ (run [.synonyms so true ign] (by simpa using h1) (by simp [Builtin.GrowsBy]) ho)
    simpa [Builtin.byteFactor] using hA
  · refine last ?_ (run [.synonyms nba true ign'] (by simpa using h2) (by simp [Builtin.GrowsBy]) ho)
    simpa [Builtin.byteFactor] using hB
  · refine last ?_ (run [.contractions con] (by simpa using h3) (by simp [Builtin.GrowsBy]) ho)
    simpa [Builtin.byteFactor] using hC
  · refine last ?_ (run [.asciiFold] (by simpa using h4) (by simp [Builtin.GrowsBy]) ho)
    simp [Builtin.byteFactor]
  · refine last ?_ (run [.asciiFold, .contractions con, .synonyms nba true ign', .synonyms so true ign]
      (by simpa using ⟨h4, h3, h2, h1⟩) (by simp [Builtin.GrowsBy]) ho)
    simp only [List.map_cons, List.map_nil, List.foldr_cons, List.foldr_nil, Builtin.byteFactor, Nat.mul_one]
    exact Nat.mul_le_mul_left 3 (Nat.mul_le_mul hC (Nat.mul_le_mul hB hA))

/-- **C116 (the shipped tables).** Of a text of `n` bytes, the Stack Overflow tags make at most `26 * n`
bytes, the players `24 * n`, the contractions `11 * n`, and folding to ASCII `3 * n`; one after the other,
at most `20592 * n`. -/
theorem C116_shipped {E : Env} (hE : E.Lawful)
    (hso : ∀ m ∈ stackOverflowMappings, (E.scan { data := m.1 }).2 = none)
    (hnba : ∀ m ∈ nbaMappings, (E.scan { data := m.1 }).2 = none)
    (hcon : ∀ m ∈ contractionMappings, (E.scan { data := m.2 }).2 = none) (s : Bytes)
    {out : List Token} {e : End} :
    (((tokenizeString E s).filter [tags E]).Yields out e → textSize out ≤ 26 * s.length) ∧
    (((tokenizeString E s).filter [currentPlayers E]).Yields out e → textSize out ≤ 24 * s.length) ∧
    (((tokenizeString E s).filter [expand E]).Yields out e → textSize out ≤ 11 * s.length) ∧
    (((tokenizeString E s).filter [asciiFold E.U]).Yields out e → textSize out ≤ 3 * s.length) ∧
    (((tokenizeString E s).filter [asciiFold E.U, expand E, currentPlayers E, tags E]).Yields out e →
      textSize out ≤ 20592 * s.length) := by
  unfold tags currentPlayers expand
  exact tables_size hE longest_tags longest_players longest_contractions hso hnba
    ⟨fun k x h => hcon _ h, fun k x hx => (C24_well_formed k x hx).1⟩ s

/-- What `C116_shipped` assumes of the scanner can be met. -/
example : sampleEnv.Lawful ∧ ∀ s, (sampleEnv.scan { data := s }).2 = none :=
  ⟨sampleEnv_lawful, fun _ => rfl⟩

/-- The factor of folding is the least: of 7 bytes, 5 of them not UTF-8, it makes 16, more than twice as
many. -/
example : ∃ s : Bytes, 2 * s.length < (foldString s).1.length :=
  ⟨[0xC3, 0xA9, 0xFF, 0xFF, 0xFF, 0xFF, 0xFF], by decide +kernel⟩

/-- Contractions do add tokens. -/
example : ∃ toks out : List Token, toks.length < out.length ∧
    (expandWith sampleEnv [(str "cannot", str "can not")] (listStream toks .eof)).Yields out .eof := by
  have hm : GoodTable sampleEnv [(str "cannot", str "can not")] :=
    ⟨fun _ _ _ => rfl, fun k x h => by
      simp only [List.mem_singleton, Prod.mk.injEq] at h
      rw [h.2]; decide +kernel⟩
  exact ⟨[mkToken asciiUnicode (str "cannot") false], _, by decide +kernel,
    expandWith_yields sampleEnv_lawful hm (listStream_yields _ _)⟩

/-- What `C116_linear` assumes of the filters can be met, by filters of every kind. -/
example :
    let bs : List Builtin := [.stemmer id, .asciiFold, .contractions [(str "cannot", str "can not")],
      .sigil ⟨[0x40], legalHandle⟩, .synonyms [(str "go", str "golang")] true [], .distinct]
    (∀ b ∈ bs, b.OK sampleEnv) ∧ (∀ b ∈ bs, b.GrowsBy 1) := by
  have hm : GoodTable sampleEnv [(str "cannot", str "can not")] :=
    ⟨fun _ _ _ => rfl, fun k x h => by
      simp only [List.mem_singleton, Prod.mk.injEq] at h
      rw [h.2]; decide +kernel⟩
  refine ⟨?_, ?_⟩
  · intro b hb
    simp only [List.mem_cons, List.not_mem_nil, or_false] at hb
    rcases hb with rfl | rfl | rfl | rfl | rfl | rfl
    · exact fun s h => h
    · trivial
    · exact hm
    · show ([0x40] : Bytes) ≠ []; decide
    · exact fun _ _ => rfl
    · trivial
  · intro b hb
    simp only [List.mem_cons, List.not_mem_nil, or_false] at hb
    rcases hb with rfl | rfl | rfl | rfl | rfl | rfl
    · intro s; simp
    all_goals trivial

end Jargon
