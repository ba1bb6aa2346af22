import Verif.Proofs.HtmlRaw

/-! What the reader of HTML delivers is `ReadableDoc`. -/

namespace Jargon

def TagLike (tag : Bytes) : Prop := NameLike tag ∧ ∃ b ∈ tag.head?, isTagLetter b

def Opens (ty : HType) : Prop := ty = .startTag ∨ ty = .endTag

/-- In the middle of text. -/
def Reading.inText : Reading → Bool
  | .text _ | .lt _ | .ltSlash _ => true
  | _ => false

/-- A fact about all bytes, by computation. -/
theorem byte_all {P : UInt8 → Bool} (h : (List.range 256).all (fun n => P (UInt8.ofNat n)) = true) (b : UInt8) :
    P b = true := by
  have := List.all_eq_true.mp h b.toNat (by simpa using b.toNat_lt)
  simpa using this

theorem lowerByte_letter {b : UInt8} (h : isTagLetter b = true) : isTagLetter (lowerByte b) = true := by
  have := byte_all (P := fun b => !isTagLetter b || isTagLetter (lowerByte b)) (by decide +kernel) b
  simpa [h] using this

theorem nameLike_lower {b : UInt8} (h1 : isHtmlSpace b = false) (h2 : b ≠ 0x2F) (h3 : b ≠ 0x3E) :
    isHtmlSpace (lowerByte b) = false ∧ lowerByte b ≠ 0x2F ∧ lowerByte b ≠ 0x3E ∧
      isUpperByte (lowerByte b) = false := by
  have := byte_all (P := fun b => isHtmlSpace b || b == 0x2F || b == 0x3E ||
    (!isHtmlSpace (lowerByte b) && lowerByte b != 0x2F && lowerByte b != 0x3E && !isUpperByte (lowerByte b)))
    (by decide +kernel) b
  simpa [h1, h2, h3, and_assoc] using this

theorem lowerByte_ne_eq {b : UInt8} (h : b ≠ 0x3D) : lowerByte b ≠ 0x3D := by
  have := byte_all (P := fun b => b == 0x3D || lowerByte b != 0x3D) (by decide +kernel) b
  simpa [h] using this

theorem letter_name {b : UInt8} (h : isTagLetter b = true) :
    isHtmlSpace b = false ∧ b ≠ 0x2F ∧ b ≠ 0x3E := by
  have := byte_all (P := fun b => !isTagLetter b || (!isHtmlSpace b && b != 0x2F && b != 0x3E))
    (by decide +kernel) b
  simpa [h, and_assoc] using this

theorem TagLike.letter {b : UInt8} (h : isTagLetter b = true) : TagLike [lowerByte b] := by
  obtain ⟨h1, h2, h3⟩ := letter_name h
  refine ⟨?_, _, by simp, lowerByte_letter h⟩
  intro x hx
  simp only [List.mem_singleton] at hx
  subst hx
  exact nameLike_lower h1 h2 h3

theorem NameLike.append {a : Bytes} {b : UInt8} (h : NameLike a) (h1 : isHtmlSpace b = false)
    (h2 : b ≠ 0x2F) (h3 : b ≠ 0x3E) : NameLike (a ++ [lowerByte b]) := by
  intro x hx
  rcases List.mem_append.mp hx with hx | hx
  · exact h x hx
  · simp only [List.mem_singleton] at hx
    subst hx
    exact nameLike_lower h1 h2 h3

theorem TagLike.append {a : Bytes} {b : UInt8} (h : TagLike a) (h1 : isHtmlSpace b = false)
    (h2 : b ≠ 0x2F) (h3 : b ≠ 0x3E) : TagLike (a ++ [lowerByte b]) := by
  refine ⟨h.1.append h1 h2 h3, ?_⟩
  obtain ⟨c, hc, hl⟩ := h.2
  refine ⟨c, ?_, hl⟩
  cases a with
  | nil => simp at hc
  | cons x a => simpa using hc

variable [HtmlReader]

theorem readable_comment {d : Bytes} : Readable (commentEvent d) := ⟨rfl, rfl⟩

theorem readable_doctype {d : Bytes} : Readable (doctypeEvent d) := ⟨rfl, rfl⟩

def AttrsLike (as : List (Bytes × Bytes)) : Prop := ∀ a ∈ as, AttrName a.1

/-- An attribute name, or none. -/
def KeyLike (k : Bytes) : Prop := k ≠ [] → AttrName k

/-- What holds of the reader's state. -/
def Reading.OK : Reading → Prop
  | .text _ | .lt _ | .ltSlash _ | .bang _ | .bogus _ | .comment _ _ _ | .doctype _ => True
  | .name ty acc => Opens ty ∧ TagLike acc
  | .attrs ty tag old _ => Opens ty ∧ TagLike tag ∧ AttrsLike old
  | .key ty tag old k => Opens ty ∧ TagLike tag ∧ AttrsLike old ∧ AttrName k
  | .afterKey ty tag old k _ | .beforeValue ty tag old k | .value ty tag old k _ _ =>
    Opens ty ∧ TagLike tag ∧ AttrsLike old ∧ KeyLike k

theorem AttrName.single {b : UInt8} (h1 : isHtmlSpace b = false) (h2 : b ≠ 0x2F) (h3 : b ≠ 0x3E)
    (h4 : ¬ (b = 0x3D ∧ HtmlReader.equalsInName = false)) : AttrName [lowerByte b] := by
  refine ⟨by simp, ?_, by simp, ?_⟩
  · exact NameLike.append (a := []) (by intro x hx; simp at hx) h1 h2 h3
  · intro he hm
    simp only [List.mem_singleton] at hm
    by_cases hb : b = 0x3D
    · exact h4 ⟨hb, he⟩
    · exact lowerByte_ne_eq hb hm.symm

theorem AttrName.append {k : Bytes} {b : UInt8} (h : AttrName k) (h1 : isHtmlSpace b = false) (h2 : b ≠ 0x2F)
    (h3 : b ≠ 0x3E) (h4 : b ≠ 0x3D) : AttrName (k ++ [lowerByte b]) := by
  obtain ⟨a1, a2, a3, a4⟩ := h
  have hb := (lowerByte_ne_eq h4).symm
  refine ⟨by simp, a2.append h1 h2 h3, ?_, fun he => by simp [a4 he, hb]⟩
  cases k with
  | nil => exact absurd rfl a1
  | cons c k =>
    simp only [List.cons_append, List.tail_cons, List.mem_append, List.mem_singleton, not_or] at a3 ⊢
    exact ⟨a3, hb⟩

theorem AttrName.keyLike {k : Bytes} (h : AttrName k) : KeyLike k := fun _ => h

theorem keyLike_nil : KeyLike [] := fun h => absurd rfl h

theorem AttrsLike.append {old : List (Bytes × Bytes)} {k v : Bytes} (h : AttrsLike old) (hk : KeyLike k) :
    AttrsLike (addAttr old k v) := by
  intro a ha
  unfold addAttr at ha
  split at ha
  · exact h a ha
  · rename_i hne
    rcases List.mem_append.mp ha with ha | ha
    · exact h a ha
    · simp only [List.mem_singleton] at ha
      subst ha
      exact hk hne

theorem readable_tag {ty : HType} {tag : Bytes} {as : List (Bytes × Bytes)} {slash : Bool}
    (ht : TagLike tag) (ha : AttrsLike as) :
    Readable (tagEvent ty tag as slash) ∧ (tagEvent ty tag as slash).type ≠ .text := by
  unfold tagEvent
  split
  · rename_i h
    subst h
    exact ⟨⟨rfl, rfl, ht.1, ht.2⟩, by simp⟩
  · cases slash
    · exact ⟨⟨rfl, ht.1, ht.2, ha⟩, by simp⟩
    · exact ⟨⟨rfl, ht.1, ht.2, ha⟩, by simp⟩

theorem readable_text (raw : Bytes) : textEvent raw = [] ∨
    ∃ h, textEvent raw = [h] ∧ Readable h ∧ h.type = .text := by
  unfold textEvent
  split
  · exact .inl rfl
  · rename_i h
    exact .inr ⟨_, rfl, ⟨cookText_ne h, rfl, rfl⟩, rfl⟩

/-- The ways one byte can act: nothing complete, a text before something else, a token that is not text,
or both. -/
inductive StepKind (r r' : Reading) : List HTok → Prop
  | none : r'.inText = r.inText → StepKind r r' []
  | text {out} : r.inText = true → r'.inText = false → (∀ h ∈ out, Readable h ∧ h.type = .text) →
      out.length ≤ 1 → StepKind r r' out
  | token {h} : r.inText = false → r'.inText = true → Readable h → h.type ≠ .text → StepKind r r' [h]
  | both {out h} : r.inText = true → r'.inText = true → (∀ x ∈ out, Readable x ∧ x.type = .text) →
      out.length ≤ 1 → Readable h → h.type ≠ .text → StepKind r r' (out ++ [h])

theorem stepKind_text {r r' : Reading} {raw : Bytes} (h1 : r.inText = true) (h2 : r'.inText = false) :
    StepKind r r' (textEvent raw) := by
  rcases readable_text raw with h | ⟨x, h, hx⟩
  · rw [h]; exact .text h1 h2 (by simp) (by simp)
  · rw [h]; exact .text h1 h2 (by simpa using hx) (by simp)

theorem step_kind (r : Reading) (b : UInt8) (h : r.OK) :
    (r.step b).2.OK ∧ StepKind r (r.step b).2 (r.step b).1 := by
  have tag : ∀ {r : Reading} {ty tag as slash}, r.inText = false → TagLike tag → AttrsLike as →
      Reading.OK (.text []) ∧ StepKind r (.text []) [tagEvent ty tag as slash] :=
    fun h0 h1 h2 => ⟨trivial, .token h0 rfl (readable_tag h1 h2).1 (readable_tag h1 h2).2⟩
  cases r with
  | text raw =>
    simp only [Reading.step]
    split
    · exact ⟨trivial, .none rfl⟩
    · exact ⟨trivial, .none rfl⟩
  | lt raw =>
    simp only [Reading.step]
    split
    · rename_i hl
      exact ⟨⟨.inl rfl, TagLike.letter hl⟩, stepKind_text rfl rfl⟩
    split
    · exact ⟨trivial, .none rfl⟩
    split
    · exact ⟨trivial, stepKind_text rfl rfl⟩
    split
    · exact ⟨trivial, stepKind_text rfl rfl⟩
    split
    · exact ⟨trivial, .none rfl⟩
    · exact ⟨trivial, .none rfl⟩
  | ltSlash raw =>
    simp only [Reading.step]
    split
    · rename_i hl
      exact ⟨⟨.inr rfl, TagLike.letter hl⟩, stepKind_text rfl rfl⟩
    split
    · refine ⟨trivial, ?_⟩
      rcases readable_text raw with h | ⟨x, h, hx⟩
      · rw [h]; exact .both rfl rfl (by simp) (by simp) readable_comment (by simp [commentEvent])
      · rw [h]; exact .both rfl rfl (by simpa using hx) (by simp) readable_comment (by simp [commentEvent])
    · exact ⟨trivial, stepKind_text rfl rfl⟩
  | bang acc =>
    simp only [Reading.step]
    split
    · split
      · exact ⟨trivial, .token rfl rfl readable_comment (by simp [commentEvent])⟩
      · exact ⟨trivial, .token rfl rfl readable_comment (by simp [commentEvent])⟩
    split
    · exact ⟨trivial, .none rfl⟩
    split
    · exact ⟨trivial, .none rfl⟩
    split
    · split
      · exact ⟨trivial, .none rfl⟩
      · exact ⟨trivial, .none rfl⟩
    split
    · exact ⟨trivial, .token rfl rfl readable_comment (by simp [commentEvent])⟩
    · exact ⟨trivial, .none rfl⟩
  | comment acc dashes excl =>
    simp only [Reading.step]
    split
    · split
      · exact ⟨trivial, .token rfl rfl readable_comment (by simp [commentEvent])⟩
      · exact ⟨trivial, .none rfl⟩
    split
    · exact ⟨trivial, .none rfl⟩
    split
    · exact ⟨trivial, .token rfl rfl readable_comment (by simp [commentEvent])⟩
    · exact ⟨trivial, .none rfl⟩
  | bogus acc =>
    simp only [Reading.step]
    split
    · exact ⟨trivial, .token rfl rfl readable_comment (by simp [commentEvent])⟩
    · exact ⟨trivial, .none rfl⟩
  | doctype acc =>
    simp only [Reading.step]
    split
    · exact ⟨trivial, .token rfl rfl readable_doctype (by simp [doctypeEvent])⟩
    split
    · exact ⟨trivial, .none rfl⟩
    · exact ⟨trivial, .none rfl⟩
  | name ty acc =>
    obtain ⟨h1, h2⟩ : Opens ty ∧ TagLike acc := h
    have h0 : AttrsLike [] := by intro a ha; simp at ha
    simp only [Reading.step]
    split
    · exact ⟨⟨h1, h2, h0⟩, .none rfl⟩
    rename_i c1
    split
    · exact ⟨⟨h1, h2, h0, keyLike_nil⟩, .none rfl⟩
    rename_i c2
    split
    · exact tag rfl h2 h0
    rename_i c3
    exact ⟨⟨h1, h2.append (by simpa using c1) c2 c3⟩, .none rfl⟩
  | attrs ty tag' old slash =>
    obtain ⟨h1, h2, h3⟩ : Opens ty ∧ TagLike tag' ∧ AttrsLike old := h
    simp only [Reading.step]
    split
    · exact ⟨⟨h1, h2, h3⟩, .none rfl⟩
    rename_i c1
    split
    · exact ⟨⟨h1, h2, h3, keyLike_nil⟩, .none rfl⟩
    rename_i c2
    split
    · exact tag rfl h2 h3
    rename_i c3
    split
    · exact ⟨⟨h1, h2, h3, keyLike_nil⟩, .none rfl⟩
    rename_i c4
    exact ⟨⟨h1, h2, h3, AttrName.single (by simpa using c1) c2 c3 c4⟩, .none rfl⟩
  | key ty tag' old k =>
    obtain ⟨h1, h2, h3, h4⟩ : Opens ty ∧ TagLike tag' ∧ AttrsLike old ∧ AttrName k := h
    simp only [Reading.step]
    split
    · exact ⟨⟨h1, h2, h3, h4.keyLike⟩, .none rfl⟩
    rename_i c1
    split
    · exact ⟨⟨h1, h2, h3, h4.keyLike⟩, .none rfl⟩
    rename_i c2
    split
    · exact tag rfl h2 (h3.append h4.keyLike)
    rename_i c3
    split
    · exact ⟨⟨h1, h2, h3, h4.keyLike⟩, .none rfl⟩
    rename_i c4
    exact ⟨⟨h1, h2, h3, h4.append (by simpa using c1) c2 c3 c4⟩, .none rfl⟩
  | afterKey ty tag' old k slash =>
    obtain ⟨h1, h2, h3, h4⟩ : Opens ty ∧ TagLike tag' ∧ AttrsLike old ∧ KeyLike k := h
    simp only [Reading.step]
    split
    · exact ⟨⟨h1, h2, h3, h4⟩, .none rfl⟩
    rename_i c1
    split
    · split
      · exact ⟨⟨h1, h2, h3.append h4⟩, .none rfl⟩
      · exact ⟨⟨h1, h2, h3.append h4, keyLike_nil⟩, .none rfl⟩
    rename_i c2
    split
    · exact tag rfl h2 (h3.append h4)
    rename_i c3
    split
    · exact ⟨⟨h1, h2, h3, h4⟩, .none rfl⟩
    rename_i c4
    exact ⟨⟨h1, h2, h3.append h4, AttrName.single (by simpa using c1) c2 c3 (fun h => c4 h.1)⟩, .none rfl⟩
  | beforeValue ty tag' old k =>
    obtain ⟨h1, h2, h3, h4⟩ : Opens ty ∧ TagLike tag' ∧ AttrsLike old ∧ KeyLike k := h
    simp only [Reading.step]
    split
    · exact ⟨⟨h1, h2, h3, h4⟩, .none rfl⟩
    split
    · exact ⟨⟨h1, h2, h3, h4⟩, .none rfl⟩
    split
    · exact tag rfl h2 (h3.append h4)
    exact ⟨⟨h1, h2, h3, h4⟩, .none rfl⟩
  | value ty tag' old k q acc =>
    obtain ⟨h1, h2, h3, h4⟩ : Opens ty ∧ TagLike tag' ∧ AttrsLike old ∧ KeyLike k := h
    cases q with
    | some q =>
      simp only [Reading.step]
      split
      · exact ⟨⟨h1, h2, h3.append h4⟩, .none rfl⟩
      · exact ⟨⟨h1, h2, h3, h4⟩, .none rfl⟩
    | none =>
      simp only [Reading.step]
      split
      · exact ⟨⟨h1, h2, h3.append h4⟩, .none rfl⟩
      split
      · exact tag rfl h2 (h3.append h4)
      · exact ⟨⟨h1, h2, h3, h4⟩, .none rfl⟩

theorem ReadableFrom.mono {ctx : Option Bytes} {hs : List HTok} (d : Bool) (h : ReadableFrom ctx true hs) :
    ReadableFrom ctx d hs := by
  cases hs with
  | nil => trivial
  | cons x xs =>
    refine ⟨h.1, fun ht => ?_, h.2.2⟩
    have := (h.2.1 ht).1
    simp at this

/-- A text before. -/
theorem ReadableFrom.text {ctx : Option Bytes} {hs out : List HTok}
    (h1 : ∀ x ∈ out, Readable x ∧ x.type = .text) (h2 : out.length ≤ 1)
    (h0 : ctx ≠ none → ∀ x ∈ out, 0 ∉ x.data) (h : ReadableFrom ctx true hs) : ReadableFrom ctx false (out ++ hs) := by
  match out, h2 with
  | [], _ => exact h.mono _
  | [x], _ =>
    obtain ⟨a1, a2⟩ := h1 x (by simp)
    refine ⟨a1, fun _ => ⟨rfl, fun hc => h0 hc x (by simp)⟩, fun _ _ hne => absurd a2 hne, ?_⟩
    have e1 : rawAfter ctx x = ctx := by simp [rawAfter, a2]
    have e2 : (x.type == HType.text) = true := by simp [a2]
    rw [e1, e2]
    exact h

/-- A token that is not text before, outside raw text. -/
theorem ReadableFrom.token {h : HTok} {hs : List HTok} (d : Bool) (h1 : Readable h) (h2 : h.type ≠ .text)
    (h3 : ReadableFrom (if h.opensRawText then some h.data else none) false hs) :
    ReadableFrom none d (h :: hs) := by
  refine ⟨h1, fun ht => absurd ht h2, by simp, ?_⟩
  have e1 : rawAfter none h = if h.opensRawText then some h.data else none := by simp [rawAfter, h2]
  have e2 : (h.type == HType.text) = false := by simp [h2]
  rw [e1, e2]
  exact h3

/-- The tag being read, from after its name on. -/
def Reading.inTag : Reading → Option (HType × Bytes)
  | .attrs ty tag _ _ | .key ty tag _ _ | .afterKey ty tag _ _ _ | .beforeValue ty tag _ _ |
    .value ty tag _ _ _ _ => some (ty, tag)
  | _ => none

theorem inTag_step {r : Reading} {ty : HType} {tag : Bytes} (h : r.inTag = some (ty, tag)) (b : UInt8) :
    ((r.step b).1 = [] ∧ (r.step b).2.inTag = some (ty, tag)) ∨
      ∃ as slash, r.step b = ([tagEvent ty tag as slash], .text []) := by
  cases r with
  | text | lt | ltSlash | bang | comment | bogus | doctype | name => simp [Reading.inTag] at h
  | attrs | key | afterKey | beforeValue =>
    simp only [Reading.inTag, Option.some.injEq, Prod.mk.injEq] at h
    obtain ⟨rfl, rfl⟩ := h
    simp only [Reading.step]
    repeat' split
    all_goals first
      | exact .inl ⟨rfl, rfl⟩
      | exact .inr ⟨_, _, rfl⟩
  | value ty' tag' old k q acc =>
    simp only [Reading.inTag, Option.some.injEq, Prod.mk.injEq] at h
    obtain ⟨rfl, rfl⟩ := h
    cases q <;> simp only [Reading.step] <;> repeat' split
    all_goals first
      | exact .inl ⟨rfl, rfl⟩
      | exact .inr ⟨_, _, rfl⟩

omit [HtmlReader] in
theorem rawNames_tagLike : ∀ n ∈ rawNames, TagLike n := by
  have h1 : ∀ n ∈ rawNames, ∀ b ∈ n, isHtmlSpace b = false ∧ b ≠ 0x2F ∧ b ≠ 0x3E ∧ isUpperByte b = false := by
    decide +kernel
  have h2 : ∀ n ∈ rawNames, (n.head?.any isTagLetter) = true := by decide +kernel
  intro n hn
  refine ⟨h1 n hn, ?_⟩
  have := h2 n hn
  cases n with
  | nil => simp at this
  | cons c d => exact ⟨c, by simp, by simpa using this⟩

theorem readable_raw (n raw : Bytes) :
    (∀ x ∈ rawEvent n raw, Readable x ∧ x.type = .text) ∧ (rawEvent n raw).length ≤ 1 ∧
      ∀ x ∈ rawEvent n raw, 0 ∉ x.data := by
  unfold rawEvent
  split
  · simp
  · rename_i h
    refine ⟨?_, by simp, ?_⟩
    · intro x hx
      simp only [List.mem_singleton] at hx
      subst hx
      refine ⟨⟨?_, rfl, rfl⟩, rfl⟩
      show (if rcdataNames.contains n then cookRcdata raw else cookRaw raw) ≠ []
      split
      · exact cookRcdata_ne h
      · exact cookRaw_ne h
    · intro x hx
      simp only [List.mem_singleton] at hx
      subst hx
      show 0 ∉ (if rcdataNames.contains n then cookRcdata raw else cookRaw raw)
      split
      · exact cookRcdata_nul raw
      · exact cookRaw_nul raw

theorem run_readable (s : Bytes) :
    (∀ r : Reading, r.OK → ReadableFrom none (!r.inText) (DocReading.run (.html r) s)) ∧
    (∀ n acc, n ∈ rawNames → ReadableFrom (some n) false (DocReading.run (.raw n acc) s)) ∧
    (∀ (r : Reading) n, r.OK → r.inTag = some (.endTag, n) → n ≠ str "plaintext" →
      ReadableFrom (some n) true (DocReading.run (.html r) s)) := by
  induction s with
  | nil =>
    refine ⟨?_, ?_, ?_⟩
    · intro r h
      have fin : ∀ raw, ReadableFrom none false (textEvent raw) := by
        intro raw
        have : ReadableFrom none false (textEvent raw ++ []) := by
          rcases readable_text raw with h | ⟨x, h, hx⟩
          · rw [h]; trivial
          · rw [h]; exact ReadableFrom.text (by simpa using hx) (by simp) (by simp) trivial
        simpa using this
      have one : ∀ (d : Bool) (x : HTok), Readable x → x.type ≠ .text → ReadableFrom none d [x] :=
        fun d x hx ht => ReadableFrom.token d hx ht trivial
      cases r with
      | text raw => exact fin _
      | lt raw => exact fin _
      | ltSlash raw => exact fin _
      | bang acc => exact one _ _ readable_comment (by simp [commentEvent])
      | bogus acc => exact one _ _ readable_comment (by simp [commentEvent])
      | comment acc => exact one _ _ readable_comment (by simp [commentEvent])
      | doctype acc => exact one _ _ readable_doctype (by simp [doctypeEvent])
      | name => trivial
      | attrs => trivial
      | key => trivial
      | afterKey => trivial
      | beforeValue => trivial
      | value => trivial
    · intro n acc hn
      have := ReadableFrom.text (ctx := some n) (hs := []) (readable_raw n acc).1 (readable_raw n acc).2.1 (fun _ => (readable_raw n acc).2.2) trivial
      simpa [DocReading.run, DocReading.finish] using this
    · intro r n h ht hp
      cases r <;> simp [Reading.inTag] at ht <;> trivial
  | cons b s ih =>
    obtain ⟨ih1, ih2, ih3⟩ := ih
    have next : ∀ {h : HTok} {r : Reading}, r.OK → r.inText = true →
        ReadableFrom (if h.opensRawText then some h.data else none) false
          ((if h.opensRawText then DocReading.raw h.data [] else .html r).run s) := by
      intro h r hr ht
      split
      · rename_i ho
        exact ih2 _ _ (opens_raw ho)
      · have := ih1 r hr
        rwa [ht] at this
    refine ⟨?_, ?_, ?_⟩
    · intro r h
      obtain ⟨h1, h2⟩ := step_kind r b h
      rw [DocReading.run, DocReading.step]
      generalize (r.step b).1 = out at h2 ⊢
      generalize (r.step b).2 = r' at h1 h2 ⊢
      cases h2 with
      | none hk =>
        have := ih1 r' h1
        rw [hk] at this
        simpa [DocReading.after] using this
      | text k1 k2 k3 k4 =>
        rw [after_html fun x hx => by simp [HTok.opensRawText, (k3 x hx).2]]
        have := ih1 r' h1
        rw [k2] at this
        rw [k1]
        exact ReadableFrom.text k3 k4 (by simp) this
      | @token x k1 k2 k3 k4 =>
        have hn := next (h := x) h1 k2
        have : DocReading.after [x] r' = if x.opensRawText then .raw x.data [] else .html r' := by
          simp [DocReading.after]
        rw [this]
        exact ReadableFrom.token _ k3 k4 hn
      | @both out x k1 k2 k3 k4 k5 k6 =>
        have hn := next (h := x) h1 k2
        have : DocReading.after (out ++ [x]) r' = if x.opensRawText then .raw x.data [] else .html r' := by
          simp [DocReading.after]
        rw [this, k1, List.append_assoc]
        exact ReadableFrom.text k3 k4 (by simp) (ReadableFrom.token _ k5 k6 hn)
    · intro n acc hn
      rw [DocReading.run, DocReading.step]
      split
      · rename_i he
        obtain ⟨he, hc⟩ := he
        have hp : n ≠ str "plaintext" := by
          simp only [closesRaw, Bool.and_eq_true, bne_iff_ne, ne_eq] at hc
          exact hc.1
        rw [endsWithTag_snoc, Bool.and_eq_true] at he
        simp only [List.append_assoc]
        refine ReadableFrom.text (readable_raw n _).1 (readable_raw n _).2.1 (fun _ => (readable_raw n _).2.2) ?_
        have htag := rawNames_tagLike n hn
        have h0 : AttrsLike [] := by intro a ha; simp at ha
        simp only [Reading.step]
        split
        · exact ih3 _ n ⟨.inr rfl, htag, h0⟩ rfl hp
        split
        · exact ih3 _ n ⟨.inr rfl, htag, h0, keyLike_nil⟩ rfl hp
        split
        · refine ⟨(readable_tag htag h0).1, fun ht => absurd ht (readable_tag htag h0).2, ?_, ?_⟩
          · intro m hm _
            simp only [Option.mem_def, Option.some.injEq] at hm
            subst hm
            exact ⟨rfl, rfl, hp⟩
          · have := ih1 (.text []) trivial
            exact this
        · rename_i c1 c2 c3
          simp [c1, c2, c3] at he
      · exact ih2 _ _ hn
    · intro r n h ht hp
      obtain ⟨h1, h2⟩ := step_kind r b h
      rw [DocReading.run, DocReading.step]
      rcases inTag_step ht b with ⟨c1, c2⟩ | ⟨as, slash, hst⟩
      · rw [c1]
        exact ih3 _ n h1 c2 hp
      · rw [hst] at h1 h2 ⊢
        have hev : tagEvent .endTag n as slash = ⟨.endTag, atomOf n, n, []⟩ := by simp [tagEvent]
        have hop : (tagEvent .endTag n as slash).opensRawText = false := by rw [hev]; rfl
        rw [after_html (by simpa using hop)]
        have hre : Readable (tagEvent .endTag n as slash) := by
          cases r <;> simp [Reading.inTag] at ht <;> obtain ⟨rfl, rfl⟩ := ht
          all_goals
            have htag := h.2.1
            have h0 : AttrsLike [] := by intro a ha; simp at ha
            rw [hev]
            exact (readable_tag (ty := .endTag) (slash := false) htag h0).1
        refine ⟨hre, fun hx => ?_, ?_, ?_⟩
        · rw [hev] at hx; simp at hx
        · intro m hm _
          simp only [Option.mem_def, Option.some.injEq] at hm
          subst hm
          rw [hev]
          exact ⟨rfl, rfl, hp⟩
        · have e1 : rawAfter (some n) (tagEvent .endTag n as slash) = none := by
            rw [rawAfter, hop, hev]; simp
          have e2 : ((tagEvent .endTag n as slash).type == HType.text) = false := by rw [hev]; rfl
          rw [e1, e2]
          exact ih1 (.text []) trivial

/-- What is read is `ReadableDoc`. -/
theorem htmlTokens_readable (s : Bytes) : ReadableDoc (htmlTokens s) := (run_readable s).1 (.text []) trivial

end Jargon
