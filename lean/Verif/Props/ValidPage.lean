import Verif.Props.ValidOutput
import Verif.Proofs.HtmlRead
import Verif.Props.HtmlVerbatim

/-! C134: the tokens of a page are valid UTF-8 if its bytes are. -/

namespace Jargon

/-! ### Valid text and ASCII -/

/-- The bytes of characters other than those of ASCII. -/
def HighBytes (s : Bytes) : Prop := ∀ b ∈ s, 0x80 ≤ b.toNat

theorem validText_one {b : UInt8} (h : b.toNat < 0x80) : ValidText [b] := validText_ascii (by simpa using h)

theorem validText_induct {P : (s : Bytes) → ValidText s → Prop} (h0 : P [] validText_nil)
    (h1 : ∀ b s (hb : b.toNat < 0x80) (hs : ValidText s), P s hs → P (b :: s) ((validText_one hb).append hs))
    (h2 : ∀ x s, HighBytes x → x ≠ [] → ∀ (hx : ValidText x) (hs : ValidText s), P s hs → P (x ++ s) (hx.append hs))
    {s : Bytes} (h : ValidText s) : P s h := by
  obtain ⟨rs, hv, rfl⟩ := h.runes
  induction rs with
  | nil => exact h0
  | cons r rs ih =>
    have hr := hv r (by simp)
    have hs := validText_encode fun r h => hv r (.tail _ h)
    have ht := ih (fun r h => hv r (.tail _ h)) hs
    have e : encodeRunes (r :: rs) = encodeRune r ++ encodeRunes rs := rfl
    revert h
    rw [e]
    intro h
    by_cases h8 : r < 0x80
    · revert h
      rw [encodeRune_ascii h8]
      intro _
      exact h1 _ _ (by rw [toNat_ofNat (by omega)]; exact h8) hs ht
    · refine h2 _ _ ?_ (encodeRune_ne_nil r) ?_ hs ht
      · rw [encodeRune_valid hr]
        exact encodeValid_high hr (by omega)
      · have := validText_encode (rs := [r]) (by simpa using hr)
        simpa [encodeRunes] using this

/-- A text may be cut before an ASCII character. -/
theorem ValidText.before {s : Bytes} (h : ValidText s) : ∀ x b y, s = x ++ b :: y → b.toNat < 0x80 → ValidText x := by
  induction h using validText_induct with
  | h0 => intro x b y he; simp at he
  | h1 c s hc hs ih =>
    intro x b y he hb
    cases x with
    | nil => exact validText_nil
    | cons d x =>
      simp only [List.cons_append, List.cons.injEq] at he
      obtain ⟨rfl, he⟩ := he
      exact (validText_one hc).append (ih x b y he hb)
  | h2 z s hz _ hvz hs ih =>
    intro x b y he hb
    rcases List.append_eq_append_iff.1 he with ⟨w, rfl, hw⟩ | ⟨w, hw1, hw2⟩
    · exact hvz.append (ih w b y hw hb)
    · cases w with
      | nil => rw [List.append_nil] at hw1; rw [← hw1]; exact hvz
      | cons c w =>
        simp only [List.cons_append, List.cons.injEq] at hw2
        have := hz c (by rw [hw1]; simp)
        rw [← hw2.1] at this
        omega

/-- And after one. -/
theorem ValidText.after {b : UInt8} {y : Bytes} (h : ValidText (b :: y)) (hb : b.toNat < 0x80) : ValidText y := by
  have : ∀ s, ValidText s → ∀ b y, s = b :: y → b.toNat < 0x80 → ValidText y := by
    intro s hs
    induction hs using validText_induct with
    | h0 => intro b y he; cases he
    | h1 c s _ hs _ => intro b y he _; cases he; exact hs
    | h2 z s hz hne _ _ _ =>
      intro b y he hb
      cases z with
      | nil => exact absurd rfl hne
      | cons c z =>
        simp only [List.cons_append, List.cons.injEq] at he
        have := hz c (by simp)
        rw [he.1] at this
        omega
  exact this _ h b y rfl hb

theorem ValidText.drop {n : Nat} : ∀ {s : Bytes}, ValidText s → (∀ b ∈ s.take n, b.toNat < 0x80) → ValidText (s.drop n) := by
  induction n with
  | zero => intro s h _; exact h
  | succ n ih =>
    intro s h ha
    cases s with
    | nil => exact h
    | cons b s => exact ih (h.after (ha b (by simp))) fun c hc => ha c (by simp [hc])

theorem ValidText.dropEnd {x y : Bytes} (h : ValidText (x ++ y)) (hy : ∀ b ∈ y, b.toNat < 0x80) : ValidText x := by
  cases y with
  | nil => simpa using h
  | cons b y => exact h.before x b y rfl (hy b (by simp))

/-! ### The text of tokens -/

theorem convertNewlines_high {x : Bytes} (hx : HighBytes x) (s : Bytes) :
    convertNewlines (x ++ s) = x ++ convertNewlines s := by
  induction x with
  | nil => rfl
  | cons b x ih =>
    have hb := hx b (by simp)
    have hne : b ≠ 0x0D := by rintro rfl; revert hb; decide
    have ih := ih fun b h => hx b (.tail _ h)
    rw [List.cons_append, List.cons_append, ← ih]
    generalize x ++ s = l
    cases l with
    | nil => simp [convertNewlines, hne]
    | cons c l => simp [convertNewlines, hne]

theorem convertNewlines_ascii {b : UInt8} (hb : b.toNat < 0x80) (s : Bytes) :
    ∃ a, ValidText a ∧ convertNewlines (b :: s) = a ++ convertNewlines s := by
  have h1 := validText_one hb
  have h2 : ValidText [0x0A] := validText_one (by decide)
  cases s with
  | nil =>
    by_cases h : b = 0x0D
    · exact ⟨[0x0A], h2, by simp [convertNewlines, h]⟩
    · exact ⟨[b], h1, by simp [convertNewlines, h]⟩
  | cons c s =>
    by_cases h : b = 0x0D
    · by_cases h' : c = 0x0A
      · exact ⟨[], validText_nil, by simp [convertNewlines, h, h']⟩
      · exact ⟨[0x0A], h2, by simp [convertNewlines, h, h']⟩
    · exact ⟨[b], h1, by simp [convertNewlines, h]⟩

theorem convertNewlines_valid {s : Bytes} (h : ValidText s) : ValidText (convertNewlines s) := by
  induction h using validText_induct with
  | h0 => exact validText_nil
  | h1 b s hb _ ih =>
    obtain ⟨a, ha, e⟩ := convertNewlines_ascii hb s
    rw [e]
    exact ha.append ih
  | h2 x s hx _ hv _ ih =>
    rw [convertNewlines_high hx]
    exact hv.append ih

theorem replaceNul_high {x : Bytes} (hx : HighBytes x) : replaceNul x = x := by
  induction x with
  | nil => rfl
  | cons b x ih =>
    have hb := hx b (by simp)
    have hne : b ≠ 0 := by rintro rfl; revert hb; decide
    have e : replaceNul (b :: x) = (if b = 0 then [0xEF, 0xBF, 0xBD] else [b]) ++ replaceNul x := by simp [replaceNul]
    rw [e, if_neg hne, ih fun c hc => hx c (.tail _ hc)]
    rfl

theorem replaceNul_valid {s : Bytes} (h : ValidText s) : ValidText (replaceNul s) := by
  have app : ∀ x y, replaceNul (x ++ y) = replaceNul x ++ replaceNul y := by simp [replaceNul]
  induction h using validText_induct with
  | h0 => exact validText_nil
  | h1 b s hb _ ih =>
    rw [show b :: s = [b] ++ s from rfl, app]
    refine .append ?_ ih
    by_cases h : b = 0
    · rw [show replaceNul [b] = [0xEF, 0xBF, 0xBD] by simp [replaceNul, h]]
      exact validText_iff.2 (by decide +kernel)
    · rw [show replaceNul [b] = [b] by simp [replaceNul, h]]
      exact validText_one hb
  | h2 x s hx _ hv _ ih =>
    rw [app]
    refine .append ?_ ih
    rw [replaceNul_high hx]
    exact hv

theorem encodeRune_text (r : Rune) : ValidText (encodeRune r) := by
  by_cases h : ValidRune r
  · have := validText_encode (rs := [r]) (by simpa using h)
    simpa [encodeRunes] using this
  · rw [show encodeRune r = encodeRune 0xFFFD by unfold encodeRune; rw [if_neg h, if_pos (by decide)]; rfl]
    exact validText_iff.2 (by decide +kernel)

theorem digit_ascii {hex : Bool} {b : UInt8} (h : (digitOf hex b).isSome = true) : b.toNat < 0x80 := by
  have key : ∀ hex : Bool, ∀ n < 256, (digitOf hex (UInt8.ofNat n)).isSome = true → n < 0x80 := by decide +kernel
  have := key hex b.toNat b.toNat_lt
  rw [ofNat_eq rfl] at this
  exact this h

theorem name_ascii {b : UInt8} (h : isNameByte b = true) : b.toNat < 0x80 := by
  have key : ∀ n < 256, isNameByte (UInt8.ofNat n) = true → n < 0x80 := by decide +kernel
  have := key b.toNat b.toNat_lt
  rw [ofNat_eq rfl] at this
  exact this h

theorem mem_takeWhile {q : UInt8 → Bool} {s : Bytes} {b : UInt8} (h : b ∈ s.takeWhile q) : q b = true := by
  induction s with
  | nil => simp at h
  | cons c s ih =>
    rw [List.takeWhile_cons] at h
    split at h
    · rcases List.mem_cons.1 h with rfl | h
      · assumption
      · exact ih h
    · simp at h

/-- The bytes of a certain kind at the front and a semicolon after them. -/
theorem front_ascii {q : UInt8 → Bool} (hq : ∀ b, q b = true → b.toNat < 0x80) (s : Bytes) :
    ∀ b ∈ s.take ((s.takeWhile q).length + (if (s.drop (s.takeWhile q).length).head? = some 0x3B then 1 else 0)),
      b.toNat < 0x80 := by
  induction s with
  | nil => simp
  | cons c s ih =>
    by_cases hc : q c = true
    · intro b hb
      simp only [List.takeWhile_cons, hc, if_true, List.length_cons, List.drop_succ_cons] at hb
      rw [Nat.add_right_comm, List.take_succ_cons] at hb
      rcases List.mem_cons.1 hb with rfl | hb
      · exact hq _ hc
      · exact ih b hb
    · intro b hb
      simp only [List.takeWhile_cons, hc, if_false, List.length_nil, List.drop_zero, List.head?_cons, Option.some.injEq,
        Bool.false_eq_true] at hb
      split at hb
      · rename_i h
        subst h
        simp at hb
        subst hb
        decide
      · simp at hb

theorem numericRef_valid (hex : Bool) {pre s : Bytes} (hp : ∀ b ∈ pre, b.toNat < 0x80) :
    ValidText (numericRef hex pre.length s).1 ∧
      ∀ b ∈ (pre ++ s).take (numericRef hex pre.length s).2, b.toNat < 0x80 := by
  unfold numericRef
  simp only
  have hf := front_ascii (fun b => digit_ascii (hex := hex)) s
  generalize (if (s.drop (s.takeWhile fun b => (digitOf hex b).isSome).length).head? = some 0x3B then 1 else 0) = c at *
  split
  · exact ⟨validText_one (by decide), by simp⟩
  · refine ⟨encodeRune_text _, fun b hb => ?_⟩
    rw [Nat.add_assoc, List.take_length_add_append] at hb
    rcases List.mem_append.1 hb with hb | hb
    · exact hp b hb
    · exact hf b hb

section
variable [HtmlReader]

theorem prefixRef_le {name : Bytes} {r : Rune × Nat} : ∀ j, prefixRef name j = some r → r.2 ≤ j := by
  intro j
  induction j using Nat.strongRecOn with
  | _ j ih =>
    intro h
    match j, h with
    | j + 2, h =>
      rw [prefixRef] at h
      split at h
      · cases h; exact Nat.le_refl _
      · exact Nat.le_succ_of_le (ih (j + 1) (by omega) h)

theorem namedRef_valid (f : Bool) (s : Bytes) :
    ValidText (namedRef f s).1 ∧ ∀ b ∈ s.take (namedRef f s).2, b.toNat < 0x80 := by
  have hf := front_ascii (fun b => name_ascii) s
  have hn : ∀ name, name = (if (s.drop (s.takeWhile isNameByte).length).head? = some 0x3B then
      s.takeWhile isNameByte ++ [0x3B] else s.takeWhile isNameByte) →
      (∀ b ∈ name, b.toNat < 0x80) ∧ ∀ n ≤ name.length, ∀ b ∈ s.take n, b.toNat < 0x80 := by
    rintro name rfl
    constructor
    · intro b hb
      have hl : ∀ b ∈ s.takeWhile isNameByte, b.toNat < 0x80 := fun b hb => name_ascii (mem_takeWhile hb)
      split at hb
      · rcases List.mem_append.1 hb with hb | hb
        · exact hl b hb
        · simp at hb; subst hb; decide
      · exact hl b hb
    · intro n h b hb
      refine hf b ((List.take_sublist_take_left ?_).subset hb)
      split at h <;> simp_all
  unfold namedRef
  simp only
  generalize hname : (if (s.drop (s.takeWhile isNameByte).length).head? = some 0x3B then
      s.takeWhile isNameByte ++ [0x3B] else s.takeWhile isNameByte) = name
  obtain ⟨h1, h2⟩ := hn name hname.symm
  have amp : ValidText (0x26 :: name) := (validText_one (b := 0x26) (by decide)).append (validText_ascii h1)
  split
  · exact ⟨validText_one (by decide), by simp⟩
  split
  · exact ⟨amp, h2 _ (Nat.le_refl _)⟩
  split
  · exact ⟨encodeRune_text _, h2 _ (Nat.le_refl _)⟩
  split
  · exact ⟨(encodeRune_text _).append (encodeRune_text _), h2 _ (Nat.le_refl _)⟩
  split
  · rename_i r hr
    refine ⟨encodeRune_text _, h2 _ ?_⟩
    split at hr
    · cases hr
    · exact (prefixRef_le _ hr).trans (by omega)
  · exact ⟨amp, h2 _ (Nat.le_refl _)⟩

theorem charRef_valid (f : Bool) (s : Bytes) :
    ValidText (charRef f s).1 ∧ ∀ b ∈ s.take (charRef f s).2, b.toNat < 0x80 := by
  unfold charRef
  split
  · rename_i t
    split
    · exact ⟨validText_one (by decide), by simp⟩
    split
    · rename_i h
      cases t with
      | nil => simp at h
      | cons x t =>
        have hx : x.toNat < 0x80 := by
          simp only [List.head?_cons, Option.some.injEq] at h
          rcases h with rfl | rfl <;> decide
        exact numericRef_valid true (pre := [0x23, x]) (s := t) (by simp [hx])
    · exact numericRef_valid false (pre := [0x23]) (s := t) (by simp)
  · exact namedRef_valid f s

theorem resolve_drop (f : Bool) (n : Nat) : ∀ s, resolve f n s = resolve f 0 (s.drop n) := by
  induction n with
  | zero => simp
  | succ n ih =>
    intro s
    cases s with
    | nil => simp [resolve]
    | cons b s => rw [resolve, ih, List.drop_succ_cons]

theorem resolve_high (f : Bool) {x : Bytes} (hx : HighBytes x) (s : Bytes) : resolve f 0 (x ++ s) = x ++ resolve f 0 s := by
  induction x with
  | nil => rfl
  | cons b x ih =>
    have hb := hx b (by simp)
    rw [List.cons_append, resolve, if_neg (by rintro rfl; revert hb; decide), ih fun c hc => hx c (.tail _ hc)]
    rfl

theorem resolve_valid (f : Bool) {s : Bytes} (h : ValidText s) : ValidText (resolve f 0 s) := by
  induction hn : s.length using Nat.strongRecOn generalizing s with
  | _ n ih =>
    subst hn
    have : ∀ t, ValidText t → t = s → ValidText (resolve f 0 t) := by
      intro t ht
      induction ht using validText_induct with
      | h0 => intro _; simpa [resolve] using validText_nil
      | h1 b t hb ht _ =>
        rintro rfl
        rw [resolve]
        split
        · obtain ⟨h1, h2⟩ := charRef_valid f t
          rw [resolve_drop]
          refine h1.append (ih _ ?_ (ht.drop h2) rfl)
          rw [List.length_drop, List.length_cons]
          omega
        · exact (validText_one hb).append (ih _ (by simp) ht rfl)
      | h2 x t hx hne hv ht _ =>
        rintro rfl
        rw [resolve_high f hx]
        refine hv.append (ih _ ?_ ht rfl)
        have := List.length_pos_of_ne_nil hne
        rw [List.length_append]
        omega
    exact this s h rfl

theorem cook_valid {s : Bytes} (h : ValidText s) : ValidText (cookText s) ∧ ValidText (cookRcdata s) ∧
    ValidText (cookValue s) ∧ ValidText (cookRaw s) :=
  ⟨resolve_valid _ (convertNewlines_valid h), resolve_valid _ (replaceNul_valid (convertNewlines_valid h)),
    resolve_valid _ (convertNewlines_valid h), replaceNul_valid (convertNewlines_valid h)⟩

/-! ### The reader -/

/-- A valid text and then part of a character. -/
def UpTo (p s : Bytes) : Prop := ∃ v, ValidText v ∧ s = v ++ p

omit [HtmlReader] in
theorem UpTo.nil {s : Bytes} (h : ValidText s) : UpTo [] s := ⟨s, h, by simp⟩

omit [HtmlReader] in
theorem UpTo.valid {s : Bytes} (h : UpTo [] s) : ValidText s := by
  obtain ⟨v, hv, rfl⟩ := h
  simpa using hv

omit [HtmlReader] in
theorem UpTo.flush {p s : Bytes} (hp : ValidText p) (h : UpTo p s) : UpTo [] s := by
  obtain ⟨v, hv, rfl⟩ := h
  exact .nil (hv.append hp)

omit [HtmlReader] in
theorem UpTo.ascii {s : Bytes} {b : UInt8} (h : UpTo [] s) (hb : b.toNat < 0x80) : UpTo [] (s ++ [b]) :=
  .nil (h.valid.append (validText_one hb))

omit [HtmlReader] in
theorem UpTo.high {p s : Bytes} (h : UpTo p s) (b : UInt8) : UpTo (p ++ [b]) (s ++ [b]) := by
  obtain ⟨v, hv, rfl⟩ := h
  exact ⟨v, hv, by simp⟩

omit [HtmlReader] in
theorem UpTo.start (b : UInt8) : UpTo [b] [b] := ⟨[], validText_nil, rfl⟩

def AttrsValid (l : List (Bytes × Bytes)) : Prop := ∀ a ∈ l, ValidText a.1 ∧ ValidText a.2

omit [HtmlReader] in
theorem AttrsValid.add {l : List (Bytes × Bytes)} {k v : Bytes} (h : AttrsValid l) (hk : ValidText k) (hv : ValidText v) :
    AttrsValid (addAttr l k v) := by
  unfold addAttr
  split
  · exact h
  · intro a ha
    rcases List.mem_append.1 ha with ha | ha
    · exact h a ha
    · rw [List.mem_singleton.1 ha]
      exact ⟨hk, hv⟩

omit [HtmlReader] in
theorem tagEvent_valid {type : HType} {tag : Bytes} {l : List (Bytes × Bytes)} (slash : Bool) (h : ValidText tag)
    (hl : AttrsValid l) : (tagEvent type tag l slash).Valid := by
  unfold tagEvent
  split
  · exact ⟨h, by simp⟩
  · exact ⟨h, hl⟩

/-- All that has been read is valid but for the part `p` of a character at the end. -/
def Reading.UpTo (p : Bytes) : Reading → Prop
  | .text raw => Jargon.UpTo p raw
  | .lt raw | .ltSlash raw | .bang raw => p = [] ∧ ValidText raw
  | .comment acc dashes excl =>
    (p = [] ∧ (∀ k ≤ dashes, ValidText (acc.take (acc.length - k))) ∧
      (excl = true → ValidText (acc.take (acc.length - 3)))) ∨
    (dashes = 0 ∧ excl = false ∧ Jargon.UpTo p acc)
  | .bogus acc | .doctype acc | .name _ acc => Jargon.UpTo p acc
  | .attrs _ tag old _ => p = [] ∧ ValidText tag ∧ AttrsValid old
  | .key _ tag old k => ValidText tag ∧ AttrsValid old ∧ Jargon.UpTo p k
  | .afterKey _ tag old k _ | .beforeValue _ tag old k => p = [] ∧ ValidText tag ∧ AttrsValid old ∧ ValidText k
  | .value _ tag old k q acc => ValidText tag ∧ AttrsValid old ∧ ValidText k ∧ (∀ c, q = some c → c.toNat < 0x80) ∧
      Jargon.UpTo p acc

omit [HtmlReader] in
theorem Reading.UpTo.flush {p : Bytes} {r : Reading} (hp : ValidText p) (h : r.UpTo p) : r.UpTo [] := by
  cases r with
  | text raw | bogus raw | doctype raw | name _ raw => exact Jargon.UpTo.flush hp h
  | lt raw | ltSlash raw | bang raw => exact ⟨rfl, h.2⟩
  | comment acc d e =>
    rcases h with ⟨-, h1, h2⟩ | ⟨h1, h2, h3⟩
    · exact .inl ⟨rfl, h1, h2⟩
    · exact .inr ⟨h1, h2, h3.flush hp⟩
  | attrs _ tag old _ => exact ⟨rfl, h.2⟩
  | key _ tag old k => exact ⟨h.1, h.2.1, h.2.2.flush hp⟩
  | afterKey _ tag old k _ => exact ⟨rfl, h.2⟩
  | beforeValue _ tag old k => exact ⟨rfl, h.2⟩
  | value _ tag old k q acc => exact ⟨h.1, h.2.1, h.2.2.1, h.2.2.2.1, h.2.2.2.2.flush hp⟩

theorem textEvent_valid {raw : Bytes} (h : ValidText raw) : ∀ t ∈ textEvent raw, t.Valid := by
  unfold textEvent
  split
  · simp
  · intro t ht
    rw [List.mem_singleton.1 ht]
    exact ⟨(cook_valid h).1, by simp⟩

theorem commentEvent_valid {s : Bytes} (h : ValidText s) : (commentEvent s).Valid := ⟨(cook_valid h).2.1, by simp [commentEvent]⟩

theorem doctypeEvent_valid {s : Bytes} (h : ValidText s) : (doctypeEvent s).Valid := ⟨(cook_valid h).1, by simp [doctypeEvent]⟩

omit [HtmlReader] in
theorem lowerByte_ascii {b : UInt8} (h : b.toNat < 0x80) : (lowerByte b).toNat < 0x80 := by
  have key : ∀ n < 0x80, (lowerByte (UInt8.ofNat n)).toNat < 0x80 := by decide +kernel
  have := key b.toNat h
  rwa [ofNat_eq rfl] at this

omit [HtmlReader] in
/-- The comment so far, whatever the number of dashes. -/
theorem comment_valid {acc : Bytes} {d : Nat} {e : Bool} (h : (Reading.comment acc d e).UpTo []) :
    (∀ k ≤ d, ValidText (acc.take (acc.length - k))) ∧ (e = true → ValidText (acc.take (acc.length - 3))) := by
  rcases h with ⟨-, h1, h2⟩ | ⟨rfl, rfl, h3⟩
  · exact ⟨h1, h2⟩
  · refine ⟨fun k hk => ?_, by simp⟩
    obtain rfl : k = 0 := by omega
    simpa using h3.valid

theorem Reading.UpTo.ascii {r : Reading} {b : UInt8} (h : r.UpTo []) (hb : b.toNat < 0x80) :
    (∀ t ∈ (r.step b).1, t.Valid) ∧ (r.step b).2.UpTo [] := by
  have nil := validText_nil
  have one := validText_one hb
  have low := lowerByte_ascii hb
  have lone := validText_one low
  have nilA : AttrsValid [] := by simp [AttrsValid]
  cases r with
  | text raw =>
    simp only [Reading.step]
    split
    · exact ⟨by simp, rfl, h.valid⟩
    · exact ⟨by simp, Jargon.UpTo.ascii h hb⟩
  | lt raw =>
    have hr := textEvent_valid h.2
    simp only [Reading.step]
    split
    · exact ⟨hr, .nil lone⟩
    split
    · exact ⟨by simp, rfl, h.2⟩
    split
    · exact ⟨hr, rfl, nil⟩
    split
    · exact ⟨hr, .nil one⟩
    split
    · exact ⟨by simp, rfl, h.2.append (validText_one (by decide))⟩
    · exact ⟨by simp, .nil (h.2.append ((validText_one (b := 0x3C) (by decide)).append one))⟩
  | ltSlash raw =>
    have hr := textEvent_valid h.2
    simp only [Reading.step]
    split
    · exact ⟨hr, .nil lone⟩
    split
    · refine ⟨fun t ht => ?_, .nil nil⟩
      rcases List.mem_append.1 ht with ht | ht
      · exact hr t ht
      · rw [List.mem_singleton.1 ht]; exact commentEvent_valid nil
    · exact ⟨hr, .nil one⟩
  | bang acc =>
    simp only [Reading.step]
    split
    · refine ⟨by simpa using commentEvent_valid nil, ?_⟩
      split
      · exact ⟨rfl, nil⟩
      · exact .nil one
    split
    · refine ⟨by simp, .inl ⟨rfl, fun k _ => ?_, fun _ => ?_⟩⟩ <;> simpa using nil
    split
    · exact ⟨by simp, rfl, one⟩
    split
    · split
      · exact ⟨by simp, .nil nil⟩
      · exact ⟨by simp, rfl, h.2.append one⟩
    split
    · exact ⟨by simpa using commentEvent_valid h.2, .nil nil⟩
    · exact ⟨by simp, .nil (h.2.append one)⟩
  | comment acc d e =>
    obtain ⟨h1, h2⟩ := comment_valid h
    have h0 : ValidText acc := by simpa using h1 0 (by omega)
    have next : (Reading.comment (acc ++ [b]) 0 false).UpTo [] := .inr ⟨rfl, rfl, .nil (h0.append one)⟩
    simp only [Reading.step]
    split
    · split
      · exact ⟨by simpa using commentEvent_valid (h2 ‹_›), .nil nil⟩
      · exact ⟨by simp, next⟩
    split
    · refine ⟨by simp, .inl ⟨rfl, fun k hk => ?_, by simp⟩⟩
      cases k with
      | zero => rw [Nat.sub_zero, List.take_length]; exact h0.append one
      | succ k =>
        have := h1 k (by omega)
        rwa [List.length_append, List.length_singleton, Nat.add_sub_add_right,
          List.take_append_of_le_length (Nat.sub_le _ _)]
    split
    · rename_i hd
      exact ⟨by simpa using commentEvent_valid (h1 2 hd.2), .nil nil⟩
    · refine ⟨by simp, .inl ⟨rfl, fun k hk => ?_, fun he => ?_⟩⟩
      · obtain rfl : k = 0 := by omega
        rw [Nat.sub_zero, List.take_length]
        exact h0.append one
      · have := h1 2 (by simpa using (of_decide_eq_true he).2)
        rwa [List.length_append, List.length_singleton, show acc.length + 1 - 3 = acc.length - 2 by omega,
          List.take_append_of_le_length (Nat.sub_le _ _)]
  | bogus acc =>
    simp only [Reading.step]
    split
    · exact ⟨by simpa using commentEvent_valid h.valid, .nil nil⟩
    · exact ⟨by simp, Jargon.UpTo.ascii h hb⟩
  | doctype acc =>
    simp only [Reading.step]
    split
    · exact ⟨by simpa using doctypeEvent_valid h.valid, .nil nil⟩
    split
    · exact ⟨by simp, .nil nil⟩
    · exact ⟨by simp, Jargon.UpTo.ascii h hb⟩
  | name type acc =>
    simp only [Reading.step]
    split
    · exact ⟨by simp, rfl, h.valid, nilA⟩
    split
    · exact ⟨by simp, rfl, h.valid, nilA, nil⟩
    split
    · exact ⟨by simpa using tagEvent_valid _ h.valid nilA, .nil nil⟩
    · exact ⟨by simp, Jargon.UpTo.ascii h low⟩
  | attrs type tag old slash =>
    obtain ⟨-, h1, h2⟩ := h
    simp only [Reading.step]
    split
    · exact ⟨by simp, rfl, h1, h2⟩
    split
    · exact ⟨by simp, rfl, h1, h2, nil⟩
    split
    · exact ⟨by simpa using tagEvent_valid _ h1 h2, .nil nil⟩
    split
    · exact ⟨by simp, rfl, h1, h2, nil⟩
    · exact ⟨by simp, h1, h2, .nil lone⟩
  | key type tag old k =>
    obtain ⟨h1, h2, h3⟩ := h
    simp only [Reading.step]
    split
    · exact ⟨by simp, rfl, h1, h2, h3.valid⟩
    split
    · exact ⟨by simp, rfl, h1, h2, h3.valid⟩
    split
    · exact ⟨by simpa using tagEvent_valid _ h1 (h2.add h3.valid nil), .nil nil⟩
    split
    · exact ⟨by simp, rfl, h1, h2, h3.valid⟩
    · exact ⟨by simp, h1, h2, h3.ascii low⟩
  | afterKey type tag old k slash =>
    obtain ⟨-, h1, h2, h3⟩ := h
    simp only [Reading.step]
    split
    · exact ⟨by simp, rfl, h1, h2, h3⟩
    split
    · refine ⟨by simp, ?_⟩
      split
      · exact ⟨rfl, h1, h2.add h3 nil⟩
      · exact ⟨rfl, h1, h2.add h3 nil, nil⟩
    split
    · exact ⟨by simpa using tagEvent_valid _ h1 (h2.add h3 nil), .nil nil⟩
    split
    · exact ⟨by simp, rfl, h1, h2, h3⟩
    · exact ⟨by simp, h1, h2.add h3 nil, .nil lone⟩
  | beforeValue type tag old k =>
    obtain ⟨-, h1, h2, h3⟩ := h
    simp only [Reading.step]
    split
    · exact ⟨by simp, rfl, h1, h2, h3⟩
    split
    · exact ⟨by simp, h1, h2, h3, fun c hc => by cases hc; exact hb, .nil nil⟩
    split
    · exact ⟨by simpa using tagEvent_valid _ h1 (h2.add h3 nil), .nil nil⟩
    · exact ⟨by simp, h1, h2, h3, by simp, .nil one⟩
  | value type tag old k q acc =>
    obtain ⟨h1, h2, h3, h4, h5⟩ := h
    have hv := (cook_valid h5.valid).2.2.1
    cases q with
    | none =>
      simp only [Reading.step]
      split
      · exact ⟨by simp, rfl, h1, h2.add h3 hv⟩
      split
      · exact ⟨by simpa using tagEvent_valid _ h1 (h2.add h3 hv), .nil nil⟩
      · exact ⟨by simp, h1, h2, h3, h4, h5.ascii hb⟩
    | some c =>
      simp only [Reading.step]
      split
      · exact ⟨by simp, rfl, h1, h2.add h3 hv⟩
      · exact ⟨by simp, h1, h2, h3, h4, h5.ascii hb⟩

omit [HtmlReader] in
/-- What a byte that is not ASCII is not. -/
theorem high_byte {b : UInt8} (hb : 0x80 ≤ b.toNat) : (∀ c : UInt8, c.toNat < 0x80 → b ≠ c) ∧ isTagLetter b = false ∧
    isHtmlSpace b = false ∧ lowerByte b = b := by
  refine ⟨fun c hc h => by subst h; omega, ?_⟩
  have key : ∀ n < 256, 0x80 ≤ n → isTagLetter (UInt8.ofNat n) = false ∧ isHtmlSpace (UInt8.ofNat n) = false ∧
    lowerByte (UInt8.ofNat n) = UInt8.ofNat n := by decide +kernel
  have := key b.toNat b.toNat_lt hb
  rwa [ofNat_eq rfl] at this

omit [HtmlReader] in
theorem doctype_high {acc : Bytes} {b : UInt8} (hb : 0x80 ≤ b.toNat) : isDoctypeStart (acc ++ [b]) = false := by
  unfold isDoctypeStart
  rw [Bool.eq_false_iff]
  intro h
  have h := (List.isPrefixOf_iff_prefix.1 h).subset (a := b) (by simp [(high_byte hb).2.2.2])
  have key : ∀ c ∈ str "doctype", c.toNat < 0x80 := by decide +kernel
  have := key b h
  omega

theorem Reading.UpTo.high {p : Bytes} {r : Reading} {b : UInt8} (h : r.UpTo p) (hb : 0x80 ≤ b.toNat) :
    (∀ t ∈ (r.step b).1, t.Valid ∧ t.opensRawText = false) ∧ (r.step b).2.UpTo (p ++ [b]) := by
  obtain ⟨hne, hl, hs, hlow⟩ := high_byte hb
  have n3C := hne 0x3C (by decide)
  have n2F := hne 0x2F (by decide)
  have n21 := hne 0x21 (by decide)
  have n3F := hne 0x3F (by decide)
  have n3E := hne 0x3E (by decide)
  have n2D := hne 0x2D (by decide)
  have n3D := hne 0x3D (by decide)
  have n22 := hne 0x22 (by decide)
  have n27 := hne 0x27 (by decide)
  have text : ∀ raw, ValidText raw → ∀ t ∈ textEvent raw, t.Valid ∧ t.opensRawText = false := by
    intro raw hv t ht
    refine ⟨textEvent_valid hv t ht, ?_⟩
    unfold textEvent at ht
    split at ht
    · simp at ht
    · rw [List.mem_singleton.1 ht]; rfl
  have start := UpTo.start b
  cases r with
  | text raw =>
    simp only [Reading.step, if_neg n3C]
    exact ⟨by simp, Jargon.UpTo.high h b⟩
  | lt raw =>
    obtain ⟨rfl, h⟩ := h
    simp only [Reading.step, hl, if_neg n2F, if_neg n21, if_neg n3F, if_neg n3C, Bool.false_eq_true, if_false]
    exact ⟨by simp, raw ++ [0x3C], h.append (validText_one (by decide)), by simp⟩
  | ltSlash raw =>
    obtain ⟨rfl, h⟩ := h
    simp only [Reading.step, hl, if_neg n3E, Bool.false_eq_true, if_false]
    exact ⟨text raw h, start⟩
  | bang acc =>
    obtain ⟨rfl, h⟩ := h
    simp only [Reading.step, if_neg n3C, doctype_high hb, Bool.false_eq_true, if_false, n2D, n3E, or_self, and_false]
    split
    · exact ⟨by simpa using ⟨commentEvent_valid validText_nil, rfl⟩, start⟩
    · exact ⟨by simp, acc, h, rfl⟩
  | comment acc d e =>
    have hu : Jargon.UpTo p acc := by
      rcases h with ⟨rfl, h1, -⟩ | ⟨-, -, h⟩
      · exact .nil (by simpa using h1 0 (by omega))
      · exact h
    have next : (Reading.comment (acc ++ [b]) 0 false).UpTo (p ++ [b]) := .inr ⟨rfl, rfl, hu.high b⟩
    simp only [Reading.step, if_neg n2D, n3E, n21, false_and, if_false, decide_false]
    split
    · exact ⟨by simp, next⟩
    · exact ⟨by simp, next⟩
  | bogus acc =>
    simp only [Reading.step, if_neg n3E]
    exact ⟨by simp, Jargon.UpTo.high h b⟩
  | doctype acc =>
    simp only [Reading.step, if_neg n3E, hs, Bool.false_eq_true, and_false, if_false]
    exact ⟨by simp, Jargon.UpTo.high h b⟩
  | name type acc =>
    simp only [Reading.step, if_neg n3E, if_neg n2F, hs, Bool.false_eq_true, if_false, hlow]
    exact ⟨by simp, Jargon.UpTo.high h b⟩
  | attrs type tag old slash =>
    obtain ⟨rfl, h1, h2⟩ := h
    simp only [Reading.step, if_neg n3E, if_neg n2F, hs, Bool.false_eq_true, if_false, hlow, n3D, false_and]
    exact ⟨by simp, h1, h2, start⟩
  | key type tag old k =>
    obtain ⟨h1, h2, h3⟩ := h
    simp only [Reading.step, if_neg n3E, if_neg n2F, hs, Bool.false_eq_true, if_false, hlow, if_neg n3D]
    exact ⟨by simp, h1, h2, h3.high b⟩
  | afterKey type tag old k slash =>
    obtain ⟨rfl, h1, h2, h3⟩ := h
    simp only [Reading.step, if_neg n3E, if_neg n2F, hs, Bool.false_eq_true, if_false, hlow, if_neg n3D]
    exact ⟨by simp, h1, h2.add h3 validText_nil, start⟩
  | beforeValue type tag old k =>
    obtain ⟨rfl, h1, h2, h3⟩ := h
    simp only [Reading.step, if_neg n3E, hs, Bool.false_eq_true, if_false, n22, n27, or_self]
    exact ⟨by simp, h1, h2, h3, by simp, start⟩
  | value type tag old k q acc =>
    obtain ⟨h1, h2, h3, h4, h5⟩ := h
    cases q with
    | none =>
      simp only [Reading.step, if_neg n3E, hs, Bool.false_eq_true, if_false]
      exact ⟨by simp, h1, h2, h3, h4, h5.high b⟩
    | some c =>
      simp only [Reading.step, if_neg (hne c (h4 c rfl))]
      exact ⟨by simp, h1, h2, h3, h4, h5.high b⟩

theorem Reading.UpTo.finish {r : Reading} (h : r.UpTo []) : ∀ t ∈ r.finish, t.Valid := by
  have lt : ValidText [0x3C] := validText_one (by decide)
  cases r with
  | text raw => exact textEvent_valid h.valid
  | lt raw => exact textEvent_valid (h.2.append lt)
  | ltSlash raw => exact textEvent_valid (h.2.append (lt.append (validText_one (b := 0x2F) (by decide))))
  | bang acc =>
    simp only [Reading.finish, List.mem_singleton, forall_eq]
    refine commentEvent_valid ?_
    split
    · exact validText_nil
    · exact h.2
  | comment acc d e =>
    obtain ⟨h1, h2⟩ := comment_valid h
    simp only [Reading.finish, List.mem_singleton, forall_eq]
    refine commentEvent_valid ?_
    split
    · simpa using h1 0 (by omega)
    · exact h1 _ (by omega)
  | bogus acc => simpa [Reading.finish] using commentEvent_valid h.valid
  | doctype acc => simpa [Reading.finish] using doctypeEvent_valid h.valid
  | _ => simp [Reading.finish]

/-- The same of a reader of documents. -/
def DocReading.UpTo (p : Bytes) : DocReading → Prop
  | .html r => r.UpTo p
  | .raw name acc => name ∈ rawNames ∧ Jargon.UpTo p acc

theorem rawEvent_valid (name : Bytes) {raw : Bytes} (h : ValidText raw) : ∀ t ∈ rawEvent name raw, t.Valid := by
  unfold rawEvent
  split
  · simp
  · intro t ht
    rw [List.mem_singleton.1 ht]
    refine ⟨?_, by simp⟩
    show ValidText (if _ then _ else _)
    split
    · exact (cook_valid h).2.1
    · exact (cook_valid h).2.2.2

omit [HtmlReader] in
theorem rawNames_ascii {name : Bytes} (h : name ∈ rawNames) : ∀ b ∈ name, b.toNat < 0x80 := by
  have key : ∀ n ∈ rawNames, ∀ b ∈ n, b.toNat < 0x80 := by decide +kernel
  exact key name h

theorem DocReading.UpTo.ascii {r : DocReading} {b : UInt8} (h : r.UpTo []) (hb : b.toNat < 0x80) :
    (∀ t ∈ (r.step b).1, t.Valid) ∧ (r.step b).2.UpTo [] := by
  cases r with
  | html r =>
    obtain ⟨h1, h2⟩ := Reading.UpTo.ascii h hb
    refine ⟨h1, ?_⟩
    simp only [DocReading.step, DocReading.after]
    split
    · split
      · rename_i ho
        simp only [HTok.opensRawText, Bool.and_eq_true, List.contains_iff_mem] at ho
        exact ⟨ho.2, .nil validText_nil⟩
      · exact h2
    · exact h2
  | raw name acc =>
    obtain ⟨hn, h⟩ := h
    have ha := rawNames_ascii hn
    simp only [DocReading.step]
    split
    · rename_i hc
      obtain ⟨h1, h2⟩ := Reading.UpTo.ascii (r := .name .endTag name) (.nil (validText_ascii ha)) hb
      refine ⟨fun t ht => ?_, h2⟩
      rcases List.mem_append.1 ht with ht | ht
      · refine rawEvent_valid name ?_ t ht
        have hc := hc.1
        simp only [endsWithTag, List.getLast?_append, List.getLast?_singleton, Option.some_or, Bool.and_eq_true,
          List.dropLast_concat, List.isSuffixOf_iff_suffix] at hc
        obtain ⟨x, hx⟩ := hc.2
        have hs := h.valid
        rw [← List.take_append_drop (acc.length - (name.length + 2)) acc] at hs
        refine hs.dropEnd fun c hm => ?_
        have hlen := congrArg List.length hx
        have h2 : (str "</").length = 2 := by decide +kernel
        simp only [List.length_append, List.length_map, h2] at hlen
        have : lowerByte c ∈ str "</" ++ name := by
          have hd := congrArg (List.drop (acc.length - (name.length + 2))) hx
          rw [List.drop_left' (by omega), ← List.map_drop] at hd
          rw [hd]
          exact List.mem_map_of_mem hm
        have hlow : (lowerByte c).toNat < 0x80 := by
          rcases List.mem_append.1 this with h | h
          · have key : ∀ b ∈ str "</", b.toNat < 0x80 := by decide +kernel
            exact key _ h
          · exact ha _ h
        by_contra hc
        rw [(high_byte (b := c) (by omega)).2.2.2] at hlow
        exact hc hlow
      · exact h1 t ht
    · exact ⟨by simp, hn, h.ascii hb⟩

theorem DocReading.UpTo.high {p : Bytes} {r : DocReading} {b : UInt8} (h : r.UpTo p) (hb : 0x80 ≤ b.toNat) :
    (∀ t ∈ (r.step b).1, t.Valid) ∧ (r.step b).2.UpTo (p ++ [b]) := by
  cases r with
  | html r =>
    obtain ⟨h1, h2⟩ := Reading.UpTo.high h hb
    refine ⟨fun t ht => (h1 t ht).1, ?_⟩
    simp only [DocReading.step, DocReading.after]
    split
    · rename_i t ht
      rw [if_neg (by simp [(h1 t (List.mem_of_getLast? ht)).2])]
      exact h2
    · exact h2
  | raw name acc =>
    obtain ⟨hn, h⟩ := h
    have he : endsWithTag (str "</") name (acc ++ [b]) = false := by
      obtain ⟨hne, -, hs, -⟩ := high_byte hb
      simp [endsWithTag, hs, hne 0x2F (by decide), hne 0x3E (by decide)]
    simp only [DocReading.step, he, Bool.false_eq_true, false_and, if_false]
    exact ⟨by simp, hn, h.high b⟩

omit [HtmlReader] in
theorem DocReading.UpTo.flush {p : Bytes} {r : DocReading} (hp : ValidText p) (h : r.UpTo p) : r.UpTo [] := by
  cases r with
  | html r => exact Reading.UpTo.flush hp h
  | raw name acc => exact ⟨h.1, h.2.flush hp⟩

theorem DocReading.run_high {x : Bytes} (hx : HighBytes x) : ∀ {p : Bytes} {r : DocReading}, r.UpTo p → ∀ s,
    ∃ (evs : List HTok) (r' : DocReading), r.run (x ++ s) = evs ++ r'.run s ∧ (∀ t ∈ evs, t.Valid) ∧ r'.UpTo (p ++ x) := by
  induction x with
  | nil => intro p r h s; exact ⟨[], r, rfl, by simp, by simpa using h⟩
  | cons b x ih =>
    intro p r h s
    obtain ⟨h1, h2⟩ := h.high (hx b (by simp))
    obtain ⟨evs, r', e, h3, h4⟩ := ih (fun c hc => hx c (.tail _ hc)) h2 s
    refine ⟨(r.step b).1 ++ evs, r', ?_, fun t ht => ?_, by simpa using h4⟩
    · rw [List.cons_append, DocReading.run, e, List.append_assoc]
    · exact (List.mem_append.1 ht).elim (h1 t) (h3 t)

theorem DocReading.run_valid {s : Bytes} (hs : ValidText s) : ∀ {r : DocReading}, r.UpTo [] → ∀ t ∈ r.run s, t.Valid := by
  induction hs using validText_induct with
  | h0 =>
    intro r h
    cases r with
    | html r => exact Reading.UpTo.finish h
    | raw name acc => exact rawEvent_valid name h.2.valid
  | h1 b s hb _ ih =>
    intro r h t ht
    obtain ⟨h1, h2⟩ := h.ascii hb
    rw [DocReading.run] at ht
    exact (List.mem_append.1 ht).elim (h1 t) (ih h2 t)
  | h2 x s hx _ hv _ ih =>
    intro r h t ht
    obtain ⟨evs, r', e, h1, h2⟩ := DocReading.run_high hx h s
    rw [e] at ht
    exact (List.mem_append.1 ht).elim (h1 t) (ih (DocReading.UpTo.flush (by simpa using hv) h2) t)

/-! ### C134 -/

/-- **C134 (page).** The tokens of a page that is valid UTF-8 are so after any pipeline of filters. -/
theorem C134_page {E : Env} (hE : E.Lawful) (hc : E.CutsBetween) (bs : List Builtin) (hb : ∀ b ∈ bs, b.OK E ∧ b.Valid)
    {page : Bytes} (h : ValidText page) (final : Option Err) :
    ∃ out e, ((tokenizeHTML E (htmlTokens page) final).filter (bs.map (Builtin.apply E))).Yields out e ∧
      (∀ t ∈ out, ValidText t.value) ∧ ValidText (out.map (·.value)).flatten :=
  C134_html hE hc bs hb (textNonempty_tokens page) (DocReading.run_valid h (.nil validText_nil))

/-- **C134 (program, pages).** If the program succeeds with `-html` on a page that is valid UTF-8, what it has written
is valid UTF-8, whatever the writer. -/
theorem C134_program_page {ω : Type} {w : Place → Writer ω} (hw : ∀ p, (w p).Lawful)
    (W : World (ω × Bytes)) (hE : W.E.Lawful) (hcut : W.E.CutsBetween) (hW : ∀ p, W.writer p = logged (w p)) (flags : Flags)
    (hv : flags.version = false) (hh : flags.html = true) (args : List Bytes) {mode : Nat}
    (hmode : W.mode = .ok mode) {src dst : Place} {fs : Fs} {l : Language}
    (hin : inputChoice (isTerminal mode) (named W.fs.openFile flags.filein) = .ok src)
    (hout : outputChoice W.fs (named W.fs.create flags.fileout) = .ok (dst, fs))
    (hl : langOf flags.lang = some l)
    (hstat : ∀ i, src = .file i → ∃ n, fs.stat i = .ok n)
    (hok : ∀ f ∈ args.filterMap flagOf, (f.filter W.snowball l).OK W.E)
    (hstem : ∀ s, ValidText s → ValidText (W.snowball.of l s))
    (hparse : (W.parse (W.source fs src)).1 = htmlTokens (W.source fs src).data)
    (hvalid : ValidText (W.source fs src).data) :
    ∃ out exit b, cliMain W flags args = Go.ret (exit, some (dst, b)) ∧ ValidText out ∧
      b.under.2 <+: (W.under dst).2 ++ out ∧ (exit = .success → b.under.2 = (W.under dst).2 ++ out) := by
  obtain ⟨toks, e, y1, y2, -⟩ := C134_page hE hcut ((args.filterMap flagOf).map (FilterFlag.filter W.snowball l))
    (fun b hb => by
      obtain ⟨f, hf, rfl⟩ := List.mem_map.mp hb
      refine ⟨hok f hf, ?_⟩
      cases f with
      | contractions => exact (C134_tables W.E.U).2.2.1
      | stack => exact (C134_tables W.E.U).1
      | stem => exact hstem
      | _ => trivial) hvalid (W.parse (W.source fs src)).2
  have hy : (programStream W flags args l (W.source fs src)).Yields toks e := by
    unfold programStream
    rw [if_pos hh, hparse]
    rwa [List.map_map] at y1
  obtain ⟨out, exit, b, h1, h2, h3, -, h5, -⟩ := C49_program hw W hW flags hv args hmode hin hout hl hstat hy
  refine ⟨out, exit, b, h2, ?_, h3, fun h => (h5 h).2⟩
  unfold IsOutput at h1
  split at h1
  · obtain ⟨ds, hd, rfl⟩ := h1
    exact (validText_ascii fun b hb => by have := hd.digits b hb; omega).append (str_valid (by decide))
  · rw [h1]
    exact cliText_valid _ y2

end

-- a page with a character of two bytes, an entity, a comment, a script and an attribute
example : letI := sampleReader
    let page := str "<p title=\"é&amp;\">Café &lt; <!-- ü --><script>'é'</script>"
    ValidText page ∧ (htmlTokens page).length = 6 ∧
    ∃ out e, ((tokenizeHTML uaxEnv (htmlTokens page) none).filter ([Builtin.asciiFold].map (Builtin.apply uaxEnv))).Yields out e ∧
      (∀ t ∈ out, ValidText t.value) ∧ ValidText (out.map (·.value)).flatten := by
  let := sampleReader
  have h : ValidText (str "<p title=\"é&amp;\">Café &lt; <!-- ü --><script>'é'</script>") := ⟨_, rfl⟩
  exact ⟨h, by decide +kernel, C134_page uaxEnv_lawful (fun _ h => wordSegs_valid uaxTable h) [.asciiFold]
    (fun b hb => by rw [List.mem_singleton.1 hb]; exact ⟨trivial, trivial⟩) h none⟩

-- `jargon -file in -out copy -html -ascii`
example : letI := sampleReader
    let W := { sampleWorld with E := uaxEnv, parse := fun r => (htmlTokens r.data, none) }
    ∃ out exit b, cliMain W { filein := str "in", fileout := str "copy", html := true }
      (["-file", "in", "-out", "copy", "-html", "-ascii"].map str) = Go.ret (exit, some (.file 2, b)) ∧ ValidText out ∧
    b.under.2 <+: out ∧ (exit = .success → b.under.2 = out) := by
  let := sampleReader
  exact C134_program_page (w := fun _ => goodWriter) (fun _ => goodWriter_neverFails.lawful)
    { sampleWorld with E := uaxEnv, parse := fun r => (htmlTokens r.data, none) }
    uaxEnv_lawful (fun _ h => wordSegs_valid uaxTable h) (fun _ => rfl)
    { filein := str "in", fileout := str "copy", html := true } rfl rfl
    (["-file", "in", "-out", "copy", "-html", "-ascii"].map str) rfl (src := .file 1) (dst := .file 2)
    (fs := sampleFs.truncate 2) (l := .english) (by decide +kernel)
    (by
      have : named sampleFs.create (str "copy") = some (.ok 2) := by decide +kernel
      show outputChoice sampleFs (named sampleFs.create (str "copy")) = _
      rw [this]; rfl) (by decide +kernel)
    (fun i hi => by cases hi; exact ⟨_, rfl⟩)
    (by
      have : (["-file", "in", "-out", "copy", "-html", "-ascii"].map str).filterMap flagOf = [.ascii] := by decide +kernel
      rw [this]
      intro f hf
      rw [List.mem_singleton.1 hf]
      trivial)
    (fun _ h => h) rfl (str_valid (s := str "Ruby on Rails") (by decide +kernel))

end Jargon
