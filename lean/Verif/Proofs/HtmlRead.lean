import Verif.Spec.Html
import Verif.Proofs.Filters

/-! Rendered HTML tokens read back. -/

namespace Jargon

/-- The character references that are written, after the ampersand. -/
def references : List (Bytes × UInt8) :=
  [(str "amp;", 0x26), (str "#39;", 0x27), (str "lt;", 0x3C), (str "gt;", 0x3E), (str "#34;", 0x22),
   (str "#13;", 0x0D)]

theorem references_eq : references =
    [([0x61, 0x6D, 0x70, 0x3B], 0x26), ([0x23, 0x33, 0x39, 0x3B], 0x27), ([0x6C, 0x74, 0x3B], 0x3C),
     ([0x67, 0x74, 0x3B], 0x3E), ([0x23, 0x33, 0x34, 0x3B], 0x22), ([0x23, 0x31, 0x33, 0x3B], 0x0D)] := by
  decide +kernel

theorem htmlEscapeByte_eq (b : UInt8) : (∃ e, (e, b) ∈ references ∧ htmlEscapeByte b = 0x26 :: e) ∨
    (b ≠ 0x26 ∧ b ≠ 0x3C ∧ b ≠ 0x22 ∧ b ≠ 0x0D ∧ htmlEscapeByte b = [b]) := by
  have e1 : str "&#34;" = 0x26 :: [0x23, 0x33, 0x34, 0x3B] := by decide +kernel
  have e2 : str "&amp;" = 0x26 :: [0x61, 0x6D, 0x70, 0x3B] := by decide +kernel
  have e3 : str "&#39;" = 0x26 :: [0x23, 0x33, 0x39, 0x3B] := by decide +kernel
  have e4 : str "&#13;" = 0x26 :: [0x23, 0x31, 0x33, 0x3B] := by decide +kernel
  have e5 : str "&lt;" = 0x26 :: [0x6C, 0x74, 0x3B] := by decide +kernel
  have e6 : str "&gt;" = 0x26 :: [0x67, 0x74, 0x3B] := by decide +kernel
  unfold htmlEscapeByte
  rw [references_eq, e1, e2, e3, e4, e5, e6]
  by_cases h1 : b = 0x26
  · subst h1; left; exact ⟨_, by simp, rfl⟩
  by_cases h2 : b = 0x27
  · subst h2; left; exact ⟨_, by simp, rfl⟩
  by_cases h3 : b = 0x3C
  · subst h3; left; exact ⟨_, by simp, rfl⟩
  by_cases h4 : b = 0x3E
  · subst h4; left; exact ⟨_, by simp, rfl⟩
  by_cases h5 : b = 0x22
  · subst h5; left; exact ⟨_, by simp, rfl⟩
  by_cases h6 : b = 0x0D
  · subst h6; left; exact ⟨_, by simp, rfl⟩
  right
  simp [h1, h2, h3, h4, h5, h6]

theorem escape_cons (b : UInt8) (d : Bytes) : htmlEscape (b :: d) = htmlEscapeByte b ++ htmlEscape d := by
  simp [htmlEscape]

theorem escape_free (d : Bytes) : 0x3C ∉ htmlEscape d ∧ 0x22 ∉ htmlEscape d ∧ 0x0D ∉ htmlEscape d := by
  have key : ∀ b, 0x3C ∉ htmlEscapeByte b ∧ 0x22 ∉ htmlEscapeByte b ∧ 0x0D ∉ htmlEscapeByte b := by
    intro b
    rcases htmlEscapeByte_eq b with ⟨e, he, h⟩ | ⟨h1, h2, h3, h4, h⟩
    · rw [h]
      rw [references_eq] at he
      simp only [List.mem_cons, Prod.mk.injEq, List.not_mem_nil, or_false] at he
      rcases he with ⟨rfl, -⟩ | ⟨rfl, -⟩ | ⟨rfl, -⟩ | ⟨rfl, -⟩ | ⟨rfl, -⟩ | ⟨rfl, -⟩ <;> decide
    · rw [h]; simp [Ne.symm h2, Ne.symm h3, Ne.symm h4]
  refine ⟨?_, ?_, ?_⟩
  · intro h
    obtain ⟨b, -, hb⟩ := List.mem_flatMap.mp h
    exact (key b).1 hb
  · intro h
    obtain ⟨b, -, hb⟩ := List.mem_flatMap.mp h
    exact (key b).2.1 hb
  · intro h
    obtain ⟨b, -, hb⟩ := List.mem_flatMap.mp h
    exact (key b).2.2 hb

theorem escape_nul {d : Bytes} (hd : 0 ∉ d) : 0 ∉ htmlEscape d := by
  intro h
  obtain ⟨b, hb, h⟩ := List.mem_flatMap.mp h
  rcases htmlEscapeByte_eq b with ⟨e, he, h'⟩ | ⟨-, -, -, -, h'⟩
  · rw [h'] at h
    rw [references_eq] at he
    simp only [List.mem_cons, Prod.mk.injEq, List.not_mem_nil, or_false] at he
    rcases he with ⟨rfl, -⟩ | ⟨rfl, -⟩ | ⟨rfl, -⟩ | ⟨rfl, -⟩ | ⟨rfl, -⟩ | ⟨rfl, -⟩ <;> revert h <;> decide
  · rw [h'] at h
    simp only [List.mem_singleton] at h
    exact hd (h ▸ hb)

theorem escape_ne {d : Bytes} (h : d ≠ []) : htmlEscape d ≠ [] := by
  cases d with
  | nil => exact absurd rfl h
  | cons b d =>
    rw [escape_cons]
    rcases htmlEscapeByte_eq b with ⟨e, he, h'⟩ | ⟨-, -, -, -, h'⟩ <;> rw [h'] <;> simp

theorem convertNewlines_id {s : Bytes} (h : 0x0D ∉ s) : convertNewlines s = s := by
  induction s with
  | nil => rfl
  | cons b s ih =>
    simp only [List.mem_cons, not_or] at h
    cases s with
    | nil => simp [convertNewlines, Ne.symm h.1]
    | cons c s => rw [convertNewlines, if_neg (Ne.symm h.1), ih h.2]

theorem replaceNul_id {s : Bytes} (h : 0 ∉ s) : replaceNul s = s := by
  induction s with
  | nil => rfl
  | cons b s ih =>
    simp only [List.mem_cons, not_or] at h
    have : replaceNul (b :: s) = (if b = 0 then [0xEF, 0xBF, 0xBD] else [b]) ++ replaceNul s := by
      simp [replaceNul]
    rw [this, if_neg (Ne.symm h.1), ih h.2]; rfl

theorem convertNewlines_ne {s : Bytes} (h : s ≠ []) : convertNewlines s ≠ [] := by
  induction s with
  | nil => exact absurd rfl h
  | cons b s ih =>
    cases s with
    | nil => simp [convertNewlines]
    | cons c s =>
      rw [convertNewlines]
      split
      · split
        · exact ih (by simp)
        · simp
      · simp

theorem replaceNul_ne {s : Bytes} (h : s ≠ []) : replaceNul s ≠ [] := by
  cases s with
  | nil => exact absurd rfl h
  | cons b s =>
    have : replaceNul (b :: s) = (if b = 0 then [0xEF, 0xBF, 0xBD] else [b]) ++ replaceNul s := by
      simp [replaceNul]
    rw [this]
    split <;> simp

theorem replaceNul_free (s : Bytes) : 0 ∉ replaceNul s := by
  intro h
  obtain ⟨b, -, h⟩ := List.mem_flatMap.mp h
  split at h
  · revert h; decide
  · rename_i hb
    simp only [List.mem_singleton] at h
    exact hb h.symm

theorem encodeRune_nul {r : Rune} (h : r ≠ 0) : 0 ∉ encodeRune r := by
  have key : ∀ r, r ≠ 0 → ValidRune r → 0 ∉ encodeValid r := by
    intro r h hv hm
    unfold encodeValid at hm
    have z : ∀ n : Nat, n < 256 → (0 : UInt8) = UInt8.ofNat n → n = 0 := by
      intro n hn he
      have := congrArg UInt8.toNat he
      simp at this
      omega
    have hv' : r ≤ 0x10FFFF := by
      unfold ValidRune at hv
      omega
    split at hm
    · simp only [List.mem_singleton] at hm
      exact h (z _ (by omega) hm)
    split at hm
    · simp only [List.mem_cons, List.not_mem_nil, or_false] at hm
      rcases hm with hm | hm <;> have := z _ (by omega) hm <;> omega
    split at hm
    · simp only [List.mem_cons, List.not_mem_nil, or_false] at hm
      rcases hm with hm | hm | hm <;> have := z _ (by omega) hm <;> omega
    · simp only [List.mem_cons, List.not_mem_nil, or_false] at hm
      rcases hm with hm | hm | hm | hm <;> have := z _ (by omega) hm <;> omega
  unfold encodeRune
  split
  · exact key r h ‹_›
  · exact key _ (by decide) (by decide)

variable [HtmlReader]

theorem resolve_skip (f : Bool) (a s : Bytes) : resolve f a.length (a ++ s) = resolve f 0 s := by
  induction a with
  | nil => rfl
  | cons b a ih => simpa [resolve] using ih

theorem charRef_ref (f : Bool) {e : Bytes} {x : UInt8} (h : (e, x) ∈ references) (s : Bytes) :
    charRef f (e ++ s) = ([x], e.length) := by
  have named : ∀ {e : Bytes} {r : Rune} {x : UInt8} {s : Bytes}, HtmlReader.one (e ++ [0x3B]) = some r →
      encodeRune r = [x] → (∀ b ∈ e, isNameByte b) → namedRef f (e ++ 0x3B :: s) = ([x], e.length + 1) := by
    intro e r x s h1 h2 h3
    have ht : (e ++ 0x3B :: s).takeWhile isNameByte = e := by
      rw [List.takeWhile_append_of_pos h3]
      simp [isNameByte]
    unfold namedRef
    simp [ht, h1, h2]
  have e1 : encodeRune 0x26 = [0x26] := by decide +kernel
  have e2 : encodeRune 0x3C = [0x3C] := by decide +kernel
  have e3 : encodeRune 0x3E = [0x3E] := by decide +kernel
  have a1 : HtmlReader.one [0x61, 0x6D, 0x70, 0x3B] = some 0x26 := by
    have h : str "amp;" = [0x61, 0x6D, 0x70, 0x3B] := by decide +kernel
    rw [← h]; exact HtmlReader.amp
  have a2 : HtmlReader.one [0x6C, 0x74, 0x3B] = some 0x3C := by
    have h : str "lt;" = [0x6C, 0x74, 0x3B] := by decide +kernel
    rw [← h]; exact HtmlReader.lt
  have a3 : HtmlReader.one [0x67, 0x74, 0x3B] = some 0x3E := by
    have h : str "gt;" = [0x67, 0x74, 0x3B] := by decide +kernel
    rw [← h]; exact HtmlReader.gt
  have numeric : ∀ {a b x : UInt8} {s : Bytes}, (digitOf false a).isSome → (digitOf false b).isSome → a ≠ 0x78 →
      a ≠ 0x58 → encodeRune (numericRune false [a, b]) = [x] →
      charRef f (0x23 :: a :: b :: 0x3B :: s) = ([x], 4) := by
    intro a b x s h1 h2 h3 h4 h5
    have h6 : (digitOf false 0x3B).isSome = false := by decide
    simp [charRef, numericRef, h1, h2, h3, h4, h5, h6]
  rw [references_eq] at h
  simp only [List.mem_cons, Prod.mk.injEq, List.not_mem_nil, or_false] at h
  rcases h with ⟨rfl, rfl⟩ | ⟨rfl, rfl⟩ | ⟨rfl, rfl⟩ | ⟨rfl, rfl⟩ | ⟨rfl, rfl⟩ | ⟨rfl, rfl⟩
  · exact named (e := [0x61, 0x6D, 0x70]) a1 e1 (by decide)
  · exact numeric (by decide) (by decide) (by decide) (by decide) (by decide +kernel)
  · exact named (e := [0x6C, 0x74]) a2 e2 (by decide)
  · exact named (e := [0x67, 0x74]) a3 e3 (by decide)
  · exact numeric (by decide) (by decide) (by decide) (by decide) (by decide +kernel)
  · exact numeric (by decide) (by decide) (by decide) (by decide) (by decide +kernel)

theorem resolve_ref (f : Bool) {e : Bytes} {x : UInt8} (h : (e, x) ∈ references) (s : Bytes) :
    resolve f 0 (0x26 :: (e ++ s)) = x :: resolve f 0 s := by
  rw [resolve, if_pos rfl, charRef_ref f h]
  simp only [resolve_skip, List.singleton_append]

/-- Resolving undoes escaping. -/
theorem resolve_escape (f : Bool) (d : Bytes) : resolve f 0 (htmlEscape d) = d := by
  suffices H : ∀ s, resolve f 0 (htmlEscape d ++ s) = d ++ resolve f 0 s by
    have := H []
    simpa [resolve] using this
  intro s
  induction d with
  | nil => rfl
  | cons b d ih =>
    rw [escape_cons, List.append_assoc]
    rcases htmlEscapeByte_eq b with ⟨e, he, h⟩ | ⟨h1, -, -, -, h⟩
    · rw [h, List.cons_append, resolve_ref f he, ih]; rfl
    · rw [h, List.singleton_append, resolve, if_neg h1, ih]; rfl

theorem cookText_escape (d : Bytes) : cookText (htmlEscape d) = d := by
  rw [cookText, convertNewlines_id (escape_free d).2.2, resolve_escape]

theorem cookValue_escape (d : Bytes) : cookValue (htmlEscape d) = d := by
  rw [cookValue, convertNewlines_id (escape_free d).2.2, resolve_escape]

theorem cookRcdata_escape {d : Bytes} (h : 0 ∉ d) : cookRcdata (htmlEscape d) = d := by
  rw [cookRcdata, convertNewlines_id (escape_free d).2.2, replaceNul_id (escape_nul h), resolve_escape]

omit [HtmlReader] in
theorem cookRaw_escape {d : Bytes} (h : 0 ∉ d) : cookRaw (htmlEscape d) = htmlEscape d := by
  rw [cookRaw, convertNewlines_id (escape_free d).2.2, replaceNul_id (escape_nul h)]

/-- What is written for a reference is not empty, and not a NUL byte. -/
theorem charRef_out (f : Bool) (s : Bytes) : (charRef f s).1 ≠ [] ∧ (0 ∉ s → 0 ∉ (charRef f s).1) := by
  have num : ∀ hex n t, (numericRef hex n t).1 ≠ [] ∧ 0 ∉ (numericRef hex n t).1 := by
    intro hex n t
    have hr : ∀ ds, numericRune hex ds ≠ 0 := by
      intro ds
      unfold numericRune
      extract_lets x
      split
      · rename_i hx
        have : ∀ i < 32, replacementTable.getD i 0xFFFD ≠ 0 := by decide
        exact this _ (by omega)
      · split
        · decide
        · rename_i hx; omega
    unfold numericRef
    extract_lets ds m
    split
    · simp
    · exact ⟨encodeRune_ne_nil _, encodeRune_nul (hr _)⟩
  have pre : ∀ name j r, prefixRef name j = some r → r.1 ≠ 0 := by
    intro name j
    induction j using Nat.strongRecOn with
    | _ j ih =>
      intro r h
      match j with
      | 0 => simp [prefixRef] at h
      | 1 => simp [prefixRef] at h
      | j + 2 =>
        rw [prefixRef] at h
        split at h
        · rename_i x hx
          simp only [Option.some.injEq] at h
          subst h
          exact HtmlReader.one_ne _ _ hx
        · exact ih (j + 1) (by omega) r h
  have nam : (namedRef f s).1 ≠ [] ∧ (0 ∉ s → 0 ∉ (namedRef f s).1) := by
    unfold namedRef
    extract_lets letters semi name
    have hname : 0 ∉ s → 0 ∉ 0x26 :: name := by
      intro h hm
      simp only [List.mem_cons] at hm
      rcases hm with hm | hm
      · simp at hm
      have hl : 0 ∉ letters := fun hx => h ((List.takeWhile_prefix _).subset hx)
      simp only [name] at hm
      split at hm
      · simp only [List.mem_append, List.mem_singleton] at hm
        rcases hm with hm | hm
        · exact hl hm
        · simp at hm
      · exact hl hm
    split
    · simp
    split
    · exact ⟨by simp, hname⟩
    split
    · rename_i r hr
      exact ⟨encodeRune_ne_nil _, fun _ => encodeRune_nul (HtmlReader.one_ne _ _ hr)⟩
    split
    · rename_i r hr
      obtain ⟨h1, h2⟩ := HtmlReader.two_ne _ _ hr
      exact ⟨by simp [encodeRune_ne_nil], fun _ => by simp [encodeRune_nul h1, encodeRune_nul h2]⟩
    split
    · rename_i r hr
      refine ⟨encodeRune_ne_nil _, fun _ => encodeRune_nul ?_⟩
      cases f with
      | true => simp at hr
      | false => exact pre _ _ _ (by simpa using hr)
    · exact ⟨by simp, hname⟩
  unfold charRef
  split
  · split
    · simp
    split
    · exact ⟨(num _ _ _).1, fun _ => (num _ _ _).2⟩
    · exact ⟨(num _ _ _).1, fun _ => (num _ _ _).2⟩
  · exact nam

theorem resolve_ne (f : Bool) {s : Bytes} (h : s ≠ []) : resolve f 0 s ≠ [] := by
  cases s with
  | nil => exact absurd rfl h
  | cons b s =>
    rw [resolve]
    split
    · simp [(charRef_out f s).1]
    · simp

theorem resolve_nul (f : Bool) {s : Bytes} (h : 0 ∉ s) (n : Nat) : 0 ∉ resolve f n s := by
  induction s generalizing n with
  | nil => simp [resolve]
  | cons b s ih =>
    simp only [List.mem_cons, not_or] at h
    cases n with
    | succ n => rw [resolve]; exact ih h.2 n
    | zero =>
      rw [resolve]
      split
      · simp [(charRef_out f s).2 h.2, ih h.2]
      · simp [h.1, ih h.2]

theorem cookText_ne {s : Bytes} (h : s ≠ []) : cookText s ≠ [] := resolve_ne _ (convertNewlines_ne h)

theorem cookRcdata_ne {s : Bytes} (h : s ≠ []) : cookRcdata s ≠ [] :=
  resolve_ne _ (replaceNul_ne (convertNewlines_ne h))

omit [HtmlReader] in
theorem cookRaw_ne {s : Bytes} (h : s ≠ []) : cookRaw s ≠ [] := replaceNul_ne (convertNewlines_ne h)

theorem cookRcdata_nul (s : Bytes) : 0 ∉ cookRcdata s := resolve_nul _ (replaceNul_free _) _

omit [HtmlReader] in
theorem cookRaw_nul (s : Bytes) : 0 ∉ cookRaw s := replaceNul_free _

/-- The tokens of some bytes, and what is being read after them. -/
def Reading.steps : Reading → Bytes → List HTok × Reading
  | r, [] => ([], r)
  | r, b :: s => ((r.step b).1 ++ ((r.step b).2.steps s).1, ((r.step b).2.steps s).2)

namespace Reading

theorem steps_cons_none {r r' : Reading} {b : UInt8} (h : r.step b = ([], r')) (s : Bytes) :
    r.steps (b :: s) = r'.steps s := by
  rw [Reading.steps, h]; simp

theorem steps_append (r : Reading) (a s : Bytes) :
    r.steps (a ++ s) = ((r.steps a).1 ++ ((r.steps a).2.steps s).1, ((r.steps a).2.steps s).2) := by
  induction a generalizing r with
  | nil => simp [Reading.steps]
  | cons b a ih => rw [List.cons_append, Reading.steps, ih, Reading.steps]; simp

theorem steps_trans {r r1 r2 : Reading} {a s : Bytes} {o1 o2 : List HTok} (h1 : r.steps a = (o1, r1))
    (h2 : r1.steps s = (o2, r2)) : r.steps (a ++ s) = (o1 ++ o2, r2) := by
  rw [steps_append, h1, h2]

theorem steps_text (raw a : Bytes) (h : 0x3C ∉ a) : Reading.steps (.text raw) a = ([], .text (raw ++ a)) := by
  induction a generalizing raw with
  | nil => simp [Reading.steps]
  | cons b a ih =>
    simp only [List.mem_cons, not_or] at h
    rw [steps_cons_none (r' := .text (raw ++ [b])) (by rw [Reading.step, if_neg (Ne.symm h.1)]), ih _ h.2]
    simp

theorem steps_name (ty : HType) (acc a : Bytes) (h : NameLike a) :
    Reading.steps (.name ty acc) a = ([], .name ty (acc ++ a)) := by
  induction a generalizing acc with
  | nil => simp [Reading.steps]
  | cons b a ih =>
    obtain ⟨h1, h2, h3, h4⟩ := h b (by simp)
    have hl : lowerByte b = b := by simp [lowerByte, h4]
    rw [steps_cons_none (r' := .name ty (acc ++ [b])) (by simp [Reading.step, h1, h2, h3, hl]),
      ih _ fun x hx => h x (by simp [hx])]
    simp

theorem steps_key (ty : HType) (tag : Bytes) (old : List (Bytes × Bytes)) (k a : Bytes) (h : NameLike a)
    (he : 0x3D ∉ a) : Reading.steps (.key ty tag old k) a = ([], .key ty tag old (k ++ a)) := by
  induction a generalizing k with
  | nil => simp [Reading.steps]
  | cons b a ih =>
    obtain ⟨h1, h2, h3, h4⟩ := h b (by simp)
    simp only [List.mem_cons, not_or] at he
    have hl : lowerByte b = b := by simp [lowerByte, h4]
    rw [steps_cons_none (r' := .key ty tag old (k ++ [b]))
      (by simp [Reading.step, h1, h2, h3, hl, Ne.symm he.1]), ih _ (fun x hx => h x (by simp [hx])) he.2]
    simp

theorem steps_value (ty : HType) (tag : Bytes) (old : List (Bytes × Bytes)) (k acc a : Bytes) (q : UInt8)
    (h : q ∉ a) :
    Reading.steps (.value ty tag old k (some q) acc) a = ([], .value ty tag old k (some q) (acc ++ a)) := by
  induction a generalizing acc with
  | nil => simp [Reading.steps]
  | cons b a ih =>
    simp only [List.mem_cons, not_or] at h
    rw [steps_cons_none (r' := .value ty tag old k (some q) (acc ++ [b]))
      (by rw [Reading.step, if_neg (Ne.symm h.1)]), ih _ h.2]
    simp

/-- The rendering of an attribute. -/
def attrString (a : Bytes × Bytes) : Bytes := 0x20 :: (a.1 ++ 0x3D :: 0x22 :: (htmlEscape a.2 ++ [0x22]))

/-- One attribute, from just before its space. -/
theorem steps_attr (ty : HType) (tag : Bytes) (old : List (Bytes × Bytes)) (k v : Bytes)
    (hk : AttrName k) :
    Reading.steps (.attrs ty tag old false) (attrString (k, v)) =
      ([], .attrs ty tag (old ++ [(k, v)]) false) := by
  have e0 : Reading.step (.attrs ty tag old false) 0x20 = ([], .attrs ty tag old false) := by
    simp [Reading.step, isHtmlSpace]
  obtain ⟨h0, h1, h2, h3⟩ := hk
  rw [attrString, steps_cons_none e0]
  cases k with
  | nil => exact absurd rfl h0
  | cons b k =>
    obtain ⟨a1, a2, a3, a4⟩ := h1 b (by simp)
    have hl : lowerByte b = b := by simp [lowerByte, a4]
    have e1 : Reading.step (.attrs ty tag old false) b = ([], .key ty tag old [b]) := by
      simp only [Reading.step, a1, a2, a3, hl, Bool.false_eq_true, ↓reduceIte]
      rw [if_neg]
      rintro ⟨rfl, he⟩
      exact h3 he (by simp)
    rw [List.cons_append, steps_cons_none e1,
      steps_append, steps_key ty tag old [b] k (fun x hx => h1 x (by simp [hx])) h2, List.singleton_append]
    have e2 : Reading.step (.key ty tag old (b :: k)) 0x3D = ([], .beforeValue ty tag old (b :: k)) := by
      simp [Reading.step, isHtmlSpace]
    have e3 : Reading.step (.beforeValue ty tag old (b :: k)) 0x22 =
        ([], .value ty tag old (b :: k) (some 0x22) []) := by
      simp [Reading.step, isHtmlSpace]
    rw [steps_cons_none e2, steps_cons_none e3, steps_append, steps_value _ _ _ _ _ _ _ (escape_free v).2.1]
    simp [Reading.steps, Reading.step, cookValue_escape, addAttr]

omit [HtmlReader] in
theorem tagString_eq (h : HTok) : h.tagString = h.data ++ h.attr.flatMap attrString := by
  have e1 : str " " = [0x20] := by decide +kernel
  have e2 : str "=\"" = [0x3D, 0x22] := by decide +kernel
  have e3 : str "\"" = [0x22] := by decide +kernel
  simp [HTok.tagString, e1, e2, e3]
  rfl

theorem steps_attrs (ty : HType) (tag : Bytes) (as old : List (Bytes × Bytes))
    (h : ∀ a ∈ as, AttrName a.1) :
    Reading.steps (.attrs ty tag old false) (as.flatMap attrString) =
      ([], .attrs ty tag (old ++ as) false) := by
  induction as generalizing old with
  | nil => simp [Reading.steps]
  | cons a as ih =>
    rw [List.flatMap_cons, steps_trans (steps_attr ty tag old a.1 a.2 (h a (by simp)))
      (ih _ fun x hx => h x (by simp [hx]))]
    simp

/-- From the name on, attributes and the slash, up to the closing bracket. -/
theorem steps_tag (ty : HType) (tag : Bytes) (as : List (Bytes × Bytes)) (slash : Bool)
    (h : ∀ a ∈ as, AttrName a.1) :
    ∃ r, Reading.steps (.name ty tag) (as.flatMap attrString ++ (if slash then [0x2F] else [])) = ([], r) ∧
      r.step 0x3E = ([tagEvent ty tag as slash], .text []) := by
  have close : ∀ as, Reading.step (.attrs ty tag as false) 0x3E =
      ([tagEvent ty tag as false], .text []) := by
    intro as
    simp [Reading.step, isHtmlSpace]
  have close' : ∀ as, Reading.step (.afterKey ty tag as [] true) 0x3E =
      ([tagEvent ty tag as true], .text []) := by
    intro as
    simp [Reading.step, isHtmlSpace, addAttr]
  cases as with
  | nil =>
    cases slash with
    | false => exact ⟨.name ty tag, by simp [Reading.steps], by simp [Reading.step, isHtmlSpace]⟩
    | true =>
      have e1 : Reading.step (.name ty tag) 0x2F = ([], .afterKey ty tag [] [] true) := by
        simp [Reading.step, isHtmlSpace]
      refine ⟨.afterKey ty tag [] [] true, ?_, close' []⟩
      simp only [List.flatMap_nil, ↓reduceIte, List.nil_append]
      rw [steps_cons_none e1]; rfl
  | cons a as =>
    have e1 : Reading.step (.name ty tag) 0x20 = ([], .attrs ty tag [] false) := by
      simp [Reading.step, isHtmlSpace]
    have e2 : Reading.step (.attrs ty tag [] false) 0x20 = ([], .attrs ty tag [] false) := by
      simp [Reading.step, isHtmlSpace]
    have e3 : Reading.steps (.name ty tag) ((a :: as).flatMap attrString) =
        Reading.steps (.attrs ty tag [] false) ((a :: as).flatMap attrString) := by
      rw [List.flatMap_cons, attrString, List.cons_append, steps_cons_none e1, steps_cons_none e2]
    have e4 : Reading.steps (.name ty tag) ((a :: as).flatMap attrString) =
        ([], .attrs ty tag (a :: as) false) := by
      rw [e3, steps_attrs _ _ _ _ h, List.nil_append]
    cases slash with
    | false => exact ⟨.attrs ty tag (a :: as) false, by simpa using e4, close _⟩
    | true =>
      refine ⟨.afterKey ty tag (a :: as) [] true, ?_, close' _⟩
      have e5 : Reading.step (.attrs ty tag (a :: as) false) 0x2F = ([], .afterKey ty tag (a :: as) [] true) := by
        simp [Reading.step, isHtmlSpace]
      have e6 : Reading.steps (.attrs ty tag (a :: as) false) [0x2F] = ([], .afterKey ty tag (a :: as) [] true) := by
        rw [steps_cons_none e5]; rfl
      simpa using steps_trans e4 e6

omit [HtmlReader] in
/-- What the count of dashes says about the bytes so far. -/
def Counted (p : Bytes) (n : Nat) (excl : Bool) : Prop :=
  List.replicate n 0x2D <:+ p ∧ (excl = true → [0x2D, 0x2D, 0x21] <:+ p)

theorem steps_comment (d : Bytes) : ∀ (acc : Bytes) (n : Nat) (excl : Bool),
    Counted ([0x2D, 0x2D] ++ acc) n excl →
    ¬ [0x2D, 0x2D, 0x3E] <:+: [0x2D, 0x2D] ++ (acc ++ d) → ¬ [0x2D, 0x2D, 0x21, 0x3E] <:+: [0x2D, 0x2D] ++ (acc ++ d) →
    ∃ n' excl', Reading.steps (.comment acc n excl) d = ([], .comment (acc ++ d) n' excl') ∧
      Counted ([0x2D, 0x2D] ++ (acc ++ d)) n' excl' := by
  induction d with
  | nil => intro acc n excl hc _ _; exact ⟨n, excl, by simp [Reading.steps], by simpa using hc⟩
  | cons b d ih =>
    intro acc n excl hc h1 h2
    have two : 2 ≤ n → [0x2D, 0x2D] <:+ [0x2D, 0x2D] ++ acc := by
      intro hn
      refine List.IsSuffix.trans ⟨List.replicate (n - 2) 0x2D, ?_⟩ hc.1
      have : ([0x2D, 0x2D] : Bytes) = List.replicate 2 0x2D := rfl
      rw [this, List.replicate_append_replicate]
      congr 1; omega
    have next : ∀ n' excl', Counted ([0x2D, 0x2D] ++ (acc ++ [b])) n' excl' →
        Reading.step (.comment acc n excl) b = ([], .comment (acc ++ [b]) n' excl') →
        ∃ n' excl', Reading.steps (.comment acc n excl) (b :: d) = ([], .comment (acc ++ b :: d) n' excl') ∧
          Counted ([0x2D, 0x2D] ++ (acc ++ b :: d)) n' excl' := by
      intro n' excl' g1 g2
      obtain ⟨m, e, r1, r2⟩ := ih (acc ++ [b]) n' excl' g1 (by simpa using h1) (by simpa using h2)
      refine ⟨m, e, ?_, by simpa using r2⟩
      rw [steps_cons_none g2, r1]; simp
    cases excl with
    | true =>
      have hb : b ≠ 0x3E := by
        rintro rfl
        obtain ⟨t, ht⟩ := hc.2 rfl
        refine h2 ⟨t, d, ?_⟩
        have := congrArg (· ++ 0x3E :: d) ht
        simpa using this
      exact next 0 false ⟨by simp, by simp⟩ (by simp [Reading.step, hb])
    | false =>
      by_cases h3 : b = 0x2D
      · subst h3
        refine next (n + 1) false ⟨?_, by simp⟩ (by simp [Reading.step])
        obtain ⟨t, ht⟩ := hc.1
        refine ⟨t, ?_⟩
        rw [List.replicate_succ', ← List.append_assoc, ht]; simp
      by_cases h4 : b = 0x3E
      · subst h4
        by_cases hn : 2 ≤ n
        · exfalso
          obtain ⟨t, ht⟩ := two hn
          refine h1 ⟨t, d, ?_⟩
          have := congrArg (· ++ 0x3E :: d) ht
          simpa using this
        · exact next 0 false ⟨by simp, by simp⟩ (by simp [Reading.step, hn])
      · refine next 0 (decide (b = 0x21 ∧ 2 ≤ n)) ⟨by simp, ?_⟩ (by simp [Reading.step, h3, h4])
        intro hd
        simp only [decide_eq_true_eq] at hd
        obtain ⟨rfl, hn⟩ := hd
        obtain ⟨t, ht⟩ := two hn
        refine ⟨t, ?_⟩
        have := congrArg (· ++ [0x21]) ht
        simpa using this

theorem steps_doctype (acc d : Bytes) (h1 : 0x3E ∉ d)
    (h2 : ∀ b ∈ (acc ++ d).head?, isHtmlSpace b = false) :
    Reading.steps (.doctype acc) d = ([], .doctype (acc ++ d)) := by
  induction d generalizing acc with
  | nil => simp [Reading.steps]
  | cons b d ih =>
    simp only [List.mem_cons, not_or] at h1
    have e : Reading.step (.doctype acc) b = ([], .doctype (acc ++ [b])) := by
      rw [Reading.step, if_neg (Ne.symm h1.1), if_neg]
      rintro ⟨rfl, hs⟩
      rw [h2 b (by simp)] at hs
      simp at hs
    rw [steps_cons_none e, ih _ h1.2 (by simpa using h2)]
    simp

end Reading

/-- One token, after some text: all but the last byte, and then the last byte. -/
theorem steps_token (h : HTok) (hr : Readable h) (hk : Kept h) (ht : h.type ≠ .text) (raw : Bytes) :
    ∃ init b r, h.string = init ++ [b] ∧ Reading.steps (.text raw) init = (textEvent raw, r) ∧
      r.step b = ([h], .text []) := by
  have e1 : str "<" = [0x3C] := by decide +kernel
  have e2 : str ">" = [0x3E] := by decide +kernel
  have e3 : str "</" = [0x3C, 0x2F] := by decide +kernel
  have e4 : str "/>" = [0x2F, 0x3E] := by decide +kernel
  have e5 : str "<!--" = [0x3C, 0x21, 0x2D, 0x2D] := by decide +kernel
  have e6 : str "-->" = [0x2D, 0x2D, 0x3E] := by decide +kernel
  have e7 : str "<!DOCTYPE " = [0x3C, 0x21, 0x44, 0x4F, 0x43, 0x54, 0x59, 0x50, 0x45, 0x20] := by
    decide +kernel
  have hlt : ∀ x, Reading.steps (.text raw) (0x3C :: x) = Reading.steps (.lt raw) x := by
    intro x
    exact Reading.steps_cons_none (by rw [Reading.step, if_pos rfl]) x
  have first : ∀ {r r' : Reading} {b : UInt8} {o : List HTok} {s : Bytes} {r''}, r.step b = (o, r') →
      r'.steps s = ([], r'') → r.steps (b :: s) = (o, r'') := by
    intro r r' b o s r'' h1 h2
    rw [Reading.steps, h1, h2]; simp
  have start : ∀ slash : Bool, h.type = (if slash then .selfClosing else .startTag) →
      h.string = 0x3C :: (h.data ++ (h.attr.flatMap Reading.attrString ++
        ((if slash then [0x2F] else []) ++ [0x3E]))) →
      (h.dataAtom = atomOf h.data ∧ NameLike h.data ∧ (∃ b ∈ h.data.head?, isTagLetter b) ∧
        ∀ a ∈ h.attr, AttrName a.1) →
      ∃ init b r, h.string = init ++ [b] ∧ Reading.steps (.text raw) init = (textEvent raw, r) ∧
        r.step b = ([h], .text []) := by
    rintro slash hty hst ⟨h1, h2, ⟨b, hb, hl⟩, h4⟩
    cases hd : h.data with
    | nil => rw [hd] at hb; simp at hb
    | cons c d =>
      rw [hd] at hb
      simp only [List.head?_cons, Option.mem_def, Option.some.injEq] at hb
      subst hb
      obtain ⟨-, -, -, a4⟩ := h2 c (by simp [hd])
      have hlow : lowerByte c = c := by simp [lowerByte, a4]
      have e : Reading.step (.lt raw) c = (textEvent raw, .name .startTag [c]) := by
        simp [Reading.step, hl, hlow]
      obtain ⟨r, t1, t2⟩ := Reading.steps_tag .startTag (c :: d) h.attr slash h4
      refine ⟨0x3C :: c :: (d ++ (h.attr.flatMap Reading.attrString ++ (if slash then [0x2F] else []))), 0x3E, r,
        by rw [hst, hd]; simp, ?_, ?_⟩
      · rw [hlt]
        apply first e
        have n1 := Reading.steps_name .startTag [c] d fun x hx => h2 x (by simp [hd, hx])
        exact Reading.steps_trans n1 t1
      · rw [t2, tagEvent, if_neg (by simp), ← hd, ← h1, ← hty]
  cases hty : h.type with
  | text => exact absurd hty ht
  | startTag =>
    refine start false (by simp [hty]) ?_ ?_
    · simp [HTok.string, hty, Reading.tagString_eq, e1, e2]
    · simpa [Readable, hty] using hr
  | selfClosing =>
    refine start true (by simp [hty]) ?_ ?_
    · simp [HTok.string, hty, Reading.tagString_eq, e1, e4]
    · simpa [Readable, hty] using hr
  | endTag =>
    obtain ⟨h0, h1, h2, ⟨b, hb, hl⟩⟩ : h.attr = [] ∧ h.dataAtom = atomOf h.data ∧ NameLike h.data ∧
      (∃ b ∈ h.data.head?, isTagLetter b) := by simpa [Readable, hty] using hr
    have hst : h.string = 0x3C :: 0x2F :: (h.data ++ [0x3E]) := by
      simp [HTok.string, hty, Reading.tagString_eq, e3, e2, h0]
    cases hd : h.data with
    | nil => rw [hd] at hb; simp at hb
    | cons c d =>
      rw [hd] at hb
      simp only [List.head?_cons, Option.mem_def, Option.some.injEq] at hb
      subst hb
      obtain ⟨-, -, -, a4⟩ := h2 c (by simp [hd])
      have hlow : lowerByte c = c := by simp [lowerByte, a4]
      have e0 : Reading.step (.lt raw) 0x2F = ([], .ltSlash raw) := by
        simp [Reading.step, isTagLetter, isUpperByte]
      have e : Reading.step (.ltSlash raw) c = (textEvent raw, .name .endTag [c]) := by
        simp [Reading.step, hl, hlow]
      refine ⟨0x3C :: 0x2F :: c :: d, 0x3E, .name .endTag (c :: d), by rw [hst, hd]; simp, ?_, ?_⟩
      · rw [hlt, Reading.steps_cons_none e0]
        exact first e (Reading.steps_name .endTag [c] d fun x hx => h2 x (by simp [hd, hx]))
      · have : tagEvent .endTag (c :: d) [] false = h := by
          rw [tagEvent, if_pos rfl, ← hd, ← h1, ← hty, ← h0]
        rw [← this]
        simp [Reading.step, isHtmlSpace]
  | comment =>
    obtain ⟨h0, h1⟩ : h.attr = [] ∧ h.dataAtom = .zero := by simpa only [Readable, hty] using hr
    obtain ⟨h2, h3, h4, h5⟩ : CommentKept h.data := by simpa only [Kept, hty] using hk
    have e8 : str "--" = [0x2D, 0x2D] := by decide +kernel
    have e9 : str "--!>" = [0x2D, 0x2D, 0x21, 0x3E] := by decide +kernel
    have e10 : str "--!" = [0x2D, 0x2D, 0x21] := by decide +kernel
    rw [e6, e8] at h2
    rw [e9, e8] at h3
    rw [e10, e8] at h4
    have hst : h.string = (0x3C :: 0x21 :: 0x2D :: 0x2D :: (h.data ++ [0x2D, 0x2D])) ++ [0x3E] := by
      simp [HTok.string, hty, e5, e6]
    have a0 : Reading.step (.lt raw) 0x21 = (textEvent raw, .bang []) := by
      simp [Reading.step, isTagLetter, isUpperByte]
    have a1 : Reading.step (.bang []) 0x2D = ([], .bang [0x2D]) := by simp [Reading.step]
    have a2 : Reading.step (.bang [0x2D]) 0x2D = ([], .comment [] 2 false) := by simp [Reading.step]
    obtain ⟨n, excl, hc, hn⟩ := Reading.steps_comment h.data [] 2 false ⟨⟨[], rfl⟩, by simp⟩ (by simpa using h2)
      (by simpa using h3)
    have hex : excl = false := by
      rw [Bool.eq_false_iff]
      intro he
      exact h4 (by simpa using hn.2 he)
    subst hex
    have hdash : Reading.steps (.comment h.data n false) [0x2D, 0x2D] =
        ([], .comment (h.data ++ [0x2D, 0x2D]) (n + 2) false) := by
      simp [Reading.steps, Reading.step]
    refine ⟨_, 0x3E, .comment (h.data ++ [0x2D, 0x2D]) (n + 2) false, hst, ?_, ?_⟩
    · rw [hlt]
      apply first a0
      rw [Reading.steps_cons_none a1, Reading.steps_cons_none a2]
      exact Reading.steps_trans hc hdash
    · have : commentEvent h.data = h := by rw [commentEvent, h5, ← hty, ← h1, ← h0]
      simp [Reading.step, this]
  | doctype =>
    obtain ⟨h0, h1⟩ : h.attr = [] ∧ h.dataAtom = .zero := by simpa only [Readable, hty] using hr
    obtain ⟨h2, h3, h4⟩ : DoctypeKept h.data := by simpa only [Kept, hty] using hk
    have hst : h.string = (0x3C :: 0x21 :: 0x44 :: 0x4F :: 0x43 :: 0x54 :: 0x59 :: 0x50 :: 0x45 ::
        0x20 :: h.data) ++ [0x3E] := by
      simp [HTok.string, hty, e7, e2]
    have a0 : Reading.step (.lt raw) 0x21 = (textEvent raw, .bang []) := by
      simp [Reading.step, isTagLetter, isUpperByte]
    have b1 : Reading.step (.bang []) 0x44 = ([], .bang [0x44]) := by
      simp [Reading.step, show isDoctypeStart [0x44] = true by decide +kernel]
    have b2 : Reading.step (.bang [0x44]) 0x4F = ([], .bang [0x44, 0x4F]) := by
      simp [Reading.step, show isDoctypeStart [0x44, 0x4F] = true by decide +kernel]
    have b3 : Reading.step (.bang [0x44, 0x4F]) 0x43 = ([], .bang [0x44, 0x4F, 0x43]) := by
      simp [Reading.step, show isDoctypeStart [0x44, 0x4F, 0x43] = true by decide +kernel]
    have b4 : Reading.step (.bang [0x44, 0x4F, 0x43]) 0x54 = ([], .bang [0x44, 0x4F, 0x43, 0x54]) := by
      simp [Reading.step, show isDoctypeStart [0x44, 0x4F, 0x43, 0x54] = true by decide +kernel]
    have b5 : Reading.step (.bang [0x44, 0x4F, 0x43, 0x54]) 0x59 = ([], .bang [0x44, 0x4F, 0x43, 0x54, 0x59]) := by
      simp [Reading.step, show isDoctypeStart [0x44, 0x4F, 0x43, 0x54, 0x59] = true by decide +kernel]
    have b6 : Reading.step (.bang [0x44, 0x4F, 0x43, 0x54, 0x59]) 0x50 = ([], .bang [0x44, 0x4F, 0x43, 0x54, 0x59, 0x50]) := by
      simp [Reading.step, show isDoctypeStart [0x44, 0x4F, 0x43, 0x54, 0x59, 0x50] = true by decide +kernel]
    have b7 : Reading.step (.bang [0x44, 0x4F, 0x43, 0x54, 0x59, 0x50]) 0x45 = ([], .doctype []) := by
      simp [Reading.step, show isDoctypeStart [0x44, 0x4F, 0x43, 0x54, 0x59, 0x50, 0x45] = true by decide +kernel]
    have b8 : Reading.step (.doctype []) 0x20 = ([], .doctype []) := by simp [Reading.step, isHtmlSpace]
    refine ⟨_, 0x3E, .doctype h.data, hst, ?_, ?_⟩
    · rw [hlt]
      apply first a0
      rw [Reading.steps_cons_none b1, Reading.steps_cons_none b2, Reading.steps_cons_none b3,
        Reading.steps_cons_none b4, Reading.steps_cons_none b5, Reading.steps_cons_none b6,
        Reading.steps_cons_none b7, Reading.steps_cons_none b8]
      exact Reading.steps_doctype [] h.data h2 h3
    · have : doctypeEvent h.data = h := by
        rw [doctypeEvent, h4, ← hty, ← h1, ← h0]
      simp [Reading.step, this]

end Jargon
