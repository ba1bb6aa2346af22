import Verif.Spec.Generate
import Verif.Proofs.Strings

/-! C66 and C67: the generator of filters/stackoverflow. -/

namespace Jargon

/-! ### Text -/

theorem dashes_eq (s : Bytes) : dashes s = spaced s := by
  have h : ∀ (s : Bytes) (n : Nat), s.length ≤ n → replaceAux [0x2D] [0x20] n s = spaced s := by
    intro s
    induction s with
    | nil => intro n _; cases n <;> rfl
    | cons b t ih =>
      intro n hn
      obtain ⟨n, rfl⟩ : ∃ k, n = k + 1 := ⟨n - 1, by simp at hn; omega⟩
      simp only [List.length_cons, Nat.add_le_add_iff_right] at hn
      by_cases hb : b = 0x2D
      · subst hb
        simp [replaceAux, spaced] at ih ⊢
        exact ih n hn
      · have : ([0x2D] : Bytes).isPrefixOf (b :: t) = false := by
          simpa [List.isPrefixOf] using Ne.symm hb
        simp only [replaceAux, this, spaced, List.map_cons, hb, ↓reduceIte, ih n hn, Bool.false_eq_true]
  have h1 : str "-" = [0x2D] := by decide +kernel
  have h2 : str " " = [0x20] := by decide +kernel
  rw [dashes, replaceAll, h1, h2]
  exact h s _ (Nat.le_refl _)

theorem join_eq (sep : Bytes) (l : List Bytes) : join sep l = sep.intercalate l := by
  induction l with
  | nil => rfl
  | cons s l ih =>
    cases l with
    | nil => simp [join, List.intercalate]
    | cons t l =>
      rw [join, ih]
      simp [List.intercalate]

theorem soIgnored_eq : soIgnored = toIgnore := rfl

theorem soFiltered_eq (tag : SoItem) : soFiltered tag = tag.terms := by
  unfold soFiltered SoItem.terms
  rw [soIgnored_eq]
  exact List.map_congr_left fun s _ => dashes_eq s

/-! ### One page -/

theorem key_set {m : StringMap} {k k' v : Bytes} (h : ∃ w, (k', w) ∈ m) : ∃ w, (k', w) ∈ m.set k v := by
  obtain ⟨w, hw⟩ := h
  by_cases hk : k' = k
  · exact ⟨v, mem_set.mpr (Or.inl (by rw [hk]))⟩
  · exact ⟨w, mem_set.mpr (Or.inr ⟨hw, hk⟩)⟩

/-- The first loop. -/
theorem synonyms_fold (items : List SoItem) (st : SoState) :
    let st' := items.foldl soSynonyms st
    ((st.mappings.map Prod.fst).Nodup → (st'.mappings.map Prod.fst).Nodup) ∧
    (∀ x, x ∈ st'.seen ↔ x ∈ st.seen ∨ ∃ tag ∈ items, tag.moderator = false ∧ x ∈ tag.terms) ∧
    (∀ k v, (k, v) ∈ st'.mappings → (k, v) ∈ st.mappings ∨ ∃ tag ∈ items, tag.moderator = false ∧
      tag.terms ≠ [] ∧ k = commas tag.terms ∧ v = tag.name) ∧
    (∀ k, (∃ v, (k, v) ∈ st.mappings) → ∃ v, (k, v) ∈ st'.mappings) ∧
    (∀ tag ∈ items, tag.moderator = false → tag.terms ≠ [] → ∃ v, (commas tag.terms, v) ∈ st'.mappings) := by
  induction items generalizing st with
  | nil => simp
  | cons tag items ih =>
    simp only [List.foldl_cons]
    obtain ⟨h1, h2, h3, h4, h5⟩ := ih (soSynonyms st tag)
    by_cases hs : tag.moderator = false ∧ tag.terms ≠ []
    · have e : soSynonyms st tag = { mappings := st.mappings.set (commas tag.terms) tag.name,
                                     seen := tag.terms ++ st.seen } := by
        have hne : tag.synonyms.length ≠ 0 := fun h => hs.2 (by
          simp [SoItem.terms, List.eq_nil_of_length_eq_zero h])
        have hne' : (soFiltered tag).length ≠ 0 := fun h => hs.2 (by
          rw [← soFiltered_eq]; exact List.eq_nil_of_length_eq_zero h)
        rw [soSynonyms, if_neg (by simp [hs.1]), if_neg hne, if_neg hne', soFiltered_eq, join_eq]
        rfl
      rw [e] at h1 h2 h3 h4 h5 ⊢
      refine ⟨fun h => h1 (nodup_set h _ _), ?_, ?_, fun k hk => h4 k (key_set hk), ?_⟩
      · intro x
        rw [h2 x]
        simp only [List.mem_append, List.mem_cons, exists_eq_or_imp, hs.1, true_and]
        grind
      · intro k v hkv
        rcases h3 k v hkv with h | ⟨t, ht, h⟩
        · rcases mem_set.mp h with h | ⟨h, -⟩
          · cases h
            exact Or.inr ⟨tag, by simp, hs.1, hs.2, rfl, rfl⟩
          · exact Or.inl h
        · exact Or.inr ⟨t, by simp [ht], h⟩
      · intro t ht hm hne
        rcases List.mem_cons.mp ht with rfl | ht
        · exact h4 _ ⟨t.name, mem_set.mpr (Or.inl rfl)⟩
        · exact h5 t ht hm hne
    · have e : soSynonyms st tag = st := by
        unfold soSynonyms
        by_cases hm : tag.moderator = true
        · rw [if_pos hm]
        · rw [if_neg hm]
          have ht : tag.terms = [] := Decidable.byContradiction fun h => hs ⟨by simpa using hm, h⟩
          rw [← soFiltered_eq] at ht
          split
          · rfl
          · rw [if_pos (by rw [ht]; rfl)]
      rw [e] at h1 h2 h3 h4 h5 ⊢
      refine ⟨h1, ?_, ?_, h4, ?_⟩
      · intro x
        rw [h2 x]
        simp only [List.mem_cons, exists_eq_or_imp]
        constructor
        · rintro (h | h)
          · exact Or.inl h
          · exact Or.inr (Or.inr h)
        · rintro (h | ⟨hm, h⟩ | h)
          · exact Or.inl h
          · exact absurd ⟨hm, List.ne_nil_of_mem h⟩ hs
          · exact Or.inr h
      · intro k v hkv
        rcases h3 k v hkv with h | ⟨t, ht, h⟩
        · exact Or.inl h
        · exact Or.inr ⟨t, by simp [ht], h⟩
      · intro t ht hm hne
        rcases List.mem_cons.mp ht with rfl | ht
        · exact absurd ⟨hm, hne⟩ hs
        · exact h5 t ht hm hne

/-- The second loop. -/
theorem names_fold (items : List SoItem) (st : SoState) :
    let st' := items.foldl soName st
    ((st.mappings.map Prod.fst).Nodup → (st'.mappings.map Prod.fst).Nodup) ∧
    st'.seen = st.seen ∧
    (∀ k v, (k, v) ∈ st'.mappings → (k, v) ∈ st.mappings ∨ ∃ tag ∈ items, tag.moderator = false ∧
      k = spaced tag.name ∧ v = tag.name ∧ k ∉ toIgnore ∧ k ∉ st.seen) ∧
    (∀ k, (∃ v, (k, v) ∈ st.mappings) → ∃ v, (k, v) ∈ st'.mappings) ∧
    (∀ tag ∈ items, tag.moderator = false → spaced tag.name ∉ toIgnore → spaced tag.name ∉ st.seen →
      ∃ v, (spaced tag.name, v) ∈ st'.mappings) := by
  induction items generalizing st with
  | nil => simp
  | cons tag items ih =>
    simp only [List.foldl_cons]
    obtain ⟨h1, h2, h3, h4, h5⟩ := ih (soName st tag)
    by_cases hs : tag.moderator = false ∧ spaced tag.name ∉ toIgnore ∧ spaced tag.name ∉ st.seen
    · have e : soName st tag = { st with mappings := st.mappings.set (spaced tag.name) tag.name } := by
        rw [soName, if_neg (by simp [hs.1]), dashes_eq, soIgnored_eq, if_neg hs.2.1, if_neg hs.2.2]
      rw [e] at h1 h2 h3 h4 h5 ⊢
      refine ⟨fun h => h1 (nodup_set h _ _), h2, ?_, fun k hk => h4 k (key_set hk), ?_⟩
      · intro k v hkv
        rcases h3 k v hkv with h | ⟨t, ht, h⟩
        · rcases mem_set.mp h with h | ⟨h, -⟩
          · cases h
            exact Or.inr ⟨tag, by simp, hs.1, rfl, rfl, hs.2⟩
          · exact Or.inl h
        · exact Or.inr ⟨t, by simp [ht], h⟩
      · intro t ht hm hne hse
        rcases List.mem_cons.mp ht with rfl | ht
        · exact h4 _ ⟨t.name, mem_set.mpr (Or.inl rfl)⟩
        · exact h5 t ht hm hne hse
    · have e : soName st tag = st := by
        unfold soName
        split
        · rfl
        · rename_i hm
          rw [dashes_eq, soIgnored_eq]
          split
          · rfl
          · rename_i hi
            split
            · rfl
            · rename_i hse
              exact absurd ⟨by simpa using hm, hi, hse⟩ hs
      rw [e] at h1 h2 h3 h4 h5 ⊢
      refine ⟨h1, h2, ?_, h4, ?_⟩
      · intro k v hkv
        rcases h3 k v hkv with h | ⟨t, ht, h⟩
        · exact Or.inl h
        · exact Or.inr ⟨t, by simp [ht], h⟩
      · intro t ht hm hne hse
        rcases List.mem_cons.mp ht with rfl | ht
        · exact absurd ⟨hm, hne, hse⟩ hs
        · exact h5 t ht hm hne hse

/-! ### All pages -/

/-- What holds after the pages `first`, …, `first + n - 1` have been used. -/
structure SoInv (get : Nat → Option SoWrapper) (n : Nat) (st : SoState) : Prop where
  nodup : (st.mappings.map Prod.fst).Nodup
  seen : ∀ x, x ∈ st.seen ↔ ∃ p tag, 1 ≤ p ∧ p ≤ n ∧ OnPage get p tag ∧ tag.moderator = false ∧ x ∈ tag.terms
  sound : ∀ k v, (k, v) ∈ st.mappings → ∃ p tag, 1 ≤ p ∧ p ≤ n ∧ OnPage get p tag ∧ tag.moderator = false ∧
    v = tag.name ∧ ((tag.terms ≠ [] ∧ k = commas tag.terms) ∨
      (k = spaced tag.name ∧ k ∉ toIgnore ∧ ∀ q tag', 1 ≤ q → q ≤ p → OnPage get q tag' →
        tag'.moderator = false → k ∉ tag'.terms))
  syns : ∀ p tag, 1 ≤ p → p ≤ n → OnPage get p tag → tag.moderator = false → tag.terms ≠ [] →
    ∃ v, (commas tag.terms, v) ∈ st.mappings
  names : ∀ p tag, 1 ≤ p → p ≤ n → OnPage get p tag → tag.moderator = false → spaced tag.name ∉ toIgnore →
    spaced tag.name ∈ st.seen ∨ ∃ v, (spaced tag.name, v) ∈ st.mappings

theorem soInv_start (get : Nat → Option SoWrapper) : SoInv get 0 ⟨[], []⟩ where
  nodup := by simp
  seen := by
    intro x
    simp only [List.not_mem_nil, false_iff]
    rintro ⟨p, tag, h1, h2, -⟩
    omega
  sound := by simp
  syns := by intro p tag h1 h2; omega
  names := by intro p tag h1 h2; omega

theorem soInv_page {get : Nat → Option SoWrapper} {n : Nat} {st : SoState} (h : SoInv get n st)
    {w : SoWrapper} (hw : get (n + 1) = some w) : SoInv get (n + 1) (soPage st w.items) := by
  obtain ⟨a1, a2, a3, a4, a5⟩ := synonyms_fold w.items st
  obtain ⟨b1, b2, b3, b4, b5⟩ := names_fold w.items (w.items.foldl soSynonyms st)
  have hon : ∀ tag, OnPage get (n + 1) tag ↔ tag ∈ w.items := by
    intro tag
    simp [OnPage, hw]
  have hseen : ∀ x, x ∈ (w.items.foldl soSynonyms st).seen ↔
      ∃ p tag, 1 ≤ p ∧ p ≤ n + 1 ∧ OnPage get p tag ∧ tag.moderator = false ∧ x ∈ tag.terms := by
    intro x
    rw [a2 x, h.seen x]
    constructor
    · rintro (⟨p, tag, h1, h2, h3⟩ | ⟨tag, h1, h2⟩)
      · exact ⟨p, tag, h1, by omega, h3⟩
      · exact ⟨n + 1, tag, by omega, Nat.le_refl _, (hon tag).mpr h1, h2⟩
    · rintro ⟨p, tag, h1, h2, h3, h4⟩
      by_cases hp : p = n + 1
      · subst hp
        exact Or.inr ⟨tag, (hon tag).mp h3, h4⟩
      · exact Or.inl ⟨p, tag, h1, by omega, h3, h4⟩
  refine ⟨b1 (a1 h.nodup), ?_, ?_, ?_, ?_⟩
  · intro x
    rw [soPage, b2]
    exact hseen x
  · intro k v hkv
    rcases b3 k v hkv with hkv | ⟨tag, ht, hm, hk, hv, hi, hs⟩
    · rcases a3 k v hkv with hkv | ⟨tag, ht, hm, hne, hk, hv⟩
      · obtain ⟨p, tag, h1, h2, h3⟩ := h.sound k v hkv
        exact ⟨p, tag, h1, by omega, h3⟩
      · exact ⟨n + 1, tag, by omega, Nat.le_refl _, (hon tag).mpr ht, hm, hv, Or.inl ⟨hne, hk⟩⟩
    · refine ⟨n + 1, tag, by omega, Nat.le_refl _, (hon tag).mpr ht, hm, hv, Or.inr ⟨hk, hi, ?_⟩⟩
      intro q tag' h1 h2 h3 h4 h5
      exact hs ((hseen k).mpr ⟨q, tag', h1, h2, h3, h4, h5⟩)
  · intro p tag h1 h2 h3 h4 h5
    by_cases hp : p = n + 1
    · subst hp
      exact b4 _ (a5 tag ((hon tag).mp h3) h4 h5)
    · exact b4 _ (a4 _ (h.syns p tag h1 (by omega) h3 h4 h5))
  · intro p tag h1 h2 h3 h4 h5
    rw [soPage, b2]
    by_cases hp : p = n + 1
    · subst hp
      by_cases hs : spaced tag.name ∈ (w.items.foldl soSynonyms st).seen
      · exact Or.inl hs
      · exact Or.inr (b5 tag ((hon tag).mp h3) h4 h5 hs)
    · rcases h.names p tag h1 (by omega) h3 h4 h5 with h | h
      · exact Or.inl ((a2 _).mpr (Or.inl h))
      · exact Or.inr (b4 _ (a4 _ h))

theorem fetchTags_cases (get : Nat → Option SoWrapper) (p : Nat) :
    (∃ e, fetchTags get p = .error e ∧ FailsWith get p e) ∨
    ∃ w, fetchTags get p = .ok w ∧ get p = some w ∧ w.Fine := by
  unfold fetchTags
  cases hg : get p with
  | none => exact Or.inl ⟨_, rfl, Or.inl ⟨hg, rfl⟩⟩
  | some w =>
    simp only
    have : (w.errorName.length > 0 ∨ w.errorMessage.length > 0) ↔ ¬ w.Fine := by
      rw [SoWrapper.Fine, ← List.length_eq_zero_iff, ← List.length_eq_zero_iff]
      omega
    by_cases hf : w.Fine
    · rw [if_neg (by simp [this, hf])]
      exact Or.inr ⟨w, rfl, rfl, hf⟩
    · rw [if_pos (this.mpr hf)]
      exact Or.inl ⟨_, rfl, Or.inr ⟨w, hg, Or.inl ⟨hf, rfl⟩⟩⟩

/-- What the loop over the pages does, from page `n + 1` on. -/
theorem soPages_spec (get : Nat → Option SoWrapper) (left n : Nat) (st : SoState) (h : SoInv get n st)
    (hg : ∀ p, 1 ≤ p → p ≤ n → GoesOn get p) :
    (∃ e q, soPages get left (n + 1) st = .error e ∧ n < q ∧ q ≤ n + left ∧
      (∀ p, 1 ≤ p → p < q → GoesOn get p) ∧ FailsWith get q e) ∨
    (∃ st' q, soPages get left (n + 1) st = .ok st' ∧ SoInv get q st' ∧ n ≤ q ∧ q ≤ n + left ∧
      (∀ p, 1 ≤ p → p < q → GoesOn get p) ∧ (IsLast get q ∧ n < q ∨ (∀ p, 1 ≤ p → p ≤ q → GoesOn get p) ∧ q = n + left)) := by
  induction left generalizing n st with
  | zero =>
    exact Or.inr ⟨st, n, rfl, h, Nat.le_refl _, Nat.le_refl _, fun p h1 h2 => hg p h1 (by omega), Or.inr ⟨hg, rfl⟩⟩
  | succ left ih =>
    rw [soPages]
    rcases fetchTags_cases get (n + 1) with ⟨e, he, hf⟩ | ⟨w, hw, hgw, hf⟩
    · rw [he]
      exact Or.inl ⟨e, n + 1, rfl, by omega, by omega, fun p h1 h2 => hg p h1 (by omega), hf⟩
    · rw [hw]
      simp only
      have hi := soInv_page h hgw
      cases hm : w.hasMore with
      | false =>
        exact Or.inr ⟨_, n + 1, rfl, hi, by omega, by omega, fun p h1 h2 => hg p h1 (by omega),
          Or.inl ⟨⟨w, hgw, hf, hm⟩, by omega⟩⟩
      | true =>
        rw [if_neg (by simp)]
        by_cases hb : w.backoff > 10
        · rw [if_pos hb]
          exact Or.inl ⟨_, n + 1, rfl, by omega, by omega, fun p h1 h2 => hg p h1 (by omega),
            Or.inr ⟨w, hgw, Or.inr ⟨hf, hm, hb, rfl⟩⟩⟩
        · rw [if_neg hb]
          have hg' : ∀ p, 1 ≤ p → p ≤ n + 1 → GoesOn get p := by
            intro p h1 h2
            by_cases hp : p = n + 1
            · subst hp; exact ⟨w, hgw, hf, hm, by omega⟩
            · exact hg p h1 (by omega)
          rcases ih (n + 1) _ hi hg' with ⟨e, q, h1, h2, h3, h4⟩ | ⟨st', q, h1, h2, h3, h4, h5, h6⟩
          · exact Or.inl ⟨e, q, h1, by omega, by omega, h4⟩
          · refine Or.inr ⟨st', q, h1, h2, by omega, by omega, h5, ?_⟩
            rcases h6 with ⟨h6, h7⟩ | ⟨h6, h7⟩
            · exact Or.inl ⟨h6, by omega⟩
            · exact Or.inr ⟨h6, by omega⟩

/-- The last page that is read: the first that is the last there is, but no more than twenty. -/
def LastRead (get : Nat → Option SoWrapper) (n : Nat) : Prop :=
  1 ≤ n ∧ n ≤ 20 ∧ (∀ p, 1 ≤ p → p < n → GoesOn get p) ∧ (IsLast get n ∨ (GoesOn get n ∧ n = 20))

theorem soGenerate_cases (get : Nat → Option SoWrapper) :
    (∃ e q, soGenerate get = .error e ∧ 1 ≤ q ∧ q ≤ 20 ∧ (∀ p, 1 ≤ p → p < q → GoesOn get p) ∧
      FailsWith get q e) ∨
    (∃ st q, soGenerate get = .ok st.mappings ∧ SoInv get q st ∧ LastRead get q) := by
  have := soPages_spec get 20 0 ⟨[], []⟩ (soInv_start get) (by intro p h1 h2; omega)
  simp only [Nat.zero_add] at this
  unfold soGenerate
  rcases this with ⟨e, q, h1, h2, h3, h4, h5⟩ | ⟨st, q, h1, h2, -, h4, h5, h6⟩
  · exact Or.inl ⟨e, q, by rw [h1], h2, h3, h4, h5⟩
  · refine Or.inr ⟨st, q, by rw [h1], h2, ?_⟩
    rcases h6 with ⟨h6, h7⟩ | ⟨h6, rfl⟩
    · exact ⟨h7, h4, h5, Or.inl h6⟩
    · exact ⟨by omega, h4, h5, Or.inr ⟨h6 20 (by omega) (by omega), rfl⟩⟩

theorem failsWith_stop {get : Nat → Option SoWrapper} {p : Nat} {e : SoError} (h : FailsWith get p e) :
    ¬ GoesOn get p ∧ ¬ IsLast get p := by
  rcases h with ⟨h, -⟩ | ⟨w, h, ⟨hf, -⟩ | ⟨hf, hm, hb, -⟩⟩
  · refine ⟨?_, ?_⟩ <;> rintro ⟨w, hw, -⟩ <;> rw [h] at hw <;> cases hw
  · refine ⟨?_, ?_⟩ <;> rintro ⟨w', hw, hf', -⟩ <;> rw [h] at hw <;> cases hw <;> exact hf hf'
  · refine ⟨?_, ?_⟩
    · rintro ⟨w', hw, -, -, hb'⟩
      rw [h] at hw; cases hw
      omega
    · rintro ⟨w', hw, -, hm'⟩
      rw [h] at hw; cases hw
      rw [hm] at hm'; cases hm'

theorem failsWith_unique {get : Nat → Option SoWrapper} {p : Nat} {e e' : SoError} (h : FailsWith get p e)
    (h' : FailsWith get p e') : e = e' := by
  rcases h with ⟨h, rfl⟩ | ⟨w, h, hw⟩ <;> rcases h' with ⟨h', rfl⟩ | ⟨w', h', hw'⟩
  · rfl
  · rw [h] at h'; cases h'
  · rw [h] at h'; cases h'
  · rw [h] at h'; cases h'
    rcases hw with ⟨hf, rfl⟩ | ⟨hf, -, -, rfl⟩ <;> rcases hw' with ⟨hf', rfl⟩ | ⟨hf', -, -, rfl⟩
    · rfl
    · exact absurd hf' hf
    · exact absurd hf hf'
    · rfl

/-- **C66 (errors).** The generator fails exactly when one of the pages it reads, up to twenty of them,
cannot be fetched or read, reports an error, or asks for too long a pause; and it fails with that. -/
theorem C66_so_error (get : Nat → Option SoWrapper) (e : SoError) : soGenerate get = .error e ↔
    ∃ n, 1 ≤ n ∧ n ≤ 20 ∧ (∀ p, 1 ≤ p → p < n → GoesOn get p) ∧ FailsWith get n e := by
  rcases soGenerate_cases get with ⟨e', q, h1, h2, h3, h4, h5⟩ | ⟨st, q, h1, h2, h3⟩
  · rw [h1]
    constructor
    · intro he
      cases he
      exact ⟨q, h2, h3, h4, h5⟩
    · rintro ⟨n, hn1, -, hn2, hn3⟩
      have : n = q := by
        rcases Nat.lt_trichotomy n q with h | h | h
        · exact absurd (h4 n hn1 h) (failsWith_stop hn3).1
        · exact h
        · exact absurd (hn2 q h2 h) (failsWith_stop h5).1
      subst this
      rw [failsWith_unique hn3 h5]
  · rw [h1]
    constructor
    · intro h; cases h
    · rintro ⟨n, hn1, hn20, hn2, hn3⟩
      obtain ⟨g1, g2, g3, g4⟩ := h3
      rcases Nat.lt_trichotomy n q with h | h | h
      · exact absurd (g3 n hn1 h) (failsWith_stop hn3).1
      · subst h
        rcases g4 with g4 | ⟨g4, -⟩
        · exact absurd g4 (failsWith_stop hn3).2
        · exact absurd g4 (failsWith_stop hn3).1
      · rcases g4 with ⟨w, g4, g5, g6⟩ | ⟨g4, rfl⟩
        · obtain ⟨w', g4', -, g6', -⟩ := hn2 q g1 h
          rw [g4] at g4'; cases g4'
          rw [g6] at g6'; cases g6'
        · omega

/-- **C66 (table).** Otherwise it has read all pages up to the last, but no more than twenty, and its table
has each key once; every entry is for a tag on one of these pages that is not for moderators only, with its
name as canonical, and lists either its name or its synonyms, with spaces for dashes and without what is to
be ignored; and every name and synonym that is to be listed is listed in some entry. -/
theorem C66_so_table {get : Nat → Option SoWrapper} {m : StringMap} (h : soGenerate get = .ok m) :
    ∃ n, LastRead get n ∧ (m.map Prod.fst).Nodup ∧
    (∀ k v, (k, v) ∈ m → ∃ p tag l, 1 ≤ p ∧ p ≤ n ∧ OnPage get p tag ∧ tag.Lists l ∧ k = commas l ∧
      v = tag.name) ∧
    (∀ p tag l, 1 ≤ p → p ≤ n → OnPage get p tag → tag.Lists l → ∀ t ∈ l,
      ∃ k v p' tag' l', (k, v) ∈ m ∧ 1 ≤ p' ∧ p' ≤ n ∧ OnPage get p' tag' ∧ tag'.Lists l' ∧ k = commas l' ∧
        t ∈ l') := by
  rcases soGenerate_cases get with ⟨e', q, h1, -⟩ | ⟨st, q, h1, h2, h3⟩
  · rw [h] at h1; cases h1
  · rw [h] at h1
    cases h1
    have hone : ∀ s : Bytes, commas [s] = s := fun s => by simp [commas, List.intercalate]
    refine ⟨q, h3, h2.nodup, ?_, ?_⟩
    · intro k v hkv
      obtain ⟨p, tag, a1, a2, a3, a4, a5, a6⟩ := h2.sound k v hkv
      rcases a6 with ⟨a6, a7⟩ | ⟨a6, a7, -⟩
      · exact ⟨p, tag, _, a1, a2, a3, ⟨a4, Or.inl ⟨rfl, a6⟩⟩, a7, a5⟩
      · exact ⟨p, tag, _, a1, a2, a3, ⟨a4, Or.inr ⟨rfl, a6 ▸ a7⟩⟩, by rw [hone, a6], a5⟩
    · intro p tag l b1 b2 b3 b4 t ht
      have hsyn : ∀ p tag, 1 ≤ p → p ≤ q → OnPage get p tag → tag.moderator = false → t ∈ tag.terms →
          ∃ k v p' tag' l', (k, v) ∈ st.mappings ∧ 1 ≤ p' ∧ p' ≤ q ∧ OnPage get p' tag' ∧ tag'.Lists l' ∧
            k = commas l' ∧ t ∈ l' := by
        intro p tag c1 c2 c3 c4 c5
        obtain ⟨v, hv⟩ := h2.syns p tag c1 c2 c3 c4 (List.ne_nil_of_mem c5)
        exact ⟨_, v, p, tag, _, hv, c1, c2, c3, ⟨c4, Or.inl ⟨rfl, List.ne_nil_of_mem c5⟩⟩, rfl, c5⟩
      rcases b4 with ⟨hm, ⟨rfl, hne⟩ | ⟨rfl, hi⟩⟩
      · exact hsyn p tag b1 b2 b3 hm ht
      · rw [List.mem_singleton] at ht
        subst ht
        rcases h2.names p tag b1 b2 b3 hm hi with hs | ⟨v, hv⟩
        · obtain ⟨p', tag', d1, d2, d3, d4, d5⟩ := (h2.seen _).mp hs
          exact hsyn p' tag' d1 d2 d3 d4 d5
        · exact ⟨_, v, p, tag, _, hv, b1, b2, b3, ⟨hm, Or.inr ⟨rfl, hi⟩⟩, (hone _).symm, by simp⟩

/-- A page without errors. -/
def samplePage (items : List SoItem) (hasMore : Bool) : SoWrapper := ⟨items, hasMore, [], [], 3⟩

/-- An API that has these pages. -/
def samplePages (pages : List (List SoItem)) (p : Nat) : Option SoWrapper :=
  (pages[p - 1]?).map fun items => samplePage items (p < pages.length)

/-- Non-vacuity: two pages, with a tag for moderators, an ignored synonym and a name that is another tag's
synonym; and an error on the second page. -/
example :
    let page1 : List SoItem := [⟨str "go", [str "go-lang", str "for"], false⟩, ⟨str "spam", [], true⟩]
    let page2 : List SoItem := [⟨str "go-lang", [], false⟩, ⟨str "c-plus", [str "cpp"], false⟩]
    soGenerate (samplePages [page1, page2]) =
      .ok [(str "c plus", str "c-plus"), (str "cpp", str "c-plus"), (str "go", str "go"),
        (str "go lang", str "go")] ∧
    soGenerate (fun p => if p = 1 then some (samplePage page1 true) else none) = .error .fetch := by
  decide +kernel

/-! ### What is ignored -/

/-- Nothing that is to be ignored is listed. False: see `C66_violated_ignore`. -/
def C66_ignore_full : Prop :=
  ∀ (get : Nat → Option SoWrapper) (m : StringMap), soGenerate get = .ok m → NoCommas get →
    ∀ i ∈ toIgnore, ∀ k v, (k, v) ∈ m → ¬ ListedIn k (spaced i)

theorem onPage_sample {pages : List (List SoItem)} {p : Nat} {tag : SoItem}
    (h : OnPage (samplePages pages) p tag) : ∃ items ∈ pages, tag ∈ items := by
  obtain ⟨w, hw, ht⟩ := h
  simp only [samplePages, Option.map_eq_some_iff] at hw
  obtain ⟨items, hi, rfl⟩ := hw
  exact ⟨items, List.mem_of_getElem? hi, ht⟩

theorem noCommas_sample {pages : List (List SoItem)}
    (h : ∀ items ∈ pages, ∀ tag ∈ items, 0x2C ∉ tag.name ∧ ∀ s ∈ tag.synonyms, 0x2C ∉ s) :
    NoCommas (samplePages pages) := by
  intro p tag ht
  obtain ⟨items, hi, ht⟩ := onPage_sample ht
  exact h items hi tag ht

/-- **C66, violated.** The tag "drop-down" is not ignored: its name is looked up with a space for the
dash. -/
theorem C66_violated_ignore : ¬ C66_ignore_full := by
  intro h
  exact h (samplePages [[⟨str "drop-down", [], false⟩]]) [(str "drop down", str "drop-down")]
    (by decide +kernel) (noCommas_sample (by decide +kernel)) (str "drop-down") (by decide +kernel)
    (str "drop down") (str "drop-down") (by simp)
    ⟨[str "drop down"], by decide +kernel, by decide +kernel, by decide +kernel⟩

theorem spaced_plain {s t : Bytes} (h : 0x20 ∉ t) (he : spaced s = t) : s = t := by
  subst he
  induction s with
  | nil => rfl
  | cons b s ih =>
    simp only [spaced, List.map_cons, List.mem_cons, not_or] at h ⊢
    rw [if_neg (fun hb => h.1 (by rw [if_pos hb]))]
    exact congrArg _ (ih h.2)

theorem spaced_comma {s : Bytes} (h : 0x2C ∉ s) : 0x2C ∉ spaced s := by
  simp only [spaced, List.mem_map, not_exists, not_and]
  intro b hb
  split
  · decide
  · rintro rfl; exact h hb

theorem comma_str : str ", " = [0x2C, 0x20] := by decide +kernel

/-- What is before the first comma. -/
theorem before_comma {x x' r r' : Bytes} (hx : 0x2C ∉ x) (hx' : 0x2C ∉ x') (hr : r = [] ∨ ∃ t, r = 0x2C :: t)
    (hr' : r' = [] ∨ ∃ t, r' = 0x2C :: t) (h : x ++ r = x' ++ r') : x = x' ∧ r = r' := by
  induction x generalizing x' with
  | nil =>
    cases x' with
    | nil => exact ⟨rfl, h⟩
    | cons b x' =>
      rcases hr with rfl | ⟨t, rfl⟩
      · cases h
      · simp only [List.nil_append, List.cons_append, List.cons.injEq] at h
        exact absurd (by simp [h.1]) hx'
  | cons a x ih =>
    cases x' with
    | nil =>
      rcases hr' with rfl | ⟨t, rfl⟩
      · cases h
      · simp only [List.nil_append, List.cons_append, List.cons.injEq] at h
        exact absurd (by simp [h.1]) hx
    | cons b x' =>
      simp only [List.cons_append, List.cons.injEq, List.mem_cons, not_or] at h hx hx'
      obtain ⟨h1, h2⟩ := ih hx.2 hx'.2 h.2
      exact ⟨by rw [h.1, h1], h2⟩

theorem commas_cons (x : Bytes) (xs : List Bytes) :
    ∃ r, commas (x :: xs) = x ++ r ∧ ((xs = [] ∧ r = []) ∨ (xs ≠ [] ∧ r = 0x2C :: 0x20 :: commas xs)) := by
  cases xs with
  | nil => exact ⟨[], by simp [commas, List.intercalate], Or.inl ⟨rfl, rfl⟩⟩
  | cons y ys =>
    refine ⟨_, ?_, Or.inr ⟨by simp, rfl⟩⟩
    simp [commas, comma_str, List.intercalate]

theorem commas_inj {l l' : List Bytes} (hl : ∀ x ∈ l, 0x2C ∉ x) (hl' : ∀ x ∈ l', 0x2C ∉ x) (hne : l ≠ [])
    (hne' : l' ≠ []) (h : commas l = commas l') : l = l' := by
  induction l generalizing l' with
  | nil => exact absurd rfl hne
  | cons x xs ih =>
    cases l' with
    | nil => exact absurd rfl hne'
    | cons y ys =>
      obtain ⟨r, hr, hrc⟩ := commas_cons x xs
      obtain ⟨r', hr', hrc'⟩ := commas_cons y ys
      rw [hr, hr'] at h
      have hs : r = [] ∨ ∃ t, r = 0x2C :: t := by
        rcases hrc with ⟨-, h⟩ | ⟨-, h⟩
        · exact Or.inl h
        · exact Or.inr ⟨_, h⟩
      have hs' : r' = [] ∨ ∃ t, r' = 0x2C :: t := by
        rcases hrc' with ⟨-, h⟩ | ⟨-, h⟩
        · exact Or.inl h
        · exact Or.inr ⟨_, h⟩
      obtain ⟨rfl, rfl⟩ := before_comma (hl x (by simp)) (hl' y (by simp)) hs hs' h
      rcases hrc with ⟨rfl, hrn⟩ | ⟨hx, hrn⟩ <;> rcases hrc' with ⟨rfl, hrn'⟩ | ⟨hy, hrn'⟩
      · rfl
      · rw [hrn] at hrn'; cases hrn'
      · rw [hrn] at hrn'; cases hrn'
      · rw [hrn] at hrn'
        simp only [List.cons.injEq, true_and] at hrn'
        rw [ih (fun x hx => hl x (by simp [hx])) (fun x hx => hl' x (by simp [hx])) hx hy hrn']

theorem lists_commas {get : Nat → Option SoWrapper} (hc : NoCommas get) {p : Nat} {tag : SoItem}
    (ht : OnPage get p tag) {l : List Bytes} (hl : tag.Lists l) : l ≠ [] ∧ ∀ x ∈ l, 0x2C ∉ x := by
  obtain ⟨h1, h2⟩ := hc p tag ht
  rcases hl.2 with ⟨rfl, hne⟩ | ⟨rfl, -⟩
  · refine ⟨hne, fun x hx => ?_⟩
    simp only [SoItem.terms, List.mem_map, List.mem_filter] at hx
    obtain ⟨s, ⟨hs, -⟩, rfl⟩ := hx
    exact spaced_comma (h2 s hs)
  · exact ⟨by simp, by simpa using spaced_comma h1⟩

theorem listedIn_lists {get : Nat → Option SoWrapper} (hc : NoCommas get) {p : Nat} {tag : SoItem}
    (ht : OnPage get p tag) {l : List Bytes} (hl : tag.Lists l) {t : Bytes} :
    ListedIn (commas l) t ↔ t ∈ l := by
  obtain ⟨h1, h2⟩ := lists_commas hc ht hl
  constructor
  · rintro ⟨l', hl', he, hm⟩
    rw [commas_inj h2 hl' h1 (List.ne_nil_of_mem hm) he]
    exact hm
  · exact fun hm => ⟨l, h2, rfl, hm⟩

/-- **C66, partial (ignored).** What is to be ignored and has no dash is not listed. What is missing for
`C66_ignore_full`: "drop-down". -/
theorem C66_ignore_partial {get : Nat → Option SoWrapper} {m : StringMap} (h : soGenerate get = .ok m)
    (hc : NoCommas get) {i : Bytes} (hi : i ∈ toIgnore) (hd : i ≠ str "drop-down") {k v : Bytes}
    (hkv : (k, v) ∈ m) : ¬ ListedIn k (spaced i) := by
  have hsp : spaced i = i ∧ 0x20 ∉ i := by
    have : ∀ i ∈ toIgnore, i ≠ str "drop-down" → spaced i = i ∧ 0x20 ∉ i := by decide +kernel
    exact this i hi hd
  obtain ⟨n, -, -, hs, -⟩ := C66_so_table h
  obtain ⟨p, tag, l, -, -, ht, hl, rfl, -⟩ := hs k v hkv
  rw [listedIn_lists hc ht hl, hsp.1]
  rcases hl.2 with ⟨rfl, -⟩ | ⟨rfl, hn⟩
  · intro hm
    simp only [SoItem.terms, List.mem_map, List.mem_filter, decide_eq_true_eq] at hm
    obtain ⟨s, ⟨-, hs⟩, he⟩ := hm
    exact hs (spaced_plain hsp.2 he ▸ hi)
  · rw [List.mem_singleton]
    rintro rfl
    exact hn hi

/-! ### One tag for each term -/

/-- No term is listed for two different tags. False: see `C67_violated_seen`. -/
def C67_full : Prop :=
  ∀ (get : Nat → Option SoWrapper) (m : StringMap), soGenerate get = .ok m → NoCommas get →
    -- the tags, with spaces for dashes, are different
    (∀ p q a b, OnPage get p a → OnPage get q b → spaced a.name = spaced b.name → a.name = b.name) →
    -- no synonym belongs to two tags
    (∀ p q a b t, OnPage get p a → OnPage get q b → t ∈ a.terms → t ∈ b.terms → a.name = b.name) →
    ∀ k v k' v' t, (k, v) ∈ m → (k', v') ∈ m → ListedIn k t → ListedIn k' t → v = v'

/-- **C67, violated.** "Avoid duplicates" only looks at the pages read so far: a tag on the first page that
is a synonym of one on the second is listed for both. -/
theorem C67_violated_seen : ¬ C67_full := by
  intro h
  have hone : ∀ {P : SoItem → SoItem → Prop} {pages : List (List SoItem)},
      (∀ a ∈ pages.flatten, ∀ b ∈ pages.flatten, P a b) → ∀ p q a b, OnPage (samplePages pages) p a →
      OnPage (samplePages pages) q b → P a b := by
    intro P pages hp p q a b ha hb
    obtain ⟨i, hi, ha⟩ := onPage_sample ha
    obtain ⟨j, hj, hb⟩ := onPage_sample hb
    exact hp a (List.mem_flatten.mpr ⟨i, hi, ha⟩) b (List.mem_flatten.mpr ⟨j, hj, hb⟩)
  have := h (samplePages [[⟨str "foo", [], false⟩], [⟨str "bar", [str "foo", str "foos"], false⟩]])
    [(str "bar", str "bar"), (str "foo, foos", str "bar"), (str "foo", str "foo")] (by decide +kernel)
    (noCommas_sample (by decide +kernel)) (hone (by decide +kernel))
    (fun p q a b t ha hb h1 h2 => hone (P := fun a b => (∃ t ∈ a.terms, t ∈ b.terms) → a.name = b.name)
      (by decide +kernel) p q a b ha hb ⟨t, h1, h2⟩)
    (str "foo") (str "foo") (str "foo, foos") (str "bar") (str "foo") (by simp) (by simp)
    ⟨[str "foo"], by decide +kernel, by decide +kernel, by decide +kernel⟩
    ⟨[str "foo", str "foos"], by decide +kernel, by decide +kernel, by decide +kernel⟩
  exact absurd this (by decide +kernel)

/-- **C67, partial.** If a tag that is also a synonym of another is never on an earlier page than that,
no term is listed for two different tags. What is missing for `C67_full`: tags on an earlier page. -/
theorem C67_one_tag_partial {get : Nat → Option SoWrapper} {m : StringMap} (h : soGenerate get = .ok m)
    (hc : NoCommas get)
    (hname : ∀ p q a b, OnPage get p a → OnPage get q b → spaced a.name = spaced b.name → a.name = b.name)
    (hterm : ∀ p q a b t, OnPage get p a → OnPage get q b → t ∈ a.terms → t ∈ b.terms → a.name = b.name)
    (hpage : ∀ p q a b, OnPage get p a → OnPage get q b → spaced a.name ∈ b.terms → a.name = b.name ∨ q ≤ p)
    {k v k' v' t : Bytes} (hkv : (k, v) ∈ m) (hkv' : (k', v') ∈ m) (ht : ListedIn k t) (ht' : ListedIn k' t) :
    v = v' := by
  rcases soGenerate_cases get with ⟨e', q, h1, -⟩ | ⟨st, n, h1, inv, -⟩
  · rw [h] at h1; cases h1
  rw [h] at h1
  cases h1
  have hone : ∀ s : Bytes, commas [s] = s := fun s => by simp [commas, List.intercalate]
  have key : ∀ {k v : Bytes}, (k, v) ∈ st.mappings → ListedIn k t → ∃ p tag, 1 ≤ p ∧ OnPage get p tag ∧
      tag.moderator = false ∧ v = tag.name ∧ (t ∈ tag.terms ∨ (t = spaced tag.name ∧
        ∀ q tag', 1 ≤ q → q ≤ p → OnPage get q tag' → tag'.moderator = false → t ∉ tag'.terms)) := by
    intro k v hkv ht
    obtain ⟨p, tag, h1, -, h3, h4, h5, h6⟩ := inv.sound k v hkv
    refine ⟨p, tag, h1, h3, h4, h5, ?_⟩
    rcases h6 with ⟨h6, rfl⟩ | ⟨h6, h7, h8⟩
    · exact Or.inl ((listedIn_lists hc h3 ⟨h4, Or.inl ⟨rfl, h6⟩⟩).mp ht)
    · rw [h6, ← hone (spaced tag.name), listedIn_lists hc h3 ⟨h4, Or.inr ⟨rfl, h6 ▸ h7⟩⟩,
        List.mem_singleton] at ht
      refine Or.inr ⟨ht, ?_⟩
      rw [ht, ← h6]
      exact h8
  obtain ⟨p, a, h1, h2, h3, rfl, h4⟩ := key hkv ht
  obtain ⟨p', b, h1', h2', h3', rfl, h4'⟩ := key hkv' ht'
  rcases h4 with h4 | ⟨h4, h5⟩ <;> rcases h4' with h4' | ⟨h4', h5'⟩
  · exact hterm p p' a b t h2 h2' h4 h4'
  · rcases hpage p' p b a h2' h2 (h4' ▸ h4) with h | h
    · exact h.symm
    · exact absurd h4 (h5' p a h1 h h2 h3)
  · rcases hpage p p' a b h2 h2' (h4 ▸ h4') with h | h
    · exact h
    · exact absurd h4' (h5 p' b h1' h h2' h3')
  · exact hname p p' a b h2 h2' (h4.symm.trans h4')

/-- Non-vacuity: the tag that is a synonym of another is on a later page, and left out. -/
example : ∃ get, soGenerate get = .ok [(str "bar", str "bar"), (str "foo, foos", str "bar")] ∧ NoCommas get ∧
    (∀ p q a b, OnPage get p a → OnPage get q b → spaced a.name = spaced b.name → a.name = b.name) ∧
    (∀ p q a b t, OnPage get p a → OnPage get q b → t ∈ a.terms → t ∈ b.terms → a.name = b.name) ∧
    (∀ p q a b, OnPage get p a → OnPage get q b → spaced a.name ∈ b.terms → a.name = b.name ∨ q ≤ p) := by
  let bar : SoItem := ⟨str "bar", [str "foo", str "foos"], false⟩
  let foo : SoItem := ⟨str "foo", [], false⟩
  have on : ∀ {p tag}, OnPage (samplePages [[bar], [foo]]) p tag → (tag = bar ∧ p ≤ 1) ∨ (tag = foo ∧ p = 2) := by
    rintro p tag ⟨w, hw, ht⟩
    simp only [samplePages, Option.map_eq_some_iff] at hw
    obtain ⟨items, hi, rfl⟩ := hw
    have hp : p - 1 < 2 := by
      have := (List.getElem?_eq_some_iff.mp hi).1
      simpa using this
    have : p ≤ 1 ∨ p = 2 := by omega
    rcases this with h | h
    · have h0 : p - 1 = 0 := by omega
      rw [h0] at hi
      cases hi
      exact Or.inl ⟨by simpa [samplePage] using ht, h⟩
    · subst h
      cases hi
      exact Or.inr ⟨by simpa [samplePage] using ht, rfl⟩
  refine ⟨samplePages [[bar], [foo]], by decide +kernel, noCommas_sample (by decide +kernel), ?_, ?_, ?_⟩
  · intro p q a b ha hb
    rcases on ha with ⟨rfl, -⟩ | ⟨rfl, -⟩ <;> rcases on hb with ⟨rfl, -⟩ | ⟨rfl, -⟩ <;> decide +kernel
  · have : ∀ a ∈ [bar, foo], ∀ b ∈ [bar, foo], ∀ t ∈ a.terms, t ∈ b.terms → a.name = b.name := by decide +kernel
    intro p q a b t ha hb h1
    exact this a (by rcases on ha with ⟨rfl, -⟩ | ⟨rfl, -⟩ <;> simp) b
      (by rcases on hb with ⟨rfl, -⟩ | ⟨rfl, -⟩ <;> simp) t h1
  · intro p q a b ha hb hs
    rcases on hb with ⟨rfl, hq⟩ | ⟨rfl, -⟩
    · rcases on ha with ⟨rfl, -⟩ | ⟨rfl, rfl⟩
      · exact Or.inl rfl
      · exact Or.inr (by omega)
    · exact absurd hs (by simp [SoItem.terms, foo])

end Jargon
