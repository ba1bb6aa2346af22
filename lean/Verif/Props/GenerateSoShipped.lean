import Verif.Props.GenerateSo
import Verif.Props.Tables

/-! C68: the shipped table of filters/stackoverflow is the generator's. -/

namespace Jargon

/-! ### From numbers to bytes -/

/-- Numbers as bytes. -/
def bytesOf (l : List Nat) : Bytes := l.map UInt8.ofNat

/-- All below 256. -/
def Small (l : List Nat) : Prop := ∀ b ∈ l, b < 256

theorem textOf_bytes (n : Nat) : textOf n = bytesOf (natsOf n) := rfl

theorem natsOf_small (n : Nat) : Small (natsOf n) := textAux_lt _ _ _ (by simp)

theorem toNat_ofNat_small {b : Nat} (h : b < 256) : (UInt8.ofNat b).toNat = b := by
  simpa using Nat.mod_eq_of_lt h

theorem bytesOf_toNat {l : List Nat} (h : Small l) : (bytesOf l).map UInt8.toNat = l := by
  rw [bytesOf, List.map_map]
  conv => rhs; rw [← List.map_id l]
  exact List.map_congr_left fun b hb => toNat_ofNat_small (h b hb)

theorem bytesOf_inj {a b : List Nat} (ha : Small a) (hb : Small b) (h : bytesOf a = bytesOf b) : a = b := by
  rw [← bytesOf_toNat ha, ← bytesOf_toNat hb, h]

theorem ofNat_eq_iff {b : Nat} (h : b < 256) (c : UInt8) : UInt8.ofNat b = c ↔ b = c.toNat := by
  constructor
  · rintro rfl; exact (toNat_ofNat_small h).symm
  · rintro rfl; simp

theorem mem_bytesOf {l : List Nat} (h : Small l) (c : UInt8) : c ∈ bytesOf l ↔ c.toNat ∈ l := by
  simp only [bytesOf, List.mem_map]
  constructor
  · rintro ⟨b, hb, rfl⟩; rw [toNat_ofNat_small (h b hb)]; exact hb
  · intro hc; exact ⟨_, hc, by simp⟩

theorem memB_false {x : Nat} {l : List Nat} (h : memB x l = false) : x ∉ l :=
  fun hm => by rw [(memB_iff x l).mpr hm] at h; cases h

theorem eqB_refl (a : List Nat) : eqB a a = true := by
  induction a with
  | nil => rfl
  | cons x xs ih =>
    show (bif Nat.beq x x then eqB xs xs else false) = true
    rw [Nat.beq_refl, ih]; rfl

theorem eqB_false {a b : List Nat} (h : eqB a b = false) : a ≠ b := by
  rintro rfl; rw [eqB_refl] at h; cases h

/-- A tag as the API writes it: dashes for spaces. -/
def dashed (s : Bytes) : Bytes := s.map fun b => if b = 0x20 then 0x2D else b

theorem bytesOf_spaced {l : List Nat} (h : Small l) : bytesOf (spacedN l) = spaced (bytesOf l) := by
  induction l with
  | nil => rfl
  | cons b l ih =>
    have e : spacedN (b :: l) = (bif Nat.beq b 0x2D then 0x20 else b) :: spacedN l := rfl
    have ih := ih fun x hx => h x (by simp [hx])
    have hb := h b (by simp)
    rw [e]
    simp only [bytesOf, spaced, List.map_cons, List.cons.injEq] at ih ⊢
    refine ⟨?_, ih⟩
    by_cases hx : b = 0x2D
    · subst hx; rfl
    · have : Nat.beq b 0x2D = false := by
        rw [Bool.eq_false_iff]; exact fun hh => hx (Nat.eq_of_beq_eq_true hh)
      rw [this, cond_false, if_neg fun hh => hx ((ofNat_eq_iff hb 0x2D).mp hh)]

theorem bytesOf_dashed {l : List Nat} (h : Small l) : bytesOf (dashedN l) = dashed (bytesOf l) := by
  induction l with
  | nil => rfl
  | cons b l ih =>
    have e : dashedN (b :: l) = (bif Nat.beq b 0x20 then 0x2D else b) :: dashedN l := rfl
    have ih := ih fun x hx => h x (by simp [hx])
    have hb := h b (by simp)
    rw [e]
    simp only [bytesOf, dashed, List.map_cons, List.cons.injEq] at ih ⊢
    refine ⟨?_, ih⟩
    by_cases hx : b = 0x20
    · subst hx; rfl
    · have : Nat.beq b 0x20 = false := by
        rw [Bool.eq_false_iff]; exact fun hh => hx (Nat.eq_of_beq_eq_true hh)
      rw [this, cond_false, if_neg fun hh => hx ((ofNat_eq_iff hb 0x20).mp hh)]

theorem dashedN_small {l : List Nat} (h : Small l) : Small (dashedN l) := by
  induction l with
  | nil => exact h
  | cons b l ih =>
    have e : dashedN (b :: l) = (bif Nat.beq b 0x20 then 0x2D else b) :: dashedN l := rfl
    rw [e]
    intro x hx
    rcases List.mem_cons.mp hx with rfl | hx
    · cases Nat.beq b 0x20
      · exact h b (by simp)
      · exact (by decide : 0x2D < 256)
    · exact ih (fun x hx => h x (by simp [hx])) x hx

theorem spacedN_small {l : List Nat} (h : Small l) : Small (spacedN l) := by
  induction l with
  | nil => exact h
  | cons b l ih =>
    have e : spacedN (b :: l) = (bif Nat.beq b 0x2D then 0x20 else b) :: spacedN l := rfl
    rw [e]
    intro x hx
    rcases List.mem_cons.mp hx with rfl | hx
    · cases Nat.beq b 0x2D
      · exact h b (by simp)
      · exact (by decide : 0x20 < 256)
    · exact ih (fun x hx => h x (by simp [hx])) x hx

theorem spaced_dashed {s : Bytes} (h : 0x2D ∉ s) : spaced (dashed s) = s := by
  induction s with
  | nil => rfl
  | cons b s ih =>
    simp only [List.mem_cons, not_or] at h
    have ih := ih h.2
    simp only [spaced, dashed, List.map_cons, List.cons.injEq] at ih ⊢
    refine ⟨?_, ih⟩
    by_cases hb : b = 0x20
    · subst hb; rfl
    · rw [if_neg hb, if_neg (Ne.symm h.1)]

theorem toIgnore_bytes : toIgnore = ignoreN.map bytesOf := by decide +kernel

theorem ignoreN_small : ∀ i ∈ ignoreN, Small i := by
  have : ∀ i ∈ ignoreN, i.all (· < 256) = true := by decide +kernel
  intro i hi b hb
  simpa using List.all_eq_true.mp (this i hi) b hb

theorem not_ignored {l : List Nat} (hl : Small l) (h : ignoreN.any (eqB l) = false) : bytesOf l ∉ toIgnore := by
  rw [toIgnore_bytes]
  intro hm
  obtain ⟨i, hi, he⟩ := List.mem_map.mp hm
  have := bytesOf_inj (ignoreN_small i hi) hl he
  subst this
  rw [List.any_eq_false] at h
  exact h i hi (eqB_refl i)

/-! ### Rows -/

/-- The synonyms of a row. -/
def rowParts (k : Nat) : List Bytes := (partsN k).map bytesOf

theorem ownB_spec {r : Nat × Nat} (h : ownB r = true) : textOf r.1 = spaced (textOf r.2) := by
  rw [textOf_bytes, textOf_bytes, ← bytesOf_spaced (natsOf_small _), ← eqB_eq h]

theorem ownOk_spec {r : Nat × Nat} (ho : ownB r = true) (h : ownOkB r = true) :
    spaced (textOf r.2) ∉ toIgnore ∧ 0x2C ∉ textOf r.2 ∧ 0x20 ∉ textOf r.2 := by
  simp only [ownOkB, Bool.and_eq_true, Bool.not_eq_true'] at h
  obtain ⟨⟨⟨h1, h2⟩, h3⟩, -⟩ := h
  rw [← ownB_spec ho]
  refine ⟨not_ignored (natsOf_small _) h1, ?_, ?_⟩
  · rw [textOf_bytes, mem_bytesOf (natsOf_small _)]; exact memB_false h2
  · rw [textOf_bytes, mem_bytesOf (natsOf_small _)]; exact memB_false h3

theorem cut_flat {l p : List Nat} {ps : List (List Nat)} (h : cutRunes l = p :: ps) :
    l = p ++ ps.flatMap fun q => 0x2C :: q := by
  induction l generalizing p ps with
  | nil => cases h; rfl
  | cons b l ih =>
    obtain ⟨q, qs, hq⟩ := cutRunes_ne_nil l
    rw [cutRunes, hq] at h
    have := ih hq
    by_cases hb : b = 0x2C
    · rw [if_pos hb] at h
      cases h
      rw [hb, this]
      rfl
    · rw [if_neg hb] at h
      cases h
      rw [List.cons_append, ← this]

theorem cut_no_comma {l p : List Nat} (h : p ∈ cutRunes l) : 0x2C ∉ p := by
  induction l generalizing p with
  | nil => simp [cutRunes] at h; simp [h]
  | cons b l ih =>
    obtain ⟨q, qs, hq⟩ := cutRunes_ne_nil l
    rw [cutRunes, hq] at h
    rw [hq] at ih
    by_cases hb : b = 0x2C
    · rw [if_pos hb] at h
      rcases List.mem_cons.mp h with rfl | h
      · simp
      · exact ih h
    · rw [if_neg hb] at h
      rcases List.mem_cons.mp h with rfl | h
      · simp only [List.mem_cons, not_or]
        exact ⟨Ne.symm hb, ih List.mem_cons_self⟩
      · exact ih (List.mem_cons_of_mem _ h)

theorem commas_flat (p : Bytes) (ps : List Bytes) :
    commas (p :: ps) = p ++ ps.flatMap fun q => 0x2C :: 0x20 :: q := by
  induction ps generalizing p with
  | nil => simp [commas, List.intercalate]
  | cons q qs ih =>
    have : commas (p :: q :: qs) = p ++ 0x2C :: 0x20 :: commas (q :: qs) := by
      simp [commas, comma_str, List.intercalate]
    rw [this, ih]
    rfl

/-- What a checked row of synonyms is. -/
structure SynRow (r : Nat × Nat) : Prop where
  ne : rowParts r.1 ≠ []
  key : textOf r.1 = commas (rowParts r.1)
  comma : ∀ p ∈ rowParts r.1, 0x2C ∉ p
  dash : ∀ p ∈ rowParts r.1, 0x2D ∉ p
  ignored : ∀ p ∈ rowParts r.1, dashed p ∉ toIgnore
  other : ∀ p ∈ rowParts r.1, p ≠ spaced (textOf r.2)
  find : soSynTree.find r.2 = some r.1

theorem synOk_spec {r : Nat × Nat} (h : synOkB r = true) : SynRow r := by
  simp only [synOkB, Bool.and_eq_true, Bool.not_eq_true', cutB_eq] at h
  obtain ⟨⟨h1, h2⟩, h3⟩ := h
  obtain ⟨p, ps, hp⟩ := cutRunes_ne_nil (natsOf r.1)
  rw [hp] at h2
  simp only [Bool.and_eq_true, List.all_eq_true] at h2
  obtain ⟨h2, h4⟩ := h2
  have hparts : partsN r.1 = p :: ps.map List.tail := by simp [partsN, hp]
  have hhead : ∀ q ∈ ps, q = 0x20 :: q.tail := by
    intro q hq
    have := (h4 q hq).1
    cases q with
    | nil => cases this
    | cons b q => rw [Nat.eq_of_beq_eq_true this]; rfl
  have hin : ∀ x ∈ partsN r.1, (∀ b ∈ x, b ∈ natsOf r.1) ∧ 0x2C ∉ x ∧ partOkB r x = true := by
    rw [hparts]
    intro x hx
    rcases List.mem_cons.mp hx with rfl | hx
    · exact ⟨cutRunes_subset (by rw [hp]; simp), cut_no_comma (l := natsOf r.1) (by rw [hp]; simp), h2⟩
    · obtain ⟨q, hq, rfl⟩ := List.mem_map.mp hx
      have hc : q ∈ cutRunes (natsOf r.1) := by rw [hp]; simp [hq]
      refine ⟨fun b hb => cutRunes_subset hc b (List.mem_of_mem_tail hb),
        fun hm => cut_no_comma hc (List.mem_of_mem_tail hm), (h4 q hq).2⟩
  have hsmall : ∀ x ∈ partsN r.1, Small x := fun x hx b hb => natsOf_small _ b ((hin x hx).1 b hb)
  have hall : ∀ p ∈ rowParts r.1, ∃ x ∈ partsN r.1, p = bytesOf x := by
    intro p hp
    obtain ⟨x, hx, rfl⟩ := List.mem_map.mp hp
    exact ⟨x, hx, rfl⟩
  refine ⟨by simp [rowParts, hparts], ?_, ?_, ?_, ?_, ?_, ?_⟩
  · rw [rowParts, hparts, List.map_cons, commas_flat, textOf_bytes, cut_flat hp]
    simp only [bytesOf, List.map_append, List.append_cancel_left_eq, List.map_flatMap, List.flatMap_map]
    refine List.flatMap_congr fun q hq => ?_
    rw [hhead q hq]
    rfl
  · intro p hp
    obtain ⟨x, hx, rfl⟩ := hall p hp
    rw [mem_bytesOf (hsmall x hx)]
    exact (hin x hx).2.1
  · intro p hp
    obtain ⟨x, hx, rfl⟩ := hall p hp
    rw [mem_bytesOf (hsmall x hx)]
    exact fun hm => memB_false h1 ((hin x hx).1 _ hm)
  · intro p hp
    obtain ⟨x, hx, rfl⟩ := hall p hp
    have := (hin x hx).2.2
    simp only [partOkB, Bool.and_eq_true, Bool.not_eq_true'] at this
    rw [← bytesOf_dashed (hsmall x hx)]
    exact not_ignored (dashedN_small (hsmall x hx)) this.1
  · intro p hp
    obtain ⟨x, hx, rfl⟩ := hall p hp
    have := (hin x hx).2.2
    simp only [partOkB, Bool.and_eq_true, Bool.not_eq_true'] at this
    rw [textOf_bytes, ← bytesOf_spaced (natsOf_small _)]
    intro he
    have hsp := spacedN_small (natsOf_small r.2)
    exact eqB_false this.2 (bytesOf_inj (hsmall x hx) hsp he)
  · cases hf : soSynTree.find r.2 with
    | none => rw [hf] at h3; cases h3
    | some k => rw [hf] at h3; rw [Nat.eq_of_beq_eq_true h3]

/-! ### The tags -/

/-- The synonyms of a tag, as the API would give them. -/
noncomputable def soSyns (v : Nat) : List Bytes :=
  match soRows.flatten.find? fun s => Nat.beq s.2 v && !ownB s with
  | none => []
  | some s => (rowParts s.1).map dashed

/-- The tag of a row for a name. -/
noncomputable def soTag (r : Nat × Nat) : SoItem := ⟨textOf r.2, soSyns r.2, false⟩

/-- The tags. -/
noncomputable def soTags : List SoItem := (soRows.flatten.filter ownB).map soTag

/-- The answers of the API: twenty pages of no more than a hundred tags. -/
noncomputable def soAnswers (p : Nat) : Option SoWrapper :=
  some ⟨(soTags.drop (100 * (p - 1))).take 100, decide (p < 20), [], [], 0⟩

theorem row_cases {r : Nat × Nat} (hr : r ∈ soRows.flatten) :
    (ownB r = true ∧ spaced (textOf r.2) ∉ toIgnore ∧ 0x2C ∉ textOf r.2 ∧ 0x20 ∉ textOf r.2) ∨
    (ownB r = false ∧ SynRow r ∧ ∃ t ∈ soRows.flatten, t.2 = r.2 ∧ ownB t = true) := by
  rcases soRows_pairs r hr with ⟨h1, h2⟩ | ⟨h1, h2, h3⟩
  · exact Or.inl ⟨h1, ownOk_spec h1 h2⟩
  · exact Or.inr ⟨h1, synOk_spec h2, h3⟩

theorem find_cases (v : Nat) : (soSyns v = [] ∧ ∀ s ∈ soRows.flatten, s.2 = v → ownB s = true) ∨
    ∃ s ∈ soRows.flatten, s.2 = v ∧ ownB s = false ∧ SynRow s ∧ soSyns v = (rowParts s.1).map dashed := by
  unfold soSyns
  cases hf : soRows.flatten.find? fun s => Nat.beq s.2 v && !ownB s with
  | none =>
    refine Or.inl ⟨rfl, fun s hs hv => ?_⟩
    have := List.find?_eq_none.mp hf s hs
    subst hv
    simpa [Nat.beq_refl] using this
  | some s =>
    have hs := List.mem_of_find?_eq_some hf
    have := List.find?_some hf
    simp only [Bool.and_eq_true, Bool.not_eq_true'] at this
    refine Or.inr ⟨s, hs, Nat.eq_of_beq_eq_true this.1, this.2, ?_, rfl⟩
    rcases row_cases hs with ⟨h, -⟩ | ⟨-, h, -⟩
    · rw [this.2] at h; cases h
    · exact h

theorem syn_terms {s : Nat × Nat} (h : SynRow s) {name : Bytes} {b : Bool} :
    (SoItem.mk name ((rowParts s.1).map dashed) b).terms = rowParts s.1 := by
  unfold SoItem.terms
  rw [List.filter_eq_self.mpr]
  · simp only [List.map_map]
    conv => rhs; rw [← List.map_id (rowParts s.1)]
    exact List.map_congr_left fun p hp => spaced_dashed (h.dash p hp)
  · intro x hx
    obtain ⟨p, hp, rfl⟩ := List.mem_map.mp hx
    simpa using h.ignored p hp

/-- The terms of a tag are those of its row of synonyms, if there is one. -/
theorem tag_terms (r : Nat × Nat) : ((soTag r).terms = [] ∧ ∀ s ∈ soRows.flatten, s.2 = r.2 → ownB s = true) ∨
    ∃ s ∈ soRows.flatten, s.2 = r.2 ∧ ownB s = false ∧ SynRow s ∧ (soTag r).terms = rowParts s.1 := by
  rcases find_cases r.2 with ⟨h1, h2⟩ | ⟨s, h1, h2, h3, h4, h5⟩
  · exact Or.inl ⟨by simp [SoItem.terms, soTag, h1], h2⟩
  · refine Or.inr ⟨s, h1, h2, h3, h4, ?_⟩
    rw [soTag, h5]
    exact syn_terms h4

theorem mem_soTags {tag : SoItem} : tag ∈ soTags ↔ ∃ r ∈ soRows.flatten, ownB r = true ∧ tag = soTag r := by
  simp only [soTags, List.mem_map, List.mem_filter]
  constructor
  · rintro ⟨r, ⟨h1, h2⟩, rfl⟩; exact ⟨r, h1, h2, rfl⟩
  · rintro ⟨r, h1, h2, rfl⟩; exact ⟨r, ⟨h1, h2⟩, rfl⟩

theorem onPage_tags {p : Nat} {tag : SoItem} (h : OnPage soAnswers p tag) : tag ∈ soTags := by
  obtain ⟨w, hw, ht⟩ := h
  cases hw
  exact List.mem_of_mem_drop (List.mem_of_mem_take ht)

theorem tags_onPage {tag : SoItem} (h : tag ∈ soTags) : ∃ p, 1 ≤ p ∧ p ≤ 20 ∧ OnPage soAnswers p tag := by
  obtain ⟨i, hi, rfl⟩ := List.getElem_of_mem h
  have hlen : soTags.length = 1976 := by rw [soTags, List.length_map, soRows_own]
  refine ⟨i / 100 + 1, by omega, by omega, _, rfl, ?_⟩
  rw [List.mem_iff_getElem?]
  refine ⟨i % 100, ?_⟩
  rw [List.getElem?_take, if_pos (Nat.mod_lt _ (by decide)), List.getElem?_drop]
  have : 100 * (i / 100 + 1 - 1) + i % 100 = i := by omega
  rw [this]
  exact List.getElem?_eq_getElem hi

/-- A row for a name, and a synonym of another row, are not the same. -/
theorem own_not_part {r s : Nat × Nat} (hr : r ∈ soRows.flatten) (hs : s ∈ soRows.flatten)
    (ho : ownB r = true) (hsyn : SynRow s) : spaced (textOf r.2) ∉ rowParts s.1 := by
  intro hm
  have hr1 := ownB_spec ho
  have hc : 0x2C ∉ runes (textOf r.1) := by
    intro hc
    have := hsyn.comma _ hm
    rw [← hr1] at this
    exact this (comma_mem hc)
  have hnorm : ∀ q : List Nat, normalB stackOverflowIgnore (0x20 :: q) = normalB stackOverflowIgnore q := fun q => rfl
  -- what the tree says of the name
  have f1 := (rowB_spec (so_all r hr)).2.1 (runes (textOf r.1)) (by
    have := cutRunes_append (a := runes (textOf r.1)) (rs := []) (p := []) (ps := []) hc rfl
    simp only [List.append_nil] at this
    rw [this]; simp)
  -- what it says of the synonym
  have cut : ∀ (p : Bytes) (ps : List Bytes), 0x2C ∉ p → (∀ q ∈ ps, 0x2C ∉ q) →
      cutRunes (runes (commas (p :: ps))) = runes p :: ps.map fun q => 0x20 :: runes q := by
    intro p ps
    induction ps generalizing p with
    | nil =>
      intro hp _
      have := cutRunes_append (a := runes p) (rs := []) (p := []) (ps := []) (fun h => hp (comma_mem h)) rfl
      simpa [commas, List.intercalate] using this
    | cons q qs ih =>
      intro hp hqs
      have e : commas (p :: q :: qs) = p ++ 0x2C :: 0x20 :: commas (q :: qs) := by
        simp [commas, comma_str, List.intercalate]
      rw [e, runes_append_ascii _ (by decide), runes_ascii_cons (by decide), runes_ascii_cons (by decide)]
      have ih := ih q (hqs q (by simp)) fun x hx => hqs x (by simp [hx])
      have h2 : cutRunes (0x20 :: runes (commas (q :: qs))) =
          (0x20 :: runes q) :: qs.map fun q => 0x20 :: runes q := by
        rw [cutRunes, if_neg (by decide), ih]
      have h3 := cutRunes_append (a := runes p) (rs := 0x2C :: 0x20 :: runes (commas (q :: qs))) (p := [])
        (ps := (0x20 :: runes q) :: qs.map fun q => 0x20 :: runes q) (fun h => hp (comma_mem h))
        (by rw [cutRunes, if_pos rfl, h2])
      rw [List.append_nil] at h3
      exact h3
  have f2 : soTree.find (hash (normalB stackOverflowIgnore (runes (textOf r.1)))) = some s.2 := by
    have hall := (rowB_spec (so_all s hs)).2.1
    rw [hsyn.key] at hall
    have hcm := hsyn.comma
    rw [← hr1] at hm
    cases hp : rowParts s.1 with
    | nil => exact absurd hp hsyn.ne
    | cons p ps =>
      rw [hp] at hall hm hcm
      rw [cut p ps (hcm p (by simp)) fun q hq => hcm q (by simp [hq])] at hall
      rcases List.mem_cons.mp hm with hm | hm
      · rw [hm]; exact hall _ (by simp)
      · have := hall (0x20 :: runes (textOf r.1)) (by
          refine List.mem_cons_of_mem _ (List.mem_map.mpr ⟨_, hm, rfl⟩))
        rwa [hnorm] at this
  rw [f1, Option.some.injEq] at f2
  rw [f2] at hm
  exact hsyn.other _ hm rfl

theorem dashed_space (s : Bytes) : 0x20 ∉ dashed s := by
  simp only [dashed, List.mem_map, not_exists, not_and]
  intro b _
  split
  · decide
  · assumption

theorem dashed_comma {s : Bytes} (h : 0x2C ∉ s) : 0x2C ∉ dashed s := by
  simp only [dashed, List.mem_map, not_exists, not_and]
  intro b hb
  split
  · decide
  · rintro rfl; exact h hb

theorem so_keys {r s : Nat × Nat} (hr : r ∈ soRows.flatten) (hs : s ∈ soRows.flatten)
    (h : textOf r.1 = textOf s.1) : r = s :=
  List.inj_on_of_nodup_map (sorted_keys soRows_sorted) hr hs h

/-- **C68.** The table in the repository is what the generator makes of some answers of the API: twenty
pages of no more than a hundred tags each, all different, none of them with a space or comma in its name or
synonyms, and no synonym being also a tag. It has not been changed by hand, in no entry. -/
theorem C68_so_shipped : ∃ (get : Nat → Option SoWrapper) (m : StringMap),
    soGenerate get = .ok m ∧ m.Perm stackOverflowMappings ∧
    (∀ p, 1 ≤ p → p ≤ 20 → ∃ w, get p = some w ∧ w.items.length ≤ 100 ∧ (w.items.map SoItem.name).Nodup) ∧
    (∀ p q a b, OnPage get p a → OnPage get q b →
      0x20 ∉ a.name ∧ 0x2C ∉ a.name ∧ (∀ s ∈ a.synonyms, 0x20 ∉ s ∧ 0x2C ∉ s) ∧
      (a.name = b.name → a = b) ∧ b.name ∉ a.synonyms) := by
  have fine : ∀ p, (∃ w, soAnswers p = some w ∧ w.Fine ∧ w.hasMore = decide (p < 20) ∧ w.backoff = 0) :=
    fun p => ⟨_, rfl, ⟨rfl, rfl⟩, rfl, rfl⟩
  have own : ∀ {tag}, tag ∈ soTags → ∃ r ∈ soRows.flatten, tag = soTag r ∧ ownB r = true ∧
      spaced (textOf r.2) ∉ toIgnore ∧ 0x2C ∉ textOf r.2 ∧ 0x20 ∉ textOf r.2 := by
    intro tag ht
    obtain ⟨r, h1, h2, rfl⟩ := mem_soTags.mp ht
    rcases row_cases h1 with ⟨h3, h4⟩ | ⟨h3, -⟩
    · exact ⟨r, h1, rfl, h3, h4⟩
    · rw [h2] at h3; cases h3
  have same : ∀ {r r'}, r ∈ soRows.flatten → r' ∈ soRows.flatten → ownB r = true → ownB r' = true →
      textOf r.2 = textOf r'.2 → r = r' := by
    intro r r' hr hr' ho ho' he
    exact so_keys hr hr' (by rw [ownB_spec ho, ownB_spec ho', he])
  rcases soGenerate_cases soAnswers with ⟨e, q, -, -, -, -, hf⟩ | ⟨st, q, h1, inv, hq⟩
  · exfalso
    obtain ⟨w, hw, hfine, hm, hb⟩ := fine q
    rcases hf with ⟨hn, -⟩ | ⟨w', hw', hc⟩
    · rw [hw] at hn; cases hn
    · rw [hw] at hw'; cases hw'
      rcases hc with ⟨hc, -⟩ | ⟨-, -, hc, -⟩
      · exact hc hfine
      · omega
  have hq20 : q = 20 := by
    obtain ⟨-, h2, -, h4⟩ := hq
    rcases h4 with ⟨w, hw, -, hm⟩ | ⟨-, h⟩
    · obtain ⟨w', hw', -, hm', -⟩ := fine q
      rw [hw] at hw'; cases hw'
      rw [hm] at hm'
      have := of_decide_eq_false hm'.symm
      omega
    · exact h
  subst hq20
  refine ⟨soAnswers, st.mappings, h1, ?_, ?_, ?_⟩
  · -- the table
    rw [stackOverflow_rows]
    have sub : ∀ k v, (k, v) ∈ st.mappings → (k, v) ∈ tableOf soRows.flatten := by
      intro k v hkv
      obtain ⟨p, tag, -, -, ht, -, hv, hk⟩ := inv.sound k v hkv
      obtain ⟨r, hr, rfl, ho, -⟩ := own (onPage_tags ht)
      simp only [tableOf, List.mem_map]
      rcases hk with ⟨hne, hk⟩ | ⟨hk, -⟩
      · rcases tag_terms r with ⟨h, -⟩ | ⟨s, hs, hsv, -, hsyn, hterms⟩
        · exact absurd h hne
        · refine ⟨s, hs, ?_⟩
          rw [hk, hv, hterms, ← hsyn.key, hsv]
          rfl
      · refine ⟨r, hr, ?_⟩
        rw [hk, hv, ownB_spec ho]
        rfl
    have nd : ∀ {l : StringMap}, (l.map Prod.fst).Nodup → l.Nodup := fun h => h.of_map _
    refine (List.perm_ext_iff_of_nodup (nd inv.nodup) (nd ?_)).mpr ?_
    · rw [tableOf, List.map_map]
      exact sorted_keys soRows_sorted
    · rintro ⟨k, v⟩
      refine ⟨sub k v, fun h => ?_⟩
      simp only [tableOf, List.mem_map, Prod.mk.injEq] at h
      obtain ⟨r, hr, rfl, rfl⟩ := h
      have hkey : (∃ v, (textOf r.1, v) ∈ st.mappings) → (textOf r.1, textOf r.2) ∈ st.mappings := by
        rintro ⟨v, hv⟩
        have := sub _ _ hv
        simp only [tableOf, List.mem_map, Prod.mk.injEq] at this
        obtain ⟨r', hr', he, rfl⟩ := this
        rw [so_keys hr' hr he] at hv
        exact hv
      refine hkey ?_
      rcases row_cases hr with ⟨ho, hi, -⟩ | ⟨hno, hsyn, t, ht, htv, hto⟩
      · obtain ⟨p, hp1, hp2, hon⟩ := tags_onPage (mem_soTags.mpr ⟨r, hr, ho, rfl⟩)
        rw [ownB_spec ho]
        rcases inv.names p _ hp1 hp2 hon rfl hi with hseen | h
        · exfalso
          obtain ⟨q, tag, -, -, hon', -, hterm⟩ := (inv.seen _).mp hseen
          obtain ⟨r', hr', rfl, -⟩ := own (onPage_tags hon')
          rcases tag_terms r' with ⟨h, -⟩ | ⟨s, hs, -, -, hsyn, hterms⟩
          · rw [h] at hterm; cases hterm
          · rw [hterms] at hterm
            exact own_not_part hr hs ho hsyn hterm
        · exact h
      · obtain ⟨p, hp1, hp2, hon⟩ := tags_onPage (mem_soTags.mpr ⟨t, ht, hto, rfl⟩)
        rcases tag_terms t with ⟨-, h⟩ | ⟨s, hs, hsv, -, hsyn', hterms⟩
        · have := h r hr htv.symm
          rw [hno] at this; cases this
        · have he : s.1 = r.1 := by
            have h2 := hsyn.find
            rw [← htv, ← hsv, hsyn'.find, Option.some.injEq] at h2
            exact h2
          obtain ⟨v, hv⟩ := inv.syns p _ hp1 hp2 hon rfl (by rw [hterms]; exact hsyn'.ne)
          rw [hterms, he, ← hsyn.key] at hv
          exact ⟨v, hv⟩
  · intro p _ _
    refine ⟨_, rfl, by simp only [List.length_take]; omega, ?_⟩
    have hsub : (((soTags.drop (100 * (p - 1))).take 100).map SoItem.name).Sublist (soTags.map SoItem.name) :=
      ((List.take_sublist _ _).trans (List.drop_sublist _ _)).map _
    refine List.Nodup.sublist hsub ?_
    have hnd : soRows.flatten.Nodup := (sorted_keys soRows_sorted).of_map _
    rw [soTags, List.map_map]
    refine List.Nodup.map_on ?_ (hnd.filter _)
    intro x hx y hy he
    rw [List.mem_filter] at hx hy
    exact same hx.1 hy.1 hx.2 hy.2 he
  · intro p q a b ha hb
    obtain ⟨r, hr, rfl, ho, hi, hc, hs⟩ := own (onPage_tags ha)
    obtain ⟨r', hr', rfl, ho', -⟩ := own (onPage_tags hb)
    refine ⟨hs, hc, ?_, ?_, ?_⟩
    · intro s hs
      rcases find_cases r.2 with ⟨h, -⟩ | ⟨x, -, -, -, hsyn, h⟩
      · rw [soTag, h] at hs; cases hs
      · rw [soTag, h] at hs
        obtain ⟨y, hy, rfl⟩ := List.mem_map.mp hs
        exact ⟨dashed_space y, dashed_comma (hsyn.comma y hy)⟩
    · intro he
      rw [same hr hr' ho ho' he]
    · intro hm
      rcases find_cases r.2 with ⟨h, -⟩ | ⟨x, hx, -, -, hsyn, h⟩
      · rw [soTag, h] at hm; cases hm
      · rw [soTag, h] at hm
        obtain ⟨y, hy, he⟩ := List.mem_map.mp hm
        refine own_not_part hr' hx ho' hsyn ?_
        have : spaced (textOf r'.2) = y := by
          rw [← spaced_dashed (hsyn.dash y hy), he]
          rfl
        rw [this]
        exact hy

end Jargon
