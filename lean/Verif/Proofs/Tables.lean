import Verif.Spec.Tables
import Verif.Proofs.TableChecks
import Verif.Props.Synonyms

/-! The synonyms listed in a key, computed from its runes. -/

namespace Jargon

theorem pieces_runes (toks : List Token)
    (h : ∀ t ∈ toks, 0x2C ∈ runes t.value → t.value = [0x2C]) :
    (pieces toks).map (fun p => p.flatMap fun t => runes t.value) =
      cutRunes (toks.flatMap fun t => runes t.value) := by
  induction toks with
  | nil => rfl
  | cons t ts ih =>
    have ih := ih fun x hx => h x (by simp [hx])
    obtain ⟨p, ps, hp⟩ := pieces_ne_nil ts
    rw [List.flatMap_cons]
    by_cases hv : t.value = [0x2C]
    · rw [pieces, if_pos hv, List.map_cons, ih, hv]
      have : runes [0x2C] = [0x2C] := by decide
      rw [this, List.singleton_append, cutRunes, if_pos rfl]
      rfl
    · have hno : 0x2C ∉ runes t.value := fun hc => hv (h t (by simp) hc)
      rw [hp, List.map_cons] at ih
      rw [pieces, if_neg hv, hp, cutRunes_append hno ih.symm]
      rfl

theorem spell_dropSpaces {C : Compare} (p : List Token)
    (h : ∀ t ∈ p, t.space = true → C.normal (runes t.value) = []) :
    C.spell (p.dropWhile Token.space) = C.normal (p.flatMap fun t => runes t.value) := by
  induction p with
  | nil => rfl
  | cons t ts ih =>
    rw [List.dropWhile_cons, List.flatMap_cons, normal_append]
    split
    · rename_i hs
      rw [ih fun x hx => h x (by simp [hx]), h t (by simp) hs, List.nil_append]
    · rw [Compare.spell, List.flatMap_cons, normal_append]

theorem mem_pieces {toks : List Token} {p : List Token} (hp : p ∈ pieces toks) :
    ∀ t ∈ p, t ∈ toks := by
  induction toks generalizing p with
  | nil => simp [pieces] at hp; simp [hp]
  | cons t ts ih =>
    rw [pieces] at hp
    obtain ⟨q, qs, hq⟩ := pieces_ne_nil ts
    split at hp
    · rcases List.mem_cons.mp hp with rfl | hp
      · simp
      · intro x hx; exact List.mem_cons_of_mem _ (ih hp x hx)
    · rw [hq] at hp ih
      simp only at hp
      intro x hx
      rcases List.mem_cons.mp hp with rfl | hp
      · rcases List.mem_cons.mp hx with rfl | hx
        · simp
        · exact List.mem_cons_of_mem _ (ih (List.mem_cons_self) x hx)
      · exact List.mem_cons_of_mem _ (ih (List.mem_cons_of_mem _ hp) x hx)

/-- The spellings of the synonyms listed in a key, from its runes alone. -/
theorem listed_spells {E : Env} {C : Compare} {key : Bytes} (h : E.CutsCommas key)
    (hs : ∀ r ∈ runes key, isSpaceRune r = true → C.fold r ∈ C.ignore) :
    (listed (stringTokens E key)).map C.spell = (cutRunes (runes key)).map C.normal := by
  have hflat : ((stringTokens E key).flatMap fun t => runes t.value) = runes key := by
    rw [← h.whole, stringTokens, segTokens, List.flatMap_map]
    rfl
  have hc : ∀ t ∈ stringTokens E key, 0x2C ∈ runes t.value → t.value = [0x2C] := by
    intro t ht
    simp only [stringTokens, segTokens, List.mem_map] at ht
    obtain ⟨seg, hseg, rfl⟩ := ht
    exact h.comma seg hseg
  rw [← hflat, ← pieces_runes _ hc, listed, List.map_map, List.map_map]
  refine List.map_congr_left fun p hp => ?_
  refine spell_dropSpaces p fun t ht hsp => ?_
  have htk := mem_pieces hp t ht
  have hr : ∀ r ∈ runes t.value, r ∈ runes key := by
    intro r hr
    rw [← hflat]
    exact List.mem_flatMap.mpr ⟨t, htk, hr⟩
  simp only [stringTokens, segTokens, List.mem_map] at htk
  obtain ⟨seg, -, rfl⟩ := htk
  have hall : ∀ r ∈ runes seg, isSpaceRune r = true := by
    simpa [mkToken] using hsp
  simp only [Compare.normal, List.filter_eq_nil_iff, List.mem_map, decide_eq_true_eq, not_not]
  rintro _ ⟨r, hrr, rfl⟩
  exact hs r (hr r hrr) (hall r hrr)

/-! ### Checking a table -/

theorem normalB_eq {U : Unicode} (hU : U.LowersLatin) (ign : List Nat) {rs : List Nat}
    (h : ∀ r ∈ rs, r < 0x180) : (Compare.mk U true ign).normal rs = normalB ign rs := by
  induction rs with
  | nil => rfl
  | cons r rs ih =>
    have e : normalB ign (r :: rs) =
      bif memB (lowerB r) ign then normalB ign rs else lowerB r :: normalB ign rs := rfl
    have hf : (Compare.mk U true ign).fold r = lowerB r := by
      rw [lowerB_eq]; exact hU r (h r (by simp))
    rw [e, ← ih fun x hx => h x (by simp [hx])]
    simp only [Compare.normal, List.map_cons, List.filter_cons, hf]
    by_cases hm : lowerB r ∈ ign
    · simp [hm, (memB_iff _ _).mpr hm]
    · have : memB (lowerB r) ign = false := by
        rw [Bool.eq_false_iff]; exact fun h => hm ((memB_iff _ _).mp h)
      simp [hm, this]

/-- A spelling of a checked table leads, through the tree, to its canonical. -/
theorem entry_found {E : Env} {ign : List Nat} {tree : Tree} {rows : List (Nat × Nat)}
    (hU : E.U.LowersLatin) (hc : ∀ row ∈ rows, rowB ign tree row = true)
    (hk : ∀ m ∈ tableOf rows, E.CutsCommas m.1) {a : List Token × Bytes}
    (ha : a ∈ entries E (tableOf rows)) :
    ∃ v, tree.find (hash ((Compare.mk E.U true ign).spell a.1)) = some v ∧ a.2 = textOf v := by
  simp only [entries, List.mem_flatMap, List.mem_map] at ha
  obtain ⟨m, hm, s, hs, rfl⟩ := ha
  have hcut := hk m hm
  simp only [tableOf, List.mem_map] at hm
  obtain ⟨row, hrow, rfl⟩ := hm
  obtain ⟨h1, h2, -⟩ := rowB_spec (hc row hrow)
  refine ⟨row.2, ?_, rfl⟩
  have hsp := listed_spells (C := Compare.mk E.U true ign) hcut (fun r hr hsp => by
    have := h1 r hr
    show E.U.toLower r ∈ ign
    rw [hU r this.1]
    exact this.2 hsp)
  have : (Compare.mk E.U true ign).spell s ∈ (listed (stringTokens E (textOf row.1))).map
      (Compare.mk E.U true ign).spell := List.mem_map_of_mem hs
  rw [hsp, List.mem_map] at this
  obtain ⟨p, hp, hps⟩ := this
  rw [← hps, normalB_eq hU ign fun r hr => (h1 r (cutRunes_subset hp r hr)).1]
  exact h2 p hp

theorem table_unambiguous {E : Env} {ign : List Nat} {tree : Tree} {rows : List (Nat × Nat)}
    (hU : E.U.LowersLatin) (hc : ∀ row ∈ rows, rowB ign tree row = true)
    (hk : ∀ m ∈ tableOf rows, E.CutsCommas m.1) :
    Unambiguous ⟨E.U, true, ign⟩ (entries E (tableOf rows)) := by
  intro a ha b hb hab
  obtain ⟨v, hv, hav⟩ := entry_found hU hc hk ha
  obtain ⟨w, hw, hbw⟩ := entry_found hU hc hk hb
  rw [hab, hw] at hv
  cases hv
  rw [hav, hbw]

end Jargon
