import Verif.Props.Uax29

/-! The word limits of the shipped tables, exactly. -/

namespace Jargon

/-- At most `maxW` words between commas, `n` so far. -/
noncomputable def limitB (maxW : Nat) (gs : List (List Nat)) : Nat → Bool :=
  List.rec (motive := fun _ => Nat → Bool) (fun n => Nat.ble n maxW)
    (fun g _ ih n => bif eqB g [0x2C] then Nat.ble n maxW && ih 0 else ih (bif isWordB g then Nat.succ n else n)) gs

theorem eqB_iff (a b : List Nat) : eqB a b = true ↔ a = b := by
  refine ⟨eqB_eq, ?_⟩
  rintro rfl
  induction a with
  | nil => rfl
  | cons x a ih =>
    have e : eqB (x :: a) (x :: a) = (Nat.beq x x && eqB a a) := by first | rfl | (simp [eqB])
    rw [e, ih]; simp

/-- The words of each piece, from its tokens. -/
theorem limitB_pieces {U : Unicode} (hP : U.PunctLatin) {maxW : Nat} {toks : List Token} {gs : List (List Nat)}
    (h : TokensOf U toks gs) (hk : ∀ g ∈ gs, ∀ r ∈ g, codeB r ≠ 9) {n : Nat} (hl : limitB maxW gs n = true) :
    ∃ p ps, pieces toks = p :: ps ∧ n + words p ≤ maxW ∧ ∀ q ∈ ps, words q ≤ maxW := by
  induction toks generalizing gs n with
  | nil =>
    obtain ⟨rfl, -⟩ := h
    exact ⟨[], [], rfl, by simpa [words] using Nat.le_of_ble_eq_true hl, by simp⟩
  | cons t toks ih =>
    have hw := h.word hP hk (t := t) (by simp)
    obtain ⟨h1, h2⟩ := h
    obtain ⟨g, gs, rfl⟩ : ∃ g gs', gs = g :: gs' := by
      cases gs with
      | nil => cases h1
      | cons g gs => exact ⟨g, gs, rfl⟩
    simp only [List.map_cons, List.cons.injEq] at h1
    obtain ⟨rfl, h1⟩ := h1
    have ht : TokensOf U toks gs := ⟨h1, fun t ht => h2 t (by simp [ht])⟩
    have hk' : ∀ g ∈ gs, ∀ r ∈ g, codeB r ≠ 9 := fun g hg => hk g (by simp [hg])
    have e : limitB maxW (runes t.value :: gs) n = bif eqB (runes t.value) [0x2C] then Nat.ble n maxW && limitB maxW gs 0
      else limitB maxW gs (bif isWordB (runes t.value) then Nat.succ n else n) := rfl
    rw [e] at hl
    by_cases hc : t.value = [0x2C]
    · rw [(eqB_iff (runes t.value) [0x2C]).mpr (by rw [hc]; decide), cond_true, Bool.and_eq_true] at hl
      obtain ⟨p, ps, hp, hpn, hps⟩ := ih ht hk' hl.2
      refine ⟨[], p :: ps, by rw [pieces, if_pos hc, hp], by simpa [words] using Nat.le_of_ble_eq_true hl.1, ?_⟩
      simp only [List.forall_mem_cons]
      exact ⟨by omega, hps⟩
    · have hne : eqB (runes t.value) [0x2C] = false := by
        rw [← Bool.not_eq_true, eqB_iff]
        exact fun h => hc (runes_comma h)
      rw [hne, cond_false] at hl
      obtain ⟨p, ps, hp, hpn, hps⟩ := ih ht hk' hl
      refine ⟨t :: p, ps, by rw [pieces, if_neg hc, hp], ?_, hps⟩
      have hwords : words (t :: p) = words p + if t.IsWord then 1 else 0 := by
        simp [words, List.countP_cons]
      rw [hwords]
      by_cases hword : t.IsWord
      · rw [hw.mp hword, cond_true] at hpn
        rw [if_pos hword]; omega
      · have : isWordB (runes t.value) = false := by rw [← Bool.not_eq_true, ← hw]; exact hword
        rw [this, cond_false] at hpn
        rw [if_neg hword]; omega

theorem words_dropSpaces (p : List Token) : words (p.dropWhile Token.space) = words p := by
  induction p with
  | nil => rfl
  | cons t p ih =>
    rw [List.dropWhile_cons]
    split
    · next h =>
      have : ¬ t.IsWord := by simp [Token.IsWord, h]
      rw [ih]; simp [words, List.countP_cons, this]
    · rfl

theorem limit_le {E : Env} {cls : WordTable} (hF : E.FollowsUax29 cls) (hR : cls.Right) (hP : E.U.PunctLatin)
    {ign : List Nat} {maxW : Nat} {lost : List Nat} {rows : List (Nat × Nat)} {w : Nat} (h1 : 1 ≤ w)
    (h : ∀ row ∈ rows, wordRowB ign maxW lost row = true)
    (hl : ∀ row ∈ rows, limitB w (wordsB (runesB row.1) 0).2.2 0 = true) :
    wordLimit (entries E (tableOf rows)) ≤ w := by
  rcases foldl_max_mem ((entries E (tableOf rows)).map fun a => words a.1) 1 with hm | hm
  · rw [wordLimit, hm]; exact h1
  · rw [wordLimit]
    generalize List.foldl max 1 ((entries E (tableOf rows)).map fun a => words a.1) = n at hm ⊢
    simp only [entries, tableOf, List.mem_map, List.mem_flatMap, listed] at hm
    obtain ⟨a, ⟨m, ⟨row, hrow, rfl⟩, s, ⟨p, hp, rfl⟩, rfl⟩, rfl⟩ := hm
    obtain ⟨k1, k2, -, -⟩ := wordRowB_spec (h row hrow)
    have hl := hl row hrow
    rw [runesB_eq] at hl
    obtain ⟨q, qs, hq, hqn, hqs⟩ := limitB_pieces hP (tokensOf_string hF hR (.inl k2) k1) (wordsB_known hR k1) hl
    rw [words_dropSpaces]
    rw [hq, List.mem_cons] at hp
    rcases hp with rfl | hp
    · omega
    · exact hqs p hp

theorem soRows_limit : ∀ rows ∈ soRows,
    rows.all (fun row => limitB 5 (wordsB (runesB row.1) 0).2.2 0) = true := by decide +kernel


/-- The longest synonym of the Stack Overflow table has five words. -/
theorem so_limit_eq {E : Env} {cls : WordTable} (hF : E.FollowsUax29 cls) (hR : cls.Right) (hP : E.U.PunctLatin) :
    wordLimit (entries E (tableOf soRows.flatten)) = 5 := by
  refine Nat.le_antisymm (limit_le hF hR hP (by decide) so_words fun row hrow => ?_) (so_limit hF hR hP)
  obtain ⟨rows, hr, hm⟩ := List.mem_flatten.mp hrow
  exact List.all_eq_true.mp (soRows_limit rows hr) row hm

end Jargon
