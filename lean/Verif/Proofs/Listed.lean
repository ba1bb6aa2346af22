import Verif.Proofs.WordChecks
import Verif.Props.Players

/-! The synonyms listed in a key as texts, and what becomes of such a text when it is cut into words. -/

namespace Jargon

/-! ### Runes -/

theorem decodeRune_big {b : UInt8} {t : Bytes} (h : ¬ b.toNat < 0x80) : 0x80 ≤ (decodeRune (b :: t)).1 := by
  rcases decodeRune_encoded b t with h1 | ⟨⟨rest, h1⟩, -⟩
  · rw [h1]; decide
  · generalize (decodeRune (b :: t)).1 = r at *
    by_cases hr : r < 0x80
    · exfalso
      rw [encodeValid, if_pos hr] at h1
      obtain ⟨h1, -⟩ := List.cons.inj h1
      rw [← h1, toNat_ofNat (by omega)] at h
      exact h hr
    · omega

/-- Text without errors is the encoding of its runes. -/
theorem encodeRunes_runes {s : Bytes} (h : runeError ∉ runes s) : encodeRunes (runes s) = s := by
  induction hn : s.length using Nat.strongRecOn generalizing s with
  | _ n ih =>
    cases s with
    | nil => rfl
    | cons b t =>
      rw [runes_cons, List.mem_cons, not_or] at h
      obtain ⟨h1, hp⟩ := decode_encoded (s := b :: t) (by simp) (Ne.symm h.1)
      have := ih _ (by rw [List.length_drop]; simp only [List.length_cons] at *; omega) h.2 rfl
      rw [runes_cons]
      have e : encodeRunes ((decodeRune (b :: t)).1 :: runes ((b :: t).drop (decodeRune (b :: t)).2)) =
        encodeRune (decodeRune (b :: t)).1 ++ encodeRunes (runes ((b :: t).drop (decodeRune (b :: t)).2)) := by
        simp [encodeRunes]
      rw [e, this]
      exact h1.symm

theorem runes_inj {s s' : Bytes} (h : runeError ∉ runes s) (he : runes s = runes s') : s = s' := by
  rw [← encodeRunes_runes h, he, encodeRunes_runes (he ▸ h)]

theorem cutRunes_mem {a p b : List Nat} (hp : 0x2C ∉ p) (ha : a = [] ∨ ∃ x, a = x ++ [0x2C])
    (hb : b = [] ∨ ∃ x, b = 0x2C :: x) : p ∈ cutRunes (a ++ p ++ b) := by
  have hb' : ∃ qs, cutRunes b = [] :: qs := by
    rcases hb with rfl | ⟨x, rfl⟩
    · exact ⟨[], rfl⟩
    · exact ⟨cutRunes x, by rw [cutRunes, if_pos rfl]⟩
  obtain ⟨qs, hqs⟩ := hb'
  have h1 : p ∈ cutRunes (p ++ b) := by rw [cutRunes_append hp hqs]; simp
  rw [List.append_assoc]
  rcases ha with rfl | ⟨x, rfl⟩
  · exact h1
  · rw [List.append_assoc]
    generalize p ++ b = rest at h1
    induction x with
    | nil => rw [List.nil_append, List.singleton_append, cutRunes, if_pos rfl]; exact List.mem_cons_of_mem _ h1
    | cons c x ih =>
      have hne : ∃ q q' qs, cutRunes (x ++ ([0x2C] ++ rest)) = q :: q' :: qs ∧ p ∈ q' :: qs := by
        clear ih
        induction x with
        | nil =>
          obtain ⟨q, qs, hq⟩ := cutRunes_ne_nil rest
          refine ⟨[], q, qs, ?_, hq ▸ h1⟩
          rw [List.nil_append, List.singleton_append, cutRunes, if_pos rfl, hq]
        | cons d x ih =>
          obtain ⟨q, q', qs, hq, hm⟩ := ih
          rw [List.cons_append, cutRunes]
          by_cases hd : d = 0x2C
          · rw [if_pos hd, hq]
            exact ⟨[], q, q' :: qs, rfl, List.mem_cons_of_mem _ hm⟩
          · rw [if_neg hd, hq]
            exact ⟨_, _, _, rfl, hm⟩
      obtain ⟨q, q', qs, hq, hm⟩ := hne
      rw [List.cons_append, cutRunes]
      split
      · exact List.mem_cons_of_mem _ ih
      · rw [hq]
        exact List.mem_cons_of_mem _ hm

theorem dropB_spaces {a l : List Nat} (ha : ∀ r ∈ a, r = 0x20) (hl : l.head? ≠ some 0x20) :
    dropB (a ++ l) = l := by
  induction a with
  | nil =>
    cases l with
    | nil => rfl
    | cons r rs =>
      have e : dropB (r :: rs) = bif Nat.beq r 0x20 then dropB rs else r :: rs := rfl
      rw [List.nil_append, e]
      have : Nat.beq r 0x20 = false := by
        rw [Bool.eq_false_iff]
        intro hb
        exact hl (by rw [Nat.eq_of_beq_eq_true hb]; rfl)
      rw [this]; rfl
  | cons x a ih =>
    have e : dropB (x :: (a ++ l)) = bif Nat.beq x 0x20 then dropB (a ++ l) else x :: (a ++ l) := rfl
    rw [List.cons_append, e, ha x (by simp)]
    exact ih fun r hr => ha r (by simp [hr])

theorem runes_spaces {a : Bytes} (ha : ∀ b ∈ a, b = 0x20) (t : Bytes) :
    runes (a ++ t) = a.map UInt8.toNat ++ runes t := by
  induction a with
  | nil => rfl
  | cons b a ih =>
    have hb := ha b (by simp)
    rw [List.cons_append, runes_ascii_cons (by rw [hb]; decide), ih fun x hx => ha x (by simp [hx])]
    rfl

/-- A listed text is one of the pieces of the key. -/
theorem ListedText.piece {s k : Bytes} (h : ListedText s k) :
    ∃ p ∈ cutRunes (runes k), dropB p = runes s := by
  obtain ⟨pre, sp, post, rfl, hpre, hpost, hsp, hhead, hc⟩ := h
  refine ⟨sp.map UInt8.toNat ++ runes s, ?_, ?_⟩
  · have e1 : runes (s ++ post) = runes s ++ runes post := by
      rcases hpost with rfl | ⟨x, rfl⟩
      · simp
      · exact runes_append_ascii s (by decide) x
    have e2 : runes (pre ++ (sp ++ (s ++ post))) = runes pre ++ runes (sp ++ (s ++ post)) := by
      rcases hpre with rfl | ⟨x, rfl⟩
      · simp
      · rw [List.append_assoc, List.singleton_append, runes_append_ascii x (by decide),
          runes_append_ascii x (by decide), runes_ascii_cons (by decide), runes_ascii_cons (by decide)]
        simp
    rw [List.append_assoc, List.append_assoc, e2, runes_spaces hsp, e1, ← List.append_assoc (as := sp.map _),
      ← List.append_assoc]
    refine cutRunes_mem ?_ ?_ ?_
    · rw [List.mem_append, not_or]
      refine ⟨?_, fun hm => hc (comma_mem hm)⟩
      intro hm
      obtain ⟨b, hb, hb'⟩ := List.mem_map.mp hm
      rw [hsp b hb] at hb'
      cases hb'
    · rcases hpre with rfl | ⟨x, rfl⟩
      · exact Or.inl rfl
      · right
        refine ⟨runes x, ?_⟩
        rw [runes_append_ascii x (by decide)]
        rfl
    · rcases hpost with rfl | ⟨x, rfl⟩
      · exact Or.inl rfl
      · exact Or.inr ⟨runes x, by rw [runes_ascii_cons (by decide)]; rfl⟩
  · refine dropB_spaces ?_ ?_
    · intro r hr
      obtain ⟨b, hb, rfl⟩ := List.mem_map.mp hr
      rw [hsp b hb]; rfl
    · cases s with
      | nil => simp
      | cons b t =>
        rw [runes_cons, List.head?_cons]
        intro he
        have he := Option.some.inj he
        by_cases hb : b.toNat < 0x80
        · have hd : (decodeRune (b :: t)).1 = b.toNat := by
            have := runes_ascii_cons hb t
            rw [runes_cons] at this
            exact (List.cons.inj this).1
          rw [hd] at he
          exact hhead (by rw [List.head?_cons, UInt8.toNat_inj.mp (he.trans rfl : b.toNat = (0x20 : UInt8).toNat)])
        · have := decodeRune_big (t := t) hb
          omega

/-! ### Punctuation -/

theorem punB_eq (r : Nat) : punB r = memB r latinPunct := by
  unfold punB
  cases h1 : Nat.ble 0x61 r
  · rfl
  cases h2 : Nat.ble r 0x7A
  · rfl
  have h1 := Nat.ble_eq.mp h1
  have h2 := Nat.ble_eq.mp h2
  simp only [cond_true]
  symm
  rw [Bool.eq_false_iff, ne_eq, memB_iff]
  have : ∀ r ∈ latinPunct, ¬ (0x61 ≤ r ∧ r ≤ 0x7A) := by decide +kernel
  exact fun hm => this r hm ⟨h1, h2⟩

theorem codeB_not_control : ∀ r < 0x20, codeB r = 9 := by decide +kernel

theorem punctRune_known {U : Unicode} (hP : U.PunctLatin) {r : Nat} (h : codeB r ≠ 9) :
    U.punctRune r = punB r := by
  have hlt := codeB_lt h
  have hge : 0x20 ≤ r := Nat.le_of_not_lt fun hr => h (codeB_not_control r hr)
  rw [punB_eq, Bool.eq_iff_iff, punctRune_iff, hP r hlt, decide_eq_true_eq, memB_iff]
  refine ⟨fun h => ?_, Or.inl⟩
  rcases h with h | h
  · exact h
  · omega

theorem allPunB_eq {U : Unicode} (hP : U.PunctLatin) {l : List Nat} (h : ∀ r ∈ l, codeB r ≠ 9) :
    l.all U.punctRune = allPunB l := by
  induction l with
  | nil => rfl
  | cons r rs ih =>
    have e : allPunB (r :: rs) = bif punB r then allPunB rs else false := rfl
    rw [e, List.all_cons, ih fun x hx => h x (by simp [hx]), punctRune_known hP (h r (by simp))]
    cases punB r <;> rfl

theorem allSpaceB_eq (l : List Nat) : l.all isSpaceRune = allSpaceB l := by
  induction l with
  | nil => rfl
  | cons r rs ih =>
    have e : allSpaceB (r :: rs) = bif spaceB r then allSpaceB rs else false := rfl
    rw [e, List.all_cons, ih, spaceB_eq]
    cases isSpaceRune r <;> rfl

/-! ### Texts cut into words -/

/-- Tokens are the ones made of texts with these runes. -/
def TokensOf (U : Unicode) (toks : List Token) (gs : List (List Nat)) : Prop :=
  toks.map (fun t => runes t.value) = gs ∧ ∀ t ∈ toks, t = mkToken U t.value false

theorem tokensOf_string {E : Env} {cls : WordTable} (hF : E.FollowsUax29 cls) (hR : cls.Right) {s : Bytes}
    (hlen : Fits cls s) (hk : knownB (runes s) = true) :
    TokensOf E.U (stringTokens E s) (wordsB (runes s) 0).2.2 := by
  refine ⟨?_, ?_⟩
  · rw [← cutWords_known hR hk, ← wordSegs_runes, stringTokens, segTokens, hF s hlen, List.map_map]
    rfl
  · intro t ht
    simp only [stringTokens, segTokens, List.mem_map] at ht
    obtain ⟨seg, -, rfl⟩ := ht
    rfl

section
variable {U : Unicode} {toks : List Token} {gs : List (List Nat)} (hP : U.PunctLatin)
  (h : TokensOf U toks gs) (hk : ∀ g ∈ gs, ∀ r ∈ g, codeB r ≠ 9)
include hP h hk

omit hP in
theorem TokensOf.known : ∀ t ∈ toks, ∀ r ∈ runes t.value, codeB r ≠ 9 := by
  intro t ht r hr
  exact hk _ (h.1 ▸ List.mem_map_of_mem (f := fun t : Token => runes t.value) ht) r hr

theorem TokensOf.punct {t : Token} (ht : t ∈ toks) : t.punct = allPunB (runes t.value) := by
  have h1 := h.2 t ht
  have : t.punct = (runes t.value).all U.punctRune := by
    generalize t.value = v at h1
    subst h1
    rfl
  rw [this, allPunB_eq hP (h.known hk t ht)]

omit hP hk in
theorem TokensOf.space {t : Token} (ht : t ∈ toks) : t.space = allSpaceB (runes t.value) := by
  have h1 := h.2 t ht
  have : t.space = (runes t.value).all isSpaceRune := by
    generalize t.value = v at h1
    subst h1
    rfl
  rw [this, allSpaceB_eq]

theorem TokensOf.word {t : Token} (ht : t ∈ toks) : t.IsWord ↔ isWordB (runes t.value) = true := by
  rw [Token.IsWord, h.punct hP hk ht, h.space ht, isWordB]
  cases allPunB (runes t.value) <;> cases allSpaceB (runes t.value) <;> simp

end

theorem TokensOf.words {U : Unicode} {toks : List Token} {gs : List (List Nat)} (hP : U.PunctLatin)
    (h : TokensOf U toks gs) (hk : ∀ g ∈ gs, ∀ r ∈ g, codeB r ≠ 9) : words toks = countB gs := by
  induction toks generalizing gs with
  | nil => obtain ⟨rfl, -⟩ := h; rfl
  | cons t toks ih =>
    have hw := h.word hP hk (t := t) (by simp)
    obtain ⟨rfl, h2⟩ := h
    have ih := ih (gs := toks.map fun t => runes t.value) ⟨rfl, fun x hx => h2 x (by simp [hx])⟩
      (fun g hg => hk g (by simp only [List.map_cons, List.mem_cons]; exact Or.inr hg))
    have e : countB (runes t.value :: toks.map fun t => runes t.value) =
      bif isWordB (runes t.value) then Nat.succ (countB (toks.map fun t => runes t.value)) else
        countB (toks.map fun t => runes t.value) := rfl
    rw [List.map_cons, e, ← ih, Jargon.words, List.countP_cons, ← Jargon.words]
    by_cases hwd : t.IsWord
    · rw [hw.mp hwd, if_pos (decide_eq_true hwd)]; rfl
    · rw [if_neg (by simpa using hwd), Bool.not_eq_true _ |>.mp fun hb => hwd (hw.mpr hb)]; rfl

/-- Punctuation is never replaced. -/
theorem Greedy.punct_mem {C : Compare} {D : Dict} {m : Nat} {toks out : List Token}
    (h : Greedy C D m toks out) {t : Token} (ht : t ∈ toks) (hp : t.punct = true) : t ∈ out := by
  induction h with
  | nil => exact ht
  | separator _ _ ih =>
    rcases List.mem_cons.mp ht with rfl | ht
    · simp
    · exact List.mem_cons_of_mem _ (ih ht)
  | @replace x ts out k c _ hl _ ih =>
    rw [← List.take_append_drop k (x :: ts), List.mem_append] at ht
    rcases ht with ht | ht
    · have := hl.mem.noPunct t ht
      rw [hp] at this; cases this
    · exact List.mem_append_right _ (ih ht)
  | word _ _ _ ih =>
    rcases List.mem_cons.mp ht with rfl | ht
    · simp
    · exact List.mem_cons_of_mem _ (ih ht)

/-! ### Checking a text -/

theorem lastB_concat (gs : List (List Nat)) (g : List Nat) : lastB (gs ++ [g]) = g := by
  induction gs with
  | nil => rfl
  | cons x gs ih =>
    have e : lastB (x :: (gs ++ [g])) = List.rec x (fun _ _ _ => lastB (gs ++ [g])) (gs ++ [g]) := rfl
    rw [List.cons_append, e]
    cases gs with
    | nil => rfl
    | cons y gs => exact ih

theorem good_greedy {E : Env} {ign : List Nat} {D : Dict} {m : Nat} {v : Bytes}
    {toks : List Token} {gs : List (List Nat)} (hU : E.U.LowersLatin) (hP : E.U.PunctLatin)
    (h : TokensOf E.U toks gs) (hk : ∀ g ∈ gs, ∀ r ∈ g, codeB r ≠ 9) {maxW : Nat} (hm : maxW ≤ m)
    (hg : goodB ign maxW gs = true)
    (hd : D ((Compare.mk E.U true ign).spell toks) = some v) :
    Greedy ⟨E.U, true, ign⟩ D m toks (canonTokens E.U v) := by
  simp only [goodB, Bool.and_eq_true, Bool.not_eq_true', Nat.ble_eq] at hg
  obtain ⟨⟨⟨⟨h1, h2⟩, h3⟩, h4⟩, h5⟩ := hg
  have hwords := h.words hP hk
  cases toks with
  | nil =>
    obtain ⟨rfl, -⟩ := h
    cases h2
  | cons first mid =>
    obtain ⟨l, last, hl⟩ : ∃ l last, first :: mid = l ++ [last] :=
      ⟨_, _, (List.dropLast_concat_getLast (List.cons_ne_nil first mid)).symm⟩
    have hgs : gs = (l.map fun t => runes t.value) ++ [runes last.value] := by
      rw [← h.1, hl]; simp
    have hlast : last ∈ first :: mid := by rw [hl]; simp
    rw [hgs, lastB_concat] at h3 h4
    refine greedy_whole hl ?_ ?_ ((h.word hP hk hlast).mpr h3) ?_ (by omega) hd
    · intro t ht
      rw [h.punct hP hk ht, Bool.eq_false_iff]
      intro hb
      rw [badB, List.any_eq_false] at h1
      exact h1 (runes t.value) (h.1 ▸ List.mem_map_of_mem (f := fun t : Token => runes t.value) ht) hb
    · refine (h.word hP hk (t := first) (by simp)).mpr ?_
      have := h.1
      rw [List.map_cons] at this
      rw [← this] at h2
      exact h2
    · rw [Compare.spell, List.flatMap_cons, List.flatMap_nil, List.append_nil, normalB_eq hU ign]
      · intro h0; rw [h0] at h4; cases h4
      · intro r hr
        exact codeB_lt (h.known hk last hlast r hr)

theorem bad_punct {U : Unicode} {toks : List Token} {gs : List (List Nat)} (hP : U.PunctLatin)
    (h : TokensOf U toks gs) (hk : ∀ g ∈ gs, ∀ r ∈ g, codeB r ≠ 9) (hb : badB gs = true) :
    ∃ t ∈ toks, t.punct = true ∧ t.lemma = false := by
  rw [badB, List.any_eq_true] at hb
  obtain ⟨g, hg, hp⟩ := hb
  rw [← h.1, List.mem_map] at hg
  obtain ⟨t, ht, rfl⟩ := hg
  refine ⟨t, ht, by rw [h.punct hP hk ht]; exact hp, ?_⟩
  rw [h.2 t ht]; rfl

end Jargon
