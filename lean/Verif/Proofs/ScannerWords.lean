import Verif.Proofs.WordStream

/-! Cutting a text token by token: what comes of it, and that it comes to the words of the text. -/

namespace Jargon

section
variable {split : SplitFunc}

theorem cutTokensAux_facts (hS : split.Lawful) (fuel : Nat) {d : Bytes} (hl : d.length ≤ fuel) :
    (∀ s ∈ (cutTokensAux split 65536 fuel d).1, s ≠ []) ∧
    (cutTokensAux split 65536 fuel d).1.flatten <+: d ∧
    ((cutTokensAux split 65536 fuel d).2 = false → (cutTokensAux split 65536 fuel d).1.flatten = d) := by
  induction fuel generalizing d with
  | zero =>
    have : d = [] := List.length_eq_zero_iff.mp (by omega)
    subst this
    simp [cutTokensAux]
  | succ fuel ih =>
    cases d with
    | nil => simp [cutTokensAux]
    | cons b t =>
      rw [cutTokensAux]
      cases hf : firstToken split 65536 (b :: t) with
      | none => simp
      | some k =>
        have hfit := hS.fits (firstToken_true hS hf)
        obtain ⟨h1, h2, h3⟩ := ih (d := (b :: t).drop k)
          (by rw [List.length_drop]; simp only [List.length_cons] at hl ⊢; omega)
        simp only
        refine ⟨?_, ?_, ?_⟩
        · intro s hs
          rcases List.mem_cons.mp hs with rfl | hs
          · intro h0
            have := congrArg List.length h0
            rw [List.length_take] at this
            simp only [List.length_nil] at this
            omega
          · exact h1 s hs
        · obtain ⟨x, hx⟩ := h2
          refine ⟨x, ?_⟩
          rw [List.flatten_cons, List.append_assoc, hx, List.take_append_drop]
        · intro h
          rw [List.flatten_cons, h3 h, List.take_append_drop]

theorem cutTokens_facts (hS : split.Lawful) (d : Bytes) :
    (∀ s ∈ (cutTokens split 65536 d).1, s ≠ []) ∧ (cutTokens split 65536 d).1.flatten <+: d ∧
    ((cutTokens split 65536 d).2 = false → (cutTokens split 65536 d).1.flatten = d) :=
  cutTokensAux_facts hS d.length (Nat.le_refl _)

/-- The scanner has the laws asked of one. -/
theorem bufEnv_lawful (U : Unicode) (hS : split.Lawful) : (bufEnv U split).Lawful where
  nonempty r := (cutTokens_facts hS r.data).1
  complete r h := by
    simp only [bufEnv] at h ⊢
    cases hc : (cutTokens split 65536 r.data).2 with
    | true => rw [hc] at h; cases h
    | false =>
      rw [hc] at h
      exact ⟨h, (cutTokens_facts hS r.data).2.2 hc⟩
  sound r := (cutTokens_facts hS r.data).2.1

variable {cls : WordTable}

theorem firstToken_word (hW : split.SplitsWords cls) {d w1 : Bytes} {ws : List Bytes} {n : Nat}
    (hw : wordSegs cls d = w1 :: ws) (h : firstToken split 65536 d = some n) : n = w1.length := by
  have := firstToken_true hW.toLawful h
  rw [hW.first, hw] at this
  exact (Option.some.inj this).symm

/-- Of a text with short words, the tokens are the words. -/
theorem cutTokensAux_words (hW : split.SplitsWords cls) (fuel : Nat) {d : Bytes} (hl : d.length ≤ fuel)
    (hs : ShortWords (wordSegs cls d) ∨ d.length < 65536) :
    cutTokensAux split 65536 fuel d = (wordSegs cls d, false) := by
  induction fuel generalizing d with
  | zero =>
    have : d = [] := List.length_eq_zero_iff.mp (by omega)
    subst this
    rfl
  | succ fuel ih =>
    cases d with
    | nil => rfl
    | cons b t =>
      obtain ⟨w1, ws, hw⟩ := List.exists_cons_of_ne_nil (wordSegs_ne_nil (cls := cls) (s := b :: t) (by simp))
      obtain ⟨h1, h2, h3⟩ := wordSegs_rest hw
      have hpos := List.length_pos_iff.mpr h1
      have hsome : (firstToken split 65536 (b :: t)).isSome = true := by
        unfold firstToken
        split
        · exact hW.ends (by simp)
        · rename_i hlong
          rcases hs with hs | hs
          · rw [hw] at hs
            cases ws with
            | nil =>
              have hlt := hs.1 w1 (by simp)
              have := wordSegs_flatten cls (b :: t)
              rw [hw] at this
              simp only [List.flatten_cons, List.flatten_nil, List.append_nil] at this
              rw [← this] at hlong
              exact absurd hlt hlong
            | cons w2 ws =>
              have h4 := hs.2 [] w1 w2 ws rfl
              refine hW.prompt (d := (b :: t).take 65536) (x := (b :: t).drop 65536) (w1 := w1) (w2 := w2) (ws := ws)
                (by rw [List.take_append_drop]; exact hw) ?_
              rw [List.length_take]; omega
          · exact absurd hs hlong
      rw [cutTokensAux]
      cases hf : firstToken split 65536 (b :: t) with
      | none => rw [hf] at hsome; cases hsome
      | some k =>
        have hk := firstToken_word hW hw hf
        subst hk
        have hrest : ShortWords (wordSegs cls ((b :: t).drop w1.length)) ∨ ((b :: t).drop w1.length).length < 65536 := by
          rcases hs with hs | hs
          · left
            rw [← h3]
            rw [hw] at hs
            refine ⟨fun w hw' => hs.1 w (List.mem_cons_of_mem _ hw'), fun pre x y post hp => ?_⟩
            exact hs.2 (w1 :: pre) x y post (by rw [hp]; rfl)
          · right
            rw [List.length_drop]
            omega
        have ht : (b :: t).take w1.length = w1 := by
          have := congrArg (List.take w1.length) h2
          rwa [List.take_left] at this
        simp only
        rw [ih (by rw [List.length_drop]; simp only [List.length_cons] at hl ⊢; omega) hrest, hw, ← h3, ht]

theorem cutTokens_words (hW : split.SplitsWords cls) {d : Bytes}
    (hs : ShortWords (wordSegs cls d) ∨ d.length < 65536) :
    cutTokens split 65536 d = (wordSegs cls d, false) := cutTokensAux_words hW d.length (Nat.le_refl _) hs

/-- If a word is too long, what is before it may be delivered, and then there is the error. -/
theorem cutTokensAux_long (hW : split.SplitsWords cls) (fuel : Nat) {d : Bytes} (hl : d.length ≤ fuel)
    {pre post : List Bytes} {w : Bytes} (hws : wordSegs cls d = pre ++ w :: post) (hlong : 65536 < w.length) :
    (cutTokensAux split 65536 fuel d).2 = true ∧ (cutTokensAux split 65536 fuel d).1 <+: pre := by
  induction fuel generalizing d pre with
  | zero =>
    have : d = [] := List.length_eq_zero_iff.mp (by omega)
    subst this
    have h0 : wordSegs cls [] = [] := rfl
    rw [h0] at hws
    simp at hws
  | succ fuel ih =>
    cases d with
    | nil =>
      have h0 : wordSegs cls [] = [] := rfl
      rw [h0] at hws
      simp at hws
    | cons b t =>
      obtain ⟨w1, ws, hw⟩ := List.exists_cons_of_ne_nil (wordSegs_ne_nil (cls := cls) (s := b :: t) (by simp))
      obtain ⟨h1, h2, h3⟩ := wordSegs_rest hw
      have hpos := List.length_pos_iff.mpr h1
      rw [cutTokensAux]
      cases hf : firstToken split 65536 (b :: t) with
      | none => exact ⟨rfl, List.nil_prefix⟩
      | some k =>
        have hk := firstToken_word hW hw hf
        subst hk
        have hle : w1.length ≤ 65536 := by
          unfold firstToken at hf
          split at hf
          · have := hW.fits hf; omega
          · have := hW.fits hf
            rw [List.length_take] at this
            omega
        rw [hw] at hws
        cases pre with
        | nil =>
          simp only [List.nil_append, List.cons.injEq] at hws
          rw [hws.1] at hle
          omega
        | cons p pre =>
          simp only [List.cons_append, List.cons.injEq] at hws
          obtain ⟨rfl, hws⟩ := hws
          obtain ⟨i1, i2⟩ := ih (d := (b :: t).drop w1.length) (pre := pre)
            (by rw [List.length_drop]; simp only [List.length_cons] at hl ⊢; omega) (by rw [← h3, hws])
          refine ⟨i1, ?_⟩
          simp only
          have ht : (b :: t).take w1.length = w1 := by
            have := congrArg (List.take w1.length) h2
            rwa [List.take_left] at this
          rw [ht]
          exact (List.prefix_cons_inj w1).mpr i2

end

/-- The function that splits words and asks for more only if it must. -/
noncomputable def uaxSplit (cls : WordTable) : SplitFunc := fun d atEOF =>
  open Classical in
  if atEOF then (wordSegs cls d).head?.map List.length
  else if h : ∃ n, ∀ x, (wordSegs cls (d ++ x)).head?.map List.length = some n then some h.choose else none

theorem uaxSplit_true (cls : WordTable) (d : Bytes) :
    uaxSplit cls d true = (wordSegs cls d).head?.map List.length := by simp [uaxSplit]

theorem uaxSplit_false {cls : WordTable} {d : Bytes} {n : Nat} :
    uaxSplit cls d false = some n ↔ ∀ x, (wordSegs cls (d ++ x)).head?.map List.length = some n := by
  unfold uaxSplit
  simp only [Bool.false_eq_true, if_false]
  constructor
  · intro h
    split at h
    · rename_i hex
      cases h
      exact hex.choose_spec
    · cases h
  · intro h
    have hex : ∃ n, ∀ x, (wordSegs cls (d ++ x)).head?.map List.length = some n := ⟨n, h⟩
    rw [dif_pos hex]
    have := hex.choose_spec []
    rw [h []] at this
    exact this.symm

theorem wordSegs_head {cls : WordTable} {d : Bytes} {n : Nat} (h : (wordSegs cls d).head?.map List.length = some n) :
    0 < n ∧ n ≤ d.length := by
  cases hw : wordSegs cls d with
  | nil => rw [hw] at h; cases h
  | cons w ws =>
    rw [hw] at h
    cases h
    obtain ⟨h1, h2, -⟩ := wordSegs_rest hw
    refine ⟨List.length_pos_iff.mpr h1, ?_⟩
    have := congrArg List.length h2
    rw [List.length_append] at this
    omega

theorem uaxSplit_words (cls : WordTable) : (uaxSplit cls).SplitsWords cls where
  fits := by
    intro d b n h
    cases b with
    | true => rw [uaxSplit_true] at h; exact wordSegs_head h
    | false =>
      have := uaxSplit_false.mp h []
      rw [List.append_nil] at this
      exact wordSegs_head this
  ends := by
    intro d hd
    rw [uaxSplit_true]
    obtain ⟨w, ws, hw⟩ := List.exists_cons_of_ne_nil (wordSegs_ne_nil (cls := cls) hd)
    rw [hw]; rfl
  steady := by
    intro d n h x b
    have h' := uaxSplit_false.mp h
    cases b with
    | true => rw [uaxSplit_true]; exact h' x
    | false =>
      rw [uaxSplit_false]
      intro y
      rw [List.append_assoc]
      exact h' (x ++ y)
  first := uaxSplit_true cls
  prompt := by
    intro d x w1 w2 ws h hl
    have : uaxSplit cls d false = some w1.length := by
      rw [uaxSplit_false]
      intro y
      obtain ⟨ws', h'⟩ := wordSegs_ahead h hl y
      rw [h']; rfl
    rw [this]; rfl

end Jargon
