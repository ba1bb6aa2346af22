import Verif.Proofs.WordLocal
import Verif.Proofs.Scanner

/-! Words one after the other: what is before a boundary does not matter for the next word, and of what
is after the next word at most one word and a character. -/

namespace Jargon

/-! ### What is before a boundary does not matter -/

theorem lineBreak_inert {c : WB} (h : c.lineBreak = true) : c.inert = true := by cases c <;> first | rfl | cases h

theorem lineBreak_not_attached {c : WB} (h : c.lineBreak = true) : c.attached = false := by
  cases c <;> first | rfl | cases h

theorem ruleJoins_forget {ppp pp p q n : WB} (h : ruleJoins ppp pp p q = false) :
    ruleJoins pp p q n = ruleJoins .other p q n := by
  simp only [ruleJoins, Bool.or_eq_false_iff] at h
  obtain ⟨⟨⟨⟨⟨⟨⟨⟨⟨⟨⟨⟨⟨-, h1⟩, -⟩, -⟩, h2⟩, -⟩, -⟩, -⟩, -⟩, -⟩, h3⟩, -⟩, -⟩, -⟩ := h
  have e1 : (WB.ahLetter .other) = false := rfl
  have e2 : (WB.other == WB.hebrew) = false := rfl
  have e3 : (WB.other == WB.numeric) = false := rfl
  simp only [ruleJoins, h1, h2, h3, e1, e2, e3, Bool.false_and]

theorem solid_reverse (l : List (WB × Bool)) : solid l.reverse = (solid l).reverse := by
  simp [solid, List.filter_reverse]

theorem takeWhile_even {p : WB → Bool} (S T : List WB)
    (h : S.all p = true → (T.takeWhile p).length % 2 = 0) :
    ((S ++ T).takeWhile p).length % 2 = (S.takeWhile p).length % 2 := by
  induction S with
  | nil => simpa using h rfl
  | cons a S ih =>
    by_cases ha : p a = true
    · simp only [List.cons_append, List.takeWhile_cons, ha, if_true, List.length_cons]
      have := ih (fun h' => h (by simp [ha, h']))
      omega
    · simp [ha]

/-- What is before a boundary does not matter after it. -/
theorem joins_restart {Y u w : List (WB × Bool)} (hu : u ≠ []) (hj : joins Y (u ++ w) = false) :
    joins (u.reverse ++ Y) w = joins u.reverse w := by
  cases Y with
  | nil => rw [List.append_nil]
  | cons y Y =>
    obtain ⟨a, u, rfl⟩ := List.exists_cons_of_ne_nil hu
    by_cases hy : y.1.lineBreak = true
    · exact joins_before (by simp) (Or.inr (Or.inl ⟨y, Y, rfl, lineBreak_inert hy⟩))
    by_cases ha : a.1.lineBreak = true
    · exact joins_before (by simp) (Or.inl ⟨u.reverse, a, by simp, lineBreak_inert ha⟩)
    rw [List.cons_append, joins_cons] at hj
    have hcr : (y.1 == .cr && a.1 == .lf) = false := by
      cases h : (y.1 == .cr && a.1 == .lf) with
      | false => rfl
      | true =>
        rw [Bool.and_eq_true] at h
        have : y.1 = .cr := by simpa using h.1
        rw [this] at hy
        exact absurd rfl hy
    simp only [hcr, Bool.not_eq_true] at hj hy ha
    rw [hy, ha] at hj
    simp only [Bool.false_eq_true, Bool.or_self, if_false] at hj
    split at hj
    · cases hj
    split at hj
    · cases hj
    split at hj
    · cases hj
    rename_i hatt
    rw [Bool.not_eq_true] at hatt
    rw [Bool.or_eq_false_iff] at hj
    obtain ⟨hr, hri⟩ := hj
    cases w with
    | nil =>
      obtain ⟨l, x, hx⟩ := List.exists_cons_of_ne_nil (l := (a :: u).reverse) (by simp)
      rw [hx]; rfl
    | cons r after =>
      obtain ⟨l, x, hx⟩ := List.exists_cons_of_ne_nil (l := (a :: u).reverse) (by simp)
      have hsol : solid (a :: u).reverse = (solid u).reverse ++ [a.1] := by
        rw [solid_reverse]
        have : solid (a :: u) = a.1 :: solid u := by simp [solid, hatt]
        rw [this, List.reverse_cons]
      have hL : joins ((a :: u).reverse ++ y :: Y) (r :: after) = joins (l :: (x ++ y :: Y)) (r :: after) := by
        rw [hx]; rfl
      rw [hL, hx, joins_cons, joins_cons]
      by_cases hrat : r.1.attached = true
      · rw [if_pos hrat, if_pos hrat]
      · have hrat' : r.1.attached = false := by simpa using hrat
        rw [if_neg hrat, if_neg hrat]
        have e1 : solid (l :: (x ++ y :: Y)) = (solid u).reverse ++ [a.1] ++ solid (y :: Y) := by
          rw [← List.cons_append, solid_append, ← hx, hsol]
        have e2 : solid (l :: x) = (solid u).reverse ++ [a.1] := by rw [← hx, hsol]
        rw [e1, e2]
        have hrule : ruleJoins (((solid u).reverse ++ [a.1] ++ solid (y :: Y)).tail.headD .other)
              (((solid u).reverse ++ [a.1] ++ solid (y :: Y)).headD .other) r.1 ((solid after).headD .other) =
            ruleJoins (((solid u).reverse ++ [a.1]).tail.headD .other)
              (((solid u).reverse ++ [a.1]).headD .other) r.1 ((solid after).headD .other) := by
          cases hsu : (solid u).reverse with
          | cons b c => cases c <;> rfl
          | nil =>
            have hsu' : solid u = [] := by simpa using hsu
            have hw : (solid (u ++ r :: after)).headD .other = r.1 := by
              rw [solid_append, hsu']
              simp [solid, hrat']
            rw [hw] at hr
            simp only [List.nil_append, List.singleton_append, List.tail_cons, List.headD_cons,
              List.headD_nil]
            exact ruleJoins_forget hr
        rw [hrule]
        have hpar : (((solid u).reverse ++ [a.1] ++ solid (y :: Y)).takeWhile (· == .regional)).length % 2 =
            (((solid u).reverse ++ [a.1]).takeWhile (· == .regional)).length % 2 := by
          apply takeWhile_even
          intro hall
          have hareg : (a.1 == .regional) = true := by
            have := List.all_eq_true.mp hall a.1 (by simp)
            exact this
          rw [hareg, Bool.true_and] at hri
          have := beq_eq_false_iff_ne.mp hri
          omega
        rw [hpar]

section
variable {α : Type} {cls : α → WB × Bool}

theorem cutWords_restart {l : List α} {Y : List (WB × Bool)} (hj : joins Y (l.map cls) = false) :
    cutWords cls Y l = cutWords cls [] l := by
  have := cutWords_alone (cls := cls) (l := l) (X := []) (Y := Y) ?_
  · simpa using this
  · intro u w huw hu _
    rw [List.append_nil]
    rw [huw] at hj
    exact joins_restart hu hj

/-- The first word. -/
theorem cutWords_head {before : List (WB × Bool)} {l g : List α} {gs : List (List α)}
    (h : cutWords cls before l = g :: gs) :
    ∃ rest, l = g ++ rest ∧ g ≠ [] ∧ gs = cutWords cls ((g.map cls).reverse ++ before) rest ∧
      (∀ u v, g = u ++ v → u ≠ [] → v ≠ [] →
        joins ((u.map cls).reverse ++ before) ((v ++ rest).map cls) = true) ∧
      (rest ≠ [] → joins ((g.map cls).reverse ++ before) (rest.map cls) = false) := by
  induction l generalizing before g gs with
  | nil => cases h
  | cons a l ih =>
    rw [cutWords] at h
    cases hc : cutWords cls (cls a :: before) l with
    | nil =>
      rw [hc] at h
      cases h
      have : l = [] := cutWords_eq_nil hc
      subst this
      refine ⟨[], rfl, by simp, rfl, ?_, by simp⟩
      intro u v huv hu hv
      cases u with
      | nil => exact absurd rfl hu
      | cons b u =>
        simp only [List.cons_append, List.cons.injEq] at huv
        have := huv.2.symm
        rw [List.append_eq_nil_iff] at this
        exact absurd this.2 hv
    | cons g' gs' =>
      rw [hc] at h
      simp only at h
      obtain ⟨rest, h1, h2, h3, h4, h5⟩ := ih hc
      by_cases hj : joins (cls a :: before) (l.map cls) = true
      · rw [if_pos hj] at h
        cases h
        refine ⟨rest, by rw [h1]; rfl, by simp, ?_, ?_, ?_⟩
        · rw [h3]; simp
        · intro u v huv hu hv
          cases u with
          | nil => exact absurd rfl hu
          | cons b u =>
            simp only [List.cons_append, List.cons.injEq] at huv
            obtain ⟨rfl, huv⟩ := huv
            cases u with
            | nil =>
              simp only [List.nil_append] at huv
              rw [← huv, ← h1]
              simpa using hj
            | cons c u =>
              have := h4 (c :: u) v huv (by simp) hv
              simpa using this
        · intro hr
          have := h5 hr
          simpa using this
      · rw [if_neg hj] at h
        cases h
        refine ⟨l, rfl, by simp, ?_, ?_, ?_⟩
        · simpa using hc.symm
        · intro u v huv hu hv
          cases u with
          | nil => exact absurd rfl hu
          | cons b u =>
            simp only [List.cons_append, List.cons.injEq] at huv
            have := huv.2.symm
            rw [List.append_eq_nil_iff] at this
            exact absurd this.2 hv
        · intro _
          simpa using hj

/-- When a text begins with a word. -/
theorem cutWords_first_of {before : List (WB × Bool)} {g rest : List α} (hg : g ≠ [])
    (h1 : ∀ u v, g = u ++ v → u ≠ [] → v ≠ [] →
      joins ((u.map cls).reverse ++ before) ((v ++ rest).map cls) = true)
    (h2 : rest ≠ [] → joins ((g.map cls).reverse ++ before) (rest.map cls) = false) :
    ∃ gs, cutWords cls before (g ++ rest) = g :: gs := by
  induction g generalizing before with
  | nil => exact absurd rfl hg
  | cons a g ih =>
    rw [List.cons_append, cutWords]
    cases g with
    | nil =>
      simp only [List.nil_append] at h2 ⊢
      cases hc : cutWords cls (cls a :: before) rest with
      | nil => exact ⟨_, rfl⟩
      | cons g' gs' =>
        have hr : rest ≠ [] := by
          rintro rfl
          cases hc
        have := h2 hr
        simp only [List.map_cons, List.map_nil, List.reverse_cons, List.reverse_nil, List.nil_append,
          List.singleton_append] at this
        simp only
        rw [if_neg (by rw [this]; simp)]
        exact ⟨_, rfl⟩
    | cons b g =>
      obtain ⟨gs, hgs⟩ := ih (before := cls a :: before) (by simp) (by
        intro u v huv hu hv
        have := h1 (a :: u) v (by rw [huv]; rfl) (by simp) hv
        simpa using this) (by
        intro hr
        have := h2 hr
        simpa using this)
      rw [hgs]
      have := h1 [a] (b :: g) rfl (by simp) (by simp)
      simp only [List.map_cons, List.map_nil, List.reverse_cons, List.reverse_nil, List.nil_append,
          List.singleton_append] at this
      simp only
      rw [if_pos (by simpa using this)]
      exact ⟨_, rfl⟩

/-! ### What matters of what is after a word -/

theorem joins_lineBreak {B : List (WB × Bool)} {r : WB × Bool} (h : r.1.lineBreak = true) (x y : List (WB × Bool)) :
    joins B (r :: x) = joins B (r :: y) := by
  cases B with
  | nil => rfl
  | cons l B =>
    rw [joins_cons, joins_cons, h, Bool.or_true, if_pos rfl, if_pos rfl]

theorem joins_solid {B T x y : List (WB × Bool)} {r : WB × Bool} (h : solid T ≠ []) :
    joins B (r :: (T ++ x)) = joins B (r :: (T ++ y)) := by
  cases B with
  | nil => rfl
  | cons l B =>
    rw [joins_cons, joins_cons, solid_append, solid_append]
    obtain ⟨a, b, hab⟩ := List.exists_cons_of_ne_nil h
    rw [hab]; rfl

/-- Where there is a boundary before a character that attaches, there is a line break. -/
theorem boundary_attached {l c : WB × Bool} {B X : List (WB × Bool)} (h : joins (l :: B) (c :: X) = false)
    (hc : c.1.attached = true) : l.1.lineBreak = true := by
  rw [joins_cons] at h
  split at h
  · cases h
  split at h
  · rename_i hl
    rw [Bool.or_eq_true] at hl
    rcases hl with hl | hl
    · exact hl
    · rw [lineBreak_not_attached hl] at hc; cases hc
  split at h
  · cases h
  split at h
  · cases h
  cases h

/-- Whether there is a boundary before the last word or within the word before it does not depend on what
is after the character after the last word. -/
theorem joins_ahead {B V X Y : List (WB × Bool)} {B' : List (WB × Bool)} {l c : WB × Bool}
    (hb : joins (l :: B') (c :: X) = false) :
    joins B (V ++ l :: c :: X) = joins B (V ++ l :: c :: Y) := by
  cases V with
  | nil =>
    rw [List.nil_append, List.nil_append]
    by_cases hc : c.1.attached = true
    · exact joins_lineBreak (boundary_attached hb hc) _ _
    · have := joins_solid (B := B) (r := l) (T := [c]) (x := X) (y := Y) (by simp [solid, hc])
      simpa using this
  | cons r V =>
    have hs : solid (V ++ [l, c]) ≠ [] := by
      rw [solid_append]
      by_cases hc : c.1.attached = true
      · have := lineBreak_not_attached (boundary_attached hb hc)
        simp [solid, this]
      · simp [solid, hc]
    have := joins_solid (B := B) (r := r) (T := V ++ [l, c]) (x := X) (y := Y) hs
    simpa using this

/-- The first word does not depend on what is after the next word and one character. -/
theorem cutWords_stable {g1 g2 : List α} {c : α} {X Y : List α} {gs : List (List α)}
    (h : cutWords cls [] (g1 ++ (g2 ++ c :: X)) = g1 :: g2 :: gs) :
    ∃ gs', cutWords cls [] (g1 ++ (g2 ++ c :: Y)) = g1 :: gs' := by
  obtain ⟨rest, h1, h2, h3, h4, h5⟩ := cutWords_head h
  have hrest := List.append_cancel_left h1
  subst hrest
  obtain ⟨rest', h1', h2', h3', -, h5'⟩ := cutWords_head h3.symm
  have hrest := List.append_cancel_left h1'
  subst hrest
  have hb := h5' (by simp)
  obtain ⟨G, l, rfl⟩ := (last_cases g2).resolve_left h2'
  simp only [List.map_append, List.map_cons, List.map_nil, List.reverse_append, List.reverse_cons, List.reverse_nil,
    List.nil_append, List.cons_append] at hb
  refine cutWords_first_of h2 ?_ ?_
  · intro u v huv hu hv
    have := h4 u v huv hu hv
    rw [← this]
    have ha := joins_ahead (B := (u.map cls).reverse ++ []) (V := v.map cls ++ G.map cls) (Y := Y.map cls) hb
    simp only [List.map_append, List.map_cons, List.append_assoc, List.cons_append, List.nil_append] at ha ⊢
    exact ha.symm
  · intro _
    have := h5 (by simp)
    rw [← this]
    have ha := joins_ahead (B := (g1.map cls).reverse ++ []) (V := G.map cls) (Y := Y.map cls) hb
    simp only [List.map_append, List.map_cons, List.append_assoc, List.cons_append, List.nil_append] at ha ⊢
    exact ha.symm

end

/-! ### Strings -/

theorem decodeRune_ahead {d : Bytes} (h : 4 ≤ d.length) (x y : Bytes) : decodeRune (d ++ x) = decodeRune (d ++ y) := by
  match d, h with
  | a :: b :: c :: e :: t, _ => simp only [List.cons_append, decodeRune]

theorem decodeRune_width (s : Bytes) : (decodeRune s).2 ≤ 4 := by
  rcases s with _ | ⟨b0, _ | ⟨b1, _ | ⟨b2, _ | ⟨b3, t⟩⟩⟩⟩ <;> unfold decodeRune <;> simp only [] <;> repeat' split
  all_goals simp

theorem runeBytes_step {s : Bytes} (h : s ≠ []) :
    runeBytes s = ((decodeRune s).1, s.take (decodeRune s).2) :: runeBytes (s.drop (decodeRune s).2) := by
  obtain ⟨b, t, rfl⟩ := List.exists_cons_of_ne_nil h
  exact runeBytes_cons b t

theorem runeBytes_ahead {P X : List (Rune × Bytes)} {c : Rune × Bytes} {d x : Bytes}
    (h : runeBytes (d ++ x) = P ++ c :: X) (hl : (P.flatMap (·.2)).length + 4 ≤ d.length) (y : Bytes) :
    ∃ Y, runeBytes (d ++ y) = P ++ c :: Y := by
  induction P generalizing d with
  | nil =>
    simp only [List.flatMap_nil, List.length_nil] at hl
    have hne : d ≠ [] := by rintro rfl; simp at hl
    have hd := decodeRune_ahead (d := d) (by omega) x y
    have h4 := decodeRune_width (d ++ y)
    rw [runeBytes_step (by simp [hne]), hd, List.take_append_of_le_length (by omega)] at h
    rw [runeBytes_step (by simp [hne]), List.take_append_of_le_length (by omega)]
    simp only [List.nil_append, List.cons.injEq] at h ⊢
    exact ⟨_, h.1, rfl⟩
  | cons p P ih =>
    simp only [List.flatMap_cons, List.length_append] at hl
    have hne : d ≠ [] := by rintro rfl; simp at hl
    have hd := decodeRune_ahead (d := d) (by omega) x y
    have h4 := decodeRune_width (d ++ y)
    rw [runeBytes_step (by simp [hne]), hd, List.take_append_of_le_length (by omega),
      List.drop_append_of_le_length (by omega)] at h
    rw [runeBytes_step (by simp [hne]), List.take_append_of_le_length (by omega),
      List.drop_append_of_le_length (by omega)]
    simp only [List.cons_append, List.cons.injEq] at h
    obtain ⟨h1, h2⟩ := h
    have hp : p.2.length = (decodeRune (d ++ y)).2 := by
      rw [← h1, List.length_take]; omega
    obtain ⟨Y, hY⟩ := ih h2 (by rw [List.length_drop]; omega)
    exact ⟨Y, by rw [hY, h1]; rfl⟩

section
variable {cls : WordTable}

/-- After the first word, the words are those of the rest. -/
theorem wordSegs_rest {s w : Bytes} {ws : List Bytes} (h : wordSegs cls s = w :: ws) :
    w ≠ [] ∧ s = w ++ s.drop w.length ∧ ws = wordSegs cls (s.drop w.length) := by
  unfold wordSegs at h
  obtain ⟨g, gs, hc, rfl, rfl⟩ := List.map_eq_cons_iff.mp h
  obtain ⟨rest, h1, h2, h3, -, h5⟩ := cutWords_head hc
  have hs : s = g.flatMap (·.2) ++ rest.flatMap (·.2) := by
    rw [← List.flatMap_append, ← h1, runeBytes_snd]
  have hdrop : s.drop (g.flatMap (·.2)).length = rest.flatMap (·.2) := by
    rw [hs, List.drop_left]
  refine ⟨?_, ?_, ?_⟩
  · exact wordSegs_nonempty cls s _ (by unfold wordSegs; rw [hc]; simp)
  · rw [hdrop]; exact hs
  · rw [hdrop, wordSegs, runeBytes_suffix h1, h3]
    by_cases hr : rest = []
    · subst hr; rfl
    · rw [cutWords_restart (h5 hr)]

/-- The first word is known once the next word and four bytes more are there. -/
theorem wordSegs_ahead {d x w1 w2 : Bytes} {ws : List Bytes} (h : wordSegs cls (d ++ x) = w1 :: w2 :: ws)
    (hl : w1.length + w2.length + 4 ≤ d.length) (y : Bytes) : ∃ ws', wordSegs cls (d ++ y) = w1 :: ws' := by
  unfold wordSegs at h
  obtain ⟨g1, gs1, hc, rfl, h'⟩ := List.map_eq_cons_iff.mp h
  obtain ⟨g2, gs, rfl, rfl, rfl⟩ := List.map_eq_cons_iff.mp h'
  obtain ⟨rest, h1, -, h3, -, -⟩ := cutWords_head hc
  obtain ⟨rest', h1', -, -, -, -⟩ := cutWords_head h3.symm
  subst h1'
  have hflat : (d ++ x) = g1.flatMap (·.2) ++ (g2.flatMap (·.2) ++ rest'.flatMap (·.2)) := by
    rw [← List.flatMap_append, ← List.flatMap_append, ← h1, runeBytes_snd]
  have hr : rest' ≠ [] := by
    rintro rfl
    have := congrArg List.length hflat
    simp only [List.length_append, List.flatMap_nil, List.length_nil] at this
    omega
  obtain ⟨c, X, rfl⟩ := List.exists_cons_of_ne_nil hr
  rw [h1] at hc
  obtain ⟨Y, hY⟩ := runeBytes_ahead (P := g1 ++ g2) (c := c) (X := X) (d := d) (x := x)
    (by rw [h1, List.append_assoc]) (by rw [List.flatMap_append, List.length_append]; exact hl) y
  obtain ⟨gs', hgs⟩ := cutWords_stable (Y := Y) hc
  refine ⟨gs'.map fun g => g.flatMap (·.2), ?_⟩
  unfold wordSegs
  rw [hY, List.append_assoc, hgs]
  rfl

theorem wordSegs_ne_nil {s : Bytes} (h : s ≠ []) : wordSegs cls s ≠ [] := by
  intro h0
  have := wordSegs_flatten cls s
  rw [h0] at this
  exact h this.symm

end

end Jargon
