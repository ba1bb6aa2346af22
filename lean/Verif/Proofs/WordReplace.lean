import Verif.Proofs.WordStream
import Verif.Proofs.Strings

/-! Replacing words of a text by texts that begin and end with letters, as the words do, leaves the boundaries of
the others as they are. -/

namespace Jargon

/-- Begins and ends with a letter. -/
def Lettered (l : List (WB × Bool)) : Prop :=
  (∃ y, l = (.letter, false) :: y) ∧ ∃ z, l = z ++ [(.letter, false)]

/-- After a letter nothing that precedes it matters. -/
theorem joins_after_letter (A A' R : List (WB × Bool)) :
    joins ((.letter, false) :: A) R = joins ((.letter, false) :: A') R := by
  cases R with
  | nil => rfl
  | cons r R =>
    have hs : ∀ A : List (WB × Bool), solid ((.letter, false) :: A) = .letter :: solid A := fun A => by simp [solid, WB.attached]
    rw [joins_cons, joins_cons, hs, hs]
    have hr : ∀ pp pp' : WB, ruleJoins pp .letter r.1 ((solid R).headD .other) =
        ruleJoins pp' .letter r.1 ((solid R).headD .other) := by
      intro pp pp'
      have e1 : WB.inLetters .letter = false := rfl
      have e2 : WB.inNumbers .letter = false := rfl
      have e3 : (WB.letter == WB.doubleQuote) = false := rfl
      simp only [ruleJoins, e1, e2, e3, Bool.and_false, Bool.false_and]
    simp only [List.tail_cons, List.headD_cons, hr ((solid A).headD .other) ((solid A').headD .other)]
    rfl

/-- Before a letter nothing that follows it matters. -/
theorem joins_before_letter (B V X Y : List (WB × Bool)) :
    joins B (V ++ (.letter, false) :: X) = joins B (V ++ (.letter, false) :: Y) := by
  cases V with
  | nil =>
    cases B with
    | nil => rfl
    | cons l B =>
      rw [List.nil_append, List.nil_append, joins_cons, joins_cons]
      have hr : ∀ n n' pp p : WB, ruleJoins pp p .letter n = ruleJoins pp p .letter n' := by
        intro n n' pp p
        have e1 : WB.inLetters .letter = false := rfl
        have e2 : WB.inNumbers .letter = false := rfl
        have e3 : (WB.letter == WB.doubleQuote) = false := rfl
        simp only [ruleJoins, e1, e2, e3, Bool.and_false, Bool.false_and]
      rw [hr ((solid X).headD .other) ((solid Y).headD .other)]
  | cons v V =>
    have := joins_solid (B := B) (T := V ++ [(.letter, false)]) (x := X) (y := Y) (r := v) (by simp [solid, WB.attached])
    simpa using this

section
variable {α : Type} {cls : α → WB × Bool}

/-- The replaced text. -/
def replaced (f : List α → Option (List α)) (gs : List (List α)) : List α := gs.flatMap fun g => (f g).getD g

/-- Its words. -/
def replacedWords (cls : α → WB × Bool) (f : List α → Option (List α)) (gs : List (List α)) : List (List α) :=
  gs.flatMap fun g => match f g with
    | none => [g]
    | some x => cutWords cls [] x

theorem cutWords_replace {f : List α → Option (List α)} : ∀ {gs : List (List α)} {l : List α},
    (∀ g ∈ gs, ∀ x, f g = some x → Lettered (g.map cls) ∧ Lettered (x.map cls)) → cutWords cls [] l = gs →
    cutWords cls [] (replaced f gs) = replacedWords cls f gs ∧
      ∀ B V, joins B (V ++ l.map cls) = joins B (V ++ (replaced f gs).map cls)
  | [], l, _, h => by
    cases l with
    | nil => exact ⟨rfl, fun _ _ => rfl⟩
    | cons a l =>
      rw [cutWords] at h
      split at h
      · cases h
      · split at h <;> cases h
  | g :: gs, l, hf, h => by
    obtain ⟨rest, rfl, hg, h3, h4, h5⟩ := cutWords_head h
    rw [List.append_nil] at h3
    have hcut : cutWords cls [] rest = gs := by
      rw [h3]
      by_cases hr : rest = []
      · subst hr; rfl
      · have := h5 hr
        rw [List.append_nil] at this
        exact (cutWords_restart this).symm
    obtain ⟨ih1, ih2⟩ := cutWords_replace (fun g' hg' => hf g' (by simp [hg'])) hcut
    have hnil : rest = [] ↔ replaced f gs = [] := by
      constructor
      · rintro rfl
        rw [← hcut]; rfl
      · intro hr
        by_contra hne
        obtain ⟨a, as, rfl⟩ := List.exists_cons_of_ne_nil hne
        have h1 : cutWords cls [] (a :: as) ≠ [] := by
          rw [cutWords]
          split
          · simp
          · split <;> simp
        rw [hcut] at h1
        obtain ⟨g', gs', rfl⟩ := List.exists_cons_of_ne_nil h1
        obtain ⟨_, _, hg', _⟩ := cutWords_head hcut
        simp only [replaced, List.flatMap_cons, List.append_eq_nil_iff] at hr
        cases hx : f g' with
        | none => rw [hx] at hr; exact hg' hr.1
        | some x =>
          rw [hx] at hr
          obtain ⟨-, ⟨y, hy⟩, -⟩ := hf g' (by simp) x hx
          rw [show x = [] from hr.1] at hy
          cases hy
    have hbound : rest ≠ [] → joins (g.map cls).reverse ((replaced f gs).map cls) = false := by
      intro hr
      have := ih2 (g.map cls).reverse []
      rw [List.nil_append, List.nil_append] at this
      rw [← this]
      have := h5 hr
      rwa [List.append_nil] at this
    have hrep : replaced f (g :: gs) = (f g).getD g ++ replaced f gs := rfl
    cases hx : f g with
    | none =>
      have e1 : replaced f (g :: gs) = g ++ replaced f gs := by rw [hrep, hx]; rfl
      have e2 : replacedWords cls f (g :: gs) = g :: replacedWords cls f gs := by
        simp [replacedWords, hx]
      refine ⟨?_, fun B V => ?_⟩
      · rw [e1, e2]
        obtain ⟨gs', hgs⟩ := cutWords_first_of (cls := cls) (before := []) (g := g) (rest := replaced f gs) hg
          (fun u v huv hu hv => by
            have := h4 u v huv hu hv
            rw [List.map_append] at this ⊢
            rw [← ih2]
            exact this)
          (fun hr => by
            rw [List.append_nil]
            exact hbound fun h => hr (hnil.1 h))
        obtain ⟨rest', h1', -, h3', -, h5'⟩ := cutWords_head hgs
        have := List.append_cancel_left h1'
        subst this
        rw [hgs, h3', ← ih1]
        congr 1
        by_cases hr : replaced f gs = []
        · rw [hr]; rfl
        · exact cutWords_restart (h5' hr)
      · rw [e1, List.map_append, List.map_append, ← List.append_assoc, ← List.append_assoc]
        exact ih2 B (V ++ g.map cls)
    | some x =>
      obtain ⟨⟨⟨ga, hga⟩, gz, hgz⟩, ⟨xa, hxa⟩, xz, hxz⟩ := hf g (by simp) x hx
      have e1 : replaced f (g :: gs) = x ++ replaced f gs := by rw [hrep, hx]; rfl
      have e2 : replacedWords cls f (g :: gs) = cutWords cls [] x ++ replacedWords cls f gs := by
        simp [replacedWords, hx]
      refine ⟨?_, fun B V => ?_⟩
      · have hb : rest ≠ [] → joins (x.map cls).reverse ((replaced f gs).map cls) = false := by
          intro hr
          have := hbound hr
          rw [hgz, List.reverse_append, List.reverse_singleton, List.singleton_append] at this
          rw [hxz, List.reverse_append, List.reverse_singleton, List.singleton_append,
            joins_after_letter _ gz.reverse]
          exact this
        rw [e1, e2]
        by_cases hr : rest = []
        · have := hnil.1 hr
          rw [this, List.append_nil, ← ih1, this]
          simp [cutWords]
        · rw [cutWords_cut (before := []) ?_ ?_]
          · rw [← ih1]
            congr 1
            refine cutWords_restart ?_
            rw [List.append_nil]
            exact hb hr
          · intro u w huw hw _
            obtain ⟨w', c, rfl⟩ := (last_cases w).resolve_left hw
            rw [hxz, ← List.append_assoc] at huw
            have hc := (List.append_inj' huw rfl).2
            simp only [List.cons.injEq, and_true] at hc
            subst hc
            rw [List.append_assoc, List.singleton_append]
            exact joins_before_letter _ w' _ []
          · intro _
            rw [List.append_nil]
            exact hb hr
      · rw [e1, List.map_append, List.map_append, hga, hxa, List.cons_append, List.cons_append]
        exact joins_before_letter B V _ _

end

/-- Begins and ends with an ASCII character that is a letter. -/
def LetteredText (cls : WordTable) (x : Bytes) : Prop :=
  (∃ b y, x = b :: y ∧ b.toNat < 0x80 ∧ cls b.toNat = (.letter, false)) ∧
    ∃ z c, x = z ++ [c] ∧ c.toNat < 0x80 ∧ cls c.toNat = (.letter, false)

theorem LetteredText.runes {cls : WordTable} {x : Bytes} (h : LetteredText cls x) :
    Lettered ((runeBytes x).map fun p => cls p.1) := by
  obtain ⟨⟨b, y, rfl, hb, hb'⟩, z, c, hz, hc, hc'⟩ := h
  constructor
  · rw [← List.nil_append (b :: y), runeBytes_append_ascii [] hb y]
    exact ⟨_, by simp [runeBytes, runeBytesAux, hb']; rfl⟩
  · rw [hz, runeBytes_append_ascii z hc []]
    exact ⟨(runeBytes z).map fun p => cls p.1, by simp [runeBytes, runeBytesAux, hc']⟩

theorem runeBytes_between {x : Bytes} {cls : WordTable} (h : LetteredText cls x) (z t : Bytes) :
    runeBytes (z ++ x ++ t) = runeBytes z ++ runeBytes x ++ runeBytes t := by
  obtain ⟨⟨b, y, rfl, hb, -⟩, z', c, hz, hc, -⟩ := h
  rw [runeBytes_after (.inr ⟨z ++ z', c, by rw [hz, List.append_assoc], hc⟩), runeBytes_append_ascii z hb y,
    ← List.nil_append (b :: y), runeBytes_append_ascii [] hb y]
  simp [runeBytes, runeBytesAux]

/-- A string that is decoded as it is wherever it stands. -/
def Whole (x : Bytes) : Prop := ∀ z t, runeBytes (z ++ x ++ t) = runeBytes z ++ runeBytes x ++ runeBytes t

theorem decodeRune_append_start {a : Bytes} (ha : a ≠ []) {b : UInt8} (hb : runeStart b = true) (t : Bytes) :
    decodeRune (a ++ b :: t) = decodeRune a := by
  have hb' : ¬ (0x80 ≤ b.toNat ∧ b.toNat ≤ 0xBF) := by
    rw [runeStart, Bool.not_eq_true', Bool.eq_false_iff, ne_eq, contIn_iff] at hb
    exact hb
  have h1 : contIn 0x80 0xBF b = false := by
    rw [Bool.eq_false_iff, ne_eq, contIn_iff]; exact hb'
  have h2 : contIn 0xA0 0xBF b = false ∧ contIn 0x80 0x9F b = false ∧ contIn 0x90 0xBF b = false ∧
      contIn 0x80 0x8F b = false := by
    simp only [Bool.eq_false_iff, ne_eq, contIn_iff]
    omega
  match a with
  | [] => exact absurd rfl ha
  | [a0] =>
    simp only [decodeRune, List.cons_append, List.nil_append]
    repeat' split
    all_goals simp_all
  | [a0, a1] =>
    simp only [decodeRune, List.cons_append, List.nil_append]
    repeat' split
    all_goals simp_all
  | [a0, a1, a2] =>
    simp only [decodeRune, List.cons_append, List.nil_append]
    repeat' split
    all_goals simp_all
  | a0 :: a1 :: a2 :: a3 :: as => rfl

theorem runeBytes_append_start (a : Bytes) {b : UInt8} (hb : runeStart b = true) (t : Bytes) :
    runeBytes (a ++ b :: t) = runeBytes a ++ runeBytes (b :: t) := by
  induction hn : a.length using Nat.strongRecOn generalizing a with
  | _ n ih =>
    cases a with
    | nil => rfl
    | cons c a =>
      have hd := decodeRune_append_start (a := c :: a) (by simp) hb t
      have hw := decodeRune_width_le (c :: a)
      have hp := decodeRune_width_pos c a
      rw [List.cons_append] at hd ⊢
      rw [runeBytes_cons, hd, runeBytes_cons c a]
      rw [← List.cons_append, List.take_append_of_le_length hw, List.drop_append_of_le_length hw]
      rw [ih _ (by rw [← hn]; simp only [List.length_drop, List.length_cons]; omega) _ rfl]
      rfl

theorem runeBytes_encodeRunes {rs : List Rune} (h : ∀ r ∈ rs, ValidRune r) (t : Bytes) :
    runeBytes (encodeRunes rs ++ t) = (rs.map fun r => (r, encodeRune r)) ++ runeBytes t := by
  induction rs with
  | nil => rfl
  | cons r rs ih =>
    have hr := h r (by simp)
    have ih := ih fun x hx => h x (by simp [hx])
    rw [encodeRunes, List.flatMap_cons, List.append_assoc, encodeRune_valid hr]
    cases he : encodeValid r with
    | nil => exact absurd he (encodeValid_ne_nil r)
    | cons b u =>
      have hd := decode_encodeValid r hr (encodeRunes rs ++ t)
      rw [he, List.cons_append] at hd
      rw [List.cons_append, runeBytes_cons]
      rw [encodeRunes] at hd ih
      rw [hd, ← List.cons_append, List.take_left, List.drop_left, ih, List.map_cons, encodeRune_valid hr, he]
      rfl

theorem whole_encodeRunes {rs : List Rune} (h : ∀ r ∈ rs, ValidRune r) (hne : rs ≠ []) : Whole (encodeRunes rs) := by
  intro z t
  have e0 := runeBytes_encodeRunes h []
  rw [List.append_nil, show runeBytes [] = [] from rfl, List.append_nil] at e0
  rw [List.append_assoc]
  rcases runeStart_encodeRunes h with he | ⟨x, u, he, hx⟩
  · exact absurd (encodeRunes_eq_nil.1 he) hne
  · have := runeBytes_encodeRunes h t
    rw [e0, List.append_assoc, ← this, he, List.cons_append, runeBytes_append_start z hx]

/-- The runes of a text of which words are replaced. -/
theorem runeBytes_replace {rep : Bytes → Option Bytes}
    (hx : ∀ k x, rep k = some x → Whole x) : ∀ {gs : List (List (Rune × Bytes))} {z : Bytes}
      {Z : List (Rune × Bytes)}, runeBytes (z ++ gs.flatten.flatMap (·.2)) = Z ++ gs.flatten → Z.flatMap (·.2) = z →
    runeBytes (z ++ (gs.flatMap fun g => (rep (g.flatMap (·.2))).getD (g.flatMap (·.2)))) =
      Z ++ replaced (fun g => (rep (g.flatMap (·.2))).map runeBytes) gs
  | [], z, Z, h, _ => by simpa [replaced] using h
  | g :: gs, z, Z, h, hz => by
    rw [List.flatten_cons] at h
    have hr : ∀ f : List (Rune × Bytes) → Option (List (Rune × Bytes)),
      replaced f (g :: gs) = (f g).getD g ++ replaced f gs := fun _ => rfl
    rw [List.flatMap_cons, hr]
    cases hk : rep (g.flatMap (·.2)) with
    | none =>
      have := runeBytes_replace hx (gs := gs) (z := z ++ g.flatMap (·.2)) (Z := Z ++ g)
        (by rw [List.append_assoc, List.append_assoc, ← List.flatMap_append]; exact h) (by rw [List.flatMap_append, hz])
      simpa using this
    | some x =>
      have h1 : runeBytes z = Z := by
        rw [← hz]
        exact runeBytes_prefix h
      have h2 : runeBytes (gs.flatten.flatMap (·.2)) = gs.flatten := by
        rw [← List.append_assoc] at h
        exact runeBytes_suffix h
      have ih := runeBytes_replace hx (gs := gs) (z := []) (Z := []) (by simpa using h2) rfl
      rw [List.nil_append, List.nil_append] at ih
      simp only [Option.getD_some, Option.map_some]
      rw [← List.append_assoc, hx _ _ hk, h1, ih, List.append_assoc]

/-- Those of the words of the text. -/
theorem runes_replace {rep : Bytes → Option Bytes} (hx : ∀ k x, rep k = some x → Whole x) (cls : WordTable) (s : Bytes) :
    runes ((wordSegs cls s).flatMap fun w => (rep w).getD w) =
      (wordSegs cls s).flatMap fun w => runes ((rep w).getD w) := by
  have hgs : (cutWords (fun p : Rune × Bytes => cls p.1) [] (runeBytes s)).flatten = runeBytes s :=
    cutWords_flatten _ _
  have hpart : ∀ g ∈ cutWords (fun p : Rune × Bytes => cls p.1) [] (runeBytes s),
      runes (g.flatMap (·.2)) = g.map (·.1) := by
    intro g hg
    obtain ⟨a, b, hab⟩ := List.append_of_mem hg
    rw [hab] at hgs
    exact runes_part (s := s) (x := a.flatten) (z := b.flatten) (by rw [← hgs]; simp)
  have h2 := runeBytes_replace hx (gs := cutWords (fun p : Rune × Bytes => cls p.1) [] (runeBytes s)) (z := []) (Z := [])
    (by rw [hgs, runeBytes_snd]; rfl) rfl
  rw [List.nil_append, List.nil_append] at h2
  have h3 := congrArg (List.map (·.1)) h2
  rw [runeBytes_fst] at h3
  rw [wordSegs, List.flatMap_map, h3, replaced, List.map_flatMap, List.flatMap_map]
  refine List.flatMap_congr fun g hg => ?_
  cases hr : rep (g.flatMap (·.2)) with
  | none => exact (hpart g hg).symm
  | some x => exact runeBytes_fst x

/-- The words of a text of which words are replaced. -/
theorem wordSegs_replace {cls : WordTable} {rep : Bytes → Option Bytes} (hx : ∀ k x, rep k = some x → LetteredText cls x)
    {s : Bytes} (hk : ∀ w ∈ wordSegs cls s, ∀ x, rep w = some x → Lettered ((runes w).map cls)) :
    wordSegs cls ((wordSegs cls s).flatMap fun w => (rep w).getD w) =
      (wordSegs cls s).flatMap fun w => match rep w with
        | none => [w]
        | some x => wordSegs cls x := by
  have hgs : (cutWords (fun p : Rune × Bytes => cls p.1) [] (runeBytes s)).flatten = runeBytes s :=
    cutWords_flatten _ _
  have hpart : ∀ g ∈ cutWords (fun p : Rune × Bytes => cls p.1) [] (runeBytes s),
      runes (g.flatMap (·.2)) = g.map (·.1) := by
    intro g hg
    obtain ⟨a, b, hab⟩ := List.append_of_mem hg
    rw [hab] at hgs
    exact runes_part (s := s) (x := a.flatten) (z := b.flatten) (by rw [← hgs]; simp)
  obtain ⟨h1, -⟩ := cutWords_replace (cls := fun p : Rune × Bytes => cls p.1)
    (f := fun g => (rep (g.flatMap (·.2))).map runeBytes)
    (gs := cutWords (fun p : Rune × Bytes => cls p.1) [] (runeBytes s)) (l := runeBytes s)
    (fun g hg x hgx => by
      obtain ⟨y, hy, rfl⟩ := Option.map_eq_some_iff.1 hgx
      refine ⟨?_, (hx _ _ hy).runes⟩
      have := hk (g.flatMap (·.2)) (List.mem_map_of_mem hg) y hy
      rw [hpart g hg, List.map_map] at this
      exact this) rfl
  have h2 := runeBytes_replace (fun k x h => runeBytes_between (hx k x h)) (gs := cutWords (fun p : Rune × Bytes => cls p.1) [] (runeBytes s)) (z := []) (Z := [])
    (by rw [hgs, runeBytes_snd]; rfl) rfl
  rw [List.nil_append, List.nil_append] at h2
  have e1 : (wordSegs cls s).flatMap (fun w => (rep w).getD w) =
      (cutWords (fun p : Rune × Bytes => cls p.1) [] (runeBytes s)).flatMap
        fun g => (rep (g.flatMap (·.2))).getD (g.flatMap (·.2)) := by rw [wordSegs, List.flatMap_map]
  rw [e1, wordSegs, h2, h1, replacedWords, List.map_flatMap, wordSegs, List.flatMap_map]
  refine List.flatMap_congr fun g _ => ?_
  cases hr : rep (g.flatMap (·.2)) <;> simp [wordSegs]

end Jargon
