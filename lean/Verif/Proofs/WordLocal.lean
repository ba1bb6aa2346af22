import Verif.Proofs.WordBreak
import Verif.Props.Tables

/-! Word boundaries do not depend on what is beyond a character no rule mentions. -/

namespace Jargon

/-- The characters no rule of words mentions, and line breaks. -/
def WB.inert : WB → Bool
  | .cr | .lf | .newline | .space | .other => true
  | _ => false

/-- Letters, digits and the low line. -/
def WB.plain : WB → Bool
  | .letter | .numeric | .extendNumLet => true
  | _ => false

/-- The marks that rules WB6, WB7, WB11 and WB12 mention. -/
def WB.mark : WB → Bool
  | .singleQuote | .doubleQuote | .midNumLet | .midLetter | .midNum => true
  | _ => false

theorem inert_facts {c : WB} (h : c.inert = true) : c.ahLetter = false ∧ c.inLetters = false ∧
    c.inNumbers = false ∧ c.wordly = false ∧ (c == .hebrew) = false ∧ (c == .singleQuote) = false ∧
    (c == .doubleQuote) = false ∧ (c == .numeric) = false ∧ (c == .katakana) = false ∧
    (c == .extendNumLet) = false := by
  cases c <;> first | cases h; done | exact ⟨rfl, rfl, rfl, rfl, rfl, rfl, rfl, rfl, rfl, rfl⟩

theorem ruleJoins_inert (pp p q n : WB) (h : p.inert = true ∨ q.inert = true) :
    ruleJoins pp p q n = false := by
  rcases h with h | h <;>
  · obtain ⟨h1, h2, h3, h4, h5, h6, h7, h8, h9, h10⟩ := inert_facts h
    simp [ruleJoins, h1, h2, h3, h4, h5, h6, h7, h8, h9, h10]

theorem ruleJoins_next {p q n n' : WB} (pp : WB) (h : n.inert = true) (h' : n'.inert = true) :
    ruleJoins pp p q n = ruleJoins pp p q n' := by
  obtain ⟨h1, -, -, -, h5, -, -, h8, -, -⟩ := inert_facts h
  obtain ⟨g1, -, -, -, g5, -, -, g8, -, -⟩ := inert_facts h'
  simp only [ruleJoins, h1, h5, h8, g1, g5, g8]

theorem ruleJoins_prev {pp pp' : WB} (p q n : WB) (h : pp.inert = true) (h' : pp'.inert = true) :
    ruleJoins pp p q n = ruleJoins pp' p q n := by
  obtain ⟨h1, -, -, -, h5, -, -, h8, -, -⟩ := inert_facts h
  obtain ⟨g1, -, -, -, g5, -, -, g8, -, -⟩ := inert_facts h'
  simp only [ruleJoins, h1, h5, h8, g1, g5, g8]

theorem ruleJoins_plain (pp p q n : WB) (hp : p.plain = true) (hq : q.plain = true) :
    ruleJoins pp p q n = true := by
  cases p <;> first
    | (cases hp; done)
    | (cases q <;> first | (cases hq; done) | simp [ruleJoins, WB.ahLetter, WB.wordly])

theorem inert_not_attached {c : WB} (h : c.inert = true) : c.attached = false := by
  cases c <;> first | rfl | cases h

theorem inert_not_regional {c : WB} (h : c.inert = true) : (c == .regional) = false := by
  cases c <;> first | rfl | cases h

/-- The classes that rule WB4 leaves. -/
def solid (l : List (WB × Bool)) : List WB := (l.map (·.1)).filter fun c => !c.attached

theorem solid_append (x y : List (WB × Bool)) : solid (x ++ y) = solid x ++ solid y := by
  simp [solid]

theorem solid_cons_inert {c : WB × Bool} (h : c.1.inert = true) (y : List (WB × Bool)) :
    solid (c :: y) = c.1 :: solid y := by
  simp [solid, inert_not_attached h]

theorem joins_cons (l : WB × Bool) (before : List (WB × Bool)) (r : WB × Bool) (after : List (WB × Bool)) :
    joins (l :: before) (r :: after) =
    if l.1 == .cr && r.1 == .lf then true
    else if l.1.lineBreak || r.1.lineBreak then false
    else if l.1 == .zwj && r.2 then true
    else if l.1 == .space && r.1 == .space then true
    else if r.1.attached then true
    else ruleJoins ((solid (l :: before)).tail.headD .other) ((solid (l :: before)).headD .other) r.1
        ((solid after).headD .other) ||
      r.1 == .regional && ((solid (l :: before)).takeWhile (· == .regional)).length % 2 == 1 := rfl

/-- What ends with, or is followed by, an inert character. -/
def Ends (x y : List (WB × Bool)) : Prop :=
  (∃ z c, x = z ++ [c] ∧ c.1.inert = true) ∨ (∃ c z, y = c :: z ∧ c.1.inert = true) ∨ y = []

theorem joins_after {before x y : List (WB × Bool)} (hx : x ≠ []) (h : Ends x y) :
    joins before (x ++ y) = joins before x := by
  cases before with
  | nil => rfl
  | cons l before =>
    obtain ⟨r, x, rfl⟩ := List.exists_cons_of_ne_nil hx
    rw [List.cons_append, joins_cons, joins_cons]
    have key : ∀ pp p, ruleJoins pp p r.1 ((solid (x ++ y)).headD .other) =
        ruleJoins pp p r.1 ((solid x).headD .other) := by
      intro pp p
      rw [solid_append]
      cases hs : solid x with
      | cons a b => rfl
      | nil =>
        rw [List.nil_append]
        rcases h with ⟨z, c, hz, hc⟩ | ⟨c, z, rfl, hc⟩ | rfl
        · cases z with
          | nil =>
            simp only [List.nil_append, List.cons.injEq] at hz
            obtain ⟨rfl, rfl⟩ := hz
            rw [ruleJoins_inert _ _ _ _ (.inr hc), ruleJoins_inert _ _ _ _ (.inr hc)]
          | cons a z =>
            simp only [List.cons_append, List.cons.injEq] at hz
            rw [hz.2, solid_append, solid_cons_inert hc] at hs
            simp at hs
        · rw [solid_cons_inert hc]
          exact ruleJoins_next pp hc rfl
        · rfl
    rw [key]

theorem joins_before {after x y : List (WB × Bool)} (hx : x ≠ []) (h : Ends x y) :
    joins (x ++ y) after = joins x after := by
  cases after with
  | nil => obtain ⟨l, x, rfl⟩ := List.exists_cons_of_ne_nil hx; rfl
  | cons r after =>
    obtain ⟨l, x, rfl⟩ := List.exists_cons_of_ne_nil hx
    rw [List.cons_append, joins_cons, joins_cons, ← List.cons_append, solid_append]
    generalize hl : l :: x = lx at *
    have key : ∀ q n, ruleJoins ((solid lx ++ solid y).tail.headD .other) ((solid lx ++ solid y).headD .other) q n =
          ruleJoins ((solid lx).tail.headD .other) ((solid lx).headD .other) q n ∧
        ((solid lx ++ solid y).takeWhile (· == .regional)) = (solid lx).takeWhile (· == .regional) := by
      intro q n
      rcases h with ⟨z, c, hz, hc⟩ | ⟨c, z, rfl, hc⟩ | rfl
      · rw [hz, solid_append, solid_cons_inert hc]
        constructor
        · cases hs : solid z with
          | nil => simp [solid, ruleJoins_inert _ _ _ _ (Or.inl hc)]
          | cons a b => cases b <;> simp [solid]
        · show List.takeWhile _ ((solid z ++ [c.1]) ++ solid y) = List.takeWhile _ (solid z ++ [c.1])
          generalize solid z = sz
          induction sz with
          | nil => simp [inert_not_regional hc]
          | cons a b ih =>
            simp only [List.cons_append, List.takeWhile_cons]
            rw [ih]
      · rw [solid_cons_inert hc]
        constructor
        · cases hs : solid lx with
          | nil =>
            simp only [List.nil_append, List.headD_cons, List.tail_cons, List.tail_nil, List.headD_nil]
            rw [ruleJoins_inert _ _ _ _ (Or.inl hc), ruleJoins_inert _ WB.other _ _ (Or.inl rfl)]
          | cons a b =>
            cases b with
            | nil =>
              simp only [List.cons_append, List.nil_append, List.headD_cons, List.tail_cons, List.headD_nil]
              exact ruleJoins_prev _ _ _ hc rfl
            | cons => rfl
        · generalize solid lx = sz
          induction sz with
          | nil => simp [inert_not_regional hc]
          | cons a b ih =>
            simp only [List.cons_append, List.takeWhile_cons]
            rw [ih]
      · simp [solid]
    rw [(key r.1 _).1, (key r.1 .other).2]

section
variable {α : Type} {cls : α → WB × Bool}

theorem cutWords_before {l : List α} {x y : List (WB × Bool)} (h : Ends x y) :
    cutWords cls (x ++ y) l = cutWords cls x l := by
  induction l generalizing x with
  | nil => rfl
  | cons a l ih =>
    have he : Ends (cls a :: x) y := by
      rcases h with ⟨z, c, rfl, hc⟩ | h
      · exact Or.inl ⟨cls a :: z, c, rfl, hc⟩
      · exact Or.inr h
    rw [cutWords, cutWords, ← List.cons_append, ih he, joins_before (by simp) he]

/-- At a place where there is a boundary, next to an inert character, a text may be cut in two, and the
parts cut into words each on its own. -/
theorem cutWords_append {x y : List α} {before : List (WB × Bool)}
    (h : Ends (x.map cls) (y.map cls)) (hj : joins ((x.map cls).reverse ++ before) (y.map cls) = false) :
    cutWords cls before (x ++ y) = cutWords cls before x ++ cutWords cls ((x.map cls).reverse ++ before) y := by
  induction x generalizing before with
  | nil => simp [cutWords]
  | cons a x ih =>
    rw [List.cons_append, cutWords]
    cases x with
    | nil =>
      simp only [List.map_cons, List.map_nil, List.reverse_cons, List.reverse_nil, List.nil_append,
        List.singleton_append] at hj ⊢
      have h1 : cutWords cls before [a] = [[a]] := rfl
      rw [h1]
      show (match cutWords cls (cls a :: before) y with
        | [] => [[a]]
        | g :: gs => if joins (cls a :: before) (y.map cls) = true then (a :: g) :: gs else [a] :: g :: gs) = _
      rw [hj]
      cases cutWords cls (cls a :: before) y <;> rfl
    | cons b x =>
      have he : Ends ((b :: x).map cls) (y.map cls) := by
        rcases h with ⟨z, c, hz, hc⟩ | h
        · cases z with
          | nil => simp at hz
          | cons d z =>
            simp only [List.map_cons, List.cons_append, List.cons.injEq] at hz
            exact Or.inl ⟨z, c, by simpa using hz.2, hc⟩
        · exact Or.inr h
      have hrev : ((a :: b :: x).map cls).reverse ++ before = ((b :: x).map cls).reverse ++ cls a :: before := by
        simp
      rw [hrev] at hj ⊢
      have ih := ih (before := cls a :: before) he hj
      rw [ih]
      have hne : cutWords cls (cls a :: before) (b :: x) ≠ [] := fun h0 => by
        have := cutWords_eq_nil h0; cases this
      obtain ⟨g, gs, hg⟩ := List.exists_cons_of_ne_nil hne
      have h1 : cutWords cls before (a :: b :: x) =
          if joins (cls a :: before) ((b :: x).map cls) then (a :: g) :: gs else [a] :: g :: gs := by
        rw [cutWords, hg]
      rw [h1, hg, List.cons_append, List.map_append, joins_after (by simp) he]
      show (if _ then _ else _) = (if _ then _ else _) ++ _
      split <;> rfl

/-- The boundaries around inert characters. -/
inductive Apart2 (l r : WB × Bool) : Prop
  | left (h : l.1.inert = true) (h' : r.1.plain = true ∨ r.1.mark = true)
  | right (h : r.1.inert = true) (h' : r.2 = false) (h'' : l.1 = .cr → r.1 ≠ .lf)
      (h''' : l.1 = .space → r.1 ≠ .space)

theorem Apart2.joins {l r : WB × Bool} (h : Apart2 l r) (x y : List (WB × Bool)) :
    joins (l :: x) (r :: y) = false := by
  obtain ⟨l, lp⟩ := l
  obtain ⟨r, rp⟩ := r
  rw [joins_cons]
  cases h with
  | left h h' =>
    rw [solid_cons_inert h]
    simp only at h h' ⊢
    rw [List.headD_cons, ruleJoins_inert _ _ _ _ (.inl h)]
    cases l <;> simp only [WB.inert, reduceCtorEq] at h <;>
      (cases r <;> simp only [WB.plain, WB.mark, reduceCtorEq, or_self] at h' <;> rfl)
  | right h h' h2 h3 =>
    simp only at h h' h2 h3 ⊢
    subst h'
    rw [ruleJoins_inert _ _ _ _ (.inr h)]
    cases r <;> simp only [WB.inert, reduceCtorEq] at h <;> cases l <;>
      first | rfl | exact absurd rfl (h2 rfl) | exact absurd rfl (h3 rfl)

theorem Apart2.ends {l r : WB × Bool} (h : Apart2 l r) (x y : List (WB × Bool)) : Ends (x ++ [l]) (r :: y) := by
  cases h with
  | left h _ => exact Or.inl ⟨x, l, rfl, h⟩
  | right h => exact Or.inr (Or.inl ⟨r, y, rfl, h⟩)

theorem Apart2.starts {l r : WB × Bool} (h : Apart2 l r) (x : List (WB × Bool)) :
    Ends (r :: []) (l :: x) := by
  cases h with
  | left h _ => exact Or.inr (Or.inl ⟨l, x, rfl, h⟩)
  | right h => exact Or.inl ⟨[], r, rfl, h⟩

/-- The text before does not matter either. -/
theorem cutWords_apart {x y : List α} {a b : α} (h : Apart2 (cls a) (cls b)) :
    cutWords cls [] (x ++ [a] ++ b :: y) = cutWords cls [] (x ++ [a]) ++ cutWords cls [] (b :: y) := by
  have h1 := cutWords_append (cls := cls) (x := x ++ [a]) (y := b :: y) (before := [])
    (by simpa using h.ends (x.map cls) (y.map cls))
    (by simpa using h.joins (x.map cls).reverse (y.map cls))
  rw [h1]
  congr 1
  simp only [List.map_append, List.map_cons, List.map_nil, List.reverse_append, List.reverse_cons,
    List.reverse_nil, List.nil_append, List.append_nil, List.singleton_append]
  have he := h.starts (x.map cls).reverse
  rw [cutWords, cutWords]
  have h2 : cutWords cls ([cls b] ++ cls a :: (x.map cls).reverse) y = cutWords cls [cls b] y :=
    cutWords_before he
  rw [List.singleton_append] at h2
  rw [h2]
  have h3 := joins_before (after := y.map cls) (x := [cls b]) (by simp) he
  rw [List.singleton_append] at h3
  rw [h3]

/-- Letters, digits and low lines are one word. -/
theorem cutWords_plain {l : List α} (hl : l ≠ []) (h : ∀ a ∈ l, (cls a).1.plain = true)
    (before : List (WB × Bool)) : cutWords cls before l = [l] := by
  induction l generalizing before with
  | nil => exact absurd rfl hl
  | cons a l ih =>
    cases l with
    | nil => rfl
    | cons b l =>
      rw [cutWords, ih (by simp) (fun x hx => h x (by simp [hx]))]
      have ha := h a (by simp)
      have hb := h b (by simp)
      have hat : ∀ c : WB, c.plain = true → c.attached = false ∧ c.lineBreak = false ∧ (c == .cr) = false ∧
          (c == .zwj) = false ∧ (c == .space) = false := by
        intro c hc; cases c <;> first | cases hc; done | exact ⟨rfl, rfl, rfl, rfl, rfl⟩
      obtain ⟨a1, a2, a3, a4, a5⟩ := hat _ ha
      obtain ⟨b1, b2, -, -, -⟩ := hat _ hb
      have hs : solid (cls a :: before) = (cls a).1 :: solid before := by simp [solid, a1]
      rw [List.map_cons, joins_cons, hs, List.headD_cons, ruleJoins_plain _ _ _ _ ha hb, a2, a3, a4, a5, b1, b2]
      simp

end

/-! ### Quotation marks and full stops -/

theorem mark_facts {c : WB} (h : c.mark = true) : c.ahLetter = false ∧ c.wordly = false ∧
    (c == .hebrew) = false ∧ (c == .numeric) = false ∧ (c == .katakana) = false ∧
    (c == .extendNumLet) = false ∧ c.attached = false ∧ (c == .regional) = false ∧ c.lineBreak = false ∧
    (c == .space) = false ∧ (c == .cr) = false ∧ (c == .lf) = false ∧ (c == .zwj) = false := by
  cases c <;> first | (cases h; done) | exact ⟨rfl, rfl, rfl, rfl, rfl, rfl, rfl, rfl, rfl, rfl, rfl, rfl, rfl⟩

theorem plain_facts {c : WB} (h : c.plain = true) : (c == .hebrew) = false ∧ (c == .katakana) = false ∧
    c.attached = false ∧ (c == .regional) = false ∧ c.lineBreak = false ∧
    (c == .space) = false ∧ (c == .cr) = false ∧ (c == .lf) = false ∧ (c == .zwj) = false ∧
    c.inLetters = false ∧ c.inNumbers = false ∧ (c == .singleQuote) = false ∧ (c == .doubleQuote) = false := by
  cases c <;> first | (cases h; done) | exact ⟨rfl, rfl, rfl, rfl, rfl, rfl, rfl, rfl, rfl, rfl, rfl, rfl, rfl⟩

theorem end_facts {c : WB} (h : c.plain = true ∨ c = .other) : (c == .hebrew) = false ∧ (c == .katakana) = false ∧
    c.attached = false ∧ (c == .regional) = false ∧ c.lineBreak = false ∧
    (c == .space) = false ∧ (c == .cr) = false ∧ (c == .lf) = false ∧ (c == .zwj) = false ∧
    c.inLetters = false ∧ c.inNumbers = false ∧ (c == .singleQuote) = false ∧ (c == .doubleQuote) = false := by
  rcases h with h | rfl
  · exact plain_facts h
  · exact ⟨rfl, rfl, rfl, rfl, rfl, rfl, rfl, rfl, rfl, rfl, rfl, rfl, rfl⟩

/-- The classes of a text without attached characters. -/
theorem solid_all {l : List (WB × Bool)} (h : ∀ c ∈ l, c.1.attached = false) : solid l = l.map (·.1) := by
  rw [solid, List.filter_eq_self]
  intro c hc
  obtain ⟨d, hd, rfl⟩ := List.mem_map.mp hc
  simp [h d hd]

section
variable {α : Type} {cls : α → WB × Bool}

/-- A text may be cut in two at a boundary, if what is beyond does not matter for the others. -/
theorem cutWords_cut {x y : List α} {before : List (WB × Bool)}
    (hA : ∀ u w, x.map cls = u ++ w → w ≠ [] → u ≠ [] → joins (u.reverse ++ before) (w ++ y.map cls) =
      joins (u.reverse ++ before) w)
    (hj : x ≠ [] → joins ((x.map cls).reverse ++ before) (y.map cls) = false) :
    cutWords cls before (x ++ y) = cutWords cls before x ++ cutWords cls ((x.map cls).reverse ++ before) y := by
  induction x generalizing before with
  | nil => simp [cutWords]
  | cons a x ih =>
    have hj := hj (by simp)
    rw [List.cons_append, cutWords]
    cases x with
    | nil =>
      simp only [List.map_cons, List.map_nil, List.reverse_cons, List.reverse_nil, List.nil_append,
        List.singleton_append] at hj ⊢
      have h1 : cutWords cls before [a] = [[a]] := rfl
      rw [h1]
      show (match cutWords cls (cls a :: before) y with
        | [] => [[a]]
        | g :: gs => if joins (cls a :: before) (y.map cls) = true then (a :: g) :: gs else [a] :: g :: gs) = _
      rw [hj]
      cases cutWords cls (cls a :: before) y <;> rfl
    | cons b x =>
      have he := hA [cls a] ((b :: x).map cls) rfl (by simp) (by simp)
      have hrev : ((a :: b :: x).map cls).reverse ++ before = ((b :: x).map cls).reverse ++ cls a :: before := by
        simp
      rw [hrev] at hj ⊢
      have ih := ih (before := cls a :: before) ?_ (fun _ => hj)
      · rw [ih]
        have hne : cutWords cls (cls a :: before) (b :: x) ≠ [] := fun h0 => by
          have := cutWords_eq_nil h0; cases this
        obtain ⟨g, gs, hg⟩ := List.exists_cons_of_ne_nil hne
        have h1 : cutWords cls before (a :: b :: x) =
            if joins (cls a :: before) ((b :: x).map cls) then (a :: g) :: gs else [a] :: g :: gs := by
          rw [cutWords, hg]
        simp only [List.reverse_cons, List.reverse_nil, List.nil_append, List.singleton_append] at he
        rw [h1, hg, List.cons_append, List.map_append, he]
        show (if _ then _ else _) = (if _ then _ else _) ++ _
        split <;> rfl
      · intro u w huw hw hu
        have := hA (cls a :: u) w (by rw [List.map_cons, huw, List.cons_append]) hw (by simp)
        simpa using this

/-- What is before a text does not matter, if it does not for any boundary in it. -/
theorem cutWords_alone {l : List α} {X Y : List (WB × Bool)}
    (h : ∀ u w, l.map cls = u ++ w → u ≠ [] → w ≠ [] → joins (u.reverse ++ X ++ Y) w = joins (u.reverse ++ X) w) :
    cutWords cls (X ++ Y) l = cutWords cls X l := by
  induction l generalizing X with
  | nil => rfl
  | cons a l ih =>
    rw [cutWords, cutWords]
    have := ih (X := cls a :: X) (by
      intro u w huw hu hw
      have := h (cls a :: u) w (by rw [List.map_cons, huw, List.cons_append]) (by simp) hw
      simpa using this)
    rw [List.cons_append] at this
    rw [this]
    cases l with
    | nil => rfl
    | cons b l =>
      have := h [cls a] ((b :: l).map cls) rfl (by simp) (by simp)
      simp only [List.reverse_cons, List.reverse_nil, List.nil_append, List.cons_append] at this
      rw [this]

theorem last_cases {β : Type} (l : List β) : l = [] ∨ ∃ z c, l = z ++ [c] := by
  rcases List.eq_nil_or_concat l with h | ⟨z, c, h⟩
  · exact Or.inl h
  · exact Or.inr ⟨z, c, by simpa using h⟩

/-- Between marks there are boundaries, whatever the context. -/
theorem joins_marks {l r : WB × Bool} (hl : l.1.mark = true) (hr : r.1.mark = true)
    (before after : List (WB × Bool)) : joins (l :: before) (r :: after) = false := by
  obtain ⟨l1, l2, l3, l4, l5, l6, l7, l8, l9, l10, l11, l12, l13⟩ := mark_facts hl
  obtain ⟨r1, r2, r3, r4, r5, r6, r7, r8, r9, r10, r11, r12, r13⟩ := mark_facts hr
  have hs : solid (l :: before) = l.1 :: solid before := by simp [solid, l7]
  rw [joins_cons, hs]
  simp [ruleJoins, l1, l2, l3, l4, l5, l6, l9, l10, l11, l13, r1, r3, r4, r5, r6, r7, r8, r9, r10, r2]

/-- Between a letter or digit, or a character no rule mentions, and marks at the end of a text there is a
boundary. -/
theorem joins_closing {l r : WB × Bool} (hl : l.1.plain = true ∨ l.1 = .other) (hr : r.1.mark = true)
    (before : List (WB × Bool)) {after : List (WB × Bool)} (ha : ∀ c ∈ after, c.1.mark = true) :
    joins (l :: before) (r :: after) = false := by
  obtain ⟨l1, l2, l3, l4, l5, l6, l7, l8, l9, l10, l11, l12, l13⟩ := end_facts hl
  obtain ⟨r1, r2, r3, r4, r5, r6, r7, r8, r9, r10, r11, r12, r13⟩ := mark_facts hr
  have hs : solid (l :: before) = l.1 :: solid before := by simp [solid, l3]
  have hn : ((solid after).headD .other).ahLetter = false ∧ ((solid after).headD .other == .numeric) = false := by
    rw [solid_all fun c hc => (mark_facts (ha c hc)).2.2.2.2.2.2.1]
    cases after with
    | nil => exact ⟨rfl, rfl⟩
    | cons c t =>
      have := mark_facts (ha c (by simp))
      exact ⟨this.1, this.2.2.2.1⟩
  rw [joins_cons, hs]
  obtain ⟨n1, n2⟩ := hn
  generalize (solid after).headD .other = n at n1 n2 ⊢
  simp [ruleJoins, l1, l2, l5, l6, l7, l9, l10, l11, l13, r1, r3, r4, r5, r6, r7, r8, r9, r2, n1, n2]

/-- Between marks at the start of a text and a letter or digit there is a boundary. -/
theorem joins_opening {l r : WB × Bool} (hl : l.1.mark = true) (hr : r.1.plain = true)
    {before : List (WB × Bool)} (after : List (WB × Bool)) (ha : ∀ c ∈ before, c.1.mark = true) :
    joins (l :: before) (r :: after) = false := by
  obtain ⟨l1, l2, l3, l4, l5, l6, l7, l8, l9, l10, l11, l12, l13⟩ := mark_facts hl
  obtain ⟨r1, r2, r3, r4, r5, r6, r7, r8, r9, r10, r11, r12, r13⟩ := plain_facts hr
  have hs : solid (l :: before) = l.1 :: solid before := by simp [solid, l7]
  have hn : ((solid before).headD .other).ahLetter = false ∧ ((solid before).headD .other == .numeric) = false := by
    rw [solid_all fun c hc => (mark_facts (ha c hc)).2.2.2.2.2.2.1]
    cases before with
    | nil => exact ⟨rfl, rfl⟩
    | cons c t =>
      have := mark_facts (ha c (by simp))
      exact ⟨this.1, this.2.2.2.1⟩
  rw [joins_cons, hs]
  obtain ⟨n1, n2⟩ := hn
  rw [List.tail_cons]
  generalize (solid before).headD .other = n at n1 n2 ⊢
  simp [ruleJoins, l1, l2, l3, l4, l5, l6, l8, l9, l10, l11, l13, r1, r3, r4, r5, r6, r10, r11, n1, n2]

/-- Marks at the end are words of their own. -/
theorem cutWords_closing {x p : List α} {a : α} (ha : (cls a).1.plain = true ∨ (cls a).1 = .other)
    (hp : ∀ c ∈ p, (cls c).1.mark = true) :
    cutWords cls [] (x ++ [a] ++ p) = cutWords cls [] (x ++ [a]) ++ cutWords cls [] p := by
  have hp' : ∀ c ∈ p.map cls, c.1.mark = true := by
    intro c hc
    obtain ⟨d, hd, rfl⟩ := List.mem_map.mp hc
    exact hp d hd
  cases p with
  | nil => simp [cutWords]
  | cons c p =>
    have hc := hp c (by simp)
    rw [cutWords_cut]
    · congr 1
      refine (cutWords_alone (X := []) ?_)
      intro u w huw hu hw
      obtain ⟨r, w, rfl⟩ := List.exists_cons_of_ne_nil hw
      rcases last_cases u with rfl | ⟨z, l, rfl⟩
      · exact absurd rfl hu
      · have hl : l.1.mark = true := hp' l (by rw [huw]; simp)
        have hr : r.1.mark = true := hp' r (by rw [huw]; simp)
        simp only [List.reverse_append, List.reverse_cons, List.reverse_nil, List.nil_append, List.cons_append,
          List.append_nil]
        rw [joins_marks hl hr, joins_marks hl hr]
    · intro u w huw hw hu
      rcases last_cases w with rfl | ⟨z, l, rfl⟩
      · exact absurd rfl hw
      · have hl : l = cls a := by
          rw [List.map_append, ← List.append_assoc] at huw
          have := List.append_inj_right' huw rfl
          simpa using this.symm
        cases hb : u.reverse ++ ([] : List (WB × Bool)) with
        | nil => rfl
        | cons b before =>
          have hsc : (solid ((c :: p).map cls)).headD .other = (cls c).1 := by
            simp [solid, (mark_facts hc).2.2.2.2.2.2.1]
          have next : ∀ pp p' q, ruleJoins pp p' q (cls c).1 = ruleJoins pp p' q .other := by
            intro pp p' q
            obtain ⟨r1, r2, r3, r4, -⟩ := mark_facts hc
            simp only [ruleJoins, r1, r3, r4]
            rfl
          cases z with
          | nil =>
            rw [List.nil_append, List.singleton_append, joins_cons, joins_cons, hsc, next]
            rfl
          | cons r z =>
            have hsl : solid (z ++ [l] ++ (c :: p).map cls) = solid z ++ [l.1] ++ solid ((c :: p).map cls) := by
              rw [solid_append, solid_append]
              have : solid [l] = [l.1] := by rw [hl]; simp [solid, (end_facts ha).2.2.1]
              rw [this]
            have hsl2 : solid (z ++ [l]) = solid z ++ [l.1] := by
              rw [solid_append]
              have : solid [l] = [l.1] := by rw [hl]; simp [solid, (end_facts ha).2.2.1]
              rw [this]
            rw [List.cons_append, List.cons_append, joins_cons, joins_cons, hsl, hsl2]
            cases solid z <;> rfl
    · intro _
      simp only [List.map_append, List.map_cons, List.map_nil, List.reverse_append, List.reverse_cons,
        List.reverse_nil, List.nil_append, List.singleton_append, List.append_nil]
      exact joins_closing ha hc _ fun d hd => hp' d (by simp only [List.map_cons, List.mem_cons]; exact Or.inr hd)

/-- Marks at the start are words of their own. -/
theorem cutWords_opening {p y : List α} {b : α} (hb : (cls b).1.plain = true)
    (hp : ∀ c ∈ p, (cls c).1.mark = true) :
    cutWords cls [] (p ++ b :: y) = cutWords cls [] p ++ cutWords cls [] (b :: y) := by
  have hp' : ∀ c ∈ p.map cls, c.1.mark = true := by
    intro c hc
    obtain ⟨d, hd, rfl⟩ := List.mem_map.mp hc
    exact hp d hd
  rcases last_cases p with rfl | ⟨p0, l0, hlast⟩
  · simp [cutWords]
  · have hl0 := hp l0 (by rw [hlast]; simp)
    rw [cutWords_cut]
    · congr 1
      rw [List.append_nil]
      refine (cutWords_alone (X := []) (Y := (p.map cls).reverse) ?_)
      intro u w huw hu hw
      obtain ⟨r, w, rfl⟩ := List.exists_cons_of_ne_nil hw
      obtain ⟨d, u, rfl⟩ := List.exists_cons_of_ne_nil hu
      have hd : d = cls b := by
        simp only [List.map_cons, List.cons_append, List.cons.injEq] at huw
        exact huw.1.symm
      simp only [List.append_nil]
      rw [hlast]
      simp only [List.map_append, List.map_cons, List.map_nil, List.reverse_append, List.reverse_cons,
        List.reverse_nil, List.nil_append, List.singleton_append]
      have prev : ∀ p' q n, ruleJoins (cls l0).1 p' q n = ruleJoins .other p' q n := by
        intro p' q n
        obtain ⟨r1, r2, r3, r4, -⟩ := mark_facts hl0
        simp only [ruleJoins, r1, r3, r4]
        rfl
      have hsd : ∀ t, solid (u.reverse ++ [d] ++ t) = solid u.reverse ++ d.1 :: solid t := by
        intro t
        rw [solid_append, solid_append]
        have : solid [d] = [d.1] := by rw [hd]; simp [solid, (plain_facts hb).2.2.1]
        rw [this]; simp
      have hsl : ∀ t, solid (cls l0 :: t) = (cls l0).1 :: solid t := by
        intro t; simp [solid, (mark_facts hl0).2.2.2.2.2.2.1]
      have hreg : (d.1 == .regional) = false := by rw [hd]; exact (plain_facts hb).2.2.2.1
      have take : ∀ a t t' : List WB, (a ++ d.1 :: t).takeWhile (· == .regional) =
          (a ++ d.1 :: t').takeWhile (· == .regional) := by
        intro a t t'
        induction a with
        | nil => simp [hreg]
        | cons e a ih => simp only [List.cons_append, List.takeWhile_cons, ih]
      cases hx : u.reverse ++ [d] with
      | nil => simp at hx
      | cons l bef =>
        rw [List.cons_append, joins_cons, joins_cons, ← List.cons_append, ← hx, hsd, hsl]
        have e := hsd []
        rw [List.append_nil] at e
        rw [e, take _ ((cls l0).1 :: solid (p0.map cls).reverse) (solid [])]
        congr 1
        cases solid u.reverse with
        | nil => simp [solid, prev]
        | cons e t => cases t <;> simp [solid]
    · intro u w huw hw hu
      obtain ⟨r, w, rfl⟩ := List.exists_cons_of_ne_nil hw
      rcases last_cases u with rfl | ⟨z, l, rfl⟩
      · exact absurd rfl hu
      · have hl : l.1.mark = true := hp' l (by rw [huw]; simp)
        have hr : r.1.mark = true := hp' r (by rw [huw]; simp)
        simp only [List.reverse_append, List.reverse_cons, List.reverse_nil, List.nil_append, List.cons_append,
          List.append_nil]
        rw [joins_marks hl hr, joins_marks hl hr]
    · intro _
      rw [hlast]
      simp only [List.map_append, List.map_cons, List.map_nil, List.reverse_append, List.reverse_cons,
        List.reverse_nil, List.nil_append, List.singleton_append, List.append_nil]
      refine joins_opening hl0 hb _ fun d hd => hp' d ?_
      rw [hlast]
      simp only [List.map_append, List.mem_append]
      exact Or.inl (by simpa using hd)

end

section
variable {α : Type} {cls : α → WB × Bool}

/-- A word between separators is cut on its own. -/
theorem cutWords_between {A P K Q B : List α} {k0 k1 : α} {K0 K1 : List α}
    (hA : A = [] ∨ ∃ z c, A = z ++ [c] ∧ (cls c).1.inert = true) (hP : ∀ c ∈ P, (cls c).1.mark = true)
    (hK0 : K = k0 :: K0) (h0 : (cls k0).1.plain = true) (hK1 : K = K1 ++ [k1])
    (h1 : (cls k1).1.plain = true ∨ (cls k1).1 = .other)
    (hQ : ∀ c ∈ Q, (cls c).1.mark = true)
    (hB : B = [] ∨ ∃ c z, B = c :: z ∧ (cls c).1.inert = true ∧ (cls c).2 = false) :
    cutWords cls [] ((A ++ P) ++ K ++ (Q ++ B)) =
      cutWords cls [] (A ++ P) ++ cutWords cls [] K ++ cutWords cls [] (Q ++ B) := by
  have left : ∀ Y : List α, (∀ y ∈ Y.head?, (cls y).1.plain = true ∨ (cls y).1.mark = true) →
      cutWords cls [] (A ++ Y) = cutWords cls [] A ++ cutWords cls [] Y := by
    intro Y hY
    rcases hA with rfl | ⟨z, c, rfl, hc⟩
    · simp [cutWords]
    · cases Y with
      | nil => simp [cutWords]
      | cons y Y => exact cutWords_apart (.left hc (hY y rfl))
  have right : ∀ X : List α, (∀ x ∈ X.getLast?, ((cls x).1.plain = true ∨ (cls x).1 = .other) ∨
      (cls x).1.mark = true) → cutWords cls [] (X ++ B) = cutWords cls [] X ++ cutWords cls [] B := by
    intro X hX
    rcases hB with rfl | ⟨c, z, rfl, hc, hc2⟩
    · simp [cutWords]
    · rcases last_cases X with rfl | ⟨X, x, rfl⟩
      · simp [cutWords]
      · have hx := hX x (by simp)
        refine cutWords_apart (.right hc hc2 ?_ ?_) <;>
        · intro h
          rw [h] at hx
          rcases hx with (hx | hx) | hx <;> cases hx
  have hPh : ∀ y ∈ P.head?, (cls y).1.plain = true ∨ (cls y).1.mark = true :=
    fun y hy => Or.inr (hP y (List.mem_of_mem_head? hy))
  have hQl : ∀ y ∈ Q.getLast?, ((cls y).1.plain = true ∨ (cls y).1 = .other) ∨ (cls y).1.mark = true :=
    fun y hy => Or.inr (hQ y (List.mem_of_mem_getLast? hy))
  have e1 : cutWords cls [] (P ++ K ++ Q) = cutWords cls [] P ++ cutWords cls [] K ++ cutWords cls [] Q := by
    rw [List.append_assoc, List.append_assoc, hK0, List.cons_append, cutWords_opening h0 hP, ← List.cons_append,
      ← hK0, hK1, cutWords_closing h1 hQ]
  have e2 : cutWords cls [] (P ++ K ++ Q ++ B) = cutWords cls [] (P ++ K ++ Q) ++ cutWords cls [] B := by
    refine right _ fun x hx => ?_
    rw [hK1] at hx
    rcases last_cases Q with h | ⟨q, x', hq⟩
    · subst h
      simp only [List.append_nil, ← List.append_assoc, List.getLast?_concat, Option.mem_def, Option.some.injEq] at hx
      exact Or.inl (hx ▸ h1)
    · subst hq
      simp only [← List.append_assoc, List.getLast?_concat, Option.mem_def, Option.some.injEq] at hx
      exact Or.inr (hQ x (by rw [← hx]; simp))
  have e3 := left (P ++ K ++ Q ++ B) fun y hy => by
    cases hp : P with
    | nil =>
      rw [hp, hK0] at hy
      simp only [List.nil_append, List.cons_append, List.head?_cons, Option.mem_def, Option.some.injEq] at hy
      exact Or.inl (hy ▸ h0)
    | cons p P' =>
      rw [hp] at hy
      simp only [List.cons_append, List.head?_cons, Option.mem_def, Option.some.injEq] at hy
      exact Or.inr (hP y (by rw [hp, ← hy]; simp))
  have e4 : A ++ P ++ K ++ (Q ++ B) = A ++ (P ++ K ++ Q ++ B) := by simp
  rw [e4, e3, e2, e1, left P hPh, right Q hQl]
  simp

end

/-! ### Strings -/

theorem runeBytes_append_ascii (a : Bytes) {b : UInt8} (hb : b.toNat < 0x80) (t : Bytes) :
    runeBytes (a ++ b :: t) = runeBytes a ++ (b.toNat, [b]) :: runeBytes t := by
  have h0 : runeBytes (b :: t) = (b.toNat, [b]) :: runeBytes t := by
    rw [runeBytes_cons]
    simp [decodeRune, hb]
  induction hn : a.length using Nat.strongRecOn generalizing a with
  | _ n ih =>
    cases a with
    | nil => simpa using h0
    | cons c a =>
      have hd := decodeRune_append_ascii (a := c :: a) (by simp) hb t
      have hw := decodeRune_width_le (c :: a)
      have hp := decodeRune_width_pos c a
      rw [List.cons_append] at hd ⊢
      rw [runeBytes_cons, hd, runeBytes_cons c a]
      rw [← List.cons_append, List.take_append_of_le_length hw, List.drop_append_of_le_length hw]
      rw [ih _ (by rw [← hn]; simp only [List.length_drop, List.length_cons]; omega) _ rfl]
      rfl

theorem runeBytes_ascii_cons {b : UInt8} (hb : b.toNat < 0x80) (t : Bytes) :
    runeBytes (b :: t) = (b.toNat, [b]) :: runeBytes t := runeBytes_append_ascii [] hb t

theorem runeBytes_ascii_append {s : Bytes} (hs : IsAscii s) (t : Bytes) :
    runeBytes (s ++ t) = s.map (fun b => (b.toNat, [b])) ++ runeBytes t := by
  induction s with
  | nil => rfl
  | cons b s ih =>
    rw [List.cons_append, runeBytes_ascii_cons (hs b (by simp)), ih fun x hx => hs x (by simp [hx])]
    rfl

theorem runeBytes_ascii {s : Bytes} (hs : IsAscii s) : runeBytes s = s.map (fun b => (b.toNat, [b])) := by
  have := runeBytes_ascii_append hs []
  simpa using this

/-- A string may be decoded in parts after an ASCII character. -/
theorem runeBytes_after {a : Bytes} (ha : a = [] ∨ ∃ z c, a = z ++ [c] ∧ c.toNat < 0x80) (t : Bytes) :
    runeBytes (a ++ t) = runeBytes a ++ runeBytes t := by
  rcases ha with rfl | ⟨z, c, rfl, hc⟩
  · rfl
  · rw [List.append_assoc, List.singleton_append, runeBytes_append_ascii z hc, runeBytes_append_ascii z hc]
    simp

/-- A string may be decoded in parts before an ASCII character. -/
theorem runeBytes_before {b : Bytes} (hb : b = [] ∨ ∃ c z, b = c :: z ∧ c.toNat < 0x80) (s : Bytes) :
    runeBytes (s ++ b) = runeBytes s ++ runeBytes b := by
  rcases hb with rfl | ⟨c, z, rfl, hc⟩
  · simp
  · rw [runeBytes_append_ascii s hc, runeBytes_ascii_cons hc]

/-- A string may be cut in two between two characters that are apart. -/
theorem wordSegs_apart {cls : WordTable} {s t : Bytes} {a b : Rune}
    (hr : runeBytes (s ++ t) = runeBytes s ++ runeBytes t)
    (ha : (runes s).getLast? = some a) (hb : (runes t).head? = some b) (h : Apart2 (cls a) (cls b)) :
    wordSegs cls (s ++ t) = wordSegs cls s ++ wordSegs cls t := by
  rw [← runeBytes_fst, List.getLast?_map, Option.map_eq_some_iff] at ha
  obtain ⟨pa, ha, rfl⟩ := ha
  rw [← runeBytes_fst, List.head?_map, Option.map_eq_some_iff] at hb
  obtain ⟨pb, hb, rfl⟩ := hb
  obtain ⟨x, hx⟩ := List.getLast?_eq_some_iff.mp ha
  obtain ⟨y, hy⟩ := List.head?_eq_some_iff.mp hb
  rw [wordSegs, hr, hx, hy, cutWords_apart (cls := fun p : Rune × Bytes => cls p.1) h, List.map_append, wordSegs,
    wordSegs, hx, hy]

/-- What is checked of the separators and the marks. -/
theorem separators_classes : (∀ c ∈ separators, c.toNat < 0x80 ∧ c.toNat ≠ 0x3A ∧ (latinWB c.toNat).1.inert = true ∧
      (latinWB c.toNat).2 = false) ∧
    ∀ c ∈ stopMarks, c.toNat < 0x80 ∧ c.toNat ≠ 0x3A ∧ (latinWB c.toNat).1.mark = true := by
  decide +kernel

theorem Right.inert {cls : WordTable} (hR : cls.Right) {c : UInt8} (h : c ∈ separators) :
    c.toNat < 0x80 ∧ (cls c.toNat).1.inert = true ∧ (cls c.toNat).2 = false := by
  obtain ⟨h1, h2, h3, h4⟩ := separators_classes.1 c h
  rw [hR.latin c.toNat (by omega) h2]
  exact ⟨h1, h3, h4⟩

theorem Right.mark {cls : WordTable} (hR : cls.Right) {c : UInt8} (h : c ∈ stopMarks) :
    c.toNat < 0x80 ∧ (cls c.toNat).1.mark = true := by
  obtain ⟨h1, h2, h3⟩ := separators_classes.2 c h
  rw [hR.latin c.toNat (by omega) h2]
  exact ⟨h1, h3⟩

/-- A word set off by separators and marks is cut on its own. -/
theorem wordSegs_between {cls : WordTable} (hR : cls.Right) {a k b : Bytes} (ha : SetOffBefore a)
    (hb : SetOffAfter b) {k0 k1 : Rune} (h0 : (runes k).head? = some k0) (h0' : (cls k0).1.plain = true)
    (h1 : (runes k).getLast? = some k1) (h1' : (cls k1).1.plain = true ∨ (cls k1).1 = .other) :
    wordSegs cls (a ++ k ++ b) = wordSegs cls a ++ wordSegs cls k ++ wordSegs cls b := by
  obtain ⟨A, P, rfl, hP, hA⟩ := ha
  obtain ⟨Q, B, rfl, hQ, hB⟩ := hb
  have hPa : IsAscii P := fun c hc => (Right.mark hR (hP c hc)).1
  have hQa : IsAscii Q := fun c hc => (Right.mark hR (hQ c hc)).1
  have hA' : A = [] ∨ ∃ z c, A = z ++ [c] ∧ c.toNat < 0x80 := by
    rcases hA with h | ⟨z, c, h, hc⟩
    · exact Or.inl h
    · exact Or.inr ⟨z, c, h, (Right.inert hR hc).1⟩
  have hAP : A ++ P = [] ∨ ∃ z c, A ++ P = z ++ [c] ∧ c.toNat < 0x80 := by
    rcases last_cases P with rfl | ⟨z, c, rfl⟩
    · simpa using hA'
    · exact Or.inr ⟨A ++ z, c, by simp, hPa c (by simp)⟩
  have hB' : B = [] ∨ ∃ c z, B = c :: z ∧ c.toNat < 0x80 := by
    rcases hB with h | ⟨c, z, h, hc⟩
    · exact Or.inl h
    · exact Or.inr ⟨c, z, h, (Right.inert hR hc).1⟩
  have hQB : Q ++ B = [] ∨ ∃ c z, Q ++ B = c :: z ∧ c.toNat < 0x80 := by
    cases hq : Q with
    | nil => simpa using hB'
    | cons c q => exact Or.inr ⟨c, q ++ B, rfl, hQa c (by rw [hq]; simp)⟩
  have e : runeBytes (A ++ P ++ k ++ (Q ++ B)) =
      (runeBytes A ++ runeBytes P) ++ runeBytes k ++ (runeBytes Q ++ runeBytes B) := by
    rw [runeBytes_before hQB, runeBytes_after hAP, runeBytes_after hA', runeBytes_ascii_append hQa,
      runeBytes_ascii hQa]
  have eA : runeBytes (A ++ P) = runeBytes A ++ runeBytes P := runeBytes_after hA' _
  have eB : runeBytes (Q ++ B) = runeBytes Q ++ runeBytes B := by
    rw [runeBytes_ascii_append hQa, runeBytes_ascii hQa]
  rw [← runeBytes_fst, List.getLast?_map, Option.map_eq_some_iff] at h1
  obtain ⟨p1, h1, rfl⟩ := h1
  rw [← runeBytes_fst, List.head?_map, Option.map_eq_some_iff] at h0
  obtain ⟨p0, h0, rfl⟩ := h0
  obtain ⟨K1, hK1⟩ := List.getLast?_eq_some_iff.mp h1
  obtain ⟨K0, hK0⟩ := List.head?_eq_some_iff.mp h0
  have marks : ∀ l : Bytes, IsAscii l → (∀ c ∈ l, c ∈ stopMarks) →
      ∀ c ∈ runeBytes l, (cls c.1).1.mark = true := by
    intro l hl hm c hc
    rw [runeBytes_ascii hl, List.mem_map] at hc
    obtain ⟨b, hb, rfl⟩ := hc
    exact (Right.mark hR (hm b hb)).2
  have := cutWords_between (cls := fun p : Rune × Bytes => cls p.1) (A := runeBytes A) (P := runeBytes P)
    (K := runeBytes k) (Q := runeBytes Q) (B := runeBytes B) ?_ (marks P hPa hP) hK0 h0' hK1 h1'
    (marks Q hQa hQ) ?_
  · simp only [wordSegs, e, eA, eB, this, List.map_append]
  · rcases hA with rfl | ⟨z, c, rfl, hc⟩
    · exact Or.inl rfl
    · refine Or.inr ⟨runeBytes z, (c.toNat, [c]), ?_, (Right.inert hR hc).2.1⟩
      rw [runeBytes_append_ascii z (Right.inert hR hc).1]; rfl
  · rcases hB with rfl | ⟨c, z, rfl, hc⟩
    · exact Or.inl rfl
    · exact Or.inr ⟨(c.toNat, [c]), runeBytes z, runeBytes_ascii_cons (Right.inert hR hc).1 _,
        (Right.inert hR hc).2⟩

/-! ### Parts of texts that fit -/

theorem ShortWords.infix {ws vs : List Bytes} (h : ShortWords ws) (hi : vs <:+: ws) : ShortWords vs := by
  obtain ⟨x, y, rfl⟩ := hi
  refine ⟨fun w hw => h.1 w (by simp [hw]), ?_⟩
  rintro pre w1 w2 post rfl
  exact h.2 (x ++ pre) w1 w2 (post ++ y) (by simp)

/-- If the words of a part are among those of the text, then the part fits if the text does. -/
theorem Fits.part {cls : WordTable} {s t : Bytes} (h : Fits cls t) (hl : s.length ≤ t.length)
    (hi : wordSegs cls s <:+: wordSegs cls t) : Fits cls s := by
  rcases h with h | h
  · exact Or.inl (Nat.lt_of_le_of_lt hl h)
  · exact Or.inr (h.infix hi)

theorem Fits.parts {cls : WordTable} {a k b : Bytes} (h : Fits cls (a ++ k ++ b))
    (hw : wordSegs cls (a ++ k ++ b) = wordSegs cls a ++ wordSegs cls k ++ wordSegs cls b) :
    Fits cls a ∧ Fits cls k ∧ Fits cls b := by
  refine ⟨h.part (by simp only [List.length_append]; omega) ?_,
    h.part (by simp only [List.length_append]; omega) ?_, h.part (by simp only [List.length_append]; omega) ?_⟩
  · rw [hw, List.append_assoc]; exact (List.prefix_append _ _).isInfix
  · rw [hw]; exact ⟨_, _, rfl⟩
  · rw [hw]; exact (List.suffix_append _ _).isInfix

/-- What is before a word set off, the word, and what is after it, fit if the text does. -/
theorem Fits.between {cls : WordTable} (hR : cls.Right) {a k b : Bytes} (h : Fits cls (a ++ k ++ b))
    (ha : SetOffBefore a) (hb : SetOffAfter b) {k0 k1 : Rune} (h0 : (runes k).head? = some k0)
    (h0' : (cls k0).1.plain = true) (h1 : (runes k).getLast? = some k1)
    (h1' : (cls k1).1.plain = true ∨ (cls k1).1 = .other) : Fits cls a ∧ Fits cls k ∧ Fits cls b :=
  h.parts (wordSegs_between hR ha hb h0 h0' h1 h1')

theorem Fits.nil {cls : WordTable} : Fits cls [] := Or.inl (by simp)

end Jargon
