import Verif.Proofs.WordBreak
import Verif.Proofs.TableChecks

/-! Cutting a text of Latin letters and the like into words, for the kernel. -/

namespace Jargon

/-- The classes that occur in the tables. -/
def plainWBs : List WB :=
  [.letter, .numeric, .extendNumLet, .midNumLet, .singleQuote, .midNum, .space, .other, .doubleQuote]

/-- A number for each class of interest. -/
def wbCode : WB → Nat
  | .letter => 1
  | .numeric => 2
  | .extendNumLet => 3
  | .midNumLet | .singleQuote => 4
  | .midNum => 5
  | .space => 6
  | .other | .doubleQuote => 0
  | _ => 9

/-- The rules for these classes. -/
def joinB (pp p q n : Nat) : Bool :=
  bif Nat.beq p 1 then
    bif Nat.beq q 1 then true else bif Nat.beq q 2 then true else bif Nat.beq q 3 then true
    else bif Nat.beq q 4 then Nat.beq n 1 else false
  else bif Nat.beq p 2 then
    bif Nat.beq q 1 then true else bif Nat.beq q 2 then true else bif Nat.beq q 3 then true
    else bif Nat.beq q 4 then Nat.beq n 2 else bif Nat.beq q 5 then Nat.beq n 2 else false
  else bif Nat.beq p 3 then
    bif Nat.beq q 1 then true else bif Nat.beq q 2 then true else Nat.beq q 3
  else bif Nat.beq p 4 then
    bif Nat.beq pp 1 then Nat.beq q 1 else bif Nat.beq pp 2 then Nat.beq q 2 else false
  else bif Nat.beq p 5 then
    bif Nat.beq pp 2 then Nat.beq q 2 else false
  else bif Nat.beq p 6 then Nat.beq q 6
  else false

theorem plainWBs_rules : ∀ pp ∈ plainWBs, ∀ p ∈ plainWBs, ∀ q ∈ plainWBs, ∀ n ∈ plainWBs,
    (p == .space && q == .space || ruleJoins pp p q n) =
      joinB (wbCode pp) (wbCode p) (wbCode q) (wbCode n) := by decide +kernel

theorem plainWBs_spec : ∀ c ∈ plainWBs, c.attached = false ∧ c.lineBreak = false ∧
    (c == .cr) = false ∧ (c == .zwj) = false ∧ (c == .regional) = false := by decide +kernel

theorem filter_plain {l : List (WB × Bool)} (h : ∀ c ∈ l, c.1 ∈ plainWBs) :
    (l.map (·.1)).filter (fun c => !c.attached) = l.map (·.1) := by
  rw [List.filter_eq_self]
  intro c hc
  obtain ⟨x, hx, rfl⟩ := List.mem_map.mp hc
  rw [(plainWBs_spec _ (h x hx)).1]
  rfl

theorem headD_plain {l : List (WB × Bool)} (h : ∀ c ∈ l, c.1 ∈ plainWBs) :
    (l.map (·.1)).headD .other ∈ plainWBs := by
  cases l with
  | nil => decide
  | cons c l => exact h c (by simp)

theorem joins_plain {l r : WB × Bool} {before after : List (WB × Bool)}
    (hb : ∀ c ∈ l :: before, c.1 ∈ plainWBs) (ha : ∀ c ∈ r :: after, c.1 ∈ plainWBs) :
    joins (l :: before) (r :: after) =
      joinB (wbCode ((before.map (·.1)).headD .other)) (wbCode l.1) (wbCode r.1)
        (wbCode ((after.map (·.1)).headD .other)) := by
  have hl := plainWBs_spec _ (hb l (by simp))
  have hr := plainWBs_spec _ (ha r (by simp))
  have hb' : ∀ c ∈ before, c.1 ∈ plainWBs := fun c hc => hb c (by simp [hc])
  have ha' : ∀ c ∈ after, c.1 ∈ plainWBs := fun c hc => ha c (by simp [hc])
  rw [← plainWBs_rules _ (headD_plain hb') _ (hb l (by simp)) _ (ha r (by simp)) _ (headD_plain ha')]
  rw [joins]
  simp only [hl, hr, filter_plain hb, filter_plain ha', Bool.false_and, Bool.false_eq_true, ↓reduceIte,
    Bool.or_self, Bool.or_false]
  simp only [List.map_cons, List.tail_cons, List.headD_cons]
  by_cases h : (l.1 == WB.space && r.1 == WB.space) = true
  · rw [if_pos h, h]; rfl
  · rw [if_neg h, Bool.not_eq_true _ |>.mp h]; rfl

/-- The class of a rune, as a number; 9 for the ones that do not occur. -/
def codeB (r : Nat) : Nat :=
  bif Nat.ble 0x61 r then
    bif Nat.ble r 0x7A then 1
    else bif Nat.ble 0xC0 r then bif Nat.ble r 0x17F then
      bif Nat.beq r 0xD7 then 0 else bif Nat.beq r 0xF7 then 0 else 1 else 9
    else bif Nat.ble r 0x7E then 0 else 9
  else bif Nat.beq r 0x20 then 6
  else bif Nat.ble 0x41 r then bif Nat.ble r 0x5A then 1 else bif Nat.beq r 0x5F then 3 else 0
  else bif Nat.ble 0x30 r then
    bif Nat.ble r 0x39 then 2 else bif Nat.beq r 0x3A then 9 else bif Nat.beq r 0x3B then 5 else 0
  else bif Nat.beq r 0x2E then 4
  else bif Nat.beq r 0x2C then 5
  else bif Nat.beq r 0x27 then 4
  else bif Nat.ble 0x21 r then 0
  else 9

theorem codeB_latin : ∀ r < 0x180, codeB r ≠ 9 →
    r ≠ 0x3A ∧ (latinWB r).1 ∈ plainWBs ∧ wbCode (latinWB r).1 = codeB r := by
  decide +kernel

theorem codeB_lt {r : Nat} (h : codeB r ≠ 9) : r < 0x180 := by
  by_cases hlt : r < 0x180
  · exact hlt
  · refine absurd ?_ h
    have h1 : Nat.ble 0x61 r = true := Nat.ble_eq.mpr (by omega)
    have h2 : Nat.ble r 0x7A = false := by rw [Bool.eq_false_iff, ne_eq, Nat.ble_eq]; omega
    have h3 : Nat.ble 0xC0 r = true := Nat.ble_eq.mpr (by omega)
    have h4 : Nat.ble r 0x17F = false := by rw [Bool.eq_false_iff, ne_eq, Nat.ble_eq]; omega
    simp only [codeB, h1, h2, h3, h4, cond_true, cond_false]

/-- Cut into words: the classes of the first two runes, and the words. -/
noncomputable def wordsB (l : List Nat) : Nat → Nat × Nat × List (List Nat) :=
  List.rec (motive := fun _ => Nat → Nat × Nat × List (List Nat)) (fun _ => (0, 0, []))
    (fun a _ ih p0 =>
      Prod.rec (fun c1 x => Prod.rec (fun c2 gs => (codeB a, c1,
        List.rec [[a]] (fun g gs _ => bif joinB p0 (codeB a) c1 c2 then (a :: g) :: gs
          else [a] :: g :: gs) gs)) x) (ih (codeB a))) l

theorem wordsB_eq {cls : WordTable} (hR : cls.Right) {l : List Nat} (h : ∀ r ∈ l, codeB r ≠ 9)
    {before : List (WB × Bool)} (hb : ∀ c ∈ before, c.1 ∈ plainWBs) :
    wordsB l (wbCode ((before.map (·.1)).headD .other)) =
      (wbCode ((l.map fun r => (cls r).1).headD .other),
        wbCode ((l.tail.map fun r => (cls r).1).headD .other), cutWords cls before l) := by
  induction l generalizing before with
  | nil => rfl
  | cons a rest ih =>
    have hcls : ∀ r ∈ a :: rest, (cls r).1 ∈ plainWBs ∧ wbCode (cls r).1 = codeB r := by
      intro r hr
      have hlt := codeB_lt (h r hr)
      obtain ⟨h1, h2, h3⟩ := codeB_latin r hlt (h r hr)
      rw [hR.latin r hlt h1]
      exact ⟨h2, h3⟩
    have ha := hcls a (by simp)
    have e : wordsB (a :: rest) (wbCode ((before.map (·.1)).headD .other)) =
      Prod.rec (motive := fun _ => Nat × Nat × List (List Nat)) (fun c1 x => Prod.rec (fun c2 gs => (codeB a, c1,
        List.rec [[a]] (fun g gs _ => bif joinB (wbCode ((before.map (·.1)).headD .other)) (codeB a) c1 c2
          then (a :: g) :: gs else [a] :: g :: gs) gs)) x) (wordsB rest (codeB a)) := rfl
    have hb' : ∀ c ∈ cls a :: before, c.1 ∈ plainWBs := by
      intro c hc
      rcases List.mem_cons.mp hc with rfl | hc
      · exact ha.1
      · exact hb c hc
    have ih := ih (fun r hr => h r (by simp [hr])) hb'
    rw [List.map_cons, List.headD_cons, ha.2] at ih
    rw [e, ih]
    simp only [List.map_cons, List.headD_cons, List.tail_cons, ha.2]
    congr 2
    rw [cutWords]
    cases hc : cutWords cls (cls a :: before) rest with
    | nil => rfl
    | cons g gs =>
      cases rest with
      | nil => cases hc
      | cons b rest =>
        have hj := joins_plain (l := cls a) (r := cls b) (before := before) (after := rest.map cls) hb' (by
          intro c hc
          rw [← List.map_cons] at hc
          obtain ⟨r, hr, rfl⟩ := List.mem_map.mp hc
          exact (hcls r (List.mem_cons_of_mem _ hr)).1)
        simp only [List.map_map, Function.comp_def, ha.2] at hj
        simp only [List.map_cons, List.headD_cons, List.tail_cons, hj]
        cases joinB (wbCode ((before.map (·.1)).headD .other)) (codeB a) (wbCode (cls b).1)
          (wbCode ((rest.map fun r => (cls r).1).headD .other)) <;> rfl

/-- Do all the runes have a known class? -/
noncomputable def knownB (l : List Nat) : Bool :=
  List.rec true (fun r _ ih => bif Nat.beq (codeB r) 9 then false else ih) l

theorem knownB_spec {l : List Nat} (h : knownB l = true) : ∀ r ∈ l, codeB r ≠ 9 := by
  induction l with
  | nil => simp
  | cons r rs ih =>
    have e : knownB (r :: rs) = bif Nat.beq (codeB r) 9 then false else knownB rs := rfl
    rw [e] at h
    cases hb : Nat.beq (codeB r) 9
    · rw [hb] at h
      intro x hx
      rcases List.mem_cons.mp hx with rfl | hx
      · intro h9
        rw [h9] at hb
        cases hb
      · exact ih h x hx
    · rw [hb] at h; cases h

/-- The words of a text of known runes. -/
theorem cutWords_known {cls : WordTable} (hR : cls.Right) {l : List Nat} (h : knownB l = true) :
    cutWords cls [] l = (wordsB l 0).2.2 := by
  have := wordsB_eq hR (knownB_spec h) (before := []) (by simp)
  rw [show wbCode ((([] : List (WB × Bool)).map (·.1)).headD .other) = 0 from rfl] at this
  rw [this]

end Jargon
