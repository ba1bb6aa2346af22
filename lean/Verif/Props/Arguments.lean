import Verif.Props.Flag
import Mathlib.Data.List.Induction

/-! C102: what the arguments of the program mean. -/

namespace Jargon

/-! ### What they should mean -/

/-- A name of a flag: not empty, without an equals sign, and not beginning with a dash. -/
def FlagName (name : Bytes) : Prop := name ≠ [] ∧ name.head? ≠ some 0x2D ∧ 0x3D ∉ name

/-- How an argument spells a flag: one dash or two, the name, and, after an equals sign, a value or none. -/
inductive Spells : Bytes → Bytes → Option Bytes → Prop where
  | name {dash name : Bytes} : dash = [0x2D] ∨ dash = [0x2D, 0x2D] → FlagName name → Spells (dash ++ name) name none
  | value {dash name : Bytes} (v : Bytes) : dash = [0x2D] ∨ dash = [0x2D, 0x2D] → FlagName name →
      Spells (dash ++ name ++ 0x3D :: v) name (some v)

/-- The flags that are on or off. -/
def switchNames : List Bytes :=
  ["stack", "contractions", "ascii", "stem", "html", "lemmas", "count", "lines", "distinct", "version"].map str

/-- The flags that have a value. -/
def valueNames : List Bytes := ["lang", "file", "out"].map str

/-- The words for on and off. -/
def BoolWord (v : Bytes) (b : Bool) : Prop :=
  v ∈ (if b then ["1", "t", "T", "true", "TRUE", "True"] else ["0", "f", "F", "false", "FALSE", "False"]).map str

/-- The arguments are read from the left, up to one that is no flag. -/
inductive Reads : List Bytes → Except FlagErr (List (Bytes × FlagValue)) → Prop where
  | none : Reads [] (.ok [])
  /-- a word, or a single dash -/
  | word {arg : Bytes} (rest : List Bytes) : arg.head? ≠ some 0x2D ∨ arg = [0x2D] → Reads (arg :: rest) (.ok [])
  | dashes (rest : List Bytes) : Reads ([0x2D, 0x2D] :: rest) (.ok [])
  | malformed {arg : Bytes} (rest : List Bytes) : arg.head? = some 0x2D → arg ≠ [0x2D] → arg ≠ [0x2D, 0x2D] →
      (∀ name v, ¬ Spells arg name v) → Reads (arg :: rest) (.error .badSyntax)
  | help {arg name : Bytes} {v : Option Bytes} (rest : List Bytes) : Spells arg name v →
      name = str "help" ∨ name = str "h" → Reads (arg :: rest) (.error .help)
  | unknown {arg name : Bytes} {v : Option Bytes} (rest : List Bytes) : Spells arg name v → name ∉ switchNames →
      name ∉ valueNames → name ≠ str "help" → name ≠ str "h" → Reads (arg :: rest) (.error .notDefined)
  | switch {arg name : Bytes} {rest : List Bytes} {r : Except FlagErr (List (Bytes × FlagValue))} :
      Spells arg name none → name ∈ switchNames → Reads rest r →
      Reads (arg :: rest) (r.map ((name, .bool true) :: ·))
  | switchTo {arg name v : Bytes} {b : Bool} {rest : List Bytes} {r : Except FlagErr (List (Bytes × FlagValue))} :
      Spells arg name (some v) → name ∈ switchNames → BoolWord v b → Reads rest r →
      Reads (arg :: rest) (r.map ((name, .bool b) :: ·))
  | badBool {arg name v : Bytes} (rest : List Bytes) : Spells arg name (some v) → name ∈ switchNames →
      (∀ b, ¬ BoolWord v b) → Reads (arg :: rest) (.error .badBool)
  | value {arg name v : Bytes} {rest : List Bytes} {r : Except FlagErr (List (Bytes × FlagValue))} :
      Spells arg name (some v) → name ∈ valueNames → Reads rest r →
      Reads (arg :: rest) (r.map ((name, .string v) :: ·))
  /-- The value may be the next argument, whatever that is. -/
  | valueNext {arg name : Bytes} (v : Bytes) {rest : List Bytes} {r : Except FlagErr (List (Bytes × FlagValue))} :
      Spells arg name none → name ∈ valueNames → Reads rest r →
      Reads (arg :: v :: rest) (r.map ((name, .string v) :: ·))
  | noValue {arg name : Bytes} : Spells arg name none → name ∈ valueNames → Reads [arg] (.error .needsArgument)

/-- The last setting of a switch, which is off otherwise. -/
def lastSwitch (settings : List (Bytes × FlagValue)) (name : String) : Bool :=
  ((settings.filterMap fun s => match s with
    | (n, .bool b) => if n = str name then some b else none
    | _ => none).getLast?).getD false

/-- The last setting of a value. -/
def lastValue (settings : List (Bytes × FlagValue)) (name : String) (default : Bytes) : Bytes :=
  ((settings.filterMap fun s => match s with
    | (n, .string v) => if n = str name then some v else none
    | _ => none).getLast?).getD default

/-- The values that count: of each flag the last setting. -/
def valuesOf (settings : List (Bytes × FlagValue)) : Flags where
  lang := lastValue settings "lang" (str "english")
  html := lastSwitch settings "html"
  filein := lastValue settings "file" []
  fileout := lastValue settings "out" []
  count := lastSwitch settings "count"
  lines := lastSwitch settings "lines"
  version := lastSwitch settings "version"

/-- The program does not get as far as to open an output, but ends so. -/
inductive Refused {ω : Type} (W : World ω) (args : List Bytes) : Except FlagErr Exit → Prop where
  | arguments {e : FlagErr} : Reads args (.error e) → Refused W args (.error e)
  | version {settings : List (Bytes × FlagValue)} : Reads args (.ok settings) → lastSwitch settings "version" = true →
      Refused W args (.ok .version)
  | stdin {settings : List (Bytes × FlagValue)} {e : Err} : Reads args (.ok settings) →
      lastSwitch settings "version" = false → W.mode = .error e → Refused W args (.ok (.failure (.other e)))
  | usage {settings : List (Bytes × FlagValue)} {mode : Nat} : Reads args (.ok settings) →
      lastSwitch settings "version" = false → W.mode = .ok mode →
      inputChoice (isTerminal mode) (named W.fs.openFile (lastValue settings "file" [])) = .error .noInput →
      Refused W args (.ok .usage)
  | input {settings : List (Bytes × FlagValue)} {mode : Nat} {e : CliErr} : Reads args (.ok settings) →
      lastSwitch settings "version" = false → W.mode = .ok mode →
      inputChoice (isTerminal mode) (named W.fs.openFile (lastValue settings "file" [])) = .error e → e ≠ .noInput →
      Refused W args (.ok (.failure e))
  | language {settings : List (Bytes × FlagValue)} {mode : Nat} {src : Place} : Reads args (.ok settings) →
      lastSwitch settings "version" = false → W.mode = .ok mode →
      inputChoice (isTerminal mode) (named W.fs.openFile (lastValue settings "file" [])) = .ok src →
      langOf (lastValue settings "lang" (str "english")) = none → str "-stem" ∈ args →
      Refused W args (.ok (.failure (.unknownLang (lastValue settings "lang" (str "english")))))

/-- The program gets as far as to open an output: with these settings and this input. -/
def Accepted {ω : Type} (W : World ω) (args : List Bytes) (settings : List (Bytes × FlagValue)) (src : Place) : Prop :=
  Reads args (.ok settings) ∧ lastSwitch settings "version" = false ∧
  (∃ mode, W.mode = .ok mode ∧
    inputChoice (isTerminal mode) (named W.fs.openFile (lastValue settings "file" [])) = .ok src) ∧
  ((∃ l, langOf (lastValue settings "lang" (str "english")) = some l) ∨ str "-stem" ∉ args)

/-! ### Spelling -/

/-- The argument without its dashes. -/
def undashed (arg : Bytes) : Bytes := if arg.drop 1 |>.head? |> (· = some 0x2D) then arg.drop 2 else arg.drop 1

theorem splitEquals_none {c : UInt8} {cs : Bytes} (h : 0x3D ∉ cs) : splitEquals (c :: cs) = (c :: cs, none) := by
  have : cs.findIdx? (· == 0x3D) = none := by
    rw [List.findIdx?_eq_none_iff]
    intro x hx
    simp only [beq_eq_false_iff_ne, ne_eq]
    rintro rfl
    exact h hx
  simp [splitEquals, this]

theorem splitEquals_some {c : UInt8} {cs v : Bytes} (h : 0x3D ∉ cs) :
    splitEquals (c :: cs ++ 0x3D :: v) = (c :: cs, some v) := by
  have : (cs ++ 0x3D :: v).findIdx? (· == 0x3D) = some cs.length := by
    rw [List.findIdx?_append]
    have h0 : cs.findIdx? (· == 0x3D) = none := by
      rw [List.findIdx?_eq_none_iff]
      intro x hx
      simp only [beq_eq_false_iff_ne, ne_eq]
      rintro rfl
      exact h hx
    simp [h0, List.findIdx?_cons]
  simp [splitEquals, this]

/-- All ways to split. -/
theorem splitEquals_cases (c : UInt8) (cs : Bytes) :
    (0x3D ∉ cs ∧ splitEquals (c :: cs) = (c :: cs, none)) ∨
      ∃ a v, cs = a ++ 0x3D :: v ∧ 0x3D ∉ a ∧ splitEquals (c :: cs) = (c :: a, some v) := by
  by_cases h : (0x3D : UInt8) ∈ cs
  · obtain ⟨a, v, rfl, ha⟩ := List.eq_append_cons_of_mem h
    exact .inr ⟨a, v, rfl, ha, splitEquals_some ha⟩
  · exact .inl ⟨h, splitEquals_none h⟩

theorem undashed_of {dash s : Bytes} (hd : dash = [0x2D] ∨ dash = [0x2D, 0x2D]) (hs : s ≠ []) (hh : s.head? ≠ some 0x2D) :
    undashed (dash ++ s) = s ∧ 2 ≤ (dash ++ s).length ∧ (dash ++ s).head? = some 0x2D ∧ dash ++ s ≠ [0x2D, 0x2D] := by
  obtain ⟨b, s, rfl⟩ := List.exists_cons_of_ne_nil hs
  have hb : b ≠ 0x2D := by simpa using hh
  rcases hd with rfl | rfl <;> simp [undashed, hb]

/-- What a flag is, by its argument. -/
theorem spells_iff {arg name : Bytes} {v : Option Bytes} : Spells arg name v ↔
    2 ≤ arg.length ∧ arg.head? = some 0x2D ∧ arg ≠ [0x2D, 0x2D] ∧ undashed arg ≠ [] ∧
      (undashed arg).head? ≠ some 0x2D ∧ (undashed arg).head? ≠ some 0x3D ∧ splitEquals (undashed arg) = (name, v) := by
  constructor
  · rintro (⟨hd, hn⟩ | ⟨v, hd, hn⟩)
    · obtain ⟨h1, h2, h3, h4⟩ := undashed_of hd hn.1 hn.2.1
      obtain ⟨c, cs, rfl⟩ := List.exists_cons_of_ne_nil hn.1
      have h5 := hn.2.2
      rw [List.mem_cons, not_or] at h5
      refine ⟨h2, h3, h4, by rw [h1]; simp, by rw [h1]; exact hn.2.1, ?_, by rw [h1]; exact splitEquals_none h5.2⟩
      rw [h1]
      simpa using Ne.symm h5.1
    · obtain ⟨c, cs, rfl⟩ := List.exists_cons_of_ne_nil hn.1
      obtain ⟨h1, h2, h3, h4⟩ := undashed_of hd (s := c :: cs ++ 0x3D :: v) (by simp) (by simpa using hn.2.1)
      have h5 := hn.2.2
      rw [List.mem_cons, not_or] at h5
      rw [List.append_assoc]
      refine ⟨h2, h3, h4, by rw [h1]; simp, by rw [h1]; simpa using hn.2.1, ?_, by rw [h1]; exact splitEquals_some h5.2⟩
      rw [h1]
      simpa using Ne.symm h5.1
  · rintro ⟨h1, h2, h3, h4, h5, h6, h7⟩
    have hd : ∃ dash, (dash = [0x2D] ∨ dash = [0x2D, 0x2D]) ∧ arg = dash ++ undashed arg := by
      match arg, h1, h2 with
      | a :: b :: s, _, h2 =>
        have ha : a = 0x2D := by simpa using h2
        subst ha
        by_cases hb : b = 0x2D
        · subst hb
          exact ⟨[0x2D, 0x2D], .inr rfl, by simp [undashed]⟩
        · exact ⟨[0x2D], .inl rfl, by simp [undashed, hb]⟩
    obtain ⟨dash, hd, he⟩ := hd
    obtain ⟨c, cs, hu⟩ := List.exists_cons_of_ne_nil h4
    rw [hu] at h5 h6 h7 he
    have hc1 : c ≠ 0x2D := by simpa using h5
    have hc2 : c ≠ 0x3D := by simpa using h6
    rcases splitEquals_cases c cs with ⟨k1, k2⟩ | ⟨a, w, rfl, k1, k2⟩
    · rw [k2] at h7
      obtain ⟨rfl, rfl⟩ := Prod.mk.inj h7
      rw [he]
      exact .name hd ⟨by simp, by simpa using hc1, by simp [k1, Ne.symm hc2]⟩
    · rw [k2] at h7
      obtain ⟨rfl, rfl⟩ := Prod.mk.inj h7
      rw [he, show dash ++ c :: (a ++ 0x3D :: w) = dash ++ c :: a ++ 0x3D :: w by simp]
      exact .value w hd ⟨by simp, by simpa using hc1, by simp [k1, Ne.symm hc2]⟩

theorem Spells.unique {arg n n' : Bytes} {v v' : Option Bytes} (h : Spells arg n v) (h' : Spells arg n' v') :
    n = n' ∧ v = v' := by
  have h1 := (spells_iff.1 h).2.2.2.2.2.2
  rw [(spells_iff.1 h').2.2.2.2.2.2] at h1
  exact ⟨(Prod.mk.inj h1).1.symm, (Prod.mk.inj h1).2.symm⟩

theorem lookup_declared (name : Bytes) : declaredFlags.lookup name =
    if name ∈ switchNames then some .bool else if name ∈ valueNames then some .string else none := by
  by_cases h1 : name ∈ switchNames
  · rw [if_pos h1]
    have : ∀ n ∈ switchNames, declaredFlags.lookup n = some .bool := by decide +kernel
    exact this name h1
  · rw [if_neg h1]
    by_cases h2 : name ∈ valueNames
    · rw [if_pos h2]
      have : ∀ n ∈ valueNames, declaredFlags.lookup n = some .string := by decide +kernel
      exact this name h2
    · rw [if_neg h2, List.lookup_eq_none_iff]
      intro p hp
      have : ∀ p ∈ declaredFlags, p.1 ∈ switchNames ∨ p.1 ∈ valueNames := by decide +kernel
      simp only [bne_iff_ne, ne_eq]
      rintro rfl
      rcases this p hp with h | h
      · exact h1 h
      · exact h2 h

theorem parseBool_iff {v : Bytes} {b : Bool} : parseBool v = some b ↔ BoolWord v b := by
  have hdis : ∀ v ∈ ["0", "f", "F", "false", "FALSE", "False"].map str,
      v ∉ ["1", "t", "T", "true", "TRUE", "True"].map str := by decide +kernel
  unfold parseBool BoolWord
  cases b
  · simp only [Bool.false_eq_true, ↓reduceIte]
    constructor
    · intro h
      split at h
      · cases h
      · split at h
        · assumption
        · cases h
    · intro h
      rw [if_neg (hdis v h), if_pos h]
  · simp only [↓reduceIte]
    constructor
    · intro h
      split at h
      · assumption
      · split at h <;> cases h
    · intro h
      rw [if_pos h]

/-- The first argument spells a flag. -/
theorem parseFlags_spelled {arg name : Bytes} {v : Option Bytes} (rest : List Bytes) (h : Spells arg name v) :
    parseFlags (arg :: rest) =
      if name ∈ switchNames then
        match (generalizing := false) v with
        | none => (parseFlags rest).map ((name, .bool true) :: ·)
        | some v =>
          match (generalizing := false) parseBool v with
          | none => .error .badBool
          | some b => (parseFlags rest).map ((name, .bool b) :: ·)
      else if name ∈ valueNames then
        match (generalizing := false) v with
        | some v => (parseFlags rest).map ((name, .string v) :: ·)
        | none =>
          match (generalizing := false) rest with
          | [] => .error .needsArgument
          | v :: rest => (parseFlags rest).map ((name, .string v) :: ·)
      else if name = str "help" ∨ name = str "h" then .error .help else .error .notDefined := by
  obtain ⟨h1, h2, h3, h4, h5, h6, h7⟩ := spells_iff.1 h
  rw [parseFlags, if_neg (by simp [h2]; omega), if_neg (by rwa [show str "--" = [0x2D, 0x2D] by decide +kernel])]
  have hu : (if arg.drop 1 |>.head? |> (· = some 0x2D) then arg.drop 2 else arg.drop 1) = undashed arg := rfl
  rw [hu, if_neg (by simp [h4, h5, h6]), h7]
  simp only [lookup_declared]
  by_cases k1 : name ∈ switchNames
  · simp only [k1, ↓reduceIte]
    cases v <;> rfl
  · simp only [k1, ↓reduceIte]
    by_cases k2 : name ∈ valueNames
    · simp only [k2, ↓reduceIte]
      cases v <;> cases rest <;> rfl
    · simp only [k2, ↓reduceIte]

theorem help_undeclared : (str "help" ∉ switchNames ∧ str "help" ∉ valueNames) ∧ (str "h" ∉ switchNames ∧ str "h" ∉ valueNames) := by
  decide +kernel

theorem names_apart : ∀ n ∈ valueNames, n ∉ switchNames := by decide +kernel

/-- **C102.** The arguments are read as they should be: every list of arguments has exactly one reading, which is what
the program makes of it. -/
theorem C102_reads {args : List Bytes} {r : Except FlagErr (List (Bytes × FlagValue))} :
    Reads args r ↔ parseFlags args = r := by
  constructor
  · intro h
    induction h with
    | none => rw [parseFlags]
    | @word arg rest h =>
      rw [parseFlags, if_pos]
      rcases h with h | rfl
      · exact .inr h
      · exact .inl (by decide)
    | dashes rest => rw [parseFlags, if_neg (by decide), if_pos (by decide +kernel)]
    | @malformed arg rest h1 h2 h3 h4 =>
      have hlen : 2 ≤ arg.length := by
        match arg, h1, h2 with
        | [a], h1, h2 => exact absurd (by simpa using h1) (by simpa using h2)
        | a :: b :: s, _, _ => simp
      rw [parseFlags, if_neg (by simp [h1]; omega), if_neg (by rwa [show str "--" = [0x2D, 0x2D] by decide +kernel])]
      have hu : (if arg.drop 1 |>.head? |> (· = some 0x2D) then arg.drop 2 else arg.drop 1) = undashed arg := rfl
      rw [hu, if_pos]
      refine Classical.not_not.1 fun hc => ?_
      simp only [not_or] at hc
      exact h4 _ _ (spells_iff.2 ⟨hlen, h1, h3, hc.1, hc.2.1, hc.2.2, rfl⟩)
    | @help arg name v rest h h' =>
      rw [parseFlags_spelled rest h]
      rcases h' with rfl | rfl
      · simp [help_undeclared.1]
      · simp [help_undeclared.2]
    | unknown rest h k1 k2 k3 k4 => rw [parseFlags_spelled rest h]; simp [k1, k2, k3, k4]
    | switch h k1 _ ih => rw [parseFlags_spelled _ h, if_pos k1, ih]
    | switchTo h k1 k2 _ ih => rw [parseFlags_spelled _ h, if_pos k1]; simp only [parseBool_iff.2 k2, ih]
    | @badBool arg name v rest h k1 k2 =>
      rw [parseFlags_spelled _ h, if_pos k1]
      dsimp only
      cases hb : parseBool v with
      | none => rfl
      | some b => exact absurd (parseBool_iff.1 hb) (k2 b)
    | value h k1 _ ih => rw [parseFlags_spelled _ h, if_neg (names_apart _ k1), if_pos k1]; simp only [ih]
    | valueNext v h k1 _ ih => rw [parseFlags_spelled _ h, if_neg (names_apart _ k1), if_pos k1]; simp only [ih]
    | noValue h k1 => rw [parseFlags_spelled _ h, if_neg (names_apart _ k1), if_pos k1]
  · intro h
    subst h
    have key : ∀ n, ∀ args : List Bytes, args.length ≤ n → Reads args (parseFlags args) := by
      intro n
      induction n with
      | zero =>
        intro args ha
        rw [List.eq_nil_of_length_eq_zero (Nat.le_zero.1 ha), parseFlags]
        exact .none
      | succ n ih =>
        intro args ha
        cases args with
        | nil => rw [parseFlags]; exact .none
        | cons arg rest =>
          have hrest := ih rest (by simpa using ha)
          by_cases h1 : arg.head? ≠ some 0x2D ∨ arg = [0x2D]
          · have : parseFlags (arg :: rest) = .ok [] := by
              rw [parseFlags, if_pos]
              rcases h1 with h1 | rfl
              · exact .inr h1
              · exact .inl (by decide)
            rw [this]
            exact .word rest h1
          · simp only [not_or, ne_eq, Classical.not_not] at h1
            by_cases h2 : arg = [0x2D, 0x2D]
            · subst h2
              rw [parseFlags, if_neg (by decide), if_pos (by decide +kernel)]
              exact .dashes rest
            by_cases h3 : ∃ name v, Spells arg name v
            · obtain ⟨name, v, h3⟩ := h3
              rw [parseFlags_spelled rest h3]
              by_cases k1 : name ∈ switchNames
              · rw [if_pos k1]
                cases v with
                | none => exact .switch h3 k1 hrest
                | some v =>
                  dsimp only
                  cases hb : parseBool v with
                  | none => exact .badBool rest h3 k1 fun b hw => by rw [parseBool_iff.2 hw] at hb; cases hb
                  | some b => exact .switchTo h3 k1 (parseBool_iff.1 hb) hrest
              · rw [if_neg k1]
                by_cases k2 : name ∈ valueNames
                · rw [if_pos k2]
                  cases v with
                  | some v => exact .value h3 k2 hrest
                  | none =>
                    cases rest with
                    | nil => exact .noValue h3 k2
                    | cons v rest => exact .valueNext v h3 k2 (ih rest (by simp at ha; omega))
                · rw [if_neg k2]
                  by_cases k3 : name = str "help" ∨ name = str "h"
                  · rw [if_pos k3]
                    exact .help rest h3 k3
                  · rw [if_neg k3]
                    rw [not_or] at k3
                    exact .unknown rest h3 k1 k2 k3.1 k3.2
            · have hm : Reads (arg :: rest) (.error .badSyntax) :=
                .malformed rest h1.1 h1.2 h2 fun name v hs => h3 ⟨name, v, hs⟩
              have hlen : 2 ≤ arg.length := by
                match arg, h1 with
                | [a], h1 => exact absurd (by simpa using h1.1) (by simpa using h1.2)
                | a :: b :: s, _ => simp
              rw [parseFlags, if_neg (by simp [h1.1]; omega), if_neg (by rwa [show str "--" = [0x2D, 0x2D] by decide +kernel])]
              have hu : (if arg.drop 1 |>.head? |> (· = some 0x2D) then arg.drop 2 else arg.drop 1) = undashed arg := rfl
              rw [hu, if_pos]
              · exact hm
              · refine Classical.not_not.1 fun hc => ?_
                simp only [not_or] at hc
                exact h3 ⟨_, _, spells_iff.2 ⟨hlen, h1.1, h2, hc.1, hc.2.1, hc.2.2, rfl⟩⟩
    exact key args.length args le_rfl

/-- **C102.** Of several settings of a flag, the last one counts. -/
theorem C102_values (settings : List (Bytes × FlagValue)) : flagValues settings = valuesOf settings := by
  induction settings using List.reverseRecOn with
  | nil => rfl
  | append_singleton l s ih =>
    rw [flagValues, List.foldl_append, List.foldl_cons, List.foldl_nil, show l.foldl setFlag {} = valuesOf l from ih]
    obtain ⟨n, v⟩ := s
    have d : (["html", "count", "lines", "version", "lang", "file", "out"].map str).Pairwise (· ≠ ·) := by decide +kernel
    simp only [List.map_cons, List.map_nil, List.pairwise_cons, List.mem_cons, forall_eq_or_imp, List.not_mem_nil,
      ne_eq, IsEmpty.forall_iff, implies_true, and_true] at d
    cases v with
    | bool b =>
      simp only [setFlag, valuesOf, lastSwitch, lastValue, List.filterMap_append, List.filterMap_cons, List.filterMap_nil,
        List.append_nil]
      by_cases h1 : n = str "html"
      · subst h1; simp [d]
      by_cases h2 : n = str "count"
      · subst h2; simp [d, Ne.symm d.1.1]
      by_cases h3 : n = str "lines"
      · subst h3; simp [d, Ne.symm d.1.2.1, Ne.symm d.2.1.1]
      by_cases h4 : n = str "version"
      · subst h4; simp [Ne.symm d.1.2.2.1, Ne.symm d.2.1.2.1, Ne.symm d.2.2.1.1]
      simp [h1, h2, h3, h4]
    | string s =>
      simp only [setFlag, valuesOf, lastSwitch, lastValue, List.filterMap_append, List.filterMap_cons, List.filterMap_nil,
        List.append_nil]
      by_cases h1 : n = str "lang"
      · subst h1; simp [d]
      by_cases h2 : n = str "file"
      · subst h2; simp [d, Ne.symm d.2.2.2.2.1.1]
      by_cases h3 : n = str "out"
      · subst h3; simp [Ne.symm d.2.2.2.2.1.2, Ne.symm d.2.2.2.2.2.1]
      simp [h1, h2, h3]

theorem stem_mem {args : List Bytes} : FilterFlag.stem ∈ args.filterMap flagOf ↔ str "-stem" ∈ args := by
  have h1 : ∀ arg, flagOf arg = some .stem ↔ arg = str "-stem" := by
    intro arg
    constructor
    · intro h
      have h2 := List.find?_some h
      rw [decide_eq_true_eq] at h2
      rw [← h2]
      decide +kernel
    · rintro rfl
      decide +kernel
  simp only [List.mem_filterMap, h1, exists_eq_right]

/-- The output cannot be opened. -/
def withCreate {ω : Type} (W : World ω) (create : Bytes → Except Err FileId) : World ω :=
  { W with fs := { W.fs with create } }

/-- **C102.** Every list of arguments is refused or accepted. -/
theorem C102_decided {ω : Type} (W : World ω) (args : List Bytes) :
    (∃ x, Refused W args x) ∨ ∃ settings src, Accepted W args settings src := by
  cases hp : parseFlags args with
  | error e => exact .inl ⟨_, .arguments (C102_reads.2 hp)⟩
  | ok settings =>
    have hr := C102_reads.2 hp
    cases hv : lastSwitch settings "version" with
    | true => exact .inl ⟨_, .version hr hv⟩
    | false =>
      cases hm : W.mode with
      | error e => exact .inl ⟨_, .stdin hr hv hm⟩
      | ok mode =>
        cases hi : inputChoice (isTerminal mode) (named W.fs.openFile (lastValue settings "file" [])) with
        | error e =>
          by_cases he : e = .noInput
          · subst he
            exact .inl ⟨_, .usage hr hv hm hi⟩
          · exact .inl ⟨_, .input hr hv hm hi he⟩
        | ok src =>
          cases hl : langOf (lastValue settings "lang" (str "english")) with
          | some l => exact .inr ⟨settings, src, hr, hv, ⟨mode, hm, hi⟩, .inl ⟨l, hl⟩⟩
          | none =>
            by_cases hs : str "-stem" ∈ args
            · exact .inl ⟨_, .language hr hv hm hi hl hs⟩
            · exact .inr ⟨settings, src, hr, hv, ⟨mode, hm, hi⟩, .inr hs⟩

theorem refused_main {ω : Type} {W : World ω} {args : List Bytes} {x : Except FlagErr Exit} (h : Refused W args x) :
    jargonMain W args = Go.ret (x.map fun e => (e, none)) := by
  have main : ∀ {settings}, Reads args (.ok settings) → jargonMain W args =
      (do let r ← cliMain W (valuesOf settings) args; pure (.ok r)) := by
    intro settings hr
    rw [jargonMain, C102_reads.1 hr]
    simp only [C102_values]
  cases h with
  | arguments h => rw [jargonMain, C102_reads.1 h]; rfl
  | version hr hv => rw [main hr, cliMain, if_pos (show (valuesOf _).version = true from hv)]; rfl
  | stdin hr hv hm =>
    rw [main hr, cliMain, if_neg (by simp [valuesOf, hv])]
    simp only [hm]; rfl
  | @usage settings mode hr hv hm hi =>
    rw [main hr, cliMain, if_neg (by simp [valuesOf, hv])]
    have h47 := C47_input W.fs { html := (valuesOf settings).html, count := (valuesOf settings).count, lines := (valuesOf settings).lines : Config ω } rfl mode (valuesOf settings).filein
    rw [show named W.fs.openFile (valuesOf settings).filein = named W.fs.openFile (lastValue settings "file" []) from rfl, hi] at h47
    simp only [hm]
    generalize hq : setInput W.fs _ mode _ = q at h47 ⊢
    obtain ⟨q1, q2⟩ := q
    simp only at h47
    subst h47
    rfl
  | @input settings mode e hr hv hm hi he =>
    rw [main hr, cliMain, if_neg (by simp [valuesOf, hv])]
    have h47 := C47_input W.fs { html := (valuesOf settings).html, count := (valuesOf settings).count, lines := (valuesOf settings).lines : Config ω } rfl mode (valuesOf settings).filein
    rw [show named W.fs.openFile (valuesOf settings).filein = named W.fs.openFile (lastValue settings "file" []) from rfl, hi] at h47
    simp only [hm]
    generalize hq : setInput W.fs _ mode _ = q at h47 ⊢
    obtain ⟨q1, q2⟩ := q
    simp only at h47
    subst h47
    cases e with
    | noInput => exact absurd rfl he
    | _ => rfl
  | @language settings mode src hr hv hm hi hl hs =>
    rw [main hr, cliMain, if_neg (by simp [valuesOf, hv])]
    have h47 := C47_input W.fs { html := (valuesOf settings).html, count := (valuesOf settings).count, lines := (valuesOf settings).lines : Config ω } rfl mode (valuesOf settings).filein
    rw [show named W.fs.openFile (valuesOf settings).filein = named W.fs.openFile (lastValue settings "file" []) from rfl, hi] at h47
    have h48 : ∀ c : Config ω, ∃ c', setFilters W.E W.snowball c args (valuesOf settings).lang =
        (some (.unknownLang (lastValue settings "lang" (str "english"))), c') := fun c =>
      ⟨_, Prod.ext ((C48_filters W.E W.snowball c args _).2.1 hl (stem_mem.2 hs)) rfl⟩
    simp only [hm]
    cases src with
    | std =>
      simp only at h47
      rw [h47]
      simp only
      rw [(h48 _).choose_spec]
      rfl
    | file i =>
      simp only at h47
      rw [h47]
      simp only
      rw [(h48 _).choose_spec]
      rfl

/-- **C102.** Arguments that are refused are refused before any output is opened: the program ends so whatever opening
an output would do, and has no writer. -/
theorem C102_refused {ω : Type} {W : World ω} {args : List Bytes} {x : Except FlagErr Exit} (h : Refused W args x)
    (create : Bytes → Except Err FileId) : jargonMain (withCreate W create) args = Go.ret (x.map fun e => (e, none)) := by
  refine refused_main ?_
  cases h with
  | arguments h => exact .arguments h
  | version hr hv => exact .version hr hv
  | stdin hr hv hm => exact .stdin hr hv hm
  | usage hr hv hm hi => exact .usage hr hv hm hi
  | input hr hv hm hi he => exact .input hr hv hm hi he
  | language hr hv hm hi hl hs => exact .language hr hv hm hi hl hs

/-- So the ways to be refused exclude each other. -/
theorem Refused.unique {ω : Type} {W : World ω} {args : List Bytes} {x y : Except FlagErr Exit} (h : Refused W args x)
    (h' : Refused W args y) : x = y := by
  have h1 := refused_main h
  rw [refused_main h'] at h1
  have h2 := Go.ret_inj.1 h1
  cases x <;> cases y <;> simp_all [Except.map]

/-- The part of `cliMain` that follows `setFilters`. -/
def afterFilters {ω : Type} (W : World ω) (c : Config ω) (fileout : Bytes) : Go (Exit × Option (Place × BufWriter ω)) :=
  match setOutput W.fs c fileout with
  | (some err, _, _) => Go.ret (.failure err, none)
  | (none, c, fs) =>
    match setReader fs c with
    | (some err, _) => Go.ret (.failure err, none)
    | (none, c) =>
      match setWriter W.under c with
      | (some err, _) => Go.ret (.failure err, none)
      | (none, c) => do
        let (err, w) ← execute W.E W.parse (W.source fs) W.direct W.writer c
        match err with
        | some err => pure (.failure err, w)
        | none => pure (.success, w)

/-- **C102.** Of arguments that are accepted, an output that cannot be opened is the first thing that can go wrong; if
it is opened, or none is asked for, the size of the input is the next. -/
theorem C102_accepted {ω : Type} {W : World ω} {args : List Bytes} {settings : List (Bytes × FlagValue)} {src : Place}
    (h : Accepted W args settings src) :
    (∀ e, named W.fs.create (lastValue settings "out" []) = some (.error e) →
      jargonMain W args = Go.ret (.ok (.failure (.other e), none))) ∧
    (∀ fs dst i e, outputChoice W.fs (named W.fs.create (lastValue settings "out" [])) = .ok (dst, fs) →
      src = .file i → W.fs.stat i = .error e → jargonMain W args = Go.ret (.ok (.failure (.other e), none))) := by
  obtain ⟨hr, hv, ⟨mode, hm, hi⟩, hl⟩ := h
  have main : jargonMain W args = (do let r ← cliMain W (valuesOf settings) args; pure (.ok r)) := by
    rw [jargonMain, C102_reads.1 hr]
    simp only [C102_values]
  have h47 := C47_input W.fs { html := (valuesOf settings).html, count := (valuesOf settings).count, lines := (valuesOf settings).lines : Config ω } rfl mode (valuesOf settings).filein
  rw [show named W.fs.openFile (valuesOf settings).filein = named W.fs.openFile (lastValue settings "file" []) from rfl, hi] at h47
  have h48 : ∀ c : Config ω, ∃ filters, setFilters W.E W.snowball c args (valuesOf settings).lang = (none, { c with filters }) := by
    intro c
    rcases hl with ⟨l, hl⟩ | hl
    · exact ⟨_, (C48_filters W.E W.snowball c args _).1 l hl⟩
    · rw [← stem_mem] at hl
      cases hlang : langOf (valuesOf settings).lang with
      | some l => exact ⟨_, (C48_filters W.E W.snowball c args _).1 l hlang⟩
      | none => exact ⟨_, (C48_filters W.E W.snowball c args _).2.2 hlang hl .english⟩
  -- after the filters
  have key : ∃ c : Config ω, c.fileout = none ∧ (∀ i, src = .file i → c.filein = some i) ∧
      cliMain W (valuesOf settings) args =
        afterFilters W c (valuesOf settings).fileout := by
    cases src with
    | std =>
      simp only at h47
      obtain ⟨filters, h48⟩ := h48 { html := (valuesOf settings).html, count := (valuesOf settings).count, lines := (valuesOf settings).lines, pipedin := true, filein := none }
      refine ⟨{ html := (valuesOf settings).html, count := (valuesOf settings).count, lines := (valuesOf settings).lines, filters, pipedin := true, filein := none }, ?_, ?_, ?_⟩
      rotate_left 2
      · rw [cliMain, if_neg (by simp [valuesOf, hv])]
        simp only [hm, h47, h48]
        rfl
      · rfl
      · intro i hi
        cases hi
    | file i =>
      simp only at h47
      obtain ⟨filters, h48⟩ := h48 { html := (valuesOf settings).html, count := (valuesOf settings).count, lines := (valuesOf settings).lines, pipedin := false, filein := some i }
      refine ⟨{ html := (valuesOf settings).html, count := (valuesOf settings).count, lines := (valuesOf settings).lines, filters, pipedin := false, filein := some i }, ?_, ?_, ?_⟩
      rotate_left 2
      · rw [cliMain, if_neg (by simp [valuesOf, hv])]
        simp only [hm, h47, h48]
        rfl
      · rfl
      · intro j hj
        cases hj
        rfl
  obtain ⟨c, hc1, hc2, key⟩ := key
  constructor
  · intro e he
    have : setOutput W.fs c (valuesOf settings).fileout = (some (.other e), c, W.fs) := by
      rw [show (valuesOf settings).fileout = lastValue settings "out" [] from rfl]
      generalize lastValue settings "out" [] = o at he
      by_cases ho : o = []
      · simp [named, ho] at he
      · simp only [named, ho, ↓reduceIte, Option.some.injEq] at he
        simp [setOutput, ho, he]
    rw [main, key, afterFilters, this]
    rfl
  · intro fs dst i e hout hs hstat
    have : ∃ c' fs', setOutput W.fs c (valuesOf settings).fileout = (none, c', fs') ∧ c'.filein = c.filein ∧
        fs'.stat i = .error e := by
      rw [show (valuesOf settings).fileout = lastValue settings "out" [] from rfl]
      generalize lastValue settings "out" [] = o at hout
      by_cases ho : o = []
      · exact ⟨{ c with pipedout := c.fileout.isNone }, W.fs, by simp [setOutput, ho], rfl, hstat⟩
      · simp only [named, ho, ↓reduceIte] at hout
        cases hcr : W.fs.create o with
        | error e => simp [outputChoice, hcr] at hout
        | ok j =>
          refine ⟨{ c with fileout := some j, pipedout := false }, W.fs.truncate j, by simp [setOutput, ho, hcr], rfl, ?_⟩
          simp only [Fs.truncate]
          split
          · rename_i h; subst h; rw [hstat]
          · exact hstat
    obtain ⟨c', fs', k1, k2, k3⟩ := this
    rw [main, key, afterFilters, k1]
    have : (setReader fs' c').1 = some (.other e) := by
      have hfi : c'.filein = some i := by rw [k2, hc2 i hs]
      obtain ⟨html, count, lines, filters, fin, fout, pin, pout, rd, wr⟩ := c'
      simp only at hfi
      subst hfi
      cases pin <;> cases pout <;> simp [setReader, k3]
    simp only
    generalize hq : setReader fs' c' = q at this ⊢
    obtain ⟨q1, q2⟩ := q
    simp only at this
    subst this
    rfl

/-- Non-vacuity: some readings. -/
example : Reads ([ "-stem", "--lang=french", "-count=F", "-file", "-lines", "x", "-y"].map str)
    (.ok [(str "stem", .bool true), (str "lang", .string (str "french")), (str "count", .bool false),
      (str "file", .string (str "-lines"))]) := C102_reads.2 (by decide +kernel)

example : ∀ a ∈ ["-h", "--h", "-help", "--help", "-h=1"], Reads [str "-lines", str a, str "-z"] (.error .help) := by
  have : ∀ a ∈ ["-h", "--h", "-help", "--help", "-h=1"], parseFlags [str "-lines", str a, str "-z"] = .error .help := by decide +kernel
  exact fun a ha => C102_reads.2 (this a ha)

example : (∀ a ∈ ["---x", "-=x", "---"], Reads [str a] (.error .badSyntax)) ∧ Reads [str "-x=y"] (.error .notDefined) ∧
    Reads [str "-lines=yes"] (.error .badBool) ∧ Reads [str "-out"] (.error .needsArgument) := by
  have : ∀ a ∈ ["---x", "-=x", "---"], parseFlags [str a] = .error .badSyntax := by decide +kernel
  exact ⟨fun a ha => C102_reads.2 (this a ha), C102_reads.2 (by decide +kernel), C102_reads.2 (by decide +kernel),
    C102_reads.2 (by decide +kernel)⟩

/-- Non-vacuity: the version is shown whatever else is asked for, and an unknown language is refused. -/
example {ω : Type} (W : World ω) : Refused W ([ "-version", "-file", "nowhere", "-out", "x"].map str) (.ok .version) :=
  .version (settings := [(str "version", .bool true), (str "file", .string (str "nowhere")), (str "out", .string (str "x"))])
    (C102_reads.2 (by decide +kernel)) (by decide +kernel)

example {ω : Type} (W : World ω) (hm : W.mode = .ok 0) : Refused W (["-stem", "-lang", "latin", "-out", "x"].map str)
    (.ok (.failure (.unknownLang (str "latin")))) := by
  have hr : Reads (["-stem", "-lang", "latin", "-out", "x"].map str)
      (.ok [(str "stem", .bool true), (str "lang", .string (str "latin")), (str "out", .string (str "x"))]) :=
    C102_reads.2 (by decide +kernel)
  have := Refused.language (W := W) hr (by decide +kernel) hm (src := .std)
    (by
      rw [show lastValue [(str "stem", .bool true), (str "lang", .string (str "latin")), (str "out", .string (str "x"))]
        "file" [] = [] by decide +kernel]
      simp [named, inputChoice, isTerminal]) (by decide +kernel) (by decide +kernel)
  rwa [show lastValue [(str "stem", .bool true), (str "lang", .string (str "latin")), (str "out", .string (str "x"))]
    "lang" (str "english") = str "latin" by decide +kernel] at this

example {ω : Type} (W : World ω) (hm : W.mode = .ok 0) : Accepted W (["-stem", "-out", "x"].map str)
    [(str "stem", .bool true), (str "out", .string (str "x"))] .std := by
  refine ⟨C102_reads.2 (by decide +kernel), by decide +kernel, ⟨0, hm, ?_⟩, .inl ⟨.english, by decide +kernel⟩⟩
  rw [show lastValue [(str "stem", .bool true), (str "out", .string (str "x"))] "file" [] = [] by decide +kernel]
  simp [named, inputChoice, isTerminal]

end Jargon
