import Verif.Model.Flag
import Verif.Props.Cli

/-! C59: the flags that are set and the filters that are applied. -/

namespace Jargon

/-- The filter flag of a name. -/
def flagNamed (name : Bytes) : Option FilterFlag := allFlags.find? fun f => f.name = name

/-- The filters asked for by the settings of the flags: those set to true, in order. -/
def wanted (settings : List (Bytes × FlagValue)) : List FilterFlag :=
  settings.filterMap fun s => if s.2 = .bool true then flagNamed s.1 else none

/-- **C59, as one would like it.** The filters applied are those whose flags the arguments set. -/
def C59_full : Prop := ∀ (E : Env) (sb : Snowball) (args : List Bytes) (lang : Bytes) (l : Language)
  (settings : List (Bytes × FlagValue)), langOf lang = some l → parseFlags args = .ok settings →
  setFilters E sb ({} : Config Unit) args lang =
    (none, { ({} : Config Unit) with
      filters := (wanted settings).map fun f => (f.filter sb l).apply E })

/-- The filters applied for given arguments, counted. -/
theorem applied_count (E : Env) (sb : Snowball) (args : List Bytes) (lang : Bytes) (l : Language)
    (hl : langOf lang = some l) :
    (setFilters E sb ({} : Config Unit) args lang).2.filters.length = (args.filterMap flagOf).length := by
  rw [(C48_filters E sb ({} : Config Unit) args lang).1 l hl]
  simp

/-- **C59 is violated**, in both directions: `--stem` and `-stem=true` set the flag but no filter is
applied; `-file -stem` applies the stemmer although -stem is the name of the input file. -/
theorem C59_violated : ¬ C59_full ∧
    parseFlags [str "--stem"] = .ok [(str "stem", .bool true)] ∧ [str "--stem"].filterMap flagOf = [] ∧
    parseFlags [str "-stem=true"] = .ok [(str "stem", .bool true)] ∧
      [str "-stem=true"].filterMap flagOf = [] ∧
    parseFlags [str "-file", str "-stem"] = .ok [(str "file", .string (str "-stem"))] ∧
      [str "-file", str "-stem"].filterMap flagOf = [.stem] := by
  have h1 : parseFlags [str "--stem"] = .ok [(str "stem", .bool true)] := by decide +kernel
  refine ⟨fun h => ?_, h1, by decide +kernel, by decide +kernel, by decide +kernel, by decide +kernel,
    by decide +kernel⟩
  have h2 := applied_count sampleEnv sampleWorld.snowball [str "--stem"] [] .english rfl
  rw [h sampleEnv sampleWorld.snowball [str "--stem"] [] .english _ rfl h1] at h2
  simp only [List.length_map] at h2
  exact absurd h2 (by decide +kernel)

/-- **C59 is violated after an argument that is no flag:** the flag package stops there, but a later `-stem`
is applied all the same, also after the `--` that ends the flags. -/
theorem C59_violated_after : ¬ C59_full ∧ ∀ stop ∈ [str "notes.txt", str "--", str "-"],
    parseFlags [str "-lines", stop, str "-stem"] = .ok [(str "lines", .bool true)] ∧
    [str "-lines", stop, str "-stem"].filterMap flagOf = [.stem] := by
  have h1 : ∀ stop ∈ [str "notes.txt", str "--", str "-"],
      parseFlags [str "-lines", stop, str "-stem"] = .ok [(str "lines", .bool true)] ∧
      [str "-lines", stop, str "-stem"].filterMap flagOf = [.stem] := by decide +kernel
  refine ⟨fun h => ?_, h1⟩
  have h2 := applied_count sampleEnv sampleWorld.snowball [str "-lines", str "--", str "-stem"] [] .english rfl
  rw [h sampleEnv sampleWorld.snowball _ [] .english _ rfl (h1 (str "--") (by simp)).1] at h2
  simp only [List.length_map] at h2
  exact absurd h2 (by decide +kernel)

/-- Arguments in the plain style: flags with one dash, no equals sign, values of -file, -out and -lang as
separate arguments that are not spelled like a filter flag. -/
inductive PlainArgs : List Bytes → Prop
  | nil : PlainArgs []
  | filter (f : FilterFlag) {rest : List Bytes} : PlainArgs rest → PlainArgs ((str "-" ++ f.name) :: rest)
  | switch {name : String} {rest : List Bytes} : name ∈ ["html", "count", "lines", "version"] →
      PlainArgs rest → PlainArgs ((str "-" ++ str name) :: rest)
  | value {name : String} {v : Bytes} {rest : List Bytes} : name ∈ ["lang", "file", "out"] →
      flagOf v = none → PlainArgs rest → PlainArgs ((str "-" ++ str name) :: v :: rest)

theorem parse_bool {name : Bytes} (rest : List Bytes)
    (h1 : (2 ≤ (str "-" ++ name).length ∧ (str "-" ++ name).head? = some 0x2D ∧ str "-" ++ name ≠ str "--" ∧
      (str "-" ++ name).drop 1 = name ∧ name ≠ [] ∧ name.head? ≠ some 0x2D ∧ name.head? ≠ some 0x3D ∧
      splitEquals name = (name, none) ∧ declaredFlags.lookup name = some .bool)) :
    parseFlags ((str "-" ++ name) :: rest) = (parseFlags rest).map ((name, .bool true) :: ·) := by
  obtain ⟨a1, a2, a3, a4, a5, a6, a7, a8, a9⟩ := h1
  rw [parseFlags]
  rw [if_neg (by simp only [not_or, ne_eq, not_not]; exact ⟨by omega, a2⟩), if_neg a3]
  simp only [a4, a6, ↓reduceIte]
  rw [if_neg (by simp only [not_or]; exact ⟨a5, by simp, a7⟩)]
  simp only [a8, a9]

theorem parse_value {name : Bytes} (v : Bytes) (rest : List Bytes)
    (h1 : (2 ≤ (str "-" ++ name).length ∧ (str "-" ++ name).head? = some 0x2D ∧ str "-" ++ name ≠ str "--" ∧
      (str "-" ++ name).drop 1 = name ∧ name ≠ [] ∧ name.head? ≠ some 0x2D ∧ name.head? ≠ some 0x3D ∧
      splitEquals name = (name, none) ∧ declaredFlags.lookup name = some .string)) :
    parseFlags ((str "-" ++ name) :: v :: rest) = (parseFlags rest).map ((name, .string v) :: ·) := by
  obtain ⟨a1, a2, a3, a4, a5, a6, a7, a8, a9⟩ := h1
  rw [parseFlags]
  rw [if_neg (by simp only [not_or, ne_eq, not_not]; exact ⟨by omega, a2⟩), if_neg a3]
  simp only [a4, a6, ↓reduceIte]
  rw [if_neg (by simp only [not_or]; exact ⟨a5, by simp, a7⟩)]
  simp only [a8, a9]

/-- **C59, partial.** For arguments in the plain style the filters applied are those whose flags are
set. Missing: the other spellings the flag package accepts. -/
theorem C59_plain_partial {args : List Bytes} (h : PlainArgs args) :
    ∃ settings, parseFlags args = .ok settings ∧ args.filterMap flagOf = wanted settings ∧
      ∀ (E : Env) (sb : Snowball) (lang : Bytes) (l : Language), langOf lang = some l →
        setFilters E sb ({} : Config Unit) args lang =
          (none, { ({} : Config Unit) with
            filters := (wanted settings).map fun f => (f.filter sb l).apply E }) := by
  have key : ∃ settings, parseFlags args = .ok settings ∧ args.filterMap flagOf = wanted settings := by
    induction h with
    | nil => exact ⟨[], by rw [parseFlags], rfl⟩
    | filter f _ ih =>
      obtain ⟨st, h1, h2⟩ := ih
      refine ⟨(f.name, .bool true) :: st, ?_, ?_⟩
      · rw [parse_bool _ (by cases f <;> decide +kernel), h1]; rfl
      · have hf : flagOf (str "-" ++ f.name) = some f := by cases f <;> decide +kernel
        have hn : flagNamed f.name = some f := by cases f <;> decide +kernel
        simp only [List.filterMap_cons, hf, h2, wanted, ↓reduceIte, hn]
    | @switch name rest hm _ ih =>
      obtain ⟨st, h1, h2⟩ := ih
      refine ⟨(str name, .bool true) :: st, ?_, ?_⟩
      · rw [parse_bool _ (by
          simp only [List.mem_cons, List.not_mem_nil, or_false] at hm
          rcases hm with rfl | rfl | rfl | rfl <;> decide +kernel), h1]; rfl
      · have hf : flagOf (str "-" ++ str name) = none ∧ flagNamed (str name) = none := by
          simp only [List.mem_cons, List.not_mem_nil, or_false] at hm
          rcases hm with rfl | rfl | rfl | rfl <;> decide +kernel
        simp only [List.filterMap_cons, hf.1, h2, wanted, ↓reduceIte, hf.2]
    | @value name v rest hm hv _ ih =>
      obtain ⟨st, h1, h2⟩ := ih
      refine ⟨(str name, .string v) :: st, ?_, ?_⟩
      · rw [parse_value _ _ (by
          simp only [List.mem_cons, List.not_mem_nil, or_false] at hm
          rcases hm with rfl | rfl | rfl <;> decide +kernel), h1]; rfl
      · have hf : flagOf (str "-" ++ str name) = none := by
          simp only [List.mem_cons, List.not_mem_nil, or_false] at hm
          rcases hm with rfl | rfl | rfl <;> decide +kernel
        simp [List.filterMap_cons, hf, hv, h2, wanted]
  obtain ⟨settings, h1, h2⟩ := key
  refine ⟨settings, h1, h2, fun E sb lang l hl => ?_⟩
  rw [(C48_filters E sb ({} : Config Unit) args lang).1 l hl, h2]
  rfl

/-- `-file in -stack -lemmas -lines -stem`. -/
example : PlainArgs [str "-" ++ str "file", str "in", str "-" ++ FilterFlag.stack.name,
    str "-" ++ FilterFlag.lemmas.name, str "-" ++ str "lines", str "-" ++ FilterFlag.stem.name] :=
  .value (by simp) (by decide +kernel) (.filter _ (.filter _ (.switch (by simp) (.filter _ .nil))))

end Jargon
