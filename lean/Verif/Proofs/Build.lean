import Verif.Proofs.Synonyms

/-! `build` makes the dictionary of the listed synonyms. -/

namespace Jargon

/-- Adding several synonyms to a filter. -/
def SynFilter.addAll (U : Unicode) (f : SynFilter) (adds : List (List Token × Bytes)) : SynFilter :=
  adds.foldl (fun f a => f.addSynonym U a.1 a.2) f

theorem SynFilter.addAll_append (U : Unicode) (f : SynFilter) (a b : List (List Token × Bytes)) :
    f.addAll U (a ++ b) = (f.addAll U a).addAll U b := by simp [SynFilter.addAll]

theorem SynFilter.addAll_cons (U : Unicode) (f : SynFilter) (a : List Token × Bytes)
    (l : List (List Token × Bytes)) :
    f.addAll U (a :: l) = (f.addSynonym U a.1 a.2).addAll U l := rfl

theorem updateMaxWords_eq (toks : List Token) (m : Nat) :
    updateMaxWords toks m = max m (words toks) := by
  have : (toks.filter fun t => !t.isSpace && !t.isPunct).length = words toks := by
    rw [← wordCount_eq, wordCount]
    congr 1
    apply List.filter_congr
    intro t _
    rw [Bool.and_comm]
  simp only [updateMaxWords, this]
  split <;> omega

theorem SynFilter.addAll_trie (U : Unicode) (f : SynFilter) (adds : List (List Token × Bytes)) :
    (f.addAll U adds).trie = f.trie.addAll U adds := by
  induction adds generalizing f with
  | nil => rfl
  | cons a l ih => rw [SynFilter.addAll_cons, ih]; rfl

theorem SynFilter.addAll_maxWords (U : Unicode) (f : SynFilter) (adds : List (List Token × Bytes)) :
    (f.addAll U adds).maxWords = (adds.map fun a => words a.1).foldl max f.maxWords := by
  induction adds generalizing f with
  | nil => rfl
  | cons a l ih =>
    rw [SynFilter.addAll_cons, ih]
    simp only [SynFilter.addSynonym, updateMaxWords_eq, List.map_cons, List.foldl_cons]

theorem pieces_ne_nil (toks : List Token) : ∃ p ps, pieces toks = p :: ps := by
  cases toks with
  | nil => exact ⟨_, _, rfl⟩
  | cons t ts =>
    unfold pieces
    split
    · exact ⟨_, _, rfl⟩
    · split <;> exact ⟨_, _, rfl⟩

/-- The splitting loop, part-way: `pend` is the synonym being read, `pre` what came before. -/
theorem splitLoop_spec (U : Unicode) (canonical : Bytes) (pre pend rest : List Token)
    (skip : Bool) (f : SynFilter) (hskip : skip = true → pend = [])
    (hcomma : ∀ t ∈ rest, t.value = [0x2C] → t.space = false)
    {p : List Token} {ps : List (List Token)} (hp : pieces rest = p :: ps) :
    splitLoop U (pre ++ (pend ++ rest)) canonical rest (pre.length + pend.length) pre.length skip f =
      Go.ret (f.addAll U
        (((pend ++ (if skip then p.dropWhile Token.space else p)) ::
          ps.map (·.dropWhile Token.space)).map fun s => (s, canonical))) := by
  induction rest generalizing pre pend skip f p ps with
  | nil =>
    cases hp
    have : goSlice (pre ++ (pend ++ [])) pre.length (pre ++ (pend ++ [])).length = Go.ret pend := by
      rw [goSlice, if_pos (by simp), List.take_of_length_le (Nat.le_refl _)]
      simp
    simp only [splitLoop, this, Go.ret_bind, Go.pure_eq]
    simp [SynFilter.addAll]
  | cons t ts ih =>
    obtain ⟨p', ps', hp'⟩ := pieces_ne_nil ts
    have hts : ∀ x ∈ ts, x.value = [0x2C] → x.space = false := fun x hx => hcomma x (by simp [hx])
    unfold pieces at hp
    rw [hp'] at hp
    by_cases hc : t.value = [0x2C]
    · rw [if_pos hc] at hp
      obtain ⟨rfl, rfl⟩ : p = [] ∧ ps = p' :: ps' := by
        simp only [List.cons.injEq] at hp
        exact ⟨hp.1.symm, hp.2.symm⟩
      have hs : t.space = false := hcomma t (by simp) hc
      have hslice : goSlice (pre ++ (pend ++ t :: ts)) pre.length (pre.length + pend.length) =
          Go.ret pend := by
        rw [goSlice, if_pos (by simp)]
        rw [show pre ++ (pend ++ t :: ts) = (pre ++ pend) ++ (t :: ts) by simp,
          List.take_append_of_le_length (by simp), List.take_of_length_le (by simp)]
        simp
      have hstep : splitLoop U (pre ++ (pend ++ t :: ts)) canonical (t :: ts)
          (pre.length + pend.length) pre.length skip f =
          splitLoop U (pre ++ (pend ++ t :: ts)) canonical ts (pre.length + pend.length + 1)
            (pre.length + pend.length + 1) true (f.addSynonym U pend canonical) := by
        rw [splitLoop]
        simp only [Token.isSpace, hs, Bool.and_false, Bool.false_eq_true, ↓reduceIte, Token.string,
          hslice, Go.ret_bind]
        rw [if_pos hc]
      have := ih (pre ++ (pend ++ [t])) [] true (f.addSynonym U pend canonical) (fun _ => rfl) hts hp'
      rw [hstep]
      simp only [List.length_append, List.length_cons, List.length_nil, List.nil_append,
        List.append_assoc, List.cons_append, Nat.add_zero, Nat.zero_add, ↓reduceIte] at this
      rw [show pre.length + pend.length + 1 = pre.length + (pend.length + 1) by omega, this]
      cases skip <;> simp [SynFilter.addAll]
    · rw [if_neg hc] at hp
      obtain ⟨rfl, rfl⟩ : p = t :: p' ∧ ps = ps' := by
        simp only [List.cons.injEq] at hp
        exact ⟨hp.1.symm, hp.2.symm⟩
      by_cases hsk : (skip && t.space) = true
      · simp only [Bool.and_eq_true] at hsk
        obtain ⟨rfl, hs⟩ := hsk
        have hpend := hskip rfl
        subst hpend
        have hstep : splitLoop U (pre ++ ([] ++ t :: ts)) canonical (t :: ts)
            (pre.length + 0) pre.length true f =
            splitLoop U (pre ++ ([] ++ t :: ts)) canonical ts (pre.length + 0 + 1)
              (pre.length + 1) true f := by
          rw [splitLoop]
          simp [Token.isSpace, hs]
        have := ih (pre ++ [t]) [] true f (fun _ => rfl) hts hp'
        rw [List.length_nil, hstep]
        simp only [List.length_append, List.length_cons, List.length_nil, List.nil_append,
          List.append_assoc, List.cons_append, Nat.add_zero, Nat.zero_add, ↓reduceIte] at this
        simp only [List.nil_append, Nat.add_zero]
        rw [this]
        simp [hs]
      · have hsk' : (skip && t.space) = false := by simpa using hsk
        have hstep : splitLoop U (pre ++ (pend ++ t :: ts)) canonical (t :: ts)
            (pre.length + pend.length) pre.length skip f =
            splitLoop U (pre ++ (pend ++ t :: ts)) canonical ts (pre.length + pend.length + 1)
              pre.length false f := by
          rw [splitLoop]
          simp only [Token.isSpace, hsk', Bool.false_eq_true, ↓reduceIte, Token.string, hc]
        have := ih pre (pend ++ [t]) false f (by simp) hts hp'
        rw [hstep]
        simp only [List.length_append, List.length_cons, List.length_nil,
          List.append_assoc, List.cons_append, List.nil_append, Nat.zero_add,
          Bool.false_eq_true, ↓reduceIte] at this
        rw [show pre.length + pend.length + 1 = pre.length + (pend.length + 1) by omega, this]
        cases skip
        · simp
        · have hs : t.space = false := by simpa using hsk'
          simp [hs]

theorem comma_not_space (U : Unicode) (s : Bytes) (l : Bool) (h : s = [0x2C]) :
    (mkToken U s l).space = false := by
  subst h
  simp only [mkToken]
  decide

/-- One key. -/
theorem splitLoop_listed (E : Env) (key canonical : Bytes) (f : SynFilter) :
    splitLoop E.U (stringTokens E key) canonical (stringTokens E key) 0 0 true f =
      Go.ret (f.addAll E.U ((listed (stringTokens E key)).map fun s => (s, canonical))) := by
  obtain ⟨p, ps, hp⟩ := pieces_ne_nil (stringTokens E key)
  have := splitLoop_spec E.U canonical [] [] (stringTokens E key) true f (fun _ => rfl) (by
    intro t ht hv
    simp only [stringTokens, segTokens, List.mem_map] at ht
    obtain ⟨seg, -, rfl⟩ := ht
    exact comma_not_space _ _ _ hv) hp
  simpa [listed, hp] using this

theorem buildLoop_spec {E : Env} (hE : E.Lawful) (mappings : StringMap) (f : SynFilter)
    (hs : ∀ m ∈ mappings, (E.scan { data := m.1 }).2 = none) :
    buildLoop E mappings f = Go.ret (.ok (f.addAll E.U (entries E mappings))) := by
  induction mappings generalizing f with
  | nil => rfl
  | cons m rest ih =>
    obtain ⟨key, canonical⟩ := m
    have h1 := toSlice_yields (stringTokens_yields hE (hs (key, canonical) (by simp)))
    rw [buildLoop, h1]
    simp only [↓reduceIte, End.err, Go.ret_bind, splitLoop_listed]
    rw [ih _ (fun m hm => hs m (by simp [hm]))]
    simp [entries, SynFilter.addAll_append]

/-- A key the scanner cannot get through makes `build` fail with the scanner's error. -/
theorem buildLoop_fail {E : Env} (hE : E.Lawful) (pre post : StringMap) (key canonical : Bytes)
    (e : Err) (f : SynFilter) (hs : ∀ m ∈ pre, (E.scan { data := m.1 }).2 = none)
    (he : (E.scan { data := key }).2 = some e) :
    buildLoop E (pre ++ (key, canonical) :: post) f = Go.ret (.error e) := by
  induction pre generalizing f with
  | nil =>
    have h1 := toSlice_yields (tokenize_yields E hE { data := key })
    rw [he] at h1
    rw [List.nil_append, buildLoop, tokenizeString, h1]
    simp [endOf]
  | cons m rest ih =>
    obtain ⟨k, c⟩ := m
    have h1 := toSlice_yields (stringTokens_yields hE (hs (k, c) (by simp)))
    rw [List.cons_append, buildLoop, h1]
    simp only [↓reduceIte, End.err, Go.ret_bind, splitLoop_listed]
    exact ih _ (fun m hm => hs m (by simp [hm]))

/-- The filter `build` makes. -/
def builtFilter (E : Env) (mappings : StringMap) (ic : Bool) (ign : List Rune) : SynFilter :=
  SynFilter.addAll E.U { trie := RuneTrie.new ic ign, maxWords := 1 } (entries E mappings)

theorem build_ok {E : Env} (hE : E.Lawful) (mappings : StringMap) (ic : Bool) (ign : List Rune)
    (hs : ∀ m ∈ mappings, (E.scan { data := m.1 }).2 = none) :
    build E mappings ic ign = Go.ret (.ok (builtFilter E mappings ic ign)) :=
  buildLoop_spec hE mappings _ hs

theorem builtFilter_compare (E : Env) (mappings : StringMap) (ic : Bool) (ign : List Rune) :
    (builtFilter E mappings ic ign).trie.compare E.U = ⟨E.U, ic, ign⟩ := by
  rw [builtFilter, SynFilter.addAll_trie, addAll_compare]; rfl

theorem builtFilter_get (E : Env) (mappings : StringMap) (ic : Bool) (ign : List Rune) :
    (builtFilter E mappings ic ign).trie.root.get =
      (Compare.mk E.U ic ign).dict (entries E mappings) := by
  funext q
  rw [builtFilter, SynFilter.addAll_trie]
  exact new_addAll_get E.U ic ign _ q

theorem builtFilter_maxWords (E : Env) (mappings : StringMap) (ic : Bool) (ign : List Rune) :
    (builtFilter E mappings ic ign).maxWords = wordLimit (entries E mappings) := by
  rw [builtFilter, SynFilter.addAll_maxWords]; rfl

theorem foldl_max_ge (l : List Nat) (m : Nat) : m ≤ l.foldl max m ∧ ∀ x ∈ l, x ≤ l.foldl max m := by
  induction l generalizing m with
  | nil => simp
  | cons a l ih =>
    obtain ⟨h1, h2⟩ := ih (max m a)
    simp only [List.foldl_cons, List.mem_cons, forall_eq_or_imp]
    exact ⟨by omega, by omega, h2⟩

theorem foldl_max_mem (l : List Nat) (m : Nat) : l.foldl max m = m ∨ l.foldl max m ∈ l := by
  induction l generalizing m with
  | nil => simp
  | cons a l ih =>
    simp only [List.foldl_cons, List.mem_cons]
    rcases ih (max m a) with h | h
    · rw [h]; omega
    · exact .inr (.inr h)

theorem wordLimit_pos (adds : List (List Token × Bytes)) : 0 < wordLimit adds :=
  (foldl_max_ge _ 1).1

theorem wordLimit_ge {adds : List (List Token × Bytes)} {a : List Token × Bytes} (h : a ∈ adds) :
    words a.1 ≤ wordLimit adds :=
  (foldl_max_ge _ 1).2 _ (List.mem_map_of_mem h)

theorem synClosure_emits {σ : Type} {U : Unicode} {f : SynFilter} {call : NextFn σ}
    {toks : List Token} {e : End} {t : SynState σ} (h : Emits (synNext U call f) toks e t) :
    Emits (synClosure U (Go.ret (.ok f)) call) toks e t := by
  have : synClosure U (Go.ret (.ok f)) call = synNext U call f := by
    funext t; simp [synClosure]
  rwa [this]

/-- The synonyms filter on a stream. -/
theorem synonyms_yields {E : Env} (hE : E.Lawful) {mappings : StringMap} {ic : Bool}
    {ign : List Rune} (hs : ∀ m ∈ mappings, (E.scan { data := m.1 }).2 = none)
    {ts : TokenStream} {toks out : List Token} {e : End} (h : ts.Yields toks e)
    (hg : Greedy ⟨E.U, ic, ign⟩ ((Compare.mk E.U ic ign).dict (entries E mappings))
      (wordLimit (entries E mappings)) toks out) :
    (synonyms E mappings ic ign ts).Yields (if e = .eof then out else []) e := by
  unfold synonyms
  rw [build_ok hE mappings ic ign hs]
  refine yields_new (synClosure_emits (synNext_emits ?_ (builtFilter_compare E mappings ic ign)
    (builtFilter_get E mappings ic ign) h ?_))
  · rw [builtFilter_maxWords]; exact wordLimit_pos _
  · rw [builtFilter_maxWords]; exact hg

theorem dict_some {C : Compare} {adds : List (List Token × Bytes)} {q : List Rune} {c : Bytes}
    (h : C.dict adds q = some c) : ∃ a ∈ adds, C.spell a.1 = q ∧ a.2 = c := by
  simp only [Compare.dict, Option.map_eq_some_iff] at h
  obtain ⟨a, h1, h2⟩ := h
  exact ⟨a, by simpa using List.mem_of_find?_eq_some h1, by simpa using List.find?_some h1, h2⟩

theorem dict_none {C : Compare} {adds : List (List Token × Bytes)} {q : List Rune}
    (h : C.dict adds q = none) : ∀ a ∈ adds, C.spell a.1 ≠ q := by
  simp only [Compare.dict, Option.map_eq_none_iff, List.find?_eq_none, List.mem_reverse,
    decide_eq_true_eq] at h
  exact h

end Jargon
