import Verif.Props.LineByLine
import Verif.Props.TokenFlags

/-! C108: a text may be given to the filters of the library line by line. -/

namespace Jargon

/-- The text of a token that ends a line. -/
def LineEnd (seg : Bytes) : Prop := seg = [0x0A] ∨ seg = [0x0D, 0x0A]

/-- What a filter's configuration must be for line ends to pass it and for it not to look across them. The stemmers,
`ascii.Fold` and every synonyms filter are always like that. -/
def Builtin.KeepsLines (E : Env) : Builtin → Prop
  | .stemmer _ | .asciiFold | .synonyms .. => True
  | .norm N => ∀ seg, LineEnd seg → N.isNormalString seg = true
  | .stopwords ws ic => ∀ seg, LineEnd seg → ∀ w ∈ ws,
      if ic then E.U.lowerString w ≠ E.U.lowerString seg else w ≠ seg
  | .contractions m => ∀ seg, LineEnd seg → ∀ k x, (k, x) ∈ m → k ≠ seg ∧ k ≠ E.U.lowerString seg
  | .sigil f => ¬ LineEnd f.sigil ∧ (∀ seg, LineEnd seg → f.legal seg = false) ∧ ∀ t, TrueFlags E.U t → t.value = f.sigil → ¬ t.IsWord
  | .where_ p => ∀ t, LineEnd t.value → TrueFlags E.U t → p t = true
  | .words | .lemmas | .distinct => False

/-- The filters that look at one token at a time. -/
def Builtin.OneByOne : Builtin → Prop
  | .sigil _ | .synonyms .. | .distinct => False
  | _ => True

/-! ### the filters -/

theorem sigil_boundary {U : Unicode} {f : SigilFilter} {p : Option Token} (h : boundary p = true) (B : List Token)
    (e : End) : sigilActual U f p B e = sigilActual U f none B e := by
  match B with
  | [] => simp [sigilActual]
  | [c] => rw [sigilActual.eq_def, sigilActual.eq_def]; simp only [h]; rfl
  | c :: l :: rest => rw [sigilActual, sigilActual, h]; rfl

theorem boundary_some {c : Token} (h : ¬ c.IsWord) : boundary (some c) = true := by simp [boundary, h]

/-- A sigil filter does not look across a token that is not a word, not legal after the sigil, and not the sigil. -/
theorem sigil_stop {U : Unicode} {f : SigilFilter} {nl : Token} (h1 : nl.value ≠ f.sigil) (h2 : f.legal nl.value = false)
    (h3 : ¬ nl.IsWord) (B : List Token) (e : End) : ∀ (z : List Token) (p : Option Token),
    (∀ t ∈ z, t.value = f.sigil → ¬ t.IsWord) →
    sigilActual U f p (z ++ nl :: B) e =
      ((sigilActual U f p (z ++ [nl]) .eof).1 ++ (sigilActual U f none B e).1, (sigilActual U f none B e).2) ∧
    ∃ w, (sigilActual U f p (z ++ [nl]) .eof).1 = w ++ [nl]
  | [], p, _ => by
    refine ⟨?_, [], by simp [sigilActual, h1]⟩
    cases B with
    | nil => simp [sigilActual, h1]
    | cons b B => simp [sigilActual, h1, sigil_boundary (boundary_some h3)]
  | [c], p, hz => by
    simp only [List.mem_singleton, forall_eq] at hz
    have hnl : ∀ q, sigilActual U f q [nl] .eof = ([nl], .eof) := fun q => by simp [sigilActual, h1]
    have hB : ∀ q, sigilActual U f q (nl :: B) e = (nl :: (sigilActual U f none B e).1, (sigilActual U f none B e).2) := by
      intro q
      cases B with
      | nil => simp [sigilActual, h1]
      | cons b B => simp [sigilActual, h1, sigil_boundary (boundary_some h3)]
    simp only [List.cons_append, List.nil_append]
    rw [sigilActual, sigilActual]
    by_cases hs : (boundary p && decide (c.value = f.sigil)) = true
    · have hc := hz (by simpa using (Bool.and_eq_true_iff.1 hs).2)
      rw [if_pos hs, if_pos hs, h2]
      simp only [Bool.false_eq_true, ↓reduceIte, emit]
      rw [sigil_boundary (boundary_some hc)]
      exact ⟨by simp [sigilActual], [c], by simp [sigilActual]⟩
    · rw [if_neg hs, if_neg hs]
      simp only [emit, hnl, hB]
      exact ⟨rfl, [c], rfl⟩
  | c :: d :: z, p, hz => by
    have ih1 := fun q => sigil_stop (U := U) h1 h2 h3 B e z q (fun t ht => hz t (by simp [ht]))
    have ih2 := fun q => sigil_stop (U := U) h1 h2 h3 B e (d :: z) q (fun t ht => hz t (by simp at ht ⊢; exact .inr ht))
    simp only [List.cons_append] at ih2 ⊢
    rw [sigilActual, sigilActual]
    split
    · split
      · simp only [emit]
        obtain ⟨a, w, b⟩ := ih1 (some (mkToken U (f.sigil ++ d.value) true))
        exact ⟨by rw [a]; rfl, _ :: w, by rw [b]; rfl⟩
      · simp only [emit]
        obtain ⟨a, w, b⟩ := ih1 (some c)
        exact ⟨by rw [a]; rfl, c :: d :: w, by rw [b]; rfl⟩
    · simp only [emit]
      obtain ⟨a, w, b⟩ := ih2 (some c)
      exact ⟨by rw [a]; rfl, c :: w, by rw [b]; rfl⟩

/-- No synonym goes across punctuation. -/
theorem greedy_stop {C : Compare} {D : Dict} {m : Nat} {l : Token} (hl : l.punct = true) {A oa B ob : List Token}
    (ha : Greedy C D m A oa) (hb : Greedy C D m B ob) : ∀ {z : List Token}, A = z ++ [l] →
    Greedy C D m (A ++ B) (oa ++ ob) ∧ ∃ w, oa = w ++ [l] := by
  have hw : ¬ l.IsWord := fun h => by simp [Token.IsWord, hl] at h
  have near : ∀ {A z : List Token}, A = z ++ [l] → ∀ {B : List Token} {k : Nat}, Admissible m (A ++ B) k → k ≤ z.length := by
    intro A z h B k hk
    refine Nat.le_of_not_lt fun hlt => ?_
    have := hk.noPunct l (by
      rw [h, List.append_assoc, List.take_append, List.mem_append]
      right
      obtain ⟨j, hj⟩ : ∃ j, k - z.length = j + 1 := ⟨k - z.length - 1, by omega⟩
      rw [hj]; simp)
    rw [hl] at this
    cases this
  have short : ∀ {A z : List Token}, A = z ++ [l] → ∀ {k : Nat}, k ≤ z.length → k ≤ A.length := by
    intro A z h k hk
    rw [h, List.length_append]
    exact Nat.le_add_right_of_le hk
  induction ha with
  | nil => intro z h; simp at h
  | @separator t ts out ht hg ih =>
    intro z h
    cases z with
    | nil =>
      simp only [List.nil_append, List.cons.injEq] at h
      obtain ⟨rfl, rfl⟩ := h
      cases hg
      exact ⟨.separator ht hb, [], rfl⟩
    | cons a z =>
      simp only [List.cons_append, List.cons.injEq] at h
      obtain ⟨h1, w, rfl⟩ := ih h.2
      exact ⟨.separator ht h1, t :: w, rfl⟩
  | @word t ts out ht hnone hg ih =>
    intro z h
    have hz := @near _ _ h
    have hs := @short _ _ h
    cases z with
    | nil =>
      simp only [List.nil_append, List.cons.injEq] at h
      exact absurd (h.1 ▸ ht) hw
    | cons a z =>
      simp only [List.cons_append, List.cons.injEq] at h
      obtain ⟨h1, w, rfl⟩ := ih h.2
      refine ⟨.word (t := t) (ts := ts ++ B) ht (fun k hk => ?_) h1, t :: w, rfl⟩
      have hkA := hs (hz (B := B) hk)
      rw [← List.cons_append, List.take_append_of_le_length hkA]
      exact hnone k ((admissible_append hkA).1 hk)
  | @replace t ts out k c ht hlong hg ih =>
    intro z h
    have hz := @near _ _ h
    have hs := @short _ _ h
    have hkz : k ≤ z.length := hz (B := []) (by rw [List.append_nil]; exact hlong.mem)
    have hk := hs hkz
    obtain ⟨h1, w, rfl⟩ := ih (z := z.drop k) (by rw [h, List.drop_append_of_le_length hkz])
    refine ⟨?_, canonTokens C.U c ++ w, by simp⟩
    have nr : ∀ j, j ≤ (t :: ts).length → (t :: (ts ++ B)).take j = (t :: ts).take j := fun j hj => by
      rw [← List.cons_append, List.take_append_of_le_length hj]
    have adm : ∀ j, Admissible m (t :: (ts ++ B)) j → j ≤ (t :: ts).length ∧ Admissible m (t :: ts) j := fun j hj => by
      have := hs (hz (B := B) hj)
      exact ⟨this, (admissible_append this).1 hj⟩
    rw [List.append_assoc]
    refine .replace (t := t) (ts := ts ++ B) (k := k) ht ⟨?_, ?_, ?_, ?_⟩ ?_
    · rw [← List.cons_append, admissible_append hk]; exact hlong.mem
    · rw [nr k hk]; exact hlong.isSyn
    · intro j hj hlt hne
      obtain ⟨hjl, hj⟩ := adm j hj
      rw [nr j hjl] at hne
      rw [nr j hjl, nr k hk]
      exact hlong.longest j hj hlt hne
    · intro j hj hlt
      obtain ⟨hjl, hj⟩ := adm j hj
      rw [nr j hjl, nr k hk]
      exact hlong.fewest j hj hlt
    · rw [← List.cons_append, List.drop_append_of_le_length hk]
      exact h1

/-- The filters that look at one token at a time. -/
theorem Builtin.oneByOne {E : Env} (hE : E.Lawful) {b : Builtin} (hok : b.OK E) (hb : b.OneByOne) :
    ∃ g : Token → List Token, (∀ A, Makes (b.apply E) A .eof (A.flatMap g) .eof) ∧
      (b.KeepsLines E → ∀ seg, LineEnd seg → g (mkToken E.U seg false) = [mkToken E.U seg false]) := by
  have pick : ∀ (q : Token → Bool) (A : List Token), A.filter q = A.flatMap fun t => if q t then [t] else [] := by
    intro q A
    induction A with
    | nil => rfl
    | cons t A ih =>
      rw [List.filter_cons, List.flatMap_cons]
      by_cases ht : q t = true
      · simp [ht, ih]
      · simp [ht, ih]
  cases b with
  | sigil f => exact hb.elim
  | synonyms m ic ign => exact hb.elim
  | distinct => exact hb.elim
  | asciiFold =>
    refine ⟨fun t => [foldToken E.U t], fun A ts h => ?_, fun _ seg hseg => ?_⟩
    · have := asciiFold_yields E.U h
      rwa [List.map_eq_flatMap] at this
    · have h2 : foldString (mkToken E.U seg false).value = (seg, false) := C17_ascii_unchanged _ (lineEnd_token E.U hseg).2
      simp only [foldToken, h2, Bool.false_eq_true, ↓reduceIte]
  | stemmer stem =>
    refine ⟨fun t => [stemToken E.U stem t], fun A ts h => ?_, fun _ seg hseg => ?_⟩
    · have := stemmer_yields (U := E.U) (stem := stem) (fun t _ => hok _) h
      rwa [List.map_eq_flatMap] at this
    · have := (lineEnd_token E.U hseg).1
      simp only [stemToken, this, false_and, ↓reduceIte]
  | norm N =>
    refine ⟨fun t => [normToken E.U N t], fun A ts h => ?_, fun hk seg hseg => ?_⟩
    · have := norm_yields (U := E.U) hok h
      rwa [List.map_eq_flatMap] at this
    · simp only [normToken, mkToken, hk seg hseg, ↓reduceIte]
  | contractions m =>
    refine ⟨expandToken E m, fun A ts h => expandWith_yields hE hok h, fun hk seg hseg => ?_⟩
    have none_of : ∀ s, (∀ k x, (k, x) ∈ m → k ≠ s) → m.lookup s = none := by
      intro s hs
      rw [List.lookup_eq_none_iff]
      rintro ⟨k, x⟩ hkx
      have := hs k x hkx
      simp [Ne.symm this]
    have n1 : m.lookup (mkToken E.U seg false).value = none := none_of seg fun k x h => (hk seg hseg k x h).1
    have n2 : m.lookup (E.U.lowerString (mkToken E.U seg false).value) = none := none_of _ fun k x h => (hk seg hseg k x h).2
    simp only [expandToken, expansion?, n1, n2]
  | stopwords ws ic =>
    refine ⟨fun t => if !isStop E.U ws ic t then [t] else [], fun A ts h => ?_, fun hk seg hseg => ?_⟩
    · have := stop_yields (U := E.U) (words := ws) (ic := ic) h
      rwa [pick] at this
    · have : isStop E.U ws ic (mkToken E.U seg false) = false := by
        have hk := hk seg hseg
        cases ic
        · simp only [isStop, mkToken, Bool.false_eq_true, ↓reduceIte] at hk ⊢
          exact decide_eq_false fun h => hk _ h rfl
        · simp only [isStop, mkToken, ↓reduceIte] at hk ⊢
          exact decide_eq_false fun ⟨w, hw, he⟩ => hk w hw he
      simp [this]
  | where_ p =>
    refine ⟨fun t => if p t then [t] else [], fun A ts h => ?_, fun hk seg hseg => ?_⟩
    · have := where_yields p h
      rwa [pick] at this
    · simp [hk (mkToken E.U seg false) hseg (mkToken_flags E.U seg false)]
  | words =>
    refine ⟨fun t => if !t.isPunct && !t.isSpace then [t] else [], fun A ts h => ?_, fun hk => hk.elim⟩
    have := where_yields (fun t => !t.isPunct && !t.isSpace) h
    rw [pick] at this
    exact this
  | lemmas =>
    refine ⟨fun t => if t.isLemma then [t] else [], fun A ts h => ?_, fun hk => hk.elim⟩
    have := where_yields Token.isLemma h
    rw [pick] at this
    exact this

/-- Two parts of the tokens, the first of which ends a line, go through a filter separately. -/
theorem Builtin.splits {E : Env} (hE : E.Lawful) {b : Builtin} (hok : b.OK E) {A : List Token} (B : List Token)
    (h : b.KeepsLines E ∧ EndsLine E.U A ∧ (∀ t ∈ A, TrueFlags E.U t) ∨ b.OneByOne) :
    ∃ x y, Splits (b.apply E) A B x y ∧
      (b.KeepsLines E → EndsLine E.U A → (∀ t ∈ A, TrueFlags E.U t) → EndsLine E.U x ∧ ∀ t ∈ x, TrueFlags E.U t) := by
  have flags : ∀ {x : List Token}, Makes (b.apply E) A .eof x .eof → (∀ t ∈ A, TrueFlags E.U t) → ∀ t ∈ x, TrueFlags E.U t := by
    intro x hx hA
    obtain ⟨x', h1, h2⟩ := b.each (mkToken_flags E.U) hE hok A .eof hA
    rw [((hx _ (listStream_yields A .eof)).unique (h1 _ (listStream_yields A .eof))).1]
    exact h2
  by_cases hb : b.OneByOne
  · obtain ⟨g, h1, h2⟩ := b.oneByOne hE hok hb
    refine ⟨A.flatMap g, B.flatMap g, ⟨h1 A, h1 B, ?_⟩, fun hk ha hA => ⟨?_, flags (h1 A) hA⟩⟩
    · rw [← List.flatMap_append]
      exact h1 _
    · obtain ⟨z, seg, rfl, hseg⟩ := ha
      exact ⟨z.flatMap g, seg, by simp [h2 hk seg hseg], hseg⟩
  · obtain ⟨hk, ⟨z, seg, rfl, hseg⟩, hA⟩ := h.resolve_right hb
    cases b with
    | sigil f =>
      obtain ⟨k1, k2, k3⟩ := hk
      have make : ∀ T, Makes (Builtin.apply E (.sigil f)) T .eof (sigilActual E.U f none T .eof).1 .eof := by
        intro T ts hy
        have := sigil_yields (U := E.U) hok hy
        rwa [sigilActual_end] at this
      obtain ⟨h1, w, h2⟩ := sigil_stop (U := E.U) (f := f) (nl := mkToken E.U seg false) (fun h => k1 (h ▸ hseg)) (k2 seg hseg)
        (lineEnd_token E.U hseg).1 B .eof z none (fun t ht hv => k3 t (hA t (by simp [ht])) hv)
      refine ⟨_, _, ⟨make _, make _, ?_⟩, fun _ _ _ => ⟨⟨w, seg, h2, hseg⟩, flags (make _) hA⟩⟩
      have := make (z ++ [mkToken E.U seg false] ++ B)
      rw [List.append_assoc, List.singleton_append, h1] at this
      rw [List.append_assoc, List.singleton_append]
      exact this
    | synonyms m ic ign =>
      have make : ∀ {T out : List Token}, Greedy ⟨E.U, ic, ign⟩ ((Compare.mk E.U ic ign).dict (entries E m))
          (wordLimit (entries E m)) T out → Makes (Builtin.apply E (.synonyms m ic ign)) T .eof out .eof := by
        intro T out hg ts hy
        have := synonyms_yields hE hok hy hg
        rwa [if_pos rfl] at this
      obtain ⟨oa, ha⟩ := Greedy.total ⟨E.U, ic, ign⟩ ((Compare.mk E.U ic ign).dict (entries E m))
        (wordLimit (entries E m)) (z ++ [mkToken E.U seg false])
      obtain ⟨ob, hb⟩ := Greedy.total ⟨E.U, ic, ign⟩ ((Compare.mk E.U ic ign).dict (entries E m))
        (wordLimit (entries E m)) B
      have hp : (mkToken E.U seg false).punct = true := by
        rcases hseg with rfl | rfl
        · exact (mkToken_for E.U [0x0A] false).punct.2 (by
            rw [show runes [0x0A] = [0x0A] by decide +kernel]; simp)
        · exact (mkToken_for E.U [0x0D, 0x0A] false).punct.2 (by
            rw [show runes [0x0D, 0x0A] = [0x0D, 0x0A] by decide +kernel]; simp)
      obtain ⟨h1, w, h2⟩ := greedy_stop hp ha hb rfl
      exact ⟨oa, ob, ⟨make ha, make hb, make h1⟩, fun _ _ _ => ⟨⟨w, seg, h2, hseg⟩, flags (make ha) hA⟩⟩
    | distinct => exact hk.elim
    | _ => exact absurd trivial hb

theorem onebyone_split {E : Env} (hE : E.Lawful) : ∀ (bs : List Builtin), (∀ b ∈ bs, b.OK E) → (∀ b ∈ bs, b.OneByOne) →
    ∀ A B, ∃ x y, Splits (fun ts => ts.filter (bs.map (Builtin.apply E))) A B x y
  | [], _, _, A, B => ⟨A, B, fun _ h => h, fun _ h => h, fun _ h => h⟩
  | b :: bs, hok, h1, A, B => by
    obtain ⟨x, y, ⟨k1, k2, k3⟩, -⟩ := b.splits hE (hok b (by simp)) B (A := A) (.inr (h1 b (by simp)))
    obtain ⟨x', y', j1, j2, j3⟩ := onebyone_split hE bs (fun b h => hok b (by simp [h])) (fun b h => h1 b (by simp [h])) x y
    exact ⟨x', y', fun ts hy => j1 _ (k1 ts hy), fun ts hy => j2 _ (k2 ts hy), fun ts hy => j3 _ (k3 ts hy)⟩

theorem builtins_split {E : Env} (hE : E.Lawful) {after : List Builtin} (haok : ∀ b ∈ after, b.OK E)
    (ha : ∀ b ∈ after, b.OneByOne) : ∀ (bs : List Builtin), (∀ b ∈ bs, b.OK E) → (∀ b ∈ bs, b.KeepsLines E) →
    ∀ A B, EndsLine E.U A → (∀ t ∈ A, TrueFlags E.U t) →
    ∃ x y, Splits (fun ts => ts.filter ((bs ++ after).map (Builtin.apply E))) A B x y
  | [], _, _, A, B, _, _ => onebyone_split hE after haok ha A B
  | b :: bs, hok, h1, A, B, hA, hf => by
    obtain ⟨x, y, ⟨k1, k2, k3⟩, k4⟩ := b.splits hE (hok b (by simp)) B (.inl ⟨h1 b (by simp), hA, hf⟩)
    obtain ⟨e1, e2⟩ := k4 (h1 b (by simp)) hA hf
    obtain ⟨x', y', j1, j2, j3⟩ := builtins_split hE haok ha bs (fun b h => hok b (by simp [h]))
      (fun b h => h1 b (by simp [h])) x y e1 e2
    exact ⟨x', y', fun ts hy => j1 _ (k1 ts hy), fun ts hy => j2 _ (k2 ts hy), fun ts hy => j3 _ (k3 ts hy)⟩

/-! ### statements -/

variable {E : Env} {cls : WordTable}

theorem filters_split (hE : E.Lawful) (hF : E.FollowsUax29 cls) (hR : cls.Right) {bs after : List Builtin}
    (hok : ∀ b ∈ bs, b.OK E) (hbs : ∀ b ∈ bs, b.KeepsLines E) (haok : ∀ b ∈ after, b.OK E)
    (ha : ∀ b ∈ after, b.OneByOne) {l t : Bytes} (hl : IsLine l) (hfit : Fits cls (l ++ t)) : ∃ x y,
      ((tokenize E { data := l }).filter ((bs ++ after).map (Builtin.apply E))).Yields x .eof ∧
      ((tokenize E { data := t }).filter ((bs ++ after).map (Builtin.apply E))).Yields y .eof ∧
      ((tokenize E { data := l ++ t }).filter ((bs ++ after).map (Builtin.apply E))).Yields (x ++ y) .eof := by
  have hw := wordSegs_line hR hl t
  have hp := Fits.parts (a := []) (k := l) (b := t) hfit (by rw [List.nil_append, hw]; rfl)
  obtain ⟨x, y, h1, h2, h3⟩ := builtins_split hE haok ha bs hok hbs (segTokens E.U (wordSegs cls l))
    (segTokens E.U (wordSegs cls t)) (line_ends hR hl) (segTokens_each (mkToken_flags E.U) _)
  have yl := tokenize_yields E hE { data := l }
  have yt := tokenize_yields E hE { data := t }
  have yw := tokenize_yields E hE { data := l ++ t }
  rw [hF l hp.2.1] at yl
  rw [hF t hp.2.2] at yt
  rw [hF _ hfit, hw] at yw
  refine ⟨x, y, h1 _ yl, h2 _ yt, h3 _ ?_⟩
  rw [segTokens, segTokens, ← List.map_append]
  exact yw

/-- **C108.** Filters that line ends pass, and after them filters that look at one token at a time: the tokens of a text
are those of its lines, one after the other. (The last line need not have a line end.) -/
theorem C108_lines (hE : E.Lawful) (hF : E.FollowsUax29 cls) (hR : cls.Right) {bs after : List Builtin}
    (hok : ∀ b ∈ bs, b.OK E) (hbs : ∀ b ∈ bs, b.KeepsLines E) (haok : ∀ b ∈ after, b.OK E)
    (ha : ∀ b ∈ after, b.OneByOne) (last : Bytes) : ∀ {lines : List Bytes}, (∀ l ∈ lines, IsLine l) →
    Fits cls (lines.flatten ++ last) → ∃ outs outLast,
      List.Forall₂ (fun l o => ((tokenize E { data := l }).filter ((bs ++ after).map (Builtin.apply E))).Yields o .eof)
        lines outs ∧
      ((tokenize E { data := last }).filter ((bs ++ after).map (Builtin.apply E))).Yields outLast .eof ∧
      ((tokenize E { data := lines.flatten ++ last }).filter ((bs ++ after).map (Builtin.apply E))).Yields
        (outs.flatten ++ outLast) .eof
  | [], _, hfit => by
    have y := tokenize_yields E hE { data := last }
    rw [hF last hfit] at y
    obtain ⟨out, -, h⟩ := C10_pipeline hE (bs ++ after) (by
      intro b hb
      rcases List.mem_append.1 hb with hb | hb
      · exact hok b hb
      · exact haok b hb) (segTokens E.U (wordSegs cls last)) .eof
    exact ⟨[], out, .nil, h _ y, h _ y⟩
  | l :: lines, hl, hfit => by
    rw [List.flatten_cons, List.append_assoc] at hfit
    have hw := wordSegs_line hR (hl l (by simp)) (lines.flatten ++ last)
    have hp := Fits.parts (a := []) (k := l) (b := lines.flatten ++ last) hfit (by rw [List.nil_append, hw]; rfl)
    obtain ⟨x, y, h1, h2, h3⟩ := filters_split hE hF hR hok hbs haok ha (hl l (by simp)) hfit
    obtain ⟨outs, ol, h4, h5, h6⟩ := C108_lines hE hF hR hok hbs haok ha last (fun m hm => hl m (by simp [hm])) hp.2.2
    obtain ⟨rfl, -⟩ := h2.unique h6
    refine ⟨x :: outs, ol, .cons h1 h4, h5, ?_⟩
    rw [List.flatten_cons, List.flatten_cons, List.append_assoc, List.append_assoc]
    exact h3

/-- **C108 (twitter, tags, contractions).** Line ends pass the filters for Twitter handles and hashtags and for
contractions, if Unicode's tables are right about a few ASCII characters; synonyms filters need nothing. So C108 is about
these. -/
theorem C108_ready (hU : E.U.LowersLatin) (hP : E.U.PunctLatin)
    (hL : ∀ r, r = 0x0A ∨ r = 0x0D → E.U.isLetter r = false ∧ E.U.isNumber r = false) :
    (Builtin.sigil ⟨[0x40], legalHandle⟩).KeepsLines E ∧ (Builtin.sigil ⟨[0x23], legalHashtag E.U⟩).KeepsLines E ∧
    (Builtin.contractions contractionMappings).KeepsLines E ∧
    (Builtin.synonyms stackOverflowMappings true stackOverflowIgnore).KeepsLines E ∧
    (Builtin.synonyms nbaMappings true nbaIgnore).KeepsLines E := by
  have punct : ∀ {s : Bytes} {r : Rune}, runes s = [r] → E.U.isPunct r = true → ∀ t, TrueFlags E.U t → t.value = s → ¬ t.IsWord := by
    intro s r hs hr t hf hv hw
    have := hf.punct.2 (by rw [hv, hs]; simp [hr])
    simp [Token.IsWord, this] at hw
  refine ⟨⟨by simp [LineEnd], ?_, punct (s := [0x40]) (r := 0x40) (by decide +kernel) (by rw [hP _ (by decide)]; decide +kernel)⟩,
    ⟨by simp [LineEnd], ?_, punct (s := [0x23]) (r := 0x23) (by decide +kernel) (by rw [hP _ (by decide)]; decide +kernel)⟩, ?_, trivial, trivial⟩
  · rintro seg (rfl | rfl) <;> decide +kernel
  · rintro seg (rfl | rfl)
    · have h1 : (runes [0x0A]).length = 1 := by decide +kernel
      have h2 : (decodeRune [0x0A]).1 = 0x0A := by decide +kernel
      simp only [legalHashtag, h1, h2, ↓reduceIte, (hL 0x0A (.inl rfl)).1]
    · have h1 : runes [0x0D, 0x0A] = [0x0D, 0x0A] := by decide +kernel
      have := hL 0x0D (.inr rfl)
      simp [legalHashtag, h1, legalHashtagLoop, this.1, this.2]
  · intro seg hseg k x hk
    have hlow : E.U.lowerString seg = seg := by
      rcases hseg with rfl | rfl
      · have : runes [0x0A] = [0x0A] := by decide +kernel
        rw [Unicode.lowerString, this]
        simp only [List.map_cons, List.map_nil, hU 0x0A (by decide)]
        decide +kernel
      · have : runes [0x0D, 0x0A] = [0x0D, 0x0A] := by decide +kernel
        rw [Unicode.lowerString, this]
        simp only [List.map_cons, List.map_nil, hU 0x0A (by decide), hU 0x0D (by decide)]
        decide +kernel
    rw [hlow]
    have : ∀ p ∈ contractionMappings, p.1 ≠ [0x0A] ∧ p.1 ≠ [0x0D, 0x0A] := by decide +kernel
    rcases hseg with rfl | rfl
    · exact ⟨(this _ hk).1, (this _ hk).1⟩
    · exact ⟨(this _ hk).2, (this _ hk).2⟩

/-! ### why the conditions are there -/

/-- The tokens of a text after a pipeline. -/
theorem uax_pipeline {bs : List Builtin} {text : Bytes} {ws : List Bytes} {out : List Token}
    (hs : uaxEnv.scan { data := text } = (ws, none))
    (hc : Chain (bs.map (Builtin.apply uaxEnv)) (segTokens uaxEnv.U ws) .eof out .eof) :
    ((tokenize uaxEnv { data := text }).filter (bs.map (Builtin.apply uaxEnv))).Yields out .eof := by
  have y := tokenize_yields uaxEnv uaxEnv_lawful { data := text }
  rw [hs] at y
  exact C10_chain hc y

/-- Words first, synonyms afterwards: once the line ends are gone, a synonym is found across two lines. -/
theorem C108_words_first (bs : List Builtin) (hbs : bs = [.words, .synonyms [(str "a b", str "c")] true [0x20]]) :
    ((tokenize uaxEnv { data := str "a\nb" }).filter (bs.map (Builtin.apply uaxEnv))).Yields
      [mkToken uaxEnv.U (str "c") true] .eof ∧
    ((tokenize uaxEnv { data := str "a\n" }).filter (bs.map (Builtin.apply uaxEnv))).Yields
      [mkToken uaxEnv.U (str "a") false] .eof ∧
    ((tokenize uaxEnv { data := str "b" }).filter (bs.map (Builtin.apply uaxEnv))).Yields
      [mkToken uaxEnv.U (str "b") false] .eof := by
  subst hbs
  have hent : entries uaxEnv [(str "a b", str "c")] =
      [([mkToken uaxEnv.U (str "a") false, mkToken uaxEnv.U (str " ") false, mkToken uaxEnv.U (str "b") false], str "c")] := by
    decide +kernel
  have chain : ∀ {ws : List Bytes} {mid out : List Token},
      ((segTokens uaxEnv.U ws).filter fun t => !t.isPunct && !t.isSpace) = mid →
      Greedy ⟨uaxEnv.U, true, [0x20]⟩ ((Compare.mk uaxEnv.U true [0x20]).dict (entries uaxEnv [(str "a b", str "c")]))
        (wordLimit (entries uaxEnv [(str "a b", str "c")])) mid out →
      Chain ([Builtin.words, .synonyms [(str "a b", str "c")] true [0x20]].map (Builtin.apply uaxEnv)) (segTokens uaxEnv.U ws)
        .eof out .eof := by
    intro ws mid out hm hg
    refine .cons (mid := mid) (e' := .eof) (fun ts h => hm ▸ where_yields _ h) (.cons (e' := .eof) (fun ts h => ?_) .nil)
    have := synonyms_yields uaxEnv_lawful (mappings := [(str "a b", str "c")]) (by decide +kernel) h hg
    rwa [if_pos rfl] at this
  have one : ∀ (t : Token), t.IsWord → (Compare.mk uaxEnv.U true [0x20]).dict (entries uaxEnv [(str "a b", str "c")])
      ((Compare.mk uaxEnv.U true [0x20]).spell [t]) = none →
      Greedy ⟨uaxEnv.U, true, [0x20]⟩ ((Compare.mk uaxEnv.U true [0x20]).dict (entries uaxEnv [(str "a b", str "c")]))
        (wordLimit (entries uaxEnv [(str "a b", str "c")])) [t] [t] := by
    intro t ht hn
    refine .word ht (fun k hk => ?_) .nil
    have h1 := hk.pos
    have h2 := hk.le
    simp only [List.length_singleton] at h2
    rw [show k = 1 by omega]
    exact hn
  refine ⟨uax_pipeline (ws := [str "a", str "\n", str "b"]) (by decide +kernel) 
      (chain (mid := [mkToken uaxEnv.U (str "a") false, mkToken uaxEnv.U (str "b") false]) (by decide +kernel) ?_),
    uax_pipeline (ws := [str "a", str "\n"]) (by decide +kernel) (chain (mid := [mkToken uaxEnv.U (str "a") false]) (by decide +kernel) (one _ (by decide +kernel) ?_)),
    uax_pipeline (ws := [str "b"]) (by decide +kernel) (chain (mid := [mkToken uaxEnv.U (str "b") false]) (by decide +kernel) (one _ (by decide +kernel) ?_))⟩
  · have := greedy_whole (C := ⟨uaxEnv.U, true, [0x20]⟩)
      (D := (Compare.mk uaxEnv.U true [0x20]).dict (entries uaxEnv [(str "a b", str "c")]))
      (m := wordLimit (entries uaxEnv [(str "a b", str "c")])) (l := [mkToken uaxEnv.U (str "a") false])
      (last := mkToken uaxEnv.U (str "b") false) (canonical := str "c") rfl (by decide +kernel) (by decide +kernel)
      (by decide +kernel) (by decide +kernel) (by rw [hent]; decide +kernel) (by rw [hent]; decide +kernel)
    rw [show canonTokens uaxEnv.U (str "c") = [mkToken uaxEnv.U (str "c") true] by decide +kernel] at this
    exact this
  · rw [hent]; decide +kernel
  · rw [hent]; decide +kernel

/-- A sigil that is a word: after one that came to nothing at the end of a line, that at the beginning of the next line
is not taken for one. -/
theorem C108_word_sigil (bs : List Builtin)
    (hbs : bs = [.sigil ⟨str "rt", fun s => decide (s = str ".")⟩]) :
    ((tokenize uaxEnv { data := str "rt\nrt." }).filter (bs.map (Builtin.apply uaxEnv))).Yields
      ([str "rt", str "\n", str "rt", str "."].map (mkToken uaxEnv.U · false)) .eof ∧
    ((tokenize uaxEnv { data := str "rt\n" }).filter (bs.map (Builtin.apply uaxEnv))).Yields
      ([str "rt", str "\n"].map (mkToken uaxEnv.U · false)) .eof ∧
    ((tokenize uaxEnv { data := str "rt." }).filter (bs.map (Builtin.apply uaxEnv))).Yields
      [mkToken uaxEnv.U (str "rt.") true] .eof := by
  subst hbs
  have chain : ∀ {ws : List Bytes} {out : List Token},
      (sigilActual uaxEnv.U ⟨str "rt", fun s => decide (s = str ".")⟩ none (segTokens uaxEnv.U ws) .eof) = (out, .eof) →
      Chain ([Builtin.sigil ⟨str "rt", fun s => decide (s = str ".")⟩].map (Builtin.apply uaxEnv)) (segTokens uaxEnv.U ws)
        .eof out .eof := by
    intro ws out hs
    refine .cons (e' := .eof) (fun ts h => ?_) .nil
    have := sigil_yields (U := uaxEnv.U) (f := ⟨str "rt", fun s => decide (s = str ".")⟩) (by decide +kernel) h
    rwa [hs] at this
  exact ⟨uax_pipeline (ws := [str "rt", str "\n", str "rt", str "."]) (by decide +kernel) (chain (by decide +kernel)),
    uax_pipeline (ws := [str "rt", str "\n"]) (by decide +kernel) (chain (by decide +kernel)),
    uax_pipeline (ws := [str "rt", str "."]) (by decide +kernel) (chain (by decide +kernel))⟩

/-- Non-vacuity: tags, handles and hashtags, and then words, on two lines and a rest. -/
example := C108_lines uaxEnv_lawful uaxEnv_follows uaxTable_right
  (bs := [.synonyms stackOverflowMappings true stackOverflowIgnore, .sigil ⟨[0x40], legalHandle⟩,
    .sigil ⟨[0x23], legalHashtag uaxEnv.U⟩, .asciiFold])
  (after := [.words, .contractions contractionMappings])
  (by
    have h := C76_scanner_laws uaxEnv_follows uaxTable_right
    intro b hb
    simp only [List.mem_cons, List.not_mem_nil, or_false] at hb
    rcases hb with rfl | rfl | rfl | rfl
    · exact fun m hm => (h.2.1 m hm).scans
    · exact (by decide : ([0x40] : Bytes) ≠ [])
    · exact (by decide : ([0x23] : Bytes) ≠ [])
    · trivial)
  (by
    have h := C108_ready (E := uaxEnv) uaxEnv_lowers uaxEnv_punct (by rintro r (rfl | rfl) <;> decide +kernel)
    intro b hb
    simp only [List.mem_cons, List.not_mem_nil, or_false] at hb
    rcases hb with rfl | rfl | rfl | rfl
    · exact h.2.2.2.1
    · exact h.1
    · exact h.2.1
    · trivial)
  (by
    intro b hb
    simp only [List.mem_cons, List.not_mem_nil, or_false] at hb
    rcases hb with rfl | rfl
    · trivial
    · exact (C76_scanner_laws uaxEnv_follows uaxTable_right).2.2.2)
  (by intro b hb; simp only [List.mem_cons, List.not_mem_nil, or_false] at hb; rcases hb with rfl | rfl <;> trivial)
  (str "@bob") (lines := [str "#go\n", str "Ruby on rails\r\n"])
  (by
    intro l hl
    simp only [List.mem_cons, List.not_mem_nil, or_false] at hl
    rcases hl with rfl | rfl
    · exact ⟨str "#go", by decide +kernel⟩
    · exact ⟨str "Ruby on rails\r", by decide +kernel⟩) (.inl (by decide +kernel))

end Jargon
