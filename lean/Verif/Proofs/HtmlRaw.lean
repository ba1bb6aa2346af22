import Verif.Proofs.HtmlRead

/-! Rendered HTML documents read back, apart from the content of elements with raw text. -/

namespace Jargon

variable [HtmlReader]

omit [HtmlReader] in
theorem after_html {out : List HTok} {r : Reading} (h : ∀ x ∈ out, x.opensRawText = false) :
    DocReading.after out r = .html r := by
  unfold DocReading.after
  cases hl : out.getLast? with
  | none => rfl
  | some x => simp [h x (List.mem_of_getLast? hl)]

theorem run_steps (r : Reading) (a s : Bytes) (h : ∀ x ∈ (r.steps a).1, x.opensRawText = false) :
    DocReading.run (.html r) (a ++ s) = (r.steps a).1 ++ DocReading.run (.html (r.steps a).2) s := by
  induction a generalizing r with
  | nil => rfl
  | cons b a ih =>
    simp only [Reading.steps, List.mem_append] at h
    rw [List.cons_append, DocReading.run, DocReading.step, after_html fun x hx => h x (.inl hx),
      ih _ fun x hx => h x (.inr hx), Reading.steps, List.append_assoc]

theorem textEvent_not_opening (raw : Bytes) : ∀ x ∈ textEvent raw, x.opensRawText = false := by
  intro x hx
  unfold textEvent at hx
  split at hx
  · simp at hx
  · simp only [List.mem_singleton] at hx
    subst hx; rfl

/-- One token in HTML, after some text. -/
theorem run_token (h : HTok) (hr : Readable h) (hk : Kept h) (ht : h.type ≠ .text) (raw s : Bytes) :
    DocReading.run (.html (.text raw)) (h.string ++ s) = textEvent raw ++ h ::
      DocReading.run (if h.opensRawText then .raw h.data [] else .html (.text [])) s := by
  obtain ⟨init, b, r, h1, h2, h3⟩ := steps_token h hr hk ht raw
  rw [h1, List.append_assoc, run_steps _ _ _ (by rw [h2]; exact textEvent_not_opening raw), h2,
    List.singleton_append, DocReading.run, DocReading.step, h3]
  simp [DocReading.after]

omit [HtmlReader] in
/-- The first `c` in a suffix that begins with it. -/
theorem suffix_unique {c : UInt8} {x y z : Bytes} (hx : c ∉ x) (hy : c ∉ y) (h : c :: z <:+ x ++ c :: y) :
    z = y := by
  obtain ⟨t, ht⟩ := h
  rcases List.append_eq_append_iff.mp ht with ⟨a, h1, h2⟩ | ⟨a, h1, h2⟩
  · cases a with
    | nil => simpa using h2
    | cons d a =>
      simp only [List.cons_append, List.cons.injEq] at h2
      exact absurd (by rw [h1, ← h2.1]; simp) hx
  · cases a with
    | nil => simpa using h2.symm
    | cons d a =>
      simp only [List.cons_append, List.cons.injEq] at h2
      exact absurd (by rw [h2.2]; simp) hy

omit [HtmlReader] in
theorem lower_lt {b : UInt8} (h : lowerByte b = 0x3C) : b = 0x3C := by
  unfold lowerByte at h
  split at h
  · rename_i hu
    have : isUpperByte b = true → b + 0x20 ≠ 0x3C := by
      intro hu
      simp only [isUpperByte, Bool.and_eq_true, decide_eq_true_eq] at hu
      obtain ⟨h1, h2⟩ := hu
      intro he
      have e := congrArg UInt8.toNat he
      simp only [UInt8.toNat_add] at e
      have a1 : (0x41 : UInt8).toNat ≤ b.toNat := h1
      have a2 : b.toNat ≤ (0x5A : UInt8).toNat := h2
      simp at e a1 a2
      omega
    exact absurd h (this hu)
  · exact h

omit [HtmlReader] in
theorem lower_free {a : Bytes} (h : 0x3C ∉ a) : 0x3C ∉ a.map lowerByte := by
  intro hm
  obtain ⟨b, hb, he⟩ := List.mem_map.mp hm
  exact h (lower_lt he ▸ hb)

omit [HtmlReader] in
theorem lt_slash : str "</" = [0x3C, 0x2F] := by decide +kernel

omit [HtmlReader] in
theorem endsWithTag_snoc (o n acc : Bytes) (b : UInt8) : endsWithTag o n (acc ++ [b]) =
    ((isHtmlSpace b || b == 0x2F || b == 0x3E) && (o ++ n).isSuffixOf (acc.map lowerByte)) := by
  simp [endsWithTag]

/-- A byte that stays in the raw text. -/
theorem run_raw_quiet {n acc : Bytes} {b : UInt8} (s : Bytes)
    (h1 : endsWithTag (str "</") n (acc ++ [b]) = false) :
    DocReading.run (.raw n acc) (b :: s) = DocReading.run (.raw n (acc ++ [b])) s := by
  rw [DocReading.run, DocReading.step, if_neg (by simp [h1])]
  simp

/-- Raw text without `<`. -/
theorem run_raw {n acc : Bytes} (a s : Bytes) (h1 : 0x3C ∉ acc) (h2 : 0x3C ∉ a) :
    DocReading.run (.raw n acc) (a ++ s) = DocReading.run (.raw n (acc ++ a)) s := by
  induction a generalizing acc with
  | nil => simp
  | cons b a ih =>
    simp only [List.mem_cons, not_or] at h2
    have hb : 0x3C ∉ acc ++ [b] := by simp [h1, h2.1]
    rw [List.cons_append, run_raw_quiet, ih hb h2.2, List.append_assoc, List.singleton_append]
    rw [endsWithTag_snoc, Bool.and_eq_false_iff]
    right
    rw [Bool.eq_false_iff]
    intro hs
    have := List.isSuffixOf_iff_suffix.mp hs
    exact lower_free h1 (this.subset (by rw [lt_slash]; simp))

omit [HtmlReader] in
theorem rawNames_free : ∀ n ∈ rawNames, 0x3C ∉ n := by decide +kernel

omit [HtmlReader] in
theorem rawNames_ne : ∀ n ∈ rawNames, n ≠ [] := by decide +kernel

omit [HtmlReader] in
theorem lower_name {n : Bytes} (h : NameLike n) : n.map lowerByte = n := by
  induction n with
  | nil => rfl
  | cons b n ih =>
    rw [List.map_cons, ih fun x hx => h x (by simp [hx])]
    simp [lowerByte, (h b (by simp)).2.2.2]

/-- The end tag of an element with raw text. -/
theorem run_raw_end {n acc : Bytes} (s : Bytes) (hp : n ≠ str "plaintext")
    (hname : NameLike n) (h1 : 0x3C ∉ acc) :
    DocReading.run (.raw n acc) (0x3C :: 0x2F :: (n ++ 0x3E :: s)) =
      rawEvent n acc ++ tagEvent .endTag n [] false :: DocReading.run (.html (.text [])) s := by
  have quiet : ∀ p q, n = p ++ q →
      DocReading.run (.raw n (acc ++ 0x3C :: 0x2F :: p)) (q ++ 0x3E :: s) =
        DocReading.run (.raw n (acc ++ 0x3C :: 0x2F :: n)) (0x3E :: s) := by
    intro p q
    induction q generalizing p with
    | nil => intro h; simp only [List.append_nil] at h; subst h; rfl
    | cons b q ih =>
      intro h
      obtain ⟨a1, a2, a3, a4⟩ := hname b (by rw [h]; simp)
      rw [List.cons_append, run_raw_quiet]
      · have := ih (p ++ [b]) (by rw [h]; simp)
        simpa using this
      · rw [endsWithTag_snoc]; simp [a1, a2, a3]
  rw [run_raw_quiet, run_raw_quiet]
  · have := quiet [] n rfl
    have e2 : (acc ++ 0x3C :: 0x2F :: n).take ((acc ++ 0x3C :: 0x2F :: n).length - (n.length + 2)) = acc := by
      simp
    simp only [List.append_assoc, List.cons_append, List.nil_append]
    rw [this, DocReading.run, DocReading.step, e2, if_pos]
    · have e1 : (Reading.name .endTag n).step 0x3E = ([tagEvent .endTag n [] false], .text []) := by
        simp [Reading.step, isHtmlSpace]
      rw [e1]
      simp
    · refine ⟨?_, by simp [closesRaw, hp, HtmlReader.closes acc h1]⟩
      rw [endsWithTag_snoc, lt_slash]
      simp only [beq_self_eq_true, Bool.or_true, Bool.true_and, List.isSuffixOf_iff_suffix]
      refine ⟨acc.map lowerByte, ?_⟩
      have f1 : lowerByte 0x3C = 0x3C := by decide
      have f2 : lowerByte 0x2F = 0x2F := by decide
      simp [lower_name hname, f1, f2]
  · rw [endsWithTag_snoc, Bool.and_eq_false_iff]
    right
    rw [Bool.eq_false_iff]
    intro hs
    have hs := List.isSuffixOf_iff_suffix.mp hs
    have f1 : lowerByte 0x3C = 0x3C := by decide
    rw [lt_slash] at hs
    have := suffix_unique (c := 0x3C) (x := acc.map lowerByte) (y := []) (z := 0x2F :: n) (lower_free h1)
      (by simp) (by simpa [f1] using hs)
    simp at this
  · rw [endsWithTag_snoc]
    simp [isHtmlSpace]

omit [HtmlReader] in
theorem opens_raw {h : HTok} (ho : h.opensRawText = true) : h.data ∈ rawNames := by
  simp only [HTok.opensRawText, Bool.and_eq_true] at ho
  simpa using ho.2

theorem render_run (hs : List HTok) (hk : ∀ h ∈ hs, Kept h) :
    (∀ raw, ReadableFrom none (decide (raw ≠ [])) hs →
      DocReading.run (.html (.text raw)) (hs.flatMap HTok.string) = textEvent raw ++ escapeRaw none hs) ∧
    (∀ n acc, n ∈ rawNames → 0x3C ∉ acc → ReadableFrom (some n) (decide (acc ≠ [])) hs →
      DocReading.run (.raw n acc) (hs.flatMap HTok.string) = rawEvent n acc ++ escapeRaw (some n) hs) := by
  induction hs with
  | nil =>
    refine ⟨?_, ?_⟩
    · intro raw _; simp [DocReading.run, DocReading.finish, Reading.finish, escapeRaw]
    · intro n acc _ _ _; simp [DocReading.run, DocReading.finish, escapeRaw]
  | cons h hs ih =>
    have ih := ih fun x hx => hk x (by simp [hx])
    have hkh := hk h (by simp)
    refine ⟨?_, ?_⟩
    · rintro raw ⟨h1, h2, -, h4⟩
      rw [List.flatMap_cons]
      by_cases ht : h.type = .text
      · have hraw : raw = [] := by simpa using (h2 ht).1
        subst hraw
        obtain ⟨a1, a2, a3⟩ : h.data ≠ [] ∧ h.attr = [] ∧ h.dataAtom = .zero := by
          simpa [Readable, ht] using h1
        have hst : h.string = htmlEscape h.data := by simp [HTok.string, ht]
        have hsteps := Reading.steps_text [] (htmlEscape h.data) (escape_free h.data).1
        have e1 : rawAfter none h = none := by simp [rawAfter, ht]
        have e2 : (h.type == HType.text) = true := by simp [ht]
        rw [e1, e2] at h4
        have ih1 := ih.1 (htmlEscape h.data) (by simpa [escape_ne a1] using h4)
        rw [hst, run_steps _ _ _ (by rw [hsteps]; simp), hsteps, List.nil_append, List.nil_append, ih1]
        rw [textEvent, textEvent, if_neg (escape_ne a1), if_pos rfl, cookText_escape, escapeRaw, e1,
          if_neg (by simp), List.nil_append, List.singleton_append, ← ht, ← a3, ← a2]
      · have e0 : escapeRaw none (h :: hs) = h :: escapeRaw (rawAfter none h) hs := by
          rw [escapeRaw, if_neg (by simp [ht])]
        rw [run_token h h1 hkh ht, e0]
        congr 2
        have hb : (h.type == HType.text) = false := by simp [ht]
        rw [hb] at h4
        by_cases ho : h.opensRawText = true
        · have e1 : rawAfter none h = some h.data := by simp [rawAfter, ht, ho]
          rw [e1] at h4 ⊢
          rw [if_pos ho, ih.2 h.data [] (opens_raw ho) (by simp) (by simpa using h4)]
          simp [rawEvent]
        · have e1 : rawAfter none h = none := by simp [rawAfter, ht, ho]
          rw [e1] at h4 ⊢
          rw [if_neg ho, ih.1 [] (by simpa using h4)]
          simp [textEvent]
    · rintro n acc hn hacc ⟨h1, h2, h3, h4⟩
      rw [List.flatMap_cons]
      by_cases ht : h.type = .text
      · have hraw : acc = [] := by simpa using (h2 ht).1
        have hnul : 0 ∉ h.data := (h2 ht).2 (by simp)
        subst hraw
        obtain ⟨a1, a2, a3⟩ : h.data ≠ [] ∧ h.attr = [] ∧ h.dataAtom = .zero := by
          simpa [Readable, ht] using h1
        have hst : h.string = htmlEscape h.data := by simp [HTok.string, ht]
        have e1 : rawAfter (some n) h = some n := by simp [rawAfter, ht]
        have e2 : (h.type == HType.text) = true := by simp [ht]
        rw [e1, e2] at h4
        have ih2 := ih.2 n (htmlEscape h.data) hn (escape_free h.data).1 (by simpa [escape_ne a1] using h4)
        rw [hst, run_raw _ _ hacc (escape_free h.data).1, List.nil_append, ih2, escapeRaw, e1]
        rw [rawEvent, rawEvent, if_neg (escape_ne a1), if_pos rfl, cookRcdata_escape hnul, cookRaw_escape hnul, List.nil_append,
          List.singleton_append]
        congr 1
        by_cases hrc : rcdataNames.contains n = true
        · rw [if_pos hrc, if_neg (by simpa using fun _ => hrc), ← ht, ← a3, ← a2]
        · rw [if_neg hrc, if_pos ⟨ht, n, rfl, by simpa using hrc⟩]
          rw [← ht, ← a3, ← a2]
      · obtain ⟨b1, b2, b3⟩ := h3 n rfl ht
        obtain ⟨c0, c1, c2, -⟩ : h.attr = [] ∧ h.dataAtom = atomOf h.data ∧ NameLike h.data ∧
          (∃ b ∈ h.data.head?, isTagLetter b) := by simpa [Readable, b1] using h1
        have hst : h.string = 0x3C :: 0x2F :: (h.data ++ [0x3E]) := by
          have e2 : str ">" = [0x3E] := by decide +kernel
          simp [HTok.string, b1, Reading.tagString_eq, lt_slash, e2, c0]
        have hop : h.opensRawText = false := by simp [HTok.opensRawText, b1]
        have e1 : rawAfter (some n) h = none := by simp [rawAfter, ht, hop]
        have e2 : (h.type == HType.text) = false := by simp [ht]
        rw [e1, e2] at h4
        subst b2
        rw [hst]
        simp only [List.cons_append, List.append_assoc, List.nil_append]
        rw [run_raw_end _ b3 c2 hacc, ih.1 [] (by simpa using h4), escapeRaw, e1, if_neg (by simp [ht])]
        have : tagEvent .endTag h.data [] false = h := by
          rw [tagEvent, if_pos rfl, ← c1, ← b1, ← c0]
        rw [this]
        simp [textEvent]

/-- A rendered document, read: the same tokens, apart from the content of elements with raw text. -/
theorem htmlTokens_render (hs : List HTok) (h : ReadableDoc hs) (hk : ∀ h ∈ hs, Kept h) :
    htmlTokens (hs.flatMap HTok.string) = escapeRaw none hs := by
  have := (render_run hs hk).1 [] (by simpa [ReadableDoc] using h)
  simpa [textEvent, htmlTokens] using this

end Jargon
