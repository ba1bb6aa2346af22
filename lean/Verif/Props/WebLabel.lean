import Verif.Model.Sniff
import Verif.Props.WebPage

/-! C104: how the answers of the web demo are labelled. -/

namespace Jargon

/-- What the demo writes begins, after white space, with its own tag or with no tag at all. -/
theorem rendered_start [HtmlReader] (out : List Token) :
    (out.flatMap rendered).dropWhile sniffSpace = [] ∨
    (∃ b s, (out.flatMap rendered).dropWhile sniffSpace = b :: s ∧ b ≠ 0x3C) ∨
    ∃ s, (out.flatMap rendered).dropWhile sniffSpace = 0x3C :: 0x73 :: 0x70 :: s := by
  induction out with
  | nil => left; rfl
  | cons t out ih =>
    rw [List.flatMap_cons]
    have hspan : str "<span class=\"lemma\">" = 0x3C :: 0x73 :: 0x70 :: (str "<span class=\"lemma\">").drop 3 := by
      decide +kernel
    cases hl : t.lemma
    · have e : rendered t = templateEscape t.value := by simp [rendered, hl, plainTemplate, Token.string]
      rw [e]
      have hf := templateEscape_free t.value
      generalize templateEscape t.value = v at hf
      induction v with
      | nil => exact ih
      | cons b v ihv =>
        simp only [List.mem_cons, not_or] at hf
        rw [List.cons_append, List.dropWhile_cons]
        split
        · exact ihv hf.2
        · exact .inr (.inl ⟨_, _, rfl, Ne.symm hf.1⟩)
    · have e : rendered t = str "<span class=\"lemma\">" ++ (templateEscape t.value ++ str "</span>") := by
        simp [rendered, hl, lemmaTemplate, Token.string]
      refine .inr (.inr ⟨(str "<span class=\"lemma\">").drop 3 ++ (templateEscape t.value ++ str "</span>") ++
        out.flatMap rendered, ?_⟩)
      rw [e, hspan, List.append_assoc, List.cons_append, List.dropWhile_cons, if_neg (by decide)]
      simp

theorem dropWhile_take {α : Type} (p : α → Bool) (l : List α) (n : Nat) : ∃ m, (l.take n).dropWhile p = (l.dropWhile p).take m := by
  induction l generalizing n with
  | nil => exact ⟨0, by simp⟩
  | cons a l ih =>
    cases n with
    | zero => exact ⟨0, by simp⟩
    | succ n =>
      rw [List.take_succ_cons, List.dropWhile_cons, List.dropWhile_cons]
      split
      · exact ih n
      · exact ⟨n + 1, rfl⟩

/-- A byte fits one of a signature. -/
def sigByte (s b : UInt8) : Bool := (if 0x41 ≤ s ∧ s ≤ 0x5A then b &&& 0xDF else b) == s

/-- A signature that begins with `<`, but not with `<sp`. -/
def notSpan : Bytes → Bool
  | a :: b :: c => a == 0x3C && !(sigByte b 0x73 && match c with | d :: _ => sigByte d 0x70 | [] => false)
  | _ => false

/-- No signature of HTML fits what begins so. -/
theorem htmlSigMatch_not {sig : Bytes} (hsig : sig ∈ htmlSigs) {data : Bytes}
    (h : data = [] ∨ (∃ b s, data = b :: s ∧ b ≠ 0x3C) ∨ ∃ s m, data = (0x3C :: 0x73 :: 0x70 :: s : Bytes).take m) :
    htmlSigMatch sig data = false := by
  have hall : ∀ sig ∈ htmlSigs, notSpan sig = true := by decide +kernel
  have hn := hall sig hsig
  match sig, hn with
  | a :: b :: c, hn =>
    simp only [notSpan, Bool.and_eq_true, beq_iff_eq, Bool.not_eq_true'] at hn
    obtain ⟨rfl, hn⟩ := hn
    rcases h with rfl | ⟨x, s, rfl, hx⟩ | ⟨s, m, rfl⟩
    · rfl
    · rw [htmlSigMatch, if_neg (by decide)]
      simp [hx]
    · match m with
      | 0 => rfl
      | 1 => simp [htmlSigMatch]
      | 2 => cases c <;> simp [htmlSigMatch]
      | m + 3 =>
        simp only [List.take_succ_cons]
        rw [htmlSigMatch, htmlSigMatch]
        have hb : ((if 0x41 ≤ b ∧ b ≤ 0x5A then (0x73 : UInt8) &&& 0xDF else 0x73) == b) = sigByte b 0x73 := rfl
        rw [hb]
        cases c with
        | nil => simp [htmlSigMatch]
        | cons d c =>
          rw [htmlSigMatch]
          have hd : ((if 0x41 ≤ d ∧ d ≤ 0x5A then (0x70 : UInt8) &&& 0xDF else 0x70) == d) = sigByte d 0x70 := rfl
          rw [hd]
          cases h1 : sigByte b 0x73 <;> cases h2 : sigByte d 0x70 <;> simp_all

/-- **C104.** Whatever is sent to the web demo: the answer is not labelled as HTML, nor as XML; so, if it is opened by
itself, a browser shows it as it is, and nothing of it is run. -/
theorem C104_label {E : Env} (hE : E.Lawful)
    (hs : ∀ m ∈ stackOverflowMappings, (E.scan { data := m.1 }).2 = none)
    (parse : HtmlParse) (r : Request) (hp : TextNonempty (parse r.body).1) (other : Bytes → Bytes) :
    ∃ w, mainHandler E parse r = Go.ret w ∧ detectContentType other w.body = other (w.body.take 512) := by
  have key : ∀ out : List Token, detectContentType other (out.flatMap rendered) = other ((out.flatMap rendered).take 512) := by
    intro out
    obtain ⟨m, hm⟩ := dropWhile_take sniffSpace (out.flatMap rendered) 512
    have hstart := @rendered_start sampleReader out
    unfold detectContentType
    simp only
    have hdata : ((out.flatMap rendered).take 512).dropWhile sniffSpace = [] ∨
        (∃ b s, ((out.flatMap rendered).take 512).dropWhile sniffSpace = b :: s ∧ b ≠ 0x3C) ∨
        ∃ s m, ((out.flatMap rendered).take 512).dropWhile sniffSpace =
          (0x3C :: 0x73 :: 0x70 :: s : Bytes).take m := by
      rw [hm]
      rcases hstart with h | ⟨b, s, h, hb⟩ | ⟨s, h⟩ <;> rw [h]
      · left; simp
      · cases m with
        | zero => left; rfl
        | succ m => exact .inr (.inl ⟨b, s.take m, rfl, hb⟩)
      · exact .inr (.inr ⟨s, m, rfl⟩)
    rw [if_neg, if_neg]
    · intro hx
      have hxml : str "<?xml" = [0x3C, 0x3F, 0x78, 0x6D, 0x6C] := by decide +kernel
      rw [hxml] at hx
      rcases hdata with h | ⟨b, s, h, hb⟩ | ⟨s, m, h⟩ <;> rw [h] at hx
      · simp at hx
      · simp [List.isPrefixOf, Ne.symm hb] at hx
      · match m with
        | 0 => simp at hx
        | 1 => simp [List.isPrefixOf] at hx
        | m + 2 => simp [List.isPrefixOf] at hx
    · simp only [List.any_eq_true, not_exists, not_and, Bool.not_eq_true]
      exact fun sig hsig => htmlSigMatch_not hsig hdata
  have hplain : ∀ s ∈ [str "404 page not found\n", []], detectContentType other s = other (s.take 512) := by
    have h : ∀ s ∈ [str "404 page not found\n", []], (htmlSigs.any fun sig =>
        htmlSigMatch sig ((s.take 512).dropWhile sniffSpace)) = false ∧
        (str "<?xml").isPrefixOf ((s.take 512).dropWhile sniffSpace) = false := by decide +kernel
    intro s hs
    simp [detectContentType, h s hs]
  obtain ⟨h1, h2⟩ := C51_web hE hs parse r hp
  by_cases hm : r.method = str "OPTIONS"
  · exact ⟨_, h1 hm, hplain _ (by simp)⟩
  · obtain ⟨h3, -, h5⟩ := h2 hm
    by_cases hno : ∀ route, IsRoute r.path route → routeStream E parse r.body route = none
    · exact ⟨_, h3 hno, hplain _ (by simp)⟩
    · simp only [not_forall] at hno
      obtain ⟨route, hroute, hr⟩ := hno
      cases hrs : routeStream E parse r.body route with
      | none => exact absurd hrs hr
      | some p =>
        obtain ⟨toks, e⟩ := p
        cases e with
        | eof =>
          obtain ⟨out, hg⟩ := Greedy.total (tagCompare E) (tagDict E)
            (wordLimit (entries E stackOverflowMappings)) toks
          exact ⟨_, web_answer hE hs hp hm hroute hrs hg, key out⟩
        | fail e => exact ⟨_, h5 route toks e hroute hrs, hplain _ (by simp)⟩

/-! Non-vacuity: there are texts labelled as HTML and XML; what the demo writes for them is not. -/

example : detectContentType id (str " <b >") = str "text/html; charset=utf-8" ∧
    detectContentType id (str "<?xml?>") = str "text/xml; charset=utf-8" ∧
    detectContentType id (templateEscape (str "<b >")) = str "&lt;b &gt;" := by decide +kernel

end Jargon
