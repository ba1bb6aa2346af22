import Verif.Model.Sharing
import Verif.Proofs.Sticky
import Verif.Props.Simple

/-! C96: several views of one stream, as made by `Where`, `Words`, `Lemmas` and `Distinct`, read in turns. -/

namespace Jargon

variable {ι : Type} [DecidableEq ι]

/-- From state `s` on, every call answers no token, and the error of this end if it has one, for ever. -/
def Over {σ : Type} (next : NextFn σ) (e : End) (s : σ) : Prop :=
  ∃ P : σ → Prop, P s ∧ ∀ s, P s → ∃ s', next s = Go.ret ({ tok := none, err := e.err }, s') ∧ P s'

/-- The stream delivers these tokens, and then it is over. -/
def TokenStream.Lasts (ts : TokenStream) (toks : List Token) (e : End) : Prop :=
  ∃ s', Steps ts.nextFn ts.st toks s' ∧ Over ts.nextFn e s'

/-- What a view wants; `mine` is what it has got so far. -/
def View.wants (v : View) (mine : List Token) (t : Token) : Bool :=
  match v with
  | .next => true
  | .where p => p t
  | .distinct => decide (t.value ∉ mine.map Token.value)

/-- What each call gets: the first token of the rest that it wants. The tokens before it are gone, for all. -/
def deal (views : ι → View) : (ι → List Token) → List Token → List ι → List (Option Token)
  | _, _, [] => []
  | got, toks, i :: calls =>
    match toks.dropWhile fun t => !(views i).wants (got i) t with
    | [] => none :: deal views got [] calls
    | t :: rest => some t :: deal views (fun j => if j = i then got i ++ [t] else got j) rest calls

/-- The answer of a call, for a stream that ends like this. -/
def answer (e : End) : Option Token → Res
  | some t => { tok := some t, err := none }
  | none => { tok := none, err := e.err }

/-- The answers of the view `i` among those of these calls. -/
def answersOf {α : Type} (i : ι) (calls : List ι) (answers : List α) : List α :=
  ((calls.zip answers).filter fun x => x.1 = i).map Prod.snd

/-- **C96, as one would like it.** A view delivers what it delivers if it is the only one. -/
def C96_full (views : ι → View) : Prop := ∀ (ts : TokenStream) (toks : List Token) (e : End), ts.Lasts toks e →
  ∀ (calls : List ι) (i : ι), ∃ rs s rs' s',
    sharedCalls ts.call views { up := ts.st, seen := fun _ => [] } calls = Go.ret (rs, s) ∧
    sharedCalls ts.call views { up := ts.st, seen := fun _ => [] } (List.replicate (calls.count i) i) = Go.ret (rs', s') ∧
    answersOf i calls rs = rs'

/-! ### proofs -/

theorem Over.step {σ : Type} {next : NextFn σ} {e : End} {s : σ} (h : Over next e s) :
    ∃ s', next s = Go.ret ({ tok := none, err := e.err }, s') ∧ Over next e s' := by
  obtain ⟨P, hs, hP⟩ := h
  obtain ⟨s', h1, h2⟩ := hP s hs
  exact ⟨s', h1, P, h2, hP⟩

/-- The same of the closure, in any state. -/
def Going {σ : Type} (call : NextFn σ) (toks : List Token) (e : End) (s : TS σ) : Prop :=
  ∃ s', Steps (TS.next call) s toks s' ∧ Over (TS.next call) e s'

theorem Going.nil {σ : Type} {call : NextFn σ} {e : End} {s : TS σ} (h : Going call [] e s) :
    ∃ s', TS.next call s = Go.ret ({ tok := none, err := e.err }, s') ∧ Going call [] e s' := by
  obtain ⟨x, rfl, h2⟩ := h
  obtain ⟨s', h3, h4⟩ := h2.step
  exact ⟨s', h3, s', rfl, h4⟩

theorem Going.cons {σ : Type} {call : NextFn σ} {t : Token} {toks : List Token} {e : End} {s : TS σ}
    (h : Going call (t :: toks) e s) :
    ∃ s', TS.next call s = Go.ret ({ tok := some t, err := none }, s') ∧ Going call toks e s' := by
  obtain ⟨x, ⟨y, h1, h2⟩, h3⟩ := h
  exact ⟨y, h1, x, h2, h3⟩

theorem whereNext_nil {σ ρ : Type} {call : NextFn σ} {pred : ρ → Token → Bool × ρ} {e : End} {s : TS σ} (p : ρ)
    (h : Going call [] e s) :
    ∃ s', whereNext call pred (s, p) = Go.ret ({ tok := none, err := e.err }, (s', p)) ∧ Going call [] e s' := by
  obtain ⟨s', h1, h2⟩ := h.nil
  refine ⟨s', ?_, h2⟩
  rw [whereNext]
  cases e <;> simp [h1]

theorem whereNext_dropWhile {σ ρ : Type} {call : NextFn σ} {pred : ρ → Token → Bool × ρ} {e : End} (p : ρ)
    (hstay : ∀ t, (pred p t).1 = false → (pred p t).2 = p) :
    ∀ {toks : List Token} {s : TS σ}, Going call toks e s →
      match toks.dropWhile fun t => !(pred p t).1 with
      | [] => ∃ s', whereNext call pred (s, p) = Go.ret ({ tok := none, err := e.err }, (s', p)) ∧ Going call [] e s'
      | t :: rest => ∃ s', whereNext call pred (s, p) = Go.ret ({ tok := some t, err := none }, (s', (pred p t).2)) ∧
          Going call rest e s'
  | [], s, h => whereNext_nil p h
  | t :: toks, s, h => by
    obtain ⟨x, h1, h2⟩ := h.cons
    cases hp : (pred p t).1 with
    | true =>
      rw [List.dropWhile_cons_of_neg (by simp [hp])]
      refine ⟨x, ?_, h2⟩
      rw [whereNext]; simp [h1, hp]
    | false =>
      rw [List.dropWhile_cons_of_pos (by simp [hp])]
      have := whereNext_dropWhile p hstay h2
      have he : whereNext call pred (s, p) = whereNext call pred (x, p) := by
        conv_lhs => rw [whereNext]
        simp [h1, hp, hstay t hp]
      rw [he]
      exact this

theorem pred_stay (v : View) (seen : List Bytes) (t : Token) (h : (v.pred seen t).1 = false) :
    (v.pred seen t).2 = seen := by
  cases v with
  | next => rfl
  | «where» p => rfl
  | distinct =>
    simp only [View.pred, isDistinct, Bool.not_eq_eq_eq_not, Bool.not_false] at h ⊢
    rw [if_pos h]

/-- The map `seen` of a view and what it has got. -/
def Knows (v : View) (seen : List Bytes) (mine : List Token) : Prop :=
  v = .distinct → ∀ b, b ∈ seen ↔ b ∈ mine.map Token.value

theorem Knows.wants {v : View} {seen : List Bytes} {mine : List Token} (h : Knows v seen mine) (t : Token) :
    (v.pred seen t).1 = v.wants mine t := by
  cases v with
  | next => rfl
  | «where» p => rfl
  | distinct =>
    have := h rfl t.value
    change (!seen.contains t.value) = decide (t.value ∉ mine.map Token.value)
    rw [decide_not, ← decide_eq_decide.2 this, List.contains_eq_mem]

theorem Knows.got {v : View} {seen : List Bytes} {mine : List Token} (h : Knows v seen mine) {t : Token}
    (hw : v.wants mine t = true) : Knows v (v.pred seen t).2 (mine ++ [t]) := by
  rintro rfl b
  have hk := h rfl b
  have hw' := (h.wants t).trans hw
  change (!seen.contains t.value) = true at hw'
  change b ∈ (if seen.contains t.value then seen else t.value :: seen) ↔ _
  rw [if_neg (by simpa using hw')]
  simp only [List.mem_cons, hk, List.map_append, List.mem_append, List.map_cons, List.map_nil, List.not_mem_nil, or_false]
  exact or_comm

theorem sharedCall_spec {σ : Type} {call : NextFn σ} {views : ι → View} {s : SharedViews σ ι} {toks : List Token} {e : End}
    {got : ι → List Token} (h : Going call toks e s.up) (hk : ∀ i, Knows (views i) (s.seen i) (got i)) (i : ι) :
    match toks.dropWhile fun t => !(views i).wants (got i) t with
    | [] => ∃ s', sharedCall call views s i = Go.ret (answer e none, s') ∧ Going call [] e s'.up ∧
        ∀ j, Knows (views j) (s'.seen j) (got j)
    | t :: rest => ∃ s', sharedCall call views s i = Go.ret (answer e (some t), s') ∧ Going call rest e s'.up ∧
        ∀ j, Knows (views j) (s'.seen j) (if j = i then got i ++ [t] else got j) := by
  have key : ∀ v, views i = v → v ≠ .next →
      sharedCall call views s i = (do
        let (r, (up, seen)) ← whereNext call v.pred (s.up, s.seen i)
        pure (r, { up, seen := fun j => if j = i then seen else s.seen j })) := by
    intro v hv hne
    rw [sharedCall, hv]
    cases v <;> first | exact absurd rfl hne | rfl
  by_cases hv : views i = .next
  · have hs : sharedCall call views s i = (do
        let (r, up) ← TS.next call s.up
        pure (r, { s with up })) := by
      rw [sharedCall, hv]
    rw [hs]
    have hw : (fun t => !(views i).wants (got i) t) = fun _ => false := by
      funext t; rw [hv]; rfl
    rw [hw]
    cases toks with
    | nil =>
      obtain ⟨x, h1, h2⟩ := h.nil
      exact ⟨{ s with up := x }, by rw [h1]; rfl, h2, hk⟩
    | cons t rest =>
      obtain ⟨x, h1, h2⟩ := h.cons
      rw [List.dropWhile_cons_of_neg (by simp)]
      refine ⟨{ s with up := x }, by rw [h1]; rfl, h2, fun j => ?_⟩
      by_cases hj : j = i
      · subst hj
        rw [hv]
        intro h'
        cases h'
      · simp only [hj, ↓reduceIte]
        exact hk j
  · rw [key _ rfl hv]
    have hw : (fun t => !(views i).wants (got i) t) = fun t => !((views i).pred (s.seen i) t).1 := by
      funext t; rw [(hk i).wants]
    have := whereNext_dropWhile (s.seen i) (pred_stay (views i) (s.seen i)) h
    rw [← hw] at this
    split at this
    · obtain ⟨x, h1, h2⟩ := this
      refine ⟨{ up := x, seen := fun j => if j = i then s.seen i else s.seen j }, by rw [h1]; rfl, h2, fun j => ?_⟩
      by_cases hj : j = i
      · subst hj; simp only [↓reduceIte]; exact hk j
      · simp only [hj, ↓reduceIte]; exact hk j
    · rename_i t rest hd
      obtain ⟨x, h1, h2⟩ := this
      refine ⟨{ up := x, seen := fun j => if j = i then ((views i).pred (s.seen i) t).2 else s.seen j },
        by rw [h1]; rfl, h2, fun j => ?_⟩
      by_cases hj : j = i
      · subst hj
        simp only [↓reduceIte]
        refine (hk j).got ?_
        have := List.head?_dropWhile_not (fun t => !(views j).wants (got j) t) toks
        rw [hd] at this
        simpa using this
      · simp only [hj, ↓reduceIte]; exact hk j

theorem sharedCalls_spec {σ : Type} {call : NextFn σ} {views : ι → View} {e : End} :
    ∀ (calls : List ι) {s : SharedViews σ ι} {toks : List Token} {got : ι → List Token}, Going call toks e s.up →
      (∀ i, Knows (views i) (s.seen i) (got i)) →
      ∃ s', sharedCalls call views s calls = Go.ret ((deal views got toks calls).map (answer e), s')
  | [], s, _, _, _, _ => ⟨s, rfl⟩
  | i :: calls, s, toks, got, h, hk => by
    have h0 := sharedCall_spec h hk i
    rw [deal]
    split at h0
    · rename_i hd
      obtain ⟨s1, h1, h2, h3⟩ := h0
      obtain ⟨s2, h4⟩ := sharedCalls_spec calls h2 h3
      exact ⟨s2, by simp only [sharedCalls, h1, Go.ret_bind, h4, Go.pure_eq, List.map_cons]⟩
    · rename_i t rest hd
      obtain ⟨s1, h1, h2, h3⟩ := h0
      obtain ⟨s2, h4⟩ := sharedCalls_spec calls h2 h3
      exact ⟨s2, by simp only [sharedCalls, h1, Go.ret_bind, h4, Go.pure_eq, List.map_cons]⟩

/-! ### statements -/

/-- **C96 (each call).** Whatever views there are of a stream and in whatever order they are called: each call gets
the first token, of those that no call has read, that its view wants; those it passes over are lost for the others
too. After the last token all calls report the end, or the error. -/
theorem C96_calls {views : ι → View} {ts : TokenStream} {toks : List Token} {e : End} (h : ts.Lasts toks e)
    (calls : List ι) :
    ∃ s', sharedCalls ts.call views { up := ts.st, seen := fun _ => [] } calls =
      Go.ret ((deal views (fun _ => []) toks calls).map (answer e), s') :=
  sharedCalls_spec calls h fun i _ b => by simp

/-- **C96 (once).** No token is delivered twice, and all are delivered in order: what the calls get, whatever their
views, is a part of the tokens of the stream. -/
theorem C96_once (views : ι → View) : ∀ (calls : List ι) (got : ι → List Token) (toks : List Token),
    List.Sublist ((deal views got toks calls).filterMap id) toks
  | [], _, _ => by simp [deal]
  | i :: calls, got, toks => by
    rw [deal]
    have hs := List.dropWhile_sublist (l := toks) fun t => !(views i).wants (got i) t
    split
    · rw [List.filterMap_cons_none rfl]
      exact (C96_once views calls got []).trans (List.nil_sublist _)
    · rename_i t rest hd
      rw [hd] at hs
      rw [List.filterMap_cons_some (f := id) (a := some t) rfl]
      exact ((C96_once views calls _ rest).cons_cons t).trans hs

theorem deal_nil (views : ι → View) : ∀ (calls : List ι) (got : ι → List Token),
    deal views got [] calls = List.replicate calls.length none
  | [], _ => rfl
  | i :: calls, got => by
    rw [deal, List.dropWhile_nil]
    simp only [deal_nil views calls got, List.length_cons, List.replicate_succ]

/-- **C96 (the end).** Once one view is at its end, all are. -/
theorem C96_end (views : ι → View) : ∀ (calls : List ι) (got : ι → List Token) (toks : List Token),
    none ∈ deal views got toks calls → ∀ calls',
      deal views got toks (calls ++ calls') = deal views got toks calls ++ List.replicate calls'.length none
  | [], _, _, h, _ => by simp [deal] at h
  | i :: calls, got, toks, h, calls' => by
    rw [List.cons_append, deal]
    rw [deal] at h
    split at h
    · rename_i hd
      rw [deal]
      simp only [hd, List.cons_append, deal_nil, List.length_append, List.replicate_append_replicate]
    · rename_i t rest hd
      rw [deal]
      simp only [hd, List.cons_append]
      rw [C96_end views calls _ rest (by simpa using h)]

/-- Alone, a view by `Where` gets the tokens it wants. -/
theorem deal_alone {views : ι → View} {i : ι} {p : Token → Bool} (hv : views i = .where p) :
    ∀ (n : Nat) (got : ι → List Token) (toks : List Token), deal views got toks (List.replicate n i) =
      ((toks.filter p).map some ++ List.replicate n none).take n
  | 0, _, _ => by simp [deal]
  | n + 1, got, toks => by
    rw [List.replicate_succ, deal, hv]
    have hw : (fun t => !View.wants (.where p) (got i) t) = fun t => !p t := rfl
    rw [hw]
    have hf : ∀ toks : List Token, toks.filter p = (toks.dropWhile fun t => !p t).filter p := by
      intro toks
      induction toks with
      | nil => rfl
      | cons t ts ih =>
        cases hp : p t with
        | true => rw [List.dropWhile_cons_of_neg (by simp [hp])]
        | false => rw [List.dropWhile_cons_of_pos (by simp [hp]), List.filter_cons_of_neg (by simp [hp]), ih]
    rw [hf toks]
    have hhd := List.head?_dropWhile_not (fun t => !p t) toks
    split
    · rename_i hd
      rw [hd, deal_nil]
      simp [List.replicate_succ]
    · rename_i t rest hd
      rw [hd] at hhd ⊢
      have hp : p t = true := by simpa using hhd
      rw [List.filter_cons_of_pos hp, deal_alone hv n _ rest]
      simp only [List.map_cons, List.cons_append, List.take_succ_cons, List.replicate_succ, List.cons.injEq, true_and]
      rw [List.take_append, List.take_append, List.take_replicate, ← List.replicate_succ, List.take_replicate]
      congr 2
      omega

/-- **C96, partial.** Whatever has been called before: from then on alone, a view by `Where` gets all the tokens it
wants of those that have not been read, which are the last ones of the stream. Missing: a view that is not called alone,
where it is false. -/
theorem C96_rest_partial (views : ι → View) {i : ι} {p : Token → Bool} (hv : views i = .where p) (toks : List Token)
    (calls : List ι) : ∃ read rest, toks = read ++ rest ∧ List.Sublist ((deal views (fun _ => []) toks calls).filterMap id) read ∧
      ∀ n, deal views (fun _ => []) toks (calls ++ List.replicate n i) = deal views (fun _ => []) toks calls ++
        ((rest.filter p).map some ++ List.replicate n none).take n := by
  have key : ∀ (calls : List ι) (got : ι → List Token) (toks : List Token), ∃ read rest, toks = read ++ rest ∧
      List.Sublist ((deal views got toks calls).filterMap id) read ∧
      ∀ n, deal views got toks (calls ++ List.replicate n i) = deal views got toks calls ++
        ((rest.filter p).map some ++ List.replicate n none).take n := by
    intro calls
    induction calls with
    | nil =>
      intro got toks
      exact ⟨[], toks, rfl, by simp [deal], fun n => by
        rw [List.nil_append, deal_alone hv]; simp [deal]⟩
    | cons j calls ih =>
      intro got toks
      have hsplit := List.takeWhile_append_dropWhile (p := fun t => !(views j).wants (got j) t) (l := toks)
      cases hd : toks.dropWhile fun t => !(views j).wants (got j) t with
      | nil =>
        refine ⟨toks, [], by simp, ?_, fun n => ?_⟩
        · exact C96_once views (j :: calls) got toks
        · simp only [List.cons_append, deal, hd, deal_nil]
          simp
      | cons t rest =>
        obtain ⟨read, rest', h1, h2, h3⟩ := ih (fun k => if k = j then got j ++ [t] else got k) rest
        refine ⟨(toks.takeWhile fun t => !(views j).wants (got j) t) ++ t :: read, rest', ?_, ?_, fun n => ?_⟩
        · rw [List.append_assoc, List.cons_append, ← h1, ← hd, hsplit]
        · rw [deal, hd]
          show List.Sublist (List.filterMap id (some t :: _)) _
          rw [List.filterMap_cons_some (f := id) (a := some t) rfl]
          exact (h2.cons_cons t).trans (List.sublist_append_right _ _)
        · simp only [List.cons_append, deal, hd, h3 n]
  exact key calls _ toks

theorem listStream_lasts (toks : List Token) : (listStream toks .eof).Lasts toks .eof := by
  have h := listStream_yields toks .eof
  obtain ⟨s', h1, h2⟩ := Emits.split (a := toks) (b := []) (by rw [List.append_nil]; exact h)
  exact ⟨s', h1, h2⟩

/-- **C96 is false.** Two views take each other's tokens: of a word and a lemma, in turns, `Lemmas` gets the
lemma, and then `Words` gets nothing. -/
theorem C96_violated : ¬ C96_full (ι := Bool) fun b =>
    if b then .where fun t => !t.isPunct && !t.isSpace else .where Token.isLemma := by
  intro h
  have hl := listStream_lasts [⟨str "a", false, false, false⟩, ⟨str "b", false, false, true⟩]
  obtain ⟨rs, s, rs', s', h1, h2, h3⟩ := h _ _ _ hl [false, true] true
  obtain ⟨x, h4⟩ := C96_calls hl [false, true]
  obtain ⟨y, h5⟩ := C96_calls hl (List.replicate ([false, true].count true) true)
  rw [h4] at h1
  rw [h5] at h2
  obtain ⟨rfl, -⟩ := Prod.mk.inj (Go.ret_inj.1 h1)
  obtain ⟨rfl, -⟩ := Prod.mk.inj (Go.ret_inj.1 h2)
  revert h3
  decide +kernel

/-- Three views, called in turns. -/
example : deal (fun i : Nat => if i = 0 then .next else if i = 1 then .distinct else .where fun t => !t.space) (fun _ => [])
    [⟨str "a", false, false, false⟩, ⟨str "a", false, false, false⟩, ⟨str " ", false, true, false⟩,
      ⟨str "a", false, false, false⟩, ⟨str "b", false, false, false⟩] [1, 2, 2, 1, 0] =
    [some ⟨str "a", false, false, false⟩, some ⟨str "a", false, false, false⟩, some ⟨str "a", false, false, false⟩,
      some ⟨str "b", false, false, false⟩, none] := by decide +kernel

end Jargon
