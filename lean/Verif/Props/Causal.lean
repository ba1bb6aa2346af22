import Verif.Props.Lazy
import Verif.Props.ExactCli

/-! C110: what a filter has delivered does not depend on what is still to come. -/

namespace Jargon

variable {σ σ' α β γ δ : Type}

/-! ### Two runs side by side -/

/-- If the first call returns, what it returns is `bad` (the call has met an error), or the second returns something
that corresponds to it. -/
def Mir (bad : α → Prop) (P : α → β → Prop) (x : Go α) (y : Go β) : Prop :=
  ∀ a, x = Go.ret a → bad a ∨ ∃ b, y = Go.ret b ∧ P a b

theorem Mir.ret {bad : α → Prop} {P : α → β → Prop} {a : α} {b : β} (h : P a b) :
    Mir bad P (Go.ret a) (Go.ret b) := by
  intro c hc
  rw [Go.ret_inj] at hc
  subst hc
  exact .inr ⟨b, rfl, h⟩

theorem Mir.met {bad : α → Prop} {P : α → β → Prop} {a : α} {y : Go β} (h : bad a) :
    Mir bad P (Go.ret a) y := by
  intro c hc
  rw [Go.ret_inj] at hc
  subst hc
  exact .inl h

theorem Mir.bind {bad : α → Prop} {P : α → β → Prop} {x : Go α} {y : Go β} {bad' : γ → Prop} {Q : γ → δ → Prop}
    {f : α → Go γ} {g : β → Go δ} (h : Mir bad P x y) (hb : ∀ a, bad a → ∀ c, f a = Go.ret c → bad' c)
    (hf : ∀ a b, P a b → Mir bad' Q (f a) (g b)) : Mir bad' Q (x >>= f) (y >>= g) := by
  intro c hc
  obtain ⟨a, h1, h2⟩ := Go.bind_eq_ret.mp hc
  rcases h a h1 with h3 | ⟨b, h3, h4⟩
  · exact .inl (hb a h3 c h2)
  · rw [h3, Go.ret_bind]
    exact hf a b h4 c h2

theorem Mir.same {x : Go α} {bad' : γ → Prop} {Q : γ → δ → Prop}
    {f : α → Go γ} {g : α → Go δ} (hf : ∀ a, Mir bad' Q (f a) (g a)) : Mir bad' Q (x >>= f) (x >>= g) := by
  intro c hc
  obtain ⟨a, h1, h2⟩ := Go.bind_eq_ret.mp hc
  rw [h1, Go.ret_bind]
  exact hf a c h2

theorem Mir.admissible (bad : α → Prop) (P : α → β → Prop) (y : Go β) :
    Lean.Order.admissible fun x : Go α => Mir bad P x y :=
  go_admissible _ fun a h => by simp at h

/-- The result is an error. -/
def Failed (x : Res × α) : Prop := x.1.err ≠ none

/-- The results are the same and the states correspond. -/
def SameRes (R : σ → σ' → Prop) (x : Res × σ) (y : Res × σ') : Prop := x.1 = y.1 ∧ R x.2 y.2

/-- From corresponding states, the second stream answers as the first one does, unless that is with an error. -/
def Sim (call : NextFn σ) (call' : NextFn σ') (R : σ → σ' → Prop) : Prop :=
  ∀ s s', R s s' → Mir Failed (SameRes R) (call s) (call' s')

/-- States of streams whose closures' states correspond. -/
def InnerRel (R : σ → σ' → Prop) (s : TS σ) (s' : TS σ') : Prop := R s.inner s'.inner

section
variable {call : NextFn σ} {call' : NextFn σ'} {R : σ → σ' → Prop}

theorem sim_next (h : Sim call call' R) : Sim (TS.next call) (TS.next call') (InnerRel R) := by
  intro s s' hs
  refine Mir.bind (h _ _ hs) ?_ ?_
  · rintro ⟨r, x⟩ hb c hc
    simp only [Go.pure_eq, Go.ret_inj] at hc
    subst hc
    exact hb
  · rintro ⟨r, x⟩ ⟨r', x'⟩ ⟨h1, h2⟩
    simp only at h1
    subst h1
    exact Mir.ret ⟨rfl, h2⟩

/-- The part that all filters have in common: an error of the incoming stream is returned. -/
theorem sim_read (h : Sim call call' R) {s : TS σ} {s' : TS σ'} (hs : InnerRel R s s') {bad : γ → Prop}
    {Q : γ → δ → Prop} {f : Res × TS σ → Go γ} {g : Res × TS σ' → Go δ}
    (hb : ∀ r up e, r.err = some e → ∀ c, f (r, up) = Go.ret c → bad c)
    (hf : ∀ tok up up', InnerRel R up up' → up.err = none → up'.err = none →
      Mir bad Q (f (⟨tok, none⟩, up)) (g (⟨tok, none⟩, up'))) :
    Mir bad Q (TS.next call s >>= f) (TS.next call' s' >>= g) := by
  intro c hc
  obtain ⟨⟨r, up⟩, h1, h2⟩ := Go.bind_eq_ret.mp hc
  cases he : r.err with
  | some e => exact .inl (hb r up e he c h2)
  | none =>
    rcases sim_next h s s' hs _ h1 with h3 | ⟨⟨r', up'⟩, h3, h4, h5⟩
    · exact absurd he h3
    · simp only at h4 h5
      subst h4
      rw [h3, Go.ret_bind]
      obtain ⟨tok, err⟩ := r
      simp only at he
      subst he
      have e1 := (TS.next_fields h1).2
      have e2 := (TS.next_fields h3).2
      exact hf tok up up' h5 e1 e2 c h2

/-! ### Each filter -/

theorem sim_mapper (h : Sim call call' R) (funcs : List TokenFunc) :
    Sim (mapperNext call funcs) (mapperNext call' funcs) (InnerRel R) := by
  intro s s' hs
  refine sim_read h hs ?_ ?_
  · intro r up e he c hc
    simp only [he, Option.isSome_some, ↓reduceIte, Go.pure_eq, Go.ret_inj] at hc
    subst hc
    simp [Failed]
  · intro tok up up' hup _ _
    simp only [Option.isSome_none, Bool.false_eq_true, ↓reduceIte]
    cases tok with
    | none => exact Mir.ret ⟨rfl, hup⟩
    | some t => exact Mir.same fun a => Mir.ret ⟨rfl, hup⟩

theorem sim_where {ρ : Type} (h : Sim call call' R) (pred : ρ → Token → Bool × ρ) :
    Sim (whereNext call pred) (whereNext call' pred) (fun x y => InnerRel R x.1 y.1 ∧ x.2 = y.2) := by
  unfold Sim
  refine whereNext.fixpoint_induct call pred (fun f => ∀ (s : TS σ × ρ) (s' : TS σ' × ρ),
    InnerRel R s.1 s'.1 ∧ s.2 = s'.2 →
    Mir Failed (SameRes fun x y => InnerRel R x.1 y.1 ∧ x.2 = y.2) (f s) (whereNext call' pred s')) ?_ ?_
  · refine Lean.Order.admissible_pi_apply (P := fun (s : TS σ × ρ) (y : Go (Res × (TS σ × ρ))) => ∀ s' : TS σ' × ρ,
      InnerRel R s.1 s'.1 ∧ s.2 = s'.2 →
      Mir Failed (SameRes fun x y => InnerRel R x.1 y.1 ∧ x.2 = y.2) y (whereNext call' pred s')) fun s => ?_
    exact go_admissible _ fun s' _ a h => by simp at h
  · rintro f ih ⟨s, p⟩ ⟨s', p'⟩ ⟨hs, hp⟩
    simp only at hs hp
    subst hp
    rw [whereNext]
    refine sim_read h hs ?_ ?_
    · intro r up e he c hc
      simp only [he, Option.isSome_some, ↓reduceIte, Go.pure_eq, Go.ret_inj] at hc
      subst hc
      simp [Failed]
    · intro tok up up' hup _ _
      simp only [Option.isSome_none, Bool.false_eq_true, ↓reduceIte]
      cases tok with
      | none => exact Mir.ret ⟨rfl, hup, rfl⟩
      | some t =>
        simp only
        split
        · exact Mir.ret ⟨rfl, hup, rfl⟩
        · exact ih _ _ ⟨hup, rfl⟩

theorem sim_stop (h : Sim call call' R) (U : Unicode) (includes : List Bytes) (ic : Bool) :
    Sim (stopNext U call includes ic) (stopNext U call' includes ic) (InnerRel R) := by
  unfold Sim
  refine stopNext.fixpoint_induct U call includes ic (fun f => ∀ (s : TS σ) (s' : TS σ'), InnerRel R s s' →
    Mir Failed (SameRes (InnerRel R)) (f s) (stopNext U call' includes ic s')) ?_ ?_
  · refine Lean.Order.admissible_pi_apply (P := fun (s : TS σ) (y : Go (Res × TS σ)) => ∀ s' : TS σ',
      InnerRel R s s' → Mir Failed (SameRes (InnerRel R)) y (stopNext U call' includes ic s')) fun s => ?_
    exact go_admissible _ fun s' _ a h => by simp at h
  · intro f ih s s' hs
    rw [stopNext]
    refine sim_read h hs ?_ ?_
    · intro r up e he c hc
      simp only [he, Option.isSome_some, ↓reduceIte, Go.pure_eq, Go.ret_inj] at hc
      subst hc
      simp [Failed]
    · intro tok up up' hup _ _
      simp only [Option.isSome_none, Bool.false_eq_true, ↓reduceIte]
      cases tok with
      | none => exact Mir.ret ⟨rfl, hup⟩
      | some t =>
        simp only
        generalize includes.contains _ = b
        cases b with
        | true => exact ih _ _ hup
        | false => exact Mir.ret ⟨rfl, hup⟩

/-- States of contractions filters that correspond. -/
def ConRel (R : σ → σ' → Prop) (s : ConState σ) (s' : ConState σ') : Prop :=
  InnerRel R s.incoming s'.incoming ∧ s.outgoing = s'.outgoing

theorem mir_conFinish {up : TS σ} {up' : TS σ'} (hup : InnerRel R up up') (q : Queue Token) (t : Token) :
    Mir Failed (SameRes (ConRel R)) (conFinish up q t) (conFinish up' q t) := by
  unfold conFinish
  split
  · exact Mir.same fun a => Mir.ret ⟨rfl, hup, rfl⟩
  · exact Mir.ret ⟨rfl, hup, rfl⟩

theorem sim_con (h : Sim call call' R) (E : Env) (m : StringMap) :
    Sim (conNext E m call) (conNext E m call') (ConRel R) := by
  rintro ⟨s, q⟩ ⟨s', q'⟩ ⟨hs, hq⟩
  simp only at hs hq
  subst hq
  unfold conNext
  simp only
  split
  · exact Mir.same fun a => Mir.ret ⟨rfl, hs, rfl⟩
  · refine sim_read h hs ?_ ?_
    · intro r up e he c hc
      simp only [he, Option.isSome_some, ↓reduceIte, Go.pure_eq, Go.ret_inj] at hc
      subst hc
      simp [Failed]
    · intro tok up up' hup _ _
      simp only [Option.isSome_none, Bool.false_eq_true, ↓reduceIte]
      cases tok with
      | none => exact Mir.ret ⟨rfl, hup, rfl⟩
      | some t =>
        refine Mir.same ?_
        rintro ⟨⟨found, err⟩, q1⟩
        simp only
        split
        · exact Mir.ret ⟨rfl, hup, rfl⟩
        · split
          · exact mir_conFinish hup _ _
          · refine Mir.same ?_
            rintro ⟨⟨found, err⟩, q2⟩
            simp only
            split
            · exact Mir.ret ⟨rfl, hup, rfl⟩
            · exact mir_conFinish hup _ _

/-- States of sigil filters that correspond. -/
def SigRel (R : σ → σ' → Prop) (s : SigilState σ) (s' : SigilState σ') : Prop :=
  InnerRel R s.incoming s'.incoming ∧ s.previous = s'.previous ∧ s.outgoing = s'.outgoing

theorem mir_sigilTry (h : Sim call call' R) (U : Unicode) (f : SigilFilter) {s : SigilState σ} {s' : SigilState σ'}
    (hs : SigRel R s s') (c : Token) :
    Mir (fun x => x.1.2.2 ≠ none) (fun x y => x.1 = y.1 ∧ SigRel R x.2 y.2)
      (sigilTry U f call s c) (sigilTry U f call' s' c) := by
  obtain ⟨s, p, q⟩ := s
  obtain ⟨s', p', q'⟩ := s'
  obtain ⟨hs, rfl, rfl⟩ := hs
  simp only at hs
  unfold sigilTry
  split
  · exact Mir.ret ⟨rfl, hs, rfl, rfl⟩
  · refine sim_read h hs ?_ ?_
    · intro r up e he c hc
      simp only [he, Option.isSome_some, ↓reduceIte, Go.pure_eq, Go.ret_inj] at hc
      subst hc
      simp
    · intro tok up up' hup _ _
      simp only [Option.isSome_none, Bool.false_eq_true, ↓reduceIte]
      cases tok with
      | none => exact Mir.ret ⟨rfl, hup, rfl, rfl⟩
      | some t =>
        simp only
        split
        · exact Mir.ret ⟨rfl, hup, rfl, rfl⟩
        · exact Mir.ret ⟨rfl, hup, rfl, rfl⟩

theorem sim_sigil (h : Sim call call' R) (U : Unicode) (f : SigilFilter) :
    Sim (sigilNext U f call) (sigilNext U f call') (SigRel R) := by
  rintro ⟨s, p, q⟩ ⟨s', p', q'⟩ ⟨hs, rfl, rfl⟩
  simp only at hs
  unfold sigilNext
  simp only
  split
  · exact Mir.same fun a => Mir.ret ⟨rfl, hs, rfl, rfl⟩
  · refine sim_read h hs ?_ ?_
    · intro r up e he c hc
      simp only [he, Option.isSome_some, ↓reduceIte, Go.pure_eq, Go.ret_inj] at hc
      subst hc
      simp [Failed]
    · intro tok up up' hup _ _
      simp only [Option.isSome_none, Bool.false_eq_true, ↓reduceIte]
      cases tok with
      | none => exact Mir.ret ⟨rfl, hup, rfl, rfl⟩
      | some t =>
        simp only
        split
        · exact Mir.ret ⟨rfl, hup, rfl, rfl⟩
        · refine Mir.bind (mir_sigilTry h U f (s := ⟨up, p, q⟩) (s' := ⟨up', p, q⟩) ⟨hup, rfl, rfl⟩ t) ?_ ?_
          · rintro ⟨⟨success, handle, err⟩, s1⟩ hb c hc
            simp only [ne_eq] at hb
            have : err.isSome = true := Option.isSome_iff_ne_none.mpr hb
            simp only [this, ↓reduceIte, Go.pure_eq, Go.ret_inj] at hc
            subst hc
            exact hb
          · rintro ⟨⟨success, handle, err⟩, s1⟩ ⟨r, s2⟩ ⟨h1, h2, h3, h4⟩
            simp only at h1 h2 h3 h4
            subst h1
            simp only [h4]
            split
            · exact Mir.ret ⟨rfl, h2, h3, h4⟩
            · split
              · split
                · exact Mir.ret ⟨rfl, h2, h3, h4⟩
                · exact Mir.ret ⟨rfl, h2, rfl, rfl⟩
              · exact Mir.ret ⟨rfl, h2, rfl, rfl⟩

/-- States of synonyms filters that correspond. -/
def SynRel (R : σ → σ' → Prop) (t : SynState σ) (t' : SynState σ') : Prop :=
  InnerRel R t.incoming t'.incoming ∧ t.buffer = t'.buffer ∧ t.outgoing = t'.outgoing

theorem mir_fillScan (h : Sim call call' R) (t : SynState σ) (t' : SynState σ') (ht : SynRel R t t') :
    Mir (fun t => t.incoming.err ≠ none)
      (fun t t' => SynRel R t t' ∧ t.incoming.err = none ∧ t'.incoming.err = none)
      (fillScan call t) (fillScan call' t') := by
  revert t t'
  refine fillScan.fixpoint_induct call (fun f => ∀ (t : SynState σ) (t' : SynState σ'), SynRel R t t' →
    Mir (fun t => t.incoming.err ≠ none)
      (fun t t' => SynRel R t t' ∧ t.incoming.err = none ∧ t'.incoming.err = none)
      (f t) (fillScan call' t')) ?_ ?_
  · refine Lean.Order.admissible_pi_apply (P := fun (t : SynState σ) (y : Go (SynState σ)) => ∀ t' : SynState σ',
      SynRel R t t' → Mir (fun t => t.incoming.err ≠ none)
      (fun t t' => SynRel R t t' ∧ t.incoming.err = none ∧ t'.incoming.err = none)
      y (fillScan call' t')) fun s => ?_
    exact go_admissible _ fun s' _ a h => by simp at h
  · rintro f ih ⟨s, b, o⟩ ⟨s', b', o'⟩ ⟨hs, hb, ho⟩
    simp only at hs hb ho
    subst hb ho
    rw [fillScan]
    simp only [TS.scan, bind_assoc, Go.pure_eq, Go.ret_bind]
    refine sim_read h hs ?_ ?_
    · intro r up e he c hc
      simp only [he, Option.isNone_some, Bool.and_false, Bool.false_eq_true, ↓reduceIte, Go.ret_inj] at hc
      subst hc
      simp
    · intro tok up up' hup e1 e2
      simp only [Option.isNone_none, Bool.and_true]
      cases tok with
      | none => exact Mir.ret ⟨⟨hup, rfl, rfl⟩, rfl, rfl⟩
      | some w =>
        simp only [Option.isSome_some, ↓reduceIte]
        split
        · exact ih _ _ ⟨hup, rfl, rfl⟩
        · exact Mir.ret ⟨⟨hup, rfl, rfl⟩, rfl, rfl⟩

/-- Both return the same, or the first an error. -/
abbrev MirErr (R : σ → σ' → Prop) : Go (Option Err × SynState σ) → Go (Option Err × SynState σ') → Prop :=
  Mir (fun x => x.1 ≠ none) (fun x y => x.1 = y.1 ∧ SynRel R x.2 y.2)

theorem mir_fillNext (h : Sim call call' R) (maxWords wordcount : Nat) (t : SynState σ) (t' : SynState σ')
    (ht : SynRel R t t') : MirErr R (fillNext call maxWords wordcount t) (fillNext call' maxWords wordcount t') := by
  revert wordcount t t'
  refine fillNext.fixpoint_induct call maxWords (fun f => ∀ (n : Nat) (t : SynState σ) (t' : SynState σ'),
    SynRel R t t' → MirErr R (f n t) (fillNext call' maxWords n t')) ?_ ?_
  · refine Lean.Order.admissible_pi_apply (P := fun (n : Nat) (y : SynState σ → Go (Option Err × SynState σ)) =>
      ∀ (t : SynState σ) (t' : SynState σ'), SynRel R t t' → MirErr R (y t) (fillNext call' maxWords n t')) fun n => ?_
    refine Lean.Order.admissible_pi_apply (P := fun (t : SynState σ) (y : Go (Option Err × SynState σ)) =>
      ∀ (t' : SynState σ'), SynRel R t t' → MirErr R y (fillNext call' maxWords n t')) fun t => ?_
    exact go_admissible _ fun s' _ a h => by simp at h
  · rintro f ih n ⟨s, b, o⟩ ⟨s', b', o'⟩ ⟨hs, hb, ho⟩
    simp only at hs hb ho
    subst hb ho
    rw [fillNext]
    by_cases hn : n < maxWords
    · simp only [if_pos hn]
      refine sim_read h hs ?_ ?_
      · intro r up e he c hc
        simp only [he, Option.isSome_some, ↓reduceIte, Go.pure_eq, Go.ret_inj] at hc
        subst hc
        simp
      · intro tok up up' hup e1 e2
        simp only [Option.isSome_none, Bool.false_eq_true, ↓reduceIte]
        cases tok with
        | none => exact Mir.ret ⟨rfl, hup, rfl, rfl⟩
        | some w =>
          simp only
          split
          · exact Mir.ret ⟨rfl, hup, rfl, rfl⟩
          · split
            · exact ih _ _ _ ⟨hup, rfl, rfl⟩
            · exact ih _ _ _ ⟨hup, rfl, rfl⟩
    · simp only [if_neg hn]
      exact Mir.ret ⟨rfl, hs, rfl, rfl⟩

theorem mir_fill (h : Sim call call' R) (f : SynFilter) {t : SynState σ} {t' : SynState σ'} (ht : SynRel R t t') :
    MirErr R (fill call f t) (fill call' f t') := by
  obtain ⟨s, b, o⟩ := t
  obtain ⟨s', b', o'⟩ := t'
  obtain ⟨hs, hb, ho⟩ := ht
  simp only at hs hb ho
  subst hb ho
  unfold fill
  refine Mir.same fun buffer => ?_
  simp only
  split
  · refine Mir.bind (mir_fillScan h _ _ ⟨hs, rfl, rfl⟩) ?_ ?_
    · intro x hx c hc
      simp only [Option.isSome_iff_ne_none.mpr hx, ↓reduceIte, Go.pure_eq, Go.ret_inj] at hc
      subst hc
      exact hx
    · rintro x y ⟨hxy, e1, e2⟩
      simp only [e1, e2, Option.isSome_none, Bool.false_eq_true, ↓reduceIte]
      rw [hxy.2.1]
      exact mir_fillNext h _ _ _ _ hxy
  · exact mir_fillNext h _ _ _ _ ⟨hs, rfl, rfl⟩

theorem mir_synLoop (h : Sim call call' R) (U : Unicode) (f : SynFilter) (t : SynState σ) (t' : SynState σ')
    (ht : SynRel R t t') : MirErr R (synLoop U call f t) (synLoop U call' f t') := by
  revert t t'
  refine synLoop.fixpoint_induct U call f (fun g => ∀ (t : SynState σ) (t' : SynState σ'),
    SynRel R t t' → MirErr R (g t) (synLoop U call' f t')) ?_ ?_
  · refine Lean.Order.admissible_pi_apply (P := fun (t : SynState σ) (y : Go (Option Err × SynState σ)) =>
      ∀ (t' : SynState σ'), SynRel R t t' → MirErr R y (synLoop U call' f t')) fun t => ?_
    exact go_admissible _ fun s' _ a h => by simp at h
  · intro g ih t t' ht
    rw [synLoop]
    refine Mir.bind (mir_fill h f ht) ?_ ?_
    · rintro ⟨err, x⟩ hx c hc
      simp only [ne_eq] at hx
      simp only [Option.isSome_iff_ne_none.mpr hx, ↓reduceIte, Go.pure_eq, Go.ret_inj] at hc
      subst hc
      exact hx
    · rintro ⟨err, s, b, o⟩ ⟨err', s', b', o'⟩ ⟨he, hs, hb, ho⟩
      simp only at he hs hb ho
      subst he hb ho
      simp only
      split
      · exact Mir.ret ⟨rfl, hs, rfl, rfl⟩
      · split
        · exact Mir.ret ⟨rfl, hs, rfl, rfl⟩
        · refine Mir.same ?_
          rintro ⟨run, err⟩
          simp only
          split
          · exact Mir.ret ⟨rfl, hs, rfl, rfl⟩
          · split
            · exact Mir.ret ⟨rfl, hs, rfl, rfl⟩
            · split
              · exact Mir.same fun b2 => ih _ _ ⟨hs, rfl, rfl⟩
              · exact Mir.same fun b2 => ih _ _ ⟨hs, rfl, rfl⟩

theorem sim_synNext (h : Sim call call' R) (U : Unicode) (f : SynFilter) :
    Sim (synNext U call f) (synNext U call' f) (SynRel R) := by
  rintro ⟨s, b, o⟩ ⟨s', b', o'⟩ ⟨hs, hb, ho⟩
  simp only at hs hb ho
  subst hb ho
  unfold synNext
  simp only
  split
  · exact Mir.ret ⟨rfl, hs, rfl, rfl⟩
  · split
    · exact Mir.same fun a => Mir.ret ⟨rfl, hs, rfl, rfl⟩
    · refine Mir.bind (mir_synLoop h U f _ _ ⟨hs, rfl, rfl⟩) ?_ ?_
      · rintro ⟨err, x⟩ hx c hc
        simp only [ne_eq] at hx
        simp only [Option.isSome_iff_ne_none.mpr hx, ↓reduceIte, Go.pure_eq, Go.ret_inj] at hc
        subst hc
        exact hx
      · rintro ⟨err, s, b, o⟩ ⟨err', s', b', o'⟩ ⟨he, hs, hb, ho⟩
        simp only at he hs hb ho
        subst he hb ho
        simp only
        split
        · exact Mir.ret ⟨rfl, hs, rfl, rfl⟩
        · split
          · exact Mir.same fun a => Mir.ret ⟨rfl, hs, rfl, rfl⟩
          · exact Mir.ret ⟨rfl, hs, rfl, rfl⟩

theorem sim_synClosure (h : Sim call call' R) (U : Unicode) (built : Go (Except Err SynFilter)) :
    Sim (synClosure U built call) (synClosure U built call') (SynRel R) := by
  intro t t' ht
  unfold synClosure
  refine Mir.same fun a => ?_
  cases a with
  | error e => exact Mir.ret ⟨rfl, ht⟩
  | ok f => exact sim_synNext h U f t t' ht

end

/-! ### Streams and pipelines -/

/-- The second stream answers as the first one does, up to the first error of that. -/
def Mirrors (ts ts' : TokenStream) : Prop :=
  ∃ R : ts.σ → ts'.σ → Prop, Sim ts.call ts'.call R ∧ R ts.st.inner ts'.st.inner

theorem Builtin.mirrors (E : Env) (b : Builtin) {ts ts' : TokenStream} (h : Mirrors ts ts') :
    Mirrors (b.apply E ts) (b.apply E ts') := by
  obtain ⟨R, h1, h2⟩ := h
  cases b with
  | stemmer stem => exact ⟨_, sim_mapper h1 _, h2⟩
  | norm N => exact ⟨_, sim_mapper h1 _, h2⟩
  | asciiFold => exact ⟨_, sim_mapper h1 _, h2⟩
  | stopwords ws ic => exact ⟨_, sim_stop h1 _ _ _, h2⟩
  | contractions m => exact ⟨_, sim_con h1 _ _, h2, rfl⟩
  | sigil f => exact ⟨_, sim_sigil h1 _ _, h2, rfl, rfl⟩
  | synonyms m ic ign => exact ⟨_, sim_synClosure h1 _ _, h2, rfl, rfl⟩
  | where_ p => exact ⟨_, sim_where h1 _, h2, rfl⟩
  | words => exact ⟨_, sim_where h1 _, h2, rfl⟩
  | lemmas => exact ⟨_, sim_where h1 _, h2, rfl⟩
  | distinct => exact ⟨_, sim_where h1 _, h2, rfl⟩

theorem pipeline_mirrors (E : Env) (bs : List Builtin) : ∀ {ts ts' : TokenStream}, Mirrors ts ts' →
    Mirrors (ts.filter (bs.map (Builtin.apply E))) (ts'.filter (bs.map (Builtin.apply E))) := by
  induction bs with
  | nil => exact fun h => h
  | cons b bs ih => exact fun h => ih (b.mirrors E h)

/-- The first tokens the stream delivers are `toks`; whether more follow, or an end, or nothing at all (`Next` may
hang), is left open. -/
def TokenStream.Begins (ts : TokenStream) (toks : List Token) : Prop := ∃ s, Steps ts.nextFn ts.st toks s

theorem Mirrors.begins {ts ts' : TokenStream} (h : Mirrors ts ts') {toks : List Token} (hb : ts.Begins toks) :
    ts'.Begins toks := by
  obtain ⟨R, h1, h2⟩ := h
  have key : ∀ (toks : List Token) (s : TS ts.σ) (s' : TS ts'.σ), InnerRel R s s' →
      (∃ x, Steps ts.nextFn s toks x) → ∃ x, Steps ts'.nextFn s' toks x := by
    intro toks
    induction toks with
    | nil => exact fun s s' _ _ => ⟨s', rfl⟩
    | cons t toks ih =>
      rintro s s' hs ⟨x, s1, h3, h4⟩
      rcases sim_next h1 s s' hs _ h3 with h5 | ⟨⟨r, s1'⟩, h5, h6, h7⟩
      · exact absurd rfl h5
      · simp only at h6 h7
        subst h6
        obtain ⟨y, hy⟩ := ih s1 s1' h7 ⟨x, h4⟩
        exact ⟨y, s1', h5, hy⟩
  exact key toks _ _ h2 hb

theorem steps_inner {ts : TokenStream} {x x' : TS ts.σ} (h : x.inner = x'.inner) {toks : List Token}
    (hx : ∃ y, Steps ts.nextFn x toks y) : ∃ y, Steps ts.nextFn x' toks y := by
  cases toks with
  | nil => exact ⟨x', rfl⟩
  | cons t toks =>
    obtain ⟨y, s1, h1, h2⟩ := hx
    refine ⟨y, s1, ?_, h2⟩
    rw [← h1, TokenStream.nextFn, TS.next, TS.next, h]

/-- A stream that begins with some tokens answers as a list of them that then fails. -/
theorem mirrors_of_begins {ts : TokenStream} {toks : List Token} (h : ts.Begins toks) (err : Err) :
    Mirrors (listStream toks (.fail err)) ts := by
  refine ⟨fun l s => ∃ y, Steps ts.nextFn (TS.new s) l y, ?_, ?_⟩
  · intro l s hl
    cases l with
    | nil => exact Mir.met (by simp [Failed])
    | cons t l =>
      obtain ⟨y, s1, h1, h2⟩ := hl
      obtain ⟨⟨r, z⟩, h3, h4⟩ := Go.bind_eq_ret.mp h1
      simp only [Go.pure_eq, Go.ret_inj, Prod.mk.injEq] at h4
      obtain ⟨h4, h5⟩ := h4
      rw [show ts.call s = Go.ret (r, z) from h3]
      refine Mir.ret ⟨?_, ?_⟩
      · obtain ⟨tok, err⟩ := r
        exact h4.symm
      · exact steps_inner (by rw [← h5]; rfl) ⟨y, h2⟩
  · exact steps_inner (x := ts.st) (x' := TS.new ts.st.inner) rfl h

theorem begins_of_yields {ts : TokenStream} {toks : List Token} {e : End} (h : ts.Yields toks e) : ts.Begins toks := by
  have : Emits ts.nextFn (toks ++ []) e ts.st := by rw [List.append_nil]; exact h
  obtain ⟨s, h1, -⟩ := this.split
  exact ⟨s, h1⟩

/-- The tokens of a stream begin with those it begins with. -/
theorem prefix_of_begins {ts : TokenStream} {a toks : List Token} {e : End} (ha : ts.Begins a)
    (h : ts.Yields toks e) : a <+: toks := by
  have key : ∀ (a toks : List Token) (s : TS ts.σ), (∃ x, Steps ts.nextFn s a x) → Emits ts.nextFn toks e s →
      a <+: toks := by
    intro a
    induction a with
    | nil => exact fun toks s _ _ => List.nil_prefix
    | cons t a ih =>
      rintro toks s ⟨x, s1, h1, h2⟩ hs
      cases toks with
      | nil =>
        cases e with
        | eof =>
          obtain ⟨P, hP, hQ⟩ := hs
          obtain ⟨s', h3, -⟩ := hQ s hP
          rw [h1] at h3
          simp at h3
        | fail err =>
          obtain ⟨tok, s', h3⟩ := hs
          rw [h1] at h3
          simp at h3
      | cons u toks =>
        obtain ⟨s', h3, h4⟩ := hs
        rw [h1] at h3
        simp only [Go.ret_inj, Prod.mk.injEq, Res.mk.injEq, Option.some.injEq, and_true] at h3
        obtain ⟨rfl, rfl⟩ := h3
        exact List.cons_prefix_cons.mpr ⟨rfl, ih toks s1 ⟨x, h2⟩ h4⟩
  exact key a toks _ ha h

/-! ### C110 -/

/-- **C110 (any filters).** Whatever follows the tokens `toks` in a stream - more tokens, for ever or not, an end, an
error, or nothing at all - a pipeline of filters of the library first delivers what it delivers for `toks` and an
error. -/
theorem C110_beginning {E : Env} (hE : E.Lawful) (bs : List Builtin) (hb : ∀ b ∈ bs, b.OK E) (toks : List Token)
    (err : Err) :
    ∃ out, Makes (fun ts => ts.filter (bs.map (Builtin.apply E))) toks (.fail err) out (.fail err) ∧
      ∀ ts : TokenStream, ts.Begins toks → (ts.filter (bs.map (Builtin.apply E))).Begins out := by
  obtain ⟨out, -, h⟩ := C10_pipeline hE bs hb toks (.fail err)
  refine ⟨out, h, fun ts hts => ?_⟩
  exact (pipeline_mirrors E bs (mirrors_of_begins hts err)).begins
    (begins_of_yields (h _ (listStream_yields toks (.fail err))))

/-- **C110 (filters that hold nothing back).** Without sigil and synonyms filters that is what the pipeline delivers
for the tokens `toks` alone. So an endless stream is filtered as its beginnings are. -/
theorem C110_prompt {E : Env} (hE : E.Lawful) (bs : List Builtin) (hb : ∀ b ∈ bs, b.OK E ∧ b.Prompt)
    {toks out : List Token} (hout : Makes (fun ts => ts.filter (bs.map (Builtin.apply E))) toks .eof out .eof)
    {ts : TokenStream} (h : ts.Begins toks) : (ts.filter (bs.map (Builtin.apply E))).Begins out := by
  obtain ⟨out', h1, h2⟩ := C110_beginning hE bs (fun b h => (hb b h).1) toks (.ext 0)
  have h3 := C73_pipeline_partial hE bs hb toks (.ext 0) out hout
  rw [((h3 _ (listStream_yields _ _)).unique (h1 _ (listStream_yields _ _))).1]
  exact h2 ts h

/-- **C110 (sigils).** A sigil filter delivers what it delivers for the tokens `toks` alone, but for the sigil if that
is the last of them. -/
theorem C110_sigil {E : Env} (hE : E.Lawful) (f : SigilFilter) (hf : f.sigil ≠ []) (toks : List Token) :
    ∃ out held, Makes (sigil E.U f) toks .eof (out ++ held) .eof ∧
      (held = [] ∨ ∃ c, toks.getLast? = some c ∧ c.value = f.sigil ∧ held = [c]) ∧
      ∀ ts : TokenStream, ts.Begins toks → (sigil E.U f ts).Begins out := by
  obtain ⟨out, held, h1, h2, h3⟩ := C73_sigil_lost E.U f hf toks (.ext 0)
  refine ⟨out, held, h1, h3, fun ts hts => ?_⟩
  obtain ⟨out', h4, h5⟩ := C110_beginning hE [.sigil f] (by simpa [Builtin.OK] using hf) toks (.ext 0)
  rw [((h2 _ (listStream_yields _ _)).unique (h4 _ (listStream_yields _ _))).1]
  exact h5 ts hts

/-- **C110 (nothing is taken back).** Without sigil and synonyms filters, more tokens only make more tokens: what a
pipeline delivers for the first tokens is the beginning of what it delivers for all, however these end. -/
theorem C110_grows {E : Env} (hE : E.Lawful) (bs : List Builtin) (hb : ∀ b ∈ bs, b.OK E ∧ b.Prompt)
    {toks more out all : List Token} {e : End}
    (hout : Makes (fun ts => ts.filter (bs.map (Builtin.apply E))) toks .eof out .eof)
    (hall : Makes (fun ts => ts.filter (bs.map (Builtin.apply E))) (toks ++ more) e all e) : out <+: all := by
  have h1 := listStream_yields (toks ++ more) e
  have h2 : (listStream (toks ++ more) e).Begins toks := by
    obtain ⟨s, h3, -⟩ := Emits.split h1
    exact ⟨s, h3⟩
  exact prefix_of_begins (C110_prompt hE bs hb hout h2) (hall _ h1)

/-- A stream that never ends: a word and a space, again and again. -/
def foreverNext : NextFn Bool := fun b =>
  Go.ret (⟨some (if b then ⟨[0x61], false, false, false⟩ else ⟨[0x20], false, true, false⟩), none⟩, !b)

/-- Not vacuous: `Words` of it begins with two of the words. -/
example : (newTokenStream foreverNext true).words.Begins
    [⟨[0x61], false, false, false⟩, ⟨[0x61], false, false, false⟩] := by
  refine C110_prompt (E := sampleEnv) sampleEnv_lawful [.words] (by simp [Builtin.OK, Builtin.Prompt])
    (toks := [⟨[0x61], false, false, false⟩, ⟨[0x20], false, true, false⟩, ⟨[0x61], false, false, false⟩]) ?_ ?_
  · intro ts h
    exact C06_words h
  · exact ⟨_, _, rfl, _, rfl, _, rfl, rfl⟩

end Jargon
