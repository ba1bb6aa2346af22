import Verif.Proofs.Once
import Verif.Props.Synonyms

/-! C41, C42: lazy construction of a synonyms filter, shared by goroutines. -/

namespace Jargon
variable {σ : Type} {E : Env} {call : NextFn σ} {c : SynConfig}

/-! ### C41 -/

/-- **C41 (once).** Under every schedule `build` is called at most once, and a stream exists only
after it has been called and `Once` is done. -/
theorem C41_built_once {s : Shared σ} (h : Reachable E call c s) :
    s.builds ≤ 1 ∧ (s.streams ≠ [] → s.builds = 1 ∧ s.done = true) := by
  rcases (reachable_sharedInv h).stage with h | h | ⟨out, h⟩
  · exact ⟨by simp [h.builds], fun hs => absurd h.streams hs⟩
  · exact ⟨by simp [h.builds], fun hs => absurd h.streams hs⟩
  · exact ⟨by simp [h.builds], fun _ => ⟨h.builds, h.done⟩⟩

/-- The goroutine is about to access `config`, `trie` or `maxWords`. -/
def Phase.Touches : Phase → Prop
  | .build | .setTrie _ | .setMaxWords _ | .setConfig => True
  | _ => False

/-- **C41 (no data race).** While a goroutine within `Filter` accesses the filter's fields no other
goroutine does, and there is no stream yet, so nothing else can read them. -/
theorem C41_no_race {s : Shared σ} (h : Reachable E call c s) {g : Nat} {inc : TS σ} {p : Phase}
    (hg : s.threads g = some (inc, p)) (hp : p.Touches) :
    s.streams = [] ∧
      ∀ g' inc' p', s.threads g' = some (inc', p') → p'.Touches → g' = g := by
  rcases (reachable_sharedInv h).stage with h | h | ⟨out, h⟩
  · have := h.threads _ _ _ hg
    cases p <;> first | exact hp.elim | exact this.elim
  · refine ⟨h.streams, ?_⟩
    obtain ⟨g0, inc0, p0, h0, hb, ho⟩ := h.threads
    have who : ∀ k inc p, s.threads k = some (inc, p) → p.Touches → k = g0 := by
      intro k inc p hk hp
      refine Classical.byContradiction fun hne => ?_
      have := ho _ _ _ hne hk
      cases p <;> first | exact hp.elim | exact this.elim
    intro g' inc' p' h1 h2
    rw [who _ _ _ h1 h2, who _ _ _ hg hp]
  · have := h.threads _ _ _ hg
    cases p <;> first | exact hp.elim | exact this.elim

/-- Every key of the mappings can be tokenized. -/
def SynConfig.Scannable (E : Env) (c : SynConfig) : Prop :=
  ∀ m ∈ c.mappings, (E.scan { data := m.1 }).2 = none

/-- **C41 (same dictionary, no interference).** Under every schedule there is one order of the
mappings such that every stream obtained from the shared filter has so far answered exactly as a
stream of its own filter, built in that order and used by nobody else. -/
theorem C41_as_if_alone (hE : E.Lawful) (hc : c.Scannable E) {s : Shared σ}
    (h : Reachable E call c s) :
    ∃ order : StringMap, order.Perm c.mappings ∧ ∀ x ∈ s.streams,
      let alone := synonyms E order c.ignoreCase c.ignoreRunes ⟨σ, call, x.incoming⟩
      Answers alone.nextFn alone.st x.results x.st := by
  rcases (reachable_sharedInv h).stage with h | h | ⟨out, h⟩
  · exact ⟨_, .refl _, by simp [h.streams]⟩
  · exact ⟨_, .refl _, by simp [h.streams]⟩
  · obtain ⟨order, h1, h2⟩ := h.possible
    refine ⟨order, h1, ?_⟩
    intro x hx
    obtain ⟨h3, h4⟩ := h.streams x hx
    have hok := build_ok hE order c.ignoreCase c.ignoreRunes fun m hm => hc m (h1.mem_iff.mp hm)
    rw [hok] at h2
    simp only [Go.ret_inj] at h2
    subst h2
    have h3' : x.err = none := h3
    have hnext : synFieldsNext E.U call x.err s.fields =
        synClosure E.U (build E order c.ignoreCase c.ignoreRunes) call := by
      funext t
      rw [h3', h.fields, hok]
      simp only [synFieldsNext, finalFields, synClosure, Go.ret_bind]
    rw [StreamOK, hnext] at h4
    exact h4

/-! `build` always returns. -/

theorem build_error (hE : E.Lawful) (order : StringMap) (ic : Bool) (ign : List Rune)
    (hf : ∃ m ∈ order, (E.scan { data := m.1 }).2 ≠ none) :
    ∃ e, build E order ic ign = Go.ret (.error e) := by
  suffices H : ∀ f, ∃ e, buildLoop E order f = Go.ret (.error e) from H _
  have : ∃ pre post key canonical e, order = pre ++ (key, canonical) :: post ∧
      (∀ m ∈ pre, (E.scan { data := m.1 }).2 = none) ∧ (E.scan { data := key }).2 = some e := by
    induction order with
    | nil => simp at hf
    | cons m rest ih =>
      obtain ⟨key, canonical⟩ := m
      cases he : (E.scan { data := key }).2 with
      | some e => exact ⟨[], rest, key, canonical, e, rfl, by simp, he⟩
      | none =>
        obtain ⟨m, hm, hne⟩ := hf
        have hm' : m ∈ rest := by
          rcases List.mem_cons.mp hm with rfl | h
          · exact absurd he hne
          · exact h
        obtain ⟨pre, post, k, cn, e, h1, h2, h3⟩ := ih ⟨m, hm', hne⟩
        refine ⟨(key, canonical) :: pre, post, k, cn, e, by rw [h1]; rfl, ?_, h3⟩
        intro m hm
        rcases List.mem_cons.mp hm with rfl | h
        · exact he
        · exact h2 m h
  obtain ⟨pre, post, key, canonical, e, rfl, h2, h3⟩ := this
  exact fun f => ⟨e, buildLoop_fail hE pre post key canonical e f h2 h3⟩

theorem build_total (hE : E.Lawful) (order : StringMap) (ic : Bool) (ign : List Rune) :
    ∃ out, build E order ic ign = Go.ret out := by
  by_cases h : ∃ m ∈ order, (E.scan { data := m.1 }).2 ≠ none
  · obtain ⟨e, he⟩ := build_error hE order ic ign h
    exact ⟨_, he⟩
  · refine ⟨_, build_ok hE order ic ign fun m hm => ?_⟩
    exact Classical.byContradiction fun hne => h ⟨m, hm, hne⟩

/-- How many steps of its own a call of `Filter` has still to make, at most. -/
def Phase.left : Phase → Nat
  | .load => 10
  | .lock => 9
  | .reload => 8
  | .build => 7
  | .setTrie _ => 6
  | .setMaxWords _ => 5
  | .setConfig => 4
  | .store _ => 3
  | .unlock _ => 2
  | .make _ => 1

/-- Goroutine `g`, which is within a call of `Filter`, gets closer to its end. -/
def Advances (E : Env) (call : NextFn σ) (s : Shared σ) (g : Nat) (p : Phase) : Prop :=
  ∃ s', SharedStep E call s s' ∧
    ∀ inc' p', s'.threads g = some (inc', p') → p'.left < p.left

theorem advances_of_holds (hE : E.Lawful) {s : Shared σ} (h : Reachable E call c s) {g : Nat}
    {inc : TS σ} {p : Phase} (hg : s.threads g = some (inc, p)) (hp : p ≠ .lock) :
    Advances E call s g p := by
  cases p with
  | lock => exact absurd rfl hp
  | load =>
    cases hd : s.done with
    | true => exact ⟨_, .fast hg hd, by simp [Phase.left]⟩
    | false => exact ⟨_, .slow hg hd, by simp [Phase.left]⟩
  | reload =>
    cases hd : s.done with
    | true => exact ⟨_, .already hg hd, by simp [Phase.left]⟩
    | false => exact ⟨_, .begin hg hd, by simp [Phase.left]⟩
  | build =>
    have hcfg : s.fields.config = some c := by
      rcases (reachable_sharedInv h).stage with h | h | ⟨out, h⟩
      · exact (h.threads _ _ _ hg).elim
      · obtain ⟨g0, inc0, p0, h0, hb, ho⟩ := h.threads
        have : g = g0 := Classical.byContradiction fun hne => ho _ _ _ hne hg
        subst this
        rw [hg] at h0
        simp only [Option.some.injEq, Prod.mk.injEq] at h0
        rw [← h0.2] at hb
        have hb' : s.fields = SynFields.new c := hb
        rw [hb']; rfl
      · exact (h.threads _ _ _ hg).elim
    obtain ⟨out, ho⟩ := build_total hE c.mappings c.ignoreCase c.ignoreRunes
    cases out with
    | ok f => exact ⟨_, .built hg hcfg (.refl _) ho, by simp [Phase.left]⟩
    | error e => exact ⟨_, .failed hg hcfg (.refl _) ho, by simp [Phase.left]⟩
  | setTrie f => exact ⟨_, .setTrie hg, by simp [Phase.left]⟩
  | setMaxWords f => exact ⟨_, .setMaxWords hg, by simp [Phase.left]⟩
  | setConfig => exact ⟨_, .setConfig hg, by simp [Phase.left]⟩
  | store err => exact ⟨_, .store hg, by simp [Phase.left]⟩
  | unlock err => exact ⟨_, .unlock hg, by simp [Phase.left]⟩
  | make err => exact ⟨_, .make hg, by simp⟩

/-- **C41 (no deadlock).** Under every schedule, a goroutine within a call of `Filter` can go on, or
it waits for the mutex and the goroutine that holds it can go on. -/
theorem C41_no_deadlock (hE : E.Lawful) {s : Shared σ} (h : Reachable E call c s) {g : Nat}
    {inc : TS σ} {p : Phase} (hg : s.threads g = some (inc, p)) :
    Advances E call s g p ∨
      ∃ g' inc' p', s.mutex = some g' ∧ s.threads g' = some (inc', p') ∧ Advances E call s g' p' := by
  by_cases hp : p = .lock
  · subst hp
    cases hm : s.mutex with
    | none => exact .inl ⟨_, .acquire hg hm, by simp [Phase.left]⟩
    | some g' =>
      obtain ⟨inc', p', h1, h2⟩ := ((reachable_sharedInv h).mutex g').mp hm
      refine .inr ⟨g', inc', p', rfl, h1, advances_of_holds hE h h1 ?_⟩
      rintro rfl
      exact h2
  · exact .inl (advances_of_holds hE h hg hp)

/-! ### C42 -/

/-- C42 in full: if some key cannot be tokenized, every `Next` of every stream obtained from the
filter returns an error. -/
def C42_full : Prop :=
  ∀ (E : Env), E.Lawful → ∀ (σ : Type) (call : NextFn σ) (c : SynConfig), ¬ c.Scannable E →
    ∀ s, Reachable E call c s → ∀ x ∈ s.streams,
      ∃ e st, TS.next (synFieldsNext E.U call x.err s.fields) x.st =
        Go.ret ({ tok := none, err := some e }, st)

/-- **C42, first use.** The stream of the call that ran the failed `build` reports the error at every
call of `Next`. What is missing from `C42_full`: all other streams, see below. -/
theorem C42_first_use_partial {s : Shared σ} {x : SharedStream σ} {e : Err}
    (hx : x.err = some e) :
    ∃ st, TS.next (synFieldsNext E.U call x.err s.fields) x.st =
        Go.ret ({ tok := none, err := some e }, st) := by
  rw [hx]
  exact ⟨_, rfl⟩

theorem failed_fields (hE : E.Lawful) (hc : ¬ c.Scannable E) {s : Shared σ}
    (h : Reachable E call c s) (hs : s.streams ≠ []) : s.fields = SynFields.new c := by
  rcases (reachable_sharedInv h).stage with h | h | ⟨out, h⟩
  · exact absurd h.streams hs
  · exact absurd h.streams hs
  · obtain ⟨order, h1, h2⟩ := h.possible
    have hf : ∃ m ∈ order, (E.scan { data := m.1 }).2 ≠ none := by
      refine Classical.byContradiction fun hne => hc fun m hm => ?_
      exact Classical.byContradiction fun hm' => hne ⟨m, h1.mem_iff.mpr hm, hm'⟩
    obtain ⟨e, he⟩ := build_error hE order c.ignoreCase c.ignoreRunes hf
    rw [he] at h2
    simp only [Go.ret_inj] at h2
    subst h2
    exact h.fields

/-- **C42, all other uses.** After a failed build at most one stream reports the error. -/
theorem C42_at_most_one_reports {s : Shared σ} (h : Reachable E call c s) :
    s.streams.Pairwise fun a b => a.err = none ∨ b.err = none := by
  rcases (reachable_sharedInv h).stage with h | h | ⟨out, h⟩
  · simp [h.streams]
  · simp [h.streams]
  · exact h.pairs

/-- The first `Next` of any other stream panics if there is a word in the incoming stream. -/
theorem C42_others_panic (hE : E.Lawful) (hc : ¬ c.Scannable E) {s : Shared σ}
    (h : Reachable E call c s) {x : SharedStream σ} (hx : x ∈ s.streams) (he : x.err = none)
    (hr : x.results = []) {toks : List Token} {e : End} (hw : ∃ w ∈ toks, w.IsWord)
    (hup : (TokenStream.mk σ call x.incoming).Yields toks e) :
    TS.next (synFieldsNext E.U call x.err s.fields) x.st = Go.panic .nilDeref := by
  have hf := failed_fields hE hc h (List.ne_nil_of_mem hx)
  have hst : x.st = TS.new { incoming := x.incoming, buffer := Queue.new, outgoing := Queue.new } := by
    rcases (reachable_sharedInv h).stage with h | h | ⟨out, h⟩
    · rw [h.streams] at hx; simp at hx
    · rw [h.streams] at hx; simp at hx
    · have := (h.streams x hx).2
      rw [StreamOK, hr] at this
      exact this.symm
  obtain ⟨seps, rest, rfl, hs, hr'⟩ := separators_split toks
  have hr'' : ∃ w ts, rest = w :: ts ∧ w.IsWord := by
    rcases hr' with rfl | h
    · obtain ⟨w, hw1, hw2⟩ := hw
      rw [List.append_nil] at hw1
      exact absurd hw2 (hs w hw1)
    · exact h
  obtain ⟨w, ts, rfl, hww⟩ := hr''
  obtain ⟨s', h1, h2, -⟩ := fillScan_spec hs hr' hup [] []
  have h3 := (h2 (.inl (by simp))).1
  have hw' : w.isSpace = false ∧ w.isPunct = false := ⟨hww.2, hww.1⟩
  have hloop : synLoopNil call 0 { incoming := x.incoming, buffer := [], outgoing := [] } =
      Go.panic .nilDeref := by
    simp only [synLoopNil, fill, fillLeading, Queue.drop, List.length_nil, Nat.le_refl, ↓reduceIte,
      List.drop_nil, Go.ret_bind, Queue.len, h1, h3, Option.isSome_none, Bool.false_eq_true]
    rw [fillNext]
    simp only [Nat.not_lt_zero, ↓reduceIte, Go.pure_eq, Go.ret_bind, Option.isSome_none,
      Bool.false_eq_true, List.nil_append, List.take_succ_cons, List.take_zero, List.length_cons,
      List.length_nil, Nat.zero_add, Nat.one_ne_zero]
    simp [wordrun, wordrunLoop, hw', goSlice]
  rw [he, hf, hst]
  simp only [TS.next, TS.new, synFieldsNext, SynFields.new, synNextNil, Queue.new, Queue.len,
    List.length_nil, ne_eq, not_true_eq_false, ↓reduceIte, Queue.any, gt_iff_lt, Nat.lt_irrefl,
    decide_false, Bool.false_eq_true, hloop, Go.panic_bind]

/-- A scanner that gives up at once on everything, as a `bufio.Scanner` does on a key that is one
word longer than its buffer. -/
def failingEnv : Env := { U := asciiUnicode, scan := fun _ => ([], some (.ext 1)) }

theorem failingEnv_lawful : failingEnv.Lawful where
  nonempty := by simp [failingEnv]
  complete := by simp [failingEnv]
  sound := by simp [failingEnv]

/-- **C42 is false**: of two uses of a filter whose build failed, the second one panics. -/
theorem C42_violated : ¬ C42_full := by
  intro hfull
  let c : SynConfig := { mappings := [(str "a", str "b")], ignoreCase := false, ignoreRunes := [] }
  let word : Token := ⟨str "x", false, false, false⟩
  let ts := listStream [word] .eof
  have hc : ¬ c.Scannable failingEnv := fun h => by
    have := h _ (List.mem_singleton.mpr rfl)
    simp [failingEnv] at this
  have hb : build failingEnv c.mappings false [] = Go.ret (.error (.ext 1)) := by
    obtain ⟨e, he⟩ := build_error failingEnv_lawful c.mappings false []
      ⟨_, List.mem_singleton.mpr rfl, by simp [failingEnv]⟩
    rw [he]
    have := buildLoop_fail failingEnv_lawful [] [] (str "a") (str "b") (.ext 1)
      { trie := RuneTrie.new false [], maxWords := 1 } (by simp) rfl
    have h2 : build failingEnv c.mappings false [] = Go.ret (.error (.ext 1)) := this
    rw [← he, h2]
  let E := failingEnv
  have r0 : Reachable E (listNext .eof) c (Shared.new c) := .start
  have r1 := r0.step (.enter 0 ts.st rfl)
  have r2 := r1.step (.slow (g := 0) rfl rfl)
  have r3 := r2.step (.acquire (g := 0) rfl rfl)
  have r4 := r3.step (.begin (g := 0) rfl rfl)
  have r5 := r4.step (.failed (g := 0) rfl rfl (.refl _) hb)
  have r6 := r5.step (.store (g := 0) rfl)
  have r7 := r6.step (.unlock (g := 0) rfl)
  have r8 := r7.step (.make (g := 0) rfl)
  have r9 := r8.step (.enter 1 ts.st rfl)
  have r10 := r9.step (.fast (g := 1) rfl rfl)
  have r11 := r10.step (.make (g := 1) rfl)
  have hmem : SharedStream.new ts.st none ∈
      ([] ++ [SharedStream.new ts.st (some (.ext 1))]) ++ [SharedStream.new ts.st none] := by simp
  obtain ⟨e, st, h⟩ := hfull E failingEnv_lawful _ _ c hc _ r11 _ hmem
  have hp := C42_others_panic failingEnv_lawful hc r11 hmem rfl rfl (toks := [word]) (e := .eof)
    ⟨word, by simp, by decide⟩ (listStream_yields _ _)
  rw [hp] at h
  simp at h

/-- The hypotheses of C41 can be met: two goroutines, the second waiting for the mutex while the
first builds, and both get a stream. -/
example : ∃ s : Shared (List Token), ∃ c : SynConfig, c.Scannable sampleEnv ∧
    Reachable sampleEnv (listNext .eof) c s ∧ s.builds = 1 ∧ s.streams.length = 2 := by
  let c : SynConfig :=
    { mappings := [(str "rails", str "ruby-on-rails")], ignoreCase := false, ignoreRunes := [] }
  have hc : c.Scannable sampleEnv := fun _ _ => rfl
  let ts := listStream [⟨str "rails", false, false, false⟩] .eof
  have hb := build_ok sampleEnv_lawful c.mappings false [] hc
  have r0 : Reachable sampleEnv (listNext .eof) c (Shared.new c) := .start
  have r1 := r0.step (.enter 0 ts.st rfl)
  have r2 := r1.step (.enter 1 ts.st rfl)
  have r3 := r2.step (.slow (g := 0) rfl rfl)
  have r4 := r3.step (.slow (g := 1) rfl rfl)
  have r5 := r4.step (.acquire (g := 0) rfl rfl)
  have r6 := r5.step (.begin (g := 0) rfl rfl)
  have r7 := r6.step (.built (g := 0) rfl rfl (.refl _) hb)
  have r8 := r7.step (.setTrie (g := 0) rfl)
  have r9 := r8.step (.setMaxWords (g := 0) rfl)
  have r10 := r9.step (.setConfig (g := 0) rfl)
  have r11 := r10.step (.store (g := 0) rfl)
  have r12 := r11.step (.unlock (g := 0) rfl)
  have r13 := r12.step (.acquire (g := 1) rfl rfl)
  have r14 := r13.step (.already (g := 1) rfl rfl)
  have r15 := r14.step (.unlock (g := 1) rfl)
  have r16 := r15.step (.make (g := 1) rfl)
  have r17 := r16.step (.make (g := 0) rfl)
  exact ⟨_, c, hc, r17, rfl, rfl⟩

end Jargon
