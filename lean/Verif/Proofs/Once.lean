import Verif.Model.Once
import Verif.Proofs.Build

/-! An invariant of all schedules of the lazy construction. -/

namespace Jargon
variable {σ : Type} {E : Env} {call : NextFn σ} {c : SynConfig}

/-- The goroutine holds the mutex. -/
def Phase.Holds : Phase → Prop
  | .load | .lock | .make _ => False
  | _ => True

/-- The goroutine has not found out whether it is to build. -/
def Phase.Early : Phase → Prop
  | .load | .lock | .reload => True
  | _ => False

/-- A possible outcome of `build`. -/
def Possible (E : Env) (c : SynConfig) (out : Except Err SynFilter) : Prop :=
  ∃ order : StringMap, order.Perm c.mappings ∧
    build E order c.ignoreCase c.ignoreRunes = Go.ret out

/-- The fields after a complete call of `build`. -/
def finalFields (c : SynConfig) : Except Err SynFilter → SynFields
  | .ok f => { config := none, trie := some f.trie, maxWords := f.maxWords }
  | .error _ => SynFields.new c

/-- The phases of a build, with what has been stored so far. -/
def Phase.Builds (E : Env) (c : SynConfig) (fl : SynFields) : Phase → Prop
  | .build => fl = SynFields.new c
  | .setTrie f => fl = SynFields.new c ∧ Possible E c (.ok f)
  | .setMaxWords f => fl = ⟨some c, some f.trie, 0⟩ ∧ Possible E c (.ok f)
  | .setConfig => ∃ f : SynFilter, fl = ⟨some c, some f.trie, f.maxWords⟩ ∧ Possible E c (.ok f)
  | .store none => ∃ f : SynFilter, fl = finalFields c (.ok f) ∧ Possible E c (.ok f)
  | .store (some e) => fl = SynFields.new c ∧ Possible E c (.error e)
  | _ => False

/-- What a call can find in `err` once `done` is set. -/
def ErrOK : Except Err SynFilter → Option Err → Prop
  | .ok _, err => err = none
  | .error e, err => err = none ∨ err = some e

/-- The phases possible once `done` is set. -/
def Phase.Late (out : Except Err SynFilter) : Phase → Prop
  | .load | .lock | .reload => True
  | .unlock err | .make err => ErrOK out err
  | _ => False

/-- The call has an error to pass on. -/
def Phase.Carries : Phase → Prop
  | .unlock err | .make err => err ≠ none
  | _ => False

structure Before (c : SynConfig) (s : Shared σ) : Prop where
  done : s.done = false
  builds : s.builds = 0
  fields : s.fields = SynFields.new c
  streams : s.streams = []
  threads : ∀ g inc p, s.threads g = some (inc, p) → p.Early

structure During (E : Env) (c : SynConfig) (s : Shared σ) : Prop where
  done : s.done = false
  builds : s.builds = 1
  streams : s.streams = []
  threads : ∃ g inc p, s.threads g = some (inc, p) ∧ p.Builds E c s.fields ∧
    ∀ k inc p, k ≠ g → s.threads k = some (inc, p) → p.Early

/-- What is true of a stream. -/
def StreamOK (E : Env) (call : NextFn σ) (fl : SynFields) (x : SharedStream σ) : Prop :=
  Answers (TS.next (synFieldsNext E.U call x.err fl))
    (TS.new { incoming := x.incoming, buffer := Queue.new, outgoing := Queue.new }) x.results x.st

structure After (E : Env) (call : NextFn σ) (c : SynConfig) (s : Shared σ)
    (out : Except Err SynFilter) : Prop where
  done : s.done = true
  builds : s.builds = 1
  possible : Possible E c out
  fields : s.fields = finalFields c out
  threads : ∀ g inc p, s.threads g = some (inc, p) → p.Late out
  streams : ∀ x ∈ s.streams, ErrOK out x.err ∧ StreamOK E call s.fields x
  one : ∀ g g' inc inc' p p', s.threads g = some (inc, p) → s.threads g' = some (inc', p') →
    p.Carries → p'.Carries → g = g'
  alone : ∀ g inc p, s.threads g = some (inc, p) → p.Carries → ∀ x ∈ s.streams, x.err = none
  pairs : s.streams.Pairwise fun a b => a.err = none ∨ b.err = none

structure SharedInv (E : Env) (call : NextFn σ) (c : SynConfig) (s : Shared σ) : Prop where
  mutex : ∀ g, s.mutex = some g ↔ ∃ inc p, s.threads g = some (inc, p) ∧ p.Holds
  stage : Before c s ∨ During E c s ∨ ∃ out, After E call c s out

@[simp] theorem move_threads (s : Shared σ) (g k : Nat) (p : Option (TS σ × Phase)) :
    (s.move g p).threads k = if k = g then p else s.threads k := rfl
@[simp] theorem move_done (s : Shared σ) (g : Nat) (p) : (s.move g p).done = s.done := rfl
@[simp] theorem move_mutex (s : Shared σ) (g : Nat) (p) : (s.move g p).mutex = s.mutex := rfl
@[simp] theorem move_fields (s : Shared σ) (g : Nat) (p) : (s.move g p).fields = s.fields := rfl
@[simp] theorem move_builds (s : Shared σ) (g : Nat) (p) : (s.move g p).builds = s.builds := rfl
@[simp] theorem move_streams (s : Shared σ) (g : Nat) (p) : (s.move g p).streams = s.streams := rfl

theorem answers_snoc {τ : Type} {next : NextFn τ} {a b d : τ} {rs : List Res} {r : Res}
    (h : Answers next a rs b) (h1 : next b = Go.ret (r, d)) : Answers next a (rs ++ [r]) d := by
  induction rs generalizing a with
  | nil =>
    simp only [Answers] at h
    subst h
    exact ⟨d, h1, rfl⟩
  | cons x rs ih =>
    obtain ⟨a', h2, h3⟩ := h
    exact ⟨a', h2, ih h3⟩

theorem Phase.Early.not_carries {p : Phase} (h : p.Early) : ¬ p.Carries := by
  cases p <;> first | exact fun h => h | exact h.elim

theorem Phase.Early.late {p : Phase} (h : p.Early) (out : Except Err SynFilter) : p.Late out := by
  cases p <;> trivial

theorem Phase.Builds.holds {p : Phase} {fl : SynFields} (h : p.Builds E c fl) : p.Holds := by
  cases p <;> trivial

theorem Phase.Builds.not_early {p : Phase} {fl : SynFields} (h : p.Builds E c fl) : ¬ p.Early := by
  cases p <;> first | exact fun h => h | exact h.elim

theorem holds_move {s : Shared σ} {g k : Nat} {inc : TS σ} {p : Phase} :
    (∃ inc' q, (if k = g then some (inc, p) else s.threads k) = some (inc', q) ∧ q.Holds) ↔
      if k = g then p.Holds else ∃ inc q, s.threads k = some (inc, q) ∧ q.Holds := by
  by_cases hk : k = g
  · simp only [hk, ↓reduceIte, Option.some.injEq, Prod.mk.injEq]
    constructor
    · rintro ⟨_, _, ⟨rfl, rfl⟩, h⟩; exact h
    · intro h; exact ⟨_, _, ⟨rfl, rfl⟩, h⟩
  · simp [hk]

theorem mutex_step {s s' : Shared σ} (h : ∀ g, s.mutex = some g ↔
    ∃ inc p, s.threads g = some (inc, p) ∧ p.Holds) (hs : SharedStep E call s s') :
    ∀ g, s'.mutex = some g ↔ ∃ inc p, s'.threads g = some (inc, p) ∧ p.Holds := by
  intro k
  have key : ∀ (g : Nat) (inc : TS σ) (p p' : Phase), s.threads g = some (inc, p) →
      (p.Holds ↔ p'.Holds) → (s.mutex = some k ↔
      ∃ inc' q, (if k = g then some (inc, p') else s.threads k) = some (inc', q) ∧ q.Holds) := by
    intro g inc p p' hg hp
    rw [holds_move, h k]
    by_cases hk : k = g
    · subst hk
      simp only [hg, ↓reduceIte, ← hp]
      constructor
      · rintro ⟨_, _, h1, h2⟩
        simp only [Option.some.injEq, Prod.mk.injEq] at h1
        obtain ⟨rfl, rfl⟩ := h1
        exact h2
      · intro h2; exact ⟨_, _, rfl, h2⟩
    · simp [hk]
  cases hs with
  | enter g inc hg =>
    simp only [move_mutex, move_threads, holds_move, h k]
    by_cases hk : k = g
    · subst hk; simp [hg, Phase.Holds]
    · simp [hk]
  | fast hg _ => exact key _ _ _ _ hg Iff.rfl
  | slow hg _ => exact key _ _ _ _ hg Iff.rfl
  | acquire hg hm =>
    rename_i g inc
    simp only [move_threads, holds_move]
    by_cases hk : k = g
    · subst hk; simp [Phase.Holds]
    · have := h k
      rw [hm] at this
      simp only [hk, ↓reduceIte, ← this]
      simp [Ne.symm hk]
  | already hg _ => exact key _ _ _ _ hg Iff.rfl
  | begin hg _ => exact key _ _ _ _ hg Iff.rfl
  | built hg _ _ _ => exact key _ _ _ _ hg Iff.rfl
  | failed hg _ _ _ => exact key _ _ _ _ hg Iff.rfl
  | setTrie hg => exact key _ _ _ _ hg Iff.rfl
  | setMaxWords hg => exact key _ _ _ _ hg Iff.rfl
  | setConfig hg => exact key _ _ _ _ hg Iff.rfl
  | store hg => exact key _ _ _ _ hg Iff.rfl
  | unlock hg =>
    rename_i g inc err
    have hm : s.mutex = some g := (h g).mpr ⟨_, _, hg, trivial⟩
    simp only [move_threads, holds_move]
    by_cases hk : k = g
    · subst hk; simp [Phase.Holds]
    · have := h k
      rw [hm] at this
      simp only [hk, ↓reduceIte, ← this]
      simp [Ne.symm hk]
  | make hg =>
    rename_i g inc err
    simp only [move_threads, move_mutex, h k]
    by_cases hk : k = g
    · subst hk; simp [hg, Phase.Holds]
    · simp [hk]
  | next _ _ => exact h k

theorem before_step {s s' : Shared σ} (h : Before c s) (hs : SharedStep E call s s') :
    Before c s' ∨ During E c s' := by
  have hd := h.done
  have early : ∀ {g inc p}, s.threads g = some (inc, p) → p.Early := fun hg => h.threads _ _ _ hg
  have stay : ∀ (g : Nat) (inc : TS σ) (p : Phase) (m : Option Nat), p.Early →
      Before c { s.move g (some (inc, p)) with mutex := m } := by
    intro g inc p m hp
    refine ⟨h.done, h.builds, h.fields, h.streams, ?_⟩
    intro k inc' q hk
    simp only [move_threads] at hk
    by_cases hkg : k = g
    · simp only [hkg, ↓reduceIte, Option.some.injEq, Prod.mk.injEq] at hk
      rw [← hk.2]; exact hp
    · simp only [hkg, ↓reduceIte] at hk
      exact early hk
  cases hs with
  | enter g inc hg => exact .inl (stay _ _ _ s.mutex trivial)
  | fast hg hd' => rw [hd] at hd'; cases hd'
  | slow hg _ => exact .inl (stay _ _ _ s.mutex trivial)
  | acquire hg hm => exact .inl (stay _ _ _ _ trivial)
  | already hg hd' => rw [hd] at hd'; cases hd'
  | begin hg hd' =>
    rename_i g inc
    refine .inr ⟨h.done, by simp [h.builds], h.streams, g, inc, .build, by simp, h.fields, ?_⟩
    intro k inc' q hk hq
    simp only [move_threads, hk, ↓reduceIte] at hq
    exact early hq
  | built hg _ _ _ => exact (early hg).elim
  | failed hg _ _ _ => exact (early hg).elim
  | setTrie hg => exact (early hg).elim
  | setMaxWords hg => exact (early hg).elim
  | setConfig hg => exact (early hg).elim
  | store hg => exact (early hg).elim
  | unlock hg => exact (early hg).elim
  | make hg => exact (early hg).elim
  | next hx _ => rw [h.streams] at hx; simp at hx

theorem during_step {s s' : Shared σ} (hm : ∀ g, s.mutex = some g ↔
    ∃ inc p, s.threads g = some (inc, p) ∧ p.Holds) (h : During E c s)
    (hs : SharedStep E call s s') : During E c s' ∨ ∃ out, After E call c s' out := by
  have hd := h.done
  obtain ⟨g0, inc0, p0, h0, hb, hothers⟩ := h.threads
  have holds0 : p0.Holds := hb.holds
  have notEarly0 : ¬ p0.Early := hb.not_early
  have who : ∀ {g inc p}, s.threads g = some (inc, p) → ¬ p.Early → g = g0 ∧ inc = inc0 ∧ p = p0 := by
    intro g inc p hg hp
    by_cases hgg : g = g0
    · subst hgg
      rw [h0] at hg
      simp only [Option.some.injEq, Prod.mk.injEq] at hg
      exact ⟨rfl, hg.1.symm, hg.2.symm⟩
    · exact absurd (hothers _ _ _ hgg hg) hp
  have stay : ∀ (g : Nat) (inc : TS σ) (p : Phase) (m : Option Nat), g ≠ g0 → p.Early →
      During E c { s.move g (some (inc, p)) with mutex := m } := by
    intro g inc p m hg hp
    refine ⟨h.done, h.builds, h.streams, g0, inc0, p0, ?_, hb, ?_⟩
    · simp [Ne.symm hg, h0]
    · intro k inc' q hk hq
      simp only [move_threads] at hq
      by_cases hkg : k = g
      · simp only [hkg, ↓reduceIte, Option.some.injEq, Prod.mk.injEq] at hq
        rw [← hq.2]; exact hp
      · simp only [hkg, ↓reduceIte] at hq
        exact hothers _ _ _ hk hq
  have other : ∀ {g inc p}, s.threads g = some (inc, p) → p.Early → g ≠ g0 := by
    rintro g inc p hg hp rfl
    rw [h0] at hg
    simp only [Option.some.injEq, Prod.mk.injEq] at hg
    rw [← hg.2] at hp
    exact notEarly0 hp
  have advance : ∀ (p : Phase) (fl : SynFields), p.Builds E c fl →
      During E c { s.move g0 (some (inc0, p)) with fields := fl } := by
    intro p fl hp
    refine ⟨h.done, h.builds, h.streams, g0, inc0, p, by simp, hp, ?_⟩
    intro k inc' q hk hq
    simp only [move_threads, hk, ↓reduceIte] at hq
    exact hothers _ _ _ hk hq
  cases hs with
  | enter g inc hg =>
    have : g ≠ g0 := by
      rintro rfl
      rw [h0] at hg; cases hg
    exact .inl (stay _ _ _ s.mutex this trivial)
  | fast hg hd' => rw [hd] at hd'; cases hd'
  | slow hg hd' => exact .inl (stay _ _ _ s.mutex (other hg trivial) trivial)
  | acquire hg hmu => exact .inl (stay _ _ _ _ (other hg trivial) trivial)
  | already hg hd' => rw [hd] at hd'; cases hd'
  | begin hg hd' =>
    have h1 := (hm _).mpr ⟨_, _, hg, trivial⟩
    have h2 := (hm _).mpr ⟨_, _, h0, holds0⟩
    rw [h1] at h2
    simp only [Option.some.injEq] at h2
    exact absurd h2 (other hg trivial)
  | built hg hc ho hbu =>
    obtain ⟨rfl, rfl, rfl⟩ := who hg (fun h => h)
    have hb' : s.fields = SynFields.new c := hb
    rw [hb'] at hc
    cases hc
    exact .inl (advance _ s.fields ⟨hb', _, ho, hbu⟩)
  | failed hg hc ho hbu =>
    obtain ⟨rfl, rfl, rfl⟩ := who hg (fun h => h)
    have hb' : s.fields = SynFields.new c := hb
    rw [hb'] at hc
    cases hc
    exact .inl (advance _ s.fields ⟨hb', _, ho, hbu⟩)
  | setTrie hg =>
    obtain ⟨rfl, rfl, rfl⟩ := who hg (fun h => h)
    obtain ⟨h1, h2⟩ := hb
    exact .inl (advance _ _ ⟨by rw [h1]; rfl, h2⟩)
  | setMaxWords hg =>
    obtain ⟨rfl, rfl, rfl⟩ := who hg (fun h => h)
    obtain ⟨h1, h2⟩ := hb
    exact .inl (advance _ _ ⟨_, by rw [h1], h2⟩)
  | setConfig hg =>
    obtain ⟨rfl, rfl, rfl⟩ := who hg (fun h => h)
    obtain ⟨f, h1, h2⟩ := hb
    exact .inl (advance _ _ ⟨f, by rw [h1]; rfl, h2⟩)
  | store hg =>
    rename_i g inc err
    obtain ⟨rfl, rfl, rfl⟩ := who hg (fun h => h)
    have : ∃ out, s.fields = finalFields c out ∧ Possible E c out ∧ ErrOK out err := by
      cases err with
      | none =>
        obtain ⟨f, h1, h2⟩ := hb
        exact ⟨.ok f, h1, h2, rfl⟩
      | some e =>
        obtain ⟨h1, h2⟩ := hb
        exact ⟨.error e, h1, h2, .inr rfl⟩
    obtain ⟨out, h1, h2, h3⟩ := this
    have carriers : ∀ k inc' q, (s.move g (some (inc, .unlock err))).threads k = some (inc', q) →
        q.Carries → k = g := by
      intro k inc' q hk hq
      simp only [move_threads] at hk
      by_cases hkg : k = g
      · exact hkg
      · simp only [hkg, ↓reduceIte] at hk
        exact absurd hq (hothers _ _ _ hkg hk).not_carries
    refine .inr ⟨out, rfl, h.builds, h2, h1, ?_, ?_, ?_, ?_, ?_⟩
    · intro k inc' q hk
      simp only [move_threads] at hk
      by_cases hkg : k = g
      · simp only [hkg, ↓reduceIte, Option.some.injEq, Prod.mk.injEq] at hk
        rw [← hk.2]; exact h3
      · simp only [hkg, ↓reduceIte] at hk
        exact (hothers _ _ _ hkg hk).late out
    · simp [h.streams]
    · intro a b inc1 inc2 p q ha hb' hp hq
      rw [carriers _ _ _ ha hp, carriers _ _ _ hb' hq]
    · simp [h.streams]
    · simp [h.streams]
  | unlock hg =>
    obtain ⟨rfl, rfl, rfl⟩ := who hg (fun h => h)
    exact hb.elim
  | make hg =>
    obtain ⟨rfl, rfl, rfl⟩ := who hg (fun h => h)
    exact hb.elim
  | next hx hn => rw [h.streams] at hx; simp at hx

theorem after_step {s s' : Shared σ} {out : Except Err SynFilter} (h : After E call c s out)
    (hs : SharedStep E call s s') : After E call c s' out := by
  have hd := h.done
  have late : ∀ {g inc p}, s.threads g = some (inc, p) → p.Late out := fun hg => h.threads _ _ _ hg
  have stay : ∀ (g : Nat) (inc : TS σ) (p : Phase) (m : Option Nat), p.Late out →
      (p.Carries → ∃ inc p, s.threads g = some (inc, p) ∧ p.Carries) →
      After E call c { s.move g (some (inc, p)) with mutex := m } out := by
    intro g inc p m hp hc
    have back : ∀ k inc' q, (if k = g then some (inc, p) else s.threads k) = some (inc', q) →
        q.Carries → ∃ inc q, s.threads k = some (inc, q) ∧ q.Carries := by
      intro k inc' q hk hq
      by_cases hkg : k = g
      · simp only [hkg, ↓reduceIte, Option.some.injEq, Prod.mk.injEq] at hk
        rw [← hk.2] at hq
        rw [hkg]; exact hc hq
      · simp only [hkg, ↓reduceIte] at hk
        exact ⟨_, _, hk, hq⟩
    refine ⟨h.done, h.builds, h.possible, h.fields, ?_, h.streams, ?_, ?_, h.pairs⟩
    · intro k inc' q hk
      simp only [move_threads] at hk
      by_cases hkg : k = g
      · simp only [hkg, ↓reduceIte, Option.some.injEq, Prod.mk.injEq] at hk
        rw [← hk.2]; exact hp
      · simp only [hkg, ↓reduceIte] at hk
        exact late hk
    · intro a b inc1 inc2 p1 p2 ha hb h1 h2
      obtain ⟨_, _, ha', h1'⟩ := back _ _ _ ha h1
      obtain ⟨_, _, hb', h2'⟩ := back _ _ _ hb h2
      exact h.one _ _ _ _ _ _ ha' hb' h1' h2'
    · intro a inc1 p1 ha h1
      obtain ⟨_, _, ha', h1'⟩ := back _ _ _ ha h1
      exact h.alone _ _ _ ha' h1'
  cases hs with
  | enter g inc hg => exact stay _ _ _ s.mutex trivial (fun h => h.elim)
  | fast hg hd' =>
    refine stay _ _ _ s.mutex ?_ (fun h => absurd rfl h)
    cases out <;> simp [Phase.Late, ErrOK]
  | slow hg hd' => rw [hd] at hd'; cases hd'
  | acquire hg hmu => exact stay _ _ _ _ trivial (fun h => h.elim)
  | already hg hd' =>
    refine stay _ _ _ s.mutex ?_ (fun h => absurd rfl h)
    cases out <;> simp [Phase.Late, ErrOK]
  | begin hg hd' => rw [hd] at hd'; cases hd'
  | built hg _ _ _ => exact (late hg).elim
  | failed hg _ _ _ => exact (late hg).elim
  | setTrie hg => exact (late hg).elim
  | setMaxWords hg => exact (late hg).elim
  | setConfig hg => exact (late hg).elim
  | store hg => exact (late hg).elim
  | unlock hg =>
    have h1 := late hg
    exact stay _ _ _ _ h1 (fun h => ⟨_, _, hg, h⟩)
  | make hg =>
    rename_i g inc err
    have back : ∀ k inc' q, (if k = g then none else s.threads k) = some (inc', q) →
        k ≠ g ∧ s.threads k = some (inc', q) := by
      intro k inc' q hk
      by_cases hkg : k = g
      · simp [hkg] at hk
      · simp only [hkg, ↓reduceIte] at hk
        exact ⟨hkg, hk⟩
    refine ⟨h.done, h.builds, h.possible, h.fields, ?_, ?_, ?_, ?_, ?_⟩
    · intro k inc' q hk
      exact late (back _ _ _ hk).2
    · intro x hx
      rcases List.mem_append.mp hx with hx | hx
      · exact h.streams x hx
      · simp only [List.mem_singleton] at hx
        subst hx
        exact ⟨late hg, rfl⟩
    · intro a b inc1 inc2 p1 p2 ha hb h1 h2
      exact h.one _ _ _ _ _ _ (back _ _ _ ha).2 (back _ _ _ hb).2 h1 h2
    · intro a inc1 p1 ha h1 x hx
      obtain ⟨hne, ha'⟩ := back _ _ _ ha
      rcases List.mem_append.mp hx with hx | hx
      · exact h.alone _ _ _ ha' h1 x hx
      · simp only [List.mem_singleton] at hx
        subst hx
        refine Classical.byContradiction fun hc => hne ?_
        exact h.one _ _ _ _ _ _ ha' hg h1 hc
    · rw [List.pairwise_append]
      refine ⟨h.pairs, List.pairwise_singleton _ _, ?_⟩
      intro a ha b hb
      simp only [List.mem_singleton] at hb
      subst hb
      by_cases hc : err = none
      · exact .inr hc
      · exact .inl (h.alone _ _ _ hg hc a ha)
  | next hx hn =>
    rename_i k x r st
    have hxm : x ∈ s.streams := List.mem_of_getElem? hx
    refine ⟨h.done, h.builds, h.possible, h.fields, h.threads, ?_, h.one, ?_, ?_⟩
    · intro y hy
      rcases List.mem_or_eq_of_mem_set hy with hy | rfl
      · exact h.streams y hy
      · exact ⟨(h.streams x hxm).1, answers_snoc (h.streams x hxm).2 hn⟩
    · intro g inc p hg hp y hy
      rcases List.mem_or_eq_of_mem_set hy with hy | rfl
      · exact h.alone _ _ _ hg hp y hy
      · exact h.alone _ _ _ hg hp x hxm
    · have := h.pairs
      rw [← List.pairwise_map (f := SharedStream.err) (R := fun a b => a = none ∨ b = none)] at this ⊢
      rw [List.map_set]
      have he : (s.streams.map SharedStream.err)[k]? = some x.err := by simp [hx]
      have hset : (s.streams.map SharedStream.err).set k x.err = s.streams.map SharedStream.err := by
        obtain ⟨hlt, hval⟩ := List.getElem?_eq_some_iff.mp he
        rw [← hval, List.set_getElem_self]
      simp only [hset]
      exact this

theorem reachable_sharedInv {s : Shared σ} (h : Reachable E call c s) : SharedInv E call c s := by
  induction h with
  | start =>
    refine ⟨by simp [Shared.new], .inl ⟨rfl, rfl, rfl, rfl, by simp [Shared.new]⟩⟩
  | step h hs ih =>
    refine ⟨mutex_step ih.mutex hs, ?_⟩
    rcases ih.stage with h1 | h1 | ⟨out, h1⟩
    · rcases before_step h1 hs with h2 | h2
      · exact .inl h2
      · exact .inr (.inl h2)
    · exact .inr (during_step ih.mutex h1 hs)
    · exact .inr (.inr ⟨out, after_step h1 hs⟩)

end Jargon
