import Verif.Proofs.GoLemmas
import Verif.Spec.Queue

/-! The heap model of the queue refines lists. -/

namespace Jargon

theorem length_writeAt {α : Type} (l vals : List α) (pos : Nat) (h : pos + vals.length ≤ l.length) :
    (writeAt l pos vals).length = l.length := by
  simp [writeAt]; omega

theorem writeAt_nil {α : Type} (l : List α) (pos : Nat) : writeAt l pos [] = l := by
  simp [writeAt]

/-- A slice lies within its array. -/
structure Slice.Fits (h : Heap) (s : Slice) : Prop where
  len_le : s.len ≤ s.cap
  inside : s.cap = 0 ∨ s.off + s.cap ≤ (h.cells s.arr).length ∧ s.arr < h.fresh

/-- Two slices cannot affect each other. -/
def Slice.Apart (s t : Slice) : Prop := s.cap = 0 ∨ t.cap = 0 ∨ s.arr ≠ t.arr

theorem Slice.Apart.symm {s t : Slice} (h : s.Apart t) : t.Apart s := by
  unfold Slice.Apart at *
  rcases h with h | h | h
  · exact .inr (.inl h)
  · exact .inl h
  · exact .inr (.inr (Ne.symm h))

theorem Slice.Fits.length_read {h : Heap} {s : Slice} (hf : s.Fits h) : (h.read s).length = s.len := by
  have := hf.len_le
  have := hf.inside
  simp [Heap.read]; omega

/-- The cells and the counter after a write. -/
theorem Slice.Fits.write {h : Heap} {s : Slice} (hf : s.Fits h) (arr pos : Nat)
    (vals : List (Option Token)) (hw : vals = [] ∨ pos + vals.length ≤ (h.cells arr).length) :
    s.Fits (h.write arr pos vals) := by
  refine ⟨hf.len_le, hf.inside.imp_right fun ⟨h1, h2⟩ => ⟨?_, h2⟩⟩
  simp only [Heap.write]
  split
  · rename_i heq
    rcases hw with rfl | hw
    · rw [writeAt_nil, ← heq]; exact h1
    · rw [length_writeAt _ _ _ hw, ← heq]; exact h1
  · exact h1

theorem read_write_apart {h : Heap} {s t : Slice} (hs : s.Fits h) (ha : s.Apart t) (pos : Nat)
    (vals : List (Option Token)) (hv : t.cap = 0 → vals = []) :
    (h.write t.arr pos vals).read s = h.read s := by
  have := hs.len_le
  simp only [Heap.read, Heap.write]
  split
  · rename_i heq
    rcases ha with ha | ha | ha
    · have : s.len = 0 := by omega
      simp [this]
    · rw [hv ha, heq]
      simp [writeAt]
    · exact absurd heq ha
  · rfl

theorem take_drop_writeAt {α : Type} (l vals : List α) (off pre : Nat)
    (hp : off + pre + vals.length ≤ l.length) :
    ((writeAt l (off + pre) vals).drop off).take (pre + vals.length) = (l.drop off).take pre ++ vals := by
  unfold writeAt
  have h1 : (l.take (off + pre)).length = off + pre := by simp; omega
  rw [List.append_assoc, List.drop_append_of_le_length (by rw [h1]; omega)]
  have h2 : ((l.take (off + pre)).drop off) = (l.drop off).take pre := by
    rw [List.drop_take]; congr 1; omega
  rw [h2]
  have h3 : ((l.drop off).take pre).length = pre := by simp; omega
  rw [List.take_append, h3, List.take_of_length_le (by omega)]
  congr 1
  rw [List.take_append_of_le_length (by omega), List.take_of_length_le (by omega)]

/-! ### Drop -/

theorem drop_ok {h : Heap} {s : Slice} (hf : s.Fits h) {n : Nat} (hn : n ≤ s.len) :
    ∃ h' s', HQueue.drop h s n = Go.ret (h', s') ∧ s'.Fits h' ∧
      h'.read s' = (h.read s).drop n ∧
      (∀ t : Slice, t.Fits h → t.Apart s → t.Fits h' ∧ h'.read t = h.read t ∧ t.Apart s') := by
  have h1 := hf.len_le
  have h2 := hf.inside
  have hlen := hf.length_read
  let vals := (h.read s).drop n
  have hvl : vals.length = s.len - n := by simp [vals, hlen]
  have hnil : s.cap = 0 → vals = [] := fun h0 => List.length_eq_zero_iff.mp (by omega)
  have hw : vals = [] ∨ s.off + vals.length ≤ (h.cells s.arr).length := by
    rcases h2 with h2 | h2
    · exact .inl (hnil h2)
    · exact .inr (by omega)
  have hsrc : h.read { s with off := s.off + n, len := s.len - n, cap := s.cap - n } = vals := by
    simp only [Heap.read, vals]
    rw [List.drop_take, List.drop_drop]
  have hcopy : h.copy s { s with off := s.off + n, len := s.len - n, cap := s.cap - n } =
      h.write s.arr s.off vals := by
    simp only [Heap.copy]
    rw [hsrc, List.take_of_length_le (by omega)]
  refine ⟨h.write s.arr s.off vals, { s with len := s.len - n }, ?_, ?_, ?_, ?_⟩
  · simp only [HQueue.drop, Slice.from, if_pos hn, Go.ret_bind, hcopy, Slice.to]
    rw [if_pos (by omega)]
    simp
  · have := hf.write s.arr s.off vals hw
    exact ⟨by simp only; omega, this.inside⟩
  · rcases h2 with h2 | h2
    · have : s.len - n = 0 := by omega
      simp only [Heap.read, this, List.take_zero]
      have h0 := hnil h2
      simp only [vals, Heap.read] at h0
      rw [h0]
    · have := take_drop_writeAt (h.cells s.arr) vals s.off 0 (by omega)
      simp only [Heap.read, Heap.write, ↓reduceIte]
      simp only [Nat.add_zero, Nat.zero_add, List.take_zero, List.nil_append, hvl] at this
      exact this
  · intro t ht ha
    exact ⟨ht.write _ _ _ hw, read_write_apart ht ha _ _ hnil, ha⟩

theorem drop_panic {h : Heap} {s : Slice} {n : Nat} (hn : s.len < n) :
    HQueue.drop h s n = Go.panic .indexOutOfRange := by
  simp [HQueue.drop, Slice.from, show ¬ n ≤ s.len by omega]

/-! ### append -/

theorem append_ok (grow : Nat → Nat → Nat) {h : Heap} {s : Slice} (hf : s.Fits h)
    (vals : List (Option Token)) :
    (h.append grow s vals).2.Fits (h.append grow s vals).1 ∧
    (h.append grow s vals).1.read (h.append grow s vals).2 = h.read s ++ vals ∧
    ∀ t : Slice, t.Fits h → t.Apart s →
      t.Fits (h.append grow s vals).1 ∧ (h.append grow s vals).1.read t = h.read t ∧
      t.Apart (h.append grow s vals).2 := by
  have h1 := hf.len_le
  have h2 := hf.inside
  have hlen := hf.length_read
  unfold Heap.append
  split
  · rename_i hc
    have hnil : s.cap = 0 → vals = [] := fun h0 => List.length_eq_zero_iff.mp (by omega)
    have hw : vals = [] ∨ s.off + s.len + vals.length ≤ (h.cells s.arr).length := by
      rcases h2 with h2 | h2
      · exact .inl (hnil h2)
      · exact .inr (by omega)
    refine ⟨?_, ?_, ?_⟩
    · have := hf.write s.arr (s.off + s.len) vals hw
      exact ⟨hc, this.inside⟩
    · rcases h2 with h2 | h2
      · have h0 := hnil h2
        subst h0
        simp [Heap.read, Heap.write, writeAt_nil]
      · have := take_drop_writeAt (h.cells s.arr) vals s.off s.len (by omega)
        simp only [Heap.read, Heap.write, ↓reduceIte]
        exact this
    · intro t ht ha
      exact ⟨ht.write _ _ _ hw, read_write_apart ht ha _ _ hnil, ha⟩
  · rename_i hc
    have hlen' := hlen
    simp only [Heap.read] at hlen'
    refine ⟨?_, ?_, ?_⟩
    · exact ⟨by simp [hlen], .inr (by simp)⟩
    · simp only [Heap.read, ↓reduceIte, List.drop_zero]
      rw [List.take_append_of_le_length (by simp only [List.length_append]; omega),
        List.take_of_length_le (by simp only [List.length_append]; omega)]
    · intro t ht ha
      have hne : t.cap = 0 ∨ t.arr ≠ h.fresh := by
        rcases ht.inside with h0 | h0
        · exact .inl h0
        · exact .inr (by omega)
      have ht1 := ht.len_le
      refine ⟨⟨ht1, ?_⟩, ?_, ?_⟩
      · refine ht.inside.imp_right fun ⟨h3, h4⟩ => ?_
        have h5 : ¬ t.arr = h.fresh := by omega
        simp only [h5, ↓reduceIte]
        exact ⟨h3, by omega⟩
      · simp only [Heap.read]
        split
        · rcases hne with h0 | h0
          · have : t.len = 0 := by omega
            simp [this]
          · contradiction
        · rfl
      · rcases hne with h0 | h0
        · exact .inl h0
        · exact .inr (.inr h0)

/-! ### All queues -/

/-- Every queue lies within its array and no two share one. -/
structure QState.Inv (s : QState) : Prop where
  fits : ∀ q ∈ s.queues, q.Fits s.heap
  apart : s.queues.Pairwise Slice.Apart

/-- The contents of the queues. -/
def QState.abs (s : QState) : List (List (Option Token)) := s.queues.map s.heap.read

theorem pairwise_get {l : List Slice} (h : l.Pairwise Slice.Apart) {i j : Nat} {a b : Slice}
    (hij : i ≠ j) (hi : l[i]? = some a) (hj : l[j]? = some b) : a.Apart b := by
  obtain ⟨hi', rfl⟩ := List.getElem?_eq_some_iff.mp hi
  obtain ⟨hj', rfl⟩ := List.getElem?_eq_some_iff.mp hj
  rw [List.pairwise_iff_getElem] at h
  rcases Nat.lt_or_gt_of_ne hij with hlt | hlt
  · exact h i j hi' hj' hlt
  · exact (h j i hj' hi' hlt).symm

/-- One queue is changed in a way that does not touch the others. -/
theorem update_ok {s : QState} (hs : s.Inv) {i : Nat} {q : Slice} (hq : s.queues[i]? = some q)
    {h' : Heap} {q' : Slice} {c : List (Option Token)} (hf : q'.Fits h') (hr : h'.read q' = c)
    (ho : ∀ t : Slice, t.Fits s.heap → t.Apart q → t.Fits h' ∧ h'.read t = s.heap.read t ∧ t.Apart q') :
    (QState.mk h' (s.queues.set i q')).Inv ∧
    (QState.mk h' (s.queues.set i q')).abs = s.abs.set i c := by
  obtain ⟨hi, hqi⟩ := List.getElem?_eq_some_iff.mp hq
  have key : ∀ j t, j ≠ i → s.queues[j]? = some t →
      t.Fits h' ∧ h'.read t = s.heap.read t ∧ t.Apart q' := by
    intro j t hji hj
    exact ho t (hs.fits t (List.mem_of_getElem? hj)) (pairwise_get hs.apart hji hj hq)
  refine ⟨⟨?_, ?_⟩, ?_⟩
  · intro t ht
    obtain ⟨j, hj⟩ := List.mem_iff_getElem?.mp ht
    simp only [List.getElem?_set] at hj
    by_cases hij : i = j
    · simp only [hij, ↓reduceIte] at hj
      split at hj
      · simp only [Option.some.injEq] at hj; rw [← hj]; exact hf
      · simp at hj
    · simp only [hij, ↓reduceIte] at hj
      exact (key j t (Ne.symm hij) hj).1
  · rw [List.pairwise_iff_getElem]
    intro a b ha hb hab
    simp only [List.length_set] at ha hb
    simp only [List.getElem_set]
    by_cases hia : i = a
    · have hib : ¬ i = b := by omega
      simp only [hia, ↓reduceIte]
      rw [if_neg (by omega)]
      exact (key b _ (by omega) (List.getElem?_eq_getElem hb)).2.2.symm
    · by_cases hib : i = b
      · rw [if_neg hia, if_pos hib]
        exact (key a _ (by omega) (List.getElem?_eq_getElem ha)).2.2
      · rw [if_neg hia, if_neg hib]
        have := hs.apart
        rw [List.pairwise_iff_getElem] at this
        exact this a b ha hb hab
  · apply List.ext_getElem?
    intro j
    simp only [QState.abs, List.getElem?_map, List.getElem?_set, List.length_map]
    by_cases hij : i = j
    · subst hij
      simp [hi, hr]
    · simp only [hij, ↓reduceIte]
      cases hj : s.queues[j]? with
      | none => rfl
      | some t => simp [(key j t (Ne.symm hij) hj).2.1]

theorem abs_get {s : QState} {i : Nat} : s.abs[i]? = (s.queues[i]?).map s.heap.read := by
  simp [QState.abs]

theorem get_some {s : QState} {i : Nat} {q : Slice} (h : s.queues[i]? = some q) :
    s.get i = Go.ret q := by simp [QState.get, h]

theorem get_none {s : QState} {i : Nat} (h : s.queues[i]? = none) : s.get i = Go.panic .nilDeref := by
  simp [QState.get, h]

/-- What one call does agrees with what it does on lists. -/
def Agrees {β : Type} (r : Go (β × QState)) (l : Option (β × List (List (Option Token)))) : Prop :=
  match l with
  | none => ∃ p, r = Go.panic p
  | some (o, qs) => ∃ s', r = Go.ret (o, s') ∧ s'.Inv ∧ s'.abs = qs

theorem step_agrees (grow : Nat → Nat → Nat) {s : QState} (hs : s.Inv) (op : QOp) :
    Agrees (s.step grow op) (listStep s.abs op) := by
  cases op with
  | new =>
    refine ⟨_, rfl, ⟨?_, ?_⟩, ?_⟩
    · intro q hq
      rcases List.mem_append.mp hq with hq | hq
      · exact hs.fits q hq
      · simp only [List.mem_singleton] at hq
        subst hq
        exact ⟨Nat.le_refl _, .inl rfl⟩
    · rw [List.pairwise_append]
      refine ⟨hs.apart, List.pairwise_singleton _ _, ?_⟩
      intro a _ b hb
      simp only [List.mem_singleton] at hb
      subst hb
      exact .inr (.inl rfl)
    · simp [QState.abs, Heap.read, Slice.nil]
  | newWith tokens =>
    have hn : Slice.nil.Fits s.heap := ⟨Nat.le_refl _, .inl rfl⟩
    obtain ⟨h1, h2, h3⟩ := append_ok grow hn tokens
    have h3' := fun q hq => h3 q (hs.fits q hq) (.inr (.inl rfl))
    refine ⟨⟨(s.heap.append grow Slice.nil tokens).1,
      s.queues ++ [(s.heap.append grow Slice.nil tokens).2]⟩, rfl, ⟨?_, ?_⟩, ?_⟩
    · intro q hq
      rcases List.mem_append.mp hq with hq | hq
      · exact (h3' q hq).1
      · simp only [List.mem_singleton] at hq
        subst hq
        exact h1
    · rw [List.pairwise_append]
      refine ⟨hs.apart, List.pairwise_singleton _ _, ?_⟩
      intro a ha b hb
      simp only [List.mem_singleton] at hb
      subst hb
      exact (h3' a ha).2.2
    · simp only [QState.abs, List.map_append, List.map_cons, List.map_nil, h2]
      rw [List.map_congr_left fun q hq => (h3' q hq).2.1]
      simp [Heap.read, Slice.nil]
  | push i tokens =>
    simp only [listStep, abs_get, QState.step]
    cases hq : s.queues[i]? with
    | none => exact ⟨.nilDeref, by simp [get_none hq]⟩
    | some q =>
      obtain ⟨h1, h2, h3⟩ := append_ok grow (hs.fits q (List.mem_of_getElem? hq)) tokens
      obtain ⟨h4, h5⟩ := update_ok hs hq h1 h2 h3
      exact ⟨_, by simp [get_some hq, HQueue.push], h4, h5⟩
  | pop i =>
    simp only [listStep, abs_get, QState.step]
    cases hq : s.queues[i]? with
    | none => exact ⟨.nilDeref, by simp [get_none hq]⟩
    | some q =>
      have hf := hs.fits q (List.mem_of_getElem? hq)
      simp only [Option.map_some, Option.bind_eq_bind, Option.bind_some]
      cases hr : s.heap.read q with
      | nil => exact ⟨.indexOutOfRange, by simp [get_some hq, HQueue.pop, hr]⟩
      | cons t rest =>
        have hl := hf.length_read
        rw [hr] at hl
        obtain ⟨h', q', h0, h1, h2, h3⟩ := drop_ok hf (n := 1) (by simp at hl; omega)
        rw [hr] at h2
        obtain ⟨h4, h5⟩ := update_ok hs hq h1 h2 h3
        exact ⟨_, by simp [get_some hq, HQueue.pop, hr, h0], h4, by simpa using h5⟩
  | drop i n =>
    simp only [listStep, abs_get, QState.step]
    cases hq : s.queues[i]? with
    | none => exact ⟨.nilDeref, by simp [get_none hq]⟩
    | some q =>
      have hf := hs.fits q (List.mem_of_getElem? hq)
      simp only [Option.map_some, Option.bind_eq_bind, Option.bind_some, hf.length_read]
      by_cases hn : n ≤ q.len
      · obtain ⟨h', q', h0, h1, h2, h3⟩ := drop_ok hf hn
        obtain ⟨h4, h5⟩ := update_ok hs hq h1 h2 h3
        rw [if_pos hn]
        exact ⟨_, by simp [get_some hq, h0], h4, h5⟩
      · rw [if_neg hn]
        exact ⟨.indexOutOfRange, by simp [get_some hq, drop_panic (show q.len < n by omega)]⟩
  | clear i =>
    simp only [listStep, abs_get, QState.step]
    cases hq : s.queues[i]? with
    | none => exact ⟨.nilDeref, by simp [get_none hq]⟩
    | some q =>
      have hf := hs.fits q (List.mem_of_getElem? hq)
      obtain ⟨h4, h5⟩ := update_ok hs hq (h' := s.heap) (q' := { q with len := 0 }) (c := [])
        ⟨by simp, hf.inside⟩ (by simp [Heap.read]) (fun t ht ha => ⟨ht, rfl, ha⟩)
      exact ⟨_, by simp [get_some hq, HQueue.clear, Slice.to], h4, h5⟩
  | popTo i j =>
    simp only [listStep, abs_get, QState.step]
    cases hq : s.queues[i]? with
    | none =>
      cases hj : s.queues[j]? <;> exact ⟨.nilDeref, by simp [get_none hq]⟩
    | some q =>
      cases hj : s.queues[j]? with
      | none => exact ⟨.nilDeref, by simp [get_some hq, get_none hj]⟩
      | some d =>
        have hf := hs.fits q (List.mem_of_getElem? hq)
        simp only [Option.map_some, Option.bind_eq_bind, Option.bind_some]
        cases hr : s.heap.read q with
        | nil => exact ⟨.indexOutOfRange, by simp [get_some hq, get_some hj, HQueue.pop, hr]⟩
        | cons t rest =>
          have hl := hf.length_read
          rw [hr] at hl
          obtain ⟨h', q', h0, h1, h2, h3⟩ := drop_ok hf (n := 1) (by simp at hl; omega)
          rw [hr] at h2
          obtain ⟨h4, h5⟩ := update_ok hs hq h1 h2 h3
          simp only [List.drop_one, List.tail_cons] at h5
          have hj' : ∃ d', (s.queues.set i q')[j]? = some d' := by
            have := (List.getElem?_eq_some_iff.mp hj).1
            exact ⟨_, List.getElem?_eq_getElem (by simpa using this)⟩
          obtain ⟨d', hd'⟩ := hj'
          have hd : (s.abs.set i rest)[j]? = some (h'.read d') := by
            rw [← h5, abs_get]; simp [hd']
          obtain ⟨h6, h7, h8⟩ := append_ok grow (h4.fits d' (List.mem_of_getElem? hd')) [t]
          obtain ⟨h9, h10⟩ := update_ok h4 hd' h6 h7 h8
          rw [h5] at h10
          simp only [hd, Option.bind_some]
          refine ⟨_, ?_, h9, h10⟩
          simp only [get_some hq, get_some hj, Go.ret_bind, HQueue.pop, hr, List.getElem?_cons_zero,
            h0, Go.pure_eq]
          rw [get_some (s := ⟨h', s.queues.set i q'⟩) hd']
          simp [HQueue.push]
  | flushTo i j =>
    simp only [listStep, abs_get, QState.step]
    cases hq : s.queues[i]? with
    | none => exact ⟨.nilDeref, by simp [get_none hq]⟩
    | some q =>
      cases hj : s.queues[j]? with
      | none => exact ⟨.nilDeref, by simp [get_some hq, get_none hj]⟩
      | some d =>
        obtain ⟨h1, h2, h3⟩ := append_ok grow (hs.fits d (List.mem_of_getElem? hj)) (s.heap.read q)
        obtain ⟨h4, h5⟩ := update_ok hs hj h1 h2 h3
        have hi' : ∃ q', (s.queues.set j (s.heap.append grow d (s.heap.read q)).2)[i]? = some q' := by
          have := (List.getElem?_eq_some_iff.mp hq).1
          exact ⟨_, List.getElem?_eq_getElem (by simpa using this)⟩
        obtain ⟨q', hq'⟩ := hi'
        have hf := h4.fits q' (List.mem_of_getElem? hq')
        obtain ⟨h6, h7⟩ := update_ok h4 hq' (h' := (s.heap.append grow d (s.heap.read q)).1)
          (q' := { q' with len := 0 }) (c := [])
          ⟨by simp, hf.inside⟩ (by simp [Heap.read]) (fun t ht ha => ⟨ht, rfl, ha⟩)
        rw [h5] at h7
        simp only [Option.map_some, Option.bind_eq_bind, Option.bind_some]
        refine ⟨_, ?_, h6, h7⟩
        simp only [get_some hq, get_some hj, Go.ret_bind]
        rw [get_some (s := ⟨_, s.queues.set j (s.heap.append grow d (s.heap.read q)).2⟩) hq']
        simp [HQueue.clear, Slice.to]
  | len i =>
    simp only [listStep, abs_get, QState.step]
    cases hq : s.queues[i]? with
    | none => exact ⟨.nilDeref, by simp [get_none hq]⟩
    | some q =>
      have hf := hs.fits q (List.mem_of_getElem? hq)
      exact ⟨s, by simp [get_some hq, hf.length_read], hs, rfl⟩
  | any i =>
    simp only [listStep, abs_get, QState.step]
    cases hq : s.queues[i]? with
    | none => exact ⟨.nilDeref, by simp [get_none hq]⟩
    | some q =>
      have hf := hs.fits q (List.mem_of_getElem? hq)
      refine ⟨s, ?_, hs, rfl⟩
      have : decide (s.heap.read q ≠ []) = decide (q.len > 0) := by
        rw [← hf.length_read]
        apply decide_eq_decide.mpr
        exact List.length_pos_iff.symm
      simp only [get_some hq, Go.ret_bind, this, Go.pure_eq]
  | contents i =>
    simp only [listStep, abs_get, QState.step]
    cases hq : s.queues[i]? with
    | none => exact ⟨.nilDeref, by simp [get_none hq]⟩
    | some q => exact ⟨s, by simp [get_some hq], hs, rfl⟩

theorem run_agrees (grow : Nat → Nat → Nat) (ops : List QOp) {s : QState} (hs : s.Inv) :
    Agrees (s.run grow ops) (listRun s.abs ops) := by
  induction ops generalizing s with
  | nil => exact ⟨s, rfl, hs, rfl⟩
  | cons op ops ih =>
    have h1 := step_agrees grow hs op
    rw [listRun, QState.run]
    cases hl : listStep s.abs op with
    | none =>
      rw [hl] at h1
      obtain ⟨p, hp⟩ := h1
      exact ⟨p, by simp [hp]⟩
    | some r =>
      obtain ⟨o, qs⟩ := r
      rw [hl] at h1
      obtain ⟨s1, h2, h3, rfl⟩ := h1
      have h4 := ih h3
      simp only [Option.bind_eq_bind, Option.bind_some]
      cases hl2 : listRun s1.abs ops with
      | none =>
        rw [hl2] at h4
        obtain ⟨p, hp⟩ := h4
        exact ⟨p, by simp [h2, hp]⟩
      | some r =>
        obtain ⟨os, qs⟩ := r
        rw [hl2] at h4
        obtain ⟨s2, h5, h6, rfl⟩ := h4
        exact ⟨s2, by simp [h2, h5], h6, rfl⟩

end Jargon
