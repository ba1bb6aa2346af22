import Verif.Proofs.Queue

/-! C14, C15: the token queue, with its backing arrays. -/

namespace Jargon

/-- A program starts with no queues; the heap may hold anything else. -/
def QState.start (heap : Heap) : QState := { heap, queues := [] }

theorem start_inv (heap : Heap) : (QState.start heap).Inv := ⟨by simp [QState.start], by simp [QState.start]⟩

/-- **C14.** Any sequence of calls on queues made by `New` returns exactly what it returns on
independent lists, whatever the capacities `append` chooses, and panics exactly if it should. -/
theorem C14_queue_is_fifo (grow : Nat → Nat → Nat) (heap : Heap) (ops : List QOp) :
    (∀ obs qs, listRun [] ops = some (obs, qs) →
      ∃ s, (QState.start heap).run grow ops = Go.ret (obs, s) ∧ s.queues.map s.heap.read = qs) ∧
    (listRun [] ops = none → ∃ p, (QState.start heap).run grow ops = Go.panic p) := by
  have h := run_agrees grow ops (start_inv heap)
  have h0 : (QState.start heap).abs = [] := rfl
  rw [h0] at h
  constructor
  · intro obs qs hl
    rw [hl] at h
    obtain ⟨s, h1, -, h3⟩ := h
    exact ⟨s, h1, h3⟩
  · intro hl
    rw [hl] at h
    exact h

/-- The result of a computation that ends without a panic. -/
def Go.result? {α : Type} (x : Go α) : Option α :=
  match x with
  | some (.ok a) => some a
  | _ => none

/-- **C14 (the queues of the filters).** The operations on lists that the models of the filters use are
those of C14. -/
theorem C14_lists (q dst tokens : List (Option Token)) (n : Nat) :
    listStep [q] .new = some (.unit, [q, Queue.new]) ∧
    listStep [q, dst] (.push 0 tokens) = some (.unit, [Queue.push q tokens, dst]) ∧
    listStep [q, dst] (.pop 0) = (Queue.pop q).result?.map (fun r => (.token r.1, [r.2, dst])) ∧
    listStep [q, dst] (.drop 0 n) = (Queue.drop q n).result?.map (fun q' => (.unit, [q', dst])) ∧
    listStep [q, dst] (.clear 0) = some (.unit, [Queue.clear q, dst]) ∧
    listStep [q, dst] (.popTo 0 1) = (Queue.popTo q dst).result?.map (fun r => (.unit, [r.1, r.2])) ∧
    listStep [q, dst] (.flushTo 0 1) = some (.unit, [(Queue.flushTo q dst).1, (Queue.flushTo q dst).2]) ∧
    listStep [q, dst] (.len 0) = some (.num (Queue.len q), [q, dst]) ∧
    listStep [q, dst] (.any 0) = some (.bool (Queue.any q), [q, dst]) := by
  have hd : ∀ (t : Option Token) (q : List (Option Token)), Queue.drop (t :: q) 1 = Go.ret q := by
    intro t q; simp [Queue.drop]
  refine ⟨rfl, rfl, ?_, ?_, rfl, ?_, rfl, rfl, ?_⟩
  · cases q with
    | nil => rfl
    | cons t q => simp only [Queue.pop, hd]; rfl
  · by_cases h : n ≤ q.length
    · simp [listStep, Queue.drop, h, Go.result?, Go.ret]
    · simp [listStep, Queue.drop, h, Go.result?, Go.panic]
  · cases q with
    | nil => rfl
    | cons t q => simp only [Queue.popTo, Queue.pop, hd]; rfl
  · cases q with
    | nil => rfl
    | cons t q => simp [listStep, Queue.any, Queue.len]

/-- **C14 (panics).** On lists, a call on existing queues panics only for Pop or PopTo from an empty
queue and for Drop past the end. -/
theorem C14_panics (qs : List (List (Option Token))) (op : QOp) :
    listStep qs op = none ↔
      match op with
      | .new | .newWith _ => False
      | .push i _ | .clear i | .len i | .any i | .contents i => qs[i]? = none
      | .pop i => qs[i]? = none ∨ qs[i]? = some []
      | .drop i n => ∀ q, qs[i]? = some q → q.length < n
      | .popTo i j => qs[i]? = none ∨ qs[j]? = none ∨ qs[i]? = some []
      | .flushTo i j => qs[i]? = none ∨ qs[j]? = none := by
  cases op with
  | new => simp [listStep]
  | newWith _ => simp [listStep]
  | push i _ => cases h : qs[i]? <;> simp [listStep, h]
  | clear i => cases h : qs[i]? <;> simp [listStep, h]
  | len i => cases h : qs[i]? <;> simp [listStep, h]
  | any i => cases h : qs[i]? <;> simp [listStep, h]
  | contents i => cases h : qs[i]? <;> simp [listStep, h]
  | pop i =>
    cases h : qs[i]? with
    | none => simp [listStep, h]
    | some q => cases q <;> simp [listStep, h]
  | drop i n =>
    cases h : qs[i]? with
    | none => simp [listStep, h]
    | some q => simp [listStep, h]
  | popTo i j =>
    cases hj : qs[j]? with
    | none => simp [listStep, hj]
    | some d =>
      cases h : qs[i]? with
      | none => simp [listStep, h, hj]
      | some q =>
        cases q with
        | nil => simp [listStep, h, hj]
        | cons t q =>
          have := (List.getElem?_eq_some_iff.mp hj).1
          have h2 : j < (qs.set i q).length := by simpa using this
          simp [listStep, h, hj, List.getElem?_eq_getElem h2]
  | flushTo i j =>
    cases h : qs[i]? <;> cases hj : qs[j]? <;> simp [listStep, h, hj]

/-- What a program can get to. -/
def QState.Reachable (grow : Nat → Nat → Nat) (s : QState) : Prop :=
  ∃ heap ops obs, (QState.start heap).run grow ops = Go.ret (obs, s)

/-- The content of a queue. -/
def QState.content (s : QState) (i : Nat) : Option (List (Option Token)) :=
  (s.queues[i]?).map s.heap.read

theorem reachable_inv {grow : Nat → Nat → Nat} {s : QState} (h : s.Reachable grow) : s.Inv := by
  obtain ⟨heap, ops, obs, h⟩ := h
  have h1 := run_agrees grow ops (start_inv heap)
  cases hl : listRun (QState.start heap).abs ops with
  | none =>
    rw [hl] at h1
    obtain ⟨p, hp⟩ := h1
    rw [h] at hp
    simp at hp
  | some r =>
    rw [hl] at h1
    obtain ⟨s', h2, h3, -⟩ := h1
    rw [h] at h2
    simp only [Go.ret_inj, Prod.mk.injEq] at h2
    rw [h2.2]; exact h3

/-- **C15 (PopTo).** Between different queues: the destination gets the first token at its end, the
source keeps the rest, and no other queue changes. -/
theorem C15_popTo (grow : Nat → Nat → Nat) {s : QState} (hs : s.Reachable grow) {i j : Nat}
    (hij : i ≠ j) {t : Option Token} {q d : List (Option Token)} (hi : s.content i = some (t :: q))
    (hj : s.content j = some d) :
    ∃ s', s.step grow (.popTo i j) = Go.ret (.unit, s') ∧ s'.content i = some q ∧
      s'.content j = some (d ++ [t]) ∧ ∀ k, k ≠ i → k ≠ j → s'.content k = s.content k := by
  have h := step_agrees grow (reachable_inv hs) (.popTo i j)
  simp only [QState.content, ← abs_get] at hi hj ⊢
  have hji : (s.abs.set i q)[j]? = some d := by
    rw [List.getElem?_set_ne hij]; exact hj
  simp only [listStep, hi, hj, hji, Option.bind_eq_bind, Option.bind_some] at h
  obtain ⟨s', h1, -, h3⟩ := h
  have hli := (List.getElem?_eq_some_iff.mp hi).1
  have hlj := (List.getElem?_eq_some_iff.mp hj).1
  refine ⟨s', h1, ?_, ?_, ?_⟩
  · rw [h3, List.getElem?_set_ne (Ne.symm hij), List.getElem?_set_self hli]
  · rw [h3, List.getElem?_set_self (by simpa using hlj)]
  · intro k hk1 hk2
    rw [h3, List.getElem?_set_ne (Ne.symm hk2), List.getElem?_set_ne (Ne.symm hk1)]

/-- **C15 (FlushTo).** Between different queues: the destination gets all tokens, in order, at its
end, the source is left empty, and no other queue changes. -/
theorem C15_flushTo (grow : Nat → Nat → Nat) {s : QState} (hs : s.Reachable grow) {i j : Nat}
    (hij : i ≠ j) {q d : List (Option Token)} (hi : s.content i = some q)
    (hj : s.content j = some d) :
    ∃ s', s.step grow (.flushTo i j) = Go.ret (.unit, s') ∧ s'.content i = some [] ∧
      s'.content j = some (d ++ q) ∧ ∀ k, k ≠ i → k ≠ j → s'.content k = s.content k := by
  have h := step_agrees grow (reachable_inv hs) (.flushTo i j)
  simp only [QState.content, ← abs_get] at hi hj ⊢
  simp only [listStep, hi, hj, Option.bind_eq_bind, Option.bind_some] at h
  obtain ⟨s', h1, -, h3⟩ := h
  have hli := (List.getElem?_eq_some_iff.mp hi).1
  have hlj := (List.getElem?_eq_some_iff.mp hj).1
  refine ⟨s', h1, ?_, ?_, ?_⟩
  · rw [h3, List.getElem?_set_self (by simpa using hli)]
  · rw [h3, List.getElem?_set_ne hij, List.getElem?_set_self hlj]
  · intro k hk1 hk2
    rw [h3, List.getElem?_set_ne (Ne.symm hk1), List.getElem?_set_ne (Ne.symm hk2)]

/-- Why C15 asks for different queues: flushing a queue to itself loses everything. -/
theorem C15_flush_to_itself (grow : Nat → Nat → Nat) {s : QState} (hs : s.Reachable grow) {i : Nat}
    {q : List (Option Token)} (hi : s.content i = some q) :
    ∃ s', s.step grow (.flushTo i i) = Go.ret (.unit, s') ∧ s'.content i = some [] := by
  have h := step_agrees grow (reachable_inv hs) (.flushTo i i)
  simp only [QState.content, ← abs_get] at hi ⊢
  simp only [listStep, hi, Option.bind_eq_bind, Option.bind_some] at h
  obtain ⟨s', h1, -, h3⟩ := h
  have hli := (List.getElem?_eq_some_iff.mp hi).1
  exact ⟨s', h1, by rw [h3, List.getElem?_set_self (by simpa using hli)]⟩

theorem drop_last {α : Type} (t : α) (rest post : List α) :
    (t :: rest ++ post).drop rest.length = (t :: rest).getLast (by simp) :: post := by
  induction rest generalizing t with
  | nil => rfl
  | cons u rest ih =>
    have := ih u
    simpa using this

/-- Why C14 is about queues made from nothing or from listed tokens: a queue made by `New(slice...)`
shares the caller's array, so `Pop` changes the caller's slice: its tokens move up, and the last one
is there twice. -/
theorem C14_new_shares_the_callers_slice (h : Heap) (s : Slice) (hf : s.Fits h)
    {t : Option Token} {rest : List (Option Token)} (hr : h.read s = t :: rest) :
    ∃ h' q, HQueue.pop h (HQueue.newFrom s) = Go.ret (t, h', q) ∧ h'.read q = rest ∧
      h'.read s = rest ++ [(t :: rest).getLast (by simp)] := by
  have hl := hf.length_read
  rw [hr] at hl
  simp only [List.length_cons] at hl
  have h1 := hf.len_le
  have h2 : s.off + s.cap ≤ (h.cells s.arr).length ∧ s.arr < h.fresh := by
    rcases hf.inside with h0 | h0
    · omega
    · exact h0
  obtain ⟨h', q, h3, -, h5, -⟩ := drop_ok hf (n := 1) (by omega)
  rw [hr] at h5
  have hsrc : h.read { s with off := s.off + 1, len := s.len - 1, cap := s.cap - 1 } = rest := by
    have : h.read { s with off := s.off + 1, len := s.len - 1, cap := s.cap - 1 } =
        (h.read s).drop 1 := by
      simp only [Heap.read]; rw [List.drop_take, List.drop_drop]
    rw [this, hr]; rfl
  have h6 : h' = h.write s.arr s.off rest := by
    simp only [HQueue.drop, Slice.from, show 1 ≤ s.len by omega, ↓reduceIte, Go.ret_bind, Heap.copy,
      hsrc, List.take_of_length_le (show rest.length ≤ s.len by omega), Slice.to,
      show s.len - 1 ≤ s.cap by omega] at h3
    simp only [Go.pure_eq, Go.ret_inj, Prod.mk.injEq] at h3
    exact h3.1.symm
  refine ⟨h', q, ?_, h5, ?_⟩
  · simp only [HQueue.pop, HQueue.newFrom, hr, List.getElem?_cons_zero, h3, Go.ret_bind, Go.pure_eq]
  · have hcells : ∃ pre post, h.cells s.arr = pre ++ (t :: rest) ++ post ∧ pre.length = s.off := by
      refine ⟨(h.cells s.arr).take s.off, ((h.cells s.arr).drop s.off).drop s.len, ?_, by simp; omega⟩
      rw [← hr, Heap.read, List.append_assoc, List.take_append_drop, List.take_append_drop]
    obtain ⟨pre, post, hc, hp⟩ := hcells
    rw [h6]
    simp only [Heap.read, Heap.write, ↓reduceIte, writeAt, hc]
    rw [← hp]
    have e1 : (pre ++ (t :: rest) ++ post).take pre.length = pre := by
      rw [List.append_assoc, List.take_left']; rfl
    have e2 : (pre ++ (t :: rest) ++ post).drop (pre.length + rest.length) =
        (t :: rest).getLast (by simp) :: post := by
      rw [List.append_assoc, ← List.drop_drop, List.drop_left]
      exact drop_last t rest post
    rw [e1, e2, List.append_assoc, List.drop_left]
    rw [show s.len = (rest ++ [(t :: rest).getLast (by simp)]).length by simp; omega]
    rw [show rest ++ (t :: rest).getLast (by simp) :: post =
      (rest ++ [(t :: rest).getLast (by simp)]) ++ post by simp]
    rw [List.take_left]

private def tok (b : UInt8) : Option Token := some ⟨[b], false, false, false⟩

/-- Two queues, spare capacity, tokens moved in place and to new arrays. -/
example :
    let heap : Heap := ⟨fun _ => [], 0⟩
    let ops : List QOp := [.new, .new, .push 0 [tok 1, tok 2, tok 3], .drop 0 1, .push 1 [tok 9],
      .push 0 [tok 4], .popTo 0 1, .pop 0, .flushTo 0 1, .push 0 [tok 5], .contents 0, .contents 1,
      .len 1, .any 0]
    ∃ s, (QState.start heap).run (fun cap _ => cap) ops = Go.ret
      ([.unit, .unit, .unit, .unit, .unit, .unit, .unit, .token (tok 3), .unit, .unit,
        .tokens [tok 5], .tokens [tok 9, tok 2, tok 4], .num 3, .bool true], s) := by
  intro heap ops
  obtain ⟨s, h, -⟩ := (C14_queue_is_fifo (fun cap _ => cap) heap ops).1
    [.unit, .unit, .unit, .unit, .unit, .unit, .unit, .token (tok 3), .unit, .unit,
        .tokens [tok 5], .tokens [tok 9, tok 2, tok 4], .num 3, .bool true]
    [[tok 5], [tok 9, tok 2, tok 4]] (by decide +kernel)
  exact ⟨s, h⟩

example : listRun [] [.new, .pop 0] = none ∧ listRun [] [.newWith [tok 1], .drop 0 2] = none := by
  decide +kernel

end Jargon
