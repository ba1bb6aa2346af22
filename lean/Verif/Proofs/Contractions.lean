import Verif.Spec.Tables
import Verif.Props.Simple
import Verif.Proofs.Text

/-! The generator of the table of contractions, and facts about the tables. -/

namespace Jargon

/-! ### The generator -/

/-- `title` on a non-empty text. -/
def titleOf (f : Nat → Nat) : Bytes → Bytes
  | [] => []
  | b :: t => mapString f [b] ++ t

/-- All variants of an entry of the base list. -/
def variants (p : Bytes × Bytes) : List (Bytes × Bytes) :=
  (apostrophes p.1).flatMap fun a =>
    [(mapString asciiLower a, mapString asciiLower p.2), (titleOf asciiUpper a, titleOf asciiUpper p.2),
     (mapString asciiUpper a, mapString asciiUpper p.2)]

/-- A text of ASCII characters and typographic apostrophes that starts with an ASCII character. -/
def simpleText (s : Bytes) : Bool :=
  (runes s).all (fun r => r.blt 0x80 || r == 0x2019) &&
    match s with
    | [] => false
    | b :: _ => b < 0x80

theorem simpleText_runes {s : Bytes} (h : simpleText s = true) :
    ∀ r ∈ runes s, r < 0x80 ∨ r = 0x2019 := by
  intro r hr
  simp only [simpleText, Bool.and_eq_true, List.all_eq_true] at h
  have := h.1 r hr
  simpa [Nat.blt_eq] using this

theorem mapString_congr {f g : Nat → Nat} {s : Bytes} (h : ∀ r ∈ runes s, f r = g r) :
    mapString f s = mapString g s := by
  unfold mapString
  rw [List.map_congr_left h]

theorem title_simple {M : CaseMaps} (hM : M.Right) {s : Bytes} (h : simpleText s = true) :
    title M s = Go.ret (titleOf asciiUpper s) := by
  cases s with
  | nil => simp [simpleText] at h
  | cons b t =>
    simp only [title, titleOf]
    rw [mapString_congr (g := asciiUpper)]
    intro r hr
    simp only [simpleText, Bool.and_eq_true, decide_eq_true_eq] at h
    have hb : b.toNat < 0x80 := by simpa [UInt8.lt_iff_toNat_lt] using h.2
    rw [runes_ascii_cons hb] at hr
    simp only [runes_nil, List.mem_singleton] at hr
    subst hr
    exact hM.upper _ (Or.inl hb)

theorem lookup_isSome {m : StringMap} {k : Bytes} : (m.lookup k).isSome = true ↔ k ∈ m.map (·.1) := by
  induction m with
  | nil => simp
  | cons p ps ih =>
    obtain ⟨a, b⟩ := p
    rw [List.lookup_cons]
    by_cases h : k = a
    · subst h; simp
    · simp only [beq_eq_false_iff_ne.mpr h, List.map_cons, List.mem_cons, h, false_or]
      exact ih

theorem addCases_ok {M : CaseMaps} (hM : M.Right) {a x : Bytes} (ha : simpleText a = true)
    (hx : simpleText x = true) (m : StringMap)
    (h : ([mapString asciiLower a, titleOf asciiUpper a, mapString asciiUpper a] ++
      m.map (·.1)).Nodup) :
    addCases a x (caseFuncs M) m = Go.ret
      ((mapString asciiUpper a, mapString asciiUpper x) ::
        (titleOf asciiUpper a, titleOf asciiUpper x) ::
        (mapString asciiLower a, mapString asciiLower x) :: m, none) := by
  have hl : ∀ s, simpleText s = true → mapString M.lower s = mapString asciiLower s := fun s hs =>
    mapString_congr fun r hr => hM.lower r (simpleText_runes hs r hr)
  have hu : ∀ s, simpleText s = true → mapString M.upper s = mapString asciiUpper s := fun s hs =>
    mapString_congr fun r hr => hM.upper r (simpleText_runes hs r hr)
  simp only [List.cons_append, List.nil_append, List.nodup_cons, List.mem_cons, not_or] at h
  obtain ⟨⟨h12, h13, h1⟩, ⟨h23, h2⟩, h3, -⟩ := h
  have hnot : ∀ {m : StringMap} {k : Bytes}, k ∉ m.map (·.1) → (m.lookup k).isSome = false := by
    intro m k hk
    rw [Bool.eq_false_iff]
    exact fun h => hk (lookup_isSome.mp h)
  simp only [caseFuncs, addCases, Go.ret_bind, hl _ ha, hu _ ha, hl _ hx, hu _ hx,
    title_simple hM ha, title_simple hM hx, hnot h1, Bool.false_eq_true, ↓reduceIte]
  rw [hnot (by simpa [Ne.symm h12] using h2)]
  simp only [Bool.false_eq_true, ↓reduceIte]
  rw [hnot (by simpa [Ne.symm h13, Ne.symm h23] using h3)]
  simp

theorem addApostrophes_ok {M : CaseMaps} (hM : M.Right) {x : Bytes} (hx : simpleText x = true)
    (as : List Bytes) (has : ∀ a ∈ as, simpleText a = true) (m : StringMap)
    (h : ((as.flatMap fun a => [mapString asciiLower a, titleOf asciiUpper a, mapString asciiUpper a]) ++
      m.map (·.1)).Nodup) :
    addApostrophes M x as m = Go.ret
      ((as.flatMap fun a =>
        [(mapString asciiLower a, mapString asciiLower x), (titleOf asciiUpper a, titleOf asciiUpper x),
         (mapString asciiUpper a, mapString asciiUpper x)]).reverse ++ m, none) := by
  induction as generalizing m with
  | nil => rfl
  | cons a as ih =>
    rw [List.flatMap_cons, List.append_assoc] at h
    have h' := List.perm_append_comm_assoc _ _ _ |>.nodup_iff.mp h
    have h0 := (List.nodup_append.mp h').2.1
    rw [addApostrophes, addCases_ok hM (has a (by simp)) hx m h0, Go.ret_bind]
    simp only
    rw [ih (fun b hb => has b (by simp [hb]))]
    · simp
    · refine (List.Perm.nodup_iff ?_).mp h'
      refine List.Perm.append_left _ ?_
      simp only [List.cons_append, List.nil_append, List.map_cons]
      exact ((List.Perm.swap _ _ _).trans ((List.Perm.swap _ _ _).cons _)).trans
        ((List.Perm.swap _ _ _))

theorem variants_keys (p : Bytes × Bytes) : (variants p).map (·.1) = (apostrophes p.1).flatMap fun a =>
    [mapString asciiLower a, titleOf asciiUpper a, mapString asciiUpper a] := by
  simp [variants, List.map_flatMap]

theorem addContractions_ok {M : CaseMaps} (hM : M.Right) (order : StringMap)
    (ho : ∀ p ∈ order, (∀ a ∈ apostrophes p.1, simpleText a = true) ∧ simpleText p.2 = true)
    (m : StringMap) (h : ((order.flatMap variants ++ m).map (·.1)).Nodup) :
    addContractions M order m = Go.ret ((order.flatMap variants).reverse ++ m, none) := by
  induction order generalizing m with
  | nil => rfl
  | cons p order ih =>
    obtain ⟨k, x⟩ := p
    obtain ⟨hk, hx⟩ := ho (k, x) (by simp)
    have hperm : ((variants (k, x)).reverse ++ m ++ order.flatMap variants).Perm
        (((k, x) :: order).flatMap variants ++ m) := by
      rw [List.flatMap_cons, List.append_assoc, List.append_assoc]
      exact (List.reverse_perm _).append List.perm_append_comm
    have hn := (hperm.map (·.1)).nodup_iff.mpr h
    have hn1 : ((variants (k, x) ++ m).map (·.1)).Nodup := by
      rw [List.map_append] at hn
      refine (List.Perm.nodup_iff ?_).mp (List.nodup_append.mp hn).1
      exact ((List.reverse_perm _).append_right _).map _
    rw [List.map_append, variants_keys] at hn1
    rw [addContractions, addApostrophes_ok hM hx _ hk m hn1, Go.ret_bind]
    simp only
    have hv : ((apostrophes k).flatMap fun a =>
        [(mapString asciiLower a, mapString asciiLower x), (titleOf asciiUpper a, titleOf asciiUpper x),
         (mapString asciiUpper a, mapString asciiUpper x)]) = variants (k, x) := rfl
    rw [hv, ih (fun p hp => ho p (by simp [hp]))]
    · simp
    · exact ((List.perm_append_comm.map _).nodup_iff.mp hn)

/-! ### Facts about the tables, computed by the kernel -/

set_option maxRecDepth 100000

instance (st : Style) (s : Bytes) : Decidable (st.Has s) := by
  cases st
  · unfold Style.Has; infer_instance
  · cases s
    · exact isFalse id
    · unfold Style.Has; infer_instance
  · unfold Style.Has; infer_instance

/-- What is checked of each entry of the base list. -/
def baseB (p : Bytes × Bytes) : Bool :=
  (apostrophes p.1).all (fun a => simpleText a && mapString asciiLower a == a) &&
    (simpleText p.2 && mapString asciiLower p.2 == p.2)

theorem base_checked : contractionBase.all baseB = true := by decide +kernel

theorem rows_nodup : nodupB (contractionRows.map (·.1)) = true := by decide +kernel

theorem variants_nodup :
    nodupB (((contractionBase.flatMap variants).map (·.1)).map codeOf) = true := by decide +kernel

/-- Is a variant in the shipped table? -/
noncomputable def shippedB (p : Bytes × Bytes) : Bool := pairB (codeOf p.1) (codeOf p.2) contractionRows

theorem variants_shipped : (contractionBase.flatMap variants).all shippedB = true := by decide +kernel

theorem variants_length : Nat.beq (contractionBase.flatMap variants).length contractionRows.length = true := by
  decide +kernel

/-- The base list with both apostrophes, encoded. -/
def baseCodes : List (Nat × Nat) := contractionBase.flatMap fun p =>
  (apostrophes p.1).map fun a => (codeOf a, codeOf p.2)

theorem baseCodes_nodup : nodupB (baseCodes.map (·.1)) = true := by decide +kernel

/-- What is checked of each entry of the shipped table. -/
noncomputable def entryB (p : Bytes × Bytes) : Bool :=
  simpleText p.1 && simpleText p.2 && p.2.all (fun b => b.toNat.blt 0x80 && b != 0x27) &&
  (p.1.head? == p.2.head?) &&
  [Style.lower, .title, .upper].any (fun st => decide (st.Has p.1) && decide (st.Has p.2)) &&
  pairB (codeOf (mapString asciiLower p.1)) (codeOf (mapString asciiLower p.2)) baseCodes

theorem entries_checked : contractionMappings.all entryB = true := by decide +kernel

/-- A contraction has an apostrophe or does not occur in any expansion, whatever its case. -/
noncomputable def absentB (k : List Nat) : Bool :=
  memB 0x27 k || memB 0xE2 k ||
  contractionRows.all fun r => !infixN k (natsOf r.2) && !infixN k ((natsOf r.2).map asciiLower)

theorem absent_checked : contractionRows.all (fun r => absentB (natsOf r.1)) = true := by decide +kernel

end Jargon
