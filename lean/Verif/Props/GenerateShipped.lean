import Verif.Props.GenerateSource
import Verif.Proofs.PlainRows
import Verif.Props.GenerateNba
import Verif.Props.GenerateSoShipped
import Verif.Props.Contractions

/-! C69, C72: the generators as programs, from what they fetch to the file. -/

namespace Jargon

/-- **C69 (NBA).** If the program ends normally, the file it leaves declares a table that has the entries
of the names fetched, and no others; if it reports an error in fetching or in a name, the file is as before. -/
theorem C69_nba (O : Outside) (hp : PrintLaws O.isPrint) (hf : FormatLaws O.format)
    (names : Option (List Bytes)) (file : Option Bytes) :
    match nbaMain O names file with
    | (.fine, file') => ∃ ns out table, names = some ns ∧ file' = some out ∧ Declares out (str "nba") table ∧
        ∀ k v, (k, v) ∈ table ↔ ∃ n ∈ ns, NbaEntry n k v
    | (.fails (.inl _), file') => file' = file
    | (.fails (.inr e), file') => e = .write ∨ file' = file := by
  unfold nbaMain
  cases names with
  | none => rfl
  | some ns =>
    cases hg : nbaGenerate ns with
    | error e => simp [hg]
    | ok m =>
      obtain ⟨h1, h2⟩ := C64_nba_table hg
      have h3 := C69_file O hp hf (name := str "nba") (header := nbaHeader) (indent := [0x09, 0x09])
        (by simp [sourceKinds]) m h1 file
      simp only [hg]
      split at h3
      · rename_i hw
        rw [hw]
        obtain ⟨out, table, h4, h5, h6⟩ := h3
        exact ⟨ns, out, table, rfl, h4, h5, fun k v => by rw [h6.mem_iff, h2]⟩
      · rename_i hw; rw [hw]; exact .inr h3
      · rename_i hw; rw [hw]; exact .inr h3
      · rename_i hw; rw [hw]; exact .inl rfl

/-- **C69 (Stack Overflow).** If the program ends normally, the file it leaves declares what the generator
made of the pages. -/
theorem C69_so (O : Outside) (hp : PrintLaws O.isPrint) (hf : FormatLaws O.format)
    (get : Nat → Option SoWrapper) (file : Option Bytes) :
    match soMain O get file with
    | (.fine, file') => ∃ m out table, soGenerate get = .ok m ∧ file' = some out ∧
        Declares out (str "stackoverflow") table ∧ table.Perm m
    | (.fails (.inl e), file') => soGenerate get = .error e ∧ file' = file
    | (.fails (.inr e), file') => e = .write ∨ file' = file := by
  unfold soMain
  cases hg : soGenerate get with
  | error e => exact ⟨rfl, rfl⟩
  | ok m =>
    obtain ⟨-, -, h1, -⟩ := C66_so_table hg
    have h3 := C69_file O hp hf (name := str "stackoverflow") (header := soHeader) (indent := [])
      (by simp [sourceKinds]) m h1 file
    simp only
    split at h3
    · rename_i hw
      rw [hw]
      obtain ⟨out, table, h4, h5, h6⟩ := h3
      exact ⟨m, out, table, rfl, h4, h5, h6⟩
    · rename_i hw; rw [hw]; exact .inr h3
    · rename_i hw; rw [hw]; exact .inr h3
    · rename_i hw; rw [hw]; exact .inl rfl

/-! ### C72 -/

theorem lt_of_ltB {a b : Bytes} (h : ltB (a.map UInt8.toNat) (b.map UInt8.toNat) = true) : a < b := by
  induction a generalizing b with
  | nil =>
    cases b with
    | nil => cases h
    | cons y t => exact List.nil_lt_cons y t
  | cons x s ih =>
    cases b with
    | nil => cases h
    | cons y t =>
      rw [List.map_cons, List.map_cons, ltB_cons_iff] at h
      rw [List.cons_lt_cons_iff]
      rcases h with h | ⟨h1, h2⟩
      · exact .inl (UInt8.lt_iff_toNat_lt.mpr h)
      · exact .inr ⟨UInt8.toNat_inj.mp h1, ih h2⟩

theorem tableOf_increasing {rows : List (Nat × Nat)} (h : sortedFromB rows [] = true) :
    Increasing (tableOf rows) := by
  unfold Increasing tableOf
  rw [List.pairwise_map]
  refine (sortedFromB_spec h).2.imp fun {a b} hab => lt_of_ltB ?_
  rw [textOf_toNat, textOf_toNat]
  exact hab

/-- Writing a table with the entries of a sorted one without unlucky strings writes the sorted one. -/
theorem writes_sorted (O : Outside) (hp : PrintLaws O.isPrint) (hf : FormatLaws O.format)
    (hc : O.creates = true) (hw : O.writeFails = none) {name header indent : Bytes}
    (hk : (name, header, indent) ∈ sourceKinds) {m t : StringMap} (ht : Increasing t) (hm : m.Perm t)
    (hu : ∀ e ∈ t, ¬ Unlucky e.1 ∧ ¬ Unlucky e.2) (file : Option Bytes) :
    ∃ out, writeSource O header indent m file = (.ok (), some out) ∧ Declares out name t := by
  have hn : (m.map Prod.fst).Nodup := (hm.map _).nodup_iff.mpr (increasing_nodup ht)
  obtain ⟨out, h1, h2⟩ := C70_writes_partial O hp hf hc hw hk hn
    (fun e he => hu e (hm.mem_iff.mp he)) file
  refine ⟨out, h1, ?_⟩
  have : sortByKey m = t :=
    increasing_unique (sorted_increasing (sortByKey_sorted m) (sortByKey_nodup hn)) ht
      ((sortByKey_perm m).trans hm)
  rwa [this] at h2

/-- **C72 (contractions).** Whatever the order in which the map `contractions` is iterated, the program
ends normally, and leaves a file that declares the shipped table, in its order. -/
theorem C72_contractions (M : CaseMaps) (hM : M.Right) (O : Outside) (hp : PrintLaws O.isPrint)
    (hf : FormatLaws O.format) (hc : O.creates = true) (hw : O.writeFails = none) (file : Option Bytes) :
    ∃ out, Declares out (str "contractions") contractionMappings ∧
      ∀ order, order.Perm contractionBase → contractionMain M order O file = Go.ret (.fine, some out) := by
  have key : ∀ order, order.Perm contractionBase → ∃ m, getMappings M order = Go.ret (m, none) ∧
      m.Perm contractionMappings ∧ (m.map (·.1)).Nodup := by
    intro order ho
    obtain ⟨m, h1, h2, h3, -⟩ := C24_generated M hM order ho
    exact ⟨m, h1, h2, h3⟩
  have write : ∀ m : StringMap, m.Perm contractionMappings →
      ∃ out, writeSource O contractionHeader [] m file = (.ok (), some out) ∧
        Declares out (str "contractions") contractionMappings := fun m hm =>
    writes_sorted O hp hf hc hw (by simp [sourceKinds]) (tableOf_increasing contractionRows_sorted) hm
      (tableOf_lucky contractionRows_lucky) file
  obtain ⟨m0, -, hm0, hn0⟩ := key contractionBase (.refl _)
  obtain ⟨out, ho1, ho2⟩ := write m0 hm0
  refine ⟨out, ho2, fun order ho => ?_⟩
  obtain ⟨m, h1, h2, h3⟩ := key order ho
  have hs := C71_order O contractionHeader [] h3 (h2.trans hm0.symm) file
  unfold contractionMain
  rw [h1]
  simp [hs, ho1]

/-- **C72 (NBA).** There are names for which the program leaves a file that declares the shipped table, in
its order. -/
theorem C72_nba (O : Outside) (hp : PrintLaws O.isPrint) (hf : FormatLaws O.format)
    (hc : O.creates = true) (hw : O.writeFails = none) (file : Option Bytes) :
    ∃ names out, nbaMain O (some names) file = (.fine, some out) ∧ Declares out (str "nba") nbaMappings := by
  obtain ⟨names, m, h1, h2⟩ := C64_nba_shipped
  rw [nba_rows] at h2 ⊢
  obtain ⟨out, h3, h4⟩ := writes_sorted O hp hf hc hw (name := str "nba") (header := nbaHeader)
    (indent := [0x09, 0x09]) (by simp [sourceKinds]) (tableOf_increasing nbaRows_sorted) h2
    (tableOf_lucky nbaRows_lucky) file
  exact ⟨names, out, by simp [nbaMain, h1, h3], h4⟩

/-- **C72 (Stack Overflow).** There are answers of the API for which the program leaves a file that declares
the shipped table, in its order. -/
theorem C72_so (O : Outside) (hp : PrintLaws O.isPrint) (hf : FormatLaws O.format)
    (hc : O.creates = true) (hw : O.writeFails = none) (file : Option Bytes) :
    ∃ get out, soMain O get file = (.fine, some out) ∧
      Declares out (str "stackoverflow") stackOverflowMappings := by
  obtain ⟨get, m, h1, h2, -⟩ := C68_so_shipped
  rw [stackOverflow_rows] at h2 ⊢
  obtain ⟨out, h3, h4⟩ := writes_sorted O hp hf hc hw (name := str "stackoverflow") (header := soHeader)
    (indent := []) (by simp [sourceKinds]) (tableOf_increasing soRows_sorted) h2
    (tableOf_lucky soRows_lucky) file
  exact ⟨get, out, by simp [soMain, h1, h3], h4⟩

-- the hypotheses can be met
example : PrintLaws calmOutside.isPrint ∧ FormatLaws calmOutside.format ∧ calmOutside.creates = true ∧
    calmOutside.writeFails = none := ⟨asciiPrint_laws, scanFormat_laws, rfl, rfl⟩

end Jargon
