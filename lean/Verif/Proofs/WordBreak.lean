import Verif.Spec.WordBreak
import Verif.Props.Utf8

/-! Facts about cutting a text into words. -/

namespace Jargon

/-! ### Runes with their bytes -/

theorem decodeRune_take {s : Bytes} {n : Nat} (h : (decodeRune s).2 ≤ n) (hs : s ≠ []) :
    decodeRune (s.take n) = decodeRune s := by
  obtain ⟨b, t, rfl⟩ := List.exists_cons_of_ne_nil hs
  have hp := decodeRune_width_pos b t
  obtain ⟨m, rfl⟩ : ∃ m, n = m + 1 := ⟨n - 1, by omega⟩
  rw [List.take_succ_cons]
  have key : ∀ {u : Bytes}, encodeValid (decodeRune u).1 <+: b :: t →
      decodeRune (b :: t) = ((decodeRune u).1, (encodeValid (decodeRune u).1).length) := by
    rintro u ⟨rest, he⟩
    rw [← he, decode_encodeValid _ (decodeRune_valid u)]
  rcases decodeRune_encoded b t with h1 | ⟨⟨rest, h1⟩, h2⟩
  · rw [h1]
    rcases decodeRune_encoded b (t.take m) with h3 | ⟨h3, h4⟩
    · exact h3
    · have := key (u := b :: t.take m) (h3.trans (by
        rw [← List.take_succ_cons]; exact List.take_prefix _ _))
      rw [h1] at this
      obtain ⟨h5, h6⟩ := Prod.mk.inj this
      rw [← h5] at h6
      exact absurd h6 (by decide)
  · have hl := decode_encodeValid (decodeRune (b :: t)).1 (decodeRune_valid _)
    have : b :: t.take m = encodeValid (decodeRune (b :: t)).1 ++
        rest.take (m + 1 - (encodeValid (decodeRune (b :: t)).1).length) := by
      generalize encodeValid (decodeRune (b :: t)).1 = e at *
      rw [← List.take_succ_cons, ← h1, List.take_append, List.take_of_length_le (by omega)]
    rw [this, hl]
    exact Prod.ext rfl h2.symm

theorem runeBytesAux_fuel (n m : Nat) (s : Bytes) (hn : s.length ≤ n) (hm : s.length ≤ m) :
    runeBytesAux n s = runeBytesAux m s := by
  induction n generalizing m s with
  | zero =>
    have : s = [] := by simpa using hn
    subst this
    cases m <;> rfl
  | succ n ih =>
    cases s with
    | nil => cases m <;> rfl
    | cons b t =>
      cases m with
      | zero => simp at hm
      | succ m =>
        simp only [runeBytesAux]
        congr 1
        have hp := decodeRune_width_pos b t
        apply ih
        · simp at *; omega
        · simp at *; omega

@[simp] theorem runeBytes_nil : runeBytes [] = [] := rfl

theorem runeBytes_cons (b : UInt8) (t : Bytes) :
    runeBytes (b :: t) = ((decodeRune (b :: t)).1, (b :: t).take (decodeRune (b :: t)).2) ::
      runeBytes ((b :: t).drop (decodeRune (b :: t)).2) := by
  have hp := decodeRune_width_pos b t
  show runeBytesAux (t.length + 1) (b :: t) = _
  simp only [runeBytesAux]
  congr 1
  apply runeBytesAux_fuel
  · simp; omega
  · simp

theorem runeBytes_fst (s : Bytes) : (runeBytes s).map (·.1) = runes s := by
  induction hn : s.length using Nat.strongRecOn generalizing s with
  | _ n ih =>
    cases s with
    | nil => rfl
    | cons b t =>
      have hp := decodeRune_width_pos b t
      rw [runeBytes_cons, runes_cons, List.map_cons, ih _ ?_ _ rfl]
      rw [List.length_drop]
      simp only [List.length_cons] at *
      omega

theorem runeBytes_snd (s : Bytes) : (runeBytes s).flatMap (·.2) = s := by
  induction hn : s.length using Nat.strongRecOn generalizing s with
  | _ n ih =>
    cases s with
    | nil => rfl
    | cons b t =>
      have hp := decodeRune_width_pos b t
      rw [runeBytes_cons, List.flatMap_cons, ih _ ?_ _ rfl, List.take_append_drop]
      rw [List.length_drop]
      simp only [List.length_cons] at *
      omega

theorem runeBytes_ne_nil {s : Bytes} : ∀ p ∈ runeBytes s, p.2 ≠ [] := by
  induction hn : s.length using Nat.strongRecOn generalizing s with
  | _ n ih =>
    cases s with
    | nil => simp
    | cons b t =>
      have hp := decodeRune_width_pos b t
      rw [runeBytes_cons]
      intro p hmem
      rcases List.mem_cons.mp hmem with rfl | hmem
      · obtain ⟨k, hk⟩ : ∃ k, (decodeRune (b :: t)).2 = k + 1 := ⟨_, (Nat.sub_add_cancel hp).symm⟩
        simp [hk]
      · refine ih _ ?_ rfl p hmem
        rw [List.length_drop]
        simp only [List.length_cons] at *
        omega

/-- A stretch of the runes of a string has these runes by itself. -/
theorem runeBytes_prefix {s : Bytes} {x y : List (Rune × Bytes)} (h : runeBytes s = x ++ y) :
    runeBytes (x.flatMap (·.2)) = x := by
  induction hn : s.length using Nat.strongRecOn generalizing s x with
  | _ n ih =>
    cases x with
    | nil => rfl
    | cons a x =>
      cases s with
      | nil => cases h
      | cons b t =>
        have hs := runeBytes_snd (b :: t)
        rw [h, List.flatMap_append, List.flatMap_cons] at hs
        rw [runeBytes_cons, List.cons_append, List.cons.injEq] at h
        obtain ⟨rfl, h⟩ := h
        have hp := decodeRune_width_pos b t
        have hle := decodeRune_width_le (b :: t)
        have hx := ih _ (by rw [List.length_drop]; simp only [List.length_cons] at *; omega) h rfl
        rw [List.flatMap_cons]
        generalize hz : x.flatMap (·.2) = z at *
        have hlen : ((b :: t).take (decodeRune (b :: t)).2).length = (decodeRune (b :: t)).2 := by
          rw [List.length_take]; omega
        -- the text is a prefix of the string
        have hpre : (b :: t).take (decodeRune (b :: t)).2 ++ z =
            (b :: t).take ((decodeRune (b :: t)).2 + z.length) := by
          have hpx : (b :: t).take (decodeRune (b :: t)).2 ++ z <+: b :: t := ⟨_, hs⟩
          have := List.prefix_iff_eq_take.mp hpx
          rwa [List.length_append, hlen] at this
        have hd : decodeRune ((b :: t).take ((decodeRune (b :: t)).2 + z.length)) = decodeRune (b :: t) :=
          decodeRune_take (by omega) (by simp)
        rw [← hpre] at hd
        obtain ⟨k, hk⟩ : ∃ k, (decodeRune (b :: t)).2 = k + 1 := ⟨_, (Nat.sub_add_cancel hp).symm⟩
        obtain ⟨u, hu⟩ : ∃ u, (b :: t).take (decodeRune (b :: t)).2 ++ z = b :: u := by
          rw [hk]; exact ⟨_, rfl⟩
        rw [hu] at hd ⊢
        rw [runeBytes_cons, hd, ← hu, List.drop_left' hlen, List.take_left' hlen, hx]

theorem runeBytes_suffix {s : Bytes} {x y : List (Rune × Bytes)} (h : runeBytes s = x ++ y) :
    runeBytes (y.flatMap (·.2)) = y := by
  induction x generalizing s with
  | nil =>
    rw [List.nil_append] at h
    rw [← h, runeBytes_snd]
  | cons a x ih =>
    cases s with
    | nil => cases h
    | cons b t =>
      rw [runeBytes_cons, List.cons_append, List.cons.injEq] at h
      exact ih h.2

theorem runes_part {s : Bytes} {x y z : List (Rune × Bytes)} (h : runeBytes s = x ++ y ++ z) :
    runes (y.flatMap (·.2)) = y.map (·.1) := by
  rw [List.append_assoc] at h
  rw [← runeBytes_fst, runeBytes_prefix (runeBytes_suffix h)]

/-! ### Cutting -/

section
variable {α β : Type} {cls : α → WB × Bool}

theorem cutWords_flatten (before : List (WB × Bool)) (l : List α) :
    (cutWords cls before l).flatten = l := by
  induction l generalizing before with
  | nil => rfl
  | cons a rest ih =>
    have := ih (cls a :: before)
    rw [cutWords]
    split
    · rename_i h; rw [h] at this; simp [← this]
    · rename_i g gs h
      rw [h] at this
      split <;> simp [← this]

theorem cutWords_nonempty (before : List (WB × Bool)) (l : List α) :
    ∀ g ∈ cutWords cls before l, g ≠ [] := by
  induction l generalizing before with
  | nil => simp [cutWords]
  | cons a rest ih =>
    have := ih (cls a :: before)
    rw [cutWords]
    split
    · simp
    · rename_i g gs h
      rw [h] at this
      split
      · intro x hx
        rcases List.mem_cons.mp hx with rfl | hx
        · simp
        · exact this x (List.mem_cons_of_mem _ hx)
      · intro x hx
        rcases List.mem_cons.mp hx with rfl | hx
        · simp
        · exact this x hx

theorem cutWords_map {clsβ : β → WB × Bool} (f : α → β) (h : ∀ a, clsβ (f a) = cls a)
    (before : List (WB × Bool)) (l : List α) :
    (cutWords cls before l).map (List.map f) = cutWords clsβ before (l.map f) := by
  induction l generalizing before with
  | nil => rfl
  | cons a rest ih =>
    have := ih (cls a :: before)
    rw [List.map_cons, cutWords, cutWords, h, ← this]
    cases hc : cutWords cls (cls a :: before) rest with
    | nil => rfl
    | cons g gs =>
      simp only [List.map_cons, List.map_map, Function.comp_def, h]
      split <;> simp

theorem cutWords_congr {cls' : α → WB × Bool} {before : List (WB × Bool)} {l : List α}
    (h : ∀ a ∈ l, cls a = cls' a) : cutWords cls before l = cutWords cls' before l := by
  induction l generalizing before with
  | nil => rfl
  | cons a rest ih =>
    rw [cutWords, cutWords, h a (by simp), ih fun x hx => h x (by simp [hx])]
    rw [List.map_congr_left fun x hx => h x (by simp [hx])]

/-- Nothing but the empty text has no words. -/
theorem cutWords_eq_nil {before : List (WB × Bool)} {l : List α} (h : cutWords cls before l = []) :
    l = [] := by
  rw [← cutWords_flatten (cls := cls) before l, h]; rfl

end

/-! ### The words of a string -/

theorem wordSegs_flatten (cls : WordTable) (s : Bytes) : (wordSegs cls s).flatten = s := by
  have h1 := cutWords_flatten (cls := fun p : Rune × Bytes => cls p.1) [] (runeBytes s)
  have h2 := runeBytes_snd s
  rw [← h1] at h2
  rw [wordSegs]
  generalize cutWords (fun p : Rune × Bytes => cls p.1) [] (runeBytes s) = gs at *
  rw [← h2]
  clear h1 h2
  induction gs with
  | nil => rfl
  | cons g gs ih => simp [ih]

theorem wordSegs_nonempty (cls : WordTable) (s : Bytes) : ∀ seg ∈ wordSegs cls s, seg ≠ [] := by
  intro seg hseg
  simp only [wordSegs, List.mem_map] at hseg
  obtain ⟨g, hg, rfl⟩ := hseg
  have hne := cutWords_nonempty _ _ g hg
  obtain ⟨p, ps, rfl⟩ := List.exists_cons_of_ne_nil hne
  have hp : p ∈ runeBytes s := by
    rw [← cutWords_flatten (cls := fun p : Rune × Bytes => cls p.1) [] (runeBytes s)]
    exact List.mem_flatten.mpr ⟨_, hg, by simp⟩
  have := runeBytes_ne_nil p hp
  simp [this]

/-- The runes of the words are what the runes of the string are cut into. -/
theorem wordSegs_runes (cls : WordTable) (s : Bytes) :
    (wordSegs cls s).map runes = cutWords cls [] (runes s) := by
  rw [← runeBytes_fst, ← cutWords_map (cls := fun p : Rune × Bytes => cls p.1) (·.1) (fun _ => rfl)]
  rw [wordSegs, List.map_map]
  refine List.map_congr_left fun g hg => ?_
  obtain ⟨xs, ys, he⟩ := List.append_of_mem hg
  have := cutWords_flatten (cls := fun p : Rune × Bytes => cls p.1) [] (runeBytes s)
  rw [he, List.flatten_append, List.flatten_cons, ← List.append_assoc] at this
  exact runes_part this.symm

theorem wordSegs_whole (cls : WordTable) (s : Bytes) : (wordSegs cls s).flatMap runes = runes s := by
  rw [List.flatMap_def, wordSegs_runes, cutWords_flatten]

end Jargon
