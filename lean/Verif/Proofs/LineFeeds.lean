import Verif.Props.Utf8
import Verif.Props.Uax29
import Verif.Props.Ascii

/-! Line feeds in texts, in words and in folded texts. -/

namespace Jargon

theorem encodeValid_high {r : Rune} (hv : ValidRune r) (h : 0x80 ≤ r) : ∀ x ∈ encodeValid r, 0x80 ≤ x.toNat := by
  have hr : r < 0x110000 := by unfold ValidRune at hv; omega
  have key : ∀ n, 0x80 ≤ n → n < 256 → 0x80 ≤ (UInt8.ofNat n).toNat := fun n h1 h2 => by rw [toNat_ofNat h2]; exact h1
  unfold encodeValid
  rw [if_neg (by omega)]
  split
  · simp only [List.mem_cons, List.not_mem_nil, or_false]
    rintro x (rfl | rfl) <;> exact key _ (by omega) (by omega)
  · split
    · simp only [List.mem_cons, List.not_mem_nil, or_false]
      rintro x (rfl | rfl | rfl) <;> exact key _ (by omega) (by omega)
    · simp only [List.mem_cons, List.not_mem_nil, or_false]
      rintro x (rfl | rfl | rfl | rfl) <;> exact key _ (by omega) (by omega)

/-- The bytes of a character: one that is ASCII, or none is. -/
theorem decodeRune_kind (b : UInt8) (t : Bytes) :
    (b.toNat < 0x80 ∧ decodeRune (b :: t) = (b.toNat, 1)) ∨
      (0x80 ≤ (decodeRune (b :: t)).1 ∧ ∀ x ∈ (b :: t).take (decodeRune (b :: t)).2, 0x80 ≤ x.toNat) := by
  by_cases hb : b.toNat < 0x80
  · exact .inl ⟨hb, by simp [decodeRune, hb]⟩
  · right
    rcases decodeRune_encoded b t with h | ⟨h1, h2⟩
    · rw [h]
      refine ⟨by decide, ?_⟩
      simp only [List.take_succ_cons, List.take_zero, List.mem_singleton, forall_eq]
      omega
    · have hv := decodeRune_valid (b :: t)
      rw [h2, List.prefix_iff_eq_take.1 h1 |>.symm]
      have hr : 0x80 ≤ (decodeRune (b :: t)).1 := by
        refine Nat.le_of_not_lt fun hlt => hb ?_
        have hd : encodeValid (decodeRune (b :: t)).1 = [UInt8.ofNat (decodeRune (b :: t)).1] := by
          simp [encodeValid, hlt]
        rw [hd] at h1
        obtain ⟨z, hz⟩ := h1
        simp only [List.cons_append, List.cons.injEq] at hz
        rw [← hz.1, toNat_ofNat (by omega)]
        exact hlt
      exact ⟨hr, encodeValid_high hv hr⟩

theorem runeBytes_kind : ∀ (n : Nat) {s : Bytes}, s.length = n → ∀ p ∈ runeBytes s,
    (∃ b : UInt8, b.toNat < 0x80 ∧ p = (b.toNat, [b])) ∨ (0x80 ≤ p.1 ∧ ∀ x ∈ p.2, 0x80 ≤ x.toNat) := by
  intro n
  induction n using Nat.strongRecOn with
  | ind n ih =>
    intro s hn p hp
    cases s with
    | nil => simp at hp
    | cons b t =>
      rw [runeBytes_cons] at hp
      rcases List.mem_cons.1 hp with rfl | hp
      · rcases decodeRune_kind b t with ⟨h1, h2⟩ | h
        · exact .inl ⟨b, h1, by simp [h2]⟩
        · exact .inr h
      · refine ih _ ?_ rfl p hp
        have := decodeRune_width_pos b t
        simp only [List.length_drop, List.length_cons] at hn ⊢
        omega

/-- An ASCII character is in a text if and only if its byte is. -/
theorem mem_runes_iff {s : Bytes} {b : UInt8} (hb : b.toNat < 0x80) : b.toNat ∈ runes s ↔ b ∈ s := by
  rw [← runeBytes_fst]
  constructor
  · intro h
    obtain ⟨p, hp, hpb⟩ := List.mem_map.1 h
    rw [← runeBytes_snd s]
    refine List.mem_flatMap.2 ⟨p, hp, ?_⟩
    rcases runeBytes_kind _ rfl p hp with ⟨c, -, rfl⟩ | ⟨h1, -⟩
    · have : c = b := UInt8.toNat.inj hpb
      simp [this]
    · omega
  · intro h
    rw [← runeBytes_snd s] at h
    obtain ⟨p, hp, hpb⟩ := List.mem_flatMap.1 h
    refine List.mem_map.2 ⟨p, hp, ?_⟩
    rcases runeBytes_kind _ rfl p hp with ⟨c, -, rfl⟩ | ⟨-, h2⟩
    · simp only [List.mem_singleton] at hpb
      rw [hpb]
    · have := h2 b hpb
      omega

/-! ### words -/

theorem cutWords_first_lf {α : Type} {cls : α → WB × Bool} : ∀ {before : List (WB × Bool)} {a : α} {rest : List α},
    ∃ g gs, cutWords cls before (a :: rest) = (a :: g) :: gs := by
  intro before a rest
  rw [cutWords]
  split
  · exact ⟨_, _, rfl⟩
  · split
    · exact ⟨_, _, rfl⟩
    · exact ⟨_, _, rfl⟩

/-- A line feed is a word, or the second character of one after a carriage return. -/
theorem cutWords_lf {α : Type} {cls : α → WB × Bool} : ∀ {l : List α} {before : List (WB × Bool)},
    ∀ g ∈ cutWords cls before l, ∀ x ∈ g, (cls x).1 = .lf → g = [x] ∨ ∃ y, (cls y).1 = .cr ∧ g = [y, x]
  | [], _, g, hg, _, _, _ => by simp [cutWords] at hg
  | a :: rest, before, g, hg, x, hx, hc => by
    have ih := @cutWords_lf _ cls rest (cls a :: before)
    rw [cutWords] at hg
    cases rest with
    | nil =>
      simp only [cutWords, List.mem_singleton] at hg
      subst hg
      simp only [List.mem_singleton] at hx
      exact .inl (by rw [hx])
    | cons b rest =>
      obtain ⟨g', gs, he⟩ := @cutWords_first_lf _ cls (cls a :: before) b rest
      rw [he] at hg ih
      simp only at hg
      split at hg
      · rename_i hj
        rcases List.mem_cons.1 hg with rfl | hg
        · simp only [List.map_cons, joins] at hj
          rcases List.mem_cons.1 hx with rfl | hx
          · rw [hc] at hj
            simp [WB.lineBreak] at hj
          · rcases ih _ (by simp) x hx hc with h | ⟨y, hy, h⟩
            · simp only [List.cons.injEq] at h
              obtain ⟨rfl, rfl⟩ := h
              rw [hc] at hj
              by_cases ha : (cls a).1 = .cr
              · exact .inr ⟨a, ha, rfl⟩
              · simp [WB.lineBreak, ha] at hj
            · simp only [List.cons.injEq] at h
              obtain ⟨rfl, -⟩ := h
              rw [hy] at hj
              simp [WB.lineBreak] at hj
        · exact ih g (by simp [hg]) x hx hc
      · rcases List.mem_cons.1 hg with rfl | hg
        · simp only [List.mem_singleton] at hx
          exact .inl (by rw [hx])
        · exact ih g hg x hx hc

theorem cutWords_mem {α : Type} {cls : α → WB × Bool} : ∀ {l : List α} {before : List (WB × Bool)},
    ∀ g ∈ cutWords cls before l, ∀ x ∈ g, x ∈ l
  | [], _, g, hg, _, _ => by simp [cutWords] at hg
  | a :: rest, before, g, hg, x, hx => by
    have ih := @cutWords_mem _ cls rest (cls a :: before)
    rw [cutWords] at hg
    split at hg
    · simp only [List.mem_singleton] at hg
      subst hg
      simp only [List.mem_singleton] at hx
      simp [hx]
    · rename_i g0 gs he
      rw [he] at ih
      split at hg
      · rcases List.mem_cons.1 hg with rfl | hg
        · rcases List.mem_cons.1 hx with rfl | hx
          · simp
          · exact List.mem_cons_of_mem _ (ih _ (by simp) x hx)
        · exact List.mem_cons_of_mem _ (ih g (by simp [hg]) x hx)
      · rcases List.mem_cons.1 hg with rfl | hg
        · simp only [List.mem_singleton] at hx
          simp [hx]
        · exact List.mem_cons_of_mem _ (ih g hg x hx)

/-- The words with line feeds. -/
theorem wordSegs_lf {cls : WordTable} (hR : cls.Right) {s : Bytes} : ∀ w ∈ wordSegs cls s, 0x0A ∈ w →
    w = [0x0A] ∨ w = [0x0D, 0x0A] := by
  intro w hw hlf
  obtain ⟨g, hg, rfl⟩ := List.mem_map.1 hw
  obtain ⟨p, hp, hpl⟩ := List.mem_flatMap.1 hlf
  have kind := fun q hq => runeBytes_kind _ (s := s) rfl q (cutWords_mem g hg q hq)
  have hpe : p = (0x0A, [0x0A]) := by
    rcases kind p hp with ⟨c, -, rfl⟩ | ⟨-, h2⟩
    · simp only [List.mem_singleton] at hpl
      subst hpl; rfl
    · exact absurd (h2 _ hpl) (by decide)
  subst hpe
  have hc : (cls 0x0A).1 = .lf := by rw [hR.latin _ (by decide) (by decide)]; rfl
  rcases cutWords_lf g hg _ hp hc with h | ⟨y, hy, h⟩
  · left; rw [h]; rfl
  · right
    have hy0 := hR.cr _ hy
    have : y = (0x0D, [0x0D]) := by
      rcases kind y (by rw [h]; simp) with ⟨c, -, rfl⟩ | ⟨h1, -⟩
      · have : c = 0x0D := UInt8.toNat.inj hy0
        subst this; rfl
      · omega
    rw [h, this]; rfl

/-! ### folding -/

theorem foldCases_lf : ∀ c ∈ foldCases, 0x0A ∉ c.out := by decide +kernel

theorem folded_lf {r : Rune} (h : 0x0A ∈ folded r) : r = 0x0A := by
  unfold folded at h
  cases he : equivalent r with
  | none => rw [he] at h; simpa [eq_comm] using h
  | some o =>
    rw [he] at h
    rw [← foldSwitch_eq, Option.map_eq_some_iff] at he
    obtain ⟨c, hc, rfl⟩ := he
    exact absurd h (foldCases_lf c (List.mem_of_find?_eq_some hc))

/-- Folding makes no line feeds. -/
theorem foldString_lf {s : Bytes} (h : 0x0A ∈ (foldString s).1) : 0x0A ∈ s := by
  cases hf : (foldString s).2 with
  | false => rwa [(C17_result s).2.1 hf] at h
  | true =>
    have h2 := (mem_runes_iff (b := 0x0A) (by decide)).2 h
    rw [(C17_result s).1 hf] at h2
    obtain ⟨r, hr, hr2⟩ := List.mem_flatMap.1 h2
    have := folded_lf (r := r) hr2
    subst this
    exact (mem_runes_iff (b := 0x0A) (by decide)).1 hr

end Jargon
