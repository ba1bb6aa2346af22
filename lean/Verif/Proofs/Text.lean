import Verif.Model.Text
import Mathlib.Data.List.Perm.Subperm
import Mathlib.Data.List.Induction
import Mathlib.Data.List.Nodup

/-! Encoded texts, and fast checks on lists of numbers for the kernel. -/

namespace Jargon

/-- The code of a text. -/
def codeOf (s : Bytes) : Nat := s.foldl (fun n b => n * 256 + b.toNat) 1

theorem codeOf_concat (s : Bytes) (b : UInt8) : codeOf (s ++ [b]) = codeOf s * 256 + b.toNat := by
  simp [codeOf]

theorem codeOf_ge (s : Bytes) : 2 ^ s.length ≤ codeOf s := by
  induction s using List.reverseRecOn with
  | nil => simp [codeOf]
  | append_singleton s b ih =>
    rw [codeOf_concat, List.length_append, List.length_singleton, Nat.pow_succ]
    omega

theorem textAux_codeOf (s : Bytes) (fuel : Nat) (acc : List Nat) (h : s.length ≤ fuel) :
    textAux fuel (codeOf s) acc = s.map UInt8.toNat ++ acc := by
  induction s using List.reverseRecOn generalizing fuel acc with
  | nil => cases fuel <;> rfl
  | append_singleton s b ih =>
    rw [List.length_append, List.length_singleton] at h
    obtain ⟨fuel, rfl⟩ : ∃ f, fuel = f + 1 := ⟨fuel - 1, by omega⟩
    have hb : b.toNat < 256 := b.toNat_lt
    have h1 : 1 ≤ codeOf s := Nat.le_trans Nat.one_le_two_pow (codeOf_ge s)
    have hle : Nat.ble 256 (codeOf s * 256 + b.toNat) = true := Nat.ble_eq.mpr (by omega)
    have hdiv : (codeOf s * 256 + b.toNat) / 256 = codeOf s := by omega
    have hmod : (codeOf s * 256 + b.toNat) % 256 = b.toNat := by omega
    rw [codeOf_concat, textAux, hle, hdiv, hmod, cond_true, ih _ _ (by omega)]
    simp

theorem textOf_codeOf (s : Bytes) : textOf (codeOf s) = s := by
  have h : s.length ≤ (codeOf s).log2 := by
    have hne : codeOf s ≠ 0 := by have := codeOf_ge s; have := Nat.one_le_two_pow (n := s.length); omega
    exact (Nat.le_log2 hne).mpr (codeOf_ge s)
  rw [textOf, textAux_codeOf s _ [] h, List.append_nil, List.map_map]
  have : UInt8.ofNat ∘ UInt8.toNat = id := by funext b; simp
  rw [this, List.map_id]

/-- Membership. -/
noncomputable def memB (x : Nat) (l : List Nat) : Bool :=
  List.rec false (fun y _ ih => bif Nat.beq x y then true else ih) l

/-- No duplicates. -/
noncomputable def nodupB (l : List Nat) : Bool :=
  List.rec true (fun y ys ih => bif memB y ys then false else ih) l

/-- Is `(x, y)` the first pair that starts with `x`? -/
noncomputable def pairB (x y : Nat) (l : List (Nat × Nat)) : Bool :=
  List.rec false (fun p _ ih => bif Nat.beq x p.1 then Nat.beq y p.2 else ih) l

theorem memB_iff (x : Nat) (l : List Nat) : memB x l = true ↔ x ∈ l := by
  induction l with
  | nil => simp [memB]
  | cons y ys ih =>
    have : memB x (y :: ys) = bif Nat.beq x y then true else memB x ys := rfl
    rw [this, List.mem_cons, ← ih]
    cases h : Nat.beq x y
    · have : x ≠ y := Nat.ne_of_beq_eq_false h
      simp [this]
    · have := Nat.eq_of_beq_eq_true h
      simp [this]

theorem nodupB_nodup {l : List Nat} (h : nodupB l = true) : l.Nodup := by
  induction l with
  | nil => simp
  | cons y ys ih =>
    have e : nodupB (y :: ys) = bif memB y ys then false else nodupB ys := rfl
    rw [e] at h
    cases hm : memB y ys
    · rw [hm] at h
      refine List.nodup_cons.mpr ⟨fun hy => ?_, ih h⟩
      rw [(memB_iff y ys).mpr hy] at hm
      exact Bool.noConfusion hm
    · rw [hm] at h; exact Bool.noConfusion h

theorem pairB_mem {x y : Nat} {l : List (Nat × Nat)} (h : pairB x y l = true) : (x, y) ∈ l := by
  induction l with
  | nil => exact Bool.noConfusion h
  | cons p ps ih =>
    have e : pairB x y (p :: ps) = bif Nat.beq x p.1 then Nat.beq y p.2 else pairB x y ps := rfl
    rw [e] at h
    cases hb : Nat.beq x p.1
    · rw [hb] at h; exact List.mem_cons_of_mem _ (ih h)
    · rw [hb] at h
      have h1 := Nat.eq_of_beq_eq_true hb
      have h2 := Nat.eq_of_beq_eq_true h
      rw [h1, h2]; exact List.mem_cons_self

theorem nodup_of_codes {l : List Bytes} (h : nodupB (l.map codeOf) = true) : l.Nodup :=
  List.Nodup.of_map _ (nodupB_nodup h)

/-- The bytes of an encoded text, as numbers. -/
def natsOf (n : Nat) : List Nat := textAux (Nat.log2 n) n []

theorem textAux_lt (fuel n : Nat) (acc : List Nat) (h : ∀ b ∈ acc, b < 256) :
    ∀ b ∈ textAux fuel n acc, b < 256 := by
  induction fuel generalizing n acc with
  | zero => exact h
  | succ fuel ih =>
    rw [textAux]
    cases Nat.ble 256 n
    · exact h
    · refine ih _ _ ?_
      intro b hb
      rcases List.mem_cons.mp hb with rfl | hb
      · exact Nat.mod_lt _ (by decide)
      · exact h b hb

theorem textOf_toNat (n : Nat) : (textOf n).map UInt8.toNat = natsOf n := by
  rw [textOf, List.map_map]
  conv_rhs => rw [← List.map_id (natsOf n)]
  refine List.map_congr_left fun b hb => ?_
  have := textAux_lt _ _ _ (by simp) b hb
  simpa using Nat.mod_eq_of_lt this

/-- Prefix. -/
noncomputable def prefixN (k : List Nat) : List Nat → Bool :=
  List.rec (motive := fun _ => List Nat → Bool) (fun _ => true)
    (fun y _ ih x => List.rec false (fun z zs _ => bif Nat.beq y z then ih zs else false) x) k

/-- Contiguous part. -/
noncomputable def infixN (k x : List Nat) : Bool :=
  List.rec (prefixN k []) (fun z zs ih => bif prefixN k (z :: zs) then true else ih) x

theorem prefixN_of {k x : List Nat} (h : k <+: x) : prefixN k x = true := by
  obtain ⟨t, rfl⟩ := h
  induction k with
  | nil => rfl
  | cons y ys ih =>
    show (bif Nat.beq y y then prefixN ys (ys ++ t) else false) = true
    rw [ih, Nat.beq_refl]; rfl

theorem infixN_of {k x : List Nat} (h : k <:+: x) : infixN k x = true := by
  induction x with
  | nil =>
    rw [List.infix_nil.mp h]; rfl
  | cons z zs ih =>
    show (bif prefixN k (z :: zs) then true else infixN k zs) = true
    rcases List.infix_cons_iff.mp h with h | h
    · rw [prefixN_of h]; rfl
    · rw [ih h]; cases prefixN k (z :: zs) <;> rfl

end Jargon
