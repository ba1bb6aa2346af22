import Verif.Props.SigilExpand
import Verif.Props.Barrier

/-! C131: whether a synonyms filter comes before or after Handles and Hashtags. -/

namespace Jargon

/-! ### The specification -/

/-- A synonyms filter and a sigil filter keep out of each other's way: no synonym in the text contains a mark or begins
right after one, or ends in a space that is not ignored; no synonym contains a marked word of the text; every canonical
is a word, and not the mark. -/
structure SynonymsAside (C : Compare) (D : Dict) (f : SigilFilter) (toks : List Token) : Prop where
  plain : ∀ a run b, toks = a ++ run ++ b → run ≠ [] → D (C.spell run) ≠ none →
    (∀ t ∈ run, t.value ≠ f.sigil) ∧ ∀ c ∈ a.getLast?, c.value ≠ f.sigil
  ends : ∀ run, run <:+: toks → D (C.spell run) ≠ none → ∀ u ∈ run.getLast?, u.space = true →
    u.punct = false → C.spell [u] = []
  marked : ∀ c l, [c, l] <:+: toks → c.value = f.sigil → f.legal l.value = true →
    ∀ u v, D (C.spell (u ++ mkToken C.U (f.sigil ++ l.value) true :: v)) = none
  canonical : ∀ q c, D q = some c → c ≠ [] ∧ c ≠ f.sigil ∧ (mkToken C.U c true).IsWord

/-- **C131 (full).** A synonyms filter may come before or after Handles and Hashtags. -/
def C131_full (F : SynArgs) (E : Env) : Prop :=
  ∀ G ∈ [handles E.U, hashtags E.U], ∀ (ts : TokenStream) (toks : List Token) (e : End), ts.Yields toks e →
    ∃ out, (G (F.filter E ts)).Yields out e ∧ (F.filter E (G ts)).Yields out e

/-! ### Lemmas -/

theorem SynonymsAside.tail {C : Compare} {D : Dict} {f : SigilFilter} {a b : List Token}
    (h : SynonymsAside C D f (a ++ b)) : SynonymsAside C D f b where
  plain x run y hb hne hd := by
    obtain ⟨h1, h2⟩ := h.plain (a ++ x) run y (by rw [hb]; simp) hne hd
    refine ⟨h1, fun c hc => h2 c ?_⟩
    rw [Option.mem_def] at hc ⊢
    rw [List.getLast?_append, hc]
    rfl
  ends run hr := h.ends run (hr.trans (List.suffix_append a b).isInfix)
  marked c l hi := h.marked c l (hi.trans (List.suffix_append a b).isInfix)
  canonical := h.canonical

/-- The first tokens the sigil filter delivers are the first of the text, or there is a marked word among them. -/
theorem sigilActual_prefix {U : Unicode} {f : SigilFilter} {Q : Token → Prop} (toks : List Token) (e : End) :
    ∀ (p : Option Token), (∀ c l, [c, l] <:+: toks → c.value = f.sigil → f.legal l.value = true →
        Q (mkToken U (f.sigil ++ l.value) true)) →
      ∀ v, v <+: (sigilActual U f p toks e).1 → v <+: toks ∨ ∃ t ∈ v, Q t := by
  intro p hq
  have up : ∀ {c : Token} {rest : List Token} {w : List Token}, w <+: rest ∨ (∃ t ∈ w, Q t) →
      c :: w <+: c :: rest ∨ ∃ t ∈ c :: w, Q t := by
    rintro c rest w (h | ⟨t, h, hQ⟩)
    · exact .inl ((List.prefix_cons_inj c).2 h)
    · exact .inr ⟨t, .tail _ h, hQ⟩
  fun_induction sigilActual U f p toks e with
  | case1 p e => intro v hv; exact .inl hv
  | case2 p c hb => intro v hv; exact .inl hv
  | case3 p c err hb => intro v hv; exact .inl (hv.trans (List.nil_prefix ..))
  | case4 p c e hb => intro v hv; exact .inl hv
  | case5 p c l rest e hb hl ih =>
    intro v hv
    have hc : c.value = f.sigil := by simp_all
    rcases List.prefix_cons_iff.1 hv with rfl | ⟨w, rfl, -⟩
    · exact .inl (List.nil_prefix ..)
    · exact .inr ⟨_, by simp, hq c l (pair_infix ..) hc hl⟩
  | case6 p c l rest e hb hl ih =>
    intro v hv
    rcases List.prefix_cons_iff.1 hv with rfl | ⟨w, rfl, hw⟩
    · exact .inl (List.nil_prefix ..)
    · rcases List.prefix_cons_iff.1 hw with rfl | ⟨w, rfl, hw'⟩
      · exact .inl ((List.prefix_cons_inj c).2 (List.nil_prefix ..))
      · exact up (up (ih (fun c' l' hi => hq c' l' (hi.trans (List.suffix_append [c, l] rest).isInfix)) w hw'))
  | case7 p c l rest e hb ih =>
    intro v hv
    rcases List.prefix_cons_iff.1 hv with rfl | ⟨w, rfl, hw⟩
    · exact .inl (List.nil_prefix ..)
    · exact up (ih (fun c' l' hi => hq c' l' (hi.trans (List.suffix_append [c] (l :: rest)).isInfix)) w hw)

/-- A token where the filter does not stop is passed on. -/
theorem sigilActual_skip (U : Unicode) (f : SigilFilter) (p : Option Token) {c : Token}
    (hc : ¬ (boundary p && c.value = f.sigil) = true) (rest : List Token) (e : End) :
    (sigilActual U f p (c :: rest) e).1 = c :: (sigilActual U f (some c) rest e).1 := by
  cases rest with
  | nil => simp only [sigilActual, if_neg hc]
  | cons l rest => simp only [sigilActual, if_neg hc, emit]

/-- A token at which no synonym begins is passed on. -/
theorem Greedy.uncons {C : Compare} {D : Dict} {m : Nat} {t : Token} {ts out : List Token}
    (h : Greedy C D m (t :: ts) out) (hn : ∀ v, v <+: ts → D (C.spell (t :: v)) = none) :
    ∃ out', out = t :: out' ∧ Greedy C D m ts out' := by
  cases h with
  | separator _ h => exact ⟨_, rfl, h⟩
  | word _ _ h => exact ⟨_, rfl, h⟩
  | @replace _ _ _ k c _ hl _ =>
    obtain ⟨j, rfl⟩ : ∃ j, k = j + 1 := ⟨k - 1, by have := hl.mem.pos; omega⟩
    have := hl.isSyn
    rw [List.take_succ_cons, hn _ (List.take_prefix ..)] at this
    cases this

theorem Greedy.pass {C : Compare} {D : Dict} {m : Nat} {t : Token} {ts out : List Token}
    (h : Greedy C D m ts out) (hn : ∀ v, v <+: ts → D (C.spell (t :: v)) = none) :
    Greedy C D m (t :: ts) (t :: out) := by
  by_cases hw : t.IsWord
  · refine .word hw (fun k hk => ?_) h
    obtain ⟨j, rfl⟩ : ∃ j, k = j + 1 := ⟨k - 1, by have := hk.pos; omega⟩
    exact hn _ (List.take_prefix ..)
  · exact .separator hw h

theorem Admissible.congr {m : Nat} {a b : List Token} {k : Nat} (h : Admissible m a k) (he : a.take k = b.take k)
    (hk : k ≤ b.length) : Admissible m b k where
  pos := h.pos
  le := hk
  noPunct := he ▸ h.noPunct
  limit := by
    have : b.take (k - 1) = a.take (k - 1) := by
      rw [show k - 1 = min (k - 1) k by omega, ← List.take_take, ← he, List.take_take]
    rw [this]
    exact h.limit

theorem sigil_after_synonyms {C : Compare} {D : Dict} {m : Nat} {f : SigilFilter} {e : End} :
    ∀ (n : Nat) {toks out : List Token} {p p' : Option Token}, toks.length = n → Greedy C D m toks out →
      SynonymsAside C D f toks → boundary p' = boundary p →
      Greedy C D m (sigilActual C.U f p toks e).1 (sigilActual C.U f p' out e).1 := by
  intro n
  induction n using Nat.strong_induction_on with
  | _ n ih =>
  intro toks out p p' hn hg hs hp
  match toks with
  | [] =>
    cases hg
    simpa [sigilActual] using .nil
  | c :: rest =>
    -- a synonym at the beginning of what the sigil filter delivers is one of the text
    have hpre : ∀ (x : List Token) (q : Option Token) (y : List Token), y <:+ c :: rest →
        ∀ v, v <+: (sigilActual C.U f q y e).1 → D (C.spell (x ++ v)) ≠ none → v <+: y := by
      intro x q y hy v hv hd
      rcases sigilActual_prefix (Q := fun t => ∀ u v, D (C.spell (u ++ t :: v)) = none) y e q
        (fun c l hi => hs.marked c l (hi.trans hy.isInfix)) v hv with h | ⟨t, ht, hQ⟩
      · exact h
      · obtain ⟨a, b, rfl⟩ := List.append_of_mem ht
        exact absurd (by simpa using hQ (x ++ a) b) hd
    by_cases hc : c.value = f.sigil
    · have hno : ∀ v, v <+: rest → D (C.spell (c :: v)) = none := by
        intro v hv
        by_contra hd
        obtain ⟨b, rfl⟩ := hv
        exact (hs.plain [] (c :: v) b (by simp) (by simp) hd).1 c (by simp) hc
      obtain ⟨out', rfl, hg'⟩ := hg.uncons hno
      by_cases hb : boundary p = true
      · match rest with
        | [] =>
          cases hg'
          cases e with
          | eof => simpa [sigilActual, hp, hb, hc] using Greedy.pass .nil fun v hv => hno v hv
          | fail err => simpa [sigilActual, hp, hb, hc] using .nil
        | l :: rest =>
          have hnl : ∀ v, v <+: rest → D (C.spell (l :: v)) = none := by
            intro v hv
            by_contra hd
            obtain ⟨b, rfl⟩ := hv
            exact (hs.plain [c] (l :: v) b (by simp) (by simp) hd).2 c (by simp) hc
          obtain ⟨out'', rfl, hg''⟩ := hg'.uncons hnl
          have hst : SynonymsAside C D f rest := SynonymsAside.tail (a := [c, l]) hs
          by_cases hl : f.legal l.value = true
          · have := ih rest.length (by simp at hn; omega) (p := some (mkToken C.U (f.sigil ++ l.value) true)) rfl hg'' hst rfl
            simp only [sigilActual, hp, hb, hc, hl, decide_true, Bool.and_self, ↓reduceIte, emit]
            exact this.pass fun v _ => hs.marked c l (pair_infix ..) hc hl [] v
          · have := ih rest.length (by simp at hn; omega) (p := some c) rfl hg'' hst rfl
            simp only [sigilActual, hp, hb, hc, hl, decide_true, Bool.and_self, ↓reduceIte, emit]
            refine (this.pass fun v hv => ?_).pass fun v hv => ?_
            · by_contra hd
              exact hd (hnl v (hpre [l] _ rest (List.suffix_append [c, l] rest) v hv hd))
            · by_contra hd
              rcases List.prefix_cons_iff.1 hv with rfl | ⟨w, rfl, hw⟩
              · exact hd (hno [] (List.nil_prefix ..))
              · exact hd (hno _ ((List.prefix_cons_inj l).2
                  (hpre [c, l] _ rest (List.suffix_append [c, l] rest) w hw hd)))
      · have hcb : ¬ (boundary p && c.value = f.sigil) = true := by simp [hb]
        have hcb' : ¬ (boundary p' && c.value = f.sigil) = true := by simp [hp, hb]
        rw [sigilActual_skip _ _ _ hcb, sigilActual_skip _ _ _ hcb']
        refine (ih rest.length (by simp at hn; omega) rfl hg' (SynonymsAside.tail (a := [c]) hs) rfl).pass fun v hv => ?_
        by_contra hd
        exact hd (hno v (hpre [c] _ rest (List.suffix_cons ..) v hv hd))
    · have hcb : ¬ (boundary p && c.value = f.sigil) = true := by simp [hc]
      have hS := sigilActual_skip C.U f p hcb rest e
      -- the same synonyms begin here
      have hsyn : ∀ k, Admissible m (sigilActual C.U f p (c :: rest) e).1 k →
          D (C.spell ((sigilActual C.U f p (c :: rest) e).1.take k)) ≠ none →
          (sigilActual C.U f p (c :: rest) e).1.take k = (c :: rest).take k ∧ Admissible m (c :: rest) k := by
        intro k hk hd
        have h1 := hpre [] p (c :: rest) (List.suffix_refl _) _ (List.take_prefix k _) hd
        have hlen : ((sigilActual C.U f p (c :: rest) e).1.take k).length = k := by
          rw [List.length_take]
          have := hk.le
          omega
        have h2 : (sigilActual C.U f p (c :: rest) e).1.take k = (c :: rest).take k := by
          have := List.prefix_iff_eq_take.1 h1
          rwa [hlen] at this
        exact ⟨h2, hk.congr h2 (hlen ▸ h1.length_le)⟩
      have hst : SynonymsAside C D f rest := SynonymsAside.tail (a := [c]) hs
      cases hg with
      | @separator _ _ out' hw hg' =>
        rw [hS, sigilActual_plain _ _ _ hc]
        exact .separator hw (ih rest.length (by simp at hn; omega) rfl hg' hst rfl)
      | @word _ _ out' hw hnone hg' =>
        rw [sigilActual_plain _ _ p' hc]
        have := ih rest.length (by simp at hn; omega) (p := some c) (p' := some c) rfl hg' hst rfl
        rw [hS] at hsyn ⊢
        refine .word hw (fun k hk => ?_) this
        by_contra hd
        obtain ⟨h1, h2⟩ := hsyn k hk hd
        rw [h1] at hd
        exact hd (hnone k h2)
      | @replace _ _ out' k canonical hw hl hg' =>
        have hkle := hl.mem.le
        have hkpos := hl.mem.pos
        have hsplit : c :: rest = (c :: rest).take k ++ (c :: rest).drop k := (List.take_append_drop ..).symm
        have hd : D (C.spell ((c :: rest).take k)) ≠ none := by rw [hl.isSyn]; simp
        have hrunlen : ((c :: rest).take k).length = k := by rw [List.length_take]; omega
        generalize hrun : (c :: rest).take k = run at hsplit hd hrunlen
        have hrne : run ≠ [] := by rintro rfl; simp at hrunlen; omega
        obtain ⟨hnomark, -⟩ := hs.plain [] run ((c :: rest).drop k) (by simpa using hsplit) hrne hd
        -- the last token of the synonym is a word
        obtain ⟨u, hu⟩ : ∃ u, run.getLast? = some u := ⟨_, List.getLast?_eq_some_getLast hrne⟩
        have huw : u.IsWord := by
          obtain ⟨ini, hini⟩ := List.getLast?_eq_some_iff.1 hu
          have hup : u.punct = false := hl.mem.noPunct u (by rw [hrun, hini]; simp)
          refine ⟨hup, ?_⟩
          by_contra hsp
          have hsp' := hs.ends run ⟨[], _, by simpa using hsplit.symm⟩ hd u hu (by simpa using hsp) hup
          have hsame : C.spell ini = C.spell run := by rw [hini, spell_append, hsp', List.append_nil]
          have hil : ini.length = k - 1 := by
            have := congrArg List.length hini
            simp at this
            omega
          have htk : (c :: rest).take (k - 1) = ini := by
            rw [show k - 1 = min (k - 1) k by omega, ← List.take_take, hrun, hini, ← hil, List.take_left]
          by_cases hk1 : k = 1
          · have : ini = [] := List.length_eq_zero_iff.1 (by omega)
            rw [this] at hini
            rw [hini, hk1] at hrun
            simp at hrun
            rw [hrun] at hw
            exact hsp (hw.2)
          · refine hl.fewest (k - 1) ⟨by omega, by omega, fun t ht => ?_, ?_⟩ (by omega) (by rw [htk, hrun, hsame])
            · exact hl.mem.noPunct t (by
                rw [hrun, hini]
                rw [htk] at ht
                simp [ht])
            · refine Nat.lt_of_le_of_lt ?_ hl.mem.limit
              unfold words
              exact List.Sublist.countP_le (List.take_sublist_take_left (by omega))
        obtain ⟨hc1, hc2, hc3⟩ := hs.canonical _ _ hl.isSyn
        have hcan : canonTokens C.U canonical = [mkToken C.U canonical true] := by simp [canonTokens, hc1]
        have hT : (sigilActual C.U f p (c :: rest) e).1 = run ++ (sigilActual C.U f (some u) ((c :: rest).drop k) e).1 := by
          conv_lhs => rw [hsplit]
          exact sigilActual_plains C.U f _ e run p u hnomark hu
        rw [hcan, List.singleton_append, sigilActual_plain C.U f p' (by exact hc2)]
        have hrec := ih ((c :: rest).drop k).length (by simp at hn ⊢; omega) (p := some u)
          (p' := some (mkToken C.U canonical true)) rfl hg' (SynonymsAside.tail (a := run) (hsplit ▸ hs))
          (boundary_congr (iff_of_true hc3 huw))
        have htake : (sigilActual C.U f p (c :: rest) e).1.take k = (c :: rest).take k := by
          rw [hT, hrun, ← hrunlen, List.take_left]
        have hdrop : (sigilActual C.U f p (c :: rest) e).1.drop k =
            (sigilActual C.U f (some u) ((c :: rest).drop k) e).1 := by
          rw [hT, ← hrunlen, List.drop_left]
        have hkT : k ≤ (sigilActual C.U f p (c :: rest) e).1.length := by rw [hT, List.length_append]; omega
        have hlong : Longest C D (Admissible m (sigilActual C.U f p (c :: rest) e).1)
            (sigilActual C.U f p (c :: rest) e).1 k canonical := by
          refine ⟨hl.mem.congr htake.symm hkT, by rw [htake]; exact hl.isSyn, fun j hj hkj hdj => ?_, fun j hj hjk => ?_⟩
          · obtain ⟨h1, h2⟩ := hsyn j hj hdj
            rw [h1] at hdj ⊢
            rw [htake]
            exact hl.longest j h2 hkj hdj
          · have h1 : (sigilActual C.U f p (c :: rest) e).1.take j = (c :: rest).take j := by
              rw [show j = min j k by omega, ← List.take_take, htake, List.take_take]
            rw [htake, h1]
            exact hl.fewest j (hj.congr h1 (by omega)) hjk
        rw [← hdrop] at hrec
        rw [hS] at hlong hrec ⊢
        have := Greedy.replace hw hlong hrec
        rwa [hcan] at this

/-! ### C131 -/

/-- **C131 (partial).** A synonyms filter may come before or after a sigil filter if they keep out of each other's way.
Missing: texts in which they do not, where the order matters (`C131_violated`). -/
theorem C131_partial {E : Env} (hE : E.Lawful) {F : SynArgs} (hF : F.Scans E) {f : SigilFilter} (hf : f.sigil ≠ [])
    {toks : List Token} (hs : SynonymsAside ⟨E.U, F.ignoreCase, F.ignore⟩
      ((Compare.mk E.U F.ignoreCase F.ignore).dict (entries E F.mappings)) f toks)
    {ts : TokenStream} {e : End} (h : ts.Yields toks e) :
    ∃ out, (sigil E.U f (F.filter E ts)).Yields out e ∧ (F.filter E (sigil E.U f ts)).Yields out e := by
  obtain ⟨out, hg⟩ := F.total E toks
  have y1 := sigil_yields (U := E.U) hf (hg.yields hE hF h)
  have y2 := sigil_yields (U := E.U) hf h
  rw [sigilActual_end] at y1 y2
  have hg' : F.Greedy E (sigilActual E.U f none toks e).1 (sigilActual E.U f none out e).1 :=
    sigil_after_synonyms _ rfl hg hs rfl
  have y3 := hg'.yields hE hF y2
  cases e with
  | eof => exact ⟨_, y1, y3⟩
  | fail e => exact ⟨_, y1, y3⟩

/-! ### Tags and CurrentPlayers -/

theorem plain_word (U : Unicode) (hP : U.PlainNotPunct) {s : Bytes} (lem : Bool) (h : (runes s).any isPlain = true) :
    (mkToken U s lem).IsWord := by
  obtain ⟨r, hr, hp⟩ := List.any_eq_true.1 h
  have hf := mkToken_for U s lem
  constructor
  · rw [Bool.eq_false_iff]
    intro hpu
    rcases hf.punct.1 hpu _ hr with h1 | h1 | h1 | h1
    · rw [hP _ hp] at h1; cases h1
    all_goals (rw [h1] at hp; revert hp; decide)
  · rw [Bool.eq_false_iff]
    intro hsp
    have h1 := hf.space.1 hsp _ hr
    have : ∀ r ∈ whiteSpace, isPlain r = false := by decide +kernel
    rw [this _ h1] at hp
    cases hp

/-- The spelling of a token that begins with a sign. -/
theorem sign_spell {U : Unicode} (hU : U.LowersLatin) {ign : List Rune} {b : UInt8} (hb : b.toNat < 0x41)
    (hi : b.toNat ∉ ign) {t : Token} {x : Bytes} (ht : t.value = b :: x) (u v : List Token) :
    b.toNat ∈ (Compare.mk U true ign).spell (u ++ t :: v) := by
  have e : U.toLower b.toNat = b.toNat := by
    rw [hU _ (by omega)]
    unfold latinLower
    repeat rw [if_neg (by omega)]
  simp only [Compare.spell, Compare.normal, List.mem_filter, List.mem_map, List.mem_flatMap, List.mem_append,
    List.mem_cons, decide_eq_true_eq]
  refine ⟨⟨b.toNat, ⟨t, .inr (.inl rfl), ?_⟩, e⟩, hi⟩
  rw [ht, runes_ascii_cons (by omega)]
  simp

theorem runes_only_spaces {s : Bytes} (h : ∀ c ∈ s, c = 0x20) : ∀ r ∈ runes s, r = 0x20 := by
  induction s with
  | nil => simp [runes_nil]
  | cons b s ih =>
    obtain rfl := h b (by simp)
    rw [runes_ascii_cons (by decide)]
    intro r hr
    rcases List.mem_cons.1 hr with rfl | hr
    · rfl
    · exact ih (fun c hc => h c (.tail _ hc)) r hr

/-- If no synonym contains the mark, little is left to look at. -/
theorem aside_of_sign {U : Unicode} (hU : U.LowersLatin) (hP : U.PlainNotPunct) {ign : List Rune} {D : Dict} {b : UInt8}
    (hb : b.toNat < 0x41) (hbp : isPlain b.toNat = false) (hi : b.toNat ∉ ign) (hsp : 0x20 ∈ ign)
    (hD : ∀ q, D q ≠ none → b.toNat ∉ q) (hc : ∀ q c, D q = some c → (runes c).any isPlain = true)
    (legal : Bytes → Bool) {toks : List Token}
    (hn : ∀ a run z, toks = a ++ run ++ z → run ≠ [] → D ((Compare.mk U true ign).spell run) ≠ none →
      ∀ c ∈ a.getLast?, c.value ≠ [b])
    (ht : ∀ t ∈ toks, t.space = true → t.punct = true ∨ ∀ c ∈ t.value, c = 0x20) :
    SynonymsAside ⟨U, true, ign⟩ D { sigil := [b], legal } toks where
  plain a run z he hne hd := by
    refine ⟨fun t hm hv => ?_, hn a run z he hne hd⟩
    obtain ⟨x, y, rfl⟩ := List.append_of_mem hm
    exact hD _ hd (sign_spell hU hb hi hv x y)
  ends run hr _ u hu hs hp := by
    have hm : u ∈ toks := hr.subset (List.mem_of_getLast? hu)
    rcases ht u hm hs with h | h
    · rw [h] at hp; cases hp
    · have e : U.toLower 0x20 = 0x20 := by rw [hU _ (by omega)]; decide
      simp only [Compare.spell, Compare.normal, Compare.fold, List.flatMap_cons, List.flatMap_nil, List.append_nil,
        List.filter_eq_nil_iff, List.mem_map, decide_eq_true_eq, not_not]
      rintro _ ⟨r, hr, rfl⟩
      rwa [runes_only_spaces h r hr, e]
  marked c l _ _ _ u v := by
    by_contra hd
    exact hD _ hd (sign_spell hU hb hi (t := mkToken U ([b] ++ l.value) true) rfl u v)
  canonical q c hq := by
    have h := hc q c hq
    refine ⟨?_, ?_, plain_word U hP true h⟩
    · rintro rfl
      simp [runes_nil] at h
    · rintro rfl
      rw [show runes ([b] : Bytes) = [b.toNat] by rw [runes_ascii_cons (by omega)]; rfl] at h
      simp [hbp] at h

theorem names_plain : soRows.flatten.all (fun r => (runes (textOf r.2)).any isPlain) = true ∧
    nbaRows.flatten.all (fun r => (runes (textOf r.2)).any isPlain) = true := by
  constructor <;> decide +kernel

theorem canonical_row {E : Env} {C : Compare} {rows : List (Nat × Nat)} {m : StringMap} (hm : m = tableOf rows)
    {P : Bytes → Bool} (h : rows.all (fun r => P (textOf r.2)) = true) :
    ∀ q c, C.dict (entries E m) q = some c → P c = true := by
  intro q c hq
  obtain ⟨a, ha, -, rfl⟩ := dict_some hq
  obtain ⟨k, hk⟩ := entries_canonical ha
  rw [hm] at hk
  simp only [tableOf, List.mem_map] at hk
  obtain ⟨row, hrow, hrv⟩ := hk
  rw [← show textOf row.2 = a.2 from congrArg Prod.snd hrv]
  exact List.all_eq_true.1 h row hrow

/-- **C131 for Tags and Handles (partial).** Tags may come before or after Handles if no synonym begins right after an
"@". -/
theorem C131_tags_handles_partial {E : Env} (hE : E.Lawful) (hU : E.U.LowersLatin) (hP : E.U.PlainNotPunct)
    (hk : ∀ m ∈ stackOverflowMappings, E.CutsCommas m.1) {toks : List Token}
    (hn : ∀ a run z, toks = a ++ run ++ z → run ≠ [] → tagDict E ((tagCompare E).spell run) ≠ none →
      ∀ c ∈ a.getLast?, c.value ≠ str "@")
    (ht : ∀ t ∈ toks, t.space = true → t.punct = true ∨ ∀ c ∈ t.value, c = 0x20)
    {ts : TokenStream} {e : End} (h : ts.Yields toks e) :
    ∃ out, (handles E.U (tags E ts)).Yields out e ∧ (tags E (handles E.U ts)).Yields out e := by
  rw [show str "@" = [0x40] by decide +kernel] at hn
  refine C131_partial (F := tagsArgs) hE (fun m hm => (hk m hm).scans) (by simp) (aside_of_sign hU hP (by decide) (by decide)
    (by decide) (by decide) (fun q hq => ?_) ?_ legalHandle hn ht) h
  · cases hd : tagDict E q with
    | none => exact absurd hd hq
    | some c => exact (tagDict_signs hU hk hd).1
  · exact canonical_row stackOverflow_rows names_plain.1

/-- **C131 for CurrentPlayers (partial).** CurrentPlayers may come before or after Handles and Hashtags if no player's
name begins right after an "@" or "#". -/
theorem C131_players_partial {E : Env} (hE : E.Lawful) (hU : E.U.LowersLatin) (hP : E.U.PlainNotPunct)
    (hk : ∀ m ∈ nbaMappings, E.CutsCommas m.1) {toks : List Token}
    (hn : ∀ a run z, toks = a ++ run ++ z → run ≠ [] → nbaDict E ((nbaCompare E).spell run) ≠ none →
      ∀ c ∈ a.getLast?, c.value ≠ str "@" ∧ c.value ≠ str "#")
    (ht : ∀ t ∈ toks, t.space = true → t.punct = true ∨ ∀ c ∈ t.value, c = 0x20)
    {ts : TokenStream} {e : End} (h : ts.Yields toks e) : ∀ G ∈ [handles E.U, hashtags E.U],
    ∃ out, (G (currentPlayers E ts)).Yields out e ∧ (currentPlayers E (G ts)).Yields out e := by
  rw [show str "@" = [0x40] by decide +kernel, show str "#" = [0x23] by decide +kernel] at hn
  intro G hG
  simp only [List.mem_cons, List.not_mem_nil, or_false] at hG
  rcases hG with rfl | rfl
  · refine C131_partial (F := playersArgs) hE (fun m hm => (hk m hm).scans) (by simp) (aside_of_sign hU hP (by decide)
      (by decide) (by decide) (by decide) (fun q hq => ?_) ?_ legalHandle
      (fun a run z h1 h2 h3 c hc => (hn a run z h1 h2 h3 c hc).1) ht) h
    · cases hd : nbaDict E q with
      | none => exact absurd hd hq
      | some c => exact (nbaDict_signs hU hk hd).1
    · exact canonical_row nba_rows names_plain.2
  · refine C131_partial (F := playersArgs) hE (fun m hm => (hk m hm).scans) (by simp) (aside_of_sign hU hP (by decide)
      (by decide) (by decide) (by decide) (fun q hq => ?_) ?_ (legalHashtag E.U)
      (fun a run z h1 h2 h3 c hc => (hn a run z h1 h2 h3 c hc).2) ht) h
    · cases hd : nbaDict E q with
      | none => exact absurd hd hq
      | some c => exact (nbaDict_signs hU hk hd).2
    · exact canonical_row nba_rows names_plain.2

/-- "golang" is a synonym of "go". -/
theorem golang_tag : tagDict latinEnv ((tagCompare latinEnv).spell [lw "golang"]) = some (str "go") := by
  have := tagDict_some latinEnv_lowers latinEnv_so (row := (n!"golang, go language", n!"go"))
    (p := (str "golang").map UInt8.toNat) (mem_so 3 rfl (by decide +kernel)) (by decide +kernel)
  rwa [show normalB stackOverflowIgnore ((str "golang").map UInt8.toNat) = (tagCompare latinEnv).spell [lw "golang"] by
    decide +kernel, show textOf (n!"golang, go language", n!"go").2 = str "go" by decide +kernel] at this

theorem golang_greedy : Greedy (tagCompare latinEnv) (tagDict latinEnv)
    (wordLimit (entries latinEnv stackOverflowMappings)) [lw "golang"] [lc "go"] := by
  have := greedy_whole (m := wordLimit (entries latinEnv stackOverflowMappings)) (C := tagCompare latinEnv)
    (D := tagDict latinEnv) (first := lw "golang") (mid := []) (last := lw "golang") (l := []) rfl (by decide +kernel)
    (by decide +kernel) (by decide +kernel) (by decide +kernel)
    (Nat.le_of_lt (Nat.lt_of_lt_of_le (by decide +kernel) tags_limit)) golang_tag
  rwa [show canonTokens (tagCompare latinEnv).U (str "go") = [lc "go"] by decide +kernel] at this

/-- **C131 (violated).** If Tags comes before Handles, the handle "@golang" becomes the handle "@go"; if it comes after,
the handle is left as it is. -/
theorem C131_violated : ¬ C131_full tagsArgs latinEnv ∧
    (handles latinEnv.U (tags latinEnv (listStream [lw "@", lw "golang"] .eof))).Yields [lc "@go"] .eof ∧
    (tags latinEnv (handles latinEnv.U (listStream [lw "@", lw "golang"] .eof))).Yields [lc "@golang"] .eof := by
  have h0 := listStream_yields [lw "@", lw "golang"] .eof
  have t0 := tags_yields latinEnv_lawful latinEnv_so h0 (.separator (by decide +kernel) golang_greedy)
  have y1 := sigil_yields (U := latinEnv.U) (f := ⟨[0x40], legalHandle⟩) (by decide) t0
  have y2 := sigil_yields (U := latinEnv.U) (f := ⟨[0x40], legalHandle⟩) (by decide) h0
  rw [sigilActual_end] at y1 y2
  rw [show (sigilActual latinEnv.U ⟨[0x40], legalHandle⟩ none [lw "@", lc "go"] .eof).1 = [lc "@go"] by
    decide +kernel] at y1
  rw [show (sigilActual latinEnv.U ⟨[0x40], legalHandle⟩ none [lw "@", lw "golang"] .eof).1 = [lc "@golang"] by
    decide +kernel] at y2
  have z2 := tags_yields latinEnv_lawful latinEnv_so y2 (out := [lc "@golang"])
    (.word (by decide +kernel) (fun k hk => tagDict_none latinEnv_lowers latinEnv_so (by
      have h1 : k ≤ 1 := hk.le
      have h2 := hk.pos
      obtain rfl : k = 1 := by omega
      decide +kernel)) .nil)
  refine ⟨fun h => ?_, y1, z2⟩
  obtain ⟨out, h1, h2⟩ := h (handles latinEnv.U) (by simp) _ _ _ h0
  have := (h1.unique y1).1.symm.trans (h2.unique z2).1
  revert this
  decide +kernel

-- what the partial version asks for can be had: in "@bob golang" the handle is left alone and the tag is recognised
example : ∃ out, (handles latinEnv.U (tags latinEnv (listStream [lw "@", lw "bob", lw " ", lw "golang"] .eof))).Yields
      out .eof ∧
    (tags latinEnv (handles latinEnv.U (listStream [lw "@", lw "bob", lw " ", lw "golang"] .eof))).Yields out .eof := by
  refine C131_tags_handles_partial latinEnv_lawful latinEnv_lowers latinEnv_plain latinEnv_so ?_ (by decide +kernel)
    (listStream_yields ..)
  intro a run z he hne hd c hc hv
  refine hd (tagDict_none latinEnv_lowers latinEnv_so ?_)
  have key : ∀ i < 5, ∀ k < 5, k ≠ 0 →
      ∀ c ∈ ([lw "@", lw "bob", lw " ", lw "golang"].take i).getLast?.toList, c.value = str "@" →
      soTree.find (hash ((tagCompare latinEnv).spell (([lw "@", lw "bob", lw " ", lw "golang"].drop i).take k))) = none := by
    decide +kernel
  have hl := congrArg List.length he
  simp only [List.length_append, List.length_cons, List.length_nil] at hl
  have h1 := key a.length (by omega) run.length (by omega) (by simpa using hne) c
  rw [he] at h1
  simp only [List.append_assoc, List.take_left, List.drop_left] at h1
  exact h1 (by simpa using hc) hv

end Jargon
