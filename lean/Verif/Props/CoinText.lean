import Verif.Spec.CoinText
import Verif.Props.SdkCoins
/-!
# Exactly which texts are read as coins: C97
-/

namespace Verif.Props
open Verif Verif.Spec

/-! ## Spaces -/

theorem spaces_prefix {p : Bytes} (h : p ∈ Sdk.spaces) {t : Bytes} (ht : Spaces t) : Spaces (p ++ t) := by
  have hb : ∀ b : UInt8, b.toNat = 9 ∨ b.toNat = 10 ∨ b.toNat = 11 ∨ b.toNat = 12 ∨ b.toNat = 13 → Blank b := by
    intro b h; exact .inl (by omega)
  simp only [Sdk.spaces, List.mem_cons, List.not_mem_nil, or_false] at h
  rcases h with rfl | rfl | rfl | rfl | rfl | rfl | rfl | rfl | rfl | h
  · exact .ascii (hb _ (by decide)) ht
  · exact .ascii (hb _ (by decide)) ht
  · exact .ascii (hb _ (by decide)) ht
  · exact .ascii (hb _ (by decide)) ht
  · exact .ascii (hb _ (by decide)) ht
  · exact .ascii (.inr rfl) ht
  · exact .two (.inl rfl) ht
  · exact .two (.inr rfl) ht
  · exact .ogham ht
  · rcases h with rfl | rfl | rfl | rfl | rfl | rfl | rfl | rfl | rfl | rfl | rfl | rfl | rfl | rfl | rfl | rfl
    all_goals first
      | exact .general (by decide) ht
      | exact .medium ht
      | exact .ideographic ht

theorem spaces_append {p q : Bytes} (hp : Spaces p) (hq : Spaces q) : Spaces (p ++ q) := by
  induction hp with
  | nil => exact hq
  | ascii h _ ih => exact .ascii h ih
  | two h _ ih => exact .two h ih
  | ogham _ ih => exact .ogham ih
  | general h _ ih => exact .general h ih
  | medium _ ih => exact .medium ih
  | ideographic _ ih => exact .ideographic ih

theorem byte_eq {b : UInt8} {n : Nat} (hn : n < 256) (h : b.toNat = n) : b = UInt8.ofNat n := by
  apply UInt8.toNat_inj.1
  rw [h, UInt8.toNat_ofNat', Nat.mod_eq_of_lt hn]

/-- Every nonempty text of spaces starts with one. -/
theorem spaces_first {p : Bytes} (h : Spaces p) (hne : p ≠ []) : ∃ s ∈ Sdk.spaces, ∃ r, p = s ++ r ∧ Spaces r := by
  cases h with
  | nil => exact absurd rfl hne
  | @ascii b t h ht =>
    refine ⟨[b], ?_, t, rfl, ht⟩
    have hc : b.toNat = 9 ∨ b.toNat = 10 ∨ b.toNat = 11 ∨ b.toNat = 12 ∨ b.toNat = 13 ∨ b = 32 := by
      rcases h with h | h
      · omega
      · exact .inr (.inr (.inr (.inr (.inr h))))
    rcases hc with h | h | h | h | h | rfl
    · rw [byte_eq (by decide) h]; decide
    · rw [byte_eq (by decide) h]; decide
    · rw [byte_eq (by decide) h]; decide
    · rw [byte_eq (by decide) h]; decide
    · rw [byte_eq (by decide) h]; decide
    · decide
  | @two b t h ht =>
    refine ⟨[0xC2, b], ?_, t, rfl, ht⟩
    rcases h with rfl | rfl <;> decide
  | @ogham t ht => exact ⟨[0xE1, 0x9A, 0x80], by decide, t, rfl, ht⟩
  | @general b t h ht =>
    refine ⟨[0xE2, 0x80, b], ?_, t, rfl, ht⟩
    rcases h with h | rfl | rfl | rfl
    · have hall : ((List.range 11).all fun i => Sdk.spaces.contains [0xE2, 0x80, UInt8.ofNat (0x80 + i)]) = true := by
        decide
      have := List.all_eq_true.1 hall (b.toNat - 0x80) (List.mem_range.2 (by omega))
      rw [← byte_eq (by omega) (show b.toNat = 0x80 + (b.toNat - 0x80) by omega)] at this
      exact List.contains_iff_mem.1 this
    all_goals decide
  | @medium t ht => exact ⟨[0xE2, 0x81, 0x9F], by decide, t, rfl, ht⟩
  | @ideographic t ht => exact ⟨[0xE3, 0x80, 0x80], by decide, t, rfl, ht⟩

theorem dropOne_some {ps : List Bytes} {t r : Bytes} (h : Sdk.dropOne ps t = some r) : ∃ p ∈ ps, t = p ++ r := by
  obtain ⟨p, hp, hx⟩ := List.exists_of_findSome?_eq_some h
  split at hx
  · rename_i hpre
    obtain ⟨r', rfl⟩ := List.isPrefixOf_iff_prefix.1 hpre
    cases hx
    exact ⟨p, hp, by rw [List.drop_left]⟩
  · cases hx

theorem dropOne_none_iff {ps : List Bytes} {t : Bytes} (h : Sdk.dropOne ps t = none) : ∀ p ∈ ps, ∀ r, t ≠ p ++ r := by
  rintro p hp r rfl
  have := List.findSome?_eq_none_iff.1 h p hp
  rw [if_pos (List.isPrefixOf_iff_prefix.2 ⟨r, rfl⟩)] at this
  cases this

theorem dropAll_spec {ps : List Bytes} (hne : ∀ p ∈ ps, p ≠ []) : ∀ (f : Nat) (t : Bytes), t.length ≤ f →
    ∃ l : List Bytes, (∀ p ∈ l, p ∈ ps) ∧ t = l.flatten ++ Sdk.dropAll ps f t ∧
      Sdk.dropOne ps (Sdk.dropAll ps f t) = none
  | 0, t, h => by
    have : t = [] := List.length_eq_zero_iff.1 (by omega)
    subst this
    refine ⟨[], by simp, by simp [Sdk.dropAll], ?_⟩
    cases hd : Sdk.dropOne ps (Sdk.dropAll ps 0 []) with
    | none => rfl
    | some r =>
      obtain ⟨p, hp, e⟩ := dropOne_some hd
      have := congrArg List.length e
      have h1 := List.length_pos_of_ne_nil (hne p hp)
      simp only [Sdk.dropAll, List.length_nil, List.length_append] at this
      omega
  | f + 1, t, h => by
    rw [Sdk.dropAll]
    cases hd : Sdk.dropOne ps t with
    | none => exact ⟨[], by simp, by simp, hd⟩
    | some r =>
      obtain ⟨p, hp, rfl⟩ := dropOne_some hd
      have h1 := List.length_pos_of_ne_nil (hne p hp)
      obtain ⟨l, h2, h3, h4⟩ := dropAll_spec hne f r (by rw [List.length_append] at h; omega)
      refine ⟨p :: l, by simpa [hp] using h2, ?_, h4⟩
      rw [List.flatten_cons, List.append_assoc, ← h3]

theorem spaces_flatten {l : List Bytes} (h : ∀ p ∈ l, p ∈ Sdk.spaces) : Spaces l.flatten := by
  induction l with
  | nil => exact .nil
  | cons p l ih => exact spaces_prefix (h p (by simp)) (ih fun q hq => h q (by simp [hq]))

/-- A nonempty text of spaces ends with one. -/
theorem spaces_last {p : Bytes} (h : Spaces p) (hne : p ≠ []) : ∃ s ∈ Sdk.spaces, ∃ r, p = r ++ s := by
  suffices hs : ∀ (n : Nat) (p : Bytes), p.length ≤ n → Spaces p → p ≠ [] → ∃ s ∈ Sdk.spaces, ∃ r, p = r ++ s from
    hs _ p (le_refl _) h hne
  intro n
  induction n with
  | zero => intro p hl _ hne; exact absurd (List.length_eq_zero_iff.1 (by omega)) hne
  | succ n ih =>
    intro p hl h hne
    obtain ⟨s, hs, r, rfl, hr⟩ := spaces_first h hne
    have h1 := List.length_pos_of_ne_nil (Sdk.spaces_ne s hs)
    by_cases hr0 : r = []
    · subst hr0; exact ⟨s, hs, [], by simp⟩
    · obtain ⟨s', hs', r', rfl⟩ := ih r (by rw [List.length_append] at hl; omega) hr hr0
      exact ⟨s', hs', s ++ r', by simp⟩

theorem flatten_reverse_spaces : ∀ {l : List Bytes}, (∀ p ∈ l, p ∈ Sdk.spaces.map List.reverse) → Spaces l.flatten.reverse
  | [], _ => .nil
  | p :: l, h => by
    rw [List.flatten_cons, List.reverse_append]
    refine spaces_append (flatten_reverse_spaces fun q hq => h q (by simp [hq])) ?_
    obtain ⟨s, hs, rfl⟩ := List.mem_map.1 (h p (by simp))
    rw [List.reverse_reverse]
    simpa using spaces_prefix hs .nil

/-- **C97** Spaces around a text are removed, all of them and nothing else. -/
theorem C97_trimmed (t : Bytes) : Trimmed t (Sdk.trimSpace t) := by
  obtain ⟨l, h1, h2, h3⟩ := dropAll_spec Sdk.spaces_ne t.length t (le_refl _)
  simp only [Sdk.trimSpace]
  generalize Sdk.dropAll Sdk.spaces t.length t = r at h2 h3
  obtain ⟨l', h4, h5, h6⟩ := dropAll_spec Sdk.spaces_reverse_ne r.length r.reverse (by simp)
  generalize Sdk.dropAll (Sdk.spaces.map List.reverse) r.length r.reverse = u at h5 h6
  have hr : r = u.reverse ++ l'.flatten.reverse := by
    rw [← List.reverse_append, ← h5, List.reverse_reverse]
  refine ⟨⟨l.flatten, l'.flatten.reverse, by rw [← hr]; exact h2, spaces_flatten h1, flatten_reverse_spaces h4⟩, ?_, ?_⟩
  · intro p q hu hp
    by_contra hne
    obtain ⟨s, hs, p', rfl, _⟩ := spaces_first hp hne
    refine dropOne_none_iff h3 s hs (p' ++ (q ++ l'.flatten.reverse)) ?_
    rw [hr, hu]; simp
  · intro q p hu hp
    by_contra hne
    obtain ⟨s, hs, p', rfl⟩ := spaces_last hp hne
    refine dropOne_none_iff h6 s.reverse (List.mem_map_of_mem hs) (p'.reverse ++ q.reverse) ?_
    rw [← List.reverse_reverse u, hu]; simp

/-! ## One coin -/

theorem blank_iff (b : UInt8) : Sdk.isSpace b = true ↔ Blank b := by
  simp only [Sdk.isSpace, Blank, Bool.or_eq_true, Bool.and_eq_true, decide_eq_true_eq, UInt8.le_iff_toNat_le, beq_iff_eq]
  rfl

theorem dropWhile_space {w d : Bytes} (hw : ∀ b ∈ w, Blank b) (hd : DenomText d) : (w ++ d).dropWhile Sdk.isSpace = d := by
  induction w with
  | nil =>
    obtain ⟨b, r, rfl, hb⟩ := hd.first
    rw [List.nil_append, List.dropWhile_cons, Sdk.letter_not_space ((letter_iff b).2 hb)]; rfl
  | cons b w ih =>
    rw [List.cons_append, List.dropWhile_cons, (blank_iff b).2 (hw b (by simp)), if_pos rfl, ih fun c hc => hw c (by simp [hc])]

theorem head_blank {w d : Bytes} (hw : ∀ b ∈ w, Blank b) (hd : DenomText d) :
    ∀ b ∈ (w ++ d).head?, Sdk.isDigit b = false ∧ b ≠ 46 := by
  intro b hb
  cases w with
  | nil =>
    obtain ⟨c, r, rfl, hc⟩ := hd.first
    cases hb
    exact ⟨Sdk.letter_not_digit ((letter_iff b).2 hc), Sdk.letter_not_point ((letter_iff b).2 hc)⟩
  | cons c w =>
    cases hb
    have h := hw b (by simp)
    refine ⟨?_, ?_⟩
    · cases hd : Sdk.isDigit b with
      | false => rfl
      | true => exact absurd ((blank_iff b).2 h) (by rw [Sdk.digit_not_space hd]; simp)
    · rintro rfl
      exact absurd h (by rw [Blank]; decide)

theorem number_join (a f : Bytes) : Sdk.number (a ++ f) = Sdk.number a * 10 ^ f.length + Sdk.number f := by
  induction f using List.reverseRecOn with
  | nil => simp [Sdk.number]
  | append_singleton f b ih =>
    rw [← List.append_assoc, Sdk.number_append, ih, Sdk.number_append, List.length_append, List.length_singleton, pow_succ]
    ring

theorem decOf_iff {bits : Option Nat} {ds : Bytes} {p n : Nat} : Sdk.decOf bits ds p = some n ↔
    p ≤ 18 ∧ n = Sdk.number ds * 10 ^ (18 - p) ∧ Sdk.decBound bits n := by
  simp only [Sdk.decOf, Sdk.number_zeros]
  by_cases hp : 18 < p
  · rw [if_pos hp]
    exact ⟨fun h => (nomatch h), fun h => by omega⟩
  · rw [if_neg hp]
    generalize Sdk.number ds * 10 ^ (18 - p) = k
    cases bits with
    | none => exact ⟨fun h => by cases h; exact ⟨by omega, rfl, (fun b h => by cases h)⟩, fun h => by rw [h.2.1]⟩
    | some b =>
      simp only
      by_cases hk : k < 2 ^ b
      · rw [if_pos hk]
        exact ⟨fun h => by cases h; exact ⟨by omega, rfl, (fun b h => by cases h; exact hk)⟩, fun h => by rw [h.2.1]⟩
      · rw [if_neg hk]
        exact ⟨fun h => (nomatch h), fun h => absurd (h.2.1 ▸ h.2.2 b rfl) hk⟩

theorem takeWhile_all {f : UInt8 → Bool} (t : Bytes) : ∀ b ∈ t.takeWhile f, f b = true := by
  intro b hb
  exact List.mem_takeWhile_imp hb

theorem split_while (f : UInt8 → Bool) (t : Bytes) : t = t.takeWhile f ++ t.dropWhile f :=
  (List.takeWhile_append_dropWhile (p := f) (l := t)).symm

/-- **C97** Exactly which texts are read as one coin: a number with at most 18 digits after the point, blanks and
a denomination, with spaces around; and its amount. -/
theorem C97_coin {bits : Option Nat} {t d : Bytes} {n : Nat} : Sdk.parseDecCoin bits t = some (d, n) ↔
    WritesCoin (Sdk.trimSpace t) d n ∧ ∀ b, bits = some b → n < 2 ^ b := by
  rw [Sdk.parseDecCoin]
  generalize Sdk.trimSpace t = u
  constructor
  · intro h
    simp only [Sdk.matchCoin] at h
    have hu := split_while Sdk.isDigit u
    have hdig := takeWhile_all (f := Sdk.isDigit) u
    generalize u.takeWhile Sdk.isDigit = whole at h hu hdig
    generalize u.dropWhile Sdk.isDigit = rest at h hu
    subst hu
    split at h
    · cases h
    · rename_i w fo den hm
      split at hm
      · rename_i r
        have hr := split_while Sdk.isDigit r
        have hfd := takeWhile_all (f := Sdk.isDigit) r
        generalize r.takeWhile Sdk.isDigit = frac at hm hr hfd
        generalize r.dropWhile Sdk.isDigit = r2 at hm hr
        have hr2 := split_while Sdk.isSpace r2
        have hsp := takeWhile_all (f := Sdk.isSpace) r2
        generalize r2.takeWhile Sdk.isSpace = ws at hr2 hsp
        generalize r2.dropWhile Sdk.isSpace = den' at hm hr2
        subst hr2
        subst hr
        split at hm
        · cases hm
        · rename_i hf
          split at hm
          · rename_i hv
            cases hm
            simp only [Sdk.decFromStr] at h
            split at h
            · cases h
            · rename_i n' hn
              cases h
              split at hn
              · cases hn
              · rename_i hw
                obtain ⟨h1, h2, h3⟩ := decOf_iff.1 hn
                refine ⟨⟨whole ++ 46 :: frac, ws, by simp, .inr ⟨whole, frac, _, _, rfl, (writes_iff _ _).2 ⟨hw, hdig, rfl⟩,
                  (writes_iff _ _).2 ⟨hf, hfd, rfl⟩, h1, by rw [h2, number_join]⟩,
                  fun b hb => (blank_iff b).1 (hsp b hb), (denomText_iff _).1 hv⟩, h3⟩
          · cases hm
      · have hr2 := split_while Sdk.isSpace rest
        have hsp := takeWhile_all (f := Sdk.isSpace) rest
        generalize rest.takeWhile Sdk.isSpace = ws at hr2 hsp
        generalize rest.dropWhile Sdk.isSpace = den' at hm hr2
        subst hr2
        split at hm
        · cases hm
        · rename_i hw
          split at hm
          · rename_i hv
            cases hm
            simp only [Sdk.decFromStr] at h
            split at h
            · cases h
            · rename_i n' hn
              cases h
              obtain ⟨h1, h2, h3⟩ := decOf_iff.1 hn
              exact ⟨⟨whole, ws, rfl, .inl ⟨_, (writes_iff _ _).2 ⟨hw, hdig, rfl⟩, h2⟩,
                fun b hb => (blank_iff b).1 (hsp b hb), (denomText_iff _).1 hv⟩, h3⟩
          · cases hm
  · rintro ⟨⟨a, w, rfl, ha, hw, hd⟩, hb⟩
    have hv := (denomText_iff d).2 hd
    have hhead := head_blank hw hd
    have hdrop := dropWhile_space hw hd
    rcases ha with ⟨k, hk, rfl⟩ | ⟨a, f, k, j, rfl, hk, hj, hl, rfl⟩
    · obtain ⟨h1, h2, rfl⟩ := (writes_iff _ _).1 hk
      obtain ⟨t1, t2⟩ := Sdk.takeWhile_digits h2 fun b hb => (hhead b hb).1
      have hm : Sdk.matchCoin (a ++ (w ++ d)) = some (a, none, d) := by
        simp only [Sdk.matchCoin, t1, t2]
        split
        · rename_i r he
          rw [he] at hhead
          exact absurd rfl (hhead 46 rfl).2
        · rw [hdrop, if_neg h1, if_pos hv]
      have hx : Sdk.decFromStr bits a none = some (Sdk.number a * 10 ^ 18) := decOf_iff.2 ⟨by omega, rfl, hb⟩
      simp only [hm, hx]
    · obtain ⟨h1, h2, rfl⟩ := (writes_iff _ _).1 hk
      obtain ⟨h3, h4, rfl⟩ := (writes_iff _ _).1 hj
      obtain ⟨t1, t2⟩ := Sdk.takeWhile_digits (d := 46 :: (f ++ (w ++ d))) h2 (by intro b hb; cases hb; rfl)
      obtain ⟨t3, t4⟩ := Sdk.takeWhile_digits h4 fun b hb => (hhead b hb).1
      have hm : Sdk.matchCoin (a ++ 46 :: f ++ (w ++ d)) = some (a, some f, d) := by
        rw [List.append_assoc, List.cons_append]
        simp only [Sdk.matchCoin, t1, t2, t3, t4, hdrop]
        rw [if_neg h3, if_pos hv]
      have hx : Sdk.decFromStr bits a (some f) =
          some ((Sdk.number a * 10 ^ f.length + Sdk.number f) * 10 ^ (18 - f.length)) := by
        rw [Sdk.decFromStr, if_neg h1]
        exact decOf_iff.2 ⟨hl, by rw [number_join], hb⟩
      simp only [hm, hx]

/-! ## Lists -/

theorem parseEach_iff {bits : Option Nat} : ∀ {ts : List Bytes} {l : List (Bytes × Nat)},
    Sdk.parseEach bits ts = some l ↔ List.Forall₂ (fun t c => Sdk.parseDecCoin bits t = some c) ts l
  | [], l => by
    rw [Sdk.parseEach]
    constructor
    · intro h; cases h; exact .nil
    · intro h; cases h; rfl
  | t :: ts, l => by
    rw [Sdk.parseEach]
    constructor
    · intro h
      split at h
      · cases h
      · rename_i c hc
        split at h
        · cases h
        · rename_i l' hl
          cases h
          exact .cons hc (parseEach_iff.1 hl)
    · intro h
      cases h with
      | cons h1 h2 => simp only [h1, parseEach_iff.2 h2]

/-- **C97** Exactly which texts are read as coins, and as which: a text of spaces as no coins; otherwise texts of
coins with commas between them.  Coins of amount zero are left out, the others have different denominations;
they are sorted, and what is left of a fraction is cut off. -/
theorem C97_text {bits : Option Nat} {t : Bytes} {r : SdkCoins} : (Sdk.coins bits).parse t = .ret (.ok r) ↔
    (Sdk.trimSpace t = [] ∧ r = []) ∨
    (Sdk.trimSpace t ≠ [] ∧ ∃ l : List (Bytes × Nat),
      List.Forall₂ (fun s c => WritesCoin (Sdk.trimSpace s) c.1 c.2 ∧ ∀ b, bits = some b → c.2 < 2 ^ b)
        (Bytes.splitOn 44 (Sdk.trimSpace t)) l ∧
      ((l.filter fun c => c.2 ≠ 0).map Prod.fst).Nodup ∧ (∀ c ∈ l, c.2 / 10 ^ 18 < 2 ^ 255) ∧
      r.Pairwise (fun a b => Bytes.lt a.1 b.1 = true) ∧
      r.Perm ((l.filter fun c => c.2 ≠ 0).map fun c => (c.1, ((c.2 / 10 ^ 18 : Nat) : Int)))) := by
  have hcoin : (fun s c => WritesCoin (Sdk.trimSpace s) c.1 c.2 ∧ ∀ b, bits = some b → c.2 < 2 ^ b) =
      fun s (c : Bytes × Nat) => Sdk.parseDecCoin bits s = some c := by
    funext s c
    exact propext (C97_coin (d := c.1) (n := c.2)).symm
  rw [hcoin]
  have hpos : ∀ l : List (Bytes × Nat), ∀ c ∈ l.filter (fun c => c.2 ≠ 0), 0 < c.2 := by
    intro l c hc
    have := (List.mem_filter.1 hc).2
    simp only [ne_eq, decide_eq_true_eq] at this
    omega
  show Sdk.parseCoins bits t = _ ↔ _
  rw [Sdk.parseCoins, Sdk.parseDecCoins]
  simp only
  generalize Sdk.trimSpace t = u
  by_cases hu : u = []
  · rw [if_pos hu]
    simp only [hu, Sdk.normalize, true_and, ne_eq, not_true_eq_false, false_and, or_false, Out.ret.injEq,
      Except.ok.injEq]
    exact eq_comm
  · rw [if_neg hu]
    simp only [hu, false_and, ne_eq, not_false_eq_true, true_and, false_or]
    have hbig : ∀ l : List (Bytes × Nat), (∀ c ∈ Sdk.sort (l.filter fun c => decide (c.2 ≠ 0)), c.2 / 10 ^ 18 < 2 ^ 255) ↔
        ∀ c ∈ l, c.2 / 10 ^ 18 < 2 ^ 255 := by
      intro l
      constructor
      · intro h c hc
        by_cases h0 : c.2 = 0
        · rw [h0]; decide
        · exact h c ((Sdk.sort_perm _).mem_iff.2 (List.mem_filter.2 ⟨hc, by simpa using h0⟩))
      · intro h c hc
        exact h c (List.mem_filter.1 ((Sdk.sort_perm _).mem_iff.1 hc)).1
    cases hp : Sdk.parseEach bits (Bytes.splitOn 44 u) with
    | none =>
      simp only [reduceCtorEq, Out.ret.injEq, false_iff]
      rintro ⟨l, hl, _⟩
      rw [parseEach_iff.2 hl] at hp
      cases hp
    | some l =>
      have hl := parseEach_iff.1 hp
      have huniq : ∀ l', List.Forall₂ (fun s (c : Bytes × Nat) => Sdk.parseDecCoin bits s = some c) (Bytes.splitOn 44 u) l' →
          l' = l := by
        intro l' h'
        have := (parseEach_iff.2 h').symm.trans hp
        cases this; rfl
      simp only
      by_cases hv : Sdk.validDecCoins (Sdk.sort (l.filter fun c => decide (c.2 ≠ 0))) = true
      · rw [if_pos hv]
        simp only
        have hn := (Sdk.valid_sort_iff _).1 hv
        have hst := ((Sdk.valid_iff _).1 hv).1
        have htr : ∀ l' : List (Bytes × Nat), Sdk.Strict l' →
            (Sdk.truncated l').Pairwise (fun a b => Bytes.lt a.1 b.1 = true) := by
          intro l' h; exact List.pairwise_map.2 (h.imp fun h => h)
        constructor
        · intro h
          split at h
          · cases h
          · rename_i r' hr
            cases h
            obtain ⟨h1, rfl⟩ := (Sdk.normalize_iff _ _).1 hr
            exact ⟨l, hl, hn.1, (hbig l).1 h1, htr _ hst, (Sdk.sort_perm _).map _⟩
        · rintro ⟨l', hl', h1, h2, h3, h4⟩
          have := huniq l' hl'
          subst this
          have hr : r = Sdk.truncated (Sdk.sort (l'.filter fun c => decide (c.2 ≠ 0))) := by
            refine List.Perm.eq_of_pairwise (le := fun a b => Bytes.lt a.1 b.1 = true) ?_ h3 (htr _ hst)
              (h4.trans ((Sdk.sort_perm _).map _).symm)
            intro a b _ _ hab hba
            rw [Bytes.lt_asymm hab] at hba
            cases hba
          have := (Sdk.normalize_iff _ r).2 ⟨(hbig l').2 h2, hr⟩
          rw [this]
      · rw [if_neg hv]
        simp only [reduceCtorEq, Out.ret.injEq, false_iff]
        rintro ⟨l', hl', h1, _⟩
        have := huniq l' hl'
        subst this
        exact hv ((Sdk.valid_sort_iff _).2 ⟨h1, hpos _⟩)

/-- A coin with a fraction and blanks. -/
example : WritesCoin b!"1.5  abc" b!"abc" 1500000000000000000 :=
  ⟨b!"1.5", b!"  ", rfl, .inr ⟨b!"1", b!"5", 1, 5, rfl, .digit 49 (by rw [Digit]; decide), .digit 53 (by rw [Digit]; decide), by decide, by decide⟩,
    (by intro b hb; simp only [List.mem_cons, List.not_mem_nil, or_false, or_self] at hb; exact .inr hb),
    (denomText_iff _).1 (by decide)⟩

end Verif.Props
