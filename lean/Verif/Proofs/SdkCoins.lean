import Verif.Model.SdkCoins
import Verif.Spec.Safe
import Verif.Proofs.Bytes
/-! # Parsing and printing of coins by the cosmos-sdk: lemmas -/

namespace Verif

theorem digit_toNat (n : Nat) : (UInt8.ofNat (48 + n % 10)).toNat = 48 + n % 10 := by
  rw [UInt8.toNat_ofNat']; omega

theorem splitOn_append {a : Bytes} (h : 44 ∉ a) (r : Bytes) :
    Bytes.splitOn 44 (a ++ 44 :: r) = a :: Bytes.splitOn 44 r := by
  induction a with
  | nil => simp [Bytes.splitOn]
  | cons b a ih =>
    simp only [List.mem_cons, not_or] at h
    simp only [List.cons_append, Bytes.splitOn, if_neg (Ne.symm h.1), ih h.2]

theorem splitOn_self {a : Bytes} (h : 44 ∉ a) : Bytes.splitOn 44 a = [a] := by
  induction a with
  | nil => rfl
  | cons b a ih =>
    simp only [List.mem_cons, not_or] at h
    simp only [Bytes.splitOn, if_neg (Ne.symm h.1), ih h.2]

theorem validUtf8_ascii : ∀ {b : Bytes}, (∀ x ∈ b, x < 128) → validUtf8 b = true
  | [], _ => by rw [validUtf8]
  | a :: r, h => by
    rw [validUtf8.eq_def]
    simp only
    rw [if_pos (h a List.mem_cons_self)]
    exact validUtf8_ascii fun x hx => h x (List.mem_cons_of_mem _ hx)

end Verif

namespace Verif.Sdk
open Verif Spec

/-! ## Characters -/

theorem denomByte_of_digit {b : UInt8} (h : isDigit b = true) : isDenomByte b = true := by
  simp [isDenomByte, h]

theorem denomByte_of_letter {b : UInt8} (h : isLetter b = true) : isDenomByte b = true := by
  simp [isDenomByte, h]

theorem byte_cases {p : UInt8 → Bool} (h : (List.range 256).all (fun n => p (UInt8.ofNat n)) = true) (b : UInt8) :
    p b = true := by
  have := List.all_eq_true.1 h b.toNat (List.mem_range.2 b.toNat_lt)
  simpa using this

theorem letter_not_digit {b : UInt8} (h : isLetter b = true) : isDigit b = false := by
  have := byte_cases (p := fun b => !isLetter b || !isDigit b) (by decide +kernel) b
  simpa [h] using this

theorem letter_not_space {b : UInt8} (h : isLetter b = true) : isSpace b = false := by
  have := byte_cases (p := fun b => !isLetter b || !isSpace b) (by decide +kernel) b
  simpa [h] using this

theorem letter_not_point {b : UInt8} (h : isLetter b = true) : b ≠ 46 := by
  rintro rfl; exact absurd h (by decide)

theorem digit_not_space {b : UInt8} (h : isDigit b = true) : isSpace b = false := by
  have := byte_cases (p := fun b => !isDigit b || !isSpace b) (by decide +kernel) b
  simpa [h] using this

theorem denomByte_not_comma {b : UInt8} (h : isDenomByte b = true) : b ≠ 44 := by
  rintro rfl; exact absurd h (by decide)

theorem denomByte_ascii {b : UInt8} (h : isDenomByte b = true) : b < 0x80 := by
  have := byte_cases (p := fun b => !isDenomByte b || decide (b < 0x80)) (by decide +kernel) b
  simpa [h] using this

/-! ## Trimming -/

/-- No space begins with the byte. -/
theorem spaces_head {b : UInt8} (h : isDenomByte b = true) : spaces.all (fun p => !(p.headD 0 == b)) = true := by
  have := byte_cases (p := fun b => !isDenomByte b || spaces.all (fun p => !(p.headD 0 == b))) (by decide +kernel) b
  simpa [h] using this

/-- No space ends with the byte. -/
theorem spaces_last {b : UInt8} (h : isDenomByte b = true) :
    (spaces.map List.reverse).all (fun p => !(p.headD 0 == b)) = true := by
  have := byte_cases (p := fun b => !isDenomByte b || (spaces.map List.reverse).all (fun p => !(p.headD 0 == b)))
    (by decide +kernel) b
  rw [h] at this
  simpa using this

theorem dropOne_none {ps : List Bytes} (hne : ∀ p ∈ ps, p ≠ []) {b : UInt8} {t : Bytes}
    (h : ps.all (fun p => !(p.headD 0 == b)) = true) : dropOne ps (b :: t) = none := by
  rw [dropOne, List.findSome?_eq_none_iff]
  intro p hp
  have h1 := List.all_eq_true.1 h p hp
  cases p with
  | nil => exact absurd rfl (hne _ hp)
  | cons c p =>
    simp only [List.headD_cons, Bool.not_eq_true', beq_eq_false_iff_ne] at h1
    rw [if_neg]
    simp [h1]

theorem dropAll_none {ps : List Bytes} {t : Bytes} (h : dropOne ps t = none) (f : Nat) : dropAll ps f t = t := by
  cases f with
  | zero => rfl
  | succ f => simp only [dropAll, h]

theorem spaces_ne : ∀ p ∈ spaces, p ≠ [] := by decide
theorem spaces_reverse_ne : ∀ p ∈ spaces.map List.reverse, p ≠ [] := by decide

theorem trimSpace_nil : trimSpace [] = [] := rfl

theorem trimSpace_plain {t : Bytes} (h1 : ∀ b ∈ t.head?, isDenomByte b = true)
    (h2 : ∀ b ∈ t.getLast?, isDenomByte b = true) : trimSpace t = t := by
  cases t with
  | nil => rfl
  | cons b t =>
    have e1 : dropAll spaces (b :: t).length (b :: t) = b :: t :=
      dropAll_none (dropOne_none spaces_ne (spaces_head (h1 b (by simp)))) _
    simp only [trimSpace, e1]
    have e2 : ∀ r : Bytes, r = (b :: t).reverse → ∀ f, dropAll (spaces.map List.reverse) f r = r := by
      intro r hr f
      cases r with
      | nil => simp at hr
      | cons c r =>
        have hc : (b :: t).getLast? = some c := by
          rw [List.getLast?_eq_head?_reverse, ← hr]; rfl
        exact dropAll_none (dropOne_none spaces_reverse_ne (spaces_last (h2 c (by rw [hc]; rfl)))) _
    rw [e2 _ rfl, List.reverse_reverse]

/-! ## One coin -/

theorem validDenom_iff (d : Bytes) : validDenom d = true ↔
    (∃ b r, d = b :: r ∧ isLetter b = true) ∧ (∀ b ∈ d, isDenomByte b = true) ∧ 3 ≤ d.length ∧ d.length ≤ 128 := by
  cases d with
  | nil => simp [validDenom]
  | cons b r =>
    simp only [validDenom, Bool.and_eq_true, List.all_eq_true, decide_eq_true_eq, List.length_cons]
    constructor
    · rintro ⟨⟨h1, h2⟩, h3, h4⟩
      refine ⟨⟨b, r, rfl, h1⟩, ?_, by omega, by omega⟩
      intro c hc
      rcases List.mem_cons.1 hc with rfl | hc
      · exact denomByte_of_letter h1
      · exact h2 c hc
    · rintro ⟨⟨b', r', he, h1⟩, h2, h3, h4⟩
      cases he
      exact ⟨⟨h1, fun c hc => h2 c (List.mem_cons_of_mem _ hc)⟩, by omega, by omega⟩

theorem validDenom_ne {d : Bytes} (h : validDenom d = true) : d ≠ [] := by
  rintro rfl; exact absurd h (by decide)

theorem takeWhile_digits {ds d : Bytes} (h : ∀ b ∈ ds, isDigit b = true)
    (hd : ∀ b ∈ d.head?, isDigit b = false) :
    (ds ++ d).takeWhile isDigit = ds ∧ (ds ++ d).dropWhile isDigit = d := by
  induction ds with
  | nil =>
    cases d with
    | nil => exact ⟨rfl, rfl⟩
    | cons b d => have := hd b (by simp); simp [this]
  | cons b ds ih =>
    have h1 := h b (by simp)
    obtain ⟨h2, h3⟩ := ih fun c hc => h c (by simp [hc])
    simp only [List.cons_append, List.takeWhile_cons, List.dropWhile_cons, h1, if_true, h2, h3, and_self]

theorem matchCoin_plain {ds d : Bytes} (hn : ds ≠ []) (h : ∀ b ∈ ds, isDigit b = true) (hd : validDenom d = true) :
    matchCoin (ds ++ d) = some (ds, none, d) := by
  obtain ⟨⟨b, r, rfl, hb⟩, _, _⟩ := (validDenom_iff d).1 hd
  obtain ⟨h1, h2⟩ := takeWhile_digits (d := b :: r) h (by
    intro c hc; cases hc; exact letter_not_digit hb)
  have h3 : (b :: r).dropWhile isSpace = b :: r := by
    rw [List.dropWhile_cons, letter_not_space hb]; rfl
  simp only [matchCoin, h1, h2]
  split
  · rename_i r' he
    cases he
    exact absurd rfl (letter_not_point hb)
  · rename_i r' he
    rw [h3, if_neg hn, if_pos hd]

theorem matchCoin_denom {t w d : Bytes} {f : Option Bytes} (h : matchCoin t = some (w, f, d)) : validDenom d = true := by
  simp only [matchCoin] at h
  split at h
  · split at h
    · cases h
    · split at h
      · rename_i hv; cases h; exact hv
      · cases h
  · split at h
    · cases h
    · split at h
      · rename_i hv; cases h; exact hv
      · cases h

/-- The largest amount in units of 10⁻¹⁸ is below this. -/
def decBound (bits : Option Nat) (n : Nat) : Prop := ∀ b, bits = some b → n < 2 ^ b

theorem decOf_bound {bits : Option Nat} {ds : Bytes} {p n : Nat} (h : decOf bits ds p = some n) : decBound bits n := by
  simp only [decOf] at h
  split at h
  · cases h
  · cases bits with
    | none => intro b hb; cases hb
    | some b =>
      intro b' hb
      cases hb
      simp only at h
      split at h
      · rename_i hlt; cases h; exact hlt
      · cases h

theorem parseDecCoin_ok {bits : Option Nat} {t : Bytes} {c : Bytes × Nat} (h : parseDecCoin bits t = some c) :
    validDenom c.1 = true ∧ decBound bits c.2 := by
  simp only [parseDecCoin] at h
  split at h
  · cases h
  · rename_i w f d hm
    split at h
    · cases h
    · rename_i n hn
      cases h
      refine ⟨matchCoin_denom hm, ?_⟩
      cases f with
      | none => exact decOf_bound hn
      | some f =>
        simp only [decFromStr] at hn
        split at hn
        · cases hn
        · exact decOf_bound hn

theorem number_append (a : Bytes) (d : UInt8) : number (a ++ [d]) = 10 * number a + (d.toNat - 48) := by
  simp [number, List.foldl_append]

theorem number_zeros (ds : Bytes) (k : Nat) : number (ds ++ List.replicate k 48) = number ds * 10 ^ k := by
  induction k with
  | zero => simp
  | succ k ih =>
    rw [List.replicate_succ', ← List.append_assoc, number_append, ih, pow_succ,
      show (48 : UInt8).toNat - 48 = 0 from rfl, Nat.add_zero, Nat.mul_comm (10 ^ k) 10]
    exact Nat.mul_left_comm _ _ _

theorem digitsOf_digits : ∀ (f n : Nat), ∀ b ∈ digitsOf f n, isDigit b = true
  | 0, _, b, hb => by cases hb
  | f + 1, n, b, hb => by
    simp only [digitsOf, List.mem_append, List.mem_singleton] at hb
    rcases hb with hb | rfl
    · split at hb
      · cases hb
      · exact digitsOf_digits f _ b hb
    · have : ∀ k < 10, isDigit (UInt8.ofNat (48 + k)) = true := by decide
      exact this _ (Nat.mod_lt _ (by decide))

theorem number_digitsOf : ∀ (f n : Nat), n < 10 ^ f → number (digitsOf f n) = n
  | 0, n, h => by simp at h; subst h; rfl
  | f + 1, n, h => by
    simp only [digitsOf]
    rw [number_append, digit_toNat]
    split
    · simp only [number, List.foldl_nil]; omega
    · rw [number_digitsOf f (n / 10) (by rw [pow_succ] at h; omega)]; omega

theorem lt_ten_pow (n : Nat) : n < 10 ^ (Nat.log2 n + 1) :=
  lt_of_lt_of_le Nat.lt_log2_self (Nat.pow_le_pow_left (by decide) _)

theorem print_digits {x : Int} (h : 0 ≤ x) : print x ≠ [] ∧ (∀ b ∈ print x, isDigit b = true) ∧
    number (print x) = x.natAbs := by
  have hx : ¬ x < 0 := by omega
  simp only [print, if_neg hx]
  refine ⟨by simp [digitsOf], digitsOf_digits _ _, number_digitsOf _ _ (lt_ten_pow _)⟩

theorem decOf_zero {bits : Option Nat} {ds : Bytes} {n : Nat} (hn : number (ds ++ List.replicate 18 48) = n)
    (hb : decBound bits n) : decOf bits ds 0 = some n := by
  rw [decOf, if_neg (by decide), Nat.sub_zero, hn]
  cases bits with
  | none => rfl
  | some b => simp only [if_pos (hb b rfl)]

/-- Digits and a denomination. -/
theorem parseDecCoin_plain {bits : Option Nat} {ds d : Bytes} (hn : ds ≠ []) (h : ∀ b ∈ ds, isDigit b = true)
    (hd : validDenom d = true) (hb : decBound bits (number ds * 10 ^ 18)) :
    parseDecCoin bits (ds ++ d) = some (d, number ds * 10 ^ 18) := by
  have ht : trimSpace (ds ++ d) = ds ++ d := by
    apply trimSpace_plain
    · intro b hb
      cases ds with
      | nil => exact absurd rfl hn
      | cons c ds => cases hb; exact denomByte_of_digit (h _ (by simp))
    · intro b hb
      rw [List.getLast?_append_of_ne_nil _ (validDenom_ne hd)] at hb
      exact ((validDenom_iff d).1 hd).2.1 b (List.mem_of_getLast? hb)
  simp only [parseDecCoin, ht, matchCoin_plain hn h hd, decFromStr, decOf_zero (number_zeros ds 18) hb]

theorem plain_no_comma {ds d : Bytes} (h : ∀ b ∈ ds, isDigit b = true) (hd : validDenom d = true) :
    (44 : UInt8) ∉ ds ++ d := by
  intro hm
  rcases List.mem_append.1 hm with hm | hm
  · exact denomByte_not_comma (denomByte_of_digit (h _ hm)) rfl
  · exact denomByte_not_comma (((validDenom_iff d).1 hd).2.1 _ hm) rfl

/-! ## Sorting -/

theorem insert_perm (c : Bytes × Nat) : ∀ l, (insert c l).Perm (c :: l)
  | [] => .refl _
  | d :: l => by
    simp only [insert]
    split
    · exact ((insert_perm c l).cons d).trans (.swap c d l)
    · exact .refl _

theorem sort_perm : ∀ l, (sort l).Perm l
  | [] => .refl _
  | c :: l => (insert_perm c (sort l)).trans ((sort_perm l).cons c)

/-- Not in the wrong order. -/
def Ordered (l : List (Bytes × Nat)) : Prop := l.Pairwise fun a b => Bytes.lt b.1 a.1 = false

theorem insert_ordered (c : Bytes × Nat) : ∀ {l}, Ordered l → Ordered (insert c l)
  | [], _ => List.pairwise_singleton _ _
  | d :: l, h => by
    rw [Ordered, List.pairwise_cons] at h
    simp only [insert]
    split
    · rename_i hlt
      refine List.pairwise_cons.2 ⟨?_, insert_ordered c h.2⟩
      intro x hx
      rcases List.mem_cons.1 ((insert_perm c l).mem_iff.1 hx) with rfl | hx
      · exact Bytes.lt_asymm hlt
      · exact h.1 x hx
    · rename_i hlt
      refine List.pairwise_cons.2 ⟨?_, List.pairwise_cons.2 h⟩
      intro x hx
      have hdc : Bytes.lt d.1 c.1 = false := by simpa using hlt
      rcases List.mem_cons.1 hx with rfl | hx
      · exact hdc
      · have h1 := h.1 x hx
        cases hxc : Bytes.lt x.1 c.1 with
        | false => rfl
        | true =>
          cases hdx : Bytes.lt d.1 x.1 with
          | true => rw [Bytes.lt_trans hdx hxc] at hdc; cases hdc
          | false => rw [Bytes.lt_total hdx h1, hxc] at hdc; cases hdc

theorem sort_ordered : ∀ l, Ordered (sort l)
  | [] => .nil
  | c :: l => insert_ordered c (sort_ordered l)

/-- Strictly sorted by denomination. -/
def Strict (l : List (Bytes × Nat)) : Prop := l.Pairwise fun a b => Bytes.lt a.1 b.1 = true

theorem sort_strict {l : List (Bytes × Nat)} (h : (l.map Prod.fst).Nodup) : Strict (sort l) := by
  have hn : ((sort l).map Prod.fst).Nodup := ((sort_perm l).map _).nodup_iff.2 h
  have := sort_ordered l
  refine (this.and (List.pairwise_map.1 hn)).imp ?_
  rintro a b ⟨h1, h2⟩
  cases hl : Bytes.lt a.1 b.1 with
  | true => rfl
  | false => exact absurd (Bytes.lt_total hl h1) h2

theorem sort_id : ∀ {l}, Strict l → sort l = l
  | [], _ => rfl
  | c :: l, h => by
    rw [Strict, List.pairwise_cons] at h
    rw [sort, sort_id h.2]
    cases l with
    | nil => rfl
    | cons d l =>
      simp only [insert, Bytes.lt_asymm (h.1 d (by simp)), if_false, Bool.false_eq_true]

theorem valid_iff : ∀ (l : List (Bytes × Nat)), validDecCoins l = true ↔ Strict l ∧ ∀ c ∈ l, 0 < c.2
  | [] => by simp [validDecCoins, Strict]
  | [c] => by simp [validDecCoins, Strict]
  | c :: d :: l => by
    simp only [validDecCoins, Bool.and_eq_true, decide_eq_true_eq, valid_iff (d :: l)]
    constructor
    · rintro ⟨⟨h1, h2⟩, h3, h4⟩
      refine ⟨List.pairwise_cons.2 ⟨?_, h3⟩, ?_⟩
      · intro x hx
        rcases List.mem_cons.1 hx with rfl | hx
        · exact h2
        · exact Bytes.lt_trans h2 ((List.pairwise_cons.1 h3).1 x hx)
      · intro x hx
        rcases List.mem_cons.1 hx with rfl | hx
        · exact h1
        · exact h4 x hx
    · rintro ⟨h1, h2⟩
      have := List.pairwise_cons.1 h1
      exact ⟨⟨h2 c (by simp), this.1 d (by simp)⟩, this.2, fun x hx => h2 x (by simp [hx])⟩

theorem valid_sort_iff (l : List (Bytes × Nat)) :
    validDecCoins (sort l) = true ↔ (l.map Prod.fst).Nodup ∧ ∀ c ∈ l, 0 < c.2 := by
  rw [valid_iff]
  have hm : (∀ c ∈ sort l, 0 < c.2) ↔ ∀ c ∈ l, 0 < c.2 :=
    ⟨fun h c hc => h c ((sort_perm l).mem_iff.2 hc), fun h c hc => h c ((sort_perm l).mem_iff.1 hc)⟩
  rw [hm]
  constructor
  · rintro ⟨h1, h2⟩
    refine ⟨((sort_perm l).map _).nodup_iff.1 (List.pairwise_map.2 (h1.imp ?_)), h2⟩
    intro a b hab e
    rw [e, Bytes.lt_irrefl] at hab
    cases hab
  · exact fun h => ⟨sort_strict h.1, h.2⟩

/-! ## Lists of coins -/

theorem parseEach_mem {bits : Option Nat} : ∀ {ts : List Bytes} {l : List (Bytes × Nat)}, parseEach bits ts = some l →
    ∀ c ∈ l, ∃ t ∈ ts, parseDecCoin bits t = some c
  | [], l, h, c, hc => by cases h; cases hc
  | t :: ts, l, h, c, hc => by
    simp only [parseEach] at h
    split at h
    · cases h
    · rename_i c' hc'
      split at h
      · cases h
      · rename_i l' hl
        cases h
        rcases List.mem_cons.1 hc with rfl | hc
        · exact ⟨t, by simp, hc'⟩
        · obtain ⟨t', ht, h⟩ := parseEach_mem hl c hc
          exact ⟨t', by simp [ht], h⟩

theorem parseDecCoins_ok {bits : Option Nat} {t : Bytes} {l : List (Bytes × Nat)} (h : parseDecCoins bits t = some l) :
    Strict l ∧ ∀ c ∈ l, 0 < c.2 ∧ validDenom c.1 = true ∧ decBound bits c.2 := by
  simp only [parseDecCoins] at h
  split at h
  · cases h; exact ⟨.nil, by simp⟩
  · split at h
    · cases h
    · rename_i l' hl
      split at h
      · rename_i hv
        cases h
        obtain ⟨h1, h2⟩ := (valid_iff _).1 hv
        refine ⟨h1, fun c hc => ⟨h2 c hc, ?_⟩⟩
        have := List.mem_filter.1 ((sort_perm _).mem_iff.1 hc)
        obtain ⟨t', _, ht⟩ := parseEach_mem hl c this.1
        exact parseDecCoin_ok ht
      · cases h

/-- The truncated amounts. -/
def truncated (l : List (Bytes × Nat)) : SdkCoins := l.map fun c => (c.1, ((c.2 / 10 ^ 18 : Nat) : Int))

theorem normalize_iff : ∀ (l : List (Bytes × Nat)) (r : SdkCoins),
    normalize l = .ret r ↔ (∀ c ∈ l, c.2 / 10 ^ 18 < 2 ^ 255) ∧ r = truncated l
  | [], r => by simp [normalize, truncated, eq_comm]
  | c :: l, r => by
    rw [normalize]
    by_cases hc : c.2 / 10 ^ 18 < 2 ^ 255
    · rw [if_pos hc]
      cases hl : normalize l with
      | panic =>
        have hp : ¬ ∀ c ∈ l, c.2 / 10 ^ 18 < 2 ^ 255 := by
          intro h
          have := (normalize_iff l _).2 ⟨h, rfl⟩
          rw [hl] at this
          cases this
        constructor
        · intro h; cases h
        · intro h; exact absurd (fun c hc => h.1 c (List.mem_cons_of_mem _ hc)) hp
      | ret r' =>
        obtain ⟨h1, rfl⟩ := (normalize_iff l r').1 hl
        constructor
        · intro h
          cases h
          refine ⟨fun x hx => ?_, rfl⟩
          rcases List.mem_cons.1 hx with rfl | hx
          · exact hc
          · exact h1 x hx
        · rintro ⟨_, rfl⟩; rfl
    · rw [if_neg hc]
      constructor
      · intro h; cases h
      · intro h; exact absurd (h.1 c (by simp)) hc

theorem normalize_panic_iff (l : List (Bytes × Nat)) :
    normalize l = .panic ↔ ∃ c ∈ l, 2 ^ 255 ≤ c.2 / 10 ^ 18 := by
  cases h : normalize l with
  | panic =>
    refine ⟨fun _ => ?_, fun _ => rfl⟩
    by_cases hx : ∃ c ∈ l, 2 ^ 255 ≤ c.2 / 10 ^ 18
    · exact hx
    · have := (normalize_iff l _).2 ⟨fun c hc => by
        by_contra hcc
        exact hx ⟨c, hc, by omega⟩, rfl⟩
      rw [h] at this
      cases this
  | ret r =>
    constructor
    · intro h; cases h
    · rintro ⟨c, hc, hge⟩
      have := ((normalize_iff l r).1 h).1 c hc
      omega

/-- The largest amount that can be written. -/
def limit : Option Nat → Int
  | none => 2 ^ 255 - 1
  | some b => min (((2 ^ b - 1) / 10 ^ 18 : Nat) : Int) (2 ^ 255 - 1)

theorem limit_iff (bits : Option Nat) (n : Nat) :
    (n : Int) ≤ limit bits ↔ decBound bits (n * 10 ^ 18) ∧ n < 2 ^ 255 := by
  have hz : ((n : Int) ≤ 2 ^ 255 - 1) ↔ n < 2 ^ 255 := by
    have : ((2 ^ 255 : Nat) : Int) = 2 ^ 255 := Int.natCast_pow 2 255
    omega
  cases bits with
  | none =>
    simp only [limit, hz]
    exact ⟨fun h => ⟨fun b hb => (nomatch hb), h⟩, fun h => h.2⟩
  | some b =>
    simp only [limit, le_min_iff, hz, Int.ofNat_le]
    rw [Nat.le_div_iff_mul_le (by decide)]
    have hp : 0 < 2 ^ b := Nat.two_pow_pos b
    constructor
    · rintro ⟨h1, h2⟩
      refine ⟨fun b' hb => ?_, h2⟩
      cases hb
      omega
    · rintro ⟨h1, h2⟩
      have := h1 b rfl
      exact ⟨by omega, h2⟩

theorem decBound_truncate {bits : Option Nat} {n : Nat} (h : decBound bits n) : decBound bits (n / 10 ^ 18 * 10 ^ 18) :=
  fun b hb => lt_of_le_of_lt (Nat.div_mul_le_self _ _) (h b hb)

theorem parse_ok {bits : Option Nat} {t : Bytes} {r : SdkCoins} (h : (coins bits).parse t = .ret (.ok r)) :
    SortedCoins r ∧ ∀ c ∈ r, validDenom c.1 = true ∧ 0 ≤ c.2 ∧ c.2 ≤ limit bits := by
  change parseCoins bits t = _ at h
  simp only [parseCoins] at h
  split at h
  · cases h
  · rename_i l hl
    obtain ⟨h1, h2⟩ := parseDecCoins_ok hl
    split at h
    · cases h
    · rename_i r' hr
      cases h
      obtain ⟨h3, rfl⟩ := (normalize_iff _ _).1 hr
      refine ⟨?_, ?_⟩
      · rw [SortedCoins, truncated, List.pairwise_map]
        exact h1
      · intro c hc
        obtain ⟨c', hc', rfl⟩ := List.mem_map.1 hc
        obtain ⟨_, hv, hb⟩ := h2 c' hc'
        exact ⟨hv, Int.natCast_nonneg _, (limit_iff bits _).2 ⟨decBound_truncate hb, h3 c' hc'⟩⟩

/-! ## Coins as they are written -/

/-- A coin with decimal digits for an amount and a valid denomination, as spec. -/
structure Plain (c : Coin) : Prop where
  ne : c.amount ≠ []
  digits : ∀ b ∈ c.amount, isDigit b = true
  denom : validDenom c.denom = true

/-- Denomination and amount in units of 10⁻¹⁸. -/
def decCoin (c : Coin) : Bytes × Nat := (c.denom, number c.amount * 10 ^ 18)

theorem text_cons (c c' : Coin) (cs : List Coin) :
    CoinLib.text (c :: c' :: cs) = c.amount ++ c.denom ++ 44 :: CoinLib.text (c' :: cs) := rfl

theorem text_parses {bits : Option Nat} : ∀ {cs : List Coin}, cs ≠ [] → (∀ c ∈ cs, Plain c) →
    (∀ c ∈ cs, decBound bits (number c.amount * 10 ^ 18)) →
    parseEach bits (Bytes.splitOn 44 (CoinLib.text cs)) = some (cs.map decCoin)
  | [], h, _, _ => absurd rfl h
  | [c], _, hp, hb => by
    have h := hp c (by simp)
    rw [CoinLib.text, splitOn_self (plain_no_comma h.digits h.denom)]
    simp only [parseEach, parseDecCoin_plain h.ne h.digits h.denom (hb c (by simp))]
    rfl
  | c :: c' :: cs, _, hp, hb => by
    have h := hp c (by simp)
    have ih := text_parses (cs := c' :: cs) (by simp) (fun x hx => hp x (by simp [hx])) fun x hx => hb x (by simp [hx])
    rw [text_cons, splitOn_append (plain_no_comma h.digits h.denom)]
    simp only [parseEach, parseDecCoin_plain h.ne h.digits h.denom (hb c (by simp)), ih]
    rfl
  
theorem text_head : ∀ {cs : List Coin}, cs ≠ [] → (∀ c ∈ cs, Plain c) →
    ∃ b r, CoinLib.text cs = b :: r ∧ isDigit b = true
  | [], h, _ => absurd rfl h
  | [c], _, hp => by
    have h := hp c (by simp)
    obtain ⟨b, r, hc⟩ := List.exists_cons_of_ne_nil h.ne
    refine ⟨b, r ++ c.denom, by simp [CoinLib.text, hc], h.digits b (by simp [hc])⟩
  | c :: c' :: cs, _, hp => by
    have h := hp c (by simp)
    obtain ⟨b, r, hc⟩ := List.exists_cons_of_ne_nil h.ne
    refine ⟨b, _, by rw [text_cons, hc]; rfl, h.digits b (by simp [hc])⟩

theorem text_last : ∀ {cs : List Coin}, (∀ c ∈ cs, Plain c) → ∀ b ∈ (CoinLib.text cs).getLast?, isDenomByte b = true
  | [], _, b, hb => by cases hb
  | [c], hp, b, hb => by
    have h := hp c (by simp)
    rw [CoinLib.text, List.getLast?_append_of_ne_nil _ (validDenom_ne h.denom)] at hb
    exact ((validDenom_iff _).1 h.denom).2.1 b (List.mem_of_getLast? hb)
  | c :: c' :: cs, hp, b, hb => by
    obtain ⟨x, r, hx, _⟩ := text_head (cs := c' :: cs) (by simp) fun x hx => hp x (by simp [hx])
    have ih := text_last (cs := c' :: cs) (fun x hx => hp x (by simp [hx])) b
    rw [text_cons, hx, show c.amount ++ c.denom ++ 44 :: x :: r = (c.amount ++ c.denom ++ [44]) ++ x :: r by simp,
      List.getLast?_append_of_ne_nil _ (by simp), ← hx] at hb
    exact ih hb

theorem text_trimmed {cs : List Coin} (hp : ∀ c ∈ cs, Plain c) : trimSpace (CoinLib.text cs) = CoinLib.text cs := by
  by_cases hc : cs = []
  · subst hc; rfl
  · obtain ⟨b, r, h, hb⟩ := text_head hc hp
    refine trimSpace_plain ?_ (text_last hp)
    rw [h]
    intro c hc
    cases hc
    exact denomByte_of_digit hb

/-- The coins whose amount is not zero. -/
def nonzero (cs : List Coin) : List Coin := cs.filter fun c => number c.amount ≠ 0

theorem filter_scaled {k : Nat} (hk : k ≠ 0) (cs : List Coin) :
    ((cs.map fun c => (c.denom, number c.amount * k)).filter fun c => decide (c.2 ≠ 0)) =
      (nonzero cs).map fun c => (c.denom, number c.amount * k) := by
  rw [nonzero, List.filter_map]
  congr 1
  apply List.filter_congr
  intro c _
  simp only [Function.comp, ne_eq, Nat.mul_eq_zero, hk, or_false]

theorem filter_decCoin (cs : List Coin) :
    ((cs.map decCoin).filter fun c => decide (c.2 ≠ 0)) = (nonzero cs).map decCoin :=
  filter_scaled (by decide) cs

/-- What is parsed of coins that are written plainly. -/
theorem parse_plain {bits : Option Nat} {cs : List Coin} (hp : ∀ c ∈ cs, Plain c)
    (hb : ∀ c ∈ cs, decBound bits (number c.amount * 10 ^ 18)) :
    parseDecCoins bits (CoinLib.text cs) =
      if ((nonzero cs).map Coin.denom).Nodup then some (sort ((nonzero cs).map decCoin)) else none := by
  by_cases hc : cs = []
  · subst hc; rfl
  · obtain ⟨b, r, h, _⟩ := text_head hc hp
    have hne : CoinLib.text cs ≠ [] := by rw [h]; simp
    have hv := valid_sort_iff ((nonzero cs).map decCoin)
    have hm : ((nonzero cs).map decCoin).map Prod.fst = (nonzero cs).map Coin.denom := by
      rw [List.map_map]; rfl
    rw [hm] at hv
    have hpos : ∀ c ∈ (nonzero cs).map decCoin, 0 < c.2 := by
      intro c hc
      obtain ⟨c', hc', rfl⟩ := List.mem_map.1 hc
      have := (List.mem_filter.1 hc').2
      simp only [ne_eq, decide_not, Bool.not_eq_true', decide_eq_false_iff_not] at this
      exact Nat.mul_pos (Nat.pos_of_ne_zero this) (by decide)
    simp only [parseDecCoins, text_trimmed hp, if_neg hne, text_parses hc hp hb, filter_decCoin]
    by_cases hn : ((nonzero cs).map Coin.denom).Nodup
    · rw [if_pos hn, if_pos (hv.2 ⟨hn, hpos⟩)]
    · rw [if_neg hn, if_neg fun h => hn (hv.1 h).1]

/-- What is printed of coins can be parsed. -/
theorem print_parses {bits : Option Nat} {l : SdkCoins} (hs : SortedCoins l)
    (hc : ∀ c ∈ l, validDenom c.1 = true ∧ 0 < c.2 ∧ c.2 ≤ limit bits) :
    (coins bits).parse (CoinLib.text ((coins bits).toCoins l)) = .ret (.ok l) := by
  have hnat : ∀ c ∈ l, ((c.2.natAbs : Nat) : Int) = c.2 := fun c h => by
    have := (hc c h).2.1; omega
  have hpr : ∀ c ∈ l, number (print c.2) = c.2.natAbs := fun c h => (print_digits (hc c h).2.1.le).2.2
  have hplain : ∀ c ∈ (coins bits).toCoins l, Plain c := by
    intro c h
    obtain ⟨x, hx, rfl⟩ := List.mem_map.1 h
    obtain ⟨h1, h2, _⟩ := print_digits (hc x hx).2.1.le
    exact ⟨h1, h2, (hc x hx).1⟩
  have hbound : ∀ c ∈ (coins bits).toCoins l, decBound bits (number c.amount * 10 ^ 18) := by
    intro c h
    obtain ⟨x, hx, rfl⟩ := List.mem_map.1 h
    show decBound bits (number (print x.2) * 10 ^ 18)
    rw [hpr x hx]
    exact ((limit_iff bits _).1 (by rw [hnat x hx]; exact (hc x hx).2.2)).1
  have hnz : nonzero ((coins bits).toCoins l) = (coins bits).toCoins l := by
    apply List.filter_eq_self.2
    intro c h
    obtain ⟨x, hx, rfl⟩ := List.mem_map.1 h
    have := (hc x hx).2.1
    show decide (number (print x.2) ≠ 0) = true
    rw [hpr x hx]
    exact decide_eq_true (by omega)
  have hdec : ((coins bits).toCoins l).map decCoin = l.map fun c => (c.1, c.2.natAbs * 10 ^ 18) := by
    rw [CoinLib.toCoins, List.map_map]
    apply List.map_congr_left
    intro c h
    show (c.1, number (print c.2) * 10 ^ 18) = _
    rw [hpr c h]
  have hst : Strict (l.map fun c => (c.1, c.2.natAbs * 10 ^ 18)) := by
    rw [Strict, List.pairwise_map]; exact hs
  have hnd : (((coins bits).toCoins l).map Coin.denom).Nodup := by
    rw [CoinLib.toCoins, List.map_map]
    refine List.pairwise_map.2 (hs.imp ?_)
    intro a b hab e
    have e' : a.1 = b.1 := e
    rw [e', Bytes.lt_irrefl] at hab
    cases hab
  show parseCoins bits _ = _
  rw [parseCoins, parse_plain hplain hbound, hnz, if_pos hnd, hdec, sort_id hst]
  have hdiv : ∀ n : Nat, n * 10 ^ 18 / 10 ^ 18 = n := fun n => Nat.mul_div_cancel _ (by decide)
  have : normalize (l.map fun c => (c.1, c.2.natAbs * 10 ^ 18)) = .ret l := by
    rw [normalize_iff]
    constructor
    · intro c h
      obtain ⟨x, hx, rfl⟩ := List.mem_map.1 h
      simp only [hdiv]
      exact ((limit_iff bits _).1 (by rw [hnat x hx]; exact (hc x hx).2.2)).2
    · rw [truncated, List.map_map]
      symm
      conv_rhs => rw [← List.map_id l]
      apply List.map_congr_left
      intro c h
      simp only [Function.comp, hdiv, hnat c h, id]
  simp only [this]

/-- The number of bits allows the coins of the genesis account. -/
def Enough (bits : Option Nat) : Prop := ∀ b, bits = some b → 93 ≤ b

theorem genesis_plain : ∀ c ∈ genesisCoins, Plain c := by
  intro c hc
  rw [genesisCoins, List.mem_singleton] at hc
  subst hc
  exact ⟨by decide, by decide, by decide⟩

theorem coinsUpTo {bits : Option Nat} (he : Enough bits) : CoinsUpTo (coins bits) (limit bits) where
  nonneg := by
    have := (limit_iff bits 0).2 ⟨fun b _ => by rw [Nat.zero_mul]; exact Nat.two_pow_pos b, Nat.two_pow_pos _⟩
    exact this
  parsed t l h := ⟨(parse_ok h).1, fun c hc => ((parse_ok h).2 c hc).2⟩
  printed := ⟨fun d => validDenom d = true, fun t l h c hc => ((parse_ok h).2 c hc).1, fun l hs hc => print_parses hs hc⟩
  fits x h1 h2 := by
    refine decide_eq_true ?_
    exact ((limit_iff bits x.natAbs).1 (by omega)).2
  genesis := by
    have hn : number b!"5000000000" = 5000000000 := by decide
    have hb : ∀ c ∈ genesisCoins, decBound bits (number c.amount * 10 ^ 18) := by
      intro c hc
      rw [genesisCoins, List.mem_singleton] at hc
      subst hc
      intro b hb
      show number b!"5000000000" * 10 ^ 18 < 2 ^ b
      rw [hn]
      exact lt_of_lt_of_le (b := 2 ^ 93) (by decide) (Nat.pow_le_pow_right (by decide) (he b hb))
    have h := parse_plain (bits := bits) genesis_plain hb
    have hz : nonzero genesisCoins = genesisCoins := by
      simp only [nonzero, genesisCoins]; decide
    rw [hz, if_pos (by decide)] at h
    refine ⟨truncated (sort (genesisCoins.map decCoin)), ?_⟩
    show parseCoins bits _ = _
    rw [parseCoins, h]
    have : normalize (sort (genesisCoins.map decCoin)) = .ret (truncated (sort (genesisCoins.map decCoin))) := by
      rw [normalize_iff]
      refine ⟨?_, rfl⟩
      decide +kernel
    simp only [this]

theorem coinsOk {bits : Option Nat} (he : Enough bits) : CoinsOk (coins bits) := ⟨_, coinsUpTo he⟩

theorem textCoins (bits : Option Nat) : TextCoins (coins bits) where
  printed x := by
    apply validUtf8_ascii
    intro b hb
    change b ∈ print x at hb
    simp only [print] at hb
    split at hb
    · rcases List.mem_cons.1 hb with rfl | hb
      · decide
      · exact denomByte_ascii (denomByte_of_digit (digitsOf_digits _ _ _ hb))
    · exact denomByte_ascii (denomByte_of_digit (digitsOf_digits _ _ _ hb))
  denoms t l h c hc := validUtf8_ascii fun b hb =>
    denomByte_ascii (((validDenom_iff _).1 ((parse_ok h).2 c hc).1).2.1 b hb)

end Verif.Sdk
