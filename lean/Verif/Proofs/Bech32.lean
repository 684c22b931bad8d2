import Verif.Spec.Bech32
import Mathlib.Data.List.Basic
import Mathlib.Tactic.Ring
/-!
# Addresses
-/

set_option linter.unusedSectionVars false

namespace Verif
open Spec

/-! ## Regrouping bits -/

/-- The five bits of a group. -/
def fiveBits (n : Nat) : List Bool := [n.testBit 4, n.testBit 3, n.testBit 2, n.testBit 1, n.testBit 0]

theorem fiveBits_ofBits : ∀ a b c d e : Bool, fiveBits (ofBits [a, b, c, d, e]) = [a, b, c, d, e] := by decide

theorem ofBits_lt : ∀ a b c d e : Bool, ofBits [a, b, c, d, e] < 32 := by decide

theorem fives_bits (l : List Bool) :
    ∃ k, k < 5 ∧ (fives l).flatMap fiveBits = l ++ List.replicate k false := by
  match l with
  | a :: b :: c :: d :: e :: l =>
    obtain ⟨k, hk, h⟩ := fives_bits l
    exact ⟨k, hk, by rw [fives, List.flatMap_cons, h, fiveBits_ofBits]; rfl⟩
  | [] => exact ⟨0, by omega, rfl⟩
  | [a] => exact ⟨4, by omega, by revert a; decide⟩
  | [a, b] => exact ⟨3, by omega, by revert a b; decide⟩
  | [a, b, c] => exact ⟨2, by omega, by revert a b c; decide⟩
  | [a, b, c, d] => exact ⟨1, by omega, by revert a b c d; decide⟩

theorem fives_lt (l : List Bool) : ∀ v ∈ fives l, v < 32 := by
  match l with
  | a :: b :: c :: d :: e :: l =>
    intro v hv
    rcases List.mem_cons.1 hv with rfl | hv
    · exact ofBits_lt _ _ _ _ _
    · exact fives_lt l v hv
  | [] => intro v hv; cases hv
  | [a] => revert a; decide
  | [a, b] => revert a b; decide
  | [a, b, c] => revert a b c; decide
  | [a, b, c, d] => revert a b c d; decide

theorem fives_length (l : List Bool) : (fives l).length = (l.length + 4) / 5 := by
  match l with
  | a :: b :: c :: d :: e :: l =>
    rw [fives, List.length_cons, fives_length l]
    simp only [List.length_cons]
    omega
  | [] => rfl
  | [a] => revert a; decide
  | [a, b] => revert a b; decide
  | [a, b, c] => revert a b c; decide
  | [a, b, c, d] => revert a b c d; decide

theorem byteBits_length (b : UInt8) : (byteBits b).length = 8 := by simp [byteBits]

theorem ofBits_byteBits (b : UInt8) : ofBits (byteBits b) = b.toNat := by
  have : ∀ n : Fin 256, ofBits ((List.range 8).map fun i => n.val.testBit (7 - i)) = n.val := by decide +kernel
  exact this ⟨b.toNat, b.toNat_lt⟩

theorem byteBits_inj {a b : UInt8} (h : byteBits a = byteBits b) : a = b := by
  have := congrArg ofBits h
  rw [ofBits_byteBits, ofBits_byteBits] at this
  exact UInt8.toNat_inj.1 this

theorem bits_length (d : Bytes) : (d.flatMap byteBits).length = 8 * d.length := by
  induction d with
  | nil => rfl
  | cons b d ih => rw [List.flatMap_cons, List.length_append, ih, byteBits_length, List.length_cons]; ring

theorem bits_inj {d d' : Bytes} (h : d.flatMap byteBits = d'.flatMap byteBits) : d = d' := by
  induction d generalizing d' with
  | nil =>
    cases d' with
    | nil => rfl
    | cons b d' =>
      have := congrArg List.length h
      rw [bits_length, bits_length] at this
      simp at this
  | cons a d ih =>
    cases d' with
    | nil =>
      have := congrArg List.length h
      rw [bits_length, bits_length] at this
      simp at this
    | cons b d' =>
      rw [List.flatMap_cons, List.flatMap_cons] at h
      obtain ⟨h1, h2⟩ := List.append_inj h (by rw [byteBits_length, byteBits_length])
      rw [byteBits_inj h1, ih h2]

theorem toFives_inj {d d' : Bytes} (h : toFives d = toFives d') : d = d' := by
  obtain ⟨k, hk, e⟩ := fives_bits (d.flatMap byteBits)
  obtain ⟨k', hk', e'⟩ := fives_bits (d'.flatMap byteBits)
  rw [toFives, toFives] at h
  rw [h, e'] at e
  have hl := congrArg List.length e
  simp only [List.length_append, bits_length, List.length_replicate] at hl
  have hd : d'.length = d.length := by omega
  exact bits_inj (List.append_inj e.symm (by rw [bits_length, bits_length, hd])).1

/-! ## The checksum -/

theorem polymodStep_eq (c v : Nat) : polymodStep c v =
    (c &&& 0x1ffffff) <<< 5 ^^^ v
      ^^^ (if (c >>> 25).testBit 0 then 0x3b6a57b2 else 0) ^^^ (if (c >>> 25).testBit 1 then 0x26508e6d else 0)
      ^^^ (if (c >>> 25).testBit 2 then 0x1ea119fa else 0) ^^^ (if (c >>> 25).testBit 3 then 0x3d4233dd else 0)
      ^^^ (if (c >>> 25).testBit 4 then 0x2a1462b3 else 0) := by
  have h1 : c &&& 0x1ffffff = c % 33554432 := Nat.and_two_pow_sub_one_eq_mod c 25
  have h2 : c >>> 25 = c / 33554432 := Nat.shiftRight_eq_div_pow c 25
  rw [h1, h2, Nat.shiftLeft_eq]
  simp only [polymodStep, bech32Gen, List.zipIdx_cons, List.zipIdx_nil, List.foldl_cons, List.foldl_nil, Nat.zero_add,
    Nat.reduceAdd, Nat.reducePow]
  have hx : ∀ (p : Bool) (x g : Nat), (if p = true then x ^^^ g else x) = x ^^^ (if p = true then g else 0) := by
    intro p x g; cases p <;> simp
  simp only [hx]

theorem residue_eq (l : List Nat) : ∀ c, residue c l = l.foldl polymodStep c := by
  induction l with
  | nil => intro c; rfl
  | cons v l ih => intro c; rw [residue, List.foldl_cons, polymodStep_eq, ih]

/-- The generators selected by the top bits. -/
def selected (t : Nat) : Nat :=
  (if t.testBit 0 then 0x3b6a57b2 else 0) ^^^ (if t.testBit 1 then 0x26508e6d else 0)
      ^^^ (if t.testBit 2 then 0x1ea119fa else 0) ^^^ (if t.testBit 3 then 0x3d4233dd else 0)
      ^^^ (if t.testBit 4 then 0x2a1462b3 else 0)

theorem polymodStep_selected (c v : Nat) :
    polymodStep c v = ((c &&& 0x1ffffff) <<< 5 ^^^ selected (c >>> 25)) ^^^ v := by
  rw [polymodStep_eq, selected]
  ac_rfl

theorem if_xor (p q : Bool) (g : Nat) :
    (if (p ^^ q) = true then g else 0) = (if p = true then g else 0) ^^^ (if q = true then g else 0) := by
  cases p <;> cases q <;> simp

theorem selected_xor (t u : Nat) : selected (t ^^^ u) = selected t ^^^ selected u := by
  simp only [selected, Nat.testBit_xor, if_xor]
  ac_rfl

theorem polymodStep_xor (a b v w : Nat) :
    polymodStep (a ^^^ b) (v ^^^ w) = polymodStep a v ^^^ polymodStep b w := by
  simp only [polymodStep_selected, Nat.and_xor_distrib_right, Nat.shiftLeft_xor_distrib, Nat.shiftRight_xor_distrib,
    selected_xor]
  ac_rfl

theorem foldl_polymod_xor : ∀ (l l' : List Nat) (a b : Nat), l.length = l'.length →
    List.foldl polymodStep (a ^^^ b) (List.zipWith (· ^^^ ·) l l') =
      List.foldl polymodStep a l ^^^ List.foldl polymodStep b l'
  | [], [], a, b, _ => rfl
  | x :: l, y :: l', a, b, h => by
    rw [List.zipWith_cons_cons, List.foldl_cons, List.foldl_cons, List.foldl_cons, polymodStep_xor]
    exact foldl_polymod_xor l l' _ _ (by simpa using h)

/-- A step without generators. -/
theorem polymodStep_low {c v : Nat} (hc : c < 2 ^ 25) (hv : v < 32) : polymodStep c v = c * 32 + v := by
  have h1 : c >>> 25 = 0 := by rw [Nat.shiftRight_eq_div_pow]; exact Nat.div_eq_of_lt hc
  have h2 : c &&& 0x1ffffff = c := by
    rw [show (0x1ffffff : Nat) = 2 ^ 25 - 1 from rfl, Nat.and_two_pow_sub_one_eq_mod]; exact Nat.mod_eq_of_lt hc
  rw [polymodStep_selected, h1, h2, show selected 0 = 0 from by decide, Nat.xor_zero]
  have := Nat.shiftLeft_add_eq_or_of_lt (i := 5) (b := v) hv c
  rw [Nat.shiftLeft_eq] at this ⊢
  rw [show (32 : Nat) = 2 ^ 5 from rfl, this, ← Nat.shiftLeft_eq]
  apply Nat.eq_of_testBit_eq
  intro i
  rw [Nat.testBit_xor, Nat.testBit_or, Nat.testBit_shiftLeft]
  by_cases h : 5 ≤ i
  · have : v.testBit i = false := Nat.testBit_lt_two_pow (lt_of_lt_of_le hv (Nat.pow_le_pow_right (n := 2) (by omega) h))
    simp [this]
  · simp [h]

theorem digits6 (p : Nat) (hp : p < 2 ^ 30) :
    List.foldl polymodStep 0 ((List.range 6).map fun i => p / 32 ^ (5 - i) % 32) = p := by
  have e : ((List.range 6).map fun i => p / 32 ^ (5 - i) % 32) =
      [p / 32 ^ 5 % 32, p / 32 ^ 4 % 32, p / 32 ^ 3 % 32, p / 32 ^ 2 % 32, p / 32 ^ 1 % 32, p / 32 ^ 0 % 32] := rfl
  rw [e]
  obtain ⟨x0, h0⟩ : ∃ x, x = p / 32 ^ 5 % 32 := ⟨_, rfl⟩
  obtain ⟨x1, h1⟩ : ∃ x, x = p / 32 ^ 4 % 32 := ⟨_, rfl⟩
  obtain ⟨x2, h2⟩ : ∃ x, x = p / 32 ^ 3 % 32 := ⟨_, rfl⟩
  obtain ⟨x3, h3⟩ : ∃ x, x = p / 32 ^ 2 % 32 := ⟨_, rfl⟩
  obtain ⟨x4, h4⟩ : ∃ x, x = p / 32 ^ 1 % 32 := ⟨_, rfl⟩
  obtain ⟨x5, h5⟩ : ∃ x, x = p / 32 ^ 0 % 32 := ⟨_, rfl⟩
  rw [← h0, ← h1, ← h2, ← h3, ← h4, ← h5]
  simp only [List.foldl_cons, List.foldl_nil]
  rw [polymodStep_low (c := 0) (v := x0) (by omega) (by omega)]
  rw [polymodStep_low (c := 0 * 32 + x0) (v := x1) (by omega) (by omega)]
  rw [polymodStep_low (c := (0 * 32 + x0) * 32 + x1) (v := x2) (by omega) (by omega)]
  rw [polymodStep_low (c := ((0 * 32 + x0) * 32 + x1) * 32 + x2) (v := x3) (by omega) (by omega)]
  rw [polymodStep_low (c := (((0 * 32 + x0) * 32 + x1) * 32 + x2) * 32 + x3) (v := x4) (by omega) (by omega)]
  rw [polymodStep_low (c := ((((0 * 32 + x0) * 32 + x1) * 32 + x2) * 32 + x3) * 32 + x4) (v := x5) (by omega) (by omega)]
  omega

theorem selected_lt (t : Nat) : selected t < 2 ^ 30 := by
  rw [selected]
  repeat' first
    | apply Nat.xor_lt_two_pow
    | (split <;> decide)

theorem polymodStep_lt (c : Nat) {v : Nat} (hv : v < 32) : polymodStep c v < 2 ^ 30 := by
  rw [polymodStep_selected]
  refine Nat.xor_lt_two_pow (Nat.xor_lt_two_pow ?_ (selected_lt _)) (by omega)
  rw [Nat.shiftLeft_eq, show (0x1ffffff : Nat) = 2 ^ 25 - 1 from rfl, Nat.and_two_pow_sub_one_eq_mod]
  omega

theorem foldl_polymod_lt : ∀ (l : List Nat) (c : Nat), c < 2 ^ 30 → (∀ v ∈ l, v < 32) →
    List.foldl polymodStep c l < 2 ^ 30
  | [], _, hc, _ => hc
  | v :: l, c, _, h => by
    rw [List.foldl_cons]
    exact foldl_polymod_lt l _ (polymodStep_lt c (h v List.mem_cons_self)) fun w hw => h w (List.mem_cons_of_mem _ hw)

theorem expandPrefix_lt (hrp : Bytes) : ∀ v ∈ expandPrefix hrp, v < 32 := by
  intro v hv
  simp only [expandPrefix, List.mem_append, List.mem_map, List.mem_singleton] at hv
  rcases hv with (⟨b, _, rfl⟩ | rfl) | ⟨b, _, rfl⟩
  · have := b.toNat_lt; omega
  · omega
  · omega

/-- The checksum verifies. -/
theorem checksum_verifies (hrp : Bytes) (data : List Nat) (hd : ∀ v ∈ data, v < 32) :
    polymod (expandPrefix hrp ++ data ++ bech32Checksum hrp data) = 1 := by
  set p := polymod (expandPrefix hrp ++ data ++ [0, 0, 0, 0, 0, 0]) with hp
  have hlt : p < 2 ^ 30 := by
    refine foldl_polymod_lt _ _ (by omega) fun v hv => ?_
    rw [List.mem_append, List.mem_append] at hv
    rcases hv with (hv | hv) | hv
    · exact expandPrefix_lt hrp v hv
    · exact hd v hv
    · simp at hv; omega
  have hx : p ^^^ 1 < 2 ^ 30 := Nat.xor_lt_two_pow hlt (by omega)
  have hc : bech32Checksum hrp data = (List.range 6).map fun i => (p ^^^ 1) / 32 ^ (5 - i) % 32 := rfl
  have h6 := digits6 _ hx
  rw [← hc] at h6
  have hlen : (bech32Checksum hrp data).length = 6 := by rw [hc]; simp
  generalize bech32Checksum hrp data = cs at h6 hlen ⊢
  have hz : cs = List.zipWith (· ^^^ ·) [0, 0, 0, 0, 0, 0] cs := by
    obtain ⟨a, b, c, d, e, f, rfl⟩ : ∃ a b c d e f, cs = [a, b, c, d, e, f] := by
      match cs, hlen with
      | [a, b, c, d, e, f], _ => exact ⟨a, b, c, d, e, f, rfl⟩
    simp
  have := foldl_polymod_xor [0, 0, 0, 0, 0, 0] cs (List.foldl polymodStep 1 (expandPrefix hrp ++ data)) 0
    (by rw [hlen]; rfl)
  rw [← hz, Nat.xor_zero, h6] at this
  rw [polymod, List.foldl_append, this]
  have hp' : List.foldl polymodStep (List.foldl polymodStep 1 (expandPrefix hrp ++ data)) [0, 0, 0, 0, 0, 0] = p := by
    rw [hp, polymod, ← List.foldl_append]
  rw [hp', ← Nat.xor_assoc, Nat.xor_self, Nat.zero_xor]

/-! ## Letters -/

theorem letter_value : ∀ v : Fin 32, letterValue (bech32Letters.getD v.val 0) = some v.val := by decide +kernel

theorem letterValue_getD {v : Nat} (h : v < 32) : letterValue (bech32Letters.getD v 0) = some v :=
  letter_value ⟨v, h⟩

theorem letters_values {l : List Nat} (h : ∀ v ∈ l, v < 32) :
    (l.map fun v => bech32Letters.getD v 0).map letterValue = l.map some := by
  rw [List.map_map]
  exact List.map_congr_left fun v hv => letterValue_getD (h v hv)

theorem checksum_lt (hrp : Bytes) (data : List Nat) : ∀ v ∈ bech32Checksum hrp data, v < 32 := by
  intro v hv
  obtain ⟨i, _, rfl⟩ := List.mem_map.1 hv
  exact Nat.mod_lt _ (by omega)

theorem checksum_length (hrp : Bytes) (data : List Nat) : (bech32Checksum hrp data).length = 6 := by
  simp [bech32Checksum]

theorem groups_lt (hrp data : Bytes) : ∀ v ∈ toFives data ++ bech32Checksum hrp (toFives data), v < 32 := by
  intro v hv
  rcases List.mem_append.1 hv with hv | hv
  · exact fives_lt _ v hv
  · exact checksum_lt _ _ v hv

theorem bech32_inj {hrp d d' : Bytes} (h : bech32 hrp d = bech32 hrp d') : d = d' := by
  simp only [bech32, List.append_assoc] at h
  have h := List.append_cancel_left (List.append_cancel_left h)
  have h := congrArg (List.map letterValue) h
  rw [letters_values (groups_lt _ _), letters_values (groups_lt _ _)] at h
  have h := (List.map_injective_iff.2 (Option.some_injective _)) h
  exact toFives_inj (List.append_inj' h (by rw [checksum_length, checksum_length])).1

theorem bech32_length (hrp d : Bytes) : (bech32 hrp d).length = hrp.length + 7 + (8 * d.length + 4) / 5 := by
  simp only [bech32, List.length_append, List.length_map, List.length_singleton, checksum_length, toFives, fives_length,
    bits_length]
  omega

theorem bech32_valid (hrp d : Bytes) : ValidBech32 hrp (bech32 hrp d) := by
  refine ⟨_, _, by rw [bech32, List.append_assoc]; rfl, ?_, letters_values (groups_lt hrp d), ?_⟩
  · rw [List.length_map, List.length_append, checksum_length]; omega
  · rw [residue_eq]
    have := checksum_verifies hrp (toFives d) (fives_lt _)
    rw [polymod, expandPrefix] at this
    have e1 : (hrp.map fun b => b.toNat >>> 5) = hrp.map fun b => b.toNat / 32 :=
      List.map_congr_left fun b _ => Nat.shiftRight_eq_div_pow _ 5
    have e2 : (hrp.map fun b => b.toNat &&& 31) = hrp.map fun b => b.toNat % 32 :=
      List.map_congr_left fun b _ => Nat.and_two_pow_sub_one_eq_mod _ 5
    rw [e1, e2]
    simpa using this

theorem letters_ascii : ∀ b ∈ bech32Letters, b < 128 := by decide +kernel

theorem bech32_ascii {hrp d : Bytes} (h : ∀ b ∈ hrp, b < 128) : ∀ b ∈ bech32 hrp d, b < 128 := by
  intro b hb
  simp only [bech32, List.mem_append, List.mem_singleton, List.mem_map] at hb
  rcases hb with (hb | rfl) | ⟨v, hv, rfl⟩
  · exact h b hb
  · decide
  · have hv : v < 32 := groups_lt hrp d v (List.mem_append.2 hv)
    have hl : v < bech32Letters.length := hv
    rw [List.getD_eq_getElem?_getD, List.getElem?_eq_getElem hl, Option.getD_some]
    exact letters_ascii _ (List.getElem_mem hl)

end Verif
