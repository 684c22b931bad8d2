import Verif.Spec.Text
import Verif.Proofs.Bytes
/-! Lemmas about kind encoders and text parsers. -/

namespace Verif
open Spec

theorem appendVarint_length_mono (b : Nat) : ∀ a, a ≤ b →
    (appendVarint a).length ≤ (appendVarint b).length := by
  induction b using Nat.strongRecOn with
  | _ b ih =>
    intro a h
    rw [appendVarint_eq a, appendVarint_eq b]
    by_cases ha : a < 128
    · by_cases hb : b < 128 <;> simp [ha, hb]
    · have hb : ¬ b < 128 := by omega
      simp only [ha, hb, if_false, List.length_cons]
      have := ih (b / 128) (by omega) (a / 128) (Nat.div_le_div_right h)
      omega

theorem appendBytes_drop_inj {s t : Bytes} (h : (appendBytes s).drop 1 = (appendBytes t).drop 1) :
    s = t := by
  have hp := fun n => appendVarint_length_pos n
  have hlen : s.length = t.length := by
    have hl := congrArg List.length h
    simp only [appendBytes, List.length_drop, List.length_append] at hl
    have h1 := hp s.length
    have h2 := hp t.length
    rcases Nat.lt_trichotomy s.length t.length with hlt | heq | hgt
    · have := appendVarint_length_mono t.length s.length (by omega); omega
    · exact heq
    · have := appendVarint_length_mono s.length t.length (by omega); omega
  have h1 := hp s.length
  have h2 := hp t.length
  simp only [appendBytes] at h
  rw [List.drop_append_of_le_length h1, List.drop_append_of_le_length h2, hlen] at h
  exact List.append_cancel_left h

theorem appendBytes_drop_short {s : Bytes} (h : s.length < 128) : (appendBytes s).drop 1 = s := by
  rw [appendBytes, appendVarint_eq, if_pos h]; rfl

theorem appendBytes_drop_long {s : Bytes} (h : 128 ≤ s.length) : (appendBytes s).drop 1 ≠ s := by
  intro e
  have hl := congrArg List.length e
  have : 2 ≤ (appendVarint s.length).length := by
    rw [appendVarint_eq, if_neg (by omega)]
    have := appendVarint_length_pos (s.length / 128)
    simp; omega
  simp only [appendBytes, List.length_drop, List.length_append] at hl
  omega

theorem signExtend_inj {a b : BitVec 32} (h : a.signExtend 64 = b.signExtend 64) : a = b := by
  have := congrArg BitVec.toInt h
  rw [BitVec.toInt_signExtend_of_le (by omega), BitVec.toInt_signExtend_of_le (by omega)] at this
  exact BitVec.eq_of_toInt_eq this

/-! ### digits -/

theorem digitsVal_append (acc : Nat) (s t : Bytes) :
    digitsVal acc (s ++ t) = (digitsVal acc s).bind fun a => digitsVal a t := by
  induction s generalizing acc with
  | nil => rfl
  | cons c cs ih =>
    simp only [List.cons_append, digitsVal]
    cases digit? c with
    | none => rfl
    | some d => exact ih _

theorem digit?_ofNat {d : Nat} (h : d < 10) : digit? (UInt8.ofNat (48 + d)) = some d := by
  have e : (UInt8.ofNat (48 + d)).toNat = 48 + d := toNat_ofNat_lt (by omega)
  simp only [digit?, e]
  rw [if_pos (by omega)]; congr 1; omega

theorem digitsVal_decimal (n : Nat) : digitsVal 0 (decimal n) = some n := by
  induction n using Nat.strongRecOn with
  | _ n ih =>
    rw [decimal]
    split
    · next h => simp only [digitsVal, digit?_ofNat h]; simp
    · next h =>
      rw [digitsVal_append, ih (n / 10) (by omega)]
      simp only [Option.bind_some, digitsVal, digit?_ofNat (show n % 10 < 10 by omega)]
      congr 1; omega

theorem decimal_ne_nil (n : Nat) : decimal n ≠ [] := by
  rw [decimal]; split <;> simp

theorem decimal_head (n : Nat) : ∃ d r, decimal n = d :: r ∧ 48 ≤ d.toNat ∧ d.toNat ≤ 57 := by
  induction n using Nat.strongRecOn with
  | _ n ih =>
    rw [decimal]
    split
    · next h =>
      exact ⟨_, [], rfl, by rw [toNat_ofNat_lt (by omega)]; omega, by rw [toNat_ofNat_lt (by omega)]; omega⟩
    · next h =>
      obtain ⟨d, r, e, h1, h2⟩ := ih (n / 10) (by omega)
      exact ⟨d, r ++ [UInt8.ofNat (48 + n % 10)], by rw [e]; rfl, h1, h2⟩

theorem parseUint_decimal {bits n : Nat} (h : n < 2 ^ bits) : parseUint bits (decimal n) = some n := by
  simp [parseUint, decimal_ne_nil, digitsVal_decimal, h]

theorem digitsVal_eq_some {s : Bytes} {acc n : Nat} :
    digitsVal acc s = some n ↔ (∀ c ∈ s, 48 ≤ c.toNat ∧ c.toNat ≤ 57) ∧
      s.foldl (fun a c => a * 10 + (c.toNat - 48)) acc = n := by
  induction s generalizing acc with
  | nil => simp [digitsVal]
  | cons c cs ih =>
    simp only [digitsVal, digit?, List.mem_cons, forall_eq_or_imp, List.foldl_cons]
    by_cases h : 48 ≤ c.toNat ∧ c.toNat ≤ 57
    · simp [h, ih]
    · simp [h]

theorem parseUint_eq_some {bits n : Nat} {s : Bytes} :
    parseUint bits s = some n ↔ DenotesNat s n ∧ n < 2 ^ bits := by
  unfold parseUint DenotesNat
  by_cases hs : s = []
  · simp [hs]
  · simp only [hs, if_false, ne_eq, not_false_eq_true, true_and]
    cases hd : digitsVal 0 s with
    | none =>
      simp only [reduceCtorEq, false_iff, not_and]
      intro h1; rw [← digitsVal_eq_some, hd] at h1; simp at h1
    | some m =>
      have hm := digitsVal_eq_some.1 hd
      simp only [Option.ite_none_right_eq_some, Option.some.injEq]
      constructor
      · rintro ⟨h1, rfl⟩; exact ⟨hm, h1⟩
      · rintro ⟨h1, h2⟩; have : m = n := by rw [← hm.2, h1.2]
        exact ⟨by omega, this⟩

theorem denotesNat_head {s : Bytes} {n : Nat} (h : DenotesNat s n) :
    ∃ c t, s = c :: t ∧ c ≠ 43 ∧ c ≠ 45 := by
  obtain ⟨h1, h2, _⟩ := h
  cases s with
  | nil => exact absurd rfl h1
  | cons c t =>
    have := h2 c (by simp)
    refine ⟨c, t, rfl, ?_, ?_⟩ <;> rintro rfl <;> simp at this

theorem parseInt_eq_some {bits : Nat} {s : Bytes} {i : Int} (hb : bits = 32 ∨ bits = 64) :
    parseInt bits s = some i ↔ DenotesInt s i ∧ -(2 ^ (bits - 1) : Int) ≤ i ∧ i < 2 ^ (bits - 1) := by
  have e63 : ((2 : Int) ^ (bits - 1)) = ((2 ^ (bits - 1) : Nat) : Int) := by norm_cast
  have hle : 2 ^ (bits - 1) < 2 ^ 64 := by rcases hb with rfl | rfl <;> decide
  have hpos : 0 < 2 ^ (bits - 1) := Nat.pos_of_ne_zero (by simp)
  rw [e63]
  generalize hB : 2 ^ (bits - 1) = B at *
  have pos : ∀ t : Bytes, (do let n ← parseUint 64 t; if n < B then some (n : Int) else none) = some i
      ↔ ∃ n, DenotesNat t n ∧ i = n ∧ n < B := by
    intro t
    cases hp : parseUint 64 t with
    | none =>
      simp only [Option.bind_eq_bind, Option.bind_none, reduceCtorEq, false_iff, not_exists]
      rintro n ⟨h1, _, h3⟩
      have := (parseUint_eq_some (bits := 64)).2 ⟨h1, by omega⟩
      rw [hp] at this; simp at this
    | some m =>
      have hm := parseUint_eq_some.1 hp
      simp only [Option.bind_eq_bind, Option.bind_some, Option.ite_none_right_eq_some, Option.some.injEq]
      constructor
      · rintro ⟨h1, rfl⟩; exact ⟨m, hm.1, rfl, h1⟩
      · rintro ⟨n, h1, rfl, h3⟩
        have : m = n := by rw [← hm.1.2.2, h1.2.2]
        subst this; exact ⟨h3, rfl⟩
  unfold parseInt DenotesInt
  simp only [hB]
  split
  · next t =>
    cases hp : parseUint 64 t with
    | none =>
      simp only [Option.bind_eq_bind, Option.bind_none, reduceCtorEq, false_iff]
      rintro ⟨h1, h2, h3⟩
      rcases h1 with ⟨n, h, _⟩ | ⟨t', n, h, _⟩ | ⟨t', n, h, h', rfl⟩
      · obtain ⟨c, t', e, _, hc⟩ := denotesNat_head h; injection e with e _; exact hc e.symm
      · injection h with e _; simp at e
      · injection h with _ e; subst e
        have := (parseUint_eq_some (bits := 64)).2 ⟨h', by omega⟩
        rw [hp] at this; simp at this
    | some m =>
      have hm := parseUint_eq_some.1 hp
      simp only [Option.bind_eq_bind, Option.bind_some, Option.ite_none_right_eq_some, Option.some.injEq]
      constructor
      · rintro ⟨h1, rfl⟩; exact ⟨.inr (.inr ⟨t, m, rfl, hm.1, rfl⟩), by omega, by omega⟩
      · rintro ⟨h1, h2, h3⟩
        rcases h1 with ⟨n, h, _⟩ | ⟨t', n, h, _⟩ | ⟨t', n, h, h', rfl⟩
        · obtain ⟨c, t', e, _, hc⟩ := denotesNat_head h; injection e with e _; exact absurd e.symm hc
        · injection h with e _; simp at e
        · injection h with _ e; subst e
          have : m = n := by rw [← hm.1.2.2, h'.2.2]
          subst this; exact ⟨by omega, rfl⟩
  · next t =>
    rw [pos]
    constructor
    · rintro ⟨n, h, rfl, h2⟩; exact ⟨.inr (.inl ⟨t, n, rfl, h, rfl⟩), by omega, by omega⟩
    · rintro ⟨h1, h2, h3⟩
      rcases h1 with ⟨n, h, _⟩ | ⟨t', n, h, h', rfl⟩ | ⟨t', n, h, _⟩
      · obtain ⟨c, t', e, hc, _⟩ := denotesNat_head h; injection e with e _; exact absurd e.symm hc
      · injection h with _ e; subst e; exact ⟨n, h', rfl, by omega⟩
      · injection h with e _; simp at e
  · next s h45 h43 =>
    rw [pos]
    constructor
    · rintro ⟨n, h, rfl, h2⟩; exact ⟨.inl ⟨n, h, rfl⟩, by omega, by omega⟩
    · rintro ⟨h1, h2, h3⟩
      rcases h1 with ⟨n, h, rfl⟩ | ⟨t', n, h, _⟩ | ⟨t', n, h, _⟩
      · exact ⟨n, h, rfl, by omega⟩
      · exact absurd h (h43 t')
      · exact absurd h (h45 t')

theorem denotesNat_decimal (n : Nat) : DenotesNat (decimal n) n :=
  ⟨decimal_ne_nil n, digitsVal_eq_some.1 (digitsVal_decimal n)⟩

theorem denotesInt_decimalInt (i : Int) : DenotesInt (decimalInt i) i := by
  unfold decimalInt
  split
  · exact .inr (.inr ⟨_, _, rfl, denotesNat_decimal _, by omega⟩)
  · exact .inl ⟨_, denotesNat_decimal _, by omega⟩

/-! ### base64 -/

theorem b64val_char {n : Nat} (h : n < 64) : b64val (b64char n) = some n := by
  have : ∀ m : Fin 64, b64val (b64char m.1) = some m.1 := by decide
  exact this ⟨n, h⟩

theorem b64char_ne {n : Nat} (h : n < 64) : b64char n ≠ 10 ∧ b64char n ≠ 13 := by
  have : ∀ m : Fin 64, b64char m.1 ≠ 10 ∧ b64char m.1 ≠ 13 := by decide
  exact this ⟨n, h⟩

/-- The sextets of a byte string. -/
def sextets : Bytes → List Nat
  | [] => []
  | [a] => [a.toNat / 4, a.toNat % 4 * 16]
  | [a, b] => [a.toNat / 4, a.toNat % 4 * 16 + b.toNat / 16, b.toNat % 16 * 4]
  | a :: b :: c :: r =>
    a.toNat / 4 :: (a.toNat % 4 * 16 + b.toNat / 16) :: (b.toNat % 16 * 4 + c.toNat / 64)
      :: (c.toNat % 64) :: sextets r

theorem base64_eq (s : Bytes) : base64 s = (sextets s).map b64char := by
  fun_induction base64 s <;> simp [sextets, *]

theorem sextets_lt (s : Bytes) : ∀ n ∈ sextets s, n < 64 := by
  fun_induction sextets s with
  | case1 => simp
  | case2 a => have := a.toNat_lt; simp; omega
  | case3 a b => have := a.toNat_lt; have := b.toNat_lt; simp; omega
  | case4 a b c r ih =>
    have := a.toNat_lt; have := b.toNat_lt; have := c.toNat_lt
    simp only [List.mem_cons, forall_eq_or_imp]
    refine ⟨by omega, by omega, by omega, by omega, ih⟩

theorem u8_of_toNat {a : UInt8} {n : Nat} (h : n = a.toNat) : UInt8.ofNat n = a := by
  subst h; exact UInt8.ofNat_toNat

theorem b64bytes_sextets (s : Bytes) : b64bytes (sextets s) = some s := by
  fun_induction sextets s with
  | case1 => rfl
  | case2 a =>
    have := a.toNat_lt
    simp only [b64bytes, Option.some.injEq, List.cons.injEq, and_true]
    exact u8_of_toNat (by omega)
  | case3 a b =>
    have := a.toNat_lt; have := b.toNat_lt
    simp only [b64bytes, Option.some.injEq, List.cons.injEq, and_true]
    exact ⟨u8_of_toNat (by omega), u8_of_toNat (by omega)⟩
  | case4 a b c r ih =>
    have := a.toNat_lt; have := b.toNat_lt; have := c.toNat_lt
    simp only [b64bytes, ih, Option.bind_eq_bind, Option.bind_some, Option.some.injEq, List.cons.injEq, and_true]
    exact ⟨u8_of_toNat (by omega), u8_of_toNat (by omega), u8_of_toNat (by omega)⟩

theorem mapM_map_some {α β : Type} (f : α → β) (g : β → Option α) (l : List α)
    (h : ∀ x ∈ l, g (f x) = some x) : (l.map f).mapM g = some l := by
  induction l with
  | nil => rfl
  | cons x xs ih =>
    rw [List.map_cons, List.mapM_cons, h x (by simp), ih (fun y hy => h y (by simp [hy]))]
    rfl

theorem b64decode_base64 (s : Bytes) : b64decode (base64 s) = some s := by
  rw [b64decode, base64_eq]
  have hf : ((sextets s).map b64char).filter (fun c => decide (c ≠ 10 ∧ c ≠ 13)) = (sextets s).map b64char := by
    rw [List.filter_eq_self]
    intro c hc
    obtain ⟨n, hn, rfl⟩ := List.mem_map.1 hc
    simpa using b64char_ne (sextets_lt s n hn)
  rw [hf, mapM_map_some _ _ _ (fun n hn => b64val_char (sextets_lt s n hn))]
  exact b64bytes_sextets s

end Verif
