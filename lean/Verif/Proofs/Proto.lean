import Verif.Spec.Decoder
import Mathlib.Tactic.Ring
/-!
# The wire format: the parser and the grammar agree
-/

namespace Verif
open Spec

set_option linter.unusedSectionVars false

theorem base128_append (s t : Bytes) : base128 (s ++ t) = base128 s + 128 ^ s.length * base128 t := by
  induction s with
  | nil => simp [base128]
  | cons b s ih => simp only [List.cons_append, base128, ih, List.length_cons, Nat.pow_succ]; ring

theorem base128_lt (t : Bytes) : base128 t < 128 ^ t.length := by
  induction t with
  | nil => simp [base128]
  | cons b s ih =>
    simp only [base128, List.length_cons, Nat.pow_succ]
    have := Nat.mod_lt b.toNat (show 128 > 0 by decide)
    omega

/-- The shape of what the loop reads: continuation bytes, then a last byte. -/
theorem consumeVarintAux_iff : ∀ (left shift acc : Nat) (b : Bytes) (n : Nat) (rest : Bytes),
    consumeVarintAux left shift acc b = .ok n rest ↔
    ∃ (t : Bytes) (x : UInt8), b = t ++ x :: rest ∧ (∀ y ∈ t, 128 ≤ y.toNat) ∧ x.toNat < 128 ∧
      t.length < left ∧ (t.length + 1 = left → x.toNat < 2) ∧
      n = acc + base128 (t ++ [x]) * 2 ^ shift
  | 0, shift, acc, b, n, rest => by simp [consumeVarintAux]
  | left + 1, shift, acc, [], n, rest => by simp [consumeVarintAux]
  | left + 1, shift, acc, a :: bs, n, rest => by
    have ih := consumeVarintAux_iff left (shift + 7) (acc + (a.toNat - 128) * 2 ^ shift) bs n rest
    rw [consumeVarintAux]
    by_cases h0 : left = 0
    · subst h0
      simp only [if_true]
      by_cases h2 : a.toNat < 2
      · simp only [h2, if_true, Parse.ok.injEq]
        constructor
        · rintro ⟨rfl, rfl⟩
          refine ⟨[], a, rfl, by simp, by omega, by simp, fun _ => h2, ?_⟩
          simp [base128, Nat.mod_eq_of_lt (show a.toNat < 128 by omega)]
        · rintro ⟨t, x, hb, ht, hx, hl, hlast, hn⟩
          have : t = [] := List.length_eq_zero_iff.1 (by omega)
          subst this
          simp only [List.nil_append, List.cons.injEq] at hb
          obtain ⟨rfl, rfl⟩ := hb
          simp [base128, Nat.mod_eq_of_lt hx] at hn
          exact ⟨hn.symm, rfl⟩
      · simp only [h2, if_false, reduceCtorEq, false_iff]
        rintro ⟨t, x, hb, ht, hx, hl, hlast, hn⟩
        have : t = [] := List.length_eq_zero_iff.1 (by omega)
        subst this
        simp only [List.nil_append, List.cons.injEq] at hb
        exact h2 (hb.1 ▸ hlast (by simp))
    · simp only [h0, if_false]
      by_cases h1 : a.toNat < 128
      · simp only [h1, if_true, Parse.ok.injEq]
        constructor
        · rintro ⟨rfl, rfl⟩
          refine ⟨[], a, rfl, by simp, h1, by simp, fun h => absurd h (by simp; omega), ?_⟩
          simp [base128, Nat.mod_eq_of_lt h1]
        · rintro ⟨t, x, hb, ht, hx, hl, hlast, hn⟩
          cases t with
          | nil =>
            simp only [List.nil_append, List.cons.injEq] at hb
            obtain ⟨rfl, rfl⟩ := hb
            simp [base128, Nat.mod_eq_of_lt hx] at hn
            exact ⟨hn.symm, rfl⟩
          | cons y t =>
            simp only [List.cons_append, List.cons.injEq] at hb
            have := ht y (by simp)
            rw [← hb.1] at this
            omega
      · simp only [h1, if_false, ih]
        have hm : a.toNat % 128 = a.toNat - 128 := by have := a.toNat_lt; omega
        constructor
        · rintro ⟨t, x, rfl, ht, hx, hl, hlast, rfl⟩
          refine ⟨a :: t, x, rfl, ?_, hx, by simp; omega, fun h => hlast (by simpa using h), ?_⟩
          · intro y hy
            rcases List.mem_cons.1 hy with rfl | hy
            · omega
            · exact ht y hy
          · simp only [List.cons_append, base128, hm, Nat.pow_add]; ring
        · rintro ⟨t, x, hb, ht, hx, hl, hlast, hn⟩
          cases t with
          | nil =>
            simp only [List.nil_append, List.cons.injEq] at hb
            rw [← hb.1] at hx
            omega
          | cons y t =>
            simp only [List.cons_append, List.cons.injEq] at hb
            obtain ⟨rfl, rfl⟩ := hb
            refine ⟨t, x, rfl, fun z hz => ht z (List.mem_cons_of_mem _ hz), hx, by simp at hl; omega,
              fun h => hlast (by simpa using h), ?_⟩
            rw [hn]
            simp only [List.cons_append, base128, hm, Nat.pow_add]; ring

/-- The parser of numbers reads exactly the numbers of the grammar. -/
theorem consumeVarint_iff (b : Bytes) (n : Nat) (rest : Bytes) :
    consumeVarint b = .ok n rest ↔ ∃ t, b = t ++ rest ∧ IsVarint t n := by
  rw [consumeVarint, consumeVarintAux_iff]
  constructor
  · rintro ⟨t, x, rfl, ht, hx, hl, hlast, hn⟩
    refine ⟨t ++ [x], by simp, ?_, ?_, ⟨x, by simp, hx⟩, by simp; omega, ?_⟩
    · simpa using hn.symm
    · simpa using ht
    · rw [hn, base128_append]
      have h1 := base128_lt t
      simp only [base128, Nat.mul_zero, Nat.add_zero, Nat.zero_add, Nat.pow_zero, Nat.mul_one]
      rw [Nat.mod_eq_of_lt hx]
      by_cases h9 : t.length = 9
      · have := hlast (by omega)
        rw [h9] at h1 ⊢
        have : (128 : Nat) ^ 9 = 2 ^ 63 := by decide
        rw [this] at h1 ⊢
        have : x.toNat = 0 ∨ x.toNat = 1 := by omega
        rcases this with h | h <;> rw [h] <;> omega
      · have hle : (128 : Nat) ^ t.length ≤ 128 ^ 8 := Nat.pow_le_pow_right (by decide) (by omega)
        have h2 : 128 ^ t.length * x.toNat ≤ 128 ^ 8 * 127 := Nat.mul_le_mul hle (by omega)
        have : (128 : Nat) ^ 8 = 2 ^ 56 := by decide
        rw [this] at hle h2
        omega
  · rintro ⟨t, rfl, hv⟩
    obtain ⟨x, hx, hx'⟩ := hv.ended
    have ht : t = t.dropLast ++ [x] := (List.dropLast_append_getLast? x hx).symm
    refine ⟨t.dropLast, x, ?_, hv.continued, hx', ?_, ?_, ?_⟩
    · conv_lhs => rw [ht]
      simp
    · have := hv.short
      have : t.length = t.dropLast.length + 1 := by conv_lhs => rw [ht]
                                                    simp
      omega
    · intro hl
      have hf := hv.fits
      rw [← hv.value, ht, base128_append] at hf
      have : t.dropLast.length = 9 := by omega
      rw [this] at hf
      have h128 : (128 : Nat) ^ 9 = 2 ^ 63 := by decide
      simp only [base128, Nat.mul_zero, Nat.add_zero, h128, Nat.mod_eq_of_lt hx'] at hf
      omega
    · rw [← ht, hv.value]; simp

theorem Spec.IsVarint.ne_nil {b : Bytes} {n : Nat} (h : IsVarint b n) : b ≠ [] := by
  rintro rfl; obtain ⟨x, hx, _⟩ := h.ended; simp at hx

/-- Byte strings with a length. -/
theorem consumeBytes_iff (b v rest : Bytes) :
    consumeBytes b = .ok v rest ↔ ∃ l, b = l ++ (v ++ rest) ∧ IsVarint l v.length := by
  rw [consumeBytes]
  constructor
  · intro h
    cases hc : consumeVarint b with
    | truncated => rw [hc] at h; simp at h
    | overflow => rw [hc] at h; simp at h
    | ok m r =>
      rw [hc] at h
      simp only at h
      split at h
      · rename_i hm
        simp only [Parse.ok.injEq] at h
        obtain ⟨t, rfl, hv⟩ := (consumeVarint_iff _ _ _).1 hc
        refine ⟨t, ?_, ?_⟩
        · rw [← h.1, ← h.2, List.take_append_drop]
        · rw [← h.1, List.length_take, Nat.min_eq_left hm]; exact hv
      · simp at h
  · rintro ⟨l, rfl, hv⟩
    rw [(consumeVarint_iff _ _ _).2 ⟨l, rfl, hv⟩]
    simp

theorem consumeTag_iff (b : Bytes) (num typ : Nat) (rest : Bytes) :
    consumeTag b = some (num, typ, rest) ↔ typ < 8 ∧ ∃ t, b = t ++ rest ∧ IsTag t num typ := by
  rw [consumeTag]
  constructor
  · intro h
    cases hc : consumeVarint b with
    | truncated => rw [hc] at h; simp at h
    | overflow => rw [hc] at h; simp at h
    | ok v r =>
      rw [hc] at h
      simp only at h
      split at h
      · rename_i hm
        simp only [Option.some.injEq, Prod.mk.injEq] at h
        obtain ⟨rfl, rfl, rfl⟩ := h
        obtain ⟨t, rfl, hv⟩ := (consumeVarint_iff _ _ _).1 hc
        refine ⟨by omega, t, rfl, hm.1, by omega, ?_⟩
        rwa [Nat.mul_comm, Nat.div_add_mod]
      · simp at h
  · rintro ⟨ht, t, rfl, h1, h2, hv⟩
    rw [(consumeVarint_iff _ _ _).2 ⟨t, rfl, hv⟩]
    have e1 : (num * 8 + typ) / 8 = num := by omega
    have e2 : (num * 8 + typ) % 8 = typ := by omega
    simp only [e1, e2]
    rw [if_pos ⟨h1, by omega⟩]

theorem Spec.IsTag.ne_nil {b : Bytes} {num typ : Nat} (h : IsTag b num typ) : b ≠ [] := h.2.2.ne_nil

theorem consumeScalar_iff (typ : Nat) (b : Bytes) (v : FieldVal) (rest : Bytes) :
    consumeScalar typ b = some (v, rest) ↔ typ = v.wire ∧ ∃ x, b = x ++ rest ∧ IsScalar v x := by
  constructor
  · intro h
    unfold consumeScalar at h
    split at h
    · split at h
      · rename_i n r hc
        simp only [Option.some.injEq, Prod.mk.injEq] at h
        obtain ⟨rfl, rfl⟩ := h
        obtain ⟨t, rfl, hv⟩ := (consumeVarint_iff _ _ _).1 hc
        exact ⟨rfl, t, rfl, .varint hv⟩
      · simp at h
    · split at h
      · rename_i hl
        simp only [Option.some.injEq, Prod.mk.injEq] at h
        obtain ⟨rfl, rfl⟩ := h
        exact ⟨rfl, b.take 8, (List.take_append_drop _ _).symm, .fixed64 (by simp; omega)⟩
      · simp at h
    · split at h
      · rename_i w r hc
        simp only [Option.some.injEq, Prod.mk.injEq] at h
        obtain ⟨rfl, rfl⟩ := h
        obtain ⟨t, rfl, hv⟩ := (consumeBytes_iff _ _ _).1 hc
        exact ⟨rfl, t ++ w, by simp, .len hv⟩
      · simp at h
    · split at h
      · rename_i hl
        simp only [Option.some.injEq, Prod.mk.injEq] at h
        obtain ⟨rfl, rfl⟩ := h
        exact ⟨rfl, b.take 4, (List.take_append_drop _ _).symm, .fixed32 (by simp; omega)⟩
      · simp at h
    · simp at h
  · rintro ⟨rfl, x, rfl, hx⟩
    cases hx with
    | varint hv => simp only [FieldVal.wire, consumeScalar]; rw [(consumeVarint_iff _ _ _).2 ⟨_, rfl, hv⟩]
    | fixed64 hl =>
      simp only [FieldVal.wire, consumeScalar]
      rw [if_pos (by simp; omega), List.drop_append_of_le_length (by omega), List.drop_of_length_le (by omega)]
      rfl
    | len hv =>
      simp only [FieldVal.wire, consumeScalar]
      rw [(consumeBytes_iff _ _ _).2 ⟨_, by rw [List.append_assoc], hv⟩]
    | fixed32 hl =>
      simp only [FieldVal.wire, consumeScalar]
      rw [if_pos (by simp; omega), List.drop_append_of_le_length (by omega), List.drop_of_length_le (by omega)]
      rfl

theorem Spec.IsScalar.wire_ne {v : FieldVal} {x : Bytes} (h : IsScalar v x) : v.wire ≠ 3 ∧ v.wire ≠ 4 ∧ v.wire < 8 := by
  cases h <;> simp [FieldVal.wire]

theorem consumeGroups_sound : ∀ (fuel : Nat) (gs : List Nat) (b rest : Bytes),
    consumeGroups fuel gs b = some rest → ∃ x, b = x ++ rest ∧ Closes gs x
  | 0, [], b, rest, h => by
    rw [consumeGroups] at h; simp only [Option.some.injEq] at h
    exact ⟨[], by simp [h], .done⟩
  | fuel + 1, [], b, rest, h => by
    rw [consumeGroups] at h; simp only [Option.some.injEq] at h
    exact ⟨[], by simp [h], .done⟩
  | 0, g :: gs, b, rest, h => by simp [consumeGroups] at h
  | fuel + 1, g :: gs, b, rest, h => by
    rw [consumeGroups] at h
    cases hc : consumeTag b with
    | none => rw [hc] at h; simp at h
    | some p =>
      obtain ⟨num, typ, r⟩ := p
      rw [hc] at h
      simp only at h
      obtain ⟨htyp, t, rfl, ht⟩ := (consumeTag_iff _ _ _ _).1 hc
      split at h
      · subst_vars
        split at h
        · subst_vars
          obtain ⟨x, rfl, hx⟩ := consumeGroups_sound _ _ _ _ h
          exact ⟨t ++ x, by simp, .close ht hx⟩
        · simp at h
      · split at h
        · subst_vars
          obtain ⟨x, rfl, hx⟩ := consumeGroups_sound _ _ _ _ h
          exact ⟨t ++ x, by simp, .begin ht hx⟩
        · split at h
          · simp at h
          · rename_i v r' hs
            obtain ⟨rfl, y, rfl, hy⟩ := (consumeScalar_iff _ _ _ _).1 hs
            obtain ⟨x, rfl, hx⟩ := consumeGroups_sound _ _ _ _ h
            exact ⟨t ++ (y ++ x), by simp, .scalar ht hy hx⟩

theorem consumeGroups_complete {gs : List Nat} {x : Bytes} (h : Closes gs x) :
    ∀ (fuel : Nat) (rest : Bytes), x.length ≤ fuel → consumeGroups fuel gs (x ++ rest) = some rest := by
  induction h with
  | done => intro fuel rest _; cases fuel <;> rfl
  | @close g gs t b ht hb ih =>
    intro fuel rest hl
    have := List.length_pos_iff.2 ht.ne_nil
    simp only [List.length_append] at hl
    obtain ⟨fuel, rfl⟩ : ∃ f, fuel = f + 1 := ⟨fuel - 1, by omega⟩
    rw [consumeGroups, List.append_assoc, (consumeTag_iff _ _ _ _).2 ⟨by omega, t, rfl, ht⟩]
    simp only [if_true]
    exact ih _ _ (by omega)
  | @begin n g gs t b ht hb ih =>
    intro fuel rest hl
    have := List.length_pos_iff.2 ht.ne_nil
    simp only [List.length_append] at hl
    obtain ⟨fuel, rfl⟩ : ∃ f, fuel = f + 1 := ⟨fuel - 1, by omega⟩
    rw [consumeGroups, List.append_assoc, (consumeTag_iff _ _ _ _).2 ⟨by omega, t, rfl, ht⟩]
    simp only [if_true, if_neg (show ¬ (3 = 4) by decide)]
    exact ih _ _ (by omega)
  | @scalar n g gs t x b v ht hx hb ih =>
    intro fuel rest hl
    have := List.length_pos_iff.2 ht.ne_nil
    simp only [List.length_append] at hl
    obtain ⟨fuel, rfl⟩ : ∃ f, fuel = f + 1 := ⟨fuel - 1, by omega⟩
    obtain ⟨h3, h4, h8⟩ := hx.wire_ne
    rw [consumeGroups, List.append_assoc, (consumeTag_iff _ _ _ _).2 ⟨h8, t, rfl, ht⟩]
    simp only [if_neg h3, if_neg h4]
    rw [List.append_assoc, (consumeScalar_iff _ _ _ _).2 ⟨rfl, x, rfl, hx⟩]
    exact ih _ _ (by omega)

theorem consumeValue_iff (num typ : Nat) (b : Bytes) (v : FieldVal) (rest : Bytes) :
    consumeValue num typ b = some (v, rest) ↔ typ = v.wire ∧ ∃ x, b = x ++ rest ∧ IsValue num v x := by
  rw [consumeValue]
  constructor
  · intro h
    split at h
    · subst_vars
      split at h
      · rename_i r hc
        simp only [Option.some.injEq, Prod.mk.injEq] at h
        obtain ⟨rfl, rfl⟩ := h
        obtain ⟨x, rfl, hx⟩ := consumeGroups_sound _ _ _ _ hc
        exact ⟨rfl, x, rfl, .group hx⟩
      · simp at h
    · obtain ⟨h1, x, h2, h3⟩ := (consumeScalar_iff _ _ _ _).1 h
      exact ⟨h1, x, h2, .scalar h3⟩
  · rintro ⟨rfl, x, rfl, hx⟩
    cases hx with
    | scalar hs =>
      rw [if_neg hs.wire_ne.1]
      exact (consumeScalar_iff _ _ _ _).2 ⟨rfl, x, rfl, hs⟩
    | group hc =>
      simp only [FieldVal.wire, if_true]
      rw [consumeGroups_complete hc _ _ (by simp)]

theorem Spec.IsValue.wire_lt {num : Nat} {v : FieldVal} {x : Bytes} (h : IsValue num v x) : v.wire < 8 := by
  cases h with
  | scalar h => exact h.wire_ne.2.2
  | group _ => simp [FieldVal.wire]

theorem fieldsLoop_sound : ∀ (fuel : Nat) (b : Bytes) (fs : List Field),
    fieldsLoop fuel b = some fs → IsMessage b fs
  | 0, [], fs, h => by rw [fieldsLoop] at h; cases h; exact .nil
  | fuel + 1, [], fs, h => by rw [fieldsLoop] at h; cases h; exact .nil
  | 0, a :: b, fs, h => by simp [fieldsLoop] at h
  | fuel + 1, a :: b, fs, h => by
    rw [fieldsLoop] at h
    · split at h
      · simp at h
      · rename_i num typ rest hc
        split at h
        · rename_i hn
          split at h
          · simp at h
          · rename_i v rest' hv
            split at h
            · simp at h
            · rename_i gs hg
              simp only [Option.some.injEq] at h
              subst h
              obtain ⟨htyp, t, e, ht⟩ := (consumeTag_iff _ _ _ _).1 hc
              obtain ⟨rfl, x, rfl, hx⟩ := (consumeValue_iff _ _ _ _ _).1 hv
              have ih := fieldsLoop_sound _ _ _ hg
              have e2 : (x ++ rest').take ((x ++ rest').length - rest'.length) = x := by simp
              rw [e, e2]
              exact .cons (by omega) ht hx ih
        · simp at h
    · simp

theorem fieldsLoop_complete {b : Bytes} {fs : List Field} (h : IsMessage b fs) :
    ∀ fuel, b.length ≤ fuel → fieldsLoop fuel b = some fs := by
  induction h with
  | nil => intro fuel _; cases fuel <;> rfl
  | @cons num v t x b fs hn ht hx hb ih =>
    intro fuel hl
    have hp := List.length_pos_iff.2 ht.ne_nil
    simp only [List.length_append] at hl
    obtain ⟨fuel, rfl⟩ : ∃ f, fuel = f + 1 := ⟨fuel - 1, by omega⟩
    rw [fieldsLoop]
    · rw [(consumeTag_iff _ _ _ _).2 ⟨hx.wire_lt, t, rfl, ht⟩]
      simp only
      rw [if_pos (by omega), (consumeValue_iff _ _ _ _ _).2 ⟨rfl, x, rfl, hx⟩]
      simp only
      rw [ih _ (by omega)]
      simp
    · intro h; exact ht.ne_nil (List.append_eq_nil_iff.1 h).1

/-- The parser cuts a message into exactly the fields of the grammar. -/
theorem fields_iff (b : Bytes) (fs : List Field) : fields b = some fs ↔ IsMessage b fs :=
  ⟨fieldsLoop_sound _ _ _, fun h => fieldsLoop_complete h _ (Nat.le_refl _)⟩

theorem Spec.IsMessage.unique {b : Bytes} {fs gs : List Field} (h : IsMessage b fs) (h' : IsMessage b gs) :
    fs = gs := by
  have := (fields_iff _ _).2 h
  rw [(fields_iff _ _).2 h'] at this
  exact (Option.some.inj this).symm

end Verif
