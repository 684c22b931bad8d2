import Verif.Model.Wire
import Verif.Model.KV
/-! Lemmas about byte order, prefixes, varints and length prefixes. -/

namespace Verif

namespace Bytes

theorem lt_irrefl (a : Bytes) : Bytes.lt a a = false := by
  induction a with
  | nil => rfl
  | cons x xs ih => simp [Bytes.lt, ih]

theorem lt_trans : ∀ {a b c : Bytes}, Bytes.lt a b = true → Bytes.lt b c = true → Bytes.lt a c = true
  | _, [], _, h, _ => by simp [Bytes.lt] at h
  | _, _ :: _, [], _, h => by simp [Bytes.lt] at h
  | [], _ :: _, _ :: _, _, _ => by simp [Bytes.lt]
  | x :: xs, y :: ys, z :: zs, h1, h2 => by
    simp only [Bytes.lt] at *
    have := @lt_trans xs ys zs
    grind

theorem lt_total : ∀ {a b : Bytes}, Bytes.lt a b = false → Bytes.lt b a = false → a = b
  | [], [], _, _ => rfl
  | _ :: _, [], _, h => by simp [Bytes.lt] at h
  | [], _ :: _, h, _ => by simp [Bytes.lt] at h
  | x :: xs, y :: ys, h1, h2 => by
    simp only [Bytes.lt] at *
    have := @lt_total xs ys
    grind

theorem lt_asymm {a b : Bytes} (h : Bytes.lt a b = true) : Bytes.lt b a = false := by
  cases h2 : Bytes.lt b a with
  | false => rfl
  | true => have := lt_trans h h2; simp [lt_irrefl] at this

theorem lt_ne {a b : Bytes} (h : Bytes.lt a b = true) : a ≠ b := by
  rintro rfl; simp [lt_irrefl] at h

theorem lt_append_left (p : Bytes) (a b : Bytes) : Bytes.lt (p ++ a) (p ++ b) = Bytes.lt a b := by
  induction p with
  | nil => rfl
  | cons x xs ih => simp [Bytes.lt, ih]

theorem not_lt_append (p a : Bytes) : Bytes.lt (p ++ a) p = false := by
  induction p with
  | nil => cases a <;> rfl
  | cons x xs ih => simp [Bytes.lt, ih]

theorem stripPrefix_eq_some {p k r : Bytes} : stripPrefix p k = some r ↔ k = p ++ r := by
  induction p generalizing k with
  | nil => simp [stripPrefix]
  | cons x xs ih =>
    cases k with
    | nil => simp [stripPrefix]
    | cons y ys =>
      simp only [stripPrefix]
      split
      · next h => subst h; simp [ih]
      · next h => simp; intro h'; exact absurd h'.symm h

theorem stripPrefix_append (p r : Bytes) : stripPrefix p (p ++ r) = some r :=
  stripPrefix_eq_some.2 rfl

/-- Keys at or after a prefix that do not have it are beyond every key that has it. -/
theorem lt_of_not_prefix {p a b : Bytes} (hb : stripPrefix p b = none) (hbp : Bytes.lt b p = false) :
    Bytes.lt (p ++ a) b = true := by
  induction p generalizing b with
  | nil => simp [stripPrefix] at hb
  | cons x xs ih =>
    cases b with
    | nil => simp [Bytes.lt] at hbp
    | cons y ys =>
      simp only [stripPrefix] at hb
      simp only [List.cons_append, Bytes.lt] at *
      by_cases hxy : x = y
      · subst hxy
        simp at hb hbp ⊢
        exact ih hb hbp
      · rcases UInt8.lt_or_lt_of_ne hxy with h | h
        · simp [h]
        · simp [h] at hbp

theorem lt_of_lt_prefix {p a b : Bytes} (hb : Bytes.lt b p = true) : Bytes.lt b (p ++ a) = true := by
  induction p generalizing b with
  | nil => simp [Bytes.lt] at hb
  | cons x xs ih =>
    cases b with
    | nil => simp [Bytes.lt]
    | cons y ys =>
      simp only [List.cons_append, Bytes.lt] at *
      grind

end Bytes

/-! ## Varints -/

theorem appendVarintLoop_fuel (f : Nat) : ∀ n, n ≤ f → appendVarintLoop f n = appendVarint n := by
  induction f using Nat.strongRecOn with
  | _ f ih =>
    intro n hn
    unfold appendVarint
    cases f with
    | zero => obtain rfl : n = 0 := by omega
              rfl
    | succ f =>
      cases n with
      | zero => simp [appendVarintLoop]
      | succ n =>
        simp only [appendVarintLoop]
        split
        · rfl
        · rw [ih f (by omega) _ (by omega), ih n (by omega) _ (by omega)]

theorem appendVarint_eq (n : Nat) : appendVarint n =
    if n < 128 then [UInt8.ofNat n] else UInt8.ofNat (n % 128 + 128) :: appendVarint (n / 128) := by
  rw [appendVarint]
  cases n with
  | zero => rfl
  | succ n =>
    simp only [appendVarintLoop]
    split
    · rfl
    · rw [appendVarintLoop_fuel _ _ (by omega)]

theorem appendVarint_ne_nil (n : Nat) : appendVarint n ≠ [] := by
  rw [appendVarint_eq]; split <;> simp

theorem toNat_ofNat_lt {n : Nat} (h : n < 256) : (UInt8.ofNat n).toNat = n := by
  simp; omega

theorem appendVarint_length_pos (n : Nat) : 0 < (appendVarint n).length :=
  List.length_pos_iff.2 (appendVarint_ne_nil n)

/-- The loop reads back what `appendVarint` wrote, as long as enough bytes are allowed. -/
theorem consumeVarintAux_append (n : Nat) : ∀ (left shift acc : Nat) (rest : Bytes),
    1 ≤ left → n < 2 ^ (7 * (left - 1) + 1) →
    consumeVarintAux left shift acc (appendVarint n ++ rest) = .ok (acc + n * 2 ^ shift) rest := by
  induction n using Nat.strongRecOn with
  | _ n ih =>
    intro left shift acc rest h1 h
    obtain ⟨l, rfl⟩ : ∃ l, left = l + 1 := ⟨left - 1, by omega⟩
    rw [appendVarint_eq]
    split
    · next hn =>
      simp only [List.cons_append, List.nil_append, consumeVarintAux]
      have e : (UInt8.ofNat n).toNat = n := toNat_ofNat_lt (by omega)
      rw [e]
      by_cases hl : l = 0
      · subst hl; simp at h; simp [h]
      · simp [hl, hn]
    · next hn =>
      have hl : l ≠ 0 := by
        rintro rfl; simp at h; omega
      have e : (UInt8.ofNat (n % 128 + 128)).toNat = n % 128 + 128 := toNat_ofNat_lt (by omega)
      simp only [List.cons_append, consumeVarintAux, e, hl, if_false]
      rw [if_neg (by omega)]
      rw [ih (n / 128) (by omega) l (shift + 7) _ rest (by omega)]
      · congr 1
        have : n % 128 + 128 - 128 = n % 128 := by omega
        rw [this, Nat.pow_add, Nat.add_assoc]
        refine congrArg (acc + ·) ?_
        have h3 : n / 128 * (2 ^ shift * 2 ^ 7) = 128 * (n / 128) * 2 ^ shift := by
          rw [show (2:Nat) ^ 7 = 128 from rfl, Nat.mul_comm (2 ^ shift) 128, ← Nat.mul_assoc,
            Nat.mul_comm (n / 128) 128]
        rw [h3, ← Nat.add_mul, Nat.mod_add_div]
      · have : (2:Nat) ^ (7 * (l + 1 - 1) + 1) = 128 * 2 ^ (7 * (l - 1) + 1) := by
          rw [show 7 * (l + 1 - 1) + 1 = 7 + (7 * (l - 1) + 1) by omega, Nat.pow_add]
        rw [this] at h
        exact Nat.div_lt_of_lt_mul h

theorem consumeVarint_append {n : Nat} (h : n < 2 ^ 64) (rest : Bytes) :
    consumeVarint (appendVarint n ++ rest) = .ok n rest := by
  have h' : n < 2 ^ (7 * (10 - 1) + 1) := by simp at h ⊢; exact h
  rw [consumeVarint, consumeVarintAux_append n 10 0 0 rest (by omega) h']; simp

theorem appendVarint_inj {a b : Nat} (ha : a < 2 ^ 64) (hb : b < 2 ^ 64)
    (h : appendVarint a = appendVarint b) : a = b := by
  have h1 := consumeVarint_append ha []
  have h2 := consumeVarint_append hb []
  rw [h] at h1; rw [h1] at h2; injection h2

theorem consumeBytes_append {v : Bytes} (h : v.length < 2 ^ 64) (rest : Bytes) :
    consumeBytes (appendBytes v ++ rest) = .ok v rest := by
  rw [consumeBytes, appendBytes, List.append_assoc, consumeVarint_append h]
  simp

/-! ## Little-endian length prefixes -/

theorem readLe64_le64 {n : Nat} (h : n < 2 ^ 64) (rest : Bytes) :
    readLe64 (le64 n ++ rest) = some (n, rest) := by
  simp only [le64, List.cons_append, List.nil_append, readLe64, Option.some.injEq, Prod.mk.injEq, and_true]
  have e : ∀ m, (UInt8.ofNat (m % 256)).toNat = m % 256 := fun m => toNat_ofNat_lt (by omega)
  simp only [e]
  simp only [Nat.reducePow] at *
  omega

theorem le64_length (n : Nat) : (le64 n).length = 8 := rfl

theorem le64_inj {a b : Nat} (ha : a < 2 ^ 64) (hb : b < 2 ^ 64) (h : le64 a = le64 b) : a = b := by
  have h1 := readLe64_le64 ha []
  have h2 := readLe64_le64 hb []
  rw [h] at h1; rw [h1] at h2; simpa using h2

/-! ## KV -/

namespace KV
variable {V : Type}

theorem get_set_self (m : KV V) (k : Bytes) (v : V) : (m.set k v).get k = some v := by
  induction m with
  | nil => simp [set, get]
  | cons e m ih =>
    obtain ⟨k', v'⟩ := e
    simp only [set]
    split
    · simp [get]
    · next h =>
      split
      · simp [get]
      · simp [get, h, ih]

theorem get_set_ne (m : KV V) {k j : Bytes} (v : V) (h : j ≠ k) : (m.set k v).get j = m.get j := by
  induction m with
  | nil => simp [set, get, Ne.symm h]
  | cons e m ih =>
    obtain ⟨k', v'⟩ := e
    simp only [set]
    split
    · next h1 => subst h1; simp [get, Ne.symm h]
    · next h1 =>
      split
      · simp [get, Ne.symm h]
      · simp [get, ih]

theorem get_set (m : KV V) (k j : Bytes) (v : V) :
    (m.set k v).get j = if j = k then some v else m.get j := by
  split
  · next h => subst h; exact get_set_self ..
  · next h => exact get_set_ne _ _ h

theorem get_delete (m : KV V) (k j : Bytes) :
    (m.delete k).2.get j = if j = k then none else m.get j := by
  induction m with
  | nil => simp [delete, get]
  | cons e m ih =>
    obtain ⟨k', v'⟩ := e
    simp only [delete, ne_eq, decide_not] at ih ⊢
    simp only [List.filter_cons]
    by_cases h1 : k' = k
    · subst h1
      simp only [decide_true, Bool.not_true, Bool.false_eq_true, if_false, ih, get]
      grind
    · simp only [h1, decide_false, Bool.not_false, if_true, get, ih]
      grind

theorem has_set (m : KV V) (k j : Bytes) (v : V) :
    (m.set k v).has j = (decide (j = k) || m.has j) := by
  simp only [has, get_set]; split <;> simp [*]

theorem has_delete (m : KV V) (k j : Bytes) :
    (m.delete k).2.has j = (decide (j ≠ k) && m.has j) := by
  simp only [has, get_delete]; split <;> simp [*]

/-- Keys strictly increase. -/
def Sorted (m : KV V) : Prop := m.Pairwise fun a b => Bytes.lt a.1 b.1 = true

theorem sorted_empty : Sorted (empty : KV V) := List.Pairwise.nil

theorem mem_set {m : KV V} {k : Bytes} {v : V} {e : Bytes × V} (h : e ∈ m.set k v) :
    e = (k, v) ∨ e ∈ m := by
  induction m with
  | nil => simpa [set] using h
  | cons x m ih =>
    obtain ⟨k', v'⟩ := x
    simp only [set] at h
    split at h
    · simp at h ⊢; grind
    · split at h
      · simp at h ⊢; grind
      · simp at h ⊢; grind

theorem sorted_set {m : KV V} (hm : Sorted m) (k : Bytes) (v : V) : Sorted (m.set k v) := by
  induction m with
  | nil => simp [set, Sorted]
  | cons x m ih =>
    obtain ⟨k', v'⟩ := x
    have hm' := List.pairwise_cons.1 hm
    simp only [set]
    split
    · next h => subst h; exact List.pairwise_cons.2 hm'
    · next h =>
      split
      · next hlt =>
        refine List.pairwise_cons.2 ⟨?_, hm⟩
        intro a ha
        rcases List.mem_cons.1 ha with rfl | ha
        · exact hlt
        · exact Bytes.lt_trans hlt (hm'.1 a ha)
      · next hlt =>
        refine List.pairwise_cons.2 ⟨?_, ih hm'.2⟩
        intro a ha
        rcases mem_set ha with rfl | ha
        · cases h3 : Bytes.lt k' k with
          | true => rfl
          | false => exact absurd (Bytes.lt_total h3 (by simpa using hlt)) h
        · exact hm'.1 a ha

theorem sorted_delete {m : KV V} (hm : Sorted m) (k : Bytes) : Sorted (m.delete k).2 :=
  List.Pairwise.filter _ hm

theorem get_eq_some_of_mem {m : KV V} (hm : Sorted m) {k : Bytes} {v : V} (h : (k, v) ∈ m) :
    m.get k = some v := by
  induction m with
  | nil => simp at h
  | cons x m ih =>
    obtain ⟨k', v'⟩ := x
    have hm' := List.pairwise_cons.1 hm
    rcases List.mem_cons.1 h with h | h
    · cases h; simp [get]
    · have := Bytes.lt_ne (hm'.1 _ h)
      simp [get, this, ih hm'.2 h]

theorem mem_of_get_eq_some {m : KV V} {k : Bytes} {v : V} (h : m.get k = some v) : (k, v) ∈ m := by
  induction m with
  | nil => simp [get] at h
  | cons x m ih =>
    obtain ⟨k', v'⟩ := x
    simp only [get] at h
    split at h
    · next h1 => cases h; subst h1; simp
    · exact List.mem_cons_of_mem _ (ih h)

/-- What prefix iteration produces, as a filter. -/
theorem iteratePrefix_eq {m : KV V} (hm : Sorted m) (p : Bytes) :
    m.iteratePrefix p = m.filterMap fun e => (Bytes.stripPrefix p e.1).map fun r => (r, e.2) := by
  induction m with
  | nil => rfl
  | cons x m ih =>
    obtain ⟨k, v⟩ := x
    have hm' := List.pairwise_cons.1 hm
    have ih := ih hm'.2
    simp only [iteratePrefix] at *
    by_cases hlt : Bytes.lt k p = true
    · rw [List.dropWhile_cons_of_pos (by simpa using hlt), ih, List.filterMap_cons]
      have : Bytes.stripPrefix p k = none := by
        cases h : Bytes.stripPrefix p k with
        | none => rfl
        | some r =>
          rw [Bytes.stripPrefix_eq_some] at h; subst h
          simp [Bytes.not_lt_append] at hlt
      simp [this]
    · have hlt' : Bytes.lt k p = false := by simpa using hlt
      rw [List.dropWhile_cons_of_neg (by simpa using hlt)]
      -- everything after is not below the prefix either
      have hnd : m.dropWhile (fun e => Bytes.lt e.1 p) = m := by
        cases m with
        | nil => rfl
        | cons y m =>
          apply List.dropWhile_cons_of_neg
          have h1 := hm'.1 y (by simp)
          intro h2
          have := Bytes.lt_trans h1 h2
          rw [hlt'] at this; simp at this
      rw [hnd] at ih
      cases h : Bytes.stripPrefix p k with
      | some r =>
        simp only [List.map_cons, h, List.filterMap_cons, Option.map_some]
        rw [List.takeWhile_cons_of_pos (by simp)]
        simp [ih]
      | none =>
        simp only [List.map_cons, h, List.filterMap_cons, Option.map_none]
        rw [List.takeWhile_cons_of_neg (by simp)]
        simp only [List.filterMap_nil]
        symm
        rw [List.filterMap_eq_nil_iff]
        intro a ha
        simp only [Option.map_eq_none_iff]
        cases h3 : Bytes.stripPrefix p a.1 with
        | none => rfl
        | some r =>
          rw [Bytes.stripPrefix_eq_some] at h3
          have h4 := hm'.1 a ha
          rw [h3] at h4
          have h5 := Bytes.lt_of_not_prefix (a := r) h hlt'
          have := Bytes.lt_asymm h5
          rw [h4] at this; simp at this

/-- Membership in a prefix iteration. -/
theorem mem_iteratePrefix {m : KV V} (hm : Sorted m) (p r : Bytes) (v : V) :
    (r, v) ∈ m.iteratePrefix p ↔ m.get (p ++ r) = some v := by
  rw [iteratePrefix_eq hm]
  simp only [List.mem_filterMap, Option.map_eq_some_iff, Prod.mk.injEq, Bytes.stripPrefix_eq_some]
  constructor
  · rintro ⟨⟨k, w⟩, hmem, r', hk, rfl, rfl⟩
    rw [← hk]; exact get_eq_some_of_mem hm hmem
  · intro hg
    exact ⟨_, mem_of_get_eq_some hg, r, rfl, rfl, rfl⟩

/-- A prefix iteration is in increasing key order. -/
theorem iteratePrefix_increasing {m : KV V} (hm : Sorted m) (p : Bytes) :
    ((m.iteratePrefix p).map fun e => e.1).Pairwise fun a b => Bytes.lt a b = true := by
  rw [iteratePrefix_eq hm, List.pairwise_map, List.pairwise_filterMap]
  refine List.Pairwise.imp ?_ hm
  intro a b hab x hx y hy
  simp only [Option.map_eq_some_iff] at hx hy
  obtain ⟨rx, h1, rfl⟩ := hx
  obtain ⟨ry, h2, rfl⟩ := hy
  rw [Bytes.stripPrefix_eq_some] at h1 h2
  rw [h1, h2, Bytes.lt_append_left] at hab
  exact hab

end KV
end Verif
