import Verif.Spec.Coins
import Verif.Proofs.Bytes
/-! # Arithmetic of coins -/

namespace Verif
open Spec

variable {lib : CoinLib}

theorem amount_nil (d : Bytes) : amount [] d = 0 := rfl

theorem amount_cons (c : Bytes × Int) (l : SdkCoins) (d : Bytes) :
    amount (c :: l) d = (if c.1 = d then c.2 else 0) + amount l d := by
  simp [amount]

theorem amount_removeZero (l : SdkCoins) (d : Bytes) : amount (CoinLib.removeZero l) d = amount l d := by
  induction l with
  | nil => rfl
  | cons c l ih =>
    simp only [CoinLib.removeZero, List.filter_cons] at ih ⊢
    by_cases h : c.2 = 0
    · simp only [h, ne_eq, not_true_eq_false, decide_false, Bool.false_eq_true, if_false, amount_cons, ite_self,
        zero_add, ih]
    · simp only [h, ne_eq, not_false_eq_true, decide_true, if_true, amount_cons, ih]

theorem amount_negative (l : SdkCoins) (d : Bytes) : amount (CoinLib.negative l) d = - amount l d := by
  induction l with
  | nil => rfl
  | cons c l ih =>
    simp only [CoinLib.negative, List.map_cons] at ih ⊢
    rw [amount_cons, amount_cons, ih]
    split <;> omega

theorem amount_not_mem {l : SdkCoins} {d : Bytes} (h : ∀ c ∈ l, c.1 ≠ d) : amount l d = 0 := by
  induction l with
  | nil => rfl
  | cons c l ih =>
    rw [amount_cons, if_neg (h c (by simp)), ih fun x hx => h x (by simp [hx])]; rfl

/-- In a sorted list the amount of a denomination is the number next to it. -/
theorem amount_mem {l : SdkCoins} (hs : SortedCoins l) {c : Bytes × Int} (hc : c ∈ l) : amount l c.1 = c.2 := by
  induction l with
  | nil => cases hc
  | cons x l ih =>
    rw [SortedCoins, List.pairwise_cons] at hs
    rw [amount_cons]
    rcases List.mem_cons.1 hc with rfl | hc
    · rw [if_pos rfl, amount_not_mem, add_zero]
      exact fun y hy => (Bytes.lt_ne (hs.1 y hy)).symm
    · rw [if_neg (Bytes.lt_ne (hs.1 c hc)), ih hs.2 hc, zero_add]

theorem amount_nonneg {l : SdkCoins} (h : ∀ c ∈ l, 0 ≤ c.2) (d : Bytes) : 0 ≤ amount l d := by
  induction l with
  | nil => exact le_refl _
  | cons c l ih =>
    rw [amount_cons]
    have h1 := h c (by simp)
    have h2 := ih fun x hx => h x (by simp [hx])
    split <;> omega

/-- `c` is the sum of `a` and `b`. -/
structure Sum (lib : CoinLib) (a b c : SdkCoins) : Prop where
  amounts : ∀ d, amount c d = amount a d + amount b d
  nonzero : ∀ x ∈ c, x.2 ≠ 0
  denoms : ∀ x ∈ c, (∃ y ∈ a, y.1 = x.1) ∨ ∃ y ∈ b, y.1 = x.1
  sorted : SortedCoins a → SortedCoins b → SortedCoins c
  fits : (∀ x ∈ a, lib.fits x.2 = true) → (∀ x ∈ b, lib.fits x.2 = true) → ∀ x ∈ c, lib.fits x.2 = true

theorem Sum.left (a : SdkCoins) : Sum lib a [] (CoinLib.removeZero a) where
  amounts d := by rw [amount_removeZero, amount_nil, add_zero]
  nonzero x hx := by simpa using (List.mem_filter.1 hx).2
  denoms x hx := .inl ⟨x, (List.mem_filter.1 hx).1, rfl⟩
  sorted ha _ := List.Pairwise.filter _ ha
  fits ha _ x hx := ha x (List.mem_filter.1 hx).1

theorem Sum.comm {a b c : SdkCoins} (h : Sum lib a b c) : Sum lib b a c where
  amounts d := by rw [h.amounts, add_comm]
  nonzero := h.nonzero
  denoms x hx := (h.denoms x hx).symm
  sorted ha hb := h.sorted hb ha
  fits ha hb := h.fits hb ha

theorem Sum.cons {x : Bytes × Int} {a b c : SdkCoins} (h : Sum lib a b c)
    (hl : SortedCoins b → ∀ y ∈ b, Bytes.lt x.1 y.1 = true) :
    Sum lib (x :: a) b (if x.2 = 0 then c else x :: c) := by
  by_cases h0 : x.2 = 0
  · rw [if_pos h0]
    refine ⟨fun d => ?_, h.nonzero, fun y hy => ?_, fun ha hb => ?_, fun ha hb => ?_⟩
    · rw [h.amounts, amount_cons, h0, ite_self, zero_add]
    · rcases h.denoms y hy with ⟨z, hz, hzy⟩ | h'
      · exact .inl ⟨z, by simp [hz], hzy⟩
      · exact .inr h'
    · exact h.sorted (List.pairwise_cons.1 ha).2 hb
    · exact h.fits (fun y hy => ha y (by simp [hy])) hb
  · rw [if_neg h0]
    refine ⟨fun d => ?_, fun y hy => ?_, fun y hy => ?_, fun ha hb => ?_, fun ha hb => ?_⟩
    · rw [amount_cons, h.amounts, amount_cons, add_assoc]
    · rcases List.mem_cons.1 hy with rfl | hy
      · exact h0
      · exact h.nonzero y hy
    · rcases List.mem_cons.1 hy with rfl | hy
      · exact .inl ⟨y, by simp, rfl⟩
      · rcases h.denoms y hy with ⟨z, hz, hzy⟩ | h'
        · exact .inl ⟨z, by simp [hz], hzy⟩
        · exact .inr h'
    · rw [SortedCoins, List.pairwise_cons] at ha ⊢
      refine ⟨fun y hy => ?_, h.sorted ha.2 hb⟩
      rcases h.denoms y hy with ⟨z, hz, hzy⟩ | ⟨z, hz, hzy⟩
      · rw [← hzy]; exact ha.1 z hz
      · rw [← hzy]; exact hl hb z hz
    · intro y hy
      rcases List.mem_cons.1 hy with rfl | hy
      · exact ha y (by simp)
      · exact h.fits (fun y hy => ha y (by simp [hy])) hb y hy

theorem consNonzero_ret {x : Bytes × Int} {o : Out SdkCoins} {c : SdkCoins}
    (h : CoinLib.consNonzero x o = .ret c) : ∃ l, o = .ret l ∧ c = if x.2 = 0 then l else x :: l := by
  cases o with
  | panic => cases h
  | ret l => cases h; exact ⟨l, rfl, rfl⟩

theorem mergeCoin_sum {a : Bytes × Int} {as : SdkCoins} {k : SdkCoins → Out SdkCoins}
    (hk : ∀ bs c, k bs = .ret c → Sum lib as bs c) : ∀ (bs c : SdkCoins),
    lib.mergeCoin a as k bs = .ret c → Sum lib (a :: as) bs c
  | [], c, h => by cases h; exact Sum.left _
  | b :: bs, c, h => by
    simp only [CoinLib.mergeCoin] at h
    split at h
    · rename_i hlt
      obtain ⟨l, h1, rfl⟩ := consNonzero_ret h
      refine (hk _ _ h1).cons fun hs y hy => ?_
      rw [SortedCoins, List.pairwise_cons] at hs
      rcases List.mem_cons.1 hy with rfl | hy
      · exact hlt
      · exact Bytes.lt_trans hlt (hs.1 y hy)
    · split at h
      · rename_i hlt
        obtain ⟨l, h1, rfl⟩ := consNonzero_ret h
        refine ((mergeCoin_sum hk bs l h1).comm.cons fun hs y hy => ?_).comm
        rw [SortedCoins, List.pairwise_cons] at hs
        rcases List.mem_cons.1 hy with rfl | hy
        · exact hlt
        · exact Bytes.lt_trans hlt (hs.1 y hy)
      · rename_i h1 h2
        have he : a.1 = b.1 := Bytes.lt_total (by simpa using h1) (by simpa using h2)
        split at h
        · cases h
        · rename_i hf
          obtain ⟨l, h1, rfl⟩ := consNonzero_ret h
          have hl := hk bs l h1
          have hx : ∀ d, (if a.1 = d then a.2 + b.2 else 0) =
              (if a.1 = d then a.2 else 0) + (if b.1 = d then b.2 else 0) := by
            intro d; rw [← he]; split <;> simp
          by_cases h0 : a.2 + b.2 = 0
          · rw [if_pos h0]
            refine ⟨fun d => ?_, hl.nonzero, fun y hy => ?_, fun ha hb => ?_, fun ha hb => ?_⟩
            · have := hx d
              rw [h0, ite_self] at this
              rw [hl.amounts, amount_cons, amount_cons]; omega
            · rcases hl.denoms y hy with ⟨z, hz, hzy⟩ | ⟨z, hz, hzy⟩
              · exact .inl ⟨z, by simp [hz], hzy⟩
              · exact .inr ⟨z, by simp [hz], hzy⟩
            · exact hl.sorted (List.pairwise_cons.1 ha).2 (List.pairwise_cons.1 hb).2
            · exact hl.fits (fun y hy => ha y (by simp [hy])) (fun y hy => hb y (by simp [hy]))
          · rw [if_neg h0]
            refine ⟨fun d => ?_, fun y hy => ?_, fun y hy => ?_, fun ha hb => ?_, fun ha hb => ?_⟩
            · have := hx d
              rw [amount_cons, hl.amounts, amount_cons, amount_cons]
              dsimp only
              omega
            · rcases List.mem_cons.1 hy with rfl | hy
              · exact h0
              · exact hl.nonzero y hy
            · rcases List.mem_cons.1 hy with rfl | hy
              · exact .inl ⟨a, by simp, rfl⟩
              · rcases hl.denoms y hy with ⟨z, hz, hzy⟩ | ⟨z, hz, hzy⟩
                · exact .inl ⟨z, by simp [hz], hzy⟩
                · exact .inr ⟨z, by simp [hz], hzy⟩
            · rw [SortedCoins, List.pairwise_cons] at ha hb ⊢
              refine ⟨fun y hy => ?_, hl.sorted ha.2 hb.2⟩
              rcases hl.denoms y hy with ⟨z, hz, hzy⟩ | ⟨z, hz, hzy⟩
              · rw [← hzy]; exact ha.1 z hz
              · rw [← hzy]; dsimp only; rw [he]; exact hb.1 z hz
            · intro y hy
              rcases List.mem_cons.1 hy with rfl | hy
              · simpa using hf
              · exact hl.fits (fun y hy => ha y (by simp [hy])) (fun y hy => hb y (by simp [hy])) y hy

theorem safeAdd_sum : ∀ (a b c : SdkCoins), lib.safeAdd a b = .ret c → Sum lib a b c
  | [], b, c, h => by cases h; exact (Sum.left b).comm
  | a :: as, b, c, h => mergeCoin_sum (fun bs c h => safeAdd_sum as bs c h) b c h

theorem consNonzero_panic {x : Bytes × Int} {o : Out SdkCoins} (h : CoinLib.consNonzero x o = .panic) :
    o = .panic := by
  cases o with
  | panic => rfl
  | ret l => cases h

theorem mergeCoin_panic {a : Bytes × Int} {as : SdkCoins} {k : SdkCoins → Out SdkCoins}
    (hk : ∀ bs, k bs = .panic → ∃ x ∈ as, ∃ y ∈ bs, x.1 = y.1 ∧ lib.fits (x.2 + y.2) = false) :
    ∀ (bs : SdkCoins), lib.mergeCoin a as k bs = .panic →
    ∃ x ∈ a :: as, ∃ y ∈ bs, x.1 = y.1 ∧ lib.fits (x.2 + y.2) = false
  | [], h => by cases h
  | b :: bs, h => by
    simp only [CoinLib.mergeCoin] at h
    split at h
    · obtain ⟨x, hx, y, hy, h1⟩ := hk _ (consNonzero_panic h)
      exact ⟨x, by simp [hx], y, hy, h1⟩
    · split at h
      · obtain ⟨x, hx, y, hy, h1⟩ := mergeCoin_panic hk bs (consNonzero_panic h)
        exact ⟨x, hx, y, by simp [hy], h1⟩
      · rename_i h1 h2
        have he : a.1 = b.1 := Bytes.lt_total (by simpa using h1) (by simpa using h2)
        split at h
        · rename_i hf
          exact ⟨a, by simp, b, by simp, he, by simpa using hf⟩
        · obtain ⟨x, hx, y, hy, h1⟩ := hk _ (consNonzero_panic h)
          exact ⟨x, by simp [hx], y, by simp [hy], h1⟩

theorem safeAdd_panic : ∀ (a b : SdkCoins), lib.safeAdd a b = .panic →
    ∃ x ∈ a, ∃ y ∈ b, x.1 = y.1 ∧ lib.fits (x.2 + y.2) = false
  | [], b, h => by cases h
  | a :: as, b, h => mergeCoin_panic (fun bs h => safeAdd_panic as bs h) b h

theorem anyNegative_iff {l : SdkCoins} : CoinLib.anyNegative l = false ↔ ∀ c ∈ l, 0 ≤ c.2 := by
  simp [CoinLib.anyNegative, List.any_eq_false]

variable {limit : Int}

theorem Spec.CoinsUpTo.noneNegative (ok : CoinsUpTo lib limit) {cs : List Coin} {l : SdkCoins}
    (h : lib.balanceOf cs = .ret (.ok l)) : CoinLib.anyNegative l = false :=
  anyNegative_iff.2 fun c hc => ((ok.parsed h).2 c hc).1

/-- Amounts are not negative. -/
theorem amountOf_nonneg (ok : CoinsUpTo lib limit) (cs : List Coin) (d : Bytes) : 0 ≤ amountOf lib cs d := by
  unfold amountOf
  split
  · rename_i l h
    exact amount_nonneg (fun c hc => ((ok.parsed h).2 c hc).1) d
  · exact le_refl _

theorem amountOf_eq {cs : List Coin} {l : SdkCoins} (h : lib.balanceOf cs = .ret (.ok l)) (d : Bytes) :
    amountOf lib cs d = amount l d := by
  simp only [amountOf, h]

/-- No amount is too large. -/
theorem amount_le (ok : CoinsUpTo lib limit) {cs : List Coin} {l : SdkCoins}
    (h : lib.balanceOf cs = .ret (.ok l)) (d : Bytes) : amount l d ≤ limit := by
  by_cases hd : ∃ x ∈ l, x.1 = d
  · obtain ⟨x, hx, rfl⟩ := hd
    rw [amount_mem (ok.parsed h).1 hx]
    exact ((ok.parsed h).2 x hx).2
  · rw [amount_not_mem fun x hx he => hd ⟨x, hx, he⟩]
    exact ok.nonneg

/-- The result of an addition can be parsed again. -/
theorem sum_parses (ok : CoinsUpTo lib limit) {s t : List Coin} {a b b' c : SdkCoins}
    (ha : lib.balanceOf s = .ret (.ok a)) (hb : lib.balanceOf t = .ret (.ok b'))
    (hbs : SortedCoins b) (hd : ∀ y ∈ b, ∃ z ∈ b', z.1 = y.1) (hc : lib.safeAdd a b = .ret c)
    (hn : ∀ x ∈ c, 0 ≤ x.2) (hf : ∀ x ∈ c, x.2 ≤ limit) :
    lib.balanceOf (lib.toCoins c) = .ret (.ok c) := by
  obtain ⟨valid, hv, hp⟩ := ok.printed
  have hs := safeAdd_sum _ _ _ hc
  refine hp c (hs.sorted (ok.parsed ha).1 hbs) fun x hx => ⟨?_, ?_, ?_⟩
  · rcases hs.denoms x hx with ⟨z, hz, hzx⟩ | ⟨z, hz, hzx⟩
    · exact hzx ▸ hv ha z hz
    · obtain ⟨w, hw, hwz⟩ := hd z hz
      exact hzx ▸ hwz ▸ hv hb w hw
  · have := hn x hx
    have := hs.nonzero x hx
    omega
  · exact hf x hx

theorem sorted_negative {l : SdkCoins} (h : SortedCoins l) : SortedCoins (CoinLib.negative l) := by
  rw [SortedCoins, CoinLib.negative, List.pairwise_map]; exact h

/-- Subtraction of coins. -/
theorem safeSub_ok (ok : CoinsUpTo lib limit) {s t n : List Coin} (h : lib.safeSubCoins s t = .ret (.ok n)) :
    ∃ a b c, lib.balanceOf s = .ret (.ok a) ∧ lib.balanceOf t = .ret (.ok b) ∧
      lib.balanceOf n = .ret (.ok c) ∧ ∀ d, amount c d = amount a d - amount b d := by
  simp only [CoinLib.safeSubCoins] at h
  split at h
  · cases h
  · cases h
  · rename_i a ha
    split at h
    · cases h
    · cases h
    · rename_i b hb
      split at h
      · cases h
      · split at h
        · cases h
        · rename_i c hc
          split at h
          · cases h
          · rename_i hn
            cases h
            rw [Bool.not_eq_true] at hn
            have hs := safeAdd_sum _ _ _ hc
            have hd : ∀ d, amount c d = amount a d - amount b d := fun d => by
              rw [hs.amounts, amount_negative]; omega
            have hsort := hs.sorted (ok.parsed ha).1 (sorted_negative (ok.parsed hb).1)
            refine ⟨a, b, c, ha, hb, sum_parses ok ha hb (sorted_negative (ok.parsed hb).1) ?_ hc
              (anyNegative_iff.1 hn) ?_, hd⟩
            · intro y hy
              obtain ⟨z, hz, rfl⟩ := List.mem_map.1 hy
              exact ⟨z, hz, rfl⟩
            · intro x hx
              have h1 := hd x.1
              rw [amount_mem hsort hx] at h1
              have h2 := amount_le ok ha x.1
              have h3 := amount_nonneg (fun c hc => ((ok.parsed hb).2 c hc).1) x.1
              omega

/-- Addition of coins whose sum is not too large. -/
theorem safeAdd_ok (ok : CoinsUpTo lib limit) {s t n : List Coin} (h : lib.safeAddCoins s t = .ret (.ok n))
    (hle : ∀ d, amountOf lib s d + amountOf lib t d ≤ limit) :
    ∃ a b c, lib.balanceOf s = .ret (.ok a) ∧ lib.balanceOf t = .ret (.ok b) ∧
      lib.balanceOf n = .ret (.ok c) ∧ ∀ d, amount c d = amount a d + amount b d := by
  simp only [CoinLib.safeAddCoins] at h
  split at h
  · cases h
  · cases h
  · rename_i a ha
    split at h
    · cases h
    · cases h
    · rename_i b hb
      split at h
      · cases h
      · split at h
        · cases h
        · rename_i c hc
          cases h
          have hs := safeAdd_sum _ _ _ hc
          have hsort := hs.sorted (ok.parsed ha).1 (ok.parsed hb).1
          refine ⟨a, b, c, ha, hb, sum_parses ok ha hb (ok.parsed hb).1 (fun y hy => ⟨y, hy, rfl⟩)
            hc ?_ ?_, hs.amounts⟩
          · intro x hx
            rw [← amount_mem hsort hx, hs.amounts]
            have h1 := amount_nonneg (fun c hc => ((ok.parsed ha).2 c hc).1) x.1
            have h2 := amount_nonneg (fun c hc => ((ok.parsed hb).2 c hc).1) x.1
            omega
          · intro x hx
            rw [← amount_mem hsort hx, hs.amounts, ← amountOf_eq ha, ← amountOf_eq hb]
            exact hle x.1

/-- Subtraction of coins that can be parsed never crashes, and fails exactly if there is too
little. -/
theorem safeSub_iff (ok : CoinsUpTo lib limit) {s t : List Coin} {a b : SdkCoins} (ha : lib.balanceOf s = .ret (.ok a))
    (hb : lib.balanceOf t = .ret (.ok b)) :
    (lib.safeSubCoins s t = .ret (.error .other) ∧ ∃ d, amount a d < amount b d) ∨
      ((∃ n, lib.safeSubCoins s t = .ret (.ok n)) ∧ ∀ d, amount b d ≤ amount a d) := by
  have hpa := ok.parsed ha
  have hpb := ok.parsed hb
  simp only [CoinLib.safeSubCoins, ha, hb, ok.noneNegative ha, ok.noneNegative hb, Bool.or_self, Bool.false_eq_true, if_false]
  cases hc : lib.safeAdd a (CoinLib.negative b) with
  | panic =>
    obtain ⟨x, hx, y, hy, _, hf⟩ := safeAdd_panic _ _ hc
    obtain ⟨z, hz, rfl⟩ := List.mem_map.1 hy
    have h1 := hpa.2 x hx
    have h2 := hpb.2 z hz
    have : lib.fits (x.2 + -z.2) = true := ok.fits _ (by omega) (by omega)
    rw [this] at hf
    cases hf
  | ret c =>
    have hs := safeAdd_sum _ _ _ hc
    have hsort := hs.sorted hpa.1 (sorted_negative hpb.1)
    have hd : ∀ d, amount c d = amount a d - amount b d := fun d => by rw [hs.amounts, amount_negative]; omega
    by_cases hn : CoinLib.anyNegative c = true
    · left
      simp only [hn, if_true, true_and]
      obtain ⟨x, hx, hx0⟩ := List.any_eq_true.1 hn
      refine ⟨x.1, ?_⟩
      have h1 := hd x.1
      rw [amount_mem hsort hx] at h1
      have : x.2 < 0 := by simpa using hx0
      omega
    · right
      rw [Bool.not_eq_true] at hn
      simp only [hn, Bool.false_eq_true, if_false]
      refine ⟨⟨_, rfl⟩, fun d => ?_⟩
      have h1 := hd d
      have := amount_nonneg (anyNegative_iff.1 hn) d
      omega

/-- Addition of coins that can be parsed does not fail if no sum is too large. -/
theorem safeAdd_safe (ok : CoinsUpTo lib limit) {s t : List Coin} {a b : SdkCoins}
    (ha : lib.balanceOf s = .ret (.ok a)) (hb : lib.balanceOf t = .ret (.ok b))
    (h : ∀ d, amountOf lib s d + amountOf lib t d ≤ limit) : ∃ n, lib.safeAddCoins s t = .ret (.ok n) := by
  simp only [CoinLib.safeAddCoins, ha, hb, ok.noneNegative ha, ok.noneNegative hb, Bool.or_self, Bool.false_eq_true, if_false]
  cases hc : lib.safeAdd a b with
  | panic =>
    obtain ⟨x, hx, y, hy, he, hf⟩ := safeAdd_panic _ _ hc
    have h1 := (ok.parsed ha).2 x hx
    have h2 := (ok.parsed hb).2 y hy
    have h3 := h x.1
    rw [amountOf_eq ha, amountOf_eq hb, amount_mem (ok.parsed ha).1 hx, he, amount_mem (ok.parsed hb).1 hy] at h3
    rw [ok.fits _ (by omega) (by omega)] at hf
    cases hf
  | ret c => exact ⟨_, rfl⟩

end Verif
