import Verif.Proofs.Proto
import Mathlib.Data.List.Induction
import Mathlib.Data.List.TakeWhile
/-!
# The decoder reads what the messages say
-/

namespace Verif
open Spec

set_option linter.unusedSectionVars false

/-! ## Fields -/

@[simp] theorem payloads_nil (k : Nat) : payloads [] k = [] := rfl
@[simp] theorem numbers_nil (k : Nat) : numbers [] k = [] := rfl

theorem payloads_append (fs gs : List Field) (k : Nat) :
    payloads (fs ++ gs) k = payloads fs k ++ payloads gs k := by simp [payloads]

theorem numbers_append (fs gs : List Field) (k : Nat) :
    numbers (fs ++ gs) k = numbers fs k ++ numbers gs k := by simp [numbers]

theorem payloads_len (n : Nat) (b raw : Bytes) (fs : List Field) (k : Nat) :
    payloads (⟨n, .len b, raw⟩ :: fs) k = if n = k then b :: payloads fs k else payloads fs k := by
  by_cases h : n = k <;> simp [payloads, h]

theorem payloads_other {f : Field} (h : f.val.wire ≠ 2) (fs : List Field) (k : Nat) :
    payloads (f :: fs) k = payloads fs k := by
  obtain ⟨n, v, raw⟩ := f
  cases v <;> simp_all [payloads, FieldVal.wire]

theorem numbers_varint (n m : Nat) (raw : Bytes) (fs : List Field) (k : Nat) :
    numbers (⟨n, .varint m, raw⟩ :: fs) k = if n = k then m :: numbers fs k else numbers fs k := by
  by_cases h : n = k <;> simp [numbers, h]

theorem numbers_other {f : Field} (h : f.val.wire ≠ 0) (fs : List Field) (k : Nat) :
    numbers (f :: fs) k = numbers fs k := by
  obtain ⟨n, v, raw⟩ := f
  cases v <;> simp_all [numbers, FieldVal.wire]

@[simp] theorem allText_nil : AllText [] := by simp [AllText]

theorem allText_cons (b : Bytes) (l : List Bytes) :
    AllText (b :: l) ↔ validUtf8 b = true ∧ AllText l := by simp [AllText]

theorem onlyFields_cons (ks : List (Nat × Nat)) (f : Field) (fs : List Field) :
    OnlyFields ks (f :: fs) ↔ (f.num, f.val.wire) ∈ ks ∧ OnlyFields ks fs := by simp [OnlyFields]

@[simp] theorem onlyFields_nil (ks : List (Nat × Nat)) : OnlyFields ks [] := by simp [OnlyFields]

@[simp] theorem areParts_nil (fs : List Field) : AreParts [] fs ↔ fs = [] := by
  constructor
  · rintro ⟨fss, h, rfl⟩; cases h; rfl
  · rintro rfl; exact ⟨[], .nil, rfl⟩

theorem areParts_cons (b : Bytes) (l : List Bytes) (fs : List Field) :
    AreParts (b :: l) fs ↔ ∃ gs hs, IsMessage b gs ∧ AreParts l hs ∧ fs = gs ++ hs := by
  constructor
  · rintro ⟨fss, h, rfl⟩
    cases h with
    | @cons _ gs _ fss h1 h2 => exact ⟨gs, fss.flatten, h1, ⟨fss, h2, rfl⟩, by simp⟩
  · rintro ⟨gs, hs, h1, ⟨fss, h2, rfl⟩, rfl⟩
    exact ⟨gs :: fss, .cons h1 h2, by simp⟩

theorem foldFields_cons_iff {σ : Type} (step : σ → Field → Option σ) (s : σ) (f : Field) (fs : List Field)
    (s' : σ) : foldFields step s (f :: fs) = some s' ↔
    ∃ t, step s f = some t ∧ foldFields step t fs = some s' := by
  rw [foldFields]
  cases step s f <;> simp

theorem foldFields_nil_iff {σ : Type} (step : σ → Field → Option σ) (s s' : σ) :
    foldFields step s [] = some s' ↔ s = s' := by simp [foldFields]

theorem foldFields_append_iff {σ : Type} (step : σ → Field → Option σ) (fs gs : List Field) (s' : σ) :
    ∀ s, foldFields step s (fs ++ gs) = some s' ↔
    ∃ t, foldFields step s fs = some t ∧ foldFields step t gs = some s' := by
  induction fs with
  | nil => intro s; simp [foldFields]
  | cons f fs ih =>
    intro s
    simp only [List.cons_append, foldFields_cons_iff, ih]
    constructor
    · rintro ⟨t, h, u, h1, h2⟩; exact ⟨u, ⟨t, h, h1⟩, h2⟩
    · rintro ⟨u, ⟨t, h, h1⟩, h2⟩; exact ⟨t, h, u, h1, h2⟩

theorem mergeInto_iff {σ : Type} (step : σ → Field → Option σ) (s : σ) (b : Bytes) (s' : σ) :
    mergeInto step s b = some s' ↔ ∃ fs, IsMessage b fs ∧ foldFields step s fs = some s' := by
  rw [mergeInto]
  constructor
  · intro h
    split at h
    · simp at h
    · rename_i fs hf; exact ⟨fs, (fields_iff _ _).1 hf, h⟩
  · rintro ⟨fs, hf, h⟩
    rw [(fields_iff _ _).2 hf]; exact h

/-! ## Any, Coin, public keys -/

theorem anyStep_len (m : AnyMsg) (n : Nat) (b raw : Bytes) : AnyMsg.step m ⟨n, .len b, raw⟩ =
    if n = 1 then (if validUtf8 b then some { m with typeUrl := b } else none)
    else if n = 2 then some { m with value := b } else some m := by
  unfold AnyMsg.step; split <;> simp_all

theorem anyStep_other (m : AnyMsg) (f : Field) (h : f.val.wire ≠ 2) : AnyMsg.step m f = some m := by
  unfold AnyMsg.step; split <;> simp_all [FieldVal.wire]

theorem foldAny_iff (fs : List Field) : ∀ (m m' : AnyMsg), foldFields AnyMsg.step m fs = some m' ↔
    AllText (payloads fs 1) ∧ m' = ⟨lastOr m.typeUrl (payloads fs 1), lastOr m.value (payloads fs 2)⟩ := by
  induction fs with
  | nil => intro m m'; simp [foldFields, lastOr]; exact eq_comm
  | cons f fs ih =>
    intro m m'
    rw [foldFields_cons_iff]
    by_cases hw : f.val.wire = 2
    · obtain ⟨n, v, raw⟩ := f
      cases v <;> simp [FieldVal.wire] at hw
      rename_i b
      simp only [anyStep_len, payloads_len]
      by_cases h1 : n = 1
      · subst h1
        by_cases hu : validUtf8 b = true <;> simp_all [allText_cons, lastOr]
      · by_cases h2 : n = 2
        · subst h2; simp [ih, lastOr]
        · simp [h1, h2, ih]
    · simp [anyStep_other m f hw, payloads_other hw, ih]

theorem parseAny_iff (b : Bytes) (a : AnyMsg) : parseAny b = some a ↔ IsAny b a := by
  simp only [parseAny, mergeInto_iff, foldAny_iff, IsAny, HasAny]

theorem coinStep_len (m : Coin) (n : Nat) (b raw : Bytes) : Coin.step m ⟨n, .len b, raw⟩ =
    if n = 1 then (if validUtf8 b then some { m with denom := b } else none)
    else if n = 2 then (if validUtf8 b then some { m with amount := b } else none) else some m := by
  unfold Coin.step; split <;> simp_all

theorem coinStep_other (m : Coin) (f : Field) (h : f.val.wire ≠ 2) : Coin.step m f = some m := by
  unfold Coin.step; split <;> simp_all [FieldVal.wire]

theorem foldCoin_iff (fs : List Field) : ∀ (m m' : Coin), foldFields Coin.step m fs = some m' ↔
    AllText (payloads fs 1) ∧ AllText (payloads fs 2) ∧
      m' = ⟨lastOr m.denom (payloads fs 1), lastOr m.amount (payloads fs 2)⟩ := by
  induction fs with
  | nil => intro m m'; simp [foldFields, lastOr]; exact eq_comm
  | cons f fs ih =>
    intro m m'
    rw [foldFields_cons_iff]
    by_cases hw : f.val.wire = 2
    · obtain ⟨n, v, raw⟩ := f
      cases v <;> simp [FieldVal.wire] at hw
      rename_i b
      simp only [coinStep_len, payloads_len]
      by_cases h1 : n = 1
      · subst h1
        by_cases hu : validUtf8 b = true <;> simp_all [allText_cons, lastOr]
      · by_cases h2 : n = 2
        · subst h2
          by_cases hu : validUtf8 b = true <;> simp_all [allText_cons, lastOr]
        · simp [h1, h2, ih]
    · simp [coinStep_other m f hw, payloads_other hw, ih]

theorem parseCoin_iff (b : Bytes) (c : Coin) : parseCoin b = some c ↔ IsCoin b c := by
  simp only [parseCoin, mergeInto_iff, foldCoin_iff, IsCoin]

theorem foldPubKey_eq (fs : List Field) : ∀ (m : PubKey), foldFields PubKey.step m fs =
    some ⟨lastOr m.key (payloads fs 1), m.unknown ++
      (fs.filter fun f => (f.num, f.val.wire) ≠ (1, 2)).flatMap fun f => appendTag f.num f.val.wire ++ f.raw⟩ := by
  induction fs with
  | nil => intro m; simp [foldFields, lastOr]
  | cons f fs ih =>
    intro m
    obtain ⟨n, v, raw⟩ := f
    by_cases h : n = 1 ∧ v.wire = 2
    · obtain ⟨rfl, hw⟩ := h
      cases v <;> simp [FieldVal.wire] at hw
      simp [foldFields, PubKey.step, ih, payloads_len, lastOr, FieldVal.wire]
    · have e : PubKey.step m ⟨n, v, raw⟩ = some { m with unknown := m.unknown ++ (appendTag n v.wire ++ raw) } := by
        unfold PubKey.step; split <;> simp_all [FieldVal.wire]
      have hp : payloads (⟨n, v, raw⟩ :: fs) 1 = payloads fs 1 := by
        by_cases hw : v.wire = 2
        · cases v <;> simp [FieldVal.wire] at hw
          rw [payloads_len, if_neg (fun hn => h ⟨hn, rfl⟩)]
        · exact payloads_other hw fs 1
      have hf : decide (¬ (n, v.wire) = (1, 2)) = true := decide_eq_true fun hc => h ⟨(Prod.mk.inj hc).1, (Prod.mk.inj hc).2⟩
      rw [foldFields, e]
      simp only [ih, hp]
      rw [List.filter_cons_of_pos (by simpa using hf)]
      simp

theorem parsePubKey_iff (b : Bytes) (k : PubKey) : parsePubKeyMsg b = some k ↔ IsPubKey b k := by
  simp only [parsePubKeyMsg, mergeInto_iff, foldPubKey_eq, IsPubKey, Option.some.injEq, List.nil_append]
  constructor <;> rintro ⟨fs, h, e⟩ <;> exact ⟨fs, h, e.symm⟩

/-! ## The outer message -/

theorem lastOr_append {α : Type} (d : α) (l m : List α) : lastOr d (l ++ m) = lastOr (lastOr d l) m := by
  induction l generalizing d with
  | nil => rfl
  | cons x l ih => simp [lastOr, ih]

theorem foldRaw_eq (fs : List Field) : ∀ (m : TxRawMsg), ∃ u, foldFields TxRawMsg.step m fs =
    some ⟨lastOr m.body (payloads fs 1), lastOr m.authInfo (payloads fs 2), m.signatures ++ payloads fs 3, u⟩ ∧
    (u = false ↔ m.unknown = false ∧ OnlyFields [(1, 2), (2, 2), (3, 2)] fs) := by
  induction fs with
  | nil => intro m; exact ⟨m.unknown, by simp [foldFields, lastOr], by simp⟩
  | cons f fs ih =>
    intro m
    obtain ⟨n, v, raw⟩ := f
    by_cases hw : v.wire = 2
    · cases v <;> simp [FieldVal.wire] at hw
      rename_i b
      simp only [foldFields, payloads_len, onlyFields_cons]
      by_cases h1 : n = 1
      · subst h1
        obtain ⟨u, h, hu⟩ := ih { m with body := b }
        exact ⟨u, by simp [TxRawMsg.step, h, lastOr], by simp [hu, FieldVal.wire]⟩
      · by_cases h2 : n = 2
        · subst h2
          obtain ⟨u, h, hu⟩ := ih { m with authInfo := b }
          exact ⟨u, by simp [TxRawMsg.step, h, lastOr], by simp [hu, FieldVal.wire]⟩
        · by_cases h3 : n = 3
          · subst h3
            obtain ⟨u, h, hu⟩ := ih { m with signatures := m.signatures ++ [b] }
            exact ⟨u, by simp [TxRawMsg.step, h, lastOr], by simp [hu, FieldVal.wire]⟩
          · obtain ⟨u, h, hu⟩ := ih { m with unknown := true }
            have e : TxRawMsg.step m ⟨n, .len b, raw⟩ = some { m with unknown := true } := by
              unfold TxRawMsg.step; split <;> simp_all
            exact ⟨u, by simp [e, h, h1, h2, h3], by simp [hu, FieldVal.wire, h1, h2, h3]⟩
    · obtain ⟨u, h, hu⟩ := ih { m with unknown := true }
      have e : TxRawMsg.step m ⟨n, v, raw⟩ = some { m with unknown := true } := by
        unfold TxRawMsg.step; split <;> simp_all [FieldVal.wire]
      refine ⟨u, ?_, by simp [hu, onlyFields_cons, hw]⟩
      simp only [foldFields, e, h, payloads_other (f := ⟨n, v, raw⟩) hw]

/-! ## The body -/

theorem bodyStep_len (m : TxBodyMsg) (n : Nat) (b raw : Bytes) (m' : TxBodyMsg) :
    TxBodyMsg.step m ⟨n, .len b, raw⟩ = some m' ↔
    (n = 1 ∧ ∃ a, IsAny b a ∧ m' = { m with messages := m.messages ++ [a] }) ∨
    (n = 2 ∧ validUtf8 b = true ∧ m' = { m with memo := b }) ∨
    ((n = 1023 ∨ n = 2047) ∧ (∃ a, IsAny b a) ∧ m' = m) ∨
    ((n ≠ 1 ∧ n ≠ 2 ∧ n ≠ 1023 ∧ n ≠ 2047) ∧ m' = { m with unknown := true }) := by
  simp only [← parseAny_iff]
  by_cases h1 : n = 1
  · subst h1; simp only [TxBodyMsg.step]; cases parseAny b <;> simp; exact eq_comm
  · by_cases h2 : n = 2
    · subst h2; simp only [TxBodyMsg.step]; by_cases hu : validUtf8 b = true <;> simp [hu]; exact eq_comm
    · by_cases h3 : n = 1023
      · subst h3; simp only [TxBodyMsg.step]; cases parseAny b <;> simp; exact eq_comm
      · by_cases h4 : n = 2047
        · subst h4; simp only [TxBodyMsg.step]; cases parseAny b <;> simp; exact eq_comm
        · have e : TxBodyMsg.step m ⟨n, .len b, raw⟩ = some { m with unknown := true } := by
            unfold TxBodyMsg.step; split <;> simp_all
          rw [e]; simp [h1, h2, h3, h4]; exact eq_comm

theorem bodyStep_other (m : TxBodyMsg) (f : Field) (h : f.val.wire ≠ 2) (m' : TxBodyMsg) :
    TxBodyMsg.step m f = some m' ↔
    (∃ n raw, f = ⟨3, .varint n, raw⟩ ∧ m' = { m with timeout := BitVec.ofNat 64 n }) ∨
    ((f.num, f.val.wire) ≠ (3, 0) ∧ m' = { m with unknown := true }) := by
  obtain ⟨n, v, raw⟩ := f
  by_cases h0 : n = 3 ∧ v.wire = 0
  · obtain ⟨rfl, h0⟩ := h0
    cases v <;> simp [FieldVal.wire] at h0
    simp [TxBodyMsg.step, FieldVal.wire]; exact eq_comm
  · have e : TxBodyMsg.step m ⟨n, v, raw⟩ = some { m with unknown := true } := by
      unfold TxBodyMsg.step; split <;> simp_all [FieldVal.wire]
    rw [e]
    constructor
    · intro he; cases he
      exact .inr ⟨fun hc => h0 ⟨(Prod.mk.inj hc).1, (Prod.mk.inj hc).2⟩, rfl⟩
    · rintro (⟨k, r, hf, rfl⟩ | ⟨_, rfl⟩)
      · cases hf; exact absurd ⟨rfl, rfl⟩ h0
      · rfl

theorem foldBody_iff (fs : List Field) : ∀ (m m' : TxBodyMsg),
    foldFields TxBodyMsg.step m fs = some m' ↔ ∃ as, List.Forall₂ IsAny (payloads fs 1) as ∧
      AllText (payloads fs 2) ∧ (∀ x ∈ payloads fs 1023, ∃ a, IsAny x a) ∧
      (∀ x ∈ payloads fs 2047, ∃ a, IsAny x a) ∧
      m'.messages = m.messages ++ as ∧ m'.memo = lastOr m.memo (payloads fs 2) ∧
      m'.timeout = lastOr m.timeout ((numbers fs 3).map (BitVec.ofNat 64)) ∧
      (m'.unknown = false ↔ m.unknown = false ∧
        OnlyFields [(1, 2), (2, 2), (3, 0), (1023, 2), (2047, 2)] fs) := by
  induction fs with
  | nil =>
    intro m m'
    obtain ⟨a, b, c, d⟩ := m; obtain ⟨a', b', c', d'⟩ := m'
    simp only [foldFields, lastOr, payloads_nil, numbers_nil, List.forall₂_nil_left_iff, List.map_nil,
      onlyFields_nil, allText_nil, and_true, true_and, Option.some.injEq, TxBodyMsg.mk.injEq]
    constructor
    · rintro ⟨rfl, rfl, rfl, rfl⟩
      exact ⟨[], rfl, by simp, by simp, by simp, rfl, rfl, Iff.rfl⟩
    · rintro ⟨as, rfl, _, _, e1, rfl, rfl, h⟩
      simp only [List.append_nil] at e1
      refine ⟨e1.symm, rfl, rfl, ?_⟩
      cases d <;> cases d' <;> simp at h ⊢
  | cons f fs ih =>
    intro m m'
    rw [foldFields_cons_iff]
    simp only [ih]
    obtain ⟨n, v, raw⟩ := f
    by_cases hw : v.wire = 2
    · cases v <;> simp [FieldVal.wire] at hw
      rename_i b
      simp only [bodyStep_len, payloads_len, onlyFields_cons, FieldVal.wire,
        numbers_other (f := ⟨n, .len b, raw⟩) (by simp [FieldVal.wire])]
      by_cases h1 : n = 1
      · subst h1
        simp only [true_and, List.forall₂_cons_left_iff, if_true, Nat.reduceEqDiff, if_false, false_and,
          or_false, false_or, ne_eq, not_true_eq_false, List.mem_cons, true_or]
        constructor
        · rintro ⟨_, ⟨a, ha, rfl⟩, as, h1, h2, h3, h4, h5, h6⟩
          exact ⟨a :: as, ⟨a, as, ha, h1, rfl⟩, h2, h3, h4, by simp [h5], h6⟩
        · rintro ⟨_, ⟨a, as, ha, h1, rfl⟩, h2, h3, h4, h5, h6⟩
          exact ⟨_, ⟨a, ha, rfl⟩, as, h1, h2, h3, h4, by simp [h5], h6⟩
      · by_cases h2 : n = 2
        · subst h2
          simp only [true_and, if_true, Nat.reduceEqDiff, if_false, false_and, allText_cons, lastOr,
            or_false, false_or, ne_eq, not_true_eq_false, not_false_eq_true, List.mem_cons, Prod.mk.injEq,
            true_or, and_false]
          constructor
          · rintro ⟨_, ⟨hu, rfl⟩, as, h1, h2, h3⟩
            exact ⟨as, h1, ⟨hu, h2⟩, h3⟩
          · rintro ⟨as, h1, ⟨hu, h2⟩, h3⟩
            exact ⟨_, ⟨hu, rfl⟩, as, h1, h2, h3⟩
        · by_cases h3 : n = 1023
          · subst h3
            simp only [true_and, if_true, Nat.reduceEqDiff, if_false, false_and,
              or_false, false_or, ne_eq, not_true_eq_false, not_false_eq_true, List.mem_cons, Prod.mk.injEq,
              true_or, or_true, and_false, forall_eq_or_imp]
            constructor
            · rintro ⟨_, ⟨hu, rfl⟩, as, h1, h2, h3, h4⟩
              exact ⟨as, h1, h2, ⟨hu, h3⟩, h4⟩
            · rintro ⟨as, h1, h2, ⟨hu, h3⟩, h4⟩
              exact ⟨_, ⟨hu, rfl⟩, as, h1, h2, h3, h4⟩
          · by_cases h4 : n = 2047
            · subst h4
              simp only [true_and, if_true, Nat.reduceEqDiff, if_false, false_and,
                or_false, false_or, ne_eq, not_true_eq_false, not_false_eq_true, List.mem_cons, Prod.mk.injEq,
                true_or, or_true, and_false, forall_eq_or_imp]
              constructor
              · rintro ⟨_, ⟨hu, rfl⟩, as, h1, h2, h3, h4, h5⟩
                exact ⟨as, h1, h2, h3, ⟨hu, h4⟩, h5⟩
              · rintro ⟨as, h1, h2, h3, ⟨hu, h4⟩, h5⟩
                exact ⟨_, ⟨hu, rfl⟩, as, h1, h2, h3, h4, h5⟩
            · simp only [h1, h2, h3, h4, if_false, false_and, false_or, ne_eq, not_false_eq_true, and_self,
                true_and, or_self, List.mem_cons, Prod.mk.injEq, List.not_mem_nil, exists_eq_left,
                Bool.true_eq_false, false_and, or_false, OfNat.ofNat_ne_zero, and_false]
    · simp only [bodyStep_other _ ⟨n, v, raw⟩ hw, payloads_other (f := ⟨n, v, raw⟩) hw, onlyFields_cons]
      by_cases h0 : n = 3 ∧ v.wire = 0
      · obtain ⟨rfl, h0⟩ := h0
        cases v <;> simp [FieldVal.wire] at h0
        rename_i k
        simp only [numbers_varint, if_true, List.map_cons, lastOr, FieldVal.wire]
        constructor
        · rintro ⟨_, ⟨_, _, hf, rfl⟩ | ⟨hc, _⟩, as, h⟩
          · cases hf
            refine ⟨as, ?_⟩
            simpa using h
          · exact absurd rfl hc
        · rintro ⟨as, h⟩
          refine ⟨_, .inl ⟨_, _, rfl, rfl⟩, as, ?_⟩
          simpa using h
      · have hn : numbers (⟨n, v, raw⟩ :: fs) 3 = numbers fs 3 := by
          by_cases hz : v.wire = 0
          · cases v <;> simp [FieldVal.wire] at hz
            rw [numbers_varint, if_neg (fun h => h0 ⟨h, rfl⟩)]
          · exact numbers_other (f := ⟨n, v, raw⟩) hz fs 3
        have hne : (n, v.wire) ≠ (3, 0) := fun hc => h0 ⟨(Prod.mk.inj hc).1, (Prod.mk.inj hc).2⟩
        have hk : ¬ (n, v.wire) ∈ [(1, 2), (2, 2), (3, 0), (1023, 2), (2047, 2)] := by
          simp [hw]; exact fun h1 h2 => h0 ⟨h1, h2⟩
        rw [hn]
        constructor
        · rintro ⟨_, ⟨_, _, hf, rfl⟩ | ⟨hc, rfl⟩, as, h⟩
          · cases hf; exact absurd ⟨rfl, rfl⟩ h0
          · exact ⟨as, by simpa [hk] using h⟩
        · rintro ⟨as, h⟩
          exact ⟨_, .inr ⟨hne, rfl⟩, as, by simpa [hk] using h⟩

/-! ## Sign modes -/

theorem Spec.IsMessage.shorter {b : Bytes} {fs : List Field} (h : IsMessage b fs) :
    ∀ k, ∀ c ∈ payloads fs k, c.length < b.length := by
  induction h with
  | nil => intro k c hc; simp at hc
  | @cons num v t x b fs hn ht hx hb ih =>
    intro k c hc
    have hp := List.length_pos_iff.2 ht.ne_nil
    simp only [List.length_append]
    by_cases hw : v.wire = 2
    · cases v <;> simp [FieldVal.wire] at hw
      rename_i y
      rw [payloads_len] at hc
      have hx' : c = y ∨ c ∈ payloads fs k := by
        split at hc
        · exact List.mem_cons.1 hc
        · exact .inr hc
      rcases hx' with rfl | hc
      · cases hx with
        | scalar hs => cases hs with | len hv => simp only [List.length_append]; omega
      · have := ih k c hc; omega
    · rw [payloads_other (f := ⟨num, v, x⟩) hw] at hc
      have := ih k c hc; omega

/-- A list of sign modes has to parse. -/
def MultiOk (b : Bytes) : Prop := ∃ gs, IsMessage b gs ∧ (∀ c ∈ payloads gs 1, ∃ hs, IsMessage c hs) ∧
  ∀ c ∈ payloads gs 2, ∃ hs, IsMessage c hs ∧ ModeParses hs

theorem modeParses_iff (fs : List Field) : ModeParses fs ↔
    (∀ b ∈ payloads fs 1, ∃ gs, IsMessage b gs) ∧ ∀ b ∈ payloads fs 2, MultiOk b := by
  constructor
  · rintro ⟨ss, ms, ns, bs, h1, h2, h3, h4, h5⟩
    exact ⟨fun b hb => ⟨_, h1 b hb⟩, fun b hb => ⟨ms b, h2 b hb, fun c hc => ⟨_, h3 b hb c hc⟩,
      fun c hc => ⟨ns c, h4 b hb c hc, h5 b hb c hc⟩⟩⟩
  · rintro ⟨h1, h2⟩
    have key : ∀ b, (∃ gs, IsMessage b gs) → IsMessage b ((fields b).getD []) := by
      rintro b ⟨gs, h⟩
      rw [(fields_iff _ _).2 h]; exact h
    have same : ∀ {b gs}, IsMessage b gs → (fields b).getD [] = gs := by
      intro b gs h
      rw [(fields_iff _ _).2 h]; rfl
    refine .mk (fun b => (fields b).getD []) (fun b => (fields b).getD []) (fun b => (fields b).getD [])
      (fun b => (fields b).getD []) (fun b hb => key b (h1 b hb)) ?_ ?_ ?_ ?_
    · intro b hb; obtain ⟨gs, h, _⟩ := h2 b hb; exact key b ⟨gs, h⟩
    · intro b hb c hc
      obtain ⟨gs, h, h3, _⟩ := h2 b hb
      rw [same h] at hc
      exact key c (h3 c hc)
    · intro b hb c hc
      obtain ⟨gs, h, _, h4⟩ := h2 b hb
      rw [same h] at hc
      obtain ⟨hs, hh, _⟩ := h4 c hc
      exact key c ⟨hs, hh⟩
    · intro b hb c hc
      obtain ⟨gs, h, _, h4⟩ := h2 b hb
      rw [same h] at hc
      obtain ⟨hs, hh, hm⟩ := h4 c hc
      rw [same hh]; exact hm

theorem modeParses_append (fs gs : List Field) : ModeParses (fs ++ gs) ↔ ModeParses fs ∧ ModeParses gs := by
  simp only [modeParses_iff, payloads_append, List.mem_append, or_imp, forall_and]
  constructor
  · rintro ⟨⟨a, b⟩, c, d⟩; exact ⟨⟨a, c⟩, b, d⟩
  · rintro ⟨⟨a, c⟩, b, d⟩; exact ⟨⟨a, b⟩, c, d⟩

theorem all_fields (fs : List Field) (p q : Bytes → Bool) (r : Field → Bool)
    (h1 : ∀ b raw, r ⟨1, .len b, raw⟩ = p b) (h2 : ∀ b raw, r ⟨2, .len b, raw⟩ = q b)
    (h3 : ∀ f, (f.num, f.val.wire) ≠ (1, 2) → (f.num, f.val.wire) ≠ (2, 2) → r f = true) :
    fs.all r = true ↔ (∀ b ∈ payloads fs 1, p b = true) ∧ ∀ b ∈ payloads fs 2, q b = true := by
  induction fs with
  | nil => simp
  | cons f fs ih =>
    rw [List.all_cons, Bool.and_eq_true, ih]
    obtain ⟨n, v, raw⟩ := f
    by_cases hw : v.wire = 2
    · cases v <;> simp [FieldVal.wire] at hw
      simp only [payloads_len]
      by_cases e1 : n = 1
      · subst e1
        simp [h1, and_assoc]
      · by_cases e2 : n = 2
        · subst e2
          simp only [h2, Nat.reduceEqDiff, if_false, if_true, List.mem_cons, forall_eq_or_imp]
          constructor
          · rintro ⟨a, b, c⟩; exact ⟨b, a, c⟩
          · rintro ⟨b, a, c⟩; exact ⟨a, b, c⟩
        · rw [h3 _ (by simp [e1]) (by simp [e2])]
          simp [e1, e2]
    · rw [payloads_other (f := ⟨n, v, raw⟩) hw, payloads_other (f := ⟨n, v, raw⟩) hw,
        h3 _ (by simp [hw]) (by simp [hw])]
      simp

theorem fields_isSome (b : Bytes) : (fields b).isSome = true ↔ ∃ gs, IsMessage b gs := by
  rw [Option.isSome_iff_exists]
  simp only [fields_iff]

theorem multi_all (fuel : Nat) (b : Bytes)
    (ih : ∀ c : Bytes, c.length < b.length → (modeInfoParses fuel c = true ↔ ∃ hs, IsMessage c hs ∧ ModeParses hs)) :
    (match fields b with
      | none => false
      | some gs => gs.all fun g => match g.num, g.val with
        | 1, .len c => (fields c).isSome
        | 2, .len c => modeInfoParses fuel c
        | _, _ => true) = true ↔ MultiOk b := by
  cases hf : fields b with
  | none =>
    simp only [Bool.false_eq_true, false_iff]
    rintro ⟨gs, h, _⟩
    rw [(fields_iff _ _).2 h] at hf; simp at hf
  | some gs =>
    have hm := (fields_iff _ _).1 hf
    simp only
    rw [all_fields gs (fun c => (fields c).isSome) (fun c => modeInfoParses fuel c) _ (fun _ _ => rfl) (fun _ _ => rfl)]
    · constructor
      · rintro ⟨h1, h2⟩
        exact ⟨gs, hm, fun c hc => (fields_isSome c).1 (h1 c hc), fun c hc => (ih c (hm.shorter 2 c hc)).1 (h2 c hc)⟩
      · rintro ⟨gs', hm', h1, h2⟩
        obtain rfl := hm.unique hm'
        exact ⟨fun c hc => (fields_isSome c).2 (h1 c hc), fun c hc => (ih c (hm.shorter 2 c hc)).2 (h2 c hc)⟩
    · intro f h1 h2
      obtain ⟨n, v, raw⟩ := f
      simp only
      split <;> simp_all [FieldVal.wire]

theorem modeInfoParses_iff : ∀ (fuel : Nat) (b : Bytes), b.length < fuel →
    (modeInfoParses fuel b = true ↔ ∃ fs, IsMessage b fs ∧ ModeParses fs)
  | 0, b, h => by omega
  | fuel + 1, b, h => by
    rw [modeInfoParses]
    cases hf : fields b with
    | none =>
      simp only [Bool.false_eq_true, false_iff]
      rintro ⟨gs, h, _⟩
      rw [(fields_iff _ _).2 h] at hf; simp at hf
    | some gs =>
      have hm := (fields_iff _ _).1 hf
      simp only
      rw [all_fields gs (fun c => (fields c).isSome) (fun b => match fields b with
        | none => false
        | some gs => gs.all fun g => match g.num, g.val with
          | 1, .len c => (fields c).isSome
          | 2, .len c => modeInfoParses fuel c
          | _, _ => true) _ (fun _ _ => rfl) (fun _ _ => rfl)]
      · have e : (∀ c ∈ payloads gs 2, (match fields c with
            | none => false
            | some gs => gs.all fun g => match g.num, g.val with
              | 1, .len c => (fields c).isSome
              | 2, .len c => modeInfoParses fuel c
              | _, _ => true) = true) ↔ ∀ c ∈ payloads gs 2, MultiOk c := by
          constructor <;> intro h' c hc
          · exact (multi_all fuel c fun d hd => modeInfoParses_iff fuel d
              (by have := hm.shorter 2 c hc; omega)).1 (h' c hc)
          · exact (multi_all fuel c fun d hd => modeInfoParses_iff fuel d
              (by have := hm.shorter 2 c hc; omega)).2 (h' c hc)
        rw [e]
        constructor
        · rintro ⟨h1, h2⟩
          exact ⟨gs, hm, (modeParses_iff _).2 ⟨fun c hc => (fields_isSome c).1 (h1 c hc), h2⟩⟩
        · rintro ⟨gs', hm', h'⟩
          obtain rfl := hm.unique hm'
          obtain ⟨h1, h2⟩ := (modeParses_iff _).1 h'
          exact ⟨fun c hc => (fields_isSome c).2 (h1 c hc), h2⟩
      · intro f h1 h2
        obtain ⟨n, v, raw⟩ := f
        simp only
        split <;> simp_all [FieldVal.wire]

theorem multiParses_iff (b : Bytes) : multiParses b = true ↔ MultiOk b :=
  multi_all (b.length + 1) b fun c hc => modeInfoParses_iff _ c (by omega)

theorem Spec.AreParts.unique {l : List Bytes} : ∀ {fs gs : List Field}, AreParts l fs → AreParts l gs → fs = gs := by
  induction l with
  | nil => intro fs gs h h'; rw [areParts_nil] at h h'; rw [h, h']
  | cons b l ih =>
    intro fs gs h h'
    obtain ⟨f1, f2, h1, h2, rfl⟩ := (areParts_cons _ _ _).1 h
    obtain ⟨g1, g2, k1, k2, rfl⟩ := (areParts_cons _ _ _).1 h'
    rw [h1.unique k1, ih h2 k2]

theorem areParts_append (l k : List Bytes) (fs : List Field) :
    AreParts (l ++ k) fs ↔ ∃ gs hs, AreParts l gs ∧ AreParts k hs ∧ fs = gs ++ hs := by
  induction l generalizing fs with
  | nil =>
    simp only [List.nil_append, areParts_nil]
    constructor
    · intro h; exact ⟨[], fs, rfl, h, rfl⟩
    · rintro ⟨_, hs, rfl, h, rfl⟩; exact h
  | cons b l ih =>
    simp only [List.cons_append, areParts_cons, ih]
    constructor
    · rintro ⟨g1, _, h1, ⟨g2, g3, h2, h3, rfl⟩, rfl⟩
      exact ⟨g1 ++ g2, g3, ⟨g1, g2, h1, h2, rfl⟩, h3, by simp⟩
    · rintro ⟨_, g3, ⟨g1, g2, h1, h2, rfl⟩, h3, rfl⟩
      exact ⟨g1, g2 ++ g3, h1, ⟨g2, g3, h2, h3, rfl⟩, by simp⟩

theorem areParts_exists (l : List Bytes) (h : ∀ b ∈ l, ∃ gs, IsMessage b gs) : ∃ fs, AreParts l fs := by
  induction l with
  | nil => exact ⟨[], by simp⟩
  | cons b l ih =>
    obtain ⟨gs, hg⟩ := h b (by simp)
    obtain ⟨hs, hh⟩ := ih fun c hc => h c (List.mem_cons_of_mem _ hc)
    exact ⟨gs ++ hs, (areParts_cons _ _ _).2 ⟨gs, hs, hg, hh, rfl⟩⟩

theorem lastOr_map {α β : Type} (f : α → β) (d : α) (l : List α) : lastOr (f d) (l.map f) = f (lastOr d l) := by
  induction l generalizing d with
  | nil => rfl
  | cons x l ih => simp [lastOr, ih]

theorem foldSingle_eq (gs : List Field) : ∀ m, foldFields singleStep m gs =
    some (lastOr m ((numbers gs 1).map (· % 4294967296))) := by
  induction gs with
  | nil => intro m; simp [foldFields, lastOr]
  | cons f gs ih =>
    intro m
    obtain ⟨n, v, raw⟩ := f
    by_cases h : n = 1 ∧ v.wire = 0
    · obtain ⟨rfl, h⟩ := h
      cases v <;> simp [FieldVal.wire] at h
      simp [foldFields, singleStep, numbers_varint, lastOr, ih]
    · have e : singleStep m ⟨n, v, raw⟩ = some m := by
        unfold singleStep; split <;> simp_all [FieldVal.wire]
      have hn : numbers (⟨n, v, raw⟩ :: gs) 1 = numbers gs 1 := by
        by_cases hz : v.wire = 0
        · cases v <;> simp [FieldVal.wire] at hz
          rw [numbers_varint, if_neg (fun h' => h ⟨h', rfl⟩)]
        · exact numbers_other (f := ⟨n, v, raw⟩) hz gs 1
      rw [foldFields, e, hn]
      exact ih m

/-- The fields after the last list of modes. -/
def sinceMulti (fs : List Field) : List Field :=
  (fs.reverse.takeWhile fun f => (f.num, f.val.wire) ≠ (2, 2)).reverse

theorem sinceMulti_append (fs : List Field) (f : Field) : sinceMulti (fs ++ [f]) =
    if (f.num, f.val.wire) = (2, 2) then [] else sinceMulti fs ++ [f] := by
  by_cases h : (f.num, f.val.wire) = (2, 2)
  · have : (decide ((f.num, f.val.wire) ≠ (2, 2))) = false := decide_eq_false (fun hn => hn h)
    simp only [sinceMulti, List.reverse_append, List.reverse_cons, List.reverse_nil, List.nil_append,
      List.singleton_append, List.takeWhile_cons, this, if_pos h]
    rfl
  · have : (decide ((f.num, f.val.wire) ≠ (2, 2))) = true := decide_eq_true h
    simp only [sinceMulti, List.reverse_append, List.reverse_cons, List.reverse_nil, List.nil_append,
      List.singleton_append, List.takeWhile_cons, this, if_true, if_neg h]

theorem sinceMulti_sub (fs : List Field) : ∀ f ∈ sinceMulti fs, f ∈ fs := by
  intro f hf
  simp only [sinceMulti, List.mem_reverse] at hf
  simpa using (List.takeWhile_sublist _).subset hf

/-- What the sign mode is after some fields. -/
def ModeIs (fs : List Field) : ModeInfoMsg → Prop
  | .unset => payloads (sinceMulti fs) 1 = []
  | .multi => payloads (sinceMulti fs) 1 = []
  | .single n => payloads (sinceMulti fs) 1 ≠ [] ∧
    ∃ gs, AreParts (payloads (sinceMulti fs) 1) gs ∧ n = lastOr 0 (numbers gs 1) % 4294967296

theorem modeStep_len (m : ModeInfoMsg) (n : Nat) (b raw : Bytes) (m' : ModeInfoMsg) :
    ModeInfoMsg.step m ⟨n, .len b, raw⟩ = some m' ↔
    (n = 1 ∧ ∃ gs, IsMessage b gs ∧ m' = .single (lastOr m.current
      ((numbers gs 1).map (· % 4294967296)))) ∨
    (n = 2 ∧ MultiOk b ∧ m' = .multi) ∨ (n ≠ 1 ∧ n ≠ 2 ∧ m' = m) := by
  by_cases h1 : n = 1
  · subst h1
    simp only [ModeInfoMsg.step]
    have := mergeInto_iff singleStep m.current b
    simp only [foldSingle_eq, Option.some.injEq] at this
    cases hm : mergeInto singleStep m.current b with
    | none =>
      simp only [reduceCtorEq, true_and, Nat.reduceEqDiff, false_and, ne_eq, not_true_eq_false, or_self, or_false,
        false_iff]
      rintro ⟨gs, hg, _⟩
      have := (this _).2 ⟨gs, hg, rfl⟩
      rw [hm] at this; simp at this
    | some k =>
      obtain ⟨gs, hg, e⟩ := (this k).1 hm
      simp only [Option.some.injEq, true_and, Nat.reduceEqDiff, false_and, ne_eq, not_true_eq_false, or_self, or_false]
      constructor
      · rintro rfl; exact ⟨gs, hg, by rw [← e]⟩
      · rintro ⟨gs', hg', rfl⟩
        obtain rfl := hg.unique hg'
        rw [← e]
  · by_cases h2 : n = 2
    · subst h2
      simp only [ModeInfoMsg.step]
      by_cases hu : MultiOk b
      · rw [if_pos ((multiParses_iff b).2 hu)]; simp [hu]; exact eq_comm
      · rw [if_neg (fun h => hu ((multiParses_iff b).1 h))]; simp [hu]
    · have e : ModeInfoMsg.step m ⟨n, .len b, raw⟩ = some m := by
        unfold ModeInfoMsg.step; split <;> simp_all
      rw [e]; simp [h1, h2]; exact eq_comm

theorem modeStep_other (m : ModeInfoMsg) (f : Field) (h : f.val.wire ≠ 2) : ModeInfoMsg.step m f = some m := by
  unfold ModeInfoMsg.step; split <;> simp_all [FieldVal.wire]

theorem modeParses_cons (f : Field) (fs : List Field) : ModeParses (f :: fs) ↔ ModeParses [f] ∧ ModeParses fs := by
  rw [← List.singleton_append, modeParses_append]

theorem modeParses_len (n : Nat) (b raw : Bytes) : ModeParses [⟨n, .len b, raw⟩] ↔
    (n = 1 → ∃ gs, IsMessage b gs) ∧ (n = 2 → MultiOk b) := by
  rw [modeParses_iff]
  simp only [payloads_len]
  by_cases h1 : n = 1
  · subst h1; simp
  · by_cases h2 : n = 2
    · subst h2; simp
    · simp [h1, h2]

theorem modeParses_other (f : Field) (h : f.val.wire ≠ 2) : ModeParses [f] := by
  rw [modeParses_iff]; simp [payloads_other h]

theorem foldMode_exists (fs : List Field) : ∀ m, ModeParses fs → ∃ m', foldFields ModeInfoMsg.step m fs = some m' := by
  induction fs with
  | nil => intro m _; exact ⟨m, rfl⟩
  | cons f fs ih =>
    intro m h
    obtain ⟨h1, h2⟩ := (modeParses_cons _ _).1 h
    have : ∃ t, ModeInfoMsg.step m f = some t := by
      obtain ⟨n, v, raw⟩ := f
      by_cases hw : v.wire = 2
      · cases v <;> simp [FieldVal.wire] at hw
        rename_i b
        obtain ⟨k1, k2⟩ := (modeParses_len _ _ _).1 h1
        by_cases e1 : n = 1
        · obtain ⟨gs, hg⟩ := k1 e1
          exact ⟨_, (modeStep_len m n b raw _).2 (.inl ⟨e1, gs, hg, rfl⟩)⟩
        · by_cases e2 : n = 2
          · exact ⟨_, (modeStep_len m n b raw _).2 (.inr (.inl ⟨e2, k2 e2, rfl⟩))⟩
          · exact ⟨_, (modeStep_len m n b raw _).2 (.inr (.inr ⟨e1, e2, rfl⟩))⟩
      · exact ⟨_, modeStep_other m _ hw⟩
    obtain ⟨t, ht⟩ := this
    obtain ⟨m', hm'⟩ := ih t h2
    exact ⟨m', (foldFields_cons_iff _ _ _ _ _).2 ⟨t, ht, hm'⟩⟩

theorem foldMode_is (fs : List Field) : ∀ m, foldFields ModeInfoMsg.step .unset fs = some m →
    ModeParses fs ∧ ModeIs fs m := by
  induction fs using List.reverseRecOn with
  | nil =>
    intro m h
    rw [foldFields_nil_iff] at h
    subst h
    exact ⟨(modeParses_iff _).2 (by simp), by simp [ModeIs, sinceMulti]⟩
  | append_singleton fs f ih =>
    intro m h
    obtain ⟨t, h1, h2⟩ := (foldFields_append_iff _ _ _ _ _).1 h
    obtain ⟨hp, hi⟩ := ih t h1
    rw [foldFields_cons_iff] at h2
    obtain ⟨m2, h2, h3⟩ := h2
    rw [foldFields_nil_iff] at h3
    subst h3
    rw [modeParses_append]
    obtain ⟨n, v, raw⟩ := f
    by_cases hw : v.wire = 2
    · cases v <;> simp [FieldVal.wire] at hw
      rename_i b
      rw [modeParses_len]
      rcases (modeStep_len t n b raw m2).1 h2 with ⟨rfl, gs, hg, rfl⟩ | ⟨rfl, hm, rfl⟩ | ⟨e1, e2, rfl⟩
      · refine ⟨⟨hp, fun _ => ⟨gs, hg⟩, by simp⟩, ?_⟩
        have e : sinceMulti (fs ++ [⟨1, .len b, raw⟩]) = sinceMulti fs ++ [⟨1, .len b, raw⟩] := by
          rw [sinceMulti_append, if_neg (by simp [FieldVal.wire])]
        simp only [ModeIs, e, payloads_append, payloads_len, payloads_nil, if_true]
        refine ⟨by simp, ?_⟩
        cases t with
        | unset =>
          simp only [ModeIs] at hi
          rw [hi]
          refine ⟨gs, (areParts_append _ _ _).2 ⟨[], gs, by simp, ?_, by simp⟩, ?_⟩
          · exact (areParts_cons _ _ _).2 ⟨gs, [], hg, by simp, by simp⟩
          · exact lastOr_map (· % 4294967296) 0 _
        | multi =>
          simp only [ModeIs] at hi
          rw [hi]
          refine ⟨gs, (areParts_append _ _ _).2 ⟨[], gs, by simp, ?_, by simp⟩, ?_⟩
          · exact (areParts_cons _ _ _).2 ⟨gs, [], hg, by simp, by simp⟩
          · exact lastOr_map (· % 4294967296) 0 _
        | single k =>
          obtain ⟨_, hs, hh, rfl⟩ := hi
          refine ⟨hs ++ gs, (areParts_append _ _ _).2 ⟨hs, gs, hh, ?_, rfl⟩, ?_⟩
          · exact (areParts_cons _ _ _).2 ⟨gs, [], hg, by simp, by simp⟩
          · rw [numbers_append, lastOr_append]
            exact lastOr_map (· % 4294967296) _ _
      · refine ⟨⟨hp, by simp, fun _ => hm⟩, ?_⟩
        simp [ModeIs, sinceMulti_append, FieldVal.wire]
      · refine ⟨⟨hp, fun h => absurd h e1, fun h => absurd h e2⟩, ?_⟩
        have : payloads (sinceMulti (fs ++ [⟨n, .len b, raw⟩])) 1 = payloads (sinceMulti fs) 1 := by
          rw [sinceMulti_append, if_neg (by simp [e2]), payloads_append, payloads_len]
          simp [e1]
        cases m2 <;> simp only [ModeIs, this] at hi ⊢ <;> exact hi
    · rw [modeStep_other t _ hw] at h2
      cases h2
      refine ⟨⟨hp, modeParses_other _ hw⟩, ?_⟩
      have : payloads (sinceMulti (fs ++ [⟨n, v, raw⟩])) 1 = payloads (sinceMulti fs) 1 := by
        rw [sinceMulti_append, if_neg (by simp [hw]), payloads_append, payloads_other (f := ⟨n, v, raw⟩) hw]
        simp
      cases t <;> simp only [ModeIs, this] at hi ⊢ <;> exact hi

/-- The sign mode is direct iff it is read as such. -/
theorem foldMode_direct {fs : List Field} {m : ModeInfoMsg} (h : foldFields ModeInfoMsg.step .unset fs = some m) :
    Direct fs ↔ m = .single 1 := by
  obtain ⟨_, hi⟩ := foldMode_is fs m h
  have hd : Direct fs ↔ payloads (sinceMulti fs) 1 ≠ [] ∧
    ∃ gs, AreParts (payloads (sinceMulti fs) 1) gs ∧ lastOr 0 (numbers gs 1) % 4294967296 = 1 := Iff.rfl
  rw [hd]
  cases m with
  | unset => simp only [ModeIs] at hi; simp [hi]
  | multi => simp only [ModeIs] at hi; simp [hi]
  | single k =>
    obtain ⟨h1, gs, hg, rfl⟩ := hi
    simp only [ModeInfoMsg.single.injEq]
    constructor
    · rintro ⟨_, gs', hg', e⟩
      rwa [hg.unique hg']
    · intro e; exact ⟨h1, gs, hg, e⟩

/-! ## Message fields and repeated fields -/

/-- What a message field is after the given parts. -/
def Merged {σ : Type} (sub : σ → Field → Option σ) (d : σ) (o : Option σ) (l : List Bytes) (o' : Option σ) : Prop :=
  ∃ ks a, AreParts l ks ∧ foldFields sub (o.getD d) ks = some a ∧ o' = if l = [] then o else some a

theorem merged_nil {σ : Type} (sub : σ → Field → Option σ) (d : σ) (o o' : Option σ) :
    Merged sub d o [] o' ↔ o' = o := by
  constructor
  · rintro ⟨ks, a, _, _, h⟩; simpa using h
  · rintro rfl; exact ⟨[], _, by simp, rfl, by simp⟩

theorem merged_cons {σ : Type} (sub : σ → Field → Option σ) (d : σ) (o : Option σ) (b : Bytes) (l : List Bytes)
    (o' : Option σ) : Merged sub d o (b :: l) o' ↔
    ∃ a, mergeInto sub (o.getD d) b = some a ∧ Merged sub d (some a) l o' := by
  simp only [mergeInto_iff]
  constructor
  · rintro ⟨_, a, hp, hf, ho⟩
    obtain ⟨gs, hs, hg, hh, rfl⟩ := (areParts_cons _ _ _).1 hp
    obtain ⟨t, h1, h2⟩ := (foldFields_append_iff _ _ _ _ _).1 hf
    refine ⟨t, ⟨gs, hg, h1⟩, hs, a, hh, h2, ?_⟩
    rw [if_neg (by simp)] at ho
    split
    · subst_vars
      rw [areParts_nil] at hh
      subst hh
      rw [foldFields_nil_iff] at h2
      rw [h2]
    · exact ho
  · rintro ⟨t, ⟨gs, hg, h1⟩, hs, a, hh, h2, ho⟩
    refine ⟨gs ++ hs, a, (areParts_cons _ _ _).2 ⟨gs, hs, hg, hh, rfl⟩,
      (foldFields_append_iff _ _ _ _ _).2 ⟨t, h1, h2⟩, ?_⟩
    rw [if_neg (by simp)]
    split at ho
    · subst_vars
      rw [areParts_nil] at hh
      subst hh
      rw [foldFields_nil_iff] at h2
      exact congrArg some h2
    · exact ho

/-- What a repeated field is after the given elements. -/
def Appended {α : Type} (P : Bytes → α → Prop) (xs : List α) (l : List Bytes) (xs' : List α) : Prop :=
  ∃ as, List.Forall₂ P l as ∧ xs' = xs ++ as

theorem appended_nil {α : Type} (P : Bytes → α → Prop) (xs xs' : List α) :
    Appended P xs [] xs' ↔ xs' = xs := by
  constructor
  · rintro ⟨as, h, rfl⟩; cases h; simp
  · rintro rfl; exact ⟨[], .nil, by simp⟩

theorem appended_cons {α : Type} (P : Bytes → α → Prop) (xs : List α) (b : Bytes) (l : List Bytes) (xs' : List α) :
    Appended P xs (b :: l) xs' ↔ ∃ a, P b a ∧ Appended P (xs ++ [a]) l xs' := by
  constructor
  · rintro ⟨_, h, rfl⟩
    cases h with
    | @cons _ a _ as h1 h2 => exact ⟨a, h1, as, h2, by simp⟩
  · rintro ⟨a, h1, as, h2, rfl⟩
    exact ⟨a :: as, .cons h1 h2, by simp⟩

/-! ## Signers -/

theorem signerStep_len (m : SignerInfoMsg) (n : Nat) (b raw : Bytes) (m' : SignerInfoMsg) :
    SignerInfoMsg.step m ⟨n, .len b, raw⟩ = some m' ↔
    (n = 1 ∧ ∃ a, mergeInto AnyMsg.step (m.publicKey.getD ⟨[], []⟩) b = some a ∧ m' = { m with publicKey := some a }) ∨
    (n = 2 ∧ ∃ a, mergeInto ModeInfoMsg.step (m.modeInfo.getD .unset) b = some a ∧ m' = { m with modeInfo := some a }) ∨
    (n ≠ 1 ∧ n ≠ 2 ∧ m' = m) := by
  by_cases h1 : n = 1
  · subst h1; simp only [SignerInfoMsg.step]
    cases mergeInto AnyMsg.step (m.publicKey.getD ⟨[], []⟩) b <;> simp; exact eq_comm
  · by_cases h2 : n = 2
    · subst h2; simp only [SignerInfoMsg.step]
      cases mergeInto ModeInfoMsg.step (m.modeInfo.getD .unset) b <;> simp; exact eq_comm
    · have e : SignerInfoMsg.step m ⟨n, .len b, raw⟩ = some m := by
        unfold SignerInfoMsg.step; split <;> simp_all
      rw [e]; simp [h1, h2]; exact eq_comm

theorem signerStep_varint (m : SignerInfoMsg) (k : Nat) (raw : Bytes) :
    SignerInfoMsg.step m ⟨3, .varint k, raw⟩ = some { m with sequence := BitVec.ofNat 64 k } := rfl

theorem signerStep_other (m : SignerInfoMsg) (f : Field) (h : f.val.wire ≠ 2) (h' : (f.num, f.val.wire) ≠ (3, 0)) :
    SignerInfoMsg.step m f = some m := by
  unfold SignerInfoMsg.step; split <;> simp_all [FieldVal.wire]

theorem numbers_ne {f : Field} {k : Nat} (h : (f.num, f.val.wire) ≠ (k, 0)) (fs : List Field) :
    numbers (f :: fs) k = numbers fs k := by
  obtain ⟨n, v, raw⟩ := f
  by_cases hz : v.wire = 0
  · cases v <;> simp [FieldVal.wire] at hz
    rw [numbers_varint, if_neg (fun h' => h (by rw [h']; rfl))]
  · exact numbers_other (f := ⟨n, v, raw⟩) hz fs k

theorem foldSigner_iff (fs : List Field) : ∀ (m m' : SignerInfoMsg),
    foldFields SignerInfoMsg.step m fs = some m' ↔
      Merged AnyMsg.step ⟨[], []⟩ m.publicKey (payloads fs 1) m'.publicKey ∧
      Merged ModeInfoMsg.step .unset m.modeInfo (payloads fs 2) m'.modeInfo ∧
      m'.sequence = lastOr m.sequence ((numbers fs 3).map (BitVec.ofNat 64)) := by
  induction fs with
  | nil =>
    intro m m'
    obtain ⟨a, b, c⟩ := m; obtain ⟨a', b', c'⟩ := m'
    simp only [foldFields_nil_iff, payloads_nil, numbers_nil, merged_nil, List.map_nil, lastOr,
      SignerInfoMsg.mk.injEq]
    constructor <;> rintro ⟨rfl, rfl, rfl⟩ <;> exact ⟨rfl, rfl, rfl⟩
  | cons f fs ih =>
    intro m m'
    rw [foldFields_cons_iff]
    simp only [ih]
    obtain ⟨n, v, raw⟩ := f
    by_cases hw : v.wire = 2
    · cases v <;> simp [FieldVal.wire] at hw
      rename_i b
      simp only [signerStep_len, payloads_len,
        numbers_other (f := ⟨n, .len b, raw⟩) (show FieldVal.wire (.len b) ≠ 0 by simp [FieldVal.wire])]
      by_cases h1 : n = 1
      · subst h1
        simp only [true_and, Nat.reduceEqDiff, false_and, ne_eq, not_true_eq_false, or_false, if_true, if_false,
          merged_cons]
        constructor
        · rintro ⟨_, ⟨a, h1, rfl⟩, h2, h3⟩; exact ⟨⟨a, h1, h2⟩, h3⟩
        · rintro ⟨⟨a, h1, h2⟩, h3⟩; exact ⟨_, ⟨a, h1, rfl⟩, h2, h3⟩
      · by_cases h2 : n = 2
        · subst h2
          simp only [true_and, Nat.reduceEqDiff, false_and, ne_eq, not_true_eq_false, or_false, if_true, if_false,
            merged_cons, false_or, and_false]
          constructor
          · rintro ⟨_, ⟨a, h1, rfl⟩, h2, h3, h4⟩; exact ⟨h2, ⟨a, h1, h3⟩, h4⟩
          · rintro ⟨h2, ⟨a, h1, h3⟩, h4⟩; exact ⟨_, ⟨a, h1, rfl⟩, h2, h3, h4⟩
        · simp [h1, h2]
    · simp only [payloads_other (f := ⟨n, v, raw⟩) hw]
      by_cases h0 : (n, v.wire) = (3, 0)
      · obtain ⟨rfl, h0⟩ := Prod.mk.inj h0
        cases v <;> simp [FieldVal.wire] at h0
        simp [signerStep_varint, numbers_varint, lastOr]
      · simp [signerStep_other m ⟨n, v, raw⟩ hw h0, numbers_ne (f := ⟨n, v, raw⟩) h0]

/-- A signer of the transaction as the decoder reads it, and what is said about it. -/
def SignerRead (m : SignerInfoMsg) (s : SignerInfo) : Prop :=
  m.publicKey.getD ⟨[], []⟩ = s.key ∧ (s.direct = true ↔ m.modeInfo = some (.single 1)) ∧ m.sequence = s.sequence

theorem parseSigner_sound {b : Bytes} {m : SignerInfoMsg} (h : parseSignerInfo b = some m) :
    ∃ s, IsSignerInfo b s ∧ SignerRead m s := by
  obtain ⟨fs, hf, h⟩ := (mergeInto_iff _ _ _ _).1 h
  obtain ⟨⟨ks, a, h1, h2, h3⟩, ⟨ms, x, h4, h5, h6⟩, h7⟩ := (foldSigner_iff _ _ _).1 h
  have hx := foldMode_is _ _ h5
  have hd := foldMode_direct h5
  have ha := (foldAny_iff _ _ _).1 h2
  have hseq : m.sequence = BitVec.ofNat 64 (lastOr 0 (numbers fs 3)) := by
    rw [h7]; exact lastOr_map (BitVec.ofNat 64) 0 _
  refine ⟨⟨a, decide (x = .single 1), m.sequence⟩, ⟨fs, ks, ms, hf, h1, ha, h4, hx.1, ?_, hseq⟩, ?_, ?_, rfl⟩
  · rw [decide_eq_true_iff]; exact hd.symm
  · rw [h3]
    split
    · rename_i e
      rw [e, areParts_nil] at h1
      subst h1
      simpa [foldFields] using h2
    · rfl
  · rw [decide_eq_true_iff, h6]
    split
    · rename_i e
      rw [e, areParts_nil] at h4
      subst h4
      rw [foldFields_nil_iff] at h5
      subst h5
      simp
    · simp

theorem parseSigner_complete {b : Bytes} {s : SignerInfo} (h : IsSignerInfo b s) :
    ∃ m, parseSignerInfo b = some m ∧ SignerRead m s := by
  obtain ⟨fs, ks, ms, hf, h1, ha, h4, hm, hd, hs⟩ := h
  have h2 := (foldAny_iff ks ⟨[], []⟩ s.key).2 ha
  obtain ⟨x, h5⟩ := foldMode_exists ms .unset hm
  have hp : parseSignerInfo b = some ⟨if payloads fs 1 = [] then none else some s.key,
      if payloads fs 2 = [] then none else some x, s.sequence⟩ := by
    refine (mergeInto_iff _ _ _ _).2 ⟨fs, hf, (foldSigner_iff _ _ _).2 ⟨⟨ks, _, h1, h2, rfl⟩, ⟨ms, x, h4, h5, rfl⟩, ?_⟩⟩
    rw [hs]; exact (lastOr_map (BitVec.ofNat 64) 0 _).symm
  refine ⟨_, hp, ?_, ?_, rfl⟩
  · simp only
    split
    · rename_i e
      rw [e, areParts_nil] at h1
      subst h1
      simpa [foldFields] using h2
    · rfl
  · rw [hd, foldMode_direct h5]
    simp only
    split
    · rename_i e
      rw [e, areParts_nil] at h4
      subst h4
      rw [foldFields_nil_iff] at h5
      subst h5
      simp
    · simp

/-! ## Fees and the authentication part -/

theorem feeStep_len (m : FeeMsg) (n : Nat) (b raw : Bytes) (m' : FeeMsg) :
    FeeMsg.step m ⟨n, .len b, raw⟩ = some m' ↔
    (n = 1 ∧ ∃ c, IsCoin b c ∧ m' = { m with amount := m.amount ++ [c] }) ∨
    (n = 3 ∧ validUtf8 b = true ∧ m' = { m with payer := b }) ∨
    (n = 4 ∧ validUtf8 b = true ∧ m' = m) ∨ ((n ≠ 1 ∧ n ≠ 3 ∧ n ≠ 4) ∧ m' = m) := by
  simp only [← parseCoin_iff]
  by_cases h1 : n = 1
  · subst h1; simp only [FeeMsg.step]; cases parseCoin b <;> simp; exact eq_comm
  · by_cases h2 : n = 3
    · subst h2; simp only [FeeMsg.step]; by_cases hu : validUtf8 b = true <;> simp [hu]; exact eq_comm
    · by_cases h3 : n = 4
      · subst h3; simp only [FeeMsg.step]; by_cases hu : validUtf8 b = true <;> simp [hu]; exact eq_comm
      · have e : FeeMsg.step m ⟨n, .len b, raw⟩ = some m := by
          unfold FeeMsg.step; split <;> simp_all
        rw [e]; simp [h1, h2, h3]; exact eq_comm

theorem feeStep_other (m : FeeMsg) (f : Field) (h : f.val.wire ≠ 2) : FeeMsg.step m f = some m := by
  unfold FeeMsg.step; split <;> simp_all [FieldVal.wire]

theorem foldFee_iff (fs : List Field) : ∀ (m m' : FeeMsg), foldFields FeeMsg.step m fs = some m' ↔
    Appended IsCoin m.amount (payloads fs 1) m'.amount ∧ AllText (payloads fs 3) ∧ AllText (payloads fs 4) ∧
      m'.payer = lastOr m.payer (payloads fs 3) := by
  induction fs with
  | nil =>
    intro m m'
    obtain ⟨a, b⟩ := m; obtain ⟨a', b'⟩ := m'
    simp only [foldFields_nil_iff, payloads_nil, appended_nil, lastOr, FeeMsg.mk.injEq, allText_nil, true_and]
    constructor <;> rintro ⟨rfl, rfl⟩ <;> exact ⟨rfl, rfl⟩
  | cons f fs ih =>
    intro m m'
    rw [foldFields_cons_iff]
    simp only [ih]
    obtain ⟨n, v, raw⟩ := f
    by_cases hw : v.wire = 2
    · cases v <;> simp [FieldVal.wire] at hw
      rename_i b
      simp only [feeStep_len, payloads_len]
      by_cases h1 : n = 1
      · subst h1
        simp only [true_and, Nat.reduceEqDiff, false_and, ne_eq, not_true_eq_false, or_false, if_true, if_false,
          appended_cons]
        constructor
        · rintro ⟨_, ⟨a, h1, rfl⟩, h2, h3⟩; exact ⟨⟨a, h1, h2⟩, h3⟩
        · rintro ⟨⟨a, h1, h2⟩, h3⟩; exact ⟨_, ⟨a, h1, rfl⟩, h2, h3⟩
      · by_cases h2 : n = 3
        · subst h2
          simp only [true_and, Nat.reduceEqDiff, false_and, ne_eq, not_true_eq_false, or_false, if_true, if_false,
            false_or, and_false, allText_cons, lastOr]
          constructor
          · rintro ⟨_, ⟨h1, rfl⟩, h2, h3, h4⟩; exact ⟨h2, ⟨h1, h3⟩, h4⟩
          · rintro ⟨h2, ⟨h1, h3⟩, h4⟩; exact ⟨_, ⟨h1, rfl⟩, h2, h3, h4⟩
        · by_cases h3 : n = 4
          · subst h3
            simp only [true_and, Nat.reduceEqDiff, false_and, ne_eq, not_true_eq_false, or_false, if_true, if_false,
              false_or, and_false, allText_cons]
            constructor
            · rintro ⟨_, ⟨h1, rfl⟩, h2, h3, h4, h5⟩; exact ⟨h2, h3, ⟨h1, h4⟩, h5⟩
            · rintro ⟨h2, h3, ⟨h1, h4⟩, h5⟩; exact ⟨_, ⟨h1, rfl⟩, h2, h3, h4, h5⟩
          · simp [h1, h2, h3]
    · simp [feeStep_other m ⟨n, v, raw⟩ hw, payloads_other (f := ⟨n, v, raw⟩) hw]

theorem authStep_len (m : AuthInfoMsg) (n : Nat) (b raw : Bytes) (m' : AuthInfoMsg) :
    AuthInfoMsg.step m ⟨n, .len b, raw⟩ = some m' ↔
    (n = 1 ∧ ∃ c, parseSignerInfo b = some c ∧ m' = { m with signers := m.signers ++ [c] }) ∨
    (n = 2 ∧ ∃ a, mergeInto FeeMsg.step (m.fee.getD {}) b = some a ∧ m' = { m with fee := some a }) ∨
    ((n ≠ 1 ∧ n ≠ 2) ∧ m' = { m with unknown := true }) := by
  by_cases h1 : n = 1
  · subst h1; simp only [AuthInfoMsg.step]; cases parseSignerInfo b <;> simp; exact eq_comm
  · by_cases h2 : n = 2
    · subst h2; simp only [AuthInfoMsg.step]; cases mergeInto FeeMsg.step (m.fee.getD {}) b <;> simp; exact eq_comm
    · have e : AuthInfoMsg.step m ⟨n, .len b, raw⟩ = some { m with unknown := true } := by
        unfold AuthInfoMsg.step; split <;> simp_all
      rw [e]; simp [h1, h2]; exact eq_comm

theorem authStep_other (m : AuthInfoMsg) (f : Field) (h : f.val.wire ≠ 2) :
    AuthInfoMsg.step m f = some { m with unknown := true } := by
  unfold AuthInfoMsg.step; split <;> simp_all [FieldVal.wire]

theorem foldAuth_iff (fs : List Field) : ∀ (m m' : AuthInfoMsg), foldFields AuthInfoMsg.step m fs = some m' ↔
    Appended (fun b c => parseSignerInfo b = some c) m.signers (payloads fs 1) m'.signers ∧
    Merged FeeMsg.step {} m.fee (payloads fs 2) m'.fee ∧
    (m'.unknown = false ↔ m.unknown = false ∧ OnlyFields [(1, 2), (2, 2)] fs) := by
  induction fs with
  | nil =>
    intro m m'
    obtain ⟨a, b, c⟩ := m; obtain ⟨a', b', c'⟩ := m'
    simp only [foldFields_nil_iff, payloads_nil, appended_nil, merged_nil, AuthInfoMsg.mk.injEq, onlyFields_nil, and_true]
    constructor
    · rintro ⟨rfl, rfl, rfl⟩; exact ⟨rfl, rfl, Iff.rfl⟩
    · rintro ⟨rfl, rfl, h⟩
      refine ⟨rfl, rfl, ?_⟩
      cases c <;> cases c' <;> simp at h ⊢
  | cons f fs ih =>
    intro m m'
    rw [foldFields_cons_iff]
    simp only [ih]
    obtain ⟨n, v, raw⟩ := f
    by_cases hw : v.wire = 2
    · cases v <;> simp [FieldVal.wire] at hw
      rename_i b
      simp only [authStep_len, payloads_len, onlyFields_cons, FieldVal.wire]
      by_cases h1 : n = 1
      · subst h1
        simp only [true_and, Nat.reduceEqDiff, false_and, ne_eq, not_true_eq_false, or_false, if_true, if_false,
          appended_cons, List.mem_cons, true_or]
        constructor
        · rintro ⟨_, ⟨a, h1, rfl⟩, h2, h3⟩; exact ⟨⟨a, h1, h2⟩, h3⟩
        · rintro ⟨⟨a, h1, h2⟩, h3⟩; exact ⟨_, ⟨a, h1, rfl⟩, h2, h3⟩
      · by_cases h2 : n = 2
        · subst h2
          simp only [true_and, Nat.reduceEqDiff, false_and, ne_eq, not_true_eq_false, or_false, if_true, if_false,
            merged_cons, false_or, and_false, List.mem_cons, true_or, or_true]
          constructor
          · rintro ⟨_, ⟨a, h1, rfl⟩, h2, h3, h4⟩; exact ⟨h2, ⟨a, h1, h3⟩, h4⟩
          · rintro ⟨h2, ⟨a, h1, h3⟩, h4⟩; exact ⟨_, ⟨a, h1, rfl⟩, h2, h3, h4⟩
        · simp [h1, h2]
    · simp [authStep_other m ⟨n, v, raw⟩ hw, payloads_other (f := ⟨n, v, raw⟩) hw, onlyFields_cons, hw]

/-! ## Transitions -/

theorem sendStep_len (m : SendCoinsMsg) (n : Nat) (b raw : Bytes) (m' : SendCoinsMsg) :
    SendCoinsMsg.step m ⟨n, .len b, raw⟩ = some m' ↔
    (n = 1 ∧ validUtf8 b = true ∧ m' = { m with source := b }) ∨
    (n = 2 ∧ validUtf8 b = true ∧ m' = { m with target := b }) ∨
    (n = 3 ∧ ∃ c, IsCoin b c ∧ m' = { m with amount := m.amount ++ [c] }) ∨
    ((n ≠ 1 ∧ n ≠ 2 ∧ n ≠ 3) ∧ m' = m) := by
  simp only [← parseCoin_iff]
  by_cases h1 : n = 1
  · subst h1; simp only [SendCoinsMsg.step]; by_cases hu : validUtf8 b = true <;> simp [hu]; exact eq_comm
  · by_cases h2 : n = 2
    · subst h2; simp only [SendCoinsMsg.step]; by_cases hu : validUtf8 b = true <;> simp [hu]; exact eq_comm
    · by_cases h3 : n = 3
      · subst h3; simp only [SendCoinsMsg.step]; cases parseCoin b <;> simp; exact eq_comm
      · have e : SendCoinsMsg.step m ⟨n, .len b, raw⟩ = some m := by
          unfold SendCoinsMsg.step; split <;> simp_all
        rw [e]; simp [h1, h2, h3]; exact eq_comm

theorem sendStep_other (m : SendCoinsMsg) (f : Field) (h : f.val.wire ≠ 2) : SendCoinsMsg.step m f = some m := by
  unfold SendCoinsMsg.step; split <;> simp_all [FieldVal.wire]

theorem foldSend_iff (fs : List Field) : ∀ (m m' : SendCoinsMsg), foldFields SendCoinsMsg.step m fs = some m' ↔
    AllText (payloads fs 1) ∧ AllText (payloads fs 2) ∧ Appended IsCoin m.amount (payloads fs 3) m'.amount ∧
      m'.source = lastOr m.source (payloads fs 1) ∧ m'.target = lastOr m.target (payloads fs 2) := by
  induction fs with
  | nil =>
    intro m m'
    obtain ⟨a, b, c⟩ := m; obtain ⟨a', b', c'⟩ := m'
    simp only [foldFields_nil_iff, payloads_nil, appended_nil, lastOr, SendCoinsMsg.mk.injEq, allText_nil, true_and]
    constructor
    · rintro ⟨rfl, rfl, rfl⟩; exact ⟨rfl, rfl, rfl⟩
    · rintro ⟨rfl, rfl, rfl⟩; exact ⟨rfl, rfl, rfl⟩
  | cons f fs ih =>
    intro m m'
    rw [foldFields_cons_iff]
    simp only [ih]
    obtain ⟨n, v, raw⟩ := f
    by_cases hw : v.wire = 2
    · cases v <;> simp [FieldVal.wire] at hw
      rename_i b
      simp only [sendStep_len, payloads_len]
      by_cases h1 : n = 1
      · subst h1
        simp only [true_and, Nat.reduceEqDiff, false_and, ne_eq, not_true_eq_false, or_false, if_true, if_false,
          allText_cons, lastOr]
        constructor
        · rintro ⟨_, ⟨h1, rfl⟩, h2, h3⟩; exact ⟨⟨h1, h2⟩, h3⟩
        · rintro ⟨⟨h1, h2⟩, h3⟩; exact ⟨_, ⟨h1, rfl⟩, h2, h3⟩
      · by_cases h2 : n = 2
        · subst h2
          simp only [true_and, Nat.reduceEqDiff, false_and, ne_eq, not_true_eq_false, or_false, if_true, if_false,
            false_or, and_false, allText_cons, lastOr]
          constructor
          · rintro ⟨_, ⟨h1, rfl⟩, h2, h3, h4⟩; exact ⟨h2, ⟨h1, h3⟩, h4⟩
          · rintro ⟨h2, ⟨h1, h3⟩, h4⟩; exact ⟨_, ⟨h1, rfl⟩, h2, h3, h4⟩
        · by_cases h3 : n = 3
          · subst h3
            simp only [true_and, Nat.reduceEqDiff, false_and, ne_eq, not_true_eq_false, or_false, if_true, if_false,
              false_or, and_false, appended_cons]
            constructor
            · rintro ⟨_, ⟨a, h1, rfl⟩, h2, h3, h4, h5⟩; exact ⟨h2, h3, ⟨a, h1, h4⟩, h5⟩
            · rintro ⟨h2, h3, ⟨a, h1, h4⟩, h5⟩; exact ⟨_, ⟨a, h1, rfl⟩, h2, h3, h4, h5⟩
          · simp [h1, h2, h3]
    · simp [sendStep_other m ⟨n, v, raw⟩ hw, payloads_other (f := ⟨n, v, raw⟩) hw]

theorem accountStep_len (m : Account) (n : Nat) (b raw : Bytes) (m' : Account) :
    Account.step m ⟨n, .len b, raw⟩ = some m' ↔
    (n = 1 ∧ validUtf8 b = true ∧ m' = { m with address := b }) ∨
    (n = 2 ∧ ∃ a, mergeInto AnyMsg.step (m.pubKey.getD ⟨[], []⟩) b = some a ∧ m' = { m with pubKey := some a }) ∨
    ((n ≠ 1 ∧ n ≠ 2) ∧ m' = m) := by
  by_cases h1 : n = 1
  · subst h1; simp only [Account.step]; by_cases hu : validUtf8 b = true <;> simp [hu]; exact eq_comm
  · by_cases h2 : n = 2
    · subst h2; simp only [Account.step]
      cases mergeInto AnyMsg.step (m.pubKey.getD ⟨[], []⟩) b <;> simp; exact eq_comm
    · have e : Account.step m ⟨n, .len b, raw⟩ = some m := by
        unfold Account.step; split <;> simp_all
      rw [e]; simp [h1, h2]; exact eq_comm

theorem accountStep_other (m : Account) (f : Field) (h : f.val.wire ≠ 2) (h3 : (f.num, f.val.wire) ≠ (3, 0))
    (h4 : (f.num, f.val.wire) ≠ (4, 0)) : Account.step m f = some m := by
  unfold Account.step; split <;> simp_all [FieldVal.wire]

theorem foldAccount_iff (fs : List Field) : ∀ (m m' : Account), foldFields Account.step m fs = some m' ↔
    AllText (payloads fs 1) ∧ m'.address = lastOr m.address (payloads fs 1) ∧
    Merged AnyMsg.step ⟨[], []⟩ m.pubKey (payloads fs 2) m'.pubKey ∧
    m'.number = lastOr m.number ((numbers fs 3).map (BitVec.ofNat 64)) ∧
    m'.sequence = lastOr m.sequence ((numbers fs 4).map (BitVec.ofNat 64)) := by
  induction fs with
  | nil =>
    intro m m'
    obtain ⟨a, b, c, d⟩ := m; obtain ⟨a', b', c', d'⟩ := m'
    simp only [foldFields_nil_iff, payloads_nil, merged_nil, lastOr, Account.mk.injEq, allText_nil, true_and,
      numbers_nil, List.map_nil]
    constructor
    · rintro ⟨rfl, rfl, rfl, rfl⟩; exact ⟨rfl, rfl, rfl, rfl⟩
    · rintro ⟨rfl, rfl, rfl, rfl⟩; exact ⟨rfl, rfl, rfl, rfl⟩
  | cons f fs ih =>
    intro m m'
    rw [foldFields_cons_iff]
    simp only [ih]
    obtain ⟨n, v, raw⟩ := f
    by_cases hw : v.wire = 2
    · cases v <;> simp [FieldVal.wire] at hw
      rename_i b
      simp only [accountStep_len, payloads_len,
        numbers_other (f := ⟨n, .len b, raw⟩) (show FieldVal.wire (.len b) ≠ 0 by simp [FieldVal.wire])]
      by_cases h1 : n = 1
      · subst h1
        simp only [true_and, Nat.reduceEqDiff, false_and, ne_eq, not_true_eq_false, or_false, if_true, if_false,
          allText_cons, lastOr]
        constructor
        · rintro ⟨_, ⟨h1, rfl⟩, h2, h3⟩; exact ⟨⟨h1, h2⟩, h3⟩
        · rintro ⟨⟨h1, h2⟩, h3⟩; exact ⟨_, ⟨h1, rfl⟩, h2, h3⟩
      · by_cases h2 : n = 2
        · subst h2
          simp only [true_and, Nat.reduceEqDiff, false_and, ne_eq, not_true_eq_false, or_false, if_true, if_false,
            false_or, and_false, merged_cons]
          constructor
          · rintro ⟨_, ⟨a, h1, rfl⟩, h2, h3, h4, h5⟩; exact ⟨h2, h3, ⟨a, h1, h4⟩, h5⟩
          · rintro ⟨h2, h3, ⟨a, h1, h4⟩, h5⟩; exact ⟨_, ⟨a, h1, rfl⟩, h2, h3, h4, h5⟩
        · simp [h1, h2]
    · simp only [payloads_other (f := ⟨n, v, raw⟩) hw]
      by_cases h3 : (n, v.wire) = (3, 0)
      · obtain ⟨rfl, h0⟩ := Prod.mk.inj h3
        cases v <;> simp [FieldVal.wire] at h0
        simp [Account.step, numbers_varint, lastOr]
      · by_cases h4 : (n, v.wire) = (4, 0)
        · obtain ⟨rfl, h0⟩ := Prod.mk.inj h4
          cases v <;> simp [FieldVal.wire] at h0
          simp [Account.step, numbers_varint, lastOr]
        · simp [accountStep_other m ⟨n, v, raw⟩ hw h3 h4, numbers_ne (f := ⟨n, v, raw⟩) h3,
            numbers_ne (f := ⟨n, v, raw⟩) h4]

theorem foldCreate_iff (fs : List Field) : ∀ (m m' : Option Account), foldFields createAccountStep m fs = some m' ↔
    Merged Account.step ⟨[], none, 0, 0⟩ m (payloads fs 1) m' := by
  induction fs with
  | nil => intro m m'; simp only [foldFields_nil_iff, payloads_nil, merged_nil]; exact eq_comm
  | cons f fs ih =>
    intro m m'
    rw [foldFields_cons_iff]
    simp only [ih]
    obtain ⟨n, v, raw⟩ := f
    by_cases h : n = 1 ∧ v.wire = 2
    · obtain ⟨rfl, hw⟩ := h
      cases v <;> simp [FieldVal.wire] at hw
      rename_i b
      simp only [payloads_len, if_true, merged_cons, createAccountStep]
      cases mergeInto Account.step (m.getD ⟨[], none, 0, 0⟩) b <;> simp
    · have e : createAccountStep m ⟨n, v, raw⟩ = some m := by
        unfold createAccountStep; split <;> simp_all [FieldVal.wire]
      have hp : payloads (⟨n, v, raw⟩ :: fs) 1 = payloads fs 1 := by
        by_cases hw : v.wire = 2
        · cases v <;> simp [FieldVal.wire] at hw
          rw [payloads_len, if_neg (fun hn => h ⟨hn, rfl⟩)]
        · exact payloads_other hw fs 1
      simp [e, hp]

theorem foldAccount_new (fs : List Field) (a : Account) :
    foldFields Account.step ⟨[], none, 0, 0⟩ fs = some a ↔ HasAccount fs a := by
  rw [foldAccount_iff, HasAccount, Merged]
  have e (k : Nat) : lastOr (0 : BitVec 64) ((numbers fs k).map (BitVec.ofNat 64)) = BitVec.ofNat 64 (lastOr 0 (numbers fs k)) :=
    lastOr_map (BitVec.ofNat 64) 0 _
  simp only [e, Option.getD_none, foldAny_iff]
  rfl

theorem foldRole_iff (fs : List Field) : ∀ (m m' : Role), foldFields Role.step m fs = some m' ↔
    (∀ k, 1 ≤ k → k ≤ 7 → AllText (payloads fs k)) ∧
    m'.id = lastOr m.id (payloads fs 1) ∧ m'.gets = m.gets ++ payloads fs 2 ∧ m'.lists = m.lists ++ payloads fs 3 ∧
    m'.creates = m.creates ++ payloads fs 4 ∧ m'.updates = m.updates ++ payloads fs 5 ∧
    m'.deletes = m.deletes ++ payloads fs 6 ∧ m'.delivers = m.delivers ++ payloads fs 7 ∧
    (m'.hasUnknown = false ↔ m.hasUnknown = false ∧
      OnlyFields [(1, 2), (2, 2), (3, 2), (4, 2), (5, 2), (6, 2), (7, 2)] fs) := by
  have all7 (P : Nat → Prop) : (∀ k, 1 ≤ k → k ≤ 7 → P k) ↔ P 1 ∧ P 2 ∧ P 3 ∧ P 4 ∧ P 5 ∧ P 6 ∧ P 7 := by
    constructor
    · intro h; exact ⟨h 1 (by decide) (by decide), h 2 (by decide) (by decide), h 3 (by decide) (by decide),
        h 4 (by decide) (by decide), h 5 (by decide) (by decide), h 6 (by decide) (by decide), h 7 (by decide) (by decide)⟩
    · rintro ⟨h1, h2, h3, h4, h5, h6, h7⟩ k hk hk'
      have : k = 1 ∨ k = 2 ∨ k = 3 ∨ k = 4 ∨ k = 5 ∨ k = 6 ∨ k = 7 := by omega
      rcases this with rfl | rfl | rfl | rfl | rfl | rfl | rfl <;> assumption
  simp only [all7]
  induction fs with
  | nil =>
    intro m m'
    obtain ⟨a, b, c, d, e, f, g, u⟩ := m; obtain ⟨a', b', c', d', e', f', g', u'⟩ := m'
    simp only [foldFields_nil_iff, payloads_nil, lastOr, Role.mk.injEq, allText_nil, true_and, List.append_nil,
      onlyFields_nil, and_true]
    constructor
    · rintro ⟨rfl, rfl, rfl, rfl, rfl, rfl, rfl, rfl⟩; exact ⟨rfl, rfl, rfl, rfl, rfl, rfl, rfl, Iff.rfl⟩
    · rintro ⟨rfl, rfl, rfl, rfl, rfl, rfl, rfl, h⟩
      refine ⟨rfl, rfl, rfl, rfl, rfl, rfl, rfl, ?_⟩
      cases u <;> cases u' <;> simp at h ⊢
  | cons f fs ih =>
    intro m m'
    rw [foldFields_cons_iff]
    simp only [ih]
    obtain ⟨n, v, raw⟩ := f
    by_cases hw : v.wire = 2
    · cases v <;> simp [FieldVal.wire] at hw
      rename_i b
      by_cases hn : n = 1 ∨ n = 2 ∨ n = 3 ∨ n = 4 ∨ n = 5 ∨ n = 6 ∨ n = 7
      · rcases hn with rfl | rfl | rfl | rfl | rfl | rfl | rfl <;>
          simp only [Role.step, payloads_len, onlyFields_cons, FieldVal.wire] <;>
          by_cases hu : validUtf8 b = true <;> simp [hu, lastOr, allText_cons]
      · have e : Role.step m ⟨n, .len b, raw⟩ = some { m with hasUnknown := true } := by
          unfold Role.step; split <;> simp_all
        have h1 : ¬ n = 1 := fun h => hn (by simp [h])
        have h2 : ¬ n = 2 := fun h => hn (by simp [h])
        have h3 : ¬ n = 3 := fun h => hn (by simp [h])
        have h4 : ¬ n = 4 := fun h => hn (by simp [h])
        have h5 : ¬ n = 5 := fun h => hn (by simp [h])
        have h6 : ¬ n = 6 := fun h => hn (by simp [h])
        have h7 : ¬ n = 7 := fun h => hn (by simp [h])
        simp [e, payloads_len, onlyFields_cons, FieldVal.wire, h1, h2, h3, h4, h5, h6, h7]
    · have e : Role.step m ⟨n, v, raw⟩ = some { m with hasUnknown := true } := by
        unfold Role.step; split <;> simp_all [FieldVal.wire]
      simp [e, payloads_other (f := ⟨n, v, raw⟩) hw, onlyFields_cons, hw]

theorem foldRole_new (fs : List Field) (r : Role) : foldFields Role.step { id := [] } fs = some r ↔ HasRoleFields fs r := by
  rw [foldRole_iff, HasRoleFields]
  simp

theorem foldCreateRole_iff (fs : List Field) : ∀ (m m' : Option Role), foldFields createRoleStep m fs = some m' ↔
    Merged Role.step { id := [] } m (payloads fs 1) m' := by
  induction fs with
  | nil => intro m m'; simp only [foldFields_nil_iff, payloads_nil, merged_nil]; exact eq_comm
  | cons f fs ih =>
    intro m m'
    rw [foldFields_cons_iff]
    simp only [ih]
    obtain ⟨n, v, raw⟩ := f
    by_cases h : n = 1 ∧ v.wire = 2
    · obtain ⟨rfl, hw⟩ := h
      cases v <;> simp [FieldVal.wire] at hw
      rename_i b
      simp only [payloads_len, if_true, merged_cons, createRoleStep]
      cases mergeInto Role.step (m.getD { id := [] }) b <;> simp
    · have e : createRoleStep m ⟨n, v, raw⟩ = some m := by
        unfold createRoleStep; split <;> simp_all [FieldVal.wire]
      have hp : payloads (⟨n, v, raw⟩ :: fs) 1 = payloads fs 1 := by
        by_cases hw : v.wire = 2
        · cases v <;> simp [FieldVal.wire] at hw
          rw [payloads_len, if_neg (fun hn => h ⟨hn, rfl⟩)]
        · exact payloads_other hw fs 1
      simp [e, hp]

theorem foldBind_iff (fs : List Field) : ∀ (m m' : Bytes × Bytes), foldFields bindRoleStep m fs = some m' ↔
    AllText (payloads fs 1) ∧ AllText (payloads fs 2) ∧
      m' = (lastOr m.1 (payloads fs 1), lastOr m.2 (payloads fs 2)) := by
  induction fs with
  | nil =>
    intro m m'
    simp only [foldFields_nil_iff, payloads_nil, lastOr, allText_nil, true_and]
    exact eq_comm
  | cons f fs ih =>
    intro m m'
    rw [foldFields_cons_iff]
    simp only [ih]
    obtain ⟨n, v, raw⟩ := f
    by_cases hw : v.wire = 2
    · cases v <;> simp [FieldVal.wire] at hw
      rename_i b
      by_cases hn : n = 1 ∨ n = 2
      · rcases hn with rfl | rfl <;> simp only [bindRoleStep, payloads_len] <;>
          by_cases hu : validUtf8 b = true <;> simp [hu, lastOr, allText_cons]
      · have e : bindRoleStep m ⟨n, .len b, raw⟩ = some m := by
          unfold bindRoleStep; split <;> simp_all
        have h1 : ¬ n = 1 := fun h => hn (by simp [h])
        have h2 : ¬ n = 2 := fun h => hn (by simp [h])
        simp [e, payloads_len, h1, h2]
    · have e : bindRoleStep m ⟨n, v, raw⟩ = some m := by
        unfold bindRoleStep; split <;> simp_all [FieldVal.wire]
      simp [e, payloads_other (f := ⟨n, v, raw⟩) hw]

/-- What a reader accepts. -/
def Accepts (r : Reader) (P : Bytes → Prop) : Prop := ∀ b, r b = true ↔ P b

theorem accepts_text : Accepts validUtf8 Text := fun _ => Iff.rfl

/-- Readers of fields, and what they accept. -/
inductive AcceptsAll : List (Nat × Reader) → List (Nat × (Bytes → Prop)) → Prop
  | nil : AcceptsAll [] []
  | cons {n : Nat} {r : Reader} {P : Bytes → Prop} {rs : List (Nat × Reader)} {Ps : List (Nat × (Bytes → Prop))} :
    Accepts r P → (rs.lookup n).isNone → AcceptsAll rs Ps → AcceptsAll ((n, r) :: rs) ((n, P) :: Ps)

theorem AcceptsAll.lookup {rs : List (Nat × Reader)} {Ps : List (Nat × (Bytes → Prop))} (h : AcceptsAll rs Ps)
    (n : Nat) (p : Bytes) : (match rs.lookup n with
      | none => true
      | some r => r p) = true ↔ ∀ k ∈ Ps, k.1 = n → k.2 p := by
  induction h with
  | nil => simp
  | @cons m r P rs Ps hr hn hs ih =>
    rw [List.lookup_cons]
    by_cases e : n = m
    · subst e
      rw [beq_self_eq_true]
      simp only [List.mem_cons, forall_eq_or_imp, forall_const]
      have : ∀ k ∈ Ps, k.1 = n → k.2 p := ih.1 (by rw [Option.isNone_iff_eq_none.1 hn])
      exact ⟨fun h => ⟨(hr p).1 h, this⟩, fun h => (hr p).2 h.1⟩
    · rw [beq_eq_false_iff_ne.2 e]
      simp only [List.mem_cons, forall_eq_or_imp]
      exact ih.trans ⟨fun h => ⟨fun e' => absurd e'.symm e, h⟩, fun h => h.2⟩

theorem accepts_message {rs : List (Nat × Reader)} {Ps : List (Nat × (Bytes → Prop))} (h : AcceptsAll rs Ps) :
    Accepts (messageReader rs) (Holds Ps) := by
  intro b
  have hp : ∀ fs : List Field, (fs.all fun f => match f.val with
      | .len p => (match rs.lookup f.num with
        | none => true
        | some r => r p)
      | _ => true) = true ↔ ∀ k ∈ Ps, ∀ p ∈ payloads fs k.1, k.2 p := by
    intro fs
    induction fs with
    | nil => simp [payloads]
    | cons f fs ih =>
      obtain ⟨n, v, raw⟩ := f
      rw [List.all_cons, Bool.and_eq_true, ih]
      by_cases hw : v.wire = 2
      · cases v <;> simp [FieldVal.wire] at hw
        rename_i p
        simp only [payloads_len, h.lookup]
        constructor
        · rintro ⟨h1, h2⟩ k hk q hq
          split at hq
          · rename_i e
            rcases List.mem_cons.1 hq with rfl | hq
            · exact h1 k hk e.symm
            · exact h2 k hk q hq
          · exact h2 k hk q hq
        · intro h1
          refine ⟨fun k hk e => h1 k hk p (by rw [if_pos e.symm]; exact List.mem_cons_self), fun k hk q hq => h1 k hk q ?_⟩
          split
          · exact List.mem_cons_of_mem _ hq
          · exact hq
      · simp only [payloads_other (f := ⟨n, v, raw⟩) hw]
        cases v <;> simp [FieldVal.wire] at hw ⊢
  rw [messageReader, Holds]
  cases hf : fields b with
  | none =>
    refine ⟨fun h => by simp at h, ?_⟩
    rintro ⟨fs, h1, _⟩
    rw [(fields_iff b fs).2 h1] at hf
    cases hf
  | some fs =>
    refine (hp fs).trans ?_
    have h0 := (fields_iff b fs).1 hf
    refine ⟨fun h => ⟨fs, h0, h⟩, ?_⟩
    rintro ⟨gs, h1, h⟩
    rw [(fields_iff b gs).2 h1] at hf
    cases hf
    exact h

theorem accepts_empty : Accepts (messageReader []) (Holds []) := accepts_message .nil

theorem accepts_one {n : Nat} {r : Reader} {P : Bytes → Prop} (h : Accepts r P) :
    Accepts (messageReader [(n, r)]) (Holds [(n, P)]) := accepts_message (.cons h rfl .nil)

theorem accepts_coin : Accepts coinReader (Holds [(1, Text), (2, Text)]) :=
  accepts_message (.cons accepts_text rfl (.cons accepts_text rfl .nil))

theorem accepts_account : Accepts accountReader AccountText :=
  accepts_message (.cons accepts_text rfl (.cons (accepts_one accepts_text) rfl .nil))

theorem accepts_header : Accepts headerReader Header :=
  accepts_message (.cons accepts_empty rfl (.cons accepts_text rfl (.cons accepts_empty rfl
    (.cons (accepts_one accepts_empty) rfl .nil))))

theorem accepts_beginBlock : Accepts beginBlockReader (Holds [(2, Header), (3, Holds [(2, Holds [(1, Holds [])])]),
    (4, Holds [(2, Holds []), (4, Holds [])])]) :=
  accepts_message (.cons accepts_header rfl (.cons (accepts_one (accepts_one accepts_empty)) rfl
    (.cons (accepts_message (.cons accepts_empty rfl (.cons accepts_empty rfl .nil))) rfl .nil)))

/-- The list of transitions says what `IsOther` says. -/
theorem isOther_iff (env : DecodeEnv) (value : Bytes) (api : APIDef) :
    (∃ r, (api, r) ∈ otherTransitions env ∧ r value = true) ↔ IsOther env value api := by
  have balance : Accepts (messageReader [(1, validUtf8), (2, coinReader)]) (Holds [(1, Text), (2, Holds [(1, Text), (2, Text)])]) :=
    accepts_message (.cons accepts_text rfl (.cons accepts_coin rfl .nil))
  constructor
  · rintro ⟨r, hr, h⟩
    simp only [otherTransitions, List.mem_cons, List.not_mem_nil, or_false] at hr
    rcases hr with e | e | e | e | e | e | e | e | e | e <;> cases e
    · exact .createModules h
    · exact .updateAccount ((accepts_one accepts_account value).1 h)
    · exact .deleteAccount ((accepts_one accepts_account value).1 h)
    · exact .setBalance ((balance value).1 h)
    · exact .setBeginBlock ((accepts_one accepts_beginBlock value).1 h)
    · exact .setCheckTx ((accepts_one accepts_empty value).1 h)
    · exact .setDeliverTx ((accepts_one accepts_empty value).1 h)
    · exact .setEndBlock ((accepts_one accepts_empty value).1 h)
    · exact .setInitChain ((accepts_one (accepts_one accepts_text) value).1 h)
    · exact .setValidatorUpdates ((accepts_one (accepts_one accepts_empty) value).1 h)
  · intro h
    cases h with
    | createModules h => exact ⟨env.describes, by simp [otherTransitions], h⟩
    | updateAccount h => exact ⟨_, by simp [otherTransitions], (accepts_one accepts_account value).2 h⟩
    | deleteAccount h => exact ⟨_, by simp [otherTransitions], (accepts_one accepts_account value).2 h⟩
    | setBalance h => exact ⟨_, by simp [otherTransitions], (balance value).2 h⟩
    | setBeginBlock h => exact ⟨_, by simp [otherTransitions], (accepts_one accepts_beginBlock value).2 h⟩
    | setCheckTx h => exact ⟨_, by simp [otherTransitions], (accepts_one accepts_empty value).2 h⟩
    | setDeliverTx h => exact ⟨_, by simp [otherTransitions], (accepts_one accepts_empty value).2 h⟩
    | setEndBlock h => exact ⟨_, by simp [otherTransitions], (accepts_one accepts_empty value).2 h⟩
    | setInitChain h => exact ⟨_, by simp [otherTransitions], (accepts_one (accepts_one accepts_text) value).2 h⟩
    | setValidatorUpdates h => exact ⟨_, by simp [otherTransitions], (accepts_one (accepts_one accepts_empty) value).2 h⟩

theorem otherTransitions_nodup (env : DecodeEnv) : ((otherTransitions env).map fun t => t.1.name).Nodup := by
  have : (otherTransitions env).map (fun t => t.1.name) =
      (otherTransitions ⟨id, id, fun _ => true⟩).map fun t => t.1.name := rfl
  rw [this]
  decide

theorem other_iff (env : DecodeEnv) (name value : Bytes) (t : Tr) :
    (match (otherTransitions env).find? fun t => t.1.name = name with
      | none => none
      | some t => if t.2 value then some (Tr.other t.1) else none) = some t ↔
    ∃ api, IsOther env value api ∧ name = api.name ∧ t = .other api := by
  constructor
  · intro h
    split at h
    · cases h
    · rename_i p hp
      split at h
      · rename_i hv
        cases h
        exact ⟨p.1, (isOther_iff _ _ _).1 ⟨p.2, List.mem_of_find?_eq_some hp, hv⟩,
          (by simpa using List.find?_some hp : p.1.name = name).symm, rfl⟩
      · cases h
  · rintro ⟨api, h, rfl, rfl⟩
    obtain ⟨r, hr, hv⟩ := (isOther_iff _ _ _).2 h
    have : (otherTransitions env).find? (fun t => t.1.name = api.name) = some (api, r) := by
      have hn := otherTransitions_nodup env
      generalize otherTransitions env = l at hr hn
      induction l with
      | nil => cases hr
      | cons x l ih =>
        rcases List.mem_cons.1 hr with rfl | hr
        · simp
        · rw [List.map_cons, List.nodup_cons] at hn
          rw [List.find?_cons_of_neg, ih hr hn.2]
          intro e
          refine hn.1 (List.mem_map.2 ⟨_, hr, ?_⟩)
          simpa using Eq.symm (by simpa using e : x.1.name = api.name)
    simp only [this, hv, if_true]

theorem parseTransition_iff (env : DecodeEnv) (name value : Bytes) (t : Tr) :
    parseTransition env name value = some t ↔ IsTransition env name value t := by
  rw [parseTransition, IsTransition]
  split
  · constructor
    · intro h
      split at h
      · simp at h
      · rename_i m hm
        cases h
        obtain ⟨fs, hf, h⟩ := (mergeInto_iff _ _ _ _).1 hm
        obtain ⟨h1, h2, ⟨as, h3, e⟩, h4, h5⟩ := (foldSend_iff _ _ _).1 h
        exact ⟨fs, as, hf, h1, h2, h3, by rw [h4, h5, e]; rfl⟩
    · rintro ⟨fs, as, hf, h1, h2, h3, rfl⟩
      rw [(mergeInto_iff _ _ _ _).2 ⟨fs, hf, (foldSend_iff fs {} ⟨_, _, as⟩).2 ⟨h1, h2, ⟨as, h3, rfl⟩, rfl, rfl⟩⟩]
  · split
    · constructor
      · intro h
        split at h
        · simp at h
        · rename_i m hm
          cases h
          obtain ⟨fs, hf, h⟩ := (mergeInto_iff _ _ _ _).1 hm
          obtain ⟨gs, a, hg, ha, rfl⟩ := (foldCreate_iff _ _ _).1 h
          exact ⟨fs, gs, a, hf, hg, (foldAccount_new _ _).1 ha, rfl⟩
      · rintro ⟨fs, gs, a, hf, hg, ha, rfl⟩
        rw [(mergeInto_iff _ _ _ _).2 ⟨fs, hf, (foldCreate_iff fs none _).2 ⟨gs, a, hg, (foldAccount_new _ _).2 ha, rfl⟩⟩]
    · split
      · constructor
        · intro h
          split at h
          · simp at h
          · rename_i m hm
            cases h
            obtain ⟨fs, hf, h⟩ := (mergeInto_iff _ _ _ _).1 hm
            obtain ⟨gs, a, hg, ha, rfl⟩ := (foldCreateRole_iff _ _ _).1 h
            exact ⟨fs, gs, a, hf, hg, (foldRole_new _ _).1 ha, rfl⟩
        · rintro ⟨fs, gs, a, hf, hg, ha, rfl⟩
          rw [(mergeInto_iff _ _ _ _).2 ⟨fs, hf, (foldCreateRole_iff fs none _).2 ⟨gs, a, hg, (foldRole_new _ _).2 ha, rfl⟩⟩]
      · split
        · constructor
          · intro h
            split at h
            · simp at h
            · rename_i m hm
              cases h
              obtain ⟨fs, hf, h⟩ := (mergeInto_iff _ _ _ _).1 hm
              obtain ⟨h1, h2, rfl⟩ := (foldBind_iff _ _ _).1 h
              exact ⟨fs, hf, h1, h2, rfl⟩
          · rintro ⟨fs, hf, h1, h2, rfl⟩
            rw [(mergeInto_iff _ _ _ _).2 ⟨fs, hf, (foldBind_iff fs ([], []) _).2 ⟨h1, h2, rfl⟩⟩]
        · exact other_iff env name value t

theorem urlName_iff (url name : Bytes) : UrlName url name ↔ name = urlName url := by
  constructor
  · rintro ⟨hn, rfl | ⟨front, rfl⟩⟩
    · rw [urlName, List.takeWhile_eq_self_iff.2, List.reverse_reverse]
      intro x hx
      simp only [List.mem_reverse] at hx
      simpa using fun (h : x = 0x2f) => hn (h ▸ hx)
    · have : (front ++ 0x2f :: name).reverse = name.reverse ++ (0x2f :: front.reverse) := by simp
      rw [urlName, this, List.takeWhile_append_of_pos, List.takeWhile_cons]
      · simp
      · intro x hx
        simp only [List.mem_reverse] at hx
        simpa using fun (h : x = 0x2f) => hn (h ▸ hx)
  · rintro rfl
    refine ⟨?_, ?_⟩
    · intro h
      rw [urlName, List.mem_reverse] at h
      have := List.mem_takeWhile_imp h
      simp at this
    · have hs := List.takeWhile_append_dropWhile (p := fun x : UInt8 => x != 0x2f) (l := url.reverse)
      cases hd : url.reverse.dropWhile (fun x : UInt8 => x != 0x2f) with
      | nil =>
        left
        rw [hd, List.append_nil] at hs
        rw [urlName, hs, List.reverse_reverse]
      | cons y l =>
        right
        have hy : y = 0x2f := by
          have := List.head_dropWhile_not (p := fun x : UInt8 => x != 0x2f) (l := url.reverse) (by rw [hd]; simp)
          simp only [hd, List.head_cons] at this
          simpa using this
        refine ⟨l.reverse, ?_⟩
        rw [hd] at hs
        have := congrArg List.reverse hs
        simp only [List.reverse_append, List.reverse_cons, List.reverse_reverse] at this
        conv_lhs => rw [← this]
        rw [urlName, hy]
        simp

theorem anyTransition_iff (env : DecodeEnv) (a : AnyMsg) (t : Tr) :
    anyTransition env a = some t ↔ HoldsTransition env a t := by
  rw [anyTransition, HoldsTransition]
  by_cases h0 : a.typeUrl = []
  · rw [if_pos h0, if_neg (by rw [h0]; decide)]
    simp [h0]
  · rw [if_neg h0]
    split
    · have : urlName b!"/tmos.x.bank.v1alpha1.MsgSendCoins" = b!"tmos.x.bank.v1alpha1.MsgSendCoins" := by decide
      rw [this, parseTransition_iff]
    · rw [parseTransition_iff]
      simp only [urlName_iff, exists_eq_left, ne_eq, h0, not_false_eq_true, true_and]

theorem anyTransitions_iff (env : DecodeEnv) (l : List AnyMsg) : ∀ ts,
    anyTransitions env l = some ts ↔ List.Forall₂ (HoldsTransition env) l ts := by
  induction l with
  | nil => intro ts; simp [anyTransitions, eq_comm]
  | cons a l ih =>
    intro ts
    rw [anyTransitions, List.forall₂_cons_left_iff]
    constructor
    · intro h
      split at h
      · simp at h
      · rename_i t ht
        split at h
        · simp at h
        · rename_i ts' hts
          cases h
          exact ⟨t, ts', (anyTransition_iff _ _ _).1 ht, (ih _).1 hts, rfl⟩
    · rintro ⟨t, ts', ht, hts, rfl⟩
      rw [(anyTransition_iff _ _ _).2 ht, (ih _).2 hts]

/-! ## Signers of the transaction -/

theorem resolve_iff (a : AnyMsg) (k : PubKey) : resolvePubKey a = some k ↔
    (a.typeUrl = b!"/tmos.x.authn.crypto.v1alpha1.PubKey" ∨ a.typeUrl = b!"/cosmos.crypto.secp256k1.PubKey") ∧
    IsPubKey a.value k := by
  rw [resolvePubKey, ← parsePubKey_iff]
  by_cases h : a.typeUrl ∈ knownPubKeys
  · rw [if_pos h]; simp only [knownPubKeys, List.mem_cons, List.not_mem_nil, or_false] at h; simp [h]
  · rw [if_neg h]; simp only [knownPubKeys, List.mem_cons, List.not_mem_nil, or_false] at h; simp [h]

theorem decodeSigner_eq (env : DecodeEnv) (hrp : Bytes) (m : SignerInfoMsg) (s : SignerInfo) (sig : Bytes)
    (h : SignerRead m s) : decodeSigner env hrp m sig =
    if s.direct = true then match resolvePubKey s.key with
      | none => .ret (.error .other)
      | some pk => match keyAddress env pk.key with
        | .panic => .panic
        | .ret hash => .ret (.ok ⟨bech32 hrp hash, pk, sig, s.sequence⟩)
    else .ret (.error .other) := by
  obtain ⟨h1, h2, h3⟩ := h
  rw [decodeSigner, ← h3]
  cases hp : m.publicKey with
  | none =>
    rw [hp] at h1
    have : resolvePubKey s.key = none := by rw [← h1]; decide
    rw [this]
    cases s.direct <;> rfl
  | some key =>
    rw [hp] at h1
    simp only [Option.getD_some] at h1
    subst h1
    cases hm : m.modeInfo with
    | none => rw [hm] at h2; simp at h2; simp [h2]
    | some mode =>
      rw [hm] at h2
      cases mode with
      | unset => simp at h2; simp [h2]
      | multi => simp at h2; simp [h2]
      | single k =>
        simp only [Option.some.injEq, ModeInfoMsg.single.injEq] at h2
        by_cases hk : k = 1
        · rw [if_pos (h2.2 hk)]; simp only [hk, ne_eq, not_true_eq_false, if_false]
          cases resolvePubKey s.key with
          | none => rfl
          | some pk => simp only; cases keyAddress env pk.key <;> rfl
        · rw [if_neg (fun h => hk (h2.1 h))]; simp [hk]

theorem decodeSigner_ok (env : DecodeEnv) (hrp : Bytes) {m : SignerInfoMsg} {i : SignerInfo} (sig : Bytes)
    (h : SignerRead m i) (s : Signer) :
    decodeSigner env hrp m sig = .ret (.ok s) ↔ IsSigner env hrp i sig s := by
  rw [decodeSigner_eq env hrp m i sig h, IsSigner]
  simp only [KeyOf, ← resolve_iff]
  by_cases hd : i.direct = true
  · rw [if_pos hd]
    cases hr : resolvePubKey i.key with
    | none => simp
    | some k =>
      simp only [keyAddress]
      by_cases hl : k.key.length = 33
      · simp [hl, hd]; exact eq_comm
      · simp [hl, hd]
  · rw [if_neg hd]; simp [hd]

theorem decodeSigner_panic (env : DecodeEnv) (hrp : Bytes) {m : SignerInfoMsg} {i : SignerInfo} (sig : Bytes)
    (h : SignerRead m i) :
    decodeSigner env hrp m sig = .panic ↔ ∃ k, KeyOf i k ∧ k.key.length ≠ 33 := by
  rw [decodeSigner_eq env hrp m i sig h]
  simp only [KeyOf, ← resolve_iff]
  by_cases hd : i.direct = true
  · rw [if_pos hd]
    cases hr : resolvePubKey i.key with
    | none => simp
    | some k =>
      simp only [keyAddress]
      by_cases hl : k.key.length = 33
      · simp [hl, hd]
      · simp [hl, hd]
  · rw [if_neg hd]; simp [hd]

theorem decodeSigner_error (env : DecodeEnv) (hrp : Bytes) {m : SignerInfoMsg} {i : SignerInfo} (sig : Bytes)
    (h : SignerRead m i) (e : Err) (he : decodeSigner env hrp m sig = .ret (.error e)) : e = .other := by
  rw [decodeSigner_eq env hrp m i sig h] at he
  split at he
  · split at he
    · cases he; rfl
    · split at he <;> cases he
  · cases he; rfl

theorem decodeSigners_ok (env : DecodeEnv) (hrp : Bytes) {ms : List SignerInfoMsg} {is : List SignerInfo}
    (h : List.Forall₂ SignerRead ms is) : ∀ (sigs : List Bytes), sigs.length = ms.length → ∀ l,
    decodeSigners env hrp ms sigs = .ret (.ok l) ↔
    List.Forall₂ (fun i s => IsSigner env hrp i.1 i.2 s) (is.zip sigs) l := by
  induction h with
  | nil => intro sigs _ l; simp [decodeSigners, eq_comm]
  | @cons m i ms is hm _ ih =>
    intro sigs hl l
    cases sigs with
    | nil => simp at hl
    | cons sig sigs =>
      rw [decodeSigners, List.zip_cons_cons, List.forall₂_cons_left_iff]
      constructor
      · intro h
        split at h
        · cases h
        · cases h
        · rename_i s hs
          split at h
          · cases h
          · cases h
          · rename_i l' hl'
            cases h
            exact ⟨s, l', (decodeSigner_ok env hrp sig hm s).1 hs, (ih sigs (by simpa using hl) l').1 hl', rfl⟩
      · rintro ⟨s, l', hs, hl', rfl⟩
        rw [(decodeSigner_ok env hrp sig hm s).2 hs]
        simp only
        rw [(ih sigs (by simpa using hl) l').2 hl']

theorem decodeSigners_panic (env : DecodeEnv) (hrp : Bytes) {ms : List SignerInfoMsg} {is : List SignerInfo}
    (h : List.Forall₂ SignerRead ms is) : ∀ (sigs : List Bytes), sigs.length = ms.length →
    (decodeSigners env hrp ms sigs = .panic ↔
    ∃ before i after k, is = before ++ i :: after ∧ (∀ j ∈ before, ∃ k, KeyOf j k ∧ k.key.length = 33) ∧
      KeyOf i k ∧ k.key.length ≠ 33) := by
  induction h with
  | nil => intro sigs _; simp [decodeSigners]
  | @cons m i ms is hm _ ih =>
    intro sigs hl
    cases sigs with
    | nil => simp at hl
    | cons sig sigs =>
      have ih := ih sigs (by simpa using hl)
      rw [decodeSigners]
      constructor
      · intro h
        split at h
        · rename_i hp
          obtain ⟨k, hk⟩ := (decodeSigner_panic env hrp sig hm).1 hp
          exact ⟨[], i, is, k, rfl, by simp, hk⟩
        · cases h
        · rename_i s hs
          split at h
          · rename_i hp
            obtain ⟨before, j, after, k, rfl, hb, hk⟩ := ih.1 hp
            obtain ⟨k', hk', hl', _⟩ := (decodeSigner_ok env hrp sig hm s).1 hs
            refine ⟨i :: before, j, after, k, rfl, ?_, hk⟩
            intro x hx
            rcases List.mem_cons.1 hx with rfl | hx
            · exact ⟨k', hk', hl'⟩
            · exact hb x hx
          · cases h
          · cases h
      · rintro ⟨before, j, after, k, e, hb, hk⟩
        cases before with
        | nil =>
          simp only [List.nil_append, List.cons.injEq] at e
          obtain ⟨rfl, rfl⟩ := e
          rw [(decodeSigner_panic env hrp sig hm).2 ⟨k, hk⟩]
        | cons x before =>
          simp only [List.cons_append, List.cons.injEq] at e
          obtain ⟨rfl, rfl⟩ := e
          obtain ⟨k', hk', hl'⟩ := hb i (by simp)
          rw [(decodeSigner_ok env hrp sig hm _).2 ⟨k', hk', hl', rfl⟩]
          simp only
          rw [ih.2 ⟨before, j, after, k, rfl, fun y hy => hb y (List.mem_cons_of_mem _ hy), hk⟩]

theorem decodeSigners_error (env : DecodeEnv) (hrp : Bytes) {ms : List SignerInfoMsg} {is : List SignerInfo}
    (h : List.Forall₂ SignerRead ms is) : ∀ (sigs : List Bytes) (e : Err),
    decodeSigners env hrp ms sigs = .ret (.error e) → e = .other := by
  induction h with
  | nil => intro sigs e h; simp [decodeSigners] at h
  | @cons m i ms is hm _ ih =>
    intro sigs e h
    cases sigs with
    | nil => simp [decodeSigners] at h
    | cons sig sigs =>
      rw [decodeSigners] at h
      split at h
      · cases h
      · rename_i e' hs
        cases h
        exact decodeSigner_error env hrp sig hm e hs
      · split at h
        · cases h
        · rename_i e' hs
          cases h
          exact ih sigs e hs
        · cases h

/-! ## The decoder -/

theorem rejectUnknowns_iff {σ : Type} (step : σ → Field → Option σ) (unknown : σ → Bool) (empty : σ) (b : Bytes) (m : σ) :
    rejectUnknowns step unknown empty b = some m ↔ mergeInto step empty b = some m ∧ unknown m = false := by
  rw [rejectUnknowns]
  cases h : mergeInto step empty b with
  | none => simp
  | some x =>
    simp only
    cases hu : unknown x with
    | true => simp only [if_true, reduceCtorEq, Option.some.injEq, false_iff]; rintro ⟨rfl, h⟩; rw [hu] at h; cases h
    | false =>
      simp only [Bool.false_eq_true, if_false, Option.some.injEq]
      constructor
      · rintro rfl; exact ⟨rfl, hu⟩
      · rintro ⟨rfl, _⟩; rfl

/-- The decoder has read everything but the signers. -/
structure Staged (env : DecodeEnv) (bytes : Bytes) (raw : TxRawMsg) (body : TxBodyMsg) (info : AuthInfoMsg)
    (fee : FeeMsg) (ts : List Tr) : Prop where
  hraw : rejectUnknowns TxRawMsg.step TxRawMsg.unknown {} bytes = some raw
  bodyBytes : raw.body ≠ []
  authBytes : raw.authInfo ≠ []
  signatures : raw.signatures ≠ []
  hbody : rejectUnknowns TxBodyMsg.step TxBodyMsg.unknown {} raw.body = some body
  hinfo : rejectUnknowns AuthInfoMsg.step AuthInfoMsg.unknown {} raw.authInfo = some info
  hfee : info.fee = some fee
  amount : fee.amount ≠ []
  transitions : getTransitions env body = some ts

/-- The transaction of the messages read. -/
def txOf (raw : TxRawMsg) (body : TxBodyMsg) (fee : FeeMsg) (ts : List Tr) (payer : Bytes) (signers : List Signer) :
    AppTx :=
  ⟨ts, Users.ofNames (signers.map Signer.address),
    ⟨signers, payer, fee.amount, body.timeout, body.memo, raw.body, raw.authInfo⟩⟩

theorem decodeTx_staged {env : DecodeEnv} {bytes : Bytes} {raw : TxRawMsg} {body : TxBodyMsg} {info : AuthInfoMsg}
    {fee : FeeMsg} {ts : List Tr} (h : Staged env bytes raw body info fee ts) (hrp : Bytes) :
    decodeTx env hrp bytes = match decodeAuthInfo env hrp info.signers fee raw.signatures with
      | .panic => .panic
      | .ret (.error e) => .ret (.error e)
      | .ret (.ok (payer, signers)) => .ret (.ok (txOf raw body fee ts payer signers)) := by
  rw [decodeTx, h.hraw]
  simp only [h.bodyBytes, h.authBytes, h.signatures, if_false, h.hbody, h.hinfo, h.hfee, h.amount, h.transitions]
  cases decodeAuthInfo env hrp info.signers fee raw.signatures with
  | panic => rfl
  | ret r => cases r with
    | error e => rfl
    | ok x => rfl

theorem decodeTx_unstaged {env : DecodeEnv} {bytes : Bytes} (hrp : Bytes)
    (h : ∀ raw body info fee ts, ¬ Staged env bytes raw body info fee ts) :
    decodeTx env hrp bytes = .ret (.error .other) := by
  rw [decodeTx]
  split
  · rfl
  · rename_i raw h1
    split
    · rfl
    · split
      · rfl
      · split
        · rfl
        · split
          · rfl
          · rename_i body h5
            split
            · rfl
            · rename_i info h6
              split
              · rfl
              · rename_i fee h7
                split
                · rfl
                · split
                  · rfl
                  · rename_i ts h9
                    exact absurd ⟨h1, ‹_›, ‹_›, ‹_›, h5, h6, h7, ‹_›, h9⟩ (h raw body info fee ts)

/-- The messages read are the parts of the transaction. -/
structure PartsRead (raw : TxRawMsg) (body : TxBodyMsg) (info : AuthInfoMsg) (fee : FeeMsg) (p : TxParts) : Prop where
  hbody : p.body = raw.body
  authInfo : p.authInfo = raw.authInfo
  signatures : p.signatures = raw.signatures
  messages : p.messages = body.messages
  memo : p.memo = body.memo
  timeout : p.timeout = body.timeout
  infos : List.Forall₂ SignerRead info.signers p.infos
  hfee : p.fee = fee.amount
  declared : p.declared = fee.payer

theorem forall2_signers {l : List Bytes} {ms : List SignerInfoMsg}
    (h : List.Forall₂ (fun b c => parseSignerInfo b = some c) l ms) :
    ∃ is, List.Forall₂ IsSignerInfo l is ∧ List.Forall₂ SignerRead ms is := by
  induction h with
  | nil => exact ⟨[], .nil, .nil⟩
  | cons h _ ih =>
    obtain ⟨is, h1, h2⟩ := ih
    obtain ⟨s, h3, h4⟩ := parseSigner_sound h
    exact ⟨s :: is, .cons h3 h1, .cons h4 h2⟩

theorem forall2_infos {l : List Bytes} {is : List SignerInfo} (h : List.Forall₂ IsSignerInfo l is) :
    ∃ ms, List.Forall₂ (fun b c => parseSignerInfo b = some c) l ms ∧ List.Forall₂ SignerRead ms is := by
  induction h with
  | nil => exact ⟨[], .nil, .nil⟩
  | cons h _ ih =>
    obtain ⟨is, h1, h2⟩ := ih
    obtain ⟨s, h3, h4⟩ := parseSigner_complete h
    exact ⟨s :: is, .cons h3 h1, .cons h4 h2⟩

theorem parseRaw_iff (b : Bytes) (m : TxRawMsg) :
    rejectUnknowns TxRawMsg.step TxRawMsg.unknown {} b = some m ↔
    ∃ fs, IsMessage b fs ∧ OnlyFields [(1, 2), (2, 2), (3, 2)] fs ∧
      m = ⟨lastOr [] (payloads fs 1), lastOr [] (payloads fs 2), payloads fs 3, false⟩ := by
  rw [rejectUnknowns_iff, mergeInto_iff]
  constructor
  · rintro ⟨⟨fs, hf, h⟩, hu⟩
    obtain ⟨u, e, hu'⟩ := foldRaw_eq fs {}
    rw [e] at h
    cases h
    simp only at hu
    subst hu
    exact ⟨fs, hf, (hu'.1 rfl).2, by simp⟩
  · rintro ⟨fs, hf, ho, rfl⟩
    obtain ⟨u, e, hu'⟩ := foldRaw_eq fs {}
    have : u = false := hu'.2 ⟨rfl, ho⟩
    subst this
    exact ⟨⟨fs, hf, by rw [e]; simp⟩, rfl⟩

theorem lastOr_bits (l : List Nat) : lastOr (0 : BitVec 64) (l.map (BitVec.ofNat 64)) = BitVec.ofNat 64 (lastOr 0 l) :=
  lastOr_map (BitVec.ofNat 64) 0 _

theorem staged_sound {env : DecodeEnv} {bytes : Bytes} {raw : TxRawMsg} {body : TxBodyMsg} {info : AuthInfoMsg}
    {fee : FeeMsg} {ts : List Tr} (h : Staged env bytes raw body info fee ts) :
    ∃ p, IsTx bytes p ∧ PartsRead raw body info fee p := by
  obtain ⟨f1, m1, o1, e1⟩ := (parseRaw_iff _ _).1 h.hraw
  obtain ⟨hb, ub⟩ := (rejectUnknowns_iff _ _ _ _ _).1 h.hbody
  obtain ⟨f2, m2, hb⟩ := (mergeInto_iff _ _ _ _).1 hb
  obtain ⟨as, a1, a2, a3, a4, a5, a6, a7, a8⟩ := (foldBody_iff _ _ _).1 hb
  obtain ⟨hi, ui⟩ := (rejectUnknowns_iff _ _ _ _ _).1 h.hinfo
  obtain ⟨f3, m3, hi⟩ := (mergeInto_iff _ _ _ _).1 hi
  obtain ⟨⟨ms, b1, b2⟩, ⟨gs, fee', b3, b4, b5⟩, b6⟩ := (foldAuth_iff _ _ _).1 hi
  obtain ⟨is, c1, c2⟩ := forall2_signers b1
  have hfee : fee' = fee := by
    rw [h.hfee] at b5
    split at b5
    · cases b5
    · exact (Option.some.inj b5).symm
  subst hfee
  obtain ⟨⟨cs, d1, d2⟩, d3, d4, d5⟩ := (foldFee_iff _ _ _).1 b4
  simp only [Option.getD_none] at d2 d5
  rw [List.nil_append] at d2
  refine ⟨⟨raw.body, raw.authInfo, raw.signatures, body.messages, body.memo, body.timeout, is, fee'.amount, fee'.payer⟩,
    ⟨⟨f1, m1, o1, ?_, ?_, ?_⟩, ⟨f2, m2, (a8.1 ub).2, ?_, a2, a6, ?_, a3, a4⟩,
      ⟨f3, gs, m3, (b6.1 ui).2, c1, b3, ?_, d3, d4, d5⟩⟩,
    ⟨rfl, rfl, rfl, rfl, rfl, rfl, ?_, rfl, rfl⟩⟩
  · rw [e1]
  · rw [e1]
  · rw [e1]
  · simp only; rw [a5]; simpa using a1
  · simp only; rw [a7, ← lastOr_bits]
  · simp only; rw [d2]; exact d1
  · rw [b2]; simpa using c2

theorem staged_complete {env : DecodeEnv} {bytes : Bytes} {p : TxParts} {ts : List Tr} (h : IsTx bytes p)
    (hfee : p.fee ≠ []) (hmsgs : p.messages ≠ []) (hts : List.Forall₂ (HoldsTransition env) p.messages ts)
    (hsig : p.signatures ≠ []) :
    ∃ raw body info fee, Staged env bytes raw body info fee ts ∧ PartsRead raw body info fee p := by
  obtain ⟨⟨f1, m1, o1, e1, e2, e3⟩, ⟨f2, m2, o2, a1, a2, a3, a4, a5, a6⟩, ⟨f3, gs, m3, o3, b1, b2, b3, b4, b5, b6⟩⟩ := h
  obtain ⟨ms, c1, c2⟩ := forall2_infos b1
  have hp2 : payloads f3 2 ≠ [] := by
    intro e
    rw [e, areParts_nil] at b2
    subst b2
    exact hfee (List.forall₂_nil_left_iff.1 b3)
  have hfold : foldFields FeeMsg.step {} gs = some ⟨p.fee, p.declared⟩ :=
    (foldFee_iff _ _ _).2 ⟨⟨p.fee, b3, rfl⟩, b4, b5, b6⟩
  refine ⟨⟨p.body, p.authInfo, p.signatures, false⟩, ⟨p.messages, p.memo, p.timeout, false⟩,
    ⟨ms, some ⟨p.fee, p.declared⟩, false⟩, ⟨p.fee, p.declared⟩,
    ⟨(parseRaw_iff _ _).2 ⟨f1, m1, o1, by rw [e1, e2, e3]⟩, ?_, ?_, hsig, ?_, ?_, rfl, hfee, ?_⟩,
    ⟨rfl, rfl, rfl, rfl, rfl, rfl, c2, rfl, rfl⟩⟩
  · intro e
    simp only at e
    rw [e] at m2
    have : f2 = [] := m2.unique .nil
    subst this
    exact hmsgs (List.forall₂_nil_left_iff.1 a1)
  · intro e
    simp only at e
    rw [e] at m3
    have : f3 = [] := m3.unique .nil
    subst this
    exact hp2 rfl
  · refine (rejectUnknowns_iff _ _ _ _ _).2 ⟨(mergeInto_iff _ _ _ _).2 ⟨f2, m2, (foldBody_iff _ _ _).2
      ⟨p.messages, a1, a2, a5, a6, rfl, a3, ?_, ?_⟩⟩, rfl⟩
    · simp only; rw [a4, lastOr_bits]
    · simpa using o2
  · refine (rejectUnknowns_iff _ _ _ _ _).2 ⟨(mergeInto_iff _ _ _ _).2 ⟨f3, m3, (foldAuth_iff _ _ _).2
      ⟨⟨ms, c1, rfl⟩, ⟨gs, _, b2, hfold, ?_⟩, ?_⟩⟩, rfl⟩
    · rw [if_neg hp2]
    · simpa using o3
  · rw [getTransitions, if_neg hmsgs]
    exact (anyTransitions_iff _ _ _).2 hts

theorem sound_staged {env : DecodeEnv} {bytes : Bytes} {p : TxParts} {ts : List Tr} (h : Sound env bytes p ts) :
    ∃ raw body info fee, Staged env bytes raw body info fee ts ∧ PartsRead raw body info fee p := by
  refine staged_complete h.parts h.fee h.nonempty h.transitions ?_
  intro e
  have := h.matched
  rw [e] at this
  exact h.signed (List.length_eq_zero_iff.1 this.symm)

theorem staged_transitions {env : DecodeEnv} {bytes : Bytes} {raw : TxRawMsg} {body : TxBodyMsg} {info : AuthInfoMsg}
    {fee : FeeMsg} {ts : List Tr} (h : Staged env bytes raw body info fee ts) :
    body.messages ≠ [] ∧ List.Forall₂ (HoldsTransition env) body.messages ts := by
  have := h.transitions
  rw [getTransitions] at this
  split at this
  · cases this
  · exact ⟨‹_›, (anyTransitions_iff _ _ _).1 this⟩

/-- What the decoder accepts. -/
theorem decodeTx_ok (env : DecodeEnv) (hrp bytes : Bytes) (tx : AppTx) :
    decodeTx env hrp bytes = .ret (.ok tx) ↔ Accepted env hrp bytes tx := by
  constructor
  · intro h
    by_cases hs : ∃ raw body info fee ts, Staged env bytes raw body info fee ts
    · obtain ⟨raw, body, info, fee, ts, hs⟩ := hs
      obtain ⟨p, hp, hr⟩ := staged_sound hs
      obtain ⟨t1, t2⟩ := staged_transitions hs
      rw [decodeTx_staged hs, decodeAuthInfo] at h
      have hlen := hr.infos.length_eq
      by_cases hn : info.signers = []
      · rw [if_pos hn] at h; cases h
      · rw [if_neg hn] at h
        by_cases hl : raw.signatures.length = info.signers.length
        · rw [if_neg (by simpa using hl)] at h
          cases hd : decodeSigners env hrp info.signers raw.signatures with
          | panic => rw [hd] at h; cases h
          | ret r => cases r with
            | error e => rw [hd] at h; cases h
            | ok l =>
              rw [hd] at h
              simp only [Out.ret.injEq, Except.ok.injEq] at h
              have hsig := (decodeSigners_ok env hrp hr.infos raw.signatures hl l).1 hd
              subst h
              refine ⟨p, ⟨hp, by rw [hr.hfee]; exact hs.amount, by rw [hr.messages]; exact t1,
                by rw [hr.messages]; exact t2, ?_, ?_⟩, ?_, rfl, ?_, hr.hfee.symm, hr.timeout.symm, hr.memo.symm, hr.hbody.symm, hr.authInfo.symm⟩
              · intro e; rw [e] at hlen; exact hn (List.length_eq_zero_iff.1 hlen)
              · rw [hr.signatures, hl, hlen]
              · rw [hr.signatures]; exact hsig
              · rw [hr.declared]
                by_cases hpay : fee.payer = []
                · rw [if_pos hpay]
                  cases l with
                  | nil =>
                    rw [List.forall₂_nil_right_iff] at hsig
                    have := congrArg List.length hsig
                    simp only [List.length_zip, List.length_nil] at this
                    have h0 : info.signers.length ≠ 0 := fun h0 => hn (List.length_eq_zero_iff.1 h0)
                    omega
                  | cons s l => simp [txOf, hpay]
                · rw [if_neg hpay]; simp [txOf, hpay]
        · rw [if_pos (by simpa using hl)] at h; cases h
    · rw [decodeTx_unstaged hrp fun raw body info fee ts h' => hs ⟨raw, body, info, fee, ts, h'⟩] at h
      cases h
  · rintro ⟨p, hs, h1, h2, h3, h4, h5, h6, h7, h8⟩
    obtain ⟨raw, body, info, fee, hst, hr⟩ := sound_staged hs
    have hlen := hr.infos.length_eq
    have hn : info.signers ≠ [] := by
      intro e; rw [e] at hlen
      exact hs.signed (List.length_eq_zero_iff.1 hlen.symm)
    have hl : raw.signatures.length = info.signers.length := by
      rw [← hr.signatures, hs.matched, hlen]
    rw [hr.signatures] at h1
    rw [decodeTx_staged hst, decodeAuthInfo, if_neg hn, if_neg (by simpa using hl),
      (decodeSigners_ok env hrp hr.infos raw.signatures hl _).2 h1]
    obtain ⟨ts, us, ⟨signers, payer, fee', timeout, memo, bb, ab⟩⟩ := tx
    simp only at h1 h2 h3 h4 h5 h6 h7 h8
    subst h2 h4 h5 h6 h7 h8
    simp only [txOf, hr.hfee, hr.timeout, hr.memo, hr.hbody, hr.authInfo]
    rw [hr.declared] at h3
    by_cases hpay : fee.payer = []
    · rw [if_pos hpay] at h3
      cases signers with
      | nil => simp at h3
      | cons s l =>
        simp only [List.map_cons, List.head?_cons, Option.some.injEq] at h3
        simp [hpay, h3]
    · rw [if_neg hpay] at h3
      simp [hpay, h3]

/-- When the decoder crashes. -/
theorem decodeTx_panic (env : DecodeEnv) (hrp bytes : Bytes) :
    decodeTx env hrp bytes = .panic ↔ BadKey env bytes := by
  constructor
  · intro h
    by_cases hs : ∃ raw body info fee ts, Staged env bytes raw body info fee ts
    · obtain ⟨raw, body, info, fee, ts, hs⟩ := hs
      obtain ⟨p, hp, hr⟩ := staged_sound hs
      obtain ⟨t1, t2⟩ := staged_transitions hs
      rw [decodeTx_staged hs, decodeAuthInfo] at h
      have hlen := hr.infos.length_eq
      by_cases hn : info.signers = []
      · rw [if_pos hn] at h; cases h
      · rw [if_neg hn] at h
        by_cases hl : raw.signatures.length = info.signers.length
        · rw [if_neg (by simpa using hl)] at h
          cases hd : decodeSigners env hrp info.signers raw.signatures with
          | panic =>
            obtain ⟨before, i, after, k, e, hb, hk⟩ := (decodeSigners_panic env hrp hr.infos raw.signatures hl).1 hd
            refine ⟨p, ts, before, i, after, k, ⟨hp, by rw [hr.hfee]; exact hs.amount, by rw [hr.messages]; exact t1,
              by rw [hr.messages]; exact t2, ?_, ?_⟩, e, hb, hk⟩
            · intro e; rw [e] at hlen; exact hn (List.length_eq_zero_iff.1 hlen)
            · rw [hr.signatures, hl, hlen]
          | ret r => cases r with
            | error e => rw [hd] at h; cases h
            | ok l => rw [hd] at h; cases h
        · rw [if_pos (by simpa using hl)] at h; cases h
    · rw [decodeTx_unstaged hrp fun raw body info fee ts h' => hs ⟨raw, body, info, fee, ts, h'⟩] at h
      cases h
  · rintro ⟨p, ts, before, i, after, k, hs, e, hb, hk⟩
    obtain ⟨raw, body, info, fee, hst, hr⟩ := sound_staged hs
    have hlen := hr.infos.length_eq
    have hn : info.signers ≠ [] := by
      intro e; rw [e] at hlen
      exact hs.signed (List.length_eq_zero_iff.1 hlen.symm)
    have hl : raw.signatures.length = info.signers.length := by
      rw [← hr.signatures, hs.matched, hlen]
    rw [decodeTx_staged hst, decodeAuthInfo, if_neg hn, if_neg (by simpa using hl),
      (decodeSigners_panic env hrp hr.infos raw.signatures hl).2 ⟨before, i, after, k, e, hb, hk⟩]

theorem decodeTx_error (env : DecodeEnv) (hrp bytes : Bytes) (e : Err)
    (h : decodeTx env hrp bytes = .ret (.error e)) : e = .other := by
  by_cases hs : ∃ raw body info fee ts, Staged env bytes raw body info fee ts
  · obtain ⟨raw, body, info, fee, ts, hs⟩ := hs
    obtain ⟨p, hp, hr⟩ := staged_sound hs
    rw [decodeTx_staged hs, decodeAuthInfo] at h
    by_cases hn : info.signers = []
    · rw [if_pos hn] at h; cases h; rfl
    · rw [if_neg hn] at h
      by_cases hl : raw.signatures.length = info.signers.length
      · rw [if_neg (by simpa using hl)] at h
        cases hd : decodeSigners env hrp info.signers raw.signatures with
        | panic => rw [hd] at h; cases h
        | ret r => cases r with
          | error e' =>
            rw [hd] at h
            simp only [Out.ret.injEq, Except.error.injEq] at h
            exact h ▸ decodeSigners_error env hrp hr.infos _ _ hd
          | ok l => rw [hd] at h; cases h
      · rw [if_pos (by simpa using hl)] at h; cases h; rfl
  · rw [decodeTx_unstaged hrp fun raw body info fee ts h' => hs ⟨raw, body, info, fee, ts, h'⟩] at h
    cases h; rfl

end Verif
