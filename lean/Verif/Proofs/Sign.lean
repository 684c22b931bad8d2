import Verif.Model.Sign
import Verif.Proofs.Decoder
import Verif.Proofs.Bytes
/-!
# The messages clients write, as fields
-/

namespace Verif.Client
open Verif Spec

theorem isVarint_append {n : Nat} (h : n < 2 ^ 64) : IsVarint (appendVarint n) n := by
  have := consumeVarint_append h []
  obtain ⟨v, e, hv⟩ := (consumeVarint_iff _ _ _).1 this
  rw [List.append_nil, List.append_nil] at e
  rwa [e]

theorem isTag_append {num typ : Nat} (h1 : 1 ≤ num) (h2 : num ≤ 2 ^ 29 - 1) (ht : typ < 8) : IsTag (appendTag num typ) num typ :=
  ⟨h1, by omega, isVarint_append (by omega)⟩

/-- A field with bytes. -/
def bytesFld (num : Nat) (b : Bytes) : Field := ⟨num, .len b, appendVarint b.length ++ b⟩

def textFlds (num : Nat) (b : Bytes) : List Field := if b = [] then [] else [bytesFld num b]

def numFlds (num : Nat) (n : BitVec 64) : List Field :=
  if n = 0 then [] else [⟨num, .varint n.toNat, appendVarint n.toNat⟩]

def allFlds (num : Nat) (l : List Bytes) : List Field := l.map (bytesFld num)

theorem _root_.Verif.Spec.IsMessage.append {a b : Bytes} {fs gs : List Field} (ha : IsMessage a fs) (hb : IsMessage b gs) :
    IsMessage (a ++ b) (fs ++ gs) := by
  induction ha with
  | nil => exact hb
  | cons h1 h2 h3 _ ih => simpa using IsMessage.cons h1 h2 h3 ih

/-- The number of a field, between 1 and 2^29 - 1. -/
def Num (n : Nat) : Prop := 1 ≤ n ∧ n ≤ 2 ^ 29 - 1

theorem message_bytes {num : Nat} (hn : Num num) {b : Bytes} (h : b.length < 2 ^ 64) :
    IsMessage (putBytes num b) [bytesFld num b] := by
  have := IsMessage.cons (num := num) (v := .len b) hn.2 (isTag_append hn.1 hn.2 (by simp [FieldVal.wire]))
    (.scalar (.len (isVarint_append h))) .nil
  rwa [List.append_nil] at this

theorem message_text {num : Nat} (hn : Num num) {b : Bytes} (h : b.length < 2 ^ 64) :
    IsMessage (putText num b) (textFlds num b) := by
  unfold putText textFlds
  split
  · exact .nil
  · exact message_bytes hn h

theorem message_number {num : Nat} (hn : Num num) (n : BitVec 64) : IsMessage (putNumber num n) (numFlds num n) := by
  unfold putNumber numFlds
  split
  · exact .nil
  · have := IsMessage.cons (num := num) (v := .varint n.toNat) hn.2 (isTag_append hn.1 hn.2 (by simp [FieldVal.wire]))
      (.scalar (.varint (isVarint_append n.isLt))) .nil
    rwa [List.append_nil] at this

theorem message_all {num : Nat} (hn : Num num) {l : List Bytes} (h : ∀ b ∈ l, b.length < 2 ^ 64) :
    IsMessage (putAll num l) (allFlds num l) := by
  induction l with
  | nil => exact .nil
  | cons b l ih =>
    exact (message_bytes hn (h b (by simp))).append (ih fun x hx => h x (by simp [hx]))

theorem length_bytes (num : Nat) (b : Bytes) : b.length ≤ (putBytes num b).length := by
  simp only [putBytes, List.length_append]; omega

theorem length_text (num : Nat) (b : Bytes) : b.length ≤ (putText num b).length := by
  unfold putText
  split
  · rename_i h; rw [h]
  · exact length_bytes num b

theorem length_all (num : Nat) {l : List Bytes} {b : Bytes} (h : b ∈ l) : b.length ≤ (putAll num l).length := by
  induction l with
  | nil => cases h
  | cons x l ih =>
    have e : (putAll num (x :: l)).length = (putBytes num x).length + (putAll num l).length := by
      simp only [putAll, List.flatMap_cons, List.length_append]
    rcases List.mem_cons.1 h with rfl | h
    · have := length_bytes num b; omega
    · have := ih h; omega

/-- The text, unless it is empty. -/
def one (b : Bytes) : List Bytes := if b = [] then [] else [b]

/-- The number, unless it is zero. -/
def oneNum (n : BitVec 64) : List Nat := if n = 0 then [] else [n.toNat]

@[simp] theorem payloads_text (num k : Nat) (b : Bytes) :
    payloads (textFlds num b) k = if num = k then one b else [] := by
  unfold textFlds one
  split
  · simp_all
  · simp_all [bytesFld, payloads_len]

@[simp] theorem payloads_bytes (num k : Nat) (b : Bytes) :
    payloads [bytesFld num b] k = if num = k then [b] else [] := by
  simp [bytesFld, payloads_len]

@[simp] theorem payloads_num (num k : Nat) (n : BitVec 64) : payloads (numFlds num n) k = [] := by
  unfold numFlds
  split
  · rfl
  · rw [payloads_other (by simp [FieldVal.wire])]; rfl

@[simp] theorem payloads_all (num k : Nat) (l : List Bytes) :
    payloads (allFlds num l) k = if num = k then l else [] := by
  induction l with
  | nil => simp [allFlds]
  | cons b l ih =>
    have : allFlds num (b :: l) = [bytesFld num b] ++ allFlds num l := rfl
    rw [this, payloads_append, ih, payloads_bytes]
    split <;> rfl

@[simp] theorem numbers_bytes (num k : Nat) (b : Bytes) : numbers [bytesFld num b] k = [] := by
  rw [numbers_other (by simp [bytesFld, FieldVal.wire])]; rfl

@[simp] theorem numbers_text (num k : Nat) (b : Bytes) : numbers (textFlds num b) k = [] := by
  unfold textFlds
  split
  · rfl
  · exact numbers_bytes num k b

@[simp] theorem numbers_all (num k : Nat) (l : List Bytes) : numbers (allFlds num l) k = [] := by
  induction l with
  | nil => rfl
  | cons b l ih =>
    have : allFlds num (b :: l) = [bytesFld num b] ++ allFlds num l := rfl
    rw [this, numbers_append, ih, numbers_bytes]; rfl

@[simp] theorem numbers_num (num k : Nat) (n : BitVec 64) :
    numbers (numFlds num n) k = if num = k then oneNum n else [] := by
  unfold numFlds oneNum
  split
  · simp_all
  · simp_all [numbers_varint]

@[simp] theorem lastOr_one (b : Bytes) : lastOr [] (one b) = b := by
  unfold one
  split
  · rename_i h; rw [h]; rfl
  · rfl

@[simp] theorem lastOr_oneNum (n : BitVec 64) : BitVec.ofNat 64 (lastOr 0 (oneNum n)) = n := by
  unfold oneNum
  split
  · rename_i h; rw [h]; rfl
  · simp [lastOr]

theorem allText_one {b : Bytes} (h : validUtf8 b = true) : AllText (one b) := by
  unfold one
  split
  · exact allText_nil
  · intro x hx; rw [List.mem_singleton.1 hx]; exact h

theorem num {n : Nat} (h : (decide (1 ≤ n) && decide (n ≤ 2 ^ 29 - 1)) = true) : Num n := by
  simpa [Num] using h

@[simp] theorem payloads_bytes_cons (num n : Nat) (b : Bytes) (fs : List Field) :
    payloads (bytesFld num b :: fs) n = if num = n then b :: payloads fs n else payloads fs n := by
  have := payloads_append [bytesFld num b] fs n
  rw [payloads_bytes] at this
  split at this <;> simp_all

@[simp] theorem payloads_nil (n : Nat) : payloads [] n = [] := rfl

@[simp] theorem numbers_bytes_cons (num n : Nat) (b : Bytes) (fs : List Field) :
    numbers (bytesFld num b :: fs) n = numbers fs n := by
  have := numbers_append [bytesFld num b] fs n
  rwa [numbers_bytes] at this

theorem isCoin (c : Coin) (h1 : validUtf8 c.denom = true) (h2 : validUtf8 c.amount = true)
    (hl : (coin c).length < 2 ^ 64) : IsCoin (coin c) c := by
  have e : (coin c).length = (putText 1 c.denom).length + (putBytes 2 c.amount).length := List.length_append
  have l1 := length_text 1 c.denom
  have l2 := length_bytes 2 c.amount
  refine ⟨_, (message_text (num rfl) (by omega)).append (message_bytes (num rfl) (by omega)), ?_, ?_, ?_⟩
  · simpa [payloads_append] using allText_one h1
  · simpa [payloads_append, AllText] using h2
  · simp [payloads_append, lastOr]

theorem isCoins {l : List Coin} (h : ∀ c ∈ l, validUtf8 c.denom = true ∧ validUtf8 c.amount = true)
    (hl : ∀ c ∈ l, (coin c).length < 2 ^ 64) : List.Forall₂ IsCoin (l.map coin) l := by
  induction l with
  | nil => exact .nil
  | cons c l ih =>
    exact .cons (isCoin c (h c (by simp)).1 (h c (by simp)).2 (hl c (by simp)))
      (ih (fun x hx => h x (by simp [hx])) fun x hx => hl x (by simp [hx]))

theorem isAny (a : AnyMsg) (h1 : validUtf8 a.typeUrl = true) (hl : (any a).length < 2 ^ 64) : IsAny (any a) a := by
  have e : (any a).length = (putText 1 a.typeUrl).length + (putText 2 a.value).length := List.length_append
  have l1 := length_text 1 a.typeUrl
  have l2 := length_text 2 a.value
  refine ⟨_, (message_text (num rfl) (by omega)).append (message_text (num rfl) (by omega)), ?_, ?_⟩
  · simpa [payloads_append] using allText_one h1
  · simp [payloads_append]

theorem isAnys {l : List AnyMsg} (h : ∀ a ∈ l, validUtf8 a.typeUrl = true)
    (hl : ∀ a ∈ l, (any a).length < 2 ^ 64) : List.Forall₂ IsAny (l.map any) l := by
  induction l with
  | nil => exact .nil
  | cons c l ih =>
    exact .cons (isAny c (h c (by simp)) (hl c (by simp)))
      (ih (fun x hx => h x (by simp [hx])) fun x hx => hl x (by simp [hx]))

theorem isPubKey (k : Bytes) (hl : k.length < 2 ^ 64) : IsPubKey (putText 1 k) ⟨k, []⟩ := by
  refine ⟨_, message_text (num rfl) hl, ?_⟩
  have : (textFlds 1 k).filter (fun f => (f.num, f.val.wire) ≠ (1, 2)) = [] := by
    unfold textFlds
    split
    · rfl
    · simp [bytesFld, FieldVal.wire]
  rw [this]
  simp

/-- The type URL of keys in transactions of clients. -/
def keyUrl : Bytes := b!"/cosmos.crypto.secp256k1.PubKey"

theorem keyUrl_text : validUtf8 keyUrl = true := by decide +kernel

theorem areParts_one {b : Bytes} {fs : List Field} (h : IsMessage b fs) : AreParts [b] fs :=
  ⟨[fs], .cons h .nil, by simp⟩

theorem isSignerInfo (s : SignerData) (hl : s.info.length < 2 ^ 64) :
    IsSignerInfo s.info ⟨⟨keyUrl, putText 1 s.key⟩, true, s.sequence⟩ := by
  have e : s.info.length = (putBytes 1 (any ⟨keyUrl, putText 1 s.key⟩)).length +
      ((putBytes 2 (putBytes 1 (putNumber 1 1))).length + (putNumber 3 s.sequence).length) := by
    rw [SignerData.info, List.length_append, List.length_append]; rfl
  have l1 := length_bytes 1 (any ⟨keyUrl, putText 1 s.key⟩)
  have l2 := length_bytes 2 (putBytes 1 (putNumber 1 1))
  obtain ⟨ks, hk, hka⟩ := isAny ⟨keyUrl, putText 1 s.key⟩ keyUrl_text (by omega)
  have hm1 : IsMessage (putNumber 1 1) (numFlds 1 1) := message_number (num rfl) 1
  have hm : IsMessage (putBytes 1 (putNumber 1 1)) [bytesFld 1 (putNumber 1 1)] :=
    message_bytes (num rfl) (by decide +kernel)
  have hm0 : IsMessage (putBytes 1 (any ⟨keyUrl, putText 1 s.key⟩)) [bytesFld 1 (any ⟨keyUrl, putText 1 s.key⟩)] :=
    message_bytes (num rfl) (by omega)
  refine ⟨_, ks, [bytesFld 1 (putNumber 1 1)], hm0.append ((message_bytes (num rfl) (by decide +kernel)).append
    (message_number (num rfl) s.sequence)), ?_, hka, ?_, ?_, ?_, ?_⟩
  · simpa [payloads_append] using areParts_one hk
  · simpa [payloads_append] using areParts_one hm
  · rw [bytesFld, modeParses_len]
    simpa using ⟨_, hm1⟩
  · refine iff_of_true rfl ?_
    refine ⟨by simp [bytesFld, FieldVal.wire, payloads_len], numFlds 1 1, ?_, by decide⟩
    simpa [bytesFld, FieldVal.wire, payloads_len] using areParts_one hm1
  · simp [numbers_append]

theorem isSignerInfos {l : List SignerData} (hl : ∀ s ∈ l, s.info.length < 2 ^ 64) :
    List.Forall₂ IsSignerInfo (l.map SignerData.info) (l.map fun s => ⟨⟨keyUrl, putText 1 s.key⟩, true, s.sequence⟩) := by
  induction l with
  | nil => exact .nil
  | cons c l ih => exact .cons (isSignerInfo c (hl c (by simp))) (ih fun x hx => hl x (by simp [hx]))

/-- What a client has to say for the messages to be read: text is UTF-8. -/
structure Tx.IsText (t : Tx) : Prop where
  urls : ∀ a ∈ t.messages, validUtf8 a.typeUrl = true
  memo : validUtf8 t.memo = true
  fee : ∀ c ∈ t.fee, validUtf8 c.denom = true ∧ validUtf8 c.amount = true
  payer : validUtf8 t.payer = true
  granter : validUtf8 t.granter = true

/-- The parts of the transaction. -/
def Tx.parts (t : Tx) (signatures : List Bytes) : TxParts where
  body := t.body
  authInfo := t.authInfo
  signatures := signatures
  messages := t.messages
  memo := t.memo
  timeout := t.timeout
  infos := t.signers.map fun s => ⟨⟨keyUrl, putText 1 s.key⟩, true, s.sequence⟩
  fee := t.fee
  declared := t.payer

theorem only_all {ks : List (Nat × Nat)} {num : Nat} (h : (num, 2) ∈ ks) (l : List Bytes) : OnlyFields ks (allFlds num l) := by
  intro f hf
  obtain ⟨b, _, rfl⟩ := List.mem_map.1 hf
  exact h

theorem only_text {ks : List (Nat × Nat)} {num : Nat} (h : (num, 2) ∈ ks) (b : Bytes) : OnlyFields ks (textFlds num b) := by
  intro f hf
  unfold textFlds at hf
  split at hf
  · cases hf
  · rw [List.mem_singleton.1 hf]; exact h

theorem only_bytes {ks : List (Nat × Nat)} {num : Nat} (h : (num, 2) ∈ ks) (b : Bytes) : OnlyFields ks [bytesFld num b] := by
  intro f hf
  rw [List.mem_singleton.1 hf]; exact h

theorem only_num {ks : List (Nat × Nat)} {num : Nat} (h : (num, 0) ∈ ks) (n : BitVec 64) : OnlyFields ks (numFlds num n) := by
  intro f hf
  unfold numFlds at hf
  split at hf
  · cases hf
  · rw [List.mem_singleton.1 hf]; exact h

theorem _root_.Verif.Spec.OnlyFields.append {ks : List (Nat × Nat)} {fs gs : List Field} (h1 : OnlyFields ks fs)
    (h2 : OnlyFields ks gs) : OnlyFields ks (fs ++ gs) := fun f hf => (List.mem_append.1 hf).elim (h1 f) (h2 f)

theorem isTx {t : Tx} (ht : t.IsText) (signatures : List Bytes) (hl : (t.raw signatures).length < 2 ^ 64) :
    IsTx (t.raw signatures) (t.parts signatures) := by
  have e : (t.raw signatures).length = (putText 1 t.body).length + ((putText 2 t.authInfo).length +
      (putAll 3 signatures).length) := by rw [Tx.raw, List.length_append, List.length_append]
  have l1 := length_text 1 t.body
  have l2 := length_text 2 t.authInfo
  have l3 := fun b (h : b ∈ signatures) => length_all 3 h
  have eb : t.body.length = (putAll 1 (t.messages.map any)).length + ((putText 2 t.memo).length +
      (putNumber 3 t.timeout).length) := by rw [Tx.body, List.length_append, List.length_append]
  have lb1 : ∀ a ∈ t.messages, (any a).length ≤ (putAll 1 (t.messages.map any)).length := fun a h =>
    length_all 1 (List.mem_map_of_mem h)
  have lb2 := length_text 2 t.memo
  have ea : t.authInfo.length = (putAll 1 (t.signers.map SignerData.info)).length + (putBytes 2 t.feeInfo).length := by
    rw [Tx.authInfo, List.length_append]
  have la1 : ∀ a ∈ t.signers, a.info.length ≤ (putAll 1 (t.signers.map SignerData.info)).length := fun a h =>
    length_all 1 (List.mem_map_of_mem h)
  have la2 := length_bytes 2 t.feeInfo
  have ef : t.feeInfo.length = (putAll 1 (t.fee.map coin)).length + ((putNumber 2 t.gas).length +
      ((putText 3 t.payer).length + (putText 4 t.granter).length)) := by
    rw [Tx.feeInfo, List.length_append, List.length_append, List.length_append]
  have lf1 : ∀ a ∈ t.fee, (coin a).length ≤ (putAll 1 (t.fee.map coin)).length := fun a h =>
    length_all 1 (List.mem_map_of_mem h)
  have lf3 := length_text 3 t.payer
  have lf4 := length_text 4 t.granter
  refine ⟨⟨_, (message_text (num rfl) (by omega)).append ((message_text (num rfl) (by omega)).append
      (message_all (num rfl) fun b hb => ?_)), ?_, ?_, ?_, ?_⟩,
    ⟨_, (message_all (num rfl) ?_).append ((message_text (num rfl) (by omega)).append (message_number (num rfl) _)),
      ?_, ?_, ?_, ?_, ?_, ?_, ?_⟩,
    ⟨_, allFlds 1 (t.fee.map coin) ++ (numFlds 2 t.gas ++ (textFlds 3 t.payer ++ textFlds 4 t.granter)),
      (message_all (num rfl) ?_).append (message_bytes (num rfl) (by omega)), ?_, ?_, ?_, ?_, ?_, ?_, ?_⟩⟩
  · have := l3 b hb; omega
  · exact (only_text (by decide) _).append ((only_text (by decide) _).append (only_all (by decide) _))
  · simp [payloads_append, Tx.parts]
  · simp [payloads_append, Tx.parts]
  · simp [payloads_append, Tx.parts]
  · intro b hb
    obtain ⟨a, ha, rfl⟩ := List.mem_map.1 hb
    have := lb1 a ha; omega
  · exact (only_all (by decide) _).append ((only_text (by decide) _).append (only_num (by decide) _))
  · simpa [payloads_append, Tx.parts] using isAnys ht.urls fun a ha => by have := lb1 a ha; omega
  · simpa [payloads_append] using allText_one ht.memo
  · simp [payloads_append, Tx.parts]
  · simp [numbers_append, Tx.parts]
  · simp [payloads_append]
  · simp [payloads_append]
  · intro b hb
    obtain ⟨a, ha, rfl⟩ := List.mem_map.1 hb
    have := la1 a ha; omega
  · exact (only_all (by decide) _).append (only_bytes (by decide) _)
  · simpa [payloads_append, Tx.parts] using isSignerInfos fun a ha => by have := la1 a ha; omega
  · have hm := (message_all (num (n := 1) rfl) (l := t.fee.map coin) fun b hb => by
        obtain ⟨a, ha, rfl⟩ := List.mem_map.1 hb
        have := lf1 a ha; omega).append ((message_number (num (n := 2) rfl) t.gas).append
      ((message_text (num (n := 3) rfl) (b := t.payer) (by omega)).append (message_text (num (n := 4) rfl) (b := t.granter) (by omega))))
    simpa only [payloads_append, payloads_all, payloads_bytes, if_neg (show ¬ (1 : Nat) = 2 by decide), if_true,
      List.nil_append, Tx.feeInfo] using areParts_one hm
  · simpa [payloads_append, Tx.parts] using isCoins ht.fee fun a ha => by have := lf1 a ha; omega
  · simpa [payloads_append] using allText_one ht.payer
  · simpa [payloads_append] using allText_one ht.granter
  · simp [payloads_append, Tx.parts]

end Verif.Client
