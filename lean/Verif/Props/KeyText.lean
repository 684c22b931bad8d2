import Verif.Model.KeyText
import Verif.Spec.KeyText
import Verif.Props.Nist
/-!
# C125: keys of other curves are written to buffers whole, and as text without what is private
-/

namespace Verif.Props
open Verif Spec Nist

theorem hexDigit_spec (n : Nat) (h : n < 16) : hexDigits[n]? = some (hexDigit n) := by
  have : ∀ n < 16, hexDigits[n]? = some (hexDigit n) := by decide
  exact this n h

theorem hexUpper_spec : ∀ b : Bytes, HexText b (hexUpper b)
  | [] => .nil
  | x :: b => by
    have hx := x.toNat_lt
    exact .cons (hexDigit_spec _ (by omega)) (hexDigit_spec _ (by omega)) (hexUpper_spec b)

theorem hexText_unique {b t t' : Bytes} (h : HexText b t) (h' : HexText b t') : t = t' := by
  induction h generalizing t' with
  | nil => cases h'; rfl
  | cons hh hl _ ih =>
    cases h' with
    | cons hh' hl' hr =>
      rw [hh] at hh'; rw [hl] at hl'
      cases hh'; cases hl'
      rw [ih hr]

theorem hexDigits_inj {i j : Nat} {d : UInt8} (hi : hexDigits[i]? = some d) (hj : hexDigits[j]? = some d) : i = j := by
  have li : i < 16 := (List.getElem?_eq_some_iff.1 hi).1
  have lj : j < 16 := (List.getElem?_eq_some_iff.1 hj).1
  have : ∀ i < 16, ∀ j < 16, hexDigits[i]? = hexDigits[j]? → i = j := by decide
  exact this i li j lj (hi.trans hj.symm)

/-- The text has the bytes. -/
theorem hexText_inj {b b' t : Bytes} (h : HexText b t) (h' : HexText b' t) : b = b' := by
  induction h generalizing b' with
  | nil => cases h'; rfl
  | cons hh hl _ ih =>
    cases h' with
    | cons hh' hl' hr =>
      rw [ih hr]
      congr 1
      have h1 := hexDigits_inj hh hh'
      have h2 := hexDigits_inj hl hl'
      exact UInt8.toNat_inj.1 (by omega)

theorem hexText_mem {b t : Bytes} (h : HexText b t) {d : UInt8} (hd : d ∈ t) : d ∈ hexDigits := by
  induction h with
  | nil => cases hd
  | cons hh hl _ ih =>
    rcases List.mem_cons.1 hd with rfl | hd
    · exact List.mem_of_getElem? hh
    rcases List.mem_cons.1 hd with rfl | hd
    · exact List.mem_of_getElem? hl
    exact ih hd

theorem last_brace {a a' b b' : Bytes} {c : UInt8} (h : a ++ c :: b = a' ++ c :: b') (hb : c ∉ b) (hb' : c ∉ b') :
    a = a' ∧ b = b' := by
  rcases List.append_eq_append_iff.1 h with ⟨s, rfl, e⟩ | ⟨s, rfl, e⟩
  · cases s with
    | nil => simp at e; exact ⟨by simp, e⟩
    | cons x s =>
      rw [List.cons_append] at e
      injection e with _ e
      exact absurd (e ▸ List.mem_append_right _ List.mem_cons_self) hb
  · cases s with
    | nil => simp at e; exact ⟨by simp, e.symm⟩
    | cons x s =>
      rw [List.cons_append] at e
      injection e with _ e
      exact absurd (e ▸ List.mem_append_right _ List.mem_cons_self) hb'

theorem copyInto_written {buf b : Bytes} (h : b.length ≤ buf.length) : Written buf (copyInto buf b) b b.length := by
  have e : copyInto buf b = b ++ buf.drop b.length := by rw [copyInto, List.take_of_length_le h]
  refine ⟨rfl, ?_, ?_, ?_⟩
  · rw [e, List.take_left]
  · rw [e, List.drop_left]
  · rw [e, List.length_append, List.length_drop]; omega

/-- **C125** In part: the bytes of a key are written whole to a buffer that has room for them, and nothing else of the
buffer changes. -/
theorem C125_written_partial {buf b : Bytes} (h : b.length ≤ buf.length) :
    (∀ pk : Nist.PubKey, pk.bytes = .ret b → ∃ after n, pk.marshalTo buf = .ret (after, n) ∧ Written buf after b n) ∧
    ∀ sk : PrivKey, sk.bytes = .ret b → ∃ after n, sk.marshalTo buf = .ret (after, n) ∧ Written buf after b n :=
  ⟨fun pk hb => ⟨_, _, by rw [Nist.PubKey.marshalTo, hb], copyInto_written h⟩,
    fun sk hb => ⟨_, _, by rw [PrivKey.marshalTo, hb], copyInto_written h⟩⟩

/-- **C125** What is written of a public key is read as this key. -/
theorem C125_read {c : Elliptic} (hf : FieldOk c) {pk : Nist.PubKey} (hcurve : pk.curve = c) (hp : OnCurve c pk.x pk.y)
    (pk' : Nist.PubKey) {buf : Bytes} (hl : 1 + c.byteLen ≤ buf.length) : ∃ after, pk.marshalTo buf = .ret (after, 1 + c.byteLen) ∧
      pk'.unmarshal (after.take (1 + c.byteLen)) c (1 + c.byteLen) = .ret (some { pk with address := pk'.address }) := by
  obtain ⟨b, hb, hlen, hu⟩ := C122_public hf hcurve hp pk'
  obtain ⟨after, n, hm, hw⟩ := (C125_written_partial (buf := buf) (b := b) (by omega)).1 pk hb
  have hn : n = 1 + c.byteLen := hw.count.trans hlen
  subst hn
  exact ⟨after, hm, by rw [hw.start]; exact hu⟩

/-- The full statement: whatever the buffer, the bytes of the key are written whole. -/
def WrittenWhole (marshalTo : Bytes → Out (Bytes × Nat)) (b : Bytes) : Prop :=
  ∀ buf after n, marshalTo buf = .ret (after, n) → Written buf after b n

/-- **C125** fails: to each buffer that is too small the first bytes are written, and the number of all is returned, not an
error. -/
theorem C125_fails {b : Bytes} (hne : b ≠ []) :
    (∀ pk : Nist.PubKey, pk.bytes = .ret b → ¬ WrittenWhole pk.marshalTo b ∧
      ∀ buf : Bytes, buf.length < b.length → pk.marshalTo buf = .ret (b.take buf.length, b.length)) ∧
    ∀ sk : PrivKey, sk.bytes = .ret b → ¬ WrittenWhole sk.marshalTo b ∧
      ∀ buf : Bytes, buf.length < b.length → sk.marshalTo buf = .ret (b.take buf.length, b.length) := by
  have e : ∀ buf : Bytes, buf.length < b.length → copyInto buf b = b.take buf.length := fun buf h => by
    rw [copyInto, List.drop_eq_nil_of_le (by omega), List.append_nil]
  have key : ∀ f : Bytes → Out (Bytes × Nat), (∀ buf : Bytes, f buf = .ret (copyInto buf b, b.length)) →
      ¬ WrittenWhole f b ∧ ∀ buf : Bytes, buf.length < b.length → f buf = .ret (b.take buf.length, b.length) := by
    intro f hf
    refine ⟨fun h => ?_, fun buf h => by rw [hf, e buf h]⟩
    have hw := h [] _ _ (hf [])
    have := hw.start
    rw [e [] (by simpa using List.length_pos_iff.2 hne)] at this
    simp at this
    exact hne this
  exact ⟨fun pk hb => key _ fun buf => by rw [Nist.PubKey.marshalTo, hb],
    fun sk hb => key _ fun buf => by rw [PrivKey.marshalTo, hb]⟩

/-- **C125** The text of a public key is the name and the bytes in braces, and it determines both. -/
theorem C125_text {pk : Nist.PubKey} {name t : Bytes} (h : pk.string name = .ret t) :
    (∃ b x, pk.bytes = .ret b ∧ HexText b x ∧ t = name ++ b!"{" ++ x ++ b!"}") ∧
    ∀ (pk' : Nist.PubKey) (name' : Bytes), pk'.string name' = .ret t → name' = name ∧ pk'.bytes = pk.bytes := by
  have form : ∀ (pk : Nist.PubKey) (name : Bytes), pk.string name = .ret t → ∃ b, pk.bytes = .ret b ∧
      t = name ++ 123 :: (hexUpper b ++ [125]) := by
    intro pk name h
    rw [Nist.PubKey.string] at h
    cases hb : pk.bytes with
    | panic => rw [hb] at h; cases h
    | ret b => rw [hb] at h; cases h; exact ⟨b, rfl, rfl⟩
  have brace : ∀ b, (123 : UInt8) ∉ hexUpper b ++ [125] := by
    intro b hm
    rcases List.mem_append.1 hm with hm | hm
    · exact absurd (hexText_mem (hexUpper_spec b) hm) (by decide)
    · exact absurd hm (by decide)
  obtain ⟨b, hb, ht⟩ := form pk name h
  refine ⟨⟨b, _, hb, hexUpper_spec b, by rw [ht]; show _ = name ++ [123] ++ hexUpper b ++ [125]; simp⟩, fun pk' name' h' => ?_⟩
  obtain ⟨b', hb', ht'⟩ := form pk' name' h'
  obtain ⟨hn, hx⟩ := last_brace (ht'.symm.trans ht) (brace _) (brace _)
  have hx := List.append_cancel_right hx
  have : b' = b := hexText_inj (hexUpper_spec b') (hx ▸ hexUpper_spec b)
  exact ⟨hn, by rw [hb', hb, this]⟩

/-- **C125** The text of a private key is that of all private keys, and never that of a public key. -/
theorem C125_private (sk : PrivKey) (name : Bytes) : (∀ sk' : PrivKey, sk'.string name = sk.string name) ∧
    ∀ (pk : Nist.PubKey) (name' : Bytes), pk.string name' ≠ .ret (sk.string name) := by
  refine ⟨fun _ => rfl, fun pk name' h => ?_⟩
  obtain ⟨⟨b, x, _, hx, ht⟩, _⟩ := C125_text h
  have ht : name ++ 123 :: [45, 125] = name' ++ 123 :: (x ++ [125]) := by
    have : name ++ [123, 45, 125] = name' ++ [123] ++ x ++ [125] := ht
    simpa using this
  have brace : (123 : UInt8) ∉ x ++ [125] := by
    intro hm
    rcases List.mem_append.1 hm with hm | hm
    · exact absurd (hexText_mem hx hm) (by decide)
    · exact absurd hm (by decide)
  have e := (last_brace ht (by decide) brace).2
  have : (45 : UInt8) ∈ x ++ [125] := e ▸ List.mem_cons_self
  rcases List.mem_append.1 this with hm | hm
  · exact absurd (hexText_mem hx hm) (by decide)
  · exact absurd hm (by decide)

/-- A curve for the example. -/
def tinyElliptic : Elliptic where
  bitSize := 8
  p := 7
  n := 5
  poly := fun x => (x * x * x + 4 * x + 1) % 7
  sqrt := fun a => (List.range 7).find? fun y => y * y % 7 = a
  add := fun a _ => a
  mult := fun a _ => a
  baseMult := fun _ => (0, 1)

/-- Non-vacuity: a key, its text, and two buffers. -/
example : (⟨tinyElliptic, 0, 1, none⟩ : Nist.PubKey).string b!"k" = .ret b!"k{0300}" ∧
    (⟨tinyElliptic, 0, 1, none⟩ : Nist.PubKey).marshalTo [9, 9, 9] = .ret ([3, 0, 9], 2) ∧
    (⟨tinyElliptic, 0, 1, none⟩ : Nist.PubKey).marshalTo [9] = .ret ([3], 2) := by
  decide

end Verif.Props
