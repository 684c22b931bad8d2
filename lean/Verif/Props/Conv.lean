import Verif.Model.Conv
/-!
# C124: conversions without copying agree with those of the language
-/

namespace Verif.Props
open Verif Conv

/-- The addresses of a string. -/
def within (s : Str) (a : Nat) : Prop := s.data ≤ a ∧ a < s.data + s.len

/-- Memory that is free: it can be written to and is not part of the string. -/
def Free (m : Memory) (s : Str) (a n : Nat) : Prop := ∀ i, i < n → m.readOnly (a + i) = false ∧ ¬ within s (a + i)

theorem bytes_congr (s : Str) (m m' : Memory) (h : ∀ a, within s a → m'.byte a = m.byte a) : s.bytes m' = s.bytes m := by
  refine List.map_congr_left fun i hi => h _ ⟨by omega, ?_⟩
  have := List.mem_range.1 hi; omega

theorem write_free (m : Memory) (s : Str) (a : Nat) (v : UInt8) (h : m.readOnly a = false ∧ ¬ within s a) :
    ∃ m', m.write a v = .ret m' ∧ m'.readOnly = m.readOnly ∧ s.bytes m' = s.bytes m ∧
      (∀ x, m'.byte x = if x = a then v else m.byte x) := by
  refine ⟨{ m with byte := fun x => if x = a then v else m.byte x }, by rw [Memory.write, h.1]; rfl, rfl, bytes_congr _ _ _ fun x hx => ?_, fun x => rfl⟩
  exact if_neg fun e : x = a => h.2 (e ▸ hx)

theorem writeAll_free (s : Str) : ∀ (vs : Bytes) (m : Memory) (a : Nat), Free m s a vs.length →
    ∃ m', m.writeAll a vs = .ret m' ∧ m'.readOnly = m.readOnly ∧ s.bytes m' = s.bytes m ∧
      (∀ x, x < a → m'.byte x = m.byte x) ∧ ∀ i v, vs[i]? = some v → m'.byte (a + i) = v
  | [], m, a, _ => ⟨m, rfl, rfl, rfl, fun _ _ => rfl, fun i v h => by simp at h⟩
  | v :: vs, m, a, h => by
    obtain ⟨m1, e1, r1, b1, w1⟩ := write_free m s a v (h 0 (by simp))
    obtain ⟨m2, e2, r2, b2, l2, w2⟩ := writeAll_free s vs m1 (a + 1) fun i hi => by
      have := h (i + 1) (by simp; omega)
      rw [r1, show a + 1 + i = a + (i + 1) by omega]; exact this
    refine ⟨m2, by simp only [Memory.writeAll, e1]; exact e2, r2.trans r1, b2.trans b1, fun x hx => ?_, fun i u hu => ?_⟩
    · rw [l2 x (by omega), w1, if_neg (by omega)]
    · cases i with
      | zero => simp at hu; subst hu; rw [Nat.add_zero, l2 a (by omega), w1, if_pos rfl]
      | succ i => rw [show a + (i + 1) = a + 1 + i by omega]; exact w2 i u (by simpa using hu)

/-- **C124** What is converted has the same bytes, in all memory, in both directions; there and back gives the same
string, and back and there the same slice without its spare capacity. -/
theorem C124_reads (m : Memory) (s : Str) (b : Slice) : (unsafeStrToBytes s).bytes m = s.bytes m ∧
    (unsafeBytesToStr b).bytes m = b.bytes m ∧ unsafeBytesToStr (unsafeStrToBytes s) = s ∧
    unsafeStrToBytes (unsafeBytesToStr b) = ⟨b.data, b.len, b.len⟩ :=
  ⟨rfl, rfl, rfl, rfl⟩

/-- **C124** Appending to the slice of a string gives the bytes of both and leaves the string as it is, wherever the new
memory is. -/
theorem C124_append (m : Memory) (s : Str) (fresh extra : Nat) (vs : Bytes) (h : vs ≠ [])
    (hf : Free m s fresh (s.len + vs.length)) : ∃ b m', (unsafeStrToBytes s).append m fresh extra vs = .ret (b, m') ∧
      b.bytes m' = s.bytes m ++ vs ∧ s.bytes m' = s.bytes m := by
  have hl : 0 < vs.length := List.length_pos_iff.2 h
  have hb : ((unsafeStrToBytes s).bytes m).length = s.len := by simp [Slice.bytes, unsafeStrToBytes]
  obtain ⟨m', e, -, hs, -, hw⟩ := writeAll_free s ((unsafeStrToBytes s).bytes m ++ vs) m fresh (by
    rw [List.length_append, hb]; exact hf)
  refine ⟨⟨fresh, s.len + vs.length, s.len + vs.length + extra⟩, m', ?_, ?_, hs⟩
  · rw [Slice.append, if_neg (by simp only [unsafeStrToBytes]; omega), e]; rfl
  · have : (unsafeStrToBytes s).bytes m = s.bytes m := rfl
    rw [this] at hw hb
    apply List.ext_getElem?
    intro i
    rw [Slice.bytes, List.getElem?_map]
    by_cases hi : i < s.len + vs.length
    · rw [List.getElem?_range hi]
      have hi' : i < (s.bytes m ++ vs).length := by rw [List.length_append, hb]; exact hi
      simp only [Option.map_some]
      rw [hw i _ (List.getElem?_eq_getElem hi'), List.getElem?_eq_getElem hi']
    · rw [List.getElem?_eq_none (by simp; omega), List.getElem?_eq_none (by rw [List.length_append, hb]; omega)]; rfl

/-- **C124** An assignment to the slice of a string ends the process or changes the string: it then has the new byte at
this place. -/
theorem C124_assign_partial (m : Memory) (s : Str) (i : Nat) (v : UInt8) (hi : i < s.len) :
    (m.readOnly (s.data + i) = true ∧ (unsafeStrToBytes s).assign m i v = .panic) ∨
    (m.readOnly (s.data + i) = false ∧ ∃ m', (unsafeStrToBytes s).assign m i v = .ret m' ∧
      s.bytes m' = (s.bytes m).set i v) := by
  have e : (unsafeStrToBytes s).assign m i v = m.write (s.data + i) v := if_pos hi
  cases h : m.readOnly (s.data + i)
  · refine .inr ⟨rfl, _, by rw [e, Memory.write, h]; rfl, ?_⟩
    apply List.ext_getElem?
    intro j
    simp only [Str.bytes, List.getElem?_map, List.getElem?_set, List.length_map, List.length_range]
    by_cases hj : j < s.len
    · rw [List.getElem?_range hj]
      by_cases hij : i = j
      · subst hij; simp [hi]
      · rw [if_neg hij]
        simp only [Option.map_some]
        rw [if_neg (by omega)]
    · rw [List.getElem?_eq_none (by simp; omega), if_neg (by omega)]; rfl
  · exact .inl ⟨rfl, by rw [e, Memory.write, h]; rfl⟩

/-- The full statement, true of the conversions of Go, which copy: whatever is assigned to the slice, the string stays and
the process too. -/
def Independent (convert : Str → Slice) : Prop :=
  ∀ (m : Memory) (s : Str) (i : Nat) (v : UInt8), i < (convert s).len →
    ∃ m', (convert s).assign m i v = .ret m' ∧ s.bytes m' = s.bytes m

/-- **C124** fails: assignments to the slice change the string, or end the process if it is a constant. -/
theorem C124_fails : ¬ Independent unsafeStrToBytes ∧
    (∃ m s v m', (unsafeStrToBytes s).assign m 0 v = .ret m' ∧ s.bytes m = b!"a" ∧ s.bytes m' = b!"b") ∧
    ∃ m s v, s.bytes m = b!"a" ∧ (unsafeStrToBytes s).assign m 0 v = .panic := by
  have h1 : ∃ m s v m', (unsafeStrToBytes s).assign m 0 v = .ret m' ∧ s.bytes m = b!"a" ∧ s.bytes m' = b!"b" :=
    ⟨⟨fun _ => 97, fun _ => false⟩, ⟨0, 1⟩, 98, _, rfl, rfl, rfl⟩
  refine ⟨fun h => ?_, h1, ⟨fun _ => 97, fun _ => true⟩, ⟨0, 1⟩, 98, rfl, rfl⟩
  obtain ⟨m', e, _⟩ := h ⟨fun _ => 97, fun _ => true⟩ ⟨0, 1⟩ 0 98 (by decide)
  nomatch e

/-- **C124** fails the other way: an assignment to a slice changes the string made of it. -/
theorem C124_string_fails : ∃ m b m', Slice.assign b m 0 98 = .ret m' ∧ (unsafeBytesToStr b).bytes m = b!"a" ∧
    (unsafeBytesToStr b).bytes m' = b!"b" :=
  ⟨⟨fun _ => 97, fun _ => false⟩, ⟨0, 1, 1⟩, _, rfl, rfl, rfl⟩

/-- Appending to the slice of a constant. -/
example : ∃ b m', (unsafeStrToBytes ⟨0, 1⟩).append ⟨fun _ => 97, fun a => a == 0⟩ 5 0 b!"b" = .ret (b, m') ∧
    b.bytes m' = b!"ab" :=
  ⟨_, _, rfl, by decide⟩

end Verif.Props
