import Mathlib.NumberTheory.LucasPrimality
import Mathlib.Algebra.BigOperators.Group.List.Basic
import Mathlib.Data.Nat.Prime.Basic
/-!
# Primality of the constants of secp256k1

Certificates in the style of Pratt, checked by evaluation in the kernel: `p` is prime if some
number has order `p - 1` modulo `p`, for which the prime factors of `p - 1` are needed.
-/

namespace Verif

/-- `a ^ e` modulo `m`, for `e < 2 ^ fuel`. -/
def powMod (m : Nat) : (fuel : Nat) → (a e : Nat) → Nat
  | 0, _, _ => 1 % m
  | f + 1, a, e =>
    let h := powMod m f (a * a % m) (e / 2)
    if e % 2 = 1 then a * h % m else h

theorem powMod_spec (m : Nat) : ∀ (f a e : Nat), e < 2 ^ f → powMod m f a e = a ^ e % m
  | 0, a, e, h => by
    obtain rfl : e = 0 := by simpa using h
    rfl
  | f + 1, a, e, h => by
    have ih := powMod_spec m f (a * a % m) (e / 2) (by rw [pow_succ] at h; omega)
    have h1 : powMod m f (a * a % m) (e / 2) = (a * a) ^ (e / 2) % m := by
      rw [ih, ← Nat.pow_mod]
    simp only [powMod, h1]
    rw [← pow_two, ← pow_mul]
    split
    · rename_i ho
      rw [Nat.mul_mod_mod, ← pow_succ']
      congr 2
      omega
    · congr 2
      omega

/-- A prime, an element of full order, the factors of its predecessor with their exponents. -/
structure Certificate where
  prime : Nat
  root : Nat
  factors : List (Nat × Nat)

/-- The certificate is right, provided that the numbers in `known` are prime. -/
def Certificate.check (c : Certificate) (known : List Nat) : Bool :=
  decide (1 < c.prime) && decide (c.prime < 2 ^ 256) &&
  decide ((c.factors.map fun f => f.1 ^ f.2).prod = c.prime - 1) &&
  decide (powMod c.prime 256 c.root (c.prime - 1) = 1) &&
  c.factors.all fun f => known.contains f.1 && decide (powMod c.prime 256 c.root ((c.prime - 1) / f.1) ≠ 1)

/-- All certificates are right, each with the help of those before it. -/
def checkCertificates : List Certificate → List Nat → Bool
  | [], _ => true
  | c :: cs, known => c.check known && checkCertificates cs (c.prime :: known)

theorem prime_dvd_powers {q : Nat} (hq : q.Prime) : ∀ {l : List (Nat × Nat)}, (∀ f ∈ l, f.1.Prime) →
    q ∣ (l.map fun f => f.1 ^ f.2).prod → ∃ f ∈ l, q = f.1
  | [], _, h => by
    simp at h
    exact absurd h hq.one_lt.ne'
  | f :: l, hl, h => by
    rw [List.map_cons, List.prod_cons] at h
    rcases (hq.dvd_mul).1 h with h | h
    · exact ⟨f, List.mem_cons_self, (Nat.prime_dvd_prime_iff_eq hq (hl f List.mem_cons_self)).1 (hq.dvd_of_dvd_pow h)⟩
    · obtain ⟨g, hg, e⟩ := prime_dvd_powers hq (fun f hf => hl f (List.mem_cons_of_mem _ hf)) h
      exact ⟨g, List.mem_cons_of_mem _ hg, e⟩

theorem Certificate.check_prime {c : Certificate} {known : List Nat} (h : c.check known = true)
    (hk : ∀ q ∈ known, q.Prime) : c.prime.Prime := by
  simp only [Certificate.check, Bool.and_eq_true, decide_eq_true_eq, List.all_eq_true] at h
  obtain ⟨⟨⟨⟨h1, h2⟩, h3⟩, h4⟩, h5⟩ := h
  have hpow : ∀ e, e < 2 ^ 256 → ((c.root : ZMod c.prime) ^ e = 1 ↔ powMod c.prime 256 c.root e = 1) := by
    intro e he
    rw [powMod_spec _ _ _ _ he]
    have h6 : ((c.root : ZMod c.prime) ^ e = 1) ↔ ((c.root ^ e : ℕ) : ZMod c.prime) = ((1 : ℕ) : ZMod c.prime) := by
      push_cast; rfl
    rw [h6, ZMod.natCast_eq_natCast_iff', Nat.mod_eq_of_lt h1]
  refine lucas_primality c.prime c.root ((hpow _ (by omega)).2 h4) fun q hq hd => ?_
  rw [← h3] at hd
  obtain ⟨f, hf, rfl⟩ := prime_dvd_powers hq (fun f hf => hk _ (List.contains_iff_mem.1 (h5 f hf).1)) hd
  intro he
  exact (h5 f hf).2 ((hpow _ (lt_of_le_of_lt (Nat.div_le_self _ _) (by omega))).1 he)

theorem checkAll_prime : ∀ {cs : List Certificate} {known : List Nat}, checkCertificates cs known = true →
    (∀ q ∈ known, q.Prime) → ∀ c ∈ cs, c.prime.Prime
  | [], _, _, _, c, hc => by cases hc
  | c :: cs, known, h, hk, d, hd => by
    simp only [checkCertificates, Bool.and_eq_true] at h
    have hp := Certificate.check_prime h.1 hk
    rcases List.mem_cons.1 hd with rfl | hd
    · exact hp
    · exact checkAll_prime h.2 (fun q hq => by
        rcases List.mem_cons.1 hq with rfl | hq
        · exact hp
        · exact hk q hq) d hd

/-- Certificates for the field and the group of secp256k1. -/
def secpCertificates : List Certificate := [
  ⟨3, 2, [(2, 1)]⟩,
  ⟨7, 3, [(2, 1), (3, 1)]⟩,
  ⟨5, 2, [(2, 2)]⟩,
  ⟨13441, 11, [(2, 7), (3, 1), (5, 1), (7, 1)]⟩,
  ⟨29, 2, [(2, 2), (7, 1)]⟩,
  ⟨31, 3, [(2, 1), (3, 1), (5, 1)]⟩,
  ⟨11, 2, [(2, 1), (5, 1)]⟩,
  ⟨13, 2, [(2, 2), (3, 1)]⟩,
  ⟨7723, 3, [(2, 1), (3, 3), (11, 1), (13, 1)]⟩,
  ⟨17, 3, [(2, 4)]⟩,
  ⟨443, 2, [(2, 1), (13, 1), (17, 1)]⟩,
  ⟨887, 5, [(2, 1), (443, 1)]⟩,
  ⟨5323, 5, [(2, 1), (3, 1), (887, 1)]⟩,
  ⟨131, 2, [(2, 1), (5, 1), (13, 1)]⟩,
  ⟨2621, 2, [(2, 2), (5, 1), (131, 1)]⟩,
  ⟨24809, 6, [(2, 3), (7, 1), (443, 1)]⟩,
  ⟨97, 5, [(2, 5), (3, 1)]⟩,
  ⟨971, 6, [(2, 1), (5, 1), (97, 1)]⟩,
  ⟨1373, 2, [(2, 2), (7, 3)]⟩,
  ⟨13331831, 13, [(2, 1), (5, 1), (971, 1), (1373, 1)]⟩,
  ⟨173378833005251801, 6, [(2, 3), (5, 2), (2621, 1), (24809, 1), (13331831, 1)]⟩,
  ⟨22149492674086928081353, 5, [(2, 3), (3, 1), (5323, 1), (173378833005251801, 1)]⟩,
  ⟨132896956044521568488119, 6, [(2, 1), (3, 1), (22149492674086928081353, 1)]⟩,
  ⟨271, 6, [(2, 1), (3, 3), (5, 1)]⟩,
  ⟨1627, 3, [(2, 1), (3, 1), (271, 1)]⟩,
  ⟨41, 6, [(2, 3), (5, 1)]⟩,
  ⟨83, 2, [(2, 1), (41, 1)]⟩,
  ⟨2657, 3, [(2, 5), (83, 1)]⟩,
  ⟨67, 2, [(2, 1), (3, 1), (11, 1)]⟩,
  ⟨4423, 3, [(2, 1), (3, 1), (11, 1), (67, 1)]⟩,
  ⟨103, 5, [(2, 1), (3, 1), (17, 1)]⟩,
  ⟨41201, 3, [(2, 4), (5, 2), (103, 1)]⟩,
  ⟨101, 2, [(2, 2), (5, 2)]⟩,
  ⟨239, 7, [(2, 1), (7, 1), (17, 1)]⟩,
  ⟨96557, 2, [(2, 2), (101, 1), (239, 1)]⟩,
  ⟨19, 2, [(2, 1), (3, 2)]⟩,
  ⟨419, 2, [(2, 1), (11, 1), (19, 1)]⟩,
  ⟨20113, 10, [(2, 4), (3, 1), (419, 1)]⟩,
  ⟨1206781, 10, [(2, 2), (3, 1), (5, 1), (20113, 1)]⟩,
  ⟨7240687, 3, [(2, 1), (3, 1), (1206781, 1)]⟩,
  ⟨53, 2, [(2, 2), (13, 1)]⟩,
  ⟨107590001, 3, [(2, 4), (5, 4), (7, 1), (29, 1), (53, 1)]⟩,
  ⟨255515944373312847190720520512484175977, 3, [(2, 3), (7, 2), (11, 1), (1627, 1), (2657, 1), (4423, 1), (41201, 1), (96557, 1), (7240687, 1), (107590001, 1)]⟩,
  ⟨205115282021455665897114700593932402728804164701536103180137503955397371, 10, [(2, 1), (3, 1), (5, 1), (29, 2), (31, 1), (7723, 1), (132896956044521568488119, 1), (255515944373312847190720520512484175977, 1)]⟩,
  ⟨115792089237316195423570985008687907853269984665640564039457584007908834671663, 3, [(2, 1), (3, 1), (7, 1), (13441, 1), (205115282021455665897114700593932402728804164701536103180137503955397371, 1)]⟩,
  ⟨37, 2, [(2, 2), (3, 2)]⟩,
  ⟨149, 2, [(2, 2), (37, 1)]⟩,
  ⟨631, 3, [(2, 1), (3, 2), (5, 1), (7, 1)]⟩,
  ⟨23, 5, [(2, 1), (11, 1)]⟩,
  ⟨16699, 3, [(2, 1), (3, 1), (11, 2), (23, 1)]⟩,
  ⟨2861, 2, [(2, 2), (5, 1), (11, 1), (13, 1)]⟩,
  ⟨85831, 3, [(2, 1), (3, 1), (5, 1), (2861, 1)]⟩,
  ⟨2011, 3, [(2, 1), (3, 1), (5, 1), (67, 1)]⟩,
  ⟨4681609, 23, [(2, 3), (3, 1), (97, 1), (2011, 1)]⟩,
  ⟨107361793816595537, 3, [(2, 4), (16699, 1), (85831, 1), (4681609, 1)]⟩,
  ⟨59, 2, [(2, 1), (29, 1)]⟩,
  ⟨4051, 10, [(2, 1), (3, 4), (5, 2)]⟩,
  ⟨113, 3, [(2, 4), (7, 1)]⟩,
  ⟨120233, 3, [(2, 3), (7, 1), (19, 1), (113, 1)]⟩,
  ⟨199, 3, [(2, 1), (3, 2), (11, 1)]⟩,
  ⟨797, 2, [(2, 2), (199, 1)]⟩,
  ⟨9349, 2, [(2, 2), (3, 1), (19, 1), (41, 1)]⟩,
  ⟨44706919, 6, [(2, 1), (3, 1), (797, 1), (9349, 1)]⟩,
  ⟨174723607534414371449, 3, [(2, 3), (17, 1), (59, 1), (4051, 1), (120233, 1), (44706919, 1)]⟩,
  ⟨109, 6, [(2, 2), (3, 3)]⟩,
  ⟨73, 5, [(2, 3), (3, 2)]⟩,
  ⟨293, 2, [(2, 2), (73, 1)]⟩,
  ⟨2731, 3, [(2, 1), (3, 1), (5, 1), (7, 1), (13, 1)]⟩,
  ⟨305873, 3, [(2, 4), (7, 1), (2731, 1)]⟩,
  ⟨1409, 3, [(2, 7), (11, 1)]⟩,
  ⟨28181, 2, [(2, 2), (5, 1), (1409, 1)]⟩,
  ⟨545358713, 5, [(2, 3), (41, 1), (59, 1), (28181, 1)]⟩,
  ⟨461, 2, [(2, 2), (5, 1), (23, 1)]⟩,
  ⟨1871, 14, [(2, 1), (5, 1), (11, 1), (17, 1)]⟩,
  ⟨1627771, 3, [(2, 1), (3, 1), (5, 1), (29, 1), (1871, 1)]⟩,
  ⟨297159362677, 2, [(2, 2), (3, 2), (11, 1), (461, 1), (1627771, 1)]⟩,
  ⟨29047611873442575647497758179, 2, [(2, 1), (293, 1), (305873, 1), (545358713, 1), (297159362677, 1)]⟩,
  ⟨341948486974166000522343609283189, 2, [(2, 2), (3, 3), (109, 1), (29047611873442575647497758179, 1)]⟩,
  ⟨115792089237316195423570985008687907852837564279074904382605163141518161494337, 7, [(2, 6), (3, 1), (149, 1), (631, 1), (107361793816595537, 1), (174723607534414371449, 1), (341948486974166000522343609283189, 1)]⟩
]

theorem secpCertificates_check : checkCertificates secpCertificates [2] = true := by decide +kernel

theorem secp_certified {p : Nat} (h : (secpCertificates.any fun c => c.prime == p) = true) : p.Prime := by
  obtain ⟨c, hc, e⟩ := List.any_eq_true.1 h
  rw [← beq_iff_eq.1 e]
  exact checkAll_prime secpCertificates_check (by simp [Nat.prime_two]) c hc

theorem secpP_prime : Nat.Prime 0xFFFFFFFFFFFFFFFFFFFFFFFFFFFFFFFFFFFFFFFFFFFFFFFFFFFFFFFEFFFFFC2F :=
  secp_certified (by decide +kernel)

theorem secpN_prime : Nat.Prime 0xFFFFFFFFFFFFFFFFFFFFFFFFFFFFFFFEBAAEDCE6AF48A03BBFD25E8CD0364141 :=
  secp_certified (by decide +kernel)

end Verif
