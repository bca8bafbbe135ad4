import Mathlib.FieldTheory.Finite.Basic
import Mathlib.NumberTheory.LucasLehmer
import Verif.Spec.Rsa
/-
The arithmetic of RSA, from Fermat's little theorem.
-/
namespace Httpsig

theorem isPrime_iff {p : Nat} : IsPrime p ↔ Nat.Prime p := by
  rw [Nat.prime_iff, IsPrime, ← Nat.prime_iff, Nat.prime_def]
  refine and_congr_right fun h2 => ⟨fun h m hm => ?_, fun h a b e => ?_⟩
  · obtain ⟨k, rfl⟩ := hm
    rcases h m k rfl with rfl | rfl
    · exact .inl rfl
    · exact .inr (by simp)
  · rcases h a ⟨b, e⟩ with rfl | rfl
    · exact .inl rfl
    · right
      have : 0 < a := by omega
      exact Nat.eq_of_mul_eq_mul_left this (by omega)

/-- An exponent that is 1 modulo `p - 1` does nothing modulo `p`. -/
theorem pow_mod_prime {p k : Nat} (hp : Nat.Prime p) (hk : k % (p - 1) = 1 % (p - 1)) (hk0 : 0 < k) (x : Nat) : x ^ k ≡ x [MOD p] := by
  have := Fact.mk hp
  rw [← ZMod.natCast_eq_natCast_iff]
  push_cast
  by_cases h0 : (x : ZMod p) = 0
  · rw [h0, zero_pow (by omega)]
  · obtain ⟨c, hc⟩ : ∃ c, k = 1 + (p - 1) * c := by
      have h2 := hp.two_le
      have := Nat.div_add_mod k (p - 1)
      rcases Nat.eq_or_lt_of_le (show 1 ≤ p - 1 by omega) with h1 | h1
      · exact ⟨k - 1, by rw [← h1]; omega⟩
      · rw [hk, Nat.mod_eq_of_lt h1] at this
        exact ⟨k / (p - 1), by omega⟩
    rw [hc, pow_add, pow_mul, ZMod.pow_card_sub_one_eq_one h0, one_pow, pow_one, mul_one]

/-- Raising to the public and the private exponent, in either order, gives back every number below the modulus. -/
theorem RsaTriple.inverse {n e d : Nat} (h : RsaTriple n e d) {x : Nat} (hx : x < n) : (x ^ d % n) ^ e % n = x ∧ (x ^ e % n) ^ d % n = x := by
  obtain ⟨p, q, hp, hq, hne, rfl, h1, h2⟩ := h
  rw [isPrime_iff] at hp hq
  have h3 := hp.two_le
  have h4 := hq.two_le
  have hk0 : 0 < e * d := by
    rcases Nat.eq_zero_or_pos (e * d) with h0 | h0
    · rw [h0] at h1 h2
      have : p = 2 := by
        rcases Nat.eq_or_lt_of_le (show 1 ≤ p - 1 by omega) with h5 | h5
        · omega
        · rw [Nat.mod_eq_of_lt h5] at h1; simp at h1
      have : q = 2 := by
        rcases Nat.eq_or_lt_of_le (show 1 ≤ q - 1 by omega) with h5 | h5
        · omega
        · rw [Nat.mod_eq_of_lt h5] at h2; simp at h2
      omega
    · exact h0
  have key : x ^ (e * d) % (p * q) = x := by
    have := (Nat.modEq_and_modEq_iff_modEq_mul ((Nat.coprime_primes hp hq).2 hne)).1
      ⟨pow_mod_prime hp h1 hk0 x, pow_mod_prime hq h2 hk0 x⟩
    rw [this, Nat.mod_eq_of_lt hx]
  constructor
  · rw [← Nat.pow_mod, ← pow_mul, Nat.mul_comm, key]
  · rw [← Nat.pow_mod, ← pow_mul, key]

theorem rsa_inverse {n e d : Nat} (h : RsaKey n e d) {x : Nat} (hx : x < n) : (x ^ d % n) ^ e % n = x ∧ (x ^ e % n) ^ d % n = x :=
  h.1.inverse hx

theorem RsaTriple.ne_zero {n e d : Nat} (h : RsaTriple n e d) : n ≠ 0 := by
  obtain ⟨p, q, hp, hq, _, rfl, _⟩ := h
  have h1 := hp.1
  have h2 := hq.1
  exact Nat.mul_ne_zero (by omega) (by omega)

/-- A key whose primes are of Mersenne's form, for the examples. -/
theorem exRsaKeyNumbers : RsaKey ((2 ^ 521 - 1) * (2 ^ 607 - 1)) 65537
    0x2a7fd5802a7fd5802a7fd5802a7fd5802a7fd5802a7fd5802a7fd5802a7fd5802a7fd5802a7fd5802a7fd5802a7fd5802a7fd5802a7fd5802a7fd5802a7fd5802a5555aaaa5555aaaa5555aa0055ffaa0055ffaa0055ffaa0055ffaa0055ffaa0055ffaa0055ffaa0055ffaa0055ffaa0055ffaa0055ffaa0055ffaa0055ffaa0055ffaa0055ffaa0055ffaa01 := by
  refine ⟨⟨2 ^ 521 - 1, 2 ^ 607 - 1, isPrime_iff.2 (lucas_lehmer_sufficiency _ (by simp) (by norm_num)),
    isPrime_iff.2 (lucas_lehmer_sufficiency _ (by simp) (by norm_num)), by decide +kernel, rfl, by decide +kernel, by decide +kernel⟩,
    by decide +kernel⟩

end Httpsig
