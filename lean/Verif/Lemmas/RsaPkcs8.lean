import Verif.Lemmas.RsaPublic
import Verif.Lemmas.RsaMath
import Verif.Spec.RsaPkcs8
/-
The reader of RSA private keys in the words of the specification, and the arithmetic of signing with them (C143).
-/
namespace Httpsig

/-- The key that is kept. -/
def RsaNumbers.key (N : RsaNumbers) : Rsa.PrivateKey :=
  if N.q < N.p then ⟨N.n, N.e, N.p, N.q, N.dP, N.dQ, N.qInv⟩ else ⟨N.n, N.e, N.q, N.p, N.dQ, N.dP, N.p ^ (N.q - 2) % N.q⟩

namespace Rsa
open P256 (readInt ringValue)

theorem le_bits {x k : Nat} (hx : x ≠ 0) : 2 ^ k ≤ x ↔ k < bits x := by
  rw [bits, ← Nat.le_log2 hx]; omega

theorem lt_bits {x k : Nat} (hx : x ≠ 0) : x < 2 ^ k ↔ bits x ≤ k := by
  have := le_bits (k := k) hx
  omega

theorem fermat_inverse {p q : Nat} (hq : 2 ≤ q) : p ^ (q - 2) % q * p % q = p ^ (q - 1) % q := by
  rw [Nat.mod_mul_mod, ← Nat.pow_succ]
  congr 2
  omega

theorem keyWith_iff {n e p q dP dQ qInv : Nat} {K : PrivateKey} : keyWith n e p q dP dQ qInv = some K ↔
    (q < p ∧ p % 2 = 1 ∧ q % 2 = 1 ∧ bits p % 512 = 0 ∧ dP < p ∧ dP % 2 = 1 ∧ dQ < q ∧ dQ % 2 = 1 ∧ qInv < p ∧ qInv * q % p = 1) ∧
      K = ⟨n, e, p, q, dP, dQ, qInv⟩ := by
  unfold keyWith
  split
  · rename_i h
    simp only [Option.some.injEq]
    exact ⟨fun e => ⟨h, e.symm⟩, fun e => e.2.symm⟩
  · rename_i h
    exact ⟨fun e => (nomatch e), fun e => absurd e.1 h⟩

theorem keyOf_iff {N : RsaNumbers} {K : PrivateKey} : keyOf N.n N.e N.d N.p N.q N.dP N.dQ N.qInv = some K ↔ N.Taken ∧ K = N.key := by
  obtain ⟨n, e, d, p, q, dP, dQ, qInv⟩ := N
  unfold keyOf
  simp only [RsaNumbers.key, size_2048]
  constructor
  · intro h
    split at h
    · rename_i hc
      obtain ⟨c1, c2, c3, c4, c5, c6, c7, c8, c9, c10, c11, c12, c13, c14, c15, c16⟩ := hc
      have n0 : n ≠ 0 := by rintro rfl; cases c1
      rw [le_bits n0] at c2
      rw [lt_bits n0] at c3
      have hsz : bits p % 512 = 0 → ∃ k, (k = 1024 ∨ k = 1536 ∨ k = 2048) ∧ 2 ^ (k - 1) ≤ p ∧ p < 2 ^ k ∧ 2 ^ (k - 1) ≤ q ∧ q < 2 ^ k ∧
          2 ^ (2 * k - 2) ≤ n ∧ n < 2 ^ (2 * k) ∧ 2 ^ k ≤ d := by
        intro h512
        refine ⟨bits p, by omega, ?_⟩
        rw [le_bits (by omega), lt_bits (by omega), le_bits (by omega), lt_bits (by omega), le_bits n0, lt_bits n0, le_bits (by omega)]
        omega
      split at h
      · rename_i hqp
        rw [keyWith_iff] at h
        obtain ⟨⟨h1, h2, h3, h4, h5, h6, h7, h8, h9, h10⟩, h11⟩ := h
        refine ⟨⟨hsz h4, ?_, ⟨c5, c6⟩, ⟨c15, h5, h7⟩, Nat.dvd_of_mod_eq_zero c13, .inl ⟨h1, h9, by rw [Nat.mul_comm]; exact h10⟩⟩, ?_⟩
        · intro x hx
          simp only [List.mem_cons, List.not_mem_nil, or_false] at hx
          rcases hx with rfl | rfl | rfl | rfl | rfl | rfl | rfl <;> assumption
        · rw [if_pos hqp]; exact h11
      · rename_i hqp
        rw [keyWith_iff] at h
        obtain ⟨⟨h1, h2, h3, h4, h5, h6, h7, h8, h9, h10⟩, h11⟩ := h
        rw [fermat_inverse (by omega)] at h10
        refine ⟨⟨hsz (by rw [← c12]; exact h4), ?_, ⟨c5, c6⟩, ⟨c15, h7, h5⟩, Nat.dvd_of_mod_eq_zero c13, .inr ⟨h1, c10, h10⟩⟩, ?_⟩
        · intro x hx
          simp only [List.mem_cons, List.not_mem_nil, or_false] at hx
          rcases hx with rfl | rfl | rfl | rfl | rfl | rfl | rfl <;> assumption
        · rw [if_neg hqp]; exact h11
    · cases h
  · rintro ⟨⟨⟨k, hk, s1, s2, s3, s4, s5, s6, s7⟩, ho, ⟨e1, e2⟩, ⟨b1, b2, b3⟩, hp, hi⟩, rfl⟩
    simp only [List.mem_cons, List.not_mem_nil, or_false, forall_eq_or_imp, forall_eq] at *
    obtain ⟨o1, o2, o3, o4, o5, o6, o7⟩ := ho
    have n0 : n ≠ 0 := by rintro rfl; cases o1
    have p0 : p ≠ 0 := by rintro rfl; cases o4
    have q0 : q ≠ 0 := by rintro rfl; cases o5
    have d0 : d ≠ 0 := by rintro rfl; cases o3
    rw [le_bits p0] at s1
    rw [lt_bits p0] at s2
    rw [le_bits q0] at s3
    rw [lt_bits q0] at s4
    rw [le_bits n0] at s5
    rw [lt_bits n0] at s6
    rw [le_bits d0] at s7
    have i0 : 0 < qInv := by
      rcases hi with ⟨i1, _, i2⟩ | ⟨_, i, _⟩
      · rcases Nat.eq_zero_or_pos qInv with rfl | h
        · simp at i2
        · exact h
      · exact i
    rw [if_pos ⟨o1, (le_bits n0).2 (by omega), (lt_bits n0).2 (by omega), o2, e1, e2, by omega, by omega, by omega, i0, by omega, by omega,
      Nat.mod_eq_zero_of_dvd hp, by omega, b1, o3⟩]
    rcases hi with ⟨i1, i2, i3⟩ | ⟨i1, _, i3⟩
    · rw [if_pos i1, if_pos i1]
      exact keyWith_iff.2 ⟨⟨i1, o4, o5, by omega, b2, o6, b3, o7, i2, by rw [Nat.mul_comm]; exact i3⟩, rfl⟩
    · rw [if_neg (by omega), if_neg (by omega)]
      exact keyWith_iff.2 ⟨⟨i1, o5, o4, by omega, b3, o7, b2, o6, Nat.mod_lt _ (by omega), by rw [fermat_inverse (by omega)]; exact i3⟩, rfl⟩

theorem fromDer_iff {b : Bytes} {K : PrivateKey} :
    fromDer b = some K ↔ ∃ N : RsaNumbers, RsaPrivateDer 0 N b ∧ N.Taken ∧ b.length < 65540 ∧ K = N.key := by
  unfold fromDer
  simp only [Option.bind_eq_bind]
  constructor
  · intro h
    obtain ⟨⟨body, rest⟩, h0, h⟩ := Option.bind_eq_some_iff.1 h
    obtain ⟨r0, hv, h⟩ := Option.bind_eq_some_iff.1 h
    obtain ⟨⟨n, r1⟩, h1, h⟩ := Option.bind_eq_some_iff.1 h
    obtain ⟨⟨e, r2⟩, h2, h⟩ := Option.bind_eq_some_iff.1 h
    obtain ⟨⟨d, r3⟩, h3, h⟩ := Option.bind_eq_some_iff.1 h
    obtain ⟨⟨p, r4⟩, h4, h⟩ := Option.bind_eq_some_iff.1 h
    obtain ⟨⟨q, r5⟩, h5, h⟩ := Option.bind_eq_some_iff.1 h
    obtain ⟨⟨dP, r6⟩, h6, h⟩ := Option.bind_eq_some_iff.1 h
    obtain ⟨⟨dQ, r7⟩, h7, h⟩ := Option.bind_eq_some_iff.1 h
    obtain ⟨⟨qInv, r8⟩, h8, hk⟩ := Option.bind_eq_some_iff.1 h
    dsimp only at hk hv h1 h2 h3 h4 h5 h6 h7 h8
    clear h
    split at hk
    · rename_i hr
      obtain ⟨hT, hK⟩ := (keyOf_iff (N := ⟨n, e, d, p, q, dP, dQ, qInv⟩)).1 hk
      obtain ⟨rfl, rfl⟩ := hr
      obtain ⟨w, w1, rfl, w2⟩ := P256.ringValue_iff.1 h0
      obtain ⟨v, v1, rfl⟩ := P256.version_iff.1 hv
      obtain ⟨a1, i1, rfl⟩ := P256.readInt_iff.1 h1
      obtain ⟨a2, i2, rfl⟩ := P256.readInt_iff.1 h2
      obtain ⟨a3, i3, rfl⟩ := P256.readInt_iff.1 h3
      obtain ⟨a4, i4, rfl⟩ := P256.readInt_iff.1 h4
      obtain ⟨a5, i5, rfl⟩ := P256.readInt_iff.1 h5
      obtain ⟨a6, i6, rfl⟩ := P256.readInt_iff.1 h6
      obtain ⟨a7, i7, rfl⟩ := P256.readInt_iff.1 h7
      obtain ⟨a8, i8, rfl⟩ := P256.readInt_iff.1 h8
      rw [List.append_nil]
      refine ⟨_, ⟨v, a1, a2, a3, a4, a5, a6, a7, a8, v1, i1, i2, i3, i4, i5, i6, i7, i8, ?_⟩, hT, (P256.derValue_short w1).1 w2, hK⟩
      simpa only [List.append_assoc, List.append_nil] using w1
    · cases hk
  · rintro ⟨N, ⟨v, a1, a2, a3, a4, a5, a6, a7, a8, v1, i1, i2, i3, i4, i5, i6, i7, i8, w1⟩, hT, hl, rfl⟩
    simp only [List.append_assoc] at w1
    rw [P256.ringValue_iff.2 ⟨b, w1, (List.append_nil b).symm, (P256.derValue_short w1).2 hl⟩, Option.bind_some]
    simp only
    rw [P256.version_iff.2 ⟨v, v1, rfl⟩, Option.bind_some, P256.readInt_iff.2 ⟨a1, i1, rfl⟩, Option.bind_some]
    simp only
    rw [P256.readInt_iff.2 ⟨a2, i2, rfl⟩, Option.bind_some]
    simp only
    rw [P256.readInt_iff.2 ⟨a3, i3, rfl⟩, Option.bind_some]
    simp only
    rw [P256.readInt_iff.2 ⟨a4, i4, rfl⟩, Option.bind_some]
    simp only
    rw [P256.readInt_iff.2 ⟨a5, i5, rfl⟩, Option.bind_some]
    simp only
    rw [P256.readInt_iff.2 ⟨a6, i6, rfl⟩, Option.bind_some]
    simp only
    rw [P256.readInt_iff.2 ⟨a7, i7, rfl⟩, Option.bind_some]
    simp only
    rw [P256.readInt_iff.2 ⟨a8, i8, (List.append_nil a8).symm⟩, Option.bind_some]
    simp only
    rw [if_pos ⟨trivial, trivial⟩]
    exact keyOf_iff.2 ⟨hT, rfl⟩

theorem derValue_rsa {o : Bytes} : DerValue 0x06 oidRsa o ↔ o = [0x06, 0x09, 0x2a, 0x86, 0x48, 0x86, 0xf7, 0x0d, 0x01, 0x01, 0x01] :=
  derValue_small (by decide)

theorem rsaPrivateInfo_iff {n : UInt8} {key attrs der : Bytes} : RsaPrivateInfo n key attrs der ↔
    ∃ v a k, DerValue 0x02 [n] v ∧ DerValue 0x30 algId a ∧ DerValue 0x04 key k ∧ DerValue 0x30 (v ++ a ++ k ++ attrs) der := by
  constructor
  · rintro ⟨v, o, a, k, h1, h2, h3, h4, h5⟩
    obtain rfl := derValue_rsa.1 h2
    exact ⟨v, a, k, h1, h3, h4, h5⟩
  · rintro ⟨v, a, k, h1, h3, h4, h5⟩
    exact ⟨v, _, a, k, h1, derValue_rsa.2 rfl, h3, h4, h5⟩

theorem read_iff {pkcs8 : Bool} {b : Bytes} {K : PrivateKey} :
    read pkcs8 b = some K ↔ ∃ N : RsaNumbers, RsaKeyFile pkcs8 N b ∧ N.Taken ∧ b.length < 65540 ∧ K = N.key := by
  cases pkcs8
  · exact fromDer_iff
  · unfold read RsaKeyFile
    simp only [if_true]
    unfold fromPkcs8
    rw [Option.bind_eq_some_iff]
    constructor
    · rintro ⟨key, h1, h2⟩
      obtain ⟨attrs, h3, h4, h5⟩ := P256.unwrapFor_iff.1 h1
      obtain ⟨N, h6, h7, _, h9⟩ := fromDer_iff.1 h2
      exact ⟨N, ⟨key, attrs, h6, h3, rsaPrivateInfo_iff.2 h4⟩, h7, h5, h9⟩
    · rintro ⟨N, ⟨key, attrs, h6, h3, h4⟩, h7, h5, h9⟩
      have h4 := rsaPrivateInfo_iff.1 h4
      refine ⟨key, P256.unwrapFor_iff.2 ⟨attrs, h3, h4, h5⟩, fromDer_iff.2 ⟨N, h6, h7, ?_, h9⟩⟩
      obtain ⟨v, a, k, _, _, e5, e6⟩ := h4
      have := P256.derValue_length e5
      have := P256.derValue_length e6
      simp only [List.length_append] at this
      omega

/-! ### Signing -/

theorem signBlock_iff {K : PrivateKey} {em t : Bytes} : signBlock K em = some t ↔
    Der.ofBytes em < K.n ∧ crt K (Der.ofBytes em) ^ K.e % K.n = Der.ofBytes em ∧ t = toBytes (size K.n) (crt K (Der.ofBytes em)) := by
  unfold signBlock
  simp only
  split
  · rename_i h
    simp only [Option.some.injEq]
    exact ⟨fun e => ⟨h.1, h.2, e.symm⟩, fun e => e.2.2.symm⟩
  · rename_i h
    exact ⟨fun e => (nomatch e), fun e => absurd ⟨e.1, e.2.1⟩ h⟩

theorem crt_lt {K : PrivateKey} (hn : K.n ≠ 0) (c : Nat) : crt K c < K.n := Nat.mod_lt _ (by omega)

/-- The result of the operation, modulo the two primes. -/
theorem crt_mod {K : PrivateKey} (hpq : K.q < K.p) (hi : K.qInv * K.q % K.p = 1) (hn : K.n = K.p * K.q) (hq : 0 < K.q) (c : Nat) :
    crt K c ≡ c ^ K.dP [MOD K.p] ∧ crt K c ≡ c ^ K.dQ [MOD K.q] := by
  have h2 : c ^ K.dQ % K.q < K.p := Nat.lt_trans (Nat.mod_lt _ hq) hpq
  have hm : ∀ x, crt K c ≡ x [MOD K.n] → crt K c ≡ x [MOD K.p] ∧ crt K c ≡ x [MOD K.q] := fun x h => by
    rw [hn] at h
    exact ⟨h.of_mul_right _, h.of_mul_left _⟩
  have h0 : crt K c ≡ c ^ K.dQ % K.q + K.q * (K.qInv * (c ^ K.dP % K.p + K.p - c ^ K.dQ % K.q) % K.p) [MOD K.n] := Nat.mod_modEq _ _
  obtain ⟨h3, h4⟩ := hm _ h0
  constructor
  · refine h3.trans ?_
    have e1 : K.q * (K.qInv * (c ^ K.dP % K.p + K.p - c ^ K.dQ % K.q) % K.p) ≡ c ^ K.dP % K.p + K.p - c ^ K.dQ % K.q [MOD K.p] := by
      have e2 : K.q * (K.qInv * (c ^ K.dP % K.p + K.p - c ^ K.dQ % K.q) % K.p) ≡
          K.q * (K.qInv * (c ^ K.dP % K.p + K.p - c ^ K.dQ % K.q)) [MOD K.p] := (Nat.mod_modEq _ _).mul_left _
      have e3 : K.qInv * K.q ≡ 1 [MOD K.p] := by
        rw [Nat.ModEq, hi, Nat.mod_eq_of_lt (by omega)]
      have e4 := e3.mul_right (c ^ K.dP % K.p + K.p - c ^ K.dQ % K.q)
      rw [Nat.one_mul] at e4
      refine e2.trans ?_
      rwa [← Nat.mul_assoc, Nat.mul_comm K.q]
    have e5 := e1.add_left (c ^ K.dQ % K.q)
    refine e5.trans ?_
    rw [show c ^ K.dQ % K.q + (c ^ K.dP % K.p + K.p - c ^ K.dQ % K.q) = c ^ K.dP % K.p + K.p by omega]
    rw [Nat.ModEq, Nat.add_mod_right, Nat.mod_mod]
  · refine h4.trans ?_
    rw [Nat.ModEq, Nat.add_mul_mod_self_left, Nat.mod_mod]

/-- What the checks leave of a key. -/
theorem taken_key {N : RsaNumbers} (h : N.Taken) : N.key.n = N.n ∧ N.key.e = N.e ∧ N.key.q < N.key.p ∧ 0 < N.key.q ∧ N.key.qInv * N.key.q % N.key.p = 1 ∧
    ((N.key.p = N.p ∧ N.key.q = N.q ∧ N.key.dP = N.dP ∧ N.key.dQ = N.dQ) ∨ (N.key.p = N.q ∧ N.key.q = N.p ∧ N.key.dP = N.dQ ∧ N.key.dQ = N.dP)) := by
  have ho := h.odd
  simp only [List.mem_cons, List.not_mem_nil, or_false, forall_eq_or_imp, forall_eq] at ho
  unfold RsaNumbers.key
  rcases h.inverse with ⟨i1, i2, i3⟩ | ⟨i1, _, i3⟩
  · rw [if_pos i1]
    exact ⟨rfl, rfl, i1, by show 0 < N.q; omega, by rw [Nat.mul_comm]; exact i3, .inl ⟨rfl, rfl, rfl, rfl⟩⟩
  · rw [if_neg (by omega)]
    exact ⟨rfl, rfl, i1, by show 0 < N.p; omega, (fermat_inverse (by omega)).trans i3, .inr ⟨rfl, rfl, rfl, rfl⟩⟩

theorem taken_sizes {N : RsaNumbers} (h : N.Taken) : RsaSizes N.n N.e ∧ 2 ^ 2046 ≤ N.n ∧ N.n < 2 ^ 4096 := by
  have ho := h.odd
  simp only [List.mem_cons, List.not_mem_nil, or_false, forall_eq_or_imp, forall_eq] at ho
  have n0 : N.n ≠ 0 := by omega
  obtain ⟨k, hk, _, _, _, _, s5, s6, _⟩ := h.sizes
  rw [le_bits n0] at s5
  rw [lt_bits n0] at s6
  have h1 := h.exponent
  exact ⟨⟨ho.1, (le_bits n0).2 (by omega), (lt_bits n0).2 (by omega), ho.2.1, by omega, h1.2⟩, (le_bits n0).2 (by omega), (lt_bits n0).2 (by omega)⟩

/-- Two primes of these sizes have the modulus as their product. -/
theorem taken_product {N : RsaNumbers} (h : N.Taken) (hp : IsPrime N.p) (hq : IsPrime N.q) : N.n = N.p * N.q := by
  have ho := h.odd
  simp only [List.mem_cons, List.not_mem_nil, or_false, forall_eq_or_imp, forall_eq] at ho
  obtain ⟨c, hc⟩ := h.product
  obtain ⟨k, hk, s1, s2, s3, s4, s5, s6, _⟩ := h.sizes
  have big : ∀ x, 2 ^ (k - 1) ≤ x → 3 < x := fun x hx => by
    have := Nat.pow_le_pow_right (n := 2) (by decide) (show 2 ≤ k - 1 by omega)
    omega
  have hc4 : c < 4 := by
    by_contra h4
    have e1 : N.p * N.q < 2 ^ k * 2 ^ k := Nat.mul_lt_mul'' s2 s4
    have e2 : 2 ^ (2 * k - 2) * 4 ≤ N.n * c := Nat.mul_le_mul s5 (by omega)
    have e3 : 2 ^ (2 * k - 2) * 4 = 2 ^ k * 2 ^ k := by
      rw [show (4 : Nat) = 2 ^ 2 from rfl, ← Nat.pow_add, ← Nat.pow_add]
      congr 1
      omega
    omega
  have hodd : c % 2 = 1 := by
    have e1 : N.p * N.q % 2 = 1 := by rw [Nat.mul_mod, ho.2.2.2.1, ho.2.2.2.2.1]
    rw [hc, Nat.mul_mod, ho.1] at e1
    omega
  rw [isPrime_iff] at hp hq
  have : c = 1 ∨ c = 3 := by omega
  rcases this with rfl | rfl
  · omega
  · have h3 : 3 ∣ N.p * N.q := ⟨N.n, by rw [hc, Nat.mul_comm]⟩
    rcases (Nat.Prime.dvd_mul Nat.prime_three).1 h3 with h3 | h3
    · have := (Nat.prime_dvd_prime_iff_eq Nat.prime_three hp).1 h3
      have := big _ s1
      omega
    · have := (Nat.prime_dvd_prime_iff_eq Nat.prime_three hq).1 h3
      have := big _ s3
      omega

/-! ### For the examples -/

/-- `crt`, for evaluation. -/
def crtFast (K : PrivateKey) (c : Nat) : Nat :=
  force (powMod K.p c K.dP) fun m1 => force (powMod K.q c K.dQ) fun m2 =>
    force (K.qInv * (m1 + K.p - m2) % K.p) fun h => (m2 + K.q * h) % K.n

theorem crtFast_eq : crtFast = crt := by
  funext K c
  simp only [crtFast, force_eq, powMod_eq, crt]

/-- `signBlock`, for evaluation. -/
def signBlockFast (K : PrivateKey) (em : Bytes) : Option Bytes :=
  force (Der.ofBytes em) fun c => force (crtFast K c) fun x =>
    if c < K.n ∧ powMod K.n x K.e = c then some (toBytes (size K.n) x) else none

theorem signBlockFast_eq : signBlockFast = signBlock := by
  funext K em
  simp only [signBlockFast, force_eq, powMod_eq, crtFast_eq, signBlock]

/-- Pocklington's criterion, for a number whose predecessor has a large prime factor. -/
theorem pocklington {n f h a b : Nat} (hn : n = h * f + 1) (hf : Nat.Prime f) (hh : h ≤ f) (h1 : powMod n a (n - 1) = 1)
    (h2 : (powMod n a h + n - 1) * b % n = 1) (hn1 : 1 < n) : Nat.Prime n := by
  rw [powMod_eq] at h1 h2
  by_contra hp
  have hr := Nat.minFac_prime (n := n) (by omega)
  have hsq := Nat.minFac_sq_le_self (by omega) hp
  have hd := Nat.minFac_dvd n
  generalize n.minFac = r at hr hsq hd
  have := Fact.mk hr
  have e1 : a ^ (n - 1) ≡ 1 [MOD r] := by
    have : a ^ (n - 1) ≡ 1 [MOD n] := by rw [Nat.ModEq, h1, Nat.mod_eq_of_lt hn1]
    exact this.of_dvd hd
  have e2 : (a : ZMod r) ^ (h * f) = 1 := by
    rw [show h * f = n - 1 by omega]
    have := (ZMod.natCast_eq_natCast_iff _ _ _).2 e1
    push_cast at this
    exact this
  have e3 : (a : ZMod r) ^ h ≠ 1 := by
    intro e
    have g1 : a ^ h % n ≡ 1 [MOD r] := by
      have g : a ^ h ≡ 1 [MOD r] := by
        rw [← ZMod.natCast_eq_natCast_iff]
        push_cast
        exact e
      exact ((Nat.mod_modEq (a ^ h) n).of_dvd hd).trans g
    have g2 : (a ^ h % n + n - 1) * b ≡ 1 [MOD r] := by
      have : (a ^ h % n + n - 1) * b ≡ 1 [MOD n] := by rw [Nat.ModEq, h2, Nat.mod_eq_of_lt hn1]
      exact this.of_dvd hd
    obtain ⟨c, rfl⟩ := hd
    have g3 : r ∣ a ^ h % (r * c) + r * c - 1 := by
      have g4 : 1 + (a ^ h % (r * c) + r * c - 1) ≡ 1 + 0 [MOD r] := by
        rw [show 1 + (a ^ h % (r * c) + r * c - 1) = a ^ h % (r * c) + r * c by omega, Nat.ModEq, Nat.add_mul_mod_self_left]
        exact g1
      exact (Nat.modEq_zero_iff_dvd).1 (Nat.ModEq.add_left_cancel' 1 g4)
    have g5 := ((Nat.modEq_zero_iff_dvd).2 (g3.mul_right b)).symm.trans g2
    have := (Nat.modEq_zero_iff_dvd).1 g5.symm
    exact hr.one_lt.ne' (Nat.dvd_one.1 this)
  have e4 : orderOf (a : ZMod r) ∣ h * f := orderOf_dvd_of_pow_eq_one e2
  have e5 : f ∣ orderOf (a : ZMod r) := by
    by_contra hno
    have hco := ((Nat.Prime.coprime_iff_not_dvd hf).2 hno).symm
    exact e3 (orderOf_dvd_iff_pow_eq_one.1 (hco.dvd_of_dvd_mul_right e4))
  have e6 : orderOf (a : ZMod r) ∣ r - 1 := by
    refine orderOf_dvd_of_pow_eq_one (ZMod.pow_card_sub_one_eq_one fun h0 => ?_)
    rw [h0, zero_pow] at e2
    · exact zero_ne_one e2
    · intro h0
      omega
  have e7 := Nat.le_of_dvd (by have := hr.two_le; omega) (e5.trans e6)
  have e8 : (f + 1) * (f + 1) ≤ n := by
    refine Nat.le_trans ?_ hsq
    rw [Nat.pow_two]
    have := hr.two_le
    exact Nat.mul_le_mul (by omega) (by omega)
  have e9 : h * f ≤ f * f := Nat.mul_le_mul_right f hh
  have e10 : (f + 1) * (f + 1) = f * f + 2 * f + 1 := by ring
  have := hf.two_le
  omega

end Rsa
end Httpsig
