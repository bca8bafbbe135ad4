import Verif.Spec.RsaPublic
import Verif.Lemmas.EcPkcs8
/-
Lemmas about RSA public keys and PKCS#1 v1.5 blocks.
-/
namespace Httpsig.Rsa
open P256 (readInt ringValue)

theorem derNat_length {n k : Nat} {a : Bytes} (h : DerNat n a) (hn : n < 256 ^ k) : a.length ≤ k + 7 := by
  obtain ⟨x, c, hb, h1, h2, l, hl, rfl⟩ := h
  have hc : c.length ≤ k := by
    obtain ⟨_, h3⟩ := P256.derNat_bounds h1 h2
    rcases h3 with rfl | h3
    · exact Nat.zero_le _
    · rw [hb] at h3
      have : 256 ^ (c.length - 1) < 256 ^ k := by omega
      have := (Nat.pow_lt_pow_iff_right (by decide : 1 < 256)).1 this
      omega
  have hl' : l.length ≤ 5 := by
    rcases hl with ⟨_, rfl⟩ | ⟨_, _, d, ds, _, h4, _, rfl⟩
    · simp
    · simp only [List.length_cons]; omega
  simp only [List.length_cons, List.length_append]
  omega

theorem size_iff {n k : Nat} (hn : n ≠ 0) (hk : 0 < k) : 256 ^ (k - 1) ≤ n ∧ n < 256 ^ k ↔ k = size n := by
  constructor
  · rintro ⟨h1, h2⟩
    have h3 := (Nat.pow_lt_pow_iff_right (by decide : 1 < 256)).1 (Nat.lt_of_le_of_lt h1 (lt_size n))
    have h4 := (Nat.pow_lt_pow_iff_right (by decide : 1 < 256)).1 (Nat.lt_of_le_of_lt (size_le hn) h2)
    omega
  · rintro rfl
    exact ⟨size_le hn, lt_size n⟩

theorem size_2048 (n : Nat) : 2048 ≤ 8 * size n ↔ 2 ^ 2040 ≤ n := by
  rw [show (2 : Nat) ^ 2040 = 256 ^ 255 from by rw [show (256 : Nat) = 2 ^ 8 from rfl, ← Nat.pow_mul]]
  constructor
  · intro h
    have hn : n ≠ 0 := by
      rintro rfl
      exact absurd h (by decide)
    exact Nat.le_trans (Nat.pow_le_pow_right (by decide) (by omega)) (size_le hn)
  · intro h
    have := (Nat.pow_lt_pow_iff_right (by decide : 1 < 256)).1 (Nat.lt_of_le_of_lt h (lt_size n))
    omega

/-- What ring reads as an RSA public key. -/
theorem readPublic_iff {b : Bytes} {n e : Nat} : readPublic b = some (n, e) ↔ RsaPublicDer n e b ∧ RsaSizes n e := by
  unfold readPublic RsaPublicDer RsaSizes
  simp only [size_2048]
  constructor
  · intro h
    simp only [Option.bind_eq_bind, Option.bind_eq_some_iff] at h
    obtain ⟨⟨c, rest⟩, h1, ⟨r', c1⟩, h2, ⟨s', c2⟩, h3, h⟩ := h
    simp only at h h2 h3
    split at h
    · rename_i he
      obtain ⟨rfl, rfl⟩ := Prod.mk.inj (Option.some.inj h)
      obtain ⟨rfl, rfl, he⟩ := he
      obtain ⟨v, hv, rfl, _⟩ := P256.ringValue_iff.1 h1
      obtain ⟨a, ha, rfl⟩ := P256.readInt_iff.1 h2
      obtain ⟨b, hb, rfl⟩ := P256.readInt_iff.1 h3
      simp only [List.append_nil] at hv ⊢
      exact ⟨⟨a, b, ha, hb, hv⟩, he⟩
    · cases h
  · rintro ⟨⟨a, b', ha, hb, ht⟩, hs⟩
    have l1 := derNat_length ha (k := 1024) (Nat.lt_of_lt_of_eq hs.2.2.1 (by rw [show (256 : Nat) = 2 ^ 8 from rfl, ← Nat.pow_mul]))
    have l2 := derNat_length hb (k := 5) (Nat.lt_of_lt_of_le hs.2.2.2.2.2 (by decide))
    rw [P256.ringValue_iff.2 ⟨b, ht, (List.append_nil b).symm, by rw [List.length_append]; omega⟩]
    simp only [Option.bind_eq_bind, Option.bind_some]
    rw [P256.readInt_iff.2 ⟨a, ha, rfl⟩]
    simp only [Option.bind_some]
    rw [P256.readInt_iff.2 ⟨b', hb, (List.append_nil b').symm⟩]
    simp only [Option.bind_some]
    exact if_pos ⟨trivial, trivial, hs⟩

theorem readPublic_none {b : Bytes} (h : ¬ ∃ n e, RsaPublicDer n e b ∧ RsaSizes n e) : readPublic b = none := by
  cases hr : readPublic b with
  | none => rfl
  | some x => exact absurd ⟨x.1, x.2, readPublic_iff.1 hr⟩ h

theorem derValue_small {tag : UInt8} {c v : Bytes} (hc : c.length < 128) : DerValue tag c v ↔ v = tag :: UInt8.ofNat c.length :: c := by
  constructor
  · rintro ⟨l, hl, rfl⟩
    rcases hl with ⟨_, rfl⟩ | ⟨h, _⟩
    · rfl
    · omega
  · rintro rfl
    exact ⟨_, .inl ⟨hc, rfl⟩, rfl⟩

theorem digestInfo_256 {hash der : Bytes} (hl : hash.length = 32) : DigestInfo oidSha256 hash der ↔ der = info256 ++ hash := by
  unfold DigestInfo
  constructor
  · rintro ⟨o, alg, h, h1, h2, h3, h4⟩
    obtain rfl := (derValue_small (by decide)).1 h1
    obtain rfl := (derValue_small (by decide)).1 h2
    obtain rfl := (derValue_small (by omega)).1 h3
    have := (derValue_small (by simp [hl, oidSha256])).1 h4
    rw [this]
    simp [hl, oidSha256, info256]
  · rintro rfl
    refine ⟨_, _, _, (derValue_small (by decide)).2 rfl, (derValue_small (by decide)).2 rfl, (derValue_small (by omega)).2 rfl, ?_⟩
    refine (derValue_small (by simp [hl, oidSha256])).2 ?_
    simp [hl, oidSha256, info256]

theorem digestInfo_512 {hash der : Bytes} (hl : hash.length = 64) : DigestInfo oidSha512 hash der ↔ der = info512 ++ hash := by
  unfold DigestInfo
  constructor
  · rintro ⟨o, alg, h, h1, h2, h3, h4⟩
    obtain rfl := (derValue_small (by decide)).1 h1
    obtain rfl := (derValue_small (by decide)).1 h2
    obtain rfl := (derValue_small (by omega)).1 h3
    have := (derValue_small (by simp [hl, oidSha512])).1 h4
    rw [this]
    simp [hl, oidSha512, info512]
  · rintro rfl
    refine ⟨_, _, _, (derValue_small (by decide)).2 rfl, (derValue_small (by decide)).2 rfl, (derValue_small (by omega)).2 rfl, ?_⟩
    refine (derValue_small (by simp [hl, oidSha512])).2 ?_
    simp [hl, oidSha512, info512]

/-- The block of RFC 8017 is unique. -/
theorem pkcs1Block_iff {oid info m em : Bytes} {hash : Bytes → Bytes} {len : Nat} (hd : ∀ der, DigestInfo oid (hash m) der ↔ der = info ++ hash m)
    (hl : info.length + (hash m).length + 11 ≤ len) : Pkcs1Block oid (hash m) len em ↔ em = emsa info hash len m := by
  unfold Pkcs1Block emsa
  constructor
  · rintro ⟨ff, i, h1, _, h2, rfl, h3⟩
    obtain rfl := (hd i).1 h2
    simp only [List.length_cons, List.length_append] at h3
    have : ff = List.replicate (len - (info ++ hash m).length - 3) 0xff :=
      List.eq_replicate_iff.2 ⟨by rw [List.length_append]; omega, h1⟩
    rw [this]
    simp
  · rintro rfl
    refine ⟨List.replicate (len - (info ++ hash m).length - 3) 0xff, info ++ hash m, fun x hx => List.eq_of_mem_replicate hx, ?_, (hd _).2 rfl, ?_, ?_⟩
    · rw [List.length_replicate, List.length_append]; omega
    · simp
    · simp only [List.length_append, List.length_cons, List.length_nil, List.length_replicate]
      omega

end Httpsig.Rsa
