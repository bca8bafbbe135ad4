import Verif.Lemmas.RsaPublic
import Verif.Props.EcPkcs8
import Verif.Props.KeyFiles
import Verif.Props.Pss
/-
Claim C140: which RSA public keys the ring back end ever accepts a signature with, and which signatures.
-/
namespace Httpsig
open Base64

theorem RsaPublicDer.two_integers {n e : Nat} {key : Bytes} (h : RsaPublicDer n e key) : RsaPublicKey key := by
  obtain ⟨a, b, ⟨x, c, _, _, _, ha⟩, ⟨y, d, _, _, _, hb⟩, hk⟩ := h
  exact ⟨_, _, a, b, ha, hb, hk⟩

section
variable [Deps] {priv : Bytes → Option (Nat × Nat)} {salt : Nat → Bytes} {prim : Primitive} {hash : Bytes → Bytes} {oid key : Bytes}

theorem RingRsa.reads (h : RingRsa priv salt) (hp : prim ∈ [Primitive.rsaPkcs1Sha256, .rsaPkcs1Sha512, .rsaPssSha512]) {m t : Bytes} (hv : Deps.asymVerify prim key m t = true) :
    ∃ n e, RsaPublicDer n e key ∧ RsaSizes n e ∧ Rsa.readPublic key = some (n, e) := by
  cases hr : Rsa.readPublic key with
  | none => rw [h.refuses prim key m t hp hr] at hv; cases hv
  | some x =>
    obtain ⟨h1, h2⟩ := Rsa.readPublic_iff.1 hr
    exact ⟨x.1, x.2, h1, h2, rfl⟩

/-- C140. With one of the PKCS#1 v1.5 types a signature text is accepted exactly if the key is an `RSAPublicKey` of a supported size, and
the text is the base64 of as many bytes as the modulus has, which are a number below the modulus whose power is the block with the hash. -/
theorem C140_accepted (h : RingRsa priv salt) (hp : Pkcs1Oid prim hash oid) (name : Str) (m : Bytes) (s : Str) :
    (asymVerifier name prim key).verify m s = true ↔
      ∃ n e t em, RsaPublicDer n e key ∧ RsaSizes n e ∧ IsBase64 s t ∧ 256 ^ (t.length - 1) ≤ n ∧ n < 256 ^ t.length ∧ bigEndian t < n ∧
        Pkcs1Block oid (hash m) t.length em ∧ bigEndian t ^ e % n = bigEndian em := by
  have hp' : prim ∈ [Primitive.rsaPkcs1Sha256, .rsaPkcs1Sha512, .rsaPssSha512] := by cases hp <;> decide
  have key1 : ∀ n e t, Rsa.readPublic key = some (n, e) →
      (Deps.asymVerify prim key m t = true ↔ 256 ^ (t.length - 1) ≤ n ∧ n < 256 ^ t.length ∧ bigEndian t < n ∧
        ∃ em, Pkcs1Block oid (hash m) t.length em ∧ bigEndian t ^ e % n = bigEndian em) := by
    intro n e t hr
    have hs := (Rsa.readPublic_iff.1 hr).2
    have hn : n ≠ 0 := by rintro rfl; exact absurd hs.1 (by decide)
    have h256 := (Rsa.size_2048 n).2 hs.2.1
    obtain ⟨info, hi, hd, hv⟩ : ∃ info : Bytes, info.length + (hash m).length + 11 ≤ Rsa.size n ∧
        (∀ der, DigestInfo oid (hash m) der ↔ der = info ++ hash m) ∧
        Deps.asymVerify prim key m t = Rsa.accepts info hash n e m t := by
      cases hp
      · exact ⟨Rsa.info256, by rw [h.size256]; change 19 + 32 + 11 ≤ _; omega, fun _ => Rsa.digestInfo_256 (h.size256 m), h.verify256 _ _ _ _ _ hr⟩
      · exact ⟨Rsa.info512, by rw [h.toRealRsa.size512]; change 19 + 64 + 11 ≤ _; omega, fun _ => Rsa.digestInfo_512 (h.toRealRsa.size512 m),
          h.verify512 _ _ _ _ _ hr⟩
    have hlen := Rsa.emsa_length (info := info) (m := m) (hash := hash) (len := Rsa.size n) (by omega)
    rw [hv]
    simp only [Rsa.accepts, Bool.and_eq_true, beq_iff_eq, decide_eq_true_eq, Der.ofBytes_eq]
    have hlt : bigEndian t ^ e % n < 256 ^ Rsa.size n := Nat.lt_trans (Nat.mod_lt _ (by omega)) (Rsa.lt_size n)
    constructor
    · rintro ⟨⟨h1, h2⟩, h3⟩
      rw [h1]
      refine ⟨Rsa.size_le hn, Rsa.lt_size n, h2, _, (Rsa.pkcs1Block_iff hd hi).2 rfl, ?_⟩
      rw [← h3, ← Der.ofBytes_eq (Rsa.toBytes _ _), Rsa.ofBytes_toBytes, Nat.mod_eq_of_lt hlt]
    · rintro ⟨h1, h2, h3, em, h4, h5⟩
      have hpos : 0 < t.length := by
        rcases Nat.eq_zero_or_pos t.length with h0 | h0
        · rw [h0] at h2; omega
        · exact h0
      have hsz := (Rsa.size_iff hn hpos).1 ⟨h1, h2⟩
      rw [hsz] at h4
      obtain rfl := (Rsa.pkcs1Block_iff hd hi).1 h4
      refine ⟨⟨hsz, h3⟩, ?_⟩
      rw [h5, ← Der.ofBytes_eq]
      have := Rsa.toBytes_ofBytes (Rsa.emsa info hash (Rsa.size n) m)
      rwa [hlen] at this
  simp only [asymVerifier]
  rw [b64Verify_iff]
  constructor
  · rintro ⟨t, hb, hv⟩
    obtain ⟨n, e, h1, h2, h3⟩ := h.reads hp' hv
    obtain ⟨a, b, c, em, d, f⟩ := (key1 n e t h3).1 hv
    exact ⟨n, e, t, em, h1, h2, isBase64_iff.2 hb, a, b, c, d, f⟩
  · rintro ⟨n, e, t, em, h1, h2, hb, a, b, c, d, f⟩
    exact ⟨t, isBase64_iff.1 hb, (key1 n e t (Rsa.readPublic_iff.2 ⟨h1, h2⟩)).2 ⟨a, b, c, em, d, f⟩⟩

/-- C140. With the PSS types a signature text is accepted exactly if the key is such a key, and the text is the base64 of as many bytes as the
modulus has, which are a number below the modulus whose power is the encoding of the text with some salt of 64 bytes (RFC 8017, 9.1.1). -/
theorem C140_accepted_pss (h : RingRsa priv salt) (name : Str) (m : Bytes) (s : Str) :
    (asymVerifier name .rsaPssSha512 key).verify m s = true ↔
      ∃ n e t x, RsaPublicDer n e key ∧ RsaSizes n e ∧ IsBase64 s t ∧ 256 ^ (t.length - 1) ≤ n ∧ n < 256 ^ t.length ∧ bigEndian t < n ∧
        x.length = 64 ∧ bigEndian t ^ e % n = bigEndian (Pss.encode Deps.sha512 64 n.log2 x m) := by
  have hh := h.toRealRsa.size512
  have key1 : ∀ n e t, Rsa.readPublic key = some (n, e) →
      (Deps.asymVerify .rsaPssSha512 key m t = true ↔ 256 ^ (t.length - 1) ≤ n ∧ n < 256 ^ t.length ∧ bigEndian t < n ∧
        ∃ x : Bytes, x.length = 64 ∧ bigEndian t ^ e % n = bigEndian (Pss.encode Deps.sha512 64 n.log2 x m)) := by
    intro n e t hr
    have hs := (Rsa.readPublic_iff.1 hr).2
    have hn : n ≠ 0 := by rintro rfl; exact absurd hs.1 (by decide)
    have hl := Pss.large (n := n) (Nat.le_trans (by decide +kernel) hs.2.1)
    have hencl : ∀ x : Bytes, x.length = 64 → (Pss.encode Deps.sha512 64 n.log2 x m).length = (n.log2 + 7) / 8 := fun x hx =>
      Pss.encode_length hh (by decide) (by rw [hx]; omega) m
    rw [h.toRealPss.verify _ _ _ _ _ hr]
    unfold Pss.accepts
    simp only [Der.ofBytes_eq]
    constructor
    · intro hv
      split at hv; · cases hv
      split at hv; · cases hv
      split at hv; · cases hv
      rename_i h1 h2 h3
      simp only [Decidable.not_not] at h1
      obtain ⟨x, hx, he⟩ := (Pss.check_iff hh (by decide) hl (Rsa.toBytes_length _ _)).1 hv
      rw [h1]
      refine ⟨Rsa.size_le hn, Rsa.lt_size n, by omega, x, hx, ?_⟩
      have hm := Nat.mod_eq_of_lt (Nat.not_le.1 h3)
      rw [← he, ← Der.ofBytes_eq (Rsa.toBytes _ _), Rsa.ofBytes_toBytes, hm]
    · rintro ⟨h1, h2, h3, x, hx, h4⟩
      have hpos : 0 < t.length := by
        rcases Nat.eq_zero_or_pos t.length with h0 | h0
        · rw [h0] at h2; omega
        · exact h0
      have hsz := (Rsa.size_iff hn hpos).1 ⟨h1, h2⟩
      have h6 := Der.bigEndian_lt (Pss.encode Deps.sha512 64 n.log2 x m)
      rw [hencl x hx] at h6
      rw [if_neg (by simp [hsz]), if_neg (by omega), h4, if_neg (by omega)]
      refine (Pss.check_iff hh (by decide) hl (Rsa.toBytes_length _ _)).2 ⟨x, hx, ?_⟩
      have := Rsa.toBytes_ofBytes (Pss.encode Deps.sha512 64 n.log2 x m)
      rwa [hencl x hx, Der.ofBytes_eq] at this
  simp only [asymVerifier]
  rw [b64Verify_iff]
  constructor
  · rintro ⟨t, hb, hv⟩
    obtain ⟨n, e, h1, h2, h3⟩ := h.reads (by decide) hv
    obtain ⟨a, b, c, x, d, f⟩ := (key1 n e t h3).1 hv
    exact ⟨n, e, t, x, h1, h2, isBase64_iff.2 hb, a, b, c, d, f⟩
  · rintro ⟨n, e, t, x, h1, h2, hb, a, b, c, d, f⟩
    exact ⟨t, isBase64_iff.1 hb, (key1 n e t (Rsa.readPublic_iff.2 ⟨h1, h2⟩)).2 ⟨a, b, c, x, d, f⟩⟩

/-- C140. The types of the ring back end for RSA, PSS included, accept nothing with a key that is not an `RSAPublicKey` of a supported size. -/
theorem C140_keys (h : RingRsa priv salt) {e : AlgEntry} (he : e ∈ ringTable) (hne : e.name ≠ str% "ecdsa-p256-sha256") (m : Bytes) (s : Str)
    (hv : (e.verifier key).verify m s = true) : ∃ n x, RsaPublicDer n x key ∧ RsaSizes n x := by
  have hp : e.verifyWith ∈ [Primitive.rsaPkcs1Sha256, .rsaPkcs1Sha512, .rsaPssSha512] := by
    simp only [ringTable, List.mem_cons, List.not_mem_nil, or_false] at he
    rcases he with rfl | rfl | rfl | rfl | rfl
    · decide
    · decide
    · decide
    · decide
    · exact absurd rfl hne
  simp only [AlgEntry.verifier, asymVerifier] at hv
  rw [b64Verify_iff] at hv
  obtain ⟨t, _, hv⟩ := hv
  obtain ⟨n, x, h1, h2, _⟩ := h.reads hp hv
  exact ⟨n, x, h1, h2⟩

/-- C140. Key pairs: a private key, and the `RSAPublicKey` with the same numbers. -/
theorem C140_pair (h : RingRsa priv salt) {e : AlgEntry} (he : e ∈ ringTable) (hne : e.name ≠ str% "ecdsa-p256-sha256") {sk : Bytes} {n x d : Nat}
    (hsk : priv sk = some (n, d)) (hpk : RsaPublicDer n x key) (hs : RsaSizes n x) (hk : RsaKey n x d) :
    e.signWith = e.verifyWith ∧ KeyPair e.verifyWith sk key := by
  have hr := Rsa.readPublic_iff.2 ⟨hpk, hs⟩
  have hn : 256 ^ 131 ≤ n := Nat.le_trans (by decide +kernel) hs.2.1
  simp only [ringTable, List.mem_cons, List.not_mem_nil, or_false] at he
  rcases he with rfl | rfl | rfl | rfl | rfl
  · exact ⟨rfl, C136_pair h.toRealRsa .sha256 hsk hr hk⟩
  · exact ⟨rfl, C136_pair h.toRealRsa .sha512 hsk hr hk⟩
  · exact ⟨rfl, C137_pair h.toRealPss hsk hr hk hn⟩
  · exact ⟨rfl, C137_pair h.toRealPss hsk hr hk hn⟩
  · exact absurd rfl hne

omit [Deps] in
/-- C140. The bytes of a key are determined by its numbers, and its numbers by the bytes. -/
theorem C140_one_encoding {n e n' e' : Nat} {key' : Bytes} (h : RsaPublicDer n e key) (h' : RsaPublicDer n' e' key') :
    key = key' ↔ n = n' ∧ e = e' := by
  constructor
  · rintro rfl
    exact P256.ecdsaSig_det h h'
  · rintro ⟨rfl, rfl⟩
    exact P256.ecdsaSig_unique h h'

/-- C140. No key works for both an RSA type and the ECDSA type: with the same bytes, one of the two accepts nothing. -/
theorem C140_kinds {priv' : Bytes → Option Nat} (h : RingRsa priv salt) (h' : RealEcdsa priv') {e e' : AlgEntry} (he : e ∈ ringTable)
    (hne : e.name ≠ str% "ecdsa-p256-sha256") (he' : e' ∈ ringTable) (hn' : e'.name = str% "ecdsa-p256-sha256") :
    (∀ m s, (e.verifier key).verify m s = false) ∨ (∀ m s, (e'.verifier key).verify m s = false) := by
  by_cases hk : ∃ n x, RsaPublicDer n x key
  · obtain ⟨n, x, a, b, _, _, l, _, rfl⟩ := hk
    right
    intro m s
    obtain rfl := ecdsa_entry he' hn'
    rw [Bool.eq_false_iff]
    intro hv
    obtain ⟨A, r, y, t, ⟨c, d, _, _, _, _, _, hc⟩, _⟩ := (C138_accepted h' _ m s).1 hv
    cases hc
  · left
    intro m s
    rw [Bool.eq_false_iff]
    intro hv
    obtain ⟨n, x, h1, _⟩ := C140_keys h he hne m s hv
    exact hk ⟨n, x, h1⟩

/-- C140. A file in SPKI format, given to a constructor for PKCS #1, makes an RSA verifier that accepts nothing; so does a private key, in
either of its formats. -/
theorem C140_wrong_format (h : RingRsa priv salt) {e : AlgEntry} (he : e ∈ ringTable) (hne : e.name ≠ str% "ecdsa-p256-sha256") (der : Bytes)
    (hder : (∃ oid params u k, Spki oid params u k der) ∨
      ∃ v r, DerValue 0x02 [0] v ∧ DerValue 0x30 (v ++ r) der) :
    ∃ v, Ring.verifyPkcs1Der e der = some v ∧ ∀ m s, v.verify m s = false := by
  refine ⟨_, rfl, fun m s => Bool.eq_false_iff.2 fun hv => ?_⟩
  obtain ⟨n, x, h1, h2⟩ := C140_keys h he hne m s hv
  rcases hder with ⟨oid, params, u, k, hs⟩ | ⟨v, r, hv0, hd⟩
  · exact spki_not_pkcs1 hs h1.two_integers
  · obtain ⟨a, b, ⟨y, c, hy, _, _, ha⟩, _, hk⟩ := h1
    have := (derValue_front hv0 ha (derValue_whole hd hk)).1
    cases this
    have h3 : n = 0 := hy.symm
    rw [h3] at h2
    exact absurd h2.1 (by decide)

omit [Deps] in
theorem publicKey_det [Deps] {alg : Str} {pem k k' : Bytes} (h : PublicKey alg pem k) (h' : PublicKey alg pem k') : k = k' := by
  unfold PublicKey at h h'
  grind

/-- C140, in the validator. A public key file with anything but an `RSAPublicKey` of a supported size is loaded without error, and then verify
mode accepts no request at all. -/
theorem C140_validator (h : RingRsa priv salt) (o : Opt) (alg name : Str) (hs : Supports alg name prim) (ha : o.algorithm = some alg)
    (file : Bytes) (hp : o.publicKey = some (some file)) (hk : PublicKey alg file key) (hno : ∀ n e, RsaPublicDer n e key → ¬ RsaSizes n e) :
    (∃ c, o.verificationConfig = .ok c) ∧ ∀ req env, runVerify req o env ≠ .ok (.ok ()) := by
  refine ⟨⟨_, (C50_verifying_exact o _).2 (.inr ⟨alg, name, prim, file, key, ha, hs, hp, hk, rfl⟩)⟩, fun req env hv => ?_⟩
  obtain ⟨c, kid, hc, hv⟩ := runVerify_iff.1 hv
  obtain ⟨c', sig, base, hsig, _⟩ := (C10_acceptance_iff req c env () kid).1 hv
  rcases (C50_verifying_exact o c).1 hc with ⟨hn, _⟩ | ⟨alg', name', prim', file', key', ha', hs', hp', hk', rfl⟩
  · rw [ha] at hn; cases hn
  rw [ha] at ha'; cases ha'
  rw [hp] at hp'; cases hp'
  obtain ⟨rfl, rfl⟩ := supports_det hs hs'
  obtain rfl := publicKey_det hk hk'
  obtain ⟨k, hk, hver⟩ := hsig.key
  have hk : k = asymVerifier name prim key := by
    simp only [optVerifying, VerifyingConfig.new, onlyKey] at hk
    split at hk
    · simpa using hk
    · cases hk
  subst hk
  simp only [asymVerifier] at hver
  rw [b64Verify_iff] at hver
  obtain ⟨t, _, hver⟩ := hver
  obtain ⟨n, e, h1, h2, _⟩ := h.reads (by cases hs <;> decide) hver
  exact hno n e h1 h2

/-- C140, in the validator. Files that are loaded and are of no use: those in SPKI format (what `openssl` writes) with an algorithm other than
`rsa-v1_5-sha256`, and those with a key of 2040 bits or less. -/
theorem C140_useless_files (h : RingRsa priv salt) (o : Opt) (alg name label : Str) (hs : Supports alg name prim) (ha : o.algorithm = some alg)
    (file der : Bytes) (hf : PemFile label der file) (hp : o.publicKey = some (some file))
    (hder : (alg ≠ str% "rsa-v1_5-sha256" ∧ ∃ oid params u k, Spki oid params u k der) ∨ ∃ n e, RsaPublicDer n e der ∧ n < 2 ^ 2040) :
    (∃ c, o.verificationConfig = .ok c) ∧ ∀ req env, runVerify req o env ≠ .ok (.ok ()) := by
  have hpkcs : publicPkcs1Pem file = some der := Pem.parse_pemFile hf
  rcases hder with ⟨halg, oid, params, u, k, hspki⟩ | ⟨n, e, hd, hn⟩
  · exact C140_validator h o alg name hs ha file hp (.inr ⟨halg, hpkcs⟩) fun n e h1 _ => spki_not_pkcs1 hspki h1.two_integers
  · have hk : PublicKey alg file der := by
      by_cases halg : alg = str% "rsa-v1_5-sha256"
      · refine .inl ⟨halg, .inr ⟨?_, hpkcs⟩⟩
        unfold publicSpkiPem
        rw [Pem.parse_pemFile hf, Option.bind_some]
        cases hk : spkiKey der with
        | none => rfl
        | some x =>
          obtain ⟨_, _, _, hs, _⟩ := spkiKey_iff.1 hk
          exact absurd hd.two_integers (spki_not_pkcs1 hs)
      · exact .inr ⟨halg, hpkcs⟩
    refine C140_validator h o alg name hs ha file hp hk fun n' e' h1 h2 => ?_
    obtain ⟨rfl, rfl⟩ := (C140_one_encoding hd h1).1 rfl
    exact absurd h2.2.1 (Nat.not_le.2 hn)

end

/-! ### Examples -/

/-- The numbers of an RSA key, with primes of Mersenne's form. -/
def exRingN : Nat := (2 ^ 521 - 1) * (2 ^ 2203 - 1)
def exRingD : Nat := 0x1e77e1881e77e1881e77e1881e77e1881e77e1881e77e1881e77e1881e77e1881e77e1881e77e1881e77e1881e77e1881e77e1881e77e1881e77e1881e77e1881e5969a6965969a6965969a6965969a6965969a6965969a6965969a6965969a6965969a6965969a6965969a6965969a6965969a6965969a6965969a6965969a6965969a6965969a6965969a6965969a6965969a6965969a6965969a6965969a6965969a6965969a6965969a6965969a6965969a6965969a6965969a6965969a6965969a6965969a6965969a6965969a6965969a6965969a6965969a6965969a6965969a6965969a6965969a6965969a6965969a6965969a6965969a6965969a6965969a6965969a6965969a6965969a69659699ef861079ef861079ef861079ef861079ef861079ef861079ef861079ef861079ef861079ef861079ef861079ef861079ef861079ef861079ef861079ef861079f

theorem exRing_key : RsaKey exRingN 65537 exRingD := by
  refine ⟨⟨2 ^ 521 - 1, 2 ^ 2203 - 1, isPrime_iff.2 (lucas_lehmer_sufficiency _ (by simp) (by norm_num)),
    isPrime_iff.2 (lucas_lehmer_sufficiency _ (by simp) (by norm_num)), by decide +kernel, rfl, by decide +kernel, by decide +kernel⟩,
    by decide +kernel⟩

/-- The public key. -/
def exRingKey : Bytes := [0x30, 0x82, 0x01, 0x5e, 0x02, 0x82, 0x01, 0x55] ++ Rsa.toBytes 341 exRingN ++ [0x02, 0x03, 0x01, 0x00, 0x01]

/-- A public key of 521 bits. -/
def exSmallKey : Bytes := [0x30, 0x49, 0x02, 0x42, 0x01] ++ List.replicate 65 0xff ++ [0x02, 0x03, 0x01, 0x00, 0x01]

/-- The RSA primitives with a toy hash, and public keys as ring reads them. -/
@[reducible] def ringRsaDeps : Deps :=
  { toyDeps with
    sha256 := toyHash 32
    sha512 := toyHash 64
    asymSign := fun p _ rnd m => match p with
      | .rsaPkcs1Sha512 => Rsa.signatureFast Rsa.info512 (toyHash 64) exRingN exRingD m
      | .rsaPssSha512 => Pss.signatureFast (toyHash 64) 64 exRingN exRingD (Rsa.toBytes 64 rnd) m
      | _ => Rsa.signatureFast Rsa.info256 (toyHash 32) exRingN exRingD m
    asymVerify := fun p k m t => match Rsa.readPublic k with
      | none => false
      | some (n, e) => match p with
        | .rsaPkcs1Sha512 => Rsa.acceptsFast Rsa.info512 (toyHash 64) n e m t
        | .rsaPssSha512 => Pss.acceptsFast (toyHash 64) 64 64 n e m t
        | _ => Rsa.acceptsFast Rsa.info256 (toyHash 32) n e m t }

theorem ringRsaDeps_real : @RingRsa ringRsaDeps (fun _ => some (exRingN, exRingD)) (Rsa.toBytes 64) := by
  have size : ∀ n m, (toyHash n m).length = n := fun n m => by simp [toyHash, List.length_take]
  refine @RingRsa.mk ringRsaDeps _ _ (@RealRsa.mk ringRsaDeps _ _ ?_ ?_ ?_ ?_ (size 32) (size 64))
    ?_ ?_ (fun _ => Rsa.toBytes_length _ _) ?_ ?_
  · intro k n d rnd m h
    obtain ⟨rfl, rfl⟩ := Prod.mk.inj (Option.some.inj h)
    change Rsa.signatureFast _ _ _ _ _ = _
    rw [Rsa.signatureFast_eq]
    rfl
  · intro k n d rnd m h
    obtain ⟨rfl, rfl⟩ := Prod.mk.inj (Option.some.inj h)
    change Rsa.signatureFast _ _ _ _ _ = _
    rw [Rsa.signatureFast_eq]
    rfl
  · intro k n e m t h
    change (match Rsa.readPublic k with
      | none => false
      | some (n, e) => Rsa.acceptsFast Rsa.info256 (toyHash 32) n e m t) = _
    rw [h, Rsa.acceptsFast_eq]
    rfl
  · intro k n e m t h
    change (match Rsa.readPublic k with
      | none => false
      | some (n, e) => Rsa.acceptsFast Rsa.info512 (toyHash 64) n e m t) = _
    rw [h, Rsa.acceptsFast_eq]
    rfl
  · intro k n d rnd m h
    obtain ⟨rfl, rfl⟩ := Prod.mk.inj (Option.some.inj h)
    change Pss.signatureFast _ _ _ _ _ _ = _
    rw [Pss.signatureFast_eq]
    rfl
  · intro k n e m t h
    change (match Rsa.readPublic k with
      | none => false
      | some (n, e) => Pss.acceptsFast (toyHash 64) 64 64 n e m t) = _
    rw [h, Pss.acceptsFast_eq]
    rfl
  · intro s hs
    exact ⟨Der.ofBytes s, by rw [← hs, Rsa.toBytes_ofBytes]⟩
  · intro p k m t _ h
    change (match Rsa.readPublic k with
      | none => false
      | some (n, e) => _) = _
    rw [h]

section
attribute [local instance] ringRsaDeps

/-- A key that is read, and one that is too small. -/
example : Rsa.readPublic exRingKey = some (exRingN, 65537) ∧ Rsa.readPublic exSmallKey = none := by decide +kernel

/-- The hypotheses of `C140_accepted` and `C140_keys`: signatures of all three types that are accepted with the key, and not with the small key. -/
example : (asymVerifier [] .rsaPkcs1Sha256 exRingKey).verify [1, 2, 3] ((asymSigner [] .rsaPkcs1Sha256 []).sign 7 [1, 2, 3]) = true ∧
    (asymVerifier [] .rsaPkcs1Sha256 exSmallKey).verify [1, 2, 3] ((asymSigner [] .rsaPkcs1Sha256 []).sign 7 [1, 2, 3]) = false := by decide +kernel
example : (asymVerifier [] .rsaPkcs1Sha256 exRingKey).verify [1, 2, 4] ((asymSigner [] .rsaPkcs1Sha256 []).sign 7 [1, 2, 3]) = false := by decide +kernel
example : (asymVerifier [] .rsaPkcs1Sha512 exRingKey).verify [1, 2, 3] ((asymSigner [] .rsaPkcs1Sha512 []).sign 7 [1, 2, 3]) = true ∧
    (asymVerifier [] .rsaPkcs1Sha512 exSmallKey).verify [1, 2, 3] ((asymSigner [] .rsaPkcs1Sha512 []).sign 7 [1, 2, 3]) = false := by decide +kernel
example : (asymVerifier [] .rsaPkcs1Sha512 exRingKey).verify [1, 2, 4] ((asymSigner [] .rsaPkcs1Sha512 []).sign 7 [1, 2, 3]) = false := by decide +kernel
example : (asymVerifier [] .rsaPssSha512 exRingKey).verify [1, 2, 3] ((asymSigner [] .rsaPssSha512 []).sign 7 [1, 2, 3]) = true ∧
    (asymVerifier [] .rsaPssSha512 exSmallKey).verify [1, 2, 3] ((asymSigner [] .rsaPssSha512 []).sign 7 [1, 2, 3]) = false := by decide +kernel
example : (asymVerifier [] .rsaPssSha512 exRingKey).verify [1, 2, 4] ((asymSigner [] .rsaPssSha512 []).sign 7 [1, 2, 3]) = false := by decide +kernel

/-- The hypotheses of `C140_pair`. -/
example : RsaPublicDer exRingN 65537 exRingKey ∧ RsaSizes exRingN 65537 ∧ RsaKey exRingN 65537 exRingD :=
  have h : RsaPublicDer exRingN 65537 exRingKey ∧ RsaSizes exRingN 65537 := Rsa.readPublic_iff.1 (by decide +kernel)
  ⟨h.1, h.2, exRing_key⟩

/-- The small key is nevertheless an `RSAPublicKey`, as in `C140_useless_files`. -/
example : RsaPublicDer (2 ^ 521 - 1) 65537 exSmallKey :=
  P256.readSig_iff.1 (by decide +kernel)
end

end Httpsig
