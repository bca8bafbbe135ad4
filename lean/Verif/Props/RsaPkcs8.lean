import Verif.Lemmas.RsaPkcs8
import Verif.Props.RsaPublic
import Verif.Props.SignFail
/-
Claim C143: RSA private keys in files of the ring back end, and signing with them.
-/
namespace Httpsig
open Base64

theorem derNat_front {n n' : Nat} {v v' r r' : Bytes} (h : DerNat n v) (h' : DerNat n' v') (he : v ++ r = v' ++ r') : n = n' ∧ r = r' := by
  have e1 : P256.readInt (v ++ r) = some (n, r) := P256.readInt_iff.2 ⟨v, h, rfl⟩
  have e2 : P256.readInt (v ++ r) = some (n', r') := P256.readInt_iff.2 ⟨v', h', he⟩
  exact Prod.mk.inj (Option.some.inj (e1.symm.trans e2))

theorem rsaPrivateDer_det {v v' : UInt8} {N N' : RsaNumbers} {der : Bytes} (h : RsaPrivateDer v N der) (h' : RsaPrivateDer v' N' der) :
    v = v' ∧ N = N' := by
  obtain ⟨w, a1, a2, a3, a4, a5, a6, a7, a8, w1, i1, i2, i3, i4, i5, i6, i7, i8, hd⟩ := h
  obtain ⟨w', b1, b2, b3, b4, b5, b6, b7, b8, w1', j1, j2, j3, j4, j5, j6, j7, j8, hd'⟩ := h'
  have e := derValue_whole hd hd'
  simp only [List.append_assoc] at e
  obtain ⟨e0, e⟩ := derValue_front w1 w1' e
  obtain ⟨e1, e⟩ := derNat_front i1 j1 e
  obtain ⟨e2, e⟩ := derNat_front i2 j2 e
  obtain ⟨e3, e⟩ := derNat_front i3 j3 e
  obtain ⟨e4, e⟩ := derNat_front i4 j4 e
  obtain ⟨e5, e⟩ := derNat_front i5 j5 e
  obtain ⟨e6, e⟩ := derNat_front i6 j6 e
  obtain ⟨e7, e⟩ := derNat_front i7 j7 e
  obtain ⟨e8, _⟩ := derNat_front i8 j8 (r := []) (r' := []) (by rw [List.append_nil, List.append_nil]; exact e)
  refine ⟨(List.cons.inj e0).1, ?_⟩
  cases N; cases N'
  simp only at *
  subst e1 e2 e3 e4 e5 e6 e7 e8
  rfl

theorem rsaPrivateInfo_det {n n' : UInt8} {key key' attrs attrs' der : Bytes} (h : RsaPrivateInfo n key attrs der)
    (h' : RsaPrivateInfo n' key' attrs' der) : n = n' ∧ key = key' ∧ attrs = attrs' := by
  obtain ⟨v, a, k, h1, h2, h3, h4⟩ := Rsa.rsaPrivateInfo_iff.1 h
  obtain ⟨v', a', k', h1', h2', h3', h4'⟩ := Rsa.rsaPrivateInfo_iff.1 h'
  have e := derValue_whole h4 h4'
  simp only [List.append_assoc] at e
  obtain ⟨e1, e⟩ := derValue_front h1 h1' e
  obtain ⟨_, e⟩ := derValue_front h2 h2' e
  obtain ⟨e3, e⟩ := derValue_front h3 h3' e
  exact ⟨(List.cons.inj e1).1, e3, e⟩

theorem rsaKeyFile_det {b : Bool} {N N' : RsaNumbers} {der : Bytes} (h : RsaKeyFile b N der) (h' : RsaKeyFile b N' der) : N = N' := by
  cases b
  · exact (rsaPrivateDer_det h h').2
  · obtain ⟨key, attrs, h1, _, h2⟩ := h
    obtain ⟨key', attrs', h1', _, h2'⟩ := h'
    obtain ⟨_, rfl, _⟩ := rsaPrivateInfo_det h2 h2'
    exact (rsaPrivateDer_det h1 h1').2

/-- The version of an `RSAPrivateKey` is followed by an integer, that of a `PrivateKeyInfo` by a sequence. -/
theorem rsa_kinds {v v' : UInt8} {N : RsaNumbers} {key attrs der : Bytes} (h : RsaPrivateDer v N der) (h' : RsaPrivateInfo v' key attrs der) :
    False := by
  obtain ⟨w, a1, a2, a3, a4, a5, a6, a7, a8, w1, ⟨_, _, _, _, _, i1⟩, _, _, _, _, _, _, _, hd⟩ := h
  obtain ⟨w', a, k, h1', h2', _, h4'⟩ := Rsa.rsaPrivateInfo_iff.1 h'
  have e := derValue_whole hd h4'
  simp only [List.append_assoc] at e
  obtain ⟨_, e⟩ := derValue_front w1 h1' e
  have t1 := P256.derValue_head i1 (a2 ++ (a3 ++ (a4 ++ (a5 ++ (a6 ++ (a7 ++ a8))))))
  have t2 := P256.derValue_head h2' (k ++ attrs)
  rw [e, t2] at t1
  exact absurd t1 (by decide)

/-- C143. A file has one key, and is of one kind. An `RSAPrivateKey` has one encoding. -/
theorem C143_one_key (b b' : Bool) (N N' : RsaNumbers) (der der' : Bytes) (h : RsaKeyFile b N der) (h' : RsaKeyFile b' N' der') :
    (der = der' → b = b' ∧ N = N') ∧ (b = false → b' = false → N = N' → der = der') := by
  constructor
  · rintro rfl
    cases b <;> cases b'
    · exact ⟨rfl, rsaKeyFile_det h h'⟩
    · obtain ⟨_, _, _, _, hi⟩ := h'
      exact (rsa_kinds h hi).elim
    · obtain ⟨_, _, _, _, hi⟩ := h
      exact (rsa_kinds h' hi).elim
    · exact ⟨rfl, rsaKeyFile_det h h'⟩
  · rintro rfl rfl rfl
    obtain ⟨w, a1, a2, a3, a4, a5, a6, a7, a8, w1, i1, i2, i3, i4, i5, i6, i7, i8, hd⟩ := h
    obtain ⟨w', b1, b2, b3, b4, b5, b6, b7, b8, w1', j1, j2, j3, j4, j5, j6, j7, j8, hd'⟩ := h'
    obtain rfl := P256.derNat_unique i1 j1
    obtain rfl := P256.derNat_unique i2 j2
    obtain rfl := P256.derNat_unique i3 j3
    obtain rfl := P256.derNat_unique i4 j4
    obtain rfl := P256.derNat_unique i5 j5
    obtain rfl := P256.derNat_unique i6 j6
    obtain rfl := P256.derNat_unique i7 j7
    obtain rfl := P256.derNat_unique i8 j8
    obtain rfl := (Rsa.derValue_small (by decide)).1 w1
    obtain rfl := (Rsa.derValue_small (by decide)).1 w1'
    exact P256.derValue_unique hd hd'

theorem rsaSigned_keyType {e : AlgEntry} (he : e ∈ ringTable) (hne : e.name ≠ str% "ecdsa-p256-sha256") :
    e.keyType = .rsa ∧ e.verifyWith = e.signWith ∧ e.signWith ∈ [Primitive.rsaPkcs1Sha256, .rsaPkcs1Sha512, .rsaPssSha512] := by
  simp only [ringTable, List.mem_cons, List.not_mem_nil, or_false] at he
  rcases he with rfl | rfl | rfl | rfl | rfl
  · exact ⟨rfl, rfl, by decide⟩
  · exact ⟨rfl, rfl, by decide⟩
  · exact ⟨rfl, rfl, by decide⟩
  · exact ⟨rfl, rfl, by decide⟩
  · exact absurd rfl hne

section
variable [Deps] {num : Bytes → Option Rsa.PrivateKey} {priv : Bytes → Option (Nat × Nat)} {salt : Nat → Bytes} {e : AlgEntry} {pkcs8 : Bool}

theorem rsaSigner_iff (h : RingRsaFiles num salt) (he : e ∈ ringTable) (hne : e.name ≠ str% "ecdsa-p256-sha256") {der : Bytes}
    {s : HttpSignatureSign} : RsaSigner e pkcs8 der s ↔
      ∃ k K, (if pkcs8 then Deps.ringPkcs8 .rsa der else Deps.ringPkcs1 der) = some k ∧ num k = some K ∧ Rsa.read pkcs8 der = some K ∧
        s = e.signer k := by
  have ht := (rsaSigned_keyType he hne).1
  have same : RsaSigner e pkcs8 der s ↔ (if pkcs8 then Deps.ringPkcs8 .rsa der else Deps.ringPkcs1 der).map e.signer = some s := by
    have hd : (if pkcs8 then Ring.newPkcs8 e der else Ring.newPkcs1 e der) =
        (if pkcs8 then Deps.ringPkcs8 .rsa der else Deps.ringPkcs1 der).map e.signer := by
      cases pkcs8
      · rfl
      · simp only [if_true, Ring.newPkcs8, ht]
    unfold RsaSigner
    rw [hd]
    refine ⟨?_, .inl⟩
    rintro (hs | ⟨label, file, hf, hs⟩)
    · exact hs
    · obtain ⟨e1, e2, _⟩ := C54_pem_same_as_der e label der file hf
      rw [e1, e2, hd] at hs
      exact hs
  have hr : (if pkcs8 then Deps.ringPkcs8 .rsa der else Deps.ringPkcs1 der).map num = (Rsa.read pkcs8 der).map some := by
    cases pkcs8
    · exact h.pkcs1 der
    · exact h.pkcs8 der
  rw [same, Option.map_eq_some_iff]
  constructor
  · rintro ⟨k, hk, rfl⟩
    rw [hk, Option.map_some] at hr
    obtain ⟨K, hK, hn⟩ := Option.map_eq_some_iff.1 hr.symm
    exact ⟨k, K, hk, hn.symm, hK, rfl⟩
  · rintro ⟨k, K, hk, _, _, rfl⟩
    exact ⟨k, hk, rfl⟩

/-- C143. The RSA types take exactly the files with an `RSAPrivateKey`, bare or in PKCS #8, of version 0, whose numbers pass the checks. -/
theorem C143_taken (h : RingRsaFiles num salt) (he : e ∈ ringTable) (hne : e.name ≠ str% "ecdsa-p256-sha256") (der : Bytes) :
    (∃ s, RsaSigner e pkcs8 der s) ↔ ∃ N, RsaKeyFile pkcs8 N der ∧ N.Taken ∧ der.length < 65540 := by
  constructor
  · rintro ⟨s, hs⟩
    obtain ⟨k, K, _, _, hr, _⟩ := (rsaSigner_iff h he hne).1 hs
    obtain ⟨N, h1, h2, h3, _⟩ := Rsa.read_iff.1 hr
    exact ⟨N, h1, h2, h3⟩
  · rintro ⟨N, h1, h2, h3⟩
    have hr := Rsa.read_iff.2 ⟨N, h1, h2, h3, rfl⟩
    have hm : (if pkcs8 then Deps.ringPkcs8 .rsa der else Deps.ringPkcs1 der).map num = (Rsa.read pkcs8 der).map some := by
      cases pkcs8
      · exact h.pkcs1 der
      · exact h.pkcs8 der
    rw [hr, Option.map_some] at hm
    obtain ⟨k, hk, hn⟩ := Option.map_eq_some_iff.1 hm
    exact ⟨_, (rsaSigner_iff h he hne).2 ⟨k, _, hk, hn, hr, rfl⟩⟩

theorem padded_lt (h : RingRsa priv salt) {n : Nat} (hn : 2 ^ 2040 ≤ n) (prim : Primitive) (rnd : Nat) (m : Bytes) :
    Der.ofBytes (Rsa.padded prim n (salt rnd) m) < n := by
  have h256 := (Rsa.size_2048 n).2 hn
  have n0 : n ≠ 0 := by
    rintro rfl
    exact absurd h256 (by decide)
  unfold Rsa.padded
  split
  · exact Rsa.emsa_lt n0 (by rw [h.size256]; change 19 + 32 + 3 ≤ _; omega)
  · exact Rsa.emsa_lt n0 (by rw [h.toRealRsa.size512]; change 19 + 64 + 3 ≤ _; omega)
  · have hl := Pss.large (n := n) (Nat.le_trans (by decide +kernel) hn)
    exact Nat.lt_of_lt_of_le (Pss.encode_lt h.toRealRsa.size512 (by decide) (by rw [h.salts]; omega) m) (Nat.log2_self_le n0)

theorem httpSign_iff {prim : Primitive} {K : Rsa.PrivateKey} {rnd : Nat} {m : Bytes} {s : Str} :
    Rsa.httpSign prim K salt rnd m = .ok s ↔ ∃ t, Rsa.signBlock K (Rsa.padded prim K.n (salt rnd) m) = some t ∧ s = encode t := by
  unfold Rsa.httpSign
  split
  · rename_i t ht
    rw [ht]
    constructor
    · intro h; cases h; exact ⟨t, rfl, rfl⟩
    · rintro ⟨t', h, rfl⟩; cases h; rfl
  · rename_i hn
    rw [hn]
    constructor
    · intro h; cases h
    · rintro ⟨_, h, _⟩; cases h

theorem httpSign_only {prim : Primitive} {K : Rsa.PrivateKey} {rnd : Nat} {m : Bytes} {p : Panic}
    (h : Rsa.httpSign prim K salt rnd m = .error p) : p = .ringSign := by
  unfold Rsa.httpSign at h
  split at h
  · cases h
  · cases h; rfl

theorem httpSign_panics {prim : Primitive} {K : Rsa.PrivateKey} {rnd : Nat} {m : Bytes} :
    Rsa.httpSign prim K salt rnd m = .error .ringSign ↔ ¬ ∃ s, Rsa.httpSign prim K salt rnd m = .ok s := by
  cases hs : Rsa.httpSign prim K salt rnd m with
  | ok s => exact ⟨fun h => (nomatch h), fun h => absurd ⟨s, rfl⟩ h⟩
  | error p =>
    obtain rfl := httpSign_only hs
    exact ⟨fun _ ⟨_, h⟩ => (nomatch h), fun _ => rfl⟩

/-- C143. Whatever the file says about primes and exponents: if signing returns, the signature is accepted with the public key that has the
modulus and the public exponent of the file. -/
theorem C143_signatures (h : RingRsa priv salt) (he : e ∈ ringTable) (hne : e.name ≠ str% "ecdsa-p256-sha256") (N : RsaNumbers)
    (K : Rsa.PrivateKey) (der pk : Bytes) (hf : RsaKeyFile pkcs8 N der) (hr : Rsa.read pkcs8 der = some K) (hpk : RsaPublicDer N.n N.e pk)
    (rnd : Nat) (m : Bytes) (s : Str) (hs : Rsa.httpSign e.signWith K salt rnd m = .ok s) :
    (e.verifier pk).verify m s = true := by
  obtain ⟨N', hf', hT, _, rfl⟩ := Rsa.read_iff.1 hr
  obtain rfl := rsaKeyFile_det hf hf'
  obtain ⟨kn, ke, _⟩ := Rsa.taken_key hT
  obtain ⟨hsz, _⟩ := Rsa.taken_sizes hT
  obtain ⟨t, ht, rfl⟩ := httpSign_iff.1 hs
  obtain ⟨h1, h2, h3⟩ := Rsa.signBlock_iff.1 ht
  rw [kn, ke] at h2
  rw [kn] at h1 h3
  have n0 : N.n ≠ 0 := by have := hsz.1; omega
  have hx : Rsa.crt N.key (Der.ofBytes (Rsa.padded e.signWith N.n (salt rnd) m)) < N.n := by
    have := Rsa.crt_lt (K := N.key) (by rw [kn]; exact n0) (Der.ofBytes (Rsa.padded e.signWith N.n (salt rnd) m))
    rwa [kn] at this
  have hlen : t.length = Rsa.size N.n := by rw [h3, Rsa.toBytes_length]
  have hval : bigEndian t = Rsa.crt N.key (Der.ofBytes (Rsa.padded e.signWith N.n (salt rnd) m)) := by
    rw [h3, ← Der.ofBytes_eq, Rsa.ofBytes_toBytes, Nat.mod_eq_of_lt (Nat.lt_trans hx (Rsa.lt_size _))]
  obtain ⟨g1, g2⟩ := (Rsa.size_iff (n := N.n) (k := t.length) n0 (by rw [hlen]; exact Nat.succ_pos _)).2 hlen
  have hlt : bigEndian t < N.n := by rw [hval]; exact hx
  have hpow : bigEndian t ^ N.e % N.n = bigEndian (Rsa.padded e.signWith N.n (salt rnd) m) := by
    rw [hval, h2, Der.ofBytes_eq]
  have hb : IsBase64 (encode t) t := isBase64_iff.2 rfl
  have h256 := (Rsa.size_2048 N.n).2 hsz.2.1
  simp only [ringTable, List.mem_cons, List.not_mem_nil, or_false] at he
  rcases he with rfl | rfl | rfl | rfl | rfl
  · exact (C140_accepted h .sha256 _ m _).2 ⟨_, _, t, _, hpk, hsz, hb, g1, g2, hlt,
      (Rsa.pkcs1Block_iff (hash := Deps.sha256) (fun _ => Rsa.digestInfo_256 (h.size256 m))
        (by rw [h.size256, hlen]; change 19 + 32 + 11 ≤ _; omega)).2 (by rw [hlen]; rfl), hpow⟩
  · exact (C140_accepted h .sha512 _ m _).2 ⟨_, _, t, _, hpk, hsz, hb, g1, g2, hlt,
      (Rsa.pkcs1Block_iff (hash := Deps.sha512) (fun _ => Rsa.digestInfo_512 (h.toRealRsa.size512 m))
        (by rw [h.toRealRsa.size512, hlen]; change 19 + 64 + 11 ≤ _; omega)).2 (by rw [hlen]; rfl), hpow⟩
  · exact (C140_accepted_pss h _ m _).2 ⟨_, _, t, salt rnd, hpk, hsz, hb, g1, g2, hlt, h.salts rnd, hpow⟩
  · exact (C140_accepted_pss h _ m _).2 ⟨_, _, t, salt rnd, hpk, hsz, hb, g1, g2, hlt, h.salts rnd, hpow⟩
  · exact absurd rfl hne

/-- When signing with the key of a file returns, and what. -/
theorem httpSign_value (h : RingRsa priv salt) {N : RsaNumbers} {d : Nat} (hT : N.Taken) (hk : RsaKey N.n N.e d) (prim : Primitive) (rnd : Nat)
    (m : Bytes) (s : Str) : Rsa.httpSign prim N.key salt rnd m = .ok s ↔
      Rsa.crt N.key (bigEndian (Rsa.padded prim N.n (salt rnd) m)) = bigEndian (Rsa.padded prim N.n (salt rnd) m) ^ d % N.n ∧
      s = encode (Rsa.toBytes (Rsa.size N.n) (bigEndian (Rsa.padded prim N.n (salt rnd) m) ^ d % N.n)) := by
  obtain ⟨kn, ke, _⟩ := Rsa.taken_key hT
  obtain ⟨hsz, _⟩ := Rsa.taken_sizes hT
  have n0 : N.n ≠ 0 := by have := hsz.1; omega
  have hc := padded_lt h hsz.2.1 prim rnd m
  rw [Der.ofBytes_eq] at hc
  rw [httpSign_iff]
  simp only [Rsa.signBlock_iff, kn, ke, Der.ofBytes_eq]
  generalize bigEndian (Rsa.padded prim N.n (salt rnd) m) = c at hc
  have hx : Rsa.crt N.key c < N.n := by
    have := Rsa.crt_lt (K := N.key) (by rw [kn]; exact n0) c
    rwa [kn] at this
  constructor
  · rintro ⟨t, ⟨_, h2, rfl⟩, rfl⟩
    have : Rsa.crt N.key c = c ^ d % N.n := by
      have := (rsa_inverse hk hx).2
      rw [h2] at this
      exact this.symm
    rw [this]
    exact ⟨rfl, rfl⟩
  · rintro ⟨h1, rfl⟩
    refine ⟨_, ⟨hc, ?_, rfl⟩, by rw [h1]⟩
    rw [h1]
    exact (rsa_inverse hk hc).1

theorem padded_pkcs1 {prim : Primitive} {hash : Bytes → Bytes} (hp : Pkcs1 prim hash) (n : Nat) (x m : Bytes) :
    Rsa.padded prim n x m = Rsa.emsa (infoOf prim) hash (Rsa.size n) m := by
  cases hp <;> rfl

/-- C143. If signing returns, the signature is that of RFC 8017 with the private exponent that belongs to the modulus and the public exponent,
whatever the file says about it: the only one for the PKCS#1 v1.5 types, and the one with the salt that was drawn for PSS. -/
theorem C143_value (h : RingRsa priv salt) (N : RsaNumbers) (d : Nat) (K : Rsa.PrivateKey) (der : Bytes) (hf : RsaKeyFile pkcs8 N der)
    (hr : Rsa.read pkcs8 der = some K) (hk : RsaKey N.n N.e d) (rnd : Nat) (m : Bytes) (s : Str) :
    (∀ prim hash, Pkcs1 prim hash → Rsa.httpSign prim K salt rnd m = .ok s → s = encode (Rsa.signature (infoOf prim) hash N.n d m)) ∧
    (Rsa.httpSign .rsaPssSha512 K salt rnd m = .ok s → s = encode (Pss.signature Deps.sha512 64 N.n d (salt rnd) m)) := by
  obtain ⟨N', hf', hT, _, rfl⟩ := Rsa.read_iff.1 hr
  obtain rfl := rsaKeyFile_det hf hf'
  constructor
  · intro prim hash hp hs
    have := ((httpSign_value h hT hk prim rnd m s).1 hs).2
    rwa [padded_pkcs1 hp, ← Der.ofBytes_eq] at this
  · intro hs
    have := ((httpSign_value h hT hk .rsaPssSha512 rnd m s).1 hs).2
    rwa [← Der.ofBytes_eq] at this

/-- C143. When signing panics, with primes in the file: exactly if one of the two exponents in the file gives another result for the padded
hash, modulo its prime, than the private exponent. -/
theorem C143_panics (h : RingRsa priv salt) (N : RsaNumbers) (d : Nat) (K : Rsa.PrivateKey) (der : Bytes) (hf : RsaKeyFile pkcs8 N der)
    (hr : Rsa.read pkcs8 der = some K) (hk : RsaKey N.n N.e d) (hp : IsPrime N.p) (hq : IsPrime N.q) (prim : Primitive) (rnd : Nat) (m : Bytes)
    (c : Nat) (hc : c = bigEndian (Rsa.padded prim N.n (salt rnd) m)) :
    Rsa.httpSign prim K salt rnd m = .error .ringSign ↔ c ^ N.dP % N.p ≠ c ^ d % N.p ∨ c ^ N.dQ % N.q ≠ c ^ d % N.q := by
  obtain ⟨N', hf', hT, _, rfl⟩ := Rsa.read_iff.1 hr
  obtain rfl := rsaKeyFile_det hf hf'
  have hpq := Rsa.taken_product hT hp hq
  obtain ⟨kn, ke, k1, k2, k3, k4⟩ := Rsa.taken_key hT
  rw [isPrime_iff] at hp hq
  have hne : N.p ≠ N.q := by
    rcases k4 with ⟨e1, e2, _⟩ | ⟨e1, e2, _⟩ <;> omega
  have hco := (Nat.coprime_primes hp hq).2 hne
  have hkn : N.key.n = N.key.p * N.key.q := by
    rcases k4 with ⟨e1, e2, _⟩ | ⟨e1, e2, _⟩
    · rw [kn, hpq, e1, e2]
    · rw [kn, hpq, e1, e2, Nat.mul_comm]
  have hn0 : 0 < N.n := by rw [hpq]; exact Nat.mul_pos hp.pos hq.pos
  have hmod : Rsa.crt N.key c ≡ c ^ N.dP [MOD N.p] ∧ Rsa.crt N.key c ≡ c ^ N.dQ [MOD N.q] := by
    have := Rsa.crt_mod k1 k3 hkn k2 c
    rcases k4 with ⟨e1, e2, e3, e4⟩ | ⟨e1, e2, e3, e4⟩
    · rwa [e1, e2, e3, e4] at this
    · rw [e1, e2, e3, e4] at this
      exact ⟨this.2, this.1⟩
  have hx : Rsa.crt N.key c < N.n := by
    have := Rsa.crt_lt (K := N.key) (by rw [kn]; omega) c
    rwa [kn] at this
  rw [httpSign_panics, ← not_and_or, not_iff_not]
  simp only [httpSign_value h hT hk, ← hc, exists_and_left, exists_eq, and_true]
  constructor
  · intro he
    have hd : Rsa.crt N.key c ≡ c ^ d [MOD N.p * N.q] := by rw [he, ← hpq]; exact Nat.mod_modEq _ _
    exact ⟨(hmod.1.symm.trans (hd.of_mul_right _)), (hmod.2.symm.trans (hd.of_mul_left _))⟩
  · rintro ⟨h1, h2⟩
    have := (Nat.modEq_and_modEq_iff_modEq_mul hco).1 ⟨hmod.1.trans h1, hmod.2.trans h2⟩
    rw [← hpq, Nat.ModEq, Nat.mod_eq_of_lt hx] at this
    exact this

/-- C143. With a file whose numbers are those of an RSA key, signing never panics. -/
theorem C143_fit (h : RingRsa priv salt) (N : RsaNumbers) (d : Nat) (K : Rsa.PrivateKey) (der : Bytes) (hf : RsaKeyFile pkcs8 N der)
    (hr : Rsa.read pkcs8 der = some K) (hk : N.Fit d) (prim : Primitive) (rnd : Nat) (m : Bytes) : ∃ s, Rsa.httpSign prim K salt rnd m = .ok s := by
  obtain ⟨hk, hp, hq, h1, h2⟩ := hk
  by_contra hno
  obtain ⟨N', hf', hT, _, _⟩ := Rsa.read_iff.1 hr
  obtain rfl := rsaKeyFile_det hf hf'
  have hpq := Rsa.taken_product hT hp hq
  have hbad := (C143_panics h N d K der hf hr hk hp hq prim rnd m _ rfl).1 (httpSign_panics.2 hno)
  have hlt := padded_lt h (Rsa.taken_sizes hT).1.2.1 prim rnd m
  rw [Der.ofBytes_eq] at hlt
  generalize bigEndian (Rsa.padded prim N.n (salt rnd) m) = c at hbad hlt
  have hy : (c ^ d % N.n) ^ N.e ≡ c [MOD N.n] := by
    rw [Nat.ModEq, (rsa_inverse hk hlt).1, Nat.mod_eq_of_lt hlt]
  rw [hpq] at hy
  rw [isPrime_iff] at hp hq
  have key : ∀ r x, Nat.Prime r → N.e * x % (r - 1) = 1 → (c ^ d % (N.p * N.q)) ^ N.e ≡ c [MOD r] → c ^ d % (N.p * N.q) ≡ c ^ d [MOD r] →
      c ^ x % r = c ^ d % r := by
    intro r x hr hx hy hm
    have h1 : 1 % (r - 1) = 1 := by
      rcases Nat.lt_or_ge 1 (r - 1) with h | h
      · exact Nat.mod_eq_of_lt h
      · have h2 := hr.two_le
        have h3 : r - 1 = 1 := by omega
        rw [h3, Nat.mod_one] at hx
        cases hx
    have hpos : 0 < N.e * x := by
      rcases Nat.eq_zero_or_pos (N.e * x) with h0 | h0
      · rw [h0, Nat.zero_mod] at hx; cases hx
      · exact h0
    have e1 := pow_mod_prime hr (hx.trans h1.symm) hpos (c ^ d % (N.p * N.q))
    rw [Nat.pow_mul] at e1
    exact ((hy.pow x).symm.trans e1).trans hm
  rcases hbad with hb | hb
  · exact hb (key N.p N.dP hp h1 (hy.of_mul_right _) ((Nat.mod_modEq _ _).of_mul_right _))
  · exact hb (key N.q N.dQ hq h2 (hy.of_mul_left _) ((Nat.mod_modEq _ _).of_mul_left _))

/-- C143. Key pairs: with a file whose numbers are those of an RSA key, every signature is accepted with the public key that has the same
modulus and public exponent, in whatever kind of file it is. -/
theorem C143_pair (h : RingRsaFiles num salt) (he : e ∈ ringTable) (hne : e.name ≠ str% "ecdsa-p256-sha256") (N : RsaNumbers) (d : Nat)
    (der pk : Bytes) (s : HttpSignatureSign) (v : HttpSignatureVerify) (hf : RsaKeyFile pkcs8 N der) (hk : N.Fit d) (hs : RsaSigner e pkcs8 der s)
    (hpk : RsaPublicDer N.n N.e pk)
    (hv : Ring.verifyPkcs1Der e pk = some v ∨ ∃ spki oid params unused, Spki oid params unused pk spki ∧ Ring.verifySpkiDer e spki = some v)
    (rnd : Nat) (m : Bytes) : v.verify m (s.sign rnd m) = true := by
  obtain ⟨k, K, _, hn, hr, rfl⟩ := (rsaSigner_iff h he hne).1 hs
  obtain ⟨_, hw, hp⟩ := rsaSigned_keyType he hne
  obtain ⟨t, ht⟩ := C143_fit h.toRingRsa N d K der hf hr hk e.signWith rnd m
  have hval : (e.signer k).sign rnd m = t := h.signs _ _ _ _ _ _ hp hn ht
  rw [hval]
  have hv' : v = e.verifier pk := by
    rcases hv with hv | ⟨spki, oid, params, unused, hb, hv⟩
    · exact (Option.some.inj hv).symm
    · obtain ⟨oid', params', unused', key, hb', _, _, _, _, rfl⟩ := (C56_spki_exact e spki v).1 hv
      obtain ⟨o, alg, a, bits, _, _, h3, h4, h5⟩ := hb
      obtain ⟨o', alg', a', bits', _, _, h3', h4', h5'⟩ := hb'
      obtain ⟨_, e2⟩ := derValue_front h3 h3' (derValue_whole h5 h5')
      rw [e2] at h4
      rw [(List.cons.inj (derValue_whole h4 h4')).2]
  rw [hv']
  exact C143_signatures h.toRingRsa he hne N K der pk hf hr hpk rnd m t ht

omit [Deps] in
/-- C143. The private exponent in the file makes no difference, and with it nothing that is derived from it. -/
theorem C143_exponent_unused (b b' : Bool) (N : RsaNumbers) (d' : Nat) (K K' : Rsa.PrivateKey) (der der' : Bytes) (hf : RsaKeyFile b N der)
    (hf' : RsaKeyFile b' { N with d := d' } der') (hr : Rsa.read b der = some K) (hr' : Rsa.read b' der' = some K') : K = K' := by
  obtain ⟨N1, h1, _, _, rfl⟩ := Rsa.read_iff.1 hr
  obtain ⟨N2, h2, _, _, rfl⟩ := Rsa.read_iff.1 hr'
  rw [← rsaKeyFile_det hf h1, ← rsaKeyFile_det hf' h2]
  rfl

/-- C143. What is not taken: a file of the one kind as one of the other; another version, as of keys with more than two primes; a key on
P-256; a modulus below 2^2046 or from 2^4096 on; a public exponent below 65537, although signatures are verified with those from 3 on. -/
theorem C143_refused (h : RingRsaFiles num salt) (he : e ∈ ringTable) (hne : e.name ≠ str% "ecdsa-p256-sha256") (der : Bytes) :
    (∀ version N, RsaPrivateDer version N der → ∀ s, ¬ RsaSigner e true der s) ∧
    (∀ version key attrs, RsaPrivateInfo version key attrs der → ∀ s, ¬ RsaSigner e false der s) ∧
    (∀ version N, RsaPrivateDer version N der → version ≠ 0 → ∀ s, ¬ RsaSigner e false der s) ∧
    (∀ version key attrs, RsaPrivateInfo version key attrs der → version ≠ 0 → ∀ s, ¬ RsaSigner e true der s) ∧
    (∀ version key attrs, EcPrivateInfo version key attrs der → ∀ s, ¬ RsaSigner e true der s) ∧
    (∀ N b, RsaKeyFile b N der → N.n < 2 ^ 2046 ∨ 2 ^ 4096 ≤ N.n ∨ N.e < 65537 → ∀ s, ¬ RsaSigner e b der s) := by
  have file : ∀ {b s}, RsaSigner e b der s → ∃ N, RsaKeyFile b N der ∧ N.Taken := fun {b s} hs => by
    obtain ⟨N, h1, h2, _⟩ := (C143_taken h he hne der).1 ⟨s, hs⟩
    exact ⟨N, h1, h2⟩
  refine ⟨fun v N hd s hs => ?_, fun v key attrs hi s hs => ?_, fun v N hd hv s hs => ?_, fun v key attrs hi hv s hs => ?_,
    fun v key attrs hi s hs => ?_, fun N b hf hb s hs => ?_⟩
  · obtain ⟨N', ⟨_, _, _, _, hi⟩, _⟩ := file hs
    exact rsa_kinds hd hi
  · obtain ⟨N', hd, _⟩ := file hs
    exact rsa_kinds hd hi
  · obtain ⟨N', hd', _⟩ := file hs
    exact hv (rsaPrivateDer_det hd hd').1
  · obtain ⟨N', ⟨_, _, _, _, hi'⟩, _⟩ := file hs
    exact hv (rsaPrivateInfo_det hi hi').1
  · obtain ⟨N', ⟨_, _, _, _, hi'⟩, _⟩ := file hs
    obtain ⟨v, a, k, h1, h2, h3, h4⟩ := P256.ecPrivateInfo_iff.1 hi
    obtain ⟨v', a', k', h1', h2', h3', h4'⟩ := Rsa.rsaPrivateInfo_iff.1 hi'
    have e := derValue_whole h4 h4'
    simp only [List.append_assoc] at e
    obtain ⟨_, e⟩ := derValue_front h1 h1' e
    exact absurd (derValue_front h2 h2' e).1 (by decide)
  · obtain ⟨N', hf', hT⟩ := file hs
    obtain rfl := rsaKeyFile_det hf hf'
    obtain ⟨_, g1, g2⟩ := Rsa.taken_sizes hT
    have g3 := hT.exponent.1
    rcases hb with hb | hb | hb
    · exact absurd g1 (Nat.not_le.2 hb)
    · exact absurd g2 (Nat.not_lt.2 hb)
    · exact absurd g3 (Nat.not_le.2 hb)

/-- C143. For requests: when the key of a file is used, either signing panics, or it is the signing with a signature that the public key
accepts on the signature base. -/
theorem C143_requests {R : Type} [ClientRequestLike R] [LawfulClient R] (h : RingRsa priv salt) (he : e ∈ ringTable)
    (hne : e.name ≠ str% "ecdsa-p256-sha256") (N : RsaNumbers) (K : Rsa.PrivateKey) (der : Bytes) (hf : RsaKeyFile pkcs8 N der)
    (hr : Rsa.read pkcs8 der = some K) (r : R) (config : SigningConfig) (env : SignEnv) (base : Bytes) (hu : UsesKey r config env base) :
    (signMay (Rsa.httpSign e.signWith K salt) r config env).result = .error .ringSign ∨
    ∃ s, signMay (Rsa.httpSign e.signWith K salt) r config env = signCalled r (config.giving s) env ∧
      ∀ pk, RsaPublicDer N.n N.e pk → (e.verifier pk).verify base s = true := by
  cases hs : Rsa.httpSign e.signWith K salt env.rnd base with
  | ok s => exact .inr ⟨s, C141_returns _ r config env base s hu hs, fun pk hpk => C143_signatures h he hne N K der pk hf hr hpk env.rnd base s hs⟩
  | error p =>
    left
    have hp := httpSign_only hs
    exact (C141_panics _ r config env _).2 (.inr ⟨base, hu, by rw [hs, hp]⟩)

end
/-! ### Examples -/

/-- Two primes of 1024 bits, and the exponents that belong to them. -/
def exPrimeP : Nat := 0xc01000000000000000000000000000000000000000000000000000000000000000000000000000000000000000000000000000000000000000000000000787ffff9ff7fffffffffffffffffffffffffffffffffffffffffffffffffffffffffffffffffffffffffffffffffffffffffffffffffffffffffffffffffffffffc3d
def exPrimeQ : Nat := 0xc00000000000000000000000000000000000000000000000000000000000000000000000000000000000000000000000000000000000000000000000000667ffff9ffffffffffffffffffffffffffffffffffffffffffffffffffffffffffffffffffffffffffffffffffffffffffffffffffffffffffffffffffffffffffccd
def exNumbers : RsaNumbers where
  n := exPrimeP * exPrimeQ
  e := 65537
  d := 0x8206b3014cfeb3014cfeb3014cfeb3014cfeb3014cfeb3014cfeb3014cfeb3014cfeb3014cfeb3014cfeb3014cfeb3014cfeb3014cfeb3014cfeb3014d0822e65ae69de45a1ba5e45a1ba5e45a1ba5e45a1ba5e45a1ba5e45a1ba5e45a1ba5e45a1ba5e45a1ba5e45a1ba5e45a1ba5e45a1ba5e45a1ba5e45a1ba60fe7283ee7d299fee7ce5a31a5ce5a31a5ce5a31a5ce5a31a5ce5a31a5ce5a31a5ce5a31a5ce5a31a5ce5a31a5ce5a31a5ce5a31a5ce5a31a5ce5a31a5ce5a31a5a2cd2505b6f5e89dd762289dd762289dd762289dd762289dd762289dd762289dd762289dd762289dd762289dd762289dd762289dd762289dd762289dd762289dd76d0be1
  p := exPrimeP
  q := exPrimeQ
  dP := 0x9a017a6e85917a6e85917a6e85917a6e85917a6e85917a6e85917a6e85917a6e85917a6e85917a6e85917a6e85917a6e85917a6e85917a6e85917a6e85978467334bcba9fc5603a9fc5603a9fc5603a9fc5603a9fc5603a9fc5603a9fc5603a9fc5603a9fc5603a9fc5603a9fc5603a9fc5603a9fc5603a9fc5603a9fc5600a5
  dQ := 0x5681a97e5681a97e5681a97e5681a97e5681a97e5681a97e5681a97e5681a97e5681a97e5681a97e5681a97e5681a97e5681a97e5681a97e5681a97e56848c67336d8b92746d8b92746d8b92746d8b92746d8b92746d8b92746d8b92746d8b92746d8b92746d8b92746d8b92746d8b92746d8b92746d8b92746d8b92746d8a21
  qInv := 0xb52196b6fe2c6221bc5a83c841b4d20961adc870d0888c14a4234b6dc9f7b8a58945e70d78be18b4b55cbd112e6a8fea5687a595df080e40746f18b2723b15ab902aaaef11444fc780c57f938df238e9d5d6f929ff63941d042dc0866af73c1526dc43e99a728f8cb2938177e3668f09cb60f08d1e9e6d9d23acb259969d9044

/-- The same key with the primes in the other order, and an inverse that is wrong. -/
def exSwapped : RsaNumbers := { exNumbers with p := exPrimeQ, q := exPrimeP, dP := exNumbers.dQ, dQ := exNumbers.dP, qInv := 1 }

/-- The same key with a wrong exponent. -/
def exBadNumbers : RsaNumbers := { exNumbers with dP := 1 }

theorem exMersenne : Nat.Prime (2 ^ 521 - 1) := lucas_lehmer_sufficiency _ (by simp) (by norm_num)

theorem exPrimeP_prime : IsPrime exPrimeP :=
  isPrime_iff.2 (Rsa.pocklington (f := 2 ^ 521 - 1) (a := 2) (h := 0x6008000000000000000000000000000000000000000000000000000000000000000000000000000000000000000000000000000000000000000000000003c4)
    (b := 0x9f3354dcc2b53d4b0fa232514f38d09ce3d3c146722bdb26d2a76f0b153bbe96df3a03bc2afdff104a45c47917e2a20e80df4efe2ec2085b8700f5eba34a99d5f06becfccf2886cc06baa9f748bb0cc7d4a88a5823fcea64b4e7951fd938f0b36fb630bdbb1ea2ac1616b994aa259f67425f158eb9db32d26c8a3eeb1afddbcd)
    (by decide +kernel) exMersenne (by decide +kernel) (by decide +kernel) (by decide +kernel) (by decide +kernel))

theorem exPrimeQ_prime : IsPrime exPrimeQ :=
  isPrime_iff.2 (Rsa.pocklington (f := 2 ^ 521 - 1) (a := 2) (h := 0x600000000000000000000000000000000000000000000000000000000000000000000000000000000000000000000000000000000000000000000000000334)
    (b := 0x664436db0f3f393ea2e32bfe71d5489a4441c94b928f90587da8d91dc106235d0ea4f2f13412cd4a5398cda521f5e33371b5e9c0e97817cc34286ea6059cd1249560c8764c85306997f31e99b10e82daf4933de5c5f9a59e146f8e7b1cdc94444da5dd24624ef16ceb2b321f65af4644977972d9985e2b72863b9346c4313880)
    (by decide +kernel) exMersenne (by decide +kernel) (by decide +kernel) (by decide +kernel) (by decide +kernel))

theorem exNumbers_key : RsaKey exNumbers.n exNumbers.e exNumbers.d :=
  ⟨⟨exPrimeP, exPrimeQ, exPrimeP_prime, exPrimeQ_prime, by decide +kernel, rfl, by decide +kernel, by decide +kernel⟩, by decide +kernel⟩

theorem exNumbers_fit : exNumbers.Fit exNumbers.d :=
  ⟨exNumbers_key, exPrimeP_prime, exPrimeQ_prime, by decide +kernel, by decide +kernel⟩

theorem exNumbers_taken : exNumbers.Taken where
  sizes := ⟨1024, .inl rfl, by decide +kernel, by decide +kernel, by decide +kernel, by decide +kernel, by decide +kernel, by decide +kernel,
    by decide +kernel⟩
  odd := by decide +kernel
  exponent := by decide +kernel
  below := by decide +kernel
  product := Nat.dvd_refl _
  inverse := .inl (by decide +kernel)

/-- `RsaNumbers.Taken` for the primes in the other order, for evaluation. -/
theorem exTaken {N : RsaNumbers} (h : ∃ k, (k = 1024 ∨ k = 1536 ∨ k = 2048) ∧ 2 ^ (k - 1) ≤ N.p ∧ N.p < 2 ^ k ∧ 2 ^ (k - 1) ≤ N.q ∧ N.q < 2 ^ k ∧
      2 ^ (2 * k - 2) ≤ N.n ∧ N.n < 2 ^ (2 * k) ∧ 2 ^ k ≤ N.d)
    (ho : ∀ x ∈ [N.n, N.e, N.d, N.p, N.q, N.dP, N.dQ], x % 2 = 1) (he : 65537 ≤ N.e ∧ N.e < 2 ^ 33) (hb : N.d < N.n ∧ N.dP < N.p ∧ N.dQ < N.q)
    (hp : N.p * N.q % N.n = 0) (hi : N.p < N.q ∧ 0 < N.qInv ∧ Rsa.powMod N.q N.p (N.q - 1) = 1) : N.Taken :=
  ⟨h, ho, he, hb, Nat.dvd_of_mod_eq_zero hp, .inr ⟨hi.1, hi.2.1, (Rsa.powMod_eq _ _ _).symm.trans hi.2.2⟩⟩

theorem exSwapped_taken : exSwapped.Taken :=
  exTaken ⟨1024, .inl rfl, by decide +kernel, by decide +kernel, by decide +kernel, by decide +kernel, by decide +kernel, by decide +kernel,
    by decide +kernel⟩ (by decide +kernel) (by decide +kernel) (by decide +kernel) (by decide +kernel) (by decide +kernel)

theorem exBadNumbers_taken : exBadNumbers.Taken where
  sizes := exNumbers_taken.sizes
  odd := by decide +kernel
  exponent := by decide +kernel
  below := by decide +kernel
  product := Nat.dvd_refl _
  inverse := .inl (by decide +kernel)

/-- DER, for the examples. -/
def exTlv (tag : UInt8) (c : Bytes) : Bytes :=
  if c.length < 128 then tag :: UInt8.ofNat c.length :: c
  else if c.length < 256 then tag :: 0x81 :: UInt8.ofNat c.length :: c
  else tag :: 0x82 :: UInt8.ofNat (c.length / 256) :: UInt8.ofNat (c.length % 256) :: c

def exInteger (x : Nat) : Bytes := exTlv 0x02 (Rsa.toBytes ((x.log2 + 1) / 8 + 1) x)

/-- An `RSAPrivateKey`. -/
def exPkcs1 (N : RsaNumbers) : Bytes :=
  exTlv 0x30 ([0x02, 0x01, 0x00] ++ exInteger N.n ++ exInteger N.e ++ exInteger N.d ++ exInteger N.p ++ exInteger N.q ++ exInteger N.dP ++
    exInteger N.dQ ++ exInteger N.qInv)

/-- The same in PKCS #8. -/
def exPkcs8 (N : RsaNumbers) : Bytes := exTlv 0x30 ([0x02, 0x01, 0x00] ++ exTlv 0x30 Rsa.algId ++ exTlv 0x04 (exPkcs1 N))

theorem exTlv_der (tag : UInt8) {c : Bytes} (h : c.length < 65536) : DerValue tag c (exTlv tag c) := by
  have small : ∀ n, n < 256 → (UInt8.ofNat n).toNat = n := fun n h => by rw [UInt8.toNat_ofNat']; exact Nat.mod_eq_of_lt h
  unfold exTlv
  split
  · exact ⟨_, .inl ⟨by assumption, rfl⟩, rfl⟩
  · split
    · refine ⟨[0x81, UInt8.ofNat c.length], .inr ⟨by omega, by omega, UInt8.ofNat c.length, [], ?_, by decide, ?_, rfl⟩, rfl⟩
      · intro h0
        have := congrArg UInt8.toNat h0
        rw [small _ (by omega)] at this
        change c.length = 0 at this
        omega
      · show (UInt8.ofNat c.length).toNat * 256 ^ 0 + 0 = c.length
        rw [small _ (by omega)]
        omega
    · refine ⟨[0x82, UInt8.ofNat (c.length / 256), UInt8.ofNat (c.length % 256)], .inr ⟨by omega, by omega, UInt8.ofNat (c.length / 256),
        [UInt8.ofNat (c.length % 256)], ?_, by simp, ?_, rfl⟩, rfl⟩
      · intro h0
        have := congrArg UInt8.toNat h0
        rw [small _ (by omega)] at this
        change c.length / 256 = 0 at this
        omega
      · show (UInt8.ofNat (c.length / 256)).toNat * 256 ^ 1 + ((UInt8.ofNat (c.length % 256)).toNat * 256 ^ 0 + 0) = c.length
        rw [small _ (by omega), small _ (by omega)]
        omega

theorem exInteger_der {x : Nat} (h : P256.readInt (exInteger x) = some (x, [])) : DerNat x (exInteger x) := by
  obtain ⟨v, hv, e⟩ := P256.readInt_iff.1 h
  rw [List.append_nil] at e
  rwa [e]

theorem exRsaFile {N : RsaNumbers} (h : ∀ x ∈ [N.n, N.e, N.d, N.p, N.q, N.dP, N.dQ, N.qInv], P256.readInt (exInteger x) = some (x, []))
    (hl : (exPkcs1 N).length < 65000 ∧ (exPkcs8 N).length < 65540) (b : Bool) : RsaKeyFile b N (if b then exPkcs8 N else exPkcs1 N) := by
  simp only [List.mem_cons, List.not_mem_nil, or_false, forall_eq_or_imp, forall_eq] at h
  obtain ⟨h1, h2, h3, h4, h5, h6, h7, h8⟩ := h
  have e : ∀ (tag : UInt8) (c F : Bytes), F = exTlv tag c → F.length < 65540 → DerValue tag c F := fun tag c F hc hF => by
    subst hc
    refine exTlv_der _ ?_
    by_contra h
    unfold exTlv at hF
    rw [if_neg (by omega), if_neg (by omega)] at hF
    simp only [List.length_cons] at hF
    omega
  have hd : RsaPrivateDer 0 N (exPkcs1 N) :=
    ⟨[0x02, 0x01, 0x00], exInteger N.n, exInteger N.e, exInteger N.d, exInteger N.p, exInteger N.q, exInteger N.dP, exInteger N.dQ, exInteger N.qInv,
      (Rsa.derValue_small (by decide)).2 rfl, exInteger_der h1, exInteger_der h2, exInteger_der h3, exInteger_der h4,
      exInteger_der h5, exInteger_der h6, exInteger_der h7, exInteger_der h8, e _ _ _ (by unfold exPkcs1; rfl) (Nat.lt_trans hl.1 (by decide))⟩
  cases b
  · simp only [RsaKeyFile, Bool.false_eq_true, if_false]
    exact hd
  · simp only [RsaKeyFile, if_true]
    refine ⟨exPkcs1 N, [], hd, .inl rfl, Rsa.rsaPrivateInfo_iff.2 ⟨[0x02, 0x01, 0x00], exTlv 0x30 Rsa.algId, exTlv 0x04 (exPkcs1 N),
      (Rsa.derValue_small (by decide)).2 rfl, exTlv_der _ (by decide), exTlv_der _ (Nat.lt_trans hl.1 (by decide)), ?_⟩⟩
    rw [List.append_nil]
    exact e _ _ _ (by unfold exPkcs8; rfl) hl.2

theorem exFiles {N : RsaNumbers} (h : ∀ x ∈ [N.n, N.e, N.d, N.p, N.q, N.dP, N.dQ, N.qInv], P256.readInt (exInteger x) = some (x, []))
    (hl : (exPkcs1 N).length < 65000 ∧ (exPkcs8 N).length < 65540) (hT : N.Taken) (b : Bool) :
    RsaKeyFile b N (if b then exPkcs8 N else exPkcs1 N) ∧ Rsa.read b (if b then exPkcs8 N else exPkcs1 N) = some N.key := by
  have hf := exRsaFile h hl b
  refine ⟨hf, Rsa.read_iff.2 ⟨N, hf, hT, ?_, rfl⟩⟩
  cases b
  · simp only [Bool.false_eq_true, if_false]
    exact Nat.lt_trans hl.1 (by decide)
  · simp only [if_true]
    exact hl.2

theorem exNumbers_files (b : Bool) : RsaKeyFile b exNumbers (if b then exPkcs8 exNumbers else exPkcs1 exNumbers) ∧
    Rsa.read b (if b then exPkcs8 exNumbers else exPkcs1 exNumbers) = some exNumbers.key :=
  exFiles (by decide +kernel) (by decide +kernel) exNumbers_taken b
theorem exSwapped_files (b : Bool) : RsaKeyFile b exSwapped (if b then exPkcs8 exSwapped else exPkcs1 exSwapped) ∧
    Rsa.read b (if b then exPkcs8 exSwapped else exPkcs1 exSwapped) = some exSwapped.key :=
  exFiles (by decide +kernel) (by decide +kernel) exSwapped_taken b
theorem exBadNumbers_files (b : Bool) : RsaKeyFile b exBadNumbers (if b then exPkcs8 exBadNumbers else exPkcs1 exBadNumbers) ∧
    Rsa.read b (if b then exPkcs8 exBadNumbers else exPkcs1 exBadNumbers) = some exBadNumbers.key :=
  exFiles (by decide +kernel) (by decide +kernel) exBadNumbers_taken b

/-- Another private exponent. -/
def exOtherD : RsaNumbers := { exNumbers with d := 2 ^ 2000 + 1 }

theorem exOtherD_taken : exOtherD.Taken where
  sizes := ⟨1024, .inl rfl, by decide +kernel, by decide +kernel, by decide +kernel, by decide +kernel, by decide +kernel, by decide +kernel,
    by decide +kernel⟩
  odd := by decide +kernel
  exponent := by decide +kernel
  below := by decide +kernel
  product := Nat.dvd_refl _
  inverse := .inl (by decide +kernel)

theorem exOtherD_files (b : Bool) : RsaKeyFile b exOtherD (if b then exPkcs8 exOtherD else exPkcs1 exOtherD) ∧
    Rsa.read b (if b then exPkcs8 exOtherD else exPkcs1 exOtherD) = some exOtherD.key :=
  exFiles (by decide +kernel) (by decide +kernel) exOtherD_taken b

theorem exFile8 {N : RsaNumbers} (h : RsaKeyFile true N (if true then exPkcs8 N else exPkcs1 N)) : RsaKeyFile true N (exPkcs8 N) := by
  rwa [if_pos rfl] at h

theorem exFile1 {N : RsaNumbers} (h : RsaKeyFile false N (if false then exPkcs8 N else exPkcs1 N)) : RsaKeyFile false N (exPkcs1 N) := by
  rwa [if_neg (by decide)] at h

/-- The library reads keys and signs as ring does, with a toy hash. -/
def exNum : Bytes → Option Rsa.PrivateKey
  | [] => none
  | kind :: file => Rsa.read (kind == 1) file

@[reducible] def rsaFileDeps : Deps :=
  { ringRsaDeps with
    ringPkcs8 := fun _ b => (Rsa.fromPkcs8 b).map fun _ => 1 :: b
    ringPkcs1 := fun b => (Rsa.fromDer b).map fun _ => 0 :: b
    asymSign := fun p k rnd m => match exNum k with
      | none => []
      | some K => (Rsa.signBlockFast K (@Rsa.padded ringRsaDeps p K.n (Rsa.toBytes 64 rnd) m)).getD [] }

theorem rsaFileDeps_real : @RingRsaFiles rsaFileDeps exNum (Rsa.toBytes 64) := by
  obtain ⟨⟨_, _, v256, v512, s256, s512⟩, _, v, sal, every, refuses⟩ := ringRsaDeps_real
  refine @RingRsaFiles.mk rsaFileDeps _ _ (@RingRsa.mk rsaFileDeps _ _ (@RealRsa.mk rsaFileDeps _ _ (fun _ _ _ _ _ h => (nomatch h))
    (fun _ _ _ _ _ h => (nomatch h)) v256 v512 s256 s512)
    (fun _ _ _ _ _ h => (nomatch h)) v sal every refuses) ?_ ?_ ?_
  · intro b
    change ((Rsa.fromPkcs8 b).map fun _ => 1 :: b).map exNum = _
    rw [Option.map_map]
    cases hb : Rsa.fromPkcs8 b with
    | none => rfl
    | some K => exact congrArg some (show Rsa.fromPkcs8 b = some K from hb)
  · intro b
    change ((Rsa.fromDer b).map fun _ => 0 :: b).map exNum = _
    rw [Option.map_map]
    cases hb : Rsa.fromDer b with
    | none => rfl
    | some K => exact congrArg some (show Rsa.fromDer b = some K from hb)
  · intro p k K rnd m s _ hk hs
    obtain ⟨t, ht, rfl⟩ := (@httpSign_iff rsaFileDeps _ _ _ _ _ _).1 hs
    change encode (match exNum k with
      | none => []
      | some K => (Rsa.signBlockFast K (@Rsa.padded ringRsaDeps p K.n (Rsa.toBytes 64 rnd) m)).getD []) = encode t
    rw [hk, Rsa.signBlockFast_eq]
    have ht' : Rsa.signBlock K (@Rsa.padded ringRsaDeps p K.n (Rsa.toBytes 64 rnd) m) = some t := ht
    show encode ((Rsa.signBlock K (@Rsa.padded ringRsaDeps p K.n (Rsa.toBytes 64 rnd) m)).getD []) = encode t
    rw [ht']
    rfl

section
attribute [local instance] rsaFileDeps

/-- `C143_panics`, for evaluation. -/
theorem exPanics {N : RsaNumbers} {d : Nat} {der : Bytes} {b : Bool} (hf : RsaKeyFile b N der) (hr : Rsa.read b der = some N.key)
    (hk : RsaKey N.n N.e d) (hp : IsPrime N.p) (hq : IsPrime N.q) (prim : Primitive) (rnd : Nat) (m : Bytes)
    (h : Rsa.powMod N.p (bigEndian (Rsa.padded prim N.n (Rsa.toBytes 64 rnd) m)) N.dP ≠
      Rsa.powMod N.p (bigEndian (Rsa.padded prim N.n (Rsa.toBytes 64 rnd) m)) d) :
    Rsa.httpSign prim N.key (Rsa.toBytes 64) rnd m = .error .ringSign := by
  rw [Rsa.powMod_eq, Rsa.powMod_eq] at h
  exact (C143_panics rsaFileDeps_real.toRingRsa N d _ der hf hr hk hp hq prim rnd m _ rfl).2 (.inl h)

/-- An RSA type of the ring back end. -/
def exRingRsa : AlgEntry := ⟨str% "RsaSha256", str% "rsa-v1_5-sha256", .rsaPkcs1Sha256, .rsaPkcs1Sha256⟩

/-- `C143_taken` and `C143_fit`: both kinds of files with the key, and with its primes in the other order, are taken, and signing with them
returns for every text. -/
example (b : Bool) (N : RsaNumbers) (hN : N = exNumbers ∨ N = exSwapped) (rnd : Nat) (m : Bytes) :
    (∃ s, RsaSigner exRingRsa b (if b then exPkcs8 N else exPkcs1 N) s) ∧ ∃ s, Rsa.httpSign .rsaPssSha512 N.key (Rsa.toBytes 64) rnd m = .ok s := by
  have hsw : exSwapped.Fit exNumbers.d := ⟨exNumbers_key, exPrimeQ_prime, exPrimeP_prime, by decide +kernel, by decide +kernel⟩
  have hl : ∀ N', N' = exNumbers ∨ N' = exSwapped → (if b then exPkcs8 N' else exPkcs1 N').length < 65540 := by
    rintro N' (rfl | rfl) <;> cases b <;> decide +kernel
  rcases hN with rfl | rfl
  · exact ⟨(C143_taken rsaFileDeps_real (List.mem_cons_self) (by decide) _).2 ⟨_, (exNumbers_files b).1, exNumbers_taken, hl _ (.inl rfl)⟩,
      C143_fit rsaFileDeps_real.toRingRsa _ _ _ _ (exNumbers_files b).1 (exNumbers_files b).2 exNumbers_fit _ rnd m⟩
  · exact ⟨(C143_taken rsaFileDeps_real (List.mem_cons_self) (by decide) _).2 ⟨_, (exSwapped_files b).1, exSwapped_taken, hl _ (.inr rfl)⟩,
      C143_fit rsaFileDeps_real.toRingRsa _ _ _ _ (exSwapped_files b).1 (exSwapped_files b).2 hsw _ rnd m⟩

/-- `C143_signatures` and `C143_value`: a signature of each kind. -/
example : ∀ p ∈ [Primitive.rsaPkcs1Sha256, .rsaPkcs1Sha512, .rsaPssSha512],
    (Rsa.signBlockFast exNumbers.key (Rsa.padded p exNumbers.n (Rsa.toBytes 64 7) [1, 2, 3])).isSome = true := by decide +kernel

/-- `C143_panics`: a file with a wrong exponent is taken, and signing with it panics. -/
example : (∃ s, RsaSigner exRingRsa true (exPkcs8 exBadNumbers) s) ∧
    Rsa.httpSign .rsaPkcs1Sha256 exBadNumbers.key (Rsa.toBytes 64) 7 [1, 2, 3] = .error .ringSign := by
  refine ⟨(C143_taken rsaFileDeps_real (List.mem_cons_self) (by decide) _).2 ⟨_, exFile8 (exBadNumbers_files true).1, exBadNumbers_taken, by decide +kernel⟩, ?_⟩
  exact exPanics (d := exNumbers.d) (exBadNumbers_files true).1 (exBadNumbers_files true).2 exNumbers_key exPrimeP_prime exPrimeQ_prime _ 7 [1, 2, 3]
    (by decide +kernel)

/-- `C143_pair`: its hypotheses, with the public key bare. -/
example : exNumbers.Fit exNumbers.d ∧ (∃ s, RsaSigner exRingRsa false (exPkcs1 exNumbers) s) ∧
    RsaPublicDer exNumbers.n exNumbers.e (exTlv 0x30 (exInteger exNumbers.n ++ exInteger exNumbers.e)) :=
  ⟨exNumbers_fit, (C143_taken rsaFileDeps_real (List.mem_cons_self) (by decide) _).2 ⟨_, exFile1 (exNumbers_files false).1, exNumbers_taken, by decide +kernel⟩,
    _, _, exInteger_der (by decide +kernel), exInteger_der (by decide +kernel), exTlv_der _ (by decide +kernel)⟩

/-- `C143_exponent_unused`: another private exponent in the file. -/
example (b : Bool) : RsaKeyFile b exOtherD (if b then exPkcs8 exOtherD else exPkcs1 exOtherD) ∧
    ∃ K, Rsa.read b (if b then exPkcs8 exOtherD else exPkcs1 exOtherD) = some K := ⟨(exOtherD_files b).1, _, (exOtherD_files b).2⟩

/-- `C143_refused`: files with a small modulus, a small exponent, and the files above as files of the other kind. -/
example (b : Bool) : (∃ der N, RsaKeyFile b N der ∧ N.n < 2 ^ 2046) ∧ (∃ der N, RsaKeyFile b N der ∧ N.e < 65537) ∧
    (∃ N, RsaPrivateDer 0 N (exPkcs1 exNumbers)) ∧ (∃ key attrs, RsaPrivateInfo 0 key attrs (exPkcs8 exNumbers)) := by
  have h1 := exNumbers_files false
  obtain ⟨h2, -⟩ := exNumbers_files true
  simp only [RsaKeyFile, if_true] at h2
  obtain ⟨key, attrs, _, _, h3⟩ := h2
  simp only [RsaKeyFile, Bool.false_eq_true, if_false] at h1
  exact ⟨⟨_, _, exRsaFile (N := { exNumbers with n := exPrimeP }) (by decide +kernel) (by decide +kernel) b, by decide +kernel⟩,
    ⟨_, _, exRsaFile (N := { exNumbers with e := 3 }) (by decide +kernel) (by decide +kernel) b, by decide +kernel⟩, ⟨_, h1.1⟩, key, attrs, h3⟩

/-- `C143_requests`: a request for which the key is used. -/
example : ∃ base, UsesKey (exMock [] (some [1])) (exSigning.setComponents [.header hDate]) exSignEnv base := by
  have h : ∃ base, .httpSign base ∈ (signCalled (exMock [] (some [1])) (exSigning.setComponents [.header hDate]) exSignEnv).calls :=
    ⟨_, .tail _ (.tail _ (.tail _ (.tail _ (.tail _ (.head _)))))⟩
  obtain ⟨base, h⟩ := h
  exact ⟨base, usesKey_iff.2 h⟩
end

end Httpsig
