import Verif.Props.Algo
import Verif.Props.Cli
import Verif.Props.KeyFiles
/-
C82: keys from files, in all formats, in both back ends.
-/
namespace Httpsig

section
variable [Deps]

/-- The kind of key that a signature algorithm needs (RFC 9421, 3.3): the names of the RSA algorithms begin with `rsa`, the name
of the elliptic curve algorithm has the curve. -/
inductive NeedsKey : Str → KeyType → Prop
  | rsa (rest : Str) : NeedsKey (str% "rsa" ++ rest) .rsa
  | p256 (rest : Str) : NeedsKey (str% "ecdsa-p256" ++ rest) .ecP256

/-- A private key file that the `ring` crate reads as key `k` of kind `t`: PKCS #8, or PKCS #1 for RSA, in DER or PEM. -/
inductive PrivateFile : KeyType → Bytes → Bytes → Prop
  | pkcs8 {t b k} : Deps.ringPkcs8 t b = some k → PrivateFile t b k
  | pkcs8Pem {t label c b k} : PemFile label c b → Deps.ringPkcs8 t c = some k → PrivateFile t b k
  | pkcs1 {b k} : Deps.ringPkcs1 b = some k → PrivateFile .rsa b k
  | pkcs1Pem {label c b k} : PemFile label c b → Deps.ringPkcs1 c = some k → PrivateFile .rsa b k

/-- A public key file that has the key `k`: SPKI, or PKCS #1 for RSA, in DER or PEM. -/
inductive PublicFile : KeyType → Bytes → Bytes → Prop
  | spki {t oid params b k} : Spki oid params 0 k b → Deps.oidOk oid = true → params = [] ∨ Deps.anyOk params = true → PublicFile t b k
  | spkiPem {t label c oid params b k} : PemFile label c b → Spki oid params 0 k c → Deps.oidOk oid = true →
      params = [] ∨ Deps.anyOk params = true → PublicFile t b k
  | pkcs1 {b} : PublicFile .rsa b b
  | pkcs1Pem {label c b} : PemFile label c b → PublicFile .rsa b c

/-- The constructors of signing types: which take the file. -/
def SignerOf (e : AlgEntry) (b : Bytes) (s : HttpSignatureSign) : Prop :=
  Ring.newPkcs8 e b = some s ∨ Ring.newPkcs8Pem e b = some s ∨ Ring.newPkcs1 e b = some s ∨ Ring.newPkcs1Pem e b = some s

/-- The constructors of verifying types: which take the file. -/
def VerifierOf (e : AlgEntry) (b : Bytes) (v : HttpSignatureVerify) : Prop :=
  Ring.verifySpkiDer e b = some v ∨ Ring.verifySpkiPem e b = some v ∨ Ring.verifyPkcs1Der e b = some v ∨ Ring.verifyPkcs1Pem e b = some v

omit [Deps] in
theorem ring_keyType {e : AlgEntry} (he : e ∈ ringTable) {t : KeyType} : NeedsKey e.name t ↔ e.keyType = t := by
  simp only [ringTable, List.mem_cons, List.not_mem_nil, or_false] at he
  constructor
  · intro h
    rcases he with rfl | rfl | rfl | rfl | rfl <;> generalize hn : AlgEntry.name _ = n at h <;> cases h <;>
      first | rfl | simp at hn
  · rintro rfl
    rcases he with rfl | rfl | rfl | rfl | rfl
    all_goals first | exact .rsa _ | exact .p256 _

/-- C82. In the `ring` back end each signing type takes from a PKCS #8 file exactly the keys of the kind that its algorithm needs,
reports the name of the algorithm, and signs with the primitive of that name. -/
theorem C82_signing_key_exact (e : AlgEntry) (he : e ∈ ringTable) (t : KeyType) (ht : NeedsKey e.name t) (p : Primitive)
    (hp : schemeName p = e.name) (der : Bytes) (s : HttpSignatureSign) :
    Ring.newPkcs8 e der = some s ↔
      ∃ k, Deps.ringPkcs8 t der = some k ∧ s = ⟨e.name, fun rnd m => Base64.encode (Deps.asymSign p k rnd m)⟩ := by
  rw [← (ring_keyType he).1 ht]
  have hw : e.signWith = p := by
    have h : ∀ e ∈ ringTable, ∀ p ∈ [Primitive.hmacSha256, .hmacSha512, .rsaPkcs1Sha256, .rsaPkcs1Sha512, .rsaPssSha256, .rsaPssSha512,
      .ecdsaP256Sha256Asn1], schemeName p = e.name → e.signWith = p := by decide
    exact h e he p (by cases p <;> decide) hp
  subst hw
  unfold Ring.newPkcs8 AlgEntry.signer asymSigner
  rw [Option.map_eq_some_iff]
  exact ⟨fun ⟨k, h, e⟩ => ⟨k, h, e.symm⟩, fun ⟨k, h, e⟩ => ⟨k, h, e.symm⟩⟩

/-- C82. If no file is a key of both kinds, then no file is taken by types whose algorithms need different kinds of keys. -/
theorem C82_kinds_not_confused (hring : ∀ b k k', Deps.ringPkcs8 .rsa b = some k → Deps.ringPkcs8 .ecP256 b = some k' → False)
    (e f : AlgEntry) (he : e ∈ ringTable) (hf : f ∈ ringTable) (b : Bytes) (s s' : HttpSignatureSign)
    (h : Ring.newPkcs8 e b = some s ∧ Ring.newPkcs8 f b = some s' ∨ Ring.newPkcs8Pem e b = some s ∧ Ring.newPkcs8Pem f b = some s')
    (t : KeyType) : NeedsKey e.name t ↔ NeedsKey f.name t := by
  rw [ring_keyType he, ring_keyType hf]
  have key : ∃ c k k', Deps.ringPkcs8 e.keyType c = some k ∧ Deps.ringPkcs8 f.keyType c = some k' := by
    rcases h with ⟨h, h'⟩ | ⟨h, h'⟩
    · obtain ⟨k, hk, _⟩ := Option.map_eq_some_iff.1 h
      obtain ⟨k', hk', _⟩ := Option.map_eq_some_iff.1 h'
      exact ⟨b, k, k', hk, hk'⟩
    · obtain ⟨c, hc, h⟩ := Option.bind_eq_some_iff.1 h
      obtain ⟨c', hc', h'⟩ := Option.bind_eq_some_iff.1 h'
      rw [hc] at hc'; cases hc'
      obtain ⟨k, hk, _⟩ := Option.map_eq_some_iff.1 h
      obtain ⟨k', hk', _⟩ := Option.map_eq_some_iff.1 h'
      exact ⟨c, k, k', hk, hk'⟩
  obtain ⟨c, k, k', hk, hk'⟩ := key
  have : e.keyType = f.keyType := by
    cases h1 : e.keyType <;> cases h2 : f.keyType <;> rw [h1] at hk <;> rw [h2] at hk'
    · exact (hring _ _ _ hk hk').elim
    · exact (hring _ _ _ hk' hk).elim
  rw [this]

theorem signerOf_file {e : AlgEntry} (he : e ∈ ringTable) {b k : Bytes} {t : KeyType} (ht : NeedsKey e.name t) (h : PrivateFile t b k) :
    SignerOf e b (e.signer k) := by
  have ht := (ring_keyType he).1 ht
  cases h with
  | pkcs8 h => exact .inl (by unfold Ring.newPkcs8; rw [ht, h]; rfl)
  | pkcs8Pem hf h =>
    refine .inr (.inl ?_)
    rw [(C54_pem_same_as_der e _ _ _ hf).1]
    unfold Ring.newPkcs8; rw [ht, h]; rfl
  | pkcs1 h => exact .inr (.inr (.inl (by unfold Ring.newPkcs1; rw [h]; rfl)))
  | pkcs1Pem hf h =>
    refine .inr (.inr (.inr ?_))
    rw [(C54_pem_same_as_der e _ _ _ hf).2.1]
    unfold Ring.newPkcs1; rw [h]; rfl

theorem verifierOf_file {e : AlgEntry} {b k : Bytes} {t : KeyType} (h : PublicFile t b k) : VerifierOf e b (e.verifier k) := by
  cases h with
  | spki h ho hp => exact .inl (C56_same_as_pkcs1 e _ _ _ _ h ho hp)
  | spkiPem hf h ho hp =>
    refine .inr (.inl ?_)
    rw [(C54_pem_same_as_der e _ _ _ hf).2.2.2]
    exact C56_same_as_pkcs1 e _ _ _ _ h ho hp
  | pkcs1 => exact .inr (.inr (.inl rfl))
  | pkcs1Pem hf => exact .inr (.inr (.inr (C54_pem_same_as_der e _ _ _ hf).2.2.1))

/-- C82. A key pair in files works in the `ring` back end, in whatever formats the two files are: there are constructors that take
them, and what the one signs, the other accepts. -/
theorem C82_key_pairs (e : AlgEntry) (he : e ∈ ringTable) (t : KeyType) (ht : NeedsKey e.name t) (p : Primitive)
    (hp : schemeName p = e.name) (a b sk pk : Bytes) (ha : PrivateFile t a sk) (hb : PublicFile t b pk) (hk : KeyPair p sk pk) :
    ∃ s v, SignerOf e a s ∧ VerifierOf e b v ∧ s.name = e.name ∧ v.name = e.name ∧ ∀ rnd m, v.verify m (s.sign rnd m) = true := by
  refine ⟨_, _, signerOf_file he ht ha, verifierOf_file hb, rfl, rfl, fun rnd m => ?_⟩
  have hw : e.signWith = p := by
    have h : ∀ e ∈ ringTable, ∀ p ∈ [Primitive.hmacSha256, .hmacSha512, .rsaPkcs1Sha256, .rsaPkcs1Sha512, .rsaPssSha256, .rsaPssSha512,
      .ecdsaP256Sha256Asn1], schemeName p = e.name → e.signWith = p := by decide
    exact h e he p (by cases p <;> decide) hp
  exact (C45_halves_match e (List.mem_append_left _ he) sk pk (hw ▸ hk) rnd m).2

/-- A private key file that the `openssl` crate reads as RSA key `k`: PKCS #8 in DER, or PKCS #1 in DER or PEM. -/
inductive OsslPrivateFile (b k : Bytes) : Prop
  | pkcs8 : Deps.osslPkcs8 b = some ⟨true, k⟩ → OsslPrivateFile b k
  | pkcs1 : Deps.osslRsaDer b = some k → OsslPrivateFile b k
  | pkcs1Pem : Deps.osslRsaPem b = some k → OsslPrivateFile b k

/-- C82. Likewise in the `openssl` back end, for RSA private keys in PKCS #8 (DER only, see C58) and PKCS #1, and public keys in DER
and PEM: there are constructors that take them, the verifying types have the name of the signing types, and the pair works if the
key is long enough for the hash in the name. Keys that are not, and the padding that the `pss` types use: C59, C45. -/
theorem C82_openssl_key_pairs (e : AlgEntry) (he : e ∈ opensslTable) (p : Primitive)
    (hp : schemeName p = e.name ∨ (p = .rsaPkcs1Sha256 ∧ e.name = str% "rsa-pss-sha256") ∨ (p = .rsaPkcs1Sha512 ∧ e.name = str% "rsa-pss-sha512"))
    (hpss : p ≠ .rsaPssSha256 ∧ p ≠ .rsaPssSha512)
    (a b k pk : Bytes) (ha : OsslPrivateFile a k)
    (hlong : Deps.osslShort p k = false) (hb : Deps.osslPubDer b = some pk ∨ Deps.osslPubPem b = some pk) (hk : KeyPair p k pk) :
    ∃ s v, (Openssl.newPkcs8 a = some s ∨ Openssl.newPkcs1Der a = some s ∨ Openssl.newPkcs1Pem a = some s) ∧
      (Openssl.verifyDer e b = some v ∨ Openssl.verifyPem e b = some v) ∧ v.name = e.name ∧
      ∀ rnd m, ∃ sig, Openssl.httpSign e s rnd m = .ok sig ∧ v.verify m sig = true := by
  have hw : e.signWith = p := by
    have h : ∀ e ∈ opensslTable, ∀ p ∈ [Primitive.hmacSha256, .hmacSha512, .rsaPkcs1Sha256, .rsaPkcs1Sha512, .rsaPssSha256, .rsaPssSha512,
      .ecdsaP256Sha256Asn1], (schemeName p = e.name ∨ (p = .rsaPkcs1Sha256 ∧ e.name = str% "rsa-pss-sha256") ∨
        (p = .rsaPkcs1Sha512 ∧ e.name = str% "rsa-pss-sha512")) → (p ≠ .rsaPssSha256 ∧ p ≠ .rsaPssSha512) → e.signWith = p := by decide
    exact h e he p (by cases p <;> decide) hp hpss
  subst hw
  refine ⟨⟨true, k⟩, e.verifier pk, ?_, ?_, rfl, fun rnd m => ⟨(e.signer k).sign rnd m, ?_, ?_⟩⟩
  · cases ha with
    | pkcs8 h => exact .inl h
    | pkcs1 h => exact .inr (.inl (by unfold Openssl.newPkcs1Der; rw [h]; rfl))
    | pkcs1Pem h => exact .inr (.inr (by unfold Openssl.newPkcs1Pem; rw [h]; rfl))
  · rcases hb with hb | hb
    · exact .inl (by unfold Openssl.verifyDer; rw [hb]; rfl)
    · exact .inr (by unfold Openssl.verifyPem; rw [hb]; rfl)
  · unfold Openssl.httpSign
    simp [hlong]; rfl
  · exact (C45_halves_match e (List.mem_append_right _ he) k pk hk rnd m).2

/-- C82, in the validator. Sign mode with a supported algorithm and a PEM file takes exactly the files that contain an RSA key in
PKCS #8 form (not PKCS #1), and signs with that key. -/
theorem C82_validator_signing_key (o : Opt) (alg name label : Str) (prim : Primitive) (file der : Bytes) (hs : Supports alg name prim)
    (ha : o.algorithm = some alg) (hf : PemFile label der file) (hp : o.privateKey = some (some file)) (c : SigningConfig) :
    o.signingConfig = .ok c ↔
      ∃ key comps, Deps.ringPkcs8 .rsa der = some key ∧ HeaderOption o comps ∧ c = optSigning o name prim key comps := by
  have hk : privatePkcs8Pem file = Deps.ringPkcs8 .rsa der := by
    unfold privatePkcs8Pem
    rw [Pem.parse_pemFile hf]; rfl
  rw [C50_signing_exact]
  constructor
  · rintro ⟨alg', name', prim', pem, key, comps, ha', hs', hp', hkey, hc, rfl⟩
    rw [ha] at ha'; cases ha'
    rw [hp] at hp'; cases hp'
    have : name' = name ∧ prim' = prim := by
      generalize hx : alg = x at hs'
      cases hs <;> cases hs' <;> first | exact ⟨rfl, rfl⟩ | exact absurd hx (by decide)
    obtain ⟨rfl, rfl⟩ := this
    exact ⟨key, comps, hk ▸ hkey, hc, rfl⟩
  · rintro ⟨key, comps, hkey, hc, rfl⟩
    exact ⟨alg, name, prim, file, key, comps, ha, hs, hp, hk ▸ hkey, hc, rfl⟩

end

/-! ### Examples -/

/-- Dependencies in which a private key starts with its kind. -/
@[reducible] def kindDeps : Deps := { toyDeps with
  ringPkcs8 := fun t b => if b.head? = some (if t = .rsa then 1 else 2) then some b.tail else none }

section
attribute [local instance] kindDeps

example : (∀ b k k', Deps.ringPkcs8 .rsa b = some k → Deps.ringPkcs8 .ecP256 b = some k' → False) ∧
    (∃ e ∈ ringTable, NeedsKey e.name .rsa ∧ schemeName .rsaPssSha512 = e.name ∧ ∃ s, Ring.newPkcs8 e [1, 7] = some s) ∧
    ∃ e ∈ ringTable, NeedsKey e.name .ecP256 ∧ schemeName .ecdsaP256Sha256Asn1 = e.name ∧ ∃ s, Ring.newPkcs8 e [2, 7] = some s := by
  refine ⟨fun b k k' h h' => ?_, ⟨ringTable[3], by decide, .rsa _, rfl, _, rfl⟩, ⟨ringTable[4], by decide, .p256 _, rfl, _, rfl⟩⟩
  simp only [Deps.ringPkcs8, Option.ite_none_right_eq_some] at h h'
  have := h.1.symm.trans h'.1
  simp at this

/-- `C82_key_pairs`: a PKCS #8 private key in PEM, and the public key as SPKI in DER. -/
example : ∃ a, PrivateFile .rsa a exRsaKey ∧ PublicFile .rsa exSpki exRsaKey ∧ KeyPair .rsaPssSha512 exRsaKey exRsaKey := by
  obtain ⟨r, hr⟩ := pemFile_exists (str% "PRIVATE KEY") (1 :: exRsaKey) (by decide) (by decide)
  exact ⟨_, .pkcs8Pem hr rfl, .spki exSpki_ok rfl (.inr rfl), fun _ _ => decide_eq_true rfl⟩

/-- `C82_openssl_key_pairs`. -/
example : ∃ e ∈ opensslTable, schemeName .rsaPkcs1Sha512 = e.name ∧ OsslPrivateFile [1, 2, 3, 4] [1, 2, 3, 4] ∧
    Deps.osslShort .rsaPkcs1Sha512 [1, 2, 3, 4] = false ∧ Deps.osslPubDer [1, 2, 3, 4] = some [1, 2, 3, 4] ∧
    KeyPair .rsaPkcs1Sha512 [1, 2, 3, 4] [1, 2, 3, 4] :=
  ⟨opensslTable[3], by decide, rfl, .pkcs1 rfl, rfl, rfl, fun _ _ => decide_eq_true rfl⟩

/-- `C82_validator_signing_key`: a file with an RSA key, and one with a key of the other kind. -/
example : ∃ a b, PemFile (str% "PRIVATE KEY") [1, 7] a ∧ Deps.ringPkcs8 .rsa [1, 7] = some [7] ∧
    PemFile (str% "PRIVATE KEY") [2, 7] b ∧ Deps.ringPkcs8 .rsa [2, 7] = none := by
  obtain ⟨r, hr⟩ := pemFile_exists (str% "PRIVATE KEY") [1, 7] (by decide) (by decide)
  obtain ⟨q, hq⟩ := pemFile_exists (str% "PRIVATE KEY") [2, 7] (by decide) (by decide)
  exact ⟨_, _, hr, rfl, hq, rfl⟩

end
end Httpsig
