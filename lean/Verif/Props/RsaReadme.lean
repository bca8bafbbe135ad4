import Verif.Props.RsaPkcs8
import Verif.Props.Refused
/-
Claim C143 in the validator: RSA private key files of sign mode, and the README's pipe with the two files of a key.
-/
namespace Httpsig
open Base64

section
variable [Deps] {num : Bytes → Option Rsa.PrivateKey} {salt : Nat → Bytes}

omit [Deps] in
theorem supports_entry {alg name : Str} {prim : Primitive} (h : Supports alg name prim) :
    ∃ e ∈ ringTable, e.name ≠ str% "ecdsa-p256-sha256" ∧ e.signWith = prim ∧ e.verifyWith = prim := by
  cases h
  · exact ⟨_, List.mem_cons_self, by decide, rfl, rfl⟩
  · exact ⟨_, .tail _ List.mem_cons_self, by decide, rfl, rfl⟩
  · exact ⟨_, .tail _ (.tail _ List.mem_cons_self), by decide, rfl, rfl⟩
  · exact ⟨_, .tail _ (.tail _ List.mem_cons_self), by decide, rfl, rfl⟩

theorem privatePkcs8Pem_iff (h : RingRsaFiles num salt) {label : Str} {der file : Bytes} (hf : PemFile label der file) :
    (∃ sk, privatePkcs8Pem file = some sk) ↔ ∃ N, RsaKeyFile true N der ∧ N.Taken ∧ der.length < 65540 := by
  unfold privatePkcs8Pem
  rw [Pem.parse_pemFile hf, Option.bind_some, ← C143_taken h (e := ringTable.head (by decide)) (by decide) (by decide) der]
  constructor
  · rintro ⟨sk, hk⟩
    exact ⟨_, .inl (by rw [if_pos rfl, Ring.newPkcs8]; change (Deps.ringPkcs8 .rsa der).map _ = _; rw [hk]; rfl)⟩
  · rintro ⟨s, hs⟩
    obtain ⟨k, K, hk, -⟩ := (rsaSigner_iff h (by decide) (by decide)).1 hs
    exact ⟨k, by rwa [if_pos rfl] at hk⟩

/-- C143, in the validator. Which private key files sign mode refuses as bad keys: all but those in PKCS #8 whose numbers pass the checks. -/
theorem C143_validator_refuses (h : RingRsaFiles num salt) (o : Opt) (alg name label : Str) (prim : Primitive) (hs : Supports alg name prim)
    (ha : o.algorithm = some alg) (der file : Bytes) (hf : PemFile label der file) (hp : o.privateKey = some (some file)) :
    o.signingConfig = .error .badKey ↔ ¬ ∃ N, RsaKeyFile true N der ∧ N.Taken ∧ der.length < 65540 := by
  rw [C76_sign_refused, ← privatePkcs8Pem_iff h hf]
  constructor
  · intro hr
    cases hr with
    | badKey _ _ _ pem hp' _ _ hk =>
      rw [hp] at hp'
      cases hp'
      rw [hk]
      exact fun ⟨_, hx⟩ => nomatch hx
  · intro hno
    refine .badKey alg name prim file hp ha hs ?_
    cases hk : privatePkcs8Pem file with
    | none => rfl
    | some sk => exact absurd ⟨sk, hk⟩ hno

theorem spkiKey_rsaPublic {n e : Nat} {pk : Bytes} (h : RsaPublicDer n e pk) : spkiKey pk = none := by
  cases hk : spkiKey pk with
  | none => rfl
  | some k =>
    obtain ⟨oid, params, unused, hs, -⟩ := spkiKey_iff.1 hk
    exact absurd h.two_integers (spki_not_pkcs1 hs)

/-- C143, in the validator. The private key that sign mode reads from a file whose numbers are those of an RSA key, and the public key with
the same modulus and public exponent are a pair for every algorithm of sign mode. -/
theorem C143_validator_pair (h : RingRsaFiles num salt) (alg name label : Str) (prim : Primitive) (hs : Supports alg name prim) (N : RsaNumbers)
    (d : Nat) (der file sk pk : Bytes) (hf : PemFile label der file) (hn : RsaKeyFile true N der) (hk : N.Fit d)
    (hsk : privatePkcs8Pem file = some sk) (hpub : RsaPublicDer N.n N.e pk) : KeyPair prim sk pk := by
  obtain ⟨e, he, hne, h1, h2⟩ := supports_entry hs
  intro rnd m
  have hd : Deps.ringPkcs8 .rsa der = some sk := by
    unfold privatePkcs8Pem at hsk
    rwa [Pem.parse_pemFile hf] at hsk
  have hsg : RsaSigner e true der (e.signer sk) :=
    .inl (by rw [if_pos rfl, Ring.newPkcs8, (rsaSigned_keyType he hne).1, hd]; rfl)
  have := C143_pair h he hne N d der pk _ _ hn hk hsg hpub (.inl rfl) rnd m
  simpa only [AlgEntry.signer, AlgEntry.verifier, asymSigner, asymVerifier, b64Verify, strictDecode_encode, h1, h2] using this

/-- C143, in the validator. The two commands of the README in a pipe, with the two files of an RSA key in PEM, the private one in PKCS #8 and
the public one in SPKI or PKCS #1: the second accepts what the first wrote, exactly if its clock is after 1970 and the digest in the request
is right for the body. -/
theorem C143_readme (hr : RingRsaFiles num salt) (h h' : Host) (out pem pem' der pk : Bytes) (label label' : Str) (N : RsaNumbers) (d : Nat)
    (hs : readmeSign.main h = ⟨out, .ok (.ok ())⟩) (hf : h.files (str% "../test_data/rsa-private.pem") = .contents pem)
    (hp : PemFile label der pem) (hn : RsaKeyFile true N der) (hk : N.Fit d) (hin : h'.stdin = some out) (ht : h'.trace = true → h.trace = true)
    (hf' : h'.files (str% "../test_data/rsa-public.pem") = .contents pem') (hpub : RsaPublicDer N.n N.e pk)
    (hp' : PemFile label' pk pem' ∨ ∃ oid params spki, PemFile label' spki pem' ∧ Spki oid params 0 pk spki ∧ Deps.oidOk oid = true ∧
      (params = [] ∨ Deps.anyOk params = true)) :
    ∃ req, ReadsRequest readmeSign h req ∧
      ((readmeVerify.main h').status = .ok (.ok ()) ↔ 0 ≤ h'.verifyEnv.sysNow ∧ DigestFits req) := by
  obtain ⟨req, host, date, digest, pem₁, key, h1, _, _, _, h2, h3, h4⟩ := C133_pipe h out hs
  rw [hf] at h2
  cases h2
  refine ⟨req, h1, ?_⟩
  have hpk : publicSpkiPem pem' = some pk ∨ publicSpkiPem pem' = none ∧ publicPkcs1Pem pem' = some pk := by
    unfold publicSpkiPem publicPkcs1Pem
    rcases hp' with hp' | ⟨oid, params, spki, hp', hsp, ho, hpa⟩
    · rw [Pem.parse_pemFile hp']
      exact .inr ⟨spkiKey_rsaPublic hpub, rfl⟩
    · rw [Pem.parse_pemFile hp']
      exact .inl (spkiKey_iff.2 ⟨oid, params, 0, hsp, ho, hpa, by decide, .inl rfl⟩)
  have hpair := C143_validator_pair hr _ _ label _ .pkcs256 N d der pem key pk hp hn hk h3 hpub
  rw [(h4 h' hin ht).2]
  exact ⟨fun ⟨a, b, _⟩ => ⟨a, b⟩, fun ⟨a, b⟩ => ⟨a, b, pem', pk, hf', hpk, hpair _ _⟩⟩

end

/-! ### Examples -/

/-- A PEM file. -/
def exPemOf (label : Str) (der : Bytes) : Bytes :=
  utf8 (str% "-----BEGIN " ++ label ++ str% "-----\n" ++ encode der ++ str% "\n-----END " ++ label ++ str% "-----")

theorem exPemOf_file {label : Str} (der : Bytes) (hne : label ≠ []) (hd : '-' ∉ label) : PemFile label der (exPemOf label der) := by
  refine ⟨[], [], str% "\n", [encode der], by simp, .inl rfl, hne, hd, by simp, ?_⟩
  rw [List.append_nil, List.nil_append]
  unfold exPemOf
  have e : (str% "-----\n" : Str) = str% "-----" ++ str% "\n" := rfl
  have e' : (str% "\n-----END " : Str) = str% "\n" ++ str% "-----END " := rfl
  rw [e, e']
  simp only [List.append_assoc, List.flatMap_cons, List.flatMap_nil, List.append_nil]

/-- The public key that belongs to `exNumbers`. -/
def exPublic : Bytes := exTlv 0x30 (exInteger exNumbers.n ++ exInteger exNumbers.e)

theorem exPublic_der : RsaPublicDer exNumbers.n exNumbers.e exPublic :=
  ⟨_, _, exInteger_der (by decide +kernel), exInteger_der (by decide +kernel), exTlv_der _ (by decide +kernel)⟩

section
attribute [local instance] rsaFileDeps

def exReadmeFiles : Host :=
  { exReadmeRsa with
    files := fun f => if f = str% "../test_data/rsa-private.pem" then .contents (exPemOf (str% "PRIVATE KEY") (exPkcs8 exNumbers))
      else .contents (exPemOf (str% "RSA PUBLIC KEY") exPublic) }

/-- The hypotheses of `C143_readme` and `C143_validator_pair`: files with a key, and both commands succeed. -/
example : PemFile (str% "PRIVATE KEY") (exPkcs8 exNumbers) (exPemOf (str% "PRIVATE KEY") (exPkcs8 exNumbers)) ∧
    RsaKeyFile true exNumbers (exPkcs8 exNumbers) ∧ exNumbers.Fit exNumbers.d ∧
    PemFile (str% "RSA PUBLIC KEY") exPublic (exPemOf (str% "RSA PUBLIC KEY") exPublic) ∧ RsaPublicDer exNumbers.n exNumbers.e exPublic :=
  ⟨exPemOf_file _ (by decide) (by decide), exFile8 (exNumbers_files true).1, exNumbers_fit, exPemOf_file _ (by decide) (by decide), exPublic_der⟩

example : (match (readmeSign.main exReadmeFiles).status with
    | .ok (.ok ()) => true
    | _ => false) = true ∧
    (match (readmeVerify.main { exReadmeFiles with stdin := some (readmeSign.main exReadmeFiles).stdout }).status with
    | .ok (.ok ()) => true
    | _ => false) = true := by decide +kernel

/-- Options of sign mode with a private key file. -/
def exKeyOpt (file : Bytes) : Opt where
  algorithm := some (str% "rsa-pss-sha512")
  privateKey := some (some file)

/-- `C143_validator_refuses`: a file that is refused, with the key in the other format, and one that is not. -/
example : (exKeyOpt (exPemOf (str% "RSA PRIVATE KEY") (exPkcs1 exNumbers))).signingConfig = .error .badKey ∧
    (exKeyOpt (exPemOf (str% "PRIVATE KEY") (exPkcs8 exNumbers))).signingConfig ≠ .error .badKey := by
  constructor
  · rw [C143_validator_refuses rsaFileDeps_real _ _ _ _ _ .pss512 rfl _ _ (exPemOf_file _ (by decide) (by decide)) rfl,
      ← C143_taken rsaFileDeps_real (e := exRingRsa) List.mem_cons_self (by decide)]
    rintro ⟨s, hs⟩
    have hf := exFile1 (exNumbers_files false).1
    rw [RsaKeyFile, if_neg (by decide)] at hf
    exact (C143_refused rsaFileDeps_real List.mem_cons_self (by decide) _).1 _ _ hf s hs
  · rw [Ne, C143_validator_refuses rsaFileDeps_real _ _ _ _ _ .pss512 rfl _ _ (exPemOf_file _ (by decide) (by decide)) rfl, not_not]
    exact ⟨_, exFile8 (exNumbers_files true).1, exNumbers_taken, by decide +kernel⟩

end
end Httpsig
