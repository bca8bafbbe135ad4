import Verif.Lemmas.RsaMath
import Verif.Lemmas.Rsa
import Verif.Props.Algo
import Verif.Props.Forgery
import Verif.Props.Readme
import Verif.Props.Hmac
/-
Claim C136: RSA keys and signatures with PKCS#1 v1.5.
-/
namespace Httpsig
open Base64

namespace Rsa

/-- The public key accepts the signature of the private key, and nothing else. -/
theorem accepts_iff {info m tag : Bytes} {hash : Bytes → Bytes} {n e d : Nat} (hk : RsaTriple n e d)
    (h : info.length + (hash m).length + 3 ≤ size n) :
    accepts info hash n e m tag = true ↔ tag = signature info hash n d m := by
  have hn := hk.ne_zero
  have hlt := emsa_lt hn h
  have hlen := emsa_length h
  have hsz := lt_size n
  simp only [accepts, signature, Bool.and_eq_true, beq_iff_eq, decide_eq_true_eq]
  constructor
  · rintro ⟨⟨h1, h2⟩, h3⟩
    have h4 := congrArg Der.ofBytes h3
    rw [ofBytes_toBytes, Nat.mod_eq_of_lt (Nat.lt_trans (Nat.mod_lt _ (by omega)) hsz)] at h4
    rw [← h4, (hk.inverse h2).2, ← h1, toBytes_ofBytes]
  · rintro rfl
    have h5 : Der.ofBytes (emsa info hash (size n) m) ^ d % n < n := Nat.mod_lt _ (by omega)
    rw [toBytes_length, ofBytes_toBytes, Nat.mod_eq_of_lt (Nat.lt_trans h5 hsz), (hk.inverse hlt).1]
    refine ⟨⟨rfl, h5⟩, ?_⟩
    have := toBytes_ofBytes (emsa info hash (size n) m)
    rwa [hlen] at this

end Rsa

section
variable [Deps]

def infoOf : Primitive → Bytes
  | .rsaPkcs1Sha512 => Rsa.info512
  | _ => Rsa.info256

variable {priv pub : Bytes → Option (Nat × Nat)} {prim prim' : Primitive} {hash hash' : Bytes → Bytes} {sk pk : Bytes} {n e d : Nat}

theorem RealRsa.signs (h : RealRsa priv pub) (hp : Pkcs1 prim hash) (hsk : priv sk = some (n, d)) (rnd : Nat) (m : Bytes) :
    Deps.asymSign prim sk rnd m = Rsa.signature (infoOf prim) hash n d m := by
  cases hp
  · exact h.sign256 _ _ _ _ _ hsk
  · exact h.sign512 _ _ _ _ _ hsk

theorem RealRsa.verifies (h : RealRsa priv pub) (hp : Pkcs1 prim hash) (hpk : pub pk = some (n, e)) (m t : Bytes) :
    Deps.asymVerify prim pk m t = Rsa.accepts (infoOf prim) hash n e m t := by
  cases hp
  · exact h.verify256 _ _ _ _ _ hpk
  · exact h.verify512 _ _ _ _ _ hpk

theorem RealRsa.fits (h : RealRsa priv pub) (hp : Pkcs1 prim hash) (hk : RsaKey n e d) (m : Bytes) :
    (infoOf prim).length + (hash m).length + 3 ≤ Rsa.size n := by
  have := Rsa.size_large hk.2
  cases hp
  · rw [h.size256 m]; change 19 + 32 + 3 ≤ _; omega
  · rw [h.size512 m]; change 19 + 64 + 3 ≤ _; omega

theorem RealRsa.accepted_iff (h : RealRsa priv pub) (hp : Pkcs1 prim hash) (hsk : priv sk = some (n, d)) (hpk : pub pk = some (n, e))
    (hk : RsaKey n e d) (rnd : Nat) (m t : Bytes) : Deps.asymVerify prim pk m t = true ↔ t = Deps.asymSign prim sk rnd m := by
  rw [h.verifies hp hpk, h.signs hp hsk, Rsa.accepts_iff hk.1 (h.fits hp hk m)]

/-- C136. The two keys of an RSA key pair fit together for both PKCS#1 v1.5 primitives. -/
theorem C136_pair (h : RealRsa priv pub) (hp : Pkcs1 prim hash) (hsk : priv sk = some (n, d)) (hpk : pub pk = some (n, e))
    (hk : RsaKey n e d) : KeyPair prim sk pk :=
  fun rnd _ => (h.accepted_iff hp hsk hpk hk rnd _ _).2 rfl

/-- C136. For every text there is one signature that is accepted, the one that the signer makes. -/
theorem C136_one_signature (h : RealRsa priv pub) (hp : Pkcs1 prim hash) (hsk : priv sk = some (n, d)) (hpk : pub pk = some (n, e))
    (hk : RsaKey n e d) (name name' : Str) (rnd : Nat) (m : Bytes) (s : Str) :
    (asymVerifier name prim pk).verify m s = true ↔ s = (asymSigner name' prim sk).sign rnd m := by
  simp only [asymVerifier, asymSigner, b64Verify]
  cases hd : strictDecode s with
  | none =>
    simp only [Bool.false_eq_true, false_iff]
    intro hs
    rw [hs, strictDecode_encode] at hd
    cases hd
  | some t =>
    rw [h.accepted_iff hp hsk hpk hk rnd]
    constructor
    · rintro rfl; exact (encode_of_strictDecode _ _ hd).symm
    · rintro rfl; rw [strictDecode_encode] at hd; exact (Option.some.inj hd).symm

omit [Deps] in
theorem emsa_ne {n : Nat} {m m' : Bytes} {hash hash' : Bytes → Bytes} (hn : 94 ≤ Rsa.size n) (h1 : (hash m).length = 32)
    (h2 : (hash' m').length = 64) : Rsa.emsa Rsa.info256 hash (Rsa.size n) m ≠ Rsa.emsa Rsa.info512 hash' (Rsa.size n) m' := by
  intro h
  have l1 : Rsa.info256.length = 19 := rfl
  have l2 : Rsa.info512.length = 19 := rfl
  have := congrArg (·[Rsa.size n - 84]?) h
  simp only [Rsa.emsa] at this
  rw [List.getElem?_append_left (by simp [h1, l1]; omega), List.getElem?_append_left (by simp [h1, l1]; omega),
    List.getElem?_append_right (by simp; omega), List.getElem?_replicate, List.getElem?_append_left (by simp [h2, l2]; omega),
    List.getElem?_append_right (by simp [h2, l2]; omega)] at this
  simp only [List.length_append, List.length_cons, List.length_nil, List.length_replicate, h1, h2, l1, l2] at this
  rw [if_pos (by omega), show Rsa.size n - 84 - (0 + 1 + 1 + (Rsa.size n - (19 + 64) - 3)) = 0 by omega] at this
  cases this

/-- C136. A signature is accepted on another text, or by the other primitive, exactly if the primitives are the same and so are the hashes of
the texts. -/
theorem C136_binding (h : RealRsa priv pub) (hp : Pkcs1 prim hash) (hp' : Pkcs1 prim' hash') (hsk : priv sk = some (n, d))
    (hpk : pub pk = some (n, e)) (hk : RsaKey n e d) (name name' : Str) (rnd : Nat) (m m' : Bytes) :
    (asymVerifier name prim' pk).verify m' ((asymSigner name' prim sk).sign rnd m) = true ↔ prim = prim' ∧ hash m = hash m' := by
  rw [C136_one_signature h hp' hsk hpk hk name name' rnd]
  have hn : n ≠ 0 := by have := hk.2; intro h0; rw [h0] at this; exact absurd this (by decide)
  have hinj : ∀ {a b : Bytes}, encode a = encode b → a = b := fun e => C31_injective _ _ e
  constructor
  · intro hs
    have hs := hinj hs
    rw [h.signs hp hsk, h.signs hp' hsk, Rsa.signature, Rsa.signature] at hs
    have hs := congrArg Der.ofBytes hs
    have hl := Rsa.emsa_lt hn (h.fits hp hk m)
    have hl' := Rsa.emsa_lt hn (h.fits hp' hk m')
    have lt : ∀ x, x % n < 256 ^ Rsa.size n := fun x => Nat.lt_trans (Nat.mod_lt _ (by omega)) (Rsa.lt_size n)
    rw [Rsa.ofBytes_toBytes, Rsa.ofBytes_toBytes, Nat.mod_eq_of_lt (lt _), Nat.mod_eq_of_lt (lt _)] at hs
    have hs := congrArg (fun x => x ^ e % n) hs
    rw [(rsa_inverse hk hl).1, (rsa_inverse hk hl').1] at hs
    have hs := Rsa.ofBytes_inj (by rw [Rsa.emsa_length (h.fits hp hk m), Rsa.emsa_length (h.fits hp' hk m')]) hs
    have h94 := Rsa.size_large hk.2
    cases hp <;> cases hp'
    · refine ⟨rfl, ?_⟩
      simp only [infoOf, Rsa.emsa, List.length_append, h.size256] at hs
      exact List.append_cancel_left (List.append_cancel_left hs)
    · exact absurd hs (emsa_ne h94 (h.size256 m) (h.size512 m'))
    · exact absurd hs.symm (emsa_ne h94 (h.size256 m') (h.size512 m))
    · refine ⟨rfl, ?_⟩
      simp only [infoOf, Rsa.emsa, List.length_append, h.size512] at hs
      exact List.append_cancel_left (List.append_cancel_left hs)
  · rintro ⟨rfl, he⟩
    have : hash = hash' := by cases hp <;> cases hp' <;> rfl
    subst this
    simp only [asymSigner, h.signs hp hsk, Rsa.signature, Rsa.emsa, he]

/-- C136. A request that carries the signature of a request that was signed with the private key, and is accepted with the public key: it says what
was signed, or the text that was signed and that of the request are a collision of the hash. -/
theorem C136_accepted {R S Rem : Type} [ClientRequestLike R] [LawfulClient R] [ServerRequestLike S Rem] (h : RealRsa priv pub)
    (hp : Pkcs1 prim hash) (hp' : Pkcs1 prim' hash') (hsk : priv sk = some (n, d)) (hpk : pub pk = some (n, e)) (hk : RsaKey n e d)
    (ev : SigningEvent R) (he : ev.Careful) (name name' : Str) (base : Bytes) (hs : ev.config.signature = asymSigner name prim sk)
    (hb : ev.Base base) (req : S) (w label : Str) (hw : RequestLike.derive req (.header hSignature) = .ok (some w))
    (hsig : SignatureHeader w label (ev.config.signature.sign ev.env.rnd base))
    (vc : VerifyingConfig) (venv : VerifyEnv) (rem : Rem) (kid : Str) (hkp : vc.keyProvider kid = [asymVerifier name' prim' pk])
    (hv : verify req vc venv = .ok (.ok (rem, kid))) :
    prim = prim' ∧ ∃ v c base' si, RequestLike.derive req (.header hSignatureInput) = .ok (some v) ∧
      CanonicalizeConfig.fromSignatureInput v = .ok (.ok c) ∧ canonicalize req c = .ok (.ok (base', si)) ∧
      (ev.config.keyId = kid ∧ Authentic ev req c.components c.params.params ∨ base ≠ base' ∧ hash base = hash base') := by
  obtain ⟨v, c, w', label', sig, base', si, h1, h2, h3, h4, h5, ⟨k, hkm, hacc⟩, h6⟩ :=
    C75_authentic_or_forged [ev] (fun _ hm => by rw [List.mem_singleton.1 hm]; exact he) req vc venv rem kid hv
  rw [hw] at h4
  cases h4
  rw [(signatureHeader_det hsig h5).2.symm, hs] at hacc
  rw [hkp, List.mem_singleton] at hkm
  subst hkm
  obtain ⟨hprim, heq⟩ := (C136_binding h hp hp' hsk hpk hk name' name ev.env.rnd base base').1 hacc
  refine ⟨hprim, v, c, base', si, h1, h2, h3, ?_⟩
  by_cases hbb : base = base'
  · subst hbb
    rcases h6 with ⟨e', he', h7, h8⟩ | h6
    · rw [List.mem_singleton.1 he'] at h7 h8
      exact .inl ⟨h7, h8⟩
    · exact absurd hb (h6 ev (List.mem_singleton.2 rfl))
  · exact .inr ⟨hbb, heq⟩

/-- C136. The two commands of the validator's README in a pipe, with the two files of an RSA key pair: the second accepts what the first wrote, exactly
if its clock is after 1970 and the digest in the request is right for the body. -/
theorem C136_readme (hr : RealRsa priv pub) (h h' : Host) (out pem pem' : Bytes) (hs : readmeSign.main h = ⟨out, .ok (.ok ())⟩)
    (hf : h.files (str% "../test_data/rsa-private.pem") = .contents pem) (hkey : privatePkcs8Pem pem = some sk)
    (hin : h'.stdin = some out) (ht : h'.trace = true → h.trace = true)
    (hf' : h'.files (str% "../test_data/rsa-public.pem") = .contents pem')
    (hkey' : publicSpkiPem pem' = some pk ∨ publicSpkiPem pem' = none ∧ publicPkcs1Pem pem' = some pk)
    (hsk : priv sk = some (n, d)) (hpk : pub pk = some (n, e)) (hk : RsaKey n e d) :
    ∃ req, ReadsRequest readmeSign h req ∧
      ((readmeVerify.main h').status = .ok (.ok ()) ↔ 0 ≤ h'.verifyEnv.sysNow ∧ DigestFits req) := by
  obtain ⟨req, host, date, digest, pem₁, key, h1, _, _, _, h2, h3, h4⟩ := C133_pipe h out hs
  rw [hf] at h2
  cases h2
  rw [hkey] at h3
  cases h3
  refine ⟨req, h1, ?_⟩
  rw [(h4 h' hin ht).2]
  refine ⟨fun ⟨a, b, _⟩ => ⟨a, b⟩, fun ⟨a, b⟩ => ⟨a, b, pem', pk, hf', hkey', C136_pair hr .sha256 hsk hpk hk _ _⟩⟩

end

/-! ### Examples -/

def exN : Nat := (2 ^ 521 - 1) * (2 ^ 607 - 1)
def exD : Nat := 0x2a7fd5802a7fd5802a7fd5802a7fd5802a7fd5802a7fd5802a7fd5802a7fd5802a7fd5802a7fd5802a7fd5802a7fd5802a7fd5802a7fd5802a7fd5802a7fd5802a5555aaaa5555aaaa5555aa0055ffaa0055ffaa0055ffaa0055ffaa0055ffaa0055ffaa0055ffaa0055ffaa0055ffaa0055ffaa0055ffaa0055ffaa0055ffaa0055ffaa0055ffaa0055ffaa01

/-- PKCS#1 v1.5 with one key pair and a toy hash. -/
@[reducible] def pkcs1Deps : Deps :=
  { toyDeps with
    sha256 := toyHash 32
    sha512 := toyHash 64
    asymSign := fun p _ _ m => match p with
      | .rsaPkcs1Sha512 => Rsa.signatureFast Rsa.info512 (toyHash 64) exN exD m
      | _ => Rsa.signatureFast Rsa.info256 (toyHash 32) exN exD m
    asymVerify := fun p _ m t => match p with
      | .rsaPkcs1Sha512 => Rsa.acceptsFast Rsa.info512 (toyHash 64) exN 65537 m t
      | _ => Rsa.acceptsFast Rsa.info256 (toyHash 32) exN 65537 m t }

theorem pkcs1Deps_real : @RealRsa pkcs1Deps (fun _ => some (exN, exD)) (fun _ => some (exN, 65537)) := by
  have size : ∀ n m, (toyHash n m).length = n := fun n m => by simp [toyHash, List.length_take]
  refine @RealRsa.mk pkcs1Deps _ _ ?_ ?_ ?_ ?_ (size 32) (size 64)
  · intro k n d rnd m h
    obtain ⟨rfl, rfl⟩ := Prod.mk.inj (Option.some.inj h)
    change Rsa.signatureFast _ _ _ _ _ = _
    rw [Rsa.signatureFast_eq]
    rfl
  · intro k n d rnd m h
    obtain ⟨rfl, rfl⟩ := Prod.mk.inj (Option.some.inj h)
    change Rsa.signatureFast _ _ _ _ _ = _
    rw [Rsa.signatureFast_eq]
    rfl
  · intro k n e m t h
    obtain ⟨rfl, rfl⟩ := Prod.mk.inj (Option.some.inj h)
    change Rsa.acceptsFast _ _ _ _ _ _ = _
    rw [Rsa.acceptsFast_eq]
    rfl
  · intro k n e m t h
    obtain ⟨rfl, rfl⟩ := Prod.mk.inj (Option.some.inj h)
    change Rsa.acceptsFast _ _ _ _ _ _ = _
    rw [Rsa.acceptsFast_eq]
    rfl

/-- The numbers of the example are an RSA key. -/
theorem exN_key : RsaKey exN 65537 exD := exRsaKeyNumbers

section
attribute [local instance] pkcs1Deps

/-- Texts whose signatures are accepted, and not. -/
example : ((asymVerifier (str% "rsa-v1_5-sha256") .rsaPkcs1Sha256 []).verify [1, 2, 3]
      ((asymSigner (str% "rsa-v1_5-sha256") .rsaPkcs1Sha256 []).sign 0 [1, 2, 3]) = true) ∧
    ((asymVerifier (str% "rsa-v1_5-sha256") .rsaPkcs1Sha256 []).verify [1, 2, 4]
      ((asymSigner (str% "rsa-v1_5-sha256") .rsaPkcs1Sha256 []).sign 0 [1, 2, 3]) = false) := by decide +kernel

def exRsaSigning : SigningConfig := { exSigning with signature := asymSigner (str% "rsa-v1_5-sha256") .rsaPkcs1Sha256 [] }
def exRsaVerifying : VerifyingConfig :=
  { exVerifying with keyProvider := fun kid => if kid = str% "k1" then [asymVerifier (str% "rsa-v1_5-sha256") .rsaPkcs1Sha256 []] else [] }

/-- The hypotheses of `C136_accepted`: a request that is signed with the private key and accepted with the public key. -/
example : (match sign (exMock [(hHost, ⟨utf8 (str% "example.com"), rfl⟩)] (some (utf8 (str% "hello")))) exRsaSigning exSignEnv with
    | .ok (r', .ok ()) => (match verify r' exRsaVerifying exEnv with
      | .ok (.ok ((), k)) => decide (k = str% "k1")
      | _ => false)
    | _ => false) = true := by decide +kernel

/-- The request of `exReadmeDigest` with the digest for this hash. -/
def exReadmeRsa : Host :=
  { exReadmeHost with
    stdin := some (utf8 (str% "POST /a HTTP/1.1\nHost: h\nDate: today\nDigest: SHA-256=aGVsbG8BAQEBAQEBAQEBAQEBAQEBAQEBAQEBAQEBAQE=\n\nhello")) }

/-- The hypotheses of `C136_readme`: both commands succeed. -/
example : (match (readmeSign.main exReadmeRsa).status with
    | .ok (.ok ()) => true
    | _ => false) = true ∧
    (match (readmeVerify.main { exReadmeRsa with stdin := some (readmeSign.main exReadmeRsa).stdout }).status with
    | .ok (.ok ()) => true
    | _ => false) = true := by decide +kernel
end

end Httpsig
