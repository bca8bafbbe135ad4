import Verif.Lemmas.Pss
import Verif.Spec.Pss
import Verif.Props.Rsa
/-
Claim C137: RSA signatures with PSS.
-/
namespace Httpsig
open Base64

namespace Pss

theorem large {n : Nat} (h : 256 ^ 131 ≤ n) : 64 + 64 + 3 ≤ (n.log2 + 7) / 8 := by
  have h1 : n < 2 ^ (n.log2 + 1) := Nat.lt_log2_self
  have h2 : 2 ^ (8 * 131) ≤ n := by rw [Nat.pow_mul]; exact h
  have := (Nat.pow_lt_pow_iff_right (by decide : 1 < 2)).1 (Nat.lt_of_le_of_lt h2 h1)
  omega

/-- The public key accepts the signatures of the private key, with all salts, and nothing else. -/
theorem accepts_iff {m tag : Bytes} {hash : Bytes → Bytes} {n e d : Nat} (hk : RsaKey n e d) (hn : 256 ^ 131 ≤ n)
    (hh : ∀ m, (hash m).length = 64) :
    accepts hash 64 64 n e m tag = true ↔ ∃ salt, salt.length = 64 ∧ tag = signature hash 64 n d salt m := by
  have hn0 : n ≠ 0 := by intro h0; rw [h0] at hn; exact absurd hn (by decide)
  have hsz := Rsa.lt_size n
  have hl := large hn
  have hpow : 2 ^ n.log2 ≤ n := Nat.log2_self_le hn0
  have henc : ∀ salt : Bytes, salt.length = 64 → Der.ofBytes (encode hash 64 n.log2 salt m) < n := fun salt hs =>
    Nat.lt_of_lt_of_le (encode_lt hh (by decide) (by rw [hs]; omega) m) hpow
  have hencl : ∀ salt : Bytes, salt.length = 64 → (encode hash 64 n.log2 salt m).length = (n.log2 + 7) / 8 := fun salt hs =>
    encode_length hh (by decide) (by rw [hs]; omega) m
  unfold accepts signature
  constructor
  · intro h
    split at h; · cases h
    split at h; · cases h
    simp only at h
    split at h; · cases h
    rename_i h1 h2 h3
    simp only [Decidable.not_not] at h1
    obtain ⟨salt, hs, he⟩ := (check_iff hh (by decide) hl (Rsa.toBytes_length _ _)).1 h
    refine ⟨salt, hs, ?_⟩
    have h4 := congrArg Der.ofBytes he
    rw [Rsa.ofBytes_toBytes, Nat.mod_eq_of_lt (by omega)] at h4
    rw [← h4, (rsa_inverse hk (by omega)).2, ← h1, Rsa.toBytes_ofBytes]
  · rintro ⟨salt, hs, rfl⟩
    have h5 : Der.ofBytes (encode hash 64 n.log2 salt m) ^ d % n < n := Nat.mod_lt _ (by omega)
    have h6 : Der.ofBytes (encode hash 64 n.log2 salt m) < 256 ^ ((n.log2 + 7) / 8) := by
      rw [Der.ofBytes_eq, ← hencl salt hs]; exact Der.bigEndian_lt _
    rw [if_neg (by rw [Rsa.toBytes_length]; simp), Rsa.ofBytes_toBytes, Nat.mod_eq_of_lt (Nat.lt_trans h5 hsz), if_neg (by omega)]
    simp only [(rsa_inverse hk (henc salt hs)).1]
    rw [if_neg (by omega)]
    refine (check_iff hh (by decide) hl (Rsa.toBytes_length _ _)).2 ⟨salt, hs, ?_⟩
    have := Rsa.toBytes_ofBytes (encode hash 64 n.log2 salt m)
    rwa [hencl salt hs] at this

/-- When signatures of different messages are the same. -/
theorem signature_eq_iff {m m' salt salt' : Bytes} {hash : Bytes → Bytes} {n e d : Nat} (hk : RsaKey n e d) (hn : 256 ^ 131 ≤ n)
    (hh : ∀ m, (hash m).length = 64) (hs : salt.length = 64) (hs' : salt'.length = 64) :
    signature hash 64 n d salt m = signature hash 64 n d salt' m' ↔
      salt = salt' ∧ hash (pssText hash salt m) = hash (pssText hash salt m') := by
  have hn0 : n ≠ 0 := by intro h0; rw [h0] at hn; exact absurd hn (by decide)
  have hl := large hn
  have hpow : 2 ^ n.log2 ≤ n := Nat.log2_self_le hn0
  have hlt : ∀ (salt m : Bytes), salt.length = 64 → Der.ofBytes (encode hash 64 n.log2 salt m) < n := fun salt m hs =>
    Nat.lt_of_lt_of_le (encode_lt hh (by decide) (by rw [hs]; omega) m) hpow
  have hlen : ∀ (salt m : Bytes), salt.length = 64 → (encode hash 64 n.log2 salt m).length = (n.log2 + 7) / 8 := fun salt m hs =>
    encode_length hh (by decide) (by rw [hs]; omega) m
  have lt : ∀ x, x % n < 256 ^ Rsa.size n := fun x => Nat.lt_trans (Nat.mod_lt _ (by omega)) (Rsa.lt_size n)
  have hinj := encode_inj (emBits := n.log2) hh (by decide) (hs.trans hs'.symm) (by rw [hs]; omega) (m := m) (m' := m')
  refine Iff.trans ⟨fun h => ?_, fun h => ?_⟩ hinj
  · have h := congrArg Der.ofBytes h
    rw [signature, signature, Rsa.ofBytes_toBytes, Rsa.ofBytes_toBytes, Nat.mod_eq_of_lt (lt _), Nat.mod_eq_of_lt (lt _)] at h
    have h := congrArg (fun x => x ^ e % n) h
    rw [(rsa_inverse hk (hlt _ _ hs)).1, (rsa_inverse hk (hlt _ _ hs')).1] at h
    exact Rsa.ofBytes_inj (by rw [hlen _ _ hs, hlen _ _ hs']) h
  · rw [signature, signature, h]

end Pss

section
variable [Deps] {priv pub : Bytes → Option (Nat × Nat)} {salt : Nat → Bytes} {sk pk : Bytes} {n e d : Nat}

theorem RealPss.accepted_iff (h : RealPss priv pub salt) (hsk : priv sk = some (n, d)) (hpk : pub pk = some (n, e))
    (hk : RsaKey n e d) (hn : 256 ^ 131 ≤ n) (m t : Bytes) :
    Deps.asymVerify .rsaPssSha512 pk m t = true ↔ ∃ rnd, t = Deps.asymSign .rsaPssSha512 sk rnd m := by
  rw [h.verify _ _ _ _ _ hpk, Pss.accepts_iff hk hn h.size512]
  constructor
  · rintro ⟨s, hs, rfl⟩
    obtain ⟨rnd, rfl⟩ := h.every s hs
    exact ⟨rnd, (h.sign _ _ _ _ _ hsk).symm⟩
  · rintro ⟨rnd, rfl⟩
    exact ⟨salt rnd, h.salts rnd, h.sign _ _ _ _ _ hsk⟩

/-- C137. The two keys of an RSA key pair fit together for PSS. -/
theorem C137_pair (h : RealPss priv pub salt) (hsk : priv sk = some (n, d)) (hpk : pub pk = some (n, e)) (hk : RsaKey n e d)
    (hn : 256 ^ 131 ≤ n) : KeyPair .rsaPssSha512 sk pk :=
  fun rnd _ => (h.accepted_iff hsk hpk hk hn _ _).2 ⟨rnd, rfl⟩

/-- C137. The signatures that are accepted for a text are exactly those that the signer can make. -/
theorem C137_signatures (h : RealPss priv pub salt) (hsk : priv sk = some (n, d)) (hpk : pub pk = some (n, e)) (hk : RsaKey n e d)
    (hn : 256 ^ 131 ≤ n) (name name' : Str) (m : Bytes) (s : Str) :
    (asymVerifier name .rsaPssSha512 pk).verify m s = true ↔ ∃ rnd, s = (asymSigner name' .rsaPssSha512 sk).sign rnd m := by
  simp only [asymVerifier, asymSigner, b64Verify]
  cases hd : strictDecode s with
  | none =>
    simp only [Bool.false_eq_true, false_iff]
    rintro ⟨rnd, hs⟩
    rw [hs, strictDecode_encode] at hd
    cases hd
  | some t =>
    rw [h.accepted_iff hsk hpk hk hn]
    constructor
    · rintro ⟨rnd, rfl⟩; exact ⟨rnd, (encode_of_strictDecode _ _ hd).symm⟩
    · rintro ⟨rnd, rfl⟩; rw [strictDecode_encode] at hd; exact ⟨rnd, (Option.some.inj hd).symm⟩

/-- C137. Signatures made with different salts are different, so the signature string of a text can be changed by whoever can sign. -/
theorem C137_salted (h : RealPss priv pub salt) (hsk : priv sk = some (n, d)) (hk : RsaKey n e d) (hn : 256 ^ 131 ≤ n) (name : Str)
    (rnd rnd' : Nat) (m : Bytes) :
    (asymSigner name .rsaPssSha512 sk).sign rnd m = (asymSigner name .rsaPssSha512 sk).sign rnd' m ↔ salt rnd = salt rnd' := by
  simp only [asymSigner, h.sign _ _ _ _ _ hsk]
  refine ⟨fun he => ((Pss.signature_eq_iff hk hn h.size512 (h.salts _) (h.salts _)).1 (C31_injective _ _ he)).1, fun he => ?_⟩
  rw [he]

/-- C137. A signature is accepted on another text exactly if what PSS hashes for the two texts, with the salt of the signature, has the same hash. -/
theorem C137_binding (h : RealPss priv pub salt) (hsk : priv sk = some (n, d)) (hpk : pub pk = some (n, e)) (hk : RsaKey n e d)
    (hn : 256 ^ 131 ≤ n) (name name' : Str) (rnd : Nat) (m m' : Bytes) :
    ((asymVerifier name .rsaPssSha512 pk).verify m' ((asymSigner name' .rsaPssSha512 sk).sign rnd m) = true ↔
      Deps.sha512 (pssText Deps.sha512 (salt rnd) m) = Deps.sha512 (pssText Deps.sha512 (salt rnd) m')) ∧
    ((asymVerifier name .rsaPssSha512 pk).verify m' ((asymSigner name' .rsaPssSha512 sk).sign rnd m) = true →
      m = m' ∨ PssCollision Deps.sha512 (salt rnd) m m') := by
  have key : (asymVerifier name .rsaPssSha512 pk).verify m' ((asymSigner name' .rsaPssSha512 sk).sign rnd m) = true ↔
      Deps.sha512 (pssText Deps.sha512 (salt rnd) m) = Deps.sha512 (pssText Deps.sha512 (salt rnd) m') := by
    rw [C137_signatures h hsk hpk hk hn name name']
    simp only [asymSigner, h.sign _ _ _ _ _ hsk]
    constructor
    · rintro ⟨rnd', he⟩
      exact ((Pss.signature_eq_iff hk hn h.size512 (h.salts _) (h.salts _)).1 (C31_injective _ _ he)).2
    · intro he
      exact ⟨rnd, congrArg _ ((Pss.signature_eq_iff hk hn h.size512 (h.salts _) (h.salts _)).2 ⟨rfl, he⟩)⟩
  refine ⟨key, fun hv => ?_⟩
  by_cases h1 : m = m'
  · exact .inl h1
  by_cases h2 : Deps.sha512 m = Deps.sha512 m'
  · exact .inr (.inl ⟨h1, h2⟩)
  · refine .inr (.inr ⟨fun he => h2 ?_, key.1 hv⟩)
    exact List.append_cancel_left (List.append_cancel_right he)

/-- C137. A request that carries the signature of a request that was signed with the private key, and is accepted with the public key: it says what
was signed, or there is a collision of SHA-512 among the texts that were hashed for the two. -/
theorem C137_accepted {R S Rem : Type} [ClientRequestLike R] [LawfulClient R] [ServerRequestLike S Rem] (h : RealPss priv pub salt)
    (hsk : priv sk = some (n, d)) (hpk : pub pk = some (n, e)) (hk : RsaKey n e d) (hn : 256 ^ 131 ≤ n)
    (ev : SigningEvent R) (he : ev.Careful) (name name' : Str) (base : Bytes) (hs : ev.config.signature = asymSigner name .rsaPssSha512 sk)
    (hb : ev.Base base) (req : S) (w label : Str) (hw : RequestLike.derive req (.header hSignature) = .ok (some w))
    (hsig : SignatureHeader w label (ev.config.signature.sign ev.env.rnd base))
    (vc : VerifyingConfig) (venv : VerifyEnv) (rem : Rem) (kid : Str) (hkp : vc.keyProvider kid = [asymVerifier name' .rsaPssSha512 pk])
    (hv : verify req vc venv = .ok (.ok (rem, kid))) :
    ∃ v c base' si, RequestLike.derive req (.header hSignatureInput) = .ok (some v) ∧
      CanonicalizeConfig.fromSignatureInput v = .ok (.ok c) ∧ canonicalize req c = .ok (.ok (base', si)) ∧
      (ev.config.keyId = kid ∧ Authentic ev req c.components c.params.params ∨ PssCollision Deps.sha512 (salt ev.env.rnd) base base') := by
  obtain ⟨v, c, w', label', sig, base', si, h1, h2, h3, h4, h5, ⟨k, hkm, hacc⟩, h6⟩ :=
    C75_authentic_or_forged [ev] (fun _ hm => by rw [List.mem_singleton.1 hm]; exact he) req vc venv rem kid hv
  rw [hw] at h4
  cases h4
  rw [(signatureHeader_det hsig h5).2.symm, hs] at hacc
  rw [hkp, List.mem_singleton] at hkm
  subst hkm
  refine ⟨v, c, base', si, h1, h2, h3, ?_⟩
  rcases (C137_binding h hsk hpk hk hn name' name ev.env.rnd base base').2 hacc with rfl | hcoll
  · rcases h6 with ⟨e', he', h7, h8⟩ | h6
    · rw [List.mem_singleton.1 he'] at h7 h8
      exact .inl ⟨h7, h8⟩
    · exact absurd hb (h6 ev (List.mem_singleton.2 rfl))
  · exact .inr hcoll

end

/-! ### Examples -/

/-- PSS with one key pair and a toy hash. -/
@[reducible] def pssDeps : Deps :=
  { toyDeps with
    sha512 := toyHash 64
    asymSign := fun _ _ rnd m => Pss.signatureFast (toyHash 64) 64 exN exD (Rsa.toBytes 64 rnd) m
    asymVerify := fun _ _ m t => Pss.acceptsFast (toyHash 64) 64 64 exN 65537 m t }

theorem pssDeps_real : @RealPss pssDeps (fun _ => some (exN, exD)) (fun _ => some (exN, 65537)) (Rsa.toBytes 64) := by
  have size : ∀ n m, (toyHash n m).length = n := fun n m => by simp [toyHash, List.length_take]
  refine @RealPss.mk pssDeps _ _ _ ?_ ?_ (size 64) (fun rnd => Rsa.toBytes_length _ _) ?_
  · intro k n d rnd m h
    obtain ⟨rfl, rfl⟩ := Prod.mk.inj (Option.some.inj h)
    change Pss.signatureFast _ _ _ _ _ _ = _
    rw [Pss.signatureFast_eq]
    rfl
  · intro k n e m t h
    obtain ⟨rfl, rfl⟩ := Prod.mk.inj (Option.some.inj h)
    change Pss.acceptsFast _ _ _ _ _ _ _ = _
    rw [Pss.acceptsFast_eq]
    rfl
  · intro s hs
    exact ⟨Der.ofBytes s, by have := Rsa.toBytes_ofBytes s; rwa [hs] at this⟩

/-- The modulus is long enough. -/
theorem exN_long : 256 ^ 131 ≤ exN := by decide +kernel

section
attribute [local instance] pssDeps

/-- Two signatures of a text that are accepted, and a text for which one of them is not. -/
example : let v := asymVerifier (str% "rsa-pss-sha512") .rsaPssSha512 []
    let s := asymSigner (str% "rsa-pss-sha512") .rsaPssSha512 []
    v.verify [1, 2, 3] (s.sign 7 [1, 2, 3]) = true ∧ v.verify [1, 2, 3] (s.sign 8 [1, 2, 3]) = true ∧
    s.sign 7 [1, 2, 3] ≠ s.sign 8 [1, 2, 3] := by decide +kernel

def exPssSigning : SigningConfig := { exSigning with signature := asymSigner (str% "rsa-pss-sha512") .rsaPssSha512 [] }
def exPssVerifying : VerifyingConfig :=
  { exVerifying with keyProvider := fun kid => if kid = str% "k1" then [asymVerifier (str% "rsa-pss-sha512") .rsaPssSha512 []] else [] }

/-- The hypotheses of `C137_accepted`: a request that is signed with the private key and accepted with the public key. -/
example : (match sign (exMock [(hHost, ⟨utf8 (str% "example.com"), rfl⟩)] (some (utf8 (str% "hello")))) exPssSigning exSignEnv with
    | .ok (r', .ok ()) => (match verify r' exPssVerifying exEnv with
      | .ok (.ok ((), k)) => decide (k = str% "k1")
      | _ => false)
    | _ => false) = true := by decide +kernel
end

end Httpsig
