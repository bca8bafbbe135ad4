import Verif.Lemmas.Ecdsa
import Verif.Props.Algo
import Verif.Props.Hmac
import Verif.Props.Unsigned
import Verif.Props.EndToEnd
import Verif.Props.Status
/-
Claim C138: ECDSA keys and signatures on P-256.
-/
namespace Httpsig
open Base64

section
variable [Deps] {priv : Bytes → Option Nat} {sk pk : Bytes} {d : Nat}

/-- C138. A signature text is accepted exactly if it is the base64 of the DER encoding of two numbers that are an ECDSA signature on the
SHA-256 of the text; and only for keys that are points of the curve. -/
theorem C138_accepted (h : RealEcdsa priv) (name : Str) (m : Bytes) (s : Str) :
    (asymVerifier name .ecdsaP256Sha256Asn1 pk).verify m s = true ↔
      ∃ A r x t, EcKey A pk ∧ IsBase64 s t ∧ EcdsaSig r x t ∧ EcdsaValid A (bigEndian (Deps.sha256 m)) r x := by
  simp only [asymVerifier, b64Verify]
  cases hd : strictDecode s with
  | none =>
    simp only [Bool.false_eq_true, false_iff]
    rintro ⟨A, r, x, t, _, hb, _⟩
    rw [isBase64_iff.1 hb, strictDecode_encode] at hd
    cases hd
  | some t =>
    simp only
    rw [h.verify, P256.verify_iff]
    constructor
    · rintro ⟨A, r, x, h1, h2, h3⟩
      exact ⟨A, r, x, t, h1, isBase64_iff.2 (encode_of_strictDecode _ _ hd).symm, h2, h3⟩
    · rintro ⟨A, r, x, t', h1, hb, h2, h3⟩
      rw [isBase64_iff.1 hb, strictDecode_encode] at hd
      obtain rfl := Option.some.inj hd
      exact ⟨A, r, x, h1, h2, h3⟩

/-- C138. The two keys of an ECDSA key pair fit together, whatever the nonces are: the public key is the base point, multiplied by the
private key. -/
theorem C138_pair (h : RealEcdsa priv) (hsk : priv sk = some d) (G : curve.Point) (hG : HasCoords G P256.gx P256.gy)
    (hpk : EcKey (d • G) pk) : KeyPair .ecdsaP256Sha256Asn1 sk pk := by
  intro rnd m
  rw [(P256.hasCoords_G G).1 hG] at hpk
  obtain ⟨k, r, s, h1, h2⟩ := h.sign sk d rnd m hsk
  have h3 := P256.sign_valid h1
  rw [h.verify, h2, P256.verify_iff]
  rw [Der.ofBytes_eq] at h3
  exact ⟨_, r, s, hpk, P256.derSig_facts h3.2.1 h3.2.2.2.1, h3⟩

omit [Deps] in
/-- C138. Every private key that is a number between 1 and the order of the group has a public key, and only one; and every public key
that is a point of the curve belongs to such a number. -/
theorem C138_keys (G : curve.Point) (hG : HasCoords G P256.gx P256.gy) :
    (∀ d, 0 < d → d < P256.q → ∃ pk, ∀ pk', EcKey (d • G) pk' ↔ pk' = pk) ∧
    (∀ A pk, EcKey A pk → ∃ d, 0 < d ∧ d < P256.q ∧ A = d • G ∧ ∀ d', d' < P256.q → A = d' • G → d' = d) := by
  rw [(P256.hasCoords_G G).1 hG]
  constructor
  · intro d h0 h1
    obtain ⟨pk, hpk⟩ := P256.ecKey_exists (A := d • P256.G) fun hz => by
      have := P256.smul_inj h1 P256.q_pos (hz.trans (zero_nsmul _).symm)
      omega
    exact ⟨pk, fun pk' => ⟨fun h' => P256.ecKey_unique h' hpk, fun h' => h' ▸ hpk⟩⟩
  · intro A pk hA
    obtain ⟨d, h1, rfl⟩ := P256.multiple A
    refine ⟨d, Nat.pos_of_ne_zero fun h0 => P256.ecKey_ne hA (by rw [h0, zero_nsmul]), h1, rfl, fun d' h2 he => (P256.smul_inj h1 h2 he).symm⟩

/-- C138. The two forms of a signature are different texts, and every key accepts them on the same texts. -/
theorem C138_two_forms (h : RealEcdsa priv) (s s' : Str) (hs : OtherForm s s') (name name' : Str) :
    s ≠ s' ∧ ∀ key m, (asymVerifier name .ecdsaP256Sha256Asn1 key).verify m s = (asymVerifier name' .ecdsaP256Sha256Asn1 key).verify m s' := by
  obtain ⟨r, x, t, t', h0, h1, h2, h3, h4, h5⟩ := hs
  have hodd := P256.q_odd
  constructor
  · rintro rfl
    have ht : t = t' := by
      have := (isBase64_iff.1 h4).symm.trans (isBase64_iff.1 h5)
      exact C31_injective _ _ this
    subst ht
    have := (P256.ecdsaSig_det h2 h3).2
    omega
  · intro key m
    have hneg : P256.q - (P256.q - x) = x := by omega
    rw [Bool.eq_iff_iff, C138_accepted h, C138_accepted h]
    constructor
    · rintro ⟨A, r', y, u, a1, a2, a3, a4⟩
      obtain rfl : u = t := C31_injective _ _ ((isBase64_iff.1 a2).symm.trans (isBase64_iff.1 h4))
      obtain ⟨rfl, rfl⟩ := P256.ecdsaSig_det h2 a3
      exact ⟨A, _, _, t', a1, h5, h3, P256.valid_neg a4⟩
    · rintro ⟨A, r', y, u, a1, a2, a3, a4⟩
      obtain rfl : u = t' := C31_injective _ _ ((isBase64_iff.1 a2).symm.trans (isBase64_iff.1 h5))
      obtain ⟨rfl, rfl⟩ := P256.ecdsaSig_det h3 a3
      have := P256.valid_neg a4
      rw [hneg] at this
      exact ⟨A, _, _, t, a1, h4, h2, this⟩

/-- C138. Every signature that is accepted has another form, and only one. -/
theorem C138_other_form (h : RealEcdsa priv) (name : Str) (m : Bytes) (s : Str)
    (hs : (asymVerifier name .ecdsaP256Sha256Asn1 pk).verify m s = true) : ∃ s', ∀ u, OtherForm s u ↔ u = s' := by
  obtain ⟨A, r, x, t, a1, a2, a3, a4⟩ := (C138_accepted h name m s).1 hs
  have b1 := a4.2.1
  have b2 := a4.2.2.1
  have b3 := a4.2.2.2.1
  have hd := P256.derSig_facts b1 (show P256.q - x < P256.q by omega)
  refine ⟨encode (P256.derSig r (P256.q - x)), fun u => ⟨?_, ?_⟩⟩
  · rintro ⟨r', x', t', t'', c0, c1, c2, c3, c4, c5⟩
    obtain rfl : t' = t := C31_injective _ _ ((isBase64_iff.1 c4).symm.trans (isBase64_iff.1 a2))
    obtain ⟨rfl, rfl⟩ := P256.ecdsaSig_det c2 a3
    rw [P256.ecdsaSig_unique hd c3]
    exact isBase64_iff.1 c5
  · rintro rfl
    exact ⟨r, x, t, _, b2, b3, a3, hd, a2, isBase64_encode _⟩

/-- C138. A signature does not tell with which key it was made: for every accepted signature and every other text there is a public key
with which the same signature is accepted on this text. -/
theorem C138_other_key (h : RealEcdsa priv) (name name' : Str) (m : Bytes) (s : Str)
    (hs : (asymVerifier name .ecdsaP256Sha256Asn1 pk).verify m s = true) (m' : Bytes) :
    ∃ pk', (asymVerifier name' .ecdsaP256Sha256Asn1 pk').verify m' s = true := by
  obtain ⟨A, r, x, t, a1, a2, a3, a4⟩ := (C138_accepted h name m s).1 hs
  obtain ⟨B, hB, hv⟩ := P256.valid_other_key a4 (bigEndian (Deps.sha256 m'))
  obtain ⟨pk', hpk⟩ := P256.ecKey_exists hB
  exact ⟨pk', (C138_accepted h name' m' s).2 ⟨B, r, x, t, hpk, a2, a3, hv⟩⟩

/-- C138. But only few keys fit: a signature on a text is accepted with at most four public keys. -/
theorem C138_few_keys (h : RealEcdsa priv) (m : Bytes) (s : Str) :
    ∃ keys : List Bytes, keys.length ≤ 4 ∧ ∀ name key, (asymVerifier name .ecdsaP256Sha256Asn1 key).verify m s = true → key ∈ keys := by
  by_cases hs : ∃ r x t, IsBase64 s t ∧ EcdsaSig r x t
  · obtain ⟨r, x, t, h1, h2⟩ := hs
    obtain ⟨L, hL, hm⟩ := P256.valid_few (bigEndian (Deps.sha256 m)) r x
    classical
    refine ⟨L.map fun A => if hA : ∃ key, EcKey A key then hA.choose else [], by simpa using hL, fun name key hk => ?_⟩
    obtain ⟨A, r', x', t', a1, a2, a3, a4⟩ := (C138_accepted h name m s).1 hk
    obtain rfl : t' = t := C31_injective _ _ ((isBase64_iff.1 a2).symm.trans (isBase64_iff.1 h1))
    obtain ⟨rfl, rfl⟩ := P256.ecdsaSig_det h2 a3
    refine List.mem_map.2 ⟨A, hm A a4, ?_⟩
    have hA : ∃ key, EcKey A key := ⟨key, a1⟩
    rw [dif_pos hA]
    exact P256.ecKey_unique hA.choose_spec a1
  · refine ⟨[], by simp, fun name key hk => absurd ?_ hs⟩
    obtain ⟨A, r, x, t, _, a2, a3, _⟩ := (C138_accepted h name m s).1 hk
    exact ⟨r, x, t, a2, a3⟩

/-- C138, for the validator's requests. If the `Signature` header of an accepted request is not covered and the keys are ECDSA keys, anyone can replace the signature by its
other form, and the request is accepted again. -/
theorem C138_request (h : RealEcdsa priv) (r : MockRequest) (config : VerifyingConfig) (env : VerifyEnv) (keyId : Str) (v : HeaderValue)
    (c : CanonicalizeConfig) (hv : r.headers.get hSignatureInput = some v)
    (hc : CanonicalizeConfig.fromSignatureInput (v.toStr.getD []) = .ok (.ok c)) (hnot : .header hSignature ∉ c.components)
    (hkeys : ∀ k ∈ config.keyProvider keyId, ∃ name pk, k = asymVerifier name .ecdsaP256Sha256Asn1 pk)
    (hacc : verify r config env = .ok (.ok ((), keyId))) :
    ∃ old w label s s' x, r.headers.get hSignature = some old ∧ old.toStr = some w ∧ SignatureHeader w label s ∧ OtherForm s s' ∧
      HeaderValue.toStr x = some (label ++ str% "=:" ++ s' ++ str% ":") ∧
      verify { r with headers := r.headers.insert hSignature x } config env = .ok (.ok ((), keyId)) := by
  have hne1 : hDigest ≠ hSignature := fun e => nomatch congrArg HeaderName.str e
  have hne2 : hSignatureInput ≠ hSignature := fun e => nomatch congrArg HeaderName.str e
  obtain ⟨c', s, base, hok, hreq, hdate, hdig⟩ := verify_ok_iff.1 hacc
  obtain ⟨v', e1, e2⟩ := hok.input
  have e1' := e1
  rw [mock_derive_header, hv] at e1
  cases e1
  rw [hc] at e2
  cases e2
  obtain ⟨w, label, e3, e4, e5⟩ := hok.signature
  rw [mock_derive_header] at e3
  cases hold : r.headers.get hSignature with
  | none => rw [hold] at e3; cases e3
  | some old =>
    rw [hold] at e3
    obtain rfl : old.toStr.getD [] = w := Option.some.inj (Except.ok.inj e3)
    cases hw : old.toStr with
    | none =>
      rw [hw] at e4
      obtain ⟨_, e, _⟩ := e4
      simp at e
    | some w =>
      rw [hw] at e4
      simp only [Option.getD_some] at e4
      obtain ⟨k, hk, hkv⟩ := hok.key
      obtain ⟨name, pk, rfl⟩ := hkeys k hk
      obtain ⟨s', hs'⟩ := C138_other_form h name base s hkv
      have hf := (hs' s').2 rfl
      obtain ⟨_, _, _, t', _, _, _, _, _, hb⟩ := id hf
      have hl : '=' ∉ label := by obtain ⟨_, _, h2, _⟩ := e4; exact h2
      have hvis : (label ++ str% "=:" ++ s' ++ str% ":").all isVisibleChar = true := by
        have hall := (toStr_facts hw).2
        obtain ⟨text, rfl, _, _⟩ := id e4
        rw [List.all_append, List.all_append, List.all_append, isBase64_iff.1 hb, encode_visible]
        simp only [Bool.and_true, Bool.and_eq_true, List.all_eq_true]
        exact ⟨⟨fun x hx => hall x (List.mem_append.2 (.inl hx)), by decide⟩, by decide⟩
      obtain ⟨x, _, hx⟩ := fromStr_visible hvis
      refine ⟨old, w, label, s, s', x, rfl, hw, e4, hf, hx, ?_⟩
      have hder : ∀ k, k ≠ .header hSignature →
          RequestLike.derive (self := ServerRequestLike.toRequestLike (Remnant := Unit)) r k =
          RequestLike.derive (self := ServerRequestLike.toRequestLike (Remnant := Unit)) { r with headers := r.headers.insert hSignature x } k := by
        intro k hk
        cases k with
        | derived d => rfl
        | header n =>
          rw [mock_derive_header, mock_derive_header]
          simp only
          rw [HeaderMap.get_insert_ne _ _ (fun e => hk (congrArg _ e))]
      obtain ⟨si, hcan⟩ := hok.canon
      rw [canonicalize_congr fun k hk => hder k (fun e => hnot (e ▸ hk))] at hcan
      have hd' := hder (.header hDigest) (fun e => hne1 (SignatureComponent.header.inj e))
      refine verify_ok_iff.2 ⟨c, s', base, ⟨⟨_, (hder _ (fun e => hne2 (SignatureComponent.header.inj e))).symm.trans e1', hc⟩,
        ⟨_, label, ?_, signatureHeader_made hl (base64_no_colon hb), e5⟩, hok.keyid, hok.alg, hok.clock, hok.window, ⟨_, hcan⟩,
        ⟨_, hk, ((C138_two_forms h s s' hf name name).2 pk base).symm.trans hkv⟩⟩, hreq, hdate, ?_⟩
      · rw [mock_derive_header]
        simp [HeaderMap.get_insert_self, hx]
      · unfold DigestOk at hdig ⊢
        rw [hd'] at hdig
        exact hdig

end

/-! ### Examples -/

/-- The nonce is 1, or 2 if 1 does not do. -/
def exNonce (h : Nat) : Nat × Nat := ((P256.sign 7 1 h).or (P256.sign 7 2 h)).getD (0, 0)

/-- Twice the base point. -/
def exTwoG : Nat × Nat :=
  (0x7cf27b188d034f7e8a52380304b51ac3c08969e277f21b35a60b48fc47669978,
   0x07775510db8ed040293d9ac69f7430dbba7dade63ce982299e04b79d227873d1)

def exEcSign (m : Bytes) : Bytes := P256.derSig (exNonce (Der.ofBytes (toyHash 32 m))).1 (exNonce (Der.ofBytes (toyHash 32 m))).2

/-- ECDSA with the private key 7 and a toy hash. -/
@[reducible] def ecdsaDeps : Deps :=
  { toyDeps with
    sha256 := toyHash 32
    asymSign := fun _ _ _ m => exEcSign m
    asymVerify := fun _ key m t => P256.verify (toyHash 32) key m t }

theorem exNonce_facts (h : Nat) : ∃ k r s, P256.sign 7 k h = some (r, s) ∧ exNonce h = (r, s) := by
  unfold exNonce
  cases h1 : P256.sign 7 1 h with
  | some rs => exact ⟨1, rs.1, rs.2, h1, rfl⟩
  | none =>
    cases h2 : P256.sign 7 2 h with
    | some rs => exact ⟨2, rs.1, rs.2, h2, rfl⟩
    | none =>
      exfalso
      have m2 : P256.mul 2 P256.g = some (exTwoG.1, exTwoG.2) := by decide +kernel
      have e1 := P256.sign_none (by decide +kernel) (by decide +kernel) (show P256.mul 1 P256.g = some (P256.gx, P256.gy) by decide +kernel) (by decide +kernel) h1
      have e2 := P256.sign_none (by decide +kernel) (by decide +kernel) m2 (by decide +kernel) h2
      have e3 : exTwoG.1 % P256.q * 7 % P256.q = P256.gx % P256.q * 7 % P256.q := by
        have : Nat.ModEq P256.q (h + exTwoG.1 % P256.q * 7) (h + P256.gx % P256.q * 7) := by unfold Nat.ModEq; rw [e1, e2]
        have := Nat.ModEq.add_left_cancel' _ this
        unfold Nat.ModEq at this
        exact this
      exact absurd e3 (by decide +kernel)

theorem exEcSign_facts (m : Bytes) : ∃ k r s, P256.sign 7 k (Der.ofBytes (toyHash 32 m)) = some (r, s) ∧ exEcSign m = P256.derSig r s := by
  obtain ⟨k, r, s, h1, h2⟩ := exNonce_facts (Der.ofBytes (toyHash 32 m))
  exact ⟨k, r, s, h1, by rw [exEcSign, h2]⟩

theorem ecdsaDeps_sha256 : @Deps.sha256 ecdsaDeps = toyHash 32 := rfl
theorem ecdsaDeps_sign (key : Bytes) (rnd : Nat) (m : Bytes) : @Deps.asymSign ecdsaDeps .ecdsaP256Sha256Asn1 key rnd m = exEcSign m := rfl
theorem ecdsaDeps_verify (key m t : Bytes) :
    @Deps.asymVerify ecdsaDeps .ecdsaP256Sha256Asn1 key m t = P256.verify (toyHash 32) key m t := rfl

theorem ecdsaDeps_real : @RealEcdsa ecdsaDeps (fun _ => some 7) :=
  @RealEcdsa.mk ecdsaDeps _
    (fun key d rnd m hd => by
      rw [← Option.some.inj hd, ecdsaDeps_sign, ecdsaDeps_sha256]
      exact exEcSign_facts m)
    (fun key m t => by rw [ecdsaDeps_verify, ecdsaDeps_sha256])

section
attribute [local instance] ecdsaDeps

def exEcKey : Bytes := P256.keyOf 7
def exEcSigning : SigningConfig := { exSigning with signature := asymSigner (str% "ecdsa-p256-sha256") .ecdsaP256Sha256Asn1 [] }
def exEcVerifying : VerifyingConfig :=
  { exVerifying with keyProvider := fun kid => if kid = str% "k1" then [asymVerifier (str% "ecdsa-p256-sha256") .ecdsaP256Sha256Asn1 exEcKey] else [] }

/-- The key of the example belongs to the private key 7. -/
example : ∃ G, HasCoords G P256.gx P256.gy ∧ EcKey (7 • G) exEcKey := by
  refine ⟨P256.G, (P256.hasCoords_G _).2 rfl, ?_⟩
  have h : P256.readKey exEcKey = P256.mul 7 P256.g := by decide +kernel
  rw [← P256.ofPoint_G, P256.mul_eq] at h
  cases hA : P256.ofPoint (7 • P256.G) with
  | none => exact absurd (h.trans hA) (by decide +kernel)
  | some xy =>
    obtain ⟨A, h1, h2⟩ := P256.readKey_iff.1 (h.trans hA)
    rwa [P256.ofPoint_inj (h2.trans hA.symm)] at h1

/-- The hypotheses of `C138_request`: a request that is signed with the private key and accepted with the public key, and does not cover
the `Signature` header. -/
example : (match sign (exMock [(hHost, ⟨utf8 (str% "example.com"), rfl⟩)] (some (utf8 (str% "hello")))) exEcSigning exSignEnv with
    | .ok (r', .ok ()) => (match verify r' exEcVerifying exEnv with
      | .ok (.ok ((), k)) => decide (k = str% "k1")
      | _ => false) &&
      (match (r'.headers.get hSignatureInput).map fun v => CanonicalizeConfig.fromSignatureInput (v.toStr.getD []) with
      | some (.ok (.ok c)) => decide (.header hSignature ∉ c.components)
      | _ => false)
    | _ => false) = true := by decide +kernel

/-- Two forms of a signature. -/
example : OtherForm (str% "MAYCAQUCAQk=") (encode (P256.derSig 5 (P256.q - 9))) := by
  refine ⟨5, 9, P256.derSig 5 9, _, by decide, by decide +kernel, P256.derSig_facts (by decide +kernel) (by decide +kernel),
    P256.derSig_facts (by decide +kernel) (by decide +kernel), isBase64_iff.2 (by decide +kernel), isBase64_encode _⟩
end

end Httpsig
