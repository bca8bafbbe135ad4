import Verif.Spec.Base64
import Verif.Lemmas.Base64
import Verif.Lemmas.SfvChars
import Verif.Lemmas.Lists
import Verif.Lemmas.Verify
import Verif.Lemmas.Render
import Verif.Model.Verifying
import Verif.Spec.TestDeps
/-
C30, C31, C38, C45: algorithms.
-/
set_option linter.unusedSectionVars false
namespace Httpsig
open Base64 Sfv

/-! ### C31 -/

/-- C31. The text in `Signature` and `Digest` headers is the RFC 4648 encoding of the bytes. -/
theorem C31_rfc4648 (b : Bytes) : IsBase64 (encode b) b := isBase64_encode b

/-- C31. Decoding is exact: a text decodes to `b` if and only if it is the encoding of `b`. -/
theorem C31_lossless (text : Str) (b : Bytes) : strictDecode text = some b ↔ text = encode b :=
  ⟨fun h => (encode_of_strictDecode text b h).symm, fun h => by rw [h, strictDecode_encode]⟩

theorem alphabet_spec : ∀ c ∈ base64Alphabet, c.isAlphanum = true ∨ c = '+' ∨ c = '/' := by decide

/-- C31. The text consists of letters, digits, `+`, `/` and `=`; in particular it has no `:`, no `,`, no quote, no
whitespace and no character that a header value cannot carry. -/
theorem C31_header_safe (b : Bytes) : ∀ c ∈ encode b, c.isAlphanum = true ∨ c = '+' ∨ c = '/' ∨ c = '=' := by
  obtain ⟨syms, pad, h1, _, _, h4, _⟩ := C31_rfc4648 b
  intro c hc
  rw [h1, List.mem_append] at hc
  rcases hc with hc | hc
  · rcases alphabet_spec c (h4 c hc) with h | h | h
    · exact .inl h
    · exact .inr (.inl h)
    · exact .inr (.inr (.inl h))
  · exact .inr (.inr (.inr (List.eq_of_mem_replicate hc)))

/-- C31. No two byte strings share a text. -/
theorem C31_injective (a b : Bytes) (h : encode a = encode b) : a = b := by
  have := (C31_lossless _ b).2 h
  rw [strictDecode_encode] at this
  exact Option.some.inj this

example : IsBase64 (str% "aGVsbG8=") (utf8 (str% "hello")) := C31_rfc4648 (utf8 (str% "hello"))
example : strictDecode (str% "aGVsbG9=") = none ∧ strictDecode (str% "aGVsbG8") = none := by decide

/-! ### C30 -/

variable [Deps]

/-- C30. A verifier of an HMAC scheme accepts exactly one text for each message: the one the signer makes. -/
theorem C30_hmac_unmalleable (key content : Bytes) (rnd : Nat) (s : Str) :
    ((hmacSha256Verify key).verify content s = true ↔ s = (hmacSha256Sign key).sign rnd content) ∧
    ((hmacSha512Verify key).verify content s = true ↔ s = (hmacSha512Sign key).sign rnd content) := by
  have gen : ∀ (name : Str) (mac : Bytes → Bytes), (hmacVerify name mac).verify content s = true ↔
      s = (hmacSign name mac).sign rnd content := by
    intro name mac
    simp only [hmacVerify, hmacSign, b64Verify]
    cases h : strictDecode s with
    | none =>
      simp only [Bool.false_eq_true, false_iff]
      intro hs
      rw [hs, strictDecode_encode] at h
      cases h
    | some tag =>
      have := (C31_lossless s tag).1 h
      simp only [decide_eq_true_eq]
      constructor
      · rintro rfl; exact this
      · intro hs; rw [this] at hs; exact C31_injective _ _ hs
  exact ⟨gen _ _, gen _ _⟩

/-- C30. Hence a text accepted for two messages, or under two keys, means that the tags collide. -/
theorem C30_no_reuse (k1 k2 m1 m2 : Bytes) (s : Str) (h1 : (hmacSha256Verify k1).verify m1 s = true)
    (h2 : (hmacSha256Verify k2).verify m2 s = true) : Deps.hmac256 k1 m1 = Deps.hmac256 k2 m2 := by
  have e1 := (C30_hmac_unmalleable k1 m1 0 s).1.1 h1
  have e2 := (C30_hmac_unmalleable k2 m2 0 s).1.1 h2
  exact C31_injective _ _ (e1.symm.trans e2)

/-! ### C38 -/

/-- Equality up to the case of ASCII letters. -/
def SameLetters (a b : Str) : Prop := a.map Char.toLower = b.map Char.toLower

theorem toLower_toNat (c : Char) : c.toLower.toNat = if 65 ≤ c.toNat ∧ c.toNat ≤ 90 then c.toNat + 32 else c.toNat := by
  unfold Char.toLower
  split
  · rename_i h
    have h1 : 65 ≤ c.toNat ∧ c.toNat ≤ 90 := by
      simp [UInt32.le_iff_toNat_le] at h
      omega
    rw [if_pos h1]
    show (c.val + 32).toNat = _
    rw [UInt32.toNat_add, Char.toNat_val]
    simp; omega
  · rename_i h
    rw [if_neg]
    intro h1
    apply h
    simp [UInt32.le_iff_toNat_le]
    omega
theorem asciiUpper_toNat (c : Char) : (asciiUpper c).toNat = if 97 ≤ c.toNat ∧ c.toNat ≤ 122 then c.toNat - 32 else c.toNat := by
  have hl : c.isLower = true ↔ 97 ≤ c.toNat ∧ c.toNat ≤ 122 := isLower_iff c
  unfold asciiUpper
  by_cases h : c.isLower = true
  · rw [if_pos h, if_pos (hl.1 h)]
    have := hl.1 h
    rw [charToNat_ofNat]
    simp [Nat.isValidChar]; omega
  · rw [if_neg h, if_neg (fun h' => h (hl.2 h'))]
theorem char_ext {a b : Char} (h : a.toNat = b.toNat) : a = b := by
  rw [← Char.ofNat_toNat a, ← Char.ofNat_toNat b, h]
theorem asciiUpper_eq_iff {x y : Char} (hy : y.isLower = false) : asciiUpper x = y ↔ x.toLower = y.toLower := by
  have hl : ¬ (97 ≤ y.toNat ∧ y.toNat ≤ 122) := by
    intro h
    rw [Bool.eq_false_iff] at hy
    exact hy ((isLower_iff y).2 h)
  have e1 := asciiUpper_toNat x
  have e2 := toLower_toNat x
  have e3 := toLower_toNat y
  constructor
  · rintro rfl
    apply char_ext
    rw [e2, e3]
    rw [e1] at hl ⊢
    repeat' split
    all_goals (try split at hl) <;> omega
  · intro h
    apply char_ext
    have h := congrArg Char.toNat h
    rw [e2, e3] at h
    rw [e1]
    split at h <;> split at h <;> split <;> omega

theorem upper_map_iff (target : Str) (ht : ∀ c ∈ target, c.isLower = false) (name : Str) :
    name.map asciiUpper = target ↔ SameLetters name target := by
  unfold SameLetters
  induction target generalizing name with
  | nil => cases name <;> simp
  | cons y ys ih =>
    cases name with
    | nil => simp
    | cons x xs =>
      simp only [List.map_cons, List.cons.injEq]
      rw [asciiUpper_eq_iff (ht y (by simp)), ih (fun c hc => ht c (by simp [hc]))]

/-- C38. The default digest provider knows SHA-256 and SHA-512 in any letter case, and nothing else. -/
theorem C38_default_provider (name : Str) (d : HttpDigest) : defaultDigestProvider name = some d ↔
    (SameLetters name (str% "SHA-256") ∧ d = documentedSha256) ∨ (SameLetters name (str% "SHA-512") ∧ d = documentedSha512) := by
  have h1 := upper_map_iff (str% "SHA-256") (by decide) name
  have h2 := upper_map_iff (str% "SHA-512") (by decide) name
  rw [show documentedSha256 = sha256Digest from rfl, show documentedSha512 = sha512Digest from rfl]
  unfold defaultDigestProvider
  simp only
  rw [← h1, ← h2]
  by_cases e1 : name.map asciiUpper = str% "SHA-256"
  · rw [if_pos e1, e1]
    simp [eq_comm]
  · rw [if_neg e1]
    by_cases e2 : name.map asciiUpper = str% "SHA-512"
    · rw [if_pos e2, e2]
      simp [eq_comm]
    · rw [if_neg e2]
      simp [e1, e2]

/-- C38. No digest is found for a name exactly when it is neither. -/
theorem C38_default_provider_unknown (name : Str) : defaultDigestProvider name = none ↔
    ¬ SameLetters name (str% "SHA-256") ∧ ¬ SameLetters name (str% "SHA-512") := by
  rw [Option.eq_none_iff_forall_ne_some]
  constructor
  · intro h
    exact ⟨fun h' => h _ ((C38_default_provider name _).2 (.inl ⟨h', rfl⟩)),
      fun h' => h _ ((C38_default_provider name _).2 (.inr ⟨h', rfl⟩))⟩
  · rintro ⟨h1, h2⟩ d hd
    rcases (C38_default_provider name d).1 hd with ⟨h, _⟩ | ⟨h, _⟩
    · exact h1 h
    · exact h2 h

example : (defaultDigestProvider (str% "sHa-512")).map (·.name) = some (str% "SHA-512") := rfl
example : defaultDigestProvider (str% "sha-256 ") = none :=
  (C38_default_provider_unknown _).2 ⟨by unfold SameLetters; decide, by unfold SameLetters; decide⟩

/-- C38. The entry of a digest header that is used is the first supported one, and unsupported ones are skipped. -/
theorem C38_first_supported (provider : Str → Option HttpDigest) (header : Str) (alg : HttpDigest) (value : Str) :
    selectDigest provider header = some (alg, value) ↔ FirstSupported provider header alg value :=
  selectDigest_iff


/-- C38. A digest header has a used entry exactly when one of its comma-separated entries is supported; the used entry is
then unique. -/
theorem C38_skips_unsupported (provider : Str → Option HttpDigest) (entries : List Str) (hne : entries ≠ [])
    (hc : ∀ e ∈ entries, ',' ∉ e) :
    (∃ alg value, FirstSupported provider (joinWith (str% ",") entries) alg value) ↔
      ∃ e ∈ entries, ∃ alg value, Supported provider e alg value := by
  constructor
  · rintro ⟨alg, value, before, entry, after, h1, h2, h3, _⟩
    have e1 := splitOn_joinWith hne hc
    have e2 := splitOn_joinWith (ps := before ++ entry :: after) (by simp) h2
    rw [h1, e2] at e1
    exact ⟨entry, by rw [← e1]; simp, alg, value, h3⟩
  · rintro ⟨e, he, hs⟩
    have gen : ∀ l : List Str, e ∈ l → ∃ before entry after, l = before ++ entry :: after ∧
        (∃ alg value, Supported provider entry alg value) ∧ ∀ e ∈ before, ∀ a v, ¬ Supported provider e a v := by
      intro l hl
      induction l with
      | nil => cases hl
      | cons x xs ih =>
        by_cases hx : ∃ alg value, Supported provider x alg value
        · exact ⟨[], x, xs, rfl, hx, by simp⟩
        · rcases List.mem_cons.1 hl with rfl | hl
          · exact absurd hs hx
          · obtain ⟨b, y, a, h1, h2, h3⟩ := ih hl
            refine ⟨x :: b, y, a, by simp [h1], h2, ?_⟩
            intro e he
            rcases List.mem_cons.1 he with rfl | he
            · exact fun a v h => hx ⟨a, v, h⟩
            · exact h3 e he
    obtain ⟨b, y, a, h1, ⟨alg, value, h2⟩, h3⟩ := gen entries he
    exact ⟨alg, value, b, y, a, by rw [h1], by rw [← h1]; exact hc, h2, h3⟩

/-! ### C45 -/

/-- The names under which the HTTP signature schemes are registered, by primitive. -/
def schemeName : Primitive → Str
  | .hmacSha256 => str% "hmac-sha256"
  | .hmacSha512 => str% "hmac-sha512"
  | .rsaPkcs1Sha256 => str% "rsa-v1_5-sha256"
  | .rsaPkcs1Sha512 => str% "rsa-v1_5-sha512"
  | .rsaPssSha256 => str% "rsa-pss-sha256"
  | .rsaPssSha512 => str% "rsa-pss-sha512"
  | .ecdsaP256Sha256Asn1 => str% "ecdsa-p256-sha256"

/-- The public key `pk` accepts what the private key `sk` signs with primitive `p`. -/
def KeyPair (p : Primitive) (sk pk : Bytes) : Prop := ∀ rnd m, Deps.asymVerify p pk m (Deps.asymSign p sk rnd m) = true

/-- C45. The two halves of every signature type report the same name and fit together: what the signing half makes, the
verifying half accepts, for every key pair that is one for the primitive of the signing half. -/
theorem C45_halves_match (e : AlgEntry) (he : e ∈ ringTable ++ opensslTable) (sk pk : Bytes)
    (hk : KeyPair e.signWith sk pk) (rnd : Nat) (m : Bytes) :
    (e.signer sk).name = (e.verifier pk).name ∧ (e.verifier pk).verify m ((e.signer sk).sign rnd m) = true := by
  refine ⟨rfl, ?_⟩
  have : ∀ e ∈ ringTable ++ opensslTable, e.verifyWith = e.signWith := by decide
  simp only [AlgEntry.signer, AlgEntry.verifier, asymSigner, asymVerifier, b64Verify, strictDecode_encode, this e he]
  exact hk rnd m

/-- C45. Likewise for the HMAC types. -/
theorem C45_hmac_halves_match (key m : Bytes) (rnd : Nat) :
    ((hmacSha256Sign key).name = (hmacSha256Verify key).name ∧
      (hmacSha256Verify key).verify m ((hmacSha256Sign key).sign rnd m) = true) ∧
    ((hmacSha512Sign key).name = (hmacSha512Verify key).name ∧
      (hmacSha512Verify key).verify m ((hmacSha512Sign key).sign rnd m) = true) :=
  ⟨⟨rfl, (C30_hmac_unmalleable key m rnd _).1.2 rfl⟩, ⟨rfl, (C30_hmac_unmalleable key m rnd _).2.2 rfl⟩⟩

/-- C45, partial: the reported name is the registered name of the primitive, for the HMAC types, all types of the `ring`
back end and the PKCS#1 v1.5 types of the `openssl` back end. Missing: the two PSS types of the `openssl` back end, for
which it is false (`C45_neg_openssl_pss`). -/
theorem C45_names_partial (e : AlgEntry) (he : e ∈ hmacTable ++ ringTable ++ opensslTable)
    (hn : e ∈ opensslTable → e.type = str% "RsaSha256" ∨ e.type = str% "RsaSha512") :
    e.name = schemeName e.signWith ∧ e.name = schemeName e.verifyWith := by
  revert hn
  revert e
  decide

/-- The scheme a type is called after. -/
inductive CalledAfter : Str → Primitive → Prop
  | hmac256 : CalledAfter (str% "HmacSha256") .hmacSha256
  | hmac512 : CalledAfter (str% "HmacSha512") .hmacSha512
  | pkcs256 : CalledAfter (str% "RsaSha256") .rsaPkcs1Sha256
  | pkcs512 : CalledAfter (str% "RsaSha512") .rsaPkcs1Sha512
  | pss256 : CalledAfter (str% "RsaPssSha256") .rsaPssSha256
  | pss512 : CalledAfter (str% "RsaPssSha512") .rsaPssSha512
  | ecdsa : CalledAfter (str% "EcdsaP256Sha256") .ecdsaP256Sha256Asn1

/-- C45, partial: a type signs and verifies with the scheme it is called after. Missing: `RsaPssSha256` of the `ring` back end and the
two PSS types of the `openssl` back end, for which it is false (`C45_neg_ring_pss256`, `C45_neg_openssl_pss`). -/
theorem C45_types_partial (e : AlgEntry) :
    (e ∈ hmacTable ++ ringTable → e.type ≠ str% "RsaPssSha256" → CalledAfter e.type e.signWith ∧ CalledAfter e.type e.verifyWith) ∧
    (e ∈ opensslTable → e.type ≠ str% "RsaPssSha256" → e.type ≠ str% "RsaPssSha512" →
      CalledAfter e.type e.signWith ∧ CalledAfter e.type e.verifyWith) := by
  constructor
  · intro he hn
    simp only [hmacTable, ringTable, List.cons_append, List.nil_append, List.mem_cons, List.not_mem_nil, or_false] at he
    rcases he with rfl | rfl | rfl | rfl | rfl | rfl | rfl
    · exact ⟨.hmac256, .hmac256⟩
    · exact ⟨.hmac512, .hmac512⟩
    · exact ⟨.pkcs256, .pkcs256⟩
    · exact ⟨.pkcs512, .pkcs512⟩
    · exact absurd rfl hn
    · exact ⟨.pss512, .pss512⟩
    · exact ⟨.ecdsa, .ecdsa⟩
  · intro he h1 h2
    simp only [opensslTable, List.mem_cons, List.not_mem_nil, or_false] at he
    rcases he with rfl | rfl | rfl | rfl
    · exact absurd rfl h1
    · exact absurd rfl h2
    · exact ⟨.pkcs256, .pkcs256⟩
    · exact ⟨.pkcs512, .pkcs512⟩

example : (⟨str% "RsaSha256", str% "rsa-v1_5-sha256", .rsaPkcs1Sha256, .rsaPkcs1Sha256⟩ : AlgEntry) ∈ hmacTable ++ ringTable ∧
    (⟨str% "RsaSha256", str% "rsa-v1_5-sha256", .rsaPkcs1Sha256, .rsaPkcs1Sha256⟩ : AlgEntry) ∈ opensslTable := by decide

/-- C45. Types of the `ring` back end and HMAC types have the same name exactly when they use the same primitive. -/
theorem C45_distinct_names (e f : AlgEntry) (he : e ∈ hmacTable ++ ringTable) (hf : f ∈ hmacTable ++ ringTable) :
    e.name = f.name ↔ e.signWith = f.signWith := by
  revert he hf
  have : ∀ e ∈ hmacTable ++ ringTable, ∀ f ∈ hmacTable ++ ringTable, (e.name = f.name ↔ e.signWith = f.signWith) := by decide
  exact fun he hf => this e he f hf

/-- C45, negative: in the `openssl` back end a signature made by the type named `rsa-pss-sha256` (`rsa-pss-sha512`) is
accepted by the differently named type `rsa-v1_5-sha256` (`rsa-v1_5-sha512`) and the other way round: two names, one
primitive. -/
theorem C45_neg_openssl_pss (sk pk : Bytes) (rnd : Nat) (m : Bytes) :
    ∃ pss256 ∈ opensslTable, ∃ v256 ∈ opensslTable, ∃ pss512 ∈ opensslTable, ∃ v512 ∈ opensslTable,
      pss256.name = str% "rsa-pss-sha256" ∧ v256.name = str% "rsa-v1_5-sha256" ∧
      pss512.name = str% "rsa-pss-sha512" ∧ v512.name = str% "rsa-v1_5-sha512" ∧
      (pss256.signer sk).sign rnd m = (v256.signer sk).sign rnd m ∧
      (pss256.verifier pk).verify m = (v256.verifier pk).verify m ∧
      (pss512.signer sk).sign rnd m = (v512.signer sk).sign rnd m ∧
      (pss512.verifier pk).verify m = (v512.verifier pk).verify m :=
  ⟨opensslTable[0], by decide, opensslTable[2], by decide, opensslTable[1], by decide, opensslTable[3], by decide,
    rfl, rfl, rfl, rfl, rfl, rfl, rfl, rfl⟩

/-- C45, negative: the `ring` type called `RsaPssSha256` is the same scheme as `RsaPssSha512`, with the name of the latter. -/
theorem C45_neg_ring_pss256 (sk pk : Bytes) :
    ∃ a ∈ ringTable, ∃ b ∈ ringTable, a.type = str% "RsaPssSha256" ∧ b.type = str% "RsaPssSha512" ∧
      a.signer sk = b.signer sk ∧ a.verifier pk = b.verifier pk ∧ a.name = str% "rsa-pss-sha512" :=
  ⟨ringTable[2], by decide, ringTable[3], by decide, rfl, rfl, rfl, rfl, rfl⟩

/-- C45, negative: `rsa-pss-sha512` means different primitives in the two back ends, so builds with different back ends do
not understand each other. -/
theorem C45_neg_back_ends_differ : ∃ a ∈ ringTable, ∃ b ∈ opensslTable, a.type = b.type ∧ a.name = b.name ∧
    a.signWith ≠ b.signWith ∧ a.verifyWith ≠ b.verifyWith :=
  ⟨ringTable[3], by decide, opensslTable[1], by decide, rfl, rfl, by decide, by decide⟩

end Httpsig

namespace Httpsig
section
attribute [local instance] toyDeps

/-! Cases meeting the hypotheses above. -/

example : (hmacSha256Verify (str% "k" |> utf8)).verify (utf8 (str% "m")) (str% "a20=") = true := by decide
example : KeyPair .rsaPssSha512 (utf8 (str% "k")) (utf8 (str% "k")) := by
  intro rnd m; simp [Deps.asymVerify, Deps.asymSign]
example : (opensslTable[1].verifier (utf8 (str% "k"))).verify (utf8 (str% "m")) (str% "a20=") = true := by decide
example : FirstSupported defaultDigestProvider (str% "md5=x, sha-256 = abc=,SHA-512=z") documentedSha256 (str% "abc=") :=
  (C38_first_supported _ _ _ _).1 rfl

end
end Httpsig
