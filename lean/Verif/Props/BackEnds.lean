import Verif.Lemmas.BackEnds
import Verif.Props.RsaPublic
/-
Claim C142: signatures that go from one back end to the other.
-/
namespace Httpsig
open Base64

section
variable [Deps] {priv pub : Bytes → Option (Nat × Nat)} {salt : Nat → Bytes} {prim : Primitive} {hash : Bytes → Bytes} {sk pk pk' : Bytes} {n e d : Nat}

/-- C142. A signature text that is accepted with PKCS#1 v1.5 for some text is not accepted with PSS and the same key for any text: or one of the texts
that PSS hashed has a hash with bytes FF only, but for the first two. -/
theorem C142_one_padding (h : RealRsa priv pub) (h' : RealPss priv pub salt) (hp : Pkcs1 prim hash) (hpk : pub pk = some (n, e))
    (hpk' : pub pk' = some (n, e)) (hn : 2 ^ 2040 ≤ n) (name name' : Str) (m m' : Bytes) (s : Str) :
    (asymVerifier name prim pk).verify m s = false ∨ (asymVerifier name' .rsaPssSha512 pk').verify m' s = false ∨
      ∃ x, x.length = 64 ∧ HashOfOnes Deps.sha512 x m' := by
  by_cases h1 : (asymVerifier name prim pk).verify m s = true
  · by_cases h2 : (asymVerifier name' .rsaPssSha512 pk').verify m' s = true
    · refine .inr (.inr ?_)
      simp only [asymVerifier, b64Verify] at h1 h2
      cases hd : strictDecode s with
      | none => rw [hd] at h1; cases h1
      | some t =>
        rw [hd] at h1 h2
        simp only [h'.verify _ _ _ _ _ hpk'] at h2
        cases hp with
        | sha256 =>
          simp only [h.verify256 _ _ _ _ _ hpk] at h1
          exact both_paddings hn h'.size512 (by rw [List.length_append, h.size256]; decide) h1 h2
        | sha512 =>
          simp only [h.verify512 _ _ _ _ _ hpk] at h1
          exact both_paddings hn h'.size512 (by rw [List.length_append, h.size512]; decide) h1 h2
    · exact .inr (.inl (by simpa using h2))
  · exact .inl (by simpa using h1)

omit [Deps] in
theorem padding_of {a b : AlgEntry} (hab : OtherBackEnd a b) (ha : a.name = str% "rsa-pss-sha512") (hb : b.name = str% "rsa-pss-sha512") :
    (a.signWith = .rsaPkcs1Sha512 ∧ a.verifyWith = .rsaPkcs1Sha512 ∧ b.signWith = .rsaPssSha512 ∧ b.verifyWith = .rsaPssSha512) ∨
    (a.signWith = .rsaPssSha512 ∧ a.verifyWith = .rsaPssSha512 ∧ b.signWith = .rsaPkcs1Sha512 ∧ b.verifyWith = .rsaPkcs1Sha512) := by
  have h1 : ∀ a ∈ opensslTable, a.name = str% "rsa-pss-sha512" → a.signWith = .rsaPkcs1Sha512 ∧ a.verifyWith = .rsaPkcs1Sha512 := by decide
  have h2 : ∀ a ∈ ringTable, a.name = str% "rsa-pss-sha512" → a.signWith = .rsaPssSha512 ∧ a.verifyWith = .rsaPssSha512 := by decide
  rcases hab with ⟨h, h'⟩ | ⟨h, h'⟩
  · exact .inl ⟨(h1 a h ha).1, (h1 a h ha).2, (h2 b h' hb).1, (h2 b h' hb).2⟩
  · exact .inr ⟨(h2 a h ha).1, (h2 a h ha).2, (h1 b h' hb).1, (h1 b h' hb).2⟩

/-- C142. A signature that one back end makes with `rsa-pss-sha512` is not accepted by the type with this name in the other back end, for any text,
though the keys are a pair. -/
theorem C142_not_understood (h : RealRsa priv pub) (h' : RealPss priv pub salt) {a b : AlgEntry} (hab : OtherBackEnd a b)
    (ha : a.name = str% "rsa-pss-sha512") (hb : b.name = str% "rsa-pss-sha512") (hsk : priv sk = some (n, d)) (hpk : pub pk = some (n, e))
    (hk : RsaKey n e d) (hn : 2 ^ 2040 ≤ n) (rnd : Nat) (m m' : Bytes) :
    (b.verifier pk).verify m' ((a.signer sk).sign rnd m) = false ∨ ∃ x t, x.length = 64 ∧ HashOfOnes Deps.sha512 x t := by
  have hn' : 256 ^ 131 ≤ n := Nat.le_trans (by decide +kernel) hn
  rcases padding_of hab ha hb with ⟨h1, _, _, h2⟩ | ⟨h1, _, _, h2⟩
  · rcases C142_one_padding h h' .sha512 hpk hpk hn [] b.name m m' ((a.signer sk).sign rnd m) with h3 | h3 | ⟨x, hx, h3⟩
    · rw [(C136_one_signature h .sha512 hsk hpk hk [] a.name rnd m _).2 (by simp only [AlgEntry.signer, h1])] at h3
      cases h3
    · left
      simpa only [AlgEntry.verifier, h2] using h3
    · exact .inr ⟨x, m', hx, h3⟩
  · rcases C142_one_padding h h' .sha512 hpk hpk hn b.name [] m' m ((a.signer sk).sign rnd m) with h3 | h3 | ⟨x, hx, h3⟩
    · left
      simpa only [AlgEntry.verifier, h2] using h3
    · rw [(C137_signatures h' hsk hpk hk hn' [] a.name m _).2 ⟨rnd, by simp only [AlgEntry.signer, h1]⟩] at h3
      cases h3
    · exact .inr ⟨x, m, hx, h3⟩

/-- C142. But each back end accepts its own signatures. -/
theorem C142_own (h : RealRsa priv pub) (h' : RealPss priv pub salt) {a : AlgEntry} (ha : a ∈ opensslTable ∨ a ∈ ringTable)
    (hname : a.name = str% "rsa-pss-sha512") (hsk : priv sk = some (n, d)) (hpk : pub pk = some (n, e)) (hk : RsaKey n e d)
    (hn : 2 ^ 2040 ≤ n) (rnd : Nat) (m : Bytes) : (a.verifier pk).verify m ((a.signer sk).sign rnd m) = true := by
  have hn' : 256 ^ 131 ≤ n := Nat.le_trans (by decide +kernel) hn
  have hpad : (a.signWith = .rsaPkcs1Sha512 ∧ a ∈ opensslTable) ∨ (a.signWith = .rsaPssSha512 ∧ a ∈ ringTable) := by
    have h1 : ∀ a ∈ opensslTable, a.name = str% "rsa-pss-sha512" → a.signWith = .rsaPkcs1Sha512 := by decide
    have h2 : ∀ a ∈ ringTable, a.name = str% "rsa-pss-sha512" → a.signWith = .rsaPssSha512 := by decide
    exact ha.imp (fun x => ⟨h1 a x hname, x⟩) fun x => ⟨h2 a x hname, x⟩
  refine (C45_halves_match a (List.mem_append.2 ha.symm) sk pk ?_ rnd m).2
  rcases hpad with ⟨h1, _⟩ | ⟨h1, _⟩
  · rw [h1]; exact C136_pair h .sha512 hsk hpk hk
  · rw [h1]; exact C137_pair h' hsk hpk hk hn'

/-- C142. The other names that both back ends have mean the same in both, so the signatures are understood. -/
theorem C142_understood (h : RealRsa priv pub) {a b : AlgEntry} (hab : OtherBackEnd a b) (hname : a.name = b.name)
    (ha : a.name ≠ str% "rsa-pss-sha512") (hsk : priv sk = some (n, d)) (hpk : pub pk = some (n, e)) (hk : RsaKey n e d) (rnd : Nat) (m : Bytes) :
    (b.verifier pk).verify m ((a.signer sk).sign rnd m) = true := by
  have key : ∀ a ∈ opensslTable, ∀ b ∈ ringTable, a.name = b.name → a.name ≠ str% "rsa-pss-sha512" →
      (a.signWith = .rsaPkcs1Sha256 ∧ a.verifyWith = .rsaPkcs1Sha256 ∧ b.signWith = .rsaPkcs1Sha256 ∧ b.verifyWith = .rsaPkcs1Sha256) ∨
      (a.signWith = .rsaPkcs1Sha512 ∧ a.verifyWith = .rsaPkcs1Sha512 ∧ b.signWith = .rsaPkcs1Sha512 ∧ b.verifyWith = .rsaPkcs1Sha512) := by decide
  have fit : ∀ {p hash}, Pkcs1 p hash → a.signWith = p → b.verifyWith = p → (b.verifier pk).verify m ((a.signer sk).sign rnd m) = true :=
    fun hp h1 h2 => by
      simp only [AlgEntry.verifier, AlgEntry.signer, h1, h2]
      exact (C136_one_signature h hp hsk hpk hk b.name a.name rnd m _).2 rfl
  rcases hab with ⟨h1, h2⟩ | ⟨h1, h2⟩
  · rcases key a h1 b h2 hname ha with ⟨h3, _, _, h4⟩ | ⟨h3, _, _, h4⟩
    · exact fit .sha256 h3 h4
    · exact fit .sha512 h3 h4
  · rcases key b h2 a h1 hname.symm (hname ▸ ha) with ⟨_, h4, h3, _⟩ | ⟨_, h4, h3, _⟩
    · exact fit .sha256 h3 h4
    · exact fit .sha512 h3 h4

/-- C142. A server whose keys are of the type `rsa-pss-sha512` of one back end does not accept a request that carries a signature made by the type
with this name of the other back end. -/
theorem C142_requests {S Rem : Type} [ServerRequestLike S Rem] (h : RealRsa priv pub) (h' : RealPss priv pub salt) {a b : AlgEntry}
    (hab : OtherBackEnd a b) (ha : a.name = str% "rsa-pss-sha512") (hb : b.name = str% "rsa-pss-sha512") (hsk : priv sk = some (n, d))
    (hk : RsaKey n e d) (hn : 2 ^ 2040 ≤ n) (rnd : Nat) (m : Bytes) (req : S) (w label : Str)
    (hw : RequestLike.derive req (.header hSignature) = .ok (some w)) (hsig : SignatureHeader w label ((a.signer sk).sign rnd m))
    (vc : VerifyingConfig) (hkp : ∀ kid, ∀ k ∈ vc.keyProvider kid, ∃ pk, pub pk = some (n, e) ∧ k = b.verifier pk) (venv : VerifyEnv) :
    (∀ rem kid, verify req vc venv ≠ .ok (.ok (rem, kid))) ∨ ∃ x t, x.length = 64 ∧ HashOfOnes Deps.sha512 x t := by
  by_cases hc : ∃ x t, x.length = 64 ∧ HashOfOnes Deps.sha512 x t
  · exact .inr hc
  refine .inl fun rem kid hv => ?_
  obtain ⟨c, sig, base, hok, _⟩ := (C10_acceptance_iff req vc venv rem kid).1 hv
  obtain ⟨w', label', hw', hsig', _⟩ := hok.signature
  rw [hw] at hw'
  cases hw'
  obtain ⟨k, hkm, hacc⟩ := hok.key
  obtain ⟨pk, hpk, rfl⟩ := hkp kid k hkm
  rw [← (signatureHeader_det hsig hsig').2] at hacc
  rcases C142_not_understood h h' hab ha hb hsk hpk hk hn rnd m base with h1 | h1
  · rw [h1] at hacc; cases hacc
  · exact hc h1

end

/-! ### Examples -/

section
attribute [local instance] ringRsaDeps

def exOsslPss : AlgEntry := ⟨str% "RsaPssSha512", str% "rsa-pss-sha512", .rsaPkcs1Sha512, .rsaPkcs1Sha512⟩
def exRingPss : AlgEntry := ⟨str% "RsaPssSha512", str% "rsa-pss-sha512", .rsaPssSha512, .rsaPssSha512⟩

/-- The hypotheses of `C142_not_understood` and `C142_requests`: two types with one name, in different back ends. -/
example : OtherBackEnd exOsslPss exRingPss ∧ OtherBackEnd exRingPss exOsslPss := ⟨.inl (by decide), .inr (by decide)⟩

/-- The hypotheses on the keys. -/
example : Rsa.readPublic exRingKey = some (exRingN, 65537) ∧ RsaKey exRingN 65537 exRingD ∧ 2 ^ 2040 ≤ exRingN :=
  ⟨by decide +kernel, exRing_key, by decide +kernel⟩

/-- Each back end accepts its own signatures, and not those of the other one. -/
example : (exOsslPss.verifier exRingKey).verify [1, 2, 3] ((exOsslPss.signer []).sign 7 [1, 2, 3]) = true := by decide +kernel
example : (exRingPss.verifier exRingKey).verify [1, 2, 3] ((exRingPss.signer []).sign 7 [1, 2, 3]) = true := by decide +kernel
example : (exRingPss.verifier exRingKey).verify [1, 2, 3] ((exOsslPss.signer []).sign 7 [1, 2, 3]) = false := by decide +kernel
example : (exOsslPss.verifier exRingKey).verify [1, 2, 3] ((exRingPss.signer []).sign 7 [1, 2, 3]) = false := by decide +kernel

/-- With the hash of this example, there is no hash as in the last part of the statements. -/
example (x t : Bytes) : ¬ HashOfOnes Deps.sha512 x t := by
  intro h
  have h1 := congrArg List.head? h
  revert h1
  change ((toyHash 64 (toyHash 64 (pssText (toyHash 64) x t) ++ [0, 0, 0, 0])).drop 2).head? = _ → False
  simp [pssText, toyHash]

/-- A request that is signed with openssl's type. -/
def exOsslSigning : SigningConfig := { exSigning with signature := exOsslPss.signer [] }
def exBackEndVerifying (a : AlgEntry) : VerifyingConfig :=
  { exVerifying with keyProvider := fun kid => if kid = str% "k1" then [a.verifier exRingKey] else [] }

/-- The hypotheses of `C142_requests`: it is accepted with openssl's type, and not with ring's. -/
example : (match sign (exMock [(hHost, ⟨utf8 (str% "example.com"), rfl⟩)] (some (utf8 (str% "hello")))) exOsslSigning exSignEnv with
    | .ok (r', .ok ()) => (match verify r' (exBackEndVerifying exOsslPss) exEnv, verify r' (exBackEndVerifying exRingPss) exEnv with
      | .ok (.ok ((), k)), .ok (.error _) => decide (k = str% "k1")
      | _, _ => false)
    | _ => false) = true := by decide +kernel
end

end Httpsig
