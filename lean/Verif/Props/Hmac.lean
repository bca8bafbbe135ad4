import Verif.Spec.Hmac
import Verif.Props.Algo
import Verif.Props.Forgery
import Verif.Spec.TestDeps
import Verif.Spec.Example
/-
C135: which HMAC keys are the same key, and what a tag binds.
-/
set_option linter.unusedSectionVars false
namespace Httpsig

theorem standsFor_unique {hash : Bytes → Bytes} {block : Nat} {k s t : Bytes} (h : StandsFor hash block k s)
    (h' : StandsFor hash block k t) : s = t := by
  cases h <;> cases h' <;> first | rfl | omega

theorem blockKey_of {hash : Bytes → Bytes} {block : Nat} {k s : Bytes} (hsize : ∀ m, (hash m).length ≤ block)
    (h : StandsFor hash block k s) : s.length ≤ block ∧ Hmac.blockKey hash block k = s ++ List.replicate (block - s.length) 0 := by
  cases h with
  | short h => exact ⟨h, by simp [Hmac.blockKey, h]⟩
  | long h =>
    refine ⟨hsize k, ?_⟩
    rw [Hmac.blockKey, if_neg (by omega), List.take_of_length_le (hsize k)]

theorem standsFor_exists (hash : Bytes → Bytes) (block : Nat) (k : Bytes) : ∃ s, StandsFor hash block k s := by
  by_cases h : k.length ≤ block
  · exact ⟨_, .short h⟩
  · exact ⟨_, .long (by omega)⟩

theorem zeros_split : ∀ {s t : Bytes} {i j : Nat}, s ++ List.replicate i 0 = t ++ List.replicate j 0 →
    ∃ core z1 z2, s = core ++ List.replicate z1 0 ∧ t = core ++ List.replicate z2 0 := by
  intro s
  induction s with
  | nil =>
    intro t i j h
    refine ⟨[], 0, t.length, rfl, ?_⟩
    rw [List.nil_append] at h ⊢
    refine List.eq_replicate_of_mem fun b hb => ?_
    have : b ∈ List.replicate i (0 : UInt8) := by rw [h]; exact List.mem_append_left _ hb
    exact List.eq_of_mem_replicate this
  | cons x s ih =>
    intro t i j h
    cases t with
    | nil =>
      refine ⟨[], (x :: s).length, 0, ?_, rfl⟩
      rw [List.nil_append] at h ⊢
      refine List.eq_replicate_of_mem fun b hb => ?_
      have : b ∈ List.replicate j (0 : UInt8) := by rw [← h]; exact List.mem_append_left _ hb
      exact List.eq_of_mem_replicate this
    | cons y t =>
      rw [List.cons_append, List.cons_append, List.cons.injEq] at h
      obtain ⟨rfl, h⟩ := h
      obtain ⟨core, z1, z2, h1, h2⟩ := ih h
      exact ⟨x :: core, z1, z2, by rw [h1]; rfl, by rw [h2]; rfl⟩

/-- Keys are the same exactly if their blocks are. -/
theorem sameMacKey_iff {hash : Bytes → Bytes} {block : Nat} (hsize : ∀ m, (hash m).length ≤ block) (k1 k2 : Bytes) :
    SameMacKey hash block k1 k2 ↔ Hmac.blockKey hash block k1 = Hmac.blockKey hash block k2 := by
  constructor
  · rintro ⟨s1, s2, core, z1, z2, h1, h2, rfl, rfl⟩
    obtain ⟨l1, e1⟩ := blockKey_of hsize h1
    obtain ⟨l2, e2⟩ := blockKey_of hsize h2
    rw [e1, e2, List.append_assoc, List.append_assoc, List.replicate_append_replicate, List.replicate_append_replicate]
    simp only [List.length_append, List.length_replicate] at l1 l2 ⊢
    rw [show z1 + (block - (core.length + z1)) = z2 + (block - (core.length + z2)) by omega]
  · intro h
    obtain ⟨s1, h1⟩ := standsFor_exists hash block k1
    obtain ⟨s2, h2⟩ := standsFor_exists hash block k2
    rw [(blockKey_of hsize h1).2, (blockKey_of hsize h2).2] at h
    obtain ⟨core, z1, z2, e1, e2⟩ := zeros_split h
    exact ⟨s1, s2, core, z1, z2, h1, h2, e1, e2⟩

theorem blockKey_length {hash : Bytes → Bytes} {block : Nat} (hsize : ∀ m, (hash m).length ≤ block) (k : Bytes) :
    (Hmac.blockKey hash block k).length = block := by
  obtain ⟨s, h⟩ := standsFor_exists hash block k
  obtain ⟨l, e⟩ := blockKey_of hsize h
  rw [e, List.length_append, List.length_replicate]
  omega

theorem masked_block {hash : Bytes → Bytes} {block : Nat} (hsize : ∀ m, (hash m).length ≤ block) (mask : UInt8) (k m : Bytes) :
    Masked hash block mask k m ((Hmac.blockKey hash block k).map (· ^^^ mask) ++ m) := by
  obtain ⟨s, h⟩ := standsFor_exists hash block k
  obtain ⟨l, e⟩ := blockKey_of hsize h
  refine ⟨s, List.replicate (block - s.length) mask, h, by rw [List.length_replicate]; omega, fun y hy => List.eq_of_mem_replicate hy, ?_⟩
  rw [e, List.map_append, List.map_replicate, UInt8.zero_xor]

theorem mask_inj {a b : Bytes} {mask : UInt8} (h : a.map (· ^^^ mask) = b.map (· ^^^ mask)) : a = b := by
  have : ∀ l : Bytes, (l.map (· ^^^ mask)).map (· ^^^ mask) = l := by
    intro l
    rw [List.map_map]
    conv => rhs; rw [← List.map_id l]
    apply List.map_congr_left
    intro x _
    simp [UInt8.xor_assoc]
  rw [← this a, h, this b]

/-- Equal tags: the same key and message, or a collision. -/
theorem tag_binding {hash : Bytes → Bytes} {block : Nat} (hsize : ∀ m, (hash m).length ≤ block) {k1 m1 k2 m2 : Bytes}
    (h : Hmac.tag hash block k1 m1 = Hmac.tag hash block k2 m2) :
    SameMacKey hash block k1 k2 ∧ m1 = m2 ∨ MacCollision hash block k1 m1 k2 m2 := by
  have len : ∀ mask : UInt8, ((Hmac.blockKey hash block k1).map (· ^^^ mask)).length = ((Hmac.blockKey hash block k2).map (· ^^^ mask)).length := by
    intro mask
    rw [List.length_map, List.length_map, blockKey_length hsize, blockKey_length hsize]
  unfold Hmac.tag at h
  by_cases ho : (Hmac.blockKey hash block k1).map (· ^^^ 0x5c) ++ hash ((Hmac.blockKey hash block k1).map (· ^^^ 0x36) ++ m1) =
      (Hmac.blockKey hash block k2).map (· ^^^ 0x5c) ++ hash ((Hmac.blockKey hash block k2).map (· ^^^ 0x36) ++ m2)
  · obtain ⟨hb, hi⟩ := List.append_inj ho (len _)
    by_cases hx : (Hmac.blockKey hash block k1).map (· ^^^ 0x36) ++ m1 = (Hmac.blockKey hash block k2).map (· ^^^ 0x36) ++ m2
    · exact .inl ⟨(sameMacKey_iff hsize k1 k2).2 (mask_inj hb), (List.append_inj hx (len _)).2⟩
    · exact .inr ⟨_, _, hx, hi, .inl ⟨masked_block hsize _ _ _, masked_block hsize _ _ _⟩⟩
  · exact .inr ⟨_, _, ho, h, .inr ⟨_, _, masked_block hsize _ _ _, masked_block hsize _ _ _, masked_block hsize _ _ _,
      masked_block hsize _ _ _⟩⟩

section
variable [Deps]

/-- C135. Keys that are the same for HMAC make the same signers and verifiers. -/
theorem C135_same (h : RealHmac) (k1 k2 : Bytes) :
    (SameMacKey Deps.sha256 64 k1 k2 → hmacSha256Sign k1 = hmacSha256Sign k2 ∧ hmacSha256Verify k1 = hmacSha256Verify k2) ∧
    (SameMacKey Deps.sha512 128 k1 k2 → hmacSha512Sign k1 = hmacSha512Sign k2 ∧ hmacSha512Verify k1 = hmacSha512Verify k2) := by
  refine ⟨fun hs => ?_, fun hs => ?_⟩
  · have e := (sameMacKey_iff (fun m => by rw [h.size256 m]; omega) k1 k2).1 hs
    have e' : Hmac.tag Deps.sha256 64 k1 = Hmac.tag Deps.sha256 64 k2 := by funext m; simp only [Hmac.tag, e]
    simp only [hmacSha256Sign, hmacSha256Verify, h.hmac256, e', and_self]
  · have e := (sameMacKey_iff (fun m => by rw [h.size512 m]; omega) k1 k2).1 hs
    have e' : Hmac.tag Deps.sha512 128 k1 = Hmac.tag Deps.sha512 128 k2 := by funext m; simp only [Hmac.tag, e]
    simp only [hmacSha512Sign, hmacSha512Verify, h.hmac512, e', and_self]

/-- C135. In particular zero bytes at the end of a key of at most a block do not matter, and a longer key can be replaced by its hash. -/
theorem C135_zeros_and_long (h : RealHmac) (k : Bytes) (z : Nat) :
    (k.length + z ≤ 64 → hmacSha256Verify (k ++ List.replicate z 0) = hmacSha256Verify k ∧
      hmacSha256Sign (k ++ List.replicate z 0) = hmacSha256Sign k) ∧
    (64 < k.length → hmacSha256Verify (Deps.sha256 k) = hmacSha256Verify k ∧ hmacSha256Sign (Deps.sha256 k) = hmacSha256Sign k) ∧
    (k.length + z ≤ 128 → hmacSha512Verify (k ++ List.replicate z 0) = hmacSha512Verify k ∧
      hmacSha512Sign (k ++ List.replicate z 0) = hmacSha512Sign k) ∧
    (128 < k.length → hmacSha512Verify (Deps.sha512 k) = hmacSha512Verify k ∧ hmacSha512Sign (Deps.sha512 k) = hmacSha512Sign k) := by
  refine ⟨fun hz => ?_, fun hl => ?_, fun hz => ?_, fun hl => ?_⟩
  · exact ((C135_same h _ _).1 ⟨_, _, k, z, 0, .short (by simpa using hz), .short (by omega), rfl, by simp⟩).symm
  · exact ((C135_same h _ _).1 ⟨_, _, Deps.sha256 k, 0, 0, .short (by rw [h.size256]; omega), .long hl, by simp, by simp⟩).symm
  · exact ((C135_same h _ _).2 ⟨_, _, k, z, 0, .short (by simpa using hz), .short (by omega), rfl, by simp⟩).symm
  · exact ((C135_same h _ _).2 ⟨_, _, Deps.sha512 k, 0, 0, .short (by rw [h.size512]; omega), .long hl, by simp, by simp⟩).symm

/-- C135. A signature made with one key is accepted with another, on whatever text, exactly if the keys and the texts are the same, or
else two texts that HMAC hashed are a collision of the hash. -/
theorem C135_binding (h : RealHmac) (k1 k2 m1 m2 : Bytes) (rnd : Nat) :
    ((hmacSha256Verify k2).verify m2 ((hmacSha256Sign k1).sign rnd m1) = true →
      SameMacKey Deps.sha256 64 k1 k2 ∧ m1 = m2 ∨ MacCollision Deps.sha256 64 k1 m1 k2 m2) ∧
    ((hmacSha512Verify k2).verify m2 ((hmacSha512Sign k1).sign rnd m1) = true →
      SameMacKey Deps.sha512 128 k1 k2 ∧ m1 = m2 ∨ MacCollision Deps.sha512 128 k1 m1 k2 m2) ∧
    (SameMacKey Deps.sha256 64 k1 k2 ∧ m1 = m2 → (hmacSha256Verify k2).verify m2 ((hmacSha256Sign k1).sign rnd m1) = true) ∧
    (SameMacKey Deps.sha512 128 k1 k2 ∧ m1 = m2 → (hmacSha512Verify k2).verify m2 ((hmacSha512Sign k1).sign rnd m1) = true) := by
  refine ⟨fun hv => ?_, fun hv => ?_, ?_, ?_⟩
  · have := C31_injective _ _ ((C30_hmac_unmalleable k2 m2 rnd _).1.1 hv)
    rw [h.hmac256] at this
    exact tag_binding (fun m => by rw [h.size256 m]; omega) this
  · have := C31_injective _ _ ((C30_hmac_unmalleable k2 m2 rnd _).2.1 hv)
    rw [h.hmac512] at this
    exact tag_binding (fun m => by rw [h.size512 m]; omega) this
  · rintro ⟨hs, rfl⟩
    rw [← ((C135_same h _ _).1 hs).2]
    exact (C30_hmac_unmalleable k1 m1 rnd _).1.2 rfl
  · rintro ⟨hs, rfl⟩
    rw [← ((C135_same h _ _).2 hs).2]
    exact (C30_hmac_unmalleable k1 m1 rnd _).2.2 rfl

/-- C135. Without any assumption on the hashes, a signature of one of the two HMAC types is never accepted by a key of the other. -/
theorem C135_other_type (h : RealHmac) (k1 k2 m1 m2 : Bytes) (rnd : Nat) :
    (hmacSha512Verify k2).verify m2 ((hmacSha256Sign k1).sign rnd m1) = false ∧
    (hmacSha256Verify k2).verify m2 ((hmacSha512Sign k1).sign rnd m1) = false := by
  have l1 : ∀ k m, (Deps.hmac256 k m).length = 32 := fun k m => by rw [h.hmac256]; exact h.size256 _
  have l2 : ∀ k m, (Deps.hmac512 k m).length = 64 := fun k m => by rw [h.hmac512]; exact h.size512 _
  refine ⟨Bool.eq_false_iff.2 fun hv => ?_, Bool.eq_false_iff.2 fun hv => ?_⟩
  · have := congrArg List.length (C31_injective _ _ ((C30_hmac_unmalleable k2 m2 rnd _).2.1 hv))
    rw [l1, l2] at this; omega
  · have := congrArg List.length (C31_injective _ _ ((C30_hmac_unmalleable k2 m2 rnd _).1.1 hv))
    rw [l1, l2] at this; omega

/-- C135. A request that carries the signature of a request that was signed with an HMAC key, and is accepted by a verifier whose keys for the
key id are HMAC keys: one of them is the same key, and the request says what was signed; or two texts that HMAC hashed are a collision
of the hash. -/
theorem C135_accepted {R S Rem : Type} [ClientRequestLike R] [LawfulClient R] [ServerRequestLike S Rem] (h : RealHmac)
    (e : SigningEvent R) (he : e.Careful) (k1 base : Bytes) (hs : e.config.signature = hmacSha256Sign k1) (hb : e.Base base)
    (req : S) (w label : Str) (hw : RequestLike.derive req (.header hSignature) = .ok (some w))
    (hsig : SignatureHeader w label (e.config.signature.sign e.env.rnd base))
    (vc : VerifyingConfig) (venv : VerifyEnv) (rem : Rem) (kid : Str)
    (hk : ∀ k ∈ vc.keyProvider kid, ∃ b, k = hmacSha256Verify b ∨ k = hmacSha512Verify b)
    (hv : verify req vc venv = .ok (.ok (rem, kid))) :
    ∃ v c base' si k2, RequestLike.derive req (.header hSignatureInput) = .ok (some v) ∧
      CanonicalizeConfig.fromSignatureInput v = .ok (.ok c) ∧ canonicalize req c = .ok (.ok (base', si)) ∧
      hmacSha256Verify k2 ∈ vc.keyProvider kid ∧
      (SameMacKey Deps.sha256 64 k1 k2 ∧ e.config.keyId = kid ∧ Authentic e req c.components c.params.params ∨
        MacCollision Deps.sha256 64 k1 base k2 base') := by
  obtain ⟨v, c, w', label', sig, base', si, h1, h2, h3, h4, h5, ⟨k, hkm, hacc⟩, h6⟩ :=
    C75_authentic_or_forged [e] (fun _ hm => by rw [List.mem_singleton.1 hm]; exact he) req vc venv rem kid hv
  rw [hw] at h4
  cases h4
  rw [(signatureHeader_det hsig h5).2.symm, hs] at hacc
  obtain ⟨k2, rfl | rfl⟩ := hk k hkm
  · refine ⟨v, c, base', si, k2, h1, h2, h3, hkm, ?_⟩
    rcases (C135_binding h k1 k2 base base' e.env.rnd).1 hacc with ⟨hsame, rfl⟩ | hcoll
    · rcases h6 with ⟨e', he', h7, h8⟩ | h6
      · rw [List.mem_singleton.1 he'] at h7 h8
        exact .inl ⟨hsame, h7, h8⟩
      · exact absurd hb (h6 e (List.mem_singleton.2 rfl))
    · exact .inr hcoll
  · rw [(C135_other_type h k1 k2 base base' e.env.rnd).1] at hacc; cases hacc

/-- C135. The same for HMAC with SHA-512. -/
theorem C135_accepted_sha512 {R S Rem : Type} [ClientRequestLike R] [LawfulClient R] [ServerRequestLike S Rem] (h : RealHmac)
    (e : SigningEvent R) (he : e.Careful) (k1 base : Bytes) (hs : e.config.signature = hmacSha512Sign k1) (hb : e.Base base)
    (req : S) (w label : Str) (hw : RequestLike.derive req (.header hSignature) = .ok (some w))
    (hsig : SignatureHeader w label (e.config.signature.sign e.env.rnd base))
    (vc : VerifyingConfig) (venv : VerifyEnv) (rem : Rem) (kid : Str)
    (hk : ∀ k ∈ vc.keyProvider kid, ∃ b, k = hmacSha256Verify b ∨ k = hmacSha512Verify b)
    (hv : verify req vc venv = .ok (.ok (rem, kid))) :
    ∃ v c base' si k2, RequestLike.derive req (.header hSignatureInput) = .ok (some v) ∧
      CanonicalizeConfig.fromSignatureInput v = .ok (.ok c) ∧ canonicalize req c = .ok (.ok (base', si)) ∧
      hmacSha512Verify k2 ∈ vc.keyProvider kid ∧
      (SameMacKey Deps.sha512 128 k1 k2 ∧ e.config.keyId = kid ∧ Authentic e req c.components c.params.params ∨
        MacCollision Deps.sha512 128 k1 base k2 base') := by
  obtain ⟨v, c, w', label', sig, base', si, h1, h2, h3, h4, h5, ⟨k, hkm, hacc⟩, h6⟩ :=
    C75_authentic_or_forged [e] (fun _ hm => by rw [List.mem_singleton.1 hm]; exact he) req vc venv rem kid hv
  rw [hw] at h4
  cases h4
  rw [(signatureHeader_det hsig h5).2.symm, hs] at hacc
  obtain ⟨k2, rfl | rfl⟩ := hk k hkm
  · rw [(C135_other_type h k1 k2 base base' e.env.rnd).2] at hacc; cases hacc
  · refine ⟨v, c, base', si, k2, h1, h2, h3, hkm, ?_⟩
    rcases (C135_binding h k1 k2 base base' e.env.rnd).2.1 hacc with ⟨hsame, rfl⟩ | hcoll
    · rcases h6 with ⟨e', he', h7, h8⟩ | h6
      · rw [List.mem_singleton.1 he'] at h7 h8
        exact .inl ⟨hsame, h7, h8⟩
      · exact absurd hb (h6 e (List.mem_singleton.2 rfl))
    · exact .inr hcoll

end

/-! ### Examples -/

/-- A toy hash with 32 bytes, and one with 64. -/
def toyHash (n : Nat) (m : Bytes) : Bytes := (m ++ List.replicate n 1).take n

@[reducible] def hmacDeps : Deps :=
  { toyDeps with
    sha256 := toyHash 32
    sha512 := toyHash 64
    hmac256 := Hmac.tag (toyHash 32) 64
    hmac512 := Hmac.tag (toyHash 64) 128 }

theorem hmacDeps_real : @RealHmac hmacDeps :=
  have size : ∀ n m, (toyHash n m).length = n := fun n m => by simp [toyHash, List.length_take]
  @RealHmac.mk hmacDeps rfl rfl (size 32) (size 64)

/-- Keys that are the same, and keys that are not. -/
example : SameMacKey (toyHash 32) 64 (utf8 (str% "key")) (utf8 (str% "key") ++ [0, 0]) ∧
    ¬ SameMacKey (toyHash 32) 64 (utf8 (str% "key")) (0 :: utf8 (str% "key")) :=
  ⟨⟨_, _, utf8 (str% "key"), 0, 2, .short (by decide), .short (by decide), rfl, rfl⟩,
    fun h => by
      have := (sameMacKey_iff (fun m => by simp [toyHash, List.length_take]) _ _).1 h
      revert this
      decide⟩

section
attribute [local instance] hmacDeps

def exTagSigning : SigningConfig := { exSigning with signature := hmacSha256Sign (utf8 (str% "key")) }
def exMacVerifying : VerifyingConfig :=
  { exVerifying with keyProvider := fun kid => if kid = str% "k1" then [hmacSha256Verify (utf8 (str% "key") ++ [0, 0])] else [] }

/-- The hypotheses of `C135_accepted`: a request, signed with one of two equal keys and accepted with the other. -/
example : ∃ r', sign (exMock [(hHost, ⟨utf8 (str% "example.com"), rfl⟩)] (some (utf8 (str% "hello")))) exTagSigning exSignEnv = .ok (r', .ok ()) ∧
    verify r' exMacVerifying exEnv = .ok (.ok ((), str% "k1")) := ⟨_, rfl, rfl⟩

def exTagSigning512 : SigningConfig := { exSigning with signature := hmacSha512Sign (utf8 (str% "key")) }
def exMacVerifying512 : VerifyingConfig :=
  { exVerifying with keyProvider := fun kid =>
      if kid = str% "k1" then [hmacSha256Verify [1], hmacSha512Verify (utf8 (str% "key") ++ [0, 0])] else [] }

/-- The hypotheses of `C135_accepted_sha512`, with keys of both types. -/
example : ∃ r', sign (exMock [(hHost, ⟨utf8 (str% "example.com"), rfl⟩)] (some (utf8 (str% "hello")))) exTagSigning512 exSignEnv = .ok (r', .ok ()) ∧
    verify r' exMacVerifying512 exEnv = .ok (.ok ((), str% "k1")) := ⟨_, rfl, rfl⟩
end

end Httpsig
