import Verif.Lemmas.EcPkcs8
import Verif.Props.Ecdsa
import Verif.Props.KeyPairs
/-
Claim C139: private keys on P-256 in files.
-/
namespace Httpsig
open Base64

/-- A DER value that starts a text is determined by it, and so is what follows. -/
theorem derValue_front {tag : UInt8} {c c' v v' r r' : Bytes} (h : DerValue tag c v) (h' : DerValue tag c' v') (he : v ++ r = v' ++ r') :
    c = c' ∧ r = r' := by
  have e1 : Der.value tag (v ++ r) = some (c, r) := Der.value_iff.2 ⟨v, h, rfl⟩
  have e2 : Der.value tag (v ++ r) = some (c', r') := Der.value_iff.2 ⟨v', h', he⟩
  exact Prod.mk.inj (Option.some.inj (e1.symm.trans e2))

theorem derValue_whole {tag : UInt8} {c c' v : Bytes} (h : DerValue tag c v) (h' : DerValue tag c' v) : c = c' :=
  (derValue_front h h' (r := []) (r' := []) rfl).1

theorem ecPrivateInfo_det {n n' : UInt8} {key key' attrs attrs' der : Bytes} (h : EcPrivateInfo n key attrs der)
    (h' : EcPrivateInfo n' key' attrs' der) : n = n' ∧ key = key' := by
  obtain ⟨v, a, k, h1, h2, h3, h4⟩ := P256.ecPrivateInfo_iff.1 h
  obtain ⟨v', a', k', h1', h2', h3', h4'⟩ := P256.ecPrivateInfo_iff.1 h'
  have e := derValue_whole h4 h4'
  simp only [List.append_assoc] at e
  obtain ⟨e1, e⟩ := derValue_front h1 h1' e
  obtain ⟨_, e⟩ := derValue_front h2 h2' e
  exact ⟨(List.cons.inj e1).1, (derValue_front h3 h3' e).1⟩

theorem EcKeyFile.read {d : Nat} {pk der : Bytes} (h : EcKeyFile d pk der) : P256.readPkcs8 der = some d := P256.readPkcs8_iff.2 ⟨pk, h⟩

theorem EcKeyFile.part {d : Nat} {pk der : Bytes} (h : EcKeyFile d pk der) :
    d < P256.q ∧ EcKey (d • P256.G) pk ∧ ∃ key attrs bytes, EcPrivateInfo 0 key attrs der ∧ P256.ecPrivateKey key = some (bytes, pk) ∧
      bigEndian bytes = d ∧ key.length < 65540 := by
  obtain ⟨bytes, params, part, key, attrs, A, _, e, _, h1, h2, h3, h4, h5, h6, _, h7, h8⟩ := h
  rw [(P256.hasCoords_G A).1 h2] at h3
  have hl : key.length < 65540 := by
    obtain ⟨v, o, c, a, k, _, _, _, _, e5, e6⟩ := h7
    have := P256.derValue_length e5
    have := P256.derValue_length e6
    simp only [List.length_append] at this
    omega
  exact ⟨h1, h3, key, attrs, bytes, h7, (P256.ecPrivateKey_iff hl).2 ⟨params, part, h4, h5, h6⟩, e, hl⟩

/-- C139. A file has one private and one public key; and files with the same public key have the same private key. -/
theorem C139_one_key (d d' : Nat) (pk pk' der der' : Bytes) (h : EcKeyFile d pk der) (h' : EcKeyFile d' pk' der') :
    (der = der' → d = d' ∧ pk = pk') ∧ (pk = pk' ↔ d = d') := by
  obtain ⟨h1, h2, _⟩ := h.part
  obtain ⟨h1', h2', _⟩ := h'.part
  have key : pk = pk' ↔ d = d' := by
    constructor
    · rintro rfl
      exact P256.smul_inj h1 h1' (P256.ecKey_det h2 h2')
    · rintro rfl
      exact P256.ecKey_unique h2 h2'
  refine ⟨?_, key⟩
  rintro rfl
  have e := Option.some.inj (h.read.symm.trans h'.read)
  exact ⟨e, key.2 e⟩

/-- C139. Every number between 1 and the order of the group is the private key of some file. -/
theorem C139_every_key (d : Nat) (h0 : 0 < d) (h1 : d < P256.q) : ∃ pk der, EcKeyFile d pk der := by
  have hpk := (P256.keyOf_iff h0 h1).1 rfl
  have hq : P256.q < 256 ^ 32 := by decide +kernel
  have hlen : (P256.keyOf d).length = 65 := by
    obtain ⟨a, b, ha, hb, _, _, _, e⟩ := hpk
    rw [e]; simp; omega
  have short : ∀ (tag : UInt8) (c : Bytes), c.length < 128 → DerValue tag c (tag :: UInt8.ofNat c.length :: c) :=
    fun tag c h => ⟨_, .inl ⟨h, rfl⟩, rfl⟩
  have hb := Rsa.toBytes_length 32 d
  refine ⟨P256.keyOf d, _, Rsa.toBytes 32 d, [], _, _, [], P256.G, hb, ?_, h0, h1, (P256.hasCoords_G _).2 rfl, hpk, .inl rfl,
    ⟨_, short _ _ (by simp; omega), short _ _ (by simp; omega)⟩, ⟨_, _, short _ _ (by decide), short _ _ (by omega), short _ _ (by simp; omega)⟩,
    .inl rfl, P256.ecPrivateInfo_iff.2 ⟨_, _, _, short _ _ (by decide), short _ _ (by decide), short _ _ (by simp; omega),
      ⟨0x81 :: [UInt8.ofNat 135], .inr ?_, rfl⟩⟩, ?_⟩
  · rw [← Der.ofBytes_eq, Rsa.ofBytes_toBytes, Nat.mod_eq_of_lt (Nat.lt_trans h1 hq)]
  · have e : (P256.algId).length = 19 := rfl
    simp only [List.length_append, List.length_cons, List.length_nil, hb, hlen, e]
    exact ⟨by decide, by decide, 135, [], by decide, by decide, rfl, rfl⟩
  · have e : (P256.algId).length = 19 := rfl
    simp only [List.length_append, List.length_cons, List.length_nil, hb, hlen, e]
    decide

section
variable [Deps] {priv : Bytes → Option Nat} {e : AlgEntry}

omit [Deps] in
theorem ecdsa_entry (he : e ∈ ringTable) (hn : e.name = str% "ecdsa-p256-sha256") : e = ringTable[4] := by
  simp only [ringTable, List.mem_cons, List.not_mem_nil, or_false] at he
  rcases he with rfl | rfl | rfl | rfl | rfl <;> first | rfl | exact absurd hn (by decide)

theorem ecSigner_iff (h : RealEcKeys priv) (he : e ∈ ringTable) (hn : e.name = str% "ecdsa-p256-sha256") {der : Bytes} {s : HttpSignatureSign} :
    Ring.newPkcs8 e der = some s ↔ ∃ k d pk, Deps.ringPkcs8 .ecP256 der = some k ∧ priv k = some d ∧ EcKeyFile d pk der ∧ s = e.signer k := by
  obtain rfl := ecdsa_entry he hn
  have hr := h.pkcs8 der
  unfold Ring.newPkcs8
  rw [Option.map_eq_some_iff]
  constructor
  · rintro ⟨k, hk, rfl⟩
    have hk' : Deps.ringPkcs8 .ecP256 der = some k := hk
    rw [hk', Option.map_some] at hr
    obtain ⟨d, hd, hp⟩ := Option.map_eq_some_iff.1 hr.symm
    obtain ⟨pk, hf⟩ := P256.readPkcs8_iff.1 hd
    exact ⟨k, d, pk, hk', hp.symm, hf, rfl⟩
  · rintro ⟨k, d, pk, hk, _, _, rfl⟩
    exact ⟨k, hk, rfl⟩

/-- C139. The ECDSA type takes exactly the files that contain a private key with its public key. -/
theorem C139_accepted (h : RealEcKeys priv) (he : e ∈ ringTable) (hn : e.name = str% "ecdsa-p256-sha256") (der : Bytes) :
    (∃ s, Ring.newPkcs8 e der = some s) ↔ ∃ d pk, EcKeyFile d pk der := by
  constructor
  · rintro ⟨s, hs⟩
    obtain ⟨k, d, pk, _, _, hf, _⟩ := (ecSigner_iff h he hn).1 hs
    exact ⟨d, pk, hf⟩
  · rintro ⟨d, pk, hf⟩
    have hr := h.pkcs8 der
    rw [hf.read, Option.map_some] at hr
    obtain ⟨k, hk, hp⟩ := Option.map_eq_some_iff.1 hr
    exact ⟨_, (ecSigner_iff h he hn).2 ⟨k, d, pk, hk, hp, hf, rfl⟩⟩

/-- C139. What is signed with the key of a file is accepted with the key of every SPKI file that has the public key of the first file,
whatever the second file says about algorithm and parameters; both may be in PEM. -/
theorem C139_pair (h : RealEcKeys priv) (he : e ∈ ringTable) (hn : e.name = str% "ecdsa-p256-sha256") (d : Nat)
    (pk der oid params spki : Bytes) (unused : UInt8) (s : HttpSignatureSign) (v : HttpSignatureVerify)
    (ha : EcKeyFile d pk der) (hs : Ring.newPkcs8 e der = some s ∨ ∃ label file, PemFile label der file ∧ Ring.newPkcs8Pem e file = some s)
    (hb : Spki oid params unused pk spki)
    (hv : Ring.verifySpkiDer e spki = some v ∨ ∃ label file, PemFile label spki file ∧ Ring.verifySpkiPem e file = some v)
    (rnd : Nat) (m : Bytes) : v.verify m (s.sign rnd m) = true := by
  have hs : Ring.newPkcs8 e der = some s := by
    rcases hs with hs | ⟨label, file, hf, hs⟩
    · exact hs
    · rwa [(C54_pem_same_as_der e label der file hf).1] at hs
  have hv : Ring.verifySpkiDer e spki = some v := by
    rcases hv with hv | ⟨label, file, hf, hv⟩
    · exact hv
    · rwa [(C54_pem_same_as_der e label spki file hf).2.2.2] at hv
  obtain ⟨k, d', pk', hk, hp, hf, rfl⟩ := (ecSigner_iff h he hn).1 hs
  obtain ⟨rfl, rfl⟩ := (C139_one_key _ _ _ _ _ _ ha hf).1 rfl
  obtain ⟨oid', params', unused', key, hb', _, _, _, _, rfl⟩ := (C56_spki_exact e spki v).1 hv
  have hkey : pk = key := by
    obtain ⟨o, alg, a, bits, _, _, h3, h4, h5⟩ := hb
    obtain ⟨o', alg', a', bits', _, _, h3', h4', h5'⟩ := hb'
    obtain ⟨_, e2⟩ := derValue_front h3 h3' (derValue_whole h5 h5')
    rw [e2] at h4
    exact (List.cons.inj (derValue_whole h4 h4')).2
  subst hkey
  have hpair := C138_pair h.toRealEcdsa hp P256.G ((P256.hasCoords_G _).2 rfl) ha.part.2.1
  obtain rfl := ecdsa_entry he hn
  exact (C45_halves_match _ (List.mem_append_left _ he) k pk hpair rnd m).2

/-- C139. What is not taken: a bare `ECPrivateKey`, as `openssl ecparam -genkey` writes it; PKCS #8 of another version; PKCS #8 without the
public key; and PKCS #8 with the public key of another private key. -/
theorem C139_refused (h : RealEcKeys priv) (he : e ∈ ringTable) (hn : e.name = str% "ecdsa-p256-sha256") (der : Bytes) :
    (∀ bytes params part, EcPrivateKey bytes params part der → Ring.newPkcs8 e der = none) ∧
    (∀ version key attrs, EcPrivateInfo version key attrs der → version ≠ 0 → Ring.newPkcs8 e der = none) ∧
    (∀ key attrs bytes params, EcPrivateInfo 0 key attrs der → EcPrivateKey bytes params [] key → params = [] ∨ CurveName params →
      Ring.newPkcs8 e der = none) ∧
    (∀ key attrs bytes params part pk G, EcPrivateInfo 0 key attrs der → EcPrivateKey bytes params part key → params = [] ∨ CurveName params →
      PublicPart pk part → HasCoords G P256.gx P256.gy → ¬ EcKey (bigEndian bytes • G) pk → Ring.newPkcs8 e der = none) := by
  have none_of : (∀ d pk, ¬ EcKeyFile d pk der) → Ring.newPkcs8 e der = none := fun hx => by
    cases hs : Ring.newPkcs8 e der with
    | none => rfl
    | some s =>
      obtain ⟨d, pk, hf⟩ := (C139_accepted h he hn der).1 ⟨s, hs⟩
      exact absurd hf (hx d pk)
  refine ⟨fun bytes params part hk => none_of fun d pk hf => ?_, fun n key attrs hi hne => none_of fun d pk hf => ?_,
    fun key attrs bytes params hi hk hpar => none_of fun d pk hf => ?_,
    fun key attrs bytes params part pk A hi hk hpar hpub hA hno => none_of fun d pk' hf => ?_⟩
  · obtain ⟨_, _, key, attrs, _, hi, _⟩ := hf.part
    obtain ⟨v, k, h1, _, h3⟩ := hk
    obtain ⟨v', a', k', h1', _, _, h4'⟩ := P256.ecPrivateInfo_iff.1 hi
    have e := derValue_whole h3 h4'
    simp only [List.append_assoc] at e
    exact absurd (derValue_front h1 h1' e).1 (by decide)
  · obtain ⟨_, _, key', attrs', _, hi', _⟩ := hf.part
    exact hne (ecPrivateInfo_det hi hi').1
  · obtain ⟨_, _, key', attrs', bytes', hi', hr, _, hl⟩ := hf.part
    obtain rfl := (ecPrivateInfo_det hi hi').2
    obtain ⟨params', part', g1, ⟨bits, _, g2⟩, v', k', g3, g4, g5⟩ := (P256.ecPrivateKey_iff hl).1 hr
    obtain ⟨v, k, h1, h2, h3⟩ := hk
    have e := derValue_whole h3 g5
    simp only [List.append_assoc] at e
    obtain ⟨_, e⟩ := derValue_front h1 g3 e
    obtain ⟨_, e⟩ := derValue_front h2 g4 e
    have ht := P256.derValue_head g2 []
    rw [List.append_nil] at ht e
    rcases g1 with rfl | ⟨o, _, g1⟩
    · rw [List.nil_append] at e
      subst e
      rcases hpar with rfl | ⟨o, _, h5⟩
      · cases ht
      · have := P256.derValue_head h5 []
        rw [List.append_nil, ht] at this
        exact absurd this (by decide)
    · rcases hpar with rfl | ⟨o', _, h5⟩
      · have := P256.derValue_head g1 part'
        rw [← e] at this
        cases this
      · have := derValue_front h5 g1 (r := []) (by rw [List.append_nil]; exact e)
        rw [← this.2] at ht
        cases ht
  · rw [(P256.hasCoords_G A).1 hA] at hno
    obtain ⟨_, hec, key', attrs', bytes', hi', hr, rfl, hl⟩ := hf.part
    obtain rfl := (ecPrivateInfo_det hi hi').2
    have hr' := (P256.ecPrivateKey_iff hl).2 ⟨params, part, hpar, hpub, hk⟩
    obtain ⟨rfl, rfl⟩ := Prod.mk.inj (Option.some.inj (hr.symm.trans hr'))
    exact hno hec

end

/-! ### Examples -/

/-- The nonce is 1, or 2 if 1 does not do. -/
def exNonceOf (d h : Nat) : Nat × Nat := ((P256.sign d 1 h).or (P256.sign d 2 h)).getD (0, 0)

theorem exNonceOf_facts {d : Nat} (h0 : 0 < d) (h1 : d < P256.q) (h : Nat) : ∃ k r s, P256.sign d k h = some (r, s) ∧ exNonceOf d h = (r, s) := by
  unfold exNonceOf
  cases h1' : P256.sign d 1 h with
  | some rs => exact ⟨1, rs.1, rs.2, h1', rfl⟩
  | none =>
    cases h2 : P256.sign d 2 h with
    | some rs => exact ⟨2, rs.1, rs.2, h2, rfl⟩
    | none =>
      exfalso
      have m2 : P256.mul 2 P256.g = some (exTwoG.1, exTwoG.2) := by decide +kernel
      have e1 := P256.sign_none (by decide +kernel) (by decide +kernel) (show P256.mul 1 P256.g = some (P256.gx, P256.gy) by decide +kernel) (by decide +kernel) h1'
      have e2 := P256.sign_none (by decide +kernel) (by decide +kernel) m2 (by decide +kernel) h2
      have e3 : Nat.ModEq P256.q (exTwoG.1 % P256.q) (P256.gx % P256.q) := by
        have : Nat.ModEq P256.q (h + exTwoG.1 % P256.q * d) (h + P256.gx % P256.q * d) := by unfold Nat.ModEq; rw [e1, e2]
        have hc : Nat.Coprime P256.q d := Nat.coprime_of_lt_prime (by omega) h1 P256.q_prime
        exact Nat.ModEq.cancel_right_of_coprime hc (Nat.ModEq.add_left_cancel' _ this)
      unfold Nat.ModEq at e3
      exact absurd e3 (by decide +kernel)

/-- Private keys are 32 bytes. -/
def exPriv (key : Bytes) : Option Nat := if 0 < Der.ofBytes key ∧ Der.ofBytes key < P256.q then some (Der.ofBytes key) else none

def exKeySign (key m : Bytes) : Bytes :=
  P256.derSig (exNonceOf (Der.ofBytes key) (Der.ofBytes (toyHash 32 m))).1 (exNonceOf (Der.ofBytes key) (Der.ofBytes (toyHash 32 m))).2

/-- ECDSA with keys that are read from files, and a toy hash. -/
@[reducible] def ecFileDeps : Deps :=
  { toyDeps with
    sha256 := toyHash 32
    asymSign := fun _ key _ m => exKeySign key m
    asymVerify := fun _ key m t => P256.verify (toyHash 32) key m t
    ringPkcs8 := fun _ b => (P256.readPkcs8 b).map (Rsa.toBytes 32) }

theorem ecFileDeps_sha256 : @Deps.sha256 ecFileDeps = toyHash 32 := rfl
theorem ecFileDeps_sign (key : Bytes) (rnd : Nat) (m : Bytes) : @Deps.asymSign ecFileDeps .ecdsaP256Sha256Asn1 key rnd m = exKeySign key m := rfl
theorem ecFileDeps_verify (key m t : Bytes) :
    @Deps.asymVerify ecFileDeps .ecdsaP256Sha256Asn1 key m t = P256.verify (toyHash 32) key m t := rfl
theorem ecFileDeps_pkcs8 (b : Bytes) : @Deps.ringPkcs8 ecFileDeps .ecP256 b = (P256.readPkcs8 b).map (Rsa.toBytes 32) := rfl

theorem ecFileDeps_real : @RealEcKeys ecFileDeps exPriv :=
  @RealEcKeys.mk ecFileDeps _
    (@RealEcdsa.mk ecFileDeps _
      (fun key d rnd m hd => by
        unfold exPriv at hd
        split at hd
        · rename_i hk
          obtain rfl := Option.some.inj hd
          rw [ecFileDeps_sign, ecFileDeps_sha256]
          obtain ⟨k, r, s, h1, h2⟩ := exNonceOf_facts hk.1 hk.2 (Der.ofBytes (toyHash 32 m))
          exact ⟨k, r, s, h1, by rw [exKeySign, h2]⟩
        · cases hd)
      (fun key m t => by rw [ecFileDeps_verify, ecFileDeps_sha256]))
    (fun b => by
      rw [ecFileDeps_pkcs8]
      cases hr : P256.readPkcs8 b with
      | none => rfl
      | some d =>
        obtain ⟨pk, hf⟩ := P256.readPkcs8_iff.1 hr
        have hq : P256.q < 256 ^ 32 := by decide +kernel
        have h0 : 0 < d := by
          obtain ⟨_, _, _, _, _, _, _, _, h, _⟩ := hf
          exact h
        have h1 := hf.part.1
        simp only [Option.map_some, Option.some.injEq]
        unfold exPriv
        rw [Rsa.ofBytes_toBytes, Nat.mod_eq_of_lt (Nat.lt_trans h1 hq), if_pos ⟨h0, h1⟩])

section
attribute [local instance] ecFileDeps

/-- The hypotheses of `C139_accepted` and `C139_pair`: a private key, and the SPKI file for it. -/
example : ∃ e ∈ ringTable, e.name = str% "ecdsa-p256-sha256" ∧ ∃ pk der s spki v, EcKeyFile 7 pk der ∧ Ring.newPkcs8 e der = some s ∧
    Spki oidEc [] 0 pk spki ∧ Ring.verifySpkiDer e spki = some v := by
  obtain ⟨pk, der, hf⟩ := C139_every_key 7 (by decide) (by decide +kernel)
  refine ⟨ringTable[4], by decide, rfl, pk, der, ?_⟩
  obtain ⟨s, hs⟩ := (C139_accepted ecFileDeps_real (e := ringTable[4]) (by decide) rfl der).2 ⟨7, pk, hf⟩
  have hlen : pk.length = 65 := by
    obtain ⟨a, b, ha, hb, _, _, _, e⟩ := hf.part.2.1
    rw [e]; simp; omega
  have hsp : Spki oidEc [] 0 pk (0x30 :: 79 :: ([0x30, 9, 6, 7, 0x2a, 0x86, 0x48, 0xce, 0x3d, 2, 1] ++ (3 :: 66 :: (0 :: pk)))) :=
    ⟨[6, 7, 0x2a, 0x86, 0x48, 0xce, 0x3d, 2, 1], _, _, _, ⟨[7], .inl ⟨by decide, rfl⟩, rfl⟩, rfl, ⟨[9], .inl ⟨by decide, rfl⟩, rfl⟩,
      ⟨[66], .inl ⟨by simp; omega, by simp [hlen]⟩, rfl⟩, ⟨[79], .inl ⟨by simp; omega, by simp [hlen]⟩, rfl⟩⟩
  exact ⟨s, _, _, hf, hs, hsp, C56_same_as_pkcs1 _ _ _ _ _ hsp rfl (.inl rfl)⟩

/-- The hypotheses of `C139_refused`: the same private key as bare `ECPrivateKey` and in PKCS #8 of version 1, without public key, and with
the key of another one. -/
example : ∃ bare key other pk part, EcPrivateKey (Rsa.toBytes 32 7) [] [] bare ∧ (∃ der, EcPrivateInfo 1 bare [] der) ∧
    (∃ der, EcPrivateInfo 0 bare [] der) ∧ EcPrivateKey (Rsa.toBytes 32 7) [] part key ∧ PublicPart pk part ∧ ¬ EcKey (7 • P256.G) pk ∧
    EcPrivateInfo 0 key [] other := by
  have hpk := (P256.keyOf_iff (d := 8) (by decide) (by decide +kernel)).1 rfl
  have hlen : (P256.keyOf 8).length = 65 := by
    obtain ⟨a, b, ha, hb, _, _, _, e⟩ := hpk
    rw [e]; simp; omega
  have short : ∀ (tag : UInt8) (c : Bytes), c.length < 128 → DerValue tag c (tag :: UInt8.ofNat c.length :: c) :=
    fun tag c h => ⟨_, .inl ⟨h, rfl⟩, rfl⟩
  have hb := Rsa.toBytes_length 32 7
  have e : (P256.algId).length = 19 := rfl
  refine ⟨_, _, _, P256.keyOf 8, _, ⟨_, _, short _ _ (by decide), short _ _ (by omega), short _ _ (by simp; omega)⟩,
    ⟨_, P256.ecPrivateInfo_iff.2 ⟨_, _, _, short _ _ (by decide), short _ _ (by decide), short _ _ (by simp; omega), short _ _ (by simp; omega)⟩⟩,
    ⟨_, P256.ecPrivateInfo_iff.2 ⟨_, _, _, short _ _ (by decide), short _ _ (by decide), short _ _ (by simp; omega), short _ _ (by simp; omega)⟩⟩,
    ⟨_, _, short _ _ (by decide), short _ _ (by omega), short _ _ (by simp; omega)⟩,
    ⟨_, short _ _ (by simp; omega), short _ _ (by simp; omega)⟩, ?_,
    P256.ecPrivateInfo_iff.2 ⟨_, _, _, short _ _ (by decide), short _ _ (by decide), short _ _ (by simp; omega),
      ⟨0x81 :: [UInt8.ofNat 135], .inr ?_, rfl⟩⟩⟩
  · intro h
    have := P256.smul_inj (by decide +kernel) (by decide +kernel) (P256.ecKey_det h hpk)
    omega
  · simp only [List.length_append, List.length_cons, List.length_nil, hb, hlen, e]
    exact ⟨by decide, by decide, 135, [], by decide, by decide, rfl, rfl⟩

end

end Httpsig
