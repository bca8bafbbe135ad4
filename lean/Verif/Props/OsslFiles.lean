import Verif.Spec.OsslFiles
import Verif.Props.OsslRsa
import Verif.Props.RsaPkcs8
import Verif.Props.SignFail
/-
Claim C145: key files of the openssl back end, and moving key files from one back end to the other.
-/
namespace Httpsig
open Base64

theorem RsaPlainFile.file {pkcs8 : Bool} {N : RsaNumbers} {der : Bytes} (h : RsaPlainFile pkcs8 N der) : RsaKeyFile pkcs8 N der := by
  cases pkcs8
  · exact h
  · obtain ⟨key, h1, h2⟩ := h
    exact ⟨key, [], h1, .inl rfl, h2⟩

section
variable [Deps] {priv pub : Bytes → Option (Nat × Nat)}

/-- C145. `new_der` of the openssl back end takes an RSA key in SPKI. -/
theorem C145_spki (h : OsslFiles priv pub) (e : AlgEntry) (n x : Nat) (der : Bytes) (hder : RsaSpki n x der) :
    ∃ key, Openssl.verifyDer e der = some (e.verifier key) ∧ pub key = some (n, x) := by
  obtain ⟨k, h1, h2⟩ := h.readsSpki n x der hder
  exact ⟨k, by rw [Openssl.verifyDer, h1, Option.map_some], h2⟩

/-- C145. It does not take the same key in PKCS #1, nor any private key. -/
theorem C145_not_spki (h : OsslFiles priv pub) (e : AlgEntry) (der : Bytes)
    (hder : (∃ n x, RsaPublicDer n x der) ∨ (∃ version N, RsaPrivateDer version N der) ∨ (∃ version key attrs, RsaPrivateInfo version key attrs der) ∨
      ∃ version key attrs, EcPrivateInfo version key attrs der) :
    Openssl.verifyDer e der = none := by
  obtain ⟨c, v, rest, hv, hd⟩ : ∃ c v rest, DerValue 0x02 c v ∧ DerValue 0x30 (v ++ rest) der := by
    rcases hder with ⟨n, x, a, b, ⟨_, _, _, _, _, ha⟩, _, hd⟩ | ⟨w, N, v, a1, a2, a3, a4, a5, a6, a7, a8, hv, _, _, _, _, _, _, _, _, hd⟩ |
      ⟨w, key, attrs, v, o, a, k, hv, _, _, _, hd⟩ | ⟨w, key, attrs, hi⟩
    · exact ⟨_, a, b, ha, hd⟩
    · exact ⟨_, v, _, hv, by simpa only [List.append_assoc] using hd⟩
    · exact ⟨_, v, _, hv, by simpa only [List.append_assoc] using hd⟩
    · obtain ⟨v, a, k, hv, _, _, hd⟩ := P256.ecPrivateInfo_iff.1 hi
      exact ⟨_, v, _, hv, by simpa only [List.append_assoc] using hd⟩
  cases hk : Deps.osslPubDer der with
  | none => rw [Openssl.verifyDer, hk, Option.map_none]
  | some k =>
    have h1 := h.onlySpki _ _ _ hk hd
    rw [P256.derValue_head hv] at h1
    cases h1

/-- C145. Private keys: a file is not of both kinds, so what `new_pkcs1_der` is made for `new_pkcs8` refuses, and conversely. -/
theorem C145_kinds (h : OsslFiles priv pub) (der : Bytes) :
    (∀ version N, RsaPrivateDer version N der → Openssl.newPkcs8 der = none) ∧
    (∀ version key attrs, RsaPrivateInfo version key attrs der → Openssl.newPkcs1Der der = none) ∧
    (∀ version key attrs, EcPrivateInfo version key attrs der → Openssl.newPkcs1Der der = none) := by
  refine ⟨?_, ?_, ?_⟩
  · rintro w N ⟨v, n, a2, a3, a4, a5, a6, a7, a8, hv, ⟨_, _, _, _, _, hn⟩, _, _, _, _, _, _, _, hd⟩
    simp only [List.append_assoc] at hd
    cases hk : Deps.osslPkcs8 der with
    | none => exact hk
    | some k =>
      have h1 := h.onlyPkcs8 _ _ _ _ _ hk hv hd
      rw [P256.derValue_head hn] at h1
      cases h1
  · rintro w key attrs ⟨v, o, a, k, hv, _, ha, _, hd⟩
    simp only [List.append_assoc] at hd
    cases hk : Deps.osslRsaDer der with
    | none => rw [Openssl.newPkcs1Der, hk, Option.map_none]
    | some k =>
      have h1 := h.onlyPkcs1 _ _ _ _ _ hk hv hd
      rw [P256.derValue_head ha] at h1
      cases h1
  · intro w key attrs hi
    obtain ⟨v, a, k, hv, ha, _, hd⟩ := P256.ecPrivateInfo_iff.1 hi
    simp only [List.append_assoc] at hd
    cases hk : Deps.osslRsaDer der with
    | none => rw [Openssl.newPkcs1Der, hk, Option.map_none]
    | some k =>
      have h1 := h.onlyPkcs1 _ _ _ _ _ hk hv hd
      rw [P256.derValue_head ha] at h1
      cases h1

/-- C145. The files of a pair: with an RSA key in a private key file of either kind and its public key in SPKI, both constructors succeed, signing
returns, and what it returns is the one text that is accepted. -/
theorem C145_pair {e : AlgEntry} {hash : Bytes → Bytes} {oid : Bytes} {len : Nat} (h : OsslFiles priv pub) (he : e ∈ opensslTable)
    (hp : Pkcs1Min e.signWith hash oid len) (pkcs8 : Bool) (N : RsaNumbers) (der der' : Bytes) (hf : RsaPlainFile pkcs8 N der) (hN : N.Sound)
    (hs : OsslSizes N.n N.e) (hpub : RsaSpki N.n N.e der') :
    ∃ k v, Openssl.newDer pkcs8 der = some k ∧ Openssl.verifyDer e der' = some v ∧
      ∀ rnd m, ∃ s, Openssl.httpSign e k rnd m = .ok s ∧ ∀ s', v.verify m s' = true ↔ s' = s := by
  obtain ⟨key, h1, h2⟩ := C145_spki h e _ _ _ hpub
  obtain ⟨k, hk, hr, hn⟩ : ∃ k, Openssl.newDer pkcs8 der = some k ∧ k.rsa = true ∧ priv k.key = some (N.n, N.d) := by
    cases pkcs8 with
    | true =>
      obtain ⟨k, a, b⟩ := h.readsPkcs8 N der hf hN
      exact ⟨⟨true, k⟩, a, rfl, b⟩
    | false =>
      obtain ⟨k, a, b⟩ := h.readsPkcs1 N der hf hN
      refine ⟨⟨true, k⟩, ?_, rfl, b⟩
      rw [Openssl.newDer, if_neg (by decide), Openssl.newPkcs1Der, a, Option.map_some]
  refine ⟨k, _, hk, h1, fun rnd m => ?_⟩
  obtain ⟨⟨hkey, _⟩, _⟩ := hN
  refine C144_pair h.toOsslRsa he hp hr hn h2 hkey.1 hs ?_ rnd m
  exact Nat.le_trans (Nat.pow_le_pow_right (by decide) (by cases e; rename_i a b c d; change Pkcs1Min c _ _ _ at hp; cases hp <;> decide)) hkey.2

end

section
variable {D D' : Deps} {pub priv : Bytes → Option (Nat × Nat)} {num : Bytes → Option Rsa.PrivateKey} {salt : Nat → Bytes} {a b : AlgEntry}
  {hash : Bytes → Bytes} {oid : Bytes} {len : Nat}

/-- C145, both back ends. An RSA key in SPKI is taken by both; with a key of a size that ring supports the same signatures are accepted, otherwise
ring's type accepts none. -/
theorem C145_public (hr : @RingRsaFiles D num salt) (ho : @OsslFiles D' priv pub) (hb : b ∈ opensslTable) (ha : @Pkcs1Oid D a.verifyWith hash oid)
    (hp : @Pkcs1Min D' b.signWith hash oid len) (hok : D.oidOk oidRsa = true ∧ D.anyOk [0x05, 0x00] = true) (n x : Nat) (der : Bytes)
    (hder : RsaSpki n x der) :
    ∃ v v', @Ring.verifySpkiDer D a der = some v ∧ @Openssl.verifyDer D' b der = some v' ∧
      ∀ m s, v.verify m s = true ↔ RsaSizes n x ∧ v'.verify m s = true := by
  obtain ⟨key, h1, h2⟩ := @C145_spki D' _ _ ho b n x der hder
  obtain ⟨k, hk, hs⟩ := hder
  have h3 : @spkiKey D der = some k := (@spkiKey_iff D der k).2 ⟨_, _, _, hs, hok.1, .inr hok.2, by decide, .inl rfl⟩
  refine ⟨_, _, ?_, h1, fun m s => C144_ring (@RingRsaFiles.toRingRsa D _ _ hr) ho.toOsslRsa hb ha hp hk h2 m s⟩
  unfold Ring.verifySpkiDer
  rw [h3, Option.map_some]

/-- C145, both back ends. No file works with `new_pkcs1_der` of the ring back end and with `new_der` of the openssl back end. -/
theorem C145_pkcs1 (hr : @RingRsaFiles D num salt) (ho : @OsslFiles D' priv pub) (ha : a ∈ ringTable) (hne : a.name ≠ str% "ecdsa-p256-sha256")
    (der : Bytes) :
    (∃ v, @Ring.verifyPkcs1Der D a der = some v ∧ ∀ m s, v.verify m s = false) ∨ @Openssl.verifyDer D' b der = none := by
  by_cases h : ∃ n x, RsaPublicDer n x der
  · exact .inr (@C145_not_spki D' _ _ ho b der (.inl h))
  · refine .inl ⟨_, rfl, fun m s => Bool.eq_false_iff.2 fun hv => h ?_⟩
    obtain ⟨n, x, h1, _⟩ := @C140_keys D _ _ _ (@RingRsaFiles.toRingRsa D _ _ hr) a ha hne m s hv
    exact ⟨n, x, h1⟩

/-- C145, both back ends. A private key file with an RSA key that ring takes gives the same signatures in both, with the types for the same hash. -/
theorem C145_private (hr : @RingRsaFiles D num salt) (ho : @OsslFiles D' priv pub) (ha : a ∈ ringTable) (hpa : @Pkcs1 D a.signWith hash)
    (hp : @Pkcs1Min D' b.signWith hash oid len) (hsame : a.signWith = b.signWith) (pkcs8 : Bool) (N : RsaNumbers) (der : Bytes)
    (hf : RsaPlainFile pkcs8 N der) (hN : N.Sound) (s : HttpSignatureSign) (hs : @RsaSigner D a pkcs8 der s) :
    ∃ k, @Openssl.newDer D' pkcs8 der = some k ∧ ∀ rnd rnd' m, @Openssl.httpSign D' b k rnd m = .ok (s.sign rnd' m) := by
  have hne : a.name ≠ str% "ecdsa-p256-sha256" := by
    simp only [ringTable, List.mem_cons, List.not_mem_nil, or_false] at ha
    rcases ha with rfl | rfl | rfl | rfl | rfl
    · decide
    · decide
    · decide
    · decide
    · cases hpa
  obtain ⟨k, hk, hrsa, hn⟩ : ∃ k, @Openssl.newDer D' pkcs8 der = some k ∧ k.rsa = true ∧ priv k.key = some (N.n, N.d) := by
    cases pkcs8 with
    | true =>
      obtain ⟨k, c, d⟩ := ho.readsPkcs8 N der hf hN
      exact ⟨⟨true, k⟩, c, rfl, d⟩
    | false =>
      obtain ⟨k, c, d⟩ := ho.readsPkcs1 N der hf hN
      refine ⟨⟨true, k⟩, ?_, rfl, d⟩
      rw [Openssl.newDer, if_neg (by decide), Openssl.newPkcs1Der, c, Option.map_some]
  refine ⟨k, hk, fun rnd rnd' m => ?_⟩
  obtain ⟨hfit, _⟩ := hN
  obtain ⟨kr, K, _, hnum, hread, rfl⟩ := (@rsaSigner_iff D _ _ _ _ hr ha hne _ _).1 hs
  obtain ⟨t, ht⟩ := @C143_fit D _ _ _ (@RingRsaFiles.toRingRsa D _ _ hr) N N.d K der hf.file hread hfit a.signWith rnd' m
  have hval : (@AlgEntry.signer D a kr).sign rnd' m = t := @RingRsaFiles.signs D _ _ hr _ _ _ _ _ _ (rsaSigned_keyType ha hne).2.2 hnum ht
  have hsig := (@C143_value D _ _ _ (@RingRsaFiles.toRingRsa D _ _ hr) N N.d K der hf.file hread hfit.1 rnd' m t).1 _ _ hpa ht
  have hlen : 256 ^ (len - 1) ≤ N.n := by
    refine Nat.le_trans (Nat.pow_le_pow_right (by decide) ?_) hfit.1.2
    generalize b.signWith = p at hp
    cases hp <;> decide
  rw [@OsslRsa.httpSign_eq D' _ _ _ _ _ _ _ _ _ ho.toOsslRsa hp hrsa hn hlen rnd m, hval, hsig, hsame]

/-- C145, both back ends. The files of a pair, with one back end on each side: there is one signature text for every text, both signing types return
it, and both verifying types accept it and no other. -/
theorem C145_cross (hr : @RingRsaFiles D num salt) (ho : @OsslFiles D' priv pub) (ha : a ∈ ringTable) (hb : b ∈ opensslTable)
    (hpa : @Pkcs1Oid D a.verifyWith hash oid) (hp : @Pkcs1Min D' b.signWith hash oid len) (hsame : a.signWith = b.signWith)
    (hok : D.oidOk oidRsa = true ∧ D.anyOk [0x05, 0x00] = true) (pkcs8 : Bool) (N : RsaNumbers) (der der' : Bytes) (hf : RsaPlainFile pkcs8 N der)
    (hN : N.Sound) (hpub : RsaSpki N.n N.e der') (s : HttpSignatureSign) (hs : @RsaSigner D a pkcs8 der s) :
    ∃ k v v', @Openssl.newDer D' pkcs8 der = some k ∧ @Ring.verifySpkiDer D a der' = some v ∧ @Openssl.verifyDer D' b der' = some v' ∧
      ∀ m, ∃ t, ∀ rnd, s.sign rnd m = t ∧ @Openssl.httpSign D' b k rnd m = .ok t ∧
        ∀ t', (v.verify m t' = true ↔ t' = t) ∧ (v'.verify m t' = true ↔ t' = t) := by
  have hne : a.name ≠ str% "ecdsa-p256-sha256" := by
    simp only [ringTable, List.mem_cons, List.not_mem_nil, or_false] at ha
    rcases ha with rfl | rfl | rfl | rfl | rfl
    · decide
    · decide
    · decide
    · decide
    · cases hpa
  have hpa' : @Pkcs1 D a.signWith hash := by
    rw [← (rsaSigned_keyType ha hne).2.1]
    generalize a.verifyWith = p at hpa
    cases hpa
    · exact @Pkcs1.sha256 D
    · exact @Pkcs1.sha512 D
  obtain ⟨_, K, _, _, hread, _⟩ := (@rsaSigner_iff D _ _ _ _ hr ha hne _ _).1 hs
  obtain ⟨N', hf', hT, _, _⟩ := Rsa.read_iff.1 hread
  obtain rfl := rsaKeyFile_det hf.file hf'
  have hsz := (Rsa.taken_sizes hT).1
  obtain ⟨k, hk, h1⟩ := C145_private hr ho ha hpa' hp hsame pkcs8 N der hf hN s hs
  obtain ⟨v, v', hv, hv', h2⟩ := C145_public hr ho hb hpa hp hok _ _ _ hpub
  obtain ⟨k', w, hk', hw, h3⟩ := @C145_pair D' _ _ _ _ _ _ ho hb hp pkcs8 N der der' hf hN hsz.ossl hpub
  obtain rfl := Option.some.inj (hk.symm.trans hk')
  obtain rfl := Option.some.inj (hv'.symm.trans hw)
  refine ⟨k, v, v', hk, hv, hv', fun m => ?_⟩
  refine ⟨s.sign 0 m, fun rnd => ?_⟩
  obtain ⟨t, h4, h5⟩ := h3 rnd m
  obtain rfl : t = s.sign 0 m := Except.ok.inj (h4.symm.trans (h1 rnd 0 m))
  refine ⟨Except.ok.inj ((h1 rnd rnd m).symm.trans (h1 rnd 0 m)), h4, fun t' => ⟨(h2 m t').trans ⟨fun h => (h5 t').1 h.2, fun h => ⟨hsz, (h5 t').2 h⟩⟩, h5 t'⟩⟩

/-- C145, both back ends. Except for `rsa-pss-sha512`, the two verifying keys that an SPKI file gives are the same in every respect. -/
theorem C145_same_key (hr : @RingRsaFiles D num salt) (ho : @OsslFiles D' priv pub) (hh : D.sha256 = D'.sha256 ∧ D.sha512 = D'.sha512)
    (hok : D.oidOk oidRsa = true ∧ D.anyOk [0x05, 0x00] = true) {v v' : HttpSignatureVerify} (h : FromOneFile D D' v v') : v = v' := by
  obtain ⟨a, ha, b, hb, n, x, der, hname, hpss, hder, hsz, hv, hv'⟩ := h
  have key : ∀ {hash oid len}, @Pkcs1Oid D a.verifyWith hash oid → @Pkcs1Min D' b.signWith hash oid len → v = v' := by
    intro hash oid len h1 h2
    obtain ⟨w, w', hw, hw', h3⟩ := C145_public hr ho hb h1 h2 hok n x der hder
    obtain rfl := Option.some.inj (hw.symm.trans hv)
    obtain rfl := Option.some.inj (hw'.symm.trans hv')
    have n1 : w.name = a.name := by
      unfold Ring.verifySpkiDer at hv
      obtain ⟨_, _, rfl⟩ := Option.map_eq_some_iff.1 hv
      rfl
    have n2 : w'.name = b.name := by
      unfold Openssl.verifyDer at hv'
      obtain ⟨_, _, rfl⟩ := Option.map_eq_some_iff.1 hv'
      rfl
    have e1 : w.name = w'.name := n1.trans (hname.trans n2.symm)
    have e2 : w.verify = w'.verify := by
      funext m s
      rw [Bool.eq_iff_iff, h3 m s]
      exact ⟨fun h => h.2, fun h => ⟨hsz, h⟩⟩
    cases w
    cases w'
    simp only at e1 e2
    rw [e1, e2]
  have s256 := @Pkcs1Oid.sha256 D
  have s512 := @Pkcs1Oid.sha512 D
  rw [hh.1] at s256
  rw [hh.2] at s512
  simp only [ringTable, List.mem_cons, List.not_mem_nil, or_false] at ha
  simp only [opensslTable, List.mem_cons, List.not_mem_nil, or_false] at hb
  rcases ha with rfl | rfl | rfl | rfl | rfl <;> rcases hb with rfl | rfl | rfl | rfl <;> first
    | exact absurd rfl hpss
    | exact absurd hname (by decide)
    | exact key s256 (@Pkcs1Min.sha256 D')
    | exact key s512 (@Pkcs1Min.sha512 D')

/-- C145, both back ends. A server that changes the back end and keeps its SPKI files gives the same answer to every request. -/
theorem C145_servers [Deps] {S Rem : Type} [ServerRequestLike S Rem] (hr : @RingRsaFiles D num salt) (ho : @OsslFiles D' priv pub)
    (hh : D.sha256 = D'.sha256 ∧ D.sha512 = D'.sha512) (hok : D.oidOk oidRsa = true ∧ D.anyOk [0x05, 0x00] = true) (req : S)
    (vc vc' : VerifyingConfig) (hvc : vc' = { vc with keyProvider := vc'.keyProvider })
    (hkp : ∀ kid, List.Forall₂ (FromOneFile D D') (vc.keyProvider kid) (vc'.keyProvider kid)) (venv : VerifyEnv) :
    verify req vc' venv = verify req vc venv := by
  have : vc'.keyProvider = vc.keyProvider := by
    funext kid
    have h := hkp kid
    generalize vc.keyProvider kid = l at h
    generalize vc'.keyProvider kid = l' at h
    induction h with
    | nil => rfl
    | cons h _ ih => rw [ih, C145_same_key hr ho hh hok h]
  rw [this] at hvc
  rw [hvc]

/-- C145, both back ends. Signing keys: the two that a private key file gives for one name are the same in every respect. -/
theorem C145_same_signer (hr : @RingRsaFiles D num salt) (ho : @OsslFiles D' priv pub) (ha : a ∈ ringTable) (hpa : @Pkcs1 D a.signWith hash)
    (hp : @Pkcs1Min D' b.signWith hash oid len) (hsame : a.signWith = b.signWith) (hname : a.name = b.name) (pkcs8 : Bool) (N : RsaNumbers)
    (der : Bytes) (hf : RsaPlainFile pkcs8 N der) (hN : N.Sound) (s : HttpSignatureSign) (hs : @RsaSigner D a pkcs8 der s) :
    ∃ k, @Openssl.newDer D' pkcs8 der = some k ∧ @AlgEntry.signer D' b k.key = s ∧ ∀ rnd m, @Openssl.httpSign D' b k rnd m = .ok (s.sign rnd m) := by
  obtain ⟨k, hk, h1⟩ := C145_private hr ho ha hpa hp hsame pkcs8 N der hf hN s hs
  refine ⟨k, hk, ?_, fun rnd m => h1 rnd rnd m⟩
  have hn : s.name = a.name := by
    rcases hs with h | ⟨_, _, _, h⟩ <;> cases pkcs8
    · obtain ⟨_, _, rfl⟩ := Option.map_eq_some_iff.1 h
      rfl
    · obtain ⟨_, _, rfl⟩ := Option.map_eq_some_iff.1 h
      rfl
    · obtain ⟨_, _, h⟩ := Option.bind_eq_some_iff.1 h
      obtain ⟨_, _, rfl⟩ := Option.map_eq_some_iff.1 h
      rfl
    · obtain ⟨_, _, h⟩ := Option.bind_eq_some_iff.1 h
      obtain ⟨_, _, rfl⟩ := Option.map_eq_some_iff.1 h
      rfl
  have e1 : (@AlgEntry.signer D' b k.key).name = s.name := hname.symm.trans hn.symm
  have e2 : (@AlgEntry.signer D' b k.key).sign = s.sign := by
    funext rnd m
    have h2 := h1 rnd rnd m
    unfold Openssl.httpSign at h2
    split at h2
    · cases h2
    · split at h2
      · cases h2
      · exact Except.ok.inj h2
  generalize @AlgEntry.signer D' b k.key = s' at e1 e2
  cases s
  cases s'
  simp only at e1 e2
  rw [e1, e2]

/-- C145, both back ends. A client that changes the back end and keeps its private key file signs every request as before. -/
theorem C145_clients [Deps] {R : Type} [ClientRequestLike R] [LawfulClient R] (hr : @RingRsaFiles D num salt) (ho : @OsslFiles D' priv pub)
    (ha : a ∈ ringTable) (hpa : @Pkcs1 D a.signWith hash) (hp : @Pkcs1Min D' b.signWith hash oid len) (hsame : a.signWith = b.signWith)
    (hname : a.name = b.name) (pkcs8 : Bool) (N : RsaNumbers) (der : Bytes) (hf : RsaPlainFile pkcs8 N der) (hN : N.Sound)
    (config config' : SigningConfig) (hs : @RsaSigner D a pkcs8 der config.signature) (k : OsslKey) (hk : @Openssl.newDer D' pkcs8 der = some k)
    (hc : config' = { config with signature := @AlgEntry.signer D' b k.key }) (r : R) (env : SignEnv) :
    (signMay (@Openssl.httpSign D' b k) r config' env).result = sign r config env := by
  obtain ⟨k', hk', h1, h2⟩ := C145_same_signer hr ho ha hpa hp hsame hname pkcs8 N der hf hN _ hs
  obtain rfl := Option.some.inj (hk.symm.trans hk')
  rw [h1] at hc
  obtain rfl : config' = config := hc
  exact (C141_same _ r config' env fun base _ => h2 env.rnd base).2

end

/-! ### Examples -/

theorem rsaSpki_det {n x n' x' : Nat} {der : Bytes} (h : RsaSpki n x der) (h' : RsaSpki n' x' der) : n = n' ∧ x = x' := by
  obtain ⟨k, hk, o, _, a, b, ho, rfl, ha, hb, hd⟩ := h
  obtain ⟨k', hk', o', _, a', b', ho', rfl, ha', hb', hd'⟩ := h'
  obtain ⟨_, rfl⟩ := derValue_front ha ha' (derValue_whole hd hd')
  obtain rfl : k = k' := (List.cons.inj (derValue_whole hb hb')).2
  exact (C140_one_encoding hk hk').1 rfl

open Classical in
/-- OpenSSL with a toy hash, reading exactly the files of the standards. -/
noncomputable def filePub (key : Bytes) : Option (Nat × Nat) :=
  if h : ∃ x : Nat × Nat, RsaSpki x.1 x.2 key then some h.choose else none

open Classical in
/-- A private key is the file, after its kind. -/
noncomputable def filePriv : Bytes → Option (Nat × Nat)
  | [] => none
  | kind :: der => if h : ∃ N, RsaPlainFile (kind == 1) N der then some (h.choose.n, h.choose.d) else none

open Classical in
@[reducible] noncomputable def osslFileDeps : Deps :=
  { osslDepsOf filePriv filePub with
    osslPubDer := fun der => if ∃ x : Nat × Nat, RsaSpki x.1 x.2 der then some der else none
    osslRsaDer := fun der => if ∃ N, RsaPlainFile false N der then some (0 :: der) else none
    osslPkcs8 := fun der => if ∃ N, RsaPlainFile true N der then some ⟨true, 1 :: der⟩ else none }

theorem filePriv_eq {b : Bool} {N : RsaNumbers} {der : Bytes} (h : RsaPlainFile b N der) (kind : UInt8) (hk : (kind == 1) = b) :
    filePriv (kind :: der) = some (N.n, N.d) := by
  subst hk
  have he : ∃ N, RsaPlainFile (kind == 1) N der := ⟨N, h⟩
  rw [filePriv, dif_pos he, rsaKeyFile_det he.choose_spec.file h.file]

theorem osslFileDeps_real : @OsslFiles osslFileDeps filePriv filePub := by
  have hd : @OsslRsa osslFileDeps filePriv filePub := by
    obtain ⟨h1, h2, h3, h4, h5, h6, h7, h8⟩ := osslDepsOf_real filePriv filePub
    exact @OsslRsa.mk osslFileDeps _ _ h1 h2 h3 h4 h5 h6 h7 h8
  refine @OsslFiles.mk osslFileDeps _ _ hd ?_ ?_ ?_ ?_ ?_ ?_
  · intro n x der h
    have he : ∃ x : Nat × Nat, RsaSpki x.1 x.2 der := ⟨(n, x), h⟩
    refine ⟨der, if_pos he, ?_⟩
    rw [filePub, dif_pos he]
    obtain ⟨h1, h2⟩ := rsaSpki_det he.choose_spec h
    exact congrArg some (Prod.ext h1 h2)
  · intro der k body hk hb
    have he : ∃ x : Nat × Nat, RsaSpki x.1 x.2 der := by
      by_contra hn
      cases (if_neg hn).symm.trans hk
    obtain ⟨x, key, _, o, _, a, b, _, _, ha, _, hd⟩ := he
    rw [derValue_whole hb hd, P256.derValue_head ha]
  · intro N der h _
    exact ⟨_, if_pos ⟨N, h⟩, filePriv_eq h 0 rfl⟩
  · intro der k c v rest hk hv hb
    have he : ∃ N, RsaPlainFile false N der := by
      by_contra hn
      cases (if_neg hn).symm.trans hk
    obtain ⟨N, w, n, a2, a3, a4, a5, a6, a7, a8, hw, ⟨_, _, _, _, _, hn⟩, _, _, _, _, _, _, _, hd⟩ := he
    simp only [List.append_assoc] at hd
    rw [(derValue_front hv hw (derValue_whole hb hd)).2, P256.derValue_head hn]
  · intro N der h _
    exact ⟨_, if_pos ⟨N, h⟩, filePriv_eq h 1 rfl⟩
  · intro der k c v rest hk hv hb
    have he : ∃ N, RsaPlainFile true N der := by
      by_contra hn
      cases (if_neg hn).symm.trans hk
    obtain ⟨N, key, _, w, o, a, k, hw, _, ha, _, hd⟩ := he
    simp only [List.append_assoc] at hd
    rw [(derValue_front hv hw (derValue_whole hb hd)).2, P256.derValue_head ha]

theorem exRsaPlain {N : RsaNumbers} (h : RsaPrivateDer 0 N (exPkcs1 N)) (hl : (exPkcs1 N).length < 65000) (b : Bool) :
    RsaPlainFile b N (if b then exPkcs8 N else exPkcs1 N) := by
  cases b
  · simp only [RsaPlainFile, Bool.false_eq_true, if_false]
    exact h
  · simp only [RsaPlainFile, if_true]
    have ha : (exTlv 0x30 Rsa.algId).length = 15 := by decide
    have hk : (exTlv 0x04 (exPkcs1 N)).length ≤ (exPkcs1 N).length + 4 := by unfold exTlv; split <;> (try split) <;> simp
    refine ⟨exPkcs1 N, h, Rsa.rsaPrivateInfo_iff.2 ⟨[0x02, 0x01, 0x00], exTlv 0x30 Rsa.algId, exTlv 0x04 (exPkcs1 N),
      (Rsa.derValue_small (by decide)).2 rfl, exTlv_der _ (by decide), exTlv_der _ (Nat.lt_trans hl (by decide)), ?_⟩⟩
    rw [List.append_nil]
    refine exTlv_der _ ?_
    simp only [List.length_append, List.length_cons, List.length_nil, ha]
    omega

theorem exNumbers_plain (b : Bool) : RsaPlainFile b exNumbers (if b then exPkcs8 exNumbers else exPkcs1 exNumbers) := by
  have h := exFile1 (exNumbers_files false).1
  simp only [RsaKeyFile, Bool.false_eq_true, if_false] at h
  exact exRsaPlain h (by decide +kernel) b

theorem exNumbers_sound : exNumbers.Sound := by
  refine ⟨exNumbers_fit, rfl, ?_, ?_, ?_, ?_, ?_, ?_, ?_, ?_⟩ <;> decide +kernel

/-- The public key of the key of the examples of C143, bare and in SPKI. -/
def exPublic1 : Bytes := exTlv 0x30 (exInteger exNumbers.n ++ exInteger exNumbers.e)
def exPublicInfo : Bytes := exTlv 0x30 (exTlv 0x30 (exTlv 0x06 oidRsa ++ [0x05, 0x00]) ++ exTlv 0x03 (0 :: exPublic1))

theorem exPublic1_der : RsaPublicDer exNumbers.n exNumbers.e exPublic1 :=
  ⟨_, _, exInteger_der (by decide +kernel), exInteger_der (by decide +kernel), exTlv_der _ (by decide +kernel)⟩

theorem exPublicInfo_der : RsaSpki exNumbers.n exNumbers.e exPublicInfo :=
  ⟨_, exPublic1_der, _, _, _, _, exTlv_der _ (by decide +kernel), rfl, exTlv_der _ (by decide +kernel), exTlv_der _ (by decide +kernel),
    exTlv_der _ (by decide +kernel)⟩

/-- `C145_spki`, `C145_not_spki`: the public key as SPKI is taken, bare it is refused, and so is the private key. -/
example : (∃ v, @Openssl.verifyDer osslFileDeps opensslTable[2] exPublicInfo = some v) ∧
    @Openssl.verifyDer osslFileDeps opensslTable[2] exPublic1 = none ∧ @Openssl.verifyDer osslFileDeps opensslTable[2] (exPkcs1 exNumbers) = none := by
  obtain ⟨k, h, _⟩ := @C145_spki osslFileDeps _ _ osslFileDeps_real opensslTable[2] _ _ _ exPublicInfo_der
  exact ⟨⟨_, h⟩, @C145_not_spki osslFileDeps _ _ osslFileDeps_real _ _ (.inl ⟨_, _, exPublic1_der⟩),
    @C145_not_spki osslFileDeps _ _ osslFileDeps_real _ _ (.inr (.inl ⟨_, _, exFile1 (exNumbers_files false).1⟩))⟩

/-- `C145_kinds`, `C145_pair`: the private key in a file of each kind, with the constructor for the kind and with the other one. -/
example (b : Bool) : (∃ k v, @Openssl.newDer osslFileDeps b (if b then exPkcs8 exNumbers else exPkcs1 exNumbers) = some k ∧
      @Openssl.verifyDer osslFileDeps opensslTable[2] exPublicInfo = some v ∧
      ∀ rnd m, ∃ s, @Openssl.httpSign osslFileDeps opensslTable[2] k rnd m = .ok s ∧ ∀ s', v.verify m s' = true ↔ s' = s) ∧
    @Openssl.newDer osslFileDeps (!b) (if b then exPkcs8 exNumbers else exPkcs1 exNumbers) = none := by
  refine ⟨@C145_pair osslFileDeps _ _ _ _ _ _ osslFileDeps_real (by simp) (@Pkcs1Min.sha256 osslFileDeps) b exNumbers _ _ (exNumbers_plain b)
    exNumbers_sound ?_ exPublicInfo_der, ?_⟩
  · exact ⟨by decide +kernel, by decide +kernel, by decide +kernel, by decide +kernel⟩
  · obtain ⟨h1, h2, _⟩ := @C145_kinds osslFileDeps _ _ osslFileDeps_real (if b then exPkcs8 exNumbers else exPkcs1 exNumbers)
    have hf := exNumbers_plain b
    cases b with
    | true =>
      obtain ⟨key, _, hi⟩ := hf
      exact h2 _ _ _ hi
    | false => exact h1 _ _ hf

/-- `C145_public`: both take the public key and accept the same signatures. -/
example : ∃ v v', @Ring.verifySpkiDer rsaFileDeps ringTable[0] exPublicInfo = some v ∧
    @Openssl.verifyDer osslFileDeps opensslTable[2] exPublicInfo = some v' ∧ ∀ m s, v.verify m s = v'.verify m s := by
  obtain ⟨v, v', h1, h2, h3⟩ := C145_public (a := ringTable[0]) (b := opensslTable[2]) (hash := toyHash 32) rsaFileDeps_real osslFileDeps_real
    (by simp) (@Pkcs1Oid.sha256 rsaFileDeps) (@Pkcs1Min.sha256 osslFileDeps) ⟨rfl, rfl⟩ _ _ _ exPublicInfo_der
  have hs : RsaSizes exNumbers.n exNumbers.e := by refine ⟨?_, ?_, ?_, ?_, ?_, ?_⟩ <;> decide +kernel
  exact ⟨v, v', h1, h2, fun m s => Bool.eq_iff_iff.2 ((h3 m s).trans ⟨fun h => h.2, fun h => ⟨hs, h⟩⟩)⟩

/-- `C145_pkcs1`: the bare key works with ring, and the other back end refuses it. -/
example : @Openssl.verifyDer osslFileDeps opensslTable[2] exPublic1 = none ∧ Rsa.readPublic exPublic1 = some (exNumbers.n, exNumbers.e) :=
  ⟨@C145_not_spki osslFileDeps _ _ osslFileDeps_real _ _ (.inl ⟨_, _, exPublic1_der⟩), by decide +kernel⟩

/-- `C145_private`: the file of each kind, in both back ends. -/
example (b : Bool) : ∃ s k, @RsaSigner rsaFileDeps ringTable[0] b (if b then exPkcs8 exNumbers else exPkcs1 exNumbers) s ∧
    @Openssl.newDer osslFileDeps b (if b then exPkcs8 exNumbers else exPkcs1 exNumbers) = some k ∧
    ∀ rnd rnd' m, @Openssl.httpSign osslFileDeps opensslTable[2] k rnd m = .ok (s.sign rnd' m) := by
  obtain ⟨s, hs⟩ := (@C143_taken rsaFileDeps _ _ ringTable[0] _ rsaFileDeps_real (by simp) (by decide) _).2
    ⟨_, (exNumbers_files b).1, exNumbers_taken, by cases b <;> decide +kernel⟩
  obtain ⟨k, h1, h2⟩ := C145_private (a := ringTable[0]) (b := opensslTable[2]) (hash := toyHash 32) rsaFileDeps_real osslFileDeps_real (by simp)
    (@Pkcs1.sha256 rsaFileDeps) (@Pkcs1Min.sha256 osslFileDeps) rfl b _ _ (exNumbers_plain b) exNumbers_sound s hs
  exact ⟨s, k, hs, h1, h2⟩

/-- `C145_cross`: the two files of that key. -/
example (b : Bool) : ∃ s k v v', @RsaSigner rsaFileDeps ringTable[0] b (if b then exPkcs8 exNumbers else exPkcs1 exNumbers) s ∧
    @Openssl.newDer osslFileDeps b (if b then exPkcs8 exNumbers else exPkcs1 exNumbers) = some k ∧
    @Ring.verifySpkiDer rsaFileDeps ringTable[0] exPublicInfo = some v ∧ @Openssl.verifyDer osslFileDeps opensslTable[2] exPublicInfo = some v' ∧
    ∀ m rnd, v'.verify m (s.sign rnd m) = true ∧ ∃ t, @Openssl.httpSign osslFileDeps opensslTable[2] k rnd m = .ok t ∧ v.verify m t = true := by
  obtain ⟨s, hs⟩ := (@C143_taken rsaFileDeps _ _ ringTable[0] _ rsaFileDeps_real (by simp) (by decide) _).2
    ⟨_, (exNumbers_files b).1, exNumbers_taken, by cases b <;> decide +kernel⟩
  obtain ⟨k, v, v', h1, h2, h3, h4⟩ := C145_cross (a := ringTable[0]) (b := opensslTable[2]) (hash := toyHash 32) rsaFileDeps_real osslFileDeps_real
    (by simp) (by simp) (@Pkcs1Oid.sha256 rsaFileDeps) (@Pkcs1Min.sha256 osslFileDeps) rfl ⟨rfl, rfl⟩ b _ _ _ (exNumbers_plain b) exNumbers_sound
    exPublicInfo_der s hs
  refine ⟨s, k, v, v', hs, h1, h2, h3, fun m rnd => ?_⟩
  obtain ⟨t, h5⟩ := h4 m
  obtain ⟨h6, h7, h8⟩ := h5 rnd
  exact ⟨(h8 _).2.2 h6, t, h7, (h8 _).1.2 rfl⟩

/-- `C145_same_key`, `C145_servers`: the two keys from the public key in SPKI, and two servers with one of them each. -/
example [Deps] (kid kid' : Str) (c : VerifyingConfig) (req : MockRequest) (venv : VerifyEnv) (v v' : HttpSignatureVerify)
    (hv : @Ring.verifySpkiDer rsaFileDeps ringTable[0] exPublicInfo = some v)
    (hv' : @Openssl.verifyDer osslFileDeps opensslTable[2] exPublicInfo = some v') : v = v' ∧
    verify req { c with keyProvider := fun k => if k = kid ∨ k = kid' then [v'] else [] } venv =
      verify req { c with keyProvider := fun k => if k = kid ∨ k = kid' then [v] else [] } venv := by
  have hs : RsaSizes exNumbers.n exNumbers.e := by refine ⟨?_, ?_, ?_, ?_, ?_, ?_⟩ <;> decide +kernel
  have h : FromOneFile rsaFileDeps osslFileDeps v v' :=
    ⟨ringTable[0], by simp, opensslTable[2], by simp, _, _, _, rfl, by decide, exPublicInfo_der, hs, hv, hv'⟩
  refine ⟨C145_same_key rsaFileDeps_real osslFileDeps_real ⟨rfl, rfl⟩ ⟨rfl, rfl⟩ h,
    C145_servers rsaFileDeps_real osslFileDeps_real ⟨rfl, rfl⟩ ⟨rfl, rfl⟩ req _ _ rfl (fun k => ?_) venv⟩
  dsimp only
  split
  · exact .cons h .nil
  · exact .nil

/-- `C145_same_signer`, `C145_clients`: the key file of each kind. -/
example [Deps] (b : Bool) (config : SigningConfig) (r : ReqwestRequest) (env : SignEnv) : ∃ s k,
    @RsaSigner rsaFileDeps ringTable[0] b (if b then exPkcs8 exNumbers else exPkcs1 exNumbers) s ∧
    @Openssl.newDer osslFileDeps b (if b then exPkcs8 exNumbers else exPkcs1 exNumbers) = some k ∧
    (signMay (@Openssl.httpSign osslFileDeps opensslTable[2] k) r { config with signature := @AlgEntry.signer osslFileDeps opensslTable[2] k.key } env).result =
      sign r { config with signature := s } env := by
  obtain ⟨s, hs⟩ := (@C143_taken rsaFileDeps _ _ ringTable[0] _ rsaFileDeps_real (by simp) (by decide) _).2
    ⟨_, (exNumbers_files b).1, exNumbers_taken, by cases b <;> decide +kernel⟩
  obtain ⟨k, h1, h2, h3⟩ := C145_same_signer (a := ringTable[0]) (b := opensslTable[2]) (hash := toyHash 32) rsaFileDeps_real osslFileDeps_real
    (by simp) (@Pkcs1.sha256 rsaFileDeps) (@Pkcs1Min.sha256 osslFileDeps) rfl rfl b _ _ (exNumbers_plain b) exNumbers_sound s hs
  exact ⟨s, k, hs, h1, C145_clients (a := ringTable[0]) (b := opensslTable[2]) (hash := toyHash 32) rsaFileDeps_real osslFileDeps_real
    (by simp) (@Pkcs1.sha256 rsaFileDeps) (@Pkcs1Min.sha256 osslFileDeps) rfl rfl b _ _ (exNumbers_plain b) exNumbers_sound
    { config with signature := s } _ hs k h1 rfl r env⟩

end Httpsig
