import Verif.Spec.OsslRsa
import Verif.Props.RsaPublic
import Verif.Props.SignFail
/-
Claim C144: which RSA keys work in the openssl back end, and which signatures it accepts.
-/
namespace Httpsig
open Base64

namespace Openssl

theorem usable_iff {n e : Nat} : usable n e = true ↔ OsslSizes n e := by
  unfold usable OsslSizes
  generalize 2 ^ 16384 = a
  generalize 2 ^ 3072 = b
  generalize 2 ^ 64 = c
  simp only [Bool.and_eq_true, Bool.or_eq_true, decide_eq_true_eq, beq_iff_eq]
  omega

theorem size_min {n k : Nat} (hn : n ≠ 0) (hk : 0 < k) : k ≤ Rsa.size n ↔ 256 ^ (k - 1) ≤ n := by
  constructor
  · intro h
    exact Nat.le_trans (Nat.pow_le_pow_right (by decide) (by omega)) (Rsa.size_le hn)
  · intro h
    have := (Nat.pow_lt_pow_iff_right (by decide : 1 < 256)).1 (Nat.lt_of_le_of_lt h (Rsa.lt_size n))
    omega

/-- `Openssl.accepts` in the vocabulary of the specification. -/
theorem accepts_iff {oid info m t : Bytes} {hash : Bytes → Bytes} {n e : Nat} (hd : ∀ der, DigestInfo oid (hash m) der ↔ der = info ++ hash m) :
    accepts info hash n e m t = true ↔ OsslSizes n e ∧ 256 ^ (t.length - 1) ≤ n ∧ n < 256 ^ t.length ∧ bigEndian t < n ∧
      ∃ em, Pkcs1Block oid (hash m) t.length em ∧ bigEndian t ^ e % n = bigEndian em := by
  simp only [accepts, fits, Rsa.accepts, Bool.and_eq_true, beq_iff_eq, decide_eq_true_eq, Der.ofBytes_eq, usable_iff]
  constructor
  · rintro ⟨⟨hs, hi⟩, ⟨h1, h2⟩, h3⟩
    have hn : n ≠ 0 := by rintro rfl; exact absurd hs.1 (by decide)
    have hlt : bigEndian t ^ e % n < 256 ^ Rsa.size n := Nat.lt_trans (Nat.mod_lt _ (by omega)) (Rsa.lt_size n)
    rw [h1]
    refine ⟨hs, Rsa.size_le hn, Rsa.lt_size n, h2, _, (Rsa.pkcs1Block_iff hd hi).2 rfl, ?_⟩
    rw [← h3, ← Der.ofBytes_eq (Rsa.toBytes _ _), Rsa.ofBytes_toBytes, Nat.mod_eq_of_lt hlt]
  · rintro ⟨hs, h1, h2, h3, em, h4, h5⟩
    have hn : n ≠ 0 := by rintro rfl; exact absurd hs.1 (by decide)
    have hi : info.length + (hash m).length + 11 ≤ t.length := by
      obtain ⟨ff, i, _, h6, h7, rfl, h8⟩ := h4
      obtain rfl := (hd i).1 h7
      simp only [List.length_cons, List.length_append] at h8
      omega
    have hsz := (Rsa.size_iff hn (by omega)).1 ⟨h1, h2⟩
    rw [hsz] at h4 hi
    obtain rfl := (Rsa.pkcs1Block_iff hd hi).1 h4
    refine ⟨⟨hs, hi⟩, ⟨hsz, h3⟩, ?_⟩
    rw [h5, ← Der.ofBytes_eq]
    have := Rsa.toBytes_ofBytes (Rsa.emsa info hash (Rsa.size n) m)
    rwa [Rsa.emsa_length (by omega)] at this

end Openssl

theorem RsaSizes.ossl {n e : Nat} (h : RsaSizes n e) : OsslSizes n e := by
  obtain ⟨h1, h2, h3, _, _, h4⟩ := h
  exact ⟨h1, Nat.lt_of_lt_of_le h3 (Nat.pow_le_pow_right (by decide) (by decide)),
    Nat.lt_of_lt_of_le (Nat.lt_of_lt_of_le h4 (Nat.pow_le_pow_right (by decide) (by decide))) h2,
    fun _ => Nat.lt_of_lt_of_le h4 (Nat.pow_le_pow_right (by decide) (by decide))⟩

theorem opensslTable_same {e : AlgEntry} (he : e ∈ opensslTable) : e.verifyWith = e.signWith := by
  simp only [opensslTable, List.mem_cons, List.not_mem_nil, or_false] at he
  rcases he with rfl | rfl | rfl | rfl <;> rfl

section
variable [Deps] {priv pub : Bytes → Option (Nat × Nat)} {hash : Bytes → Bytes} {oid key : Bytes} {len n x d : Nat} {e : AlgEntry} {k : OsslKey}

theorem Pkcs1Min.pos {p : Primitive} (hp : Pkcs1Min p hash oid len) : 0 < len := by cases hp <;> decide

theorem Pkcs1Min.two {p : Primitive} (hp : Pkcs1Min p hash oid len) : len - 1 ≠ 0 := by cases hp <;> decide

theorem OsslRsa.digest {p : Primitive} (h : OsslRsa priv pub) (hp : Pkcs1Min p hash oid len) (m : Bytes) : ∃ info : Bytes,
    info.length + (hash m).length + 11 = len ∧
    (∀ der, DigestInfo oid (hash m) der ↔ der = info ++ hash m) ∧
    (∀ k n d rnd t, priv k = some (n, d) → Openssl.sign info hash n d m = some t → Deps.asymSign p k rnd m = t) ∧
    (∀ k n d, priv k = some (n, d) → (Deps.osslShort p k = true ↔ Openssl.sign info hash n d m = none)) ∧
    (∀ k n e t, pub k = some (n, e) → Deps.asymVerify p k m t = Openssl.accepts info hash n e m t) := by
  cases hp
  · exact ⟨Rsa.info256, by rw [h.size256]; rfl, fun _ => Rsa.digestInfo_256 (h.size256 m),
      fun k n d rnd t => h.sign256 k n d rnd m t, fun k n d => h.short256 k n d m, fun k n e t => h.verify256 k n e m t⟩
  · exact ⟨Rsa.info512, by rw [h.size512]; rfl, fun _ => Rsa.digestInfo_512 (h.size512 m),
      fun k n d rnd t => h.sign512 k n d rnd m t, fun k n d => h.short512 k n d m, fun k n e t => h.verify512 k n e m t⟩

theorem OsslRsa.short_iff {p : Primitive} (h : OsslRsa priv pub) (hp : Pkcs1Min p hash oid len) {sk : Bytes} (hk : priv sk = some (n, d)) (hn : n ≠ 0) :
    Deps.osslShort p sk = true ↔ n < 256 ^ (len - 1) := by
  obtain ⟨info, hi, _, _, hs, _⟩ := h.digest hp []
  rw [hs sk n d hk, Openssl.sign, Openssl.fits, hi, ← Nat.not_le, ← Openssl.size_min hn hp.pos]
  by_cases h1 : len ≤ Rsa.size n <;> simp [h1]

theorem OsslRsa.httpSign_eq (h : OsslRsa priv pub) (hp : Pkcs1Min e.signWith hash oid len) (hr : k.rsa = true) (hk : priv k.key = some (n, d))
    (hn : 256 ^ (len - 1) ≤ n) (rnd : Nat) (m : Bytes) :
    Openssl.httpSign e k rnd m = .ok (encode (Rsa.signature (infoOf e.signWith) hash n d m)) := by
  have hn0 : n ≠ 0 := by have := Nat.pow_pos (n := len - 1) (show 0 < 256 by decide); omega
  have hf := (Openssl.size_min hn0 hp.pos).2 hn
  have h1 : ¬ Deps.osslShort e.signWith k.key = true := by rw [h.short_iff hp hk hn0]; omega
  have h2 : Deps.asymSign e.signWith k.key rnd m = Rsa.signature (infoOf e.signWith) hash n d m := by
    generalize e.signWith = p at hp
    cases hp
    · refine h.sign256 _ n d rnd m _ hk (if_pos ?_)
      rw [Openssl.fits, h.size256]
      exact decide_eq_true hf
    · refine h.sign512 _ n d rnd m _ hk (if_pos ?_)
      rw [Openssl.fits, h.size512]
      exact decide_eq_true hf
  unfold Openssl.httpSign
  rw [hr, if_neg (by decide), if_neg h1]
  simp only [AlgEntry.signer, asymSigner, h2]
  rfl

/-- C144. Exactly which signature texts are accepted: those of RFC 8017, if the key is within the limits. There is no least size beyond the one that
the block needs, and no least exponent. -/
theorem C144_accepted (h : OsslRsa priv pub) (he : e ∈ opensslTable) (hp : Pkcs1Min e.signWith hash oid len) (hpk : pub key = some (n, x))
    (m : Bytes) (s : Str) :
    (e.verifier key).verify m s = true ↔ OsslSizes n x ∧ ∃ t em, IsBase64 s t ∧ 256 ^ (t.length - 1) ≤ n ∧ n < 256 ^ t.length ∧ bigEndian t < n ∧
      Pkcs1Block oid (hash m) t.length em ∧ bigEndian t ^ x % n = bigEndian em := by
  obtain ⟨info, _, hd, _, _, hv⟩ := h.digest hp m
  simp only [AlgEntry.verifier, asymVerifier, opensslTable_same he]
  rw [b64Verify_iff]
  simp only [hv key n x _ hpk, Openssl.accepts_iff hd]
  constructor
  · rintro ⟨t, hb, hs, a, b, c, em, f, g⟩
    exact ⟨hs, t, em, isBase64_iff.2 hb, a, b, c, f, g⟩
  · rintro ⟨hs, t, em, hb, a, b, c, f, g⟩
    exact ⟨t, isBase64_iff.1 hb, hs, a, b, c, em, f, g⟩

/-- C144. Signing panics with an RSA key exactly if the modulus is shorter than the block, whatever the text. -/
theorem C144_panics (h : OsslRsa priv pub) (hp : Pkcs1Min e.signWith hash oid len) (hr : k.rsa = true) (hk : priv k.key = some (n, d))
    (hn : n ≠ 0) (rnd : Nat) (m : Bytes) (p : Panic) :
    Openssl.httpSign e k rnd m = .error p ↔ p = .opensslSign ∧ n < 256 ^ (len - 1) := by
  rw [← h.short_iff hp hk hn]
  unfold Openssl.httpSign
  rw [hr]
  by_cases hs : Deps.osslShort e.signWith k.key = true
  · rw [if_neg (by decide), if_pos hs]
    constructor
    · intro h1; cases h1; exact ⟨rfl, hs⟩
    · rintro ⟨rfl, _⟩; rfl
  · rw [if_neg (by decide), if_neg hs]
    exact ⟨nofun, fun h1 => absurd h1.2 hs⟩

/-- C144. With such a key nothing is accepted either. -/
theorem C144_short (h : OsslRsa priv pub) (he : e ∈ opensslTable) (hp : Pkcs1Min e.signWith hash oid len) (hpk : pub key = some (n, x))
    (hn : n < 256 ^ (len - 1)) (m : Bytes) (s : Str) : (e.verifier key).verify m s = false := by
  rw [Bool.eq_false_iff]
  intro hv
  obtain ⟨info, hi, hd, _⟩ := h.digest hp m
  obtain ⟨_, t, em, _, h1, _, _, ⟨ff, i, _, h2, h3, rfl, h4⟩, _⟩ := (C144_accepted h he hp hpk m s).1 hv
  obtain rfl := (hd i).1 h3
  simp only [List.length_cons, List.length_append] at h4
  have := (Nat.pow_lt_pow_iff_right (by decide : 1 < 256)).1 (Nat.lt_of_le_of_lt h1 hn)
  omega

/-- C144. Key pairs: with the numbers of an RSA key that are not shorter than the block and within the limits, signing returns, and what it
returns is the one text that is accepted. -/
theorem C144_pair (h : OsslRsa priv pub) (he : e ∈ opensslTable) (hp : Pkcs1Min e.signWith hash oid len) (hr : k.rsa = true)
    (hk : priv k.key = some (n, d)) (hpk : pub key = some (n, x)) (ht : RsaTriple n x d) (hs : OsslSizes n x) (hn : 256 ^ (len - 1) ≤ n)
    (rnd : Nat) (m : Bytes) :
    ∃ s, Openssl.httpSign e k rnd m = .ok s ∧ ∀ s', (e.verifier key).verify m s' = true ↔ s' = s := by
  obtain ⟨info, hi, hd, hsg, hsh, hv⟩ := h.digest hp m
  have hf := (Openssl.size_min ht.ne_zero hp.pos).2 hn
  have hsign : Openssl.sign info hash n d m = some (Rsa.signature info hash n d m) := if_pos (by simp only [Openssl.fits, hi, hf, decide_true])
  refine ⟨encode (Rsa.signature info hash n d m), ?_, ?_⟩
  · have h1 : ¬ Deps.osslShort e.signWith k.key = true := by rw [hsh _ _ _ hk, hsign]; simp
    unfold Openssl.httpSign
    rw [hr, if_neg (by decide), if_neg h1]
    simp only [AlgEntry.signer, asymSigner, hsg _ _ _ rnd _ hk hsign]
    rfl
  · intro s'
    have h2 : ∀ t, Deps.asymVerify e.signWith key m t = true ↔ t = Rsa.signature info hash n d m := by
      intro t
      rw [hv _ _ _ _ hpk, Openssl.accepts, Openssl.usable_iff.2 hs, Openssl.fits, hi, decide_eq_true hf]
      exact Rsa.accepts_iff ht (by omega)
    simp only [AlgEntry.verifier, asymVerifier, opensslTable_same he]
    rw [b64Verify_iff]
    simp only [h2]
    constructor
    · rintro ⟨t, hb, rfl⟩; exact hb
    · rintro rfl; exact ⟨_, rfl, rfl⟩

/-- C144. With the public exponent 1 the signature of a text is the block with its hash: … -/
theorem C144_exponent_one (h : OsslRsa priv pub) (he : e ∈ opensslTable) (hp : Pkcs1Min e.signWith hash oid len) (hpk : pub key = some (n, 1))
    (ho : n % 2 = 1) (hmax : n < 2 ^ 16384) (hmin : 256 ^ (len - 1) ≤ n) (m : Bytes) (s : Str) :
    (e.verifier key).verify m s = true ↔
      ∃ em, IsBase64 s em ∧ 256 ^ (em.length - 1) ≤ n ∧ n < 256 ^ em.length ∧ Pkcs1Block oid (hash m) em.length em := by
  have h1 : 1 < n := Nat.lt_of_lt_of_le (Nat.one_lt_pow hp.two (by decide)) hmin
  rw [C144_accepted h he hp hpk]
  have hs : OsslSizes n 1 := ⟨ho, hmax, h1, fun _ => by decide⟩
  constructor
  · rintro ⟨_, t, em, hb, a, b, c, f, g⟩
    rw [Nat.pow_one, Nat.mod_eq_of_lt c, ← Der.ofBytes_eq, ← Der.ofBytes_eq] at g
    have hl : t.length = em.length := by obtain ⟨_, _, _, _, _, _, h2⟩ := f; exact h2.symm
    obtain rfl := Rsa.ofBytes_inj hl g
    exact ⟨t, hb, a, b, f⟩
  · rintro ⟨em, hb, a, b, f⟩
    have hc : bigEndian em < n := by
      refine Nat.lt_of_lt_of_le ?_ a
      obtain ⟨ff, i, _, _, _, rfl, _⟩ := f
      have := Der.bigEndian_lt (1 :: (ff ++ 0 :: i))
      rw [← Der.ofBytes_eq] at this ⊢
      simpa [Der.ofBytes] using this
    exact ⟨hs, em, em, hb, a, b, hc, f, by rw [Nat.pow_one, Nat.mod_eq_of_lt hc]⟩

/-- C144. … so who knows the modulus and no private key can make a signature for any text, as follows. -/
theorem C144_forge (h : OsslRsa priv pub) (he : e ∈ opensslTable) (hp : Pkcs1Min e.signWith hash oid len) (hpk : pub key = some (n, 1))
    (ho : n % 2 = 1) (hmax : n < 2 ^ 16384) (hmin : 256 ^ (len - 1) ≤ n) (m info : Bytes) (hi : DigestInfo oid (hash m) info) (size : Nat)
    (h1 : 256 ^ (size - 1) ≤ n) (h2 : n < 256 ^ size) :
    (e.verifier key).verify m (encode (0 :: 1 :: (List.replicate (size - (info.length + 3)) 0xff ++ 0 :: info))) = true := by
  obtain ⟨info', hl, hd, _⟩ := h.digest hp m
  obtain rfl := (hd info).1 hi
  have h3 : len ≤ size := by
    have := (Nat.pow_lt_pow_iff_right (by decide : 1 < 256)).1 (Nat.lt_of_le_of_lt hmin h2)
    omega
  rw [List.length_append]
  have h4 : (0 :: 1 :: (List.replicate (size - ((info'.length + (hash m).length) + 3)) (0xff : UInt8) ++ 0 :: (info' ++ hash m))).length = size := by
    simp only [List.length_cons, List.length_append, List.length_replicate]
    omega
  rw [C144_exponent_one h he hp hpk ho hmax hmin]
  refine ⟨_, isBase64_iff.2 rfl, by rwa [h4], by rwa [h4], _, _, fun y hy => List.eq_of_mem_replicate hy, ?_, hi, rfl, rfl⟩
  rw [List.length_replicate]
  omega

/-- C144. Signing a request: with a short key it panics as soon as the key is used; with any other RSA key it is the signing of the other claims. -/
theorem C144_requests {R : Type} [ClientRequestLike R] [LawfulClient R] (h : OsslRsa priv pub) (hp : Pkcs1Min e.signWith hash oid len) (hr : k.rsa = true)
    (hk : priv k.key = some (n, d)) (hn : n ≠ 0) (r : R) (config : SigningConfig) (env : SignEnv) (hc : config.signature = e.signer k.key)
    (base : Bytes) (hu : UsesKey r config env base) :
    (n < 256 ^ (len - 1) → (signMay (Openssl.httpSign e k) r config env).result = .error .opensslSign) ∧
    (256 ^ (len - 1) ≤ n → (signMay (Openssl.httpSign e k) r config env).result = sign r config env) := by
  obtain ⟨_, h2, h3⟩ := C141_openssl e k r config env hc base hu
  refine ⟨fun hs => h2 hr ((h.short_iff hp hk hn).2 hs), fun hs => h3 hr ?_⟩
  rw [Bool.eq_false_iff]
  exact fun h4 => absurd ((h.short_iff hp hk hn).1 h4) (Nat.not_lt.2 hs)

end

/-- C144. The two back ends: for keys with the same numbers, the PKCS#1 v1.5 types of the ring back end accept the same texts if the key has a size
that ring supports, and nothing otherwise. -/
theorem C144_ring {D D' : Deps} {priv priv' pub : Bytes → Option (Nat × Nat)} {salt : Nat → Bytes} {a b : AlgEntry} {hash : Bytes → Bytes}
    {oid der key : Bytes} {len n x : Nat} (hr : @RingRsa D priv salt) (ho : @OsslRsa D' priv' pub) (hb : b ∈ opensslTable)
    (ha : @Pkcs1Oid D a.verifyWith hash oid) (hp : @Pkcs1Min D' b.signWith hash oid len) (hder : RsaPublicDer n x der)
    (hpk : pub key = some (n, x)) (m : Bytes) (s : Str) :
    (@AlgEntry.verifier D a der).verify m s = true ↔ RsaSizes n x ∧ (@AlgEntry.verifier D' b key).verify m s = true := by
  refine (@C140_accepted D _ _ _ _ _ _ hr ha a.name m s).trans ?_
  rw [@C144_accepted D' _ _ _ _ _ _ _ _ _ ho hb hp hpk m s]
  constructor
  · rintro ⟨n', x', t, em, h1, h2, rest⟩
    obtain ⟨rfl, rfl⟩ := (C140_one_encoding h1 hder).1 rfl
    exact ⟨h2, h2.ossl, t, em, rest⟩
  · rintro ⟨h2, _, t, em, rest⟩
    exact ⟨n, x, t, em, hder, h2, rest⟩

/-! ### Examples -/

/-- A modulus of 81 bytes. -/
def exN81 : Nat := (2 ^ 127 - 1) * (2 ^ 521 - 1)
def exD81 : Nat := 0x2a7fd5802a7fd5802a7fd5802a7fd57f80807f7f80807f7f80807f7f80807f7f80807f7f80807f7f80807f7f80807f7f80807f7f80807f7f80807f7f80807f7f8055ffaa0055ffaa0055ffaa0055ffaa01

theorem exTriple81 : RsaTriple exN81 65537 exD81 :=
  ⟨2 ^ 127 - 1, 2 ^ 521 - 1, isPrime_iff.2 (lucas_lehmer_sufficiency _ (by simp) (by norm_num)),
    isPrime_iff.2 (lucas_lehmer_sufficiency _ (by simp) (by norm_num)), by decide +kernel, rfl, by decide +kernel, by decide +kernel⟩

/-- Some keys: one of 141 bytes, one of 81 bytes, the first modulus with the exponent 1, and the two of the examples of C140. -/
def exOsslPub : Bytes → Option (Nat × Nat)
  | [1] => some (exN, 65537)
  | [2] => some (exN81, 65537)
  | [3] => some (exN, 1)
  | [4] => some (exRingN, 65537)
  | [5] => some (2 ^ 521 - 1, 65537)
  | _ => none
def exOsslPriv : Bytes → Option (Nat × Nat)
  | [1] => some (exN, exD)
  | [2] => some (exN81, exD81)
  | _ => none

def exOsslHash : Primitive → Bytes → Bytes
  | .rsaPkcs1Sha512 => toyHash 64
  | _ => toyHash 32

/-- OpenSSL with a toy hash. -/
@[reducible] def osslDepsOf (priv pub : Bytes → Option (Nat × Nat)) : Deps :=
  { toyDeps with
    sha256 := toyHash 32
    sha512 := toyHash 64
    asymSign := fun p k _ m => ((priv k).bind fun x => Openssl.sign (infoOf p) (exOsslHash p) x.1 x.2 m).getD []
    osslShort := fun p k => (priv k).any fun x => (Openssl.sign (infoOf p) (exOsslHash p) x.1 x.2 []).isNone
    asymVerify := fun p k m t => (pub k).any fun x => Openssl.accepts (infoOf p) (exOsslHash p) x.1 x.2 m t }

/-- The same with the keys above. -/
@[reducible] def osslRsaDeps : Deps := osslDepsOf exOsslPriv exOsslPub

theorem exSign_isNone {info : Bytes} {hash : Bytes → Bytes} {n d : Nat} (hl : ∀ m m', (hash m).length = (hash m').length) (m : Bytes) :
    (Openssl.sign info hash n d []).isNone = true ↔ Openssl.sign info hash n d m = none := by
  unfold Openssl.sign Openssl.fits
  rw [hl [] m]
  split <;> simp

theorem osslDepsOf_real (priv pub : Bytes → Option (Nat × Nat)) : @OsslRsa (osslDepsOf priv pub) priv pub := by
  have size : ∀ n m, (toyHash n m).length = n := fun n m => by simp [toyHash, List.length_take]
  refine @OsslRsa.mk (osslDepsOf priv pub) _ _ ?_ ?_ ?_ ?_ ?_ ?_ (size 32) (size 64)
  · intro k n d rnd m t h ht
    change ((priv k).bind fun x => Openssl.sign Rsa.info256 (toyHash 32) x.1 x.2 m).getD [] = t
    rw [h]
    exact congrArg (Option.getD · []) ht
  · intro k n d rnd m t h ht
    change ((priv k).bind fun x => Openssl.sign Rsa.info512 (toyHash 64) x.1 x.2 m).getD [] = t
    rw [h]
    exact congrArg (Option.getD · []) ht
  · intro k n d m h
    change ((priv k).any fun x => (Openssl.sign Rsa.info256 (toyHash 32) x.1 x.2 []).isNone) = true ↔ _
    rw [h]
    exact exSign_isNone (fun a b => by rw [size, size]) m
  · intro k n d m h
    change ((priv k).any fun x => (Openssl.sign Rsa.info512 (toyHash 64) x.1 x.2 []).isNone) = true ↔ _
    rw [h]
    exact exSign_isNone (fun a b => by rw [size, size]) m
  · intro k n e m t h
    change ((pub k).any fun x => Openssl.accepts Rsa.info256 (toyHash 32) x.1 x.2 m t) =
      Openssl.accepts Rsa.info256 (toyHash 32) n e m t
    rw [h, Option.any_some]
  · intro k n e m t h
    change ((pub k).any fun x => Openssl.accepts Rsa.info512 (toyHash 64) x.1 x.2 m t) =
      Openssl.accepts Rsa.info512 (toyHash 64) n e m t
    rw [h, Option.any_some]

theorem osslRsaDeps_real : @OsslRsa osslRsaDeps exOsslPriv exOsslPub := osslDepsOf_real _ _

theorem exOsslSizes : OsslSizes exN 65537 ∧ OsslSizes exN81 65537 ∧ ¬ RsaSizes exN 65537 := by
  refine ⟨⟨?_, ?_, ?_, ?_⟩, ⟨?_, ?_, ?_, ?_⟩, fun h => absurd h.2.1 ?_⟩ <;> decide +kernel

section
attribute [local instance] osslRsaDeps

/-- `C144_accepted`, `C144_pair`: with the key of 81 bytes and SHA-256, signing returns and the result alone is accepted. -/
example (rnd : Nat) (m : Bytes) : ∃ s, Openssl.httpSign (opensslTable[2]) ⟨true, [2]⟩ rnd m = .ok s ∧
    ∀ s', ((opensslTable[2]).verifier [2]).verify m s' = true ↔ s' = s :=
  C144_pair osslRsaDeps_real (by simp) .sha256 rfl rfl rfl exTriple81 exOsslSizes.2.1 (by decide +kernel) rnd m

/-- `C144_panics`, `C144_short`: the same key is too short for SHA-512, … -/
example (rnd : Nat) (m : Bytes) (s : Str) : Openssl.httpSign (opensslTable[3]) ⟨true, [2]⟩ rnd m = .error .opensslSign ∧
    ((opensslTable[3]).verifier [2]).verify m s = false :=
  ⟨(C144_panics (len := 94) osslRsaDeps_real .sha512 rfl (rfl : exOsslPriv [2] = some (exN81, exD81)) (by decide +kernel) rnd m _).2
      ⟨rfl, by decide +kernel⟩,
    C144_short (len := 94) osslRsaDeps_real (by simp) .sha512 (rfl : exOsslPub [2] = some (exN81, 65537)) (by decide +kernel) m s⟩

/-- … and the one of 141 bytes, with which ring does nothing (`exOsslSizes`), is not. -/
example (rnd : Nat) (m : Bytes) : ∃ s, Openssl.httpSign (opensslTable[3]) ⟨true, [1]⟩ rnd m = .ok s ∧
    ∀ s', ((opensslTable[3]).verifier [1]).verify m s' = true ↔ s' = s :=
  C144_pair osslRsaDeps_real (by simp) .sha512 rfl rfl rfl exRsaKeyNumbers.1 exOsslSizes.1 (by decide +kernel) rnd m

/-- `C144_exponent_one`, `C144_forge`: a signature for "a", made of the block alone. -/
example : ((opensslTable[2]).verifier [3]).verify [97]
    (encode (0 :: 1 :: (List.replicate 87 0xff ++ 0 :: (Rsa.info256 ++ toyHash 32 [97])))) = true :=
  C144_forge (n := exN) osslRsaDeps_real (by simp) .sha256 rfl (by decide +kernel) (by decide +kernel) (by decide +kernel) [97]
    (Rsa.info256 ++ toyHash 32 [97]) ((Rsa.digestInfo_256 rfl).2 rfl) 141 (by decide +kernel) (by decide +kernel)

/-- `C144_requests`: with SHA-512, signing panics with the key of 81 bytes and does not with the other. -/
example : (∀ key, ∃ base, UsesKey exReqwest { exSigning with signature := exOsslAlg.signer key } exSignEnv base) ∧
    (signMay (Openssl.httpSign exOsslAlg ⟨true, [2]⟩) exReqwest { exSigning with signature := exOsslAlg.signer [2] } exSignEnv).result =
      .error .opensslSign ∧
    (signMay (Openssl.httpSign exOsslAlg ⟨true, [1]⟩) exReqwest { exSigning with signature := exOsslAlg.signer [1] } exSignEnv).result =
      sign exReqwest { exSigning with signature := exOsslAlg.signer [1] } exSignEnv := by
  have hu : ∀ key, ∃ base, UsesKey exReqwest { exSigning with signature := exOsslAlg.signer key } exSignEnv base := by
    intro key
    have h : ∃ base, .httpSign base ∈ (signCalled exReqwest { exSigning with signature := exOsslAlg.signer key } exSignEnv).calls :=
      ⟨_, .tail _ (.tail _ (.tail _ (.tail _ (.head _))))⟩
    obtain ⟨base, h⟩ := h
    exact ⟨base, usesKey_iff.2 h⟩
  obtain ⟨b1, h1⟩ := hu [1]
  obtain ⟨b2, h2⟩ := hu [2]
  exact ⟨hu, (C144_requests (e := exOsslAlg) (k := ⟨true, [2]⟩) osslRsaDeps_real .sha512 rfl (rfl : exOsslPriv [2] = some (exN81, exD81))
      (by decide +kernel) exReqwest _ exSignEnv rfl b2 h2).1 (by decide +kernel),
    (C144_requests (e := exOsslAlg) (k := ⟨true, [1]⟩) osslRsaDeps_real .sha512 rfl (rfl : exOsslPriv [1] = some (exN, exD))
      (by decide +kernel) exReqwest _ exSignEnv rfl b1 h1).2 (by decide +kernel)⟩

end

/-- `C144_ring`: with the key of 2724 bits the two back ends accept the same, … -/
example (m : Bytes) (s : Str) : (@AlgEntry.verifier ringRsaDeps ringTable[1] exRingKey).verify m s =
    (@AlgEntry.verifier osslRsaDeps opensslTable[3] [4]).verify m s := by
  have h : RsaPublicDer exRingN 65537 exRingKey ∧ RsaSizes exRingN 65537 := Rsa.readPublic_iff.1 (by decide +kernel)
  have := C144_ring (a := ringTable[1]) (b := opensslTable[3]) (hash := toyHash 64) (key := [4]) ringRsaDeps_real osslRsaDeps_real (by simp)
    (@Pkcs1Oid.sha512 ringRsaDeps) (@Pkcs1Min.sha512 osslRsaDeps) h.1 rfl m s
  rw [Bool.eq_iff_iff, this]
  exact ⟨fun h1 => h1.2, fun h1 => ⟨h.2, h1⟩⟩

/-- … with the one of 521 bits ring accepts nothing. -/
example (m : Bytes) (s : Str) : (@AlgEntry.verifier ringRsaDeps ringTable[0] exSmallKey).verify m s = false := by
  rw [Bool.eq_false_iff]
  intro hv
  have := (C144_ring (a := ringTable[0]) (b := opensslTable[2]) (hash := toyHash 32) (key := [5]) ringRsaDeps_real osslRsaDeps_real (by simp)
    (@Pkcs1Oid.sha256 ringRsaDeps) (@Pkcs1Min.sha256 osslRsaDeps) (P256.readSig_iff.1 (by decide +kernel)) rfl m s).1 hv
  exact absurd this.1.2.1 (by decide +kernel)

end Httpsig
