import Verif.Lemmas.Ecdsa
import Verif.Spec.EcPkcs8
/-
The reader of private keys on P-256, in the words of the specification (C139).
-/
namespace Httpsig.P256
open WeierstrassCurve.Affine

attribute [local irreducible] p q b gx gy

theorem derValue_length {tag : UInt8} {c v : Bytes} (h : DerValue tag c v) : c.length + 2 ≤ v.length := by
  obtain ⟨l, hl, rfl⟩ := h
  rcases hl with ⟨_, rfl⟩ | ⟨_, _, d, ds, _, _, _, rfl⟩ <;> simp <;> omega

theorem derValue_head {tag : UInt8} {c v : Bytes} (h : DerValue tag c v) (r : Bytes) : (v ++ r).head? = some tag := by
  obtain ⟨l, hl, rfl⟩ := h
  rfl

/-- Contents that two bytes of length are enough for. -/
theorem derValue_short {tag : UInt8} {c v : Bytes} (h : DerValue tag c v) : c.length < 65536 ↔ v.length < 65540 := by
  obtain ⟨l, hl, rfl⟩ := h
  rcases hl with ⟨h1, rfl⟩ | ⟨h1, h2, d, ds, h3, h4, h5, rfl⟩
  · simp; omega
  · have hd : 1 ≤ d.toNat := by
      rcases Nat.eq_zero_or_pos d.toNat with h | h
      · exact absurd (UInt8.toNat_inj.1 h) h3
      · exact h
    have hlt := Der.bigEndian_lt ds
    have hd' := d.toNat_lt
    have e : bigEndian (d :: ds) = d.toNat * 256 ^ ds.length + bigEndian ds := rfl
    rw [e] at h5
    simp only [List.length_cons, List.length_append]
    match ds, h4 with
    | [], _ => simp at *; omega
    | [_], _ => simp at *; omega
    | [_, _], _ => simp at *; omega
    | [_, _, _], _ => simp at *; omega

theorem ringValue_iff {tag : UInt8} {b c rest : Bytes} :
    ringValue tag b = some (c, rest) ↔ ∃ v, DerValue tag c v ∧ b = v ++ rest ∧ c.length < 65536 := by
  unfold ringValue
  constructor
  · intro h
    split at h
    · rename_i c' rest' hv
      split at h
      · rename_i hl
        obtain ⟨rfl, rfl⟩ := Prod.mk.inj (Option.some.inj h)
        obtain ⟨v, h1, h2⟩ := Der.value_iff.1 hv
        exact ⟨v, h1, h2, hl⟩
      · cases h
    · cases h
  · rintro ⟨v, h1, h2, hl⟩
    rw [Der.value_iff.2 ⟨v, h1, h2⟩]
    exact if_pos hl

theorem version_iff {n : UInt8} {b rest : Bytes} : version n b = some rest ↔ ∃ v, DerValue 0x02 [n] v ∧ b = v ++ rest := by
  unfold version
  constructor
  · intro h
    split at h
    · rename_i c' rest' hv
      split at h
      · rename_i hl
        subst hl
        obtain rfl := Option.some.inj h
        obtain ⟨v, h1, h2, _⟩ := ringValue_iff.1 hv
        exact ⟨v, h1, h2⟩
      · cases h
    · cases h
  · rintro ⟨v, h1, h2⟩
    rw [ringValue_iff.2 ⟨v, h1, h2, by simp⟩]
    exact if_pos rfl

theorem derValue_curve {o : Bytes} : DerValue 0x06 oidP256 o ↔ o = curveOid := by
  have h : DerValue 0x06 oidP256 curveOid := ⟨[8], .inl ⟨by decide, rfl⟩, rfl⟩
  exact ⟨fun h' => derValue_unique h' h, fun e => e ▸ h⟩

theorem derValue_ec {o : Bytes} : DerValue 0x06 oidEc o ↔ o = [0x06, 0x07, 0x2a, 0x86, 0x48, 0xce, 0x3d, 0x02, 0x01] := by
  have h : DerValue 0x06 oidEc [0x06, 0x07, 0x2a, 0x86, 0x48, 0xce, 0x3d, 0x02, 0x01] := ⟨[7], .inl ⟨by decide, rfl⟩, rfl⟩
  exact ⟨fun h' => derValue_unique h' h, fun e => e ▸ h⟩

theorem ecPrivateInfo_iff {n : UInt8} {key attrs der : Bytes} : EcPrivateInfo n key attrs der ↔
    ∃ v a k, DerValue 0x02 [n] v ∧ DerValue 0x30 algId a ∧ DerValue 0x04 key k ∧ DerValue 0x30 (v ++ a ++ k ++ attrs) der := by
  constructor
  · rintro ⟨v, o, c, a, k, h1, h2, h3, h4, h5, h6⟩
    obtain rfl := derValue_ec.1 h2
    obtain rfl := derValue_curve.1 h3
    exact ⟨v, a, k, h1, h4, h5, h6⟩
  · rintro ⟨v, a, k, h1, h4, h5, h6⟩
    exact ⟨v, _, _, a, k, h1, derValue_ec.2 rfl, derValue_curve.2 rfl, h4, h5, h6⟩

theorem unwrapFor_iff {id b key : Bytes} : unwrapFor id b = some key ↔
    ∃ attrs, (attrs = [] ∨ ∃ c, DerValue 0xa0 c attrs) ∧ (∃ v a k, DerValue 0x02 [0] v ∧ DerValue 0x30 id a ∧ DerValue 0x04 key k ∧
      DerValue 0x30 (v ++ a ++ k ++ attrs) b) ∧ b.length < 65540 := by
  simp only [unwrapFor, Option.bind_eq_bind]
  constructor
  · intro h
    obtain ⟨⟨body, rest⟩, h1, h⟩ := Option.bind_eq_some_iff.1 h
    obtain ⟨r, h2, h⟩ := Option.bind_eq_some_iff.1 h
    obtain ⟨⟨alg, r1⟩, h3, h⟩ := Option.bind_eq_some_iff.1 h
    obtain ⟨⟨k, r2⟩, h4, h⟩ := Option.bind_eq_some_iff.1 h
    obtain ⟨r3, h5, h⟩ := Option.bind_eq_some_iff.1 h
    simp only [Option.ite_none_right_eq_some, Option.some.injEq] at h
    obtain ⟨⟨rfl, rfl, rfl⟩, rfl⟩ := h
    obtain ⟨w, d1, rfl, l1⟩ := ringValue_iff.1 h1
    obtain ⟨v, d2, rfl⟩ := version_iff.1 h2
    obtain ⟨a, d3, rfl, _⟩ := ringValue_iff.1 h3
    obtain ⟨kk, d4, rfl, _⟩ := ringValue_iff.1 h4
    rw [List.append_nil]
    refine ⟨r2, ?_, ⟨v, a, kk, d2, d3, d4, ?_⟩, (derValue_short d1).1 l1⟩
    · unfold skipAttributes at h5
      dsimp only at h5
      split at h5
      · obtain ⟨⟨c, r⟩, h6, rfl⟩ := Option.map_eq_some_iff.1 h5
        obtain ⟨x, d5, h7, _⟩ := ringValue_iff.1 h6
        rw [List.append_nil] at h7
        exact .inr ⟨c, h7 ▸ d5⟩
      · exact .inl (Option.some.inj h5)
    · rwa [List.append_assoc, List.append_assoc]
  · rintro ⟨attrs, hattrs, ⟨v, a, k, d2, d3, d4, d1⟩, hlen⟩
    have l1 := (derValue_short d1).2 hlen
    have hl2 := derValue_length d3
    have hl3 := derValue_length d4
    rw [List.append_assoc, List.append_assoc] at d1 l1
    simp only [List.length_append] at l1
    refine Option.bind_eq_some_iff.2 ⟨_, ringValue_iff.2 ⟨b, d1, (List.append_nil _).symm, by simpa using l1⟩, ?_⟩
    refine Option.bind_eq_some_iff.2 ⟨_, version_iff.2 ⟨v, d2, rfl⟩, ?_⟩
    refine Option.bind_eq_some_iff.2 ⟨_, ringValue_iff.2 ⟨a, d3, rfl, by omega⟩, ?_⟩
    refine Option.bind_eq_some_iff.2 ⟨_, ringValue_iff.2 ⟨k, d4, rfl, by omega⟩, ?_⟩
    refine Option.bind_eq_some_iff.2 ⟨[], ?_, by simp⟩
    rcases hattrs with rfl | ⟨c, d5⟩
    · rfl
    · have hh := derValue_head d5 []
      rw [List.append_nil] at hh
      have hl5 := derValue_length d5
      unfold skipAttributes
      rw [if_pos hh, ringValue_iff.2 ⟨attrs, d5, (List.append_nil _).symm, by omega⟩]
      rfl

theorem unwrapKey_iff {b key : Bytes} : unwrapKey b = some key ↔
    ∃ attrs, (attrs = [] ∨ ∃ c, DerValue 0xa0 c attrs) ∧ EcPrivateInfo 0 key attrs b ∧ b.length < 65540 := by
  simp only [ecPrivateInfo_iff]
  exact unwrapFor_iff

theorem ecPrivateKey_iff {b d pk : Bytes} (hl : b.length < 65540) : ecPrivateKey b = some (d, pk) ↔
    ∃ params part, (params = [] ∨ CurveName params) ∧ PublicPart pk part ∧ EcPrivateKey d params part b := by
  simp only [ecPrivateKey, Option.bind_eq_bind]
  constructor
  · intro h
    obtain ⟨⟨body, rest⟩, h1, h⟩ := Option.bind_eq_some_iff.1 h
    obtain ⟨r, h2, h⟩ := Option.bind_eq_some_iff.1 h
    obtain ⟨⟨d', r1⟩, h3, h⟩ := Option.bind_eq_some_iff.1 h
    obtain ⟨r2, h4, h⟩ := Option.bind_eq_some_iff.1 h
    obtain ⟨⟨part, r3⟩, h5, h⟩ := Option.bind_eq_some_iff.1 h
    obtain ⟨⟨bits, r4⟩, h6, h⟩ := Option.bind_eq_some_iff.1 h
    simp only [Option.ite_none_right_eq_some, Option.some.injEq, Prod.mk.injEq] at h
    obtain ⟨⟨rfl, rfl, rfl, hb⟩, rfl, rfl⟩ := h
    obtain ⟨w, e1, rfl, _⟩ := ringValue_iff.1 h1
    obtain ⟨v, e2, rfl⟩ := version_iff.1 h2
    obtain ⟨k, e3, rfl, _⟩ := ringValue_iff.1 h3
    obtain ⟨pt, e5, h5', _⟩ := ringValue_iff.1 h5
    rw [List.append_nil] at h5'
    subst h5'
    obtain ⟨bs, e6, rfl, _⟩ := ringValue_iff.1 h6
    have hbits : bits = 0 :: bits.tail := by
      cases bits with
      | nil => cases hb
      | cons x l => rw [Option.some.inj hb]; rfl
    simp only [List.append_nil] at e1 e5 h4 ⊢
    unfold skipCurve at h4
    split at h4
    · obtain ⟨⟨o, r⟩, h7, h8⟩ := Option.bind_eq_some_iff.1 h4
      simp only [Option.ite_none_right_eq_some, Option.some.injEq] at h8
      obtain ⟨rfl, rfl⟩ := h8
      obtain ⟨x, e7, rfl, _⟩ := ringValue_iff.1 h7
      refine ⟨x, _, .inr ⟨_, derValue_curve.2 rfl, e7⟩, ⟨bs, hbits ▸ e6, e5⟩, v, k, e2, e3, ?_⟩
      simpa only [List.append_assoc] using e1
    · have h4' := Option.some.inj h4
      subst h4'
      refine ⟨[], _, .inl rfl, ⟨bs, hbits ▸ e6, e5⟩, v, k, e2, e3, ?_⟩
      simpa only [List.append_assoc, List.nil_append] using e1
  · rintro ⟨params, part, hparams, ⟨bits, e6, e5⟩, v, k, e2, e3, e1⟩
    have l1 := (derValue_short e1).2 hl
    have hl3 := derValue_length e3
    have hl5 := derValue_length e5
    have hl6 := derValue_length e6
    rw [List.append_assoc, List.append_assoc] at e1 l1
    simp only [List.length_append] at l1
    refine Option.bind_eq_some_iff.2 ⟨_, ringValue_iff.2 ⟨b, e1, (List.append_nil _).symm, by simpa using l1⟩, ?_⟩
    refine Option.bind_eq_some_iff.2 ⟨_, version_iff.2 ⟨v, e2, rfl⟩, ?_⟩
    refine Option.bind_eq_some_iff.2 ⟨_, ringValue_iff.2 ⟨k, e3, rfl, by omega⟩, ?_⟩
    refine Option.bind_eq_some_iff.2 ⟨part, ?_, ?_⟩
    · rcases hparams with rfl | ⟨o, ho, e7⟩
      · have hh := derValue_head e5 []
        rw [List.append_nil] at hh
        unfold skipCurve
        rw [List.nil_append, if_neg (by rw [hh]; decide)]
      · have hl7 := derValue_length e7
        unfold skipCurve
        rw [if_pos (derValue_head e7 _), ringValue_iff.2 ⟨params, e7, rfl, by omega⟩]
        exact if_pos (derValue_curve.1 ho)
    · refine Option.bind_eq_some_iff.2 ⟨_, ringValue_iff.2 ⟨part, e5, (List.append_nil _).symm, by omega⟩, ?_⟩
      refine Option.bind_eq_some_iff.2 ⟨_, ringValue_iff.2 ⟨bits, e6, (List.append_nil _).symm, by omega⟩, ?_⟩
      exact if_pos ⟨rfl, rfl, rfl, rfl⟩

theorem keyOf_iff {d : Nat} (h0 : 0 < d) (h1 : d < q) {pk : Bytes} : pk = keyOf d ↔ EcKey (d • G) pk := by
  have hne : d • G ≠ 0 := fun hz => by
    have := smul_inj h1 q_pos (hz.trans (zero_nsmul _).symm)
    omega
  have key : EcKey (d • G) (keyOf d) := by
    unfold keyOf
    rw [← ofPoint_G, mul_eq]
    match d • G, hne with
    | .zero, h => exact absurd rfl h
    | .some X Y hA, _ =>
      have hp : p < 256 ^ 32 := p_bits
      have e : ∀ (Z : ZMod p), bigEndian (Rsa.toBytes 32 Z.val) = Z.val := fun Z => by
        rw [← Der.ofBytes_eq, Rsa.ofBytes_toBytes, Nat.mod_eq_of_lt (Nat.lt_trans (ZMod.val_lt Z) hp)]
      refine ⟨Rsa.toBytes 32 X.val, Rsa.toBytes 32 Y.val, Rsa.toBytes_length _ _, Rsa.toBytes_length _ _, ?_, ?_, ?_, rfl⟩
      · rw [e]; exact ZMod.val_lt X
      · rw [e]; exact ZMod.val_lt Y
      · rw [e, e]
        exact (ofPoint_some (ZMod.val_lt X) (ZMod.val_lt Y)).1 rfl
  exact ⟨fun e => e ▸ key, fun h => ecKey_unique h key⟩

theorem readPkcs8_iff {b : Bytes} {d : Nat} : readPkcs8 b = some d ↔ ∃ pk, EcKeyFile d pk b := by
  simp only [readPkcs8, Option.bind_eq_bind]
  constructor
  · intro h
    obtain ⟨key, h1, h⟩ := Option.bind_eq_some_iff.1 h
    obtain ⟨⟨bytes, pk⟩, h2, h⟩ := Option.bind_eq_some_iff.1 h
    simp only [Option.ite_none_right_eq_some, Option.some.injEq, Der.ofBytes_eq] at h
    obtain ⟨⟨h3, h4, h5, h6⟩, rfl⟩ := h
    obtain ⟨attrs, g1, g2, g3⟩ := unwrapKey_iff.1 h1
    have hkl : key.length < 65540 := by
      obtain ⟨v, o, c, a, k, _, _, _, _, e5, e6⟩ := g2
      have := derValue_length e5
      have := derValue_length e6
      simp only [List.length_append] at this
      omega
    obtain ⟨params, part, g4, g5, g6⟩ := (ecPrivateKey_iff hkl).1 h2
    exact ⟨pk, bytes, params, part, key, attrs, G, h3, rfl, h4, h5, (hasCoords_G _).2 rfl, (keyOf_iff h4 h5).1 h6, g4, g5, g6, g1, g2, g3⟩
  · rintro ⟨pk, bytes, params, part, key, attrs, A, h3, rfl, h4, h5, hA, h6, g4, g5, g6, g1, g2, g3⟩
    rw [(hasCoords_G A).1 hA] at h6
    have hkl : key.length < 65540 := by
      obtain ⟨v, o, c, a, k, _, _, _, _, e5, e6⟩ := g2
      have := derValue_length e5
      have := derValue_length e6
      simp only [List.length_append] at this
      omega
    refine Option.bind_eq_some_iff.2 ⟨key, unwrapKey_iff.2 ⟨attrs, g1, g2, g3⟩, ?_⟩
    refine Option.bind_eq_some_iff.2 ⟨_, (ecPrivateKey_iff hkl).2 ⟨params, part, g4, g5, g6⟩, ?_⟩
    simp only [Der.ofBytes_eq]
    exact if_pos ⟨h3, h4, h5, (keyOf_iff h4 h5).2 h6⟩

end Httpsig.P256
