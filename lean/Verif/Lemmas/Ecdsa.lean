import Verif.Lemmas.P256Order
import Verif.Lemmas.KeyFiles
/-
ECDSA of the model and of the specification.
-/
namespace Httpsig.P256
open WeierstrassCurve.Affine

attribute [local irreducible] p q b gx gy

theorem mod_smul (k : Nat) (A : curve.Point) : (k % q) • A = k • A := by
  conv_rhs => rw [← Nat.div_add_mod k q, add_nsmul, mul_comm, mul_nsmul', q_smul, nsmul_zero, zero_add]

theorem smul_congr {k l : Nat} (h : k % q = l % q) (A : curve.Point) : k • A = l • A := by rw [← mod_smul k, h, mod_smul]

theorem xCoord_eq (A : curve.Point) : xCoord A = (ofPoint A).map Prod.fst := by cases A <;> rfl

theorem xCoord_neg (A : curve.Point) : xCoord (-A) = xCoord A := by cases A <;> rfl

theorem q_pos : 0 < q := by have := q_large; omega

/-- `inv` is the inverse. -/
theorem inv_mul {s : Nat} (h0 : 0 < s) (h1 : s < q) : s * inv q s % q = 1 := by
  have hs : (s : ZMod q) ≠ 0 := by
    rw [Ne, ZMod.natCast_eq_zero_iff]
    exact fun hd => absurd (Nat.le_of_dvd h0 hd) (by omega)
  have : ((s * inv q s : Nat) : ZMod q) = ((1 : Nat) : ZMod q) := by
    rw [Nat.cast_mul, inv_eq (by have := q_large; omega), mul_inv_cancel₀ hs, Nat.cast_one]
  rw [ZMod.natCast_eq_natCast_iff, Nat.ModEq, Nat.mod_eq_of_lt (show 1 < q by have := q_large; omega)] at this
  exact this

/-- Inverses are unique. -/
theorem inv_unique {s w w' : Nat} (h : s * w % q = 1) (h' : s * w' % q = 1) : w % q = w' % q := by
  have h1 : (1 : Nat) % q = 1 := Nat.mod_eq_of_lt (by have := q_large; omega)
  have e : s * w ≡ 1 [MOD q] := by rw [Nat.ModEq, h, h1]
  have e' : s * w' ≡ 1 [MOD q] := by rw [Nat.ModEq, h', h1]
  have : w ≡ w' [MOD q] := by
    calc w = w * 1 := (mul_one w).symm
      _ ≡ w * (s * w') [MOD q] := (e'.symm.mul_left w)
      _ = s * w * w' := by ring
      _ ≡ 1 * w' [MOD q] := e.mul_right w'
      _ = w' := one_mul w'
  exact this

theorem valid_iff (A : curve.Point) (h r s w : Nat) (hw : 0 < s → s < q → s * w % q = 1) :
    EcdsaValid A h r s ↔ 0 < r ∧ r < q ∧ 0 < s ∧ s < q ∧ ∃ x, xCoord ((h * w) • G + (r * w) • A) = some x ∧ x % q = r := by
  unfold EcdsaValid
  refine and_congr_right fun _ => and_congr_right fun _ => and_congr_right fun h1 => and_congr_right fun h2 => ?_
  constructor
  · rintro ⟨G', w', x, hG, hw', hx, hr⟩
    rw [hasCoords_G] at hG
    subst hG
    have := inv_unique (hw h1 h2) hw'
    refine ⟨x, ?_, hr⟩
    rw [← hx, smul_congr (show h * w % q = h * w' % q by rw [Nat.mul_mod, this, ← Nat.mul_mod]),
      smul_congr (show r * w % q = r * w' % q by rw [Nat.mul_mod, this, ← Nat.mul_mod])]
  · rintro ⟨x, hx, hr⟩
    exact ⟨G, w, x, (hasCoords_G G).2 rfl, hw h1 h2, hx, hr⟩

theorem accepts_iff {A : curve.Point} {key : Nat × Nat} (hA : ofPoint A = some key) (h r s : Nat) :
    accepts key h r s = true ↔ EcdsaValid A h r s := by
  rw [valid_iff A h r s (inv q s) inv_mul, accepts, Rsa.force_eq, ← ofPoint_G, ← hA, mul_eq, mul_eq, add_eq, mod_smul, mod_smul, xCoord_eq]
  simp only [Bool.and_eq_true, decide_eq_true_eq, and_assoc]
  refine and_congr_right fun _ => and_congr_right fun _ => and_congr_right fun h1 => and_congr_right fun h2 => ?_
  cases ofPoint ((h * inv q s) • G + (r * inv q s) • A) with
  | none => simp
  | some k => simp

/-- What the signer makes is valid. -/
theorem sign_valid {d k h r s : Nat} (hs : sign d k h = some (r, s)) : EcdsaValid (d • G) h r s := by
  unfold sign at hs
  rw [← ofPoint_G, mul_eq] at hs
  cases hk : ofPoint (k • G) with
  | none => rw [hk] at hs; cases hs
  | some xy =>
    obtain ⟨x, y⟩ := xy
    rw [hk] at hs
    simp only at hs
    split at hs
    · rename_i hc
      obtain ⟨h1, h2, h3, h4⟩ := hc
      obtain ⟨rfl, rfl⟩ := Prod.mk.inj (Option.some.inj hs)
      set r := x % q
      set s := inv q k * (h + r * d) % q
      have hs2 : s < q := Nat.mod_lt _ q_pos
      have hs1 : 0 < s := Nat.pos_of_ne_zero h4
      refine (valid_iff _ _ _ _ (inv q s) inv_mul).2 ⟨Nat.pos_of_ne_zero h3, Nat.mod_lt _ q_pos, hs1, hs2, x, ?_, rfl⟩
      have hi := inv_mul hs1 hs2
      have hik := inv_mul h1 h2
      rw [← mul_nsmul', ← add_nsmul, smul_congr (l := k), xCoord_eq, hk]
      · rfl
      · have one : (1 : Nat) % q = 1 := Nat.mod_eq_of_lt (by have := q_large; omega)
        have e1 : s * inv q s ≡ 1 [MOD q] := by rw [Nat.ModEq, hi, one]
        have e2 : k * inv q k ≡ 1 [MOD q] := by rw [Nat.ModEq, hik, one]
        have e3 : s ≡ inv q k * (h + r * d) [MOD q] := Nat.mod_modEq _ _
        have : h * inv q s + r * inv q s * d ≡ k [MOD q] := by
          calc h * inv q s + r * inv q s * d = 1 * (h + r * d) * inv q s := by ring
            _ ≡ k * inv q k * (h + r * d) * inv q s [MOD q] := ((e2.symm.mul_right _).mul_right _)
            _ = k * (inv q k * (h + r * d)) * inv q s := by ring
            _ ≡ k * s * inv q s [MOD q] := ((e3.symm.mul_left _).mul_right _)
            _ = k * (s * inv q s) := by ring
            _ ≡ k * 1 [MOD q] := e1.mul_left _
            _ = k := mul_one k
        exact this
    · cases hs

/-- When a nonce does not do. -/
theorem sign_none {d k h x y : Nat} (h1 : 0 < k) (h2 : k < q) (hk : mul k g = some (x, y)) (hx : x % q ≠ 0) (hs : sign d k h = none) :
    (h + x % q * d) % q = 0 := by
  unfold sign at hs
  rw [hk] at hs
  simp only at hs
  split at hs
  · cases hs
  · rename_i hc
    have h0 : inv q k * (h + x % q * d) % q = 0 := by
      by_contra hne
      exact hc ⟨h1, h2, hx, hne⟩
    rcases q_prime.dvd_mul.1 (Nat.dvd_of_mod_eq_zero h0) with hd | hd
    · have := inv_mul h1 h2
      rw [Nat.mul_mod, Nat.mod_eq_zero_of_dvd hd, Nat.mul_zero, Nat.zero_mod] at this
      omega
    · exact Nat.mod_eq_zero_of_dvd hd

/-- The negative of the second number does as well. -/
theorem valid_neg {A : curve.Point} {h r s : Nat} (hv : EcdsaValid A h r s) : EcdsaValid A h r (q - s) := by
  obtain ⟨h1, h2, h3, h4, G', w, x, hG, hw, hx, hr⟩ := hv
  refine ⟨h1, h2, by omega, by omega, G', q * w - w, x, hG, ?_, ?_, hr⟩
  · have hz : (((q - s) * (q * w - w) : Nat) : ZMod q) = ((s * w : Nat) : ZMod q) := by
      rw [Nat.cast_mul, Nat.cast_sub h4.le, Nat.cast_sub (Nat.le_mul_of_pos_left w q_pos)]
      push_cast
      rw [ZMod.natCast_self]
      ring
    rw [ZMod.natCast_eq_natCast_iff, Nat.ModEq, hw] at hz
    exact hz
  · have hn : ∀ (n : Nat) (B : curve.Point), (n * (q * w - w)) • B = -((n * w) • B) := by
      intro n B
      rw [eq_neg_iff_add_eq_zero, ← add_nsmul, ← Nat.mul_add, Nat.sub_add_cancel (Nat.le_mul_of_pos_left w q_pos),
        show n * (q * w) = n * w * q by ring, mul_nsmul', q_smul, nsmul_zero]
    rw [hn, hn, ← neg_add, xCoord_neg, hx]

/-- For every valid signature and every other hash there is a key with which it is valid, too. -/
theorem valid_other_key {A : curve.Point} {h r s : Nat} (hv : EcdsaValid A h r s) (h' : Nat) : ∃ B, B ≠ 0 ∧ EcdsaValid B h' r s := by
  obtain ⟨h1, h2, h3, h4, G', w, x, hG, hw, hx, hr⟩ := hv
  have hi := inv_mul h1 h2
  have one : (1 : Nat) % q = 1 := Nat.mod_eq_of_lt (by have := q_large; omega)
  have a1 : s * w ≡ 1 [MOD q] := by rw [Nat.ModEq, hw, one]
  have a2 : r * inv q r ≡ 1 [MOD q] := by rw [Nat.ModEq, hi, one]
  have e1 : (r * w * (s * inv q r)) % q = 1 % q := by
    have := a1.mul a2
    rw [show s * w * (r * inv q r) = r * w * (s * inv q r) by ring] at this
    exact this
  have e2 : (r * w * (h' * inv q r)) % q = (h' * w) % q := by
    have := a2.mul_left (h' * w)
    rw [show h' * w * (r * inv q r) = r * w * (h' * inv q r) by ring, mul_one] at this
    exact this
  have key : ∀ R, xCoord R = some x → EcdsaValid ((s * inv q r) • R - (h' * inv q r) • G') h' r s := by
    intro R hR
    refine ⟨h1, h2, h3, h4, G', w, x, hG, hw, ?_, hr⟩
    rw [← hR]
    congr 1
    rw [nsmul_sub, ← mul_nsmul', ← mul_nsmul', smul_congr e1, smul_congr e2, one_nsmul]
    abel
  generalize (h * w) • G' + (r * w) • A = R at hx
  by_cases h0 : (s * inv q r) • R - (h' * inv q r) • G' = 0
  · refine ⟨_, ?_, key (-R) (by rw [xCoord_neg, hx])⟩
    intro h0'
    have hz : (2 * (s * inv q r)) • R = 0 := by
      rw [mul_nsmul', two_nsmul]
      rw [neg_nsmul, sub_eq_zero] at h0'
      rw [sub_eq_zero] at h0
      rw [← h0] at h0'
      nth_rewrite 1 [← h0']
      exact neg_add_cancel _
    have hR : R = 0 := by
      obtain ⟨c, hc⟩ : ∃ c, 2 * (s * inv q r) * c % q = 1 % q := by
        refine ⟨((q + 1) / 2) * (w * r), ?_⟩
        have h2q : 2 * ((q + 1) / 2) = q + 1 := by have := q_odd; omega
        have := ((show 2 * ((q + 1) / 2) ≡ 1 [MOD q] by rw [h2q]; simp [Nat.ModEq]).mul a1).mul a2
        rw [show 2 * ((q + 1) / 2) * (s * w) * (r * inv q r) = 2 * (s * inv q r) * (((q + 1) / 2) * (w * r)) by ring] at this
        exact this
      have := smul_congr hc R
      rw [mul_nsmul, hz, nsmul_zero, one_nsmul] at this
      exact this.symm
    rw [hR] at hx
    cases hx
  · exact ⟨_, h0, key R hx⟩

/-- Two points have the same first coordinate. -/
theorem xCoord_two (x : Nat) : ∃ R₀ : curve.Point, ∀ R, xCoord R = some x → R = R₀ ∨ R = -R₀ := by
  by_cases h : ∃ R : curve.Point, xCoord R = some x
  · obtain ⟨R₀, h0⟩ := h
    refine ⟨R₀, fun R hR => ?_⟩
    match R₀, R, h0, hR with
    | .some X₀ Y₀ h₀, .some X Y hA, h0, hR =>
      have hX : X = X₀ := ZMod.val_injective p (Option.some.inj (hR.trans h0.symm))
      subst hX
      rcases Y_eq_of_X_eq hA.1 h₀.1 rfl with rfl | rfl
      · exact .inl rfl
      · exact .inr rfl
  · exact ⟨0, fun R hR => absurd ⟨R, hR⟩ h⟩

/-- At most four keys fit a signature on a hash. -/
theorem valid_few (h r s : Nat) : ∃ L : List curve.Point, L.length ≤ 4 ∧ ∀ A, EcdsaValid A h r s → A ∈ L := by
  obtain ⟨R₁, h1⟩ := xCoord_two r
  obtain ⟨R₂, h2⟩ := xCoord_two (r + q)
  let f : curve.Point → curve.Point := fun R => (s * inv q r) • R - (h * inv q r) • G
  refine ⟨[f R₁, f (-R₁), f R₂, f (-R₂)], Nat.le_refl _, fun A hA => ?_⟩
  obtain ⟨a1, a2, a3, a4, x, hx, hr⟩ := (valid_iff A h r s (inv q s) inv_mul).1 hA
  have hxp : x < p := by
    generalize (h * inv q s) • G + (r * inv q s) • A = R at hx
    match R, hx with
    | .some X Y hR, hx => rw [← Option.some.inj hx]; exact ZMod.val_lt X
  have hpq : p < q + q := by decide +kernel
  have hi := inv_mul a1 a2
  have hw := inv_mul a3 a4
  have one : (1 : Nat) % q = 1 := Nat.mod_eq_of_lt (by have := q_large; omega)
  have b1 : s * inv q s ≡ 1 [MOD q] := by rw [Nat.ModEq, hw, one]
  have b2 : r * inv q r ≡ 1 [MOD q] := by rw [Nat.ModEq, hi, one]
  have e1 : (s * inv q r * (r * inv q s)) % q = 1 % q := by
    have := b1.mul b2
    rw [show s * inv q s * (r * inv q r) = s * inv q r * (r * inv q s) by ring] at this
    exact this
  have e2 : (s * inv q r * (h * inv q s)) % q = (h * inv q r) % q := by
    have := b1.mul_left (h * inv q r)
    rw [show h * inv q r * (s * inv q s) = s * inv q r * (h * inv q s) by ring, mul_one] at this
    exact this
  have hf : f ((h * inv q s) • G + (r * inv q s) • A) = A := by
    simp only [f]
    rw [nsmul_add, ← mul_nsmul', ← mul_nsmul', smul_congr e1, smul_congr e2, one_nsmul]
    abel
  have hcase : x = r ∨ x = r + q := by
    rcases Nat.lt_or_ge x q with hq | hq
    · rw [Nat.mod_eq_of_lt hq] at hr
      exact .inl hr
    · rw [Nat.mod_eq_sub_mod hq, Nat.mod_eq_of_lt (by omega)] at hr
      omega
  rw [← hf]
  rcases hcase with rfl | rfl
  · rcases h1 _ hx with e | e <;> rw [e] <;> simp
  · rcases h2 _ hx with e | e <;> rw [e] <;> simp

/-! ### DER -/

theorem minimal_iff (c : Bytes) : minimal c = true ↔
    ∃ x c', c = x :: c' ∧ x.toNat < 128 ∧ (x = 0 → ∀ y, c'.head? = some y → 128 ≤ y.toNat) := by
  match c with
  | [] => simp [minimal]
  | [x] => simp [minimal, UInt8.lt_iff_toNat_lt]
  | x :: y :: c =>
    simp only [minimal, Bool.and_eq_true, decide_eq_true_eq, UInt8.lt_iff_toNat_lt, Bool.not_eq_true', Bool.and_eq_false_imp, beq_iff_eq,
      decide_eq_false_iff_not, Nat.not_lt, List.cons.injEq]
    constructor
    · rintro ⟨h1, h2⟩
      refine ⟨x, y :: c, ⟨rfl, rfl⟩, h1, fun h0 y' hy => ?_⟩
      cases hy
      exact h2 h0
    · rintro ⟨x', c', ⟨rfl, rfl⟩, h1, h2⟩
      exact ⟨h1, fun h0 => h2 h0 y rfl⟩

theorem readInt_iff {b rest : Bytes} {n : Nat} : readInt b = some (n, rest) ↔ ∃ v, DerNat n v ∧ b = v ++ rest := by
  unfold readInt
  constructor
  · intro h
    simp only [Option.bind_eq_bind, Option.bind_eq_some_iff] at h
    obtain ⟨⟨c, r⟩, hv0, h⟩ := h
    obtain ⟨v, hv, rfl⟩ := Der.value_iff.1 hv0
    simp only at h
    split at h
    · rename_i hm
      obtain ⟨rfl, rfl⟩ := Prod.mk.inj (Option.some.inj h)
      obtain ⟨x, c', rfl, h1, h2⟩ := (minimal_iff c).1 hm
      exact ⟨v, ⟨x, c', (Der.ofBytes_eq _).symm, h1, h2, hv⟩, rfl⟩
    · cases h
  · rintro ⟨v, ⟨x, c, hn, h1, h2, hv⟩, rfl⟩
    rw [Der.value_iff.2 ⟨v, hv, rfl⟩]
    simp only [Option.bind_eq_bind, Option.bind_some]
    rw [if_pos ((minimal_iff _).2 ⟨x, c, rfl, h1, h2⟩), Der.ofBytes_eq, hn]

theorem readSig_iff {t : Bytes} {r s : Nat} : readSig t = some (r, s) ↔ EcdsaSig r s t := by
  unfold readSig EcdsaSig
  constructor
  · intro h
    simp only [Option.bind_eq_bind, Option.bind_eq_some_iff] at h
    obtain ⟨⟨c, rest⟩, h1, ⟨r', c1⟩, h2, ⟨s', c2⟩, h3, h⟩ := h
    simp only at h h2 h3
    split at h
    · rename_i he
      obtain ⟨rfl, rfl⟩ := he
      obtain ⟨rfl, rfl⟩ := Prod.mk.inj (Option.some.inj h)
      obtain ⟨v, hv, rfl⟩ := Der.value_iff.1 h1
      obtain ⟨a, ha, rfl⟩ := readInt_iff.1 h2
      obtain ⟨b, hb, rfl⟩ := readInt_iff.1 h3
      simp only [List.append_nil] at hv ⊢
      exact ⟨a, b, ha, hb, hv⟩
    · cases h
  · rintro ⟨a, b, ha, hb, ht⟩
    rw [Der.value_iff.2 ⟨t, ht, (List.append_nil t).symm⟩]
    simp only [Option.bind_eq_bind, Option.bind_some]
    rw [readInt_iff.2 ⟨a, ha, rfl⟩]
    simp only [Option.bind_some]
    rw [readInt_iff.2 ⟨b, hb, (List.append_nil b).symm⟩]
    simp

theorem derInt_facts {x : Nat} (hx : x < 2 ^ 256) : DerNat x (derInt x) ∧ (derInt x).length ≤ 35 := by
  have hlog : x.log2 ≤ 255 := by
    rcases Nat.eq_zero_or_pos x with rfl | h0
    · decide
    · exact Nat.lt_succ_iff.1 ((Nat.log2_lt (by omega)).2 hx)
  have hlt : x < 2 ^ (x.log2 + 1) := Nat.lt_log2_self
  have hlen := Rsa.toBytes_length ((x.log2 + 1) / 8 + 1) x
  have hval := Rsa.ofBytes_toBytes ((x.log2 + 1) / 8 + 1) x
  have hx2 : x < 256 ^ ((x.log2 + 1) / 8) * 128 := by
    refine Nat.lt_of_lt_of_le hlt ?_
    rw [show (256 : Nat) = 2 ^ 8 from rfl, ← Nat.pow_mul, show (128 : Nat) = 2 ^ 7 from rfl, ← Nat.pow_add]
    exact Nat.pow_le_pow_right (by decide) (by omega)
  have hx3 : x < 256 ^ ((x.log2 + 1) / 8 + 1) := by rw [Nat.pow_succ]; omega
  rw [Nat.mod_eq_of_lt hx3, Der.ofBytes_eq] at hval
  unfold derInt
  simp only
  generalize Rsa.toBytes ((x.log2 + 1) / 8 + 1) x = c at hlen hval
  refine ⟨?_, by simp only [List.length_cons]; omega⟩
  match c, hlen, hval with
  | y :: c, hlen, hval =>
    rw [List.length_cons, Nat.add_right_cancel_iff] at hlen
    have hc := Der.bigEndian_lt c
    rw [hlen] at hc
    have hy : y.toNat < 128 := by
      by_contra hcon
      rw [bigEndian, hlen] at hval
      have : 256 ^ ((x.log2 + 1) / 8) * 128 ≤ y.toNat * 256 ^ ((x.log2 + 1) / 8) := by
        rw [Nat.mul_comm]; exact Nat.mul_le_mul_right _ (by omega)
      omega
    refine ⟨y, c, hval, hy, ?_, [UInt8.ofNat (y :: c).length], .inl ⟨by rw [List.length_cons]; omega, rfl⟩, rfl⟩
    rintro rfl z hz
    match c, hz with
    | z :: c, rfl =>
      by_contra hcon
      rw [bigEndian, bigEndian] at hval
      rw [List.length_cons] at hlen
      have h1 := Der.bigEndian_lt c
      have h2 : z.toNat * 256 ^ c.length ≤ 127 * 256 ^ c.length := Nat.mul_le_mul_right _ (by omega)
      have h3 : x < 256 ^ c.length * 128 := by
        simp only [UInt8.toNat_zero, Nat.zero_mul, Nat.zero_add] at hval
        omega
      have h4 : x < 2 ^ (8 * c.length + 7) := by
        rw [Nat.pow_add, Nat.pow_mul]; exact h3
      rcases Nat.eq_zero_or_pos x with rfl | h0
      · rw [show Nat.log2 0 = 0 by decide] at hlen
        omega
      · have := (Nat.log2_lt (by omega)).2 h4
        omega

theorem q_bits : q < 2 ^ 256 := by
  unfold q
  decide

theorem derSig_facts {r s : Nat} (hr : r < q) (hs : s < q) : EcdsaSig r s (derSig r s) := by
  have h := q_bits
  obtain ⟨h1, h2⟩ := derInt_facts (Nat.lt_trans hr h)
  obtain ⟨h3, h4⟩ := derInt_facts (Nat.lt_trans hs h)
  exact ⟨_, _, h1, h3, _, .inl ⟨by rw [List.length_append]; omega, rfl⟩, rfl⟩

theorem derNat_bounds {x : UInt8} {c : Bytes} (h1 : x.toNat < 128) (h2 : x = 0 → ∀ y, c.head? = some y → 128 ≤ y.toNat) :
    bigEndian (x :: c) < 128 * 256 ^ c.length ∧ (c = [] ∨ 128 * 256 ^ (c.length - 1) ≤ bigEndian (x :: c)) := by
  have hc := Der.bigEndian_lt c
  rw [bigEndian]
  refine ⟨?_, ?_⟩
  · have : x.toNat * 256 ^ c.length ≤ 127 * 256 ^ c.length := Nat.mul_le_mul_right _ (by omega)
    omega
  · match c with
    | [] => exact .inl rfl
    | y :: c =>
      right
      rw [List.length_cons, Nat.add_sub_cancel, bigEndian]
      by_cases h0 : x = 0
      · have := Nat.mul_le_mul_right (256 ^ c.length) (h2 h0 y rfl)
        omega
      · have h3 : 1 ≤ x.toNat := by
          rcases Nat.eq_zero_or_pos x.toNat with h | h
          · exact absurd (UInt8.toNat_inj.1 h) h0
          · exact h
        have := Nat.mul_le_mul_right (256 ^ (c.length + 1)) h3
        rw [Nat.pow_succ] at this ⊢
        omega

theorem derValue_unique {tag : UInt8} {c a b : Bytes} (ha : DerValue tag c a) (hb : DerValue tag c b) : a = b := by
  obtain ⟨l, hl, rfl⟩ := ha
  obtain ⟨l', hl', rfl⟩ := hb
  suffices l = l' by rw [this]
  rcases hl with ⟨h1, rfl⟩ | ⟨h1, h2, d, ds, h3, h4, h5, rfl⟩ <;> rcases hl' with ⟨h1', rfl⟩ | ⟨h1', h2', d', ds', h3', h4', h5', rfl⟩
  · rfl
  · omega
  · omega
  · have pos : ∀ {d : UInt8}, d ≠ 0 → 1 ≤ d.toNat := fun {d} h0 => by
      rcases Nat.eq_zero_or_pos d.toNat with h | h
      · exact absurd (UInt8.toNat_inj.1 h) h0
      · exact h
    have low : ∀ {d : UInt8} {ds : Bytes}, d ≠ 0 → 256 ^ ds.length ≤ bigEndian (d :: ds) := fun {d ds} h0 => by
      have := Nat.mul_le_mul_right (256 ^ ds.length) (pos h0)
      rw [bigEndian]
      omega
    have hlen : ds.length = ds'.length := by
      have a1 := low (ds := ds) h3
      have a2 := low (ds := ds') h3'
      have b1 := Der.bigEndian_lt (d :: ds)
      have b2 := Der.bigEndian_lt (d' :: ds')
      rw [h5] at a1 b1
      rw [h5'] at a2 b2
      have c1 := (Nat.pow_lt_pow_iff_right (by decide : 1 < 256)).1 (Nat.lt_of_le_of_lt a1 b2)
      have c2 := (Nat.pow_lt_pow_iff_right (by decide : 1 < 256)).1 (Nat.lt_of_le_of_lt a2 b1)
      rw [List.length_cons] at c1 c2
      omega
    have := Rsa.ofBytes_inj (a := d :: ds) (b := d' :: ds') (by simp [hlen]) (by rw [Der.ofBytes_eq, Der.ofBytes_eq, h5, h5'])
    rw [this, hlen]

theorem derNat_unique {n : Nat} {a b : Bytes} (ha : DerNat n a) (hb : DerNat n b) : a = b := by
  obtain ⟨x, c, hn, h1, h2, hv⟩ := ha
  obtain ⟨x', c', hn', h1', h2', hv'⟩ := hb
  obtain ⟨b1, b2⟩ := derNat_bounds h1 h2
  obtain ⟨b1', b2'⟩ := derNat_bounds h1' h2'
  rw [hn] at b1 b2
  rw [hn'] at b1' b2'
  have step : ∀ {c c' : Bytes}, n < 128 * 256 ^ c.length → (c' = [] ∨ 128 * 256 ^ (c'.length - 1) ≤ n) → c'.length ≤ c.length := by
    intro c c' h h'
    rcases h' with rfl | h'
    · simp
    · have := Nat.lt_of_mul_lt_mul_left (Nat.lt_of_le_of_lt h' h)
      have := (Nat.pow_lt_pow_iff_right (by decide : 1 < 256)).1 this
      omega
  have hlen : c.length = c'.length := Nat.le_antisymm (step b1' b2) (step b1 b2')
  have := Rsa.ofBytes_inj (a := x :: c) (b := x' :: c') (by simp [hlen]) (by rw [Der.ofBytes_eq, Der.ofBytes_eq, hn, hn'])
  rw [this] at hv
  exact derValue_unique hv hv'

/-- The encoding is unique. -/
theorem ecdsaSig_unique {r s : Nat} {t t' : Bytes} (h : EcdsaSig r s t) (h' : EcdsaSig r s t') : t = t' := by
  obtain ⟨a, b, h1, h2, h3⟩ := h
  obtain ⟨a', b', h1', h2', h3'⟩ := h'
  rw [derNat_unique h1 h1', derNat_unique h2 h2'] at h3
  exact derValue_unique h3 h3'

theorem ecdsaSig_det {r s r' s' : Nat} {t : Bytes} (h : EcdsaSig r s t) (h' : EcdsaSig r' s' t) : r = r' ∧ s = s' :=
  Prod.mk.inj (Option.some.inj ((readSig_iff.2 h).symm.trans (readSig_iff.2 h')))

/-! ### Keys -/

theorem ofPoint_some {A : curve.Point} {x y : Nat} (hx : x < p) (hy : y < p) : ofPoint A = some (x, y) ↔ HasCoords A x y := by
  constructor
  · intro h
    match A, h with
    | .some X Y hA, h =>
      simp only [ofPoint, Option.some.injEq, Prod.mk.injEq] at h
      obtain ⟨rfl, rfl⟩ := h
      simp only [HasCoords, ZMod.natCast_val, ZMod.cast_id', id, exists_prop, and_true]
      exact hA
  · rintro ⟨hA, rfl⟩
    simp only [ofPoint, val_cast hx, val_cast hy]

theorem readKey_iff {key : Bytes} {xy : Nat × Nat} : readKey key = some xy ↔ ∃ A, EcKey A key ∧ ofPoint A = some xy := by
  constructor
  · intro h
    unfold readKey at h
    split at h
    · rename_i r
      simp only at h
      split at h
      · rename_i hc
        obtain ⟨hl, ho⟩ := hc
        obtain rfl := Option.some.inj h
        rw [onCurve_iff] at ho
        obtain ⟨h1, h2, h3⟩ := ho
        refine ⟨.some _ _ (nonsingular h3), ⟨r.take 32, r.drop 32, by simp [hl], by simp [hl], ?_, ?_, ?_, ?_⟩, ?_⟩
        · rwa [← Der.ofBytes_eq]
        · rwa [← Der.ofBytes_eq]
        · rw [← Der.ofBytes_eq, ← Der.ofBytes_eq]
          exact ⟨_, rfl⟩
        · rw [List.take_append_drop]
        · exact (ofPoint_some h1 h2).2 ⟨_, rfl⟩
      · cases h
    · cases h
  · rintro ⟨A, ⟨a, b, h1, h2, h3, h4, h5, rfl⟩, h6⟩
    have h7 := (ofPoint_some h3 h4).2 h5
    rw [h6] at h7
    obtain ⟨hn, _⟩ := h5
    have hcur := (onCurve_iff (bigEndian a) (bigEndian b)).2 ⟨h3, h4, hn.1⟩
    simp only [readKey, List.take_left' h1, List.drop_left' h1, Der.ofBytes_eq, hcur, List.length_append, h1, h2]
    rw [if_pos (by simp), ← h7]

theorem ecKey_det {A B : curve.Point} {key : Bytes} (h : EcKey A key) (h' : EcKey B key) : A = B := by
  obtain ⟨a, b, h1, h2, h3, h4, ⟨_, h5⟩, rfl⟩ := h
  obtain ⟨a', b', h1', h2', h3', h4', ⟨_, h5'⟩, h6⟩ := h'
  obtain ⟨rfl, rfl⟩ := List.append_inj (List.cons.inj h6).2 (by omega)
  rw [h5, h5']

/-- Every point other than infinity has one key. -/
theorem ecKey_exists {A : curve.Point} (h : A ≠ 0) : ∃ key, EcKey A key := by
  match A, h with
  | .zero, h => exact absurd rfl h
  | .some X Y hA, _ =>
    have hp : p < 256 ^ 32 := p_bits
    have e : ∀ (Z : ZMod p), bigEndian (Rsa.toBytes 32 Z.val) = Z.val := fun Z => by
      rw [← Der.ofBytes_eq, Rsa.ofBytes_toBytes, Nat.mod_eq_of_lt (Nat.lt_trans (ZMod.val_lt Z) hp)]
    refine ⟨_, Rsa.toBytes 32 X.val, Rsa.toBytes 32 Y.val, Rsa.toBytes_length _ _, Rsa.toBytes_length _ _, ?_, ?_, ?_, rfl⟩
    · rw [e]; exact ZMod.val_lt X
    · rw [e]; exact ZMod.val_lt Y
    · rw [e, e]
      exact (ofPoint_some (ZMod.val_lt X) (ZMod.val_lt Y)).1 rfl

theorem ecKey_unique {A : curve.Point} {key key' : Bytes} (h : EcKey A key) (h' : EcKey A key') : key = key' := by
  obtain ⟨a, b, h1, h2, h3, h4, h5, rfl⟩ := h
  obtain ⟨a', b', h1', h2', h3', h4', h5', rfl⟩ := h'
  have := ((ofPoint_some h3 h4).2 h5).symm.trans ((ofPoint_some h3' h4').2 h5')
  obtain ⟨e1, e2⟩ := Prod.mk.inj (Option.some.inj this)
  rw [← Der.ofBytes_eq, ← Der.ofBytes_eq] at e1 e2
  rw [Rsa.ofBytes_inj (h1.trans h1'.symm) e1, Rsa.ofBytes_inj (h2.trans h2'.symm) e2]

theorem ecKey_ne {A : curve.Point} {key : Bytes} (h : EcKey A key) : A ≠ 0 := by
  obtain ⟨_, _, _, _, _, _, ⟨_, rfl⟩, _⟩ := h
  exact Point.some_ne_zero _

theorem smul_inj {d d' : Nat} (h : d < q) (h' : d' < q) (he : d • G = d' • G) : d = d' := by
  rw [nsmul_eq_nsmul_iff_modEq, order_G, Nat.ModEq, Nat.mod_eq_of_lt h, Nat.mod_eq_of_lt h'] at he
  exact he

/-- The primitive of the model, in the words of the specification. -/
theorem verify_iff {hash : Bytes → Bytes} {key m t : Bytes} : verify hash key m t = true ↔
    ∃ A r s, EcKey A key ∧ EcdsaSig r s t ∧ EcdsaValid A (bigEndian (hash m)) r s := by
  unfold verify
  constructor
  · intro h
    split at h
    · rename_i k r s hk hs
      obtain ⟨A, h1, h2⟩ := readKey_iff.1 hk
      rw [accepts_iff h2, Der.ofBytes_eq] at h
      exact ⟨A, r, s, h1, readSig_iff.1 hs, h⟩
    · cases h
  · rintro ⟨A, r, s, h1, h2, h3⟩
    obtain ⟨a, b, _, _, h4, h5, h6, _⟩ := id h1
    have h7 := (ofPoint_some h4 h5).2 h6
    rw [readKey_iff.2 ⟨A, h1, h7⟩, readSig_iff.2 h2]
    simp only
    rwa [accepts_iff h7, Der.ofBytes_eq]

end Httpsig.P256
