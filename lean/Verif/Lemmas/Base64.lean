import Verif.Base64
/- Base64: decoding inverts encoding; strict decoding accepts nothing else. -/
namespace Httpsig.Base64

theorem val_sym {n : Nat} (h : n < 64) : val (sym n) = some n := by
  have : ∀ m : Fin 64, val (sym m.1) = some m.1 := by decide
  exact this ⟨n, h⟩

theorem sym_val {c : Char} {n : Nat} (h : val c = some n) : sym n = c ∧ n < 64 := by
  have hc := Char.ofNat_toNat c
  unfold val at h
  simp only at h
  unfold sym
  split at h
  · cases h
    have h1 : c.toNat - 65 < 26 := by omega
    rw [if_pos h1]
    exact ⟨by rw [show c.toNat - 65 + 65 = c.toNat by omega, hc], by omega⟩
  split at h
  · cases h
    have h1 : ¬ c.toNat - 71 < 26 := by omega
    have h2 : c.toNat - 71 < 52 := by omega
    rw [if_neg h1, if_pos h2]
    exact ⟨by rw [show c.toNat - 71 + 71 = c.toNat by omega, hc], by omega⟩
  split at h
  · cases h
    have h1 : ¬ c.toNat + 4 < 26 := by omega
    have h2 : ¬ c.toNat + 4 < 52 := by omega
    have h3 : c.toNat + 4 < 62 := by omega
    rw [if_neg h1, if_neg h2, if_pos h3]
    exact ⟨by rw [show c.toNat + 4 - 4 = c.toNat by omega, hc], by omega⟩
  split at h
  · rename_i h4; cases h; rw [h4] at hc; exact ⟨hc, by decide⟩
  split at h
  · rename_i h4; cases h; rw [h4] at hc; exact ⟨hc, by decide⟩
  · cases h

theorem sym_ne_eq {n : Nat} (h : n < 64) : sym n ≠ '=' := by
  intro e
  have := val_sym h
  rw [e] at this
  exact absurd this (by simp [val])

/-- The 65 characters base64 text is made of. -/
def isAlphabet (c : Char) : Bool := (val c).isSome || c == '='

theorem encode_all (b : Bytes) : (encode b).all isAlphabet = true := by
  have hs : ∀ n, n < 64 → isAlphabet (sym n) = true := by
    intro n hn; simp [isAlphabet, val_sym hn]
  induction b using encode.induct with
  | case1 => rfl
  | case2 a =>
    have := a.toNat_lt
    simp [encode, hs (a.toNat / 4) (by omega), hs (a.toNat % 4 * 16) (by omega)]; decide
  | case3 a b =>
    have := a.toNat_lt; have := b.toNat_lt
    simp [encode, hs (a.toNat / 4) (by omega), hs (a.toNat % 4 * 16 + b.toNat / 16) (by omega),
      hs (b.toNat % 16 * 4) (by omega)]; decide
  | case4 a b c rest ih =>
    have := a.toNat_lt; have := b.toNat_lt; have := c.toNat_lt
    simp only [encode, List.all_cons, Bool.and_eq_true]
    exact ⟨hs _ (by omega), hs _ (by omega), hs _ (by omega), hs _ (by omega), ih⟩

private theorem ofNat_eq {a : UInt8} {n : Nat} (h : n = a.toNat) : UInt8.ofNat n = a := by
  subst h; simp

theorem encode_ne_nil_of_ne_nil {b : Bytes} (h : b ≠ []) : encode b ≠ [] := by
  cases b using encode.fun_cases <;> simp_all [encode]

/-- Decoding (strict or lenient) inverts encoding. -/
theorem decode_encode (strict : Bool) (b : Bytes) : decode strict (encode b) = some b := by
  induction b using encode.induct with
  | case1 => rfl
  | case2 a =>
    have := a.toNat_lt
    simp only [encode, decode, val_sym (show a.toNat / 4 < 64 by omega),
      val_sym (show a.toNat % 4 * 16 < 64 by omega)]
    have e : a.toNat % 4 * 16 % 16 = 0 := by omega
    simp only [e, bne_self_eq_false, Bool.and_false, bind, Option.bind, and_self, if_true, Bool.false_eq_true, if_false, Option.some.injEq, List.cons.injEq, and_true]
    exact ofNat_eq (by omega)
  | case3 a b =>
    have := a.toNat_lt; have := b.toNat_lt
    simp only [encode, decode, val_sym (show a.toNat / 4 < 64 by omega),
      val_sym (show a.toNat % 4 * 16 + b.toNat / 16 < 64 by omega),
      val_sym (show b.toNat % 16 * 4 < 64 by omega),
      sym_ne_eq (show b.toNat % 16 * 4 < 64 by omega)]
    have e : b.toNat % 16 * 4 % 4 = 0 := by omega
    simp only [e, bne_self_eq_false, Bool.and_false, bind, Option.bind, and_self, if_true, Bool.false_eq_true, if_false, Option.some.injEq, List.cons.injEq, and_true]
    exact ⟨ofNat_eq (by omega), ofNat_eq (by omega)⟩
  | case4 a b c rest ih =>
    have := a.toNat_lt; have := b.toNat_lt; have := c.toNat_lt
    have hd : sym (c.toNat % 64) ≠ '=' := sym_ne_eq (by omega)
    simp only [encode, decode, val_sym (show a.toNat / 4 < 64 by omega),
      val_sym (show a.toNat % 4 * 16 + b.toNat / 16 < 64 by omega),
      val_sym (show b.toNat % 16 * 4 + c.toNat / 64 < 64 by omega),
      val_sym (show c.toNat % 64 < 64 by omega), hd, and_false, if_false, ih, bind, Option.bind, Option.some.injEq, List.cons.injEq, and_true]
    exact ⟨ofNat_eq (by omega), ofNat_eq (by omega), ofNat_eq (by omega)⟩

theorem strictDecode_encode (b : Bytes) : strictDecode (encode b) = some b := decode_encode _ b

theorem lenientDecode_encode (b : Bytes) : lenientDecode (encode b) = some b := decode_encode _ b

private theorem toNat_ofNat {n : Nat} (h : n < 256) : (UInt8.ofNat n).toNat = n := by
  simp; omega

/-- Strict decoding accepts only the canonical spelling. -/
theorem encode_of_decode_true : ∀ (s : Str) (b : Bytes), decode true s = some b → encode b = s
  | [], b, h => by simp [decode] at h; subst h; rfl
  | [_], b, h => by simp [decode] at h
  | [_, _], b, h => by simp [decode] at h
  | [_, _, _], b, h => by simp [decode] at h
  | a :: b' :: c :: d :: rest, b, h => by
    unfold decode at h
    split at h
    · rename_i hrd
      obtain ⟨rfl, rfl⟩ := hrd
      split at h
      · rename_i hc
        subst hc
        simp only [Option.bind_eq_bind, Option.bind_eq_some_iff] at h
        obtain ⟨x, hx, y, hy, h⟩ := h
        have ⟨hx', _⟩ := sym_val hx
        have ⟨hy', _⟩ := sym_val hy
        split at h
        · cases h
        rename_i hm
        simp at hm
        cases h
        simp only [encode]
        rw [toNat_ofNat (by omega), ← hx', ← hy']
        congr 2
        · omega
        · congr 2; omega
      · simp only [Option.bind_eq_bind, Option.bind_eq_some_iff] at h
        obtain ⟨x, hx, y, hy, z, hz, h⟩ := h
        have ⟨hx', _⟩ := sym_val hx
        have ⟨hy', _⟩ := sym_val hy
        have ⟨hz', _⟩ := sym_val hz
        split at h
        · cases h
        rename_i hm
        simp at hm
        cases h
        simp only [encode]
        rw [toNat_ofNat (by omega), toNat_ofNat (by omega), ← hx', ← hy', ← hz']
        rw [show (x * 4 + y / 16) / 4 = x by omega,
          show (x * 4 + y / 16) % 4 * 16 + (y % 16 * 16 + z / 4) / 16 = y by omega,
          show (y % 16 * 16 + z / 4) % 16 * 4 = z by omega]
    · simp only [Option.bind_eq_bind, Option.bind_eq_some_iff] at h
      obtain ⟨x, hx, y, hy, z, hz, w, hw, tl, htl, h⟩ := h
      have ⟨hx', _⟩ := sym_val hx
      have ⟨hy', _⟩ := sym_val hy
      have ⟨hz', _⟩ := sym_val hz
      have ⟨hw', _⟩ := sym_val hw
      cases h
      simp only [encode]
      rw [toNat_ofNat (by omega), toNat_ofNat (by omega), toNat_ofNat (by omega), encode_of_decode_true rest tl htl, ← hx', ← hy', ← hz',
        ← hw']
      rw [show (x * 4 + y / 16) / 4 = x by omega,
        show (x * 4 + y / 16) % 4 * 16 + (y % 16 * 16 + z / 4) / 16 = y by omega,
        show (y % 16 * 16 + z / 4) % 16 * 4 + (z % 4 * 64 + w) / 64 = z by omega,
        show (z % 4 * 64 + w) % 64 = w by omega]

theorem encode_of_strictDecode (s : Str) (b : Bytes) (h : strictDecode s = some b) : encode b = s :=
  encode_of_decode_true s b h

end Httpsig.Base64
