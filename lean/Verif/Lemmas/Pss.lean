import Verif.Model.Pss
import Verif.Lemmas.Rsa
/-
The encoding of PSS: what is checked is exactly what is encoded with some salt.
-/
namespace Httpsig.Pss
open Rsa (toBytes size)

theorem xor_xor {a m : Bytes} (h : a.length = m.length) : xorBytes (xorBytes a m) m = a := by
  induction a generalizing m with
  | nil => cases m <;> rfl
  | cons x xs ih =>
    cases m with
    | nil => cases h
    | cons y ys =>
      have := ih (m := ys) (by simpa using h)
      simp only [xorBytes, List.zipWith_cons_cons] at this ⊢
      rw [this, UInt8.xor_assoc, UInt8.xor_self, UInt8.xor_zero]

theorem byte_clear (x m c : UInt8) : (((x ^^^ m) &&& c) ^^^ m) &&& c = x &&& c := by
  apply UInt8.toBitVec_inj.1
  ext i hi
  simp
  cases x.toBitVec[i] <;> cases m.toBitVec[i] <;> cases c.toBitVec[i] <;> rfl

/-- Masking twice, with the first bits cleared each time, gives back a string whose first bits are zero. -/
theorem clear_clear {k : Nat} {a m : Bytes} (h : a.length = m.length) (ha : clearTop k a = a) :
    clearTop k (xorBytes (clearTop k (xorBytes a m)) m) = a := by
  cases a with
  | nil => cases m <;> rfl
  | cons x xs =>
    cases m with
    | nil => cases h
    | cons y ys =>
      have hx := xor_xor (a := xs) (m := ys) (by simpa using h)
      simp only [clearTop, List.cons.injEq, and_true] at ha
      simp only [xorBytes, List.zipWith_cons_cons, clearTop] at hx ⊢
      rw [byte_clear, ha, hx]

theorem clear_idem (k : Nat) (a : Bytes) : clearTop k (clearTop k a) = clearTop k a := by
  cases a with
  | nil => rfl
  | cons x xs => simp only [clearTop, UInt8.and_assoc, UInt8.and_self]

theorem clear_length (k : Nat) (a : Bytes) : (clearTop k a).length = a.length := by cases a <;> rfl

theorem xor_length {a m : Bytes} (h : a.length = m.length) : (xorBytes a m).length = a.length := by
  simp [xorBytes, List.length_zipWith, h]

section
variable {hash : Bytes → Bytes} {hLen sLen emBits : Nat} (hh : ∀ m, (hash m).length = hLen)
include hh

theorem mgf_length (h0 : 0 < hLen) (seed : Bytes) (len : Nat) : (mgf hash hLen seed len).length = len := by
  have flat : ∀ l : List Nat, (l.flatMap fun c => hash (seed ++ toBytes 4 c)).length = l.length * hLen := by
    intro l
    induction l with
    | nil => simp
    | cons x xs ih => rw [List.flatMap_cons, List.length_append, ih, hh, List.length_cons, Nat.succ_mul, Nat.add_comm]
  rw [mgf, List.length_take, flat, List.length_range]
  apply Nat.min_eq_left
  have h1 := Nat.div_add_mod (len + hLen - 1) hLen
  have h2 := Nat.mod_lt (len + hLen - 1) h0
  rw [Nat.mul_comm] at h1
  omega

theorem encode_length (h0 : 0 < hLen) {salt : Bytes} (hl : hLen + salt.length + 2 ≤ (emBits + 7) / 8) (m : Bytes) :
    (encode hash hLen emBits salt m).length = (emBits + 7) / 8 := by
  simp only [encode, List.length_append, clear_length, hh, List.length_cons, List.length_nil]
  rw [xor_length (by rw [mgf_length hh h0]; simp; omega)]
  simp
  omega

/-- What the verifier checks is exactly what the signer encodes, with some salt. -/
theorem check_iff (h0 : 0 < hLen) (hl : hLen + sLen + 3 ≤ (emBits + 7) / 8) {m em : Bytes} (hem : em.length = (emBits + 7) / 8) :
    check hash hLen sLen emBits m em = true ↔ ∃ salt, salt.length = sLen ∧ em = encode hash hLen emBits salt m := by
  have hz : ∀ {j : Nat} (k : Nat) (r : Bytes), clearTop k (List.replicate (j + 1) 0 ++ r) = List.replicate (j + 1) 0 ++ r := by
    intro j k r
    simp [List.replicate_succ, clearTop]
  constructor
  · intro hc
    unfold check at hc
    simp only at hc
    split at hc; · cases hc
    split at hc; · cases hc
    rename_i _ hlast
    split at hc; · cases hc
    rename_i hclear
    split at hc; · cases hc
    rename_i htake
    simp only [Decidable.not_not] at hlast hclear htake
    generalize hL : (emBits + 7) / 8 = L at *
    generalize hk : 8 * L - emBits = k at *
    generalize hmk : em.take (L - hLen - 1) = masked at *
    generalize hhv : (em.drop (L - hLen - 1)).take hLen = h at *
    generalize hdb : clearTop k (xorBytes masked (mgf hash hLen h (L - hLen - 1))) = db at *
    have hml : masked.length = L - hLen - 1 := by rw [← hmk, List.length_take]; omega
    have hlen : masked.length = (mgf hash hLen h (L - hLen - 1)).length := by rw [mgf_length hh h0, hml]
    have hdl : db.length = L - hLen - 1 := by rw [← hdb, clear_length, xor_length hlen, hml]
    have hsl : (db.drop (L - hLen - sLen - 1)).length = sLen := by rw [List.length_drop]; omega
    have hdbe : List.replicate (L - hLen - sLen - 2) 0 ++ [1] ++ db.drop (L - hLen - sLen - 1) = db := by
      rw [← htake, List.take_append_drop]
    have hhe := beq_iff_eq.1 hc
    refine ⟨db.drop (L - hLen - sLen - 1), hsl, ?_⟩
    simp only [encode, hsl, hL, hk, hhe, hdbe]
    rw [← hdb, clear_clear hlen hclear, ← hmk, ← hhv]
    have hend : (em.drop (L - hLen - 1)).drop hLen = [0xbc] := by
      have h1 : ((em.drop (L - hLen - 1)).drop hLen).length = 1 := by simp only [List.length_drop]; omega
      obtain ⟨x, hx⟩ := List.length_eq_one_iff.1 h1
      rw [hx]
      have h2 : em = em.take (L - hLen - 1 + hLen) ++ [x] := by
        rw [← hx, List.drop_drop, List.take_append_drop]
      rw [h2, List.getLast?_append] at hlast
      simpa using hlast
    rw [← hend, List.append_assoc, List.take_append_drop, List.take_append_drop]
  · rintro ⟨salt, hs, rfl⟩
    have hml := mgf_length hh h0 (hash (List.replicate 8 0 ++ hash m ++ salt)) ((emBits + 7) / 8 - hLen - 1)
    unfold check
    generalize hL : (emBits + 7) / 8 = L at *
    generalize hk : 8 * L - emBits = k at *
    simp only [encode, hL, hk]
    generalize hhv : hash (List.replicate 8 0 ++ hash m ++ salt) = h at *
    have hhl : h.length = hLen := by rw [← hhv, hh]
    generalize hmask : mgf hash hLen h (L - hLen - 1) = mask at *
    have hdbl : (List.replicate (L - hLen - salt.length - 2) 0 ++ [1] ++ salt).length = L - hLen - 1 := by simp; omega
    have hclr := hz (j := L - hLen - salt.length - 3) k ([1] ++ salt)
    rw [show L - hLen - salt.length - 3 + 1 = L - hLen - salt.length - 2 by omega, ← List.append_assoc] at hclr
    generalize hdb : List.replicate (L - hLen - salt.length - 2) 0 ++ [1] ++ salt = db at *
    have e1 : (clearTop k (xorBytes db mask)).length = L - hLen - 1 := by rw [clear_length, xor_length (by omega), hdbl]
    have e2 := clear_clear (k := k) (hdbl.trans hml.symm) hclr
    have e3 := clear_idem k (xorBytes db mask)
    generalize clearTop k (xorBytes db mask) = masked at *
    rw [if_neg (by omega), if_neg (by simp)]
    rw [List.append_assoc, List.take_left' e1, List.drop_left' e1, List.take_left' hhl, if_neg (by simp [e3]), hmask, e2, ← hdb, hs]
    have e4 : (List.replicate (L - hLen - sLen - 2) (0 : UInt8) ++ [1]).length = L - hLen - sLen - 1 := by simp; omega
    rw [List.take_left' e4, List.drop_left' e4, if_neg (by simp), hhv]
    exact beq_self_eq_true h

/-- The encoding is a number of at most `emBits` bits. -/
theorem encode_lt (h0 : 0 < hLen) {salt : Bytes} (hl : hLen + salt.length + 2 ≤ (emBits + 7) / 8) (m : Bytes) :
    Der.ofBytes (encode hash hLen emBits salt m) < 2 ^ emBits := by
  have hlen := encode_length (emBits := emBits) hh h0 hl m
  have hml := mgf_length hh h0 (hash (List.replicate 8 0 ++ hash m ++ salt)) ((emBits + 7) / 8 - hLen - 1)
  obtain ⟨b, rest, he⟩ : ∃ b rest, encode hash hLen emBits salt m = (b &&& UInt8.ofNat (255 >>> (8 * ((emBits + 7) / 8) - emBits))) :: rest := by
    simp only [encode]
    generalize hx : xorBytes _ _ = x
    cases x with
    | nil =>
      have := congrArg List.length hx
      rw [xor_length (by rw [hml]; simp; omega)] at this
      simp at this
    | cons b bs => exact ⟨b, _, rfl⟩
  rw [he, List.length_cons] at hlen
  rw [he, Der.ofBytes_eq, bigEndian]
  have h1 := Der.bigEndian_lt rest
  generalize hk : 8 * ((emBits + 7) / 8) - emBits = k at *
  have hk8 : k < 8 := by omega
  have h2 : (b &&& UInt8.ofNat (255 >>> k)).toNat < 2 ^ (8 - k) := by
    rw [UInt8.toNat_and]
    refine Nat.lt_of_le_of_lt Nat.and_le_right ?_
    have : ∀ k < 8, (UInt8.ofNat (255 >>> k)).toNat < 2 ^ (8 - k) := by decide
    exact this k hk8
  have h3 : 2 ^ emBits = 2 ^ (8 - k) * 256 ^ rest.length := by
    rw [show 256 = 2 ^ 8 from rfl, ← Nat.pow_mul, ← Nat.pow_add]
    congr 1
    omega
  rw [h3]
  have h4 := Nat.mul_le_mul_right (256 ^ rest.length) h2
  rw [Nat.succ_mul] at h4
  omega

/-- An encoding determines the hash of the padded hash, and the salt. -/
theorem encode_inj (h0 : 0 < hLen) {salt salt' : Bytes} (hs : salt.length = salt'.length)
    (hl : hLen + salt.length + 3 ≤ (emBits + 7) / 8) {m m' : Bytes} :
    encode hash hLen emBits salt m = encode hash hLen emBits salt' m' ↔
      salt = salt' ∧ hash (List.replicate 8 0 ++ hash m ++ salt) = hash (List.replicate 8 0 ++ hash m' ++ salt) := by
  have hz : ∀ {j : Nat} (k : Nat) (r : Bytes), clearTop k (List.replicate (j + 1) 0 ++ r) = List.replicate (j + 1) 0 ++ r := by
    intro j k r
    simp [List.replicate_succ, clearTop]
  constructor
  · intro he
    have hm1 := mgf_length hh h0 (hash (List.replicate 8 0 ++ hash m ++ salt)) ((emBits + 7) / 8 - hLen - 1)
    have hx : ∀ s : Bytes, s.length = salt.length → ∀ mask : Bytes, mask.length = (emBits + 7) / 8 - hLen - 1 → (List.replicate ((emBits + 7) / 8 - hLen - s.length - 2) 0 ++ [1] ++ s).length = mask.length := by
      intro s hs' mask hmask; rw [hmask]; simp; omega
    simp only [encode] at he
    obtain ⟨a1, a2⟩ := List.append_inj' (List.append_cancel_right he) (by rw [hh, hh])
    rw [← a2] at a1
    generalize mgf hash hLen (hash (List.replicate 8 0 ++ hash m ++ salt)) ((emBits + 7) / 8 - hLen - 1) = mask at a1 hm1
    have clr : ∀ s : Bytes, s.length = salt.length → ∀ k, clearTop k (List.replicate ((emBits + 7) / 8 - hLen - s.length - 2) 0 ++ [1] ++ s) =
        List.replicate ((emBits + 7) / 8 - hLen - s.length - 2) 0 ++ [1] ++ s := by
      intro s hs' k
      have := hz (j := (emBits + 7) / 8 - hLen - s.length - 3) k ([1] ++ s)
      rwa [show (emBits + 7) / 8 - hLen - s.length - 3 + 1 = (emBits + 7) / 8 - hLen - s.length - 2 by omega, ← List.append_assoc] at this
    have b1 := clear_clear (hx _ rfl _ hm1) (clr salt rfl (8 * ((emBits + 7) / 8) - emBits))
    have b2 := clear_clear (hx _ hs.symm _ hm1) (clr salt' hs.symm (8 * ((emBits + 7) / 8) - emBits))
    rw [a1, b2, hs] at b1
    have := List.append_cancel_left b1
    subst this
    exact ⟨rfl, a2⟩
  · rintro ⟨rfl, h⟩
    simp only [encode, h]

end

/-- `signature` and `accepts`, evaluated by squaring. -/
def signatureFast (hash : Bytes → Bytes) (hLen n d : Nat) (salt m : Bytes) : Bytes :=
  toBytes (size n) (Rsa.powMod n (Der.ofBytes (encode hash hLen n.log2 salt m)) d)
@[inherit_doc signatureFast]
def acceptsFast (hash : Bytes → Bytes) (hLen sLen n e : Nat) (m tag : Bytes) : Bool :=
  if tag.length ≠ size n then false
  else if Der.ofBytes tag ≥ n then false
  else
    let x := Rsa.powMod n (Der.ofBytes tag) e
    if x ≥ 256 ^ ((n.log2 + 7) / 8) then false
    else check hash hLen sLen n.log2 m (toBytes ((n.log2 + 7) / 8) x)

theorem signatureFast_eq : signatureFast = signature := by
  funext hash hLen n d salt m
  rw [signatureFast, signature, Rsa.powMod_eq]

theorem acceptsFast_eq : acceptsFast = accepts := by
  funext hash hLen sLen n e m tag
  rw [acceptsFast, accepts, Rsa.powMod_eq]

end Httpsig.Pss
