import Verif.Lemmas.Pss
import Verif.Spec.BackEnds
/-
A block that is one of PKCS#1 v1.5 and one of PSS at once: the mask of PSS then begins with bytes FF.
-/
namespace Httpsig
open Rsa (toBytes size)

namespace Rsa

theorem toBytes_drop_one (len x : Nat) : (toBytes (len + 1) x).drop 1 = toBytes len x := by
  induction len generalizing x with
  | zero => simp [toBytes]
  | succ n ih =>
    have h1 : 1 ≤ (toBytes (n + 1) (x / 256)).length := by rw [toBytes_length]; omega
    rw [toBytes, List.drop_append_of_le_length h1, ih]
    rfl

/-- From the third to the 64th byte, the block has bytes FF only. -/
theorem emsa_ones {info : Bytes} {hash : Bytes → Bytes} {len : Nat} {m : Bytes} (hl : (info ++ hash m).length + 3 + 64 ≤ len) :
    ((emsa info hash len m).drop 2).take 63 = List.replicate 63 0xff := by
  unfold emsa
  generalize info ++ hash m = t at *
  simp only [List.append_assoc]
  change (List.replicate (len - t.length - 3) 0xff ++ ([0] ++ t)).take 63 = _
  rw [List.take_append_of_le_length (by simp; omega), List.take_replicate, Nat.min_eq_left (by omega)]

end Rsa

namespace Pss

theorem xor_zeros (j : Nat) (b : Bytes) (h : b.length = j) : xorBytes (List.replicate j 0) b = b := by
  induction j generalizing b with
  | zero => rw [List.length_eq_zero_iff.1 h]; rfl
  | succ n ih =>
    cases b with
    | nil => cases h
    | cons x xs =>
      have := ih xs (by simpa using h)
      simp only [xorBytes] at this
      simp [xorBytes, List.replicate_succ, this]

theorem clear_drop (k : Nat) (a : Bytes) (j : Nat) : (clearTop k a).drop (j + 1) = a.drop (j + 1) := by cases a <;> rfl

/-- From the third to the 64th byte, the encoding is the first hash of the mask. -/
theorem encode_mask {hash : Bytes → Bytes} (hh : ∀ m, (hash m).length = 64) {emBits : Nat} {salt : Bytes} (hs : salt.length = 64)
    (hl : 255 ≤ (emBits + 7) / 8) (m : Bytes) :
    ((encode hash 64 emBits salt m).drop 2).take 62 = (hash (hash (pssText hash salt m) ++ [0, 0, 0, 0])).drop 2 := by
  have hp : List.replicate 8 0 ++ hash m ++ salt = pssText hash salt m := rfl
  simp only [encode, hs, hp]
  generalize hL : (emBits + 7) / 8 = L at *
  generalize hash (pssText hash salt m) = h
  have hml := mgf_length hh (by decide) h (L - 64 - 1)
  have hm : ∃ rest, mgf hash 64 h (L - 64 - 1) = hash (h ++ [0, 0, 0, 0]) ++ rest := by
    obtain ⟨q, hq⟩ : ∃ q, (L - 64 - 1 + 64 - 1) / 64 = q + 1 := ⟨(L - 64 - 1 + 64 - 1) / 64 - 1, by omega⟩
    refine ⟨(((List.range q).map Nat.succ).flatMap fun c => hash (h ++ toBytes 4 c)).take (L - 64 - 1 - 64), ?_⟩
    have h0 : toBytes 4 0 = [0, 0, 0, 0] := by decide
    rw [mgf, hq, List.range_succ_eq_map, List.flatMap_cons, List.take_append, hh, List.take_of_length_le (by rw [hh]; omega), h0]
  obtain ⟨rest, hm⟩ := hm
  rw [hm] at hml ⊢
  have hdb : List.replicate (L - 64 - 64 - 2) (0 : UInt8) ++ [1] ++ salt =
      List.replicate 64 0 ++ (List.replicate (L - 64 - 64 - 2 - 64) 0 ++ [1] ++ salt) := by
    rw [← List.append_assoc, ← List.append_assoc, List.replicate_append_replicate, show 64 + (L - 64 - 64 - 2 - 64) = L - 64 - 64 - 2 by omega]
  have hx : xorBytes (List.replicate (L - 64 - 64 - 2) 0 ++ [1] ++ salt) (hash (h ++ [0, 0, 0, 0]) ++ rest) =
      hash (h ++ [0, 0, 0, 0]) ++ xorBytes (List.replicate (L - 64 - 64 - 2 - 64) 0 ++ [1] ++ salt) rest := by
    have hz := xor_zeros 64 _ (hh (h ++ [0, 0, 0, 0]))
    unfold xorBytes at hz
    rw [hdb, xorBytes, List.zipWith_append (by simp [hh]), hz]
    rfl
  rw [hx, List.append_assoc, List.drop_append_of_le_length (by rw [clear_length]; simp [hh]; omega), clear_drop,
    List.drop_append_of_le_length (by rw [hh]; omega), List.append_assoc, List.take_append_of_le_length (by simp [hh]),
    List.take_of_length_le (by simp [hh])]

end Pss

/-- What is accepted with both paddings gives a hash with bytes FF. -/
theorem both_paddings {info : Bytes} {hash hash' : Bytes → Bytes} {n e : Nat} {m m' t : Bytes} (hn : 2 ^ 2040 ≤ n) (hh : ∀ m, (hash m).length = 64)
    (hi : (info ++ hash' m).length ≤ 83) (h1 : Rsa.accepts info hash' n e m t = true) (h2 : Pss.accepts hash 64 64 n e m' t = true) :
    ∃ salt, salt.length = 64 ∧ HashOfOnes hash salt m' := by
  have hlog : 2040 ≤ n.log2 := by
    have h3 : n < 2 ^ (n.log2 + 1) := Nat.lt_log2_self
    have := (Nat.pow_lt_pow_iff_right (by decide : 1 < 2)).1 (Nat.lt_of_le_of_lt hn h3)
    omega
  have hL : 255 ≤ (n.log2 + 7) / 8 := by omega
  simp only [Rsa.accepts, Bool.and_eq_true, beq_iff_eq] at h1
  unfold Pss.accepts at h2
  split at h2; · cases h2
  split at h2; · cases h2
  simp only at h2
  split at h2; · cases h2
  obtain ⟨salt, hs, he⟩ := (Pss.check_iff hh (by decide) (by omega) (Rsa.toBytes_length _ _)).1 h2
  refine ⟨salt, hs, ?_⟩
  have h4 := Pss.encode_mask hh hs hL m'
  rw [← he] at h4
  unfold HashOfOnes
  rw [← h4]
  have h5 : size n = n.log2 / 8 + 1 := rfl
  have h6 := Rsa.emsa_ones (info := info) (hash := hash') (len := size n) (m := m) (by omega)
  rw [← h1.2] at h6
  have h62 : ((toBytes (size n) (Der.ofBytes t ^ e % n)).drop 2).take 62 = List.replicate 62 0xff := by
    have := congrArg (List.take 62) h6
    rwa [List.take_take] at this
  have h63 : ((toBytes (size n) (Der.ofBytes t ^ e % n)).drop 3).take 62 = List.replicate 62 0xff := by
    have := congrArg (List.drop 1) h6
    rwa [List.drop_take, List.drop_drop] at this
  by_cases hd : n.log2 % 8 = 0
  · have h7 : size n = (n.log2 + 7) / 8 + 1 := by omega
    rw [← Rsa.toBytes_drop_one, ← h7, List.drop_drop]
    exact h63
  · have h7 : size n = (n.log2 + 7) / 8 := by omega
    rw [← h7]
    exact h62

end Httpsig
