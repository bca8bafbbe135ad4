import Verif.Spec.Rsa
import Verif.Lemmas.KeyFiles
/-
Numbers as bytes, the padding of PKCS#1 v1.5, and a way to compute signatures that the kernel can evaluate.
-/
namespace Httpsig.Rsa

theorem ofBytes_concat (b : Bytes) (x : UInt8) : Der.ofBytes (b ++ [x]) = Der.ofBytes b * 256 + x.toNat := by
  simp [Der.ofBytes, List.foldl_append]

theorem toBytes_length (len x : Nat) : (toBytes len x).length = len := by
  induction len generalizing x with
  | zero => rfl
  | succ n ih => simp [toBytes, ih]

theorem ofBytes_toBytes (len x : Nat) : Der.ofBytes (toBytes len x) = x % 256 ^ len := by
  induction len generalizing x with
  | zero => simp [toBytes, Der.ofBytes, Nat.mod_one]
  | succ n ih =>
    rw [toBytes, ofBytes_concat, ih, UInt8.toNat_ofNat', Nat.pow_succ (n := 256), Nat.mul_comm (256 ^ n), Nat.mod_mul]
    omega

theorem toBytes_ofBytes (b : Bytes) : toBytes b.length (Der.ofBytes b) = b := by
  suffices ∀ (n : Nat) (b : Bytes), b.length = n → toBytes n (Der.ofBytes b) = b from this _ b rfl
  intro n
  induction n with
  | zero => intro b hb; rw [List.length_eq_zero_iff.1 hb]; rfl
  | succ n ih =>
    intro b hb
    obtain ⟨init, x, rfl⟩ : ∃ init x, b = init ++ [x] := by
      refine ⟨b.dropLast, b.getLast (by intro h; rw [h] at hb; cases hb), (List.dropLast_concat_getLast _).symm⟩
    have hx := x.toNat_lt
    rw [toBytes, ofBytes_concat, show (Der.ofBytes init * 256 + x.toNat) / 256 = Der.ofBytes init by omega,
      show (Der.ofBytes init * 256 + x.toNat) % 256 = x.toNat by omega, ih init (by simpa using hb), UInt8.ofNat_toNat]

theorem ofBytes_inj {a b : Bytes} (hl : a.length = b.length) (h : Der.ofBytes a = Der.ofBytes b) : a = b := by
  rw [← toBytes_ofBytes a, ← toBytes_ofBytes b, hl, h]

theorem lt_size (n : Nat) : n < 256 ^ size n := by
  have h1 : n < 2 ^ (n.log2 + 1) := Nat.lt_log2_self
  have h2 : 2 ^ (n.log2 + 1) ≤ 2 ^ (8 * size n) := Nat.pow_le_pow_right (by decide) (by unfold size; omega)
  rw [Nat.pow_mul] at h2
  exact Nat.lt_of_lt_of_le h1 h2

theorem size_le {n : Nat} (h : n ≠ 0) : 256 ^ (size n - 1) ≤ n := by
  have h1 : 2 ^ n.log2 ≤ n := Nat.log2_self_le h
  have h2 : 2 ^ (8 * (size n - 1)) ≤ 2 ^ n.log2 := Nat.pow_le_pow_right (by decide) (by unfold size; omega)
  rw [Nat.pow_mul] at h2
  exact Nat.le_trans h2 h1

theorem size_large {n : Nat} (h : 256 ^ 93 ≤ n) : 94 ≤ size n := by
  have h1 := lt_size n
  have h2 : 256 ^ 93 < 256 ^ size n := Nat.lt_of_le_of_lt h h1
  have := (Nat.pow_lt_pow_iff_right (by decide : 1 < 256)).1 h2
  omega

theorem emsa_length {info m : Bytes} {hash : Bytes → Bytes} {len : Nat} (h : info.length + (hash m).length + 3 ≤ len) :
    (emsa info hash len m).length = len := by
  simp only [emsa, List.length_append, List.length_cons, List.length_nil, List.length_replicate]
  omega

theorem emsa_lt {info m : Bytes} {hash : Bytes → Bytes} {n : Nat} (hn : n ≠ 0) (h : info.length + (hash m).length + 3 ≤ size n) :
    Der.ofBytes (emsa info hash (size n) m) < n := by
  refine Nat.lt_of_lt_of_le ?_ (size_le hn)
  have hl := emsa_length h
  obtain ⟨rest, hr⟩ : ∃ rest, emsa info hash (size n) m = 0 :: rest := ⟨_, rfl⟩
  rw [hr, List.length_cons] at hl
  rw [hr, show Der.ofBytes (0 :: rest) = Der.ofBytes rest from rfl, Der.ofBytes_eq, ← hl, Nat.add_sub_cancel]
  exact Der.bigEndian_lt rest

/-! ### Evaluation -/

/-- Evaluate `n` before continuing (keeps kernel evaluation from copying unevaluated sums). -/
def force {α : Type} (n : Nat) (f : Nat → α) : α :=
  match n with
  | 0 => f 0
  | k + 1 => f (k + 1)

theorem force_eq {α : Type} (n : Nat) (f : Nat → α) : force n f = f n := by
  unfold force
  split <;> rfl

/-- `acc * b ^ e mod n`, with `bits` binary digits of the exponent. -/
def modpow (n : Nat) : (bits : Nat) → (b e acc : Nat) → Nat
  | 0, _, _, acc => acc
  | k + 1, b, e, acc =>
    force (if e % 2 = 1 then acc * b % n else acc) fun acc => force (b * b % n) fun b => force (e / 2) fun e => modpow n k b e acc

theorem modpow_eq (n : Nat) : ∀ (bits b e acc : Nat), e < 2 ^ bits → acc % n = acc → modpow n bits b e acc = acc * b ^ e % n := by
  intro bits
  induction bits with
  | zero => intro b e acc he ha; rw [show e = 0 by omega]; simp [modpow, ha]
  | succ k ih =>
    intro b e acc he ha
    simp only [modpow, force_eq]
    have he2 : e / 2 < 2 ^ k := by rw [Nat.pow_succ] at he; omega
    have hsq : ∀ c, c * (b * b % n) ^ (e / 2) % n = c * b ^ (2 * (e / 2)) % n := fun c => by
      rw [Nat.pow_mul, Nat.pow_two, Nat.mul_mod, ← Nat.pow_mod, ← Nat.mul_mod]
    split
    · rename_i h1
      rw [ih _ _ _ he2 (Nat.mod_mod _ _), hsq, Nat.mod_mul_mod, Nat.mul_assoc, ← Nat.pow_succ',
        show (2 * (e / 2)).succ = e by omega]
    · rw [ih _ _ _ he2 ha, hsq, show 2 * (e / 2) = e by omega]

/-- `b ^ e mod n`. -/
def powMod (n b e : Nat) : Nat := modpow n (e.log2 + 1) b e (1 % n)

theorem powMod_eq (n b e : Nat) : powMod n b e = b ^ e % n := by
  rw [powMod, modpow_eq _ _ _ _ _ Nat.lt_log2_self (Nat.mod_mod _ _), Nat.mod_mul_mod, Nat.one_mul]

/-- `signature`, evaluated by squaring. -/
def signatureFast (info : Bytes) (hash : Bytes → Bytes) (n d : Nat) (m : Bytes) : Bytes :=
  toBytes (size n) (powMod n (Der.ofBytes (emsa info hash (size n) m)) d)

/-- `accepts`, evaluated by squaring. -/
def acceptsFast (info : Bytes) (hash : Bytes → Bytes) (n e : Nat) (m tag : Bytes) : Bool :=
  tag.length == size n && decide (Der.ofBytes tag < n) && toBytes (size n) (powMod n (Der.ofBytes tag) e) == emsa info hash (size n) m

theorem signatureFast_eq : signatureFast = signature := by
  funext info hash n d m
  rw [signatureFast, signature, powMod_eq]

theorem acceptsFast_eq : acceptsFast = accepts := by
  funext info hash n e m tag
  rw [acceptsFast, accepts, powMod_eq]

end Httpsig.Rsa
