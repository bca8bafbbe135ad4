import Verif.Model.Hmac
/-
SHA-256, SHA-512 (FIPS 180-4) and HMAC (RFC 2104) as functions on byte lists, so that the test vectors of the repository can
be evaluated in the kernel. No theorem about the model depends on them; there the hash functions are parameters. They meet the
hypotheses of C135 (`realHmac` in Vectors/Repo).
-/
namespace Httpsig.Sha2

/-- Evaluate `n` before continuing (keeps kernel evaluation from copying unevaluated sums). -/
def force {α : Type} (n : Nat) (f : Nat → α) : α :=
  match n with
  | 0 => f 0
  | k + 1 => f (k + 1)

theorem force_eq {α : Type} (n : Nat) (f : Nat → α) : force n f = f n := by
  unfold force
  split <;> rfl

/-- The members of the SHA-2 family: word size in bits, rotation amounts, constants, initial state. -/
structure Family where
  bits : Nat
  big0 : Nat × Nat × Nat
  big1 : Nat × Nat × Nat
  small0 : Nat × Nat × Nat
  small1 : Nat × Nat × Nat
  consts : List Nat
  init : List Nat

def sha256Family : Family where
  bits := 32
  big0 := (2, 13, 22)
  big1 := (6, 11, 25)
  small0 := (7, 18, 3)
  small1 := (17, 19, 10)
  consts := [
    0x428a2f98, 0x71374491, 0xb5c0fbcf, 0xe9b5dba5, 0x3956c25b, 0x59f111f1, 0x923f82a4, 0xab1c5ed5, 0xd807aa98,
    0x12835b01, 0x243185be, 0x550c7dc3, 0x72be5d74, 0x80deb1fe, 0x9bdc06a7, 0xc19bf174, 0xe49b69c1, 0xefbe4786,
    0x0fc19dc6, 0x240ca1cc, 0x2de92c6f, 0x4a7484aa, 0x5cb0a9dc, 0x76f988da, 0x983e5152, 0xa831c66d, 0xb00327c8,
    0xbf597fc7, 0xc6e00bf3, 0xd5a79147, 0x06ca6351, 0x14292967, 0x27b70a85, 0x2e1b2138, 0x4d2c6dfc, 0x53380d13,
    0x650a7354, 0x766a0abb, 0x81c2c92e, 0x92722c85, 0xa2bfe8a1, 0xa81a664b, 0xc24b8b70, 0xc76c51a3, 0xd192e819,
    0xd6990624, 0xf40e3585, 0x106aa070, 0x19a4c116, 0x1e376c08, 0x2748774c, 0x34b0bcb5, 0x391c0cb3, 0x4ed8aa4a,
    0x5b9cca4f, 0x682e6ff3, 0x748f82ee, 0x78a5636f, 0x84c87814, 0x8cc70208, 0x90befffa, 0xa4506ceb, 0xbef9a3f7,
    0xc67178f2]
  init := [
    0x6a09e667, 0xbb67ae85, 0x3c6ef372, 0xa54ff53a, 0x510e527f, 0x9b05688c, 0x1f83d9ab, 0x5be0cd19]

def sha512Family : Family where
  bits := 64
  big0 := (28, 34, 39)
  big1 := (14, 18, 41)
  small0 := (1, 8, 7)
  small1 := (19, 61, 6)
  consts := [
    0x428a2f98d728ae22, 0x7137449123ef65cd, 0xb5c0fbcfec4d3b2f, 0xe9b5dba58189dbbc, 0x3956c25bf348b538,
    0x59f111f1b605d019, 0x923f82a4af194f9b, 0xab1c5ed5da6d8118, 0xd807aa98a3030242, 0x12835b0145706fbe,
    0x243185be4ee4b28c, 0x550c7dc3d5ffb4e2, 0x72be5d74f27b896f, 0x80deb1fe3b1696b1, 0x9bdc06a725c71235,
    0xc19bf174cf692694, 0xe49b69c19ef14ad2, 0xefbe4786384f25e3, 0x0fc19dc68b8cd5b5, 0x240ca1cc77ac9c65,
    0x2de92c6f592b0275, 0x4a7484aa6ea6e483, 0x5cb0a9dcbd41fbd4, 0x76f988da831153b5, 0x983e5152ee66dfab,
    0xa831c66d2db43210, 0xb00327c898fb213f, 0xbf597fc7beef0ee4, 0xc6e00bf33da88fc2, 0xd5a79147930aa725,
    0x06ca6351e003826f, 0x142929670a0e6e70, 0x27b70a8546d22ffc, 0x2e1b21385c26c926, 0x4d2c6dfc5ac42aed,
    0x53380d139d95b3df, 0x650a73548baf63de, 0x766a0abb3c77b2a8, 0x81c2c92e47edaee6, 0x92722c851482353b,
    0xa2bfe8a14cf10364, 0xa81a664bbc423001, 0xc24b8b70d0f89791, 0xc76c51a30654be30, 0xd192e819d6ef5218,
    0xd69906245565a910, 0xf40e35855771202a, 0x106aa07032bbd1b8, 0x19a4c116b8d2d0c8, 0x1e376c085141ab53,
    0x2748774cdf8eeb99, 0x34b0bcb5e19b48a8, 0x391c0cb3c5c95a63, 0x4ed8aa4ae3418acb, 0x5b9cca4f7763e373,
    0x682e6ff3d6b2b8a3, 0x748f82ee5defb2fc, 0x78a5636f43172f60, 0x84c87814a1f0ab72, 0x8cc702081a6439ec,
    0x90befffa23631e28, 0xa4506cebde82bde9, 0xbef9a3f7b2c67915, 0xc67178f2e372532b, 0xca273eceea26619c,
    0xd186b8c721c0c207, 0xeada7dd6cde0eb1e, 0xf57d4f7fee6ed178, 0x06f067aa72176fba, 0x0a637dc5a2c898a6,
    0x113f9804bef90dae, 0x1b710b35131c471b, 0x28db77f523047d84, 0x32caab7b40c72493, 0x3c9ebe0a15c9bebc,
    0x431d67c49c100d4c, 0x4cc5d4becb3e42b6, 0x597f299cfc657e2a, 0x5fcb6fab3ad6faec, 0x6c44198c4a475817]
  init := [
    0x6a09e667f3bcc908, 0xbb67ae8584caa73b, 0x3c6ef372fe94f82b, 0xa54ff53a5f1d36f1, 0x510e527fade682d1,
    0x9b05688c2b3e6c1f, 0x1f83d9abfb41bd6b, 0x5be0cd19137e2179]

namespace Family
variable (f : Family)

/-- Addition modulo the word size. -/
def add (a b : Nat) : Nat := (a + b) % 2 ^ f.bits

/-- Rotation to the right. -/
def rotr (x n : Nat) : Nat := (x >>> n) ||| ((x <<< (f.bits - n)) % 2 ^ f.bits)

/-- Σ₀, Σ₁. -/
def bigSigma (r : Nat × Nat × Nat) (x : Nat) : Nat := f.rotr x r.1 ^^^ f.rotr x r.2.1 ^^^ f.rotr x r.2.2

/-- σ₀, σ₁. -/
def smallSigma (r : Nat × Nat × Nat) (x : Nat) : Nat := f.rotr x r.1 ^^^ f.rotr x r.2.1 ^^^ (x >>> r.2.2)

def ch (x y z : Nat) : Nat := (x &&& y) ^^^ ((2 ^ f.bits - 1 - x) &&& z)
def maj (x y z : Nat) : Nat := (x &&& y) ^^^ (x &&& z) ^^^ (y &&& z)

/-- The rounds, with the state and the next sixteen words of the message schedule. -/
def rounds : List Nat → (a b c d e g h i : Nat) → List Nat → List Nat
  | [], a, b, c, d, e, g, h, i, _ => [a, b, c, d, e, g, h, i]
  | k :: ks, a, b, c, d, e, g, h, i, w =>
    force (f.add (f.add (f.add i (f.bigSigma f.big1 e)) (f.add (f.ch e g h) k)) (w.headD 0)) fun t1 =>
    force (f.add (f.bigSigma f.big0 a) (maj a b c)) fun t2 =>
    force (f.add d t1) fun e' =>
    force (f.add t1 t2) fun a' =>
    force (f.add (f.add (f.smallSigma f.small1 (w.getD 14 0)) (w.getD 9 0)) (f.add (f.smallSigma f.small0 (w.getD 1 0)) (w.headD 0)))
      fun w' => rounds ks a' a b c e' e g h (w.tail ++ [w'])

/-- One block. -/
def block (s w : List Nat) : List Nat :=
  match s with
  | [a, b, c, d, e, g, h, i] => List.zipWith f.add s (f.rounds f.consts a b c d e g h i w)
  | _ => s

/-- Evaluate every number of a list before continuing. -/
def forceList {α : Type} : List Nat → (List Nat → α) → α
  | [], k => k []
  | x :: xs, k => force x fun x => forceList xs fun xs => k (x :: xs)

theorem forceList_eq {α : Type} (xs : List Nat) (k : List Nat → α) : forceList xs k = k xs := by
  induction xs generalizing k with
  | nil => rfl
  | cons x xs ih => rw [forceList, force_eq, ih]

/-- All blocks. -/
def blocks : (n : Nat) → List Nat → List Nat → List Nat
  | 0, s, _ => s
  | n + 1, s, ws => forceList (f.block s (ws.take 16)) fun s => blocks n s (ws.drop 16)

end Family

/-- Big-endian number. -/
def ofBytes (b : Bytes) : Nat := b.foldl (fun n x => n * 256 + x.toNat) 0

/-- The last `n` big-endian bytes of a number. -/
def toBytes (n x : Nat) : Bytes := (List.range n).map fun i => UInt8.ofNat (x >>> (8 * (n - 1 - i)))

/-- Words of `n` bytes. -/
def words (n : Nat) : (count : Nat) → Bytes → List Nat
  | 0, _ => []
  | c + 1, b => ofBytes (b.take n) :: words n c (b.drop n)

namespace Family
variable (f : Family)

/-- Bytes per word. -/
def bytes : Nat := f.bits / 8

/-- The padded message. -/
def pad (m : Bytes) : Bytes :=
  let block := 16 * f.bytes
  m ++ [0x80] ++ List.replicate ((2 * block - 1 - 2 * f.bytes - m.length % block) % block) 0 ++ toBytes (2 * f.bytes) (8 * m.length)

def hash (m : Bytes) : Bytes :=
  let p := f.pad m
  Family.forceList (words f.bytes (p.length / f.bytes) p) fun ws =>
    (f.blocks (p.length / (16 * f.bytes)) f.init ws).flatMap (toBytes f.bytes)

/-- HMAC. -/
def hmac (key m : Bytes) : Bytes := Hmac.tag f.hash (16 * f.bytes) key m

theorem rounds_length : ∀ (ks : List Nat) (a b c d e g h i : Nat) (w : List Nat), (f.rounds ks a b c d e g h i w).length = 8 := by
  intro ks
  induction ks with
  | nil => intros; rfl
  | cons k ks ih =>
    intros
    simp only [rounds, force_eq]
    exact ih ..

theorem block_length (s w : List Nat) : (f.block s w).length = s.length := by
  unfold block
  split
  · rw [List.length_zipWith, rounds_length]; rfl
  · rfl

theorem blocks_length : ∀ (n : Nat) (s ws : List Nat), (f.blocks n s ws).length = s.length := by
  intro n
  induction n with
  | zero => intros; rfl
  | succ n ih =>
    intro s ws
    rw [blocks, forceList_eq, ih, block_length]

/-- The length of a hash. -/
theorem hash_length (m : Bytes) : (f.hash m).length = f.init.length * f.bytes := by
  rw [hash, forceList_eq, List.length_flatMap]
  have : ∀ l : List Nat, (l.map fun x => (toBytes f.bytes x).length).sum = l.length * f.bytes := by
    intro l
    induction l with
    | nil => simp
    | cons x l ih =>
      rw [List.map_cons, List.sum_cons, ih, List.length_cons, Nat.succ_mul, toBytes, List.length_map, List.length_range]
      omega
  rw [this, blocks_length]

end Family

/-- FIPS 180-4 examples. -/
example : ofBytes (sha256Family.hash (utf8 (str% "abc"))) = 0xba7816bf8f01cfea414140de5dae2223b00361a396177a9cb410ff61f20015ad := by
  decide +kernel
example : ofBytes (sha256Family.hash (utf8 (str% "abcdbcdecdefdefgefghfghighijhijkijkljklmklmnlmnomnopnopq"))) =
    0x248d6a61d20638b8e5c026930c3e6039a33ce45964ff2167f6ecedd419db06c1 := by decide +kernel
example : ofBytes (sha512Family.hash (utf8 (str% "abc"))) = 0xddaf35a193617abacc417349ae20413112e6fa4e89a97ea20a9eeee64b55d39a2192992a274fc1a836ba3c23a3feebbd454d4423643ce80e2a9ac94fa54ca49f := by
  decide +kernel
/-- RFC 4231, test case 2. -/
example : ofBytes (sha256Family.hmac (utf8 (str% "Jefe")) (utf8 (str% "what do ya want for nothing?"))) =
    0x5bdcc146bf60754e6a042426089575c75a003f089d2739839dec58b964ec3843 := by decide +kernel

end Httpsig.Sha2
