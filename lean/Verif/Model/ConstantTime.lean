import Verif.Model.Verifying
/-
The comparisons of digests and of HMAC tags as the crates `subtle` 2.5 and `digest` 0.10 carry them out, with what an observer of
time can learn from them: every branch that is taken and every element of an array that is read (not the values of the elements).
-/
namespace Httpsig
open Sfv

/-- What can be observed while a comparison runs: the outcome of a branch, and the index of an element that is read from the left or
the right array. -/
inductive Event where
  | branch (taken : Bool)
  | left (i : Nat)
  | right (i : Nat)
deriving DecidableEq, Repr

/-- A computation and what is observed of it. -/
structure Leaky (α : Type) where
  value : α
  leak : List Event

instance : Monad Leaky where
  pure a := ⟨a, []⟩
  bind m f := ⟨(f m.value).value, m.leak ++ (f m.value).leak⟩

/-- Something is observed. -/
def observed (e : Event) : Leaky Unit := ⟨(), [e]⟩

/-- `ConstantTimeEq for u8` of subtle: exclusive or, then whether any bit is set, without a branch. -/
def ctEqByte (a b : UInt8) : UInt8 :=
  let x := a ^^^ b
  let y := (x ||| (0 - x)) >>> 7
  y ^^^ 1

/-- The loop of `ConstantTimeEq for [T]` of subtle: `x` holds 1 as long as all elements were equal. -/
def ctLoop (i : Nat) (x : UInt8) : Bytes → Bytes → Leaky UInt8
  | a :: as, b :: bs => do
    observed (.branch true)
    observed (.left i)
    observed (.right i)
    ctLoop (i + 1) (x &&& ctEqByte a b) as bs
  | _, _ => do
    observed (.branch false)
    return x

/-- `ConstantTimeEq for [T]` of subtle, called in src/verifying.rs:593-596. -/
def ctEq (a b : Bytes) : Leaky UInt8 := do
  observed (.branch (a.length ≠ b.length))
  if a.length ≠ b.length then return 0 else ctLoop 0 1 a b

/-- `From<Choice> for bool` of subtle. -/
def choiceBool (x : UInt8) : Bool := x != 0

/-- `Mac::verify_slice` of digest, called in src/algorithm.rs:86, with the result of `is_ok`: `n` is the size of the tags of the
hash function and `mac` the right tag. -/
def verifySlice (n : Nat) (mac tag : Bytes) : Leaky Bool := do
  observed (.branch (tag.length ≠ n))
  if tag.length ≠ n then return false else
    let x ← ctEq mac tag
    observed (.branch (choiceBool x))
    return choiceBool x

/-- `http_verify` of the HMAC types, src/algorithm.rs:79-87. What the base64 decoder does depends on the signature alone and is left
out, and so is the computation of the right tag. -/
def hmacCheck (n : Nat) (mac : Bytes → Bytes) (msg : Bytes) (signature : Str) : Leaky Bool :=
  match Base64.strictDecode signature with
  | none => do observed (.branch false); return false
  | some tag => do
    observed (.branch true)
    verifySlice n (mac msg) tag

section
variable [Deps] {R Rem : Type} [ServerRequestLike R Rem]

/-- The guard of the match on the computed digest, src/verifying.rs:592-596. -/
def digestGuard (provided expected : Str) : Leaky Bool := do
  let x ← ctEq (utf8 provided) (utf8 expected)
  observed (.branch (choiceBool x))
  return choiceBool x

/-- `verify`, src/verifying.rs:556-638, with the comparison of digests as it is carried out and what is observed of it. -/
def verifyObserved (req : R) (config : VerifyingConfig) (env : VerifyEnv) : P (Leaky (Except Rem (Rem × Str))) := do
  match ← verifyExceptDigest req config env with
  | none => return pure (.error (ServerRequestLike.complete req))
  | some keyId =>
    match ← RequestLike.derive req (.header hDigest) with
    | some digestValue =>
      if config.validateDigest then
        match selectDigest config.digestProvider digestValue with
        | some (alg, provided) =>
          let (maybe, rem) := ServerRequestLike.completeWithDigest req alg
          match maybe with
          | some expected => return do
            let ok ← digestGuard provided expected
            if ok then return .ok (rem, keyId) else return .error rem
          | none => return pure (.error rem)
        | none => return pure (.error (ServerRequestLike.complete req))
      else return pure (.ok (ServerRequestLike.complete req, keyId))
    | none =>
      if config.requireDigest then
        let (maybe, rem) := ServerRequestLike.completeWithDigest req defaultDigest
        if maybe.isSome then return pure (.error rem) else return pure (.ok (rem, keyId))
      else return pure (.ok (ServerRequestLike.complete req, keyId))

end
end Httpsig
