import Verif.Model.ConstantTime
import Verif.Model.Mock
import Verif.Lemmas.Total
import Verif.Spec.TestDeps
import Verif.Spec.Example
/-
C128: comparing digests and HMAC tags gives the right answer and shows nothing but lengths and the answer.
-/
set_option linter.unusedSectionVars false
namespace Httpsig
open Sfv

@[simp] theorem Leaky.value_bind {α β : Type} (m : Leaky α) (f : α → Leaky β) : (m >>= f).value = (f m.value).value := rfl
@[simp] theorem Leaky.leak_bind {α β : Type} (m : Leaky α) (f : α → Leaky β) : (m >>= f).leak = m.leak ++ (f m.value).leak := rfl
@[simp] theorem Leaky.value_pure {α : Type} (a : α) : (pure a : Leaky α).value = a := rfl
@[simp] theorem Leaky.leak_pure {α : Type} (a : α) : (pure a : Leaky α).leak = [] := rfl
@[simp] theorem observed_leak (e : Event) : (observed e).leak = [e] := rfl

theorem anyBit : ∀ x : UInt8, (x ||| (0 - x)) >>> 7 ^^^ 1 = if x = 0 then 1 else 0 := by
  have : ∀ n : Fin 256, (UInt8.ofFin n ||| (0 - UInt8.ofFin n)) >>> 7 ^^^ 1 = if UInt8.ofFin n = 0 then 1 else 0 := by decide +kernel
  intro x
  exact this x.toFin

theorem ctEqByte_eq (a b : UInt8) : ctEqByte a b = if a = b then 1 else 0 := by
  unfold ctEqByte
  rw [anyBit]
  simp [UInt8.xor_eq_zero_iff]

theorem ctLoop_value : ∀ (a b : Bytes) (i : Nat) (x : UInt8), x = 0 ∨ x = 1 → a.length = b.length →
    (ctLoop i x a b).value = if a = b then x else 0
  | [], [], i, x, _, _ => by simp [ctLoop]
  | a :: as, b :: bs, i, x, hx, h => by
    have hl : as.length = bs.length := by simpa using h
    simp only [ctLoop, Leaky.value_bind]
    rw [ctEqByte_eq]
    by_cases hab : a = b
    · rw [if_pos hab, ctLoop_value as bs _ _ (by rcases hx with rfl | rfl <;> decide) hl]
      rcases hx with rfl | rfl <;> simp [hab]
    · rw [if_neg hab, ctLoop_value as bs _ _ (by rcases hx with rfl | rfl <;> decide) hl]
      rcases hx with rfl | rfl <;> simp [hab]
  | [], _ :: _, _, _, _, h => by simp at h
  | _ :: _, [], _, _, _, h => by simp at h

theorem ctEq_value (a b : Bytes) : choiceBool (ctEq a b).value = decide (a = b) := by
  simp only [ctEq, Leaky.value_bind]
  split
  · rename_i h
    have : a ≠ b := fun e => h (e ▸ rfl)
    simp [choiceBool, this]
  · rename_i h
    rw [ctLoop_value a b 0 1 (.inr rfl) (by simpa using h)]
    by_cases e : a = b <;> simp [e, choiceBool]

/-- The leak of the loop over arrays of length `n`. -/
def loopLeak : Nat → Nat → List Event
  | _, 0 => [.branch false]
  | i, n + 1 => .branch true :: .left i :: .right i :: loopLeak (i + 1) n

theorem ctLoop_leak : ∀ (a b : Bytes) (i : Nat) (x : UInt8), a.length = b.length → (ctLoop i x a b).leak = loopLeak i a.length
  | [], [], i, x, _ => by simp [ctLoop, loopLeak]
  | a :: as, b :: bs, i, x, h => by
    simp [ctLoop, loopLeak, ctLoop_leak as bs (i + 1) _ (by simpa using h)]
  | [], _ :: _, _, _, h => by simp at h
  | _ :: _, [], _, _, h => by simp at h

theorem ctEq_leak (a b : Bytes) : (ctEq a b).leak =
    .branch (decide (a.length ≠ b.length)) :: if a.length = b.length then loopLeak 0 a.length else [] := by
  simp only [ctEq, Leaky.leak_bind, observed_leak]
  by_cases h : a.length = b.length
  · simp [h, ctLoop_leak a b 0 1 h]
  · simp [h]

/-- C128, HMAC: the comparison as it is carried out accepts exactly the signatures that are the base 64 of the right tag. -/
theorem C128_hmac_value {n : Nat} {mac : Bytes → Bytes} (hn : ∀ m, (mac m).length = n) (name : Str) (msg : Bytes) (signature : Str) :
    (hmacCheck n mac msg signature).value = (hmacVerify name mac).verify msg signature := by
  unfold hmacCheck hmacVerify
  simp only [b64Verify]
  cases Base64.strictDecode signature with
  | none => rfl
  | some tag =>
    simp only [Leaky.value_bind, verifySlice]
    split
    · rename_i h
      have : tag ≠ mac msg := fun e => h (by rw [e, hn])
      simp [this]
    · simp only [Leaky.value_bind, Leaky.value_pure, ctEq_value]
      exact decide_eq_decide.2 eq_comm

/-- C128, HMAC: what is observed is a function of the size of the presented tag (if the signature is base 64 at all) and of the
answer. So it is the same for all keys, all messages and all presented tags of that size that get the same answer. -/
theorem C128_hmac_leak (n : Nat) : ∃ f : Option Nat → Bool → List Event, ∀ (mac : Bytes → Bytes) (msg : Bytes) (signature : Str),
    (∀ m, (mac m).length = n) → (hmacCheck n mac msg signature).leak =
      f ((Base64.strictDecode signature).map List.length) (hmacCheck n mac msg signature).value := by
  refine ⟨fun size ok => match size with
    | none => [.branch false]
    | some k => if k = n then .branch true :: .branch false :: .branch false :: (loopLeak 0 n ++ [.branch ok]) else
      [.branch true, .branch true], fun mac msg signature hn => ?_⟩
  unfold hmacCheck
  cases Base64.strictDecode signature with
  | none => rfl
  | some tag =>
    by_cases h : tag.length = n
    · simp [verifySlice, h, ctEq_leak, hn]
    · simp [verifySlice, h]

section
variable [Deps] {R Rem : Type} [ServerRequestLike R Rem]

theorem digestGuard_value (provided expected : Str) : (digestGuard provided expected).value = decide (utf8 provided = utf8 expected) := by
  simp [digestGuard, ctEq_value]

/-- C128, digests: `verify` with the comparison as it is carried out gives the same results. -/
theorem C128_verify_value (req : R) (config : VerifyingConfig) (env : VerifyEnv) :
    (verifyObserved req config env).map Leaky.value = verify req config env := by
  unfold verifyObserved verify
  cases verifyExceptDigest req config env with
  | error p => rfl
  | ok o =>
    cases o with
    | none => rfl
    | some keyId =>
      simp only [bind, Except.bind]
      cases RequestLike.derive req (.header hDigest) with
      | error p => rfl
      | ok o =>
        cases o with
        | none =>
          simp only []
          split
          · split <;> rfl
          · rfl
        | some v =>
          simp only []
          split
          · cases selectDigest config.digestProvider v with
            | none => rfl
            | some e =>
              obtain ⟨alg, provided⟩ := e
              simp only []
              cases (ServerRequestLike.completeWithDigest req alg).1 with
              | none => rfl
              | some expected =>
                simp only [pure, Except.pure, Except.map, digestGuard_value, decide_eq_true_eq]
                split <;> rfl
          · rfl

theorem verifyExceptDigest_same {r s : R} (hd : ∀ k, RequestLike.derive r k = RequestLike.derive s k) (config : VerifyingConfig)
    (env : VerifyEnv) : verifyExceptDigest r config env = verifyExceptDigest s config env := by
  have hsig : verifySignatureOnly r config env = verifySignatureOnly s config env := by
    unfold verifySignatureOnly
    simp only [hd, canonicalize_congr (r := r) (s := s) fun k _ => hd k]
  unfold verifyExceptDigest
  rw [hsig]

/-- The answer of a verification, without the rest of the request. -/
def isAccepted {α β : Type} : Except α β → Bool
  | .ok _ => true
  | .error _ => false

/-- C128, digests: what is observed of the comparison of digests is the same for all requests that differ in their bodies only, have
digests of the same size (or none), and get the same answer. -/
theorem C128_verify_leak (r s : R) (config : VerifyingConfig) (env : VerifyEnv)
    (hd : ∀ k, RequestLike.derive r k = RequestLike.derive s k)
    (hs : ∀ name d, config.digestProvider name = some d → (ServerRequestLike.completeWithDigest r d).1.map (fun t => (utf8 t).length) =
      (ServerRequestLike.completeWithDigest s d).1.map fun t => (utf8 t).length)
    {x y : Leaky (Except Rem (Rem × Str))} (hx : verifyObserved r config env = .ok x)
    (hy : verifyObserved s config env = .ok y) (h : isAccepted x.value = isAccepted y.value) : x.leak = y.leak := by
  unfold verifyObserved at hx hy
  rw [← verifyExceptDigest_same hd, ← hd] at hy
  revert hx hy
  cases verifyExceptDigest r config env with
  | error p => intro hx; cases hx
  | ok o =>
    cases o with
    | none => intro hx hy; cases hx; cases hy; rfl
    | some keyId =>
      simp only [bind, Except.bind]
      cases RequestLike.derive r (.header hDigest) with
      | error p => intro hx; cases hx
      | ok o =>
        cases o with
        | none =>
          intro hx hy
          have hp : ∀ {q : R} {z : Leaky (Except Rem (Rem × Str))}, (if config.requireDigest = true then
              if (ServerRequestLike.completeWithDigest q defaultDigest).1.isSome = true then
                (pure (pure (.error (ServerRequestLike.completeWithDigest q defaultDigest).2)) : P (Leaky (Except Rem (Rem × Str))))
              else pure (pure (.ok ((ServerRequestLike.completeWithDigest q defaultDigest).2, keyId)))
              else pure (pure (.ok (ServerRequestLike.complete q, keyId)))) = .ok z → z.leak = [] := by
            intro q z hz
            split at hz
            · split at hz <;> cases hz <;> rfl
            · cases hz; rfl
          exact (hp hx).trans (hp hy).symm
        | some v =>
          simp only []
          split
          · cases hsel : selectDigest config.digestProvider v with
            | none => intro hx hy; cases hx; cases hy; rfl
            | some e =>
              obtain ⟨alg, provided⟩ := e
              have hlen : (ServerRequestLike.completeWithDigest r alg).1.map (fun t => (utf8 t).length) =
                  (ServerRequestLike.completeWithDigest s alg).1.map fun t => (utf8 t).length := by
                unfold selectDigest at hsel
                have := List.mem_of_head? hsel
                simp only [List.mem_filterMap] at this
                obtain ⟨part, _, hpart⟩ := this
                split at hpart
                · cases hpart
                · simp only [Option.map_eq_some_iff] at hpart
                  obtain ⟨d, hd, e⟩ := hpart
                  cases e
                  exact hs _ _ hd
              simp only []
              revert hlen
              cases (ServerRequestLike.completeWithDigest r alg).1 with
              | none =>
                cases (ServerRequestLike.completeWithDigest s alg).1 with
                | none => intro _ hx hy; cases hx; cases hy; rfl
                | some t => intro hl; cases hl
              | some t =>
                cases (ServerRequestLike.completeWithDigest s alg).1 with
                | none => intro hl; cases hl
                | some t' =>
                  intro hl hx hy
                  have hl : (utf8 t).length = (utf8 t').length := Option.some.inj hl
                  cases hx
                  cases hy
                  have hv : ∀ (u : Str) (rem : Rem), isAccepted (do
                      let ok ← digestGuard provided u
                      if ok = true then pure (.ok (rem, keyId)) else pure (.error rem) : Leaky (Except Rem (Rem × Str))).value =
                      (digestGuard provided u).value := by
                    intro u rem
                    rw [Leaky.value_bind]
                    cases (digestGuard provided u).value <;> rfl
                  have hk : ∀ (u : Str) (rem : Rem), (do
                      let ok ← digestGuard provided u
                      if ok = true then pure (.ok (rem, keyId)) else pure (.error rem) : Leaky (Except Rem (Rem × Str))).leak =
                      (digestGuard provided u).leak := by
                    intro u rem
                    rw [Leaky.leak_bind]
                    cases (digestGuard provided u).value <;> simp
                  have h := (hv t _).symm.trans (h.trans (hv t' _))
                  refine (hk t _).trans (.trans ?_ (hk t' _).symm)
                  unfold digestGuard at h ⊢
                  simp only [Leaky.value_bind, Leaky.value_pure] at h
                  simp only [Leaky.leak_bind, observed_leak, Leaky.leak_pure, ctEq_leak, hl, h]
          · intro hx hy; cases hx; cases hy; rfl

end

/-! ### Contrast and examples -/

/-- A comparison that stops at the first difference, as `==` on slices may. -/
def earlyLoop (i : Nat) : Bytes → Bytes → Leaky Bool
  | a :: as, b :: bs => do
    observed (.left i)
    observed (.right i)
    observed (.branch (a = b))
    if a = b then earlyLoop (i + 1) as bs else return false
  | as, bs => return as.isEmpty && bs.isEmpty

/-- C128, why it matters: of a comparison that stops at the first difference, the observer learns how many bytes of a guess are
right, so that nothing like C128_hmac_leak holds for it. -/
theorem C128_early_exit_leaks (p : Bytes) (a b : UInt8) (as bs : Bytes) (h : a ≠ b) (i : Nat) :
    (earlyLoop i (p ++ a :: as) (p ++ b :: bs)).value = false ∧
      (earlyLoop i (p ++ a :: as) (p ++ b :: bs)).leak.length = 3 * (p.length + 1) := by
  induction p generalizing i with
  | nil => simp [earlyLoop, h]
  | cons c p ih => simp [earlyLoop, ih (i + 1)]; omega

section
attribute [local instance] toyDeps

/-- The tags of the examples: the first byte of the message, three times. -/
def exTag : Bytes → Bytes := fun m => List.replicate 3 (m.headD 0)

/-- The hypothesis of C128_hmac_value and C128_hmac_leak, an accepted and two rejected signatures, and what is observed. -/
example : (∀ m, (exTag m).length = 3) ∧
    (hmacCheck 3 exTag [1, 2] (str% "AQEB")).value = true ∧ (hmacCheck 3 exTag [1, 2] (str% "AQEC")).value = false ∧
    (hmacCheck 3 exTag [1, 2] (str% "AgEB")).value = false ∧
    (hmacCheck 3 exTag [1, 2] (str% "AQEC")).leak = (hmacCheck 3 exTag [1, 2] (str% "AgEB")).leak ∧
    (hmacCheck 3 exTag [1, 2] (str% "AQEC")).leak = [.branch true, .branch false, .branch false, .branch true, .left 0, .right 0,
      .branch true, .left 1, .right 1, .branch true, .left 2, .right 2, .branch false, .branch false] :=
  ⟨fun m => by simp [exTag], by decide +kernel⟩

/-- The same two guesses with a comparison that stops at the first difference. -/
example : (earlyLoop 0 [1, 1, 1] [1, 1, 2]).leak ≠ (earlyLoop 0 [1, 1, 1] [2, 1, 1]).leak := by decide

/-- The hypotheses of C128_verify_leak: two bodies that do not match the signed digest, one in its first and one in its last letter;
all 27 events are the same. The right body is accepted. -/
example : ∃ x y z : Leaky (Except Unit (Unit × Str)),
    verifyObserved (exMock exSignedHeaders (some (utf8 (str% "Hello")))) exVerifying exEnv = .ok x ∧
    verifyObserved (exMock exSignedHeaders (some (utf8 (str% "hellO")))) exVerifying exEnv = .ok y ∧
    verifyObserved (exMock exSignedHeaders (some (utf8 (str% "hello")))) exVerifying exEnv = .ok z ∧
    isAccepted x.value = false ∧ isAccepted y.value = false ∧ isAccepted z.value = true ∧ x.leak = y.leak ∧ x.leak.length = 27 ∧
    x.leak ≠ z.leak :=
  ⟨_, _, _, rfl, rfl, rfl, rfl, rfl, rfl, rfl, rfl, by decide⟩
example : ∀ name d, exVerifying.digestProvider name = some d →
    ((ServerRequestLike.completeWithDigest (exMock exSignedHeaders (some (utf8 (str% "Hello")))) d).1.map fun t => (utf8 t).length) =
    ((ServerRequestLike.completeWithDigest (exMock exSignedHeaders (some (utf8 (str% "hellO")))) d).1.map fun t => (utf8 t).length) := by
  intro name d h
  simp only [exVerifying, VerifyingConfig.setValidateDate, VerifyingConfig.setDigestProvider] at h
  split at h
  · cases h; rfl
  · cases h

end

end Httpsig
