import Verif.Spec.Trace
import Verif.Lemmas.Logging2
import Verif.Lemmas.Reader
/- Trace records do not change what signing and verification do. -/
set_option linter.unusedSectionVars false
namespace Httpsig
open Sfv
variable [Deps]

theorem traceText_utf8 (s : Str) : traceText (utf8 s) = .ok s := by rw [traceText, utf8Decode_utf8]

theorem canonTraced {R : Type} [RequestLike R] (f : Fmt) (req : R) (c : CanonicalizeConfig) :
    (canonicalizeTraced f req c).result = canonicalize req c ∧ CanonTrace f (canonicalize req c) (canonicalizeTraced f req c).records := by
  unfold canonicalizeTraced canonicalize
  cases h1 : deriveAll req c.components with
  | error p => exact ⟨rfl, .panic⟩
  | ok o =>
    obtain ⟨found, missing⟩ := o
    rw [Logged.bind_lift_ok, ebind_ok]
    simp only
    by_cases hm : missing ≠ []
    · rw [if_pos hm, if_pos hm]
      exact ⟨rfl, .missing⟩
    · rw [if_neg hm, if_neg hm]
      cases h2 : c.toSignatureInput.list.display with
      | error p => exact ⟨rfl, .panic⟩
      | ok sp =>
        rw [Logged.bind_lift_ok, ebind_ok]
        cases h3 : ((found ++ [(SignatureComponent.derived (.new atSignatureParams), sp)]).mapM baseLine : P _) with
        | error p => exact ⟨rfl, .panic⟩
        | ok lines =>
          rw [Logged.bind_lift_ok, ebind_ok, traceText_utf8]
          exact ⟨rfl, .base⟩

theorem tracedCanon_spec {R : Type} [RequestLike R] (f : Fmt) (req : R) (c : CanonicalizeConfig) :
    (tracedCanon f req c).result = canonicalize req c ∧ VerifyTrace f (canonicalize req c) (tracedCanon f req c).records := by
  obtain ⟨h1, h2⟩ := canonTraced f req c
  unfold tracedCanon
  generalize canonicalizeTraced f req c = x at h1 h2
  generalize canonicalize req c = y at h1 h2
  obtain ⟨l, r⟩ := x
  cases h1
  cases h2 with
  | panic => exact ⟨rfl, .panic⟩
  | missing => exact ⟨rfl, .missing⟩
  | base =>
    rw [Logged.bind_mk_ok]
    simp only [traceText_utf8, Logged.bind_lift_ok]
    exact ⟨rfl, .base⟩

variable {R Rem : Type} [ServerRequestLike R Rem]

/-- The same computation with the records `t` put in front, or the same altogether and without success. -/
inductive Prefixed {α : Type} (T : List Str → Prop) (x y : Logged (Option α)) : Prop
  | same : x = y → (∀ a, y.result ≠ .ok (some a)) → Prefixed T x y
  | front {t : List Str} : T t → x.result = y.result → x.records = t ++ y.records → Prefixed T x y

theorem signatureOnlyWith {f : Fmt} {canon : R → CanonicalizeConfig → Logged (Except Error (Bytes × SignatureInput))} (req : R)
    (hc : ∀ c, (canon req c).result = canonicalize req c) (config : VerifyingConfig) (env : VerifyEnv) :
    Prefixed (fun t => ∃ c, InputRead req c ∧ t = (canon req c).records) (verifySignatureOnlyWith f canon req config env)
      (verifySignatureOnlyLogged f req config env) := by
  unfold verifySignatureOnlyLogged verifySignatureOnlyWith
  cases h1 : RequestLike.derive req (.header hSignatureInput) with
  | error p => exact .same rfl fun _ h => nomatch h
  | ok o1 =>
  cases o1 with
  | none => exact .same rfl fun _ h => nomatch h
  | some iv =>
  simp only [Logged.bind_lift_ok]
  obtain ⟨hl, hl'⟩ := fromSignatureInputLogged_result iv
  cases h2 : CanonicalizeConfig.fromSignatureInput iv with
  | error p =>
    rw [h2] at hl
    generalize CanonicalizeConfig.fromSignatureInputLogged iv = x at hl
    obtain ⟨l, r⟩ := x
    cases hl
    exact .same rfl fun _ h => nomatch h
  | ok o2 =>
  cases o2 with
  | error e =>
    rw [h2] at hl
    generalize CanonicalizeConfig.fromSignatureInputLogged iv = x at hl
    obtain ⟨l, r⟩ := x
    cases hl
    exact .same rfl fun _ h => nomatch h
  | ok c =>
  rw [hl' c h2]
  simp only [Logged.bind_mk_ok, List.nil_append]
  cases h3 : RequestLike.derive req (.header hSignature) with
  | error p => exact .same rfl fun _ h => nomatch h
  | ok o3 =>
  cases o3 with
  | none => exact .same rfl fun _ h => nomatch h
  | some sv =>
  simp only [Logged.bind_lift_ok]
  unfold parseSignatureHeaderLogged
  cases parseSignatureHeader sv with
  | none => exact .same rfl fun _ h => nomatch h
  | some x =>
  obtain ⟨sl, sig⟩ := x
  simp only [Logged.bind_pure]
  by_cases hlab : c.getLabel ≠ sl
  · simp only [if_pos hlab]; exact .same rfl fun _ h => nomatch h
  simp only [if_neg hlab]
  cases c.keyid with
  | none => exact .same rfl fun _ h => nomatch h
  | some keyId =>
  cases c.alg with
  | none => exact .same rfl fun _ h => nomatch h
  | some alg =>
  simp only
  cases unixTimestamp env.sysNow with
  | error p => exact .same rfl fun _ h => nomatch h
  | ok ts =>
  simp only [Logged.bind_lift_ok]
  by_cases h4 : createdInFuture c ts = true
  · simp only [if_pos h4]; exact .same rfl fun _ h => nomatch h
  simp only [if_neg h4]
  by_cases h5 : alreadyExpired c ts = true
  · simp only [if_pos h5]; exact .same rfl fun _ h => nomatch h
  simp only [if_neg h5]
  by_cases h6 : (config.keyProvider keyId).isEmpty = true
  · simp only [if_pos h6]; exact .same rfl fun _ h => nomatch h
  simp only [if_neg h6]
  refine .front ⟨c, ⟨iv, h1, h2⟩, rfl⟩ ?_ ?_
  all_goals
    have hcc := hc c
    unfold plainCanon
    generalize canonicalize req c = y at hcc ⊢
    generalize canon req c = x at hcc ⊢
    obtain ⟨l, r⟩ := x
    cases hcc
    cases r with
    | error p => first | rfl | exact (List.append_nil l).symm
    | ok y => rfl

/-- `x` is `y` with the records `t` in front. -/
def Shifted {α : Type} (t : List Str) (x y : Logged α) : Prop := x.result = y.result ∧ x.records = t ++ y.records

theorem Shifted.bind {α β : Type} {t : List Str} {x y : Logged α} (h : Shifted t x y) (g : α → Logged β) :
    Shifted t (x >>= g) (y >>= g) := by
  obtain ⟨l, r⟩ := x
  obtain ⟨l', r'⟩ := y
  obtain ⟨h1, h2⟩ := h
  cases h1
  cases h2
  cases r with
  | error p => exact ⟨rfl, rfl⟩
  | ok a => exact ⟨rfl, List.append_assoc ..⟩

theorem Prefixed.bind {α β : Type} {T : List Str → Prop} {x y : Logged (Option α)} (h : Prefixed T x y) (g : Option α → Logged β)
    {P : β → Prop} (hg : ∀ b, (g none).result = .ok b → ¬ P b) :
    (x >>= g = y >>= g ∧ ∀ b, (y >>= g).result = .ok b → ¬ P b) ∨ ∃ t, T t ∧ Shifted t (x >>= g) (y >>= g) := by
  cases h with
  | same h1 h2 =>
    left
    subst h1
    refine ⟨rfl, fun b hb => ?_⟩
    obtain ⟨l, r⟩ := x
    cases r with
    | error p => cases hb
    | ok o =>
      cases o with
      | some a => exact absurd rfl (h2 a)
      | none => exact hg b hb
  | front ht h1 h2 => exact .inr ⟨_, ht, Shifted.bind ⟨h1, h2⟩ g⟩

theorem Prefixed.elim {α : Type} {T : List Str → Prop} {x y : Logged (Option α)}
    (h : (x = y ∧ ∀ b, y.result = .ok b → ¬ ∃ k, b = some k) ∨ ∃ t, T t ∧ Shifted t x y) : Prefixed T x y := by
  rcases h with ⟨h1, h2⟩ | ⟨t, h1, h2, h3⟩
  · exact .same h1 fun a h => h2 _ h ⟨a, rfl⟩
  · exact .front h1 h2 h3

theorem Prefixed.elim' {α β γ : Type} {A : γ → Prop} {F : γ → List Str} {x y : Logged (Except α β)}
    (h : (x = y ∧ ∀ b, y.result = .ok b → ¬ ∃ k, b = .ok k) ∨ ∃ t, (∃ c, A c ∧ t = F c) ∧ Shifted t x y) :
    (x = y ∧ ∀ r, y.result ≠ .ok (.ok r)) ∨ ∃ c, A c ∧ Shifted (F c) x y := by
  rcases h with ⟨h1, h2⟩ | ⟨t, ⟨c, h1, rfl⟩, h3⟩
  · exact .inl ⟨h1, fun a h => h2 _ h ⟨a, rfl⟩⟩
  · exact .inr ⟨c, h1, h3⟩

theorem exceptDigestWith {f : Fmt} {canon : R → CanonicalizeConfig → Logged (Except Error (Bytes × SignatureInput))} (req : R)
    (hc : ∀ c, (canon req c).result = canonicalize req c) (config : VerifyingConfig) (env : VerifyEnv) :
    Prefixed (fun t => ∃ c, InputRead req c ∧ t = (canon req c).records) (verifyExceptDigestWith f canon req config env)
      (verifyExceptDigestLogged f req config env) := by
  unfold verifyExceptDigestLogged verifyExceptDigestWith
  refine Prefixed.elim ((signatureOnlyWith req hc config env).bind _ (P := fun o => ∃ k, o = some k) ?_)
  intro b h; cases h; exact fun ⟨_, h⟩ => nomatch h

theorem verifyWith_shift {f : Fmt} {canon : R → CanonicalizeConfig → Logged (Except Error (Bytes × SignatureInput))} (req : R)
    (hc : ∀ c, (canon req c).result = canonicalize req c) (config : VerifyingConfig) (env : VerifyEnv) :
    (verifyWith f canon req config env = verifyLogged f req config env ∧ ∀ r, (verifyLogged f req config env).result ≠ .ok (.ok r)) ∨
    ∃ c, InputRead req c ∧ Shifted (canon req c).records (verifyWith f canon req config env) (verifyLogged f req config env) := by
  unfold verifyLogged verifyWith
  refine Prefixed.elim' ((exceptDigestWith req hc config env).bind _ (P := fun o => ∃ k, o = Except.ok k) ?_)
  intro b h; cases h; exact fun ⟨_, h⟩ => nomatch h

end Httpsig
