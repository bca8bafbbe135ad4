import Verif.Lemmas.Trace
import Verif.Props.Logging
import Verif.Lemmas.Calls2
/-
C118: signing and verification with trace records on.
-/
set_option linter.unusedSectionVars false
namespace Httpsig
open Sfv
section
variable [Deps]

/-- C118. Verification at level trace has the result of verification without a logger; in particular the conversions inside the trace
messages do not panic. -/
theorem C118_verify {R Rem : Type} [ServerRequestLike R Rem] (f : Fmt) (req : R) (config : VerifyingConfig) (env : VerifyEnv) :
    (verifyTraced f req config env).result = verify req config env := by
  rw [← C116_result f]
  rcases verifyWith_shift (f := f) req (fun c => (tracedCanon_spec f req c).1) config env with ⟨h, _⟩ | ⟨_, _, h, _⟩
  · exact congrArg _ h
  · exact h

/-- C118. The records are those at level info, after the trace records for the canonicalization of the request, if it comes to that. -/
theorem C118_records {R Rem : Type} [ServerRequestLike R Rem] (f : Fmt) (req : R) (config : VerifyingConfig) (env : VerifyEnv) :
    (verifyTraced f req config env).records = (verifyLogged f req config env).records ∨
    ∃ c t, InputRead req c ∧ VerifyTrace f (canonicalize req c) t ∧
      (verifyTraced f req config env).records = t ++ (verifyLogged f req config env).records := by
  rcases verifyWith_shift (f := f) req (fun c => (tracedCanon_spec f req c).1) config env with ⟨h, _⟩ | ⟨c, h1, _, h2⟩
  · exact .inl (congrArg _ h)
  · exact .inr ⟨c, _, h1, (tracedCanon_spec f req c).2, h2⟩

/-- C118. For an accepted request the trace shows, exactly, the string against which the signature was verified. -/
theorem C118_accepted {R Rem : Type} [ServerRequestLike R Rem] (f : Fmt) (req : R) (config : VerifyingConfig) (env : VerifyEnv)
    (rem : Rem) (k : Str) (h : verify req config env = .ok (.ok (rem, k))) :
    ∃ c sig s si, SignatureOk req config env c sig k (utf8 s) ∧ canonicalize req c = .ok (.ok (utf8 s, si)) ∧
      (verifyTraced f req config env).records = [str% "Signature Base [u8]: " ++ debugBytes (utf8 s), str% "Signature Base String: " ++ s,
        str% "SignatureInut: " ++ f.debugInput si, str% "Verifying SignatureString: " ++ s] := by
  obtain ⟨c, sig, base, hs, -⟩ := verify_ok_iff.1 h
  have hq := (C116_accepted f req config env).1 _ h
  have hr := C116_result f req config env
  rcases verifyWith_shift (f := f) req (fun c => (tracedCanon_spec f req c).1) config env with ⟨_, h1⟩ | ⟨c', h1, _, h2⟩
  · exact absurd (hr.trans h) (h1 _)
  obtain ⟨v, hv, hc⟩ := hs.input
  obtain ⟨v', hv', hc'⟩ := h1
  rw [hv] at hv'
  cases hv'
  rw [hc] at hc'
  cases hc'
  obtain ⟨si, hsi⟩ := hs.canon
  have ht := (tracedCanon_spec f req c).2
  rw [hq, List.append_nil] at h2
  rw [← h2] at ht
  rw [hsi] at ht
  unfold verifyTraced
  generalize (verifyWith f (tracedCanon f) req config env).records = ms at ht ⊢
  cases ht
  exact ⟨c, sig, _, si, hs, hsi, rfl⟩

/-- C118. Signing at level trace does what signing does. -/
theorem C118_sign {R : Type} [ClientRequestLike R] (f : Fmt) (req : R) (config : SigningConfig) (env : SignEnv) :
    (signTraced f req config env).result = sign req config env := by
  unfold signTraced sign
  cases addAutoHeaders req config env with
  | error p => rfl
  | ok o =>
  obtain ⟨req, cs⟩ := o
  simp only [Logged.bind_lift_ok, ebind_ok]
  cases unixTimestamp env.sysNow with
  | error p => rfl
  | ok ts =>
  simp only [Logged.bind_lift_ok, ebind_ok]
  cases buildCanonicalizeConfig config cs ts with
  | error e => rfl
  | ok cc =>
  simp only
  have h := (canonTraced f req cc).1
  generalize canonicalize req cc = y at h ⊢
  generalize canonicalizeTraced f req cc = x at h ⊢
  obtain ⟨l, r⟩ := x
  cases h
  cases r with
  | error p => rfl
  | ok o =>
  simp only [Logged.bind_mk_ok, ebind_ok]
  cases o with
  | error e => rfl
  | ok o =>
  obtain ⟨base, si⟩ := o
  simp only
  cases si.display with
  | error p => rfl
  | ok v =>
  simp only [Logged.bind_lift_ok, ebind_ok]
  cases HeaderValue.fromStr v with
  | none => rfl
  | some v =>
  simp only
  cases HeaderValue.fromStr (config.label ++ str% "=:" ++ config.signature.sign env.rnd base ++ str% ":") <;> rfl

/-- C118. For a signed request the trace shows, exactly, the string that was signed. -/
theorem C118_signed {R : Type} [ClientRequestLike R] [LawfulClient R] (f : Fmt) (r r' : R) (config : SigningConfig) (env : SignEnv)
    (h : sign r config env = .ok (r', .ok ())) :
    ∃ s si v r0, SignedBase r r' config (env.sysNow / 1000000000) (utf8 s) ∧
      (signTraced f r config env).records = [str% "Signature Base [u8]: " ++ debugBytes (utf8 s),
        str% "Signature Base String: " ++ s, str% "SignatureInut: " ++ f.debugInput si] ∧
      HeaderValue.fromStr (config.label ++ str% "=:" ++ config.signature.sign env.rnd (utf8 s) ++ str% ":") = some v ∧
      r' = ClientRequestLike.setHeader r0 hSignature v := by
  have h0 := C118_sign f r config env
  rw [h] at h0
  clear h
  unfold signTraced at h0 ⊢
  cases h1 : addAutoHeaders r config env with
  | error p => rw [h1] at h0; cases h0
  | ok o =>
  obtain ⟨req, cs⟩ := o
  rw [h1] at h0
  simp only [Logged.bind_lift_ok] at h0 ⊢
  cases h2 : unixTimestamp env.sysNow with
  | error p => rw [h2] at h0; cases h0
  | ok ts =>
  rw [h2] at h0
  have hts : ts = env.sysNow / 1000000000 := by
    unfold unixTimestamp at h2
    split at h2 <;> cases h2
    rfl
  subst hts
  simp only [Logged.bind_lift_ok] at h0 ⊢
  cases h3 : buildCanonicalizeConfig config cs (env.sysNow / 1000000000) with
  | error e => rw [h3] at h0; cases h0
  | ok cc =>
  rw [h3] at h0
  simp only at h0 ⊢
  obtain ⟨hr, ht⟩ := canonTraced f req cc
  have hbase := fun base si => signedBase_of (base := base) (input := si) h1 h3
  generalize canonicalize req cc = y at hr ht hbase
  generalize canonicalizeTraced f req cc = x at hr ht h0 ⊢
  obtain ⟨l, res⟩ := x
  cases hr
  cases ht with
  | panic => cases h0
  | missing => cases h0
  | @base s si =>
  simp only [Logged.bind_mk_ok] at h0 ⊢
  cases h4 : si.display with
  | error p => rw [h4] at h0; cases h0
  | ok x =>
  rw [h4] at h0
  simp only [Logged.bind_lift_ok] at h0 ⊢
  cases h5 : HeaderValue.fromStr x with
  | none => rw [h5] at h0; cases h0
  | some v =>
  rw [h5] at h0
  simp only at h0 ⊢
  cases h6 : HeaderValue.fromStr (config.label ++ str% "=:" ++ config.signature.sign env.rnd (utf8 s) ++ str% ":") with
  | none => rw [h6] at h0; cases h0
  | some w =>
  rw [h6] at h0
  cases h0
  exact ⟨s, si, w, _, hbase _ _ rfl _ (.inr (.inr ⟨v, w, rfl⟩)), rfl, h6, rfl⟩

end

/-! ### Examples -/
attribute [local instance] toyDeps

/-- C118_accepted: an accepted request, with its records after the first. The second has a line break. -/
example : verify exSigned exVerifying exEnv = .ok (.ok ((), str% "k1")) := rfl
set_option maxRecDepth 10000 in
example : (verifyTraced exFmt exSigned exVerifying exEnv).records.tail =
    [str% "Signature Base String: \"@method\": POST\n\"host\": example.com\n\"digest\": MD5=abc, TOY = aGVsbG8= \n\"@signature-params\": (\"@method\" \"host\" \"digest\");alg=\"toy\";created=100;expires=200;keyid=\"k1\";date=150",
     str% "SignatureInut: SignatureInput { label: \"sig\", list: ComponentList { inner: InnerList { items: [Item { bare_item: String(\"@method\"), params: {} }, Item { bare_item: String(\"host\"), params: {} }, Item { bare_item: String(\"digest\"), params: {} }], params: {\"alg\": String(\"toy\"), \"created\": Integer(100), \"expires\": Integer(200), \"keyid\": String(\"k1\"), \"date\": Integer(150)} } } }",
     str% "Verifying SignatureString: \"@method\": POST\n\"host\": example.com\n\"digest\": MD5=abc, TOY = aGVsbG8= \n\"@signature-params\": (\"@method\" \"host\" \"digest\");alg=\"toy\";created=100;expires=200;keyid=\"k1\";date=150"] := by decide +kernel

/-- C118_records: rejected before and after canonicalization. -/
example : (verifyTraced exFmt (exMock [] none) exVerifying exEnv).records = [str% "Verification Failed: No 'Signature-Input' header"] ∧
    (verifyTraced exFmt (exWithInput ⟨utf8 (str% "sig=(\"x-y\");alg=\"toy\";keyid=\"k1\""), rfl⟩) exVerifying exEnv).records =
      [str% "CanonicalizeConfig is missing required components: [Header(\"x-y\")]",
       str% "Canonicalization Failed: Missing components required for signature: [Header(\"x-y\")]"] := ⟨rfl, rfl⟩

/-- C118_signed: the hypothesis, and the second record. -/
example : sign exReqwest exSigning exSignEnv = .ok (exReqwestSigned, .ok ()) := rfl
set_option maxRecDepth 10000 in
example : (signTraced exFmt exReqwest exSigning exSignEnv).records[1]? =
    some (str% "Signature Base String: \"@method\": POST\n\"host\": example.com\n\"digest\": TOY=aGVsbG8=\n\"date\": Thu, 01 Jan 1970 00:02:30 GMT\n\"@signature-params\": (\"@method\" \"host\" \"digest\" \"date\");alg=\"toy\";created=150;expires=210;keyid=\"k1\";nonce=n1") := by decide +kernel

end Httpsig
