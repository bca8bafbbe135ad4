import Verif.Props.Forgery
import Verif.Props.Pipeline
/-
C120: requests that arrive with the signature headers they were given but other values, and signatures that cover the signature headers.
-/
set_option linter.unusedSectionVars false
namespace Httpsig
open Sfv
variable [Deps] {R S Rem : Type} [ClientRequestLike R] [LawfulClient R] [ServerRequestLike S Rem]

theorem values_at {T : Type} [RequestLike T] {t : T} {f : SignatureComponent → SignatureComponent} {g : SignatureComponent → Option Str} :
    ∀ {cs : List SignatureComponent} {vals : List Str}, Values t (cs.map f) vals → cs.map g = vals.map some →
      ∀ k ∈ cs, RequestLike.derive t (f k) = .ok (g k)
  | [], _, _, _ => by simp
  | c :: cs, vals, h1, h2 => by
    obtain ⟨v, vs, rfl, a, b⟩ := Values.cons_iff.1 h1
    simp only [List.map_cons, List.cons.injEq] at h2
    intro k hk
    rcases List.mem_cons.1 hk with rfl | hk
    · rw [a, h2.1]
    · exact values_at b h2.2 k hk

theorem values_forced {T : Type} [RequestLike T] {t : T} {f : SignatureComponent → SignatureComponent} {g : SignatureComponent → Option Str} :
    ∀ {cs : List SignatureComponent} {vals vals' : List Str}, Values t (cs.map f) vals' → cs.map g = vals.map some →
      (∀ k ∈ cs, RequestLike.derive t (f k) = .ok (g k)) → vals' = vals
  | [], vals, vals', h1, h2, _ => by
    cases vals with
    | nil => exact Values.nil_iff.1 h1
    | cons _ _ => cases h2
  | c :: cs, vals, vals', h1, h2, h => by
    obtain ⟨v, vs, rfl, a, b⟩ := Values.cons_iff.1 h1
    cases vals with
    | nil => cases h2
    | cons w ws =>
      simp only [List.map_cons, List.cons.injEq] at h2
      rw [values_forced b h2.2 fun k hk => h k (by simp [hk])]
      have := h c (by simp)
      rw [a, h2.1] at this
      cases this
      rfl

/-- C120. A signed request arrives with the two headers of the signature and some value for each covered component. Then it is accepted
exactly under the conditions of C06, with the signature checked against a text that is the signed text exactly if each covered component
has the value that was signed. -/
theorem C120_exact (e : SigningEvent R) (he : e.Careful) (hp : Portable e.config e.env.rnd) (req : S)
    (harr : Arrived e.before e.after e.config req) :
    ∃ base base', e.Base base ∧ CheckedBase req base' ∧ (base' = base ↔ Received e.before e.after e.config req) ∧
      ∀ (vc : VerifyingConfig) (venv : VerifyEnv) (rem : Rem) (kid : Str), verify req vc venv = .ok (.ok (rem, kid)) ↔
        e.config.label = str% "sig" ∧ kid = e.config.keyId ∧ 0 ≤ venv.sysNow ∧
        (∀ t, createdTime e.config e.second = some t → t ≤ venv.sysNow / 1000000000) ∧
        (∀ t, expiresTime e.config e.second = some t → venv.sysNow / 1000000000 ≤ t) ∧
        (∃ k ∈ vc.keyProvider e.config.keyId, k.verify base' (e.config.signature.sign e.env.rnd base) = true) ∧
        RequiredOk vc (signedInput e.before e.after e.config e.second) ∧ vc.validateDate = false ∧ DigestOk req vc rem := by
  obtain ⟨x, ids, lids, vals, vals', hb, hmap, hvals, hlen, hread, hx, hparse, hcan, hv⟩ := verify_arrived_iff e.ok harr hp
  refine ⟨_, _, hb, ⟨_, _, _, hx, hparse, hcan⟩, ?_, hv⟩
  constructor
  · intro heq
    refine ⟨harr.input, harr.signature, fun k hk k' hs => ?_⟩
    obtain ⟨base, si, hb', hcan', hu⟩ := e.canonical
    rw [heq, hu _ hb] at hcan
    obtain ⟨_, hcs, hps⟩ := fromSignatureInput_spec hparse
    obtain ⟨_, _, vs, h1, h2⟩ := C05_unconfusable_partial (Table.mk e.value) req _ _ base si _ hcan' hcan
      (fun k hk => he.components k (covered_subset hk)) (signedParams_tidy he.nonce)
      (fun k hk => componentRead_tidy (hcs k hk)) (paramsOk_tidy hps) he.values
    have h3 := values_at (f := normComponent) (g := signedValue e.before e.after) (vals := vs) h2 (by
      have h1 : (coveredComponents e.before e.after e.config).map (fun k => (Except.ok (signedValue e.before e.after k) : P (Option Str))) =
        vs.map fun v => .ok (some v) := h1
      have := congrArg (List.map fun (x : P (Option Str)) => match x with | .ok v => v | .error _ => none) h1
      rw [List.map_map, List.map_map] at this
      exact this) k hk
    obtain ⟨v, hv⟩ := harr.values k hk
    rw [hv k' hs, ← hv _ (componentSame_norm (hread k hk)), h3]
  · intro hrec
    rw [values_forced hvals hmap fun k hk => hrec.covered k hk _ (componentSame_norm (hread k hk))]

/-- C120. A signature that covers a header of the signature covers the value from before signing. If signing changes it and the request is
then accepted, a key accepts the signature for a text that is not the signed one. -/
theorem C120_own_headers (e : SigningEvent R) (he : e.Careful) (hp : Portable e.config e.env.rnd) (req : S)
    (harr : Arrived e.before e.after e.config req) (n : HeaderName) (hn : n = hSignature ∨ n = hSignatureInput)
    (hc : .header n ∈ e.covered) (hne : RequestLike.derive e.before (.header n) ≠ RequestLike.derive e.after (.header n))
    (vc : VerifyingConfig) (venv : VerifyEnv) (rem : Rem) (kid : Str) (h : verify req vc venv = .ok (.ok (rem, kid))) :
    ∃ base base', e.Base base ∧ CheckedBase req base' ∧ base' ≠ base ∧
      ∃ k ∈ vc.keyProvider e.config.keyId, k.verify base' (e.config.signature.sign e.env.rnd base) = true := by
  obtain ⟨base, base', hb, hb', hr, hv⟩ := C120_exact e he hp req harr
  obtain ⟨_, _, _, _, _, hk, _⟩ := (hv vc venv rem kid).1 h
  refine ⟨base, base', hb, hb', fun heq => hne ?_, hk⟩
  have h1 := (hr.1 heq).covered _ hc (.header n) rfl
  have h2 : RequestLike.derive req (.header n) = RequestLike.derive e.after (.header n) := by
    rcases hn with rfl | rfl
    · exact harr.signature
    · exact harr.input
  have h3 : signedValue e.before e.after (.header n) = valueOf e.before (.header n) := by
    unfold signedValue
    rw [if_pos (hn.imp (congrArg _) (congrArg _))]
  obtain ⟨v, hd⟩ := LawfulClient.derive_header e.before n
  rw [← h2, h1, h3]
  unfold valueOf
  rw [hd]

/-- C120 with an HMAC key: the signed text and the one that is checked are different and have the same tag. -/
theorem C120_own_headers_hmac (e : SigningEvent R) (he : e.Careful) (hp : Portable e.config e.env.rnd) (req : S)
    (harr : Arrived e.before e.after e.config req) (n : HeaderName) (hn : n = hSignature ∨ n = hSignatureInput)
    (hc : .header n ∈ e.covered) (hne : RequestLike.derive e.before (.header n) ≠ RequestLike.derive e.after (.header n))
    (name name' : Str) (mac : Bytes → Bytes) (hs : e.config.signature = hmacSign name mac)
    (vc : VerifyingConfig) (hk : vc.keyProvider e.config.keyId = [hmacVerify name' mac]) (venv : VerifyEnv) (rem : Rem) (kid : Str)
    (h : verify req vc venv = .ok (.ok (rem, kid))) :
    ∃ base base', e.Base base ∧ CheckedBase req base' ∧ base' ≠ base ∧ mac base' = mac base := by
  obtain ⟨base, base', h1, h2, hb, k, hm, hv⟩ := C120_own_headers e he hp req harr n hn hc hne vc venv rem kid h
  rw [hk, List.mem_singleton] at hm
  subst hm
  rw [hs, hmacVerify_iff] at hv
  refine ⟨base, base', h1, h2, hb, ?_⟩
  rw [show (hmacSign name mac).sign e.env.rnd base = Base64.encode (mac base) from rfl, Base64.strictDecode_encode] at hv
  exact (Option.some.inj hv).symm

/-! ### The validator -/

theorem pipeline_values {r r' : MockRequest} {o : Opt} {name : Str} {prim : Primitive} {key : Bytes}
    {comps : List SignatureComponent} {env : SignEnv}
    (h : sign r (optSigning o name prim key comps) env = .ok (r', .ok ())) (k : SignatureComponent) (hk : k ∈ comps) :
    ∃ x, r.derive k = .ok (some x) ∧ signedValue r r' k = some x ∧
      (k ≠ .header hSignature → k ≠ .header hSignatureInput → r'.derive k = .ok (some x)) := by
  obtain ⟨r1, ids, lids, vals, vi, vs, hauto, _, _, hw, hsv, h1, h2, h3, h4, h5, hr'⟩ := sign_success h
  have := mock_touches hauto.touches optSigning_no_auto
  subst this
  obtain ⟨x, hx⟩ := mock_values_mem h1 k hk
  refine ⟨x, hx, by rw [hsv k]; exact derive_valueOf hx, fun n1 n2 => ?_⟩
  rw [hr']
  refine (LawfulClient.derive_set_ne (R := MockRequest) _ _ _ _ n1).trans ?_
  exact (LawfulClient.derive_set_ne (R := MockRequest) _ _ _ _ n2).trans hx

theorem pipeline_own {r r' : MockRequest} {o : Opt} {name : Str} {prim : Primitive} {key : Bytes}
    {comps : List SignatureComponent} {env : SignEnv}
    (h : sign r (optSigning o name prim key comps) env = .ok (r', .ok ())) (n : HeaderName) (hn : n = hSignature ∨ n = hSignatureInput) :
    ∃ x, r'.derive (.header n) = .ok (some x) := by
  obtain ⟨r1, ids, lids, vals, vi, vs, hauto, _, _, hw, hsv, h1, h2, h3, h4, h5, hr'⟩ := sign_success h
  have key : ∃ v, r'.headers.get n = some v := by
    rw [hr']
    rcases hn with rfl | rfl
    · refine ⟨vs, ?_⟩
      rw [HeaderMap.get_eq_head_getAll]
      exact (congrArg List.head? (HeaderMap.getAll_insert_self _ _ _)).trans rfl
    · refine ⟨vi, ?_⟩
      rw [HeaderMap.get_eq_head_getAll]
      refine (congrArg List.head? (HeaderMap.getAll_insert_ne _ _ hSignature_ne_hInput.symm)).trans ?_
      exact (congrArg List.head? (HeaderMap.getAll_insert_self _ _ _)).trans rfl
  obtain ⟨v, hv⟩ := key
  refine ⟨v.toStr.getD [], ?_⟩
  show (Except.ok ((r'.headers.get n).map fun v => v.toStr.getD []) : P (Option Str)) = _
  rw [hv]
  rfl

/-- C120, for the validator. Exactly when verify mode accepts what sign mode writes, whatever headers are covered: as in C49, with the
signature checked against a text that is the signed text exactly if signing left the headers of the signature unchanged that it covers. -/
theorem C120_pipeline (input out : Bytes) (trace : Bool) (req : MockRequest) (o : Opt) (env : SignEnv)
    (hin : MockRequest.fromReader input trace = .ok (some req)) (hs : runSign req o env = .ok (.ok out))
    (hl : PlainLabel (o.label.getD (str% "sig"))) (hn : ∀ comps, HeaderOption o comps → ¬ Confusable req comps) :
    ∃ req' alg name prim pem key comps base base', MockRequest.fromReader out trace = .ok (some req') ∧
      o.algorithm = some alg ∧ Supports alg name prim ∧ o.privateKey = some (some pem) ∧ privatePkcs8Pem pem = some key ∧ HeaderOption o comps ∧
      OptBase req o name base ∧ CheckedBase req' base' ∧
      (base' = base ↔ ∀ n, n = hSignature ∨ n = hSignatureInput → .header n ∈ comps → req'.derive (.header n) = req.derive (.header n)) ∧
      ∀ (o' : Opt) (venv : VerifyEnv), runVerify req' o' venv = .ok (.ok ()) ↔
        o.label.getD (str% "sig") = str% "sig" ∧ 0 ≤ venv.sysNow ∧
        (∀ t, o.created = some t → t ≤ venv.sysNow / 1000000000) ∧
        (∀ t, o.expires = some t → venv.sysNow / 1000000000 ≤ t) ∧ DigestFits req ∧
        ∃ alg' name' prim' pem' key', o'.algorithm = some alg' ∧ Supports alg' name' prim' ∧
          o'.publicKey = some (some pem') ∧ PublicKey alg' pem' key' ∧ o'.keyId.getD [] = o.keyId.getD [] ∧
          Deps.asymVerify prim' key' base' (Deps.asymSign prim key env.rnd base) = true := by
  obtain ⟨r', alg, name, prim, pem, key, comps, hback, hsign, hcomps, ha, hsup, hpem, hkey, hrun⟩ := pipeline_file hin hs hl
  have hp := optSigning_portable (name := name) (prim := prim) (key := key) (rnd := env.rnd) hcomps hl
  have hval := pipeline_values hsign
  have hder : ∀ {k k'}, ComponentSame k k' → RequestLike.derive (self := ServerRequestLike.toRequestLike (Remnant := Unit))
      ({ r' with version := .http11 } : MockRequest) k' = r'.derive k := fun hs => (mock_derive_same r' hs).symm
  have harr : Arrived req r' (optSigning o name prim key comps) ({ r' with version := .http11 } : MockRequest) := by
    refine ⟨rfl, rfl, fun k hk => ?_⟩
    obtain ⟨x, _, _, h3⟩ := hval k hk
    by_cases h1 : k = .header hSignature
    · obtain ⟨y, hy⟩ := pipeline_own hsign hSignature (.inl rfl)
      exact ⟨y, fun k' hs => by rw [hder hs, h1, hy]⟩
    · by_cases h2 : k = .header hSignatureInput
      · obtain ⟨y, hy⟩ := pipeline_own hsign hSignatureInput (.inr rfl)
        exact ⟨y, fun k' hs => by rw [hder hs, h2, hy]⟩
      · exact ⟨x, fun k' hs => by rw [hder hs, h3 h1 h2]⟩
  let e : SigningEvent MockRequest := ⟨req, r', optSigning o name prim key comps, env, hsign⟩
  have he : e.Careful := by
    refine ⟨hp.components, hp.nonce, ?_⟩
    rintro ⟨i, j, k, l, v, id, h1, h2, h3, h4, h5, h6⟩
    obtain ⟨x, hx, hx', _⟩ := hval k (List.mem_iff_getElem?.2 ⟨i, h1⟩)
    have : (Except.ok (signedValue req r' k) : P (Option Str)) = .ok (some v) := h4
    rw [hx'] at this
    cases this
    exact hn comps hcomps ⟨i, j, k, l, v, id, h1, h2, h3, hx, h5, h6⟩
  obtain ⟨base, base', hb, hb', hiff, hver⟩ := C120_exact e he hp _ harr
  refine ⟨_, alg, name, prim, pem, key, comps, base, base', hback, ha, hsup, hpem, hkey, hcomps, optBase_of_signed hcomps hsign hb, hb', hiff.trans ?_, hrun base base' hver⟩
  constructor
  · intro hrec n hn hm
    have h1 := hrec.covered _ hm (.header n) rfl
    obtain ⟨x, hx, hx', _⟩ := hval _ hm
    exact (h1.trans (congrArg _ hx')).trans hx.symm
  · intro h
    refine ⟨rfl, rfl, fun k hk k' hs => ?_⟩
    obtain ⟨x, hx, hx', h3⟩ := hval k hk
    rw [hder hs, show signedValue e.before e.after k = some x from hx']
    by_cases h1 : k = .header hSignature
    · rw [h1] at hx hk ⊢
      exact (h _ (.inl rfl) hk).trans hx
    · by_cases h2 : k = .header hSignatureInput
      · rw [h2] at hx hk ⊢
        exact (h _ (.inr rfl) hk).trans hx
      · exact h3 h1 h2

/-! ### Examples -/

/-- A request with an old `Signature-Input`, which is then covered: it meets the hypotheses of `C120_own_headers`, signing changes
the header, and the result is not accepted. -/
def exStale : ReqwestRequest := { exReqwest with headers := exReqwest.headers ++ [(hSignatureInput, ⟨utf8 (str% "old"), rfl⟩)] }
def exStaleSigning : SigningConfig := 
  (((SigningConfig.new (str% "sig") (str% "k1") exSigner).setDigest exDigest).setComponents [.header hHost, .header hSignatureInput]).setCreatedAuto
def exStaleSigned : ReqwestRequest :=
  match sign exStale exStaleSigning exSignEnv with
  | .ok (r, _) => r
  | .error _ => exStale
theorem exStale_signed : sign exStale exStaleSigning exSignEnv = .ok (exStaleSigned, .ok ()) := rfl
def exStaleEvent : SigningEvent ReqwestRequest := ⟨exStale, exStaleSigned, exStaleSigning, exSignEnv, exStale_signed⟩

example : exStaleEvent.Careful ∧ Portable exStaleEvent.config exStaleEvent.env.rnd ∧
    Arrived exStaleEvent.before exStaleEvent.after exStaleEvent.config (exMock exStaleSigned.headers none) ∧
    .header hSignatureInput ∈ exStaleEvent.covered ∧
    RequestLike.derive exStaleEvent.before (.header hSignatureInput) ≠ RequestLike.derive exStaleEvent.after (.header hSignatureInput) := by
  have hk : ∀ {k}, k ∈ exStaleEvent.covered → k = .header hHost ∨ k = .header hSignatureInput := by
    intro k hk
    have hk : k ∈ [.header hHost, .header hSignatureInput] := covered_subset hk
    simpa using hk
  have ht : ∀ k ∈ exStaleSigning.components, ComponentTidy k := by
    intro k hk
    have hk : k ∈ [.header hHost, .header hSignatureInput] := hk
    simp only [List.mem_cons, List.not_mem_nil, or_false] at hk
    rcases hk with rfl | rfl <;> trivial
  refine ⟨⟨ht, (by intro h; cases h), unconfusable_of_values (fun k hk => ht k (covered_subset hk)) fun k hk' v hv => .inl ?_⟩,
    ⟨ht, (by intro h; cases h), exPortable.label, exPortable.signature⟩, ⟨rfl, rfl, fun k hk' => ?_⟩, List.mem_cons_of_mem _ (List.mem_singleton.2 rfl), ?_⟩
  · rcases hk hk' with rfl | rfl
    · have : (Except.ok (some (str% "example.com")) : P (Option Str)) = .ok (some v) := hv
      cases this; decide
    · have : (Except.ok (some (str% "old")) : P (Option Str)) = .ok (some v) := hv
      cases this; decide
  · rcases hk hk' with rfl | rfl
    · refine ⟨str% "example.com", fun k' hs => ?_⟩
      cases k' with
      | header n => cases hs; rfl
      | derived d => cases hs
    · refine ⟨str% "sig=(\"host\" \"signature-input\");alg=\"toy\";created=150;keyid=\"k1\"", fun k' hs => ?_⟩
      cases k' with
      | header n => cases hs; rfl
      | derived d => cases hs
  · intro h
    have : (Except.ok (some (str% "old")) : P (Option Str)) = .ok (some (str% "sig=(\"host\" \"signature-input\");alg=\"toy\";created=150;keyid=\"k1\"")) := h
    cases this

end Httpsig

namespace Httpsig
section
attribute [local instance] toyDeps

/-- Sign mode covers an old `Signature-Input`, and verify mode rejects the result. If the header is already the one that sign mode
writes, verify mode accepts the result. -/
def pipelineOf (input : Bytes) : Option (MockRequest × MockRequest × Bool) := do
  let r ← (MockRequest.fromReader input).toOption.join
  let out ← (runSign r exOldSign ⟨0, 0, 0⟩).toOption.bind Except.toOption
  let r' ← (MockRequest.fromReader out).toOption.join
  some (r, r', match runVerify r' exOldVerify ⟨0, 0⟩ with | .ok (.ok ()) => true | _ => false)

example : (pipelineOf exOld).map (fun x => (decide (x.2.1.headers.get hSignatureInput = x.1.headers.get hSignatureInput), x.2.2)) =
    some (false, false) := by decide +kernel
example : (pipelineOf (utf8 (str% "GET /a HTTP/1.1\nHost: h\nSignature-Input: sig=(\"signature-input\");alg=\"rsa-pss-sha512\";keyid=\"\"\n"))).map
    (fun x => (decide (x.2.1.headers.get hSignatureInput = x.1.headers.get hSignatureInput), x.2.2)) = some (true, true) := by decide +kernel
/-- The hypothesis about the covered values. -/
example : ∀ comps, HeaderOption exOldSign comps → ¬ Confusable exRead comps := by
  intro comps h
  obtain ⟨x, hx, rfl⟩ := headerOption_iff.1 h
  have : exOldSign.parseHeaders.toOption = some (some [.header hSignatureInput]) := by decide +kernel
  rw [hx] at this
  cases this
  refine unconfusable_of_values (fun k hk => ?_) fun k hk v hv => ?_
  · simp only [Option.getD_some, List.mem_singleton] at hk; subst hk; trivial
  · simp only [Option.getD_some, List.mem_singleton] at hk; subst hk
    have : (Except.ok none : P (Option Str)) = .ok (some v) := hv
    cases this

end
end Httpsig
