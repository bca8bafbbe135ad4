import Verif.Lemmas.EndToEnd
import Verif.Props.Sign
import Verif.Props.Keys
import Verif.Props.Algo
/-
C06, C07, C08, C39, C42, C43: from the signer to the verifier.
-/
set_option linter.unusedSectionVars false
namespace Httpsig
open Sfv
variable [Deps]

/-! ### C42 -/

theorem base64_no_colon {text : Str} {b : Bytes} (h : IsBase64 text b) : ':' ∉ text := by
  obtain ⟨syms, pad, h1, _, _, h4, _⟩ := h
  rw [h1]
  intro hm
  rcases List.mem_append.1 hm with hm | hm
  · exact absurd (h4 _ hm) (by decide)
  · exact absurd (List.eq_of_mem_replicate hm) (by decide)

/-- C42. From `label=:text:` with a label without `=` and a base64 text, the verifier takes exactly `label` and `text`. -/
theorem C42_extracts (label text : Str) (b : Bytes) (hl : '=' ∉ label) (ht : IsBase64 text b) :
    parseSignatureHeader (label ++ str% "=:" ++ text ++ str% ":") = some (label, text) :=
  parseSignatureHeader_iff.2 (signatureHeader_made hl (base64_no_colon ht))

/-- C42. A header without `=` has no signature. -/
theorem C42_no_equals (v : Str) : parseSignatureHeader v = none ↔ '=' ∉ v := by
  unfold parseSignatureHeader
  rw [Option.map_eq_none_iff, splitOnce_eq_none]

section
variable {S Rem : Type} [ServerRequestLike S Rem]

/-- C42. A request whose `Signature` header has no `=` is not accepted. -/
theorem C42_no_equals_rejected (req : S) (config : VerifyingConfig) (env : VerifyEnv) (rem : Rem) (kid v : Str)
    (hv : RequestLike.derive req (.header hSignature) = .ok (some v)) (hn : '=' ∉ v) :
    verify req config env ≠ .ok (.ok (rem, kid)) := by
  intro h
  obtain ⟨c, sig, base, hok, _⟩ := verify_ok_iff.1 h
  obtain ⟨w, label, e1, e2, _⟩ := hok.signature
  rw [hv] at e1; cases e1
  have := parseSignatureHeader_iff.2 e2
  rw [(C42_no_equals v).2 hn] at this
  cases this

/-- C42. If a request with `Signature` header `label=:text:` is accepted, its `Signature-Input` has that label and a
registered key accepted exactly `text`. -/
theorem C42_text_is_checked (req : S) (config : VerifyingConfig) (env : VerifyEnv) (rem : Rem) (kid label text : Str)
    (b : Bytes) (hl : '=' ∉ label) (ht : IsBase64 text b)
    (hv : RequestLike.derive req (.header hSignature) = .ok (some (label ++ str% "=:" ++ text ++ str% ":")))
    (h : verify req config env = .ok (.ok (rem, kid))) :
    ∃ x c base si, RequestLike.derive req (.header hSignatureInput) = .ok (some x) ∧
      CanonicalizeConfig.fromSignatureInput x = .ok (.ok c) ∧ c.label = some label ∧
      canonicalize req c = .ok (.ok (base, si)) ∧
      ∃ k ∈ config.keyProvider kid, k.verify base text = true := by
  obtain ⟨c, sig, base, hok, _⟩ := verify_ok_iff.1 h
  obtain ⟨w, label', e1, e2, e3⟩ := hok.signature
  rw [hv] at e1; cases e1
  obtain ⟨rfl, rfl⟩ := signatureHeader_det e2 (signatureHeader_made hl (base64_no_colon ht))
  obtain ⟨x, hx, hc⟩ := hok.input
  obtain ⟨si, hsi⟩ := hok.canon
  exact ⟨x, c, base, si, hx, hc, e3, hsi, hok.key⟩

end

example : parseSignatureHeader (str% "sig1=:aGVsbG8=:") = some (str% "sig1", str% "aGVsbG8=") :=
  C42_extracts (str% "sig1") (str% "aGVsbG8=") (utf8 (str% "hello")) (by decide) (C31_rfc4648 (utf8 (str% "hello")))

/-! ### C39 -/

theorem base64_edges (b : Bytes) : (∀ c ∈ Base64.encode b, whiteSpace c = false ∧ c ≠ ',') := by
  have key : ∀ c ∈ base64Alphabet, whiteSpace c = false ∧ c ≠ ',' := by decide
  obtain ⟨syms, pad, h1, _, _, h4, _⟩ := C31_rfc4648 b
  intro c hc
  rw [h1, List.mem_append] at hc
  rcases hc with hc | hc
  · exact key c (h4 c hc)
  · rw [List.eq_of_mem_replicate hc]; decide

theorem trimmed_self {p : Char → Bool} {s : Str} (h : ∀ c ∈ s, p c = false) : Trimmed p s s :=
  ⟨[], [], by simp, by simp, by simp, fun c hc => h c (List.mem_of_mem_head? hc),
    fun c hc => h c (List.mem_of_mem_getLast? hc)⟩

/-- C39. A digest header `NAME=BASE64` is read as this one entry, whatever the algorithm, provided that the provider knows
the name and the name has no `=`, `,` or whitespace. -/
theorem C39_entry (provider : Str → Option HttpDigest) (name : Str) (alg : HttpDigest) (b : Bytes)
    (hp : provider name = some alg) (hn : ∀ c ∈ name, whiteSpace c = false ∧ c ≠ '=' ∧ c ≠ ',') :
    FirstSupported provider (name ++ str% "=" ++ Base64.encode b) alg (Base64.encode b) := by
  refine ⟨[], name ++ str% "=" ++ Base64.encode b, [], by simp [joinWith], ?_, ?_, by simp⟩
  · intro e he
    simp only [List.nil_append, List.mem_singleton] at he
    subst he
    intro hm
    simp only [List.mem_append, List.mem_singleton] at hm
    rcases hm with (hm | hm) | hm
    · exact (hn _ hm).2.2 rfl
    · cases hm
    · exact (base64_edges b _ hm).2 rfl
  · exact ⟨name, Base64.encode b, name, by simp, fun hm => (hn _ hm).2.1 rfl, trimmed_self fun c hc => (hn c hc).1,
      trimmed_self fun c hc => (base64_edges b c hc).1, hp⟩

/-- The two digest algorithms of the library. -/
def StandardDigest (d : HttpDigest) : Prop := d = documentedSha256 ∨ d = documentedSha512

theorem standard_facts {d : HttpDigest} (h : StandardDigest d) :
    defaultDigestProvider d.name = some d ∧ (∀ c ∈ d.name, whiteSpace c = false ∧ c ≠ '=' ∧ c ≠ ',') ∧
    (∀ c ∈ d.name, VisibleChar c) ∧ ∀ b, ∃ t, d.digest b = Base64.encode t := by
  rcases h with rfl | rfl
  · exact ⟨rfl, by simp only [documentedSha256]; decide, by simp only [documentedSha256, VisibleChar]; decide, fun b => ⟨_, rfl⟩⟩
  · exact ⟨rfl, by simp only [documentedSha512]; decide, by simp only [documentedSha512, VisibleChar]; decide, fun b => ⟨_, rfl⟩⟩

theorem base64_visible (b : Bytes) : ∀ c ∈ Base64.encode b, VisibleChar c := by
  have key : ∀ c ∈ base64Alphabet, (32 ≤ c.toNat ∧ c.toNat < 127) ∨ c.toNat = 9 := by decide
  obtain ⟨syms, pad, h1, _, _, h4, _⟩ := C31_rfc4648 b
  intro c hc
  rw [h1, List.mem_append] at hc
  rcases hc with hc | hc
  · exact key c (h4 c hc)
  · rw [List.eq_of_mem_replicate hc]; unfold VisibleChar; decide

variable {R : Type} [ClientRequestLike R] [LawfulClient R]

/-- C39. Signing a request without a readable digest, whose body digest can be computed, with `compute_digest` and one of
the two algorithms: the request then has the digest header `NAME=BASE64` for its body, and every request that arrives with
this header and the same body passes digest validation with the default provider. -/
theorem C39_auto_digest_accepted (r r' : R) (config : SigningConfig) (env : SignEnv) (res : Except Error Unit)
    (h : sign r config env = .ok (r', res)) (hcd : config.computeDigest = true) (hd : StandardDigest config.digest)
    (hno : RequestLike.derive r (.header hDigest) = .ok none) (body : Bytes)
    (hb : (ClientRequestLike.computeDigest r config.digest).2 = some (config.digest.digest body)) :
    (∃ t, config.digest.digest body = Base64.encode t ∧
      RequestLike.derive r' (.header hDigest) = .ok (some (config.digest.name ++ str% "=" ++ Base64.encode t))) ∧
    ∀ {S Rem : Type} [ServerRequestLike S Rem] (req : S) (vc : VerifyingConfig) (rem : Rem),
      RequestLike.derive req (.header hDigest) = RequestLike.derive r' (.header hDigest) →
      vc.digestProvider = defaultDigestProvider → vc.validateDigest = true →
      ServerRequestLike.completeWithDigest req config.digest = (some (config.digest.digest body), rem) →
      DigestOk req vc rem := by
  obtain ⟨f1, f2, f3, f4⟩ := standard_facts hd
  obtain ⟨t, ht⟩ := f4 body
  have hdr := (C52_automatic_headers r r' config env res h).2.2.1 hcd hno _ hb (by
    rw [visible_iff, ht]
    intro c hc
    simp only [List.mem_append, List.mem_singleton] at hc
    rcases hc with (hc | rfl) | hc
    · exact f3 c hc
    · unfold VisibleChar; decide
    · exact base64_visible t c hc)
  rw [ht] at hdr
  refine ⟨⟨t, ht, hdr⟩, ?_⟩
  intro S Rem _ req vc rem hreq hprov hval hcomp
  refine .inl ⟨_, hreq.trans hdr, ?_⟩
  rw [if_pos hval]
  refine ⟨config.digest, Base64.encode t, ?_, by rw [hcomp, ht]⟩
  rw [hprov]
  exact C39_entry _ _ _ _ f1 f2

/-! ### C06 -/

section
variable {S Rem : Type} [ServerRequestLike S Rem]

/-- C06, partial. A request that was signed under the label `sig` and arrives with the same signature headers and covered
values is accepted, for every verifier that has a key accepting the signer's signatures under the signer's key id, checks
within the created/expires window, requires only covered headers, does not validate dates and finds the digest in order.
Missing for the full claim: labels other than `sig` (rejected, see `C07_neg_other_labels`), date validation (rejects
everything, see `C08_neg_default_rejects`), and configurations that are not `Portable` (component parameters that do not
read back, an empty nonce). -/
theorem C06_signed_requests_verify_partial (r r' : R) (config : SigningConfig) (env : SignEnv) (req : S)
    (h : sign r config env = .ok (r', .ok ())) (hrec : Received r r' config req) (hp : Portable config env.rnd)
    (hlabel : config.label = str% "sig")
    (vc : VerifyingConfig) (venv : VerifyEnv) (rem : Rem)
    (hkey : ∃ k ∈ vc.keyProvider config.keyId, ∀ m, k.verify m (config.signature.sign env.rnd m) = true)
    (hclock : 0 ≤ venv.sysNow)
    (hcreated : ∀ t, createdTime config (env.sysNow / 1000000000) = some t → t ≤ venv.sysNow / 1000000000)
    (hexpires : ∀ t, expiresTime config (env.sysNow / 1000000000) = some t → venv.sysNow / 1000000000 ≤ t)
    (hreq : ∀ c ∈ vc.requiredComponents, c ∈ coveredComponents r r' config ∧ ∃ n, c = .header n)
    (hdate : vc.validateDate = false) (hdigest : DigestOk req vc rem) :
    verify req vc venv = .ok (.ok (rem, config.keyId)) := by
  obtain ⟨base, _, hiff⟩ := verify_signed_iff h hrec hp
  obtain ⟨k, hk, hacc⟩ := hkey
  refine (hiff vc venv rem _).2 ⟨hlabel, rfl, hclock, hcreated, hexpires, ⟨k, hk, hacc base⟩, ?_, hdate, hdigest⟩
  intro c hc
  obtain ⟨hm, n, rfl⟩ := hreq c hc
  exact ⟨n.str, rfl, .header n, hm, rfl⟩

/-- C06. The conditions are also necessary: if the signed request arrives unchanged and is accepted, then under the
signer's key id, within the window, by a key that accepts the signature, and so on. -/
theorem C06_exact (r r' : R) (config : SigningConfig) (env : SignEnv) (req : S)
    (h : sign r config env = .ok (r', .ok ())) (hrec : Received r r' config req) (hp : Portable config env.rnd) :
    ∃ base, SignedBase r r' config (env.sysNow / 1000000000) base ∧
      ∀ (vc : VerifyingConfig) (venv : VerifyEnv) (rem : Rem) (kid : Str), verify req vc venv = .ok (.ok (rem, kid)) ↔
        config.label = str% "sig" ∧ kid = config.keyId ∧ 0 ≤ venv.sysNow ∧
        (∀ t, createdTime config (env.sysNow / 1000000000) = some t → t ≤ venv.sysNow / 1000000000) ∧
        (∀ t, expiresTime config (env.sysNow / 1000000000) = some t → venv.sysNow / 1000000000 ≤ t) ∧
        (∃ k ∈ vc.keyProvider config.keyId, k.verify base (config.signature.sign env.rnd base) = true) ∧
        RequiredOk vc (signedInput r r' config (env.sysNow / 1000000000)) ∧ vc.validateDate = false ∧
        DigestOk req vc rem :=
  verify_signed_iff h hrec hp

/-! ### C07 -/

/-- C07, negative. With any label other than `sig`, no verifier accepts the signed request, whatever its configuration:
`Signature-Input` says `sig`, `Signature` has the configured label. -/
theorem C07_neg_other_labels (r r' : R) (config : SigningConfig) (env : SignEnv) (req : S)
    (h : sign r config env = .ok (r', .ok ())) (hrec : Received r r' config req) (hp : Portable config env.rnd)
    (hlabel : config.label ≠ str% "sig") (vc : VerifyingConfig) (venv : VerifyEnv) (rem : Rem) (kid : Str) :
    verify req vc venv ≠ .ok (.ok (rem, kid)) := by
  obtain ⟨base, _, hiff⟩ := verify_signed_iff h hrec hp
  exact fun hv => hlabel ((hiff vc venv rem kid).1 hv).1

/-- C07, partial. `Signature-Input` always starts with `sig=`, `Signature` with the configured label; so labels without `=` agree
exactly when the configured label is `sig`. Missing: all other labels. -/
theorem C07_labels_partial [HeaderStore R] (r r' : R) (config : SigningConfig) (env : SignEnv)
    (h : sign r config env = .ok (r', .ok ())) :
    ∃ vi vs input text, (HeaderStore.headers r').getAll hSignatureInput = [vi] ∧ vi.bytes = utf8 (str% "sig=" ++ input) ∧
      (HeaderStore.headers r').getAll hSignature = [vs] ∧ vs.bytes = utf8 (config.label ++ str% "=" ++ text) := by
  obtain ⟨ids, lids, vals, vi, vs, _, _, _, h1, h2, h3, h4⟩ := C29_emitted_headers r r' config env h
  refine ⟨vi, vs, specListText lids ++ signedParamsText config (env.sysNow / 1000000000), ':' :: config.signature.sign env.rnd
        (utf8 (specBase ids lids vals (signedParamsText config (env.sysNow / 1000000000)))) ++ str% ":", h1, ?_, h3, ?_⟩
  · rw [h2, List.append_assoc]
  · rw [h4]; simp

/-! ### C08 -/

/-- C08, negative. A verifier with default options rejects every signed request, at every time and whatever its keys: it
looks for a `date` parameter, which signing never writes. -/
theorem C08_neg_default_rejects (r r' : R) (config : SigningConfig) (env : SignEnv) (req : S)
    (h : sign r config env = .ok (r', .ok ())) (hrec : Received r r' config req) (hp : Portable config env.rnd)
    (provider : Str → List HttpSignatureVerify) (venv : VerifyEnv) (rem : Rem) (kid : Str) :
    verify req (VerifyingConfig.new provider) venv ≠ .ok (.ok (rem, kid)) := by
  obtain ⟨base, _, hiff⟩ := verify_signed_iff h hrec hp
  intro hv
  have := ((hiff _ venv rem kid).1 hv).2.2.2.2.2.2.2.1
  cases this

/-- C08, partial. With date validation turned off and everything else left at its default, the signed request is accepted
(label `sig`, a matching key, inside the window, digest in order). Missing: the default with date validation. -/
theorem C08_without_date_partial (r r' : R) (config : SigningConfig) (env : SignEnv) (req : S)
    (h : sign r config env = .ok (r', .ok ())) (hrec : Received r r' config req) (hp : Portable config env.rnd)
    (hlabel : config.label = str% "sig") (provider : Str → List HttpSignatureVerify) (venv : VerifyEnv) (rem : Rem)
    (hkey : ∃ k ∈ provider config.keyId, ∀ m, k.verify m (config.signature.sign env.rnd m) = true)
    (hclock : 0 ≤ venv.sysNow)
    (hcreated : ∀ t, createdTime config (env.sysNow / 1000000000) = some t → t ≤ venv.sysNow / 1000000000)
    (hexpires : ∀ t, expiresTime config (env.sysNow / 1000000000) = some t → venv.sysNow / 1000000000 ≤ t)
    (hdigest : DigestOk req ((VerifyingConfig.new provider).setValidateDate false) rem) :
    verify req ((VerifyingConfig.new provider).setValidateDate false) venv = .ok (.ok (rem, config.keyId)) :=
  C06_signed_requests_verify_partial r r' config env req h hrec hp hlabel _ venv rem hkey hclock hcreated hexpires
    (by simp [VerifyingConfig.new, VerifyingConfig.setValidateDate]) rfl hdigest

end

/-! ### C43 -/

theorem serDict_many : ∀ {l : List (Str × InnerList)} {xs : List Str}, l ≠ [] →
    Forall2 (fun e x => serDict [(e.1, .innerList e.2)] = some x) l xs →
    serDict (l.map fun e => (e.1, ListEntry.innerList e.2)) = some (joinWith (str% ", ") xs)
  | [], _, h, _ => absurd rfl h
  | [e], _, _, h => by
    cases h with
    | cons h1 h2 => cases h2; simpa [joinWith] using h1
  | e :: e' :: l, _, _, h => by
    cases h with
    | cons h1 h2 =>
      rename_i x xs
      have ih := serDict_many (l := e' :: l) (by simp) h2
      simp only [serDict] at h1
      simp only [List.map_cons] at ih ⊢
      simp only [serDict, h1, ih, Option.bind_eq_bind, Option.bind_some]
      cases h2 with
      | cons h2 h3 => simp [joinWith]

/-- A configuration whose rendering is `x` and reads back. -/
structure Rendered (c : CanonicalizeConfig) (x : Str) : Prop where
  text : c.toSignatureInput.display = .ok x
  label : c.getLabel ≠ []
  components : ∀ k ∈ c.components, ComponentClean k
  params : ParamsClean c.params.params

theorem Rendered.ok {c : CanonicalizeConfig} {x : Str} (h : Rendered c x) :
    KeyOk c.getLabel ∧ InnerOk c.toSignatureInput.list.inner := by
  have h1 := display_eq_ok h.text
  simp only [serDict] at h1
  obtain ⟨ls, hk, hls, _⟩ := serMember_inner h1
  refine ⟨keyOk_of_ser hk h.label, innerOk_of_ser hls h.params.1 (fun e he => ⟨(h.params.2 e he).1, (h.params.2 e he).2.tidy⟩) ?_⟩
  intro i hi
  simp only [CanonicalizeConfig.toSignatureInput, SignatureInput.new, ComponentList.new, List.mem_map] at hi
  obtain ⟨k, hk, rfl⟩ := hi
  exact itemNe_of_clean (h.components k hk)

/-- C43. A `Signature-Input` header listing several signatures with different labels is read as the first of them. -/
theorem C43_first_input (c : CanonicalizeConfig) (cs : List CanonicalizeConfig) (x : Str) (xs : List Str)
    (h : Forall2 Rendered (c :: cs) (x :: xs)) (hl : ((c :: cs).map CanonicalizeConfig.getLabel).Nodup) :
    CanonicalizeConfig.fromSignatureInput (joinWith (str% ", ") (x :: xs)) = CanonicalizeConfig.fromSignatureInput x := by
  have hd : DictOk ((c :: cs).map fun c => (c.getLabel, ListEntry.innerList c.toSignatureInput.list.inner)) := by
    refine ⟨by simp, by simpa [IMap.NodupKeys, Function.comp_def] using hl, ?_⟩
    intro e he
    obtain ⟨c', hc', rfl⟩ := List.mem_map.1 he
    have : ∀ {a : List CanonicalizeConfig} {b : List Str}, Forall2 Rendered a b → c' ∈ a → ∃ y, Rendered c' y := by
      intro a b hab hm
      induction hab with
      | nil => cases hm
      | cons h1 _ ih =>
        rcases List.mem_cons.1 hm with rfl | hm
        · exact ⟨_, h1⟩
        · exact ih hm
    obtain ⟨y, hy⟩ := this h hc'
    exact hy.ok
  have hser := serDict_many (l := (c :: cs).map fun c => (c.getLabel, c.toSignatureInput.list.inner)) (xs := x :: xs) (by simp)
    (forall2_map_left.2 (by
      clear hd hl
      generalize c :: cs = a at h
      generalize x :: xs = b at h
      induction h with
      | nil => exact .nil
      | cons h1 _ ih => exact .cons (display_eq_ok h1.text) ih))
  rw [List.map_map] at hser
  obtain ⟨s, hs, _, hparse⟩ := parseDictionary_ser hd
  have hs' : serDict ((c :: cs).map fun c => (c.getLabel, ListEntry.innerList c.toSignatureInput.list.inner)) = _ := hser
  rw [hs] at hs'
  cases hs'
  have e1 : SignatureInput.ofStr (joinWith (str% ", ") (x :: xs)) =
      .ok ⟨c.getLabel, ⟨normInner c.toSignatureInput.list.inner⟩⟩ := by
    unfold SignatureInput.ofStr
    rw [hparse]
    rfl
  have hx : Rendered c x := by cases h; assumption
  obtain ⟨y, hy, _, e2⟩ := innerOk_render hx.ok.1 hx.ok.2
  rw [hx.text] at hy
  cases hy
  unfold CanonicalizeConfig.fromSignatureInput
  rw [e1, e2]
  rfl

section
variable {S Rem : Type} [ServerRequestLike S Rem]

/-- C43, partial. A request with several signatures in `Signature-Input` but only the first one's signature in `Signature`
gets the same verdict as the request with only that signature (both requests have the same values of the components
covered by the first signature and the same digest situation). Missing: any signature but the first, and a `Signature`
header that lists several signatures. -/
theorem C43_first_partial (req1 req : S) (c : CanonicalizeConfig) (cs : List CanonicalizeConfig) (x : Str) (xs : List Str)
    (h : Forall2 Rendered (c :: cs) (x :: xs)) (hl : ((c :: cs).map CanonicalizeConfig.getLabel).Nodup)
    (h1 : RequestLike.derive req1 (.header hSignatureInput) = .ok (some x))
    (h2 : RequestLike.derive req (.header hSignatureInput) = .ok (some (joinWith (str% ", ") (x :: xs))))
    (hs : RequestLike.derive req (.header hSignature) = RequestLike.derive req1 (.header hSignature))
    (hc : ∀ k ∈ c.components, RequestLike.derive req k = RequestLike.derive req1 k)
    (vc : VerifyingConfig) (venv : VerifyEnv) (rem : Rem) (kid : Str)
    (hd : DigestOk req vc rem ↔ DigestOk req1 vc rem) :
    verify req vc venv = .ok (.ok (rem, kid)) ↔ verify req1 vc venv = .ok (.ok (rem, kid)) := by
  have hfirst := C43_first_input c cs x xs h hl
  have hx : Rendered c x := by cases h; assumption
  have hread := (round_trip hx.text hx.label hx.components hx.params).2
  have hv : ∀ vals, Values req c.components vals ↔ Values req1 c.components vals := by
    intro vals
    unfold Values
    rw [List.map_congr_left hc]
  have hcan : ∀ base si, canonicalize req { label := some c.getLabel, components := c.components, params := c.params } =
      .ok (.ok (base, si)) ↔ canonicalize req1 { label := some c.getLabel, components := c.components, params := c.params } =
      .ok (.ok (base, si)) := by
    intro base si
    simp only [canonicalize_ok_iff, hv]
  rw [verify_ok_iff, verify_ok_iff, hd]
  constructor
  · rintro ⟨c', sig, base, hok, hr, hda, hdi⟩
    obtain ⟨v, e1, e2⟩ := hok.input
    rw [h2] at e1; cases e1
    rw [hfirst, hread] at e2; cases e2
    obtain ⟨si, hsi⟩ := hok.canon
    exact ⟨_, sig, base, ⟨⟨x, h1, hread⟩, hs ▸ hok.signature, hok.keyid, hok.alg, hok.clock, hok.window, ⟨si, (hcan _ _).1 hsi⟩,
      hok.key⟩, hr, hda, hdi⟩
  · rintro ⟨c', sig, base, hok, hr, hda, hdi⟩
    obtain ⟨v, e1, e2⟩ := hok.input
    rw [h1] at e1; cases e1
    rw [hread] at e2; cases e2
    obtain ⟨si, hsi⟩ := hok.canon
    exact ⟨_, sig, base, ⟨⟨_, h2, hfirst.trans hread⟩, hs ▸ hok.signature, hok.keyid, hok.alg, hok.clock, hok.window,
      ⟨si, (hcan _ _).2 hsi⟩, hok.key⟩, hr, hda, hdi⟩

/-- C43, negative. A request is not verifiable through a signature that is not the first in `Signature-Input`. -/
theorem C43_neg_not_first (req : S) (c : CanonicalizeConfig) (cs : List CanonicalizeConfig) (x : Str) (xs : List Str)
    (h : Forall2 Rendered (c :: cs) (x :: xs)) (hl : ((c :: cs).map CanonicalizeConfig.getLabel).Nodup)
    (h2 : RequestLike.derive req (.header hSignatureInput) = .ok (some (joinWith (str% ", ") (x :: xs))))
    (c' : CanonicalizeConfig) (hc' : c' ∈ cs) (text v : Str) (hv : SignatureHeader v c'.getLabel text)
    (hs : RequestLike.derive req (.header hSignature) = .ok (some v))
    (vc : VerifyingConfig) (venv : VerifyEnv) (rem : Rem) (kid : Str) :
    verify req vc venv ≠ .ok (.ok (rem, kid)) := by
  intro hver
  obtain ⟨c'', sig, base, hok, _⟩ := verify_ok_iff.1 hver
  have hx : Rendered c x := by cases h; assumption
  obtain ⟨y, e1, e2⟩ := hok.input
  rw [h2] at e1; cases e1
  rw [C43_first_input c cs x xs h hl, (round_trip hx.text hx.label hx.components hx.params).2] at e2; cases e2
  obtain ⟨w, label, e3, e4, e5⟩ := hok.signature
  rw [hs] at e3; cases e3
  obtain ⟨rfl, _⟩ := signatureHeader_det e4 hv
  have e6 : c.getLabel = c'.getLabel := Option.some.inj e5
  rw [List.map_cons, List.nodup_cons] at hl
  exact hl.1 (by rw [e6]; exact List.mem_map.2 ⟨c', hc', rfl⟩)

/-- Keys of this library: they accept base64 texts only. -/
def AcceptsOnlyBase64 (k : HttpSignatureVerify) : Prop := ∀ m s, k.verify m s = true → ∃ b, s = Base64.encode b

theorem builtin_keys_only_base64 (key : Bytes) (e : AlgEntry) : AcceptsOnlyBase64 (hmacSha256Verify key) ∧
    AcceptsOnlyBase64 (hmacSha512Verify key) ∧ AcceptsOnlyBase64 (e.verifier key) := by
  have gen : ∀ (n : Str) (check : Bytes → Bytes → Bool), AcceptsOnlyBase64 ⟨n, b64Verify check⟩ := by
    intro n check m s h
    simp only [b64Verify] at h
    cases hd : Base64.strictDecode s with
    | none => rw [hd] at h; cases h
    | some b => exact ⟨b, (C31_lossless s b).1 hd⟩
  exact ⟨gen _ _, gen _ _, gen _ _⟩

/-- C43, negative. A request whose `Signature` header lists a second signature after the first (`l1=:t1:, l2=:t2:`, the
form in which several signatures are transmitted) is rejected by every verifier with keys of this library, even if each of
the signatures is right: the verifier takes everything after the first `=` as the signature. -/
theorem C43_neg_signature_list (req : S) (vc : VerifyingConfig) (venv : VerifyEnv) (rem : Rem) (kid l1 t1 more : Str)
    (hl : '=' ∉ l1) (hk : ∀ k ∈ vc.keyProvider kid, AcceptsOnlyBase64 k)
    (hv : RequestLike.derive req (.header hSignature) = .ok (some (l1 ++ str% "=:" ++ t1 ++ str% ":, " ++ more))) :
    verify req vc venv ≠ .ok (.ok (rem, kid)) := by
  intro h
  obtain ⟨c, sig, base, hok, _⟩ := verify_ok_iff.1 h
  obtain ⟨w, label, e1, e2, _⟩ := hok.signature
  rw [hv] at e1
  obtain ⟨text, e3, e4, a, b, e5, ha, hb, _, _⟩ := e2
  obtain ⟨k, hkm, hacc⟩ := hok.key
  obtain ⟨by64, rfl⟩ := hk k hkm _ _ hacc
  have e6 : l1 ++ '=' :: (':' :: t1 ++ str% ":, " ++ more) = label ++ '=' :: text := by
    rw [← e3]
    have := Option.some.inj (Except.ok.inj e1)
    rw [← this]; simp
  have e7 := (append_cons_inj hl e4 e6).2
  rw [e5] at e7
  -- the comma is in `text`; it is not in `a` or `b` and not in the base64 text
  have hcomma : ',' ∈ a ++ Base64.encode by64 ++ b := by rw [← e7]; simp
  simp only [List.mem_append] at hcomma
  rcases hcomma with (hc | hc) | hc
  · exact absurd (ha _ hc) (by decide)
  · exact (base64_edges by64 _ hc).2 rfl
  · exact absurd (hb _ hc) (by decide)

end

/-! ### Examples: the hypotheses can be met -/

/-- `exReqwestSigned` as it arrives at a server. -/
def exArrived : MockRequest := exMock exReqwestSigned.headers (some (utf8 (str% "hello")))

theorem exReqwest_signed : sign exReqwest exSigning exSignEnv = .ok (exReqwestSigned, .ok ()) := rfl

theorem exReceived : Received exReqwest exReqwestSigned exSigning exArrived := by
  refine ⟨rfl, rfl, fun k hk k' hs => ?_⟩
  have e : RequestLike.derive (self := ServerRequestLike.toRequestLike (Remnant := Unit)) exArrived k' = exArrived.derive k :=
    (mock_derive_same exArrived hs).symm
  rw [e]
  have hk : k ∈ [.derived (.new atMethod), .header hHost, .header hDigest, .header hDate] := covered_subset hk
  simp only [List.mem_cons, List.not_mem_nil, or_false] at hk
  rcases hk with rfl | rfl | rfl | rfl <;> rfl

theorem exPortable : Portable exSigning exSignEnv.rnd := by
  refine ⟨?_, (by intro h; cases h), (show ∀ c ∈ str% "sig", ((32 ≤ c.toNat ∧ c.toNat < 127) ∨ c.toNat = 9) ∧ c ≠ '=' from by decide), ?_⟩
  · intro k hk
    have hk : k ∈ [.derived (.new atMethod), .header hHost, .header hDigest, .header hDate] := hk
    simp only [List.mem_cons, List.not_mem_nil, or_false] at hk
    rcases hk with rfl | rfl | rfl | rfl
    · exact (C01_new_tidy _)
    all_goals trivial
  · intro m c hc
    exact ⟨base64_visible _ c hc, fun e => by subst e; exact base64_no_colon (C31_rfc4648 _) hc⟩

/-- C06, C08: all hypotheses hold for the example, and it is accepted at 150 s and at 210 s. -/
example : verify exArrived exVerifying exEnv = .ok (.ok ((), str% "k1")) := by
  refine C06_signed_requests_verify_partial exReqwest exReqwestSigned exSigning exSignEnv exArrived exReqwest_signed exReceived
    exPortable rfl exVerifying exEnv () ⟨exKey, List.mem_singleton.2 rfl, fun m => ?_⟩ (by decide) ?_ ?_ (by simp [exVerifying, VerifyingConfig.new,
      VerifyingConfig.setDigestProvider, VerifyingConfig.setValidateDate]) rfl ?_
  · simp [exKey, hmacVerify, b64Verify, exSigning, exSigner, hmacSign, SigningConfig.new, SigningConfig.setDigest,
      SigningConfig.setComponents, SigningConfig.setCreatedAuto, SigningConfig.setExpiresRelative, SigningConfig.setNonce,
      (C31_lossless _ _).2 rfl]
  · intro t ht; cases ht; decide
  · intro t ht; cases ht; decide
  · exact .inl ⟨_, rfl, exDigest, _, selectDigest_iff.1 rfl, rfl⟩
example : verify exArrived exVerifying ⟨210000000000, 0⟩ = .ok (.ok ((), str% "k1")) := rfl
/-- C08: with date validation the example is rejected. -/
example : verify exArrived (exVerifying.setValidateDate true) exEnv = .ok (.error ()) := rfl

/-- C07: the same signature under another label. -/
def exOther : SigningConfig := { exSigning with label := str% "other" }
/-- What signing makes of `exReqwest` under the other label. -/
def exOtherSigned : ReqwestRequest :=
  { exReqwestSigned with headers := exReqwestSigned.headers.insert hSignature ⟨utf8 (str% "other=:IkBt:"), rfl⟩ }
example : sign exReqwest exOther exSignEnv = .ok (exOtherSigned, .ok ()) ∧ Portable exOther exSignEnv.rnd ∧
    exOther.label ≠ str% "sig" ∧
    Received exReqwest exOtherSigned exOther (exMock exOtherSigned.headers (some (utf8 (str% "hello")))) := by
  refine ⟨rfl, ⟨exPortable.components, exPortable.nonce, (show ∀ c ∈ str% "other", ((32 ≤ c.toNat ∧ c.toNat < 127) ∨ c.toNat = 9) ∧ c ≠ '=' from by decide), exPortable.signature⟩, (by intro h; cases h), rfl, rfl, ?_⟩
  intro k hk k' hs
  have e : RequestLike.derive (self := ServerRequestLike.toRequestLike (Remnant := Unit))
      (exMock exOtherSigned.headers (some (utf8 (str% "hello")))) k' = (exMock exOtherSigned.headers (some (utf8 (str% "hello")))).derive k :=
    (mock_derive_same _ hs).symm
  rw [e]
  have hk : k ∈ [.derived (.new atMethod), .header hHost, .header hDigest, .header hDate] := covered_subset hk
  simp only [List.mem_cons, List.not_mem_nil, or_false] at hk
  rcases hk with rfl | rfl | rfl | rfl <;> rfl

/-- C43: two signatures in one `Signature-Input`. -/
def exFirst : CanonicalizeConfig where
  label := some (str% "sig")
  components := [.derived (.new atMethod)]
  params := ⟨[(str% "alg", .string (str% "toy")), (str% "keyid", .string (str% "k1"))]⟩
/-- The second one. -/
def exSecond : CanonicalizeConfig where
  label := some (str% "sig2")
  components := [.header hHost]
  params := ⟨[(str% "alg", .string (str% "toy")), (str% "keyid", .string (str% "k2"))]⟩

theorem exRendered : Forall2 Rendered [exFirst, exSecond] [str% "sig=(\"@method\");alg=\"toy\";keyid=\"k1\"", str% "sig2=(\"host\");alg=\"toy\";keyid=\"k2\""] := by
  refine .cons ⟨rfl, (by intro h; cases h), ?_, ?_⟩ (.cons ⟨rfl, (by intro h; cases h), ?_, ?_⟩ .nil)
  · intro k hk
    have : k = .derived (.new atMethod) := by simpa [exFirst] using hk
    subst this
    exact ⟨⟨_, rfl⟩, by simp [DerivedComponent.new, ParamsClean, IMap.NodupKeys]⟩
  · refine ⟨(show ([str% "alg", str% "keyid"] : List Str).Nodup from by decide), ?_⟩
    simp only [exFirst, List.forall_mem_cons]
    exact ⟨⟨by decide, by simp, rfl⟩, ⟨by decide, by simp, rfl⟩, by simp⟩
  · intro k hk
    have : k = .header hHost := by simpa [exSecond] using hk
    subst this
    trivial
  · refine ⟨(show ([str% "alg", str% "keyid"] : List Str).Nodup from by decide), ?_⟩
    simp only [exSecond, List.forall_mem_cons]
    exact ⟨⟨by decide, by simp, rfl⟩, ⟨by decide, by simp, rfl⟩, by simp⟩

/-- The headers of a request with these two signatures. -/
def exTwo (signature : HeaderValue) : MockRequest := exMock
  [(hHost, ⟨utf8 (str% "example.com"), rfl⟩),
   (hSignatureInput, ⟨utf8 (str% "sig=(\"@method\");alg=\"toy\";keyid=\"k1\", sig2=(\"host\");alg=\"toy\";keyid=\"k2\""), rfl⟩), (hSignature, signature)] none

example : verify (exTwo ⟨utf8 (str% "sig=:IkBt:"), rfl⟩) exVerifying exEnv = .ok (.ok ((), str% "k1")) := rfl
example : ((exFirst :: [exSecond]).map CanonicalizeConfig.getLabel).Nodup ∧
    RequestLike.derive (self := ServerRequestLike.toRequestLike (Remnant := Unit)) (exTwo ⟨utf8 (str% "sig2=:Imhv:"), rfl⟩) (.header hSignatureInput) =
      .ok (some (joinWith (str% ", ") [str% "sig=(\"@method\");alg=\"toy\";keyid=\"k1\"", str% "sig2=(\"host\");alg=\"toy\";keyid=\"k2\""])) ∧
    SignatureHeader (str% "sig2=:Imhv:") exSecond.getLabel (str% "Imhv") :=
  ⟨(show ([str% "sig", str% "sig2"] : List Str).Nodup from by decide), rfl, signatureHeader_made (label := str% "sig2") (s := str% "Imhv") (by decide) (by decide)⟩
/-- C43: both signatures are right, and the request is rejected. -/
example : verify (exTwo ⟨utf8 (str% "sig=:IkBt:, sig2=:Imhv:"), rfl⟩) exVerifying exEnv = .ok (.error ()) := rfl
example : ∀ k ∈ exVerifying.keyProvider (str% "k1"), AcceptsOnlyBase64 k := by
  intro k hk
  have : k = exKey := by simpa [exVerifying, VerifyingConfig.new, VerifyingConfig.setDigestProvider, VerifyingConfig.setValidateDate] using hk
  subst this
  intro m s h
  simp only [exKey, hmacVerify, b64Verify] at h
  cases hd : Base64.strictDecode s with
  | none => rw [hd] at h; cases h
  | some b => exact ⟨b, (C31_lossless s b).1 hd⟩

end Httpsig
