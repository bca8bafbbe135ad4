import Verif.Lemmas.Verify
import Verif.Spec.Example
import Verif.Spec.TestDeps
import Verif.Props.Base
/-
C09–C19, C23, C37: what verification accepts.
-/
set_option linter.unusedSectionVars false
namespace Httpsig
open Sfv
variable [Deps] {R Rem : Type} [ServerRequestLike R Rem]

/-- The request used for non-vacuity: verification accepts it. -/
theorem exSigned_accepted : verify exSigned exVerifying exEnv = .ok (.ok ((), str% "k1")) := by rfl

/-! ### C09 -/

/-- C09. If `verify` succeeds, the returned key id is the string parameter `keyid` of the request's `Signature-Input`
header, and one of the keys the provider returns for it accepted the text of the `Signature` header (after the label,
without surrounding colons) over the signature base computed from this request and that `Signature-Input`. -/
theorem C09_soundness (req : R) (config : VerifyingConfig) (env : VerifyEnv) (rem : Rem) (keyId : Str)
    (h : verify req config env = .ok (.ok (rem, keyId))) :
    ∃ inputText c sigText label sig base si,
      RequestLike.derive req (.header hSignatureInput) = .ok (some inputText) ∧
      CanonicalizeConfig.fromSignatureInput inputText = .ok (.ok c) ∧
      RequestLike.derive req (.header hSignature) = .ok (some sigText) ∧
      SignatureHeader sigText label sig ∧
      (str% "keyid", BareItem.string keyId) ∈ c.params.params ∧
      canonicalize req c = .ok (.ok (base, si)) ∧
      ∃ k ∈ config.keyProvider keyId, k.verify base sig = true := by
  obtain ⟨c, sig, base, ⟨⟨iv, h1, h2⟩, ⟨sv, label, h3, h4, _⟩, h6, _, _, _, ⟨si, h12⟩, hk⟩, _⟩ := verify_ok_iff.1 h
  exact ⟨iv, c, sv, label, sig, base, si, h1, h2, h3, h4, h6, h12, hk⟩

example : ∃ rem keyId, verify exSigned exVerifying exEnv = .ok (.ok (rem, keyId)) := ⟨_, _, exSigned_accepted⟩

/-! ### C10 -/

/-- C10. The exact acceptance condition: `verify` succeeds if and only if the signature condition, the required
components condition, the date condition and the digest condition hold (see `Verif/Spec/Verify.lean`). -/
theorem C10_acceptance_iff (req : R) (config : VerifyingConfig) (env : VerifyEnv) (rem : Rem) (keyId : Str) :
    verify req config env = .ok (.ok (rem, keyId)) ↔
      ∃ c sig base, SignatureOk req config env c sig keyId base ∧ RequiredOk config c ∧ DateOk config env c ∧
        DigestOk req config rem :=
  verify_ok_iff

/-- Both sides are satisfiable (the left one by `exSigned`), and falsifiable: changing one byte of the signature, the
label, the key id or the body makes `verify` reject. -/
example : verify (exMock (exSignedHeaders.insert hSignature ⟨utf8 (str% "sig=:IkBu:"), rfl⟩) exSigned.body) exVerifying exEnv =
    .ok (.error ()) := by rfl
example : verify (exMock (exSignedHeaders.insert hSignature ⟨utf8 (str% "sih=:IkBt:"), rfl⟩) exSigned.body) exVerifying exEnv =
    .ok (.error ()) := by rfl
example : verify { exSigned with body := some (utf8 (str% "hellO")) } exVerifying exEnv = .ok (.error ()) := by rfl
example : verify exSigned exVerifying { exEnv with sysNow := 201000000000 } = .ok (.error ()) := by rfl

/-! ### C11 -/

theorem headerName_ext {a b : HeaderName} (h : a.str = b.str) : a = b := by
  cases a; cases b; simp at h; subst h; rfl

/-- A component read from a header whose string value is a header name is that header. -/
theorem read_component_header {k : SignatureComponent} {h : HeaderName} (hk : ComponentRead k)
    (hb : (itemOf k).bare = .string h.str) : k = .header h := by
  cases k with
  | header n =>
    simp only [itemOf, BareItem.string.injEq] at hb
    rw [headerName_ext hb]
  | derived d =>
    obtain ⟨⟨cs, hcs⟩, _⟩ := hk
    simp only [itemOf] at hb
    rw [hcs] at hb
    have := h.not_at_prefix
    rw [← BareItem.string.inj hb] at this
    simp [List.isPrefixOf] at this

/-- The line of a covered component is part of the base. -/
theorem line_in_base {Q : Type} [RequestLike Q] {req : Q} : ∀ {cs : List SignatureComponent} {ids vals : List Str} {k : SignatureComponent} (tail : Str),
    Values req cs vals → Forall2 Ident cs ids → k ∈ cs →
    ∃ i v pre post, Ident k i ∧ RequestLike.derive req k = .ok (some v) ∧
      specLines ids vals ++ tail = pre ++ i ++ str% ": " ++ v ++ '\n' :: post ∧ (pre = [] ∨ pre.getLast? = some '\n')
  | [], _, _, _, _, _, _, h => by cases h
  | c :: cs, _, _, k, tail, hv, .cons (b := i) (bs := is) hi his, hk => by
    rw [Values.cons_iff] at hv
    obtain ⟨v, vs, rfl, h1, h2⟩ := hv
    by_cases hkc : k = c
    · subst hkc
      exact ⟨i, v, [], specLines is vs ++ tail, hi, h1, by simp [specLines], Or.inl rfl⟩
    · have hk' : k ∈ cs := by simpa [hkc] using hk
      obtain ⟨i', v', pre, post, e1, e2, e3, e4⟩ := line_in_base tail h2 his hk'
      refine ⟨i', v', i ++ ':' :: ' ' :: v ++ '\n' :: pre, post, e1, e2, ?_, Or.inr ?_⟩
      · have e3' := e3
        simp only [specLines, List.append_assoc, List.cons_append, List.nil_append] at e3' ⊢
        rw [e3']
      · rcases e4 with rfl | e4
        · simp [List.getLast?_cons]
        · simp [List.getLast?_append, e4, List.getLast?_cons]

/-- C11. If `verify` succeeds, every header in `required_components` is one of the covered components, has a value on
the request, and that value appears in the verified signature base as a line of its own. -/
theorem C11_required_headers_covered (req : R) (config : VerifyingConfig) (env : VerifyEnv) (rem : Rem) (keyId : Str)
    (h : verify req config env = .ok (.ok (rem, keyId))) (n : HeaderName) (hn : .header n ∈ config.requiredComponents) :
    ∃ c sig text v pre post, SignatureOk req config env c sig keyId (utf8 text) ∧ .header n ∈ c.components ∧
      RequestLike.derive req (.header n) = .ok (some v) ∧
      text = pre ++ str% "\"" ++ n.str ++ str% "\": " ++ v ++ '\n' :: post ∧ (pre = [] ∨ pre.getLast? = some '\n') := by
  obtain ⟨c, sig, base, hs, hr, _, _⟩ := verify_ok_iff.1 h
  obtain ⟨s, hd, k, hk, hb⟩ := hr _ hn
  cases hd
  obtain ⟨iv, _, hread⟩ := hs.input
  have hkr := (fromSignatureInput_spec hread).2.1 k hk
  have := read_component_header hkr hb
  subst this
  obtain ⟨si, hcan⟩ := hs.canon
  obtain ⟨vals, ids, lids, ps, h1, h2, h3, h4, rfl, _⟩ := canonicalize_ok_iff.1 hcan
  obtain ⟨i, v, pre, post, e1, e2, e3, e4⟩ := line_in_base ((str% "\"@signature-params\": ") ++ specListText lids ++ ps) h1 h2 hk
  cases e1
  refine ⟨c, sig, _, v, pre, post, hs, hk, e2, ?_, e4⟩
  unfold specBase
  simp only [List.append_assoc] at e3 ⊢
  rw [e3]
  simp

example : verify exSigned { exVerifying with requiredComponents := [.header hHost, .header hDigest] } exEnv =
    .ok (.ok ((), str% "k1")) := by rfl
example : verify exSigned { exVerifying with requiredComponents := [.header hHost, .header hDate] } exEnv =
    .ok (.error ()) := by rfl

/-! ### C12 -/

theorem headerName_no_at (h : HeaderName) : '@' ∉ h.str := by
  intro hm
  have := h.ok
  simp only [validHeaderName, Bool.and_eq_true, List.all_eq_true] at this
  have := this.2 _ hm
  simp only [isHeaderNameChar, Bool.or_eq_true, Bool.and_eq_true] at this
  rcases this with h | h
  · exact absurd h.1 (by decide)
  · exact absurd h.1 (by decide)

theorem display_named {d : DerivedComponent} {s : Str} (hd : d.Named) (h : d.display = .ok s) :
    ∃ t, s = '"' :: '@' :: t := by
  obtain ⟨cs, hcs⟩ := hd
  unfold DerivedComponent.display at h
  split at h
  · rename_i x hx
    cases h
    simp only [serItem, hcs, serBare, Option.bind_eq_bind, Option.bind_eq_some_iff] at hx
    obtain ⟨a, ha, b, _, hx⟩ := hx
    cases hx
    unfold serString at ha
    split at ha
    · cases ha
      exact ⟨_, rfl⟩
    · cases ha
  · cases h

/-- C12 fails for every derived component: with a required component whose name starts with `@`, no request whatsoever
is accepted, not even one whose signature covers it. (The check compares the printed form, which has quotes, with the
bare names of the covered components.) -/
theorem C12_neg_required_derived_never_accepted (req : R) (config : VerifyingConfig) (env : VerifyEnv) (rem : Rem) (keyId : Str)
    (d : DerivedComponent) (hd : d.Named) (hr : .derived d ∈ config.requiredComponents) :
    verify req config env ≠ .ok (.ok (rem, keyId)) := by
  intro h
  obtain ⟨c, sig, base, hs, hreq, _, _⟩ := verify_ok_iff.1 h
  obtain ⟨s, hdisp, k, hk, hb⟩ := hreq _ hr
  obtain ⟨t, rfl⟩ := display_named hd hdisp
  obtain ⟨iv, _, hread⟩ := hs.input
  have hkr := (fromSignatureInput_spec hread).2.1 k hk
  cases k with
  | header n =>
    simp only [itemOf, BareItem.string.injEq] at hb
    apply headerName_no_at n
    rw [hb]
    simp
  | derived d' =>
    obtain ⟨⟨cs, hcs⟩, _⟩ := hkr
    simp only [itemOf] at hb
    rw [hcs] at hb
    simp at hb

/-- The witness: `exSigned` covers `@method` and is accepted; requiring `@method` turns it into a rejection. -/
example : verify exSigned exVerifying exEnv = .ok (.ok ((), str% "k1")) ∧
    verify exSigned { exVerifying with requiredComponents := [.derived (.new atMethod)] } exEnv = .ok (.error ()) := ⟨rfl, rfl⟩
example : (DerivedComponent.new atMethod).Named := ⟨str% "method", rfl⟩

/-- C12 (partial): the required-components check passes for every required *header* that is covered; adding it to the
requirements does not change the outcome. Missing: derived components, for which the claim is false (above). -/
theorem C12_required_headers_satisfiable_partial (req : R) (config : VerifyingConfig) (env : VerifyEnv) (rem : Rem)
    (keyId : Str) (hs : List HeaderName) (h : verify req config env = .ok (.ok (rem, keyId)))
    (hcov : ∀ v c, RequestLike.derive req (.header hSignatureInput) = .ok (some v) →
      CanonicalizeConfig.fromSignatureInput v = .ok (.ok c) → ∀ n ∈ hs, .header n ∈ c.components) :
    verify req { config with requiredComponents := hs.map .header ++ config.requiredComponents } env = .ok (.ok (rem, keyId)) := by
  obtain ⟨c, sig, base, hs', hreq, hdate, hdig⟩ := verify_ok_iff.1 h
  refine verify_ok_iff.2 ⟨c, sig, base, ⟨hs'.1, hs'.2, hs'.3, hs'.4, hs'.5, hs'.6, hs'.7, hs'.8⟩, ?_, hdate, hdig⟩
  obtain ⟨v, hv, hread⟩ := hs'.input
  intro r hr
  rcases List.mem_append.1 hr with hr | hr
  · obtain ⟨n, hn, rfl⟩ := List.mem_map.1 hr
    exact ⟨n.str, rfl, .header n, hcov v c hv hread n hn, rfl⟩
  · exact hreq r hr

example : ∀ v c, RequestLike.derive (self := ServerRequestLike.toRequestLike (Remnant := Unit)) exSigned (.header hSignatureInput) = .ok (some v) →
      CanonicalizeConfig.fromSignatureInput v = .ok (.ok c) → ∀ n ∈ [hHost, hDigest], .header n ∈ c.components := by
  intro v c h1 h2 n hn
  cases h1
  cases h2
  simp only [List.mem_cons, List.not_mem_nil, or_false] at hn
  rcases hn with rfl | rfl
  · exact .tail _ (.head _)
  · exact .tail _ (.tail _ (.head _))

/-! ### C13 -/

/-- C13. A successful verification happens within the window: an integer `created` is not later, and an integer
`expires` not earlier, than the current Unix second. -/
theorem C13_window_enforced (req : R) (config : VerifyingConfig) (env : VerifyEnv) (rem : Rem) (keyId : Str) (v : Str)
    (c : CanonicalizeConfig) (hv : RequestLike.derive req (.header hSignatureInput) = .ok (some v))
    (hc : CanonicalizeConfig.fromSignatureInput v = .ok (.ok c))
    (h : verify req config env = .ok (.ok (rem, keyId))) :
    (∀ t, (str% "created", BareItem.integer t) ∈ c.params.params → t ≤ env.sysNow / 1000000000) ∧
    (∀ t, (str% "expires", BareItem.integer t) ∈ c.params.params → env.sysNow / 1000000000 ≤ t) := by
  obtain ⟨c', sig, base, hs, _⟩ := verify_ok_iff.1 h
  obtain ⟨v', hv', hc'⟩ := hs.input
  rw [hv] at hv'; cases hv'
  rw [hc] at hc'; cases hc'
  exact hs.window

/-- C13, the other half: nothing else about the clock matters for the window. If a request is accepted at one moment, it
is accepted at every other non-negative system time inside its window, both ends included (the `date` check uses a
separate clock reading, which is kept). -/
theorem C13_window_inclusive (req : R) (config : VerifyingConfig) (env : VerifyEnv) (now : Int) (rem : Rem) (keyId : Str)
    (v : Str) (c : CanonicalizeConfig) (hv : RequestLike.derive req (.header hSignatureInput) = .ok (some v))
    (hc : CanonicalizeConfig.fromSignatureInput v = .ok (.ok c))
    (h : verify req config env = .ok (.ok (rem, keyId))) (hnow : 0 ≤ now)
    (h1 : ∀ t, (str% "created", BareItem.integer t) ∈ c.params.params → t ≤ now / 1000000000)
    (h2 : ∀ t, (str% "expires", BareItem.integer t) ∈ c.params.params → now / 1000000000 ≤ t) :
    verify req config { env with sysNow := now } = .ok (.ok (rem, keyId)) := by
  obtain ⟨c', sig, base, hs, hr, hd, hg⟩ := verify_ok_iff.1 h
  obtain ⟨v', hv', hc'⟩ := hs.input
  rw [hv] at hv'; cases hv'
  rw [hc] at hc'; cases hc'
  exact verify_ok_iff.2 ⟨c, sig, base, ⟨hs.1, hs.2, hs.3, hs.4, hnow, ⟨h1, h2⟩, hs.7, hs.8⟩, hr, hd, hg⟩

/-- `exSigned` has created=100 and expires=200: accepted from second 100 to second 200 inclusive, not outside. -/
example : verify exSigned exVerifying { exEnv with sysNow := 100000000000 } = .ok (.ok ((), str% "k1")) := by rfl
example : verify exSigned exVerifying { exEnv with sysNow := 200999999999 } = .ok (.ok ((), str% "k1")) := by rfl
example : verify exSigned exVerifying { exEnv with sysNow := 99999999999 } = .ok (.error ()) := by rfl

/-! ### C14 -/

/-- `exSigned` with other signature parameters. -/
def exWithInput (s : HeaderValue) : MockRequest :=
  exMock (exSignedHeaders.insert hSignatureInput s) (some (utf8 (str% "hello")))

/-- C14 fails (`C14_neg_any_time`, in Unsigned): `created` and `expires` given as strings (or decimals) are treated as absent. The first two
requests say they are created in the far future or expired long ago, and are accepted. -/
example :
    verify (exWithInput ⟨utf8 (str% "sig=(\"@method\");alg=\"toy\";created=\"99999999999\";keyid=\"k1\""), rfl⟩) exVerifying exEnv = .ok (.ok ((), str% "k1")) ∧
    verify (exWithInput ⟨utf8 (str% "sig=(\"@method\");alg=\"toy\";expires=1.0;keyid=\"k1\""), rfl⟩) exVerifying exEnv = .ok (.ok ((), str% "k1")) ∧
    verify (exWithInput ⟨utf8 (str% "sig=(\"@method\");alg=\"toy\";expires=1;keyid=\"k1\""), rfl⟩) exVerifying exEnv = .ok (.error ()) :=
  ⟨rfl, rfl, rfl⟩

/-- C14 (partial): what is guaranteed is that an integer value is always looked at, wherever it stands in the parameter
list and whatever other parameters there are: a request whose integer `created` lies in the future, or whose integer
`expires` lies in the past, is never accepted. Missing: values of other types (above). -/
theorem C14_integers_never_ignored_partial (req : R) (config : VerifyingConfig) (env : VerifyEnv) (rem : Rem)
    (keyId : Str) (v : Str) (c : CanonicalizeConfig)
    (hv : RequestLike.derive req (.header hSignatureInput) = .ok (some v))
    (hc : CanonicalizeConfig.fromSignatureInput v = .ok (.ok c)) (t : Int)
    (ht : ((str% "created", BareItem.integer t) ∈ c.params.params ∧ env.sysNow / 1000000000 < t) ∨
          ((str% "expires", BareItem.integer t) ∈ c.params.params ∧ t < env.sysNow / 1000000000)) :
    verify req config env ≠ .ok (.ok (rem, keyId)) := by
  intro h
  obtain ⟨h1, h2⟩ := C13_window_enforced req config env rem keyId v c hv hc h
  rcases ht with ⟨hm, hlt⟩ | ⟨hm, hlt⟩
  · have := h1 t hm; omega
  · have := h2 t hm; omega

example : ∃ v c, RequestLike.derive (self := ServerRequestLike.toRequestLike (Remnant := Unit)) exSigned (.header hSignatureInput) = .ok (some v) ∧
    CanonicalizeConfig.fromSignatureInput v = .ok (.ok c) ∧ (str% "created", BareItem.integer 100) ∈ c.params.params :=
  ⟨_, _, rfl, rfl, .tail _ (.head _)⟩

/-! ### C15 -/

/-- C15. Date validation adds exactly one condition to acceptance: the `Signature-Input` has an integer parameter `date`,
in the range of representable timestamps, whose distance to the clock (nanoseconds) is at most `date_leeway`, in either
direction, boundary included. -/
theorem C15_date_leeway_exact (req : R) (config : VerifyingConfig) (env : VerifyEnv) (rem : Rem) (keyId : Str) (v : Str)
    (c : CanonicalizeConfig) (hv : RequestLike.derive req (.header hSignatureInput) = .ok (some v))
    (hc : CanonicalizeConfig.fromSignatureInput v = .ok (.ok c)) :
    verify req { config with validateDate := true } env = .ok (.ok (rem, keyId)) ↔
      verify req { config with validateDate := false } env = .ok (.ok (rem, keyId)) ∧
      ∃ t, (str% "date", BareItem.integer t) ∈ c.params.params ∧ Deps.timestampInRange t = true ∧
        -(config.dateLeeway : Int) ≤ t * 1000000000 - env.utcNow ∧ t * 1000000000 - env.utcNow ≤ config.dateLeeway := by
  rw [verify_ok_iff, verify_ok_iff]
  constructor
  · rintro ⟨c', sig, base, hs, hr, hd, hg⟩
    obtain ⟨v', hv', hc'⟩ := hs.input
    rw [hv] at hv'; cases hv'
    rw [hc] at hc'; cases hc'
    obtain ⟨t, h1, h2, h3, h4⟩ := hd rfl
    refine ⟨⟨c, sig, base, ⟨hs.1, hs.2, hs.3, hs.4, hs.5, hs.6, hs.7, hs.8⟩, hr, (by intro h; cases h), hg⟩, t, h1, h2, ?_, h3⟩
    have : env.utcNow - t * 1000000000 ≤ (config.dateLeeway : Int) := h4
    omega
  · rintro ⟨⟨c', sig, base, hs, hr, hd, hg⟩, t, h1, h2, h3, h4⟩
    obtain ⟨v', hv', hc'⟩ := hs.input
    rw [hv] at hv'; cases hv'
    rw [hc] at hc'; cases hc'
    refine ⟨c, sig, base, ⟨hs.1, hs.2, hs.3, hs.4, hs.5, hs.6, hs.7, hs.8⟩, hr, ?_, hg⟩
    intro _
    refine ⟨t, h1, h2, h4, ?_⟩
    show env.utcNow - t * 1000000000 ≤ (config.dateLeeway : Int)
    omega

/-- C15: the date computation never panics (the `expect` in it is unreachable). A call that panics also panics without
date validation. -/
theorem C15_never_panics (req : R) (config : VerifyingConfig) (env : VerifyEnv) (p : Panic)
    (h : verify req { config with validateDate := true } env = .error p) :
    verify req { config with validateDate := false } env = .error p := by
  have e : ∀ (i : SignatureInput), checkDate i { config with validateDate := false } env = .ok true := fun _ => rfl
  have e' : ∀ b : Bool, verifySignatureOnly req { config with validateDate := b } env = verifySignatureOnly req config env :=
    fun _ => rfl
  unfold verify verifyExceptDigest at h ⊢
  simp only [e, e'] at h ⊢
  cases h1 : verifySignatureOnly req config env with
  | error q => rw [h1] at h; exact h
  | ok o =>
    rw [h1] at h
    cases o with
    | none => exact h
    | some x =>
      obtain ⟨i, k⟩ := x
      obtain ⟨b, hb⟩ := checkDate_ok i { config with validateDate := true } env
      simp only [bind, Except.bind, hb] at h ⊢
      cases h2 : checkRequired i config.requiredComponents with
      | error q => rw [h2] at h; exact h
      | ok t =>
        rw [h2] at h
        cases t with
        | false => exact h
        | true =>
          cases b with
          | false => cases h
          | true => exact h


/-! ### C16 -/

/-- C16. With digest validation and a digest header, success means that the header has a supported entry and that the
first one equals the digest that the request computes over its body with that algorithm. -/
theorem C16_digest_enforced (req : R) (config : VerifyingConfig) (env : VerifyEnv) (rem : Rem) (keyId v : Str)
    (hval : config.validateDigest = true) (hv : RequestLike.derive req (.header hDigest) = .ok (some v))
    (h : verify req config env = .ok (.ok (rem, keyId))) :
    ∃ alg value, FirstSupported config.digestProvider v alg value ∧
      ServerRequestLike.completeWithDigest req alg = (some value, rem) := by
  obtain ⟨_, _, _, _, _, _, hd⟩ := verify_ok_iff.1 h
  rcases hd with ⟨v', hv', h'⟩ | ⟨hv', _⟩
  · rw [hv] at hv'; cases hv'
    rw [if_pos hval] at h'
    exact h'
  · rw [hv] at hv'; cases hv'

/-- C16, rejections spelled out: no supported entry, a body that cannot be digested, or a different digest. -/
theorem C16_rejected (req : R) (config : VerifyingConfig) (env : VerifyEnv) (rem : Rem) (keyId v : Str)
    (hval : config.validateDigest = true) (hv : RequestLike.derive req (.header hDigest) = .ok (some v))
    (hbad : (∀ alg value, ¬ FirstSupported config.digestProvider v alg value) ∨
      ∃ alg value, FirstSupported config.digestProvider v alg value ∧
        (ServerRequestLike.completeWithDigest req alg).1 ≠ some value) :
    verify req config env ≠ .ok (.ok (rem, keyId)) := by
  intro h
  obtain ⟨alg, value, hf, hc⟩ := C16_digest_enforced req config env rem keyId v hval hv h
  rcases hbad with hbad | ⟨alg', value', hf', hne⟩
  · exact hbad _ _ hf
  · have := selectDigest_iff.2 hf
    rw [selectDigest_iff.2 hf'] at this
    cases this
    rw [hc] at hne
    exact hne rfl

/-- C16, completeness: apart from the digest condition, digest validation changes nothing. -/
theorem C16_digest_iff (req : R) (config : VerifyingConfig) (env : VerifyEnv) (rem : Rem) (keyId v : Str)
    (hv : RequestLike.derive req (.header hDigest) = .ok (some v)) :
    verify req { config with validateDigest := true } env = .ok (.ok (rem, keyId)) ↔
      (∃ r, verify req { config with validateDigest := false } env = .ok (.ok (r, keyId))) ∧
      ∃ alg value, FirstSupported config.digestProvider v alg value ∧
        ServerRequestLike.completeWithDigest req alg = (some value, rem) := by
  simp only [verify_ok_iff]
  constructor
  · rintro ⟨c, sig, base, hs, hr, hd, hg⟩
    rcases hg with ⟨v', hv', h'⟩ | ⟨hv', _⟩
    · rw [hv] at hv'; cases hv'
      exact ⟨⟨_, c, sig, base, ⟨hs.1, hs.2, hs.3, hs.4, hs.5, hs.6, hs.7, hs.8⟩, hr, hd, Or.inl ⟨v, hv, rfl⟩⟩, h'⟩
    · rw [hv] at hv'; cases hv'
  · rintro ⟨⟨r, c, sig, base, hs, hr, hd, _⟩, h'⟩
    exact ⟨c, sig, base, ⟨hs.1, hs.2, hs.3, hs.4, hs.5, hs.6, hs.7, hs.8⟩, hr, hd, Or.inl ⟨v, hv, h'⟩⟩

example : exVerifying.validateDigest = true ∧
    RequestLike.derive (self := ServerRequestLike.toRequestLike (Remnant := Unit)) exSigned (.header hDigest) =
      .ok (some (str% "MD5=abc, TOY = aGVsbG8= ")) := ⟨rfl, rfl⟩
example : FirstSupported exVerifying.digestProvider (str% "MD5=abc, TOY = aGVsbG8= ") exDigest (str% "aGVsbG8=") :=
  selectDigest_iff.1 rfl
example : verify (exMock (exSignedHeaders.insert hDigest ⟨utf8 (str% "MD5=abc"), rfl⟩) exSigned.body) exVerifying exEnv =
    .ok (.error ()) := by rfl

/-! ### C17 -/

/-- C17. With `require_digest` and no digest header, acceptance additionally needs that the request reports no body
(computing the default digest gives nothing); nothing else. -/
theorem C17_require_digest_iff (req : R) (config : VerifyingConfig) (env : VerifyEnv) (rem : Rem) (keyId : Str)
    (hv : RequestLike.derive req (.header hDigest) = .ok none) :
    verify req { config with requireDigest := true } env = .ok (.ok (rem, keyId)) ↔
      (∃ r, verify req { config with requireDigest := false } env = .ok (.ok (r, keyId))) ∧
      ServerRequestLike.completeWithDigest req documentedSha256 = (none, rem) := by
  simp only [verify_ok_iff]
  constructor
  · rintro ⟨c, sig, base, hs, hr, hd, hg⟩
    rcases hg with ⟨v', hv', h'⟩ | ⟨_, h'⟩
    · rw [hv] at hv'; cases hv'
    · exact ⟨⟨_, c, sig, base, ⟨hs.1, hs.2, hs.3, hs.4, hs.5, hs.6, hs.7, hs.8⟩, hr, hd, Or.inr ⟨hv, rfl⟩⟩, h'⟩
  · rintro ⟨⟨r, c, sig, base, hs, hr, hd, _⟩, h'⟩
    exact ⟨c, sig, base, ⟨hs.1, hs.2, hs.3, hs.4, hs.5, hs.6, hs.7, hs.8⟩, hr, hd, Or.inr ⟨hv, h'⟩⟩

/-- C17: a body without a digest header is rejected. -/
theorem C17_undigested_body_rejected (req : R) (config : VerifyingConfig) (env : VerifyEnv) (rem : Rem) (keyId d : Str)
    (hreq : config.requireDigest = true) (hv : RequestLike.derive req (.header hDigest) = .ok none)
    (hbody : (ServerRequestLike.completeWithDigest req documentedSha256).1 = some d) :
    verify req config env ≠ .ok (.ok (rem, keyId)) := by
  intro h
  have e : config = { config with requireDigest := true } := by cases config; simp_all
  rw [e] at h
  have := ((C17_require_digest_iff req config env rem keyId hv).1 h).2
  rw [this] at hbody
  cases hbody

/-- `exSigned` without its digest header (and signed accordingly): accepted without a body, rejected with one. -/
def exNoDigest (body : Option Bytes) : MockRequest :=
  exMock [(hSignatureInput, ⟨utf8 (str% "sig=(\"@method\");alg=\"toy\";keyid=\"k1\""), rfl⟩),
    (hSignature, ⟨utf8 (str% "sig=:IkBt:"), rfl⟩)] body
example : verify (exNoDigest none) exVerifying exEnv = .ok (.ok ((), str% "k1")) := by rfl
example : verify (exNoDigest (some [])) exVerifying exEnv = .ok (.error ()) := by rfl
example : verify (exNoDigest (some [])) (exVerifying.setRequireDigest false) exEnv = .ok (.ok ((), str% "k1")) := by rfl

/-! ### C18 -/

/-- C18 fails: with `require_digest` and `validate_digest` on, two requests with the same `Signature-Input` and
`Signature` but different bodies are both accepted, because the digest header need not be covered by the signature. -/
theorem C18_neg_digest_not_covered :
    ∃ (r s : MockRequest) (config : VerifyingConfig) (env : VerifyEnv),
      config.requireDigest = true ∧ config.validateDigest = true ∧
      r.headers.get hSignatureInput = s.headers.get hSignatureInput ∧ r.headers.get hSignature = s.headers.get hSignature ∧
      r.body ≠ s.body ∧ verify r config env = .ok (.ok ((), str% "k1")) ∧ verify s config env = .ok (.ok ((), str% "k1")) := by
  refine ⟨exMock ((exNoDigest none).headers.insert hDigest ⟨utf8 (str% "TOY=aGVsbG8="), rfl⟩) (some (utf8 (str% "hello"))),
    exMock ((exNoDigest none).headers.insert hDigest ⟨utf8 (str% "TOY=ZXZpbA=="), rfl⟩) (some (utf8 (str% "evil"))),
    exVerifying, exEnv, rfl, rfl, rfl, rfl, ?_, rfl, rfl⟩
  intro h
  have := congrArg (fun o : Option Bytes => o.map List.length) h
  exact absurd (show (some 5 : Option Nat) = some 4 from this) (by decide)

/-- C18 (partial). The body is bound to the signature if the digest header is itself a required component: then an
accepted request carries the digest header, the signature covers it (its value is a line of the verified base), and the
body has that digest. Missing: the same without naming the header in `required_components` (false, see above). -/
theorem C18_required_digest_binds_body_partial (req : R) (config : VerifyingConfig) (env : VerifyEnv) (rem : Rem) (keyId : Str)
    (hval : config.validateDigest = true) (hreq : .header hDigest ∈ config.requiredComponents)
    (h : verify req config env = .ok (.ok (rem, keyId))) :
    ∃ c sig text v pre post alg value, SignatureOk req config env c sig keyId (utf8 text) ∧ .header hDigest ∈ c.components ∧
      RequestLike.derive req (.header hDigest) = .ok (some v) ∧
      text = pre ++ str% "\"digest\": " ++ v ++ '\n' :: post ∧ (pre = [] ∨ pre.getLast? = some '\n') ∧
      FirstSupported config.digestProvider v alg value ∧ ServerRequestLike.completeWithDigest req alg = (some value, rem) := by
  obtain ⟨c, sig, text, v, pre, post, h1, h2, h3, h4, h5⟩ := C11_required_headers_covered req config env rem keyId h hDigest hreq
  obtain ⟨alg, value, h6, h7⟩ := C16_digest_enforced req config env rem keyId v hval h3 h
  refine ⟨c, sig, text, v, pre, post, alg, value, h1, h2, h3, ?_, h5, h6, h7⟩
  rw [h4]
  simp [hDigest]

example : verify exSigned { exVerifying with requiredComponents := [.header hDigest] } exEnv = .ok (.ok ((), str% "k1")) := by rfl

end Httpsig

/-! ### C15, concrete cases -/
namespace Httpsig
section
attribute [local instance] toyDeps
/-- With `date=150` and a leeway of 30 s: accepted up to 30 s away, rejected one nanosecond further. -/
example : verify exSigned (exVerifying.setValidateDate true) { exEnv with utcNow := 180000000000 } = .ok (.ok ((), str% "k1")) := by rfl
example : verify exSigned (exVerifying.setValidateDate true) { exEnv with utcNow := 120000000000 } = .ok (.ok ((), str% "k1")) := by rfl
example : verify exSigned (exVerifying.setValidateDate true) { exEnv with utcNow := 180000000001 } = .ok (.error ()) := by rfl
end
end Httpsig
