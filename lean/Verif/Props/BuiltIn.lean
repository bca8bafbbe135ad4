import Verif.Props.Authority
import Verif.Props.EndToEnd
import Verif.Props.Outcome
/-
C115: signing with the request types, algorithms and digests of the library.
-/
set_option linter.unusedSectionVars false
namespace Httpsig
open Sfv
variable [Deps]

/-- What the request types of the library have in common: the host is visible text, the digest is that of some bytes, and the value of
a component can be computed unless it is a derived component whose name is not a string. -/
class BuiltIn (R : Type) [ClientRequestLike R] : Prop where
  host (r : R) (s : Str) : ClientRequestLike.host r = some s → ∀ c ∈ s, VisibleChar c
  digest (r : R) (d : HttpDigest) (s : Str) : (ClientRequestLike.computeDigest r d).2 = some s → ∃ b, s = d.digest b
  computed (r : R) (k : SignatureComponent) :
    (∃ v, RequestLike.derive r k = .ok v) ↔ ∀ d, k = .derived d → ∃ s, d.item.bare = .string s

theorem derived_computed (d : DerivedComponent) (host : Option Str) (m : Method) (u : Url) :
    (∃ v, d.derive host m u = .ok v) ↔ ∃ s, d.item.bare = .string s := by
  unfold DerivedComponent.derive DerivedComponent.name BareItem.asStr
  cases hb : d.item.bare <;> simp [Bind.bind, Except.bind, pure, Except.pure]

instance : BuiltIn ReqwestRequest where
  host r s h := visible_iff.1 (Url.host_visible (u := r.url) h)
  digest r d s h := by
    simp only [ClientRequestLike.computeDigest] at h
    split at h
    · cases h; exact ⟨_, rfl⟩
    · cases h
  computed r k := by
    cases k with
    | header h => exact ⟨(fun _ d hd => by cases hd), fun _ => ⟨_, rfl⟩⟩
    | derived d =>
      refine (derived_computed d r.url.host r.method r.url).trans ⟨?_, fun h => h d rfl⟩
      rintro h d' hd
      cases hd; exact h

instance : BuiltIn BlockingRequest where
  host r s h := visible_iff.1 (Url.host_visible (u := r.url) h)
  digest r d s h := by
    simp only [ClientRequestLike.computeDigest] at h
    split at h
    · cases h; exact ⟨_, rfl⟩
    · cases h; exact ⟨_, rfl⟩
    · cases h
  computed r k := by
    cases k with
    | header h => exact ⟨(fun _ d hd => by cases hd), fun _ => ⟨_, rfl⟩⟩
    | derived d =>
      refine (derived_computed d r.url.host r.method r.url).trans ⟨?_, fun h => h d rfl⟩
      rintro h d' hd
      cases hd; exact h

instance : BuiltIn MockRequest where
  host r s h := by cases h
  digest r d s h := by
    simp only [ClientRequestLike.computeDigest] at h
    obtain ⟨b, _, e⟩ := Option.map_eq_some_iff.1 h
    exact ⟨b, e.symm⟩
  computed r k := by
    cases k with
    | header h => exact ⟨(fun _ d hd => by cases hd), fun _ => ⟨_, rfl⟩⟩
    | derived d =>
      refine (derived_computed d none r.method r.url).trans ⟨?_, fun h => h d rfl⟩
      rintro h d' hd
      cases hd; exact h

/-- The signature algorithms of the library, of either back end, with any key. -/
inductive LibrarySigner : HttpSignatureSign → Prop
  | hmac256 (key : Bytes) : LibrarySigner (hmacSha256Sign key)
  | hmac512 (key : Bytes) : LibrarySigner (hmacSha512Sign key)
  | asym {e : AlgEntry} (key : Bytes) : e ∈ ringTable ++ opensslTable → LibrarySigner (e.signer key)

theorem librarySigner_plain {a : HttpSignatureSign} (h : LibrarySigner a) : PlainSignatures a := by
  cases h with
  | hmac256 key => exact (C112_algorithms key).1
  | hmac512 key => exact (C112_algorithms key).2.1
  | asym key _ => exact (C112_algorithms key).2.2 _

theorem librarySigner_name {a : HttpSignatureSign} (h : LibrarySigner a) : ∀ c ∈ a.name, 32 ≤ c.toNat ∧ c.toNat < 127 := by
  have table : ∀ e ∈ ringTable ++ opensslTable, ∀ c ∈ e.name, 32 ≤ c.toNat ∧ c.toNat < 127 := by decide
  cases h with
  | hmac256 key => show ∀ c ∈ str% "hmac-sha256", _; decide
  | hmac512 key => show ∀ c ∈ str% "hmac-sha512", _; decide
  | asym key he => exact table _ he

section
variable {R : Type} [ClientRequestLike R] [LawfulClient R] [BuiltIn R]

theorem autoVisible_builtIn (r : R) {config : SigningConfig} (hd : StandardDigest config.digest) : AutoVisible r config := by
  constructor
  · exact fun _ s hs => visible_iff.2 (BuiltIn.host r s hs)
  · intro _ s hs
    obtain ⟨b, rfl⟩ := BuiltIn.digest r config.digest s hs
    obtain ⟨_, _, hn, hb⟩ := standard_facts hd
    obtain ⟨t, ht⟩ := hb b
    rw [ht, visible_iff]
    intro c hc
    simp only [List.mem_append] at hc
    rcases hc with (hc | hc) | hc
    · exact hn c hc
    · simp only [List.mem_singleton] at hc; subst hc; exact .inl (by decide)
    · exact base64_visible t c hc

theorem autoOk_of_visible {r : R} {config : SigningConfig} (h : AutoVisible r config) : AutoOk r config := by
  have plain : ∀ s : Str, s.all isVisibleChar = true → ∀ c ∈ s, ¬ Control c := by
    intro s hs c hc hctl
    rcases visible_iff.1 hs c hc with h | h <;> rcases hctl with ⟨h1, h2⟩ | h1
    · omega
    · omega
    · exact h2 (Char.toNat_inj.1 h)
    · omega
  exact ⟨fun hw s hs => plain _ (h.host hw s hs), fun hw s hs => plain _ (h.digest hw s hs)⟩

/-- A configuration whose key id is printable, whose times have at most 15 digits and whose nonce is a token or empty. -/
structure PlainConfig (config : SigningConfig) (now : Int) : Prop where
  keyid : ∀ c ∈ config.keyId, 32 ≤ c.toNat ∧ c.toNat < 127
  created : ∀ t, createdTime config now = some t → -999999999999999 ≤ t ∧ t ≤ 999999999999999
  expires : ∀ t, expiresTime config now = some t → -999999999999999 ≤ t ∧ t ≤ 999999999999999
  nonce : ∀ n, config.nonce = some n → TokenText n

theorem writable_library {config : SigningConfig} {now : Int} (ha : LibrarySigner config.signature) :
    WritableParams config now ↔ PlainConfig config now :=
  ⟨fun h => ⟨h.keyid, h.created, h.expires, h.nonce⟩, fun h => ⟨librarySigner_name ha, h.keyid, h.created, h.expires, h.nonce⟩⟩

/-- C115. Exactly when signing panics: the clock is before the epoch; or a covered component is derived and its name is not a string (which
matters only if missing components are skipped or the times are acceptable); or the times are acceptable, no component is missing (or
missing ones are skipped) and the key id, a time, the nonce or a component that has a value cannot be written. -/
theorem C115_panics (r : R) (config : SigningConfig) (env : SignEnv) (ha : LibrarySigner config.signature)
    (hd : StandardDigest config.digest) :
    (∃ p, sign r config env = .error p) ↔
      env.sysNow < 0 ∨
      ((config.skipMissing = true ∨ TimesOk config (env.sysNow / 1000000000)) ∧
        ∃ d, .derived d ∈ config.components ∧ ∀ s, d.item.bare ≠ .string s) ∨
      (TimesOk config (env.sysNow / 1000000000) ∧
        (config.skipMissing = true ∨ ∀ k ∈ config.components, Available r config k) ∧
        (¬ PlainConfig config (env.sysNow / 1000000000) ∨
          ∃ k ∈ config.components, Available r config k ∧ ∀ i, ¬ ListIdent k i)) := by
  have hvis := autoVisible_builtIn r hd
  have named : (∃ k ∈ config.components, ∃ p, RequestLike.derive r k = .error p) ↔
      ∃ d, .derived d ∈ config.components ∧ ∀ s, d.item.bare ≠ .string s := by
    constructor
    · rintro ⟨k, hk, p, hp⟩
      have hn : ¬ ∃ v, RequestLike.derive r k = .ok v := by rintro ⟨v, hv⟩; rw [hp] at hv; cases hv
      rw [BuiltIn.computed] at hn
      cases k with
      | header h => exact absurd (fun d hd => by cases hd) hn
      | derived d =>
        refine ⟨d, hk, fun s hs => hn fun d' hd => ?_⟩
        cases hd; exact ⟨s, hs⟩
    · rintro ⟨d, hk, hs⟩
      refine ⟨_, hk, ?_⟩
      cases hv : RequestLike.derive r (.derived d) with
      | error p => exact ⟨p, rfl⟩
      | ok v =>
        obtain ⟨s, h⟩ := (BuiltIn.computed r (.derived d)).1 ⟨v, hv⟩ d rfl
        exact absurd h (hs s)
  rw [C28_exact r config env (.inr hvis), named, writable_library ha]
  exact ⟨fun h => h.resolve_left fun h => h (autoOk_of_visible hvis), .inr⟩

/-- C115. Exactly when signing succeeds. -/
theorem C115_success (r : R) (config : SigningConfig) (env : SignEnv) (ha : LibrarySigner config.signature)
    (hd : StandardDigest config.digest) :
    (∃ r', sign r config env = .ok (r', .ok ())) ↔
      0 ≤ env.sysNow ∧ TimesOk config (env.sysNow / 1000000000) ∧
      (∀ d, .derived d ∈ config.components → ∃ s, d.item.bare = .string s) ∧
      (config.skipMissing = true ∨ ∀ k ∈ config.components, Available r config k) ∧
      PlainConfig config (env.sysNow / 1000000000) ∧
      (∀ k ∈ config.components, Available r config k → ∃ i, ListIdent k i) ∧
      ∀ c ∈ config.label, ¬ Control c := by
  have hvis := autoVisible_builtIn r hd
  have named : (∀ k ∈ config.components, ∃ v, RequestLike.derive r k = .ok v) ↔
      ∀ d, .derived d ∈ config.components → ∃ s, d.item.bare = .string s := by
    constructor
    · exact fun h d hk => (BuiltIn.computed r _).1 (h _ hk) d rfl
    · intro h k hk
      refine (BuiltIn.computed r k).2 fun d e => ?_
      subst e; exact h d hk
  rw [C112_success r config env (.inr hvis) (librarySigner_plain ha), named, writable_library ha]
  exact ⟨fun h => h.2, fun h => ⟨autoOk_of_visible hvis, h⟩⟩

/-- C115. If it returns, its result is the one that the request and the configuration determine. -/
theorem C115_result (r r' : R) (config : SigningConfig) (env : SignEnv) (res : Except Error Unit) (ha : LibrarySigner config.signature)
    (hd : StandardDigest config.digest) (h : sign r config env = .ok (r', res)) (x : Except Error Unit) :
    SignResult r config (env.sysNow / 1000000000) x ↔ x = res :=
  C112_result r r' config env res (.inr (autoVisible_builtIn r hd)) (librarySigner_plain ha) h x

end

/-- The assumptions hold of every configuration made with `new_default` and setters other than the one for the digest. -/
example (key : Bytes) : LibrarySigner (SigningConfig.newDefault (str% "l") (str% "k") key).signature ∧
    StandardDigest (SigningConfig.newDefault (str% "l") (str% "k") key).digest := ⟨.hmac256 key, .inl rfl⟩

/-- All three theorems apply to a request with automatic headers that misses one of its components. -/
example (key : Bytes) (env : SignEnv) (hn : 0 ≤ env.sysNow) :
    ∃ r', sign exReqwest (((SigningConfig.newDefault (str% "l") (str% "k") key).setComponents [.header hDigest, .header hSignature]).setSkipMissing false)
      env = .ok (r', .error .canonicalize) := by
  have hres : SignResult exReqwest (((SigningConfig.newDefault (str% "l") (str% "k") key).setComponents
      [.header hDigest, .header hSignature]).setSkipMissing false) (env.sysNow / 1000000000) (.error .canonicalize) := by
    refine .missing ⟨(fun t h => by cases h), (fun t h => by cases h)⟩ rfl ⟨.header hSignature, by
      show _ ∈ [SignatureComponent.header hDigest, .header hSignature]; simp, ?_⟩
    rintro (h | ⟨h, _⟩ | ⟨h, _⟩ | ⟨h, _⟩)
    · exact h rfl
    · cases h
    · cases h
    · cases h
  cases h : sign exReqwest (((SigningConfig.newDefault (str% "l") (str% "k") key).setComponents
      [.header hDigest, .header hSignature]).setSkipMissing false) env with
  | ok x =>
    obtain ⟨r', res⟩ := x
    rw [(C115_result _ _ _ _ _ (.hmac256 key) (.inl rfl) h _).1 hres]
    exact ⟨r', rfl⟩
  | error p =>
    exfalso
    rcases (C115_panics _ _ _ (.hmac256 key) (.inl rfl)).1 ⟨p, h⟩ with h | ⟨_, d, hk, _⟩ | ⟨_, h | h, _⟩
    · omega
    · have hk : SignatureComponent.derived d ∈ [SignatureComponent.header hDigest, .header hSignature] := hk
      simp at hk
    · cases h
    · rcases h (.header hSignature) (by show _ ∈ [SignatureComponent.header hDigest, .header hSignature]; simp) with h | ⟨h, _⟩ | ⟨h, _⟩ | ⟨h, _⟩
      · exact h rfl
      · cases h
      · cases h
      · cases h

end Httpsig
