import Verif.Lemmas.Clock
import Verif.Spec.Example
/- What signing leaves alone, and what it adds. -/
set_option linter.unusedSectionVars false
namespace Httpsig
open Sfv
variable [Deps] {R : Type} [ClientRequestLike R]

theorem Touches.mono {w w' : HeaderName → Prop} {r r' : R} (h : Touches w r r') (hw : ∀ n, w n → w' n) :
    Touches w' r r' := by
  induction h with
  | refl => exact .refl
  | set n v hn _ ih => exact .set n v (hw n hn) ih
  | digest d _ ih => exact .digest d ih

theorem Touches.trans {w : HeaderName → Prop} {r r' r'' : R} (h : Touches w r r') (h' : Touches w r' r'') :
    Touches w r r'' := by
  induction h' with
  | refl => exact h
  | set n v hn _ ih => exact .set n v hn ih
  | digest d _ ih => exact .digest d ih

theorem Touches.derive [LawfulClient R] {w : HeaderName → Prop} {r r' : R} (h : Touches w r r') {k : SignatureComponent}
    (hk : ∀ n, w n → k ≠ .header n) : RequestLike.derive r' k = RequestLike.derive r k := by
  induction h with
  | refl => rfl
  | set n v hn _ ih => rw [LawfulClient.derive_set_ne _ _ _ _ (hk n hn), ih]
  | digest d _ ih => rw [LawfulClient.derive_digest, ih]

theorem Touches.reqwest {w : HeaderName → Prop} {r r' : ReqwestRequest} (h : Touches w r r') :
    r'.method = r.method ∧ r'.url = r.url ∧ r'.body = r.body ∧
      ∀ n, ¬ w n → r'.headers.getAll n = r.headers.getAll n := by
  induction h with
  | refl => exact ⟨rfl, rfl, rfl, fun _ _ => rfl⟩
  | @set r1 n v hn _ ih =>
    refine ⟨ih.1, ih.2.1, ih.2.2.1, fun m hm => ?_⟩
    rw [← ih.2.2.2 m hm]
    exact HeaderMap.getAll_insert_ne _ v fun e => hm (e ▸ hn)
  | @digest r1 d _ ih =>
    have : (ClientRequestLike.computeDigest r1 d).1 = r1 := by
      simp only [ClientRequestLike.computeDigest]
      split <;> rfl
    rw [this]
    exact ih

/-- What a blocking body contains, whether in memory or still to be read. -/
def BlockingBody.content : BlockingBody → Option Bytes
  | .absent => none
  | .bytes b => some b
  | .reader c => c

theorem Touches.blocking {w : HeaderName → Prop} {r r' : BlockingRequest} (h : Touches w r r') :
    r'.method = r.method ∧ r'.url = r.url ∧ r'.body.content = r.body.content ∧
      ∀ n, ¬ w n → r'.headers.getAll n = r.headers.getAll n := by
  induction h with
  | refl => exact ⟨rfl, rfl, rfl, fun _ _ => rfl⟩
  | @set r1 n v hn _ ih =>
    refine ⟨ih.1, ih.2.1, ih.2.2.1, fun m hm => ?_⟩
    rw [← ih.2.2.2 m hm]
    exact HeaderMap.getAll_insert_ne _ v fun e => hm (e ▸ hn)
  | @digest r1 d _ ih =>
    have : (ClientRequestLike.computeDigest r1 d).1.method = r1.method ∧
        (ClientRequestLike.computeDigest r1 d).1.url = r1.url ∧
        (ClientRequestLike.computeDigest r1 d).1.body.content = r1.body.content ∧
        (ClientRequestLike.computeDigest r1 d).1.headers = r1.headers := by
      simp only [ClientRequestLike.computeDigest]
      split
      · exact ⟨rfl, rfl, rfl, rfl⟩
      · rename_i h; exact ⟨rfl, rfl, by simp [h, BlockingBody.content], rfl⟩
      · exact ⟨rfl, rfl, rfl, rfl⟩
    rw [this.1, this.2.1, this.2.2.1, this.2.2.2]
    exact ih

theorem Touches.mock {w : HeaderName → Prop} {r r' : MockRequest} (h : Touches w r r') :
    r'.version = r.version ∧ r'.method = r.method ∧ r'.url = r.url ∧ r'.path = r.path ∧ r'.body = r.body ∧
      ∀ n, ¬ w n → r'.headers.getAll n = r.headers.getAll n := by
  induction h with
  | refl => exact ⟨rfl, rfl, rfl, rfl, rfl, fun _ _ => rfl⟩
  | @set r1 n v hn _ ih =>
    refine ⟨ih.1, ih.2.1, ih.2.2.1, ih.2.2.2.1, ih.2.2.2.2.1, fun m hm => ?_⟩
    rw [← ih.2.2.2.2.2 m hm]
    exact HeaderMap.getAll_insert_ne _ v fun e => hm (e ▸ hn)
  | @digest r1 d _ ih => exact ih

variable [LawfulClient R]

theorem header_ne {a b : HeaderName} (h : a ≠ b) : SignatureComponent.header a ≠ .header b := fun e => h (by cases e; rfl)

theorem hHost_ne_hDate : hHost ≠ hDate := fun e => absurd (congrArg HeaderName.str e) (by decide : (str% "host") ≠ str% "date")
theorem hDigest_ne_hDate : hDigest ≠ hDate := fun e => absurd (congrArg HeaderName.str e) (by decide : (str% "digest") ≠ str% "date")
theorem hDigest_ne_hHost : hDigest ≠ hHost := fun e => absurd (congrArg HeaderName.str e) (by decide : (str% "digest") ≠ str% "host")
theorem hSignature_ne_hInput : hSignature ≠ hSignatureInput :=
  fun e => absurd (congrArg HeaderName.str e) (by decide : (str% "signature") ≠ str% "signature-input")
theorem hSignature_ne_hDate : hSignature ≠ hDate := fun e => absurd (congrArg HeaderName.str e) (by decide : (str% "signature") ≠ str% "date")
theorem hSignature_ne_hHost : hSignature ≠ hHost := fun e => absurd (congrArg HeaderName.str e) (by decide : (str% "signature") ≠ str% "host")
theorem hSignature_ne_hDigest : hSignature ≠ hDigest := fun e => absurd (congrArg HeaderName.str e) (by decide : (str% "signature") ≠ str% "digest")
theorem hInput_ne_hDate : hSignatureInput ≠ hDate := fun e => absurd (congrArg HeaderName.str e) (by decide : (str% "signature-input") ≠ str% "date")
theorem hInput_ne_hHost : hSignatureInput ≠ hHost := fun e => absurd (congrArg HeaderName.str e) (by decide : (str% "signature-input") ≠ str% "host")
theorem hInput_ne_hDigest : hSignatureInput ≠ hDigest := fun e => absurd (congrArg HeaderName.str e) (by decide : (str% "signature-input") ≠ str% "digest")

theorem AutoWrite.mayWrite {r : R} {config : SigningConfig} {h : HeaderName} (hw : AutoWrite r config h) : MayWrite r config h :=
  Or.inr (Or.inr hw)

theorem addDate_facts {r r1 : R} {config : SigningConfig} {env : SignEnv} (h : addDateHeader r config env = .ok r1) :
    Touches (AutoWrite r config) r r1 ∧ (∀ k, k ≠ .header hDate → RequestLike.derive r1 k = RequestLike.derive r k) ∧
    (AutoWrite r config hDate → RequestLike.derive r1 (.header hDate) = .ok (some (formatDate env.utcNow))) := by
  rcases addDateHeader_iff.1 h with ⟨h1, h2, v, h3, rfl⟩ | ⟨h1, rfl⟩
  · refine ⟨.set _ _ ⟨.inl ⟨rfl, h1⟩, h2⟩ .refl, fun k hk => LawfulClient.derive_set_ne _ _ _ _ hk, fun _ => ?_⟩
    obtain ⟨v', hv', hs⟩ := fromStr_visible (formatDate_visible env.utcNow)
    rw [h3] at hv'; cases hv'
    exact LawfulClient.derive_set_same _ _ _ _ hs
  · refine ⟨.refl, fun _ _ => rfl, fun ⟨hw, hn⟩ => ?_⟩
    rcases h1 with h1 | ⟨s, h1⟩
    · rcases hw with ⟨_, h⟩ | ⟨e, _⟩ | ⟨e, _⟩
      · rw [h1] at h; cases h
      · exact absurd e.symm hHost_ne_hDate
      · exact absurd e.symm hDigest_ne_hDate
    · rw [h1] at hn; cases hn

theorem addHost_facts {r r1 : R} {config : SigningConfig} (h : addHostHeader r config = .ok r1) :
    Touches (AutoWrite r config) r r1 ∧ (∀ k, k ≠ .header hHost → RequestLike.derive r1 k = RequestLike.derive r k) ∧
    (AutoWrite r config hHost → ∀ s, ClientRequestLike.host r = some s → s.all isVisibleChar = true →
      RequestLike.derive r1 (.header hHost) = .ok (some s)) := by
  rcases addHostHeader_iff.1 h with ⟨host, v, h1, h2, h3, h4, rfl⟩ | ⟨h1, rfl⟩
  · refine ⟨.set _ _ ⟨.inr (.inl ⟨rfl, h1⟩), h2⟩ .refl, fun k hk => LawfulClient.derive_set_ne _ _ _ _ hk, fun _ s hs hvis => ?_⟩
    rw [h3] at hs; cases hs
    obtain ⟨v', hv', hs⟩ := fromStr_visible hvis
    rw [h4] at hv'; cases hv'
    exact LawfulClient.derive_set_same _ _ _ _ hs
  · refine ⟨.refl, fun _ _ => rfl, fun ⟨hw, hn⟩ s hs _ => ?_⟩
    rcases h1 with h1 | ⟨s, h1⟩ | h1
    · rcases hw with ⟨e, _⟩ | ⟨_, h⟩ | ⟨e, _⟩
      · exact absurd e hHost_ne_hDate
      · rw [h1] at h; cases h
      · exact absurd e.symm hDigest_ne_hHost
    · rw [h1] at hn; cases hn
    · rw [h1] at hs; cases hs

theorem addDigest_facts {r r1 : R} {config : SigningConfig} (h : addDigestHeader r config = .ok r1) :
    Touches (AutoWrite r config) r r1 ∧ (∀ k, k ≠ .header hDigest → RequestLike.derive r1 k = RequestLike.derive r k) ∧
    (AutoWrite r config hDigest → ∀ s, (ClientRequestLike.computeDigest r config.digest).2 = some s →
      (config.digest.name ++ str% "=" ++ s).all isVisibleChar = true →
      RequestLike.derive r1 (.header hDigest) = .ok (some (config.digest.name ++ str% "=" ++ s))) ∧
    (AutoWrite r config hDigest → (ClientRequestLike.computeDigest r config.digest).2 = none →
      RequestLike.derive r1 (.header hDigest) = .ok none) := by
  rcases addDigestHeader_iff.1 h with ⟨s, v, h1, h2, h3, h4, rfl⟩ | ⟨h1, h2, h3, rfl⟩ | ⟨h1, rfl⟩
  · refine ⟨.set _ _ ⟨.inr (.inr ⟨rfl, h1⟩), h2⟩ (.digest _ .refl), fun k hk => ?_, fun _ s' hs' hvis => ?_, fun _ hn => ?_⟩
    · rw [LawfulClient.derive_set_ne _ _ _ _ hk, LawfulClient.derive_digest]
    · rw [h3] at hs'; cases hs'
      obtain ⟨v', hv', hs⟩ := fromStr_visible hvis
      rw [h4] at hv'; cases hv'
      exact LawfulClient.derive_set_same _ _ _ _ hs
    · rw [h3] at hn; cases hn
  · refine ⟨.digest _ .refl, fun k _ => LawfulClient.derive_digest _ _ _, fun _ s' hs' _ => ?_, fun hw _ => ?_⟩
    · rw [h3] at hs'; cases hs'
    · rw [LawfulClient.derive_digest]; exact h2
  · refine ⟨.refl, fun _ _ => rfl, fun ⟨hw, hn⟩ s hs _ => ?_, fun ⟨_, hn⟩ _ => hn⟩
    rcases h1 with h1 | ⟨s, h1⟩
    · rcases hw with ⟨e, _⟩ | ⟨e, _⟩ | ⟨_, h⟩
      · exact absurd e hDigest_ne_hDate
      · exact absurd e hDigest_ne_hHost
      · rw [h1] at h; cases h
    · rw [h1] at hn; cases hn

/-- What `add_auto_headers` does to a request. -/
structure AutoFacts (r r1 : R) (config : SigningConfig) (env : SignEnv) : Prop where
  touches : Touches (AutoWrite r config) r r1
  date : AutoWrite r config hDate → RequestLike.derive r1 (.header hDate) = .ok (some (formatDate env.utcNow))
  host : AutoWrite r config hHost → ∀ s, ClientRequestLike.host r = some s → s.all isVisibleChar = true →
    RequestLike.derive r1 (.header hHost) = .ok (some s)
  digest : AutoWrite r config hDigest → ∀ s, (ClientRequestLike.computeDigest r config.digest).2 = some s →
    (config.digest.name ++ str% "=" ++ s).all isVisibleChar = true →
    RequestLike.derive r1 (.header hDigest) = .ok (some (config.digest.name ++ str% "=" ++ s))
  noDigest : AutoWrite r config hDigest → (ClientRequestLike.computeDigest r config.digest).2 = none →
    RequestLike.derive r1 (.header hDigest) = .ok none

theorem addDate_other {r r1 : R} {config : SigningConfig} {env : SignEnv} (h : addDateHeader r config env = .ok r1) :
    ClientRequestLike.host r1 = ClientRequestLike.host r ∧
    ∀ d, (ClientRequestLike.computeDigest r1 d).2 = (ClientRequestLike.computeDigest r d).2 := by
  rcases addDateHeader_iff.1 h with ⟨h1, h2, v, h3, rfl⟩ | ⟨h1, rfl⟩
  · exact ⟨LawfulClient.host_set _ _ _, fun d => LawfulClient.digest_set _ _ _ d⟩
  · exact ⟨rfl, fun _ => rfl⟩

theorem addHost_other {r r1 : R} {config : SigningConfig} (h : addHostHeader r config = .ok r1) :
    ∀ d, (ClientRequestLike.computeDigest r1 d).2 = (ClientRequestLike.computeDigest r d).2 := by
  rcases addHostHeader_iff.1 h with ⟨host, v, h1, h2, h3, h4, rfl⟩ | ⟨h1, rfl⟩
  · exact fun d => LawfulClient.digest_set _ _ _ d
  · exact fun _ => rfl

theorem addAuto_facts {r r1 : R} {config : SigningConfig} {env : SignEnv} {comps : List SignatureComponent}
    (h : addAutoHeaders r config env = .ok (r1, comps)) : AutoFacts r r1 config env := by
  obtain ⟨a, b, h1, h2, h3, _⟩ := addAutoHeaders_iff.1 h
  have hdate := addDate_facts h1
  have hhost := addHost_facts h2
  have hdig := addDigest_facts h3
  have oa := addDate_other h1
  have ob := addHost_other h2
  have ea : ∀ n, n ≠ hDate → RequestLike.derive a (.header n) = RequestLike.derive r (.header n) :=
    fun n hn => hdate.2.1 _ (header_ne hn)
  have eb : ∀ n, n ≠ hDate → n ≠ hHost → RequestLike.derive b (.header n) = RequestLike.derive r (.header n) :=
    fun n hn hn' => (hhost.2.1 _ (header_ne hn')).trans (ea n hn)
  -- a step writes only its own header, so the conditions can be read on the original request
  have wa : ∀ n, n ≠ hDate → (AutoWrite a config n ↔ AutoWrite r config n) := by
    intro n hn; unfold AutoWrite; rw [ea n hn]
  have wb : ∀ n, n ≠ hDate → n ≠ hHost → (AutoWrite b config n ↔ AutoWrite r config n) := by
    intro n hn hn'; unfold AutoWrite; rw [eb n hn hn']
  have ta : Touches (AutoWrite r config) a b := by
    rcases addHostHeader_iff.1 h2 with ⟨host, v, g1, g2, g3, g4, rfl⟩ | ⟨g1, rfl⟩
    · exact .set _ _ ((wa _ hHost_ne_hDate).1 ⟨.inr (.inl ⟨rfl, g1⟩), g2⟩) .refl
    · exact .refl
  have tb : Touches (AutoWrite r config) b r1 := by
    rcases addDigestHeader_iff.1 h3 with ⟨s, v, g1, g2, g3, g4, rfl⟩ | ⟨g1, g2, g3, rfl⟩ | ⟨g1, rfl⟩
    · exact .set _ _ ((wb _ hDigest_ne_hDate hDigest_ne_hHost).1 ⟨.inr (.inr ⟨rfl, g1⟩), g2⟩) (.digest _ .refl)
    · exact .digest _ .refl
    · exact .refl
  refine ⟨(hdate.1.trans ta).trans tb, fun hw => ?_, fun hw s hs hvis => ?_, fun hw s hs hvis => ?_, fun hw hs => ?_⟩
  · rw [hdig.2.1 _ (header_ne hDigest_ne_hDate.symm), hhost.2.1 _ (header_ne hHost_ne_hDate.symm)]
    exact hdate.2.2 hw
  · rw [hdig.2.1 _ (header_ne hDigest_ne_hHost.symm)]
    exact hhost.2.2 ((wa _ hHost_ne_hDate).2 hw) s (by rw [oa.1, hs]) hvis
  · exact hdig.2.2.1 ((wb _ hDigest_ne_hDate hDigest_ne_hHost).2 hw) s (by rw [ob, oa.2, hs]) hvis
  · exact hdig.2.2.2 ((wb _ hDigest_ne_hDate hDigest_ne_hHost).2 hw) (by rw [ob, oa.2, hs])

/-- When the request has no digest to offer, the digest header is not written. -/
theorem addAuto_noDigest {r r1 : R} {config : SigningConfig} {env : SignEnv} {comps : List SignatureComponent}
    (hd : (ClientRequestLike.computeDigest r config.digest).2 = none)
    (h : addAutoHeaders r config env = .ok (r1, comps)) : Touches (fun n => n ≠ hDigest) r r1 := by
  obtain ⟨a, b, h1, h2, h3, _⟩ := addAutoHeaders_iff.1 h
  have oa := addDate_other h1
  have ob := addHost_other h2
  have t0 : Touches (fun n => n ≠ hDigest) r a := by
    rcases addDateHeader_iff.1 h1 with ⟨_, _, v, _, rfl⟩ | ⟨_, rfl⟩
    · exact .set _ _ hDigest_ne_hDate.symm .refl
    · exact .refl
  have t1 : Touches (fun n => n ≠ hDigest) a b := by
    rcases addHostHeader_iff.1 h2 with ⟨host, v, g1, g2, g3, g4, rfl⟩ | ⟨g1, rfl⟩
    · exact .set _ _ hDigest_ne_hHost.symm .refl
    · exact .refl
  have t2 : Touches (fun n => n ≠ hDigest) b r1 := by
    rcases addDigestHeader_iff.1 h3 with ⟨s, v, g1, g2, g3, g4, rfl⟩ | ⟨g1, g2, g3, rfl⟩ | ⟨g1, rfl⟩
    · rw [ob, oa.2, hd] at g3; cases g3
    · exact .digest _ .refl
    · exact .refl
  exact (t0.trans t1).trans t2

theorem sign_noDigest {r r' : R} {config : SigningConfig} {env : SignEnv} {res : Except Error Unit}
    (hd : (ClientRequestLike.computeDigest r config.digest).2 = none)
    (h : sign r config env = .ok (r', res)) : Touches (fun n => n ≠ hDigest) r r' := by
  obtain ⟨r1, comps, ha, _, h⟩ := sign_iff.1 h
  have t := addAuto_noDigest hd ha
  rcases h with ⟨e, _, rfl, _⟩ | ⟨cc, _, ⟨e, _, rfl, _⟩ | ⟨base, si, x, _, _, ⟨_, rfl, _⟩ | ⟨v, _, ⟨_, rfl, _⟩ | ⟨w, _, rfl, _⟩⟩⟩⟩
  · exact t
  · exact t
  · exact t
  · exact .set _ _ hInput_ne_hDigest t
  · exact .set _ _ hSignature_ne_hDigest (.set _ _ hInput_ne_hDigest t)

/-- Everything `sign` writes. -/
theorem sign_touches {r r' : R} {config : SigningConfig} {env : SignEnv} {res : Except Error Unit}
    (h : sign r config env = .ok (r', res)) : Touches (MayWrite r config) r r' := by
  obtain ⟨r1, comps, ha, _, h⟩ := sign_iff.1 h
  have t : Touches (MayWrite r config) r r1 := (addAuto_facts ha).touches.mono fun _ => AutoWrite.mayWrite
  rcases h with ⟨e, _, rfl, _⟩ | ⟨cc, _, ⟨e, _, rfl, _⟩ | ⟨base, si, x, _, _, ⟨_, rfl, _⟩ | ⟨v, _, ⟨_, rfl, _⟩ | ⟨w, _, rfl, _⟩⟩⟩⟩
  · exact t
  · exact t
  · exact t
  · exact .set _ _ (.inr (.inl rfl)) t
  · exact .set _ _ (.inl rfl) (.set _ _ (.inr (.inl rfl)) t)

end Httpsig
