import Verif.Spec.Forgery
import Verif.Props.BaseExact
import Verif.Lemmas.EndToEnd
import Verif.Props.EndToEnd
/-
C75: what an acceptance proves about the requests that were signed.
-/
set_option linter.unusedSectionVars false
namespace Httpsig
open Sfv
variable [Deps] {R S Rem : Type} [ClientRequestLike R] [LawfulClient R] [ServerRequestLike S Rem]

theorem values_forall2 {R S : Type} [RequestLike R] [RequestLike S] {r : R} {s : S} {p : SignatureComponent → SignatureComponent → Prop}
    {cs ds : List SignatureComponent} (h : Forall2 p cs ds) : ∀ {vals : List Str}, Values r cs vals → Values s ds vals →
    Forall2 (fun k k' => p k k' ∧ ∃ v, RequestLike.derive r k = .ok (some v) ∧ RequestLike.derive s k' = .ok (some v)) cs ds := by
  induction h with
  | nil => intros; exact .nil
  | cons h1 _ ih =>
    intro vals hr hs
    obtain ⟨v, vs, rfl, a, b⟩ := (Values.cons_iff).1 hr
    obtain ⟨v', vs', e, a', b'⟩ := (Values.cons_iff).1 hs
    cases e
    exact .cons ⟨h1, v, a, a'⟩ (ih b b')

/-- A signing event has exactly one signed text, which is the base of its table of values. -/
theorem SigningEvent.canonical (e : SigningEvent R) : ∃ base si, e.Base base ∧
    canonicalize (Table.mk e.value) (signedInput e.before e.after e.config e.second) = .ok (.ok (base, si)) ∧
    ∀ base', e.Base base' → base' = base := by
  obtain ⟨r1, ids, lids, vals, vi, vs, _, _, _, hw, hsv, h1, h2, h3, h4, h5, hr'⟩ := sign_success e.ok
  have hm : (coveredComponents e.before e.after e.config).map (signedValue e.before e.after) = vals.map some := by
    rw [← values_of_map h1]
    exact List.map_congr_left fun k _ => hsv k
  refine ⟨_, _, ⟨ids, lids, vals, h2, h3, hm, rfl⟩, canonicalize_ok_iff.2 ⟨vals, ids, lids, _, ?_, h2, h3, paramsText_signed_iff.2 ⟨hw, rfl⟩, rfl, rfl⟩, ?_⟩
  · unfold Values
    have := congrArg (List.map (fun v => (Except.ok v : P (Option Str)))) hm
    rw [List.map_map, List.map_map] at this
    exact this
  · rintro base' ⟨ids', lids', vals', a, b, c, rfl⟩
    have e1 : ids' = ids := forall2_det (r := Ident) (fun _ _ _ a b => a.det b) a h2
    have e2 : lids' = lids := forall2_det (r := ListIdent) (fun _ _ _ a b => a.det b) b h3
    have e3 : vals' = vals := by
      rw [hm] at c
      exact (List.map_inj_right fun _ _ h => Option.some.inj h).1 c.symm
    rw [e1, e2, e3]

theorem signedParams_tidy {config : SigningConfig} {now : Int} (hn : config.nonce ≠ some []) : ParamsTidy (SignedParams config now) :=
  have h := signedParams_clean (now := now) hn
  ⟨h.1, fun e he => ⟨(h.2 e he).1, (h.2 e he).2.tidy⟩⟩

/-- A text determines what was signed in the event `e` and what any request that has it as its base says. -/
def SigningEvent.Determined (e : SigningEvent R) (req : S) : Prop :=
  ∀ c base si si', canonicalize (Table.mk e.value) (signedInput e.before e.after e.config e.second) = .ok (.ok (base, si)) →
    canonicalize req c = .ok (.ok (base, si')) → (∀ k ∈ c.components, ComponentTidy k) → ParamsTidy c.params.params →
    Forall2 ComponentSame e.covered c.components ∧ ParamsSame (SignedParams e.config e.second) c.params.params ∧
      ∃ vals, Values (Table.mk e.value) e.covered vals ∧ Values req c.components vals

/-- An accepted request says what was signed in an event, or a text that was never signed is accepted. -/
theorem authentic_or_forged (events : List (SigningEvent R)) (req : S) (hn : ∀ e ∈ events, e.config.nonce ≠ some [])
    (he : ∀ e ∈ events, e.Determined req) (vc : VerifyingConfig)
    (venv : VerifyEnv) (rem : Rem) (kid : Str) (h : verify req vc venv = .ok (.ok (rem, kid))) :
    ∃ v c w label sig base si, RequestLike.derive req (.header hSignatureInput) = .ok (some v) ∧
      CanonicalizeConfig.fromSignatureInput v = .ok (.ok c) ∧ canonicalize req c = .ok (.ok (base, si)) ∧
      RequestLike.derive req (.header hSignature) = .ok (some w) ∧ SignatureHeader w label sig ∧
      (∃ k ∈ vc.keyProvider kid, k.verify base sig = true) ∧
      ((∃ e ∈ events, e.config.keyId = kid ∧ Authentic e req c.components c.params.params) ∨ ∀ e ∈ events, ¬ e.Base base) := by
  obtain ⟨c, sig, base, hok, -⟩ := verify_ok_iff.1 h
  obtain ⟨v, hv, hc⟩ := hok.input
  obtain ⟨si, hcan⟩ := hok.canon
  obtain ⟨w, label, hw, hl, _⟩ := hok.signature
  refine ⟨v, c, w, label, sig, base, si, hv, hc, hcan, hw, hl, hok.key, ?_⟩
  by_cases hx : ∃ e ∈ events, e.Base base
  · left
    obtain ⟨e, hm, hb⟩ := hx
    obtain ⟨base', si', _, hcan', hu⟩ := e.canonical
    obtain rfl := hu _ hb
    obtain ⟨_, hcs, hps⟩ := fromSignatureInput_spec hc
    have hpc := signedParams_clean (now := e.second) (hn e hm)
    obtain ⟨h1, h2, vals, h3, h4⟩ := he e hm c base si' si hcan' hcan (fun k hk => componentRead_tidy (hcs k hk)) (paramsOk_tidy hps)
    have hkid : e.config.keyId = kid := by
      have hs := same_param h2 (str% "keyid")
      rw [IMap.get_of_mem hpc.1 (signedParams_keyid.2 rfl), IMap.get_of_mem (paramsOk_tidy hps).1 hok.keyid] at hs
      exact Option.some.inj hs
    refine ⟨e, hm, hkid, ⟨?_, h2⟩⟩
    refine forall2_mono (values_forall2 h1 h3 h4) fun _ _ _ h => ?_
    obtain ⟨a, v, b, d⟩ := h
    refine ⟨a, v, ?_, d⟩
    cases hval : e.value _ with
    | none => simp [RequestLike.derive, hval] at b
    | some w => simpa [RequestLike.derive, hval] using b
  · exact .inr fun e hm hb => hx ⟨e, hm, hb⟩

/-- C75. Whatever was signed, by any number of signing calls with any keys and configurations: an accepted request says
exactly what was signed in one of these calls (same components with the same values, same parameters, and so the same key
id), or one of the keys provided for its key id accepts its signature on a text that was never signed. -/
theorem C75_authentic_or_forged (events : List (SigningEvent R)) (he : ∀ e ∈ events, e.Careful) (req : S) (vc : VerifyingConfig)
    (venv : VerifyEnv) (rem : Rem) (kid : Str) (h : verify req vc venv = .ok (.ok (rem, kid))) :
    ∃ v c w label sig base si, RequestLike.derive req (.header hSignatureInput) = .ok (some v) ∧
      CanonicalizeConfig.fromSignatureInput v = .ok (.ok c) ∧ canonicalize req c = .ok (.ok (base, si)) ∧
      RequestLike.derive req (.header hSignature) = .ok (some w) ∧ SignatureHeader w label sig ∧
      (∃ k ∈ vc.keyProvider kid, k.verify base sig = true) ∧
      ((∃ e ∈ events, e.config.keyId = kid ∧ Authentic e req c.components c.params.params) ∨ ∀ e ∈ events, ¬ e.Base base) :=
  authentic_or_forged events req (fun e hm => (he e hm).nonce)
    (fun e hm c base si si' h1 h2 hc hp => C05_unconfusable_partial (Table.mk e.value) req _ c base si si' h1 h2
      (fun k hk => (he e hm).components k (covered_subset hk)) (signedParams_tidy (he e hm).nonce) hc hp (he e hm).values)
    vc venv rem kid h

/-- Signing a `reqwest` request whose decoded query values contain no double quote is careful, however many
`@query-params` it covers. -/
theorem SigningEvent.careful_reqwest (e : SigningEvent ReqwestRequest) (ht : ∀ k ∈ e.config.components, ComponentTidy k)
    (hn : e.config.nonce ≠ some []) (hq : e.before.url.QuoteFree) : e.Careful := by
  refine ⟨ht, hn, unconfusable_of_values (fun k hk => ht k (covered_subset hk)) fun k _ v hv => ?_⟩
  have hurl := (C24_reqwest_frame _ _ _ _ _ e.ok).2.1
  have key : ∀ r : ReqwestRequest, r.url = e.before.url → valueOf r k = some v → '\n' ∉ v ∨ '"' ∉ v := by
    intro r hr h
    unfold valueOf at h
    split at h
    · rename_i heq
      rw [h] at heq
      exact reqwest_value_cases (hr ▸ hq) heq
    · cases h
  have hs : signedValue e.before e.after k = some v := by
    have : (Except.ok (e.value k) : P (Option Str)) = .ok (some v) := hv
    cases h : e.value k with
    | none => rw [h] at this; cases this
    | some w => rw [h] at this; cases this; exact h
  unfold signedValue at hs
  split at hs
  · exact key _ rfl hs
  · exact key _ hurl hs

/-- C75 for signed `reqwest` requests and one HMAC key. An accepted request says exactly what one of the signed requests
said, or its `Signature` header holds the tag of a text that was never signed. -/
theorem C75_hmac_reqwest (events : List (SigningEvent ReqwestRequest))
    (he : ∀ e ∈ events, (∀ k ∈ e.config.components, ComponentTidy k) ∧ e.config.nonce ≠ some [] ∧
      e.before.url.QuoteFree)
    (req : S) (vc : VerifyingConfig) (venv : VerifyEnv) (rem : Rem) (kid name : Str) (mac : Bytes → Bytes)
    (hk : vc.keyProvider kid = [hmacVerify name mac]) (h : verify req vc venv = .ok (.ok (rem, kid))) :
    ∃ v c, RequestLike.derive req (.header hSignatureInput) = .ok (some v) ∧ CanonicalizeConfig.fromSignatureInput v = .ok (.ok c) ∧
      ((∃ e ∈ events, e.config.keyId = kid ∧ Authentic e req c.components c.params.params) ∨
      ∃ base si w label sig, canonicalize req c = .ok (.ok (base, si)) ∧ (∀ e ∈ events, ¬ e.Base base) ∧
        RequestLike.derive req (.header hSignature) = .ok (some w) ∧ SignatureHeader w label sig ∧
        Base64.strictDecode sig = some (mac base)) := by
  obtain ⟨v, c, w, label, sig, base, si, h1, h2, h3, h4, h4', ⟨k, hkm, hv⟩, h5⟩ := C75_authentic_or_forged events
    (fun e hm => e.careful_reqwest (he e hm).1 (he e hm).2.1 (he e hm).2.2) req vc venv rem kid h
  refine ⟨v, c, h1, h2, h5.imp id fun hf => ⟨base, si, w, label, sig, h3, hf, h4, h4', ?_⟩⟩
  rw [hk, List.mem_singleton] at hkm
  subst hkm
  exact hmacVerify_iff.1 hv

/-- Non-vacuity: the signed request of C06, which is accepted. -/
def exEvent : SigningEvent ReqwestRequest := ⟨exReqwest, exReqwestSigned, exSigning, exSignEnv, exReqwest_signed⟩

example : (∀ k ∈ exEvent.config.components, ComponentTidy k) ∧ exEvent.config.nonce ≠ some [] ∧
    exEvent.before.url.QuoteFree ∧ verify exArrived exVerifying exEnv = .ok (.ok ((), exEvent.config.keyId)) := by
  refine ⟨exPortable.components, exPortable.nonce, ⟨_, queryIs_iff.2 rfl, ?_⟩, rfl⟩
  · show ∀ p ∈ formParse (utf8 (exUrl.query.getD [])), _
    have : formParse (utf8 (exUrl.query.getD [])) = [(str% "param", str% "value"), (str% "pet", str% "dog")] := by
      show formParse (utf8 (str% "param=value&pet=dog")) = _
      decide +kernel
    rw [this]
    decide

end Httpsig
