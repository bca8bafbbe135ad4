import Verif.Lemmas.Verify
import Verif.Lemmas.Config3
import Verif.Lemmas.CanonInj
/- When `canonicalize` and `verify` do not panic; dependence of `canonicalize` on the request. -/
set_option linter.unusedSectionVars false
namespace Httpsig
open Sfv
variable [Deps]

section
variable {R S : Type} [RequestLike R] [RequestLike S]

theorem deriveAll_congr {r : R} {s : S} : ∀ {cs : List SignatureComponent},
    (∀ k ∈ cs, RequestLike.derive r k = RequestLike.derive s k) → deriveAll r cs = deriveAll s cs
  | [], _ => rfl
  | c :: cs, h => by
    simp only [deriveAll]
    rw [h c (by simp), deriveAll_congr fun k hk => h k (by simp [hk])]

theorem canonicalize_congr {r : R} {s : S} {c : CanonicalizeConfig}
    (h : ∀ k ∈ c.components, RequestLike.derive r k = RequestLike.derive s k) :
    canonicalize r c = canonicalize s c := by
  unfold canonicalize
  rw [deriveAll_congr h]

/-- A component that was read can be printed. -/
theorem ComponentRead.ident {k : SignatureComponent} (h : ComponentRead k) : (∃ i, Ident k i) ∧ ∃ i, ListIdent k i := by
  cases k with
  | header n =>
    exact ⟨⟨_, .header n⟩, _, .header n⟩
  | derived d =>
    obtain ⟨s, hs, _⟩ := h.2.ser
    exact ⟨⟨s, .derived d s (serItem_iff.1 hs)⟩, ⟨s, .derived d s (serItem_iff.1 hs)⟩⟩

theorem forall2_of_forall {α β : Type} {r : α → β → Prop} : ∀ {l : List α}, (∀ a ∈ l, ∃ b, r a b) → ∃ m, Forall2 r l m
  | [], _ => ⟨[], .nil⟩
  | a :: l, h => by
    obtain ⟨b, hb⟩ := h a (by simp)
    obtain ⟨m, hm⟩ := forall2_of_forall (l := l) fun a ha => h a (by simp [ha])
    exact ⟨b :: m, .cons hb hm⟩

/-- With computable component values, canonicalisation of a configuration that was read never panics. -/
theorem canonicalize_total {r : R} {c : CanonicalizeConfig} (hc : ∀ k ∈ c.components, ComponentRead k)
    (hps : ParamsOk c.params.params) (hd : ∀ k ∈ c.components, ∃ v, RequestLike.derive r k = .ok v) :
    ∃ x, canonicalize r c = .ok x := by
  have hs := deriveAll_spec r (valueOf r) c.components fun k hk => by
    obtain ⟨v, hv⟩ := hd k hk
    rw [derive_valueOf hv, hv]
  by_cases hm : c.components.filter (fun k => (valueOf r k).isNone) = []
  · rw [hm] at hs
    obtain ⟨vals, hv, _⟩ := deriveAll_nil_iff.1 hs
    obtain ⟨ids, hi⟩ := forall2_of_forall fun k hk => (hc k hk).ident.1
    obtain ⟨lids, hl⟩ := forall2_of_forall fun k hk => (hc k hk).ident.2
    obtain ⟨ps, hps, _⟩ := ParamsOk.ser hps.2
    exact ⟨_, canonicalize_ok_iff.2 ⟨vals, ids, lids, ps, hv, hi, hl, serParams_iff.1 hps, rfl, rfl⟩⟩
  · refine ⟨.error (.missingComponents (c.components.filter fun k => (valueOf r k).isNone)), ?_⟩
    unfold canonicalize
    rw [hs]
    simp only [Bind.bind, Except.bind, ne_eq, hm, not_false_eq_true, if_true]
    rfl
end

theorem checkRequired_total {input : SignatureInput} : ∀ {l : List SignatureComponent},
    (∀ k ∈ l, ∃ s, k.display = .ok s) → ∃ b, checkRequired input l = .ok b
  | [], _ => ⟨true, rfl⟩
  | c :: cs, h => by
    obtain ⟨s, hs⟩ := h c (by simp)
    obtain ⟨b, hb⟩ := checkRequired_total (input := input) (l := cs) fun k hk => h k (by simp [hk])
    simp only [checkRequired, hs, Bind.bind, Except.bind]
    split
    · exact ⟨_, rfl⟩
    · exact ⟨b, hb⟩

variable {R Rem : Type} [ServerRequestLike R Rem]

/-- `verify_signature_only` on a request whose component values are computable. -/
theorem verifySignatureOnly_total {req : R} {config : VerifyingConfig} {env : VerifyEnv} (hnow : 0 ≤ env.sysNow)
    (hd : ∀ k, ComponentRead k → ∃ v, RequestLike.derive req k = .ok v)
    (hin : ∀ v, RequestLike.derive req (.header hSignatureInput) = .ok (some v) →
      ∃ c, CanonicalizeConfig.fromSignatureInput v = .ok (.ok c)) :
    ∃ x, verifySignatureOnly req config env = .ok x := by
  unfold verifySignatureOnly
  obtain ⟨iv, hiv⟩ := hd (.header hSignatureInput) trivial
  rw [hiv]
  cases iv with
  | none => exact ⟨_, rfl⟩
  | some iv =>
  obtain ⟨c, hc⟩ := hin iv hiv
  simp only [Bind.bind, Except.bind]
  rw [hc]
  simp only
  obtain ⟨sv, hsv⟩ := hd (.header hSignature) trivial
  rw [hsv]
  cases sv with
  | none => exact ⟨_, rfl⟩
  | some sv =>
  simp only
  cases parseSignatureHeader sv with
  | none => exact ⟨_, rfl⟩
  | some p =>
  simp only
  split
  · exact ⟨_, rfl⟩
  cases c.keyid with
  | none => exact ⟨_, rfl⟩
  | some keyId =>
  cases c.alg with
  | none => exact ⟨_, rfl⟩
  | some _ =>
  simp only
  have hts : ∃ ts, unixTimestamp env.sysNow = .ok ts := by
    unfold unixTimestamp; rw [if_neg (by omega)]; exact ⟨_, rfl⟩
  obtain ⟨ts, hts⟩ := hts
  rw [hts]
  simp only
  split
  · exact ⟨_, rfl⟩
  split
  · exact ⟨_, rfl⟩
  split
  · exact ⟨_, rfl⟩
  obtain ⟨_, hcs, hps⟩ := fromSignatureInput_spec hc
  obtain ⟨x, hx⟩ := canonicalize_total (r := req) hcs hps fun k hk => hd k (hcs k hk)
  rw [hx]
  cases x with
  | error e => exact ⟨_, rfl⟩
  | ok x =>
    simp only
    split <;> exact ⟨_, rfl⟩

theorem verify_total {req : R} {config : VerifyingConfig} {env : VerifyEnv} (hnow : 0 ≤ env.sysNow)
    (hd : ∀ k, ComponentRead k → ∃ v, RequestLike.derive req k = .ok v)
    (hreq : ∀ k ∈ config.requiredComponents, ∃ s, k.display = .ok s)
    (hin : ∀ v, RequestLike.derive req (.header hSignatureInput) = .ok (some v) →
      ∃ c, CanonicalizeConfig.fromSignatureInput v = .ok (.ok c)) :
    ∃ x, verify req config env = .ok x := by
  obtain ⟨x, hx⟩ := verifySignatureOnly_total (config := config) hnow hd hin
  have : ∃ y, verifyExceptDigest req config env = .ok y := by
    unfold verifyExceptDigest
    rw [hx]
    cases x with
    | none => exact ⟨_, rfl⟩
    | some x =>
      obtain ⟨input, keyId⟩ := x
      obtain ⟨b, hb⟩ := checkRequired_total (input := input) hreq
      obtain ⟨b', hb'⟩ := checkDate_ok input config env
      simp only [Bind.bind, Except.bind, hb, hb']
      split
      · exact ⟨_, rfl⟩
      split <;> exact ⟨_, rfl⟩
  obtain ⟨y, hy⟩ := this
  unfold verify
  rw [hy]
  cases y with
  | none => exact ⟨_, rfl⟩
  | some keyId =>
    obtain ⟨dv, hdv⟩ := hd (.header hDigest) trivial
    simp only [Bind.bind, Except.bind]
    rw [hdv]
    cases dv with
    | none =>
      simp only
      split
      · split <;> exact ⟨_, rfl⟩
      · exact ⟨_, rfl⟩
    | some dv =>
      simp only
      split
      · cases selectDigest config.digestProvider dv with
        | none => exact ⟨_, rfl⟩
        | some p =>
          simp only
          cases (ServerRequestLike.completeWithDigest req p.1).1 with
          | none => exact ⟨_, rfl⟩
          | some e =>
            simp only
            split <;> exact ⟨_, rfl⟩
      · exact ⟨_, rfl⟩

end Httpsig
