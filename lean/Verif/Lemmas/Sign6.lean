import Verif.Lemmas.Sign5
/-
When `canonicalize`, the automatic headers and `sign` return, exactly.
-/
set_option linter.unusedSectionVars false
namespace Httpsig
open Sfv
variable [Deps]

theorem canonicalize_returns_iff {R : Type} [RequestLike R] {r : R} {c : CanonicalizeConfig} :
    (∃ x, canonicalize r c = .ok x) ↔ (∀ k ∈ c.components, ∃ v, RequestLike.derive r k = .ok v) ∧
      ((∃ k ∈ c.components, valueOf r k = none) ∨
        (∀ k ∈ c.components, ∃ i, ListIdent k i) ∧ ∃ ps, ParamsText c.params.params ps) := by
  constructor
  · rintro ⟨x, hx⟩
    have hd : ∀ k ∈ c.components, ∃ v, RequestLike.derive r k = .ok v := by
      cases hd : deriveAll r c.components with
      | error p => unfold canonicalize at hx; rw [hd] at hx; cases hx
      | ok y => exact deriveAll_ok hd
    refine ⟨hd, ?_⟩
    cases x with
    | error e => exact .inl (canonicalize_error_value hx)
    | ok y =>
      obtain ⟨_, _, lids, ps, _, _, h3, h4, _⟩ := canonicalize_ok_iff.1 hx
      exact .inr ⟨forall2_left h3, ps, h4⟩
  · rintro ⟨hd, hm | ⟨hl, hp⟩⟩
    · obtain ⟨e, he⟩ := canonicalize_reports hd hm
      exact ⟨_, he⟩
    · exact canonicalize_returns hl hp hd

section
variable {R : Type} [ClientRequestLike R] [LawfulClient R]

theorem addAuto_returns_iff {r : R} {config : SigningConfig} {env : SignEnv} :
    (∃ x, addAutoHeaders r config env = .ok x) ↔
      AutoOk r config ∧ (config.skipMissing = true → ∀ k ∈ config.components, ∃ v, RequestLike.derive r k = .ok v) := by
  constructor
  · rintro ⟨⟨r1, comps⟩, h⟩
    refine ⟨addAuto_autoOk h, fun hs k hk => ?_⟩
    cases k with
    | header n => exact LawfulClient.derive_header r n
    | derived d =>
      obtain ⟨_, _, _, _, _, h4⟩ := addAutoHeaders_iff.1 h
      rw [if_pos hs] at h4
      obtain ⟨v, hv⟩ := h4.1 _ hk
      exact ⟨v, by rw [← (addAuto_facts h).touches.derive (fun n _ e => by cases e), hv]⟩
  · rintro ⟨h1, h2⟩
    exact addAuto_total h1 h2

theorem derive_addAuto_ok {r r1 : R} {config : SigningConfig} {env : SignEnv} {comps : List SignatureComponent}
    (h : addAutoHeaders r config env = .ok (r1, comps)) (k : SignatureComponent) :
    (∃ v, RequestLike.derive r1 k = .ok v) ↔ ∃ v, RequestLike.derive r k = .ok v := by
  cases k with
  | header n => exact ⟨fun _ => LawfulClient.derive_header r n, fun _ => LawfulClient.derive_header r1 n⟩
  | derived d => rw [(addAuto_facts h).touches.derive (fun n _ e => by cases e)]

theorem addAuto_noHost {r r1 : R} {config : SigningConfig} {env : SignEnv} {comps : List SignatureComponent}
    (h : addAutoHeaders r config env = .ok (r1, comps)) (hh : ClientRequestLike.host r = none) :
    RequestLike.derive r1 (.header hHost) = RequestLike.derive r (.header hHost) := by
  obtain ⟨a, b, h1, h2, h3, _⟩ := addAutoHeaders_iff.1 h
  have ea := (addDate_facts h1).2.1
  have oa := addDate_other h1
  have ec := (addDigest_facts h3).2.1
  rw [ec _ (header_ne hDigest_ne_hHost.symm)]
  rcases addHostHeader_iff.1 h2 with ⟨s, v, _, _, e, _⟩ | ⟨_, rfl⟩
  · rw [oa.1, hh] at e; cases e
  · exact ea _ (header_ne hHost_ne_hDate)

theorem valueOf_of_derive {R : Type} [RequestLike R] {r r' : R} {k : SignatureComponent}
    (h : RequestLike.derive r' k = RequestLike.derive r k) : valueOf r' k = valueOf r k := by
  unfold valueOf; rw [h]

/-- Which components have a value once the automatic headers are there. -/
theorem valueOf_addAuto_iff {r r1 : R} {config : SigningConfig} {env : SignEnv} {comps : List SignatureComponent}
    (h : addAutoHeaders r config env = .ok (r1, comps)) (hvis : AutoVisible r config) (k : SignatureComponent) :
    valueOf r1 k ≠ none ↔ valueOf r k ≠ none ∨ Supplied r config k := by
  have hf := addAuto_facts h
  have keep : valueOf r k ≠ none → valueOf r1 k ≠ none := by
    intro hv
    rw [valueOf_of_derive (hf.touches.derive fun n hn e => by subst e; exact hv (derive_valueOf hn.2))]
    exact hv
  have none_of : ∀ n, ¬ valueOf r (.header n) ≠ none → RequestLike.derive r (.header n) = .ok none := by
    intro n hn
    obtain ⟨v, hv⟩ := LawfulClient.derive_header r n
    have := derive_valueOf hv
    rw [this] at hn
    cases v with
    | none => exact hv
    | some s => exact absurd (by simp) hn
  constructor
  · intro hv
    by_cases hw : ∃ n, k = .header n ∧ AutoWrite r config n
    · obtain ⟨n, rfl, hw⟩ := hw
      rcases hw.1 with ⟨rfl, hc⟩ | ⟨rfl, hc⟩ | ⟨rfl, hc⟩
      · exact .inr (.inl ⟨rfl, hc⟩)
      · cases hh : ClientRequestLike.host r with
        | none =>
          rw [valueOf_of_derive (addAuto_noHost h hh)] at hv
          exact .inl hv
        | some s => exact .inr (.inr (.inl ⟨rfl, hc, s, hh⟩))
      · cases hh : (ClientRequestLike.computeDigest r config.digest).2 with
        | none => exact absurd (derive_valueOf (hf.noDigest hw hh)) hv
        | some s => exact .inr (.inr (.inr ⟨rfl, hc, s, hh⟩))
    · rw [valueOf_of_derive (hf.touches.derive fun n hn e => hw ⟨n, e, hn⟩)] at hv
      exact .inl hv
  · intro hor
    by_cases hk : valueOf r k ≠ none
    · exact keep hk
    rcases hor with hv | ⟨rfl, hc⟩ | ⟨rfl, hc, s, hs⟩ | ⟨rfl, hc, s, hs⟩
    · exact absurd hv hk
    · rw [derive_valueOf (hf.date ⟨.inl ⟨rfl, hc⟩, none_of _ hk⟩)]
      simp
    · have hw : AutoWrite r config hHost := ⟨.inr (.inl ⟨rfl, hc⟩), none_of _ hk⟩
      rw [derive_valueOf (hf.host hw s hs (hvis.host hw s hs))]
      simp
    · have hw : AutoWrite r config hDigest := ⟨.inr (.inr ⟨rfl, hc⟩), none_of _ hk⟩
      rw [derive_valueOf (hf.digest hw s hs (hvis.digest hw s hs))]
      simp

end
end Httpsig
