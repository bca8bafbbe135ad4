import Verif.Lemmas.Sign4
/-
When `canonicalize` and `sign` panic, exactly.
-/
set_option linter.unusedSectionVars false
namespace Httpsig
open Sfv
variable [Deps]
section
variable {R : Type} [ClientRequestLike R] [LawfulClient R]

/-- The automatic headers are only added if they can be written. -/
theorem addAuto_autoOk {r : R} {config : SigningConfig} {env : SignEnv} {x : R × List SignatureComponent}
    (h : addAutoHeaders r config env = .ok x) : AutoOk r config := by
  obtain ⟨r', comps⟩ := x
  obtain ⟨a, b, h1, h2, h3, _⟩ := addAutoHeaders_iff.1 h
  have ea := (addDate_facts h1).2.1
  have oa := addDate_other h1
  have eb := (addHost_facts h2).2.1
  have ob := addHost_other h2
  constructor
  · intro hw s hs
    have hc : config.addHost = true := by
      rcases hw.1 with ⟨e, _⟩ | ⟨_, e⟩ | ⟨e, _⟩
      · exact absurd e hHost_ne_hDate
      · exact e
      · exact absurd e.symm hDigest_ne_hHost
    have hn : RequestLike.derive a (.header hHost) = .ok none := by rw [ea _ (header_ne hHost_ne_hDate), hw.2]
    have hh : ClientRequestLike.host a = some s := by rw [oa.1, hs]
    rcases addHostHeader_iff.1 h2 with ⟨s', v, _, _, e, hv, _⟩ | ⟨e | ⟨s', e⟩ | e, _⟩
    · rw [hh] at e; cases e; exact fromStr_ok_iff.1 ⟨v, hv⟩
    · rw [hc] at e; cases e
    · rw [hn] at e; cases e
    · rw [hh] at e; cases e
  · intro hw s hs
    have hc : config.computeDigest = true := by
      rcases hw.1 with ⟨e, _⟩ | ⟨e, _⟩ | ⟨_, e⟩
      · exact absurd e hDigest_ne_hDate
      · exact absurd e hDigest_ne_hHost
      · exact e
    have hn : RequestLike.derive b (.header hDigest) = .ok none := by
      rw [eb _ (header_ne hDigest_ne_hHost), ea _ (header_ne hDigest_ne_hDate), hw.2]
    have hh : (ClientRequestLike.computeDigest b config.digest).2 = some s := by rw [ob, oa.2, hs]
    rcases addDigestHeader_iff.1 h3 with ⟨s', v, _, _, e, hv, _⟩ | ⟨_, _, e, _⟩ | ⟨e | ⟨s', e⟩, _⟩
    · rw [hh] at e; cases e; exact fromStr_ok_iff.1 ⟨v, hv⟩
    · rw [hh] at e; cases e
    · rw [hc] at e; cases e
    · rw [hn] at e; cases e

theorem NoAuto.not_write {r : R} {config : SigningConfig} (h : NoAuto config) (n : HeaderName) : ¬ AutoWrite r config n := by
  rintro ⟨⟨_, e⟩ | ⟨_, e⟩ | ⟨_, e⟩, _⟩
  · rw [h.1] at e; cases e
  · rw [h.2.1] at e; cases e
  · rw [h.2.2] at e; cases e

theorem NoAuto.autoOk {r : R} {config : SigningConfig} (h : NoAuto config) : AutoOk r config :=
  ⟨fun hw => absurd hw (h.not_write _), fun hw => absurd hw (h.not_write _)⟩

theorem NoAuto.addAuto {r : R} {config : SigningConfig} {env : SignEnv} (h : NoAuto config)
    (hd : ∀ k ∈ config.components, ∃ v, RequestLike.derive r k = .ok v) :
    addAutoHeaders r config env = .ok (r, if config.skipMissing then config.components.filter fun k => (valueOf r k).isSome
      else config.components) := by
  refine addAutoHeaders_iff.2 ⟨r, r, addDateHeader_iff.2 (.inr ⟨.inl h.1, rfl⟩), addHostHeader_iff.2 (.inr ⟨.inl h.2.1, rfl⟩),
    addDigestHeader_iff.2 (.inr (.inr ⟨.inl h.2.2, rfl⟩)), ?_⟩
  split
  · exact ⟨hd, rfl⟩
  · rfl

end

/-- Every header name can be listed. -/
theorem listIdent_header (n : HeaderName) : ∃ i, ListIdent (.header n) i := ⟨_, .header n⟩

/-- A component without value makes `canonicalize` report an error. -/
theorem canonicalize_reports {R : Type} [RequestLike R] {r : R} {c : CanonicalizeConfig}
    (hd : ∀ k ∈ c.components, ∃ v, RequestLike.derive r k = .ok v)
    (hm : ∃ k ∈ c.components, valueOf r k = none) : ∃ e, canonicalize r c = .ok (.error e) := by
  have hs := deriveAll_spec r (valueOf r) c.components fun k hk => by
    obtain ⟨v, hv⟩ := hd k hk
    rw [derive_valueOf hv, hv]
  refine ⟨.missingComponents (c.components.filter fun k => (valueOf r k).isNone), ?_⟩
  have hm : c.components.filter (fun k => (valueOf r k).isNone) ≠ [] := by
    obtain ⟨k, hk, hv⟩ := hm
    intro e
    have := List.filter_eq_nil_iff.1 e k hk
    rw [hv] at this
    exact this rfl
  unfold canonicalize
  rw [hs]
  simp only [Bind.bind, Except.bind, ne_eq, hm, not_false_eq_true, if_true]
  rfl

/-- If `canonicalize` reports an error, a component has no value. -/
theorem canonicalize_error_value {R : Type} [RequestLike R] {r : R} {c : CanonicalizeConfig} {e : Error}
    (h : canonicalize r c = .ok (.error e)) : ∃ k ∈ c.components, valueOf r k = none := by
  cases hd : deriveAll r c.components with
  | error p => unfold canonicalize at h; rw [hd] at h; cases h
  | ok x =>
    obtain ⟨found, missing⟩ := x
    have hs := deriveAll_spec r (valueOf r) c.components fun k hk => by
      obtain ⟨v, hv⟩ := deriveAll_ok hd k hk
      rw [derive_valueOf hv, hv]
    rw [hs] at hd
    by_cases hm : missing = []
    · exfalso
      unfold canonicalize at h
      rw [hs, hd] at h
      simp only [Bind.bind, Except.bind, hm, ne_eq, not_true_eq_false, if_false] at h
      cases h1 : (c.toSignatureInput.list.display : P Str) with
      | error p => rw [h1] at h; cases h
      | ok sp =>
        rw [h1] at h
        simp only at h
        split at h <;> cases h
    · cases hd
      cases hl : c.components.filter (fun k => (valueOf r k).isNone) with
      | nil => exact absurd hl hm
      | cons k l =>
        have hk : k ∈ c.components.filter (fun k => (valueOf r k).isNone) := by rw [hl]; simp
        exact ⟨k, (List.mem_filter.1 hk).1, by simpa using (List.mem_filter.1 hk).2⟩

theorem forall2_left {α β : Type} {r : α → β → Prop} {as : List α} {bs : List β} (h : Forall2 r as bs) :
    ∀ a ∈ as, ∃ b, r a b := by
  induction h with
  | nil => simp
  | cons h1 _ ih =>
    intro a ha
    rcases List.mem_cons.1 ha with rfl | ha
    · exact ⟨_, h1⟩
    · exact ih a ha

end Httpsig
