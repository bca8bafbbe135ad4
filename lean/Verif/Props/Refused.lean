import Verif.Props.Main
/-
C76: which options the validator refuses, and what it says.
-/
set_option linter.unusedSectionVars false
namespace Httpsig
variable [Deps]

theorem mapM_fromStr_error {e : Error} : ∀ {ws : List Str}, ws.mapM SignatureComponent.fromStr = .error e ↔
    ∃ before w after, ws = before ++ w :: after ∧ (∀ x ∈ before, ∃ k, SignatureComponent.fromStr x = .ok k) ∧
      SignatureComponent.fromStr w = .error e
  | [] => by
    simp only [List.mapM_nil]
    constructor
    · intro h; cases h
    · rintro ⟨b, w, a, h, _⟩; simp at h
  | x :: xs => by
    rw [List.mapM_cons]
    simp only [Bind.bind, Except.bind, Pure.pure, Except.pure]
    cases hx : SignatureComponent.fromStr x with
    | error e' =>
      simp only [Except.error.injEq]
      constructor
      · rintro rfl; exact ⟨[], x, xs, rfl, by simp, hx⟩
      · rintro ⟨b, w, a, h, hb, hw⟩
        cases b with
        | nil =>
          simp only [List.nil_append, List.cons.injEq] at h
          obtain ⟨rfl, rfl⟩ := h
          rw [hx] at hw
          cases hw
          rfl
        | cons y b =>
          simp only [List.cons_append, List.cons.injEq] at h
          obtain ⟨rfl, rfl⟩ := h
          obtain ⟨k, hk⟩ := hb x (by simp)
          rw [hx] at hk
          cases hk
    | ok k =>
      have ih := mapM_fromStr_error (e := e) (ws := xs)
      constructor
      · intro h
        cases hm : xs.mapM SignatureComponent.fromStr with
        | ok l => rw [hm] at h; cases h
        | error e' =>
          rw [hm] at h ih
          cases h
          obtain ⟨b, w, a, rfl, hb, hw⟩ := ih.1 rfl
          refine ⟨x :: b, w, a, rfl, ?_, hw⟩
          intro y hy
          rcases List.mem_cons.1 hy with rfl | hy
          · exact ⟨k, hx⟩
          · exact hb y hy
      · rintro ⟨b, w, a, h, hb, hw⟩
        cases b with
        | nil =>
          simp only [List.nil_append, List.cons.injEq] at h
          obtain ⟨rfl, rfl⟩ := h
          rw [hx] at hw
          cases hw
        | cons y b =>
          simp only [List.cons_append, List.cons.injEq] at h
          obtain ⟨rfl, rfl⟩ := h
          rw [ih.2 ⟨b, w, a, rfl, fun y hy => hb y (by simp [hy]), hw⟩]

theorem badHeaderOption_iff {o : Opt} {e : Error} : BadHeaderOption o e ↔ o.parseHeaders = .error e := by
  unfold BadHeaderOption Opt.parseHeaders
  cases hh : o.headers with
  | none => simp
  | some x =>
    cases x with
    | none => simp
    | some s =>
      simp only [Option.some.injEq]
      constructor
      · rintro ⟨_, b, w, a, rfl, hw, hb, he⟩
        rw [words_iff.1 hw, mapM_fromStr_error.2 ⟨b, w, a, rfl, hb, he⟩]
        rfl
      · intro h
        cases hm : (splitAsciiWs s).mapM SignatureComponent.fromStr with
        | ok l => rw [hm] at h; cases h
        | error e' =>
          rw [hm] at h
          cases h
          obtain ⟨b, w, a, h1, hb, hw⟩ := mapM_fromStr_error.1 hm
          exact ⟨s, b, w, a, rfl, words_iff.2 h1, hb, hw⟩

/-- C76, sign mode. The options are refused with exactly this message for exactly these reasons. -/
theorem C76_sign_refused (o : Opt) (e : AppError) : o.signingConfig = .error e ↔ SignRefused o e := by
  constructor
  · intro h
    unfold Opt.signingConfig at h
    cases hk : o.privateKey with
    | none =>
      rw [hk] at h
      cases ha : o.algorithm with
      | none =>
        simp only [Bind.bind, Except.bind, Opt.readKey, Opt.checkAlgorithm, ha] at h
        cases h
        exact .noAlgorithm (by simp [hk]) ha
      | some a =>
        simp only [Bind.bind, Except.bind, Opt.readKey, Opt.checkAlgorithm, ha] at h
        by_cases hm : a ∈ Opt.knownAlgorithms
        · rw [if_pos hm] at h; cases h; exact .noKey a hk ha hm
        · rw [if_neg hm] at h; cases h; exact .unknown a (by simp [hk]) ha hm
    | some k =>
      cases k with
      | none => rw [hk] at h; cases h; exact .keyFile hk
      | some pem =>
        rw [hk] at h
        cases ha : o.algorithm with
        | none =>
          simp only [Bind.bind, Except.bind, Opt.readKey, Opt.checkAlgorithm, ha] at h
          cases h
          exact .noAlgorithm (by simp [hk]) ha
        | some a =>
          simp only [Bind.bind, Except.bind, Opt.readKey, Opt.checkAlgorithm, ha] at h
          by_cases hm : a ∈ Opt.knownAlgorithms
          · rw [if_pos hm] at h
            cases hf : Opt.signerFor a with
            | none =>
              rw [hf] at h
              cases h
              refine .unsupported a pem hk ha hm fun name prim hs => ?_
              rw [signerFor_iff.2 ⟨name, prim, hs, rfl⟩] at hf
              cases hf
            | some f =>
              obtain ⟨name, prim, hs, rfl⟩ := signerFor_iff.1 hf
              rw [hf] at h
              simp only at h
              cases hp : privatePkcs8Pem pem with
              | none => rw [hp] at h; cases h; exact .badKey a name prim pem hk ha hs hp
              | some key =>
                rw [hp] at h
                simp only [Pure.pure, Except.pure] at h
                cases hh : o.parseHeaders with
                | error e' => rw [hh] at h; cases h; exact .headers a name prim pem key e' hk ha hs hp (badHeaderOption_iff.2 hh)
                | ok x => rw [hh] at h; cases h
          · rw [if_neg hm] at h; cases h; exact .unknown a (by simp [hk]) ha hm
  · intro h
    unfold Opt.signingConfig
    cases h with
    | keyFile h => rw [h]; rfl
    | unknown a h1 h2 h3 =>
      cases hk : o.privateKey with
      | none => simp only [Bind.bind, Except.bind, Opt.readKey, Opt.checkAlgorithm, h2]; rw [if_neg (show a ∉ Opt.knownAlgorithms from h3)]
      | some k =>
        cases k with
        | none => exact absurd hk h1
        | some pem => simp only [Bind.bind, Except.bind, Opt.readKey, Opt.checkAlgorithm, h2]; rw [if_neg (show a ∉ Opt.knownAlgorithms from h3)]
    | noAlgorithm h1 h2 =>
      cases hk : o.privateKey with
      | none => simp only [Bind.bind, Except.bind, Opt.readKey, Opt.checkAlgorithm, h2]; rfl
      | some k =>
        cases k with
        | none => exact absurd hk h1
        | some pem => simp only [Bind.bind, Except.bind, Opt.readKey, Opt.checkAlgorithm, h2]; rfl
    | noKey a h1 h2 h3 =>
      simp only [Bind.bind, Except.bind, Opt.readKey, Opt.checkAlgorithm, h1, h2]
      rw [if_pos (show a ∈ Opt.knownAlgorithms from h3)]
      rfl
    | unsupported a pem h1 h2 h3 h4 =>
      have hf : Opt.signerFor a = none := by
        cases hf : Opt.signerFor a with
        | none => rfl
        | some f => obtain ⟨name, prim, hs, _⟩ := signerFor_iff.1 hf; exact absurd hs (h4 name prim)
      simp only [Bind.bind, Except.bind, Opt.readKey, Opt.checkAlgorithm, h1, h2]
      rw [if_pos (show a ∈ Opt.knownAlgorithms from h3), hf]
      rfl
    | badKey a name prim pem h1 h2 h3 h4 =>
      simp only [Bind.bind, Except.bind, Opt.readKey, Opt.checkAlgorithm, h1, h2]
      rw [if_pos (supports_known h3), signerFor_iff.2 ⟨name, prim, h3, rfl⟩]
      simp only [h4]
      rfl
    | headers a name prim pem key e h1 h2 h3 h4 h5 =>
      simp only [Bind.bind, Except.bind, Opt.readKey, Opt.checkAlgorithm, h1, h2]
      rw [if_pos (supports_known h3), signerFor_iff.2 ⟨name, prim, h3, rfl⟩]
      simp only [h4, badHeaderOption_iff.1 h5]
      rfl

/-- C76, verify mode. -/
theorem C76_verify_refused (o : Opt) (e : AppError) : o.verificationConfig = .error e ↔ VerifyRefused o e := by
  constructor
  · intro h
    unfold Opt.verificationConfig at h
    cases hk : o.publicKey with
    | none =>
      rw [hk] at h
      cases ha : o.algorithm with
      | none =>
        simp only [Bind.bind, Except.bind, Opt.readKey, Opt.checkAlgorithm, ha] at h
        cases h
      | some a =>
        simp only [Bind.bind, Except.bind, Opt.readKey, Opt.checkAlgorithm, ha] at h
        by_cases hm : a ∈ Opt.knownAlgorithms
        · rw [if_pos hm] at h; cases h; exact .noKey a hk ha hm
        · rw [if_neg hm] at h; cases h; exact .unknown a (by simp [hk]) ha hm
    | some k =>
      cases k with
      | none => rw [hk] at h; cases h; exact .keyFile hk
      | some pem =>
        rw [hk] at h
        cases ha : o.algorithm with
        | none =>
          simp only [Bind.bind, Except.bind, Opt.readKey, Opt.checkAlgorithm, ha] at h
          cases h
        | some a =>
          simp only [Bind.bind, Except.bind, Opt.readKey, Opt.checkAlgorithm, ha] at h
          by_cases hm : a ∈ Opt.knownAlgorithms
          · rw [if_pos hm] at h
            cases hf : Opt.verifierFor a with
            | none =>
              rw [hf] at h
              cases h
              refine .unsupported a pem hk ha hm fun name prim hs => ?_
              obtain ⟨f, hf'⟩ := verifierFor_of_supports hs
              rw [hf'] at hf
              cases hf
            | some f =>
              obtain ⟨name, prim, hs, hv⟩ := verifierFor_iff hf
              rw [hf] at h
              simp only at h
              cases hp : f pem with
              | none =>
                rw [hp] at h
                cases h
                refine .badKey a name prim pem hk ha hs fun key hkey => ?_
                rw [(hv pem _).2 ⟨key, hkey, rfl⟩] at hp
                cases hp
              | some v => rw [hp] at h; cases h
          · rw [if_neg hm] at h; cases h; exact .unknown a (by simp [hk]) ha hm
  · intro h
    unfold Opt.verificationConfig
    cases h with
    | keyFile h => rw [h]; rfl
    | unknown a h1 h2 h3 =>
      cases hk : o.publicKey with
      | none => simp only [Bind.bind, Except.bind, Opt.readKey, Opt.checkAlgorithm, h2]; rw [if_neg (show a ∉ Opt.knownAlgorithms from h3)]
      | some k =>
        cases k with
        | none => exact absurd hk h1
        | some pem => simp only [Bind.bind, Except.bind, Opt.readKey, Opt.checkAlgorithm, h2]; rw [if_neg (show a ∉ Opt.knownAlgorithms from h3)]
    | noKey a h1 h2 h3 =>
      simp only [Bind.bind, Except.bind, Opt.readKey, Opt.checkAlgorithm, h1, h2]
      rw [if_pos (show a ∈ Opt.knownAlgorithms from h3)]
      rfl
    | unsupported a pem h1 h2 h3 h4 =>
      have hf : Opt.verifierFor a = none := by
        cases hf : Opt.verifierFor a with
        | none => rfl
        | some f => obtain ⟨name, prim, hs, _⟩ := verifierFor_iff hf; exact absurd hs (h4 name prim)
      simp only [Bind.bind, Except.bind, Opt.readKey, Opt.checkAlgorithm, h1, h2]
      rw [if_pos (show a ∈ Opt.knownAlgorithms from h3), hf]
      rfl
    | badKey a name prim pem h1 h2 h3 h4 =>
      obtain ⟨f, hf⟩ := verifierFor_of_supports h3
      obtain ⟨name', prim', _, hv⟩ := verifierFor_iff hf
      have hp : f pem = none := by
        cases hp : f pem with
        | none => rfl
        | some v => obtain ⟨key, hkey, _⟩ := (hv pem v).1 hp; exact absurd hkey (h4 key)
      simp only [Bind.bind, Except.bind, Opt.readKey, Opt.checkAlgorithm, h1, h2]
      rw [if_pos (supports_known h3), hf]
      simp only [hp]
      rfl

/-- C76, canonicalize mode. -/
theorem C76_canonicalize_refused (o : Opt) (e : AppError) : o.canonicalizeConfig = .error e ↔ CanonicalizeRefused o e := by
  constructor
  · intro h
    unfold Opt.canonicalizeConfig at h
    cases hh : o.parseHeaders with
    | error e' =>
      rw [hh] at h
      simp only [Bind.bind, Except.bind, Except.mapError] at h
      cases h
      exact .headers e' (badHeaderOption_iff.2 hh)
    | ok x =>
      rw [hh] at h
      have ho : HeaderOption o (x.getD []) := headerOption_iff.2 ⟨x, hh, rfl⟩
      simp only [Bind.bind, Except.bind, Except.mapError] at h
      cases ha : o.algorithm with
      | none => rw [ha] at h; cases h; exact .noAlgorithm _ ho ha
      | some a =>
        rw [ha] at h
        by_cases hm : a ∈ Opt.knownAlgorithms
        · simp only [if_pos hm] at h; cases h
        · simp only [if_neg hm] at h; cases h; exact .unknown a _ ho ha hm
  · intro h
    unfold Opt.canonicalizeConfig
    cases h with
    | headers e h => rw [badHeaderOption_iff.1 h]; rfl
    | unknown a comps h1 h2 h3 =>
      obtain ⟨x, hx, _⟩ := headerOption_iff.1 h1
      rw [hx, h2]
      simp only [Bind.bind, Except.bind, Except.mapError]
      simp only [if_neg (show a ∉ Opt.knownAlgorithms from h3)]
      rfl
    | noAlgorithm comps h1 h2 =>
      obtain ⟨x, hx, _⟩ := headerOption_iff.1 h1
      rw [hx, h2]
      rfl

/-- C76. When the program refuses its options, it says why and writes nothing, whatever the request is; the request has
to be there, though. -/
theorem C76_reported (a : Args) (h : Host) (e : AppError) (req : MockRequest) (hr : ReadsRequest a h req) (hf : Refused a h e) :
    a.main h = ⟨[], .ok (.error e)⟩ := by
  rw [main_reads hr]
  unfold Refused at hf
  unfold Args.run
  cases hm : a.mode with
  | canonicalize =>
    rw [hm] at hf
    simp only [runCanonicalize, (C76_canonicalize_refused _ _).2 hf]
  | sign =>
    rw [hm] at hf
    simp only [(C76_sign_refused _ _).2 hf]
  | verify =>
    rw [hm] at hf
    simp only [runVerify, (C76_verify_refused _ _).2 hf]

/-- Non-vacuity: one refusal of each mode. -/
example : SignRefused { algorithm := some (str% "hmac-sha256"), privateKey := some (some []) }
    (.badArg (str% "Unsupported algorithm: hmac-sha256")) :=
  .unsupported _ _ rfl rfl (by decide) (by intro name prim h; cases h)
example : VerifyRefused { algorithm := some (str% "rsa") } (.badArg (str% "Unknown algorithm: rsa")) :=
  .unknown _ (by simp) rfl (by decide)
example : CanonicalizeRefused { headers := some (some (str% "host")) } (.badArg (str% "No algorithm provided")) :=
  .noAlgorithm [.header hHost] (headerOption_iff.2 ⟨_, rfl, rfl⟩) rfl

end Httpsig
