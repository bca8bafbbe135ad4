import Verif.Spec.Status
import Verif.Props.Debug
import Verif.Props.Process
import Verif.Props.Outcome
import Verif.Props.MainLog
/-
C125: what the validator reports.
-/
set_option linter.unusedSectionVars false
namespace Httpsig
open Sfv
section
variable [Deps]

theorem absent_iff {req : MockRequest} {o : Opt} {comps : List SignatureComponent} (ho : HeaderOption o comps) :
    ∀ k ∈ comps, (valueOf req k = none ↔ Absent req k) := by
  intro k hk
  obtain ⟨v, hv⟩ := mock_total (r := req) ho k hk
  have hval := derive_valueOf hv
  cases v with
  | none =>
    refine ⟨fun _ s hs => ?_, fun _ => hval⟩
    have := hv.symm.trans (derive_value.2 hs)
    cases this
  | some s =>
    refine ⟨fun hn => ?_, fun ha => ?_⟩
    · rw [hval] at hn; cases hn
    · exact absurd (derive_value.1 hv) (ha s)

theorem absentAmong_iff {req : MockRequest} : ∀ {comps l : List SignatureComponent}, (∀ k ∈ comps, (valueOf req k = none ↔ Absent req k)) →
    (AbsentAmong req comps l ↔ l = comps.filter fun k => (valueOf req k).isNone)
  | [], l, _ => ⟨fun h => by cases h; rfl, fun h => by subst h; exact .nil⟩
  | k :: ks, l, hk => by
    have ih := fun l => absentAmong_iff (req := req) (comps := ks) (l := l) fun k h => hk k (by simp [h])
    have h0 := hk k (by simp)
    cases hv : valueOf req k with
    | none =>
      rw [List.filter_cons_of_pos (by simp [hv])]
      constructor
      · intro h
        cases h with
        | absent _ g => rw [(ih _).1 g]
        | present g _ => exact absurd g (h0.1 hv _)
      · rintro rfl; exact .absent (h0.1 hv) ((ih _).2 rfl)
    | some v =>
      rw [List.filter_cons_of_neg (by simp [hv])]
      have hna : ¬ Absent req k := fun h => by rw [h0.2 h] at hv; cases hv
      constructor
      · intro h
        cases h with
        | absent g _ => exact absurd g hna
        | present _ g => exact (ih _).1 g
      · intro h
        obtain ⟨v', hv'⟩ : ∃ v, ComponentValue req k v := Classical.byContradiction fun hn => hna fun v hv => hn ⟨v, hv⟩
        exact .present hv' ((ih _).2 h)

theorem canonicalize_error_iff {req : MockRequest} {o : Opt} {c : CanonicalizeConfig} {comps : List SignatureComponent} (ho : HeaderOption o comps)
    (hc : c.components = comps) (e : Error) :
    canonicalize req c = .ok (.error e) ↔ ∃ l, AbsentAmong req comps l ∧ l ≠ [] ∧ e = .missingComponents l := by
  subst hc
  rw [C04_missing_components_exact req c (valueOf req) (fun k hk => by
    obtain ⟨v, hv⟩ := mock_total (r := req) ho k hk
    rw [derive_valueOf hv, hv]) e]
  simp only [absentAmong_iff (absent_iff ho), exists_eq_left, ne_eq, List.filter_eq_nil_iff]
  constructor
  · rintro ⟨⟨k, hk, hn⟩, rfl⟩
    exact ⟨fun g => g k hk (by simp [hn]), rfl⟩
  · rintro ⟨h1, rfl⟩
    refine ⟨Classical.byContradiction fun hn => h1 fun k hk => ?_, rfl⟩
    simp only [Option.isNone_iff_eq_none]
    exact fun h => hn ⟨k, hk, h⟩

theorem canonicalize_fails {a : Args} {h : Host} {req : MockRequest} {e : AppError} (hm : a.mode = .canonicalize) :
    (a.run h req).status = .ok (.error e) ↔ Fails a h req e := by
  unfold Args.run
  rw [hm]
  simp only
  unfold runCanonicalize
  cases hc : (a.opt h).canonicalizeConfig with
  | error e' =>
    simp only [Except.ok.injEq, Except.error.injEq]
    constructor
    · rintro rfl
      refine .options ?_
      unfold Refused
      rw [hm]
      exact (C76_canonicalize_refused _ _).1 hc
    · intro hf
      cases hf with
      | options hr =>
        unfold Refused at hr
        rw [hm] at hr
        rw [(C76_canonicalize_refused _ _).2 hr] at hc
        cases hc
        rfl
      | missing _ g1 g2 g3 _ _ =>
        rw [(C50_canonicalize_exact (a.opt h) _).2 ⟨_, _, g1, g2, g3, rfl⟩] at hc
        cases hc
      | _ => simp_all
  | ok c =>
    obtain ⟨alg, comps, g1, g2, g3, rfl⟩ := (C50_canonicalize_exact _ _).1 hc
    have key := canonicalize_error_iff (req := req) (c := optCanonicalize (a.opt h) alg comps) g3 rfl
    simp only [Bind.bind, Except.bind]
    constructor
    · intro hs
      cases hcan : canonicalize req (optCanonicalize (a.opt h) alg comps) with
      | error p => rw [hcan] at hs; cases hs
      | ok x =>
        cases x with
        | ok x => rw [hcan] at hs; cases hs
        | error e' =>
          rw [hcan] at hs
          cases hs
          obtain ⟨l, h1, h2, rfl⟩ := (key e').1 hcan
          exact .missing hm g1 g2 g3 h1 h2
    · intro hf
      cases hf with
      | options hr =>
        unfold Refused at hr
        rw [hm] at hr
        rw [(C76_canonicalize_refused _ _).2 hr] at hc
        cases hc
      | @missing alg' comps' l _ g1' g2' g3' g4 g5 =>
        have e : comps = comps' := headerOption_unique rfl g3 g3'
        subst e
        rw [(key _).2 ⟨l, g4, g5, rfl⟩]
        rfl
      | _ => simp_all

theorem verify_fails {a : Args} {h : Host} {req : MockRequest} {e : AppError} (hm : a.mode = .verify) (hr : ReadsRequest a h req) :
    (a.run h req).status = .ok (.error e) ↔ Fails a h req e := by
  rw [← main_reads hr]
  have hopt : VerifyRefused (a.opt h) e ↔ Refused a h e := by unfold Refused; rw [hm]
  by_cases he : e = .verification
  · subst he
    rw [C121_fails a h hm]
    constructor
    · rintro ⟨req', g1, g2, g3, g4⟩
      rw [reads_unique hr g1]
      exact .verification hm g2 g3 g4
    · intro hf
      cases hf with
      | options g => rw [← hopt] at g; cases g
      | verification _ g1 g2 g3 => exact ⟨req, hr, g1, g2, g3⟩
  · rw [C121_refuses a h e hm he, hopt]
    constructor
    · rintro ⟨_, _, g⟩; exact .options g
    · intro hf
      cases hf with
      | options g => exact ⟨req, hr, g⟩
      | _ => simp_all

theorem sign_fails {a : Args} {h : Host} {req : MockRequest} {e : AppError} (hm : a.mode = .sign) :
    (a.run h req).status = .ok (.error e) ↔ Fails a h req e := by
  have hopt : SignRefused (a.opt h) e ↔ Refused a h e := by unfold Refused; rw [hm]
  cases hc : (a.opt h).signingConfig with
  | error e' =>
    have hrun : (a.run h req).status = .ok (.error e') := by unfold Args.run; rw [hm]; simp only; rw [hc]
    have hno : ∀ name prim key comps, ¬ SignOptions a h name prim key comps := by
      intro name prim key comps ho
      rw [signingConfig_iff.2 ⟨name, prim, key, comps, ho, rfl⟩] at hc
      cases hc
    rw [hrun]
    constructor
    · intro he
      cases he
      exact .options (hopt.1 ((C76_sign_refused _ _).1 hc))
    · intro hf
      cases hf with
      | options g => rw [(C76_sign_refused _ _).2 (hopt.2 g)] at hc; cases hc; rfl
      | created _ g _ _ _ => exact absurd g (hno _ _ _ _)
      | expires _ g _ _ _ _ => exact absurd g (hno _ _ _ _)
      | components _ g _ _ _ => exact absurd g (hno _ _ _ _)
      | label _ g _ _ _ _ _ => exact absurd g (hno _ _ _ _)
      | write _ g _ => obtain ⟨_, _, _, _, _, _, _, _, _, g, _⟩ := g; exact absurd g (hno _ _ _ _)
      | _ => simp_all
  | ok c =>
    obtain ⟨name, prim, key, comps, ho, rfl⟩ := signingConfig_iff.1 hc
    obtain ⟨alg, pem, g1, g2, g3, g4, g5⟩ := id ho
    have huniq : ∀ {name' prim' key' comps'}, SignOptions a h name' prim' key' comps' → comps' = comps := by
      intro name' prim' key' comps' ho'
      obtain ⟨_, _, _, _, _, _, g⟩ := ho'
      exact headerOption_unique rfl g g5
    have habs := absent_iff (req := req) g5
    have hav : ∀ k, Available req (optSigning (a.opt h) name prim key comps) k ↔ valueOf req k ≠ none := by
      intro k
      unfold Available Supplied
      simp [optSigning]
    have hnr : ¬ Refused a h e := fun g => by
      rw [(C76_sign_refused _ _).2 (hopt.2 g)] at hc
      cases hc
    have hpanic : (∃ p, sign req (optSigning (a.opt h) name prim key comps) h.signEnv = .error p) ↔ h.signEnv.sysNow < 0 ∨
        OptionTimesOk a (h.signEnv.sysNow / 1000000000) ∧ (∀ k ∈ comps, ¬ Absent req k) ∧ ¬ WritableSignOptions a := by
      have hk := C28_plain_exact req _ h.signEnv (optSigning_noAuto (a.opt h) name prim key comps) (mock_total g5)
      rw [optSigning_times, optSigning_writable g2] at hk
      rw [hk]
      constructor
      · rintro (hlt | ⟨k1, k2 | k2, k3 | ⟨k, hk, _, hno⟩⟩)
        · exact .inl hlt
        · cases k2
        · cases k2
        · exact .inr ⟨k1, fun k hk g => k2 k hk ((habs k hk).2 g), k3⟩
        · obtain ⟨i, hi⟩ := (headerOption_listed g5 k hk).2
          exact absurd hi (hno i)
      · rintro (hlt | ⟨k1, k2, k3⟩)
        · exact .inl hlt
        · exact .inr ⟨k1, .inr fun k hk g => k2 k hk ((habs k hk).1 g), .inl k3⟩
    have hres : ∀ {r' res}, sign req (optSigning (a.opt h) name prim key comps) h.signEnv = .ok (r', res) → ∀ x,
        SignResult req (optSigning (a.opt h) name prim key comps) (h.signEnv.sysNow / 1000000000) x ↔ x = res := fun hs x =>
      C112_result req _ _ h.signEnv _ (.inr ⟨fun g => absurd g ((optSigning_noAuto _ _ _ _ _).not_write _),
        fun g => absurd g ((optSigning_noAuto _ _ _ _ _).not_write _)⟩) (fun _ _ => encode_plain _) hs x
    have hct : createdTime (optSigning (a.opt h) name prim key comps) (h.signEnv.sysNow / 1000000000) = a.created := by
      unfold createdTime optSigning Args.opt
      cases a.created <;> rfl
    have het : expiresTime (optSigning (a.opt h) name prim key comps) (h.signEnv.sysNow / 1000000000) = a.expires := by
      unfold expiresTime optSigning Args.opt
      cases a.expires <;> rfl
    have hrun : ∀ x, sign req (optSigning (a.opt h) name prim key comps) h.signEnv = x → (a.run h req).status = (match x with
        | .error p => .error p
        | .ok (_, .error e) => .ok (.error (.lib e))
        | .ok (r', .ok ()) => .ok (if r'.writeTo.2 then .ok () else .error .write)) := by
      rintro x rfl
      unfold Args.run
      rw [hm]
      simp only
      rw [hc]
      simp only
      cases sign req (optSigning (a.opt h) name prim key comps) h.signEnv with
      | error p => rfl
      | ok x => obtain ⟨r', res⟩ := x; cases res <;> rfl
    cases hs : sign req (optSigning (a.opt h) name prim key comps) h.signEnv with
    | error p =>
      rw [hrun _ hs]
      refine ⟨(fun he => by cases he), fun hf => ?_⟩
      have hp := hpanic.1 ⟨p, hs⟩
      cases hf with
      | options g => exact absurd g hnr
      | created _ k0 k1 k2 k3 =>
        rcases hp with hp | ⟨hp, _⟩
        · omega
        · have := hp.1 _ k2; omega
      | expires _ k0 k1 k2 k3 k4 =>
        rcases hp with hp | ⟨hp, _⟩
        · omega
        · have := hp.2 _ k3; omega
      | components _ k0 k1 k2 k3 =>
        cases huniq k0
        rcases hp with hp | ⟨_, hp, _⟩
        · omega
        · obtain ⟨k, hk, ha⟩ := k3; exact absurd ha (hp k hk)
      | label _ k0 k1 k2 k3 k4 k5 =>
        rcases hp with hp | ⟨_, _, hp⟩
        · omega
        · exact absurd k4 hp
      | write _ k1 k2 =>
        obtain ⟨c, hc', hs'⟩ := signs_iff.2 k1
        rw [hc] at hc'
        cases hc'
        rw [hs] at hs'
        cases hs'
      | _ => simp_all
    | ok x =>
      obtain ⟨r', res⟩ := x
      have hp : ¬ (h.signEnv.sysNow < 0 ∨
          OptionTimesOk a (h.signEnv.sysNow / 1000000000) ∧ (∀ k ∈ comps, ¬ Absent req k) ∧ ¬ WritableSignOptions a) := by
        intro g
        obtain ⟨p, hp⟩ := hpanic.2 g
        rw [hs] at hp
        cases hp
      have hn : 0 ≤ h.signEnv.sysNow := by
        rcases Int.lt_or_le h.signEnv.sysNow 0 with g | g
        · exact absurd (.inl g) hp
        · exact g
      have hr0 := hres hs
      rw [hrun _ hs]
      have hvals : (∀ k ∈ comps, ¬ Absent req k) ↔ ∀ k ∈ comps, Available req (optSigning (a.opt h) name prim key comps) k :=
        forall_congr' fun k => forall_congr' fun hk => by rw [hav, ne_eq, habs k hk]
      constructor
      · intro he
        cases res with
        | error e' =>
          cases he
          have hsr := (hr0 _).2 rfl
          cases hsr with
          | created k => obtain ⟨t, k1, k2⟩ := k; rw [hct] at k1; exact .created hm ho hn k1 k2
          | expires k0 k =>
            obtain ⟨t, k1, k2⟩ := k
            rw [het] at k1
            exact .expires hm ho hn (fun t ht => k0 t (by rw [hct, ht])) k1 k2
          | missing k0 _ k =>
            obtain ⟨k, hk, k2⟩ := k
            refine .components hm ho hn (optSigning_times.1 k0) ⟨k, hk, (habs k hk).1 ?_⟩
            rw [hav] at k2
            exact Classical.not_not.1 k2
          | label k0 k1 k2 =>
            have k1 := hvals.2 (k1.resolve_left (by simp [optSigning]))
            refine .label hm ho hn (optSigning_times.1 k0) k1 (Classical.byContradiction fun hw => hp (.inr ⟨optSigning_times.1 k0, k1, hw⟩)) k2
        | ok u =>
          have hsg : Signs a h req r' := signs_iff.1 ⟨_, hc, hs⟩
          simp only at he
          split at he
          · cases he
          · rename_i hw
            cases he
            refine .write hm hsg ?_
            obtain ⟨b, n, v, c, h1, h2, _⟩ := writeTo_stuck.1 (show r'.writeTo = (r'.writeTo.1, false) by
              cases hx : r'.writeTo.2 with
              | true => exact absurd hx hw
              | false => rw [← hx])
            exact ⟨(n, v), by rw [h1]; simp, h2⟩
      · intro hf
        have herr : ∀ {e'}, SignResult req (optSigning (a.opt h) name prim key comps) (h.signEnv.sysNow / 1000000000) (.error e') →
            (match (.ok (r', res) : P (MockRequest × Except Error Unit)) with
              | .error p => .error p
              | .ok (_, .error e) => .ok (.error (.lib e))
              | .ok (r', .ok ()) => .ok (if r'.writeTo.2 then .ok () else .error .write) : P (Except AppError Unit)) =
              .ok (.error (.lib e')) := by
          intro e' k
          cases (hr0 _).1 k
          rfl
        cases hf with
        | options g => exact absurd g hnr
        | created _ _ _ k2 k3 => exact herr (.created ⟨_, by rw [hct, k2], k3⟩)
        | expires _ _ _ k2 k3 k4 => exact herr (.expires (fun t ht => k2 t (by rw [← hct, ht])) ⟨_, by rw [het, k3], k4⟩)
        | components _ k0 _ k2 k3 =>
          cases huniq k0
          obtain ⟨k, hk, ha⟩ := k3
          exact herr (.missing (optSigning_times.2 k2) rfl ⟨k, hk, by rw [hav]; simp [(habs k hk).2 ha]⟩)
        | label _ k0 _ k2 k3 _ k5 =>
          cases huniq k0
          exact herr (.label (optSigning_times.2 k2) (.inr (hvals.1 k3)) k5)
        | write _ k1 k2 =>
          obtain ⟨c, hc', hs'⟩ := signs_iff.2 k1
          rw [hc] at hc'
          cases hc'
          rw [hs] at hs'
          cases hs'
          have hw : r'.writeTo.2 = false := by
            obtain ⟨b, n, v, c, t, h1, h2, h3⟩ := first_unreadable k2
            have := writeTo_stuck.2 ⟨b, n, v, c, h1, h2, t, h3, rfl⟩
            rw [this]
          simp [hw]
        | _ => simp_all

/-- C125. The errors of the program, all of them: which error it ends with, and when. -/
theorem C125_errors (a : Args) (h : Host) (e : AppError) :
    (a.main h).status = .ok (.error e) ↔ ∃ req, ReadsRequest a h req ∧ Fails a h req e := by
  by_cases hr : ∃ req, ReadsRequest a h req
  · obtain ⟨req, hr⟩ := hr
    have : (∃ req, ReadsRequest a h req ∧ Fails a h req e) ↔ Fails a h req e :=
      ⟨fun ⟨req', h1, h2⟩ => by rw [reads_unique hr h1]; exact h2, fun h2 => ⟨req, hr, h2⟩⟩
    rw [this, main_reads hr]
    cases hm : a.mode with
    | canonicalize => exact canonicalize_fails hm
    | sign => exact sign_fails hm
    | verify => exact verify_fails hm hr
  · have hr : ∀ req, ¬ ReadsRequest a h req := fun req h => hr ⟨req, h⟩
    obtain ⟨p, hp⟩ := main_unreadable hr
    rw [hp]
    exact ⟨(fun e => by cases e), fun ⟨req, h1, _⟩ => absurd h1 (hr req)⟩

theorem reportText_iff {f : ErrFmt} {e : AppError} {t : Str} : ReportText f e t ↔ str% "Error: " ++ f.debugApp e = t := by
  constructor
  · intro h
    cases h with
    | badArg h => rw [← Shown.quoted_iff.1 h]; rfl
    | lib h => rw [← Shown.errorDebug_iff.1 h]; rfl
    | _ => rfl
  · rintro rfl
    cases e with
    | badArg m => exact .badArg (Shown.quoted_iff.2 rfl)
    | lib e => exact .lib (Shown.errorDebug_iff.2 rfl)
    | io => exact .io
    | badKey => exact .key
    | verification => exact .verification
    | write => exact .write

/-- C125. What is written to standard error about an error. -/
theorem C125_report (f : ErrFmt) (a : Args) (h : Host) (t : Str) :
    (a.main h).report f = some t ↔ ∃ req e, ReadsRequest a h req ∧ Fails a h req e ∧ ReportText f e t := by
  have key : (a.main h).report f = some t ↔ ∃ e, (a.main h).status = .ok (.error e) ∧ ReportText f e t := by
    unfold Exit.report
    simp only [reportText_iff]
    split
    · rename_i e he
      simp [he]
    · rename_i hne
      refine ⟨(fun e => by cases e), ?_⟩
      rintro ⟨e, he, _⟩
      exact absurd he (hne e)
  rw [key]
  simp only [C125_errors]
  constructor
  · rintro ⟨e, ⟨req, h1, h2⟩, h3⟩; exact ⟨req, e, h1, h2, h3⟩
  · rintro ⟨req, e, h1, h2, h3⟩; exact ⟨e, ⟨req, h1, h2⟩, h3⟩

/-- C125. The exit status: 1 for the errors, 101 for what cannot be read (among others, `C63_exact`), and 0 otherwise. -/
theorem C125_code (a : Args) (h : Host) :
    ((a.main h).code = 1 ↔ ∃ req e, ReadsRequest a h req ∧ Fails a h req e) ∧
    ((∀ req, ¬ ReadsRequest a h req) → (a.main h).code = 101) ∧
    (a.mode = .verify → ((a.main h).code = 0 ↔ ∃ req, ReadsRequest a h req ∧ Verifies a h req)) := by
  refine ⟨?_, fun hr => ?_, fun hm => ?_⟩
  · constructor
    · intro hc
      unfold Exit.code at hc
      split at hc
      · cases hc
      · rename_i e he
        obtain ⟨req, h1, h2⟩ := (C125_errors a h e).1 he
        exact ⟨req, e, h1, h2⟩
      · cases hc
    · rintro ⟨req, e, h1, h2⟩
      unfold Exit.code
      rw [(C125_errors a h e).2 ⟨req, h1, h2⟩]
  · obtain ⟨p, hp⟩ := main_unreadable hr
    rw [hp]
    rfl
  · rw [← C121_accepts a h hm]
    unfold Exit.code
    split
    · rename_i he; simp [he]
    · rename_i he; simp [he]
    · rename_i he; simp [he]

theorem debugApp_clean {f : ErrFmt} (hf : ∀ x ∈ [f.io, f.key, f.write], Shown.Clean x) (e : AppError) : Shown.Clean (f.debugApp e) := by
  cases e with
  | badArg m => exact Shown.clean_append (Shown.clean_append (by unfold Shown.Clean; decide) (Shown.debugStr_clean f.toFmt m)) (by unfold Shown.Clean; decide)
  | lib e => exact fun c => (C124_one_line f.toFmt c).2.2.2 e
  | io => exact hf f.io (by simp)
  | badKey => exact hf f.key (by simp)
  | write => exact hf f.write (by simp)
  | verification => unfold Shown.Clean; simp only [ErrFmt.debugApp]; decide

/-- C125. The line is one line, without control characters, provided the texts of other code are. -/
theorem C125_one_line (f : ErrFmt) (a : Args) (h : Host) (t : Str)
    (hf : ∀ x ∈ [f.io, f.key, f.write], ∀ c ∈ x, 32 ≤ c.toNat ∧ c.toNat ≠ 127) (ht : (a.main h).report f = some t) :
    ∀ c ∈ t, 32 ≤ c.toNat ∧ c.toNat ≠ 127 := by
  obtain ⟨_, e, _, _, hr⟩ := (C125_report f a h t).1 ht
  rw [← reportText_iff.1 hr]
  exact Shown.clean_append (by unfold Shown.Clean; decide) (debugApp_clean hf e)

theorem debugError_head (f : Fmt) (e : Error) : (f.debugError e).head? ≠ some 'B' ∧ (f.debugError e).head? ≠ some 'V' := by
  cases e <;> exact ⟨by simp [Fmt.debugError], by simp [Fmt.debugError]⟩

/-- C125. The line tells the error: two errors whose texts are the library's or the validator's own have the same line only if they
are the same, the reasons of the parser aside. -/
theorem C125_told (f : ErrFmt) (e e' : AppError) (t : Str) (he : OwnText e) (he' : OwnText e') (h : ReportText f e t)
    (h' : ReportText f e' t) : e = e' ∨ ∃ x x', e = .lib x ∧ e' = .lib x' ∧ Shown.told f.toFmt x = Shown.told f.toFmt x' := by
  have heq : f.debugApp e = f.debugApp e' := List.append_cancel_left ((reportText_iff.1 h).trans (reportText_iff.1 h').symm)
  obtain ⟨h1, h2, h3⟩ := he
  obtain ⟨h1', h2', h3'⟩ := he'
  cases e with
  | io => exact absurd rfl h1
  | badKey => exact absurd rfl h2
  | write => exact absurd rfl h3
  | badArg m =>
    cases e' with
    | io => exact absurd rfl h1'
    | badKey => exact absurd rfl h2'
    | write => exact absurd rfl h3'
    | badArg m' =>
      left
      simp only [ErrFmt.debugApp, List.append_assoc] at heq
      have := Shown.quoted_delim f.toFmt m m' _ _ trivial trivial (List.append_cancel_left heq)
      rw [this.1]
    | lib x =>
      exact absurd (show (f.debugError x).head? = some 'B' by rw [show f.debugError x = _ from heq.symm]; rfl) (debugError_head _ _).1
    | verification =>
      have := congrArg List.head? heq
      simp [ErrFmt.debugApp] at this
  | lib x =>
    cases e' with
    | io => exact absurd rfl h1'
    | badKey => exact absurd rfl h2'
    | write => exact absurd rfl h3'
    | badArg m' =>
      exact absurd (show (f.debugError x).head? = some 'B' by rw [show f.debugError x = _ from heq]; rfl) (debugError_head _ _).1
    | lib x' => exact .inr ⟨x, x', rfl, rfl, ((C124_errors f.toFmt x x').2).1 heq⟩
    | verification =>
      exact absurd (show (f.debugError x).head? = some 'V' by rw [show f.debugError x = _ from heq]; rfl) (debugError_head _ _).2
  | verification =>
    cases e' with
    | io => exact absurd rfl h1'
    | badKey => exact absurd rfl h2'
    | write => exact absurd rfl h3'
    | badArg m' =>
      have := congrArg List.head? heq
      simp [ErrFmt.debugApp] at this
    | lib x =>
      exact absurd (show (f.debugError x).head? = some 'V' by rw [show f.debugError x = _ from heq.symm]; rfl) (debugError_head _ _).2
    | verification => exact .inl rfl

/-! ### The private key -/

theorem encode_visible (b : Bytes) : (Base64.encode b).all isVisibleChar = true := by
  rw [List.all_eq_true]
  intro c hc
  have h := List.all_eq_true.1 (Base64.encode_all b) c hc
  unfold Base64.isAlphabet at h
  simp only [isVisibleChar, Bool.or_eq_true, Bool.and_eq_true, decide_eq_true_eq, beq_iff_eq]
  simp only [Bool.or_eq_true, beq_iff_eq] at h
  rcases h with h | rfl
  · unfold Base64.val at h
    simp only at h
    repeat' split at h
    all_goals first | omega | cases h
  · decide

theorem visible_bytes {s : Str} (h : s.all isVisibleChar = true) :
    (utf8 s).all isVisibleByte = true ∧ (utf8 s).all isHeaderValueByte = true := by
  obtain ⟨v, h1, h2⟩ := fromStr_visible h
  unfold HeaderValue.fromStr HeaderValue.fromBytes at h1
  split at h1
  · rename_i hb
    cases h1
    unfold HeaderValue.toStr at h2
    split at h2
    · rename_i hv; exact ⟨hv, hb⟩
    · cases h2
  · cases h1

/-- Two texts that differ in a visible part are header values of the same kind. -/
theorem fromStr_part {a s s' b : Str} (hs : s.all isVisibleChar = true) (hs' : s'.all isVisibleChar = true) :
    (HeaderValue.fromStr (a ++ s ++ b) = none ∧ HeaderValue.fromStr (a ++ s' ++ b) = none) ∨
    ∃ v v', HeaderValue.fromStr (a ++ s ++ b) = some v ∧ HeaderValue.fromStr (a ++ s' ++ b) = some v' ∧ v.toStr.isSome = v'.toStr.isSome := by
  obtain ⟨h1, h2⟩ := visible_bytes hs
  obtain ⟨h1', h2'⟩ := visible_bytes hs'
  have e1 : (utf8 (a ++ s ++ b)).all isHeaderValueByte = (utf8 (a ++ s' ++ b)).all isHeaderValueByte := by
    simp only [utf8_append, List.all_append, h2, h2']
  have e2 : (utf8 (a ++ s ++ b)).all isVisibleByte = (utf8 (a ++ s' ++ b)).all isVisibleByte := by
    simp only [utf8_append, List.all_append, h1, h1']
  unfold HeaderValue.fromStr HeaderValue.fromBytes
  by_cases hb : (utf8 (a ++ s ++ b)).all isHeaderValueByte = true
  · have hb' := e1 ▸ hb
    rw [dif_pos hb, dif_pos hb']
    refine .inr ⟨_, _, rfl, rfl, ?_⟩
    unfold HeaderValue.toStr
    simp only [e2]
    split <;> rfl
  · have hb' := e1 ▸ hb
    rw [dif_neg hb, dif_neg hb']
    exact .inl ⟨rfl, rfl⟩

theorem insert_readable {n : HeaderName} {v v' : HeaderValue} (h : v.toStr.isSome = v'.toStr.isSome) : ∀ m : HeaderMap,
    (m.insert n v).all (fun e => e.2.toStr.isSome) = (m.insert n v').all fun e => e.2.toStr.isSome
  | [] => by simp [HeaderMap.insert, h]
  | e :: m => by
    unfold HeaderMap.insert
    split
    · simp [h]
    · simp only [List.all_cons, insert_readable h m]

theorem writeHeadersTo_readable : ∀ m : HeaderMap, (MockRequest.writeHeadersTo m).2 = m.all fun e => e.2.toStr.isSome
  | [] => rfl
  | (n, v) :: m => by
    unfold MockRequest.writeHeadersTo
    cases hv : v.toStr with
    | none => simp [hv]
    | some s => simp [hv, writeHeadersTo_readable m]

theorem writeTo_readable (r : MockRequest) : r.writeTo.2 = r.headers.all fun e => e.2.toStr.isSome := by
  rw [← writeHeadersTo_readable]
  unfold MockRequest.writeTo
  cases hw : MockRequest.writeHeadersTo r.headers with
  | mk t b =>
    cases b with
    | false => rfl
    | true => simp only; cases r.body <;> rfl

/-- The outcome of sign mode once it has its configuration. -/
def signOutcome (x : P (MockRequest × Except Error Unit)) : P (Except AppError Unit) :=
  match x with
  | .error p => .error p
  | .ok (_, .error e) => .ok (.error (.lib e))
  | .ok (r', .ok ()) => .ok (if r'.writeTo.2 then .ok () else .error .write)

theorem sign_key (req : MockRequest) (o : Opt) (name : Str) (prim : Primitive) (k k' : Bytes) (comps : List SignatureComponent) (env : SignEnv) :
    signOutcome (sign req (optSigning o name prim k comps) env) = signOutcome (sign req (optSigning o name prim k' comps) env) := by
  unfold sign
  have e1 : addAutoHeaders req (optSigning o name prim k comps) env = addAutoHeaders req (optSigning o name prim k' comps) env := rfl
  rw [e1]
  cases addAutoHeaders req (optSigning o name prim k' comps) env with
  | error p => rfl
  | ok x =>
    obtain ⟨r1, cs⟩ := x
    simp only [Bind.bind, Except.bind]
    cases unixTimestamp env.sysNow with
    | error p => rfl
    | ok ts =>
      simp only
      have e2 : buildCanonicalizeConfig (optSigning o name prim k comps) cs ts = buildCanonicalizeConfig (optSigning o name prim k' comps) cs ts := rfl
      rw [e2]
      cases buildCanonicalizeConfig (optSigning o name prim k' comps) cs ts with
      | error e => rfl
      | ok cc =>
        simp only
        cases canonicalize r1 cc with
        | error p => rfl
        | ok y =>
          cases y with
          | error e => rfl
          | ok y =>
            obtain ⟨base, si⟩ := y
            simp only
            cases si.display with
            | error p => rfl
            | ok x =>
              simp only
              cases HeaderValue.fromStr x with
              | none => rfl
              | some v =>
                simp only
                rcases fromStr_part (a := (optSigning o name prim k comps).label ++ str% "=:") (b := str% ":")
                  (encode_visible (Deps.asymSign prim k env.rnd base)) (encode_visible (Deps.asymSign prim k' env.rnd base)) with ⟨g, g'⟩ | ⟨w, w', g, g', h⟩
                · have g : HeaderValue.fromStr ((optSigning o name prim k comps).label ++ str% "=:" ++ (optSigning o name prim k comps).signature.sign env.rnd base ++ str% ":") = none := g
                  have g' : HeaderValue.fromStr ((optSigning o name prim k' comps).label ++ str% "=:" ++ (optSigning o name prim k' comps).signature.sign env.rnd base ++ str% ":") = none := g'
                  rw [g, g']
                · have g : HeaderValue.fromStr ((optSigning o name prim k comps).label ++ str% "=:" ++ (optSigning o name prim k comps).signature.sign env.rnd base ++ str% ":") = some w := g
                  have g' : HeaderValue.fromStr ((optSigning o name prim k' comps).label ++ str% "=:" ++ (optSigning o name prim k' comps).signature.sign env.rnd base ++ str% ":") = some w' := g'
                  rw [g, g']
                  simp only [pure, Except.pure, signOutcome, writeTo_readable]
                  show (.ok (if (HeaderMap.insert _ _ _).all _ = true then _ else _) : P _) = .ok (if (HeaderMap.insert _ _ _).all _ = true then _ else _)
                  rw [insert_readable h]

theorem run_sign_status {a : Args} {h : Host} {req : MockRequest} {c : SigningConfig} (hm : a.mode = .sign)
    (hc : (a.opt h).signingConfig = .ok c) : (a.run h req).status = signOutcome (sign req c h.signEnv) := by
  unfold Args.run
  rw [hm]
  simp only
  rw [hc]
  simp only
  cases sign req c h.signEnv with
  | error p => rfl
  | ok x => obtain ⟨r', res⟩ := x; cases res <;> rfl

theorem signingConfig_key {o o' : Opt} {pem pem' key key' : Bytes} {comps : List SignatureComponent} {name : Str} {prim : Primitive} {alg : Str}
    (ho : o' = { o with privateKey := some (some pem'), publicKey := o'.publicKey }) (hk : o.privateKey = some (some pem)) (h1 : o.algorithm = some alg)
    (h2 : Supports alg name prim) (h3 : privatePkcs8Pem pem = some key) (h3' : privatePkcs8Pem pem' = some key') (h4 : HeaderOption o comps) :
    o.signingConfig = .ok (optSigning o name prim key comps) ∧ o'.signingConfig = .ok (optSigning o name prim key' comps) := by
  refine ⟨(C50_signing_exact _ _).2 ⟨alg, name, prim, pem, key, comps, h1, h2, hk, h3, h4, rfl⟩, ?_⟩
  rw [ho]
  exact (C50_signing_exact _ _).2 ⟨alg, name, prim, pem', key', comps, h1, h2, rfl, h3', h4, rfl⟩

/-- C125. Nothing of the private key is reported: how the program ends does not depend on what is in the file, apart from whether it can
be read and whether it is a private key. -/
theorem C125_private_key (a : Args) (h : Host) (p : Str) (s s' : FileState) (hs : SameSort s s') (hi : a.inFile ≠ some p)
    (hp : a.mode = .verify → a.publicKey ≠ some p) : (a.main (h.withFile p s)).status = (a.main (h.withFile p s')).status := by
  have hin : SameInput a a (h.withFile p s) (h.withFile p s') := by
    refine ⟨rfl, rfl, ?_⟩
    cases hf : a.inFile with
    | none => rfl
    | some q =>
      have : q ≠ p := fun e => hi (by rw [hf, e])
      simp [Host.withFile, this]
  have hsame : ∀ {o : Option Str}, o ≠ some p → SameFile o o (h.withFile p s) (h.withFile p s') := by
    intro o ho
    refine ⟨rfl, fun q hq => ?_⟩
    have : q ≠ p := fun e => ho (by rw [hq, e])
    simp [Host.withFile, this]
  cases hm : a.mode with
  | verify => exact congrArg Exit.status (C64_verify a a _ _ hm hm hin rfl rfl (hsame (hp hm)) rfl)
  | canonicalize => exact congrArg Exit.status (C64_canonicalize a a _ _ hm hm hin rfl rfl rfl rfl rfl rfl)
  | sign =>
    by_cases hk : a.privateKey = some p
    · by_cases hr : ∃ req, ReadsRequest a h req
      · obtain ⟨req, hr⟩ := hr
        rw [main_reads ((withFile_reads hi).2 hr), main_reads ((withFile_reads hi).2 hr)]
        have hrun : ∀ {s s' : FileState}, (a.opt (h.withFile p s)).signingConfig = (a.opt (h.withFile p s')).signingConfig →
            (a.run (h.withFile p s) req).status = (a.run (h.withFile p s') req).status := by
          intro s s' he
          cases hc : (a.opt (h.withFile p s)).signingConfig with
          | error e =>
            unfold Args.run
            rw [hm]
            simp only [← he, hc]
          | ok c =>
            rw [run_sign_status hm hc, run_sign_status hm (he ▸ hc)]
            rfl
        have hpk : ∀ s, (a.opt (h.withFile p s)).privateKey = some s.read := by
          intro s
          unfold Args.opt
          simp [hk, Host.withFile]
        cases hs with
        | unreadable h1 h2 =>
          apply hrun
          have e1 : s.read = none := by cases s with
            | contents b => exact absurd rfl (h1 b)
            | _ => rfl
          have e2 : s'.read = none := by cases s' with
            | contents b => exact absurd rfl (h2 b)
            | _ => rfl
          unfold Opt.signingConfig Opt.checkAlgorithm Opt.parseHeaders
          rw [hpk, hpk, e1, e2]
          rfl
        | @noKey b b' h1 h2 =>
          apply hrun
          have hboth : ∀ {b b' : Bytes}, privatePkcs8Pem b = none → privatePkcs8Pem b' = none → ∀ e,
              SignRefused (a.opt (h.withFile p (.contents b))) e → SignRefused (a.opt (h.withFile p (.contents b'))) e := by
            intro b b' h1 h2 e hr
            cases hr with
            | keyFile g => rw [hpk] at g; cases g
            | unknown x g1 g2 g3 => exact .unknown x (by rw [hpk]; simp [FileState.read]) g2 g3
            | noAlgorithm g1 g2 => exact .noAlgorithm (by rw [hpk]; simp [FileState.read]) g2
            | noKey x g1 g2 g3 => rw [hpk] at g1; cases g1
            | unsupported x pem g1 g2 g3 g4 => exact .unsupported x b' (hpk _) g2 g3 g4
            | badKey x name prim pem g1 g2 g3 g4 => exact .badKey x name prim b' (hpk _) g2 g3 h2
            | headers x name prim pem key e g1 g2 g3 g4 g5 =>
              rw [hpk] at g1
              cases g1
              rw [h1] at g4
              cases g4
          have hno : ∀ {b : Bytes} {c}, privatePkcs8Pem b = none → (a.opt (h.withFile p (.contents b))).signingConfig ≠ .ok c := by
            intro b c hb hc
            obtain ⟨alg, name, prim, pem, key, comps, _, _, g1, g2, _⟩ := (C50_signing_exact _ _).1 hc
            rw [hpk] at g1
            cases g1
            rw [hb] at g2
            cases g2
          cases hc : (a.opt (h.withFile p (.contents b))).signingConfig with
          | ok c => exact absurd hc (hno h1)
          | error e =>
            exact ((C76_sign_refused _ _).2 (hboth h1 h2 e ((C76_sign_refused _ _).1 hc))).symm
        | @key b b' k k' h1 h2 =>
          cases hc : (a.opt (h.withFile p (.contents b))).signingConfig with
          | ok c =>
            obtain ⟨alg, name, prim, pem, key, comps, g1, g2, g3, g4, g5, rfl⟩ := (C50_signing_exact _ _).1 hc
            rw [hpk] at g3
            cases g3
            rw [h1] at g4
            cases g4
            have hc' := (signingConfig_key (o := a.opt (h.withFile p (.contents b))) (o' := a.opt (h.withFile p (.contents b')))
              (by rw [show (some (some b') : Option (Option Bytes)) = (a.opt (h.withFile p (.contents b'))).privateKey from (hpk (.contents b')).symm]; rfl)
              (hpk _) g1 g2 h1 h2 g5).2
            rw [run_sign_status hm hc, run_sign_status hm hc']
            exact sign_key req _ name prim k k' comps h.signEnv
          | error e =>
            apply hrun
            have hr' := (C76_sign_refused _ _).1 hc
            rw [hc]
            refine ((C76_sign_refused _ _).2 ?_).symm
            cases hr' with
            | keyFile g => rw [hpk] at g; cases g
            | unknown x g1 g2 g3 => exact .unknown x (by rw [hpk]; simp [FileState.read]) g2 g3
            | noAlgorithm g1 g2 => exact .noAlgorithm (by rw [hpk]; simp [FileState.read]) g2
            | noKey x g1 g2 g3 => rw [hpk] at g1; cases g1
            | unsupported x pem g1 g2 g3 g4 => exact .unsupported x b' (hpk _) g2 g3 g4
            | badKey x name prim pem g1 g2 g3 g4 =>
              rw [hpk] at g1
              cases g1
              rw [h1] at g4
              cases g4
            | headers x name prim pem key e g1 g2 g3 g4 g5 => exact .headers x name prim b' k' e (hpk _) g2 g3 h2 g5
      · have hnr : ∀ s req, ¬ ReadsRequest a (h.withFile p s) req := fun s req g => hr ⟨req, (withFile_reads hi).1 g⟩
        unfold Args.main
        rw [withFile_input s hi, withFile_input s' hi]
        cases hin : a.input h with
        | error e => rfl
        | ok input =>
          simp only
          show (match MockRequest.fromReader input h.trace with
            | .error p => (⟨[], .error p⟩ : Exit)
            | .ok none => ⟨[], .error .readInput⟩
            | .ok (some req) => a.run (h.withFile p s) req).status = (match MockRequest.fromReader input h.trace with
            | .error p => (⟨[], .error p⟩ : Exit)
            | .ok none => ⟨[], .error .readInput⟩
            | .ok (some req) => a.run (h.withFile p s') req).status
          cases hf : MockRequest.fromReader input h.trace with
          | error e => rfl
          | ok x =>
            cases x with
            | none => rfl
            | some req =>
              exfalso
              obtain ⟨g1, g2⟩ := (C60_reads_exactly input h.trace req).1 hf
              exact hr ⟨req, input, source_iff.1 hin, g1, g2⟩
    · exact congrArg Exit.status (C64_sign a a _ _ hm hm hin rfl rfl rfl rfl rfl rfl (hsame hk) rfl)

end

/-! ### Examples -/
section
attribute [local instance] toyDeps

/-- Formatting for the examples. -/
def exErrFmt : ErrFmt := { exFmt with io := str% "Os { code: 2 }", key := str% "InvalidEncoding", write := str% "ToStrError { _priv: () }" }

/-- Canonicalize mode names the missing components; a component that is none. -/
example : (({ exSignArgs with mode := .canonicalize, headers := some (some (str% "date host \"@status\"")) } : Args).main exHost).report
      exErrFmt = some (str% "Error: MissingComponents([Header(\"date\"), Derived(DerivedComponent { item: Item { bare_item: String(\"@status\"), params: {} } })])") ∧
    (({ exSignArgs with mode := .canonicalize, headers := some (some (str% "date h:ost")) } : Args).main exHost).report exErrFmt =
      some (str% "Error: HeaderNameParse(\"h:ost\")") := by decide +kernel

/-- Sign mode does not; a date in the future, one in the past, a label with a line end, a header that is not text, an option with a line
end, a key file that is missing. -/
example : (({ exSignArgs with headers := some (some (str% "date host")) } : Args).main exHost).report exErrFmt =
      some (str% "Error: Canonicalize") ∧
    (({ exSignArgs with created := some 151 } : Args).main exHost).report exErrFmt = some (str% "Error: InvalidSignatureCreationDate") ∧
    (({ exSignArgs with expires := some 149 } : Args).main exHost).report exErrFmt = some (str% "Error: InvalidSignatureExpiresDate") ∧
    (({ exSignArgs with label := some (str% "a\nb") } : Args).main exHost).report exErrFmt =
      some (str% "Error: ConvertHeader(InvalidHeaderValue)") ∧
    (({ exSignArgs with inFile := some (str% "odd"), headers := some (some (str% "host")) } : Args).main exHost).report exErrFmt =
      some (str% "Error: ToStrError { _priv: () }") ∧
    (({ exSignArgs with algorithm := some (str% "rs\na") } : Args).main exHost).report exErrFmt =
      some (str% "Error: BadArg(\"Unknown algorithm: rs\\na\")") ∧
    (({ exSignArgs with privateKey := some (str% "none") } : Args).main exHost).report exErrFmt = some (str% "Error: Os { code: 2 }") := by
  decide +kernel

/-- Verify mode: a key id that is not the one of the signature; exit statuses. -/
example : (({ exVerifyArgs with keyId := none } : Args).main { exHost with stdin := some (exSignArgs.main exHost).stdout }).report exErrFmt =
      some (str% "Error: VerifyingError { remnant: () }") ∧
    (({ exVerifyArgs with keyId := none } : Args).main { exHost with stdin := some (exSignArgs.main exHost).stdout }).code = 1 ∧
    (exVerifyArgs.main { exHost with stdin := some (exSignArgs.main exHost).stdout }).code = 0 ∧
    (exVerifyArgs.main exHost).code = 101 := by decide +kernel

/-- `C125_private_key`: the three sorts of files, and how sign mode ends for each of them. -/
example : SameSort .missing .broken ∧ SameSort (.contents []) (.contents [1]) ∧ SameSort (.contents exKeyFile) (.contents exKeyFile) ∧
    (exSignArgs.main (exHost.withFile (str% "key") .broken)).report exErrFmt = some (str% "Error: Os { code: 2 }") ∧
    (exSignArgs.main (exHost.withFile (str% "key") (.contents [1]))).report exErrFmt = some (str% "Error: InvalidEncoding") ∧
    (exSignArgs.main (exHost.withFile (str% "key") (.contents exKeyFile))).report exErrFmt = none := by
  refine ⟨.unreadable (fun b h => by cases h) (fun b h => by cases h), .noKey (by decide +kernel) (by decide +kernel), ?_, by decide +kernel⟩
  cases hk : privatePkcs8Pem exKeyFile with
  | none =>
    have : (privatePkcs8Pem exKeyFile).isSome = true := by decide +kernel
    rw [hk] at this
    cases this
  | some k => exact .key hk hk

end
end Httpsig
