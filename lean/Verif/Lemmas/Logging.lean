import Verif.Lemmas.Verify
import Verif.Spec.Logging
/- `verifyLogged` against its specification. -/
set_option linter.unusedSectionVars false
namespace Httpsig
open Sfv

theorem Logged.bind_lift_ok {α β : Type} (a : α) (g : α → Logged β) : (liftM (Except.ok a : P α) : Logged α) >>= g = g a := rfl
theorem Logged.bind_lift_error {α β : Type} (p : Panic) (g : α → Logged β) :
    (liftM (Except.error p : P α) : Logged α) >>= g = ⟨[], .error p⟩ := rfl
theorem Logged.bind_info {β : Type} (s : Str) (g : Unit → Logged β) : info s >>= g = ⟨s :: (g ()).records, (g ()).result⟩ := rfl
theorem Logged.bind_pure {α β : Type} (a : α) (g : α → Logged β) : (pure a : Logged α) >>= g = g a := rfl
theorem Logged.pure_eq {α : Type} (a : α) : (pure a : Logged α) = ⟨[], .ok a⟩ := rfl
theorem Logged.bind_mk_ok {α β : Type} (l : List Str) (a : α) (g : α → Logged β) :
    (⟨l, .ok a⟩ : Logged α) >>= g = ⟨l ++ (g a).records, (g a).result⟩ := rfl
theorem Logged.bind_mk_error {α β : Type} (l : List Str) (p : Panic) (g : α → Logged β) :
    (⟨l, .error p⟩ : Logged α) >>= g = ⟨l, .error p⟩ := rfl

theorem ebind_ok {α β : Type} (a : α) (g : α → P β) : (Except.ok a : P α) >>= g = g a := rfl

variable [Deps]

theorem fromSignatureInputLogged_result (v : Str) :
    (CanonicalizeConfig.fromSignatureInputLogged v).result = CanonicalizeConfig.fromSignatureInput v ∧
    ∀ c, CanonicalizeConfig.fromSignatureInput v = .ok (.ok c) → CanonicalizeConfig.fromSignatureInputLogged v = ⟨[], .ok (.ok c)⟩ := by
  unfold CanonicalizeConfig.fromSignatureInputLogged CanonicalizeConfig.fromSignatureInput SignatureInput.ofStrLogged SignatureInput.ofStr
  cases parseDictionary v with
  | none => exact ⟨rfl, fun _ h => nomatch h⟩
  | some d =>
    simp only
    cases d.head? with
    | none => exact ⟨rfl, fun _ h => nomatch h⟩
    | some e =>
      obtain ⟨label, entry⟩ := e
      cases entry with
      | item i => exact ⟨rfl, fun _ h => nomatch h⟩
      | innerList l =>
        simp only [ComponentList.ofListEntry, Except.map, Bind.bind, Except.bind, pure, Except.pure]
        cases CanonicalizeConfig.ofSignatureInput ⟨label, ⟨l⟩⟩ with
        | error p => exact ⟨rfl, fun _ h => nomatch h⟩
        | ok c => exact ⟨rfl, fun c' h => by cases h; rfl⟩

theorem parseSignatureHeader_none {v : Str} : parseSignatureHeader v = none ↔ '=' ∉ v := by
  unfold parseSignatureHeader
  rw [Option.map_eq_none_iff]
  induction v with
  | nil => simp [splitOnce]
  | cons x xs ih =>
    unfold splitOnce
    by_cases hx : x = '='
    · simp [hx]
    · rw [if_neg hx, Option.map_eq_none_iff, ih]
      simp only [List.mem_cons, not_or]
      exact ⟨fun h => ⟨fun e => hx e.symm, h⟩, fun h => h.2⟩

variable {R Rem : Type} [ServerRequestLike R Rem]

theorem sigLogged_fold (f : Fmt) (req : R) (config : VerifyingConfig) (env : VerifyEnv) :
    verifySignatureOnlyLogged f req config env = verifySignatureOnlyWith f plainCanon req config env := rfl
theorem excLogged_fold (f : Fmt) (req : R) (config : VerifyingConfig) (env : VerifyEnv) :
    verifyExceptDigestLogged f req config env = verifyExceptDigestWith f plainCanon req config env := rfl

theorem canonicalize_error {req : R} {c : CanonicalizeConfig} {e : Error} (h : canonicalize req c = .ok (.error e)) :
    ∃ l, e = .missingComponents l := by
  unfold canonicalize at h
  cases h1 : deriveAll req c.components with
  | error p => rw [h1] at h; cases h
  | ok o =>
    obtain ⟨found, missing⟩ := o
    rw [h1] at h
    simp only [Bind.bind, Except.bind] at h
    split at h
    · cases h; exact ⟨_, rfl⟩
    · split at h
      · cases h
      · split at h <;> cases h

private theorem fin {α : Type} {x : Logged (Option α)} {y : P (Option α)} {Q : List Str → Prop} (l : List Str) (e1 : x = ⟨l, .ok none⟩)
    (e2 : y = .ok none) (h : Q l) : x.result = y ∧ (y = .ok none → Q x.records) ∧ (∀ z, y = .ok (some z) → x.records = []) := by
  subst e1 e2
  exact ⟨rfl, fun _ => h, fun _ h => nomatch h⟩

private theorem fin' {α : Type} {x : Logged (Option α)} {y : P (Option α)} {Q : List Str → Prop} (l : List Str) (p : Panic)
    (e1 : x = ⟨l, .error p⟩) (e2 : y = .error p) : x.result = y ∧ (y = .ok none → Q x.records) ∧ (∀ z, y = .ok (some z) → x.records = []) := by
  subst e1 e2
  exact ⟨rfl, (fun h => nomatch h), fun _ h => nomatch h⟩

/-- What signature checking logs. -/
theorem signatureLogged (f : Fmt) (req : R) (config : VerifyingConfig) (env : VerifyEnv) :
    (verifySignatureOnlyLogged f req config env).result = verifySignatureOnly req config env ∧
    (verifySignatureOnly req config env = .ok none →
      SignatureRefusal f req config env (verifySignatureOnlyLogged f req config env).records) ∧
    (∀ x, verifySignatureOnly req config env = .ok (some x) → (verifySignatureOnlyLogged f req config env).records = []) := by
  unfold verifySignatureOnlyLogged verifySignatureOnlyWith plainCanon verifySignatureOnly
  cases h1 : RequestLike.derive req (.header hSignatureInput) with
  | error p => exact fin' [] p rfl rfl
  | ok o1 =>
  cases o1 with
  | none => exact fin _ rfl rfl (.noInput h1)
  | some iv =>
  rw [Logged.bind_lift_ok, ebind_ok]
  simp only
  obtain ⟨hl, hl'⟩ := fromSignatureInputLogged_result iv
  cases h2 : CanonicalizeConfig.fromSignatureInput iv with
  | error p =>
    rw [h2] at hl
    refine fin' (CanonicalizeConfig.fromSignatureInputLogged iv).records p ?_ rfl
    generalize CanonicalizeConfig.fromSignatureInputLogged iv = x at hl
    obtain ⟨l, r⟩ := x
    cases hl
    rfl
  | ok o2 =>
  cases o2 with
  | error e =>
    rw [h2] at hl
    generalize CanonicalizeConfig.fromSignatureInputLogged iv = x at hl
    obtain ⟨l, r⟩ := x
    cases hl
    exact fin' _ .badSignatureInput rfl rfl
  | ok c =>
  rw [hl' c h2, ebind_ok, Logged.bind_mk_ok]
  simp only [List.nil_append]
  have hin : InputRead req c := ⟨iv, h1, h2⟩
  have hn := read_nodup h2
  cases h3 : RequestLike.derive req (.header hSignature) with
  | error p => exact fin' [] p rfl rfl
  | ok o3 =>
  cases o3 with
  | none => exact fin _ rfl rfl (.noSignature hin h3)
  | some sv =>
  rw [Logged.bind_lift_ok, ebind_ok]
  unfold parseSignatureHeaderLogged
  simp only
  cases h4 : parseSignatureHeader sv with
  | none => exact fin _ rfl rfl (.malformed hin h3 (parseSignatureHeader_none.1 h4))
  | some lp =>
  obtain ⟨label, sig⟩ := lp
  have h4' := parseSignatureHeader_iff.1 h4
  simp only [Logged.bind_pure]
  by_cases h5 : c.getLabel = label
  rotate_left
  · refine fin [_] (by rw [if_pos h5]; rfl) (by rw [if_pos h5]; rfl) (.label hin h3 h4' ?_)
    rw [read_label h2]
    exact fun h => h5 (Option.some.inj h)
  have hlab : LabelsAgree req c sig := ⟨hin, sv, label, h3, h4', by rw [read_label h2, h5]⟩
  simp only [ne_eq, h5, not_true_eq_false, if_false]
  cases h6 : c.keyid with
  | none =>
    refine fin _ rfl rfl (.keyid hlab fun k hk => ?_)
    rw [show c.keyid = some k from (get_string hn).2 hk] at h6
    cases h6
  | some kid =>
  have h6' : (str% "keyid", BareItem.string kid) ∈ c.params.params := (get_string hn).1 h6
  simp only
  cases h7 : c.alg with
  | none =>
    refine fin _ rfl rfl (.alg hlab h6' fun k hk => ?_)
    rw [show c.alg = some k from (get_string hn).2 hk] at h7
    cases h7
  | some alg =>
  have hid : Identified req c sig kid alg := ⟨hlab, h6', (get_string hn).1 h7⟩
  simp only [unixTimestamp]
  by_cases h8 : env.sysNow < 0
  · exact fin' [] _ (by rw [if_pos h8]; rfl) (by rw [if_pos h8]; rfl)
  rw [if_neg h8, Logged.bind_lift_ok, ebind_ok]
  have hg : ∀ {k t}, (IMap.get c.params.params k).bind BareItem.asInt = some t → (k, BareItem.integer t) ∈ c.params.params :=
    fun h => (get_int hn).1 h
  by_cases h9 : createdInFuture c (env.sysNow / 1000000000) = true
  · refine fin [_] (by rw [if_pos h9]; rfl) (by rw [if_pos h9]; rfl) ?_
    unfold createdInFuture at h9
    split at h9
    · rename_i t ht
      exact .created hid (by omega) (hg ht) (by simpa using h9)
    · cases h9
  have h9' := (created_ok_iff hn).1 (by simpa using h9)
  rw [if_neg h9, if_neg h9]
  by_cases h10 : alreadyExpired c (env.sysNow / 1000000000) = true
  · refine fin [_] (by rw [if_pos h10]; rfl) (by rw [if_pos h10]; rfl) ?_
    unfold alreadyExpired at h10
    split at h10
    · rename_i t ht
      exact .expires hid (by omega) h9' (hg ht) (by simpa using h10)
    · cases h10
  have ht : Timely req env c sig kid alg := ⟨hid, by omega, h9', (expires_ok_iff hn).1 (by simpa using h10)⟩
  rw [if_neg h10, if_neg h10]
  by_cases h11 : (config.keyProvider kid).isEmpty = true
  · exact fin [_] (by rw [if_pos h11]; rfl) (by rw [if_pos h11]; rfl) (.unknownKey ht (List.isEmpty_iff.1 h11))
  have h11' : config.keyProvider kid ≠ [] := fun h => h11 (by rw [h]; rfl)
  simp only [if_neg h11]
  cases h12 : canonicalize req c with
  | error p => exact fin' [] p rfl rfl
  | ok o4 =>
  cases o4 with
  | error e =>
    obtain ⟨l, rfl⟩ := canonicalize_error h12
    exact fin _ rfl rfl (.missing ht h11' h12)
  | ok bi =>
  obtain ⟨base, input⟩ := bi
  rw [Logged.bind_lift_ok, ebind_ok]
  simp only
  by_cases h13 : (config.keyProvider kid).any (fun a => a.verify base sig) = true
  · rw [if_pos h13, if_pos h13]
    exact ⟨rfl, (fun h => nomatch h), fun _ _ => rfl⟩
  · refine fin [_] (by rw [if_neg h13]; rfl) (by rw [if_neg h13]; rfl) (.invalid ht h11' h12 fun k hk => ?_)
    cases hv : k.verify base sig with
    | false => rfl
    | true => exact absurd (List.any_eq_true.2 ⟨k, hk, hv⟩) h13

/-- The rest of `verify_signature_only`, once the labels agree. -/
private def sigTail (f : Fmt) (req : R) (config : VerifyingConfig) (env : VerifyEnv) (cc : CanonicalizeConfig) (provided : Str) :
    Logged (Option (SignatureInput × Str)) :=
  match cc.keyid with
  | none => ⟨[str% "Verification Failed: Missing required 'keyid' in 'Signature-Input' header"], .ok none⟩
  | some keyId =>
  match cc.alg with
  | none => ⟨[str% "Verification Failed: Missing required 'alg' in 'Signature-Input' header"], .ok none⟩
  | some algorithmName =>
  if env.sysNow < 0 then ⟨[], .error .clockBeforeEpoch⟩ else
  if createdInFuture cc (env.sysNow / 1000000000) then ⟨[str% "Verification Failed: Bad created time"], .ok none⟩ else
  if alreadyExpired cc (env.sysNow / 1000000000) then ⟨[str% "Verification Failed: Bad expires time"], .ok none⟩ else
  if (config.keyProvider keyId).isEmpty then
    ⟨[str% "Verification Failed: Unknown key (keyId=" ++ keyId ++ str% ", algorithm=" ++ algorithmName ++ str% ")"], .ok none⟩
  else
  match canonicalize req cc with
  | .error p => ⟨[], .error p⟩
  | .ok (.error e) => ⟨[str% "Canonicalization Failed: " ++ f.displayError e], .ok none⟩
  | .ok (.ok (base, input)) =>
    if (config.keyProvider keyId).any fun a => a.verify base provided then ⟨[], .ok (some (input, keyId))⟩
    else ⟨[str% "Verification Failed: Invalid signature provided"], .ok none⟩

private theorem sigTail_eq {f : Fmt} {req : R} {config : VerifyingConfig} {env : VerifyEnv} {c : CanonicalizeConfig} {sig : Str}
    (h : LabelsAgree req c sig) : verifySignatureOnlyLogged f req config env = sigTail f req config env c sig := by
  obtain ⟨⟨iv, h1, h2⟩, sv, label, h3, h4, h5⟩ := h
  have h5' : c.getLabel = label := by rw [read_label h2] at h5; simpa using h5
  unfold verifySignatureOnlyLogged verifySignatureOnlyWith plainCanon sigTail parseSignatureHeaderLogged
  rw [h1, Logged.bind_lift_ok]
  simp only
  rw [(fromSignatureInputLogged_result iv).2 c h2, Logged.bind_mk_ok]
  simp only [List.nil_append]
  rw [h3, Logged.bind_lift_ok]
  simp only [parseSignatureHeader_iff.2 h4, Logged.bind_pure, ne_eq, h5', not_true_eq_false, if_false, unixTimestamp]
  cases c.keyid with
  | none => rfl
  | some kid =>
  simp only
  cases c.alg with
  | none => rfl
  | some alg =>
  simp only
  split
  · rfl
  rw [Logged.bind_lift_ok]
  split
  · rfl
  split
  · rfl
  split
  · rfl
  cases canonicalize req c with
  | error p => rfl
  | ok o =>
  rw [Logged.bind_lift_ok]
  cases o with
  | error e => rfl
  | ok bi =>
  obtain ⟨base, input⟩ := bi
  simp only
  split
  · rfl
  · rfl

theorem signatureLogged_of {f : Fmt} {req : R} {config : VerifyingConfig} {env : VerifyEnv} {ms : List Str}
    (h : SignatureRefusal f req config env ms) : verifySignatureOnlyLogged f req config env = ⟨ms, .ok none⟩ := by
  have tail : ∀ {c : CanonicalizeConfig} {sig keyId alg : Str}, Identified req c sig keyId alg →
      IMap.NodupKeys c.params.params ∧ verifySignatureOnlyLogged f req config env = sigTail f req config env c sig ∧
      c.keyid = some keyId ∧ c.alg = some alg := fun h => by
    obtain ⟨v, _, hr⟩ := h.1.1
    have hn := read_nodup hr
    exact ⟨hn, sigTail_eq h.1, (get_string hn).2 h.2.1, (get_string hn).2 h.2.2⟩
  cases h with
  | noInput h => unfold verifySignatureOnlyLogged verifySignatureOnlyWith plainCanon; rw [h]; rfl
  | noSignature hi h3 =>
    obtain ⟨iv, h1, h2⟩ := hi
    unfold verifySignatureOnlyLogged verifySignatureOnlyWith plainCanon
    rw [h1, Logged.bind_lift_ok]
    simp only
    rw [(fromSignatureInputLogged_result iv).2 _ h2, Logged.bind_mk_ok]
    simp only [List.nil_append]
    rw [h3]; rfl
  | malformed hi h3 h4 =>
    obtain ⟨iv, h1, h2⟩ := hi
    unfold verifySignatureOnlyLogged verifySignatureOnlyWith plainCanon parseSignatureHeaderLogged
    rw [h1, Logged.bind_lift_ok]
    simp only
    rw [(fromSignatureInputLogged_result iv).2 _ h2, Logged.bind_mk_ok]
    simp only [List.nil_append]
    rw [h3, Logged.bind_lift_ok]
    simp only [parseSignatureHeader_none.2 h4]
    rfl
  | @label c v label sig hi h3 h4 h5 =>
    obtain ⟨iv, h1, h2⟩ := hi
    have h5' : ¬ c.getLabel = label := fun e => h5 ((read_label h2).trans (congrArg some e))
    unfold verifySignatureOnlyLogged verifySignatureOnlyWith plainCanon parseSignatureHeaderLogged
    rw [h1, Logged.bind_lift_ok]
    simp only
    rw [(fromSignatureInputLogged_result iv).2 _ h2, Logged.bind_mk_ok]
    simp only [List.nil_append]
    rw [h3, Logged.bind_lift_ok]
    simp only [parseSignatureHeader_iff.2 h4, Logged.bind_pure, ne_eq, h5', not_false_eq_true, if_true]
    rfl
  | @keyid c sig h hk =>
    obtain ⟨v, _, hr⟩ := h.1
    have e : c.keyid = none := by
      cases hc : c.keyid with
      | none => rfl
      | some k => exact absurd ((get_string (read_nodup hr)).1 hc) (hk k)
    rw [sigTail_eq h]; unfold sigTail; rw [e]
  | @alg c sig keyId h hk ha =>
    obtain ⟨v, _, hr⟩ := h.1
    have e : c.alg = none := by
      cases hc : c.alg with
      | none => rfl
      | some k => exact absurd ((get_string (read_nodup hr)).1 hc) (ha k)
    have e' : c.keyid = some keyId := (get_string (read_nodup hr)).2 hk
    rw [sigTail_eq h]; unfold sigTail; rw [e, e']
  | @created c sig keyId alg t h h8 hm ht =>
    obtain ⟨hn, e1, e2, e3⟩ := tail h
    have : createdInFuture c (env.sysNow / 1000000000) = true := by
      cases hc : createdInFuture c (env.sysNow / 1000000000) with
      | true => rfl
      | false => exact absurd ((created_ok_iff hn).1 hc t hm) (by omega)
    rw [e1]; unfold sigTail; simp only [e2, e3]
    rw [if_neg (by omega), if_pos this]
  | @expires c sig keyId alg t h h8 hc hm ht =>
    obtain ⟨hn, e1, e2, e3⟩ := tail h
    have hx : alreadyExpired c (env.sysNow / 1000000000) = true := by
      cases hc : alreadyExpired c (env.sysNow / 1000000000) with
      | true => rfl
      | false => exact absurd ((expires_ok_iff hn).1 hc t hm) (by omega)
    rw [e1]; unfold sigTail; simp only [e2, e3]
    rw [if_neg (by omega), if_neg (by rw [(created_ok_iff hn).2 hc]; simp), if_pos hx]
  | @unknownKey c sig keyId alg h hk =>
    obtain ⟨hn, e1, e2, e3⟩ := tail h.1
    have h8 := h.2.1
    rw [e1]; unfold sigTail; simp only [e2, e3]
    rw [if_neg (by omega), if_neg (by rw [(created_ok_iff hn).2 h.2.2.1]; simp), if_neg (by rw [(expires_ok_iff hn).2 h.2.2.2]; simp),
      if_pos (by rw [hk]; rfl)]
  | @missing c sig keyId alg l h hk hc =>
    obtain ⟨hn, e1, e2, e3⟩ := tail h.1
    have h8 := h.2.1
    rw [e1]; unfold sigTail; simp only [e2, e3]
    rw [if_neg (by omega), if_neg (by rw [(created_ok_iff hn).2 h.2.2.1]; simp), if_neg (by rw [(expires_ok_iff hn).2 h.2.2.2]; simp),
      if_neg (fun e => hk (List.isEmpty_iff.1 e)), hc]
    simp [Fmt.displayError, Fmt.debugComponents]
  | @invalid c sig keyId alg base si h hk hc hv =>
    obtain ⟨hn, e1, e2, e3⟩ := tail h.1
    have h8 := h.2.1
    rw [e1]; unfold sigTail; simp only [e2, e3]
    rw [if_neg (by omega), if_neg (by rw [(created_ok_iff hn).2 h.2.2.1]; simp), if_neg (by rw [(expires_ok_iff hn).2 h.2.2.2]; simp),
      if_neg (fun e => hk (List.isEmpty_iff.1 e)), hc]
    simp only
    rw [if_neg]
    intro ha
    obtain ⟨k, hkm, hkv⟩ := List.any_eq_true.1 ha
    rw [hv k hkm] at hkv
    cases hkv

/-- What the check of required components logs. -/
theorem requiredLogged (c : CanonicalizeConfig) : ∀ l : List SignatureComponent,
    (checkRequiredLogged c.toSignatureInput l).result = checkRequired c.toSignatureInput l ∧
    (checkRequired c.toSignatureInput l = .ok true → (checkRequiredLogged c.toSignatureInput l).records = []) ∧
    (checkRequired c.toSignatureInput l = .ok false → ∃ m, checkRequiredLogged c.toSignatureInput l = ⟨[m], .ok false⟩) ∧
    ∀ m, checkRequiredLogged c.toSignatureInput l = ⟨[m], .ok false⟩ ↔
      ∃ before k after s, l = before ++ k :: after ∧ (∀ r ∈ before, ∃ t, r.display = .ok t ∧ CoversText c t) ∧
        k.display = .ok s ∧ ¬ CoversText c s ∧ m = str% "Verification Failed: Missing header '" ++ s ++ str% "' required by configuration"
  | [] => ⟨rfl, (fun _ => rfl), (fun h => nomatch h), fun m => ⟨(fun h => nomatch h), (by rintro ⟨b, k, a, s, h, _⟩; simp at h)⟩⟩
  | k :: l => by
    obtain ⟨ih1, ih2, ih4, ih3⟩ := requiredLogged c l
    unfold checkRequiredLogged checkRequired
    cases hd : k.display with
    | error p =>
      refine ⟨rfl, (fun h => nomatch h), (fun h => nomatch h), fun m => ⟨(fun h => nomatch h), ?_⟩⟩
      rintro ⟨b, k', a, s, h, hb, hk, _⟩
      cases b with
      | nil => cases h; rw [hd] at hk; cases hk
      | cons x b => cases h; obtain ⟨t, ht, _⟩ := hb k (by simp); rw [hd] at ht; cases ht
    | ok s =>
      rw [Logged.bind_lift_ok, ebind_ok]
      by_cases hs : CoversText c s
      · have e : ¬ (c.toSignatureInput.list.getItem s).isNone = true := by
          rw [Option.isNone_iff_eq_none, ← ne_eq, ← Option.isSome_iff_ne_none]; exact getItem_isSome.2 hs
        rw [if_neg e, if_neg e]
        refine ⟨ih1, ih2, ih4, fun m => (ih3 m).trans ?_⟩
        constructor
        · rintro ⟨b, k', a, s', rfl, hb, h⟩
          exact ⟨k :: b, k', a, s', rfl, List.forall_mem_cons.2 ⟨⟨s, hd, hs⟩, hb⟩, h⟩
        · rintro ⟨b, k', a, s', h, hb, hk, hn, hm⟩
          cases b with
          | nil => cases h; rw [hd] at hk; cases hk; exact absurd hs hn
          | cons x b => cases h; exact ⟨b, k', a, s', rfl, fun r hr => hb r (by simp [hr]), hk, hn, hm⟩
      · have e : (c.toSignatureInput.list.getItem s).isNone = true := by
          rw [Option.isNone_iff_eq_none]
          cases hg : c.toSignatureInput.list.getItem s with
          | none => rfl
          | some i => exact absurd (getItem_isSome.1 (by rw [hg]; rfl)) hs
        rw [if_pos e, if_pos e]
        refine ⟨rfl, (fun h => nomatch h), (fun _ => ⟨_, rfl⟩), fun m => ?_⟩
        constructor
        · intro h
          cases h
          exact ⟨[], k, l, s, rfl, (fun _ h => nomatch h), hd, hs, rfl⟩
        · rintro ⟨b, k', a, s', h, hb, hk, hn, rfl⟩
          cases b with
          | nil => cases h; rw [hd] at hk; cases hk; rfl
          | cons x b =>
            cases h
            obtain ⟨t, ht, hc⟩ := hb k (by simp)
            rw [hd] at ht; cases ht
            exact absurd hc hs

/-- What the date check logs. -/
theorem dateLogged (f : Fmt) {c : CanonicalizeConfig} (config : VerifyingConfig) (env : VerifyEnv) (hn : IMap.NodupKeys c.params.params) :
    (checkDateLogged f c.toSignatureInput config env).result = checkDate c.toSignatureInput config env ∧
    (checkDate c.toSignatureInput config env = .ok true → (checkDateLogged f c.toSignatureInput config env).records = []) ∧
    (checkDate c.toSignatureInput config env = .ok false → RequiredOk config c →
      ∃ m, checkDateLogged f c.toSignatureInput config env = ⟨[m], .ok false⟩ ∧ ConditionRefusal f config env c m) := by
  have hg : ∀ v, (c.toSignatureInput.getParam (str% "date")).bind BareItem.asInt = some v ↔
      (str% "date", BareItem.integer v) ∈ c.params.params := fun v => get_int hn
  unfold checkDateLogged checkDate
  by_cases hv : config.validateDate = true
  rotate_left
  · rw [if_neg hv, if_neg hv]
    exact ⟨rfl, (fun _ => rfl), (fun h => nomatch h)⟩
  rw [if_pos hv, if_pos hv]
  cases hd : (c.toSignatureInput.getParam (str% "date")).bind BareItem.asInt with
  | none =>
    refine ⟨rfl, (fun h => nomatch h), fun _ hr => ⟨_, rfl, .noDate hr hv fun v hm => ?_⟩⟩
    rw [(hg v).2 hm] at hd; cases hd
  | some v =>
    simp only
    by_cases ht : Deps.timestampInRange v = true
    rotate_left
    · rw [if_neg ht, if_neg ht]
      exact ⟨rfl, (fun h => nomatch h), fun _ hr => ⟨_, rfl, .badDate hr hv ((hg v).1 hd) (by simpa using ht)⟩⟩
    rw [if_pos ht, if_pos ht]
    obtain ⟨n, h1, h2⟩ := toStd_or (d := v * 1000000000 - env.utcNow)
    rw [h1]
    simp only
    by_cases hl : n ≤ config.dateLeeway
    · rw [if_pos hl]
      simp only [hl, decide_true]
      exact ⟨rfl, (fun _ => rfl), (fun h => nomatch h)⟩
    · rw [if_neg hl]
      simp only [hl, decide_false]
      exact ⟨rfl, (fun h => nomatch h), fun _ hr => ⟨_, rfl, .skew hr hv ((hg v).1 hd) ht (by omega)⟩⟩

theorem dateLogged_of {f : Fmt} {c : CanonicalizeConfig} {config : VerifyingConfig} {env : VerifyEnv} {m : Str}
    (hn : IMap.NodupKeys c.params.params) (h : ConditionRefusal f config env c m) :
    (checkRequiredLogged c.toSignatureInput config.requiredComponents = ⟨[m], .ok false⟩) ∨
    (checkRequiredLogged c.toSignatureInput config.requiredComponents = ⟨[], .ok true⟩ ∧
      checkDateLogged f c.toSignatureInput config env = ⟨[m], .ok false⟩) := by
  have hg : ∀ v, (c.toSignatureInput.getParam (str% "date")).bind BareItem.asInt = some v ↔
      (str% "date", BareItem.integer v) ∈ c.params.params := fun v => get_int hn
  have hreq : RequiredOk config c → checkRequiredLogged c.toSignatureInput config.requiredComponents = ⟨[], .ok true⟩ := fun h => by
    obtain ⟨h1, h2, _⟩ := requiredLogged c config.requiredComponents
    have h3 := checkRequired_iff.2 h
    rw [h3] at h1
    have h4 := h2 h3
    generalize checkRequiredLogged c.toSignatureInput config.requiredComponents = x at h1 h4
    obtain ⟨a, b⟩ := x
    cases h1; cases h4; rfl
  cases h with
  | required h1 h2 h3 h4 => exact .inl (((requiredLogged c _).2.2.2 _).2 ⟨_, _, _, _, h1, h2, h3, h4, rfl⟩)
  | noDate hr hv hd =>
    refine .inr ⟨hreq hr, ?_⟩
    have : (c.toSignatureInput.getParam (str% "date")).bind BareItem.asInt = none := by
      cases h : (c.toSignatureInput.getParam (str% "date")).bind BareItem.asInt with
      | none => rfl
      | some v => exact absurd ((hg v).1 h) (hd v)
    unfold checkDateLogged
    rw [if_pos hv, this]
    rfl
  | badDate hr hv hd ht =>
    refine .inr ⟨hreq hr, ?_⟩
    unfold checkDateLogged
    rw [if_pos hv, (hg _).2 hd]
    simp only
    rw [if_neg (by rw [ht]; simp)]
    rfl
  | @skew v hr hv hd ht hl =>
    refine .inr ⟨hreq hr, ?_⟩
    unfold checkDateLogged
    rw [if_pos hv, (hg _).2 hd]
    simp only
    rw [if_pos ht]
    obtain ⟨n, h1, h2⟩ := toStd_or (d := v * 1000000000 - env.utcNow)
    rw [h1]
    simp only
    rw [if_neg (by omega)]
    rfl

/-- The checks before the digest. -/
theorem exceptDigestLogged (f : Fmt) (req : R) (config : VerifyingConfig) (env : VerifyEnv) :
    (verifyExceptDigestLogged f req config env).result = verifyExceptDigest req config env ∧
    (∀ k, verifyExceptDigest req config env = .ok (some k) → (verifyExceptDigestLogged f req config env).records = []) ∧
    ∀ ms, verifyExceptDigestLogged f req config env = ⟨ms, .ok none⟩ ↔
      (SignatureRefusal f req config env ms ∨ ∃ c sig keyId base m, SignatureOk req config env c sig keyId base ∧
        ConditionRefusal f config env c m ∧ ms = [m]) := by
  obtain ⟨a1, a2, a3⟩ := signatureLogged f req config env
  have hsome : ∀ {c sig keyId base}, SignatureOk req config env c sig keyId base →
      verifySignatureOnlyLogged f req config env = ⟨[], .ok (some (c.toSignatureInput, keyId))⟩ := fun h => by
    have e := verifySignatureOnly_iff.2 ⟨_, _, _, h, rfl⟩
    rw [e] at a1
    have := a3 _ e
    generalize verifySignatureOnlyLogged f req config env = x at a1 this
    obtain ⟨a, b⟩ := x
    cases a1; cases this; rfl
  have hcond : ∀ {c sig keyId base m}, SignatureOk req config env c sig keyId base → ConditionRefusal f config env c m →
      verifyExceptDigestLogged f req config env = ⟨[m], .ok none⟩ := fun h hc => by
    unfold verifyExceptDigestLogged verifyExceptDigestWith
    rw [← sigLogged_fold]
    rw [hsome h, Logged.bind_mk_ok]
    obtain ⟨v, _, hr⟩ := h.input
    rcases dateLogged_of (read_nodup hr) hc with e | ⟨e1, e2⟩
    · simp only [e]; rfl
    · simp only [e1, Logged.bind_mk_ok, e2, List.nil_append]; rfl
  have hsig : ∀ {ms}, SignatureRefusal f req config env ms → verifyExceptDigestLogged f req config env = ⟨ms, .ok none⟩ := fun h => by
    unfold verifyExceptDigestLogged verifyExceptDigestWith
    rw [← sigLogged_fold]
    rw [signatureLogged_of h, Logged.bind_mk_ok]
    simp [Logged.pure_eq]
  suffices hmain : (verifyExceptDigestLogged f req config env).result = verifyExceptDigest req config env ∧
      (∀ k, verifyExceptDigest req config env = .ok (some k) → (verifyExceptDigestLogged f req config env).records = []) ∧
      ∀ ms, verifyExceptDigestLogged f req config env = ⟨ms, .ok none⟩ →
        (SignatureRefusal f req config env ms ∨ ∃ c sig keyId base m, SignatureOk req config env c sig keyId base ∧
          ConditionRefusal f config env c m ∧ ms = [m]) by
    refine ⟨hmain.1, hmain.2.1, fun ms => ⟨hmain.2.2 ms, ?_⟩⟩
    rintro (h | ⟨c, sig, keyId, base, m, h1, h2, rfl⟩)
    · exact hsig h
    · exact hcond h1 h2
  unfold verifyExceptDigestLogged verifyExceptDigestWith verifyExceptDigest
  rw [← sigLogged_fold]
  cases hv : verifySignatureOnly req config env with
  | error p =>
    rw [hv] at a1
    generalize verifySignatureOnlyLogged f req config env = x at a1
    obtain ⟨a, b⟩ := x
    cases a1
    exact ⟨rfl, (fun _ h => nomatch h), fun _ h => nomatch h⟩
  | ok o =>
  cases o with
  | none =>
    rw [hv] at a1
    have h := a2 hv
    generalize verifySignatureOnlyLogged f req config env = x at a1 h
    obtain ⟨a, b⟩ := x
    cases a1
    rw [Logged.bind_mk_ok]
    refine ⟨rfl, (fun _ h => nomatch h), fun ms hms => ?_⟩
    simp only [Logged.pure_eq, List.append_nil] at hms
    cases hms
    exact .inl h
  | some x =>
    obtain ⟨si, keyId⟩ := x
    obtain ⟨c, sig, base, hok, rfl⟩ := verifySignatureOnly_iff.1 hv
    obtain ⟨v, _, hr⟩ := hok.input
    have hn := read_nodup hr
    rw [hsome hok, Logged.bind_mk_ok, ebind_ok]
    simp only [List.nil_append]
    obtain ⟨b1, b2, b4, b3⟩ := requiredLogged c config.requiredComponents
    cases hq : checkRequired c.toSignatureInput config.requiredComponents with
    | error p =>
      rw [hq] at b1
      generalize checkRequiredLogged c.toSignatureInput config.requiredComponents = x at b1
      obtain ⟨a, b⟩ := x
      cases b1
      exact ⟨rfl, (fun _ h => nomatch h), fun _ h => nomatch h⟩
    | ok b =>
    cases b with
    | false =>
      obtain ⟨m, hm⟩ := b4 hq
      obtain ⟨before, k, after, s, h1, h2, h3, h4, rfl⟩ := (b3 m).1 hm
      rw [hm]
      refine ⟨rfl, (fun _ h => nomatch h), fun ms hms => ?_⟩
      cases hms
      exact .inr ⟨c, sig, keyId, base, _, hok, .required h1 h2 h3 h4, rfl⟩
    | true =>
      have b2 := b2 hq
      rw [hq] at b1
      generalize checkRequiredLogged c.toSignatureInput config.requiredComponents = x at b1 b2
      obtain ⟨a, b⟩ := x
      cases b1; cases b2
      rw [Logged.bind_mk_ok, ebind_ok]
      simp only [List.nil_append]
      obtain ⟨d1, d2, d3⟩ := dateLogged f (c := c) config env hn
      obtain ⟨b, hd⟩ := checkDate_ok c.toSignatureInput config env
      rw [hd] at d1 d2 d3 ⊢
      cases b with
      | false =>
        obtain ⟨m, hm, hc⟩ := d3 rfl (checkRequired_iff.1 hq)
        rw [hm]
        refine ⟨rfl, (fun _ h => nomatch h), fun ms hms => ?_⟩
        cases hms
        exact .inr ⟨c, sig, keyId, base, _, hok, hc, rfl⟩
      | true =>
        have d2 := d2 rfl
        generalize checkDateLogged f c.toSignatureInput config env = x at d1 d2
        obtain ⟨a, b⟩ := x
        cases d1; cases d2
        exact ⟨rfl, (fun _ _ => rfl), fun _ h => nomatch h⟩

theorem Logged.eq_of {α : Type} {x : Logged α} {l : List Str} {r : P α} (h1 : x.records = l) (h2 : x.result = r) : x = ⟨l, r⟩ := by
  obtain ⟨a, b⟩ := x
  cases h1; cases h2; rfl

/-- The whole verification: erasing the log gives `verify`; accepted requests leave none; a rejection is explained. -/
theorem verifyLogged_spec (f : Fmt) (req : R) (config : VerifyingConfig) (env : VerifyEnv) :
    (verifyLogged f req config env).result = verify req config env ∧
    (∀ r, verify req config env = .ok (.ok r) → (verifyLogged f req config env).records = []) ∧
    ∀ ms, (∃ rem, verifyLogged f req config env = ⟨ms, .ok (.error rem)⟩) ↔ Refusal f req config env ms := by
  obtain ⟨a1, a2, a3⟩ := exceptDigestLogged f req config env
  have hpass : ∀ {k}, verifyExceptDigest req config env = .ok (some k) →
      verifyExceptDigestLogged f req config env = ⟨[], .ok (some k)⟩ := fun h => Logged.eq_of (a2 _ h) (by rw [a1, h])
  have hdig : ∀ {c sig keyId base m}, SignatureOk req config env c sig keyId base → RequiredOk config c → DateOk config env c →
      DigestRefusal req config m → ∃ rem, verifyLogged f req config env = ⟨[m], .ok (.error rem)⟩ := fun h1 h2 h3 hd => by
    unfold verifyLogged verifyWith
    rw [← excLogged_fold]
    rw [hpass (verifyExceptDigest_iff.2 ⟨_, _, _, h1, h2, h3⟩), Logged.bind_mk_ok]
    simp only [List.nil_append]
    cases hd with
    | unsupported hv hh hs =>
      rw [hh, Logged.bind_lift_ok]
      simp only [if_pos hv]
      rw [selectDigest_none_iff.2 hs]
      exact ⟨_, rfl⟩
    | uncomputable hv hh hs hn =>
      rw [hh, Logged.bind_lift_ok]
      simp only [if_pos hv]
      rw [selectDigest_iff.2 hs]
      simp only [hn]
      exact ⟨_, rfl⟩
    | differs hv hh hs hn hne =>
      rw [hh, Logged.bind_lift_ok]
      simp only [if_pos hv]
      rw [selectDigest_iff.2 hs]
      simp only [hn]
      rw [if_neg (fun e => hne (utf8_injective e).symm)]
      exact ⟨_, rfl⟩
    | missing hv hh hn =>
      rw [hh, Logged.bind_lift_ok]
      simp only [if_pos hv]
      rw [show documentedSha256 = defaultDigest from rfl] at hn
      simp only [hn, Option.isSome_some, if_true]
      exact ⟨_, rfl⟩
  have hexc : ∀ {ms}, verifyExceptDigestLogged f req config env = ⟨ms, .ok none⟩ →
      ∃ rem, verifyLogged f req config env = ⟨ms, .ok (.error rem)⟩ := fun h => by
    unfold verifyLogged verifyWith
    rw [← excLogged_fold]
    rw [h, Logged.bind_mk_ok]
    simp [Logged.pure_eq]
  suffices hmain : (verifyLogged f req config env).result = verify req config env ∧
      (∀ r, verify req config env = .ok (.ok r) → (verifyLogged f req config env).records = []) ∧
      ∀ ms rem, verifyLogged f req config env = ⟨ms, .ok (.error rem)⟩ → Refusal f req config env ms by
    refine ⟨hmain.1, hmain.2.1, fun ms => ⟨fun ⟨rem, h⟩ => hmain.2.2 ms rem h, ?_⟩⟩
    intro h
    cases h with
    | signature h => exact hexc ((a3 _).2 (.inl h))
    | condition h1 h2 => exact hexc ((a3 _).2 (.inr ⟨_, _, _, _, _, h1, h2, rfl⟩))
    | digest h1 h2 h3 h4 => exact hdig h1 h2 h3 h4
  unfold verifyLogged verifyWith verify
  rw [← excLogged_fold]
  cases hv : verifyExceptDigest req config env with
  | error p =>
    rw [hv] at a1
    rw [Logged.eq_of rfl a1]
    exact ⟨rfl, (fun _ h => nomatch h), fun _ _ h => nomatch h⟩
  | ok o =>
  cases o with
  | none =>
    rw [hv] at a1
    have e := Logged.eq_of rfl a1
    have := (a3 _).1 e
    rw [e, Logged.bind_mk_ok, ebind_ok]
    refine ⟨rfl, (fun _ h => nomatch h), fun ms rem h => ?_⟩
    simp only [Logged.pure_eq, List.append_nil] at h
    cases h
    rcases this with h | ⟨c, sig, keyId, base, m, h1, h2, h3⟩
    · exact .signature h
    · rw [h3]; exact .condition h1 h2
  | some k =>
  obtain ⟨c, sig, base, h1, h2, h3⟩ := verifyExceptDigest_iff.1 hv
  rw [hpass hv, Logged.bind_mk_ok, ebind_ok]
  simp only [List.nil_append]
  cases hh : RequestLike.derive req (.header hDigest) with
  | error p => exact ⟨rfl, (fun _ h => nomatch h), fun _ _ h => nomatch h⟩
  | ok o =>
  rw [Logged.bind_lift_ok, ebind_ok]
  cases o with
  | none =>
    simp only
    by_cases hq : config.requireDigest = true
    rotate_left
    · rw [if_neg hq, if_neg hq]
      exact ⟨rfl, (fun _ _ => rfl), fun _ _ h => nomatch h⟩
    rw [if_pos hq, if_pos hq]
    cases hd : (ServerRequestLike.completeWithDigest req defaultDigest).1 with
    | none => exact ⟨by simp; rfl, (fun _ _ => by simp; rfl), fun _ _ h => by simp [Logged.pure_eq] at h⟩
    | some d =>
      simp only [Option.isSome_some, if_true]
      refine ⟨rfl, (fun _ h => nomatch h), fun ms rem h => ?_⟩
      cases h
      exact .digest h1 h2 h3 (.missing hq hh hd)
  | some v =>
    simp only
    by_cases hq : config.validateDigest = true
    rotate_left
    · rw [if_neg hq, if_neg hq]
      exact ⟨rfl, (fun _ _ => rfl), fun _ _ h => nomatch h⟩
    rw [if_pos hq, if_pos hq]
    cases hs : selectDigest config.digestProvider v with
    | none =>
      refine ⟨rfl, (fun _ h => nomatch h), fun ms rem h => ?_⟩
      cases h
      exact .digest h1 h2 h3 (.unsupported hq hh (selectDigest_none_iff.1 hs))
    | some x =>
      obtain ⟨alg, value⟩ := x
      have hs := selectDigest_iff.1 hs
      simp only
      cases hd : (ServerRequestLike.completeWithDigest req alg).1 with
      | none =>
        refine ⟨rfl, (fun _ h => nomatch h), fun ms rem h => ?_⟩
        cases h
        exact .digest h1 h2 h3 (.uncomputable hq hh hs hd)
      | some d =>
        simp only
        by_cases hu : utf8 value = utf8 d
        · rw [if_pos hu, if_pos hu]
          exact ⟨rfl, (fun _ _ => rfl), fun _ _ h => nomatch h⟩
        · rw [if_neg hu, if_neg hu]
          refine ⟨rfl, (fun _ h => nomatch h), fun ms rem h => ?_⟩
          cases h
          exact .digest h1 h2 h3 (.differs hq hh hs hd (fun e => hu (by rw [e])))

end Httpsig
