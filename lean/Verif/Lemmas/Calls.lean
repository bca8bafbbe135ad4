import Verif.Lemmas.Logging
import Verif.Spec.Calls
/- `verifyCalled` step by step. -/
set_option linter.unusedSectionVars false
namespace Httpsig
open Sfv
variable [Deps]

theorem Called.bind_lift_ok {α β : Type} (a : α) (g : α → Called β) : (liftM (Except.ok a : P α) : Called α) >>= g = g a := rfl
theorem Called.bind_lift_error {α β : Type} (p : Panic) (g : α → Called β) :
    (liftM (Except.error p : P α) : Called α) >>= g = ⟨[], .error p⟩ := rfl
theorem Called.bind_call {β : Type} (c : Call) (g : Unit → Called β) : call c >>= g = ⟨c :: (g ()).calls, (g ()).result⟩ := rfl
theorem Called.bind_pure {α β : Type} (a : α) (g : α → Called β) : (pure a : Called α) >>= g = g a := rfl
theorem Called.pure_eq {α : Type} (a : α) : (pure a : Called α) = ⟨[], .ok a⟩ := rfl
theorem Called.bind_mk_ok {α β : Type} (l : List Call) (a : α) (g : α → Called β) :
    (⟨l, .ok a⟩ : Called α) >>= g = ⟨l ++ (g a).calls, (g a).result⟩ := rfl
theorem Called.bind_mk_error {α β : Type} (l : List Call) (p : Panic) (g : α → Called β) :
    (⟨l, .error p⟩ : Called α) >>= g = ⟨l, .error p⟩ := rfl
theorem Called.eta {α : Type} (x : Called α) : x = ⟨x.calls, x.result⟩ := rfl
theorem Called.eq_of {α : Type} {x : Called α} {l : List Call} {r : P α} (h : x.calls = l) (h' : x.result = r) : x = ⟨l, r⟩ := by
  subst h h'; rfl

/-! ### Lists gone through up to the first hit -/

theorem upTo_nil {α : Type} (p : α → Bool) : UpTo p [] [] := ⟨List.prefix_rfl, (fun _ h => nomatch h), fun h => absurd rfl h⟩

theorem upTo_hit {α : Type} {p : α → Bool} {a : α} (h : p a = true) (l : List α) : UpTo p (a :: l) [a] :=
  ⟨⟨l, rfl⟩, (fun _ h => nomatch h), fun _ => ⟨a, rfl, h⟩⟩

theorem upTo_miss {α : Type} {p : α → Bool} {a : α} (h : p a = false) {all l : List α} (hl : UpTo p all l) : UpTo p (a :: all) (a :: l) := by
  obtain ⟨⟨t, rfl⟩, h2, h3⟩ := hl
  refine ⟨⟨t, rfl⟩, ?_, ?_⟩
  · intro b hb
    cases l with
    | nil => exact nomatch hb
    | cons c cs =>
      rcases List.mem_cons.1 hb with rfl | hb
      · exact h
      · exact h2 b hb
  · intro hne
    obtain ⟨b, hb, hp⟩ := h3 fun e => hne (by rw [← e])
    refine ⟨b, ?_, hp⟩
    cases l with
    | nil => cases hb
    | cons c cs => exact hb

theorem upTo_has {α : Type} {p : α → Bool} {all l : List α} (h : UpTo p all l) (ha : ∃ a ∈ all, p a = true) : ∃ a ∈ l, p a = true := by
  obtain ⟨_, _, h3⟩ := h
  by_cases e : l = all
  · rw [e]; exact ha
  · obtain ⟨a, hl, hp⟩ := h3 e
    exact ⟨a, List.mem_of_getLast? hl, hp⟩

theorem tryKeys_spec (base : Bytes) (sig : Str) : ∀ ks : List HttpSignatureVerify,
    ∃ l, UpTo (fun k => k.verify base sig) ks l ∧
      tryKeys base sig ks = ⟨l.map fun k => .httpVerify k base sig, .ok (ks.any fun a => a.verify base sig)⟩
  | [] => ⟨[], upTo_nil _, rfl⟩
  | k :: ks => by
    obtain ⟨l, h1, h2⟩ := tryKeys_spec base sig ks
    unfold tryKeys
    cases hk : k.verify base sig with
    | true => exact ⟨[k], upTo_hit (p := fun k : HttpSignatureVerify => k.verify base sig) hk ks, by simp only [Called.bind_call, if_true, List.any_cons, hk, Bool.true_or]; rfl⟩
    | false =>
      refine ⟨k :: l, upTo_miss (p := fun k : HttpSignatureVerify => k.verify base sig) hk h1, ?_⟩
      simp only [Called.bind_call, Bool.false_eq_true, if_false, h2, List.any_cons, hk, Bool.false_or, List.map_cons]

theorem firstDigest_spec (provider : Str → Option HttpDigest) : ∀ parts : List Str,
    ∃ names l, EntryNames parts names ∧ UpTo (fun n => (provider n).isSome) names l ∧
      firstDigest provider parts = ⟨l.map .provideDigest, .ok (parts.filterMap fun part =>
        match splitOnce '=' part with
        | none => none
        | some (k, v) => (provider (trim k)).map fun d => (d, trim v)).head?⟩
  | [] => ⟨[], [], .nil, upTo_nil _, rfl⟩
  | part :: parts => by
    obtain ⟨names, l, h0, h1, h2⟩ := firstDigest_spec provider parts
    unfold firstDigest
    cases hs : splitOnce '=' part with
    | none =>
      refine ⟨names, l, .skip (splitOnce_eq_none.1 hs) h0, h1, ?_⟩
      simp only [h2, List.filterMap_cons, hs]
    | some kv =>
      obtain ⟨k, v⟩ := kv
      obtain ⟨rfl, hk⟩ := splitOnce_eq_some.1 hs
      have hn := EntryNames.name (v := v) hk (trimmed_iff.2 (trim_eq k).symm) h0
      cases hp : provider (trim k) with
      | none =>
        refine ⟨_, trim k :: l, hn, upTo_miss (by simp only [hp, Option.isSome_none]) h1, ?_⟩
        simp only [h2, List.filterMap_cons, hs, hp, Called.bind_call, List.map_cons, Option.map_none]
      | some d =>
        refine ⟨_, [trim k], hn, upTo_hit (by simp only [hp, Option.isSome_some]) names, ?_⟩
        simp only [List.filterMap_cons, hs, hp, Called.bind_call, Option.map_some, List.head?_cons]
        rfl

theorem digestNames_of {header : Str} {names : List Str} (h : EntryNames (splitOn ',' header) names) : DigestNames header names := by
  obtain ⟨_, h1, h2⟩ := splitOn_eq_iff.1 (rfl : splitOn ',' header = _)
  exact ⟨_, h2, h1, h⟩

section
variable {R Rem : Type} [ServerRequestLike R Rem]

/-- `verify_signature_only` from the question for keys on. -/
def sigTailCalled (req : R) (config : VerifyingConfig) (c : CanonicalizeConfig) (sig keyId : Str) : Called (Option (SignatureInput × Str)) := do
  call (.provideKeys keyId)
  if (config.keyProvider keyId).isEmpty then return none else
  match ← canonicalize req c with
  | .error _ => return none
  | .ok (base, input) =>
    if ← tryKeys base sig (config.keyProvider keyId) then return some (input, keyId) else return none

theorem sigCalled_timely {req : R} {env : VerifyEnv} {c : CanonicalizeConfig} {sig keyId alg : Str} (h : Timely req env c sig keyId alg)
    (config : VerifyingConfig) : verifySignatureOnlyCalled req config env = sigTailCalled req config c sig keyId := by
  obtain ⟨⟨⟨⟨iv, h1, h2⟩, sv, label, h3, h4, h5⟩, h6, h7⟩, h8, h9, h10⟩ := h
  have hn := read_nodup h2
  have h5' : c.getLabel = label := by rw [read_label h2] at h5; simpa using h5
  unfold verifySignatureOnlyCalled sigTailCalled
  rw [h1, Called.bind_lift_ok]
  simp only
  rw [h2, Called.bind_lift_ok]
  simp only
  rw [h3, Called.bind_lift_ok]
  simp only [parseSignatureHeader_iff.2 h4, ne_eq, h5', not_true_eq_false, if_false,
    show c.keyid = some keyId from (get_string hn).2 h6, show c.alg = some alg from (get_string hn).2 h7, unixTimestamp,
    show ¬ env.sysNow < 0 by omega, Called.bind_lift_ok, (created_ok_iff hn).2 h9, (expires_ok_iff hn).2 h10, Bool.false_eq_true]
  rfl

theorem sigCalled_cases (req : R) (config : VerifyingConfig) (env : VerifyEnv) :
    (∃ c sig keyId alg, Timely req env c sig keyId alg) ∨
    ((verifySignatureOnlyCalled req config env).calls = [] ∧
      (verifySignatureOnlyCalled req config env).result = verifySignatureOnly req config env) := by
  unfold verifySignatureOnlyCalled verifySignatureOnly
  cases h1 : RequestLike.derive req (.header hSignatureInput) with
  | error p => exact .inr ⟨rfl, rfl⟩
  | ok o1 =>
  cases o1 with
  | none => exact .inr ⟨rfl, rfl⟩
  | some iv =>
  rw [Called.bind_lift_ok, ebind_ok]
  simp only
  cases h2 : CanonicalizeConfig.fromSignatureInput iv with
  | error p => exact .inr ⟨rfl, rfl⟩
  | ok o2 =>
  cases o2 with
  | error e => exact .inr ⟨rfl, rfl⟩
  | ok c =>
  rw [Called.bind_lift_ok, ebind_ok]
  simp only
  have hn := read_nodup h2
  cases h3 : RequestLike.derive req (.header hSignature) with
  | error p => exact .inr ⟨rfl, rfl⟩
  | ok o3 =>
  cases o3 with
  | none => exact .inr ⟨rfl, rfl⟩
  | some sv =>
  rw [Called.bind_lift_ok, ebind_ok]
  simp only
  cases h4 : parseSignatureHeader sv with
  | none => exact .inr ⟨rfl, rfl⟩
  | some lp =>
  obtain ⟨label, sig⟩ := lp
  have h4' := parseSignatureHeader_iff.1 h4
  simp only
  by_cases h5 : c.getLabel = label
  rotate_left
  · rw [if_pos h5, if_pos h5]; exact .inr ⟨rfl, rfl⟩
  have hlab : LabelsAgree req c sig := ⟨⟨iv, h1, h2⟩, sv, label, h3, h4', by rw [read_label h2, h5]⟩
  simp only [ne_eq, h5, not_true_eq_false, if_false]
  cases h6 : c.keyid with
  | none => exact .inr ⟨rfl, rfl⟩
  | some kid =>
  simp only
  cases h7 : c.alg with
  | none => exact .inr ⟨rfl, rfl⟩
  | some alg =>
  simp only [unixTimestamp]
  by_cases h8 : env.sysNow < 0
  · rw [if_pos h8]; exact .inr ⟨rfl, rfl⟩
  rw [if_neg h8, Called.bind_lift_ok, ebind_ok]
  by_cases h9 : createdInFuture c (env.sysNow / 1000000000) = true
  · rw [if_pos h9, if_pos h9]; exact .inr ⟨rfl, rfl⟩
  rw [if_neg h9, if_neg h9]
  by_cases h10 : alreadyExpired c (env.sysNow / 1000000000) = true
  · rw [if_pos h10, if_pos h10]; exact .inr ⟨rfl, rfl⟩
  exact .inl ⟨c, sig, kid, alg, ⟨hlab, (get_string hn).1 h6, (get_string hn).1 h7⟩, by omega,
    (created_ok_iff hn).1 (by simpa using h9), (expires_ok_iff hn).1 (by simpa using h10)⟩

theorem timely_unique {req : R} {env : VerifyEnv} {c c' : CanonicalizeConfig} {sig sig' keyId keyId' alg alg' : Str}
    (h : Timely req env c sig keyId alg) (h' : Timely req env c' sig' keyId' alg') : c = c' ∧ sig = sig' ∧ keyId = keyId' := by
  obtain ⟨⟨⟨⟨v, h1, h2⟩, w, l, h3, h4, _⟩, h5, _⟩, _⟩ := h
  obtain ⟨⟨⟨⟨v', h1', h2'⟩, w', l', h3', h4', _⟩, h5', _⟩, _⟩ := h'
  rw [h1] at h1'; cases h1'; rw [h2] at h2'; cases h2'
  rw [h3] at h3'; cases h3'
  have e := (parseSignatureHeader_iff.2 h4).symm.trans (parseSignatureHeader_iff.2 h4')
  cases e
  have hn := read_nodup h2
  have e := ((get_string hn).2 h5).symm.trans ((get_string hn).2 h5')
  exact ⟨rfl, rfl, by cases e; rfl⟩

theorem sig_timely {req : R} {env : VerifyEnv} {c : CanonicalizeConfig} {sig keyId alg : Str} (h : Timely req env c sig keyId alg)
    (config : VerifyingConfig) : verifySignatureOnly req config env = (sigTailCalled req config c sig keyId).result := by
  obtain ⟨⟨⟨⟨iv, h1, h2⟩, sv, label, h3, h4, h5⟩, h6, h7⟩, h8, h9, h10⟩ := h
  have hn := read_nodup h2
  have h5' : c.getLabel = label := by rw [read_label h2] at h5; simpa using h5
  unfold verifySignatureOnly sigTailCalled
  rw [h1, ebind_ok]
  simp only
  rw [h2, ebind_ok]
  simp only
  rw [h3, ebind_ok]
  simp only [parseSignatureHeader_iff.2 h4, ne_eq, h5', not_true_eq_false, if_false,
    show c.keyid = some keyId from (get_string hn).2 h6, show c.alg = some alg from (get_string hn).2 h7, unixTimestamp,
    show ¬ env.sysNow < 0 by omega, ebind_ok, (created_ok_iff hn).2 h9, (expires_ok_iff hn).2 h10, Bool.false_eq_true, Called.bind_call]
  split
  · rfl
  cases canonicalize req c with
  | error p => rfl
  | ok o =>
  rw [ebind_ok, Called.bind_lift_ok]
  cases o with
  | error e => rfl
  | ok bi =>
  obtain ⟨l, _, e⟩ := tryKeys_spec bi.1 sig (config.keyProvider keyId)
  simp only [e, Called.bind_mk_ok]
  split <;> rfl

theorem sigCalled_result (req : R) (config : VerifyingConfig) (env : VerifyEnv) :
    (verifySignatureOnlyCalled req config env).result = verifySignatureOnly req config env := by
  rcases sigCalled_cases req config env with ⟨c, sig, k, a, h⟩ | ⟨_, h⟩
  · rw [sigCalled_timely h, sig_timely h]
  · exact h

theorem sigCalled_calls (req : R) (config : VerifyingConfig) (env : VerifyEnv) :
    ∃ lookup tries, (verifySignatureOnlyCalled req config env).calls = lookup ++ tries ∧ LookupCalls req env lookup ∧
      KeyCalls req config env tries := by
  by_cases ht : ∃ c sig keyId alg, Timely req env c sig keyId alg
  · obtain ⟨c, sig, k, a, h⟩ := ht
    refine ⟨[.provideKeys k], (verifySignatureOnlyCalled req config env).calls.tail, ?_, .inl ⟨c, sig, k, a, h, rfl⟩, ?_⟩
    · rw [sigCalled_timely h]; rfl
    have huniq : ∀ c' sig' k' a', Timely req env c' sig' k' a' → c' = c := by
      rintro c' sig' k' a' ⟨⟨⟨⟨v', h1, h2⟩, _⟩, _⟩, _⟩
      obtain ⟨⟨⟨⟨v, h3, h4⟩, _⟩, _⟩, _⟩ := h
      rw [h1] at h3; cases h3; rw [h2] at h4; cases h4; rfl
    rw [sigCalled_timely h]
    unfold sigTailCalled
    simp only [Called.bind_call, List.tail_cons]
    cases hc : canonicalize req c with
    | error p =>
      refine .inr ⟨fun c' sig' k' a' b si h' e => ?_, ?_⟩
      · rw [huniq _ _ _ _ h', hc] at e; cases e
      · split <;> rfl
    | ok o =>
    cases o with
    | error e =>
      refine .inr ⟨fun c' sig' k' a' b si h' e => ?_, ?_⟩
      · rw [huniq _ _ _ _ h', hc] at e; cases e
      · split <;> rfl
    | ok bi =>
    obtain ⟨base, si⟩ := bi
    obtain ⟨l, hl, e⟩ := tryKeys_spec base sig (config.keyProvider k)
    refine .inl ⟨c, sig, k, a, base, si, l, h, hc, hl, ?_⟩
    rw [Called.bind_lift_ok]
    simp only [e, Called.bind_mk_ok]
    split
    · rename_i he
      rw [List.isEmpty_iff.1 he] at hl
      rw [List.prefix_nil.1 hl.1]; rfl
    · split <;> simp [Called.pure_eq]
  · have hno : ∀ c sig keyId alg, ¬ Timely req env c sig keyId alg := fun c s k a h => ht ⟨c, s, k, a, h⟩
    rcases sigCalled_cases req config env with h | ⟨h, _⟩
    · exact absurd h ht
    · exact ⟨[], [], h, .inr ⟨hno, rfl⟩, .inr ⟨fun c s k a b si h => absurd h (hno c s k a), rfl⟩⟩

theorem excCalled (req : R) (config : VerifyingConfig) (env : VerifyEnv) :
    verifyExceptDigestCalled req config env =
      ⟨(verifySignatureOnlyCalled req config env).calls, verifyExceptDigest req config env⟩ := by
  have hr := sigCalled_result req config env
  unfold verifyExceptDigestCalled verifyExceptDigest
  generalize verifySignatureOnlyCalled req config env = x at hr
  obtain ⟨l, r⟩ := x
  simp only at hr
  subst hr
  cases verifySignatureOnly req config env with
  | error p => rfl
  | ok o =>
  rw [Called.bind_mk_ok, ebind_ok]
  cases o with
  | none => simp only [Called.pure_eq, List.append_nil]; rfl
  | some x =>
  obtain ⟨input, k⟩ := x
  simp only
  cases checkRequired input config.requiredComponents with
  | error p => simp only [Called.bind_lift_error, List.append_nil]; rfl
  | ok b =>
  rw [Called.bind_lift_ok, ebind_ok]
  cases b with
  | false => simp only [Bool.not_false, if_true, Called.pure_eq, List.append_nil]; rfl
  | true =>
  simp only [Bool.not_true, Bool.false_eq_true, if_false]
  cases checkDate input config env with
  | error p => simp only [Called.bind_lift_error, List.append_nil]; rfl
  | ok b =>
  rw [Called.bind_lift_ok, ebind_ok]
  cases b <;> simp only [Bool.not_false, Bool.not_true, Bool.false_eq_true, if_true, if_false, Called.pure_eq, List.append_nil] <;> rfl

end
end Httpsig
