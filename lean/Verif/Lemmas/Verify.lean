import Verif.Lemmas.Strings
import Verif.Lemmas.Canon
import Verif.Spec.Verify
/- `verify` against its specification. -/
set_option linter.unusedSectionVars false
namespace Httpsig
open Sfv
variable [Deps]

theorem parseSignatureHeader_iff {v label sig : Str} :
    parseSignatureHeader v = some (label, sig) ↔ SignatureHeader v label sig := by
  unfold parseSignatureHeader SignatureHeader
  simp only [Option.map_eq_some_iff]
  constructor
  · rintro ⟨⟨a, b⟩, h, e⟩
    cases e
    obtain ⟨h1, h2⟩ := splitOnce_eq_some.1 h
    exact ⟨b, h1, h2, trimmed_iff.2 rfl⟩
  · rintro ⟨text, h1, h2, h3⟩
    refine ⟨(label, text), splitOnce_eq_some.2 ⟨h1, h2⟩, ?_⟩
    simp only [trimmed_iff.1 h3]

theorem asStr_eq_some {b : BareItem} {s : Str} : b.asStr = some s ↔ b = .string s := by
  cases b <;> simp [BareItem.asStr]

theorem asInt_eq_some {b : BareItem} {i : Int} : b.asInt = some i ↔ b = .integer i := by
  cases b <;> simp [BareItem.asInt]

theorem get_string {m : Params} (h : IMap.NodupKeys m) {k s : Str} :
    (IMap.get m k).bind BareItem.asStr = some s ↔ (k, BareItem.string s) ∈ m := by
  simp only [Option.bind_eq_some_iff, asStr_eq_some]
  constructor
  · rintro ⟨b, hb, rfl⟩; exact IMap.mem_of_get hb
  · intro hm; exact ⟨_, IMap.get_of_mem h hm, rfl⟩

theorem get_int {m : Params} (h : IMap.NodupKeys m) {k : Str} {i : Int} :
    (IMap.get m k).bind BareItem.asInt = some i ↔ (k, BareItem.integer i) ∈ m := by
  simp only [Option.bind_eq_some_iff, asInt_eq_some]
  constructor
  · rintro ⟨b, hb, rfl⟩; exact IMap.mem_of_get hb
  · intro hm; exact ⟨_, IMap.get_of_mem h hm, rfl⟩

/-- What is read has a label and distinct parameter names. -/
theorem read_label {v : Str} {c : CanonicalizeConfig} (h : CanonicalizeConfig.fromSignatureInput v = .ok (.ok c)) :
    c.label = some c.getLabel := by
  unfold CanonicalizeConfig.fromSignatureInput at h
  split at h
  · cases h
  · rename_i s hs
    unfold CanonicalizeConfig.ofSignatureInput at h
    cases hm : s.list.inner.items.mapM SignatureComponent.ofItem with
    | error p => rw [hm] at h; cases h
    | ok l => rw [hm] at h; cases h; rfl

theorem read_nodup {v : Str} {c : CanonicalizeConfig} (h : CanonicalizeConfig.fromSignatureInput v = .ok (.ok c)) :
    IMap.NodupKeys c.params.params := (fromSignatureInput_spec h).2.2.1

theorem created_ok_iff {c : CanonicalizeConfig} (hn : IMap.NodupKeys c.params.params) {now : Int} :
    createdInFuture c now = false ↔
      ∀ t, (str% "created", BareItem.integer t) ∈ c.params.params → t ≤ now := by
  have hg : ∀ t, c.created = some t ↔ (kCreated, BareItem.integer t) ∈ c.params.params := fun t => get_int hn
  unfold createdInFuture
  cases hc : c.created with
  | none =>
    simp only [true_iff]
    intro t ht
    have := (hg t).2 ht
    rw [hc] at this
    cases this
  | some t =>
    simp only [decide_eq_false_iff_not, Int.not_lt]
    constructor
    · intro hle u hu
      have := (hg u).2 hu
      rw [hc] at this
      cases this
      exact hle
    · intro h
      exact h t ((hg t).1 hc)

theorem expires_ok_iff {c : CanonicalizeConfig} (hn : IMap.NodupKeys c.params.params) {now : Int} :
    alreadyExpired c now = false ↔
      ∀ t, (str% "expires", BareItem.integer t) ∈ c.params.params → now ≤ t := by
  have hg : ∀ t, c.expires = some t ↔ (kExpires, BareItem.integer t) ∈ c.params.params := fun t => get_int hn
  unfold alreadyExpired
  cases hc : c.expires with
  | none =>
    simp only [true_iff]
    intro t ht
    have := (hg t).2 ht
    rw [hc] at this
    cases this
  | some t =>
    simp only [decide_eq_false_iff_not, Int.not_lt]
    constructor
    · intro hle u hu
      have := (hg u).2 hu
      rw [hc] at this
      cases this
      exact hle
    · intro h
      exact h t ((hg t).1 hc)

variable {R Rem : Type} [ServerRequestLike R Rem]

theorem verifySignatureOnly_iff {req : R} {config : VerifyingConfig} {env : VerifyEnv} {si : SignatureInput} {keyId : Str} :
    verifySignatureOnly req config env = .ok (some (si, keyId)) ↔
      ∃ c sig base, SignatureOk req config env c sig keyId base ∧ si = c.toSignatureInput := by
  constructor
  · intro h
    unfold verifySignatureOnly at h
    cases h1 : RequestLike.derive req (.header hSignatureInput) with
    | error p => rw [h1] at h; cases h
    | ok o1 =>
    cases o1 with
    | none => rw [h1] at h; cases h
    | some iv =>
    rw [h1] at h
    simp only [Bind.bind, Except.bind] at h
    cases h2 : CanonicalizeConfig.fromSignatureInput iv with
    | error p => rw [h2] at h; cases h
    | ok o2 =>
    cases o2 with
    | error p => rw [h2] at h; cases h
    | ok c =>
    rw [h2] at h
    simp only at h
    cases h3 : RequestLike.derive req (.header hSignature) with
    | error p => rw [h3] at h; cases h
    | ok o3 =>
    cases o3 with
    | none => rw [h3] at h; cases h
    | some sv =>
    rw [h3] at h
    simp only at h
    cases h4 : parseSignatureHeader sv with
    | none => rw [h4] at h; cases h
    | some p =>
    obtain ⟨label, sig⟩ := p
    rw [h4] at h
    simp only at h
    by_cases h5 : c.getLabel = label
    rotate_left
    · rw [if_pos h5] at h; cases h
    rw [if_neg (by simpa using h5)] at h
    cases h6 : c.keyid with
    | none => rw [h6] at h; cases h
    | some kid =>
    rw [h6] at h
    simp only at h
    cases h7 : c.alg with
    | none => rw [h7] at h; cases h
    | some alg =>
    rw [h7] at h
    simp only [unixTimestamp] at h
    by_cases h8 : env.sysNow < 0
    · rw [if_pos h8] at h; cases h
    rw [if_neg h8] at h
    simp only at h
    have hn := read_nodup h2
    by_cases h9 : createdInFuture c (env.sysNow / 1000000000) = true
    · rw [if_pos h9] at h; cases h
    rw [if_neg h9] at h
    by_cases h10 : alreadyExpired c (env.sysNow / 1000000000) = true
    · rw [if_pos h10] at h; cases h
    rw [if_neg h10] at h
    by_cases h11 : (config.keyProvider kid).isEmpty = true
    · rw [if_pos h11] at h; cases h
    rw [if_neg h11] at h
    cases h12 : canonicalize req c with
    | error p => rw [h12] at h; cases h
    | ok o4 =>
    cases o4 with
    | error e => rw [h12] at h; cases h
    | ok bi =>
    obtain ⟨base, input⟩ := bi
    rw [h12] at h
    simp only at h
    by_cases h13 : (config.keyProvider kid).any (fun a => a.verify base sig) = true
    rotate_left
    · rw [if_neg h13] at h; cases h
    rw [if_pos h13] at h
    cases h
    refine ⟨c, sig, base, ?_, (canonicalize_ok_iff.1 h12).elim fun _ h => by
      obtain ⟨_, _, _, _, _, _, _, _, e⟩ := h; exact e⟩
    refine ⟨⟨iv, h1, h2⟩, ⟨sv, label, h3, parseSignatureHeader_iff.1 h4, by rw [read_label h2, h5]⟩, (get_string hn).1 h6,
      ⟨alg, (get_string hn).1 h7⟩, by omega,
      ⟨(created_ok_iff hn).1 (by simpa using h9), (expires_ok_iff hn).1 (by simpa using h10)⟩, ⟨_, h12⟩, ?_⟩
    obtain ⟨k, hk, hv⟩ := List.any_eq_true.1 h13
    exact ⟨k, hk, hv⟩
  · rintro ⟨c, sig, base, ⟨⟨iv, h1, h2⟩, ⟨sv, label, h3, h4, h5⟩, h6, ⟨alg, h7⟩, h8, ⟨h9, h10⟩, ⟨si', h12⟩, k, hk, hv⟩, rfl⟩
    have hn := read_nodup h2
    have h5' : c.getLabel = label := by rw [read_label h2] at h5; simpa using h5
    have h6' : c.keyid = some keyId := (get_string hn).2 h6
    have h7' : c.alg = some alg := (get_string hn).2 h7
    have h9' := (created_ok_iff hn).2 h9
    have h10' := (expires_ok_iff hn).2 h10
    have h11 : ¬ (config.keyProvider keyId).isEmpty = true := by
      cases hl : config.keyProvider keyId with
      | nil => rw [hl] at hk; cases hk
      | cons => simp
    have h13 : (config.keyProvider keyId).any (fun a => a.verify base sig) = true :=
      List.any_eq_true.2 ⟨k, hk, hv⟩
    have hsi : si' = c.toSignatureInput := by
      obtain ⟨_, _, _, _, _, _, _, _, _, e⟩ := canonicalize_ok_iff.1 h12; exact e
    subst hsi
    unfold verifySignatureOnly
    rw [h1]
    simp only [Bind.bind, Except.bind]
    rw [h2]
    simp only
    rw [h3]
    simp only
    rw [parseSignatureHeader_iff.2 h4]
    simp only
    rw [if_neg (by simpa using h5'), h6']
    simp only
    rw [h7']
    simp only [unixTimestamp]
    rw [if_neg (by omega : ¬ env.sysNow < 0)]
    simp only
    rw [if_neg (by rw [h9']; simp), if_neg (by rw [h10']; simp), if_neg h11, h12]
    simp only
    rw [if_pos h13]
    rfl

theorem getItem_isSome {c : CanonicalizeConfig} {s : Str} :
    (c.toSignatureInput.list.getItem s).isSome = true ↔ ∃ k ∈ c.components, (itemOf k).bare = .string s := by
  simp only [← toItem_eq]
  unfold ComponentList.getItem
  rw [List.find?_isSome]
  simp only [CanonicalizeConfig.toSignatureInput, SignatureInput.new, ComponentList.new, List.mem_map]
  constructor
  · rintro ⟨_, ⟨k, hk, rfl⟩, h⟩
    refine ⟨k, hk, ?_⟩
    cases hb : k.toItem.bare <;> rw [hb] at h <;> simp [BareItem.asStr] at h
    rw [h]
  · rintro ⟨k, hk, h⟩
    exact ⟨_, ⟨k, hk, rfl⟩, by simp [h, BareItem.asStr]⟩

theorem checkRequired_iff {c : CanonicalizeConfig} : ∀ {l : List SignatureComponent},
    checkRequired c.toSignatureInput l = .ok true ↔
      ∀ r ∈ l, ∃ s, r.display = .ok s ∧ ∃ k ∈ c.components, (itemOf k).bare = .string s
  | [] => by simp [checkRequired]
  | r :: l => by
    have ih := checkRequired_iff (c := c) (l := l)
    unfold checkRequired
    cases hd : r.display with
    | error p =>
      constructor
      · intro h; cases h
      · intro h
        obtain ⟨s, hs, _⟩ := h r (by simp)
        rw [hd] at hs; cases hs
    | ok s =>
      simp only [Bind.bind, Except.bind]
      by_cases hs : (c.toSignatureInput.list.getItem s).isSome = true
      · rw [if_neg (by simpa [← Option.isSome_iff_ne_none] using hs), ih]
        constructor
        · intro h x hx
          rcases List.mem_cons.1 hx with rfl | hx
          · exact ⟨s, hd, getItem_isSome.1 hs⟩
          · exact h x hx
        · intro h x hx
          exact h x (by simp [hx])
      · rw [if_pos (by simpa [← Option.isSome_iff_ne_none] using hs)]
        constructor
        · intro h; cases h
        · intro h
          obtain ⟨s', hs', hk⟩ := h r (by simp)
          rw [hd] at hs'
          cases hs'
          exact absurd (getItem_isSome.2 hk) hs

theorem toStd_or {d : Int} : ∃ n : Nat, (toStd d).or (toStd (-d)) = some n ∧ (n : Int) = (d.natAbs : Int) := by
  unfold toStd
  by_cases h : d < 0
  · rw [if_pos h, if_neg (by omega)]
    exact ⟨(-d).toNat, rfl, by omega⟩
  · rw [if_neg h]
    exact ⟨d.toNat, rfl, by omega⟩

/-- The date check never panics. -/
theorem checkDate_ok (input : SignatureInput) (config : VerifyingConfig) (env : VerifyEnv) :
    ∃ b, checkDate input config env = .ok b := by
  unfold checkDate
  split
  · split
    · exact ⟨_, rfl⟩
    · rename_i v _
      split
      · obtain ⟨n, hn, _⟩ := toStd_or (d := v * 1000000000 - env.utcNow)
        simp only [hn]
        exact ⟨_, rfl⟩
      · exact ⟨_, rfl⟩
  · exact ⟨_, rfl⟩

theorem checkDate_iff {c : CanonicalizeConfig} {config : VerifyingConfig} {env : VerifyEnv}
    (hn : IMap.NodupKeys c.params.params) :
    checkDate c.toSignatureInput config env = .ok true ↔ DateOk config env c := by
  unfold checkDate DateOk
  have hg : ∀ v, (c.toSignatureInput.getParam (str% "date")).bind BareItem.asInt = some v ↔
      (str% "date", BareItem.integer v) ∈ c.params.params := fun v => get_int hn
  by_cases hv : config.validateDate = true
  rotate_left
  · simp [hv]
  rw [if_pos hv]
  simp only [hv, true_implies]
  cases hd : (c.toSignatureInput.getParam (str% "date")).bind BareItem.asInt with
  | none =>
    constructor
    · intro h; cases h
    · rintro ⟨v, h, _⟩
      have := (hg v).2 h
      rw [hd] at this; cases this
  | some v =>
    simp only
    by_cases hr : Deps.timestampInRange v = true
    · obtain ⟨n, hn, he⟩ := toStd_or (d := v * 1000000000 - env.utcNow)
      rw [if_pos hr]
      simp only [hn, Except.ok.injEq, decide_eq_true_eq]
      constructor
      · intro h
        exact ⟨v, (hg v).1 hd, hr, by omega, by omega⟩
      · rintro ⟨v', h, _, h1, h2⟩
        have := (hg v').2 h
        rw [hd] at this
        cases this
        omega
    · rw [if_neg hr]
      constructor
      · intro h; cases h
      · rintro ⟨v', h, hr', _⟩
        have := (hg v').2 h
        rw [hd] at this
        cases this
        exact absurd hr' hr

theorem verifyExceptDigest_iff {req : R} {config : VerifyingConfig} {env : VerifyEnv} {keyId : Str} :
    verifyExceptDigest req config env = .ok (some keyId) ↔
      ∃ c sig base, SignatureOk req config env c sig keyId base ∧ RequiredOk config c ∧ DateOk config env c := by
  constructor
  · intro h
    unfold verifyExceptDigest at h
    cases h1 : verifySignatureOnly req config env with
    | error p => rw [h1] at h; cases h
    | ok o =>
    cases o with
    | none => rw [h1] at h; cases h
    | some x =>
    obtain ⟨si, kid⟩ := x
    rw [h1] at h
    simp only [Bind.bind, Except.bind] at h
    obtain ⟨c, sig, base, hs, rfl⟩ := verifySignatureOnly_iff.1 h1
    cases h2 : checkRequired c.toSignatureInput config.requiredComponents with
    | error p => rw [h2] at h; cases h
    | ok b =>
    cases b with
    | false => rw [h2] at h; cases h
    | true =>
    rw [h2] at h
    cases h3 : checkDate c.toSignatureInput config env with
    | error p => rw [h3] at h; cases h
    | ok b =>
    cases b with
    | false => rw [h3] at h; cases h
    | true =>
    rw [h3] at h
    cases h
    obtain ⟨v, hv, hr⟩ := hs.input
    exact ⟨c, sig, base, hs, checkRequired_iff.1 h2, (checkDate_iff (read_nodup hr)).1 h3⟩
  · rintro ⟨c, sig, base, hs, h2, h3⟩
    obtain ⟨v, hv, hr⟩ := hs.input
    unfold verifyExceptDigest
    rw [verifySignatureOnly_iff.2 ⟨c, sig, base, hs, rfl⟩]
    simp only [Bind.bind, Except.bind]
    rw [checkRequired_iff.2 h2]
    simp only
    rw [(checkDate_iff (read_nodup hr)).2 h3]
    rfl

/-- The function `selectDigest` maps over the entries. -/
def supported? (provider : Str → Option HttpDigest) (part : Str) : Option (HttpDigest × Str) :=
  match splitOnce '=' part with
  | none => none
  | some (k, v) => (provider (trim k)).map fun d => (d, trim v)

theorem supported?_iff {provider : Str → Option HttpDigest} {part : Str} {alg : HttpDigest} {value : Str} :
    supported? provider part = some (alg, value) ↔ Supported provider part alg value := by
  unfold supported? Supported
  rw [← isRustWhitespace_eq]
  constructor
  · intro h
    split at h
    · cases h
    · rename_i k v hs
      obtain ⟨h1, h2⟩ := splitOnce_eq_some.1 hs
      simp only [Option.map_eq_some_iff, Prod.mk.injEq] at h
      obtain ⟨d, hd, rfl, rfl⟩ := h
      exact ⟨k, v, trim k, h1, h2, trimmed_iff.2 rfl, trimmed_iff.2 rfl, hd⟩
  · rintro ⟨k, v, name, h1, h2, h3, h4, h5⟩
    rw [splitOnce_eq_some.2 ⟨h1, h2⟩]
    simp only [trim, trimmed_iff.1 h3, trimmed_iff.1 h4, h5]
    rfl

theorem filterMap_head? {α β : Type} {f : α → Option β} {y : β} : ∀ {l : List α},
    (l.filterMap f).head? = some y ↔ ∃ a x b, l = a ++ x :: b ∧ f x = some y ∧ ∀ z ∈ a, f z = none
  | [] => by simp
  | x :: l => by
    rw [List.filterMap_cons]
    cases hx : f x with
    | none =>
      simp only
      rw [filterMap_head?]
      constructor
      · rintro ⟨a, z, b, rfl, h1, h2⟩
        exact ⟨x :: a, z, b, rfl, h1, by
          intro w hw
          rcases List.mem_cons.1 hw with rfl | hw
          · exact hx
          · exact h2 w hw⟩
      · rintro ⟨a, z, b, he, h1, h2⟩
        cases a with
        | nil =>
          simp only [List.nil_append, List.cons.injEq] at he
          rw [he.1, h1] at hx; cases hx
        | cons w a =>
          simp only [List.cons_append, List.cons.injEq] at he
          exact ⟨a, z, b, he.2, h1, fun w hw => h2 w (by simp [hw])⟩
    | some y' =>
      simp only [List.head?_cons, Option.some.injEq]
      constructor
      · rintro rfl
        exact ⟨[], x, l, rfl, hx, by simp⟩
      · rintro ⟨a, z, b, he, h1, h2⟩
        cases a with
        | nil =>
          simp only [List.nil_append, List.cons.injEq] at he
          rw [he.1, h1] at hx; cases hx; rfl
        | cons w a =>
          simp only [List.cons_append, List.cons.injEq] at he
          have := h2 w (by simp)
          rw [← he.1, hx] at this; cases this

theorem selectDigest_iff {provider : Str → Option HttpDigest} {header : Str} {alg : HttpDigest} {value : Str} :
    selectDigest provider header = some (alg, value) ↔ FirstSupported provider header alg value := by
  have e : selectDigest provider header = ((splitOn ',' header).filterMap (supported? provider)).head? := rfl
  rw [e, filterMap_head?]
  unfold FirstSupported
  constructor
  · rintro ⟨a, x, b, h1, h2, h3⟩
    obtain ⟨_, h4, h5⟩ := splitOn_eq_iff.1 h1
    refine ⟨a, x, b, h5, h4, supported?_iff.1 h2, ?_⟩
    intro e he al v hs
    have := h3 e he
    rw [supported?_iff.2 hs] at this; cases this
  · rintro ⟨a, x, b, h1, h2, h3, h4⟩
    refine ⟨a, x, b, splitOn_eq_iff.2 ⟨by simp, h2, h1⟩, supported?_iff.2 h3, ?_⟩
    intro e he
    cases hs : supported? provider e with
    | none => rfl
    | some p => exact absurd (supported?_iff.1 (by rw [hs])) (h4 e he p.1 p.2)

theorem selectDigest_none_iff {provider : Str → Option HttpDigest} {header : Str} :
    selectDigest provider header = none ↔ ∀ alg value, ¬ FirstSupported provider header alg value := by
  constructor
  · intro h alg value hf
    rw [selectDigest_iff.2 hf] at h; cases h
  · intro h
    cases hs : selectDigest provider header with
    | none => rfl
    | some p => exact absurd (selectDigest_iff.1 hs) (h p.1 p.2)

/-- Acceptance, decomposed. -/
theorem verify_ok_iff {req : R} {config : VerifyingConfig} {env : VerifyEnv} {rem : Rem} {keyId : Str} :
    verify req config env = .ok (.ok (rem, keyId)) ↔
      ∃ c sig base, SignatureOk req config env c sig keyId base ∧ RequiredOk config c ∧ DateOk config env c ∧
        DigestOk req config rem := by
  have key : verify req config env = .ok (.ok (rem, keyId)) ↔
      verifyExceptDigest req config env = .ok (some keyId) ∧ DigestOk req config rem := by
    rw [DigestOk, show documentedSha256 = defaultDigest from rfl]
    unfold verify
    cases h1 : verifyExceptDigest req config env with
    | error p =>
      constructor
      · intro h; cases h
      · rintro ⟨h, _⟩; cases h
    | ok o =>
    cases o with
    | none =>
      constructor
      · intro h; cases h
      · rintro ⟨h, _⟩; cases h
    | some kid =>
    simp only [Bind.bind, Except.bind]
    cases h2 : RequestLike.derive req (.header hDigest) with
    | error p =>
      constructor
      · intro h; cases h
      · rintro ⟨_, ⟨v, h, _⟩ | ⟨h, _⟩⟩ <;> cases h
    | ok o2 =>
    cases o2 with
    | none =>
      simp only
      by_cases hreq : config.requireDigest = true
      · rw [if_pos hreq, if_pos hreq]
        cases h3 : ServerRequestLike.completeWithDigest req defaultDigest with
        | mk maybe rm =>
        cases maybe with
        | none =>
          simp only [Option.isSome_none, Bool.false_eq_true, if_false]
          constructor
          · intro h; cases h; exact ⟨rfl, Or.inr ⟨trivial, rfl⟩⟩
          · rintro ⟨h, ⟨v, h', _⟩ | ⟨_, h'⟩⟩
            · cases h'
            · cases h; cases h'; rfl
        | some x =>
          simp only [Option.isSome_some, if_true]
          constructor
          · intro h; cases h
          · rintro ⟨h, ⟨v, h', _⟩ | ⟨_, h'⟩⟩
            · cases h'
            · cases h'
      · rw [if_neg hreq, if_neg hreq]
        constructor
        · intro h; cases h; exact ⟨rfl, Or.inr ⟨trivial, rfl⟩⟩
        · rintro ⟨h, ⟨v, h', _⟩ | ⟨_, h'⟩⟩
          · cases h'
          · cases h; cases h'; rfl
    | some dv =>
      simp only
      by_cases hval : config.validateDigest = true
      · rw [if_pos hval]
        cases h3 : selectDigest config.digestProvider dv with
        | none =>
          constructor
          · intro h; cases h
          · rintro ⟨_, ⟨v, h, h'⟩ | ⟨h, _⟩⟩
            · cases h
              rw [if_pos hval] at h'
              obtain ⟨alg, value, hf, _⟩ := h'
              exact absurd hf (selectDigest_none_iff.1 h3 alg value)
            · cases h
        | some p =>
          obtain ⟨alg, provided⟩ := p
          simp only
          cases h4 : ServerRequestLike.completeWithDigest req alg with
          | mk maybe rm =>
          have huniq : ∀ alg' value', FirstSupported config.digestProvider dv alg' value' → alg' = alg ∧ value' = provided := by
            intro a v hf
            rw [selectDigest_iff.2 hf] at h3
            cases h3
            exact ⟨rfl, rfl⟩
          cases maybe with
          | none =>
            constructor
            · intro h; cases h
            · rintro ⟨_, ⟨v, h, h'⟩ | ⟨h, _⟩⟩
              · cases h
                rw [if_pos hval] at h'
                obtain ⟨a, v, hf, hc⟩ := h'
                obtain ⟨rfl, rfl⟩ := huniq a v hf
                rw [h4] at hc; cases hc
              · cases h
          | some expected =>
            simp only
            by_cases he : utf8 provided = utf8 expected
            · rw [if_pos he]
              have := utf8_injective he
              subst this
              constructor
              · intro h; cases h
                refine ⟨rfl, Or.inl ⟨dv, rfl, ?_⟩⟩
                rw [if_pos hval]
                exact ⟨alg, provided, selectDigest_iff.1 h3, h4⟩
              · rintro ⟨h, ⟨v, h', h''⟩ | ⟨h', _⟩⟩
                · cases h'
                  rw [if_pos hval] at h''
                  obtain ⟨a, v, hf, hc⟩ := h''
                  obtain ⟨rfl, rfl⟩ := huniq a v hf
                  rw [h4] at hc; cases hc; cases h; rfl
                · cases h'
            · rw [if_neg he]
              constructor
              · intro h; cases h
              · rintro ⟨h, ⟨v, h', h''⟩ | ⟨h', _⟩⟩
                · cases h'
                  rw [if_pos hval] at h''
                  obtain ⟨a, v, hf, hc⟩ := h''
                  obtain ⟨rfl, rfl⟩ := huniq a v hf
                  rw [h4] at hc; cases hc; exact absurd rfl he
                · cases h'
      · rw [if_neg hval]
        constructor
        · intro h; cases h
          refine ⟨rfl, Or.inl ⟨dv, rfl, ?_⟩⟩
          rw [if_neg hval]
        · rintro ⟨h, ⟨v, h', h''⟩ | ⟨h', _⟩⟩
          · cases h'
            rw [if_neg hval] at h''
            cases h''; cases h; rfl
          · cases h'
  rw [key, verifyExceptDigest_iff]
  constructor
  · rintro ⟨⟨c, sig, base, h1, h2, h3⟩, h4⟩; exact ⟨c, sig, base, h1, h2, h3, h4⟩
  · rintro ⟨c, sig, base, h1, h2, h3, h4⟩; exact ⟨⟨c, sig, base, h1, h2, h3⟩, h4⟩

end Httpsig
