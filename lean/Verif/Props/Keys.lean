import Verif.Lemmas.Total2
import Verif.Spec.Keys
import Verif.Props.Verify
/-
C19–C23: panics, key stores, key selection.
-/
set_option linter.unusedSectionVars false
namespace Httpsig
open Sfv
variable [Deps] {R Rem : Type} [ServerRequestLike R Rem]

/-! ### C19 -/

/-- Components that can be read from a header: header names, and derived components whose name starts with `@`. -/
def Recognised : SignatureComponent → Prop
  | .header _ => True
  | .derived d => ∃ n, d.item.bare = .string ('@' :: n)

theorem recognised_of_read {k : SignatureComponent} (h : ComponentRead k) : Recognised k := by
  cases k with
  | header => trivial
  | derived d => exact h.1

/-- C19 fails: for every request, whatever else it contains, a `Signature-Input` header that does not read as a
signature input makes `verify` panic (given that reading the header itself does not). -/
theorem C19_neg_malformed_input_panics (req : R) (config : VerifyingConfig) (env : VerifyEnv) (v : Str)
    (hv : RequestLike.derive req (.header hSignatureInput) = .ok (some v))
    (hbad : ∀ c, CanonicalizeConfig.fromSignatureInput v ≠ .ok (.ok c)) :
    ∃ p, verify req config env = .error p := by
  unfold verify verifyExceptDigest verifySignatureOnly
  rw [hv]
  simp only [Bind.bind, Except.bind]
  cases hc : CanonicalizeConfig.fromSignatureInput v with
  | error p => exact ⟨p, rfl⟩
  | ok x =>
    cases x with
    | error e => exact ⟨.badSignatureInput, rfl⟩
    | ok c => exact absurd hc (hbad c)

/-- C19 (partial): malformed `Signature-Input` headers are the only cause of panics. If component values can be
computed, the clock is not before 1970 and the required components can be printed, then `verify` panics exactly when the
request has a `Signature-Input` header that does not read. Missing: malformed `Signature-Input` (above). -/
theorem C19_only_malformed_input_panics_partial (req : R) (config : VerifyingConfig) (env : VerifyEnv)
    (hnow : 0 ≤ env.sysNow) (hd : ∀ k, Recognised k → ∃ v, RequestLike.derive req k = .ok v)
    (hreq : ∀ k ∈ config.requiredComponents, ∃ s, k.display = .ok s) :
    (∃ p, verify req config env = .error p) ↔
      ∃ v, RequestLike.derive req (.header hSignatureInput) = .ok (some v) ∧
        ∀ c, CanonicalizeConfig.fromSignatureInput v ≠ .ok (.ok c) := by
  constructor
  · rintro ⟨p, hp⟩
    apply Classical.byContradiction
    intro hno
    obtain ⟨x, hx⟩ := verify_total (config := config) hnow (fun k hk => hd k (recognised_of_read hk)) hreq fun v hv => by
      apply Classical.byContradiction
      intro hc
      exact hno ⟨v, hv, fun c h => hc ⟨c, h⟩⟩
    rw [hp] at hx
    cases hx
  · rintro ⟨v, hv, hbad⟩
    exact C19_neg_malformed_input_panics req config env v hv hbad

/-- Component values of the built-in request types can always be computed for components that were read. -/
theorem C19_mock_total (r : MockRequest) (k : SignatureComponent) (hk : Recognised k) :
    ∃ v, RequestLike.derive (self := ServerRequestLike.toRequestLike (Remnant := Unit)) r k = .ok v := by
  cases k with
  | header h => exact ⟨_, rfl⟩
  | derived d =>
    obtain ⟨cs, hcs⟩ := hk
    have hn : d.name = .ok ('@' :: cs) := by simp [DerivedComponent.name, hcs, BareItem.asStr]
    refine ⟨d.deriveNamed ('@' :: cs) none r.method r.url, ?_⟩
    show d.derive none r.method r.url = _
    simp only [DerivedComponent.derive, hn]
    rfl

/-- C19 for the validator's request type, without conditions on the request: an arbitrary request panics `verify`
exactly when its `Signature-Input` header is malformed. -/
theorem C19_mock_partial (r : MockRequest) (config : VerifyingConfig) (env : VerifyEnv) (hnow : 0 ≤ env.sysNow)
    (hreq : ∀ k ∈ config.requiredComponents, ∃ s, k.display = .ok s) :
    (∃ p, verify r config env = .error p) ↔
      ∃ v, r.headers.get hSignatureInput = some v ∧
        ∀ c, CanonicalizeConfig.fromSignatureInput (v.toStr.getD []) ≠ .ok (.ok c) := by
  rw [C19_only_malformed_input_panics_partial r config env hnow (C19_mock_total r) hreq]
  show (∃ v, (Except.ok ((r.headers.get hSignatureInput).map fun v => v.toStr.getD []) : P (Option Str)) = .ok (some v) ∧ _) ↔ _
  simp only [Except.ok.injEq, Option.map_eq_some_iff]
  constructor
  · rintro ⟨_, ⟨v, h1, rfl⟩, h2⟩; exact ⟨v, h1, h2⟩
  · rintro ⟨v, h1, h2⟩; exact ⟨_, ⟨v, h1, rfl⟩, h2⟩

/-- C19, exactly. If the values of components that were read can be computed, `verify` panics if and only if the
`Signature-Input` header is malformed; or the clock is before 1970 and the request presents a signature (both headers,
labels that agree, `keyid` and `alg`); or the signature is accepted and the required components are covered up to one that
cannot be printed. -/
theorem C19_exact (req : R) (config : VerifyingConfig) (env : VerifyEnv)
    (hd : ∀ k, Recognised k → ∃ v, RequestLike.derive req k = .ok v) :
    (∃ p, verify req config env = .error p) ↔
      (∃ v, RequestLike.derive req (.header hSignatureInput) = .ok (some v) ∧
        ∀ c, CanonicalizeConfig.fromSignatureInput v ≠ .ok (.ok c)) ∨
      (env.sysNow < 0 ∧ ∃ c sig kid, SignaturePresented req c sig kid) ∨
      ∃ c sig kid base, SignatureOk req config env c sig kid base ∧ RequiredPanics config c :=
  verify_panics_iff fun k hk => hd k (recognised_of_read hk)

/-- C19, exactly, for the validator's request type: no condition on the request is left. -/
theorem C19_mock_exact (r : MockRequest) (config : VerifyingConfig) (env : VerifyEnv) :
    (∃ p, verify r config env = .error p) ↔
      (∃ v, r.headers.get hSignatureInput = some v ∧
        ∀ c, CanonicalizeConfig.fromSignatureInput (v.toStr.getD []) ≠ .ok (.ok c)) ∨
      (env.sysNow < 0 ∧ ∃ c sig kid, SignaturePresented r c sig kid) ∨
      ∃ c sig kid base, SignatureOk r config env c sig kid base ∧ RequiredPanics config c := by
  rw [C19_exact r config env (C19_mock_total r)]
  apply or_congr_left
  show (∃ v, (Except.ok ((r.headers.get hSignatureInput).map fun v => v.toStr.getD []) : P (Option Str)) = .ok (some v) ∧ _) ↔ _
  simp only [Except.ok.injEq, Option.map_eq_some_iff]
  constructor
  · rintro ⟨_, ⟨v, h1, rfl⟩, h2⟩; exact ⟨v, h1, h2⟩
  · rintro ⟨v, h1, h2⟩; exact ⟨_, ⟨v, h1, rfl⟩, h2⟩

/-- Each of the three: a malformed header (below), a clock before 1970, and a required component with an unwritable
parameter name. With the unprintable component second, after one that is not covered, there is no panic. -/
example : verify exSigned exVerifying ⟨-1, 0⟩ = .error .clockBeforeEpoch := by rfl
example : verify exSigned { exVerifying with requiredComponents :=
    [.header hHost, .derived ((DerivedComponent.new atMethod).withParam (str% "Bad Name") [])] } exEnv = .error .displayDerived := by rfl
example : verify exSigned { exVerifying with requiredComponents :=
    [.derived (.new atMethod), .derived ((DerivedComponent.new atMethod).withParam (str% "Bad Name") [])] } exEnv = .ok (.error ()) := by rfl

/-- Hostile headers: garbage, no member, a member that is not a list, an item that is not a string, a name that is not
a header name, bytes that are not ASCII. All panic; a well-formed header with unknown components does not. -/
example : verify (exWithInput ⟨utf8 (str% "%"), rfl⟩) exVerifying exEnv = .error .badSignatureInput := by rfl
example : verify (exWithInput ⟨utf8 (str% ""), rfl⟩) exVerifying exEnv = .error .badSignatureInput := by rfl
example : verify (exWithInput ⟨utf8 (str% "sig=1"), rfl⟩) exVerifying exEnv = .error .badSignatureInput := by rfl
example : verify (exWithInput ⟨utf8 (str% "sig=(1)"), rfl⟩) exVerifying exEnv = .error .itemNotString := by rfl
example : verify (exWithInput ⟨utf8 (str% "sig=(\"a b\")"), rfl⟩) exVerifying exEnv = .error .itemBadHeaderName := by rfl
example : verify (exWithInput ⟨[200], rfl⟩) exVerifying exEnv = .error .badSignatureInput := by rfl
example : verify (exWithInput ⟨utf8 (str% "sig=(\"@nope\" \"nope\");alg=\"\";keyid=\"k1\""), rfl⟩) exVerifying exEnv = .ok (.error ()) := by rfl

/-- What "reads" means: the value is a structured-field dictionary whose first member is an inner list of strings, each
starting with `@` or being a valid header name once lower-cased. -/
theorem readable_iff (v : Str) :
    (∃ c, CanonicalizeConfig.fromSignatureInput v = .ok (.ok c)) ↔
      ∃ d label l, parseDictionary v = some d ∧ d.head? = some (label, .innerList l) ∧
        ∀ i ∈ l.items, ∃ s, i.bare = .string s ∧ (s.head? = some '@' ∨ (HeaderName.fromStr s).isSome) := by
  have hitem : ∀ i : Item, (∃ k, SignatureComponent.ofItem i = .ok k) ↔
      ∃ s, i.bare = .string s ∧ (s.head? = some '@' ∨ (HeaderName.fromStr s).isSome) := by
    rintro ⟨b, ps⟩
    unfold SignatureComponent.ofItem
    cases b with
    | string s =>
      simp only [BareItem.asStr]
      constructor
      · rintro ⟨k, hk⟩
        refine ⟨s, rfl, ?_⟩
        split at hk
        · rename_i h
          left
          cases s with
          | nil => simp [List.isPrefixOf] at h
          | cons a s => simp [List.isPrefixOf] at h; simp [← h]
        · split at hk
          · rename_i h; right; rw [h]; rfl
          · cases hk
      · rintro ⟨s', h, h'⟩
        cases h
        split
        · exact ⟨_, rfl⟩
        · rename_i hp
          rcases h' with h' | h'
          · exfalso
            cases s <;> simp_all [List.isPrefixOf]
          · obtain ⟨n, hn⟩ := Option.isSome_iff_exists.1 h'
            rw [hn]
            exact ⟨_, rfl⟩
    | _ =>
      simp only [BareItem.asStr]
      constructor
      · rintro ⟨k, hk⟩; cases hk
      · rintro ⟨s, h, _⟩; cases h
  have hmap : ∀ l : List Item, (∃ ks, l.mapM SignatureComponent.ofItem = .ok ks) ↔
      ∀ i ∈ l, ∃ k, SignatureComponent.ofItem i = .ok k := by
    intro l
    induction l with
    | nil => exact ⟨fun _ _ h => (by cases h), fun _ => ⟨[], rfl⟩⟩
    | cons i l ih =>
      simp only [List.mapM_cons, List.mem_cons, forall_eq_or_imp]
      rw [← ih]
      constructor
      · rintro ⟨ks, hks⟩
        cases hi : SignatureComponent.ofItem i with
        | error p => rw [hi] at hks; cases hks
        | ok k =>
          cases hl : l.mapM SignatureComponent.ofItem with
          | error p => rw [hi, hl] at hks; cases hks
          | ok ks' => exact ⟨⟨k, rfl⟩, ks', rfl⟩
      · rintro ⟨⟨k, hk⟩, ks, hks⟩
        exact ⟨k :: ks, by rw [hk, hks]; rfl⟩
  unfold CanonicalizeConfig.fromSignatureInput SignatureInput.ofStr
  cases hp : parseDictionary v with
  | none => simp
  | some d =>
    cases d with
    | nil => simp
    | cons e d =>
      obtain ⟨label, entry⟩ := e
      cases entry with
      | item i =>
        constructor
        · rintro ⟨c, h⟩; cases h
        · rintro ⟨d', l', l, h1, h2, _⟩
          cases h1
          cases h2
      | innerList l =>
        simp only [List.head?_cons, ComponentList.ofListEntry, Bind.bind, Except.bind, pure, Except.pure, CanonicalizeConfig.ofSignatureInput]
        constructor
        · rintro ⟨c, hc⟩
          refine ⟨_, label, l, rfl, rfl, fun i hi => (hitem i).1 ?_⟩
          refine (hmap l.items).1 ?_ i hi
          cases hm : l.items.mapM SignatureComponent.ofItem with
          | error p => rw [hm] at hc; cases hc
          | ok ks => exact ⟨ks, rfl⟩
        · rintro ⟨d', label', l', h1, h2, h3⟩
          cases h1
          cases h2
          obtain ⟨ks, hks⟩ := (hmap l.items).2 fun i hi => (hitem i).2 (h3 i hi)
          rw [hks]
          exact ⟨_, rfl⟩

/-! ### C20 -/

theorem provideKeys_add (p : SimpleKeyProvider) (i id : Str) (k : HttpSignatureVerify) :
    (p.add i k).provideKeys id = if i = id then p.provideKeys id ++ [k] else p.provideKeys id := by
  unfold SimpleKeyProvider.add SimpleKeyProvider.provideKeys
  by_cases h : i = id
  · subst h; simp
  · rw [if_neg h, IMap.get_insert_ne (fun e => h e.symm)]

theorem get_filter_ne {V : Type} (m : IMap V) (i id : Str) :
    IMap.get (m.filter fun e => e.1 ≠ i) id = if id = i then none else IMap.get m id := by
  induction m with
  | nil => simp [IMap.get]
  | cons e m ih =>
    obtain ⟨a, b⟩ := e
    by_cases ha : a = i
    · subst ha
      rw [List.filter_cons_of_neg (by simp), ih]
      by_cases hid : id = a
      · simp [hid]
      · simp [hid, IMap.get, Ne.symm hid]
    · rw [List.filter_cons_of_pos (by simpa using ha)]
      simp only [IMap.get]
      by_cases hai : a = id
      · subst hai; simp [ha]
      · rw [if_neg hai, if_neg hai, ih]

theorem provideKeys_apply (p : SimpleKeyProvider) (op : KeyOp) (id : Str) :
    (op.Forgets id ∧ (op.apply p).provideKeys id = []) ∨
    (¬ op.Forgets id ∧ (op.apply p).provideKeys id = p.provideKeys id ++ addedUnder id [op]) := by
  cases op with
  | add i k =>
    right
    refine ⟨fun h => h, ?_⟩
    show (p.add i k).provideKeys id = _
    rw [provideKeys_add]
    by_cases h : i = id <;> simp [h, addedUnder]
  | clear => left; exact ⟨trivial, rfl⟩
  | removeAll i =>
    by_cases h : i = id
    · left
      refine ⟨h, ?_⟩
      subst h
      show (IMap.get (p.keys.filter fun e => e.1 ≠ i) i).getD [] = []
      rw [get_filter_ne]; simp
    · right
      refine ⟨h, ?_⟩
      show (IMap.get (p.keys.filter fun e => e.1 ≠ i) id).getD [] = _
      rw [get_filter_ne, if_neg (fun e => h e.symm)]
      simp [addedUnder, SimpleKeyProvider.provideKeys]

theorem provideKeys_fold (ops : List KeyOp) (p : SimpleKeyProvider) (id : Str) (h : ∀ op ∈ ops, ¬ op.Forgets id) :
    (ops.foldl KeyOp.apply p).provideKeys id = p.provideKeys id ++ addedUnder id ops := by
  induction ops generalizing p with
  | nil => simp [addedUnder]
  | cons op ops ih =>
    rw [List.foldl_cons, ih _ fun o ho => h o (by simp [ho])]
    rcases provideKeys_apply p op id with ⟨hf, _⟩ | ⟨_, he⟩
    · exact absurd hf (h op (by simp))
    · rw [he, List.append_assoc]
      simp only [addedUnder, ← List.filterMap_append]
      rfl

theorem new_eq_fold (init : List (Str × HttpSignatureVerify)) :
    SimpleKeyProvider.new init = (init.map fun e => KeyOp.add e.1 e.2).foldl KeyOp.apply {} := by
  unfold SimpleKeyProvider.new
  rw [List.foldl_map]
  rfl

/-- C20. In a store created with `init`, after a history none of whose operations clears the store or removes `id`, the
keys provided for `id` are those of `init` under `id` followed by those added under `id`, in order. -/
theorem C20_keys_since_creation (init : List (Str × HttpSignatureVerify)) (ops : List KeyOp) (id : Str)
    (h : ∀ op ∈ ops, ¬ op.Forgets id) :
    (SimpleKeyProvider.after init ops).provideKeys id =
      (init.filter fun e => e.1 = id).map Prod.snd ++ addedUnder id ops := by
  unfold SimpleKeyProvider.after
  rw [provideKeys_fold _ _ _ h, new_eq_fold, provideKeys_fold _ _ _ (by
    intro op hop
    obtain ⟨e, _, rfl⟩ := List.mem_map.1 hop
    exact fun h => h)]
  congr 1
  show [] ++ _ = _
  rw [List.nil_append]
  unfold addedUnder
  induction init with
  | nil => rfl
  | cons e l ih =>
    by_cases he : e.1 = id <;> simp [he] <;> simpa using ih

/-- C20. If the history has an operation that clears the store or removes `id`, the keys provided are exactly those added
under `id` after the last such operation, in order. -/
theorem C20_keys_since_removal (init : List (Str × HttpSignatureVerify)) (before after : List KeyOp) (op : KeyOp) (id : Str)
    (hop : op.Forgets id) (h : ∀ o ∈ after, ¬ o.Forgets id) :
    (SimpleKeyProvider.after init (before ++ op :: after)).provideKeys id = addedUnder id after := by
  unfold SimpleKeyProvider.after
  rw [List.foldl_append, List.foldl_cons, provideKeys_fold _ _ _ h]
  rcases provideKeys_apply (before.foldl KeyOp.apply (SimpleKeyProvider.new init)) op id with ⟨_, he⟩ | ⟨hf, _⟩
  · rw [he]; rfl
  · exact absurd hop hf

/-- Every history is of one of the two shapes, so the two theorems above cover all of them. -/
theorem C20_histories (ops : List KeyOp) (id : Str) :
    (∀ op ∈ ops, ¬ op.Forgets id) ∨
    ∃ before op after, ops = before ++ op :: after ∧ op.Forgets id ∧ ∀ o ∈ after, ¬ o.Forgets id := by
  induction ops with
  | nil => left; intro _ h; cases h
  | cons o ops ih =>
    rcases ih with h | ⟨b, p, a, rfl, h1, h2⟩
    · by_cases ho : o.Forgets id
      · exact Or.inr ⟨[], o, ops, rfl, ho, h⟩
      · left
        intro p hp
        rcases List.mem_cons.1 hp with rfl | hp
        · exact ho
        · exact h p hp
    · exact Or.inr ⟨o :: b, p, a, rfl, h1, h2⟩

example (k : HttpSignatureVerify) : (SimpleKeyProvider.after [(str% "a", k), (str% "b", exKey), (str% "a", exKey)]
    [.removeAll (str% "b"), .add (str% "b") k]).provideKeys (str% "a") = [k, exKey] := by rfl
example (k : HttpSignatureVerify) : (SimpleKeyProvider.after [(str% "a", k), (str% "b", exKey), (str% "a", exKey)]
    [.removeAll (str% "b"), .add (str% "b") k]).provideKeys (str% "b") = [k] := by rfl

/-! ### C21 -/

/-- C21. Without keys for the key id of the request, `verify` does not succeed; in particular not with a key id that was
never added, or whose keys were removed (or the store cleared) and not added again. -/
theorem C21_no_keys_no_success (req : R) (config : VerifyingConfig) (env : VerifyEnv) (rem : Rem) (keyId : Str)
    (h : config.keyProvider keyId = []) : verify req config env ≠ .ok (.ok (rem, keyId)) := by
  intro hv
  obtain ⟨_, _, _, hs, _⟩ := verify_ok_iff.1 hv
  obtain ⟨k, hk, _⟩ := hs.key
  rw [h] at hk
  cases hk

/-- C21 for key stores: a key id whose keys were forgotten and which was not added afterwards never verifies. -/
theorem C21_revoked (req : R) (config : VerifyingConfig) (env : VerifyEnv) (rem : Rem) (keyId : Str)
    (init : List (Str × HttpSignatureVerify)) (before after : List KeyOp) (op : KeyOp)
    (hcfg : config.keyProvider = (SimpleKeyProvider.after init (before ++ op :: after)).provideKeys)
    (hop : op.Forgets keyId) (hafter : ∀ k, KeyOp.add keyId k ∉ after) :
    verify req config env ≠ .ok (.ok (rem, keyId)) := by
  apply C21_no_keys_no_success
  rw [hcfg]
  rcases C20_histories after keyId with h | ⟨b, p, a, rfl, h1, h2⟩
  · rw [C20_keys_since_removal _ _ _ _ _ hop h]
    exact List.filterMap_eq_nil_iff.2 fun o ho => by
      cases o with
      | add i k =>
        by_cases hi : i = keyId
        · subst hi; exact absurd ho (hafter k)
        · simp [hi]
      | _ => rfl
  · have : before ++ op :: (b ++ p :: a) = (before ++ op :: b) ++ p :: a := by simp
    rw [this, C20_keys_since_removal _ _ _ _ _ h1 h2]
    exact List.filterMap_eq_nil_iff.2 fun o ho => by
      cases o with
      | add i k =>
        by_cases hi : i = keyId
        · subst hi; exact absurd (List.mem_append_right _ (List.mem_cons_of_mem _ ho)) (hafter k)
        · simp [hi]
      | _ => rfl

/-- C21 for key stores: a key id that was never added never verifies. -/
theorem C21_never_added (req : R) (config : VerifyingConfig) (env : VerifyEnv) (rem : Rem) (keyId : Str)
    (init : List (Str × HttpSignatureVerify)) (ops : List KeyOp)
    (hcfg : config.keyProvider = (SimpleKeyProvider.after init ops).provideKeys)
    (hinit : ∀ e ∈ init, e.1 ≠ keyId) (hops : ∀ k, KeyOp.add keyId k ∉ ops) :
    verify req config env ≠ .ok (.ok (rem, keyId)) := by
  rcases C20_histories ops keyId with h | ⟨b, p, a, rfl, h1, h2⟩
  · apply C21_no_keys_no_success
    rw [hcfg, C20_keys_since_creation _ _ _ h]
    have e1 : init.filter (fun e => e.1 = keyId) = [] := List.filter_eq_nil_iff.2 fun e he => by simpa using hinit e he
    rw [e1]
    exact List.filterMap_eq_nil_iff.2 fun o ho => by
      cases o with
      | add i k =>
        by_cases hi : i = keyId
        · subst hi; exact absurd ho (hops k)
        · simp [hi]
      | _ => rfl
  · exact C21_revoked req config env rem keyId init b a p hcfg h1 fun k hk =>
      hops k (List.mem_append_right _ (List.mem_cons_of_mem _ hk))

/-- `exSigned` with a store that has the key, and with one from which it was removed. -/
example : verify exSigned { exVerifying with keyProvider := (SimpleKeyProvider.after [(str% "k1", exKey)] [.removeAll (str% "k2")]).provideKeys } exEnv =
    .ok (.ok ((), str% "k1")) := by rfl
example : verify exSigned { exVerifying with keyProvider := (SimpleKeyProvider.after [(str% "k1", exKey)] [.removeAll (str% "k1")]).provideKeys } exEnv =
    .ok (.error ()) := by rfl

/-! ### C22 -/

theorem verifySignatureOnly_keys {req : R} {config config' : VerifyingConfig} {env : VerifyEnv}
    (h : ∀ id f, (config.keyProvider id).any f = (config'.keyProvider id).any f) :
    verifySignatureOnly req config env = verifySignatureOnly req config' env := by
  have he : ∀ id, (config.keyProvider id).isEmpty = (config'.keyProvider id).isEmpty := fun id => by
    have := h id fun _ => true
    cases h1 : config.keyProvider id <;> cases h2 : config'.keyProvider id <;> simp_all
  unfold verifySignatureOnly
  simp only [h, he]

/-- C22. The whole outcome of `verify` (success, rejection or panic) depends only on the *set* of keys provided for each
id: permuting or duplicating keys changes nothing. -/
theorem C22_order_irrelevant (req : R) (config : VerifyingConfig) (env : VerifyEnv)
    (kp : Str → List HttpSignatureVerify) (h : ∀ id k, k ∈ kp id ↔ k ∈ config.keyProvider id) :
    verify req { config with keyProvider := kp } env = verify req config env := by
  have : verifySignatureOnly req { config with keyProvider := kp } env = verifySignatureOnly req config env := by
    apply verifySignatureOnly_keys
    intro id f
    rw [Bool.eq_iff_iff]
    simp only [List.any_eq_true, h]
  unfold verify verifyExceptDigest
  rw [this]
  rfl

/-- C22. More keys never turn acceptance into rejection. -/
theorem C22_monotone (req : R) (config : VerifyingConfig) (env : VerifyEnv) (rem : Rem) (keyId : Str)
    (kp : Str → List HttpSignatureVerify) (h : ∀ id k, k ∈ config.keyProvider id → k ∈ kp id)
    (hv : verify req config env = .ok (.ok (rem, keyId))) :
    verify req { config with keyProvider := kp } env = .ok (.ok (rem, keyId)) := by
  obtain ⟨c, sig, base, hs, hr, hd, hg⟩ := verify_ok_iff.1 hv
  obtain ⟨k, hk, hk'⟩ := hs.key
  exact verify_ok_iff.2 ⟨c, sig, base, ⟨hs.1, hs.2, hs.3, hs.4, hs.5, hs.6, hs.7, ⟨k, h _ _ hk, hk'⟩⟩, hr, hd, hg⟩

/-- The second key decides here; with the rejecting key alone the request is rejected. -/
def exOtherKey : HttpSignatureVerify := hmacVerify (str% "other") fun _ => []
example : verify exSigned { exVerifying with keyProvider := fun _ => [exOtherKey, exKey] } exEnv = .ok (.ok ((), str% "k1")) := by rfl
example : verify exSigned { exVerifying with keyProvider := fun _ => [exOtherKey] } exEnv = .ok (.error ()) := by rfl

/-! ### C23 -/

/-- C23 fails: the name a key reports never matters. Whatever the keys are called, the outcome is the same, so a request
whose `alg` differs from the verifying key's algorithm is accepted just as well. -/
theorem C23_neg_key_names_ignored (req : R) (config : VerifyingConfig) (env : VerifyEnv) (rename : Str → Str) :
    verify req { config with keyProvider := fun id => (config.keyProvider id).map fun k => { k with name := rename k.name } } env =
      verify req config env := by
  have : verifySignatureOnly req { config with keyProvider := fun id => (config.keyProvider id).map fun k => { k with name := rename k.name } } env =
      verifySignatureOnly req config env := by
    unfold verifySignatureOnly
    simp only [List.any_map, List.isEmpty_map]
    rfl
  unfold verify verifyExceptDigest
  rw [this]
  rfl

/-- A case: alg="rsa-sha256" and yet an HMAC key named "toy" verifies it. -/
example :
    exKey.name = str% "toy" ∧
    verify (exWithInput ⟨utf8 (str% "sig=(\"@method\");alg=\"rsa-sha256\";keyid=\"k1\""), rfl⟩) exVerifying exEnv =
      .ok (.ok ((), str% "k1")) := ⟨rfl, rfl⟩

/-- C23 (partial): what is enforced is that `alg` is there, as a string. Missing: that it names the key's algorithm. -/
theorem C23_alg_present_partial (req : R) (config : VerifyingConfig) (env : VerifyEnv) (rem : Rem) (keyId v : Str)
    (c : CanonicalizeConfig) (hv : RequestLike.derive req (.header hSignatureInput) = .ok (some v))
    (hc : CanonicalizeConfig.fromSignatureInput v = .ok (.ok c)) (h : verify req config env = .ok (.ok (rem, keyId))) :
    ∃ a, (str% "alg", BareItem.string a) ∈ c.params.params := by
  obtain ⟨c', sig, base, hs, _⟩ := verify_ok_iff.1 h
  obtain ⟨v', hv', hc'⟩ := hs.input
  rw [hv] at hv'; cases hv'
  rw [hc] at hc'; cases hc'
  exact hs.alg

example : verify (exWithInput ⟨utf8 (str% "sig=(\"@method\");keyid=\"k1\""), rfl⟩) exVerifying exEnv = .ok (.error ()) := by rfl
example : verify (exWithInput ⟨utf8 (str% "sig=(\"@method\");alg=toy;keyid=\"k1\""), rfl⟩) exVerifying exEnv = .ok (.error ()) := by rfl

end Httpsig
