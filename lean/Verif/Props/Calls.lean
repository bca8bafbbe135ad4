import Verif.Lemmas.Calls
import Verif.Props.Rejected
import Verif.Spec.Example
/-
C131: the calls `verify` makes of what the user supplies.
-/
set_option linter.unusedSectionVars false
namespace Httpsig
open Sfv
section
variable [Deps] {R Rem : Type} [ServerRequestLike R Rem]

/-- Digest algorithms are asked for in the order of the header, up to the first that is known, if a digest is to be validated and all
other conditions hold; else none. -/
def DigestNameCalls (req : R) (config : VerifyingConfig) (env : VerifyEnv) (l : List Call) : Prop :=
  (∃ v names asked, OtherwiseOk req config env ∧ config.validateDigest = true ∧
    RequestLike.derive req (.header hDigest) = .ok (some v) ∧ DigestNames v names ∧
    UpTo (fun n => (config.digestProvider n).isSome) names asked ∧ l = asked.map .provideDigest) ∨
  ((∀ v, OtherwiseOk req config env → config.validateDigest = true → RequestLike.derive req (.header hDigest) ≠ .ok (some v)) ∧ l = [])

/-- The request is taken apart once, with a digest exactly if all other conditions hold and one is wanted; not at all in a panic. -/
def FinishCalls (req : R) (config : VerifyingConfig) (env : VerifyEnv) (l : List Call) : Prop :=
  ((∃ p, verify req config env = .error p) ∧ l = []) ∨
  ((∃ x, verify req config env = .ok x) ∧
    ((∃ alg, OtherwiseOk req config env ∧ DigestWanted req config alg ∧ l = [.completeWithDigest alg]) ∨
      ((¬ OtherwiseOk req config env ∨ ∀ alg, ¬ DigestWanted req config alg) ∧ l = [.complete])))

theorem otherwiseOk_iff {req : R} {config : VerifyingConfig} {env : VerifyEnv} :
    OtherwiseOk req config env ↔ ∃ k, verifyExceptDigest req config env = .ok (some k) := by
  constructor
  · rintro ⟨c, s, k, b, h⟩; exact ⟨k, verifyExceptDigest_iff.2 ⟨c, s, b, h⟩⟩
  · rintro ⟨k, h⟩
    obtain ⟨c, s, b, h⟩ := verifyExceptDigest_iff.1 h
    exact ⟨c, s, k, b, h⟩

theorem verifyCalled_spec (req : R) (config : VerifyingConfig) (env : VerifyEnv) :
    (verifyCalled req config env).result = verify req config env ∧
    ∃ asked finish, (verifyCalled req config env).calls = (verifySignatureOnlyCalled req config env).calls ++ asked ++ finish ∧
      DigestNameCalls req config env asked ∧ FinishCalls req config env finish := by
  have hex := excCalled req config env
  unfold DigestNameCalls FinishCalls
  rw [otherwiseOk_iff]
  unfold verifyCalled verify
  rw [hex]
  generalize (verifySignatureOnlyCalled req config env).calls = pre
  cases h1 : verifyExceptDigest req config env with
  | error p =>
    refine ⟨rfl, [], [], by simp [Called.bind_mk_error], .inr ⟨?_, rfl⟩, .inl ⟨⟨p, rfl⟩, rfl⟩⟩
    rintro v ⟨k, h⟩; cases h
  | ok o =>
  rw [Called.bind_mk_ok]
  cases o with
  | none =>
    refine ⟨rfl, [], [.complete], by simp [Called.bind_call, Called.pure_eq], .inr ⟨?_, rfl⟩, .inr ⟨⟨_, rfl⟩, .inr ⟨.inl ?_, rfl⟩⟩⟩
    · rintro v ⟨k, h⟩; cases h
    · rintro ⟨k, h⟩; cases h
  | some kid =>
  have hok : ∃ k, (Except.ok (some kid) : P (Option Str)) = .ok (some k) := ⟨kid, rfl⟩
  cases h2 : RequestLike.derive req (.header hDigest) with
  | error p =>
    refine ⟨by simp only [Called.bind_lift_error, ebind_ok]; rfl, [], [], by simp [Called.bind_lift_error], .inr ⟨?_, rfl⟩, .inl ⟨⟨p, ?_⟩, rfl⟩⟩
    · intro v _ _ h; cases h
    · simp only [ebind_ok]; rfl
  | ok o2 =>
  simp only [Called.bind_lift_ok, ebind_ok]
  cases o2 with
  | none =>
    simp only
    have hno : ∀ v : Str, (Except.ok none : P (Option Str)) ≠ .ok (some v) := fun v h => by cases h
    by_cases hq : config.requireDigest = true
    · simp only [hq, if_true, Called.bind_call]
      have hw : DigestWanted req config defaultDigest := .inr ⟨hq, h2, rfl⟩
      cases hd : ServerRequestLike.completeWithDigest req defaultDigest with
      | mk maybe rem =>
      cases maybe <;>
        exact ⟨by simp [Called.pure_eq]; rfl, [], [.completeWithDigest defaultDigest], by simp [Called.pure_eq],
          .inr ⟨fun v _ _ => hno v, rfl⟩, .inr ⟨⟨_, rfl⟩, .inl ⟨_, hok, hw, rfl⟩⟩⟩
    · simp only [hq, Bool.false_eq_true, if_false, Called.bind_call]
      refine ⟨rfl, [], [.complete], by simp [Called.pure_eq], .inr ⟨fun v _ _ => hno v, rfl⟩, .inr ⟨⟨_, rfl⟩, .inr ⟨.inr ?_, rfl⟩⟩⟩
      rintro alg (⟨_, v, _, h, _⟩ | ⟨h, _⟩)
      · rw [h2] at h; cases h
      · exact hq h
  | some dv =>
    simp only
    by_cases hq : config.validateDigest = true
    · simp only [hq, if_true]
      obtain ⟨names, l, hn, hu, e⟩ := firstDigest_spec config.digestProvider (splitOn ',' dv)
      have e' : firstDigest config.digestProvider (splitOn ',' dv) =
          ⟨l.map .provideDigest, .ok (selectDigest config.digestProvider dv)⟩ := e
      rw [e', Called.bind_mk_ok]
      cases hs : selectDigest config.digestProvider dv with
      | none =>
        simp only [Called.bind_call]
        refine ⟨rfl, l.map .provideDigest, [.complete], by simp [Called.pure_eq],
          .inl ⟨dv, names, l, hok, trivial, rfl, digestNames_of hn, hu, rfl⟩, .inr ⟨⟨_, rfl⟩, .inr ⟨.inr ?_, rfl⟩⟩⟩
        rintro alg (⟨_, v, _, h, hf⟩ | ⟨_, h, _⟩)
        · rw [h2] at h; cases h; exact selectDigest_none_iff.1 hs _ _ hf
        · rw [h2] at h; cases h
      | some x =>
        obtain ⟨alg, provided⟩ := x
        simp only [Called.bind_call]
        have hw : DigestWanted req config alg := .inl ⟨hq, dv, provided, h2, selectDigest_iff.1 hs⟩
        cases hd : ServerRequestLike.completeWithDigest req alg with
        | mk maybe rem =>
        cases maybe with
        | none =>
          exact ⟨rfl, l.map .provideDigest, [.completeWithDigest alg], by simp [Called.pure_eq],
            .inl ⟨dv, names, l, hok, trivial, rfl, digestNames_of hn, hu, rfl⟩, .inr ⟨⟨_, rfl⟩, .inl ⟨alg, hok, hw, rfl⟩⟩⟩
        | some expected =>
          simp only
          split <;>
          exact ⟨rfl, l.map .provideDigest, [.completeWithDigest alg], by simp [Called.pure_eq],
            .inl ⟨dv, names, l, hok, trivial, rfl, digestNames_of hn, hu, rfl⟩, .inr ⟨⟨_, rfl⟩, .inl ⟨alg, hok, hw, rfl⟩⟩⟩
    · simp only [hq, Bool.false_eq_true, if_false, Called.bind_call]
      refine ⟨rfl, [], [.complete], by simp [Called.pure_eq], .inr ⟨fun v _ h => absurd h (by simp), rfl⟩,
        .inr ⟨⟨_, rfl⟩, .inr ⟨.inr ?_, rfl⟩⟩⟩
      rintro alg (⟨h, _⟩ | ⟨_, h, _⟩)
      · exact hq h
      · rw [h2] at h; cases h

/-- C131. Recording the calls does not change the outcome. -/
theorem C131_result (req : R) (config : VerifyingConfig) (env : VerifyEnv) :
    (verifyCalled req config env).result = verify req config env := (verifyCalled_spec req config env).1

/-- C131. All calls, in their order: one question for keys, attempts with keys, questions for digest algorithms, and taking the
request apart. -/
theorem C131_calls (req : R) (config : VerifyingConfig) (env : VerifyEnv) :
    ∃ lookup tries asked finish, (verifyCalled req config env).calls = lookup ++ tries ++ asked ++ finish ∧
      LookupCalls req env lookup ∧ KeyCalls req config env tries ∧ DigestNameCalls req config env asked ∧
      FinishCalls req config env finish := by
  obtain ⟨_, asked, finish, h1, h2, h3⟩ := verifyCalled_spec req config env
  obtain ⟨lookup, tries, h4, h5, h6⟩ := sigCalled_calls req config env
  exact ⟨lookup, tries, asked, finish, by rw [h1, h4], h5, h6, h2, h3⟩

/-- C131. A question for keys is the first call, there is no other, and it names the key id of `Signature-Input`. -/
theorem C131_one_lookup (req : R) (config : VerifyingConfig) (env : VerifyEnv) (id : Str)
    (h : .provideKeys id ∈ (verifyCalled req config env).calls) :
    ∃ rest v c, (verifyCalled req config env).calls = .provideKeys id :: rest ∧ (∀ id', .provideKeys id' ∉ rest) ∧
      RequestLike.derive req (.header hSignatureInput) = .ok (some v) ∧ CanonicalizeConfig.fromSignatureInput v = .ok (.ok c) ∧
      (str% "keyid", BareItem.string id) ∈ c.params.params := by
  obtain ⟨lookup, tries, asked, finish, e, h1, h2, h3, h4⟩ := C131_calls req config env
  have hno : ∀ id', Call.provideKeys id' ∉ tries ++ asked ++ finish := by
    intro id' hm
    simp only [List.mem_append] at hm
    rcases hm with (hm | hm) | hm
    · rcases h2 with ⟨_, _, _, _, _, _, _, _, _, _, rfl⟩ | ⟨_, rfl⟩
      · obtain ⟨_, _, hk⟩ := List.mem_map.1 hm; cases hk
      · cases hm
    · rcases h3 with ⟨_, _, _, _, _, _, _, _, rfl⟩ | ⟨_, rfl⟩
      · obtain ⟨_, _, hk⟩ := List.mem_map.1 hm; cases hk
      · cases hm
    · rcases h4 with ⟨_, rfl⟩ | ⟨_, ⟨_, _, _, rfl⟩ | ⟨_, rfl⟩⟩
      · cases hm
      · simp at hm
      · simp at hm
  rw [e, List.append_assoc, List.append_assoc, ← List.append_assoc tries] at h
  rcases List.mem_append.1 h with h | h
  · rcases h1 with ⟨c, sig, keyId, alg, ⟨⟨⟨⟨v, hv, hr⟩, _⟩, hk, _⟩, _⟩, rfl⟩ | ⟨_, rfl⟩
    · simp only [List.mem_singleton, Call.provideKeys.injEq] at h
      subst h
      exact ⟨tries ++ asked ++ finish, v, c, by rw [e]; simp, hno, hv, hr, hk⟩
    · cases h
  · exact absurd h (hno id)

/-- C131. The body is read only after a key that the provider gave for the presented key id has accepted the presented signature over
the signature base. -/
theorem C131_key_before_body (req : R) (config : VerifyingConfig) (env : VerifyEnv) (alg : HttpDigest)
    (h : .completeWithDigest alg ∈ (verifyCalled req config env).calls) :
    ∃ before after keyId k base sig, (verifyCalled req config env).calls = .provideKeys keyId :: before ++ .httpVerify k base sig :: after ∧
      .completeWithDigest alg ∈ after ∧ k ∈ config.keyProvider keyId ∧ k.verify base sig = true := by
  obtain ⟨lookup, tries, asked, finish, e, h1, h2, h3, h4⟩ := C131_calls req config env
  have hf : OtherwiseOk req config env ∧ .completeWithDigest alg ∈ finish := by
    rw [e] at h
    simp only [List.mem_append] at h
    rcases h with ((h | h) | h) | h
    · rcases h1 with ⟨_, _, _, _, _, rfl⟩ | ⟨_, rfl⟩
      · simp at h
      · cases h
    · rcases h2 with ⟨_, _, _, _, _, _, _, _, _, _, rfl⟩ | ⟨_, rfl⟩
      · obtain ⟨_, _, hk⟩ := List.mem_map.1 h; cases hk
      · cases h
    · rcases h3 with ⟨_, _, _, _, _, _, _, _, rfl⟩ | ⟨_, rfl⟩
      · obtain ⟨_, _, hk⟩ := List.mem_map.1 h; cases hk
      · cases h
    · refine ⟨?_, h⟩
      rcases h4 with ⟨_, rfl⟩ | ⟨_, ⟨_, ho, _, rfl⟩ | ⟨_, rfl⟩⟩
      · cases h
      · exact ho
      · simp at h
  obtain ⟨⟨c, sig, keyId, base, hs, _, _⟩, hm⟩ := hf
  obtain ⟨a, ha⟩ := hs.alg
  have ht : Timely req env c sig keyId a := ⟨⟨⟨hs.input, hs.signature⟩, hs.keyid, ha⟩, hs.clock, hs.window⟩
  obtain ⟨si, hcan⟩ := hs.canon
  rcases h1 with ⟨c', sig', keyId', a', ht', rfl⟩ | ⟨hn, _⟩
  rotate_left
  · exact absurd ht (hn _ _ _ _)
  rcases h2 with ⟨c2, sig2, keyId2, a2, base2, si2, ks, ht2, hcan2, hu, rfl⟩ | ⟨hn, _⟩
  rotate_left
  · exact absurd hcan (hn _ _ _ _ _ _ ht)
  obtain ⟨rfl, rfl, rfl⟩ := timely_unique ht ht'
  obtain ⟨rfl, rfl, rfl⟩ := timely_unique ht ht2
  rw [hcan] at hcan2
  cases hcan2
  obtain ⟨k, hk, hp⟩ := upTo_has hu hs.key
  obtain ⟨s, t, rfl⟩ := List.append_of_mem hk
  refine ⟨s.map fun k => .httpVerify k base sig, (t.map fun k => .httpVerify k base sig) ++ asked ++ finish, keyId, k, base, sig, ?_,
    by simp [hm], hu.1.subset (by simp), hp⟩
  rw [e]
  simp

end

/-! ### Examples -/
attribute [local instance] toyDeps

/-- C131: of three keys the second accepts and the third is not tried; of the digest algorithms the first is not known. The body is
read once. -/
example : (verifyCalled exSigned { exVerifying with keyProvider := fun _ =>
      [⟨str% "no", fun _ _ => false⟩, exKey, ⟨str% "late", fun _ _ => true⟩] } exEnv).calls.map Call.shown =
    [str% "keys k1", str% "verify no IkBt", str% "verify toy IkBt", str% "digest MD5", str% "digest TOY", str% "complete TOY"] := rfl

/-- C131: with another key the body is not read; with an expired signature no key is asked for; before a panic nothing is called. -/
example : (verifyCalled exSigned { exVerifying with keyProvider := fun _ => [⟨str% "no", fun _ _ => false⟩] } exEnv).calls.map Call.shown =
      [str% "keys k1", str% "verify no IkBt", str% "complete"] ∧
    (verifyCalled exSigned exVerifying ⟨300000000000, 0⟩).calls.map Call.shown = [str% "complete"] ∧
    (verifyCalled exSigned exVerifying ⟨-1, 0⟩).calls.map Call.shown = [] := ⟨rfl, rfl, rfl⟩

/-- C131: the hypothesis of `C131_one_lookup` and of `C131_key_before_body`. -/
example : .provideKeys (str% "k1") ∈ (verifyCalled exSigned exVerifying exEnv).calls ∧
    .completeWithDigest exDigest ∈ (verifyCalled exSigned exVerifying exEnv).calls :=
  ⟨.head _, .tail _ (.tail _ (.tail _ (.tail _ (.head _))))⟩

end Httpsig
