import Verif.Lemmas.Logging
import Verif.Props.Base
import Verif.Lemmas.Sign4
/- What is logged before a panic, and that records are printable. -/
set_option linter.unusedSectionVars false
namespace Httpsig
open Sfv
/-- A panic leaves no record. -/
def Logged.Quiet {α : Type} (x : Logged α) : Prop := ∀ p, x.result = .error p → x.records = []

theorem Logged.quiet_of_ok {α : Type} {x : Logged α} {a : α} (h : x.result = .ok a) : x.Quiet := fun p e => by rw [h] at e; cases e
theorem Logged.quiet_lift {α : Type} (x : P α) : (liftM x : Logged α).Quiet := fun _ _ => rfl
theorem Logged.quiet_bind {α β : Type} {x : Logged α} {g : α → Logged β} (h1 : x.Quiet)
    (h2 : ∀ a, x.result = .ok a → (x.records = [] ∧ (g a).Quiet) ∨ ∃ b, (g a).result = .ok b) : (x >>= g).Quiet := by
  obtain ⟨l, r⟩ := x
  cases r with
  | error p => exact fun q h => h1 p rfl
  | ok a =>
    rw [Logged.bind_mk_ok]
    intro q h
    rcases h2 a rfl with ⟨h3, h4⟩ | ⟨b, h3⟩
    · show l ++ (g a).records = []
      rw [show l = [] from h3, h4 q h]; rfl
    · rw [show (g a).result = Except.error q from h] at h3; cases h3
theorem Logged.nil_of_quiet {α : Type} {x : Logged α} {p : Panic} {ms : List Str} (hq : x.Quiet) (h : x = ⟨ms, .error p⟩) : ms = [] := by
  subst h; exact hq p rfl

variable [Deps] {R Rem : Type} [ServerRequestLike R Rem]

theorem requiredLogged_quiet (i : SignatureInput) : ∀ l, (checkRequiredLogged i l).Quiet
  | [] => Logged.quiet_of_ok rfl
  | c :: cs => by
    unfold checkRequiredLogged
    refine Logged.quiet_bind (Logged.quiet_lift _) fun s _ => ?_
    split
    · exact .inr ⟨_, rfl⟩
    · exact .inl ⟨rfl, requiredLogged_quiet i cs⟩

theorem dateLogged_quiet (f : Fmt) (i : SignatureInput) (config : VerifyingConfig) (env : VerifyEnv) :
    (checkDateLogged f i config env).Quiet := by
  unfold checkDateLogged
  split
  · split
    · exact Logged.quiet_of_ok rfl
    · split
      · simp only
        split
        · exact Logged.quiet_lift _
        · split <;> exact Logged.quiet_of_ok rfl
      · exact Logged.quiet_of_ok rfl
  · exact Logged.quiet_of_ok rfl

theorem signatureLogged_panic {f : Fmt} {req : R} {config : VerifyingConfig} {env : VerifyEnv} {p : Panic} {ms : List Str}
    (h : verifySignatureOnlyLogged f req config env = ⟨ms, .error p⟩) :
    ms = [] ∨ ∃ v, RequestLike.derive req (.header hSignatureInput) = .ok (some v) ∧ BadInput v ms ∧ p = .badSignatureInput := by
  unfold verifySignatureOnlyLogged verifySignatureOnlyWith plainCanon at h
  cases h1 : RequestLike.derive req (.header hSignatureInput) with
  | error q => rw [h1, Logged.bind_lift_error] at h; cases h; exact .inl rfl
  | ok o =>
  rw [h1, Logged.bind_lift_ok] at h
  cases o with
  | none => cases h
  | some v =>
  simp only at h
  unfold CanonicalizeConfig.fromSignatureInputLogged SignatureInput.ofStrLogged at h
  cases hd : parseDictionary v with
  | none => rw [hd] at h; cases h; exact .inr ⟨v, rfl, .syntax hd, rfl⟩
  | some d =>
  rw [hd] at h
  cases d with
  | nil => cases h; exact .inr ⟨v, rfl, .empty hd, rfl⟩
  | cons e rest =>
  obtain ⟨label, entry⟩ := e
  cases entry with
  | item i => cases h; exact .inr ⟨v, rfl, .item hd, rfl⟩
  | innerList l =>
  left
  revert h
  simp only [List.head?_cons, ComponentList.ofListEntry, Except.map, Logged.bind_pure]
  cases CanonicalizeConfig.ofSignatureInput ⟨label, ⟨l⟩⟩ with
  | error q => intro h; cases h; rfl
  | ok cc =>
  rw [Logged.bind_lift_ok, Logged.bind_pure]
  simp only
  refine Logged.nil_of_quiet ?_
  refine Logged.quiet_bind (Logged.quiet_lift _) fun o _ => ?_
  cases o with
  | none => exact .inr ⟨_, rfl⟩
  | some v' =>
  refine .inl ⟨rfl, ?_⟩
  simp only
  unfold parseSignatureHeaderLogged
  cases parseSignatureHeader v' with
  | none => exact Logged.quiet_of_ok rfl
  | some x =>
  obtain ⟨sl, sig⟩ := x
  simp only [Logged.bind_pure]
  split
  · exact Logged.quiet_of_ok rfl
  split
  · exact Logged.quiet_of_ok rfl
  split
  · exact Logged.quiet_of_ok rfl
  refine Logged.quiet_bind (Logged.quiet_lift _) fun t _ => .inl ⟨rfl, ?_⟩
  split
  · exact Logged.quiet_of_ok rfl
  split
  · exact Logged.quiet_of_ok rfl
  split
  · exact Logged.quiet_of_ok rfl
  refine Logged.quiet_bind (Logged.quiet_lift _) fun o _ => .inl ⟨rfl, ?_⟩
  split
  · exact Logged.quiet_of_ok rfl
  · split <;> exact Logged.quiet_of_ok rfl

theorem verifyLogged_panic {f : Fmt} {req : R} {config : VerifyingConfig} {env : VerifyEnv} {p : Panic} {ms : List Str}
    (h : verifyLogged f req config env = ⟨ms, .error p⟩) :
    ms = [] ∨ ∃ v, RequestLike.derive req (.header hSignatureInput) = .ok (some v) ∧ BadInput v ms ∧ p = .badSignatureInput := by
  unfold verifyLogged verifyWith verifyExceptDigestWith at h
  rw [← sigLogged_fold] at h
  obtain ⟨a1, a2, a3⟩ := signatureLogged f req config env
  cases hs : verifySignatureOnlyLogged f req config env with
  | mk l r =>
  rw [hs] at h a1 a2 a3
  cases r with
  | error q => cases h; exact signatureLogged_panic hs
  | ok o =>
  rw [Logged.bind_mk_ok] at h
  cases o with
  | none => cases h
  | some x =>
  obtain ⟨i, keyId⟩ := x
  have hl : l = [] := a3 _ a1.symm
  subst hl
  left
  revert h
  simp only [List.nil_append]
  refine Logged.nil_of_quiet ?_
  refine Logged.quiet_bind ?_ fun o ho => ?_
  · obtain ⟨b, hb⟩ : ∃ b, checkRequiredLogged i config.requiredComponents = b := ⟨_, rfl⟩
    refine Logged.quiet_bind (requiredLogged_quiet i _) fun b hb => ?_
    cases b with
    | false => exact .inr ⟨_, rfl⟩
    | true =>
      obtain ⟨c, sig, base, hok, rfl⟩ := verifySignatureOnly_iff.1 a1.symm
      obtain ⟨r1, r2, _⟩ := requiredLogged c config.requiredComponents
      refine .inl ⟨r2 (by rw [← r1, hb]), ?_⟩
      refine Logged.quiet_bind (dateLogged_quiet f _ config env) fun b _ => ?_
      cases b <;> exact .inr ⟨_, rfl⟩
  · cases o with
    | none => exact .inr ⟨_, rfl⟩
    | some k =>
    obtain ⟨e1, e2, _⟩ := exceptDigestLogged f req config env
    unfold verifyExceptDigestLogged verifyExceptDigestWith at e1 e2
    rw [← sigLogged_fold] at e1 e2
    rw [hs, Logged.bind_mk_ok] at e1 e2
    simp only [List.nil_append] at e1 e2
    refine .inl ⟨e2 k (by rw [← e1]; exact ho), ?_⟩
    refine Logged.quiet_bind (Logged.quiet_lift _) fun o _ => .inl ⟨rfl, ?_⟩
    cases o with
    | none =>
      simp only
      split
      · split <;> exact Logged.quiet_of_ok rfl
      · exact Logged.quiet_of_ok rfl
    | some v =>
      simp only
      split
      · split
        · split
          · split <;> exact Logged.quiet_of_ok rfl
          · exact Logged.quiet_of_ok rfl
        · exact Logged.quiet_of_ok rfl
      · exact Logged.quiet_of_ok rfl

theorem verifyLogged_badInput (f : Fmt) {req : R} (config : VerifyingConfig) (env : VerifyEnv) {v : Str} {ms : List Str}
    (h : RequestLike.derive req (.header hSignatureInput) = .ok (some v)) (hb : BadInput v ms) :
    verifyLogged f req config env = ⟨ms, .error .badSignatureInput⟩ := by
  unfold verifyLogged verifyWith verifyExceptDigestWith verifySignatureOnlyWith plainCanon CanonicalizeConfig.fromSignatureInputLogged
    SignatureInput.ofStrLogged
  rw [h]
  cases hb with
  | «syntax» e => simp only [Logged.bind_lift_ok]; rw [e]; rfl
  | empty e => simp only [Logged.bind_lift_ok]; rw [e]; rfl
  | item e => simp only [Logged.bind_lift_ok]; rw [e]; rfl

/-! ### Printable -/

theorem printable_iff {s : Str} : PrintableLine s ↔ s.all isStringChar = true := by
  simp [PrintableLine, isStringChar, List.all_eq_true]

theorem printable_append {a b : Str} : PrintableLine (a ++ b) ↔ PrintableLine a ∧ PrintableLine b := by
  rw [printable_iff, printable_iff, printable_iff, List.all_append, Bool.and_eq_true]

theorem printable_cons {a : Char} {b : Str} : PrintableLine (a :: b) ↔ PrintableLine [a] ∧ PrintableLine b :=
  printable_append (a := [a])

theorem printable_join {sep : Str} (hs : PrintableLine sep) : ∀ {l : List Str}, (∀ x ∈ l, PrintableLine x) → PrintableLine (joinWith sep l)
  | [], _ => by intro c hc; cases hc
  | [a], h => h a (by simp)
  | a :: b :: l, h => by
    rw [show joinWith sep (a :: b :: l) = a ++ sep ++ joinWith sep (b :: l) from rfl, printable_append, printable_append]
    exact ⟨⟨h a (by simp), hs⟩, printable_join hs fun x hx => h x (by simp [hx])⟩

theorem printable_debugStr (f : Fmt) {s : Str} (h : s.all isStringChar = true) : PrintableLine (f.debugStr s) := by
  unfold Fmt.debugStr
  rw [List.cons_append, printable_cons, printable_append]
  refine ⟨by rw [printable_iff]; decide, fun c hc => ?_, by rw [printable_iff]; decide⟩
  obtain ⟨x, hx, hc⟩ := List.mem_flatMap.1 hc
  have hp := List.all_eq_true.1 h x hx
  simp only [isStringChar, Bool.and_eq_true, decide_eq_true_eq] at hp
  have key : PrintableLine (f.debugChar x) := by
    unfold Fmt.debugChar
    split
    · rw [printable_iff]; decide
    split
    · rw [printable_iff]; decide
    split
    · rw [printable_iff]; decide
    split
    · rw [printable_iff]; decide
    split
    · rw [printable_iff]; decide
    split
    · rw [printable_iff]; decide
    rw [if_pos (.inl (by omega))]
    intro c hc
    cases List.mem_singleton.1 hc
    exact hp
  exact key c hc

theorem printable_decimal (d : Decimal) : PrintableLine (decimalText d) := by
  unfold decimalText
  rw [printable_append, printable_append]
  refine ⟨⟨?_, printable_iff.2 (natStr_printable _)⟩, ?_⟩
  · rw [printable_iff]; split <;> decide
  · split
    · rw [printable_iff]; decide
    · rw [printable_cons]
      refine ⟨by rw [printable_iff]; decide, ?_⟩
      rw [printable_iff, List.all_eq_true]
      exact fun c hc => isStringChar_of_isDigit (padZero_all (natStr_all _) c hc)

theorem printable_bytes (l : Bytes) : PrintableLine (debugBytes l) := by
  unfold debugBytes
  rw [printable_append, printable_append]
  refine ⟨⟨by rw [printable_iff]; decide, printable_join (by rw [printable_iff]; decide) fun x hx => ?_⟩, by rw [printable_iff]; decide⟩
  obtain ⟨y, _, rfl⟩ := List.mem_map.1 hx
  rw [printable_iff]
  exact natStr_printable _

theorem printable_debugBare {f : Fmt} {b : BareItem} (h : BareOk b) : PrintableLine (f.debugBare b) := by
  cases b with
  | decimal d =>
    unfold Fmt.debugBare
    rw [printable_append, printable_append]
    exact ⟨⟨by rw [printable_iff]; decide, printable_decimal d⟩, by rw [printable_iff]; decide⟩
  | integer i =>
    unfold Fmt.debugBare
    rw [printable_append, printable_append]
    refine ⟨⟨by rw [printable_iff]; decide, ?_⟩, by rw [printable_iff]; decide⟩
    rw [printable_iff]
    rw [intStr_eq, List.all_append, natStr_printable, Bool.and_true]
    split <;> decide
  | string s =>
    unfold Fmt.debugBare
    rw [printable_append, printable_append]
    exact ⟨⟨by rw [printable_iff]; decide, printable_debugStr f h⟩, by rw [printable_iff]; decide⟩
  | byteSeq l =>
    unfold Fmt.debugBare
    rw [printable_append, printable_append]
    exact ⟨⟨by rw [printable_iff]; decide, printable_bytes l⟩, by rw [printable_iff]; decide⟩
  | boolean b => rw [printable_iff]; cases b <;> rfl
  | token t =>
    unfold Fmt.debugBare
    rw [printable_append, printable_append]
    refine ⟨⟨by rw [printable_iff]; decide, printable_debugStr f ?_⟩, by rw [printable_iff]; decide⟩
    obtain ⟨c, cs, rfl, h1, h2⟩ := h
    rw [List.all_cons, Bool.and_eq_true, List.all_eq_true]
    refine ⟨?_, fun x hx => ?_⟩
    · clear h2; charcls; omega
    · have := List.all_eq_true.1 h2 x hx
      clear h1 h2 hx; charcls; omega

theorem printable_params {f : Fmt} {p : Params} (h : ∀ e ∈ p, KeyOk e.1 ∧ BareOk e.2) : PrintableLine (f.debugParams p) := by
  unfold Fmt.debugParams
  rw [printable_append, printable_append]
  refine ⟨⟨by rw [printable_iff]; decide, printable_join (by rw [printable_iff]; decide) fun x hx => ?_⟩, by rw [printable_iff]; decide⟩
  obtain ⟨e, he, rfl⟩ := List.mem_map.1 hx
  rw [printable_append, printable_append]
  exact ⟨⟨printable_debugStr f (h e he).1.printable, by rw [printable_iff]; decide⟩, printable_debugBare (h e he).2⟩

theorem printable_debugComponent {f : Fmt} {k : SignatureComponent} (h : ComponentRead k) :
    PrintableLine (f.debugComponent k) := by
  cases k with
  | header n =>
    unfold Fmt.debugComponent
    rw [printable_append, printable_append]
    exact ⟨⟨by rw [printable_iff]; decide, printable_debugStr f n.all_printable⟩, by rw [printable_iff]; decide⟩
  | derived d =>
    obtain ⟨_, h1, _, h2⟩ := h
    unfold Fmt.debugComponent Fmt.debugItem
    simp only [printable_append]
    exact ⟨⟨by rw [printable_iff]; decide, ⟨⟨⟨by rw [printable_iff]; decide, printable_debugBare h1⟩, by rw [printable_iff]; decide⟩,
      printable_params h2⟩, by rw [printable_iff]; decide⟩, by rw [printable_iff]; decide⟩

variable {R Rem : Type} [ServerRequestLike R Rem]

theorem inputRead_ok {req : R} {c : CanonicalizeConfig} (h : InputRead req c) :
    (∀ k ∈ c.components, ComponentRead k) ∧ ParamsOk c.params.params := by
  obtain ⟨v, _, hr⟩ := h
  exact (fromSignatureInput_spec hr).2

theorem missing_subset {req : R} {c : CanonicalizeConfig} {l : List SignatureComponent}
    (h : canonicalize req c = .ok (.error (.missingComponents l))) : ∀ k ∈ l, k ∈ c.components := by
  obtain ⟨found, missing, hd, _, he⟩ := canonicalize_missing h
  cases he
  have : ∀ (cs : List SignatureComponent) (found : List (SignatureComponent × Str)) (missing : List SignatureComponent),
      deriveAll req cs = .ok (found, missing) → ∀ k ∈ missing, k ∈ cs := by
    intro cs
    induction cs with
    | nil => intro _ _ h; cases h; simp
    | cons x xs ih =>
      intro fo mi h
      unfold deriveAll at h
      simp only [Bind.bind, Except.bind, pure, Except.pure] at h
      split at h
      · cases h
      · split at h
        · cases h
        · rename_i p hp
          obtain ⟨f', m'⟩ := p
          split at h <;> cases h
          · intro k hk; exact List.mem_cons_of_mem _ (ih _ _ hp k hk)
          · intro k hk
            rcases List.mem_cons.1 hk with rfl | hk
            · simp
            · exact List.mem_cons_of_mem _ (ih _ _ hp k hk)
  exact this _ _ _ hd

theorem printable_refusal {f : Fmt} (hf : f.Printable) {req : R} {config : VerifyingConfig} {env : VerifyEnv} {ms : List Str}
    (h : Refusal f req config env ms) : ∀ m ∈ ms, PrintableLine m := by
  have lit : ∀ {s : Str}, s.all isStringChar = true → ∀ m ∈ [s], PrintableLine m := fun h m hm => by
    cases List.mem_singleton.1 hm; exact printable_iff.2 h
  cases h with
  | signature h =>
    cases h with
    | malformed =>
      intro m hm
      simp only [List.mem_cons, List.not_mem_nil, or_false, or_self] at hm
      rw [printable_iff, hm]; rfl
    | unknownKey h =>
      obtain ⟨⟨⟨h1, _⟩, h2, h3⟩, _⟩ := h
      have hp := (inputRead_ok h1).2.2
      intro m hm
      cases List.mem_singleton.1 hm
      simp only [printable_append]
      exact ⟨⟨⟨⟨printable_iff.2 rfl, printable_iff.2 (hp _ h2).2⟩, printable_iff.2 rfl⟩, printable_iff.2 (hp _ h3).2⟩, printable_iff.2 rfl⟩
    | missing h _ hc =>
      obtain ⟨⟨⟨h1, _⟩, _⟩, _⟩ := h
      have hp := (inputRead_ok h1).1
      intro m hm
      cases List.mem_singleton.1 hm
      simp only [printable_append]
      refine ⟨⟨printable_iff.2 rfl, printable_join (printable_iff.2 rfl) fun x hx => ?_⟩, printable_iff.2 rfl⟩
      obtain ⟨k, hk, rfl⟩ := List.mem_map.1 hx
      exact printable_debugComponent (hp k (missing_subset hc k hk))
    | _ => exact lit rfl
  | condition _ h =>
    cases h with
    | @required _ _ k s _ _ h _ =>
      intro m hm
      cases List.mem_singleton.1 hm
      simp only [printable_append]
      refine ⟨⟨printable_iff.2 rfl, printable_iff.2 ?_⟩, printable_iff.2 rfl⟩
      cases k with
      | header n => cases h; exact n.all_printable
      | derived d =>
        simp only [SignatureComponent.display, DerivedComponent.display] at h
        cases hs : serItem d.item with
        | none => rw [hs] at h; cases h
        | some t => rw [hs] at h; cases h; exact serItem_printable hs
    | skew =>
      intro m hm
      cases List.mem_singleton.1 hm
      simp only [printable_append]
      exact ⟨⟨printable_iff.2 rfl, hf _⟩, printable_iff.2 rfl⟩
    | _ => exact lit rfl
  | digest _ _ _ h => cases h <;> exact lit rfl

end Httpsig
