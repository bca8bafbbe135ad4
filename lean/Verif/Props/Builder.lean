import Verif.Spec.Builder
import Verif.Props.Config
import Verif.Lemmas.Config4
/-
C65: histories of `CanonicalizeConfig` setters.
-/
set_option linter.unusedSectionVars false
namespace Httpsig
open Sfv

theorem filterMap_congr' {α β : Type} {f g : α → Option β} {l : List α} (h : ∀ a ∈ l, f a = g a) :
    l.filterMap f = l.filterMap g := by
  induction l with
  | nil => rfl
  | cons a l ih => rw [List.filterMap_cons, List.filterMap_cons, h a (by simp), ih fun b hb => h b (by simp [hb])]

namespace IMap
variable {V : Type}

theorem keys_insert (m : IMap V) (k : Str) (v : V) :
    (insert m k v).map Prod.fst = if k ∈ m.map Prod.fst then m.map Prod.fst else m.map Prod.fst ++ [k] := by
  induction m with
  | nil => rfl
  | cons e m ih =>
    obtain ⟨a, b⟩ := e
    simp only [insert]
    by_cases h : a = k
    · subst h; simp
    · rw [if_neg h, List.map_cons, ih]
      simp only [List.map_cons, List.mem_cons, Ne.symm h, false_or]
      split <;> rfl

/-- A map is determined by its keys, in order, and by look-up. -/
theorem eq_of_keys {m : IMap V} (h : NodupKeys m) : m = (m.map Prod.fst).filterMap fun k => (get m k).map (k, ·) := by
  induction m with
  | nil => rfl
  | cons e m ih =>
    obtain ⟨a, b⟩ := e
    simp only [NodupKeys, List.map_cons, List.nodup_cons] at h
    simp only [List.map_cons, List.filterMap_cons, get, if_true, Option.map_some]
    congr 1
    refine (ih h.2).trans (filterMap_congr' fun k hk => ?_)
    rw [if_neg (fun e : a = k => h.1 (e ▸ hk))]

end IMap

variable [Deps]

/-- The entry a call writes. -/
def CanonicalizeConfig.Op.entry : CanonicalizeConfig.Op → Option (Str × BareItem)
  | .created t => some (str% "created", .integer t)
  | .expires t => some (str% "expires", .integer t)
  | .alg a => some (str% "alg", .string a)
  | .nonce n => some (str% "nonce", .token n)
  | .keyid k => some (str% "keyid", .string k)
  | .label _ => none
  | .components _ => none

theorem configRun_snoc (l : List CanonicalizeConfig.Op) (a : CanonicalizeConfig.Op) :
    CanonicalizeConfig.run (l ++ [a]) = (CanonicalizeConfig.run l).step a := by
  unfold CanonicalizeConfig.run
  rw [List.foldl_append]
  rfl

theorem step_params (c : CanonicalizeConfig) (a : CanonicalizeConfig.Op) :
    (c.step a).params.params = match a.entry with | some (k, v) => IMap.insert c.params.params k v | none => c.params.params := by
  cases a <;> rfl

theorem entry_name {a : CanonicalizeConfig.Op} {k : Str} {v : BareItem} (h : a.entry = some (k, v)) : a.name = some k := by
  cases a <;> cases h <;> rfl

theorem name_entry {a : CanonicalizeConfig.Op} (h : a.entry = none) : a.name = none := by
  cases a <;> first | rfl | cases h

theorem run_params_keys (ops : List CanonicalizeConfig.Op) :
    (CanonicalizeConfig.run ops).params.params.map Prod.fst = (ops.filterMap CanonicalizeConfig.Op.name).eraseDups ∧
    IMap.NodupKeys (CanonicalizeConfig.run ops).params.params ∧
    ∀ k, IMap.get (CanonicalizeConfig.run ops).params.params k =
      (lastCall (fun o => if o.name = some k then some o else none) ops).bind fun o => o.entry.map Prod.snd := by
  induction ops using history_induction with
  | nil => exact ⟨rfl, IMap.nodupKeys_nil, fun k => rfl⟩
  | snoc l a ih =>
    obtain ⟨h1, h2, h3⟩ := ih
    rw [configRun_snoc, step_params, List.filterMap_append]
    cases he : a.entry with
    | none =>
      have hn := name_entry he
      refine ⟨?_, h2, fun k => ?_⟩
      · simp [hn, h1]
      · rw [lastCall_append, hn, if_neg (by simp)]
        exact h3 k
    | some e =>
      obtain ⟨k0, v⟩ := e
      have hn := entry_name he
      refine ⟨?_, h2.insert _ _, fun k => ?_⟩
      · simp only [List.filterMap_cons, hn, List.filterMap_nil]
        rw [IMap.keys_insert, List.eraseDups_append, h1]
        by_cases hk : k0 ∈ l.filterMap CanonicalizeConfig.Op.name
        · rw [if_pos (List.mem_eraseDups.2 hk)]
          have : [k0].removeAll (l.filterMap CanonicalizeConfig.Op.name) = [] := by
            simp only [List.removeAll, List.filter_cons, List.filter_nil]
            rw [if_neg (by simp only [List.elem_eq_mem, hk]; simp)]
          rw [this]; simp
        · rw [if_neg (fun h => hk (List.mem_eraseDups.1 h))]
          have : [k0].removeAll (l.filterMap CanonicalizeConfig.Op.name) = [k0] := by
            simp only [List.removeAll, List.filter_cons, List.filter_nil]
            rw [if_pos (by simp only [List.elem_eq_mem, hk]; simp)]
          rw [this]; rfl
      · rw [lastCall_append, hn]
        by_cases hk : k = k0
        · subst hk
          rw [if_pos rfl, IMap.get_insert_self]
          simp [he]
        · rw [if_neg (fun e => hk (Option.some.inj e).symm), IMap.get_insert_ne hk]
          exact h3 k

theorem run_params (ops : List CanonicalizeConfig.Op) :
    (CanonicalizeConfig.run ops).params.params = (effectiveCalls ops).filterMap CanonicalizeConfig.Op.entry := by
  obtain ⟨h1, h2, h3⟩ := run_params_keys ops
  rw [IMap.eq_of_keys h2, h1]
  unfold effectiveCalls
  rw [List.filterMap_filterMap]
  refine filterMap_congr' fun k _ => ?_
  rw [h3]
  cases hl : lastCall (fun o => if o.name = some k then some o else none) ops with
  | none => rfl
  | some o =>
    have hn : o.name = some k := by
      unfold lastCall at hl
      have hm := List.mem_of_getLast? hl
      obtain ⟨o', _, ho'⟩ := List.mem_filterMap.1 hm
      split at ho'
      · cases ho'; assumption
      · cases ho'
    cases ho : o.entry with
    | none => rw [name_entry ho] at hn; cases hn
    | some e =>
      obtain ⟨k', v⟩ := e
      have := entry_name ho
      rw [hn] at this
      cases this
      simp [ho]

theorem serParams_entries {l : List CanonicalizeConfig.Op} (hl : ∀ o ∈ l, o.name ≠ none) {s : Str} :
    serParams (l.filterMap CanonicalizeConfig.Op.entry) = some s ↔
      (∀ o ∈ l, o.Writable) ∧ s = l.flatMap fun o => ';' :: o.name.getD [] ++ '=' :: o.text := by
  induction l generalizing s with
  | nil => simp [serParams, eq_comm]
  | cons o l ih =>
    have ih := @ih (fun o ho => hl o (by simp [ho]))
    have key : ∀ {k v}, o.entry = some (k, v) → serKey k = some k → v ≠ .boolean true →
        (∀ a, serBare v = some a ↔ o.Writable ∧ a = o.text) → (serParams ((o :: l).filterMap CanonicalizeConfig.Op.entry) = some s ↔
      (∀ o' ∈ o :: l, o'.Writable) ∧ s = (o :: l).flatMap fun o => ';' :: o.name.getD [] ++ '=' :: o.text) := by
      intro k v he hk hv hs
      simp only [List.filterMap_cons, he]
      rw [serParams_cons_iff hk hv]
      simp only [List.flatMap_cons, entry_name he, Option.getD_some]
      constructor
      · rintro ⟨a, b, h1, h2, rfl⟩
        obtain ⟨g1, rfl⟩ := (hs a).1 h1
        obtain ⟨g2, rfl⟩ := ih.1 h2
        refine ⟨fun o' ho' => ?_, rfl⟩
        rcases List.mem_cons.1 ho' with rfl | ho'
        · exact g1
        · exact g2 o' ho'
      · rintro ⟨h1, rfl⟩
        exact ⟨o.text, _, (hs _).2 ⟨h1 o (by simp), rfl⟩, ih.2 ⟨fun o' ho' => h1 o' (by simp [ho']), rfl⟩, rfl⟩
    cases ho : o with
    | created t => subst ho; exact key rfl rfl (by simp) fun a => serInteger_some_iff
    | expires t => subst ho; exact key rfl rfl (by simp) fun a => serInteger_some_iff
    | alg t => subst ho; exact key rfl rfl (by simp) fun a => serString_some_iff
    | nonce t => subst ho; exact key rfl rfl (by simp) fun a => serTokenText_iff
    | keyid t => subst ho; exact key rfl rfl (by simp) fun a => serString_some_iff
    | label t => subst ho; exact absurd rfl (hl (.label t) (by simp))
    | components t => subst ho; exact absurd rfl (hl (.components t) (by simp))

theorem display_iff {c : CanonicalizeConfig} {x : Str} :
    c.toSignatureInput.display = .ok x ↔
      ∃ sp, NameText c.getLabel ∧ c.toSignatureInput.list.display = .ok sp ∧ x = c.getLabel ++ '=' :: sp := by
  have e : ∀ sp, c.toSignatureInput.list.display = .ok sp ↔ serInnerList c.toSignatureInput.list.inner = some sp := by
    intro sp
    unfold ComponentList.display serSingletonList
    cases serInnerList c.toSignatureInput.list.inner <;> simp
  simp only [e]
  have hd : c.toSignatureInput.display = .ok x ↔ serMember c.getLabel (.innerList c.toSignatureInput.list.inner) = some x :=
    ⟨fun h => display_eq_ok h, fun h => display_of_ser h⟩
  rw [hd]
  simp only [serMember, Option.bind_eq_bind, Option.bind_eq_some_iff]
  constructor
  · rintro ⟨l, hl, sp, hsp, hx⟩
    obtain ⟨hl', rfl⟩ := serName_iff.1 hl
    cases hx
    exact ⟨sp, hl', hsp, rfl⟩
  · rintro ⟨sp, hl, hsp, rfl⟩
    exact ⟨_, serName_iff.2 ⟨hl, rfl⟩, sp, hsp, rfl⟩

/-- C65. After any history of setter calls on a new `CanonicalizeConfig`, each getter returns the value of the last call
of its setter, whatever was called in between; without such a call, the label is `sig` and the rest is absent. -/
theorem C65_getters (ops : List CanonicalizeConfig.Op) :
    let c := CanonicalizeConfig.run ops
    c.getLabel = (lastCall (fun | .label l => some l | _ => none) ops).getD (str% "sig") ∧
    c.components = (lastCall (fun | .components l => some l | _ => none) ops).getD [] ∧
    c.created = lastCall (fun | .created t => some t | _ => none) ops ∧
    c.expires = lastCall (fun | .expires t => some t | _ => none) ops ∧
    c.alg = lastCall (fun | .alg a => some a | _ => none) ops ∧
    c.keyid = lastCall (fun | .keyid k => some k | _ => none) ops ∧
    c.params.getNonce = lastCall (fun | .nonce n => some n | _ => none) ops := by
  induction ops using history_induction with
  | nil => exact ⟨rfl, rfl, rfl, rfl, rfl, rfl, rfl⟩
  | snoc l a ih =>
    simp only [configRun_snoc, lastCall_append] at ih ⊢
    obtain ⟨h1, h2, h3, h4, h5, h6, h7⟩ := ih
    have other : ∀ {k k' : Str} {v : BareItem}, k ≠ k' → IMap.get (IMap.insert (CanonicalizeConfig.run l).params.params k' v) k =
        IMap.get (CanonicalizeConfig.run l).params.params k := fun h => IMap.get_insert_ne h
    simp only [CanonicalizeConfig.created, CanonicalizeConfig.expires, CanonicalizeConfig.alg, CanonicalizeConfig.keyid,
      SignatureParams.getCreated, SignatureParams.getExpires, SignatureParams.getAlg, SignatureParams.getKeyid,
      SignatureParams.getNonce, step_params] at h3 h4 h5 h6 h7 ⊢
    cases a <;> (refine ⟨?_, ?_, ?_, ?_, ?_, ?_, ?_⟩) <;>
      simp only [CanonicalizeConfig.Op.entry, kCreated, kExpires, kNonce, kAlg, kKeyid] at h3 h4 h5 h6 h7 ⊢ <;>
      first
      | rfl
      | assumption
      | (rw [IMap.get_insert_self]; rfl)
      | (rw [other (by decide)]; assumption)

/-- C65, what is written. The `Signature-Input` text is `label=(components)` followed by the parameters in the order in
which they were first set, each with the value set last; it can be written if and only if those values, the label and the
components can. -/
theorem C65_text (ops : List CanonicalizeConfig.Op) (x : Str) :
    (CanonicalizeConfig.run ops).toSignatureInput.display = .ok x ↔
      ∃ lids, NameText ((lastCall (fun | .label l => some l | _ => none) ops).getD (str% "sig")) ∧
        Forall2 ListIdent ((lastCall (fun | .components l => some l | _ => none) ops).getD []) lids ∧
        (∀ o ∈ effectiveCalls ops, o.Writable) ∧
        x = (lastCall (fun | .label l => some l | _ => none) ops).getD (str% "sig") ++ '=' :: specListText lids ++
          setParamsText ops := by
  obtain ⟨h1, h2, _⟩ := C65_getters ops
  have hn : ∀ o ∈ effectiveCalls ops, o.name ≠ none := by
    intro o ho
    obtain ⟨k, _, hk⟩ := List.mem_filterMap.1 ho
    unfold lastCall at hk
    obtain ⟨o', _, ho'⟩ := List.mem_filterMap.1 (List.mem_of_getLast? hk)
    split at ho'
    · cases ho'; rename_i e; rw [e]; simp
    · cases ho'
  rw [display_iff, ← h1, ← h2]
  simp only [display_list_iff, run_params, ← serParams_iff, serParams_entries hn]
  constructor
  · rintro ⟨_, hl, ⟨lids, _, h3, ⟨h4, rfl⟩, rfl⟩, rfl⟩
    exact ⟨lids, hl, h3, h4, by simp [setParamsText]⟩
  · rintro ⟨lids, hl, h3, h4, rfl⟩
    exact ⟨_, hl, ⟨lids, _, h3, ⟨h4, rfl⟩, rfl⟩, by simp [setParamsText]⟩

/-- Setting a parameter again keeps its place and replaces its value. -/
example : (CanonicalizeConfig.run [.keyid (str% "a"), .created 5, .label (str% "l"), .nonce (str% "n"), .created (-7),
    .components [.header hHost], .keyid (str% "b\"")]).toSignatureInput.display =
    .ok (str% "l=(\"host\");keyid=\"b\\\"\";created=-7;nonce=n") := by rfl
example : (effectiveCalls [.keyid (str% "a"), .created 5, .nonce (str% "n"), .created (-7), .keyid (str% "b")]).length = 3 ∧
    setParamsText [.keyid (str% "a"), .created 5, .nonce (str% "n"), .created (-7), .keyid (str% "b")] =
      str% ";keyid=\"b\";created=-7;nonce=n" := ⟨rfl, rfl⟩

end Httpsig
