import Verif.Props.Component
import Verif.Props.Grammar
/- C109: `ComponentList` and `SignatureInput` as data: how they are made, searched, converted, printed and read. -/
set_option linter.unusedSectionVars false
namespace Httpsig
open Sfv Grammar
variable [Deps]

/-- C109. `ComponentList::new` has one item for each component, in their order, and the given parameters. -/
theorem C109_new (label : Str) (cs : List SignatureComponent) (ps : SignatureParams) :
    (ComponentList.new cs ps).inner = ⟨cs.map itemOf, ps.params⟩ ∧
    (SignatureInput.new label cs ps).label = label ∧ (SignatureInput.new label cs ps).list.inner = ⟨cs.map itemOf, ps.params⟩ := by
  simp [ComponentList.new, SignatureInput.new, map_toItem]

/-- C109. `get_item` finds the first item whose value is the given string, and none if there is no such item. -/
theorem C109_get_item (l : ComponentList) (key : Str) :
    (∀ i, l.getItem key = some i ↔ ∃ before after, l.inner.items = before ++ i :: after ∧ i.bare = .string key ∧
      ∀ j ∈ before, j.bare ≠ .string key) ∧
    (l.getItem key = none ↔ ∀ i ∈ l.inner.items, i.bare ≠ .string key) := by
  have hp : ∀ i : Item, (match i.bare.asStr with | some k => decide (key = k) | none => false) = true ↔ i.bare = .string key := by
    intro i
    cases hb : i.bare <;> simp [BareItem.asStr, eq_comm]
  unfold ComponentList.getItem
  constructor
  · intro i
    rw [List.find?_eq_some_iff_append]
    constructor
    · rintro ⟨h, as, bs, e, hn⟩
      refine ⟨as, bs, e, (hp i).1 h, fun j hj hb => ?_⟩
      have := hn j hj
      simp [hb, BareItem.asStr] at this
    · rintro ⟨as, bs, e, h, hn⟩
      refine ⟨(hp i).2 h, as, bs, e, fun j hj => ?_⟩
      rw [Bool.not_eq_true', ← Bool.not_eq_true]
      exact fun h => hn j hj ((hp j).1 h)
  · rw [List.find?_eq_none]
    refine forall_congr' fun i => forall_congr' fun _ => not_congr (hp i)

/-- C109. `as_list` and `try_from` are inverse to each other, and the list that is read is the first entry. -/
theorem C109_list (l : ComponentList) (es : List ListEntry) :
    ComponentList.ofList l.asList = .ok l ∧
    (ComponentList.ofList es = .ok l ↔ ∃ rest, es = .innerList l.inner :: rest) ∧
    ((∀ x, ComponentList.ofList es ≠ .ok x) → ComponentList.ofList es = .error .signatureInputError) := by
  refine ⟨rfl, ?_, ?_⟩
  · constructor
    · intro h
      match es, h with
      | .innerList i :: rest, h => cases h; exact ⟨rest, rfl⟩
      | .item _ :: _, h => cases h
      | [], h => cases h
    · rintro ⟨rest, rfl⟩; rfl
  · intro h
    match es, h with
    | .innerList i :: rest, h => exact absurd rfl (h ⟨i⟩)
    | .item _ :: _, _ => rfl
    | [], _ => rfl

/-- C109. `get_param` of a `Signature-Input` value: parameters have distinct names, and this is the value under the name. -/
theorem C109_get_param (i : SignatureInput) (hn : (i.list.inner.params.map Prod.fst).Nodup) (k : Str) (v : BareItem) :
    i.getParam k = some v ↔ (k, v) ∈ i.list.inner.params :=
  ⟨IMap.mem_of_get, get_of_mem hn⟩

/-- C109. The getters of the parameters answer only for a value of one type: integers for the times, strings for algorithm and key
id, and tokens for the nonce. (The draft has strings for the nonce as well; `get_nonce` does not see these.) -/
theorem C109_getters (p : SignatureParams) (hn : (p.params.map Prod.fst).Nodup) :
    (∀ t, p.getCreated = some t ↔ (str% "created", .integer t) ∈ p.params) ∧
    (∀ t, p.getExpires = some t ↔ (str% "expires", .integer t) ∈ p.params) ∧
    (∀ s, p.getAlg = some s ↔ (str% "alg", .string s) ∈ p.params) ∧
    (∀ s, p.getKeyid = some s ↔ (str% "keyid", .string s) ∈ p.params) ∧
    (∀ s, p.getNonce = some s ↔ (str% "nonce", .token s) ∈ p.params) := by
  have key : ∀ {α : Type} (f : BareItem → Option α) (g : α → BareItem) (_ : ∀ b a, f b = some a ↔ b = g a) (k : Str) (a : α),
      (IMap.get p.params k).bind f = some a ↔ (k, g a) ∈ p.params := by
    intro α f g hf k a
    rw [Option.bind_eq_some_iff]
    constructor
    · rintro ⟨b, hb, h⟩; rw [(hf b a).1 h] at hb; exact IMap.mem_of_get hb
    · exact fun h => ⟨_, get_of_mem hn h, (hf _ a).2 rfl⟩
  exact ⟨key _ .integer (fun b a => by cases b <;> simp [BareItem.asInt]) _, key _ .integer (fun b a => by cases b <;> simp [BareItem.asInt]) _,
    key _ .string (fun b a => by cases b <;> simp [BareItem.asStr]) _, key _ .string (fun b a => by cases b <;> simp [BareItem.asStr]) _,
    key _ .token (fun b a => by cases b <;> simp [BareItem.asToken]) _⟩

example : (SignatureParams.mk [(str% "created", .decimal ⟨false, 15, 1⟩), (str% "nonce", .string (str% "n")), (str% "alg", .string (str% "a"))]).getNonce = none ∧
    (SignatureParams.mk [(str% "nonce", .token (str% "n"))]).getNonce = some (str% "n") := ⟨rfl, rfl⟩

/-- C109. Exactly these texts are read as a `Signature-Input` value, and with this result: dictionaries whose first member is an
inner list. Whatever the items are, reading them never panics. -/
theorem C109_read (s : Str) (i : SignatureInput) :
    SignatureInput.ofStr s = .ok i ↔ ∃ d, Dict s d ∧ d.head? = some (i.label, .innerList i.list.inner) :=
  ofStr_ok_iff s i

/-- C109. Other texts are refused: what is not a dictionary with one error, dictionaries that are empty or whose first member is
not an inner list with another. -/
theorem C109_refused (s : Str) (e : Error) :
    SignatureInput.ofStr s = .error e ↔
      (e = .signatureInputParse ∧ ∀ d, ¬ Dict s d) ∨
      (e = .signatureInputError ∧ ∃ d, Dict s d ∧ ∀ label l, d.head? ≠ some (label, .innerList l)) := by
  rw [← C72_refused]
  unfold CanonicalizeConfig.fromSignatureInput
  constructor
  · intro h; rw [h]
  · intro h
    split at h
    · rename_i hx; cases h; exact hx
    · rename_i x _
      cases hc : CanonicalizeConfig.ofSignatureInput x <;> rw [hc] at h <;> cases h

/-- Items the same up to rounding of decimals. -/
def RoundedItem (i j : Item) : Prop := RoundedBare i.bare j.bare ∧ RoundedParams i.params j.params

/-- C109. A printed `Signature-Input` value, whatever its items, is read as the same value with decimals rounded to three
places: if its names are not empty and distinct and no token is empty. -/
theorem C109_round_trip (i : SignatureInput) (s : Str) (hs : i.display = .ok s) (hl : i.label ≠ [])
    (hi : ∀ j ∈ i.list.inner.items, j.bare ≠ .token [] ∧ ParamsWritten j.params) (hp : ParamsWritten i.list.inner.params) :
    ∃ i', SignatureInput.ofStr s = .ok i' ∧ i'.label = i.label ∧
      Forall2 RoundedItem i.list.inner.items i'.list.inner.items ∧ RoundedParams i.list.inner.params i'.list.inner.params := by
  obtain ⟨label, ⟨items, ps⟩⟩ := i
  simp only at hl hi hp ⊢
  have hr : (SignatureInput.mk label ⟨items.map roundItem, roundParams ps⟩).display = .ok s := by
    rw [← hs]
    unfold SignatureInput.display
    have e3 : ∀ (k : Str) (l : InnerList), serDict (IMap.insert [] k (.innerList l)) = serMember k (.innerList l) := fun _ _ => rfl
    rw [e3, e3]
    simp only [serMember, serInnerList, serItems_round, serParams_round]
  have h1 := display_eq_ok hr
  simp only [serDict] at h1
  obtain ⟨ls, hk, hls, _⟩ := serMember_inner h1
  have hI : InnerOk ⟨items.map roundItem, roundParams ps⟩ := by
    have ht := roundParams_tidy' hp
    refine innerOk_of_ser hls ht.1 ht.2 fun j hj => ?_
    obtain ⟨j', hj', rfl⟩ := List.mem_map.1 hj
    obtain ⟨hb, hjp⟩ := hi j' hj'
    have ht := roundParams_tidy' hjp
    refine ⟨ht.1, ⟨?_, ?_⟩, ht.2⟩
    · show roundBare j'.bare ≠ _
      cases hb' : j'.bare <;> simp_all [roundBare]
    · intro d hd
      have hd : roundBare j'.bare = .decimal d := hd
      cases hb' : j'.bare <;> rw [hb'] at hd <;> simp only [roundBare, BareItem.decimal.injEq, reduceCtorEq] at hd
      rw [← hd]
      exact round3_scale _
  obtain ⟨y, hy, -, hparse⟩ := innerOk_render (s := ⟨label, ⟨⟨items.map roundItem, roundParams ps⟩⟩⟩) (keyOk_of_ser hk hl) hI
  have : y = s := Except.ok.inj (hy.symm.trans hr)
  subst this
  refine ⟨_, hparse, rfl, ?_, roundedParams_norm _⟩
  show Forall2 RoundedItem items ((items.map roundItem).map normItem)
  clear hparse hy hI hls hk h1 hr hs hi
  induction items with
  | nil => exact .nil
  | cons j items ih =>
    refine .cons ⟨?_, roundedParams_norm _⟩ ih
    show RoundedBare j.bare (roundBare j.bare).norm
    cases j.bare with
    | decimal d => exact rounded_round3 d
    | _ => rfl

/-- C109, non-vacuity: two items named `date`: the first is found, and the token `date` is not. -/
example : (ComponentList.mk ⟨[⟨.token (str% "date"), []⟩, ⟨.string (str% "date"), [(str% "a", .integer 1)]⟩, ⟨.string (str% "date"), []⟩], []⟩).getItem
    (str% "date") = some ⟨.string (str% "date"), [(str% "a", .integer 1)]⟩ :=
  ((C109_get_item _ _).1 _).2 ⟨[⟨.token (str% "date"), []⟩], [⟨.string (str% "date"), []⟩], rfl, rfl, by simp⟩

/-- C109, non-vacuity: items that no component can have, and a decimal. -/
example : ∃ i', SignatureInput.ofStr (str% "sig=(7.5;x \"date\");v=0.002") = .ok i' ∧ i'.label = str% "sig" ∧
    i'.list.inner.items.length = 2 := by
  obtain ⟨i', h1, h2, h3, -⟩ := C109_round_trip
    ⟨str% "sig", ⟨⟨[⟨.decimal ⟨false, 75, 1⟩, [(str% "x", .boolean true)]⟩, ⟨.string (str% "date"), []⟩], [(str% "v", .decimal ⟨false, 15, 4⟩)]⟩⟩⟩
    (str% "sig=(7.5;x \"date\");v=0.002") rfl (by decide)
    (by simp [ParamsWritten, IMap.NodupKeys]) (by simp [ParamsWritten, IMap.NodupKeys])
  refine ⟨i', h1, h2, ?_⟩
  match i'.list.inner.items, h3 with
  | _, .cons _ (.cons _ .nil) => rfl

end Httpsig
