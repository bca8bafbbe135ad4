import Verif.Lemmas.Config2
/- Rendering then reading, in general; what setter histories produce. -/
set_option linter.unusedSectionVars false
namespace Httpsig
open Sfv
variable [Deps]

theorem innerOk_of_read {c : CanonicalizeConfig} (hc : ∀ k ∈ c.components, ComponentRead k)
    (hp : ParamsOk c.params.params) : InnerOk c.toSignatureInput.list.inner := by
  refine ⟨?_, hp⟩
  intro i hi
  simp only [CanonicalizeConfig.toSignatureInput, SignatureInput.new, ComponentList.new, List.mem_map] at hi
  obtain ⟨k, hk, rfl⟩ := hi
  exact toItem_ok (hc k hk)

/-- Normal form of a configuration: what a reader of its rendering obtains. -/
def CanonicalizeConfig.norm (c : CanonicalizeConfig) : CanonicalizeConfig :=
  { label := some c.getLabel, components := c.components.map normComponent, params := ⟨normParams c.params.params⟩ }

theorem read_render {c : CanonicalizeConfig} (hk : KeyOk c.getLabel) (hc : ∀ k ∈ c.components, ComponentRead k)
    (hp : ParamsOk c.params.params) :
    ∃ x, c.toSignatureInput.display = .ok x ∧ x.all isStringChar = true ∧
      CanonicalizeConfig.fromSignatureInput x = .ok (.ok c.norm) := by
  obtain ⟨x, hx, hpr, hparse⟩ := innerOk_render (s := c.toSignatureInput) hk (innerOk_of_read hc hp)
  refine ⟨x, hx, hpr, ?_⟩
  unfold CanonicalizeConfig.fromSignatureInput
  rw [hparse]
  simp only [CanonicalizeConfig.ofSignatureInput, normInner, CanonicalizeConfig.toSignatureInput, SignatureInput.new,
    ComponentList.new, mapM_ofItem_norm hc]
  rfl

theorem componentTidy_read {c : CanonicalizeConfig} {x : Str} (hr : c.toSignatureInput.display = .ok x)
    (hl : c.getLabel ≠ []) (hc : ∀ k ∈ c.components, ComponentTidy k) (hp : ParamsTidy c.params.params) :
    KeyOk c.getLabel ∧ (∀ k ∈ c.components, ComponentRead k) ∧ ParamsOk c.params.params := by
  have h1 := display_eq_ok hr
  simp only [serDict] at h1
  obtain ⟨ls, hk, hls, _⟩ := serMember_inner h1
  have hI : InnerOk c.toSignatureInput.list.inner := by
    refine innerOk_of_ser hls hp.1 hp.2 ?_
    intro i hi
    simp only [CanonicalizeConfig.toSignatureInput, SignatureInput.new, ComponentList.new, List.mem_map] at hi
    obtain ⟨k, hk, rfl⟩ := hi
    have := hc k hk
    cases k with
    | header n => exact ⟨by simp [SignatureComponent.toItem, IMap.NodupKeys], by simp [SignatureComponent.toItem, BareTidy], by simp [SignatureComponent.toItem]⟩
    | derived d =>
      obtain ⟨⟨cs, hcs⟩, hp⟩ := this
      exact ⟨hp.1, by simp [SignatureComponent.toItem, hcs, BareTidy], hp.2⟩
  refine ⟨keyOk_of_ser hk hl, ?_, hI.2⟩
  intro k hk'
  have hi : ItemOk k.toItem := hI.1 _ (by
    simp only [CanonicalizeConfig.toSignatureInput, SignatureInput.new, ComponentList.new, List.mem_map]
    exact ⟨k, hk', rfl⟩)
  have := hc k hk'
  cases k with
  | header n => trivial
  | derived d => exact ⟨this.1, hi⟩

theorem same_norm {c : CanonicalizeConfig} (hc : ∀ k ∈ c.components, ComponentRead k)
    (hp : ParamsOk c.params.params) : c.Same c.norm :=
  ⟨rfl, forall2_norm hc, paramsSame_norm hp.2⟩

theorem display_norm {c : CanonicalizeConfig} (hc : ∀ k ∈ c.components, ComponentRead k)
    (hp : ParamsOk c.params.params) : c.norm.toSignatureInput.display = c.toSignatureInput.display := by
  have e : c.norm.toSignatureInput.list.inner = normInner c.toSignatureInput.list.inner := by
    simp only [CanonicalizeConfig.norm, CanonicalizeConfig.toSignatureInput, SignatureInput.new, ComponentList.new, normInner,
      List.map_map]
    congr 1
    apply List.map_congr_left
    intro k _
    exact normComponent_toItem k
  unfold SignatureInput.display
  have e2 : c.norm.toSignatureInput.label = c.toSignatureInput.label := rfl
  have e3 : ∀ (k : Str) (l : InnerList), serDict (IMap.insert [] k (.innerList l)) = serMember k (.innerList l) := fun _ _ => rfl
  rw [e2, e, e3, e3]
  simp only [serMember, serInner_norm (innerOk_of_read hc hp)]

/-! ### Setter histories -/

/-- Parameter values a setter can store. -/
def SetterParams (ops : List CanonicalizeConfig.Op) (ps : Params) : Prop :=
  IMap.NodupKeys ps ∧ ∀ e ∈ ps, e.1 ≠ [] ∧ (∀ d, e.2 ≠ .decimal d) ∧ (e.2 = .token [] → .nonce [] ∈ ops)

theorem setterParams_insert {ops : List CanonicalizeConfig.Op} {ps : Params} {k : Str} {v : BareItem}
    (h : SetterParams ops ps) (hk : k ≠ []) (hv : ∀ d, v ≠ .decimal d) (ht : v = .token [] → .nonce [] ∈ ops) :
    SetterParams ops (IMap.insert ps k v) := by
  refine ⟨IMap.NodupKeys.insert h.1 _ _, ?_⟩
  intro e he
  rcases IMap.mem_insert he with rfl | he
  · exact ⟨hk, hv, ht⟩
  · exact h.2 e he

theorem run_snoc (ops : List CanonicalizeConfig.Op) (o : CanonicalizeConfig.Op) :
    CanonicalizeConfig.run (ops ++ [o]) = (CanonicalizeConfig.run ops).step o := by
  simp [CanonicalizeConfig.run]

theorem SetterParams.mono {a b : List CanonicalizeConfig.Op} {ps : Params} (hab : ∀ o ∈ a, o ∈ b) (h : SetterParams a ps) :
    SetterParams b ps := ⟨h.1, fun e he => ⟨(h.2 e he).1, (h.2 e he).2.1, fun ht => hab _ ((h.2 e he).2.2 ht)⟩⟩

theorem run_spec_aux (ops : List CanonicalizeConfig.Op) (c : CanonicalizeConfig) (pre : List CanonicalizeConfig.Op)
    (h1 : SetterParams pre c.params.params) (h2 : ∀ l, c.label = some l → .label l ∈ pre)
    (h3 : ∀ k ∈ c.components, ∃ l, .components l ∈ pre ∧ k ∈ l) :
    let r := ops.foldl CanonicalizeConfig.step c
    SetterParams (pre ++ ops) r.params.params ∧ (∀ l, r.label = some l → .label l ∈ pre ++ ops) ∧
      ∀ k ∈ r.components, ∃ l, .components l ∈ pre ++ ops ∧ k ∈ l := by
  induction ops generalizing c pre with
  | nil => simp only [List.append_nil, List.foldl_nil]; exact ⟨h1, h2, h3⟩
  | cons o ops ih =>
    have hsub : ∀ x ∈ pre, x ∈ pre ++ [o] := fun x hx => by simp [hx]
    have h1' := h1.mono hsub
    have h2' : ∀ l, c.label = some l → CanonicalizeConfig.Op.label l ∈ pre ++ [o] := fun l hl => hsub _ (h2 l hl)
    have h3' : ∀ k ∈ c.components, ∃ l, CanonicalizeConfig.Op.components l ∈ pre ++ [o] ∧ k ∈ l := fun k hk =>
      let ⟨l, hl, hkl⟩ := h3 k hk; ⟨l, hsub _ hl, hkl⟩
    rw [List.foldl_cons, show pre ++ o :: ops = (pre ++ [o]) ++ ops by simp]
    apply ih
    · cases o with
      | label l => exact h1'
      | components l => exact h1'
      | created t => exact setterParams_insert h1' (by simp [kCreated]) (by simp) (by simp)
      | expires t => exact setterParams_insert h1' (by simp [kExpires]) (by simp) (by simp)
      | alg a => exact setterParams_insert h1' (by simp [kAlg]) (by simp) (by simp)
      | nonce n => exact setterParams_insert h1' (by simp [kNonce]) (by simp) (by intro h; cases h; simp)
      | keyid k => exact setterParams_insert h1' (by simp [kKeyid]) (by simp) (by simp)
    · cases o with
      | label l => intro l' h; cases h; simp
      | _ => exact h2'
    · cases o with
      | components l => intro k hk; exact ⟨l, by simp, hk⟩
      | _ => exact h3'

/-- What is known of a configuration built by setters. -/
theorem run_spec (ops : List CanonicalizeConfig.Op) :
    SetterParams ops (CanonicalizeConfig.run ops).params.params ∧
      (∀ l, (CanonicalizeConfig.run ops).label = some l → .label l ∈ ops) ∧
      ∀ k ∈ (CanonicalizeConfig.run ops).components, ∃ l, .components l ∈ ops ∧ k ∈ l := by
  have := run_spec_aux ops {} [] ⟨by simp [IMap.NodupKeys], by simp⟩ (by simp) (by simp)
  simpa [CanonicalizeConfig.run] using this

theorem setterParams_tidy {ops : List CanonicalizeConfig.Op} {ps : Params} (h : SetterParams ops ps) (hn : .nonce [] ∉ ops) :
    ParamsTidy ps :=
  ⟨h.1, fun e he => ⟨(h.2 e he).1, fun ht => hn ((h.2 e he).2.2 ht), fun d hd => absurd hd ((h.2 e he).2.1 d)⟩⟩

theorem setterParams_norm {ops : List CanonicalizeConfig.Op} {ps : Params} (h : SetterParams ops ps) : normParams ps = ps := by
  apply normParams_of_clean
  intro e he
  have := (h.2 e he).2.1
  cases h2 : e.2 with
  | decimal d => exact absurd h2 (this d)
  | _ => rfl

end Httpsig
