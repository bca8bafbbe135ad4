import Verif.Props.Exact
import Verif.Props.Order
import Verif.Lemmas.UrlRequest
/-
C100: exact form of C41.
-/
set_option linter.unusedSectionVars false
namespace Httpsig
open Sfv
variable [Deps]

/-- No parameter is a decimal. -/
def NoDecimals : SignatureComponent → Prop
  | .header _ => True
  | .derived d => ∀ e ∈ d.item.params, ∀ x, e.2 ≠ .decimal x

/-- What C96 asks of a component so that its text reads back. -/
def TextFaithful (k : SignatureComponent) : Prop := ComponentFaithful k ∧ ∀ h, k = .header h → h.str.head? ≠ some '"'

omit [Deps] in
theorem bareSame_eq {a b : BareItem} (h : BareItem.Same a b) (ha : ∀ x, a ≠ .decimal x) : a = b := by
  cases a with
  | decimal x => exact absurd rfl (ha x)
  | _ => exact h

omit [Deps] in
theorem paramsSame_eq {a b : Params} (h : ParamsSame a b) (ha : ∀ e ∈ a, ∀ x, e.2 ≠ .decimal x) : a = b := by
  unfold ParamsSame at h
  induction h with
  | nil => rfl
  | @cons p q ps qs h1 _ ih =>
    rw [ih fun e he => ha e (by simp [he])]
    congr 1
    exact Prod.ext h1.1 (bareSame_eq h1.2 (ha p (by simp)))

/-- C100. Comparing two components that can be printed and read back, without decimals among their parameters, gives `Equal` if and only
if they are the same, with the parameters in the same order. -/
theorem C100_compare_exact (a b : SignatureComponent) (x y : Str) (hx : a.display = .ok x) (hy : b.display = .ok y)
    (ha : TextFaithful a) (hb : TextFaithful b) (hna : NoDecimals a) : a.cmp b = .ok .eq ↔ a = b := by
  rw [(C41_total_order a b b x y y hx hy hy).2.2.1]
  constructor
  · rintro rfl
    obtain ⟨k, h1, h2⟩ := (C96_component_text_exact a x hx).2 ha
    obtain ⟨k', h3, h4⟩ := (C96_component_text_exact b x hy).2 hb
    rw [h1] at h3
    cases h3
    have h := h2.trans (componentSame_symm h4)
    cases a with
    | header n =>
      cases b with
      | header m => exact congrArg _ h
      | derived => exact h.elim
    | derived d =>
      cases b with
      | header => exact h.elim
      | derived e =>
        obtain ⟨⟨cs, hcs⟩, _⟩ := ha.1
        have e1 := bareSame_eq h.1 (by rw [hcs]; intro x hx; cases hx)
        have e2 := paramsSame_eq h.2 hna
        obtain ⟨⟨db, dp⟩⟩ := d
        obtain ⟨⟨eb, ep⟩⟩ := e
        cases e1
        cases e2
        rfl
  · rintro rfl
    rw [hx] at hy
    exact Except.ok.inj hy

omit [Deps] in
theorem perm_of_subset {α : Type} [DecidableEq α] : ∀ {a b : List α}, a.Nodup → a.length = b.length → (∀ e ∈ a, e ∈ b) → a.Perm b
  | [], [], _, _, _ => .nil
  | e :: a, b, hn, hl, hs => by
    have hb := List.perm_cons_erase (hs e (by simp))
    refine List.Perm.trans (List.Perm.cons e (perm_of_subset (List.nodup_cons.1 hn).2 ?_ ?_)) hb.symm
    · have := hb.length_eq
      simp only [List.length_cons] at this hl
      omega
    · intro f hf
      refine (List.mem_erase_of_ne ?_).2 (hs f (by simp [hf]))
      rintro rfl
      exact (List.nodup_cons.1 hn).1 hf

omit [Deps] in
theorem get_of_mem {ps : Params} (hn : IMap.NodupKeys ps) {k : Str} {v : BareItem} (h : (k, v) ∈ ps) : IMap.get ps k = some v := by
  induction ps with
  | nil => cases h
  | cons p ps ih =>
    obtain ⟨pk, pv⟩ := p
    have hn' := List.nodup_cons.1 hn
    rcases List.mem_cons.1 h with h | h
    · cases h; simp [IMap.get]
    · have : pk ≠ k := by
        rintro rfl
        exact hn'.1 (List.mem_map.2 ⟨_, h, rfl⟩)
      simp only [IMap.get, this, if_false]
      exact ih hn'.2 h

omit [Deps] in
theorem nodup_of_keys {ps : Params} (hn : IMap.NodupKeys ps) : ps.Nodup := by
  induction ps with
  | nil => exact List.nodup_nil
  | cons p ps ih =>
    have hn' := List.nodup_cons.1 hn
    exact List.nodup_cons.2 ⟨fun h => hn'.1 (List.mem_map.2 ⟨_, h, rfl⟩), ih hn'.2⟩

/-- C100. Two such components are equal (`==`) if and only if they are the same up to the order of their parameters. -/
theorem C100_equal_exact (a b : SignatureComponent) (ha : ComponentFaithful a) (hb : ComponentFaithful b) (hna : NoDecimals a) :
    a.rustEq b = true ↔ a = b ∨ ∃ d e, a = .derived d ∧ b = .derived e ∧ d.item.bare = e.item.bare ∧ d.item.params.Perm e.item.params := by
  cases a with
  | header n =>
    cases b with
    | header m => simp [SignatureComponent.rustEq]
    | derived e => simp [SignatureComponent.rustEq]
  | derived d =>
    cases b with
    | header m => simp [SignatureComponent.rustEq]
    | derived e =>
      obtain ⟨⟨cs, hcs⟩, hp⟩ := ha
      obtain ⟨-, hq⟩ := hb
      have key : (SignatureComponent.derived d).rustEq (.derived e) = true ↔
          d.item.bare = e.item.bare ∧ d.item.params.Perm e.item.params := by
        show (d.item.bare.rustEq e.item.bare && Params.rustEq d.item.params e.item.params) = true ↔ _
        rw [Bool.and_eq_true]
        constructor
        · rintro ⟨h1, h2⟩
          refine ⟨bareSame_eq (bareSame_of_rustEq h1) (by rw [hcs]; intro x hx; cases hx), ?_⟩
          simp only [Params.rustEq, Bool.and_eq_true, beq_iff_eq, List.all_eq_true] at h2
          refine perm_of_subset (nodup_of_keys hp.1) h2.1 fun f hf => ?_
          have h3 := h2.2 f hf
          cases hg : IMap.get e.item.params f.1 with
          | none => rw [hg] at h3; cases h3
          | some w =>
            rw [hg] at h3
            have : f.2 = w := bareSame_eq (bareSame_of_rustEq h3) (hna f hf)
            have hm := IMap.mem_of_get hg
            rw [← this] at hm
            exact hm
        · rintro ⟨h1, h2⟩
          refine ⟨bareRustEq_of_same (by rw [h1]; exact .refl _), ?_⟩
          simp only [Params.rustEq, Bool.and_eq_true, beq_iff_eq, List.all_eq_true]
          refine ⟨h2.length_eq, fun f hf => ?_⟩
          rw [get_of_mem hq.1 (k := f.1) (v := f.2) (h2.mem_iff.1 hf)]
          exact bareRustEq_of_same (.refl _)
      rw [key]
      constructor
      · exact fun h => .inr ⟨d, e, rfl, rfl, h⟩
      · rintro (h | ⟨_, _, h1, h2, h⟩)
        · cases h; exact ⟨rfl, .refl _⟩
        · cases h1; cases h2; exact h

/-- C100. So the order agrees with equality on a pair of components, unless they are the same with their parameters in another order. -/
theorem C100_agree_exact (a b : SignatureComponent) (x y : Str) (hx : a.display = .ok x) (hy : b.display = .ok y)
    (ha : TextFaithful a) (hb : TextFaithful b) (hna : NoDecimals a) :
    (a.cmp b = .ok .eq ↔ a.rustEq b = true) ↔
      ∀ d e, a = .derived d → b = .derived e → d.item.bare = e.item.bare → d.item.params.Perm e.item.params → d.item.params = e.item.params := by
  rw [C100_compare_exact a b x y hx hy ha hb hna, C100_equal_exact a b ha.1 hb.1 hna]
  constructor
  · intro h d e h1 h2 h3 h4
    have := h.2 (.inr ⟨d, e, h1, h2, h3, h4⟩)
    rw [h1, h2] at this
    cases this
    rfl
  · intro h
    refine ⟨.inl, ?_⟩
    rintro (h' | ⟨d, e, h1, h2, h3, h4⟩)
    · exact h'
    · have := h d e h1 h2 h3 h4
      rw [h1, h2]
      obtain ⟨⟨db, dp⟩⟩ := d
      obtain ⟨⟨eb, ep⟩⟩ := e
      cases h3
      cases this
      rfl

/-- C41 fails: the same parameters in another order make an equal component that does not compare `Equal`, so a set of components can
hold both. -/
theorem C41_neg_parameter_order (d e : DerivedComponent) (x y : Str) (hx : (SignatureComponent.derived d).display = .ok x)
    (hy : (SignatureComponent.derived e).display = .ok y) (hd : TextFaithful (.derived d)) (he : TextFaithful (.derived e))
    (hn : NoDecimals (.derived d)) (hb : d.item.bare = e.item.bare) (hp : d.item.params.Perm e.item.params)
    (hne : d.item.params ≠ e.item.params) :
    (SignatureComponent.derived d).rustEq (.derived e) = true ∧ (SignatureComponent.derived d).cmp (.derived e) ≠ .ok .eq := by
  refine ⟨(C100_equal_exact _ _ hd.1 he.1 hn).2 (.inr ⟨d, e, rfl, rfl, hb, hp⟩), fun h => hne ?_⟩
  cases (C100_compare_exact _ _ x y hx hy hd he hn).1 h
  rfl

example :
    let a := SignatureComponent.derived (((DerivedComponent.new (str% "@x")).withParam (str% "a") (str% "1")).withParam (str% "b") (str% "2"))
    let b := SignatureComponent.derived (((DerivedComponent.new (str% "@x")).withParam (str% "b") (str% "2")).withParam (str% "a") (str% "1"))
    a.rustEq b = true ∧ a.cmp b = .ok .lt := ⟨rfl, rfl⟩

/-- The hypotheses, for these two components, which differ in the order of their parameters. -/
example :
    let d := ((DerivedComponent.new (str% "@x")).withParam (str% "a") (str% "1")).withParam (str% "b") (str% "2")
    let e := ((DerivedComponent.new (str% "@x")).withParam (str% "b") (str% "2")).withParam (str% "a") (str% "1")
    (SignatureComponent.derived d).display = .ok (str% "\"@x\";a=\"1\";b=\"2\"") ∧
    (SignatureComponent.derived e).display = .ok (str% "\"@x\";b=\"2\";a=\"1\"") ∧ TextFaithful (.derived d) ∧
    NoDecimals (.derived d) ∧ d.item.params.Perm e.item.params ∧ d.item.params ≠ e.item.params := by
  refine ⟨rfl, rfl, ⟨⟨⟨str% "x", rfl⟩, ?_, ?_⟩, fun _ h => nomatch h⟩, ?_, List.Perm.swap _ _ _, ?_⟩
  · show List.Nodup [str% "a", str% "b"]
    decide
  · show ∀ e ∈ [(str% "a", BareItem.string (str% "1")), (str% "b", .string (str% "2"))], _
    simp [BareFaithful]
  · show ∀ e ∈ [(str% "a", BareItem.string (str% "1")), (str% "b", .string (str% "2"))], _
    simp
  · show [(str% "a", BareItem.string (str% "1")), (str% "b", .string (str% "2"))] ≠
      [(str% "b", BareItem.string (str% "2")), (str% "a", .string (str% "1"))]
    decide

/-- C100: decimals are excluded for a reason: equal decimals with a different number of digits print differently. -/
theorem C100_decimals_needed :
    let a : SignatureComponent := .derived (.ofItem { bare := .string (str% "@x"), params := [(str% "p", .decimal ⟨false, 15, 1⟩)] })
    let b : SignatureComponent := .derived (.ofItem { bare := .string (str% "@x"), params := [(str% "p", .decimal ⟨false, 150, 2⟩)] })
    a.rustEq b = true ∧ a.cmp b = .ok .lt ∧ a.display = .ok (str% "\"@x\";p=1.5") ∧ b.display = .ok (str% "\"@x\";p=1.50") :=
  ⟨rfl, rfl, rfl, rfl⟩

end Httpsig
