import Verif.Lemmas.Size
import Verif.Lemmas.Sign4
import Verif.Props.Base
import Verif.Props.Grammar
/-
Size of the signature base, and of the values of components.
-/
set_option linter.unusedSectionVars false
namespace Httpsig
open Grammar Sfv

theorem printable_utf8 {s : Str} (h : s.all isStringChar = true) : (utf8 s).length = s.length :=
  utf8_length_ascii fun c hc => by
    have := isStringChar_iff.1 (List.all_eq_true.1 h c hc)
    omega

theorem quoted_length (s : Str) : (quoted s).length = 2 + (s.map fun c => if c = '"' ∨ c = '\\' then 2 else 1).sum := by
  induction s with
  | nil => rfl
  | cons c s ih =>
    rw [quoted, List.flatMap_cons]
    rw [quoted] at ih
    simp only [List.length_append, List.length_cons, List.length_nil, List.map_cons, List.sum_cons] at ih ⊢
    split <;> simp only [List.length_cons, List.length_nil] <;> omega

theorem quoted_lowered (s : Str) : (quoted (lowered s)).length = (quoted s).length := by
  rw [quoted_length, quoted_length, lowered_eq, List.map_map]
  congr 2
  refine List.map_congr_left fun c _ => ?_
  show (if asciiLower c = '"' ∨ asciiLower c = '\\' then 2 else 1) = _
  have : (asciiLower c = '"' ∨ asciiLower c = '\\') ↔ (c = '"' ∨ c = '\\') := by
    by_cases h : c.toNat < 128
    · have key : ∀ n < 128, (asciiLower (Char.ofNat n) = '"' ∨ asciiLower (Char.ofNat n) = '\\') ↔ (Char.ofNat n = '"' ∨ Char.ofNat n = '\\') := by
        decide
      have := key _ h
      rwa [Char.ofNat_toNat] at this
    · have : asciiLower c = c := by
        unfold asciiLower
        rw [if_neg]
        intro hu
        simp only [Char.isUpper, decide_eq_true_eq, ge_iff_le, UInt32.le_iff_toNat_le] at hu
        exact h (Nat.lt_of_le_of_lt hu.2 (by decide))
      rw [this]
  simp only [this]

theorem length_le_quoted (s : Str) : s.length + 2 ≤ (quoted s).length := by
  rw [quoted_length]
  induction s with
  | nil => simp
  | cons c s ih =>
    simp only [List.map_cons, List.sum_cons, List.length_cons]
    split <;> omega

variable [Deps]

theorem component_size {s : Str} {i : Item} {c : SignatureComponent} (h : ItemText s i) (hc : ComponentText i c) :
    3 ≤ s.length ∧ (∀ id, Ident c id → 2 * id.length ≤ 3 * s.length ∧ id.all isStringChar = true) ∧
      ∀ id, ListIdent c id → 2 * id.length ≤ 3 * s.length ∧ id.all isStringChar = true := by
  cases hc with
  | @derived n ps =>
    refine ⟨?_, ?_, ?_⟩
    · cases h with
      | mk hb _ =>
        cases hb with
        | string hs =>
          have := quoted_chars hs
          have := length_le_quoted ('@' :: n)
          simp only [List.length_append, List.length_cons, List.length_nil] at *
          omega
    · intro id hid
      cases hid with
      | derived _ _ hw => exact ⟨item_size h hw, serItem_printable (serItem_iff.2 hw)⟩
    · intro id hid
      cases hid with
      | derived _ _ hw => exact ⟨item_size h hw, serItem_printable (serItem_iff.2 hw)⟩
  | @header n ps hn _ hnm =>
    cases h with
    | mk hb _ =>
      cases hb with
      | string hs =>
        have h1 := quoted_chars hs
        have h2 := quoted_lowered n
        have h3 := length_le_quoted (lowered n)
        have h4 : (lowered n).length = n.length := by rw [lowered_eq, List.length_map]
        have h5 : 0 < n.length := List.length_pos_iff.2 hnm.1.1
        have hp := hn.all_printable
        refine ⟨?_, ?_, ?_⟩
        · simp only [List.length_append, List.length_cons, List.length_nil] at *
          omega
        · intro id hid
          cases hid with
          | header _ =>
            rw [hnm.2] at hp ⊢
            refine ⟨?_, by simp [List.all_append, hp, isStringChar]⟩
            simp only [List.length_append, List.length_cons, List.length_nil] at *
            omega
        · intro id hid
          cases hid with
          | header _ =>
            refine ⟨?_, ?_⟩
            · rw [hnm.2]
              simp only [List.length_append, List.length_cons, List.length_nil] at *
              omega
            · exact serBare_printable (serBare_iff.2 (BareText.string fun c hc => isStringChar_iff.1 (List.all_eq_true.1 hp c hc)))

theorem components_size {M : Nat} {ss : List Str} {is : List Item} {cs : List SignatureComponent} {ids lids vals : List Str}
    (h1 : Forall2 ItemText ss is) (h2 : Forall2 ComponentText is cs) (h3 : Forall2 Ident cs ids) (h4 : Forall2 ListIdent cs lids)
    (h5 : vals.length = cs.length) (h6 : ∀ v ∈ vals, (utf8 v).length ≤ M) :
    4 * cs.length ≤ (ss.map fun s => s.length + 1).sum ∧
    2 * (utf8 (specLines ids vals)).length ≤ 2 * (cs.length * M) + 3 * cs.length + 3 * (ss.map fun s => s.length + 1).sum ∧
    2 * (lids.flatMap fun j => ' ' :: j).length + cs.length ≤ 3 * (ss.map fun s => s.length + 1).sum ∧
    (∀ l ∈ lids, l.all isStringChar = true) := by
  induction h1 generalizing cs ids lids vals with
  | nil =>
    cases h2
    cases h3
    cases h4
    simp [specLines, utf8]
  | cons hs _ ih =>
    cases h2 with
    | cons hc hcs =>
      cases h3 with
      | cons hi his =>
        cases h4 with
        | cons hl hls =>
          cases vals with
          | nil => simp at h5
          | cons v vals =>
            obtain ⟨g1, g2, g3, g4⟩ := ih hcs his hls (by simpa using h5) fun w hw => h6 w (by simp [hw])
            obtain ⟨k1, k2, k3⟩ := component_size hs hc
            obtain ⟨k2, k2'⟩ := k2 _ hi
            obtain ⟨k3, k3'⟩ := k3 _ hl
            have hv := h6 v (by simp)
            refine ⟨?_, ?_, ?_, ?_⟩
            · simp only [List.length_cons, List.map_cons, List.sum_cons]; omega
            · have e : ∀ x, utf8 (':' :: ' ' :: x) = 58 :: 32 :: utf8 x := fun x => by simp [utf8, List.flatMap_cons]; rfl
              have e' : ∀ x, utf8 ('\n' :: x) = 10 :: utf8 x := fun x => by simp [utf8, List.flatMap_cons]; rfl
              simp only [specLines, List.append_assoc, List.cons_append, utf8_append, e, e', List.length_append, List.length_cons, printable_utf8 k2',
                List.map_cons, List.sum_cons, Nat.succ_mul]
              omega
            · simp only [List.flatMap_cons, List.length_append, List.length_cons, List.map_cons, List.sum_cons]
              omega
            · intro l hm
              rcases List.mem_cons.1 hm with rfl | hm
              · exact k3'
              · exact g4 l hm

/-- The bound, given a bound for the values. -/
theorem base_size {R : Type} [RequestLike R] {M : Nat} {v : Str} {c : CanonicalizeConfig} {req : R} {base : Bytes} {si : SignatureInput}
    (h : CanonicalizeConfig.fromSignatureInput v = .ok (.ok c)) (hc : canonicalize req c = .ok (.ok (base, si)))
    (hM : ∀ k ∈ c.components, ∀ x, RequestLike.derive req k = .ok (some x) → (utf8 x).length ≤ M) :
    4 * c.components.length + 3 ≤ v.length ∧ base.length ≤ c.components.length * M + 4 * v.length + 7 := by
  obtain ⟨d, label, l, hd, hh, _, hcs, hp⟩ := (C72_accepted _ _).1 h
  obtain ⟨vals, ids, lids, ps, hv, hi, hl, hps, rfl, _⟩ := (C03_base_layout _ _ _ _).1 hc
  obtain ⟨t, ht, hlen⟩ := dict_size hd hh
  obtain ⟨ss, p, qs, h1, h2, h3, h4, h5⟩ := inner_size ht
  rw [hp, h3] at hps
  have hpsz := params_size h2 hps
  have hpp := printable_utf8 (serParams_printable (serParams_iff.2 hps))
  have hvl : vals.length = c.components.length := by
    have := congrArg List.length hv
    simpa using this.symm
  have hvM : ∀ x ∈ vals, (utf8 x).length ≤ M := by
    intro x hx
    have : (Except.ok (some x) : P (Option Str)) ∈ c.components.map fun k => RequestLike.derive req k := by
      rw [hv]; exact List.mem_map.2 ⟨x, hx, rfl⟩
    obtain ⟨k, hk, e⟩ := List.mem_map.1 this
    exact hM k hk x e
  obtain ⟨g1, g2, g3, g4⟩ := components_size h1 hcs hi hl hvl hvM
  have hlp := printable_utf8 (specListText_printable g4)
  have e21 : (utf8 (str% "\"@signature-params\": ")).length = 21 := rfl
  refine ⟨?_, ?_⟩
  · cases hn : c.components.length with
    | zero => omega
    | succ n => omega
  · unfold specBase
    rw [utf8_append, utf8_append, utf8_append]
    simp only [List.length_append]
    rw [hpp, hlp, e21]
    have hll := hl.length_eq
    cases lids with
    | nil =>
      simp only [specListText, List.length_cons, List.length_nil] at *
      rw [hll] at hvl ⊢
      have hv0 : vals = [] := List.length_eq_zero_iff.1 hvl
      have e0 : specLines ids vals = [] := by rw [hv0]; cases ids <;> rfl
      rw [e0]
      simp only [utf8, List.flatMap_nil, List.length_nil] at *
      omega
    | cons b bs =>
      simp only [specListText, List.length_append, List.length_cons, List.length_nil, List.flatMap_cons] at *
      omega

end Httpsig
