import Verif.Lemmas.QueryLength
import Verif.Props.TargetUri
/-
Size of the values of components.
-/
set_option linter.unusedSectionVars false
namespace Httpsig

/-- Bytes that a byte may become when decoded with replacement and encoded again. -/
def weight (b : UInt8) : Nat := if b.toNat < 128 then 1 else 3

def weights (b : Bytes) : Nat := (b.map weight).sum

theorem weights_append (a b : Bytes) : weights (a ++ b) = weights a + weights b := by simp [weights]

theorem length_le_weights (b : Bytes) : b.length ≤ weights b := by
  induction b with
  | nil => simp [weights]
  | cons x b ih =>
    simp only [weights, List.map_cons, List.sum_cons, List.length_cons] at *
    have : 1 ≤ weight x := by unfold weight; split <;> omega
    omega

theorem utf8_cons' (c : Char) (s : Str) : utf8 (c :: s) = String.utf8EncodeChar c ++ utf8 s := by simp [utf8]

theorem LossyText.utf8_length {b : Bytes} {s : Str} (h : LossyText b s) : (utf8 s).length ≤ weights b := by
  induction h with
  | nil => simp [utf8]
  | char c _ ih =>
    rw [utf8_cons', weights_append, List.length_append]
    have := length_le_weights (String.utf8EncodeChar c)
    omega
  | @replaced p rest s hno hp _ _ _ ih =>
    have h3 : (String.utf8EncodeChar '�').length = 3 := by decide
    rw [utf8_cons', weights_append, List.length_append, h3]
    cases p with
    | nil => exact absurd rfl hp
    | cons x p =>
      have hx : ¬ x.toNat < 128 := by
        intro hx
        refine hno (Char.ofNat x.toNat) ?_
        have : String.utf8EncodeChar (Char.ofNat x.toNat) = [x] := by
          have key : ∀ n < 128, String.utf8EncodeChar (Char.ofNat n) = [UInt8.ofNat n] := by decide
          rw [key _ hx]
          simp
        rw [this]
        exact ⟨p ++ rest, rfl⟩
      have : weights (x :: p) = 3 + weights p := by simp [weights, weight, hx]
      omega

theorem FormBytes.weights_le {b c : Bytes} (h : FormBytes b c) (ha : ∀ x ∈ b, x.toNat < 128) : weights c ≤ b.length := by
  have w3 : ∀ x, weight x ≤ 3 := fun x => by unfold weight; split <;> omega
  have w1 : ∀ x : UInt8, x.toNat < 128 → weight x = 1 := fun x h => by unfold weight; rw [if_pos h]
  induction h with
  | nil => simp [weights]
  | @plus b c _ ih =>
    have := ih fun x hx => ha x (by simp [hx])
    have : weights (32 :: c) = 1 + weights c := by simp [weights, weight]
    simp only [List.length_cons]; omega
  | @pct h l x y b c _ _ _ ih =>
    have := ih fun x hx => ha x (by simp [hx])
    have h3 := w3 (UInt8.ofNat (16 * x + y))
    have : weights (UInt8.ofNat (16 * x + y) :: c) = weight (UInt8.ofNat (16 * x + y)) + weights c := by simp [weights]
    simp only [List.length_cons]; omega
  | @bare b c _ _ ih =>
    have := ih fun x hx => ha x (by simp [hx])
    have : weights (37 :: c) = 1 + weights c := by simp [weights, weight]
    simp only [List.length_cons]; omega
  | @literal a b c _ _ _ ih =>
    have := ih fun x hx => ha x (by simp [hx])
    have h1 := w1 a (ha a (by simp))
    have : weights (a :: c) = weight a + weights c := by simp [weights]
    simp only [List.length_cons]; omega

theorem FormText.utf8_length {b : Bytes} {s : Str} (h : FormText b s) (ha : ∀ x ∈ b, x.toNat < 128) : (utf8 s).length ≤ b.length := by
  obtain ⟨c, hc, h⟩ := h
  exact Nat.le_trans h.utf8_length (hc.weights_le ha)

theorem FormPair.utf8_length {b : Bytes} {p : Str × Str} (h : FormPair b p) (ha : ∀ x ∈ b, x.toNat < 128) : (utf8 p.2).length ≤ b.length := by
  rcases h with ⟨n, v, rfl, _, _, h⟩ | ⟨_, _, h⟩
  · have := h.utf8_length fun x hx => ha x (by simp [hx])
    simp only [List.length_append, List.length_cons]
    omega
  · rw [h]; simp [utf8]

theorem joinLines_utf8 : ∀ (l : List Str), l = [] ∨ (utf8 (joinLines l)).length + 1 = pieces (l.map utf8)
  | [] => .inl rfl
  | [s] => by simp [joinLines, pieces]
  | s :: t :: rest => by
    right
    rcases joinLines_utf8 (t :: rest) with h | this
    · cases h
    · have e : ∀ x, utf8 ('\n' :: x) = 10 :: utf8 x := fun x => by simp [utf8, List.flatMap_cons]; rfl
      simp only [joinLines, pieces, utf8_append, e, List.length_append, List.length_cons, List.map_cons, List.sum_cons] at this ⊢
      omega

theorem selected_utf8 {name : Str} {ps : List (Str × Str)} {vs : List Str} (h : Selected name ps vs) :
    pieces (vs.map utf8) ≤ pieces (ps.map fun p => utf8 p.2) := by
  induction h with
  | nil => simp
  | take _ ih => simp only [pieces, List.map_cons, List.sum_cons] at ih ⊢; omega
  | skip _ _ ih => simp only [pieces, List.map_cons, List.sum_cons] at ih ⊢; omega

theorem formPairs_utf8 {segs : List Bytes} {ps : List (Str × Str)} (h : Forall2 FormPair segs ps) (ha : ∀ s ∈ segs, ∀ x ∈ s, x.toNat < 128) :
    pieces (ps.map fun p => utf8 p.2) ≤ pieces segs := by
  induction h with
  | nil => simp [pieces]
  | cons h1 _ ih =>
    have h2 := h1.utf8_length (ha _ (by simp))
    have h3 := ih fun s hs => ha s (by simp [hs])
    simp only [pieces, List.map_cons, List.sum_cons] at h3 ⊢
    omega

theorem mem_joinAmp {s : Bytes} {x : UInt8} (hx : x ∈ s) : ∀ {l : List Bytes}, s ∈ l → x ∈ joinAmp l
  | [t], h => by
    rw [List.mem_singleton.1 h] at hx
    exact hx
  | a :: b :: l, h => by
    rw [joinAmp]
    rcases List.mem_cons.1 h with rfl | h
    · simp [hx]
    · have := mem_joinAmp hx h
      simp [this]

theorem QueryIs.utf8_length {q : Bytes} {ps : List (Str × Str)} {name : Str} {vs : List Str} (h : QueryIs q ps)
    (hs : Selected name ps vs) (ha : ∀ x ∈ q, x.toNat < 128) : (utf8 (joinLines vs)).length ≤ q.length := by
  obtain ⟨segs, hne, rfl, _, h⟩ := h
  have h1 := joinAmp_length hne
  have h2 := selected_utf8 hs
  have h3 := formPairs_utf8 h fun s hs x hx => ha x (mem_joinAmp hx (List.mem_filter.1 hs).1)
  have h4 := filter_pieces (fun s : Bytes => !s.isEmpty) segs
  rcases joinLines_utf8 vs with rfl | h5
  · simp [joinLines, utf8]
  · omega

theorem utf8_ascii_bytes {s : Str} (h : ∀ c ∈ s, c.toNat ≤ 126) : ∀ x ∈ utf8 s, x.toNat < 128 := by
  intro x hx
  obtain ⟨c, hc, hx⟩ := List.mem_flatMap.1 hx
  have key : ∀ n < 127, ∀ x ∈ String.utf8EncodeChar (Char.ofNat n), x.toNat < 128 := by decide
  have := h c hc
  have := key c.toNat (by omega)
  rw [Char.ofNat_toNat] at this
  exact this x hx

theorem Url.parts_length (u : Url) : u.scheme.length ≤ u.asStr.length ∧ u.path.length ≤ u.asStr.length ∧
    (∀ q, u.query = some q → q.length + 1 ≤ u.asStr.length) ∧ ∀ h, u.host = some h → h.length ≤ u.asStr.length := by
  unfold Url.asStr UrlParts.text
  simp only [List.length_append, List.length_cons]
  refine ⟨by omega, by omega, ?_, ?_⟩
  · intro q hq
    rw [hq]
    simp only [markedText, List.length_cons]
    omega
  · intro h hh
    unfold Url.host at hh
    cases ha : u.authority with
    | none => rw [ha] at hh; cases hh
    | some a =>
      rw [ha] at hh
      simp only at hh
      split at hh
      · cases hh
      · cases hh
        have : a.host.length ≤ u.authorityText.length := by
          unfold UrlParts.authorityText
          rw [ha]
          simp only [Authority.text, List.length_append]
          omega
        omega

theorem Url.parts_ascii (u : Url) : (∀ c ∈ u.asStr, c.toNat ≤ 126) ∧ (∀ c ∈ u.scheme, c.toNat ≤ 126) ∧ (∀ c ∈ u.path, c.toNat ≤ 126) ∧
    (∀ q, u.query = some q → ∀ c ∈ q, c.toNat ≤ 126) ∧ ∀ h, u.host = some h → ∀ c ∈ h, c.toNat ≤ 126 := by
  have hg : ∀ {c}, UrlParts.graphic c = true → c.toNat ≤ 126 := by
    intro c h
    simp only [UrlParts.graphic, Bool.and_eq_true, decide_eq_true_eq] at h
    exact h.2
  have hpr : ∀ {c}, UrlParts.printable c = true → c.toNat ≤ 126 := by
    intro c h
    simp only [UrlParts.printable, Bool.and_eq_true, decide_eq_true_eq] at h
    exact h.2
  have hau : ∀ {c}, UrlParts.authorityChar c = true → c.toNat ≤ 126 := by
    intro c h
    simp only [UrlParts.authorityChar, Bool.and_eq_true] at h
    exact hg h.1.1.1.1.1
  have hs : ∀ c ∈ u.scheme, c.toNat ≤ 126 := by
    intro c hc
    have := List.all_eq_true.1 (UrlParts.valid_scheme u.ok).2 c hc
    simp only [UrlParts.schemeChar, Bool.or_eq_true, beq_iff_eq] at this
    revert this
    charcls
    omega
  have hp : ∀ c ∈ u.path, c.toNat ≤ 126 := by
    intro c hc
    have := List.all_eq_true.1 (UrlParts.valid_path u.ok) c hc
    simp only [UrlParts.pathChar, Bool.and_eq_true] at this
    exact hpr this.1.1
  have hq : ∀ q, u.query = some q → ∀ c ∈ q, c.toNat ≤ 126 := by
    intro q hq c hc
    have := List.all_eq_true.1 (UrlParts.valid_query u.ok hq) c hc
    simp only [UrlParts.queryChar, Bool.and_eq_true] at this
    exact hg this.1
  have hf : ∀ f, u.fragment = some f → ∀ c ∈ f, c.toNat ≤ 126 := fun f hf c hc => hpr (List.all_eq_true.1 (UrlParts.valid_fragment u.ok hf) c hc)
  refine ⟨?_, hs, hp, hq, ?_⟩
  · intro c hc
    unfold Url.asStr UrlParts.text at hc
    simp only [List.mem_append, List.mem_cons] at hc
    rcases hc with hc | rfl | ((hc | hc) | hc) | hc
    · exact hs c hc
    · decide
    · rcases UrlParts.authorityText_chars u.ok hc with h | h | h
      · exact hau h
      · subst h; decide
      · subst h; decide
    · exact hp c hc
    · cases h : u.query with
      | none => rw [h] at hc; simp [markedText] at hc
      | some q =>
        rw [h] at hc
        rcases List.mem_cons.1 hc with rfl | hc
        · decide
        · exact hq q h c hc
    · cases h : u.fragment with
      | none => rw [h] at hc; simp [markedText] at hc
      | some q =>
        rw [h] at hc
        rcases List.mem_cons.1 hc with rfl | hc
        · decide
        · exact hf q h c hc
  · intro h hh c hc
    unfold Url.host at hh
    cases ha : u.authority with
    | none => rw [ha] at hh; cases hh
    | some a =>
      rw [ha] at hh
      simp only at hh
      split at hh
      · cases hh
      · cases hh
        exact hau (UrlParts.host_chars (UrlParts.valid_some u.ok ha).1.2 hc)

theorem Method.utf8_length (m : Method) : (utf8 m.str).length = m.str.length :=
  utf8_length_ascii fun c hc => by
    have := m.ok
    simp only [Bool.and_eq_true] at this
    have := List.all_eq_true.1 this.2 c hc
    revert this
    simp only [Sfv.isTchar]
    charcls
    omega

variable [Deps]

/-- The value of a derived component is the method or at most as long as the URL. -/
theorem derive_size {d : DerivedComponent} {host : Option Str} {m : Method} {u : Url} {v : Str}
    (hh : host = none ∨ host = u.host) (h : d.derive host m u = .ok (some v)) : v = m.str ∨ (utf8 v).length ≤ u.asStr.length := by
  obtain ⟨l1, l2, l3, l4⟩ := u.parts_length
  obtain ⟨a0, a1, a2, a3, a4⟩ := u.parts_ascii
  obtain ⟨n, _, ht | ⟨_, _, _, _, _, hq, hs, rfl⟩⟩ := derive_ofUrl h
  · simp only [derivedTable, List.mem_cons, List.not_mem_nil, or_false, Prod.mk.injEq, Option.some.injEq] at ht
    rcases ht with ⟨-, rfl⟩ | ⟨-, rfl⟩ | ⟨-, rfl⟩ | ⟨-, rfl⟩ | ⟨-, rfl⟩ | ⟨-, ht⟩ | ⟨-, ht⟩
    · exact .inl rfl
    · exact .inr (by rw [utf8_length_ascii a0]; omega)
    · exact .inr (by rw [utf8_length_ascii a0]; omega)
    · exact .inr (by rw [utf8_length_ascii a1]; omega)
    · exact .inr (by rw [utf8_length_ascii a2]; omega)
    · right
      cases hq : u.query with
      | none => rw [hq] at ht; cases ht
      | some q =>
        rw [hq] at ht
        cases ht
        rw [utf8_length_ascii]
        · have := l3 q hq
          simpa using this
        · intro c hc
          rcases List.mem_cons.1 hc with rfl | hc
          · decide
          · exact a3 q hq c hc
    · right
      rcases hh with rfl | rfl
      · cases ht
      · rw [utf8_length_ascii (a4 v ht.symm)]
        exact l4 v ht.symm
  · right
    refine Nat.le_trans (hq.utf8_length hs ?_) ?_
    · apply utf8_ascii_bytes
      cases e : u.query with
      | none => simp
      | some q => exact a3 q e
    · rw [u.query_utf8_length]
      exact u.query_length_le

theorem toStr_size {v : HeaderValue} {s : Str} (h : v.toStr = some s) : (utf8 s).length = v.bytes.length := by
  unfold HeaderValue.toStr at h
  split at h
  · rename_i hv
    cases h
    rw [utf8_length_ascii]
    · simp
    · intro c hc
      obtain ⟨b, hb, rfl⟩ := List.mem_map.1 hc
      have hb := List.all_eq_true.1 hv b hb
      simp only [isVisibleByte, Bool.or_eq_true, Bool.and_eq_true, decide_eq_true_eq, beq_iff_eq] at hb
      have key : ∀ n < 128, (Char.ofNat n).toNat = n := by decide
      rw [key _ (by omega)]
      omega
  · cases h

end Httpsig
