import Verif.Spec.UrlRequest
import Verif.Lemmas.Query
import Verif.Lemmas.Url
/-
A decoded query is not longer than the query.
-/
set_option linter.unusedSectionVars false
namespace Httpsig

theorem FormBytes.length_le {b c : Bytes} (h : FormBytes b c) : c.length ≤ b.length := by
  induction h with
  | nil => simp
  | plus _ ih => simp; exact ih
  | pct _ _ _ ih => simp; omega
  | bare _ _ ih => simp; exact ih
  | literal _ _ _ ih => simp; exact ih

theorem utf8Lossy_length_le (b : Bytes) : (utf8Lossy b).length ≤ b.length := by
  fun_induction utf8Lossy b <;> simp only [List.length_cons, List.length_nil] at * <;> omega

theorem FormText.length_le {b : Bytes} {s : Str} (h : FormText b s) : s.length ≤ b.length := by
  obtain ⟨c, hc, h⟩ := h
  rw [lossyText_iff.1 h]
  exact Nat.le_trans (utf8Lossy_length_le c) hc.length_le

theorem FormPair.length_le {b : Bytes} {p : Str × Str} (h : FormPair b p) : p.2.length ≤ b.length := by
  rcases h with ⟨n, v, rfl, _, _, h⟩ | ⟨_, _, h⟩
  · have := h.length_le
    simp only [List.length_append, List.length_cons]
    omega
  · rw [h]; simp

/-- Lengths of pieces, each with one more for a separator. -/
def pieces {α : Type} (l : List (List α)) : Nat := (l.map fun s => s.length + 1).sum

theorem joinAmp_length : ∀ {l : List Bytes}, l ≠ [] → (joinAmp l).length + 1 = pieces l
  | [], h => absurd rfl h
  | [s], _ => by simp [joinAmp, pieces]
  | s :: t :: rest, _ => by
    have := joinAmp_length (l := t :: rest) (by simp)
    simp only [joinAmp, pieces, List.length_append, List.length_cons, List.map_cons, List.sum_cons] at this ⊢
    omega

theorem joinLines_length : ∀ (l : List Str), l = [] ∨ (joinLines l).length + 1 = pieces l
  | [] => .inl rfl
  | [s] => by simp [joinLines, pieces]
  | s :: t :: rest => by
    right
    rcases joinLines_length (t :: rest) with h | this
    · cases h
    · simp only [joinLines, pieces, List.length_append, List.length_cons, List.map_cons, List.sum_cons] at this ⊢
      omega

theorem selected_pieces {name : Str} {ps : List (Str × Str)} {vs : List Str} (h : Selected name ps vs) :
    pieces vs ≤ pieces (ps.map Prod.snd) := by
  induction h with
  | nil => simp
  | take _ ih => simp only [pieces, List.map_cons, List.sum_cons] at ih ⊢; omega
  | skip _ _ ih => simp only [pieces, List.map_cons, List.sum_cons] at ih ⊢; omega

theorem formPairs_pieces {segs : List Bytes} {ps : List (Str × Str)} (h : Forall2 FormPair segs ps) :
    pieces (ps.map Prod.snd) ≤ pieces segs := by
  induction h with
  | nil => simp [pieces]
  | cons h1 _ ih =>
    have := h1.length_le
    simp only [pieces, List.map_cons, List.sum_cons] at ih ⊢
    omega

theorem filter_pieces {α : Type} (p : List α → Bool) (l : List (List α)) : pieces (l.filter p) ≤ pieces l := by
  induction l with
  | nil => simp
  | cons s l ih =>
    rw [List.filter_cons]
    split
    · simp only [pieces, List.map_cons, List.sum_cons] at ih ⊢; omega
    · simp only [pieces, List.map_cons, List.sum_cons] at ih ⊢; omega

/-- The selected values, one per line, are not longer than the query. -/
theorem QueryIs.length_le {q : Bytes} {ps : List (Str × Str)} {name : Str} {vs : List Str} (h : QueryIs q ps)
    (hs : Selected name ps vs) : (joinLines vs).length ≤ q.length := by
  obtain ⟨segs, hne, rfl, _, h⟩ := h
  have h1 := joinAmp_length hne
  have h2 := selected_pieces hs
  have h3 := formPairs_pieces h
  have h4 := filter_pieces (fun s : Bytes => !s.isEmpty) segs
  rcases joinLines_length vs with rfl | h5
  · simp [joinLines]
  · omega

theorem utf8_length_ascii {s : Str} (h : ∀ c ∈ s, c.toNat ≤ 126) : (utf8 s).length = s.length := by
  induction s with
  | nil => rfl
  | cons c s ih =>
    have h1 : utf8 (c :: s) = String.utf8EncodeChar c ++ utf8 s := by simp [utf8, List.flatMap_cons]
    rw [h1, List.length_append, ih fun d hd => h d (by simp [hd]), String.length_utf8EncodeChar]
    have : c.utf8Size = 1 := by
      have := h c (by simp)
      unfold Char.utf8Size
      rw [if_pos]
      rw [UInt32.le_iff_toNat_le]
      show c.toNat ≤ 127
      omega
    simp [this]; omega

theorem Url.query_utf8_length (u : Url) : (utf8 (u.query.getD [])).length = (u.query.getD []).length := by
  apply utf8_length_ascii
  intro c hc
  cases hq : u.query with
  | none => rw [hq] at hc; simp at hc
  | some q =>
    rw [hq] at hc
    have := List.all_eq_true.1 (UrlParts.valid_query u.ok hq) c hc
    simp only [UrlParts.queryChar, UrlParts.graphic, Bool.and_eq_true, decide_eq_true_eq] at this
    exact this.1.2

theorem Url.query_length_le (u : Url) : (u.query.getD []).length ≤ u.asStr.length := by
  show _ ≤ u.toUrlParts.text.length
  unfold UrlParts.text
  simp only [List.length_append, List.length_cons]
  cases u.query with
  | none => simp
  | some q => simp [markedText]; omega

end Httpsig
