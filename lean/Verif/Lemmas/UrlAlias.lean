import Verif.Lemmas.UrlParse
/-
Texts that mean the same path, query or fragment.
-/
namespace Httpsig
namespace UrlParser

/-- What `parsePath` splits. -/
def raw (p : Str) : List Str := (splitOn '/' (p.map fun c => if c = '\\' then '/' else c)).map (encode keepPath)

theorem splitOn_concat (a b : Str) : splitOn '/' (a ++ '/' :: b) = splitOn '/' a ++ splitOn '/' b := by
  induction a with
  | nil => rfl
  | cons c a ih =>
    rw [List.cons_append]
    by_cases hc : c = '/'
    · simp [splitOn, hc, ih]
    · simp only [splitOn, if_neg hc, ih]
      cases h : splitOn '/' a with
      | nil => exact absurd h (splitOn_ne_nil _ _)
      | cons p ps => rfl

theorem raw_concat {c : Char} (hc : Slash c) (a b : Str) : raw (a ++ c :: b) = raw a ++ raw b := by
  have : (if c = '\\' then '/' else c) = '/' := by rcases hc with rfl | rfl <;> rfl
  unfold raw
  rw [List.map_append, List.map_cons, this, splitOn_concat, List.map_append]

theorem raw_piece {s : Str} (h : ∀ c ∈ s, ¬ Slash c) : raw s = [encode keepPath s] := by
  unfold raw
  rw [(slashed h).1, splitOn_of_no_sep (slashed h).2]
  rfl

theorem raw_ne (s : Str) : raw s ≠ [] := by
  unfold raw
  simp [splitOn_ne_nil]

theorem raw_before {pre : Str} (h : BeforeSegment pre) : ∃ l, ∀ s, raw (pre ++ s) = l ++ raw s := by
  rcases h with rfl | ⟨a, c, rfl, hc⟩
  · exact ⟨[], fun s => rfl⟩
  · refine ⟨raw a, fun s => ?_⟩
    rw [List.append_assoc, List.singleton_append, raw_concat hc]

theorem pathIs_raw {E : Env} {c c' : Char} {p p' : Str} (hc : Slash c) (hc' : Slash c') (h : walk E.keeps [] (raw p) = walk E.keeps [] (raw p'))
    {path : Str} : PathIs E (c :: p) path ↔ PathIs E (c' :: p') path := by
  rw [pathIs_iff, pathIs_iff]
  have e : ∀ c (p : Str), parsePath E (c :: p) = (walk E.keeps [] (raw p)).reverse.flatMap ('/' :: ·) := fun _ _ => rfl
  rw [e, e, h]
  exact ⟨fun h => ⟨.inr ⟨_, _, rfl, hc'⟩, h.2⟩, fun h => ⟨.inr ⟨_, _, rfl, hc⟩, h.2⟩⟩

theorem encode_append (keep : Char → Bool) (a b : Str) : encode keep (a ++ b) = encode keep a ++ encode keep b := by
  unfold encode
  exact List.flatMap_append

theorem encode_keep {keep : Char → Bool} {s : Str} (h : ∀ c ∈ s, keep c = true) : encode keep s = s := by
  induction s with
  | nil => rfl
  | cons c s ih =>
    unfold encode at ih ⊢
    rw [List.flatMap_cons, if_pos (h c (by simp)), ih fun d hd => h d (by simp [hd])]
    rfl

theorem encode_mem {c d : Char} (h : d ∈ encode keepPath [c]) : d = c ∨ d ∈ str% "%0123456789ABCDEF" := by
  rcases encoded_mem ((encoded_iff keepPath_iff).2 (rfl : encode keepPath [c] = _)) h with h | h
  · exact .inl (List.mem_singleton.1 h.1)
  · exact .inr h

theorem raw_encode (p : Str) : raw p = splitOn '/' (encode keepPath (p.map fun c => if c = '\\' then '/' else c)) := by
  unfold raw
  generalize p.map (fun c => if c = '\\' then '/' else c) = s
  induction s with
  | nil => rfl
  | cons c s ih =>
    have e : encode keepPath (c :: s) = encode keepPath [c] ++ encode keepPath s := encode_append _ [c] s
    by_cases hc : c = '/'
    · subst hc
      rw [e, show encode keepPath ['/'] = ['/'] by decide +kernel, splitOn, if_pos rfl, List.singleton_append, splitOn, if_pos rfl,
        List.map_cons, ih]
      rfl
    · have hno : '/' ∉ encode keepPath [c] := by
        intro hm
        rcases encode_mem hm with h | h
        · exact hc h.symm
        · exact absurd h (by decide)
      rw [e, splitOn, if_neg hc]
      generalize encode keepPath s = es at ih
      generalize splitOn '/' s = l at ih
      have key : ∀ (x : Str), '/' ∉ x → ∀ y, splitOn '/' (x ++ y) = match splitOn '/' y with
          | [] => [x]
          | p :: ps => (x ++ p) :: ps := by
        intro x hx y
        induction x with
        | nil => cases h : splitOn '/' y with
          | nil => exact absurd h (splitOn_ne_nil _ _)
          | cons p ps => simp [h]
        | cons b x ih =>
          simp only [List.mem_cons, not_or] at hx
          rw [List.cons_append, splitOn, if_neg (Ne.symm hx.1), ih hx.2]
          cases splitOn '/' y <;> rfl
      rw [key _ hno, ← ih]
      cases l with
      | nil => rfl
      | cons p ps =>
        simp only [List.map_cons]
        congr 1
        exact encode_append _ [c] p

theorem raw_coded {a b : Str} {c : Char} (hc : ¬ Plain pathCodes c) {e : Str} (he : Encoded pathCodes [c] e) :
    raw (a ++ c :: b) = raw (a ++ e ++ b) := by
  have h1 : (if c = '\\' then '/' else c) = c := if_neg fun h => hc (by rw [h]; unfold Plain pathCodes; decide)
  have h2 : ∀ d ∈ e, d ∈ str% "%0123456789ABCDEF" := by
    intro d hd
    rcases encoded_mem he hd with ⟨h, h'⟩ | h
    · rw [List.mem_singleton.1 h] at h'
      exact absurd h' hc
    · exact h
  have h3 : e.map (fun c => if c = '\\' then '/' else c) = e :=
    (slashed fun d hd => (hex_plain d (h2 d hd)).2.2.2.2).1
  have h4 : encode keepPath e = e := encode_keep fun d hd => (keepPath_iff d).2 (hex_plain d (h2 d hd)).2.1
  rw [raw_encode, raw_encode]
  simp only [List.map_append, List.map_cons, h1, h3, encode_append, h4]
  rw [show encode keepPath (c :: b.map fun c => if c = '\\' then '/' else c) =
    encode keepPath [c] ++ encode keepPath (b.map fun c => if c = '\\' then '/' else c) from encode_append _ [c] _,
    (encoded_iff keepPath_iff).1 he, List.append_assoc]

end UrlParser
end Httpsig
