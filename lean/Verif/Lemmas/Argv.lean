import Verif.Spec.Argv
import Verif.Lemmas.Render
/- Reading of command lines (C134). -/
namespace Httpsig

theorem ofShort_iff {c : Char} {o : OptName} : OptName.ofShort c = some o ↔ c = o.letter := by
  constructor
  · intro h
    unfold OptName.ofShort at h
    split at h <;> cases h <;> rfl
  · rintro rfl
    cases o <;> rfl

theorem ofLong_iff {w : Str} {o : OptName} : OptName.ofLong w = some o ↔ w = o.word := by
  constructor
  · intro h
    unfold OptName.ofLong at h
    repeat' split at h
    all_goals first | (cases h; done) | (cases h; assumption)
  · rintro rfl
    cases o <;> rfl

theorem ofWord_iff {w : Str} {m : Mode} : Mode.ofWord w = some m ↔ w = m.word := by
  constructor
  · intro h
    unfold Mode.ofWord at h
    repeat' split at h
    all_goals first | (cases h; done) | (cases h; assumption)
  · rintro rfl
    cases m <;> rfl

theorem word_no_eq (o : OptName) : ∀ c ∈ o.word, (c ≠ '=') := by cases o <;> decide

theorem letter_ne (o : OptName) : o.letter ≠ '-' := by cases o <;> decide

theorem span_no {p : Char → Bool} : ∀ (a b : Str), (∀ c ∈ a, p c = true) → (∀ c, b.head? = some c → p c = false) →
    (a ++ b).takeWhile p = a ∧ (a ++ b).dropWhile p = b := by
  intro a b ha hb
  rw [List.takeWhile_append_of_pos ha, List.dropWhile_append_of_pos ha]
  cases b with
  | nil => simp
  | cons x b => simp [hb x rfl]

theorem span_parts (w : Str) (p : Char → Bool) : ∃ a b, w = a ++ b ∧ (w.takeWhile p = a ∧ w.dropWhile p = b) ∧ (∀ c ∈ a, p c = true) ∧
    ∀ c, b.head? = some c → p c = false := by
  refine ⟨w.takeWhile p, w.dropWhile p, List.takeWhile_append_dropWhile.symm, ⟨rfl, rfl⟩, ?_, ?_⟩
  · intro c hc
    exact List.all_eq_true.1 (List.all_takeWhile (l := w) (p := p)) c hc
  · intro c hc
    have := List.head?_dropWhile_not p w
    rw [hc] at this
    simpa using this

/-- Words that name an option. -/
theorem optWord_iff {w : Str} {o : OptName} {x : Option Str} : optWord w = some (o, x) ↔
    x = none ∧ (w = ['-', o.letter] ∨ w = '-' :: '-' :: o.word) ∨
    ∃ c v, x = some (c :: v) ∧ c ≠ '=' ∧ w = '-' :: '-' :: o.word ++ '=' :: c :: v := by
  constructor
  · intro h
    unfold optWord at h
    split at h
    · rename_i w
      obtain ⟨a, b, hw, ⟨hs, hd⟩, ha, hb⟩ := span_parts w (fun c => decide (c ≠ '='))
      rw [hs, hd] at h
      subst hw
      cases b with
      | nil =>
        simp only [Option.map_eq_some_iff, Prod.mk.injEq] at h
        obtain ⟨o', h1, rfl, rfl⟩ := h
        exact .inl ⟨rfl, .inr (by rw [ofLong_iff.1 h1])⟩
      | cons y v =>
        have hy : y = '=' := by simpa using hb y rfl
        subst hy
        simp only at h
        split at h
        · cases h
        rename_i hv
        simp only [Option.map_eq_some_iff, Prod.mk.injEq] at h
        obtain ⟨o', h1, rfl, rfl⟩ := h
        cases v with
        | nil => exact absurd (.inl rfl) hv
        | cons c v =>
          refine .inr ⟨c, v, rfl, fun hc => hv (.inr (by rw [hc]; rfl)), ?_⟩
          rw [ofLong_iff.1 h1]; rfl
    · simp only [Option.map_eq_some_iff, Prod.mk.injEq] at h
      obtain ⟨o', h1, rfl, rfl⟩ := h
      exact .inl ⟨rfl, .inl (by rw [ofShort_iff.1 h1])⟩
    · cases h
  · rintro (⟨rfl, rfl | rfl⟩ | ⟨c, v, rfl, hc, rfl⟩)
    · cases o <;> rfl
    · cases o <;> rfl
    · obtain ⟨h1, h2⟩ := span_no (p := fun c => decide (c ≠ '=')) o.word ('=' :: c :: v)
        (fun c hc => by simpa using word_no_eq o c hc) (fun c hc => by cases hc; rfl)
      rw [List.cons_append, List.cons_append, optWord, h1, h2]
      simp only [List.head?_cons, Option.some.injEq, reduceCtorEq, false_or, hc, if_false, ofLong_iff.2 rfl, Option.map_some]

theorem valueWord_iff {w : Str} : isValueWord w = true ↔ ∃ c v, w = c :: v ∧ c ≠ '-' := by
  cases w <;> simp [isValueWord]

/-- A word that gives an option is no value. -/
theorem spelled_start {u : OptName × Option Str} {g : List Str} (h : Spelled u g) : ∃ w ws, g = w :: ws ∧ isValueWord w = false := by
  cases h <;> exact ⟨_, _, rfl, rfl⟩

theorem readOptions_iff {ws : List Str} {us : List (OptName × Option Str)} :
    readOptions ws = some us ↔ ∃ groups, Forall2 Spelled us groups ∧ ws = groups.flatten := by
  constructor
  · intro h
    induction ws using readOptions.induct generalizing us with
    | case1 => cases h; exact ⟨[], .nil, rfl⟩
    | case2 w =>
      rename_i o v hw
      simp only [readOptions, hw] at h
      cases h
      rcases optWord_iff.1 hw with ⟨h1, _⟩ | ⟨c, v, h1, hc, rfl⟩ <;> cases h1
      exact ⟨[_], .cons (.equals hc) .nil, by simp⟩
    | case3 w hw =>
      simp only [readOptions, hw] at h
      cases h
      rcases optWord_iff.1 hw with ⟨_, h1⟩ | ⟨c, v, h1, _⟩
      · rcases h1 with rfl | rfl
        · exact ⟨[_], .cons .bareLetter .nil, rfl⟩
        · exact ⟨[_], .cons .bareWord .nil, rfl⟩
      · cases h1
    | case4 w hw1 hw2 =>
      simp only [readOptions] at h
      cases h
    | case5 w v ws o x hw ih =>
      simp only [readOptions, hw, Option.map_eq_some_iff] at h
      obtain ⟨us, h1, rfl⟩ := h
      obtain ⟨gs, h2, h3⟩ := ih h1
      rcases optWord_iff.1 hw with ⟨h1, _⟩ | ⟨c, v, h1, hc, rfl⟩ <;> cases h1
      exact ⟨_ :: gs, .cons (.equals hc) h2, by rw [h3]; rfl⟩
    | case6 w v ws o hw hv ih =>
      simp only [readOptions, hw, hv, if_true, Option.map_eq_some_iff] at h
      obtain ⟨us, h1, rfl⟩ := h
      obtain ⟨gs, h2, h3⟩ := ih h1
      obtain ⟨c, v, rfl, hc⟩ := valueWord_iff.1 hv
      rcases optWord_iff.1 hw with ⟨_, h1⟩ | ⟨c, v, h1, _⟩
      · rcases h1 with rfl | rfl
        · exact ⟨_ :: gs, .cons (.letter hc) h2, by rw [h3]; rfl⟩
        · exact ⟨_ :: gs, .cons (.word hc) h2, by rw [h3]; rfl⟩
      · cases h1
    | case7 w v ws hv hw ih =>
      simp only [readOptions, hw, hv, if_false, if_true, Option.map_eq_some_iff, Bool.false_eq_true] at h
      obtain ⟨us, h1, rfl⟩ := h
      obtain ⟨gs, h2, h3⟩ := ih h1
      rcases optWord_iff.1 hw with ⟨_, h1⟩ | ⟨c, v, h1, _⟩
      · rcases h1 with rfl | rfl
        · exact ⟨_ :: gs, .cons .bareLetter h2, by rw [h3]; rfl⟩
        · exact ⟨_ :: gs, .cons .bareWord h2, by rw [h3]; rfl⟩
      · cases h1
    | case8 w v ws o hw hv ho =>
      simp only [readOptions, hw, hv, ho, if_false, Bool.false_eq_true] at h
      cases h
    | case9 w v ws hw =>
      simp only [readOptions, hw] at h
      cases h
  · rintro ⟨groups, h, rfl⟩
    induction h with
    | nil => rfl
    | @cons u g us gs hu hgs ih =>
      rw [List.flatten_cons]
      have hnext : gs.flatten = [] ∧ us = [] ∨ ∃ w ws, gs.flatten = w :: ws ∧ isValueWord w = false := by
        cases hgs with
        | nil => exact .inl ⟨rfl, rfl⟩
        | cons h1 h2 =>
          obtain ⟨w, ws, rfl, hw⟩ := spelled_start h1
          exact .inr ⟨w, ws ++ _, rfl, hw⟩
      have value : ∀ w o c v, c ≠ '-' → optWord w = some (o, none) →
          readOptions (w :: (c :: v) :: gs.flatten) = some ((o, some (c :: v)) :: us) := by
        intro w o c v hc hw
        rw [readOptions, hw]
        simp only [valueWord_iff.2 ⟨c, v, rfl, hc⟩, if_true, ih, Option.map_some]
      have bare : ∀ w, optWord w = some (.headers, none) → readOptions (w :: gs.flatten) = some ((.headers, none) :: us) := by
        intro w hw
        rcases hnext with ⟨h1, rfl⟩ | ⟨x, ws, h1, hx⟩
        · rw [h1, readOptions, hw]
        · rw [h1] at ih ⊢
          rw [readOptions, hw]
          simp only [hx, if_true, Bool.false_eq_true, if_false, ih, Option.map_some]
      cases hu with
      | letter hc => exact value _ _ _ _ hc (optWord_iff.2 (.inl ⟨rfl, .inl rfl⟩))
      | word hc => exact value _ _ _ _ hc (optWord_iff.2 (.inl ⟨rfl, .inr rfl⟩))
      | @equals o c v hc =>
        have hw := optWord_iff.2 (.inr ⟨c, v, rfl, hc, rfl⟩ : _ ∨ ∃ c' v', some (c :: v) = some (c' :: v') ∧ c' ≠ '=' ∧
          ('-' :: '-' :: o.word ++ '=' :: c :: v) = '-' :: '-' :: o.word ++ '=' :: c' :: v')
        rcases hnext with ⟨h1, rfl⟩ | ⟨x, ws, h1, hx⟩
        · rw [h1, List.append_nil, readOptions, hw]
        · rw [h1] at ih ⊢
          rw [List.singleton_append, readOptions, hw]
          simp only [ih, Option.map_some]
      | bareLetter => exact bare _ rfl
      | bareWord => exact bare _ rfl


theorem number_plain {ds : Str} {i : Int} {neg : Bool} :
    (if ds = [] ∨ ds.any (!·.isDigit) = true then none
     else if (if neg then -(Sfv.digitsVal ds : Int) else Sfv.digitsVal ds) < i64Min ∨
        i64Max < (if neg then -(Sfv.digitsVal ds : Int) else Sfv.digitsVal ds) then none
      else some (if neg then -(Sfv.digitsVal ds : Int) else (Sfv.digitsVal ds : Int))) = some i ↔
    -2 ^ 63 ≤ i ∧ i < 2 ^ 63 ∧ ds ≠ [] ∧ ∃ n, Grammar.Digits ds n ∧ i = if neg then -(n : Int) else n := by
  have hany : ds.any (!·.isDigit) = true ↔ ¬ ∀ c ∈ ds, c.isDigit = true := by
    simp [List.any_eq_true]
  by_cases h1 : ds = []
  · simp [h1]
  by_cases h2 : ∀ c ∈ ds, c.isDigit = true
  · rw [if_neg (by rw [hany]; simp [h1]; exact h2)]
    have hd : ∀ n, Grammar.Digits ds n ↔ n = Sfv.digitsVal ds := fun n => by
      rw [Grammar.digits_iff]
      exact ⟨fun h => h.2.symm, fun h => ⟨h2, h.symm⟩⟩
    simp only [hd, exists_eq_left, h1, ne_eq, not_false_eq_true, true_and]
    generalize (if neg = true then -(Sfv.digitsVal ds : Int) else Sfv.digitsVal ds) = k
    by_cases hk : k < i64Min ∨ i64Max < k
    · rw [if_pos hk]
      constructor
      · intro h; cases h
      · rintro ⟨h3, h4, rfl⟩; unfold i64Min i64Max at hk; omega
    · rw [if_neg hk, Option.some.injEq]
      constructor
      · rintro rfl; unfold i64Min i64Max at hk; omega
      · rintro ⟨_, _, rfl⟩; rfl
  · rw [if_pos (.inr (hany.2 h2))]
    constructor
    · intro h; cases h
    · rintro ⟨_, _, _, n, hn, _⟩
      exact absurd ((Grammar.digits_iff _ _).1 hn).1 h2

theorem digit_head {ds : Str} {n : Nat} {c : Char} (h : Grammar.Digits (c :: ds) n) : c ≠ '-' ∧ c ≠ '+' := by
  have := ((Grammar.digits_iff _ _).1 h).1 c List.mem_cons_self
  constructor <;> rintro rfl <;> cases this

/-- `i64::from_str`. -/
theorem parseI64_iff {s : Str} {i : Int} : parseI64 s = some i ↔ NumberText s i := by
  unfold parseI64 NumberText
  have key : ∀ (neg : Bool) ds, (s = (if neg then '-' :: ds else ds) ∨ neg = false ∧ s = '+' :: ds) →
      (∀ ds' n', ds' ≠ [] → Grammar.Digits ds' n' → ((s = ds' ∨ s = '+' :: ds') ∧ i = n' ∨ s = '-' :: ds' ∧ i = -n') →
        ds' = ds ∧ i = if neg then -(n' : Int) else n') →
      ((-2 ^ 63 ≤ i ∧ i < 2 ^ 63 ∧ ds ≠ [] ∧ ∃ n, Grammar.Digits ds n ∧ i = if neg then -(n : Int) else n) ↔
      -2 ^ 63 ≤ i ∧ i < 2 ^ 63 ∧ ∃ ds n, ds ≠ [] ∧ Grammar.Digits ds n ∧
        ((s = ds ∨ s = '+' :: ds) ∧ i = n ∨ s = '-' :: ds ∧ i = -n)) := by
    intro neg ds hs hun
    constructor
    · rintro ⟨h1, h2, h3, n, h4, h5⟩
      refine ⟨h1, h2, ds, n, h3, h4, ?_⟩
      cases neg with
      | true =>
        rcases hs with hs | ⟨h, _⟩
        · exact .inr ⟨hs, h5⟩
        · cases h
      | false =>
        rcases hs with hs | ⟨_, hs⟩
        · exact .inl ⟨.inl hs, h5⟩
        · exact .inl ⟨.inr hs, h5⟩
    · rintro ⟨h1, h2, ds', n, h3, h4, h5⟩
      obtain ⟨rfl, h6⟩ := hun ds' n h3 h4 h5
      exact ⟨h1, h2, h3, n, h4, h6⟩
  split
  · rename_i neg ds hm
    split at hm <;> cases hm
    · rename_i ds
      refine number_plain.trans (key true _ (.inl rfl) ?_)
      rintro ds' n' h1 h2 (⟨h3 | h3, _⟩ | ⟨h3, h4⟩)
      · subst h3; exact absurd rfl (digit_head h2).1
      · cases h3
      · cases h3; exact ⟨rfl, h4⟩
    · rename_i ds
      refine number_plain.trans (key false _ (.inr ⟨rfl, rfl⟩) ?_)
      rintro ds' n' h1 h2 (⟨h3 | h3, h4⟩ | ⟨h3, _⟩)
      · subst h3; exact absurd rfl (digit_head h2).2
      · cases h3; exact ⟨rfl, h4⟩
      · cases h3
    · rename_i hm1 hm2
      refine number_plain.trans (key false _ (.inl rfl) ?_)
      rintro ds' n' h1 h2 (⟨h3 | h3, h4⟩ | ⟨h3, _⟩)
      · exact ⟨h3.symm, h4⟩
      · exact absurd h3 (hm2 _)
      · exact absurd h3 (hm1 _)

theorem number_unique {s : Str} {i j : Int} (h1 : NumberText s i) (h2 : NumberText s j) : i = j := by
  have := (parseI64_iff.2 h1).symm.trans (parseI64_iff.2 h2)
  exact Option.some.inj this

theorem lookup_iff {us : List (OptName × Option Str)} (h : us.Pairwise fun u w => u.1 ≠ w.1) {o : OptName} {v : Option Str} :
    us.lookup o = some v ↔ (o, v) ∈ us := by
  induction h with
  | nil => simp
  | @cons u us hu _ ih =>
    obtain ⟨o', v'⟩ := u
    rw [List.lookup_cons, List.mem_cons]
    by_cases ho : o = o'
    · subst ho
      simp only [beq_self_eq_true, Option.some.injEq, Prod.mk.injEq, true_and]
      constructor
      · rintro rfl; exact .inl rfl
      · rintro (rfl | h)
        · rfl
        · exact absurd rfl (hu (o, v) h)
    · rw [beq_false_of_ne ho]
      simp only [ih, Prod.mk.injEq, ho, false_and, false_or]

theorem givenText_iff {us : List (OptName × Option Str)} (h : us.Pairwise fun u w => u.1 ≠ w.1) {o : OptName} {v : Str} :
    givenText us o = some v ↔ (o, some v) ∈ us := by
  rw [← lookup_iff h, givenText]
  cases us.lookup o <;> simp

theorem givenNumber_iff {us : List (OptName × Option Str)} (h : us.Pairwise fun u w => u.1 ≠ w.1) {o : OptName} {x : Option Int} :
    givenNumber us o = some x ↔ (∀ i, x = some i ↔ ∃ v, (o, some v) ∈ us ∧ NumberText v i) ∧
      ∀ v, (o, some v) ∈ us → ∃ i, NumberText v i := by
  unfold givenNumber
  cases h1 : givenText us o with
  | none =>
    have hno : ∀ v, (o, some v) ∉ us := fun v hv => by
      rw [(givenText_iff h).2 hv] at h1; cases h1
    simp only [Option.some.injEq, hno, false_and, exists_false, iff_false, false_implies, implies_true, and_true]
    constructor
    · rintro rfl i h; cases h
    · intro h; cases x with
      | none => rfl
      | some i => exact absurd rfl (h i)
  | some v =>
    have hv := (givenText_iff h).1 h1
    have huniq : ∀ w, (o, some w) ∈ us → w = v := fun w hw => by
      rw [(givenText_iff h).2 hw] at h1; cases h1; rfl
    simp only [Option.map_eq_some_iff, parseI64_iff]
    constructor
    · rintro ⟨i, hi, rfl⟩
      refine ⟨fun j => ⟨fun e => ⟨v, hv, by cases e; exact hi⟩, ?_⟩, fun w hw => ⟨i, by rw [huniq w hw]; exact hi⟩⟩
      rintro ⟨w, hw, hj⟩
      rw [huniq w hw] at hj
      rw [number_unique hi hj]
    · rintro ⟨h2, h3⟩
      obtain ⟨i, hi⟩ := h3 v hv
      exact ⟨i, hi, ((h2 i).2 ⟨v, hv, hi⟩).symm⟩

theorem nodup_keys {us : List (OptName × Option Str)} : (us.map (·.1)).Nodup ↔ us.Pairwise fun u w => u.1 ≠ w.1 := by
  rw [List.Nodup, List.pairwise_map]

theorem option_ext {α : Type} {x y : Option α} (h : ∀ v, x = some v ↔ y = some v) : x = y := by
  cases x with
  | none => cases y with
    | none => rfl
    | some v => exact (h v).2 rfl
  | some v => exact ((h v).1 rfl).symm

/-- `Opt::from_args`. -/
theorem ofArgv_iff {argv : List Str} {a : Args} :
    Args.ofArgv argv = some a ↔ ∃ m us, CommandLine argv m us ∧ Means m us a := by
  constructor
  · intro h
    cases argv with
    | nil => cases h
    | cons w ws =>
      simp only [Args.ofArgv, Option.bind_eq_bind, Option.bind_eq_some_iff] at h
      obtain ⟨m, hm, us, hus, h⟩ := h
      split at h
      · rename_i hn
        rw [nodup_keys] at hn
        simp only [Option.bind_eq_some_iff] at h
        obtain ⟨c, hc, e, he, h⟩ := h
        obtain ⟨gs, h1, rfl⟩ := readOptions_iff.1 hus
        cases h
        exact ⟨m, us, ⟨gs, h1, by rw [ofWord_iff.1 hm]⟩, ⟨hn, rfl, fun v => givenText_iff hn, fun v => lookup_iff hn,
          fun v => givenText_iff hn, fun v => givenText_iff hn, fun v => givenText_iff hn, fun v => givenText_iff hn,
          fun v => givenText_iff hn, fun v => givenText_iff hn, (givenNumber_iff hn).1 hc, (givenNumber_iff hn).1 he⟩⟩
      · cases h
  · rintro ⟨m, us, ⟨gs, h1, rfl⟩, hm⟩
    have hn := hm.once
    simp only [Args.ofArgv, ofWord_iff.2 rfl, readOptions_iff.2 ⟨gs, h1, rfl⟩, Option.bind_eq_bind, Option.bind_some,
      if_pos (nodup_keys.2 hn), (givenNumber_iff hn).2 hm.created, (givenNumber_iff hn).2 hm.expires, Option.some.injEq]
    cases a
    simp only [Args.mk.injEq]
    exact ⟨hm.mode.symm, option_ext fun v => (givenText_iff hn).trans (hm.inFile v).symm,
      option_ext fun v => (lookup_iff hn).trans (hm.headers v).symm,
      option_ext fun v => (givenText_iff hn).trans (hm.keyId v).symm,
      option_ext fun v => (givenText_iff hn).trans (hm.privateKey v).symm,
      option_ext fun v => (givenText_iff hn).trans (hm.publicKey v).symm,
      option_ext fun v => (givenText_iff hn).trans (hm.label v).symm,
      option_ext fun v => (givenText_iff hn).trans (hm.algorithm v).symm, trivial, trivial,
      option_ext fun v => (givenText_iff hn).trans (hm.nonce v).symm⟩

end Httpsig
