import Verif.Lemmas.Argv
/-
C134: the words of the validator's command line.
-/
namespace Httpsig

/-- C134. The options that a plain command line gives. -/
theorem C134_exact (argv : List Str) (a : Args) :
    Args.ofArgv argv = some a ↔ ∃ m us, CommandLine argv m us ∧ Means m us a := ofArgv_iff

/-- C134. Two command lines with the same options, in any order and spelled in any way, do the same. -/
theorem C134_order (argv argv' : List Str) (m : Mode) (us us' : List (OptName × Option Str)) (h : CommandLine argv m us)
    (h' : CommandLine argv' m us') (hp : us.Perm us') : Args.ofArgv argv = Args.ofArgv argv' := by
  have half : ∀ argv argv' us us', CommandLine argv m us → CommandLine argv' m us' → us.Perm us' →
      ∀ a, Args.ofArgv argv = some a → Args.ofArgv argv' = some a := by
    intro argv argv' us us' h h' hp a ha
    obtain ⟨m2, us2, h2, hm⟩ := ofArgv_iff.1 ha
    obtain ⟨gs, hg, rfl⟩ := h
    obtain ⟨gs2, hg2, he⟩ := h2
    simp only [List.cons.injEq] at he
    have e1 : m2 = m := by
      have := ofWord_iff.2 he.1
      rw [ofWord_iff.2 rfl] at this
      exact (Option.some.inj this).symm
    have e2 : us2 = us := by
      have := readOptions_iff.2 ⟨gs2, hg2, he.2⟩
      rw [readOptions_iff.2 ⟨gs, hg, rfl⟩] at this
      exact (Option.some.inj this).symm
    subst e1; subst e2
    refine ofArgv_iff.2 ⟨m2, us', h', ?_⟩
    obtain ⟨k0, k1, k2, k3, k4, k5, k6, k7, k8, k9, k10, k11⟩ := hm
    simp only [hp.mem_iff] at k2 k3 k4 k5 k6 k7 k8 k9 k10 k11
    exact ⟨(hp.pairwise_iff fun h => h.symm).1 k0, k1, k2, k3, k4, k5, k6, k7, k8, k9, k10, k11⟩
  exact option_ext fun a => ⟨half _ _ _ _ h h' hp a, half _ _ _ _ h' h hp.symm a⟩

/-- C134. An option given twice is refused, whatever its values, and so is a time that is not a 64-bit number. -/
theorem C134_refused (argv : List Str) (m : Mode) (us : List (OptName × Option Str)) (h : CommandLine argv m us)
    (hbad : (¬ us.Pairwise fun u w => u.1 ≠ w.1) ∨ ∃ o v, (o = .created ∨ o = .expires) ∧ (o, some v) ∈ us ∧ ∀ i, ¬ NumberText v i) :
    Args.ofArgv argv = none := by
  cases ha : Args.ofArgv argv with
  | none => rfl
  | some a =>
    obtain ⟨m2, us2, ⟨gs2, hg2, he⟩, hm⟩ := ofArgv_iff.1 ha
    obtain ⟨gs, hg, rfl⟩ := h
    simp only [List.cons.injEq] at he
    have e2 : us2 = us := by
      have := readOptions_iff.2 ⟨gs2, hg2, he.2⟩
      rw [readOptions_iff.2 ⟨gs, hg, rfl⟩] at this
      exact (Option.some.inj this).symm
    subst e2
    rcases hbad with hn | ⟨o, v, rfl | rfl, hv, hno⟩
    · exact absurd hm.once hn
    · obtain ⟨i, hi⟩ := hm.created.2 v hv
      exact absurd hi (hno i)
    · obtain ⟨i, hi⟩ := hm.expires.2 v hv
      exact absurd hi (hno i)

/-- Words for an option, or none. -/
theorem spell_text (o : OptName) {s : Str} (h : s ≠ []) : ∃ g, Spelled (o, some s) g := by
  cases s with
  | nil => exact absurd rfl h
  | cons c v =>
    by_cases hc : c = '='
    · exact ⟨_, .letter (v := v) (by rw [hc]; decide)⟩
    · exact ⟨_, .equals hc⟩

theorem spell_number {i : Int} (h : -2 ^ 63 ≤ i ∧ i < 2 ^ 63) : ∃ s, s ≠ [] ∧ NumberText s i := by
  have hd : Grammar.Digits (Sfv.natStr i.natAbs) i.natAbs :=
    (Grammar.digits_iff _ _).2 ⟨Sfv.natStr_all _, Sfv.digitsVal_natStr _⟩
  by_cases hi : i < 0
  · exact ⟨'-' :: Sfv.natStr i.natAbs, by simp, h.1, h.2, _, _, Sfv.natStr_ne_nil _, hd, .inr ⟨rfl, by omega⟩⟩
  · exact ⟨Sfv.natStr i.natAbs, Sfv.natStr_ne_nil _, h.1, h.2, _, _, Sfv.natStr_ne_nil _, hd, .inl ⟨.inl rfl, by omega⟩⟩

theorem spell_all {us : List (OptName × Option Str)} (h : ∀ u ∈ us, ∃ g, Spelled u g) : ∃ gs, Forall2 Spelled us gs := by
  induction us with
  | nil => exact ⟨[], .nil⟩
  | cons u us ih =>
    obtain ⟨g, hg⟩ := h u List.mem_cons_self
    obtain ⟨gs, hgs⟩ := ih fun u hu => h u (List.mem_cons_of_mem _ hu)
    exact ⟨g :: gs, .cons hg hgs⟩

/-- C134. The options that plain command lines can give: all without empty texts and with 64-bit times, negative ones too. -/
theorem C134_sayable (a : Args) : (∃ argv, Args.ofArgv argv = some a) ↔ Sayable a := by
  constructor
  · rintro ⟨argv, h⟩
    obtain ⟨m, us, ⟨gs, hg, rfl⟩, hm⟩ := ofArgv_iff.1 h
    have hne : ∀ o, (o, some []) ∉ us := by
      intro o ho
      clear h hm
      induction hg with
      | nil => cases ho
      | cons hu _ ih =>
        rcases List.mem_cons.1 ho with rfl | ho
        · cases hu
        · exact ih ho
    refine ⟨?_, fun h => hne _ ((hm.headers _).1 h), ?_⟩
    · simp only [List.mem_cons, List.not_mem_nil, or_false, forall_eq_or_imp, forall_eq]
      exact ⟨fun h => hne _ ((hm.inFile _).1 h), fun h => hne _ ((hm.keyId _).1 h), fun h => hne _ ((hm.privateKey _).1 h),
        fun h => hne _ ((hm.publicKey _).1 h), fun h => hne _ ((hm.label _).1 h), fun h => hne _ ((hm.algorithm _).1 h),
        fun h => hne _ ((hm.nonce _).1 h)⟩
    · simp only [List.mem_cons, List.not_mem_nil, or_false, forall_eq_or_imp, forall_eq]
      refine ⟨fun i h => ?_, fun i h => ?_⟩
      · obtain ⟨v, _, h1, h2, _⟩ := (hm.created.1 i).1 h
        exact ⟨h1, h2⟩
      · obtain ⟨v, _, h1, h2, _⟩ := (hm.expires.1 i).1 h
        exact ⟨h1, h2⟩
  · intro hs
    let text (o : OptName) (v : Option Str) : List (OptName × Option Str) := (v.map fun s => (o, some s)).toList
    have htext : ∀ o v, v ≠ some [] → ∀ u ∈ text o v, ∃ g, Spelled u g := by
      intro o v hv u hu
      cases v with
      | none => cases hu
      | some s =>
        simp only [text, Option.map_some, Option.toList_some, List.mem_singleton] at hu
        subst hu
        exact spell_text o fun h => hv (by rw [h])
    have hnum : ∀ v ∈ [a.created, a.expires], ∃ t : Option Str, t ≠ some [] ∧ (t = none ↔ v = none) ∧ ∀ s, t = some s → ∃ i, v = some i ∧ NumberText s i := by
      intro v hv
      cases h : v with
      | none => exact ⟨none, by simp, by simp, by simp⟩
      | some i =>
        obtain ⟨s, h1, h2⟩ := spell_number (hs.numbers v hv i h)
        exact ⟨some s, by simpa using h1, by simp, fun s' hs' => ⟨i, rfl, by cases hs'; exact h2⟩⟩
    obtain ⟨tc, hc0, hc1, hc2⟩ := hnum a.created (by simp)
    obtain ⟨te, he0, he1, he2⟩ := hnum a.expires (by simp)
    let us := text .inFile a.inFile ++ (a.headers.map fun v => (OptName.headers, v)).toList ++ text .keyId a.keyId ++
      text .privateKey a.privateKey ++ text .publicKey a.publicKey ++ text .label a.label ++ text .algorithm a.algorithm ++
      text .created tc ++ text .expires te ++ text .nonce a.nonce
    have htx := hs.texts
    simp only [List.mem_cons, List.not_mem_nil, or_false, forall_eq_or_imp, forall_eq] at htx
    obtain ⟨gs, hgs⟩ : ∃ gs, Forall2 Spelled us gs := by
      apply spell_all
      intro u hu
      simp only [us, List.mem_append] at hu
      rcases hu with ((((((((hu | hu) | hu) | hu) | hu) | hu) | hu) | hu) | hu) | hu
      · exact htext _ _ htx.1 u hu
      · cases hh : a.headers with
        | none => rw [hh] at hu; cases hu
        | some v =>
          rw [hh] at hu
          simp only [Option.map_some, Option.toList_some, List.mem_singleton] at hu
          subst hu
          cases v with
          | none => exact ⟨_, .bareLetter⟩
          | some s => exact spell_text _ fun h => hs.headers (by rw [hh, h])
      · exact htext _ _ htx.2.1 u hu
      · exact htext _ _ htx.2.2.1 u hu
      · exact htext _ _ htx.2.2.2.1 u hu
      · exact htext _ _ htx.2.2.2.2.1 u hu
      · exact htext _ _ htx.2.2.2.2.2.1 u hu
      · exact htext _ _ hc0 u hu
      · exact htext _ _ he0 u hu
      · exact htext _ _ htx.2.2.2.2.2.2 u hu
    have mtext : ∀ o v o' x, (o', x) ∈ text o v ↔ o' = o ∧ ∃ s, v = some s ∧ x = some s := by
      intro o v o' x
      cases v with
      | none => simp [text]
      | some s => simp [text]
    have mhead : ∀ o' x, (o', x) ∈ (a.headers.map fun v => (OptName.headers, v)).toList ↔ o' = .headers ∧ a.headers = some x := by
      intro o' x
      cases a.headers with
      | none => simp
      | some v => simp [eq_comm]
    have mem : ∀ o x, (o, x) ∈ us ↔ (((((((((((o = .inFile ∧ ∃ s, a.inFile = some s ∧ x = some s) ∨ o = .headers ∧ a.headers = some x) ∨
        o = .keyId ∧ ∃ s, a.keyId = some s ∧ x = some s) ∨ o = .privateKey ∧ ∃ s, a.privateKey = some s ∧ x = some s) ∨
        o = .publicKey ∧ ∃ s, a.publicKey = some s ∧ x = some s) ∨ o = .label ∧ ∃ s, a.label = some s ∧ x = some s) ∨
        o = .algorithm ∧ ∃ s, a.algorithm = some s ∧ x = some s) ∨ o = .created ∧ ∃ s, tc = some s ∧ x = some s) ∨
        o = .expires ∧ ∃ s, te = some s ∧ x = some s) ∨ o = .nonce ∧ ∃ s, a.nonce = some s ∧ x = some s)) := by
      intro o x
      simp only [us, List.mem_append, mtext, mhead]
    refine ⟨a.mode.word :: gs.flatten, ofArgv_iff.2 ⟨a.mode, us, ⟨gs, hgs, rfl⟩, ?_⟩⟩
    have num : ∀ o v t, (t = none ↔ v = none) → (∀ s, t = some s → ∃ i, v = some i ∧ NumberText s i) →
        (∀ x, (o, some x) ∈ us ↔ t = some x) →
        (∀ i, v = some i ↔ ∃ s, (o, some s) ∈ us ∧ NumberText s i) ∧ ∀ s, (o, some s) ∈ us → ∃ i, NumberText s i := by
      intro o v t h1 h2 h3
      simp only [h3]
      refine ⟨fun i => ⟨fun h => ?_, ?_⟩, fun s hs => ?_⟩
      · cases t with
        | none => rw [h1.1 rfl] at h; cases h
        | some s =>
          obtain ⟨j, hj, hn⟩ := h2 s rfl
          rw [h] at hj
          cases hj
          exact ⟨s, rfl, hn⟩
      · rintro ⟨s, h4, h5⟩
        obtain ⟨j, hj, hn⟩ := h2 s h4
        rw [hj, number_unique hn h5]
      · obtain ⟨j, _, hn⟩ := h2 s hs
        exact ⟨j, hn⟩
    refine ⟨?_, rfl, ?_, ?_, ?_, ?_, ?_, ?_, ?_, ?_, num _ _ tc hc1 hc2 ?_, num _ _ te he1 he2 ?_⟩
    · have st : ∀ o v, ((text o v).map (·.1)).Sublist [o] := by
        intro o v
        cases v with
        | none => exact List.nil_sublist _
        | some s => exact List.Sublist.refl _
      have sh : (((a.headers.map fun v => (OptName.headers, v)).toList).map (·.1)).Sublist [OptName.headers] := by
        cases a.headers with
        | none => exact List.nil_sublist _
        | some s => exact List.Sublist.refl _
      refine nodup_keys.1 (List.Nodup.sublist (l₂ := [.inFile] ++ [.headers] ++ [.keyId] ++ [.privateKey] ++ [.publicKey] ++
        [.label] ++ [.algorithm] ++ [.created] ++ [.expires] ++ [.nonce]) ?_ (by decide))
      simp only [us, List.map_append]
      exact (((((((((st _ _).append sh).append (st _ _)).append (st _ _)).append (st _ _)).append (st _ _)).append
        (st _ _)).append (st _ _)).append (st _ _)).append (st _ _)
    all_goals
      intro v
      rw [mem]
      simp

/-- C134. The README's command lines give the options that C133 is about. -/
theorem C134_readme : Args.ofArgv (readmeArgv .canonicalize) = some readmeCanonicalize ∧
    Args.ofArgv (readmeArgv .sign) = some readmeSign ∧ Args.ofArgv (readmeArgv .verify) = some readmeVerify := by
  refine ⟨?_, ?_, ?_⟩ <;> rfl

/-! ### Examples -/

/-- A command line with all spellings, and options in another order and other spellings. -/
example : CommandLine [str% "sign", str% "-d", str% "--nonce", str% "=x", str% "--created=-5", str% "-e", str% "+7"] .sign
    [(.headers, none), (.nonce, some (str% "=x")), (.created, some (str% "-5")), (.expires, some (str% "+7"))] :=
  ⟨[_, _, _, _], .cons .bareLetter (.cons (.word (by decide)) (.cons (.equals (o := .created) (by decide)) (.cons (.letter (by decide)) .nil))), rfl⟩
example : CommandLine [str% "sign", str% "--expires=+7", str% "--created=-5", str% "-n", str% "=x", str% "--headers"] .sign
    [(.expires, some (str% "+7")), (.created, some (str% "-5")), (.nonce, some (str% "=x")), (.headers, none)] :=
  ⟨[_, _, _, _], .cons (.equals (o := .expires) (by decide)) (.cons (.equals (o := .created) (by decide)) (.cons (.letter (by decide))
    (.cons .bareWord .nil))), rfl⟩
example : Args.ofArgv [str% "sign", str% "-d", str% "--nonce", str% "=x", str% "--created=-5", str% "-e", str% "+7"] =
    some { mode := .sign, headers := some none, nonce := some (str% "=x"), created := some (-5), expires := some 7 } := rfl

/-- Refused: an option twice, numbers that are none, a value that looks like an option. -/
example : Args.ofArgv [str% "sign", str% "-l", str% "a", str% "--label=a"] = none ∧
    Args.ofArgv [str% "sign", str% "-c", str% "9223372036854775808"] = none ∧ Args.ofArgv [str% "sign", str% "-c", str% "soon"] = none ∧
    Args.ofArgv [str% "sign", str% "-c", str% "-5"] = none := by decide +kernel

/-- Options as `C134_sayable` wants them. -/
example : Sayable { mode := .verify, label := some (str% "--"), created := some (-2 ^ 63) } :=
  ⟨by decide, by decide, by decide⟩

end Httpsig
