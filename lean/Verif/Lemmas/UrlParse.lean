import Verif.Lemmas.Url
import Verif.Spec.UrlParse
import Verif.Lemmas.Strings
import Verif.Lemmas.Render
/-
The model of the URL parser and the specification `WebUrl`.
-/
namespace Httpsig
namespace UrlParser

theorem stripped_iff {s t : Str} : Stripped s t ↔ clean s = t := by
  unfold Stripped clean
  have hf : (fun c : Char => decide (c ∉ ['\t', '\n', '\r'])) = fun c => c != '\t' && c != '\n' && c != '\r' := by
    funext c
    by_cases h1 : c = '\t' <;> by_cases h2 : c = '\n' <;> by_cases h3 : c = '\r' <;> simp [h1, h2, h3]
  rw [hf]
  constructor
  · rintro ⟨m, hm, rfl⟩
    rw [trimmed_iff] at hm
    rw [hm]
  · intro h
    exact ⟨_, trimmed_iff.2 rfl, h.symm⟩

theorem pctByte_eq (b : UInt8) : pctByte b = ['%', hexUpper (b.toNat / 16), hexUpper (b.toNat % 16)] := by
  unfold pctByte hexUpper
  simp only
  split <;> split <;> rfl

theorem encoded_iff {codes : Str} {keep : Char → Bool} (hk : ∀ c, keep c = true ↔ Plain codes c) {s t : Str} :
    Encoded codes s t ↔ encode keep s = t := by
  have hu : ∀ c : Char, (utf8 [c]).flatMap (fun b => ['%', hexUpper (b.toNat / 16), hexUpper (b.toNat % 16)]) =
      (String.utf8EncodeChar c).flatMap pctByte := by
    intro c
    have : utf8 [c] = String.utf8EncodeChar c := by simp [utf8]
    rw [this]
    congr 1
    funext b
    exact (pctByte_eq b).symm
  constructor
  · intro h
    induction h with
    | nil => rfl
    | plain hp _ ih => unfold encode at ih ⊢; rw [List.flatMap_cons, if_pos ((hk _).2 hp), ih]; rfl
    | coded hp _ ih =>
      unfold encode at ih ⊢
      rw [List.flatMap_cons, if_neg (fun h => hp ((hk _).1 h)), ih, hu]
  · rintro rfl
    induction s with
    | nil => exact .nil
    | cons c s ih =>
      unfold encode at ih ⊢
      rw [List.flatMap_cons]
      by_cases hc : keep c = true
      · rw [if_pos hc]
        exact .plain ((hk c).1 hc) ih
      · rw [if_neg hc, ← hu]
        exact .coded (fun h => hc ((hk c).2 h)) ih

theorem keepFragment_iff (c : Char) : keepFragment c = true ↔ Plain fragmentCodes c := by
  unfold keepFragment Plain fragmentCodes UrlParts.graphic
  simp [and_assoc]

theorem keepPath_iff (c : Char) : keepPath c = true ↔ Plain pathCodes c := by
  unfold keepPath keepFragment Plain pathCodes UrlParts.graphic
  simp
  grind

theorem keepUser_iff (c : Char) : keepUser c = true ↔ Plain userCodes c := by
  unfold keepUser keepPath keepFragment Plain userCodes UrlParts.graphic
  simp
  grind

theorem keepQuery_iff (c : Char) : keepQuery c = true ↔ Plain queryCodes c := by
  unfold keepQuery Plain queryCodes UrlParts.graphic
  simp [and_assoc]

/-- Characters of a scheme in the input. -/
def schemeIn (d : Char) : Prop := d.isAlpha = true ∨ d.isDigit = true ∨ d ∈ str% "+-."

theorem schemeIn_iff (c : Char) : (c.isAlphanum || c == '+' || c == '-' || c == '.') = true ↔ schemeIn c := by
  unfold schemeIn Char.isAlphanum
  simp
  grind

theorem schemeLoop_iff {s a r : Str} : schemeLoop s = some (a, r) ↔
    ∃ cs, s = cs ++ ':' :: r ∧ (∀ d ∈ cs, schemeIn d) ∧ a = cs.map asciiLower := by
  induction s generalizing a with
  | nil => simp [schemeLoop]
  | cons c s ih =>
    unfold schemeLoop
    by_cases h1 : c = ':'
    · subst h1
      rw [if_pos rfl]
      constructor
      · intro h; cases h; exact ⟨[], rfl, by simp, rfl⟩
      · rintro ⟨cs, e, h, rfl⟩
        cases cs with
        | nil => cases e; rfl
        | cons d cs =>
          cases e
          exact absurd (h ':' (by simp)) (by unfold schemeIn; decide)
    · rw [if_neg h1]
      by_cases h2 : schemeIn c
      · rw [if_pos ((schemeIn_iff c).2 h2)]
        constructor
        · intro h
          rw [Option.map_eq_some_iff] at h
          obtain ⟨⟨a', r'⟩, h3, h4⟩ := h
          cases h4
          obtain ⟨cs, rfl, h5, rfl⟩ := ih.1 h3
          exact ⟨c :: cs, rfl, by simpa using ⟨h2, h5⟩, rfl⟩
        · rintro ⟨cs, e, h, rfl⟩
          cases cs with
          | nil => cases e; exact absurd rfl h1
          | cons d cs =>
            cases e
            rw [ih.2 ⟨cs, rfl, fun d hd => h d (by simp [hd]), rfl⟩]
            rfl
      · rw [if_neg (fun h => h2 ((schemeIn_iff c).1 h))]
        constructor
        · intro h; cases h
        · rintro ⟨cs, e, h, rfl⟩
          cases cs with
          | nil => cases e; exact absurd rfl h1
          | cons d cs => cases e; exact absurd (h c (by simp)) h2

theorem parseScheme_iff {s a r : Str} : parseScheme s = some (a, r) ↔
    ∃ c cs, s = c :: cs ++ ':' :: r ∧ c.isAlpha = true ∧ (∀ d ∈ cs, schemeIn d) ∧ a = lowered (c :: cs) := by
  unfold parseScheme
  cases s with
  | nil => simp
  | cons c s =>
    simp only
    by_cases hc : c.isAlpha = true
    · rw [if_pos hc, schemeLoop_iff]
      constructor
      · rintro ⟨cs, e, h, rfl⟩
        cases cs with
        | nil => cases e; exact absurd hc (by decide)
        | cons d cs =>
          cases e
          exact ⟨c, cs, rfl, hc, fun d hd => h d (by simp [hd]), (lowered_eq _).symm⟩
      · rintro ⟨c', cs, e, h1, h2, rfl⟩
        cases e
        exact ⟨c :: cs, rfl, by simpa using ⟨.inl h1, h2⟩, lowered_eq _⟩
    · rw [if_neg hc]
      constructor
      · intro h; cases h
      · rintro ⟨c', cs, e, h1, _⟩
        cases e
        exact absurd h1 hc

theorem defaultPort_iff {s : Str} {d : Nat} : defaultPort s = some d ↔ (s, d) ∈ webSchemes := by
  unfold defaultPort webSchemes
  constructor
  · intro h
    split at h
    · rename_i h1; cases h; rcases h1 with rfl | rfl <;> decide
    · split at h
      · rename_i h1; cases h; rcases h1 with rfl | rfl <;> decide
      · split at h
        · rename_i h1; cases h; subst h1; decide
        · cases h
  · intro h
    simp only [List.mem_cons, Prod.mk.injEq, List.not_mem_nil, or_false] at h
    rcases h with ⟨rfl, rfl⟩ | ⟨rfl, rfl⟩ | ⟨rfl, rfl⟩ | ⟨rfl, rfl⟩ | ⟨rfl, rfl⟩ <;> rfl

theorem splitAt_iff {auth : Str} {u : Option Str} {hp : Str} :
    splitAt auth = (u, hp) ↔ auth = userinfoText u ++ hp ∧ '@' ∉ hp := by
  unfold splitAt
  cases h : splitOnce '@' auth.reverse with
  | none =>
    rw [splitOnce_eq_none] at h
    simp only [Prod.mk.injEq]
    constructor
    · rintro ⟨rfl, rfl⟩
      exact ⟨rfl, fun h' => h (List.mem_reverse.2 h')⟩
    · rintro ⟨rfl, h2⟩
      cases u with
      | none => exact ⟨rfl, rfl⟩
      | some u => exact absurd (by simp [userinfoText]) h
  | some x =>
    obtain ⟨a, b⟩ := x
    rw [splitOnce_eq_some] at h
    obtain ⟨h1, h2⟩ := h
    have e : auth = b.reverse ++ '@' :: a.reverse := by
      have := congrArg List.reverse h1
      simpa using this
    simp only [Prod.mk.injEq]
    constructor
    · rintro ⟨rfl, rfl⟩
      exact ⟨by simp [userinfoText, e], fun h' => h2 (List.mem_reverse.1 h')⟩
    · rintro ⟨h3, h4⟩
      cases u with
      | none =>
        simp only [userinfoText, List.nil_append] at h3
        subst h3
        exact absurd (by rw [e]; simp) h4
      | some u =>
        have h5 : auth.reverse = hp.reverse ++ '@' :: u.reverse := by rw [h3]; simp [userinfoText]
        have h6 := splitOnce_eq_some.2 ⟨h5, fun h' => h4 (List.mem_reverse.1 h')⟩
        rw [splitOnce_eq_some.2 ⟨h1, h2⟩] at h6
        cases h6
        simp

theorem encode_nil {keep : Char → Bool} {s : Str} : encode keep s = [] ↔ s = [] := by
  constructor
  · intro h
    cases s with
    | nil => rfl
    | cons c s =>
      unfold encode at h
      rw [List.flatMap_cons] at h
      have h1 := (List.append_eq_nil_iff.1 h).1
      split at h1
      · cases h1
      · have : String.utf8EncodeChar c ≠ [] := by
          intro h2
          have := String.length_utf8EncodeChar c
          rw [h2] at this
          have := Char.utf8Size_pos c
          simp at *
        cases h3 : String.utf8EncodeChar c with
        | nil => exact absurd h3 this
        | cons b bs => rw [h3] at h1; simp [pctByte] at h1
  · rintro rfl; rfl

theorem userText_iff {u t : Option Str} : UserText u t ↔ u.bind userinfo = t := by
  have hk := keepUser_iff
  constructor
  · intro h
    cases h with
    | absent => rfl
    | blank => rfl
    | colon => rfl
    | name h1 h2 h3 =>
      rw [encoded_iff hk] at h3
      subst h3
      simp only [Option.bind_some]
      unfold userinfo
      rw [splitOnce_eq_none.2 h1]
      simp only
      rw [if_neg (fun h => h2 (encode_nil.1 h))]
    | noPassword h1 h2 h3 =>
      rw [encoded_iff hk] at h3
      subst h3
      simp only [Option.bind_some]
      unfold userinfo
      rw [splitOnce_eq_some.2 ⟨rfl, h1⟩]
      simp only [if_true, List.append_nil]
      rw [if_neg (fun h => h2 (encode_nil.1 h))]
    | password h1 h2 h3 h4 =>
      rw [encoded_iff hk] at h3 h4
      subst h3 h4
      simp only [Option.bind_some]
      unfold userinfo
      rw [splitOnce_eq_some.2 ⟨rfl, h1⟩]
      simp only [if_neg h2]
      rw [if_neg (by simp)]
  · rintro rfl
    cases u with
    | none => exact .absent
    | some u =>
      simp only [Option.bind_some]
      unfold userinfo
      cases hs : splitOnce ':' u with
      | none =>
        rw [splitOnce_eq_none] at hs
        simp only
        split
        · rename_i h
          rw [encode_nil] at h
          subst h
          exact .blank
        · rename_i h
          exact .name hs (fun e => h (by rw [e]; rfl)) ((encoded_iff hk).2 rfl)
      | some x =>
        obtain ⟨n, p⟩ := x
        obtain ⟨rfl, hn⟩ := splitOnce_eq_some.1 hs
        simp only
        by_cases hp : p = []
        · subst hp
          simp only [if_true, List.append_nil]
          split
          · rename_i h
            rw [encode_nil] at h
            subst h
            exact .colon
          · rename_i h
            exact .noPassword hn (fun e => h (by rw [e]; rfl)) ((encoded_iff hk).2 rfl)
        · rw [if_neg hp, if_neg (by simp)]
          exact .password hn hp ((encoded_iff hk).2 rfl) ((encoded_iff hk).2 rfl)

/-- A bracket is open after `a`, if one is open before it or not. -/
def Open (inside : Bool) (a : Str) : Prop := InBrackets a ∨ (inside = true ∧ ']' ∉ a)

theorem open_cons {inside : Bool} {c : Char} {a : Str} :
    Open inside (c :: a) ↔ Open (if c = '[' then true else if c = ']' then false else inside) a := by
  unfold Open InBrackets
  by_cases h1 : c = '['
  · subst h1
    rw [if_pos rfl]
    constructor
    · rintro (⟨x, y, e, h⟩ | ⟨_, h⟩)
      · cases x with
        | nil => cases e; exact .inr ⟨rfl, h⟩
        | cons d x => cases e; exact .inl ⟨x, y, rfl, h⟩
      · exact .inr ⟨rfl, fun h' => h (by simp [h'])⟩
    · rintro (⟨x, y, rfl, h⟩ | ⟨_, h⟩)
      · exact .inl ⟨'[' :: x, y, rfl, h⟩
      · exact .inl ⟨[], a, rfl, h⟩
  · rw [if_neg h1]
    have hx : (∃ x y, c :: a = x ++ '[' :: y ∧ ']' ∉ y) ↔ ∃ x y, a = x ++ '[' :: y ∧ ']' ∉ y := by
      constructor
      · rintro ⟨x, y, e, h⟩
        cases x with
        | nil => cases e; exact absurd rfl h1
        | cons d x => cases e; exact ⟨x, y, rfl, h⟩
      · rintro ⟨x, y, rfl, h⟩
        exact ⟨c :: x, y, rfl, h⟩
    rw [hx]
    by_cases h2 : c = ']'
    · subst h2
      simp
    · rw [if_neg h2]
      have : ']' ∉ c :: a ↔ ']' ∉ a := by simp [Ne.symm h2]
      rw [this]

theorem splitHost_iff {inside : Bool} {hp h r : Str} : splitHost inside hp = (h, r) ↔
    hp = h ++ r ∧ (∀ x y, h = x ++ ':' :: y → Open inside x) ∧ (r = [] ∨ ∃ d, r = ':' :: d ∧ ¬ Open inside h) := by
  induction hp generalizing inside h with
  | nil =>
    unfold splitHost
    constructor
    · intro e; cases e; exact ⟨rfl, by simp, .inl rfl⟩
    · rintro ⟨e, _, _⟩
      have := List.append_eq_nil_iff.1 e.symm
      rw [this.1, this.2]
  | cons c cs ih =>
    unfold splitHost
    have open_nil : Open inside [] ↔ inside = true := by
      unfold Open InBrackets; simp
    by_cases hc : c = ':' ∧ inside = false
    · rw [if_pos hc]
      obtain ⟨rfl, rfl⟩ := hc
      constructor
      · intro e; cases e
        exact ⟨rfl, by simp, .inr ⟨cs, rfl, fun h => by simpa using open_nil.1 h⟩⟩
      · rintro ⟨e, h1, h2⟩
        cases h with
        | nil => cases e; rfl
        | cons d h =>
          cases e
          have := open_nil.1 (h1 [] h rfl)
          cases this
    · rw [if_neg hc]
      simp only
      cases hs : splitHost (if c = '[' then true else if c = ']' then false else inside) cs with
      | mk h' r' =>
        simp only [Prod.mk.injEq]
        constructor
        · rintro ⟨rfl, rfl⟩
          obtain ⟨rfl, h1, h2⟩ := ih.1 hs
          refine ⟨rfl, ?_, ?_⟩
          · intro x y e
            cases x with
            | nil =>
              cases e
              rw [open_nil]
              cases inside
              · exact absurd ⟨rfl, rfl⟩ hc
              · rfl
            | cons d x =>
              cases e
              rw [open_cons]
              exact h1 x y rfl
          · rcases h2 with h2 | ⟨d, h2, h3⟩
            · exact .inl h2
            · exact .inr ⟨d, h2, by rw [open_cons]; exact h3⟩
        · rintro ⟨e, h1, h2⟩
          cases h with
          | nil =>
            exfalso
            simp only [List.nil_append] at e
            rcases h2 with h2 | ⟨d, h2, h3⟩
            · rw [h2] at e; cases e
            · rw [h2] at e
              cases e
              rw [open_nil] at h3
              exact hc ⟨rfl, by cases inside; rfl; exact absurd rfl h3⟩
          | cons d h =>
            simp only [List.cons_append, List.cons.injEq] at e
            obtain ⟨rfl, e⟩ := e
            have := ih.2 ⟨e, fun x y e' => open_cons.1 (h1 (c :: x) y (by rw [e']; rfl)), by
              rcases h2 with h2 | ⟨d, h2, h3⟩
              · exact .inl h2
              · exact .inr ⟨d, h2, fun h => h3 (open_cons.2 h)⟩⟩
            rw [hs] at this
            cases this
            exact ⟨rfl, rfl⟩

theorem parsePort_iff {dflt : Nat} (hd : dflt < 65536) {d : Option Str} {p : Option Nat} :
    PortIs dflt d p ↔ parsePort dflt (d.getD []) = some p := by
  unfold parsePort
  constructor
  · intro h
    cases h with
    | absent => simp [Sfv.digitsVal]
    | blank => simp [Sfv.digitsVal]
    | dflt h1 h2 =>
      obtain ⟨h3, h4⟩ := (Grammar.digits_iff _ _).1 h1
      simp only [Option.getD_some]
      rw [if_pos ⟨List.all_eq_true.2 h3, by rw [h4]; exact h2⟩, if_pos (.inr h4)]
    | port h1 h2 h3 h4 =>
      obtain ⟨h5, h6⟩ := (Grammar.digits_iff _ _).1 h2
      simp only [Option.getD_some]
      rw [if_pos ⟨List.all_eq_true.2 h5, by rw [h6]; exact h3⟩, if_neg (by rw [h6]; simp [h1, h4]), h6]
  · intro h
    split at h
    · rename_i h1
      obtain ⟨h1, h2⟩ := h1
      rw [List.all_eq_true] at h1
      cases d with
      | none =>
        simp only [Option.getD_none, true_or, if_true] at h
        cases h
        exact .absent
      | some d =>
        simp only [Option.getD_some] at h h1 h2
        have hdig : Grammar.Digits d (Sfv.digitsVal d) := (Grammar.digits_iff _ _).2 ⟨h1, rfl⟩
        by_cases h3 : d = []
        · subst h3
          simp only [true_or, if_true] at h
          cases h
          exact .blank
        · by_cases h4 : Sfv.digitsVal d = dflt
          · rw [if_pos (.inr h4)] at h
            cases h
            rw [h4] at hdig
            exact .dflt hdig hd
          · rw [if_neg (by simp [h3, h4])] at h
            cases h
            exact .port h3 hdig h2 h4
    · cases h

theorem parseAuthority_iff {E : Env} {dflt : Nat} (hd : dflt < 65536) {auth : Str} {a : Authority} :
    AuthorityIs E dflt auth a ↔ parseAuthority E dflt auth = some a := by
  have open_false : ∀ x, Open false x ↔ InBrackets x := fun x => by unfold Open; simp
  unfold AuthorityIs parseAuthority
  constructor
  · rintro ⟨user, host, port, h1, h2, h3, h4, h5, h6, h7, h8, h9⟩
    have e1 := splitAt_iff.2 ⟨h1, h2⟩
    have e2 : splitHost false (host ++ markedText ':' port) = (host, markedText ':' port) :=
      splitHost_iff.2 ⟨rfl, fun x y e => (open_false x).2 (h3 x y e), by
        cases port with
        | none => exact .inl rfl
        | some d => exact .inr ⟨d, rfl, fun h => h4 (by simp) ((open_false host).1 h)⟩⟩
    have e3 : (markedText ':' port).drop 1 = port.getD [] := by cases port <;> rfl
    simp only [e1, e2, if_neg h5, e3]
    rw [Option.map_eq_some_iff] at h6
    obtain ⟨⟨ah, aok⟩, h6, h6'⟩ := h6
    simp only at h6'
    subst h6'
    simp only [h6, if_neg h7, (parsePort_iff hd).1 h9, Option.map_some, userText_iff.1 h8]
  · intro h
    cases h1 : splitAt auth with
    | mk u hp =>
      cases h2 : splitHost false hp with
      | mk host r =>
        simp only [h1, h2] at h
        obtain ⟨e1, e2⟩ := splitAt_iff.1 h1
        obtain ⟨rfl, e4, e5⟩ := splitHost_iff.1 h2
        by_cases hn : host = []
        · rw [if_pos hn] at h; cases h
        · rw [if_neg hn] at h
          cases hh : E.host host with
          | none => rw [hh] at h; cases h
          | some ah =>
            rw [hh] at h
            simp only at h
            by_cases hn' : ah.1 = []
            · rw [if_pos hn'] at h; cases h
            · rw [if_neg hn', Option.map_eq_some_iff] at h
              obtain ⟨port, hp, rfl⟩ := h
              obtain ⟨p, rfl, hnb⟩ : ∃ p, r = markedText ':' p ∧ (p ≠ none → ¬ InBrackets host) := by
                rcases e5 with rfl | ⟨d, rfl, h⟩
                · exact ⟨none, rfl, fun h => absurd rfl h⟩
                · exact ⟨some d, rfl, fun _ h' => h ((open_false host).2 h')⟩
              have e3 : (markedText ':' p).drop 1 = p.getD [] := by cases p <;> rfl
              rw [e3] at hp
              exact ⟨u, host, p, e1, e2, fun x y e => (open_false x).1 (e4 x y e), hnb, hn, by rw [hh]; rfl, hn',
                userText_iff.2 rfl, (parsePort_iff hd).2 hp⟩

theorem slash_iff (c : Char) : isSlash c = true ↔ Slash c := by
  unfold isSlash Slash
  simp

theorem slashed {s : Str} (h : ∀ c ∈ s, ¬ Slash c) : s.map (fun c => if c = '\\' then '/' else c) = s ∧ '/' ∉ s := by
  refine ⟨?_, fun h' => h _ h' (.inl rfl)⟩
  have : s.map (fun c => if c = '\\' then '/' else c) = s.map id :=
    List.map_congr_left fun c hc => if_neg fun e => h c hc (.inr e)
  rw [this, List.map_id]

theorem pieces_iff {p : Str} {l : List Str} :
    Pieces p l ↔ splitOn '/' (p.map fun c => if c = '\\' then '/' else c) = l := by
  constructor
  · intro h
    induction h with
    | last h => rw [(slashed h).1, splitOn_of_no_sep (slashed h).2]
    | more h hc _ ih =>
      rename_i s p c l _
      have : (if c = '\\' then '/' else c) = '/' := by
        rcases hc with rfl | rfl <;> rfl
      rw [List.map_append, List.map_cons, this, (slashed h).1, splitOn_append (slashed h).2, ih]
  · rintro rfl
    induction p with
    | nil => exact .last (by simp)
    | cons c p ih =>
      rw [List.map_cons]
      by_cases hc : Slash c
      · have : (if c = '\\' then '/' else c) = '/' := by
          rcases hc with rfl | rfl <;> rfl
        rw [this, splitOn, if_pos rfl]
        exact .more (s := []) (by simp) hc ih
      · have e1 : (if c = '\\' then '/' else c) = c := if_neg fun e => hc (.inr e)
        rw [e1, splitOn, if_neg fun e => hc (.inl e)]
        generalize splitOn '/' (p.map fun c => if c = '\\' then '/' else c) = l at ih
        cases ih with
        | last h => exact .last (by simpa using ⟨hc, h⟩)
        | more h hc' h' => exact .more (s := c :: _) (by simpa using ⟨hc, h⟩) hc' h'

theorem asciiLower_eq {c d : Char} (hd : d.isLower = false) : asciiLower c = d ↔ c = d ∧ c.isUpper = false := by
  unfold asciiLower
  constructor
  · intro h
    split at h
    · rename_i hu
      exfalso
      simp only [Char.isUpper, decide_eq_true_eq, UInt32.le_iff_toNat_le, ge_iff_le] at hu
      have e1 : 'A'.val.toNat = 65 := rfl
      have e2 : 'Z'.val.toNat = 90 := rfl
      have hg : c.toNat = c.val.toNat := rfl
      have h3 : (Char.ofNat (c.toNat + 32)).toNat = c.toNat + 32 := charToNat_ofNat (isValidChar_of_lt (by omega))
      have h4 : d.toNat = c.toNat + 32 := by rw [← h, h3]
      have : d.isLower = true := by
        simp only [Char.isLower, Bool.and_eq_true, decide_eq_true_eq, UInt32.le_iff_toNat_le, ge_iff_le]
        have e1 : 'a'.val.toNat = 97 := rfl
        have e2 : 'z'.val.toNat = 122 := rfl
        have hg : d.toNat = d.val.toNat := rfl
        omega
      rw [this] at hd
      cases hd
    · rename_i hu
      exact ⟨h, by simpa using hu⟩
  · rintro ⟨rfl, h⟩
    rw [h]; rfl

theorem asciiLower_e {c : Char} : asciiLower c = 'e' ↔ c = 'e' ∨ c = 'E' := by
  unfold asciiLower
  constructor
  · intro h
    split at h
    · rename_i hu
      simp only [Char.isUpper, decide_eq_true_eq, UInt32.le_iff_toNat_le, ge_iff_le] at hu
      have e1 : 'A'.val.toNat = 65 := rfl
      have e2 : 'Z'.val.toNat = 90 := rfl
      have hg : c.toNat = c.val.toNat := rfl
      have h3 : (Char.ofNat (c.toNat + 32)).toNat = c.toNat + 32 := charToNat_ofNat (isValidChar_of_lt (by omega))
      have h4 : c.toNat + 32 = 101 := by rw [← h3, h]; rfl
      right
      have : c.toNat = 'E'.toNat := by show c.toNat = 69; omega
      exact Char.toNat_inj.1 this
    · exact .inl h
  · rintro (rfl | rfl) <;> rfl

theorem isDot_iff (s : Str) : isDot s = true ↔ Here s := by
  unfold isDot Here
  simp only [Bool.or_eq_true, beq_iff_eq, List.mem_cons, List.not_mem_nil, or_false, List.map_eq_cons_iff, List.map_eq_nil_iff,
    asciiLower_eq (d := '.') rfl, asciiLower_eq (d := '%') rfl, asciiLower_eq (d := '2') rfl, asciiLower_e]
  constructor
  · rintro (⟨a, _, rfl, ⟨rfl, _⟩, rfl⟩ | ⟨a, _, rfl, ⟨rfl, _⟩, b, _, rfl, ⟨rfl, _⟩, c, _, rfl, rfl | rfl, rfl⟩) <;> simp
  · rintro (rfl | rfl | rfl)
    · exact .inl ⟨_, _, rfl, ⟨rfl, rfl⟩, rfl⟩
    · exact .inr ⟨_, _, rfl, ⟨rfl, rfl⟩, _, _, rfl, ⟨rfl, rfl⟩, _, _, rfl, .inl rfl, rfl⟩
    · exact .inr ⟨_, _, rfl, ⟨rfl, rfl⟩, _, _, rfl, ⟨rfl, rfl⟩, _, _, rfl, .inr rfl, rfl⟩

theorem isDotDot_iff (s : Str) : isDotDot s = true ↔ Up s := by
  constructor
  · unfold isDotDot Up
    simp only [Bool.or_eq_true, beq_iff_eq, List.mem_cons, List.not_mem_nil, or_false, List.map_eq_cons_iff, List.map_eq_nil_iff,
      asciiLower_eq (d := '.') rfl, asciiLower_eq (d := '%') rfl, asciiLower_eq (d := '2') rfl, asciiLower_e]
    rintro (((⟨a, _, rfl, ⟨rfl, _⟩, b, _, rfl, ⟨rfl, _⟩, rfl⟩ |
      ⟨a, _, rfl, ⟨rfl, _⟩, b, _, rfl, ⟨rfl, _⟩, c, _, rfl, ⟨rfl, _⟩, d, _, rfl, rfl | rfl, rfl⟩) |
      ⟨a, _, rfl, ⟨rfl, _⟩, b, _, rfl, ⟨rfl, _⟩, c, _, rfl, rfl | rfl, d, _, rfl, ⟨rfl, _⟩, rfl⟩) |
      ⟨a, _, rfl, ⟨rfl, _⟩, b, _, rfl, ⟨rfl, _⟩, c, _, rfl, rfl | rfl, d, _, rfl, ⟨rfl, _⟩, e, _, rfl, ⟨rfl, _⟩, f, _, rfl,
        rfl | rfl, rfl⟩) <;> simp
  · unfold Up
    simp only [List.mem_cons, List.not_mem_nil, or_false]
    rintro (rfl | rfl | rfl | rfl | rfl | rfl | rfl | rfl | rfl) <;> decide

/-- One segment that is not the last. -/
def adv (keeps : Str → Bool) (done : List Str) (s : Str) : List Str :=
  if isDotDot s then up keeps done else if isDot s then done else s :: done

theorem walk_cons (keeps : Str → Bool) (done : List Str) (s t : Str) (rest : List Str) :
    walk keeps done (s :: t :: rest) = walk keeps (adv keeps done s) (t :: rest) := by
  rw [walk]
  unfold adv
  split
  · rfl
  · split <;> rfl

theorem walk_append (keeps : Str → Bool) (t : Str) (rest : List Str) : ∀ (a done : List Str),
    walk keeps done (a ++ t :: rest) = walk keeps (a.foldl (adv keeps) done) (t :: rest)
  | [], _ => rfl
  | [s], done => walk_cons keeps done s t rest
  | s :: s' :: a, done => by
    show walk keeps done (s :: s' :: (a ++ t :: rest)) = _
    rw [walk_cons]
    exact walk_append keeps t rest (s' :: a) (adv keeps done s)

theorem adv_plain {keeps : Str → Bool} {done : List Str} {s : Str} (h1 : ¬ Here s) (h2 : ¬ Up s) : adv keeps done s = s :: done := by
  unfold adv
  rw [if_neg fun h => h2 ((isDotDot_iff s).1 h), if_neg fun h => h1 ((isDot_iff s).1 h)]

theorem adv_up {keeps : Str → Bool} {done : List Str} {s : Str} (h : Up s) : adv keeps done s = up keeps done := by
  unfold adv
  rw [if_pos ((isDotDot_iff s).2 h)]

theorem not_up_of_here {s : Str} (h : Here s) : ¬ Up s := by
  unfold Here at h
  simp only [List.mem_cons, List.not_mem_nil, or_false] at h
  rcases h with rfl | rfl | rfl <;> (unfold Up; decide)

theorem adv_here {keeps : Str → Bool} {done : List Str} {s : Str} (h : Here s) : adv keeps done s = done := by
  unfold adv
  rw [if_neg fun h' => not_up_of_here h ((isDotDot_iff s).1 h'), if_pos ((isDot_iff s).2 h)]

theorem walk_last {keeps : Str → Bool} {done : List Str} {s : Str} (h : Here s ∨ Up s) :
    walk keeps done [s] = [] :: adv keeps done s := by
  rw [walk]
  rcases h with h | h
  · rw [adv_here h, if_neg fun h' => not_up_of_here h ((isDotDot_iff s).1 h'), if_pos ((isDot_iff s).2 h)]
  · rw [adv_up h, if_pos ((isDotDot_iff s).2 h)]

theorem walk_last_plain {keeps : Str → Bool} {done : List Str} {s : Str} (h1 : ¬ Here s) (h2 : ¬ Up s) :
    walk keeps done [s] = s :: done := by
  rw [walk, if_neg fun h => h2 ((isDotDot_iff s).1 h), if_neg fun h => h1 ((isDot_iff s).1 h)]

theorem nil_plain : ¬ Here [] ∧ ¬ Up [] := by unfold Here Up; decide

theorem walk_shorter {keeps : Str → Bool} {l m : List Str} (h : Shorter keeps l m) : walk keeps [] l = walk keeps [] m := by
  cases h with
  | last h =>
    rename_i a s
    rw [walk_append, walk_append, walk_last h, walk_cons, walk_last_plain nil_plain.1 nil_plain.2]
  | here h =>
    rename_i a b s t
    rw [walk_append, walk_append, walk_cons, adv_here h]
  | up h1 h2 h3 h4 =>
    rename_i a b x s t
    rw [walk_append, walk_append, walk_cons, walk_cons, adv_plain h1 h2, adv_up h4, UrlParser.up, if_neg (by rw [h3]; exact Bool.false_ne_true)]
  | kept h1 h2 h3 h4 =>
    rename_i a b x s t
    rw [walk_append, walk_append, walk_cons, walk_cons, walk_cons, adv_plain h1 h2, adv_up h4, UrlParser.up, if_pos h3]
  | root h =>
    rw [walk_cons, adv_up h]
    rfl

theorem walk_shortened {keeps : Str → Bool} {l m : List Str} (h : Shortened keeps l m) : walk keeps [] l = walk keeps [] m := by
  induction h with
  | refl => rfl
  | step h _ ih => rw [walk_shorter h, ih]

theorem walk_plain {keeps : Str → Bool} : ∀ {l done : List Str}, (∀ s ∈ l, ¬ Here s ∧ ¬ Up s) → walk keeps done l = l.reverse ++ done
  | [], _, _ => rfl
  | [s], done, h => by rw [walk_last_plain (h s (by simp)).1 (h s (by simp)).2]; rfl
  | s :: t :: l, done, h => by
    rw [walk_cons, adv_plain (h s (by simp)).1 (h s (by simp)).2, walk_plain (fun x hx => h x (List.mem_cons_of_mem _ hx))]
    simp

theorem up_plain {keeps : Str → Bool} {done : List Str} (h : ∀ s ∈ done, ¬ Here s ∧ ¬ Up s) : ∀ s ∈ up keeps done, ¬ Here s ∧ ¬ Up s := by
  unfold up
  cases done with
  | nil => exact h
  | cons x d =>
    simp only
    split
    · exact h
    · exact fun s hs => h s (List.mem_cons_of_mem _ hs)

theorem up_step {keeps : Str → Bool} {done b : List Str} {s t : Str} (h : ∀ s ∈ done, ¬ Here s ∧ ¬ Up s) (hs : Up s) :
    Shorter keeps (done.reverse ++ s :: t :: b) ((up keeps done).reverse ++ t :: b) := by
  unfold up
  cases done with
  | nil => exact .root hs
  | cons x d =>
    have hx := h x (by simp)
    simp only [List.reverse_cons, List.append_assoc, List.singleton_append]
    by_cases hk : keeps x = true
    · rw [if_pos hk]
      simp only [List.reverse_cons, List.append_assoc, List.singleton_append]
      exact .kept hx.1 hx.2 hk hs
    · rw [if_neg hk]
      exact .up hx.1 hx.2 (by simpa using hk) hs

theorem shortened_walk {keeps : Str → Bool} : ∀ {l done : List Str}, l ≠ [] → (∀ s ∈ done, ¬ Here s ∧ ¬ Up s) →
    Shortened keeps (done.reverse ++ l) (walk keeps done l).reverse ∧ ∀ s ∈ walk keeps done l, ¬ Here s ∧ ¬ Up s
  | [], _, h, _ => absurd rfl h
  | [s], done, _, h => by
    by_cases h1 : Up s
    · rw [walk_last (.inr h1), adv_up h1]
      refine ⟨.step (.last (.inr h1)) (.step (up_step h h1) ?_), ?_⟩
      · simp only [List.reverse_cons]
        exact .refl
      · intro x hx
        rcases List.mem_cons.1 hx with rfl | hx
        · exact nil_plain
        · exact up_plain h x hx
    · by_cases h2 : Here s
      · rw [walk_last (.inl h2), adv_here h2]
        refine ⟨.step (.last (.inl h2)) (.step (.here h2) ?_), ?_⟩
        · simp only [List.reverse_cons]
          exact .refl
        · intro x hx
          rcases List.mem_cons.1 hx with rfl | hx
          · exact nil_plain
          · exact h x hx
      · rw [walk_last_plain h2 h1]
        refine ⟨?_, ?_⟩
        · simp only [List.reverse_cons]
          exact .refl
        · intro x hx
          rcases List.mem_cons.1 hx with rfl | hx
          · exact ⟨h2, h1⟩
          · exact h x hx
  | s :: t :: l, done, _, h => by
    rw [walk_cons]
    by_cases h1 : Up s
    · rw [adv_up h1]
      obtain ⟨h3, h4⟩ := shortened_walk (l := t :: l) (by simp) (up_plain (keeps := keeps) h)
      exact ⟨.step (up_step h h1) h3, h4⟩
    · by_cases h2 : Here s
      · rw [adv_here h2]
        obtain ⟨h3, h4⟩ := shortened_walk (l := t :: l) (by simp) h
        exact ⟨.step (.here h2) h3, h4⟩
      · rw [adv_plain h2 h1]
        obtain ⟨h3, h4⟩ := shortened_walk (keeps := keeps) (l := t :: l) (done := s :: done) (by simp) (by
          intro x hx
          rcases List.mem_cons.1 hx with rfl | hx
          · exact ⟨h2, h1⟩
          · exact h x hx)
        simp only [List.reverse_cons, List.append_assoc, List.singleton_append] at h3
        exact ⟨h3, h4⟩

theorem resolves_iff {keeps : Str → Bool} {l m : List Str} (hl : l ≠ []) :
    (Shortened keeps l m ∧ ∀ s ∈ m, ¬ Here s ∧ ¬ Up s) ↔ (walk keeps [] l).reverse = m := by
  constructor
  · rintro ⟨h1, h2⟩
    rw [walk_shortened h1, walk_plain h2]
    simp
  · rintro rfl
    obtain ⟨h1, h2⟩ := shortened_walk (keeps := keeps) (done := []) hl (by simp)
    exact ⟨h1, fun s hs => h2 s (List.mem_reverse.1 hs)⟩

theorem encodedAll_iff {codes : Str} {keep : Char → Bool} (hk : ∀ c, keep c = true ↔ Plain codes c) :
    ∀ {l m : List Str}, Forall2 (Encoded codes) l m ↔ l.map (encode keep) = m
  | [], m => ⟨fun h => by cases h; rfl, fun h => by cases h; exact .nil⟩
  | s :: l, m => by
    constructor
    · intro h
      cases h with
      | cons h1 h2 => rw [List.map_cons, (encoded_iff hk).1 h1, (encodedAll_iff hk).1 h2]
    · rintro rfl
      exact .cons ((encoded_iff hk).2 rfl) ((encodedAll_iff hk).2 rfl)

theorem pathIs_iff {E : Env} {text path : Str} : PathIs E text path ↔
    (text = [] ∨ ∃ c p, text = c :: p ∧ Slash c) ∧ parsePath E text = path := by
  unfold PathIs parsePath
  constructor
  · rintro ⟨pieces, coded, segs, h1, h2, h3, h4, rfl⟩
    rw [encodedAll_iff keepPath_iff] at h2
    have h5 : (text = [] ∨ ∃ c p, text = c :: p ∧ Slash c) ∧
        splitOn '/' ((text.drop 1).map fun c => if c = '\\' then '/' else c) = pieces := by
      rcases h1 with ⟨rfl, rfl⟩ | ⟨c, p, rfl, h5, h6⟩
      · exact ⟨.inl rfl, rfl⟩
      · exact ⟨.inr ⟨c, p, rfl, h5⟩, pieces_iff.1 h6⟩
    refine ⟨h5.1, ?_⟩
    simp only [h5.2, h2]
    have h6 : coded ≠ [] := by
      rw [← h2, ← h5.2]
      simp [splitOn_ne_nil]
    rw [(resolves_iff h6).1 ⟨h3, h4⟩]
  · rintro ⟨h1, rfl⟩
    simp only
    have h6 : (splitOn '/' ((text.drop 1).map fun c => if c = '\\' then '/' else c)).map (encode keepPath) ≠ [] := by
      simp [splitOn_ne_nil]
    obtain ⟨h7, h8⟩ := (resolves_iff (keeps := E.keeps) h6).2 rfl
    refine ⟨_, _, _, ?_, (encodedAll_iff keepPath_iff).2 rfl, h7, h8, rfl⟩
    rcases h1 with rfl | ⟨c, p, rfl, hc⟩
    · exact .inl ⟨rfl, rfl⟩
    · exact .inr ⟨c, p, rfl, hc, pieces_iff.2 rfl⟩

theorem takeWhile_dropWhile_iff {p : Char → Bool} {s a b : Str} :
    (s.takeWhile p = a ∧ s.dropWhile p = b) ↔ s = a ++ b ∧ (∀ c ∈ a, p c = true) ∧ ∀ c ∈ b.head?, p c = false := by
  constructor
  · rintro ⟨rfl, rfl⟩
    exact ⟨(List.takeWhile_append_dropWhile).symm, takeWhile_all, head_dropWhile⟩
  · rintro ⟨rfl, h1, h2⟩
    exact ⟨takeWhile_append_stop (List.all_eq_true.2 h1) h2, dropWhile_append_stop (List.all_eq_true.2 h1) h2⟩

theorem partIs_iff {codes : Str} {keep : Char → Bool} (hk : ∀ c, keep c = true ↔ Plain codes c) {a b : Option Str} :
    PartIs codes a b ↔ a.map (encode keep) = b := by
  cases a <;> cases b <;> simp [PartIs, encoded_iff hk]

theorem parseTail_text (q f : Option Str) (hq : ∀ s, q = some s → '#' ∉ s) :
    parseTail (markedText '?' q ++ markedText '#' f) = (q.map (encode keepQuery), f.map (encode keepFragment)) := by
  have hf : (markedText '#' f).takeWhile (· != '#') = [] ∧ (markedText '#' f).dropWhile (· != '#') = markedText '#' f := by
    cases f <;> exact ⟨rfl, rfl⟩
  unfold parseTail
  cases q with
  | none =>
    simp only [markedText, List.nil_append]
    cases f <;> rfl
  | some s =>
    have hs : ∀ c ∈ s, (c != '#') = true := fun c hc => by
      simp only [bne_iff_ne]
      rintro rfl
      exact hq s rfl hc
    have h1 : (s ++ markedText '#' f).takeWhile (· != '#') = s := by rw [List.takeWhile_append_of_pos hs, hf.1, List.append_nil]
    have h2 : (markedText '?' (some s) ++ markedText '#' f).dropWhile (· != '#') = markedText '#' f := by
      show ('?' :: (s ++ markedText '#' f)).dropWhile (· != '#') = _
      rw [List.dropWhile_cons, if_pos (by decide), List.dropWhile_append_of_pos hs, hf.2]
    rw [h2]
    show (some (encode keepQuery ((s ++ markedText '#' f).takeWhile (· != '#'))), _) = _
    rw [h1]
    cases f <;> rfl

/-- Every text is a path, a query and a fragment. -/
theorem tail_split (t : Str) : ∃ p q f, t = p ++ (markedText '?' q ++ markedText '#' f) ∧ (∀ c ∈ p, c ≠ '?' ∧ c ≠ '#') ∧
    ∀ s, q = some s → '#' ∉ s := by
  have hfr : ∀ r : Str, ∃ s f, r = s ++ markedText '#' f ∧ '#' ∉ s := by
    intro r
    cases h : splitOnce '#' r with
    | none => exact ⟨r, none, by simp [markedText], splitOnce_eq_none.1 h⟩
    | some x => exact ⟨x.1, some x.2, (splitOnce_eq_some.1 h).1, (splitOnce_eq_some.1 h).2⟩
  obtain ⟨h1, h2, h3⟩ := (takeWhile_dropWhile_iff (p := fun c => c != '?' && c != '#') (s := t)).1 ⟨rfl, rfl⟩
  refine ⟨t.takeWhile fun c => c != '?' && c != '#', ?_⟩
  have h2' : ∀ c ∈ t.takeWhile fun c => c != '?' && c != '#', c ≠ '?' ∧ c ≠ '#' := fun c hc => by simpa using h2 c hc
  cases hr : t.dropWhile fun c => c != '?' && c != '#' with
  | nil =>
    rw [hr] at h1
    exact ⟨none, none, h1, h2', by simp⟩
  | cons c r =>
    rw [hr] at h1 h3
    have hc : c = '?' ∨ c = '#' := by
      have := h3 c (by simp)
      by_cases e : c = '?'
      · exact .inl e
      · simp [e] at this
        exact .inr this
    rcases hc with rfl | rfl
    · obtain ⟨s, f, rfl, hs⟩ := hfr r
      exact ⟨some s, f, h1, h2', fun s' e => by cases e; exact hs⟩
    · exact ⟨none, some r, h1, h2', by simp⟩

theorem target_text {p : Str} {q f : Option Str} (hp : ∀ c ∈ p, c ≠ '?' ∧ c ≠ '#') :
    (p ++ (markedText '?' q ++ markedText '#' f)).takeWhile (fun c => c != '?' && c != '#') = p ∧
    (p ++ (markedText '?' q ++ markedText '#' f)).dropWhile (fun c => c != '?' && c != '#') = markedText '?' q ++ markedText '#' f := by
  rw [takeWhile_dropWhile_iff]
  refine ⟨rfl, fun c hc => by simpa using hp c hc, ?_⟩
  intro c hc
  cases q with
  | some s => cases hc; rfl
  | none =>
    cases f with
    | some s => cases hc; rfl
    | none => cases hc

theorem targetIs_iff {E : Env} {t : Str} {u : UrlParts} : TargetIs E t u ↔
    (t = [] ∨ ∃ c r, t = c :: r ∧ isDelim c = true) ∧
    parsePath E (t.takeWhile fun c => c != '?' && c != '#') = u.path ∧
    parseTail (t.dropWhile fun c => c != '?' && c != '#') = (u.query, u.fragment) := by
  unfold TargetIs
  constructor
  · rintro ⟨p, q, f, rfl, hp, hq, h1, h2, h3⟩
    obtain ⟨e1, e2⟩ := target_text (q := q) (f := f) hp
    rw [e1, e2, parseTail_text q f hq, ← (partIs_iff keepQuery_iff).1 h2, ← (partIs_iff keepFragment_iff).1 h3]
    obtain ⟨h4, h5⟩ := pathIs_iff.1 h1
    refine ⟨?_, h5, rfl⟩
    rcases h4 with rfl | ⟨c, r, rfl, hc⟩
    · cases q with
      | some s => exact .inr ⟨_, _, rfl, rfl⟩
      | none =>
        cases f with
        | some s => exact .inr ⟨_, _, rfl, rfl⟩
        | none => exact .inl rfl
    · exact .inr ⟨c, _, rfl, by unfold isDelim; rw [(slash_iff c).2 hc]; rfl⟩
  · rintro ⟨h1, h2, h3⟩
    obtain ⟨p, q, f, rfl, hp, hq⟩ := tail_split t
    obtain ⟨e1, e2⟩ := target_text (q := q) (f := f) hp
    rw [e1] at h2
    rw [e2, parseTail_text q f hq] at h3
    simp only [Prod.mk.injEq] at h3
    refine ⟨p, q, f, rfl, hp, hq, pathIs_iff.2 ⟨?_, h2⟩, (partIs_iff keepQuery_iff).2 h3.1, (partIs_iff keepFragment_iff).2 h3.2⟩
    cases p with
    | nil => exact .inl rfl
    | cons c r =>
      rcases h1 with h1 | ⟨c', r', h1, hc⟩
      · cases h1
      · cases h1
        refine .inr ⟨c, r, rfl, (slash_iff c).1 ?_⟩
        have := hp c (by simp)
        unfold isDelim at hc
        simpa [this.1, this.2] using hc

theorem webSchemes_port {s : Str} {d : Nat} (h : (s, d) ∈ webSchemes) : d < 65536 := by
  unfold webSchemes at h
  simp only [List.mem_cons, Prod.mk.injEq, List.not_mem_nil, or_false] at h
  omega

theorem parseParts_iff {E : Env} {scheme rest : Str} {d : Nat} {u : UrlParts} (hd : d < 65536) :
    parseParts E scheme d rest = some u ↔ ∃ slashes auth target a, rest = slashes ++ (auth ++ target) ∧ u.scheme = scheme ∧
      (∀ c ∈ slashes, Slash c) ∧ (∀ c ∈ auth, ¬ Slash c ∧ c ≠ '?' ∧ c ≠ '#') ∧ u.authority = some a ∧ AuthorityIs E d auth a ∧
      TargetIs E target u := by
  have hdelim : ∀ c, isDelim c = false ↔ ¬ Slash c ∧ c ≠ '?' ∧ c ≠ '#' := by
    intro c
    unfold isDelim
    rw [← slash_iff]
    simp
    grind
  unfold parseParts
  simp only
  constructor
  · intro h
    rw [Option.map_eq_some_iff] at h
    obtain ⟨a, h1, rfl⟩ := h
    refine ⟨rest.takeWhile isSlash, _, _, a, ?_, rfl, ?_, ?_, rfl, (parseAuthority_iff hd).2 h1, targetIs_iff.2 ⟨?_, rfl, rfl⟩⟩
    · rw [List.takeWhile_append_dropWhile, List.takeWhile_append_dropWhile]
    · exact fun c hc => (slash_iff c).1 (takeWhile_all c hc)
    · intro c hc
      have := takeWhile_all c hc
      exact (hdelim c).1 (by simpa using this)
    · cases hr : (rest.dropWhile isSlash).dropWhile fun c => !isDelim c with
      | nil => exact .inl rfl
      | cons c r =>
        refine .inr ⟨c, r, rfl, ?_⟩
        have := head_dropWhile (p := fun c => !isDelim c) (s := rest.dropWhile isSlash) c (by rw [hr]; rfl)
        simpa using this
  · rintro ⟨slashes, auth, target, a, rfl, rfl, h1, h2, h3, h4, h5⟩
    obtain ⟨h6, h7, h8⟩ := targetIs_iff.1 h5
    have hne : auth ≠ [] := by
      obtain ⟨_, host, _, e, _, _, _, hn, _⟩ := h4
      intro e'
      rw [e'] at e
      exact hn (List.append_eq_nil_iff.1 (List.append_eq_nil_iff.1 e.symm).2).1
    have e1 : (slashes ++ (auth ++ target)).dropWhile isSlash = auth ++ target := by
      refine (takeWhile_dropWhile_iff.2 ⟨rfl, fun c hc => (slash_iff c).2 (h1 c hc), ?_⟩).2
      intro c hc
      cases auth with
      | nil => exact absurd rfl hne
      | cons b bs =>
        obtain rfl : b = c := by simpa using hc
        have := (h2 b (by simp)).1
        cases hb : isSlash b with
        | false => rfl
        | true => exact absurd ((slash_iff b).1 hb) this
    have e2 := (takeWhile_dropWhile_iff (p := fun c => !isDelim c) (s := auth ++ target) (a := auth) (b := target)).2
      ⟨rfl, fun c hc => by simpa using (hdelim c).2 (h2 c hc), fun c hc => by
        rcases h6 with rfl | ⟨c', r, rfl, hc'⟩
        · cases hc
        · cases hc; simpa using hc'⟩
    rw [e1, e2.1, e2.2, (parseAuthority_iff hd).1 h4]
    simp only [Option.map_some, h7, h8, Option.some.injEq]
    rw [← h3]

/-! ### What is read is tidy -/

theorem hexUpper_mem : ∀ n, n < 16 → hexUpper n ∈ str% "%0123456789ABCDEF" := by decide

theorem encoded_mem {codes s t : Str} (h : Encoded codes s t) {c : Char} (hc : c ∈ t) :
    (c ∈ s ∧ Plain codes c) ∨ c ∈ str% "%0123456789ABCDEF" := by
  induction h with
  | nil => cases hc
  | plain hp _ ih =>
    rcases List.mem_cons.1 hc with rfl | hc
    · exact .inl ⟨List.mem_cons_self, hp⟩
    · exact (ih hc).imp (fun h => ⟨List.mem_cons_of_mem _ h.1, h.2⟩) id
  | coded hp _ ih =>
    rcases List.mem_append.1 hc with hc | hc
    · right
      obtain ⟨b, _, hb⟩ := List.mem_flatMap.1 hc
      have hlt := b.toNat_lt
      simp only [List.mem_cons, List.not_mem_nil, or_false] at hb
      rcases hb with rfl | rfl | rfl
      · decide
      · exact hexUpper_mem _ (by omega)
      · exact hexUpper_mem _ (by omega)
    · exact (ih hc).imp (fun h => ⟨List.mem_cons_of_mem _ h.1, h.2⟩) id

theorem hex_plain : ∀ c ∈ str% "%0123456789ABCDEF", Plain userCodes c ∧ Plain pathCodes c ∧ Plain queryCodes c ∧
    Plain fragmentCodes c ∧ ¬ Slash c := by
  unfold Plain Slash
  decide

theorem encoded_self {codes s : Str} (h : ∀ c ∈ s, Plain codes c) : Encoded codes s s := by
  induction s with
  | nil => exact .nil
  | cons c s ih => exact .plain (h c (by simp)) (ih fun d hd => h d (by simp [hd]))

theorem encoded_ne {s t : Str} (h : Encoded userCodes s t) (hs : s ≠ []) : t ≠ [] := by
  rw [encoded_iff keepUser_iff] at h
  subst h
  exact fun e => hs (encode_nil.1 e)

theorem user_plain {s t : Str} (h : Encoded userCodes s t) : ∀ c ∈ t, Plain userCodes c := fun c hc =>
  (encoded_mem h hc).elim (·.2) fun hx => (hex_plain c hx).1

theorem userPlain_of {u : Option Str} {t : Str} (h : UserText u (some t)) : UserPlain t := by
  cases h with
  | name h1 h2 h3 => exact ⟨encoded_ne h3 h2, .inl (user_plain h3)⟩
  | noPassword h1 h2 h3 => exact ⟨encoded_ne h3 h2, .inl (user_plain h3)⟩
  | password h1 h2 h3 h4 => exact ⟨by simp, .inr ⟨_, _, rfl, encoded_ne h4 h2, user_plain h3, user_plain h4⟩⟩

theorem pieces_all {p : Str} {l : List Str} (h : Pieces p l) : l ≠ [] ∧ ∀ s ∈ l, ∀ c ∈ s, ¬ Slash c := by
  induction h with
  | last h => exact ⟨by simp, by simpa using h⟩
  | more h _ _ ih =>
    refine ⟨by simp, fun s hs => ?_⟩
    rcases List.mem_cons.1 hs with rfl | hs
    · exact h
    · exact ih.2 s hs

theorem shorter_all {keeps : Str → Bool} {P : Str → Prop} (h0 : P []) {l m : List Str} (h : Shorter keeps l m)
    (hl : ∀ s ∈ l, P s) : m ≠ [] ∧ ∀ s ∈ m, P s := by
  cases h <;> (refine ⟨by simp, fun s hs => ?_⟩) <;> grind

theorem shortened_all {keeps : Str → Bool} {P : Str → Prop} (h0 : P []) {l m : List Str} (h : Shortened keeps l m)
    (hn : l ≠ []) (hl : ∀ s ∈ l, P s) : m ≠ [] ∧ ∀ s ∈ m, P s := by
  induction h with
  | refl => exact ⟨hn, hl⟩
  | step h1 _ ih =>
    obtain ⟨a, b⟩ := shorter_all h0 h1 hl
    exact ih a b

theorem forall2_right {α β : Type} {R : α → β → Prop} {l : List α} {m : List β} (h : Forall2 R l m) :
    (l ≠ [] → m ≠ []) ∧ ∀ y ∈ m, ∃ x ∈ l, R x y := by
  induction h with
  | nil => exact ⟨fun h => absurd rfl h, by simp⟩
  | cons h1 _ ih =>
    refine ⟨fun _ => by simp, fun y hy => ?_⟩
    rcases List.mem_cons.1 hy with rfl | hy
    · exact ⟨_, List.mem_cons_self, h1⟩
    · obtain ⟨x, hx, hr⟩ := ih.2 y hy
      exact ⟨x, List.mem_cons_of_mem _ hx, hr⟩

theorem pathIs_tidy {E : Env} {text path : Str} (h : PathIs E text path) : ∃ segs, segs ≠ [] ∧ path = segs.flatMap ('/' :: ·) ∧
    ∀ s ∈ segs, ¬ Here s ∧ ¬ Up s ∧ ∀ c ∈ s, Plain pathCodes c ∧ ¬ Slash c := by
  obtain ⟨pieces, coded, segs, h1, h2, h3, h4, rfl⟩ := h
  have hp : pieces ≠ [] ∧ ∀ s ∈ pieces, ∀ c ∈ s, ¬ Slash c := by
    rcases h1 with ⟨_, rfl⟩ | ⟨_, _, _, _, h⟩
    · simp
    · exact pieces_all h
  obtain ⟨hn, hc⟩ := forall2_right h2
  obtain ⟨a, b⟩ := shortened_all (P := fun s => ∀ c ∈ s, Plain pathCodes c ∧ ¬ Slash c) (by simp) h3 (hn hp.1) (by
    intro s hs c hcs
    obtain ⟨x, hx, hr⟩ := hc s hs
    rcases encoded_mem hr hcs with ⟨h5, h6⟩ | h
    · exact ⟨h6, hp.2 x hx c h5⟩
    · exact ⟨(hex_plain c h).2.1, (hex_plain c h).2.2.2.2⟩)
  exact ⟨segs, a, rfl, fun s hs => ⟨(h4 s hs).1, (h4 s hs).2, b s hs⟩⟩

theorem partIs_plain {codes : Str} (hx : ∀ c ∈ str% "%0123456789ABCDEF", Plain codes c) {a : Option Str} {t : Str}
    (h : PartIs codes a (some t)) : ∀ c ∈ t, Plain codes c := by
  cases a with
  | none => cases h
  | some s => exact fun c hc => (encoded_mem h hc).elim (·.2) (hx c)

theorem portIs_bound {d : Nat} {t : Option Str} {n : Nat} (h : PortIs d t (some n)) : n < 65536 ∧ n ≠ d := by
  cases h with
  | port _ _ h1 h2 => exact ⟨h1, h2⟩

theorem parts_tidy {E : Env} {d : Nat} {auth target : Str} {u : UrlParts} {a : Authority} (hd : (u.scheme, d) ∈ webSchemes)
    (ha : u.authority = some a) (h1 : AuthorityIs E d auth a) (h2 : TargetIs E target u) : Tidy u a := by
  obtain ⟨_, _, _, _, _, _, _, _, _, hh, hu, hp⟩ := h1
  obtain ⟨_, _, _, _, _, _, h3, h4, h5⟩ := h2
  exact {
    authority := ha
    port := ⟨d, hd, fun n hn => portIs_bound (hn ▸ hp)⟩
    user := fun t ht => userPlain_of (ht ▸ hu)
    host := hh
    path := pathIs_tidy h3
    query := fun q hq => partIs_plain (fun c hc => (hex_plain c hc).2.2.1) (hq ▸ h4)
    fragment := fun f hf => partIs_plain (fun c hc => (hex_plain c hc).2.2.2.1) (hf ▸ h5) }

theorem plain_graphic {codes : Str} {c : Char} (h : Plain codes c) : UrlParts.graphic c = true := UrlParts.graphic_of h.1 h.2.1

theorem plain_ne {codes : Str} {c d : Char} (h : Plain codes c) (hd : d ∈ codes) : (c != d) = true := by
  simp only [bne_iff_ne]
  rintro rfl
  exact h.2.2 hd

theorem user_authorityChar {c : Char} (h : Plain userCodes c) : UrlParts.authorityChar c = true := by
  unfold UrlParts.authorityChar
  simp only [plain_graphic h, plain_ne h (d := '/') (by decide), plain_ne h (d := '?') (by decide), plain_ne h (d := '#') (by decide),
    plain_ne h (d := '@') (by decide), plain_ne h (d := '\\') (by decide), Bool.and_self]

theorem userPlain_chars {t : Str} (h : UserPlain t) : t.all UrlParts.authorityChar = true := by
  rw [List.all_eq_true]
  rcases h.2 with h | ⟨n, p, rfl, _, h1, h2⟩
  · exact fun c hc => user_authorityChar (h c hc)
  · intro c hc
    rcases List.mem_append.1 hc with hc | hc
    · exact user_authorityChar (h1 c hc)
    · rcases List.mem_cons.1 hc with rfl | hc
      · decide
      · exact user_authorityChar (h2 c hc)

theorem graphic_printable {c : Char} (h : UrlParts.graphic c = true) : UrlParts.printable c = true := by
  unfold UrlParts.graphic at h
  unfold UrlParts.printable
  simp only [Bool.and_eq_true, decide_eq_true_eq] at h ⊢
  omega

theorem webSchemes_scheme {s : Str} {d : Nat} (h : (s, d) ∈ webSchemes) :
    s ≠ [] ∧ s.all UrlParts.schemeChar = true ∧ (∃ c cs, s = c :: cs ∧ c.isAlpha = true ∧ ∀ d ∈ cs, schemeIn d) ∧ s.map asciiLower = s ∧
      ∀ c ∈ s, UrlParts.graphic c = true := by
  unfold webSchemes at h
  simp only [List.mem_cons, Prod.mk.injEq, List.not_mem_nil, or_false] at h
  have key : ∀ s ∈ [str% "http", str% "https", str% "ws", str% "wss", str% "ftp"],
      s ≠ [] ∧ s.all UrlParts.schemeChar = true ∧ ((s.head?.map Char.isAlpha) = some true ∧ ∀ d ∈ s.tail, schemeIn d) ∧ s.map asciiLower = s ∧
      ∀ c ∈ s, UrlParts.graphic c = true := by
    unfold schemeIn
    decide
  have hm : s ∈ [str% "http", str% "https", str% "ws", str% "wss", str% "ftp"] := by
    simp only [List.mem_cons, List.not_mem_nil, or_false]
    rcases h with h | h | h | h | h <;> simp [h.1]
  obtain ⟨h1, h2, h3, h4⟩ := key s hm
  refine ⟨h1, h2, ?_, h4⟩
  cases s with
  | nil => exact absurd rfl h1
  | cons c cs => exact ⟨c, cs, rfl, by simpa using h3.1, h3.2⟩

theorem flatMap_head {segs : List Str} (h : segs ≠ []) : ∃ p, segs.flatMap ('/' :: ·) = '/' :: p := by
  cases segs with
  | nil => exact absurd rfl h
  | cons s l => exact ⟨_, rfl⟩

theorem tidy_valid {u : UrlParts} {a : Authority} (h : Tidy u a) (hh : UrlParts.hostOk a.host = true) : u.valid = true := by
  obtain ⟨d, hd, hport⟩ := h.port
  obtain ⟨segs, hne, hpath, hsegs⟩ := h.path
  obtain ⟨s1, s2, _⟩ := webSchemes_scheme hd
  obtain ⟨p, hp⟩ := flatMap_head hne
  unfold UrlParts.valid
  rw [h.authority]
  simp only [Bool.and_eq_true]
  refine ⟨⟨⟨⟨⟨by cases hs : u.scheme with | nil => exact absurd hs s1 | cons => rfl, s2⟩, ⟨⟨⟨?_, hh⟩, ?_⟩, ?_⟩⟩, ?_⟩, ?_⟩, ?_⟩
  · cases hu : a.userinfo with
    | none => rfl
    | some t => exact userPlain_chars (h.user t hu)
  · cases hn : a.port with
    | none => rfl
    | some n => exact decide_eq_true (hport n hn).1
  · rw [hpath, hp]; rfl
  · rw [hpath, List.all_eq_true]
    intro c hc
    obtain ⟨s, hs, hc⟩ := List.mem_flatMap.1 hc
    rcases List.mem_cons.1 hc with rfl | hc
    · decide
    · have := ((hsegs s hs).2.2 c hc).1
      unfold UrlParts.pathChar
      simp only [graphic_printable (plain_graphic this), plain_ne this (d := '?') (by decide), plain_ne this (d := '#') (by decide), Bool.and_self]
  · cases hq : u.query with
    | none => rfl
    | some q =>
      refine List.all_eq_true.2 fun c hc => ?_
      have := h.query q hq c hc
      unfold UrlParts.queryChar
      simp only [plain_graphic this, plain_ne this (d := '#') (by decide), Bool.and_self]
  · cases hf : u.fragment with
    | none => rfl
    | some f => exact List.all_eq_true.2 fun c hc => graphic_printable (plain_graphic (h.fragment f hf c hc))

theorem authorityIs_host {E : Env} {d : Nat} {auth : Str} {a : Authority} (h : AuthorityIs E d auth a) :
    UrlParts.hostOk a.host = true := by
  obtain ⟨_, host, _, _, _, _, _, _, h1, _⟩ := h
  rw [Option.map_eq_some_iff] at h1
  obtain ⟨x, _, hx⟩ := h1
  exact hx ▸ x.2

/-- The test of `valid` in the parser always succeeds. -/
theorem parseParts_valid {E : Env} {scheme rest : Str} {d : Nat} {u : UrlParts} (hd : (scheme, d) ∈ webSchemes)
    (h : parseParts E scheme d rest = some u) : u.valid = true ∧ ∃ a, Tidy u a := by
  obtain ⟨_, _, _, a, _, rfl, _, _, h3, h4, h5⟩ := (parseParts_iff (webSchemes_port hd)).1 h
  have := parts_tidy hd h3 h4 h5
  exact ⟨tidy_valid this (authorityIs_host h4), a, this⟩

/-! ### Tidy URLs are read as they are -/

theorem userText_self {u : Option Str} (h : ∀ t, u = some t → UserPlain t) : UserText u u := by
  have hc : ∀ {n : Str}, (∀ c ∈ n, Plain userCodes c) → ':' ∉ n := fun h hm => (h _ hm).2.2 (by decide)
  cases u with
  | none => exact .absent
  | some t =>
    obtain ⟨h1, h2 | ⟨n, p, rfl, h3, h4, h5⟩⟩ := h t rfl
    · exact .name (hc h2) h1 (encoded_self h2)
    · exact .password (hc h4) h3 (encoded_self h4) (encoded_self h5)

theorem pieces_self {segs : List Str} (h : ∀ s ∈ segs, ∀ c ∈ s, ¬ Slash c) (hn : segs ≠ []) :
    ∃ p, segs.flatMap ('/' :: ·) = '/' :: p ∧ Pieces p segs := by
  induction segs with
  | nil => exact absurd rfl hn
  | cons s l ih =>
    cases l with
    | nil => exact ⟨s, by simp, .last (h s (by simp))⟩
    | cons t l =>
      obtain ⟨p, h1, h2⟩ := ih (fun s hs => h s (by simp [hs])) (by simp)
      exact ⟨s ++ '/' :: p, by rw [List.flatMap_cons, h1]; rfl, .more (h s (by simp)) (.inl rfl) h2⟩

theorem forall2_self {α : Type} {R : α → α → Prop} : ∀ {l : List α}, (∀ x ∈ l, R x x) → Forall2 R l l
  | [], _ => .nil
  | _ :: _, h => .cons (h _ (by simp)) (forall2_self fun x hx => h x (by simp [hx]))

theorem targetIs_self {E : Env} {u : UrlParts} {a : Authority} (h : Tidy u a) :
    TargetIs E (u.path ++ (markedText '?' u.query ++ markedText '#' u.fragment)) u := by
  obtain ⟨segs, hne, hpath, hsegs⟩ := h.path
  refine ⟨u.path, u.query, u.fragment, rfl, ?_, ?_, ?_, ?_, ?_⟩
  · intro c hc
    rw [hpath] at hc
    obtain ⟨s, hs, hc⟩ := List.mem_flatMap.1 hc
    rcases List.mem_cons.1 hc with rfl | hc
    · decide
    · have := ((hsegs s hs).2.2 c hc).1
      exact ⟨by simpa using plain_ne this (d := '?') (by decide), by simpa using plain_ne this (d := '#') (by decide)⟩
  · intro q hq hm
    exact (h.query q hq _ hm).2.2 (by decide)
  · obtain ⟨p, h1, h2⟩ := pieces_self (fun s hs c hc => ((hsegs s hs).2.2 c hc).2) hne
    exact ⟨segs, segs, segs, .inr ⟨'/', p, hpath.trans h1, .inl rfl, h2⟩,
      forall2_self fun s hs => encoded_self fun c hc => ((hsegs s hs).2.2 c hc).1, .refl, fun s hs => ⟨(hsegs s hs).1, (hsegs s hs).2.1⟩, hpath⟩
  · cases hq : u.query with
    | none => trivial
    | some q => exact encoded_self (h.query q hq)
  · cases hf : u.fragment with
    | none => trivial
    | some f => exact encoded_self (h.fragment f hf)

theorem portText_marked (p : Option Nat) : portText p = markedText ':' (p.map Sfv.natStr) := by cases p <;> rfl

theorem splitHost_text {h : Str} (hh : UrlParts.hostOk h = true) (port : Option Str) :
    splitHost false (h ++ markedText ':' port) = (h, markedText ':' port) := by
  have open_false : ∀ x, Open false x ↔ InBrackets x := fun x => by unfold Open; simp
  rw [splitHost_iff]
  rcases UrlParts.hostOk_cases hh with h1 | ⟨m, rfl, hm⟩
  · refine ⟨rfl, fun x y e => ?_, ?_⟩
    · exact absurd rfl (h1 ':' (by rw [e]; simp)).2.1
    · cases port with
      | none => exact .inl rfl
      | some d =>
        refine .inr ⟨d, rfl, fun ho => ?_⟩
        obtain ⟨x, y, e, _⟩ := (open_false _).1 ho
        exact absurd rfl (h1 '[' (by rw [e]; simp)).2.2.1
  · refine ⟨rfl, fun x y e => (open_false x).2 ?_, ?_⟩
    · cases x with
      | nil => simp at e
      | cons b x =>
        simp only [List.cons_append, List.cons.injEq] at e
        obtain ⟨rfl, e⟩ := e
        refine ⟨[], x, rfl, fun hx => ?_⟩
        have hx' : x ⊆ m := by
          have hy : y ≠ [] := by
            rintro rfl
            have := congrArg List.getLast? e
            simp at this
          obtain ⟨y', z, rfl⟩ : ∃ y' z, y = y' ++ [z] := ⟨y.dropLast, y.getLast hy, (List.dropLast_concat_getLast hy).symm⟩
          have := congrArg List.dropLast e
          rw [List.dropLast_concat, show x ++ ':' :: (y' ++ [z]) = (x ++ ':' :: y') ++ [z] by simp, List.dropLast_concat] at this
          rw [this]
          simp
        exact absurd rfl (hm _ (hx' hx)).2.2.2.2.2.2.1
    · cases port with
      | none => exact .inl rfl
      | some d =>
        refine .inr ⟨d, rfl, fun ho => ?_⟩
        obtain ⟨x, y, e, hy⟩ := (open_false _).1 ho
        have h1 := congrArg List.getLast? e
        rw [List.getLast?_concat, List.getLast?_append] at h1
        have h2 : ('[' :: y).getLast? = some (('[' :: y).getLast (by simp)) := List.getLast?_eq_some_getLast _
        rw [h2, Option.some_or, Option.some.injEq] at h1
        have h3 : ']' ∈ '[' :: y := h1 ▸ List.getLast_mem _
        exact hy (by simpa using h3)

theorem portIs_self {d : Nat} {port : Option Nat} (h : ∀ n, port = some n → n < 65536 ∧ n ≠ d) : PortIs d (port.map Sfv.natStr) port := by
  cases port with
  | none => exact .absent
  | some n =>
    exact .port (Sfv.natStr_ne_nil n) ((Grammar.digits_iff _ _).2 ⟨fun c hc => Sfv.natStr_all n c hc, Sfv.digitsVal_natStr n⟩) (h n rfl).1 (h n rfl).2

theorem parseAuthority_text {E : Env} {d : Nat} (hd : d < 65536) {a : Authority} (hu : ∀ t, a.userinfo = some t → UserPlain t)
    (hh : UrlParts.hostOk a.host = true) (hn : a.host ≠ []) (hp : ∀ n, a.port = some n → n < 65536 ∧ n ≠ d) :
    parseAuthority E d a.text = (E.host a.host).bind fun h => if h.1 = [] then none else some { a with host := h.1 } := by
  have hat : '@' ∉ a.host ++ markedText ':' (a.port.map Sfv.natStr) := by
    rw [← portText_marked]
    intro hm
    rcases List.mem_append.1 hm with hm | hm
    · have := UrlParts.host_chars hh hm
      revert this
      decide
    · rcases UrlParts.port_chars hm with h | h <;> revert h <;> decide
  have e1 : splitAt a.text = (a.userinfo, a.host ++ markedText ':' (a.port.map Sfv.natStr)) :=
    splitAt_iff.2 ⟨by unfold Authority.text; rw [portText_marked, List.append_assoc], hat⟩
  unfold parseAuthority
  simp only [e1, splitHost_text hh, if_neg hn]
  have e3 : (markedText ':' (a.port.map Sfv.natStr)).drop 1 = (a.port.map Sfv.natStr).getD [] := by cases a.port <;> rfl
  rw [e3, (parsePort_iff hd).1 (portIs_self hp), userText_iff.1 (userText_self hu)]
  cases E.host a.host <;> rfl

theorem parseParts_text {E : Env} {u : UrlParts} {a : Authority} (h : Tidy u a) (hh : UrlParts.hostOk a.host = true) {d : Nat}
    (hd : (u.scheme, d) ∈ webSchemes) :
    parseParts E u.scheme d (u.authorityText ++ u.path ++ markedText '?' u.query ++ markedText '#' u.fragment) =
      (E.host a.host).bind fun h => if h.1 = [] then none else some { u with authority := some { a with host := h.1 } } := by
  obtain ⟨h6, h7, h8⟩ := targetIs_iff.1 (targetIs_self (E := E) h)
  obtain ⟨segs, hne, hpath, _⟩ := h.path
  have hd' : ∀ n, a.port = some n → n < 65536 ∧ n ≠ d := by
    obtain ⟨d', hd', hp⟩ := h.port
    rw [← defaultPort_iff] at hd hd'
    rw [hd] at hd'
    cases hd'
    exact hp
  have hno : ∀ c ∈ a.text, isDelim c = false := by
    intro c hc
    have : UrlParts.authorityChar c = true ∨ c = '@' :=
      UrlParts.authText_chars ⟨fun t ht => userPlain_chars (h.user t ht), hh⟩ hc
    rcases this with hc | rfl
    · unfold UrlParts.authorityChar at hc
      unfold isDelim isSlash
      simp only [Bool.and_eq_true, bne_iff_ne] at hc
      simp [hc]
    · decide
  have e : u.authorityText ++ u.path ++ markedText '?' u.query ++ markedText '#' u.fragment =
      str% "//" ++ (a.text ++ (u.path ++ (markedText '?' u.query ++ markedText '#' u.fragment))) := by
    unfold UrlParts.authorityText
    rw [h.authority]
    simp
  have hat : a.text ≠ [] := by
    unfold Authority.text
    simp [h.host]
  have e1 : (str% "//" ++ (a.text ++ (u.path ++ (markedText '?' u.query ++ markedText '#' u.fragment)))).dropWhile isSlash =
      a.text ++ (u.path ++ (markedText '?' u.query ++ markedText '#' u.fragment)) := by
    refine (takeWhile_dropWhile_iff.2 ⟨rfl, by decide, ?_⟩).2
    intro c hc
    cases ht : a.text with
    | nil => exact absurd ht hat
    | cons b bs =>
      rw [ht] at hc hno
      obtain rfl : b = c := by simpa using hc
      have := hno b (by simp)
      unfold isDelim at this
      simp only [Bool.or_eq_false_iff] at this
      exact this.1.1
  have e2 := (takeWhile_dropWhile_iff (p := fun c => !isDelim c)
      (s := a.text ++ (u.path ++ (markedText '?' u.query ++ markedText '#' u.fragment))) (a := a.text)
      (b := u.path ++ (markedText '?' u.query ++ markedText '#' u.fragment))).2
    ⟨rfl, fun c hc => by simpa using hno c hc, fun c hc => by
      rcases h6 with h6 | ⟨c', r, h6, hc'⟩
      · rw [h6] at hc; cases hc
      · rw [h6] at hc; cases hc; simpa using hc'⟩
  unfold parseParts
  simp only [e, e1, e2.1, e2.2, h7, h8, parseAuthority_text (webSchemes_port hd) h.user hh h.host hd']
  cases E.host a.host with
  | none => rfl
  | some x =>
    simp only [Option.bind_some]
    by_cases hx : x.1 = []
    · rw [if_pos hx, if_pos hx]; rfl
    · rw [if_neg hx, if_neg hx]; rfl

theorem clean_visible {s : Str} (hg : ∀ c ∈ s, 33 ≤ c.toNat) : clean s = s := by
  have hn : ∀ c ∈ s, decide (c.toNat ≤ 32) = false := fun c hc => by
    have := hg c hc
    simp only [decide_eq_false_iff_not]
    omega
  rw [← stripped_iff]
  refine ⟨s, ⟨[], [], by simp, by simp, by simp, fun c hc => hn c (List.mem_of_mem_head? hc),
    fun c hc => hn c (List.mem_of_getLast? hc)⟩, ?_⟩
  refine (List.filter_eq_self.2 fun c hc => ?_).symm
  have := hg c hc
  simp only [decide_eq_true_eq, List.mem_cons, List.not_mem_nil, or_false, not_or]
  refine ⟨?_, ?_, ?_⟩ <;> (rintro rfl; revert this; decide)

theorem clean_graphic {s : Str} (h : ∀ c ∈ s, UrlParts.graphic c = true) : clean s = s :=
  clean_visible fun c hc => by
    have := h c hc
    unfold UrlParts.graphic at this
    simp only [Bool.and_eq_true, decide_eq_true_eq] at this
    exact this.1

theorem tidy_graphic {u : UrlParts} {a : Authority} (h : Tidy u a) (hh : UrlParts.hostOk a.host = true) :
    ∀ c ∈ u.text, UrlParts.graphic c = true := by
  obtain ⟨d, hd, _⟩ := h.port
  obtain ⟨segs, hne, hpath, hsegs⟩ := h.path
  have hm : ∀ (m : Char) (o : Option Str), UrlParts.graphic m = true → (∀ s, o = some s → ∀ c ∈ s, UrlParts.graphic c = true) →
      ∀ c ∈ markedText m o, UrlParts.graphic c = true := by
    intro m o h1 h2 c hc
    cases o with
    | none => cases hc
    | some s =>
      rcases List.mem_cons.1 hc with rfl | hc
      · exact h1
      · exact h2 s rfl c hc
  intro c hc
  unfold UrlParts.text UrlParts.authorityText at hc
  rw [h.authority] at hc
  simp only [List.mem_append, List.mem_cons] at hc
  rcases hc with hc | rfl | (((hc | hc) | hc) | hc) | hc
  · exact (webSchemes_scheme hd).2.2.2.2 c hc
  · decide
  · have : ∀ c ∈ str% "//", UrlParts.graphic c = true := by decide
    exact this c (by simpa using hc)
  · rcases UrlParts.authText_chars ⟨fun t ht => userPlain_chars (h.user t ht), hh⟩ hc with hc | rfl
    · unfold UrlParts.authorityChar at hc
      simp only [Bool.and_eq_true] at hc
      exact hc.1.1.1.1.1
    · decide
  · rw [hpath] at hc
    obtain ⟨s, hs, hc⟩ := List.mem_flatMap.1 hc
    rcases List.mem_cons.1 hc with rfl | hc
    · decide
    · exact plain_graphic ((hsegs s hs).2.2 c hc).1
  · exact hm '?' _ (by decide) (fun q hq c hc => plain_graphic (h.query q hq c hc)) c hc
  · exact hm '#' _ (by decide) (fun f hf c hc => plain_graphic (h.fragment f hf c hc)) c hc

/-! ### The parser -/

theorem hasScheme_iff {s scheme rest : Str} : HasScheme s scheme rest ↔ parseScheme (clean s) = some (scheme, rest) := by
  rw [parseScheme_iff]
  unfold HasScheme
  constructor
  · rintro ⟨c, cs, h1, h2, h3, h4⟩
    exact ⟨c, cs, stripped_iff.1 h1, h2, h3, h4⟩
  · rintro ⟨c, cs, h1, h2, h3, h4⟩
    exact ⟨c, cs, stripped_iff.2 h1, h2, h3, h4⟩

theorem alpha_of_lower {c : Char} (h : (asciiLower c).isLower = true) : c.isAlpha = true := by
  unfold asciiLower at h
  unfold Char.isAlpha
  split at h
  · rename_i hc
    rw [hc]; rfl
  · rw [h]; simp

theorem webScheme_lower {scheme : Str} {d : Nat} (h : (lowered scheme, d) ∈ webSchemes) :
    ∃ c cs, scheme = c :: cs ∧ c.isAlpha = true ∧ ∀ x ∈ cs, schemeIn x := by
  have hl : ∀ c ∈ lowered scheme, c.isLower = true := by
    unfold webSchemes at h
    simp only [List.mem_cons, Prod.mk.injEq, List.not_mem_nil, or_false] at h
    rcases h with h | h | h | h | h <;> (rw [h.1]; decide)
  have ha : ∀ c ∈ scheme, c.isAlpha = true := fun c hc => alpha_of_lower (hl _ (by
    rw [lowered_eq]
    exact List.mem_map_of_mem hc))
  cases scheme with
  | nil => exact absurd rfl (webSchemes_scheme h).1
  | cons c cs => exact ⟨c, cs, rfl, ha c (by simp), fun x hx => .inl (ha x (by simp [hx]))⟩

theorem parse_web {E : Env} {s scheme rest : Str} {d : Nat} (h : HasScheme s scheme rest) (hd : (scheme, d) ∈ webSchemes) (u : Url) :
    parse E s = .ok u ↔ parseParts E scheme d rest = some u.toUrlParts := by
  unfold parse
  rw [hasScheme_iff.1 h]
  simp only [defaultPort_iff.2 hd]
  cases hp : parseParts E scheme d rest with
  | none => simp
  | some p =>
    have hv := (parseParts_valid hd hp).1
    simp only [dif_pos hv, UrlParse.ok.injEq, Option.some.injEq]
    constructor
    · rintro rfl; rfl
    · intro e
      obtain ⟨p', ok⟩ := u
      simp only at e
      subst e
      rfl

theorem webUrl_iff {E : Env} {s : Str} {u : UrlParts} : WebUrl E s u ↔
    ∃ scheme rest d, HasScheme s scheme rest ∧ (scheme, d) ∈ webSchemes ∧ parseParts E scheme d rest = some u := by
  constructor
  · rintro ⟨scheme, slashes, auth, target, d, a, h1, h2, h3, h4, h5, h6, h7, h8⟩
    rw [← h2] at h3
    obtain ⟨c, cs, rfl, hc, hcs⟩ := webScheme_lower h3
    exact ⟨_, slashes ++ (auth ++ target), d, ⟨c, cs, h1, hc, hcs, rfl⟩, h3,
      (parseParts_iff (webSchemes_port h3)).2 ⟨slashes, auth, target, a, rfl, h2.symm, h4, h5, h6, h7, h8⟩⟩
  · rintro ⟨scheme, rest, d, ⟨c, cs, h1, _, _, rfl⟩, hd, h2⟩
    obtain ⟨slashes, auth, target, a, rfl, hs, h4, h5, h6, h7, h8⟩ := (parseParts_iff (webSchemes_port hd)).1 h2
    exact ⟨c :: cs, slashes, auth, target, d, a, h1, hs.symm, hs ▸ hd, h4, h5, h6, h7, h8⟩

theorem hasScheme_text {u : UrlParts} {a : Authority} (h : Tidy u a) (hh : UrlParts.hostOk a.host = true) :
    HasScheme u.text u.scheme (u.authorityText ++ u.path ++ markedText '?' u.query ++ markedText '#' u.fragment) := by
  obtain ⟨d, hd, _⟩ := h.port
  obtain ⟨_, _, ⟨c, cs, e, hc, hcs⟩, hlow, _⟩ := webSchemes_scheme hd
  refine ⟨c, cs, stripped_iff.2 ((clean_graphic (tidy_graphic h hh)).trans ?_), hc, hcs, ?_⟩
  · unfold UrlParts.text
    rw [e]
  · rw [← e, lowered_eq, hlow]

theorem parse_text {E : Env} {u : Url} {a : Authority} (h : Tidy u.toUrlParts a) :
    parse E u.asStr = .ok u ↔ (E.host a.host).map Subtype.val = some a.host := by
  obtain ⟨d, hd, _⟩ := h.port
  have hh : UrlParts.hostOk a.host = true := (UrlParts.valid_some u.ok h.authority).1.2
  show parse E u.text = _ ↔ _
  rw [parse_web (hasScheme_text h hh) hd, parseParts_text h hh hd]
  cases he : E.host a.host with
  | none => simp
  | some x =>
    simp only [Option.bind_some, Option.map_some, Option.some.injEq]
    by_cases hx : x.1 = []
    · rw [if_pos hx, hx]
      simp [Ne.symm h.host]
    · rw [if_neg hx, Option.some.injEq]
      constructor
      · intro e
        have := congrArg UrlParts.authority e
        rw [h.authority] at this
        simp only [Option.some.injEq] at this
        exact congrArg Authority.host this
      · intro e
        rw [e]
        show ({ u.toUrlParts with authority := some a } : UrlParts) = _
        rw [← h.authority]

theorem parseParts_split {E : Env} {scheme auth target : Str} {d : Nat} {u : UrlParts} (hd : d < 65536) (hn : auth ≠ [])
    (ha : ∀ c ∈ auth, ¬ Slash c ∧ c ≠ '?' ∧ c ≠ '#') (ht : ∀ c ∈ target.head?, Slash c ∨ c = '?' ∨ c = '#') :
    parseParts E scheme d (str% "//" ++ (auth ++ target)) = some u ↔
      u.scheme = scheme ∧ ∃ a, u.authority = some a ∧ AuthorityIs E d auth a ∧ TargetIs E target u := by
  constructor
  · intro h
    have hno : ∀ c ∈ auth, isDelim c = false := by
      intro c hc
      obtain ⟨h1, h2, h3⟩ := ha c hc
      rw [← slash_iff] at h1
      unfold isDelim
      simp [h1, h2, h3]
    have e1 : (str% "//" ++ (auth ++ target)).dropWhile isSlash = auth ++ target := by
      refine (takeWhile_dropWhile_iff.2 ⟨rfl, by decide, ?_⟩).2
      intro c hc
      cases auth with
      | nil => exact absurd rfl hn
      | cons b bs =>
        obtain rfl : b = c := by simpa using hc
        have := (ha b (by simp)).1
        rw [← slash_iff] at this
        simpa using this
    have e2 := (takeWhile_dropWhile_iff (p := fun c => !isDelim c) (s := auth ++ target) (a := auth) (b := target)).2
      ⟨rfl, fun c hc => by simpa using hno c hc, fun c hc => by
        have := ht c hc
        rw [← slash_iff] at this
        unfold isDelim
        rcases this with h | rfl | rfl
        · simp [h]
        · rfl
        · rfl⟩
    unfold parseParts at h
    simp only [e1, e2.1, e2.2, Option.map_eq_some_iff] at h
    obtain ⟨a, h1, rfl⟩ := h
    refine ⟨rfl, a, rfl, (parseAuthority_iff hd).2 h1, targetIs_iff.2 ⟨?_, rfl, rfl⟩⟩
    cases target with
    | nil => exact .inl rfl
    | cons c r =>
      refine .inr ⟨c, r, rfl, ?_⟩
      have := ht c (by simp)
      rw [← slash_iff] at this
      unfold isDelim
      simpa [or_assoc] using this
  · rintro ⟨h1, a, h2, h3, h4⟩
    exact (parseParts_iff hd).2 ⟨str% "//", auth, target, a, rfl, h1, by unfold Slash; decide, ha, h2, h3, h4⟩

/-- The scheme is still there when the ends are stripped. -/
theorem hasScheme_of {c : Char} {cs r : Str} (hc : c.isAlpha = true) (hcs : ∀ d ∈ cs, schemeIn d) :
    ∃ rest, HasScheme (c :: cs ++ ':' :: r) (lowered (c :: cs)) rest := by
  have hvis : ∀ d, schemeIn d ∨ d = ':' → 33 ≤ d.toNat := by
    intro d hd
    unfold schemeIn at hd
    have key : ∀ n, n < 33 → ¬ ((Char.ofNat n).isAlpha = true ∨ (Char.ofNat n).isDigit = true ∨ Char.ofNat n ∈ str% "+-." ∨ Char.ofNat n = ':') := by
      decide
    by_cases h : d.toNat < 33
    · have := key d.toNat h
      rw [Char.ofNat_toNat] at this
      grind
    · omega
  obtain ⟨m, ⟨a, b, h1, h2, h3, h4, h5⟩, h6⟩ := stripped_iff.2 (rfl : clean (c :: cs ++ ':' :: r) = _)
  have ha : a = [] := by
    cases a with
    | nil => rfl
    | cons x a =>
      simp only [List.cons_append, List.cons.injEq] at h1
      obtain ⟨rfl, _⟩ := h1
      have := h2 c (by simp)
      have := hvis c (.inl (.inl hc))
      simp only [decide_eq_true_eq] at *
      omega
  subst ha
  rw [List.nil_append] at h1
  obtain ⟨r', hm⟩ : ∃ r', m = c :: cs ++ ':' :: r' := by
    rcases List.append_eq_append_iff.1 (show (c :: cs ++ [':']) ++ r = m ++ b by rw [← h1]; simp) with ⟨x, e, _⟩ | ⟨x, e, e'⟩
    · exact ⟨x, by rw [e]; simp⟩
    · by_cases hx : x = []
      · subst hx
        exact ⟨[], by rw [List.append_nil] at e; exact e.symm⟩
      · have hl := congrArg List.getLast? e
        rw [List.getLast?_concat, List.getLast?_append, List.getLast?_eq_some_getLast hx, Option.some_or, Option.some.injEq] at hl
        have := h3 ':' (by rw [e', List.mem_append]; exact .inl (hl ▸ List.getLast_mem hx))
        exact absurd this (by decide)
  have hf : ∀ s : Str, (∀ d ∈ s, schemeIn d ∨ d = ':') → s.filter (fun c => decide (c ∉ ['\t', '\n', '\r'])) = s := by
    intro s hs
    refine List.filter_eq_self.2 fun d hd => ?_
    have := hvis d (hs d hd)
    simp only [decide_eq_true_eq, List.mem_cons, List.not_mem_nil, or_false, not_or]
    refine ⟨?_, ?_, ?_⟩ <;> (rintro rfl; revert this; decide)
  refine ⟨r'.filter fun c => decide (c ∉ ['\t', '\n', '\r']), c, cs, stripped_iff.2 ?_, hc, hcs, rfl⟩
  rw [h6, hm, show c :: cs ++ ':' :: r' = (c :: cs ++ [':']) ++ r' by simp, List.filter_append, hf]
  · simp
  · intro d hd
    simp only [List.cons_append, List.mem_cons, List.mem_append, List.not_mem_nil, or_false] at hd
    rcases hd with rfl | hd | rfl
    · exact .inl (.inl hc)
    · exact .inl (hcs d hd)
    · exact .inr rfl

end UrlParser
end Httpsig
