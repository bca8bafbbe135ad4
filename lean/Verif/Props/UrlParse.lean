import Verif.Lemmas.UrlAlias
import Verif.Lemmas.UrlQuery
import Verif.Lemmas.Cli
import Verif.Spec.Wire
import Verif.Props.Tamper
import Verif.Spec.TestDeps
/-
C122: the URL that is signed and verified is what the request line and the `Host` header mean.
-/
set_option linter.unusedSectionVars false
namespace Httpsig
open UrlParser

/-- C122. A text is refused as "relative" exactly when it does not begin with a scheme. -/
theorem C122_relative (E : Env) (s : Str) : parse E s = .relative ↔ ∀ scheme rest, ¬ HasScheme s scheme rest := by
  constructor
  · intro h scheme rest hs
    rw [hasScheme_iff] at hs
    unfold parse at h
    rw [hs] at h
    simp only at h
    split at h
    · split at h <;> cases h
    · split at h
      · split at h <;> cases h
      · cases h
  · intro h
    unfold parse
    cases hp : parseScheme (clean s) with
    | none => rfl
    | some x => exact absurd (hasScheme_iff.2 hp) (h x.1 x.2)

/-- C122. A text that begins with one of the schemes is read as the URL that it means, and refused if it means none. -/
theorem C122_read (E : Env) (s scheme rest : Str) (dflt : Nat) (hs : HasScheme s scheme rest) (hd : (scheme, dflt) ∈ webSchemes)
    (u : UrlParts) : (∃ ok, parse E s = .ok ⟨u, ok⟩) ↔ WebUrl E s u := by
  rw [webUrl_iff]
  constructor
  · rintro ⟨ok, h⟩
    exact ⟨scheme, rest, dflt, hs, hd, (parse_web hs hd _).1 h⟩
  · rintro ⟨scheme', rest', d', hs', hd', h⟩
    exact ⟨(parseParts_valid hd' h).1, (parse_web hs' hd' ⟨u, (parseParts_valid hd' h).1⟩).2 h⟩

/-- C122. In a URL that has been read there is nothing left to be encoded, removed or omitted, and printed it is read again as the
same URL, if its host is. -/
theorem C122_tidy (E : Env) (s : Str) (u : Url) (h : WebUrl E s u.toUrlParts) : ∃ a, Tidy u.toUrlParts a ∧
    ((E.host a.host).map Subtype.val = some a.host → parse E u.asStr = .ok u) := by
  obtain ⟨_, _, _, _, hd, h⟩ := webUrl_iff.1 h
  obtain ⟨_, a, ha⟩ := parseParts_valid hd h
  exact ⟨a, ha, (parse_text ha).2⟩

/-- C122. A URL of one of the schemes is read again as itself exactly when there is nothing in it to be encoded, removed or omitted
and its host is read as itself. -/
theorem C122_reread (E : Env) (u : Url) (dflt : Nat) (hd : (u.scheme, dflt) ∈ webSchemes) :
    parse E u.asStr = .ok u ↔ ∃ a, Tidy u.toUrlParts a ∧ (E.host a.host).map Subtype.val = some a.host := by
  constructor
  · intro h
    obtain ⟨_, _, ⟨c, cs, e, hc, hcs⟩, hlow, _⟩ := webSchemes_scheme hd
    obtain ⟨rest, hs⟩ := hasScheme_of (r := u.authorityText ++ u.path ++ markedText '?' u.query ++ markedText '#' u.fragment) hc hcs
    have hs' : HasScheme u.asStr u.scheme rest := by
      have e1 : lowered (c :: cs) = u.scheme := by rw [← e, lowered_eq, hlow]
      have e2 : c :: cs ++ ':' :: (u.authorityText ++ u.path ++ markedText '?' u.query ++ markedText '#' u.fragment) = u.asStr := by
        rw [← e]; rfl
      rw [e1, e2] at hs
      exact hs
    obtain ⟨a, ha, _⟩ := C122_tidy E u.asStr u ((C122_read E _ _ _ _ hs' hd _).1 ⟨u.ok, h⟩)
    exact ⟨a, ha, (parse_text ha).1 h⟩
  · rintro ⟨a, ha, hh⟩
    exact (parse_text ha).2 hh

/-! ### Requests in files -/

section
variable [Deps]

theorem slash_relative {c : Char} {t : Str} (hc : Slash c ∨ c = '?' ∨ c = '#' ∨ c = '*' ∨ c = '@' ∨ c = ':') :
    ∀ scheme rest, ¬ HasScheme (c :: t) scheme rest := by
  rintro scheme rest ⟨d, ds, ⟨m, ⟨a, b, h1, h2, _, _, _⟩, h3⟩, hd, _⟩
  have hc' : 33 ≤ c.toNat ∧ c ∉ ['\t', '\n', '\r'] ∧ c.isAlpha = false := by
    rcases hc with (rfl | rfl) | rfl | rfl | rfl | rfl | rfl <;> decide
  cases a with
  | cons x a =>
    simp only [List.cons_append, List.cons.injEq] at h1
    obtain ⟨rfl, _⟩ := h1
    have := h2 c (by simp)
    simp only [decide_eq_true_eq] at this
    omega
  | nil =>
    cases m with
    | nil => cases h3
    | cons x m =>
      simp only [List.nil_append, List.cons_append, List.cons.injEq] at h1
      obtain ⟨rfl, _⟩ := h1
      rw [List.filter_cons, if_pos (by simpa using hc'.2.1)] at h3
      rw [List.cons_append, List.cons.injEq] at h3
      rw [h3.1, hc'.2.2] at hd
      cases hd

/-- C122. A request in a file with a `Host` header and a request target that does not begin with a scheme: the authority of its URL
is read from the text of the header and what there is in the target before a slash, question mark or number sign; path, query and
fragment are read from the rest of the target. The scheme is `http`. -/
theorem C122_request (E : Env) (hU : ∀ s, Deps.parseUrl s = parse E s) (headers : HeaderMap) (v : HeaderValue) (h x p : Str)
    (hv : (headers.getAll hHost).head? = some v) (hh : v.toStr = some h) (hn : h ++ x ≠ [])
    (hc : ∀ c ∈ h ++ x ++ p, 32 < c.toNat) (ha : ∀ c ∈ h ++ x, ¬ Slash c ∧ c ≠ '?' ∧ c ≠ '#')
    (hp : ∀ c ∈ p.head?, Slash c ∨ c = '?' ∨ c = '#') (hs : ∀ scheme rest, ¬ HasScheme (x ++ p) scheme rest) (url : Url) :
    UrlOf (x ++ p) headers url ↔ url.scheme = str% "http" ∧
      ∃ a, url.authority = some a ∧ AuthorityIs E 80 (h ++ x) a ∧ TargetIs E p url.toUrlParts := by
  have hrel : Deps.parseUrl (x ++ p) = .relative := by rw [hU]; exact (C122_relative E _).2 hs
  have hd : (str% "http", 80) ∈ webSchemes := by decide
  have hsch : HasScheme (str% "http://" ++ h ++ (x ++ p)) (str% "http") (str% "//" ++ ((h ++ x) ++ p)) := by
    refine ⟨'h', str% "ttp", stripped_iff.2 ?_, by decide, by decide, by decide⟩
    rw [clean_visible]
    · simp
    · intro c hm
      simp only [List.append_assoc, List.mem_append] at hm hc
      rcases hm with hm | hm
      · revert c; decide
      · exact hc c hm
  rw [← parseParts_split (by decide) hn ha hp, ← parse_web hsch hd url, ← hU]
  unfold UrlOf
  rw [hrel, hv]
  constructor
  · rintro (h' | ⟨_, v', h', e1, e2, e3⟩)
    · cases h'
    · cases e1
      rw [hh] at e2
      cases e2
      exact e3
  · exact fun h' => .inr ⟨rfl, v, h, rfl, hh, h'⟩

/-- C122. In particular for the usual targets, which begin with a slash: the `Host` header gives the authority, the target the path,
query and fragment. -/
theorem C122_origin_form (E : Env) (hU : ∀ s, Deps.parseUrl s = parse E s) (headers : HeaderMap) (v : HeaderValue) (h t : Str) (c : Char)
    (hv : (headers.getAll hHost).head? = some v) (hh : v.toStr = some h) (hn : h ≠ [])
    (hvis : ∀ d ∈ h ++ c :: t, 32 < d.toNat) (ha : ∀ d ∈ h, ¬ Slash d ∧ d ≠ '?' ∧ d ≠ '#') (hc : Slash c) (url : Url) :
    UrlOf (c :: t) headers url ↔ url.scheme = str% "http" ∧
      ∃ a, url.authority = some a ∧ AuthorityIs E 80 h a ∧ TargetIs E (c :: t) url.toUrlParts := by
  have := C122_request E hU headers v h [] (c :: t) hv hh (by simpa using hn) (by simpa using hvis) (by simpa using ha)
    (by simpa using .inl hc) (slash_relative (.inl hc)) url
  simpa using this

/-- C122. With an empty `Host` header the host is the first piece of the request target. -/
theorem C122_blank_host (E : Env) (hU : ∀ s, Deps.parseUrl s = parse E s) (headers : HeaderMap) (v : HeaderValue) (h p : Str) (c : Char)
    (hv : (headers.getAll hHost).head? = some v) (hh : v.toStr = some []) (hc : Slash c) (hn : h ≠ [])
    (hvis : ∀ d ∈ h ++ p, 32 < d.toNat) (ha : ∀ d ∈ h, ¬ Slash d ∧ d ≠ '?' ∧ d ≠ '#')
    (hp : ∀ d ∈ p.head?, Slash d ∨ d = '?' ∨ d = '#') (url : Url) :
    UrlOf (c :: (h ++ p)) headers url ↔ url.scheme = str% "http" ∧
      ∃ a, url.authority = some a ∧ AuthorityIs E 80 h a ∧ TargetIs E p url.toUrlParts := by
  have hrel : Deps.parseUrl (c :: (h ++ p)) = .relative := by rw [hU]; exact (C122_relative E _).2 (slash_relative (.inl hc))
  have hd : (str% "http", 80) ∈ webSchemes := by decide
  have hsch : HasScheme (str% "http://" ++ [] ++ (c :: (h ++ p))) (str% "http") (str% "//" ++ (c :: (h ++ p))) := by
    refine ⟨'h', str% "ttp", stripped_iff.2 ?_, by decide, by decide, by decide⟩
    rw [clean_visible]
    · simp
    · intro d hm
      simp only [List.append_assoc, List.mem_append, List.mem_cons] at hm hvis
      rcases hm with hm | hm | rfl | hm
      · have : ∀ d ∈ str% "http://", 33 ≤ d.toNat := by decide
        exact this d (by simpa using hm)
      · cases hm
      · rcases hc with rfl | rfl <;> decide
      · exact hvis d hm
  have hskip : parseParts E (str% "http") 80 (str% "//" ++ (c :: (h ++ p))) = parseParts E (str% "http") 80 (str% "//" ++ (h ++ p)) := by
    have e : (str% "//" ++ (c :: (h ++ p))).dropWhile isSlash = (str% "//" ++ (h ++ p)).dropWhile isSlash := by
      rw [List.dropWhile_append_of_pos (by decide), List.dropWhile_append_of_pos (by decide), List.dropWhile_cons,
        if_pos ((slash_iff c).2 hc)]
    unfold parseParts
    rw [e]
  rw [← parseParts_split (by decide) hn ha hp, ← hskip, ← parse_web hsch hd url, ← hU]
  unfold UrlOf
  rw [hrel, hv]
  constructor
  · rintro (h' | ⟨_, v', h', e1, e2, e3⟩)
    · cases h'
    · cases e1
      rw [hh] at e2
      cases e2
      exact e3
  · exact fun h' => .inr ⟨rfl, v, [], rfl, hh, h'⟩

/-- C122. A request target that begins with `@` names the host itself, whatever the `Host` header says. -/
theorem C122_user_host (E : Env) (hU : ∀ s, Deps.parseUrl s = parse E s) (headers : HeaderMap) (v : HeaderValue) (h e p : Str)
    (hv : (headers.getAll hHost).head? = some v) (hh : v.toStr = some h)
    (hvis : ∀ c ∈ h ++ e ++ p, 32 < c.toNat) (ha : ∀ c ∈ h ++ e, ¬ Slash c ∧ c ≠ '?' ∧ c ≠ '#')
    (he : '@' ∉ e ∧ ':' ∉ e) (hp : ∀ c ∈ p.head?, Slash c ∨ c = '?' ∨ c = '#') (url : Url)
    (hu : UrlOf ('@' :: e ++ p) headers url) : ∃ a, url.authority = some a ∧ (E.host e).map Subtype.val = some a.host := by
  obtain ⟨_, a, h1, ⟨user, host, port, h2, h3, _, _, _, h4, _⟩, _⟩ := (C122_request E hU headers v h ('@' :: e) p hv hh (by simp)
    (by
      intro c hc
      simp only [List.mem_append, List.mem_cons] at hc hvis
      rcases hc with (hc | rfl | hc) | hc
      · exact hvis c (.inl (.inl hc))
      · decide
      · exact hvis c (.inl (.inr hc))
      · exact hvis c (.inr hc))
    (by
      intro c hc
      simp only [List.mem_append, List.mem_cons] at hc ha
      rcases hc with hc | rfl | hc
      · exact ha c (.inl hc)
      · unfold Slash; decide
      · exact ha c (.inr hc)) hp (slash_relative (c := '@') (by simp)) url).1 hu
  refine ⟨a, h1, ?_⟩
  have e1 := splitAt_iff.2 ⟨h2, h3⟩
  have e2 : UrlParser.splitAt (h ++ '@' :: e) = (some h, e) := splitAt_iff.2 ⟨by simp [userinfoText], he.1⟩
  rw [e1] at e2
  simp only [Prod.mk.injEq] at e2
  obtain ⟨_, e2⟩ := e2
  cases port with
  | none =>
    simp only [markedText, List.append_nil] at e2
    rw [← e2]
    exact h4
  | some d => exact absurd (by rw [← e2]; simp [markedText]) he.2

/-! ### On the wire -/

/-- C122. A URL in which there is nothing to be encoded, removed or omitted arrives with a server that derives it from `http`, the
`Host` header and the request target; except that a port 80 in the header is omitted. (This is what C81 assumes of the parser.) -/
theorem C122_on_wire (E : Env) (hU : ∀ s, Deps.parseUrl s = parse E s) (u : Url) (a : Authority) (ht : Tidy u.toUrlParts a)
    (hh : (E.host a.host).map Subtype.val = some a.host) (sent : HeaderMap) (port : Bool) :
    OnWire u sent port ↔ (∃ v, sent.get hHost = some v ∧ v.toStr = some (if port then a.hostPort else a.host)) ∧
      (port = true → a.port ≠ some 80) := by
  obtain ⟨segs, hne, hpath, hsegs⟩ := ht.path
  have h80 : (str% "http", 80) ∈ webSchemes := by decide
  constructor
  · intro hw
    obtain ⟨a', v, h1, h2, h3⟩ := hw.host
    rw [ht.authority] at h1
    cases h1
    refine ⟨⟨v, h2, h3⟩, ?_⟩
    rintro rfl h
    have := hw.parse
    rw [hU] at this
    obtain ⟨b, hb, _⟩ := (C122_reread E _ 80 h80).1 this
    obtain ⟨d, hd, hp⟩ := hb.port
    have hb1 := hb.authority
    simp only [Url.seen, ht.authority, Option.map_some, Option.some.injEq] at hb1
    rw [← defaultPort_iff] at hd
    have hd' : defaultPort (str% "http") = some d := hd
    cases hd'
    exact (hp 80 (by rw [← hb1]; simpa using h)).2 rfl
  · rintro ⟨⟨v, h1, h2⟩, h3⟩
    obtain ⟨q, hq, _⟩ := pieces_self (fun s hs c hc => ((hsegs s hs).2.2 c hc).2) hne
    refine ⟨⟨a, v, ht.authority, h1, h2⟩, ⟨by rw [hpath, hq]; simp, ?_⟩, ?_, ?_⟩
    · rw [hpath]
      intro hm
      obtain ⟨s, hs, hm⟩ := List.mem_flatMap.1 hm
      rcases List.mem_cons.1 hm with h | hm
      · cases h
      · exact absurd ((hsegs s hs).2.2 _ hm).1.1 (by decide)
    · rw [hU]
      refine (C122_relative E _).2 ?_
      have : u.originForm = '/' :: (q ++ markedText '?' u.query) := by
        unfold UrlParts.originForm
        rw [hpath, hq]
        rfl
      rw [this]
      exact slash_relative (.inl (.inl rfl))
    · rw [hU]
      refine (C122_reread E _ 80 h80).2 ⟨{ host := a.host, port := if port then a.port else none }, ?_, hh⟩
      exact {
        authority := by simp [Url.seen, ht.authority]
        port := ⟨80, h80, fun n hn => by
          obtain ⟨d, _, hp⟩ := ht.port
          cases port with
          | false => cases hn
          | true => exact ⟨(hp n hn).1, fun e => h3 rfl (by subst e; exact hn)⟩⟩
        user := fun t h => nomatch h
        host := ht.host
        path := ⟨segs, hne, hpath, hsegs⟩
        query := ht.query
        fragment := fun f h => nomatch h }

end

/-! ### Texts with the same meaning -/

/-- C122. The name-value pairs of the query are those of the text, although it is encoded. -/
theorem C122_pairs (E : Env) (p : Str) (q f : Option Str) (hp : ∀ c ∈ p, c ≠ '?' ∧ c ≠ '#') (hq : ∀ s, q = some s → '#' ∉ s)
    (u : UrlParts) (h : TargetIs E (p ++ (markedText '?' q ++ markedText '#' f)) u) (ps : List (Str × Str)) :
    QueryIs (utf8 (u.query.getD [])) ps ↔ QueryIs (utf8 (q.getD [])) ps := by
  obtain ⟨_, _, h3⟩ := targetIs_iff.1 h
  rw [(target_text hp).2, parseTail_text q f hq] at h3
  simp only [Prod.mk.injEq] at h3
  rw [← h3.1]
  cases q with
  | none => rfl
  | some s => exact queryIs_encoded ((encoded_iff keepQuery_iff).2 rfl)

/-- C122. `x/../` does not count. -/
theorem C122_alias_up (E : Env) (c s1 s2 : Char) (pre x dots rest : Str) (hc : Slash c) (h1 : Slash s1) (h2 : Slash s2) (hpre : BeforeSegment pre)
    (hx : ∀ c ∈ x, ¬ Slash c) (hx' : ∀ t, Encoded pathCodes x t → ¬ Here t ∧ ¬ Up t ∧ E.keeps t = false) (hd : Up dots) :
    SamePath E (c :: (pre ++ (x ++ s1 :: (dots ++ s2 :: rest)))) (c :: (pre ++ rest)) := by
  obtain ⟨l, hl⟩ := raw_before hpre
  have hdp : (∀ c ∈ dots, ¬ Slash c) ∧ encode keepPath dots = dots := by
    unfold Up at hd
    simp only [List.mem_cons, List.not_mem_nil, or_false] at hd
    unfold Slash
    rcases hd with rfl | rfl | rfl | rfl | rfl | rfl | rfl | rfl | rfl <;> decide +kernel
  obtain ⟨a, b, d⟩ := hx' _ ((encoded_iff keepPath_iff).2 rfl)
  refine fun path => pathIs_raw hc hc ?_
  rw [hl, hl, raw_concat h1, raw_concat h2, raw_piece hx, raw_piece hdp.1, hdp.2]
  cases hr : raw rest with
  | nil => exact absurd hr (raw_ne rest)
  | cons r rs => exact walk_shorter (.up a b d hd)

/-- C122. Neither does `./`. -/
theorem C122_alias_here (E : Env) (c s : Char) (pre dot rest : Str) (hc : Slash c) (hs : Slash s) (hpre : BeforeSegment pre) (hd : Here dot) :
    SamePath E (c :: (pre ++ (dot ++ s :: rest))) (c :: (pre ++ rest)) := by
  obtain ⟨l, hl⟩ := raw_before hpre
  have hdp : (∀ c ∈ dot, ¬ Slash c) ∧ encode keepPath dot = dot := by
    unfold Here at hd
    simp only [List.mem_cons, List.not_mem_nil, or_false] at hd
    unfold Slash
    rcases hd with rfl | rfl | rfl <;> decide +kernel
  refine fun path => pathIs_raw hc hc ?_
  rw [hl, hl, raw_concat hs, raw_piece hdp.1, hdp.2]
  cases hr : raw rest with
  | nil => exact absurd hr (raw_ne rest)
  | cons r rs => exact walk_shorter (.here hd)

/-- C122. A backslash is a slash. -/
theorem C122_alias_backslash (E : Env) (a b : Str) (ha : a = [] ∨ ∃ c p, a = c :: p ∧ Slash c) :
    SamePath E (a ++ '\\' :: b) (a ++ '/' :: b) := by
  rcases ha with rfl | ⟨c, p, rfl, hc⟩
  · exact fun path => pathIs_raw (.inr rfl) (.inl rfl) rfl
  · refine fun path => pathIs_raw hc hc ?_
    show walk E.keeps [] (raw (p ++ '\\' :: b)) = walk E.keeps [] (raw (p ++ '/' :: b))
    rw [raw_concat (.inr rfl), raw_concat (.inl rfl)]

/-- C122. A character that is encoded is the same as its encoding. -/
theorem C122_alias_encoded (E : Env) (a b e : Str) (c : Char) (ha : ∃ c p, a = c :: p ∧ Slash c) (hc : ¬ Plain pathCodes c)
    (he : Encoded pathCodes [c] e) : SamePath E (a ++ c :: b) (a ++ e ++ b) := by
  obtain ⟨s, p, rfl, hs⟩ := ha
  refine fun path => pathIs_raw hs hs ?_
  show walk E.keeps [] (raw (p ++ c :: b)) = walk E.keeps [] (raw (p ++ e ++ b))
  rw [raw_coded hc he]

/-- C122. Targets whose paths mean the same, and whose queries and fragments are the same when encoded, mean the same. -/
theorem C122_alias_target (E : Env) (p p' : Str) (q q' f f' : Option Str) (hp : ∀ c ∈ p ++ p', c ≠ '?' ∧ c ≠ '#')
    (hq : ∀ s, q = some s ∨ q' = some s → '#' ∉ s) (h1 : SamePath E p p') (h2 : ∀ t, PartIs queryCodes q t ↔ PartIs queryCodes q' t)
    (h3 : ∀ t, PartIs fragmentCodes f t ↔ PartIs fragmentCodes f' t) :
    SameTarget E (p ++ (markedText '?' q ++ markedText '#' f)) (p' ++ (markedText '?' q' ++ markedText '#' f')) := by
  have key : ∀ (p p' : Str) (q q' f f' : Option Str), (∀ c ∈ p ++ p', c ≠ '?' ∧ c ≠ '#') → (∀ s, q = some s ∨ q' = some s → '#' ∉ s) →
      SamePath E p p' → (∀ t, PartIs queryCodes q t ↔ PartIs queryCodes q' t) →
      (∀ t, PartIs fragmentCodes f t ↔ PartIs fragmentCodes f' t) → ∀ u,
      TargetIs E (p ++ (markedText '?' q ++ markedText '#' f)) u → TargetIs E (p' ++ (markedText '?' q' ++ markedText '#' f')) u := by
    intro p p' q q' f f' hp hq h1 h2 h3 u h
    have hpp : ∀ c ∈ p, c ≠ '?' ∧ c ≠ '#' := fun c hc => hp c (by simp [hc])
    obtain ⟨h4, h5, h6⟩ := targetIs_iff.1 h
    rw [(target_text hpp).1] at h5
    rw [(target_text hpp).2, parseTail_text q f fun s hs => hq s (.inl hs)] at h6
    simp only [Prod.mk.injEq] at h6
    refine ⟨p', q', f', rfl, fun c hc => hp c (by simp [hc]), fun s hs => hq s (.inr hs), (h1 _).1 (pathIs_iff.2 ⟨?_, h5⟩),
      (h2 _).1 ((partIs_iff keepQuery_iff).2 h6.1), (h3 _).1 ((partIs_iff keepFragment_iff).2 h6.2)⟩
    cases p with
    | nil => exact .inl rfl
    | cons c r =>
      refine .inr ⟨c, r, rfl, ?_⟩
      rcases h4 with h4 | ⟨c', r', h4, hc⟩
      · cases h4
      · cases h4
        have := hpp c (by simp)
        unfold isDelim at hc
        exact (slash_iff c).1 (by simpa [this.1, this.2] using hc)
  refine fun u => ⟨key p p' q q' f f' hp hq h1 h2 h3 u, key p' p q' q f' f ?_ ?_ (fun t => (h1 t).symm) (fun t => (h2 t).symm)
    (fun t => (h3 t).symm) u⟩
  · intro c hc
    exact hp c (by simpa [or_comm] using hc)
  · exact fun s hs => hq s hs.symm

section
variable [Deps]

theorem outcome_unit {x y : P (Except Unit (Unit × Str))} (h : outcome x = outcome y) : x = y := by
  rcases x with _ | _ | ⟨_, _⟩ <;> rcases y with _ | _ | ⟨_, _⟩ <;> cases h <;> rfl

/-- C122. The signature does not tell request targets with the same meaning apart: with the same `Host` header they give the same URL,
and two requests that differ in nothing but the text of their targets are verified with the same result. -/
theorem C122_same_target (E : Env) (hU : ∀ s, Deps.parseUrl s = parse E s) (headers : HeaderMap) (v : HeaderValue) (h t t' : Str) (c c' : Char)
    (hv : (headers.getAll hHost).head? = some v) (hh : v.toStr = some h) (hn : h ≠ [])
    (hvis : ∀ d ∈ h ++ c :: t ++ c' :: t', 32 < d.toNat) (ha : ∀ d ∈ h, ¬ Slash d ∧ d ≠ '?' ∧ d ≠ '#') (hc : Slash c) (hc' : Slash c')
    (hs : SameTarget E (c :: t) (c' :: t')) :
    (∀ url, UrlOf (c :: t) headers url ↔ UrlOf (c' :: t') headers url) ∧
      ∀ (r r' : MockRequest), r.method = r'.method → r.headers = headers → r'.headers = headers → r.body = r'.body →
        UrlOf (c :: t) headers r.url → UrlOf (c' :: t') headers r'.url → ∀ (config : VerifyingConfig) (env : VerifyEnv),
        verify r config env = verify r' config env := by
  have hiff : ∀ url, UrlOf (c :: t) headers url ↔ UrlOf (c' :: t') headers url := by
    intro url
    rw [C122_origin_form E hU headers v h t c hv hh hn (fun d hd => hvis d (by simp at hd ⊢; grind)) ha hc,
      C122_origin_form E hU headers v h t' c' hv hh hn (fun d hd => hvis d (by simp at hd ⊢; grind)) ha hc', hs url.toUrlParts]
  refine ⟨hiff, fun r r' h1 h2 h3 h4 h5 h6 config env => ?_⟩
  have e : r.url = r'.url := by
    have a := urlOf_iff.1 h5
    rw [urlOf_iff.1 ((hiff r'.url).2 h6)] at a
    exact (Option.some.inj (Except.ok.inj a)).symm
  have hd : ∀ k, RequestLike.derive r k = RequestLike.derive r' k := by
    intro k
    show r.derive k = r'.derive k
    cases k with
    | header n => unfold MockRequest.derive; rw [h2, h3]
    | derived d => unfold MockRequest.derive; rw [h1, e]
  exact outcome_unit (C37_uncovered_data_irrelevant r r' config env (hd _) (hd _) (hd _) (fun _ _ _ _ k _ => hd k) fun d => by
    show r.body.map d.digest = r'.body.map d.digest
    rw [h4])

end

/-! ### Examples -/

/-- Hosts in lower case. -/
def exHosts : Env where
  host h := if ok : UrlParts.hostOk (h.map asciiLower) = true then some ⟨_, ok⟩ else none
  other _ _ := none
  keeps _ := false

@[reducible] def urlDeps : Deps := { toyDeps with parseUrl := parse exHosts }

/-- `http://u:p@example.com:8080/b%2E/c%20d?x=%271%27#f` -/
def exReadUrl : Url where
  scheme := str% "http"
  authority := some { userinfo := some (str% "u:p"), host := str% "example.com", port := some 8080 }
  path := str% "/b%2E/c%20d"
  query := some (str% "x=%271%27")
  fragment := some (str% "f")
  ok := by decide +kernel

def exUrlText : Str := str% " HTTP:\\/u:p@Example.COM:08080\\a/%2e./b%2E/./c d?x='1'#f\n"

example : parse exHosts exUrlText = .ok exReadUrl := by decide +kernel

example : WebUrl exHosts exUrlText exReadUrl.toUrlParts :=
  (C122_read exHosts _ (str% "http") (str% "\\/u:p@Example.COM:08080\\a/%2e./b%2E/./c d?x='1'#f") 80
    (hasScheme_iff.2 (by decide +kernel)) (by decide) _).1 ⟨exReadUrl.ok, by decide +kernel⟩

/-- Reading it again changes nothing; with the default port, which is omitted, it does. -/
example : parse exHosts exReadUrl.asStr = .ok exReadUrl ∧
    parse exHosts (str% "ws://example.com:80") =
      .ok { scheme := str% "ws", authority := some { host := str% "example.com" }, path := str% "/", ok := by decide +kernel } := by
  decide +kernel

example : ∃ a, Tidy exReadUrl.toUrlParts a ∧ (exHosts.host a.host).map Subtype.val = some a.host :=
  (C122_reread exHosts exReadUrl 80 (by decide)).1 (by decide +kernel)

/-- Refused: no scheme, no host, port too large. -/
example : parse exHosts (str% "/a") = .relative ∧ parse exHosts (str% "1http://a/") = .relative ∧ parse exHosts (str% "http:///?") = .bad ∧
    parse exHosts (str% "http://a:65536/") = .bad ∧ parse exHosts (str% "http://u@:80/") = .bad ∧ parse exHosts (str% "x:y") = .bad := by
  decide +kernel

section
attribute [local instance] urlDeps

def exHostMap : HeaderMap := [(hHost, ⟨utf8 (str% "Example.COM:81"), rfl⟩)]

/-- Whether the outcome of `deriveUrl` is this URL. -/
def exDerives (x : P (Option Url)) (v : UrlParts) : Bool :=
  match x with
  | .ok (some u) => u.toUrlParts == v
  | _ => false

theorem exDerives_eq {x : P (Option Url)} {v : UrlParts} {ok} (h : exDerives x v = true) : x = .ok (some ⟨v, ok⟩) := by
  unfold exDerives at h
  split at h
  · cases eq_of_beq h; rfl
  · cases h

/-- `Host: Example.COM:81` and the target `/a/../b`. -/
example : UrlOf (str% "/a/../b") exHostMap
      { scheme := str% "http", authority := some { host := str% "example.com", port := some 81 }, path := str% "/b", ok := by decide +kernel } ∧
    ∃ a, AuthorityIs exHosts 80 (str% "Example.COM:81") a ∧ a = { host := str% "example.com", port := some 81 } := by
  have h := urlOf_iff.2 (show MockRequest.deriveUrl (str% "/a/../b") exHostMap = .ok (some
    { scheme := str% "http", authority := some { host := str% "example.com", port := some 81 }, path := str% "/b", ok := by decide +kernel })
    from exDerives_eq (by decide +kernel))
  refine ⟨h, ?_⟩
  obtain ⟨_, a, ha, h', _⟩ := (C122_origin_form exHosts (fun _ => rfl) exHostMap _ (str% "Example.COM:81") (str% "a/../b") '/' rfl
    (by decide +kernel) (by decide) (by decide) (by unfold Slash; decide) (.inl rfl) _).1 h
  exact ⟨a, h', by cases ha; rfl⟩

/-- The target `@evil.com/x`; with an empty `Host` header, `/evil.com/x`. -/
example : (MockRequest.deriveUrl (str% "@evil.com/x") exHostMap =
      .ok (some { scheme := str% "http", authority := some { userinfo := some (str% "Example.COM:81"), host := str% "evil.com" },
                  path := str% "/x", ok := by decide +kernel })) ∧
    MockRequest.deriveUrl (str% "/evil.com/x") [(hHost, ⟨[], rfl⟩)] =
      .ok (some { scheme := str% "http", authority := some { host := str% "evil.com" }, path := str% "/x", ok := by decide +kernel }) :=
  ⟨exDerives_eq (by decide +kernel), exDerives_eq (by decide +kernel)⟩

example : ∃ a, AuthorityIs exHosts 80 (str% "evil.com") a := by
  obtain ⟨_, a, _, h, _⟩ := (C122_blank_host exHosts (fun _ => rfl) [(hHost, ⟨[], rfl⟩)] ⟨[], rfl⟩ (str% "evil.com") (str% "/x") '/' rfl
    rfl (.inl rfl) (by decide) (by decide) (by unfold Slash; decide) (by unfold Slash; decide)
    { scheme := str% "http", authority := some { host := str% "evil.com" }, path := str% "/x", ok := by decide +kernel }).1
    (urlOf_iff.2 (exDerives_eq (by decide +kernel)))
  exact ⟨a, h⟩

/-- A URL on the wire, and one that arrives without its port. -/
def exPlainUrl (scheme : Str) (port : Nat) (ok : UrlParts.valid
    ⟨scheme, some { host := str% "h", port := some port }, str% "/a", some (str% "q"), none⟩ = true) : Url :=
  ⟨⟨scheme, some { host := str% "h", port := some port }, str% "/a", some (str% "q"), none⟩, ok⟩

theorem exPlainUrl_tidy {scheme : Str} {dflt port : Nat} {ok} (h : (scheme, dflt) ∈ webSchemes) (hp : port < 65536 ∧ port ≠ dflt) :
    Tidy (exPlainUrl scheme port ok).toUrlParts { host := str% "h", port := some port } where
  authority := rfl
  port := ⟨dflt, h, fun n hn => by cases hn; exact hp⟩
  user := fun t h => nomatch h
  host := List.cons_ne_nil _ _
  path := ⟨[str% "a"], by decide, rfl, by unfold Here Up Plain Slash; decide⟩
  query := fun q hq => by cases hq; unfold Plain; decide
  fragment := fun f h => nomatch h

example : OnWire (exPlainUrl (str% "http") 81 (by decide +kernel)) [(hHost, ⟨utf8 (str% "h:81"), rfl⟩)] true ∧
    ¬ OnWire (exPlainUrl (str% "https") 80 (by decide +kernel)) [(hHost, ⟨utf8 (str% "h:80"), rfl⟩)] true := by
  have h1 := exPlainUrl_tidy (scheme := str% "http") (dflt := 80) (port := 81) (ok := by decide +kernel) (by decide) (by decide)
  have h2 := exPlainUrl_tidy (scheme := str% "https") (dflt := 443) (port := 80) (ok := by decide +kernel) (by decide) (by decide)
  exact ⟨(C122_on_wire exHosts (fun _ => rfl) _ _ h1 (by decide +kernel) _ true).2 ⟨⟨_, rfl, by decide +kernel⟩, fun _ => by decide⟩,
    fun h => ((C122_on_wire exHosts (fun _ => rfl) _ _ h2 (by decide +kernel) _ true).1 h).2 rfl rfl⟩

/-- `/a/%2E%2e/b` and `/b`, `/a\b` and `/a/b`, `/a"` and `/a%22`. -/
example : SamePath exHosts (str% "/a/%2E%2e/b") (str% "/b") ∧ SamePath exHosts (str% "/a\\b") (str% "/a/b") ∧
    SamePath exHosts (str% "/a\"") (str% "/a%22") := by
  refine ⟨C122_alias_up exHosts '/' '/' '/' [] (str% "a") (str% "%2E%2e") (str% "b") (.inl rfl) (.inl rfl) (.inl rfl) (.inl rfl)
    (by unfold Slash; decide) ?_ (by unfold Up; decide), C122_alias_backslash exHosts (str% "/a") (str% "b") (.inr ⟨'/', _, rfl, .inl rfl⟩),
    C122_alias_encoded exHosts (str% "/a") [] (str% "%22") '"' ⟨'/', _, rfl, .inl rfl⟩ (by unfold Plain pathCodes; decide)
      ((encoded_iff keepPath_iff).2 (by decide +kernel))⟩
  intro t ht
  rw [encoded_iff keepPath_iff] at ht
  subst ht
  unfold Here Up
  decide +kernel

/-- So the following two requests are verified with the same result. -/
example (r : MockRequest) (h : r.headers = exHostMap) (hu : UrlOf (str% "/a/%2E%2e/b") exHostMap r.url) (config : VerifyingConfig) (env : VerifyEnv) :
    verify r config env = verify { r with path := str% "/b" } config env := by
  have hs : SameTarget exHosts (str% "/a/%2E%2e/b") (str% "/b") := by
    refine C122_alias_target exHosts (str% "/a/%2E%2e/b") (str% "/b") none none none none (by decide) (by simp) ?_ (fun _ => .rfl) (fun _ => .rfl)
    refine C122_alias_up exHosts '/' '/' '/' [] (str% "a") (str% "%2E%2e") (str% "b") (.inl rfl) (.inl rfl) (.inl rfl) (.inl rfl)
      (by unfold Slash; decide) ?_ (by unfold Up; decide)
    intro t ht
    rw [encoded_iff keepPath_iff] at ht
    subst ht
    unfold Here Up
    decide +kernel
  obtain ⟨h1, h2⟩ := C122_same_target exHosts (fun _ => rfl) exHostMap _ (str% "Example.COM:81") (str% "a/%2E%2e/b") (str% "b") '/' '/' rfl
    (by decide +kernel) (by decide) (by decide) (by unfold Slash; decide) (.inl rfl) (.inl rfl) hs
  exact h2 r { r with path := str% "/b" } rfl h h rfl hu ((h1 _).1 hu) config env

/-- The query `x='1'&%` has the pairs of `x=%271%27&%`. -/
example : QueryIs (utf8 (str% "x=%271%27&%")) [(str% "x", str% "'1'"), (str% "%", [])] :=
  (C122_pairs exHosts (str% "/") (some (str% "x='1'&%")) none (by decide) (by decide)
    { scheme := [], authority := none, path := str% "/", query := some (str% "x=%271%27&%") }
    (targetIs_iff.2 ⟨.inr ⟨'/', _, rfl, rfl⟩, by decide +kernel, by decide +kernel⟩) _).2 (queryIs_iff.2 (by decide +kernel))

end
end Httpsig
