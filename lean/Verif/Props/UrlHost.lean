import Verif.Lemmas.UrlHost5
import Verif.Props.UrlParse
/-
C126: hosts of URLs.
-/
set_option linter.unusedSectionVars false
namespace Httpsig
open UrlParser UrlHost

section
variable (idna : Str → Option { t : Str // ∀ c ∈ t, c.toNat < 128 })

/-- C126. Hosts are read as the URL standard says: as a domain, an IPv4 address or an IPv6 address. -/
theorem C126_read (s h : Str) : (hosts idna s).map Subtype.val = some h ↔ HostIs idna s h := hosts_iff

/-- C126. A text means one host at most. -/
theorem C126_one (s h h' : Str) (h1 : HostIs idna s h) (h2 : HostIs idna s h') : h = h' := h1.unique h2

/-- C126. A host is not empty. It has no character that could begin another part of a URL: only visible ASCII characters, no `%`, and
colons only between brackets. -/
theorem C126_clean (s h : Str) (hh : HostIs idna s h) : h ≠ [] ∧
    ((∀ c ∈ h, 32 < c.toNat ∧ c.toNat < 127 ∧ c ∉ str% "#%/:<>?@[\\]^|") ∨
      ∃ m, h = '[' :: m ++ str% "]" ∧ ∀ c ∈ m, c ∈ str% "0123456789abcdef:") := by
  have hf : ∀ {c : Char}, c ∉ forbiddenChars → c ∉ str% "#%/:<>?@[\\]^|" := fun {c} h hm => h (List.mem_cons_of_mem _ hm)
  refine ⟨hh.ok.2, ?_⟩
  cases hh with
  | domain hd hn => exact .inl fun c hc => ⟨(hd.chars c hc).1, (hd.chars c hc).2.1, hf (hd.chars c hc).2.2⟩
  | ipv4 hd hn hi hw =>
    refine .inl fun c hc => ?_
    obtain ⟨_, _, h1, h2, h3, _⟩ := digit_char (hw.chars c hc)
    exact ⟨h1, h2, hf h3⟩
  | ipv6 hi hw =>
    refine .inr ⟨_, rfl, fun c hc => ?_⟩
    rcases hw.chars c hc with ⟨h1, h2⟩ | rfl
    · obtain ⟨d, hd, hlt⟩ := isDigit_iff.1 h1
      rw [hexChar_eq hd h2]
      have : ∀ d < 16, hexChar d ∈ str% "0123456789abcdef:" := by decide
      exact this d hlt
    · decide

/-- C126. What a host is written as means the same host, if that is so for international domain names. -/
theorem C126_again (hidna : ∀ s t, idna s = some t → AsciiIs idna t.1 t.1) (s h : Str) (hh : HostIs idna s h) : HostIs idna h h :=
  hh.again hidna

/-! ### Spellings -/

/-- C126. Other domains mean themselves, in lower case. -/
theorem C126_domain (s h : Str) (hs : s ≠ []) (ho : OwnAscii s) (hc : ∀ c ∈ s, 32 < c.toNat ∧ c.toNat ≠ 127 ∧ c ∉ forbiddenChars)
    (hn : ¬ NumberLast s) : HostIs idna s h ↔ h = lowered s := by
  have hd : HostIs idna s (lowered s) := .domain (plain_domain hs ho hc) fun h => hn (numberLast_lowered ho.1 h)
  exact ⟨fun h => h.unique hd, fun h => h ▸ hd⟩

/-- C126. All spellings of an IPv4 address mean the address: decimal, octal and hexadecimal numbers, four or fewer of them. -/
theorem C126_ipv4 (s h : Str) (n : Nat) (hs : Ipv4Is s n) : HostIs idna s h ↔ Ipv4Written n h := by
  have key : ∀ h, Ipv4Written n h → HostIs idna s h := fun h hw =>
    .ipv4 (plain_domain hs.ne_nil hs.own fun c hc => by
      obtain ⟨h1, h2, h3, _, _, _⟩ := numeric_char c (hs.chars c hc)
      have : ∀ c ∈ str% "0123456789abcdefABCDEFxX.", c.toNat ≠ 127 := by decide
      exact ⟨h2, this c (hs.chars c hc), h3⟩) hs.lowered.numberLast hs.lowered hw
  refine ⟨fun hh => ?_, key h⟩
  have hw : Ipv4Written n (ipv4Text n) := (ipv4Written_iff hs.lt).2 rfl
  rw [hh.unique (key _ hw)]
  exact hw

/-- C126. Between brackets only IPv6 addresses are read. All spellings of an address mean the address. -/
theorem C126_ipv6 (m h : Str) :
    HostIs idna ('[' :: m ++ str% "]") h ↔ ∃ l t, Ipv6Is m l ∧ Ipv6Written l t ∧ h = '[' :: t ++ str% "]" := by
  constructor
  · intro hh
    generalize e : '[' :: m ++ str% "]" = s at hh
    cases hh with
    | domain hd _ => subst e; exact absurd rfl hd.1
    | ipv4 hd _ _ _ => subst e; exact absurd rfl hd.1
    | ipv6 hi hw =>
      simp only [List.cons_append, List.cons.injEq, true_and] at e
      obtain rfl := (List.append_inj' e rfl).1
      exact ⟨_, _, hi, hw, rfl⟩
  · rintro ⟨l, t, hi, hw, rfl⟩
    exact .ipv6 hi hw

/-- C126. An address is written in one way, which is one of its spellings; different addresses are written differently. -/
theorem C126_addresses (n : Nat) (l : List Nat) (hn : n < 2 ^ 32) (hl : l.length = 8) (hp : ∀ p ∈ l, p < 65536) :
    (∃ t, Ipv4Is t n ∧ ∀ t', Ipv4Written n t' ↔ t' = t) ∧ ∃ t, Ipv6Is t l ∧ ∀ t', Ipv6Written l t' ↔ t' = t :=
  ⟨⟨_, ((ipv4Written_iff hn).2 rfl).is, fun _ => ipv4Written_iff hn⟩,
    ⟨_, ((ipv6Written_iff hp).2 rfl).is hp hl, fun _ => ipv6Written_iff hp⟩⟩

/-- C126. The case of letters does not matter. -/
theorem C126_alias_case (s s' : Str) (ho : OwnAscii s) (ho' : OwnAscii s') (hs : '%' ∉ s) (hb : s.head? ≠ some '[') (h : lowered s = lowered s') :
    HostAlias idna s s' := by
  have lo : ∀ {t c}, c.isLower = false → c.isUpper = false → (c ∈ t ↔ c ∈ lowered t) := fun {t c} h1 h2 => by
    rw [lowered_eq, List.mem_map]
    exact ⟨fun h => ⟨c, h, (asciiLower_eq h1).2 ⟨rfl, h2⟩⟩, fun ⟨d, hd, e⟩ => ((asciiLower_eq h1).1 e).1 ▸ hd⟩
  have hs' : '%' ∉ s' := fun hm => hs ((lo (by decide) (by decide)).2 (h ▸ (lo (by decide) (by decide)).1 hm))
  have hd : ∀ t, s.head? ≠ some '[' → lowered s = lowered t → t.head? ≠ some '[' := fun t h1 e h2 => by
    cases t with
    | nil => cases h2
    | cons c t =>
      obtain rfl := Option.some.inj h2
      cases s with
      | nil => rw [lowered_eq, lowered_eq] at e; cases e
      | cons d s =>
        rw [lowered_eq, lowered_eq] at e
        have := ((asciiLower_eq (d := '[') (by decide)).1 (List.cons.inj e).1).1
        exact h1 (by rw [this]; rfl)
  have key : ∀ {s s' : Str} {d : Str}, OwnAscii s → OwnAscii s' → '%' ∉ s → '%' ∉ s' → s'.head? ≠ some '[' → lowered s = lowered s' →
      DomainIs idna s d → DomainIs idna s' d := fun {s s' d} ho ho' hs hs' hb e h => by
    obtain ⟨_, ⟨t, h1, h2⟩, h3, h4⟩ := h
    refine ⟨hb, ⟨s', pctText_plain hs', ?_⟩, h3, h4⟩
    rw [pctText_iff.1 h1, ← pctText_iff.1 (pctText_plain hs)] at h2
    rcases h2 with ⟨_, h2⟩ | ⟨h2, _⟩
    · exact .inl ⟨ho', h2.trans e⟩
    · exact absurd ho h2
  have half : ∀ {s s' : Str} {h : Str}, OwnAscii s → OwnAscii s' → '%' ∉ s → '%' ∉ s' → s.head? ≠ some '[' → s'.head? ≠ some '[' →
      lowered s = lowered s' → HostIs idna s h → HostIs idna s' h := fun ho ho' hs hs' hb hb' e h => by
    cases h with
    | domain hd hn => exact .domain (key ho ho' hs hs' hb' e hd) hn
    | ipv4 hd hn hi hw => exact .ipv4 (key ho ho' hs hs' hb' e hd) hn hi hw
    | ipv6 hi hw => exact absurd rfl hb
  exact fun x => ⟨half ho ho' hs hs' hb (hd s' hb h) h, half ho' ho hs' hs (hd s' hb h) hb h.symm⟩

/-- C126. Nor does it matter whether characters are written as `%XX`. -/
theorem C126_alias_encoded (a x e b : Str) (ha : '%' ∉ a ++ x) (hb : (a ++ x ++ b).head? ≠ some '[') (he : Triplets e (utf8 x)) :
    HostAlias idna (a ++ x ++ b) (a ++ e ++ b) := by
  have hb' : (a ++ e ++ b).head? ≠ some '[' := by
    cases a with
    | cons c a => exact hb
    | nil =>
      cases he' : utf8 x with
      | nil =>
        have hx : x = [] := utf8_injective (he'.trans rfl)
        rw [he'] at he
        cases he
        subst hx
        exact hb
      | cons y ys =>
        rw [he'] at he
        cases he
        simp
  have key : ∀ {s s' d : Str}, s'.head? ≠ some '[' → (∀ t, PctText s t → PctText s' t) → DomainIs idna s d → DomainIs idna s' d :=
    fun hb h ⟨_, ⟨t, h1, h2⟩, h3⟩ => ⟨hb, ⟨t, h t h1, h2⟩, h3⟩
  have half : ∀ {s s' h : Str}, s.head? ≠ some '[' → s'.head? ≠ some '[' → (∀ t, PctText s t → PctText s' t) → HostIs idna s h → HostIs idna s' h :=
    fun hb hb' e h => by
      cases h with
      | domain hd hn => exact .domain (key hb' e hd) hn
      | ipv4 hd hn hi hw => exact .ipv4 (key hb' e hd) hn hi hw
      | ipv6 hi hw => exact absurd rfl hb
  exact fun h => ⟨half hb hb' fun t => (pctText_triplets ha he).1, half hb' hb fun t => (pctText_triplets ha he).2⟩

/-! ### URLs -/

/-- C126. A URL that has been read is read again as itself. (C122 assumes this of its host.) -/
theorem C126_reread (E : Env) (hE : E.host = hosts idna) (hidna : ∀ s t, idna s = some t → AsciiIs idna t.1 t.1) (s : Str) (u : Url)
    (h : WebUrl E s u.toUrlParts) : ∃ a, Tidy u.toUrlParts a ∧ HostIs idna a.host a.host ∧ parse E u.asStr = .ok u := by
  obtain ⟨a, ha, hp⟩ := C122_tidy E s u h
  have hr : ∃ t, HostIs idna t a.host := by
    obtain ⟨_, _, _, _, _, _, _, _, _, _, _, h2, h3, _⟩ := h
    rw [ha.authority] at h2
    cases h2
    obtain ⟨_, t, _, _, _, _, _, _, h4, _⟩ := h3
    rw [hE, C126_read] at h4
    exact ⟨t, h4⟩
  obtain ⟨t, ht⟩ := hr
  have := ht.again hidna
  exact ⟨a, ha, this, hp (by rw [hE, C126_read]; exact this)⟩

section
variable [Deps]

/-- C126. A URL that has been read arrives with a server that derives it from `http`, the `Host` header and the request target, as long
as a port is not 80. (C122 and C81 assume this of its host.) -/
theorem C126_on_wire (E : Env) (hE : E.host = hosts idna) (hidna : ∀ s t, idna s = some t → AsciiIs idna t.1 t.1)
    (hU : ∀ s, Deps.parseUrl s = parse E s) (s : Str) (u : Url) (h : WebUrl E s u.toUrlParts) (sent : HeaderMap) (port : Bool) :
    OnWire u sent port ↔ ∃ a v, u.authority = some a ∧ sent.get hHost = some v ∧ v.toStr = some (if port then a.hostPort else a.host) ∧
      (port = true → a.port ≠ some 80) := by
  obtain ⟨a, ha, hh, _⟩ := C126_reread idna E hE hidna s u h
  rw [C122_on_wire E hU u a ha (by rw [hE, C126_read]; exact hh)]
  constructor
  · rintro ⟨⟨v, h1, h2⟩, h3⟩
    exact ⟨a, v, ha.authority, h1, h2, h3⟩
  · rintro ⟨a', v, h0, h1, h2, h3⟩
    rw [ha.authority] at h0
    cases h0
    exact ⟨⟨v, h1, h2⟩, h3⟩

/-- C126. Hosts that mean the same can be exchanged in an authority. -/
theorem C126_alias_authority (E : Env) (hE : E.host = hosts idna) (dflt : Nat) (hd : dflt < 65536) (user port : Option Str) (host host' : Str)
    (hh : ∀ s ∈ [host, host'], s ≠ [] ∧ '@' ∉ s ∧ (∀ x y, s = x ++ ':' :: y → InBrackets x) ∧ ¬ InBrackets s)
    (hp : ∀ d, port = some d → '@' ∉ d) (hs : HostAlias idna host host') (a : Authority) :
    AuthorityIs E dflt (userinfoText user ++ (host ++ markedText ':' port)) a ↔
      AuthorityIs E dflt (userinfoText user ++ (host' ++ markedText ':' port)) a := by
  have open_false : ∀ x, Open false x ↔ InBrackets x := fun x => by unfold Open; simp
  have key : ∀ s ∈ [host, host'], UrlParser.splitAt (userinfoText user ++ (s ++ markedText ':' port)) = (user, s ++ markedText ':' port) ∧
      splitHost false (s ++ markedText ':' port) = (s, markedText ':' port) := fun s hm => by
    obtain ⟨_, h2, h3, h4⟩ := hh s hm
    refine ⟨splitAt_iff.2 ⟨rfl, ?_⟩, splitHost_iff.2 ⟨rfl, fun x y e => (open_false x).2 (h3 x y e), ?_⟩⟩
    · intro hm
      rcases List.mem_append.1 hm with hm | hm
      · exact h2 hm
      · cases port with
        | none => cases hm
        | some d =>
          rcases List.mem_cons.1 hm with hm | hm
          · exact absurd hm (by decide)
          · exact hp d rfl hm
    · cases port with
      | none => exact .inl rfl
      | some d => exact .inr ⟨d, rfl, fun h => h4 ((open_false _).1 h)⟩
  have hv : (E.host host).map Subtype.val = (E.host host').map Subtype.val := by
    rw [hE]
    apply Option.ext
    intro h
    rw [C126_read, C126_read]
    exact hs h
  rw [parseAuthority_iff hd, parseAuthority_iff hd]
  unfold parseAuthority
  obtain ⟨h1, h2⟩ := key host (by simp)
  obtain ⟨h3, h4⟩ := key host' (by simp)
  rw [h1, h3]
  simp only [h2, h4, if_neg (hh host (by simp)).1, if_neg (hh host' (by simp)).1]
  cases e1 : E.host host with
  | none =>
    cases e2 : E.host host' with
    | none => rfl
    | some y => rw [e1, e2] at hv; cases hv
  | some x =>
    cases e2 : E.host host' with
    | none => rw [e1, e2] at hv; cases hv
    | some y =>
      rw [e1, e2] at hv
      simp only [Option.some.inj hv]

/-- C126. Requests for the same target whose `Host` headers mean the same host have the same URLs, and the same values of all derived
components; a signature cannot tell the headers apart unless it covers them. -/
theorem C126_same_host (E : Env) (hE : E.host = hosts idna) (hU : ∀ s, Deps.parseUrl s = parse E s) (headers headers' : HeaderMap)
    (v v' : HeaderValue) (port : Option Str) (host host' t : Str) (c : Char)
    (hv : (headers.getAll hHost).head? = some v) (hv' : (headers'.getAll hHost).head? = some v')
    (he : v.toStr = some (host ++ markedText ':' port)) (he' : v'.toStr = some (host' ++ markedText ':' port))
    (hvis : ∀ d ∈ host ++ host' ++ markedText ':' port ++ c :: t, 32 < d.toNat)
    (ha : ∀ d ∈ host ++ host' ++ markedText ':' port, ¬ Slash d ∧ d ≠ '?' ∧ d ≠ '#') (hc : Slash c)
    (hh : ∀ s ∈ [host, host'], s ≠ [] ∧ '@' ∉ s ∧ (∀ x y, s = x ++ ':' :: y → InBrackets x) ∧ ¬ InBrackets s)
    (hp : ∀ d, port = some d → '@' ∉ d) (hs : HostAlias idna host host') :
    (∀ url, UrlOf (c :: t) headers url ↔ UrlOf (c :: t) headers' url) ∧
      ∀ (r r' : MockRequest) (d : DerivedComponent), r.method = r'.method → UrlOf (c :: t) headers r.url → UrlOf (c :: t) headers' r'.url →
        r.derive (.derived d) = r'.derive (.derived d) := by
  have hiff : ∀ url, UrlOf (c :: t) headers url ↔ UrlOf (c :: t) headers' url := by
    intro url
    have h0 := hh host (by simp)
    have h0' := hh host' (by simp)
    have hal := C126_alias_authority idna E hE 80 (by decide) none port host host' hh hp hs
    simp only [userinfoText, List.nil_append] at hal
    rw [C122_origin_form E hU headers v _ t c hv he (by simp [h0.1]) (fun d hd => hvis d (by simp at hd ⊢; grind))
        (fun d hd => ha d (by simp at hd ⊢; grind)) hc,
      C122_origin_form E hU headers' v' _ t c hv' he' (by simp [h0'.1]) (fun d hd => hvis d (by simp at hd ⊢; grind))
        (fun d hd => ha d (by simp at hd ⊢; grind)) hc]
    exact and_congr_right fun _ => exists_congr fun a => and_congr_right fun _ => and_congr_left fun _ => hal a
  refine ⟨hiff, fun r r' d h1 h2 h3 => ?_⟩
  have e : r.url = r'.url := by
    have a := urlOf_iff.1 h2
    rw [urlOf_iff.1 ((hiff r'.url).2 h3)] at a
    exact (Option.some.inj (Except.ok.inj a)).symm
  unfold MockRequest.derive
  rw [h1, e]

end
end

/-! ### Examples -/

/-- One international domain name. -/
def exIdna (s : Str) : Option { t : Str // ∀ c ∈ t, c.toNat < 128 } :=
  if s = str% "bücher.de" ∨ s.map asciiLower = str% "xn--bcher-kva.de" then some ⟨str% "xn--bcher-kva.de", by decide⟩ else none

theorem exIdna_again : ∀ s t, exIdna s = some t → AsciiIs exIdna t.1 t.1 := by
  intro s t h
  unfold exIdna at h
  split at h
  · obtain rfl := Option.some.inj h
    exact asciiIs_iff.2 (by decide +kernel)
  · cases h

/-- Domains, addresses, and texts that are refused. -/
example : HostIs exIdna (str% "Example.COM") (str% "example.com") ∧ HostIs exIdna (str% "b%C3%BCcher.de") (str% "xn--bcher-kva.de") ∧
    HostIs exIdna (str% "0x7F.1") (str% "127.0.0.1") ∧ HostIs exIdna (str% "[1:0:0:2::0.0.0.3]") (str% "[1:0:0:2::3]") ∧
    (∀ h, ¬ HostIs exIdna (str% "a%2Fb") h) ∧ (∀ h, ¬ HostIs exIdna (str% "1.2.3.256") h) ∧ (∀ h, ¬ HostIs exIdna (str% "[1::2::3]") h) ∧
    ∀ h, ¬ HostIs exIdna [] h := by
  simp only [hostIs_iff]
  refine ⟨by decide +kernel, by decide +kernel, by decide +kernel, by decide +kernel, ?_, ?_, ?_, ?_⟩
  · have : (UrlHost.parse exIdna (str% "a%2Fb")).map Host.text = none := by decide +kernel
    simp [this]
  · have : (UrlHost.parse exIdna (str% "1.2.3.256")).map Host.text = none := by decide +kernel
    simp [this]
  · have : (UrlHost.parse exIdna (str% "[1::2::3]")).map Host.text = none := by decide +kernel
    simp [this]
  · have : (UrlHost.parse exIdna []).map Host.text = none := by decide +kernel
    simp [this]

example : HostIs exIdna (str% "xn--bcher-kva.de") (str% "xn--bcher-kva.de") :=
  C126_again exIdna exIdna_again (str% "bücher.de") _ (hostIs_iff.2 (by decide +kernel))

example : HostIs exIdna (str% "My_Host.1x") (str% "my_host.1x") :=
  (C126_domain exIdna (str% "My_Host.1x") _ (by decide) (ownAscii_iff.2 (by decide +kernel)) (by decide)
    fun h => absurd (endsInNumber_iff.2 h) (by decide +kernel)).2 (by decide)

/-- Four spellings of one address. -/
example : ∀ s ∈ [str% "127.0.0.1", str% "2130706433", str% "0x7f000001.", str% "0177.0x0.1"], ∀ h,
    HostIs exIdna s h ↔ Ipv4Written 2130706433 h := by
  intro s hs h
  have : ∀ s ∈ [str% "127.0.0.1", str% "2130706433", str% "0x7f000001.", str% "0177.0x0.1"], ipv4Addr s = some 2130706433 := by decide +kernel
  exact C126_ipv4 exIdna s h _ (ipv4Addr_iff.1 (this s hs))

example : HostIs exIdna (str% "[0:0:0:0:0:FFFF:1.2.3.4]") (str% "[::ffff:102:304]") :=
  (C126_ipv6 exIdna (str% "0:0:0:0:0:FFFF:1.2.3.4") _).2 ⟨[0, 0, 0, 0, 0, 0xffff, 0x102, 0x304], str% "::ffff:102:304",
    ipv6Addr_iff.1 (by decide +kernel), (ipv6Written_iff (by decide)).2 (by decide +kernel), rfl⟩

example : HostAlias exIdna (str% "Example.COM") (str% "eXAMPLE.com") ∧ HostAlias exIdna (str% "example.com") (str% "ex%61%6Dple.com") :=
  ⟨C126_alias_case exIdna _ _ (ownAscii_iff.2 (by decide +kernel)) (ownAscii_iff.2 (by decide +kernel)) (by decide) (by decide) (by decide),
    C126_alias_encoded exIdna (str% "ex") (str% "am") (str% "%61%6D") (str% "ple.com") (by decide) (by decide)
      (.cons (.digit 6 (by decide)) (.digit 1 (by decide)) (.cons (.digit 6 (by decide)) (.upper 3 (by decide)) .nil))⟩

/-- The parser of URLs with these hosts. -/
def exHostsIdna : Env where
  host := hosts exIdna
  other _ _ := none
  keeps _ := false

@[reducible] def hostDeps : Deps := { toyDeps with parseUrl := parse exHostsIdna }

/-- `http://127.0.0.1:81/` -/
def exAddressUrl : Url where
  scheme := str% "http"
  authority := some { host := str% "127.0.0.1", port := some 81 }
  path := str% "/"
  ok := by decide +kernel

theorem exAddressUrl_read : WebUrl exHostsIdna (str% "HTTP://0x7f.1:81") exAddressUrl.toUrlParts :=
  (C122_read exHostsIdna _ (str% "http") (str% "//0x7f.1:81") 80 (hasScheme_iff.2 (by decide +kernel)) (by decide) _).1
    ⟨exAddressUrl.ok, by decide +kernel⟩

example : parse exHostsIdna exAddressUrl.asStr = .ok exAddressUrl :=
  let ⟨_, _, _, h⟩ := C126_reread exIdna exHostsIdna rfl exIdna_again _ _ exAddressUrl_read
  h

section
attribute [local instance] hostDeps

example : OnWire exAddressUrl [(hHost, ⟨utf8 (str% "127.0.0.1:81"), rfl⟩)] true :=
  (C126_on_wire exIdna exHostsIdna rfl exIdna_again (fun _ => rfl) _ _ exAddressUrl_read _ true).2
    ⟨_, _, rfl, rfl, by decide +kernel, fun _ => by decide⟩

/-- `Host: 127.0.0.1:81` and `Host: 2130706433:81`. -/
example (r r' : MockRequest) (hm : r.method = r'.method)
    (h : UrlOf (str% "/x") [(hHost, ⟨utf8 (str% "127.0.0.1:81"), rfl⟩)] r.url)
    (h' : UrlOf (str% "/x") [(hHost, ⟨utf8 (str% "2130706433:81"), rfl⟩)] r'.url) :
    ∀ d, r.derive (.derived d) = r'.derive (.derived d) := by
  intro d
  refine (C126_same_host exIdna exHostsIdna rfl (fun _ => rfl) _ _ _ _ (some (str% "81")) (str% "127.0.0.1") (str% "2130706433") (str% "x") '/'
    rfl rfl (by decide +kernel) (by decide +kernel) (by decide) (by unfold Slash; decide) (.inl rfl) ?_ (by decide) ?_).2 r r' _ hm h h'
  · intro s hs
    have key : ∀ s ∈ [str% "127.0.0.1", str% "2130706433"], s ≠ [] ∧ '@' ∉ s ∧ ':' ∉ s ∧ '[' ∉ s := by decide
    obtain ⟨h1, h2, h3, h4⟩ := key s hs
    exact ⟨h1, h2, fun x y e => absurd (by rw [e]; simp) h3, fun ⟨x, y, e, _⟩ => h4 (by rw [e]; simp)⟩
  · intro h
    rw [C126_ipv4 exIdna (str% "127.0.0.1") h 2130706433 (ipv4Addr_iff.1 (by decide +kernel)),
      C126_ipv4 exIdna (str% "2130706433") h 2130706433 (ipv4Addr_iff.1 (by decide +kernel))]

/-- There is such a URL. -/
example : ∃ url, UrlOf (str% "/x") [(hHost, ⟨utf8 (str% "2130706433:81"), rfl⟩)] url :=
  ⟨⟨⟨str% "http", some { host := str% "127.0.0.1", port := some 81 }, str% "/x", none, none⟩, by decide +kernel⟩,
    urlOf_iff.2 (exDerives_eq (by decide +kernel))⟩

end
end Httpsig
