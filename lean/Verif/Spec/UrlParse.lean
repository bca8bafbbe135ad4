import Verif.Spec.Grammar
import Verif.Spec.Query
import Verif.Spec.Text
import Verif.UrlParse
/-
Specification of how a text is read as a URL of one of the schemes http, https, ws, wss and ftp, after the URL standard
(url.spec.whatwg.org): which parts the text has, and what becomes of each. The reading of hosts is a parameter.
-/
namespace Httpsig

/-- The text without blanks and controls at its ends and without tabs and line ends. -/
def Stripped (s t : Str) : Prop :=
  ∃ m, Trimmed (fun c => decide (c.toNat ≤ 32)) s m ∧ t = m.filter fun c => decide (c ∉ ['\t', '\n', '\r'])

/-- Characters that are left as they are: visible ASCII characters, except for those in a list. -/
def Plain (codes : Str) (c : Char) : Prop := 33 ≤ c.toNat ∧ c.toNat ≤ 126 ∧ c ∉ codes

/-- `t` is `s` with all other characters written as `%XX`, byte by byte. -/
inductive Encoded (codes : Str) : Str → Str → Prop
  | nil : Encoded codes [] []
  | plain {c : Char} {s t : Str} : Plain codes c → Encoded codes s t → Encoded codes (c :: s) (c :: t)
  | coded {c : Char} {s t : Str} : ¬ Plain codes c → Encoded codes s t →
      Encoded codes (c :: s) ((utf8 [c]).flatMap (fun b => ['%', hexUpper (b.toNat / 16), hexUpper (b.toNat % 16)]) ++ t)

/-- What is encoded in a fragment, in a path, in a user name or password, and in a query. -/
def fragmentCodes : Str := str% "\"<>`"
@[inherit_doc fragmentCodes] def pathCodes : Str := str% "\"#<>?`{}"
@[inherit_doc fragmentCodes] def userCodes : Str := str% "\"#<>?`{}/:;=@[\\]^|"
@[inherit_doc fragmentCodes] def queryCodes : Str := str% "\"#<>'"

/-- Schemes and their default ports. -/
def webSchemes : List (Str × Nat) :=
  [(str% "http", 80), (str% "https", 443), (str% "ws", 80), (str% "wss", 443), (str% "ftp", 21)]

/-- Both kinds of slashes. -/
def Slash (c : Char) : Prop := c = '/' ∨ c = '\\'

/-- What a user name and password are turned into. -/
inductive UserText : Option Str → Option Str → Prop
  | absent : UserText none none
  | blank : UserText (some []) none
  | colon : UserText (some [':']) none
  | name {n t : Str} : ':' ∉ n → n ≠ [] → Encoded userCodes n t → UserText (some n) (some t)
  | noPassword {n t : Str} : ':' ∉ n → n ≠ [] → Encoded userCodes n t → UserText (some (n ++ [':'])) (some t)
  | password {n t p q : Str} : ':' ∉ n → p ≠ [] → Encoded userCodes n t → Encoded userCodes p q →
      UserText (some (n ++ ':' :: p)) (some (t ++ ':' :: q))

/-- After the text `a` a bracket is open. -/
def InBrackets (a : Str) : Prop := ∃ x y, a = x ++ '[' :: y ∧ ']' ∉ y

/-- A port: up to 65535; the default port does not count. -/
inductive PortIs (dflt : Nat) : Option Str → Option Nat → Prop
  | absent : PortIs dflt none none
  | blank : PortIs dflt (some []) none
  | dflt {d : Str} : Grammar.Digits d dflt → dflt < 65536 → PortIs dflt (some d) none
  | port {d : Str} {n : Nat} : d ≠ [] → Grammar.Digits d n → n < 65536 → n ≠ dflt → PortIs dflt (some d) (some n)

/-- `user:password@host:port`. The last `@` counts, and the first colon after it that is not in brackets. -/
def AuthorityIs (E : UrlParser.Env) (dflt : Nat) (auth : Str) (a : Authority) : Prop :=
  ∃ user host port, auth = userinfoText user ++ (host ++ markedText ':' port) ∧ '@' ∉ host ++ markedText ':' port ∧
    (∀ x y, host = x ++ ':' :: y → InBrackets x) ∧ (port ≠ none → ¬ InBrackets host) ∧
    host ≠ [] ∧ (E.host host).map Subtype.val = some a.host ∧ a.host ≠ [] ∧
    UserText user a.userinfo ∧ PortIs dflt port a.port

/-- The pieces of a path between slashes. -/
inductive Pieces : Str → List Str → Prop
  | last {s : Str} : (∀ c ∈ s, ¬ Slash c) → Pieces s [s]
  | more {s p : Str} {c : Char} {l : List Str} : (∀ c ∈ s, ¬ Slash c) → Slash c → Pieces p l → Pieces (s ++ c :: p) (s :: l)

/-- Segments that mean "here", and segments that mean "up". -/
def Here (s : Str) : Prop := s ∈ [str% ".", str% "%2e", str% "%2E"]
@[inherit_doc Here]
def Up (s : Str) : Prop :=
  s ∈ [str% "..", str% ".%2e", str% ".%2E", str% "%2e.", str% "%2E.", str% "%2e%2e", str% "%2e%2E", str% "%2E%2e", str% "%2E%2E"]

/-- One step of the removal of such segments. -/
inductive Shorter (keeps : Str → Bool) : List Str → List Str → Prop
  /-- at the end they leave a slash -/
  | last {a : List Str} {s : Str} : Here s ∨ Up s → Shorter keeps (a ++ [s]) (a ++ [s, []])
  | here {a b : List Str} {s t : Str} : Here s → Shorter keeps (a ++ s :: t :: b) (a ++ t :: b)
  | up {a b : List Str} {x s t : Str} : ¬ Here x → ¬ Up x → keeps x = false → Up s →
      Shorter keeps (a ++ x :: s :: t :: b) (a ++ t :: b)
  | kept {a b : List Str} {x s t : Str} : ¬ Here x → ¬ Up x → keeps x = true → Up s →
      Shorter keeps (a ++ x :: s :: t :: b) (a ++ x :: t :: b)
  | root {b : List Str} {s t : Str} : Up s → Shorter keeps (s :: t :: b) (t :: b)

/-- Any number of steps. -/
inductive Shortened (keeps : Str → Bool) : List Str → List Str → Prop
  | refl {l : List Str} : Shortened keeps l l
  | step {l m n : List Str} : Shorter keeps l m → Shortened keeps m n → Shortened keeps l n

/-- The path that a text means: its pieces are encoded, and then shortened until nothing is left to be removed. -/
def PathIs (E : UrlParser.Env) (text path : Str) : Prop :=
  ∃ pieces coded segs, ((text = [] ∧ pieces = [[]]) ∨ ∃ c p, text = c :: p ∧ Slash c ∧ Pieces p pieces) ∧
    Forall2 (Encoded pathCodes) pieces coded ∧ Shortened E.keeps coded segs ∧ (∀ s ∈ segs, ¬ Here s ∧ ¬ Up s) ∧
    path = segs.flatMap ('/' :: ·)

/-- A part that need not be there, encoded. -/
def PartIs (codes : Str) : Option Str → Option Str → Prop
  | none, none => True
  | some s, some t => Encoded codes s t
  | _, _ => False

/-- The parts of a URL behind its authority. -/
def TargetIs (E : UrlParser.Env) (text : Str) (u : UrlParts) : Prop :=
  ∃ p q f, text = p ++ (markedText '?' q ++ markedText '#' f) ∧ (∀ c ∈ p, c ≠ '?' ∧ c ≠ '#') ∧ (∀ s, q = some s → '#' ∉ s) ∧
    PathIs E p u.path ∧ PartIs queryCodes q u.query ∧ PartIs fragmentCodes f u.fragment

/-- The text means the URL. -/
def WebUrl (E : UrlParser.Env) (s : Str) (u : UrlParts) : Prop :=
  ∃ scheme slashes auth target dflt a, Stripped s (scheme ++ ':' :: (slashes ++ (auth ++ target))) ∧
    lowered scheme = u.scheme ∧ (u.scheme, dflt) ∈ webSchemes ∧ (∀ c ∈ slashes, Slash c) ∧
    (∀ c ∈ auth, ¬ Slash c ∧ c ≠ '?' ∧ c ≠ '#') ∧ u.authority = some a ∧ AuthorityIs E dflt auth a ∧ TargetIs E target u

/-- The text begins with a scheme. -/
def HasScheme (s scheme rest : Str) : Prop :=
  ∃ c cs, Stripped s (c :: cs ++ ':' :: rest) ∧ c.isAlpha = true ∧
    (∀ d ∈ cs, d.isAlpha = true ∨ d.isDigit = true ∨ d ∈ str% "+-.") ∧ scheme = lowered (c :: cs)

/-- A beginning of a path after which a new piece begins. -/
def BeforeSegment (pre : Str) : Prop := pre = [] ∨ ∃ a c, pre = a ++ [c] ∧ Slash c

/-- The two texts mean the same path. -/
def SamePath (E : UrlParser.Env) (p p' : Str) : Prop := ∀ path, PathIs E p path ↔ PathIs E p' path

/-- The two texts mean the same path, query and fragment. -/
def SameTarget (E : UrlParser.Env) (t t' : Str) : Prop := ∀ u, TargetIs E t u ↔ TargetIs E t' u

/-- What is left of a user name and password. -/
def UserPlain (t : Str) : Prop :=
  t ≠ [] ∧ ((∀ c ∈ t, Plain userCodes c) ∨
    ∃ n p, t = n ++ ':' :: p ∧ p ≠ [] ∧ (∀ c ∈ n, Plain userCodes c) ∧ ∀ c ∈ p, Plain userCodes c)

/-- A URL in which there is nothing to be encoded, removed or omitted; `a` is its authority. -/
structure Tidy (u : UrlParts) (a : Authority) : Prop where
  authority : u.authority = some a
  port : ∃ dflt, (u.scheme, dflt) ∈ webSchemes ∧ ∀ n, a.port = some n → n < 65536 ∧ n ≠ dflt
  user : ∀ t, a.userinfo = some t → UserPlain t
  host : a.host ≠ []
  path : ∃ segs, segs ≠ [] ∧ u.path = segs.flatMap ('/' :: ·) ∧
    ∀ s ∈ segs, ¬ Here s ∧ ¬ Up s ∧ ∀ c ∈ s, Plain pathCodes c ∧ ¬ Slash c
  query : ∀ q, u.query = some q → ∀ c ∈ q, Plain queryCodes c
  fragment : ∀ f, u.fragment = some f → ∀ c ∈ f, Plain fragmentCodes c

end Httpsig
