import Verif.Sfv.Serialize
/-
Parser of the `sfv` 0.9 crate (dependency; RFC 8941 section 4.2). `none` = `Err`.
Parsers return the parsed value and the remaining input. Error messages are not modelled.
Reached from src/derived.rs:195 (`parse_item`) and src/signature_input.rs:140 (`parse_dictionary`).
The `while` loops take a fuel argument; `Verif/Lemmas/SfvFuel.lean` proves that the fuel used here
(the length of the input plus one) never runs out.
-/
namespace Httpsig.Sfv

/-- `consume_sp_chars`. -/
def skipSp (cs : Str) : Str := cs.dropWhile (· == ' ')

/-- `consume_ows_chars`. -/
def skipOws (cs : Str) : Str := cs.dropWhile (fun c => c == ' ' || c == '\t')

/-- `parse_key`. -/
def parseKey (cs : Str) : Option (Str × Str) :=
  match cs with
  | [] => none
  | c :: _ => if isKeyStart c then some (cs.takeWhile isKeyChar, cs.dropWhile isKeyChar) else none

/-- Body of `parse_string`, after the opening quote. -/
def parseStringBody : Str → Option (Str × Str)
  | [] => none
  | c :: cs =>
    if c = '"' then some ([], cs)
    else if c.toNat = 0x7f ∨ c.toNat ≤ 0x1f then none
    else if c = '\\' then
      match cs with
      | [] => none
      | d :: ds =>
        if d = '\\' ∨ d = '"' then (parseStringBody ds).map fun (s, r) => (d :: s, r)
        else none
    else (parseStringBody cs).map fun (s, r) => (c :: s, r)

/-- `extract_digits`: digits with at most one dot, with the length limits of RFC 8941. -/
def extractDigits (isInt : Bool) (acc : Str) : Str → Option (Bool × Str × Str)
  | [] => some (isInt, acc, [])
  | c :: cs =>
    if c.isDigit then
      if isInt && acc.length + 1 > 15 then none
      else if !isInt && acc.length + 1 > 16 then none
      else extractDigits isInt (acc ++ [c]) cs
    else if c = '.' ∧ isInt = true then
      if acc.length > 12 then none
      else extractDigits false (acc ++ [c]) cs
    else some (isInt, acc, c :: cs)

/-- Value of a string of digits (`str::parse::<i64>` on at most 15 digits). -/
def digitsVal (s : Str) : Nat := s.foldl (fun n c => n * 10 + (c.toNat - 48)) 0

/-- The optional minus sign at the start of `parse_number`. -/
def splitSign (cs : Str) : Bool × Str :=
  match cs with
  | [] => (false, [])
  | c :: r => if c = '-' then (true, r) else (false, c :: r)

/-- `parse_number`. -/
def parseNumber (cs : Str) : Option (BareItem × Str) :=
  let neg := (splitSign cs).1
  let cs := (splitSign cs).2
  match cs with
  | [] => none
  | c :: _ =>
    if !c.isDigit then none
    else do
      let (isInt, num, rest) ← extractDigits true [] cs
      if isInt then
        let n : Int := digitsVal num
        let i := if neg then -n else n
        if -maxInt ≤ i ∧ i ≤ maxInt then some (.integer i, rest) else none
      else
        let ip := num.takeWhile (· != '.')
        let fp := (num.dropWhile (· != '.')).drop 1
        if fp.length = 0 then none
        else if fp.length ≤ 3 then
          some (.decimal { neg := neg, mant := digitsVal (ip ++ fp), scale := fp.length }, rest)
        else none

/-- `is_allowed_b64_content`. -/
def isB64Char (c : Char) : Bool := c.isAlphanum || c == '+' || c == '=' || c == '/'

/-- `parse_byte_sequence`, after the opening colon. -/
def parseByteSeqBody (cs : Str) : Option (BareItem × Str) :=
  if cs.any (· == ':') then
    let body := cs.takeWhile (· != ':')
    let rest := (cs.dropWhile (· != ':')).drop 1
    if body.all isB64Char then (Base64.lenientDecode body).map fun b => (.byteSeq b, rest)
    else none
  else none

/-- `parse_bare_item`. -/
def parseBare (cs : Str) : Option (BareItem × Str) :=
  match cs with
  | [] => none
  | c :: r =>
    if c = '?' then
      match r with
      | '0' :: r' => some (.boolean false, r')
      | '1' :: r' => some (.boolean true, r')
      | _ => none
    else if c = '"' then (parseStringBody r).map fun (s, r') => (.string s, r')
    else if c = ':' then parseByteSeqBody r
    else if isTokenStart c then some (.token (cs.takeWhile isTokenChar), cs.dropWhile isTokenChar)
    else if c = '-' ∨ c.isDigit then parseNumber cs
    else none

/-- Optional `=value` after a parameter key. -/
def parseParamValue (cs : Str) : Option (BareItem × Str) :=
  match cs with
  | '=' :: r => parseBare r
  | _ => some (.boolean true, cs)

/-- The loop of `parse_parameters`. -/
def parseParamsAux : Nat → Params → Str → Option (Params × Str)
  | 0, _, _ => none
  | fuel + 1, acc, cs =>
    match cs with
    | ';' :: r => do
      let (k, r1) ← parseKey (skipSp r)
      let (v, r2) ← parseParamValue r1
      parseParamsAux fuel (IMap.insert acc k v) r2
    | _ => some (acc, cs)

/-- `parse_parameters`. -/
def parseParams (cs : Str) : Option (Params × Str) := parseParamsAux (cs.length + 1) [] cs

/-- `Item::parse`. -/
def parseItemBody (cs : Str) : Option (Item × Str) := do
  let (b, r) ← parseBare cs
  let (ps, r') ← parseParams r
  some ({ bare := b, params := ps }, r')

/-- The loop of `parse_inner_list`, after the opening parenthesis. -/
def parseInnerAux : Nat → List Item → Str → Option (InnerList × Str)
  | 0, _, _ => none
  | fuel + 1, acc, cs =>
    match cs with
    | [] => none
    | _ :: _ =>
      match skipSp cs with
      | ')' :: r => do
        let (ps, r') ← parseParams r
        some ({ items := acc, params := ps }, r')
      | cs' => do
        let (i, r) ← parseItemBody cs'
        match r with
        | [] => none
        | c :: _ => if c = ' ' ∨ c = ')' then parseInnerAux fuel (acc ++ [i]) r else none

/-- `parse_inner_list`. -/
def parseInnerList (cs : Str) : Option (InnerList × Str) :=
  match cs with
  | '(' :: r => parseInnerAux (r.length + 1) [] r
  | _ => none

/-- `parse_list_entry`. -/
def parseListEntry (cs : Str) : Option (ListEntry × Str) :=
  match cs with
  | '(' :: _ => (parseInnerList cs).map fun (l, r) => (.innerList l, r)
  | _ => (parseItemBody cs).map fun (i, r) => (.item i, r)

/-- Value of a dictionary member: `=entry`, or parameters on an implicit `true`. -/
def parseMember (cs : Str) : Option (ListEntry × Str) :=
  match cs with
  | '=' :: r => parseListEntry r
  | _ => (parseParams cs).map fun (ps, r) => (.item { bare := .boolean true, params := ps }, r)

/-- The loop of `Dictionary::parse`. -/
def parseDictAux : Nat → Dictionary → Str → Option (Dictionary × Str)
  | 0, _, _ => none
  | fuel + 1, acc, cs =>
    match cs with
    | [] => some (acc, [])
    | _ :: _ => do
      let (k, r) ← parseKey cs
      let (e, r1) ← parseMember r
      let acc' := IMap.insert acc k e
      match skipOws r1 with
      | [] => some (acc', [])
      | c :: r2 =>
        if c = ',' then
          match skipOws r2 with
          | [] => none
          | r3 => parseDictAux fuel acc' r3
        else none

/-- ASCII check done by `Parser::parse` on the raw bytes. -/
def isAscii (s : Str) : Bool := s.all fun c => c.toNat < 128

/-- `Parser::parse_dictionary`. -/
def parseDictionary (s : Str) : Option Dictionary :=
  if isAscii s then
    let cs := skipSp s
    match parseDictAux (cs.length + 1) [] cs with
    | some (d, r) => if skipSp r = [] then some d else none
    | none => none
  else none

/-- `Parser::parse_item`. -/
def parseItem (s : Str) : Option Item :=
  if isAscii s then
    match parseItemBody (skipSp s) with
    | some (i, r) => if skipSp r = [] then some i else none
    | none => none
  else none

end Httpsig.Sfv
