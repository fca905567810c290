import Verif.Model.Data
import Verif.Model.Timestamp
import Verif.Model.UnitValue
import Verif.Model.Uuid
/-
JSON texts: the parts of Go's encoding/json used by misc.go, data.go, timestamp.go,
decimal.go, unitvalue.go and uuid.go.  encoding/json is not part of the repository; it is
modelled here (as of Go 1.22, where `\b` and `\f` have short escapes) because the
properties are about the texts it writes and reads.
Simplifications: a Go string holding bytes that are not UTF-8 has no counterpart; the
shortest decimal text of a float64 and its inverse (strconv), the text of a decimal
(math/big) and the encoding of values of other Go types are parameters (`JLib`).
-/
namespace Sadl

/-- A JSON document: what a JSON text stands for before numbers are converted. -/
inductive JDoc where
  | null
  | bool (b : Bool)
  | num (text : List Char)
  | str (s : String)
  | arr (xs : List JDoc)
  | obj (kvs : List (String × JDoc))
  deriving Repr

/-- `hex[n]` for `n < 16` (lower case). -/
def jHexChar (n : Nat) : Char := if n < 10 then Char.ofNat (48 + n) else Char.ofNat (87 + n)

/-- Four hexadecimal digits. -/
def jHex4 (n : Nat) : List Char :=
  [jHexChar (n / 4096 % 16), jHexChar (n / 256 % 16), jHexChar (n / 16 % 16), jHexChar (n % 16)]

/-- encoding/json `appendString`, one character; `html` is SetEscapeHTML. -/
def jEscape (html : Bool) (c : Char) : List Char :=
  if c = '"' then ['\\', '"']
  else if c = '\\' then ['\\', '\\']
  else if c.toNat = 8 then ['\\', 'b']
  else if c.toNat = 12 then ['\\', 'f']
  else if c = '\n' then ['\\', 'n']
  else if c = '\r' then ['\\', 'r']
  else if c = '\t' then ['\\', 't']
  else if c.toNat < 32 ∨ c.toNat = 0x2028 ∨ c.toNat = 0x2029 ∨ (html = true ∧ (c = '<' ∨ c = '>' ∨ c = '&')) then
    '\\' :: 'u' :: jHex4 c.toNat
  else [c]

/-- encoding/json `appendString`: a string with its quotes. -/
def jQuote (html : Bool) (s : List Char) : List Char :=
  '"' :: s.flatMap (jEscape html) ++ ['"']

/-- encoding/json `appendIndent` with prefix "" and indent "  ": a new line. -/
def jNewline (ind : Nat) : List Char := '\n' :: List.replicate (2 * ind) ' '

mutual
/-- encoding/json `Encoder.Encode` with `SetEscapeHTML(html)` and `SetIndent("", "  ")`,
without the final line break.  `ind` is the nesting depth. -/
def jPretty (html : Bool) (ind : Nat) : JDoc → List Char
  | .null => "null".toList
  | .bool true => "true".toList
  | .bool false => "false".toList
  | .num t => t
  | .str s => jQuote html s.toList
  | .arr [] => ['[', ']']
  | .arr (x :: r) => '[' :: jNewline (ind + 1) ++ jPretty html (ind + 1) x ++ jPrettyItems html ind r
  | .obj [] => ['{', '}']
  | .obj ((k, x) :: r) =>
    '{' :: jNewline (ind + 1) ++ jQuote html k.toList ++ ':' :: ' ' :: jPretty html (ind + 1) x ++ jPrettyMembers html ind r
def jPrettyItems (html : Bool) (ind : Nat) : List JDoc → List Char
  | [] => jNewline ind ++ [']']
  | x :: r => ',' :: jNewline (ind + 1) ++ jPretty html (ind + 1) x ++ jPrettyItems html ind r
def jPrettyMembers (html : Bool) (ind : Nat) : List (String × JDoc) → List Char
  | [] => jNewline ind ++ ['}']
  | (k, x) :: r =>
    ',' :: jNewline (ind + 1) ++ jQuote html k.toList ++ ':' :: ' ' :: jPretty html (ind + 1) x ++ jPrettyMembers html ind r
end

/-- encoding/json `isSpace`. -/
def jSpace (c : Char) : Bool := c = ' ' || c = '\t' || c = '\r' || c = '\n'

/-- Skip white space. -/
def jSkip (s : List Char) : List Char := s.dropWhile jSpace

/-- A character of a string literal, or an UTF-16 unit written `\uXXXX`. -/
inductive JUnit where
  | chr (c : Char)
  | unit (n : Nat)
  deriving Repr, DecidableEq

/-- encoding/json `getu4`, one digit. -/
def jUnhex (c : Char) : Option Nat :=
  let n := c.toNat
  if 48 ≤ n ∧ n ≤ 57 then some (n - 48)
  else if 97 ≤ n ∧ n ≤ 102 then some (n - 87)
  else if 65 ≤ n ∧ n ≤ 70 then some (n - 55)
  else none

/-- encoding/json `getu4`. -/
def jUnhex4 (a b c d : Char) : Option Nat :=
  match jUnhex a, jUnhex b, jUnhex c, jUnhex d with
  | some a, some b, some c, some d => some (a * 4096 + b * 256 + c * 16 + d)
  | _, _, _, _ => none

/-- The escapes of one letter (encoding/json `stateInStringEsc`, `unquoteBytes`). -/
def jUnescape (c : Char) : Option Char :=
  if c = '"' then some '"'
  else if c = '\\' then some '\\'
  else if c = '/' then some '/'
  else if c = 'b' then some (Char.ofNat 8)
  else if c = 'f' then some (Char.ofNat 12)
  else if c = 'n' then some '\n'
  else if c = 'r' then some '\r'
  else if c = 't' then some '\t'
  else none

/-- The inside of a string literal up to and including the closing quote, and the rest
(encoding/json `stateInString`, `stateInStringEsc...`, and the loop of `unquoteBytes`). -/
def jUnits : List Char → Option (List JUnit × List Char)
  | [] => none
  | c :: r =>
    if c = '"' then some ([], r)
    else if c = '\\' then
      match r with
      | [] => none
      | e :: r1 =>
        if e = 'u' then
          match r1 with
          | a :: b :: c' :: d :: r2 =>
            match jUnhex4 a b c' d with
            | some n => (jUnits r2).map fun p => (.unit n :: p.1, p.2)
            | none => none
          | _ => none
        else match jUnescape e with
          | some ch => (jUnits r1).map fun p => (.chr ch :: p.1, p.2)
          | none => none
    else if c.toNat < 32 then none
    else (jUnits r).map fun p => (.chr c :: p.1, p.2)

/-- utf16.IsSurrogate and the two halves. -/
def jHigh (n : Nat) : Bool := decide (0xD800 ≤ n ∧ n < 0xDC00)
def jLow (n : Nat) : Bool := decide (0xDC00 ≤ n ∧ n < 0xE000)

/-- utf16.DecodeRune and unicode.ReplacementChar as in `unquoteBytes`: a high half followed
by a low half is one character, any other half is U+FFFD.  The first argument is a high
half that has just been read. -/
def jJoin : Option Nat → List JUnit → List Char
  | none, [] => []
  | some _, [] => [Char.ofNat 0xFFFD]
  | none, .chr c :: r => c :: jJoin none r
  | some _, .chr c :: r => Char.ofNat 0xFFFD :: c :: jJoin none r
  | none, .unit n :: r =>
    if jHigh n then jJoin (some n) r
    else if jLow n then Char.ofNat 0xFFFD :: jJoin none r
    else Char.ofNat n :: jJoin none r
  | some h, .unit n :: r =>
    if jLow n then Char.ofNat ((h - 0xD800) * 1024 + (n - 0xDC00) + 0x10000) :: jJoin none r
    else if jHigh n then Char.ofNat 0xFFFD :: jJoin (some n) r
    else Char.ofNat 0xFFFD :: Char.ofNat n :: jJoin none r

/-- A string literal after its opening quote. -/
def jString (s : List Char) : Option (String × List Char) :=
  (jUnits s).map fun p => (String.ofList (jJoin none p.1), p.2)

/-- A maximal run of digits and what follows. -/
def jDigits : List Char → List Char × List Char
  | [] => ([], [])
  | c :: r => if isDigitC c then ((c :: (jDigits r).1), (jDigits r).2) else ([], c :: r)

/-- encoding/json `state1`, `state0`: the integer part. -/
def jInt (s : List Char) : Option (List Char × List Char) :=
  match s with
  | [] => none
  | c :: r =>
    if c = '0' then some ([c], r)
    else if isDigitC c then some (c :: (jDigits r).1, (jDigits r).2)
    else none

/-- encoding/json `stateDot`, `stateDot0`: the optional fraction. -/
def jFrac (s : List Char) : Option (List Char × List Char) :=
  match s with
  | [] => some ([], [])
  | c :: r =>
    if c = '.' then
      match jDigits r with
      | ([], _) => none
      | (ds, r') => some (c :: ds, r')
    else some ([], c :: r)

/-- encoding/json `stateESign`: the optional sign of the exponent. -/
def jSign (s : List Char) : List Char × List Char :=
  match s with
  | [] => ([], [])
  | c :: r => if c = '+' ∨ c = '-' then ([c], r) else ([], c :: r)

/-- encoding/json `stateE`, `stateE0`: the optional exponent. -/
def jExp (s : List Char) : Option (List Char × List Char) :=
  match s with
  | [] => some ([], [])
  | c :: r =>
    if c = 'e' ∨ c = 'E' then
      match jDigits (jSign r).2 with
      | ([], _) => none
      | (ds, r') => some (c :: (jSign r).1 ++ ds, r')
    else some ([], c :: r)

/-- encoding/json `stateNeg` and the states of numbers: the text of a number and the rest. -/
def jNumber (s : List Char) : Option (List Char × List Char) :=
  let (m, s) : List Char × List Char := match s with
    | '-' :: r => (['-'], r)
    | s => ([], s)
  match jInt s with
  | none => none
  | some (i, s) =>
    match jFrac s with
    | none => none
    | some (f, s) =>
      match jExp s with
      | none => none
      | some (e, s) => some (m ++ i ++ f ++ e, s)

/-- A literal name at the head of a text. -/
def jName (name : List Char) (s : List Char) : Option (List Char) :=
  match name, s with
  | [], s => some s
  | c :: n, x :: r => if x = c then jName n r else none
  | _ :: _, [] => none

mutual
/-- encoding/json's scanner and decoder: a value at the head of a text.  `d` counts the
arrays and objects that may still be opened, `fuel` bounds the number of calls. -/
def jValue (fuel d : Nat) (s : List Char) : Option (JDoc × List Char) :=
  match fuel with
  | 0 => none
  | fuel + 1 =>
    match jSkip s with
    | [] => none
    | c :: r =>
      if c = '"' then (jString r).map fun p => (.str p.1, p.2)
      else if c = 'n' then (jName "ull".toList r).map fun r => (.null, r)
      else if c = 't' then (jName "rue".toList r).map fun r => (.bool true, r)
      else if c = 'f' then (jName "alse".toList r).map fun r => (.bool false, r)
      else if c = '[' then
        match d with
        | 0 => none
        | d + 1 =>
          match jSkip r with
          | [] => none
          | c :: r => if c = ']' then some (.arr [], r) else (jItems fuel d (c :: r)).map fun p => (.arr p.1, p.2)
      else if c = '{' then
        match d with
        | 0 => none
        | d + 1 =>
          match jSkip r with
          | [] => none
          | c :: r => if c = '}' then some (.obj [], r) else (jMembers fuel d (c :: r)).map fun p => (.obj p.1, p.2)
      else (jNumber (c :: r)).map fun p => (.num p.1, p.2)
/-- the rest of an array, from a value on -/
def jItems (fuel d : Nat) (s : List Char) : Option (List JDoc × List Char) :=
  match fuel with
  | 0 => none
  | fuel + 1 =>
    match jValue fuel d s with
    | none => none
    | some (x, s) =>
      match jSkip s with
      | [] => none
      | c :: r =>
        if c = ',' then (jItems fuel d r).map fun p => (x :: p.1, p.2)
        else if c = ']' then some ([x], r)
        else none
/-- the rest of an object, from a key on -/
def jMembers (fuel d : Nat) (s : List Char) : Option (List (String × JDoc) × List Char) :=
  match fuel with
  | 0 => none
  | fuel + 1 =>
    match jSkip s with
    | [] => none
    | q :: r =>
      if q = '"' then
        match jString r with
        | none => none
        | some (k, s) =>
          match jSkip s with
          | [] => none
          | c :: r =>
            if c = ':' then
              match jValue fuel d r with
              | none => none
              | some (x, s) =>
                match jSkip s with
                | [] => none
                | c :: r =>
                  if c = ',' then (jMembers fuel d r).map fun p => ((k, x) :: p.1, p.2)
                  else if c = '}' then some ([(k, x)], r)
                  else none
            else none
      else none
end

/-- encoding/json `maxNestingDepth`. -/
def jMaxDepth : Nat := 10000

/-- encoding/json `checkValid` and decoding: a whole text; `none` is a syntax error. -/
def jRead (s : List Char) : Option JDoc :=
  match jValue (2 * s.length + 2) jMaxDepth s with
  | some (x, r) => if jSkip r = [] then some x else none
  | none => none

/-- Parts of Go's library that stay abstract. -/
structure JLib where
  /-- encoding/json `floatEncoder`: the text of a finite float64. -/
  showFloat : BigFloat → List Char
  /-- strconv.ParseFloat(text, 64); `none` on a range error. -/
  parseFloat : List Char → Option BigFloat
  /-- `big.Float.Text('f', -1)` -/
  showDecimal : BigFloat → String
  /-- the encoding of a value of any further type; `none` is an error. -/
  encodeOther : Value → Option JDoc
  /-- `fmt.Sprint(obj)` -/
  sprint : Value → String

/-- Insert by key. -/
def jInsert {α : Type} (x : String × α) : List (String × α) → List (String × α)
  | [] => [x]
  | y :: r => if x.1 ≤ y.1 then x :: y :: r else y :: jInsert x r

/-- encoding/json `mapEncoder`: the keys are sorted (by bytes, which for UTF-8 is the order
of the characters). -/
def jSort {α : Type} : List (String × α) → List (String × α)
  | [] => []
  | x :: r => jInsert x (jSort r)

/-- Is this the text of one JSON number? -/
def jIsNumber (t : List Char) : Bool := jNumber t = some (t, [])

mutual
/-- encoding/json on a dynamic value: the document written; `none` is an error.  decimal.go:16-19
`Decimal.MarshalJSON` writes the text of the number, which encoding/json then checks. -/
def jEncode (L : JLib) : Value → Option JDoc
  | .null => some .null
  | .bool b | .boolPtr b => some (.bool b)
  | .str s | .strPtr s | .uuid s => some (.str s)
  | .dec d =>
    let t := (L.showDecimal d).toList
    if jIsNumber t then some (.num t) else none
  | .int n | .int64 n => some (.num (showInt n))
  | .float64 (.inf _) => none
  | .float64 f => some (.num (L.showFloat f))
  | .arr xs => (jEncodeItems L xs).map .arr
  | .strArr xs => some (.arr (xs.map .str))
  | .obj kvs => (jEncodeMembers L kvs).map fun m => .obj (jSort m)
  | v => L.encodeOther v
def jEncodeItems (L : JLib) : List Value → Option (List JDoc)
  | [] => some []
  | x :: r => (jEncode L x).bind fun d => (jEncodeItems L r).map (d :: ·)
def jEncodeMembers (L : JLib) : List (String × Value) → Option (List (String × JDoc))
  | [] => some []
  | (k, x) :: r => (jEncode L x).bind fun d => (jEncodeMembers L r).map ((k, d) :: ·)
end

mutual
/-- encoding/json decoding into `interface{}`: numbers become float64, objects become maps
in which the last of several equal keys wins; `none` is an error. -/
def jDecode (L : JLib) : JDoc → Option Value
  | .null => some .null
  | .bool b => some (.bool b)
  | .num t => (L.parseFloat t).map .float64
  | .str s => some (.str s)
  | .arr xs => (jDecodeItems L xs).map .arr
  | .obj kvs => (jDecodeMembers L [] kvs).map .obj
def jDecodeItems (L : JLib) : List JDoc → Option (List Value)
  | [] => some []
  | x :: r => (jDecode L x).bind fun v => (jDecodeItems L r).map (v :: ·)
def jDecodeMembers (L : JLib) (m : GoMap Value) : List (String × JDoc) → Option (GoMap Value)
  | [] => some m
  | (k, x) :: r => (jDecode L x).bind fun v => jDecodeMembers L (mset m k v) r
end

/-- misc.go:94-103 `Pretty`. -/
def prettyText (L : JLib) (v : Value) : String :=
  match jEncode L v with
  | some d => String.ofList (jPretty false 0 d ++ ['\n'])
  | none => L.sprint v

/-- misc.go:90-92 `Equivalent`. -/
def equivalent (L : JLib) (a b : Value) : Bool := prettyText L a = prettyText L b

/-- data.go:31-33 `Data.String`; 35-38 `DataToFile` writes this text. -/
def dataString (L : JLib) (data : Value) : String := prettyText L data

/-- data.go:58-66 `DataFromJsonString`; 40-56 `DataFromFile` of a file that is not YAML.
`none` is an error; a text holding only `null` gives the nil map, for which the model has
no value and which stands here as `null`. -/
def dataFromJson (L : JLib) (raw : String) : Option Value :=
  match jRead raw.toList with
  | some .null => some .null
  | some (.obj kvs) => jDecode L (.obj kvs)
  | _ => none

/-- data.go:27-29 `Data.UnmarshalJSON`. -/
def dataUnmarshal (L : JLib) (raw : String) : Option Value := (jRead raw.toList).bind (jDecode L)

/-- `json.Unmarshal(b, &j)` for a variable `j` of type string: `null` leaves it empty. -/
def jToString (raw : List Char) : Option String :=
  match jRead raw with
  | some (.str s) => some s
  | some .null => some ""
  | _ => none

/-- timestamp.go:23-25 `Timestamp.MarshalJSON`. -/
def timestampMarshal (isZero : Civil → Bool) (t : Civil) : List Char :=
  '"' :: showTimestamp isZero t ++ ['"']

/-- timestamp.go:27-38 `Timestamp.UnmarshalJSON`. -/
def timestampUnmarshal (raw : List Char) : Option Civil :=
  (jToString raw).bind fun s => parseTimestamp s.toList

/-- unitvalue.go:42-44 `UnitValue.MarshalJSON`: nothing is escaped. -/
def unitValueMarshal (showDecimal : BigFloat → String) (d : BigFloat) (unit : String) : List Char :=
  '"' :: (unitValueString showDecimal d unit).toList ++ ['"']

/-- unitvalue.go:46-58 `UnitValue.UnmarshalJSON`. -/
def unitValueUnmarshal (lib : Lib) (raw : List Char) : Option (BigFloat × String) :=
  (jToString raw).bind (parseUnitValue lib)

/-- `json.Marshal` of a `UUID` (uuid.go:8), a string type without a method of its own. -/
def uuidMarshal (u : String) : List Char := jQuote true u.toList

/-- uuid.go:10-21 `UUID.UnmarshalJSON`. -/
def uuidUnmarshal (raw : List Char) : Option String :=
  (jToString raw).bind fun s => if parseUUID s = "" then none else some (parseUUID s)

/-- decimal.go:16-19 `Decimal.MarshalJSON`. -/
def decimalMarshal (L : JLib) (d : BigFloat) : List Char := (L.showDecimal d).toList

/-- decimal.go:21-29 `Decimal.UnmarshalJSON`. -/
def decimalUnmarshal (lib : Lib) (raw : List Char) : Option BigFloat := lib.parseDecimal (String.ofList raw)

end Sadl
