import Verif.Model.Text
/-
misc.go
-/
namespace Sadl

/-- `strings.ToUpper` of the one-byte string `s[0:1]`.  A byte that is not ASCII is not
valid UTF-8 by itself, and `strings.Map` replaces it by U+FFFD. -/
def upperByte (b : UInt8) : List UInt8 :=
  if b < 128 then [if 97 ≤ b ∧ b ≤ 122 then b - 32 else b] else [0xEF, 0xBF, 0xBD]

/-- `strings.ToLower` of the one-byte string `s[0:1]`. -/
def lowerByte (b : UInt8) : List UInt8 :=
  if b < 128 then [if 65 ≤ b ∧ b ≤ 90 then b + 32 else b] else [0xEF, 0xBF, 0xBD]

/-- misc.go:12-17 `Capitalize`, on the bytes of the string. -/
def capitalizeBytes : List UInt8 → List UInt8
  | [] => []
  | b :: r => upperByte b ++ r

/-- misc.go:19-24 `Uncapitalize`, on the bytes of the string. -/
def uncapitalizeBytes : List UInt8 → List UInt8
  | [] => []
  | b :: r => lowerByte b ++ r

/-- misc.go:12-17 `Capitalize` on text whose first character is ASCII (names are symbols,
made of ASCII letters); other first characters are left alone, where Go destroys them
(see `capitalizeBytes`). -/
def capitalizeL : List Char → List Char
  | [] => []
  | c :: r => (if c.toNat < 128 then c.toUpper else c) :: r

/-- misc.go:19-24 `Uncapitalize`, same simplification. -/
def uncapitalizeL : List Char → List Char
  | [] => []
  | c :: r => (if c.toNat < 128 then c.toLower else c) :: r

def capitalize (s : String) : String := String.ofList (capitalizeL s.toList)
def uncapitalize (s : String) : String := String.ofList (uncapitalizeL s.toList)

/-- misc.go:54-56 `IsDigit` -/
def isDigitCh (c : Char) : Bool := decide ('0' ≤ c ∧ c ≤ '9')
/-- misc.go:62-64 `IsUppercaseLetter` -/
def isUpperCh (c : Char) : Bool := decide ('A' ≤ c ∧ c ≤ 'Z')
/-- misc.go:66-68 `IsLowercaseLetter` -/
def isLowerCh (c : Char) : Bool := decide ('a' ≤ c ∧ c ≤ 'z')
/-- misc.go:58-60 `IsLetter` -/
def isLetterCh (c : Char) : Bool := isUpperCh c || isLowerCh c
/-- misc.go:26-34 `IsSymbolChar` -/
def isSymbolChar (c : Char) (first : Bool) : Bool :=
  if isLetterCh c then true else if first then false else isDigitCh c || c == '_'

/-- misc.go:138-155: the loop of `FormatComment` writing the words; ends with the newline
of line 156. -/
def fcLoop (tab pre : List Char) (maxcol : Int) : Int → List (List Char) → List Char
  | _, [] => ['\n']
  | col, tok :: rest =>
    let brk := decide (maxcol ≤ col + byteLen tok)
    let col := if brk then 0 else col
    (if brk then ['\n'] else []) ++
      if col = 0 then
        tab ++ pre ++ tok ++ fcLoop tab pre maxcol (tab.length + byteLen pre + byteLen tok) rest
      else
        ' ' :: tok ++ fcLoop tab pre maxcol (col + byteLen tok + 1) rest

/-- `strings.Trim(s, " ")` -/
def trimBlanks (s : List Char) : List Char :=
  ((s.dropWhile (· == ' ')).reverse.dropWhile (· == ' ')).reverse

/-- misc.go:115-164 `FormatComment`. -/
def formatComment (indent pre comment : List Char) (maxcol : Int) (extraPad : Bool) : List Char :=
  let left := byteLen indent
  if maxcol ≤ left ∧ '\n' ∉ comment then indent ++ pre ++ comment ++ ['\n']
  else
    let tab := List.replicate left ' '
    if '\n' ∈ comment then
      (splitAll '\n' comment).flatMap (fun line => tab ++ pre ++ line ++ ['\n'])
    else
      let pad := if extraPad then tab ++ trimBlanks pre ++ ['\n'] else []
      pad ++ fcLoop tab pre maxcol 0 (splitAll ' ' comment) ++ pad

/-- misc.go:166-176 `GetAnnotation`; `none` is the nil map. -/
def getAnnotation (annos : Option (GoMap String)) (key : String) : String :=
  match annos with
  | none => ""
  | some m => match mget m key with
    | some s => if s = "" then "true" else s
    | none => ""

end Sadl
