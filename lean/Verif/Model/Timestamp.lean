import Verif.Model.Basic
/-
timestamp.go, with the parts of Go's `time` and `fmt` packages it uses.
-/
namespace Sadl

/-- A `time.Time` seen through its accessors `Year() .. Nanosecond()`, together with the
offset (in seconds east of UTC) of the location these accessors use. -/
structure Civil where
  year : Int
  month : Nat
  day : Nat
  hour : Nat
  minute : Nat
  second : Nat
  nano : Nat
  offset : Int := 0
  deriving Repr, DecidableEq

/-- `time.isLeap`. -/
def isLeap (y : Int) : Bool := y % 4 = 0 && (y % 100 ≠ 0 || y % 400 = 0)

/-- `time.daysIn`. -/
def daysIn (month : Nat) (y : Int) : Nat :=
  match month with
  | 2 => if isLeap y then 29 else 28
  | 4 | 6 | 9 | 11 => 30
  | _ => 31

def digitChar (d : Nat) : Char := Char.ofNat (48 + d)

/-- Decimal digits of `n`, most significant first (`%d`), with enough fuel. -/
def decAux : Nat → Nat → List Char
  | 0, _ => []
  | fuel + 1, n => if n < 10 then [digitChar n] else decAux fuel (n / 10) ++ [digitChar (n % 10)]

/-- `%d` of a natural number. -/
def showNat (n : Nat) : List Char := decAux (n + 1) n

/-- `%0wd` of a natural number. -/
def showPad (w n : Nat) : List Char := List.replicate (w - (showNat n).length) '0' ++ showNat n

/-- `%d` of an integer. -/
def showInt (n : Int) : List Char := if n < 0 then '-' :: showNat n.natAbs else showNat n.natAbs

/-- timestamp.go:16-21 `Timestamp.String`; `isZero` is `time.Time.IsZero`. -/
def showTimestamp (isZero : Civil → Bool) (t : Civil) : List Char :=
  if isZero t then []
  else showInt t.year ++ '-' :: showPad 2 t.month ++ '-' :: showPad 2 t.day ++ 'T' :: showPad 2 t.hour
    ++ ':' :: showPad 2 t.minute ++ ':' :: showPad 2 t.second ++ '.' :: showPad 3 (t.nano / 1000000) ++ ['Z']

def isDigitC (c : Char) : Bool := decide (48 ≤ c.toNat ∧ c.toNat ≤ 57)
def digitVal (c : Char) : Nat := c.toNat - 48

/-- `time.getnum`: one or two digits; exactly two when `fixed`. -/
def getnum (fixed : Bool) : List Char → Option (Nat × List Char)
  | [] => none
  | a :: rest =>
    if isDigitC a then
      match rest with
      | b :: rest' =>
        if isDigitC b then some (digitVal a * 10 + digitVal b, rest')
        else if fixed then none else some (digitVal a, rest)
      | [] => if fixed then none else some (digitVal a, rest)
    else none

/-- a literal character of the layout -/
def literal (c : Char) : List Char → Option (List Char)
  | [] => none
  | x :: r => if x = c then some r else none

/-- `stdLongYear` in `time.Parse`: four digits. -/
def getYear : List Char → Option (Nat × List Char)
  | a :: b :: c :: d :: r =>
    if isDigitC a && isDigitC b && isDigitC c && isDigitC d then
      some (digitVal a * 1000 + digitVal b * 100 + digitVal c * 10 + digitVal d, r)
    else none
  | _ => none

/-- value of at most nine digits read as a fraction, in units of 10^-9 (`parseNanoseconds`) -/
def fracVal : Nat → List Char → Nat
  | _, [] => 0
  | 0, _ => 0
  | k + 1, c :: r => digitVal c * 10 ^ k + fracVal k r

/-- `stdFracSecond9` in `time.Parse`: an optional fraction with any number of digits. -/
def getFrac (s : List Char) : Nat × List Char :=
  match s with
  | p :: d :: r =>
    if (p = '.' ∨ p = ',') ∧ isDigitC d then
      (fracVal 9 ((d :: r).takeWhile isDigitC), (d :: r).dropWhile isDigitC)
    else (0, s)
  | _ => (0, s)

/-- `time.Parse("2006-01-02T15:04:05.999Z", s)`. -/
def parseLayout (s : List Char) : Option Civil := do
  let (year, s) ← getYear s
  let s ← literal '-' s
  let (month, s) ← getnum true s
  if month < 1 ∨ 12 < month then none else
  let s ← literal '-' s
  let (day, s) ← getnum true s
  let s ← literal 'T' s
  let (hour, s) ← getnum false s
  if 24 ≤ hour then none else
  let s ← literal ':' s
  let (minute, s) ← getnum true s
  if 60 ≤ minute then none else
  let s ← literal ':' s
  let (second, s) ← getnum true s
  if 60 ≤ second then none else
  let (nano, s) := getFrac s
  let s ← literal 'Z' s
  if s ≠ [] then none else
  if day < 1 ∨ daysIn month year < day then none else
  some { year := year, month := month, day := day, hour := hour, minute := minute, second := second, nano := nano }

/-- `strings.HasSuffix` followed by cutting the suffix. -/
def cutSuffix (suf s : List Char) : Option (List Char) :=
  if suf.isSuffixOf s then some (s.take (s.length - suf.length)) else none

/-- timestamp.go:40-55 `ParseTimestamp`; `none` on error. -/
def parseTimestamp (s : List Char) : Option Civil :=
  match parseLayout s with
  | some t => some t
  | none =>
    match (cutSuffix "+00:00".toList s).or (cutSuffix "-00:00".toList s) with
    | some r => parseLayout (r ++ ['Z'])
    | none =>
      match (cutSuffix "+0000".toList s).or (cutSuffix "-0000".toList s) with
      | some r => parseLayout (r ++ ['Z'])
      | none => none

end Sadl
