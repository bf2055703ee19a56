import Verif.Cli.Model
import Verif.Geo.Model
import Verif.Radiometrics.Model

namespace Cloudnet

/-! Dates and times written as text: `instruments/fd12p.py:140-159`, `instruments/disdrometer/parsivel.py:314-362` and
`instruments/radiometrics.py:411-436`. Digits are those of ASCII (Python reads digits of other scripts as well) and white space is that of
`Char.isWhitespace`. -/

/-- The number that a list of digits stands for. -/
def digitsValue (ds : List Char) : ℕ := ds.foldl (fun n c => 10 * n + (c.toNat - 48)) 0

/-- Digits for Python's `int`: single underscores may stand between them. -/
def pyDigits (cs : List Char) : Option ℤ :=
  let ps := cs.splitOn '_'
  if ps.all fun p => p != [] && p.all Char.isDigit then some (digitsValue ps.flatten : ℕ) else none

/-- Python's `int(s)`, `none` is a `ValueError`. -/
def pyInt (s : String) : Option ℤ :=
  match (pyStrip s).toList with
  | '-' :: r => (pyDigits r).map fun n => -n
  | '+' :: r => pyDigits r
  | r => pyDigits r

/-- `datetime.time` to seconds. -/
structure DayClock where
  hour : ℤ
  minute : ℤ
  second : ℤ
deriving DecidableEq

/-- `datetime.time(hour, minute, second)` -/
def dayClock (hour minute second : ℤ) : Except String DayClock :=
  if 0 ≤ hour ∧ hour < 24 ∧ 0 ≤ minute ∧ minute < 60 ∧ 0 ≤ second ∧ second < 60 then .ok ⟨hour, minute, second⟩ else .error "ValueError"

/-- `int`, where the text is known to be in a tuple of that length (`ValueError` otherwise). -/
def pyInt3 (a b c : String) : Except String (ℤ × ℤ × ℤ) :=
  match pyInt a, pyInt b, pyInt c with
  | some a, some b, some c => .ok (a, b, c)
  | _, _, _ => .error "ValueError"

/-- Three texts, or the `ValueError` of unpacking. -/
def unpack3 : List String → Except String (String × String × String)
  | [a, b, c] => .ok (a, b, c)
  | _ => .error "ValueError"

/-! ## FD12P -/

/-- `fd12p.py:140-145` `_parse_date`: the regular expression `(\d{2})\.(\d{2})\.(\d{4})`. -/
def fd12pDate (date : String) : Except String CivilDate :=
  match date.toList with
  | [a, b, '.', c, d, '.', e, f, g, h] =>
    if [a, b, c, d, e, f, g, h].all Char.isDigit then civilDate (digitsValue [e, f, g, h]) (digitsValue [c, d]) (digitsValue [a, b])
    else .error "ValueError"
  | _ => .error "ValueError"

/-- `fd12p.py:148-159` `_parse_time`: the regular expression `(\d{2}):(\d{2})(:(\d{2}))?`. -/
def fd12pTime (time : String) : Except String DayClock :=
  match time.toList with
  | [a, b, ':', c, d] =>
    if [a, b, c, d].all Char.isDigit then dayClock (digitsValue [a, b]) (digitsValue [c, d]) 0 else .error "ValueError"
  | [a, b, ':', c, d, ':', e, f] =>
    if [a, b, c, d, e, f].all Char.isDigit then dayClock (digitsValue [a, b]) (digitsValue [c, d]) (digitsValue [e, f]) else .error "ValueError"
  | _ => .error "ValueError"

/-! ## Parsivel -/

/-- `parsivel.py:326-338` `_parse_date`: year, month and day as text. -/
def parsivelDateText (token : String) : Except String (String × String × String) :=
  if '/' ∈ token.toList then unpack3 (splitChar '/' token)
  else if '.' ∈ token.toList then (unpack3 (splitChar '.' token)).map fun t => (t.2.2, t.2.1, t.1)
  else .error "ValueError"

/-- `parsivel.py:326-338` `_parse_date` -/
def parsivelDate (token : String) : Except String CivilDate := do
  let (year, month, day) ← parsivelDateText token
  if year.length ≠ 4 then .error "ValueError"
  else
    let (year, month, day) ← pyInt3 year month day
    civilDate year month day

/-- `parsivel.py:341-344` `_parse_time` -/
def parsivelTime (token : String) : Except String DayClock := do
  let (hour, minute, second) ← unpack3 (splitChar ':' token)
  let (hour, minute, second) ← pyInt3 hour minute second
  dayClock hour minute second

/-- `token[a:b]` -/
def textSlice (token : String) (a b : ℕ) : String := String.ofList ((token.toList.take b).drop a)

/-- `parsivel.py:347-362` `_parse_datetime` -/
def parsivelDatetime (token : String) : Except String (CivilDate × DayClock) := do
  let (year, month, day) ← pyInt3 (textSlice token 0 4) (textSlice token 4 6) (textSlice token 6 8)
  let (hour, minute, second) ← pyInt3 (textSlice token 8 10) (textSlice token 10 12) (textSlice token 12 14)
  let date ← civilDate year month day
  let time ← dayClock hour minute second
  return (date, time)

/-! ## Radiometrics -/

/-- `radiometrics.py:411-415` `_parse_date` -/
def rmDate (text : String) : Except String CivilDate := do
  let (month, day, year) ← unpack3 (splitChar '/' text)
  let (month, day, year) ← pyInt3 month day year
  civilDate (if year < 100 then year + 2000 else year) month day

/-- `radiometrics.py:418-420` `_parse_time` -/
def rmTime (text : String) : Except String DayClock := do
  let (hour, minute, second) ← unpack3 (splitChar ':' text)
  let (hour, minute, second) ← pyInt3 hour minute second
  dayClock hour minute second

end Cloudnet
