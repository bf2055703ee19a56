import Mathlib.Data.Nat.Notation
import Mathlib.Data.Int.Notation

/-! Identifiers of files (`utils.get_uuid` and the parts of the standard library that it uses) and small helper functions of `utils.py`. -/

namespace Cloudnet

/-! ### Identifiers -/

/-- A digit of `'%x'`. -/
def hexDigit (n : ℕ) : Char := if n < 10 then Char.ofNat (48 + n) else Char.ofNat (87 + n)

/-- `'%0kx' % n` for numbers with at most `k` digits. -/
def hexChars : ℕ → ℕ → List Char
  | 0, _ => []
  | k + 1, n => hexChars k (n / 16) ++ [hexDigit (n % 16)]

/-- `uuid.UUID.__str__` (standard library). An identifier is a number below `2 ^ 128`. -/
def uuidText (n : ℕ) : List Char :=
  let hex := hexChars 32 n
  hex.take 8 ++ ['-'] ++ (hex.drop 8).take 4 ++ ['-'] ++ (hex.drop 12).take 4 ++ ['-'] ++ (hex.drop 16).take 4 ++ ['-'] ++ hex.drop 20

/-- `text.replace(pattern, '')`, at most `fuel` steps. -/
def removeText (pattern : List Char) : ℕ → List Char → List Char
  | 0, cs => cs
  | _ + 1, [] => []
  | fuel + 1, c :: cs =>
    if pattern.isPrefixOf (c :: cs) then removeText pattern fuel ((c :: cs).drop pattern.length) else c :: removeText pattern fuel cs

/-- `text.strip('{}')`. -/
def stripBraces (cs : List Char) : List Char :=
  ((cs.dropWhile fun c => c = '{' ∨ c = '}').reverse.dropWhile fun c => c = '{' ∨ c = '}').reverse

/-- The digits that `uuid.UUID(text)` looks at. -/
def uuidDigits (text : List Char) : List Char :=
  let a := removeText "urn:".toList text.length text
  let b := removeText "uuid:".toList a.length a
  (stripBraces b).filter fun c => c ≠ '-'

/-- `uuid.UUID(text)`; `int16` is `int(text, 16)`, with `none` for a `ValueError`. -/
def parseUuid (int16 : List Char → Option ℤ) (text : List Char) : Except String ℕ :=
  if (uuidDigits text).length ≠ 32 then .error "ValueError: badly formed hexadecimal UUID string"
  else match int16 (uuidDigits text) with
    | none => .error "ValueError: invalid literal for int() with base 16"
    | some n => if 0 ≤ n ∧ n < 2 ^ 128 then .ok n.toNat else .error "ValueError: int is out of range (need a 128-bit value)"

/-- The argument of `get_uuid`. -/
inductive UuidArgument where
  | none
  | text (s : List Char)
  | uuid (n : ℕ)

/-- `utils.py:769-775` `get_uuid`; `random` is `uuid.uuid4()`. -/
def getUuid (int16 : List Char → Option ℤ) (random : ℕ) : UuidArgument → Except String ℕ
  | .none => .ok random
  | .text s => parseUuid int16 s
  | .uuid n => .ok n

/-! ### Other helpers -/

/-- `utils.py:760-766` `date_range`, for dates or times in units of which `day` are a day. -/
def dateRange (day start stop : ℤ) : List ℤ := (List.range ((stop - start) / day).toNat).map fun (n : ℕ) => start + (n : ℤ) * day

/-- `del temp_dict[key]`. -/
def dictDel {V : Type} (key : String) (d : List (String × V)) : Except String (List (String × V)) :=
  if key ∈ d.map Prod.fst then .ok (d.filter fun e => e.1 ≠ key) else .error "KeyError"

/-- The loop of `del_dict_keys`; the keys are looked for in the original. -/
def delKeysLoop {V : Type} (data : List (String × V)) : List String → List (String × V) → Except String (List (String × V))
  | [], temp => .ok temp
  | key :: keys, temp =>
    if key ∈ data.map Prod.fst then
      match dictDel key temp with
      | .ok temp' => delKeysLoop data keys temp'
      | .error e => .error e
    else delKeysLoop data keys temp

/-- `utils.py:806-821` `del_dict_keys`. -/
def delDictKeys {V : Type} (data : List (String × V)) (keys : List String) : Except String (List (String × V)) := delKeysLoop data keys data

/-- `utils.py:1020-1034` `append_data`; `none` is a key that is not in the dictionary. -/
def appendField {α : Type} (data : String → Option (List α)) (key : String) (array : List α) : String → Option (List α) := fun k =>
  if k = key then (match data key with
    | none => some array
    | some old => some (old ++ array)) else data k

/-- `utils.py:1056-1066` `get_files_with_variables`: `read` opens a file and gives the names of its variables. -/
def filesWithVariables {F : Type} (read : F → Except String (List String)) (needed : List String) : List F → Except String (List F)
  | [] => .ok []
  | f :: fs => match read f with
    | .error e => .error e
    | .ok names => match filesWithVariables read needed fs with
      | .error e => .error e
      | .ok rest => if needed.all (fun v => names.contains v) then .ok (f :: rest) else .ok rest

/-- `re.match` for a pattern of characters and of digits (`none`); what follows the match is not looked at. -/
def matchPattern (digit : Char → Bool) : List (Option Char) → List Char → Bool
  | [], _ => true
  | _ :: _, [] => false
  | none :: ps, c :: cs => digit c && matchPattern digit ps cs
  | some p :: ps, c :: cs => decide (c = p) && matchPattern digit ps cs

/-- The pattern of `utils.py:901`. -/
def stampPattern : List (Option Char) :=
  [some '-', none, none, none, none, some '-', none, none, some '-', none, none, some ' ', none, none, some ':', none, none, some ':', none, none]

/-- `utils.py:899-902` `is_timestamp`. -/
def isTimestamp (digit : Char → Bool) (s : List Char) : Bool := matchPattern digit stampPattern s

/-- A number of `str_to_numeric`. -/
inductive Numeric (α : Type) where
  | int (n : ℤ)
  | float (x : α)

/-- `utils.py:916-921` `str_to_numeric`. -/
def strToNumeric {α : Type} (int : String → Option ℤ) (float : String → Option α) (s : String) : Except String (Numeric α) :=
  match int s with
  | some n => .ok (.int n)
  | none => match float s with
    | some x => .ok (.float x)
    | none => .error "ValueError: could not convert string to float"

end Cloudnet
