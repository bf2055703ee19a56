import Mathlib.Data.List.Basic
import Verif.Disdrom.Logger
import Verif.Cli.Model

namespace Cloudnet

/-! Thies LPM disdrometers in `disdronator/lpm.py`. -/

/-- `datetime.strptime(value, "%d.%m.%y").date()`, `datetime.strptime(value, "%H:%M:%S").time()`, `int`, `float`,
`datetime.strptime(value, "%Y-%m-%d %H:%M:%S")` and `datetime.combine`; `none` is a `ValueError`. -/
structure LpmParsers (D C T α : Type) where
  date : String → Option D
  clock : String → Option C
  int : String → Option ℤ
  float : String → Option α
  stamp : String → Option T
  combine : D → C → T

/-- A field of a telegram. -/
inductive LpmValue (D C α : Type) where
  | date (d : D)
  | clock (c : C)
  | int (n : ℤ)
  | num (x : α)
  | text (s : String)
  deriving DecidableEq

section
variable {D C T α : Type}

/-- `INT_KEYS` (`lpm.py:13-16`). -/
def lpmInts : List ℕ :=
  [2, 3, 7, 8, 11, 12, 18, 20, 22, 23, 24, 25, 26, 27, 28, 29, 30, 31, 32, 33, 34, 35, 36, 37, 38, 39, 40, 41, 42, 43, 44, 45, 47,
    48, 49, 50, 51, 524]

/-- `FLOAT_KEYS` (`lpm.py:17`). -/
def lpmFloats : List ℕ := [10, 14, 15, 16, 17, 19, 21, 46, 521, 522, 523]

/-- `lpm.py:65-74`: the value of the field with a number. -/
def lpmParse (p : LpmParsers D C T α) (no : ℕ) (value : String) : Option (LpmValue D C α) :=
  if no = 5 then (p.date value).map .date
  else if no = 6 then (p.clock value).map .clock
  else if no ∈ lpmInts ∨ (81 ≤ no ∧ no ≤ 520) then (p.int value).map .int
  else if no ∈ lpmFloats then (p.float value).map .num
  else some (.text value)

/-- `lpm.py:75-77`: `data[no].append(parsed)`; a number without values is one that is not in `data`. -/
def lpmAppend {V : Type} (data : ℕ → List V) (no : ℕ) (v : V) : ℕ → List V := fun m => if m = no then data m ++ [v] else data m

/-- `lpm.py:62-77`: the fields from number `no` on. Values that were appended before a bad field stay; the flag is `false` if an
exception is raised. -/
def lpmFields (p : LpmParsers D C T α) : ℕ → List String → (ℕ → List (LpmValue D C α)) → (ℕ → List (LpmValue D C α)) × Bool
  | _, [], data => (data, true)
  | no, v :: vs, data =>
    match lpmParse p no v with
    | none => (data, false)
    | some x => lpmFields p (no + 1) vs (lpmAppend data no x)

/-- `lpm.py:57-58`: `telegram.strip().rstrip(";").split(";")` -/
def lpmValues (telegram : String) : List String :=
  splitChar ';' (String.ofList (((pyStrip telegram).toList.reverse.dropWhile fun c => decide (c = ';')).reverse))

/-- `lpm.py:56-77` `_read_telegram`. -/
def lpmTelegram (p : LpmParsers D C T α) (telegram : String) (data : ℕ → List (LpmValue D C α)) :
    (ℕ → List (LpmValue D C α)) × Bool :=
  if (lpmValues telegram).length ≠ 520 ∧ (lpmValues telegram).length ≠ 524 then (data, false)
  else lpmFields p 2 (lpmValues telegram).dropLast data

/-- `datetime.combine(data[5][-1], data[6][-1])` (`lpm.py:117`). -/
def lpmCombine (p : LpmParsers D C T α) (data : ℕ → List (LpmValue D C α)) : Option T :=
  match (data 5).getLast?, (data 6).getLast? with
  | some (.date d), some (.clock c) => some (p.combine d c)
  | _, _ => none

/-- `lpm.py:85-91`, `lpm.py:100-106` and `lpm.py:114-119`: a line with the time stamp of the data logger, if there is one, and its
telegram. A `ValueError` leaves what has been done so far. -/
def lpmLine (p : LpmParsers D C T α) (s : List T × (ℕ → List (LpmValue D C α))) (line : Option String × String) :
    List T × (ℕ → List (LpmValue D C α)) :=
  let r := lpmTelegram p line.2 s.2
  if r.2 = false then (s.1, r.1)
  else match (match line.1 with
      | some text => p.stamp text
      | none => lpmCombine p r.1) with
    | none => (s.1, r.1)
    | some t => (s.1 ++ [t], r.1)

/-- `lpm.py:80-120`: times and columns of all lines. -/
def lpmRead (p : LpmParsers D C T α) (lines : List (Option String × String)) : List T × (ℕ → List (LpmValue D C α)) :=
  lines.foldl (lpmLine p) ([], fun _ => [])

/-- `FILL_VALUES` (`lpm.py:18-30`), times ten. -/
def lpmFill : List (ℕ × ℤ) :=
  [(18, 999990), (19, -99), (46, 999990), (47, 9990), (48, 99990), (49, 99990), (50, 99990), (521, 999990), (522, 999990),
    (523, 99990), (524, 9990)]

/-- `disdronator/utils.py:16-17`: is a value the fill value of its column? -/
def lpmIsFill [Field α] [DecidableEq α] (no : ℕ) (v : LpmValue D C α) : Bool :=
  match lpmFill.lookup no, v with
  | some f, .int n => decide (10 * n = f)
  | some f, .num x => decide (10 * x = (f : α))
  | _, _ => false

/-- `lpm.py:123-132` `read_lpm`: columns with missing values. (A column is only there if it has a value.) -/
def lpmColumn [Field α] [DecidableEq α] (p : LpmParsers D C T α) (lines : List (Option String × String)) (no : ℕ) :
    List (Option (LpmValue D C α)) :=
  ((lpmRead p lines).2 no).map fun v => if lpmIsFill no v then none else some v

end

end Cloudnet
