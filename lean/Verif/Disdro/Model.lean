import Verif.Cli.Model
import Mathlib.Algebra.Field.Basic
import Mathlib.Algebra.Order.Field.Basic

namespace Cloudnet

/-! Reading disdrometer files: `instruments/disdrometer/common.py` and `instruments/disdrometer/parsivel.py`. -/

/-! ## Bin geometry -/

section
variable {α : Type} [Field α]

/-- `np.linspace(start, stop, n)`. -/
def linspace (start stop : α) (n : ℕ) : List α :=
  (List.range n).map fun k : ℕ => if n = 1 then start else start + (k : α) * ((stop - start) / ((n : α) - 1))

/-- `disdrometer/common.py:54-72` `_create_vectors`: mid values, bounds and widths of the bins. Empty groups raise because
of `upper[-1]`, lists of different lengths because of `strict=True`. -/
def createVectors (nValues : List ℕ) (spreads : List α) (start : α) :
    Except String (List α × List (α × α) × List α) :=
  let rec loop : List ℕ → List α → α → List α → List α → List α → Except String (List α × List α × List α)
    | [], [], _, mid, lower, upper => .ok (mid, lower, upper)
    | n :: ns, s :: ss, start, mid, lower, upper =>
      let lo := linspace start (start + ((n : α) - 1) * s) n
      let up := lo.map (· + s)
      match up.getLast? with
      | none => .error "IndexError"
      | some e => loop ns ss e (mid ++ List.zipWith (fun a b => (a + b) / 2) lo up) (lower ++ lo) (upper ++ up)
    | _, _, _, _, _, _ => .error "ValueError"
  do
    let (mid, lower, upper) ← loop nValues spreads start [] [] []
    let bounds := List.zip lower upper
    return (mid, bounds, bounds.map fun b => b.2 - b.1)

end

/-! ## Parsivel rows -/

section
variable {V : Type}

/-- A parser of the table `PARSERS` (`parsivel.py:394-421`): it consumes tokens of the iterator and returns a value; `none`
if it raises `ValueError` or `StopIteration`. A header without an entry takes the next token. -/
abbrev TokenParser (V : Type) := List String → Option (V × List String)

/-- The list comprehension in `parsivel.py:468`. -/
def parseTokens (parsers : String → TokenParser V) : List String → List String → Option (List V × List String)
  | [], tokens => some ([], tokens)
  | h :: hs, tokens =>
    match parsers h tokens with
    | none => none
    | some (v, rest) =>
      match parseTokens parsers hs rest with
      | none => none
      | some (vs, rest) => some (v :: vs, rest)

/-- `parsivel.py:471-472` All tokens must be consumed. -/
def allConsumed : Option (List V × List String) → Option (List V)
  | some (vs, []) => some vs
  | _ => none

/-- `parsivel.py:466-472` `_parse_row`. -/
def parseRow (parsers : String → TokenParser V) (row : String) (headers : List String) : Option (List V) :=
  let chars := row.toList
  let chars := if chars.getLast? = some ';' then chars.dropLast else chars
  allConsumed (parseTokens parsers headers (splitChar ';' (String.ofList chars)))

/-- `result[header].append(value)` -/
def dictAppend (d : List (String × List V)) (k : String) (v : V) : List (String × List V) :=
  d.map fun p => if p.1 == k then (p.1, p.2 ++ [v]) else p

/-- The loop body of `parsivel.py:451-459`. -/
def readStep (parsers : String → TokenParser V) (headers : List String) (st : List (String × List V) × ℕ)
    (row : String) : List (String × List V) × ℕ :=
  if row = "" then st
  else
    match parseRow parsers row headers with
    | none => (st.1, st.2 + 1)
    | some parsed => ((List.zip headers parsed).foldl (fun d hv => dictAppend d hv.1 hv.2) st.1, st.2)

/-- `parsivel.py:445-463` `_read_rows`. A key that occurs twice in the headers is one key of the result. -/
def readRows (parsers : String → TokenParser V) (headers rows : List String) : Except String (List (String × List V)) :=
  let init : List (String × List V) := headers.foldl (fun d h => dictSet d h []) []
  let (result, invalid) := rows.foldl (readStep parsers headers) (init, 0)
  if invalid = rows.length then .error "DisdrometerDataError: No valid data in file" else .ok result

/-- `parsivel.py:388` `values.reshape((32, 32))` -/
def reshaped (values : Option (List ℤ)) (rest : List String) : Option (List ℤ × List String) :=
  match values with
  | none => none
  | some vs => if vs.length = 1024 then some (vs, rest) else none

/-- `parsivel.py:369-388` `_parse_spectrum`, the 1024 counts in reading order; `parseInt` is Python's `int`. -/
def parseSpectrum (parseInt : String → Option ℤ) : TokenParser (List ℤ)
  | [] => none
  | first :: tokens =>
    if first = "<SPECTRUM>ZERO</SPECTRUM>" then some (List.replicate 1024 0, tokens)
    else if "<SPECTRUM>".toList.isPrefixOf first.toList then
      let raw := String.ofList (first.toList.drop 10) :: tokens.take 1023
      match tokens.drop 1023 with
      | [] => none
      | e :: rest =>
        if e = "</SPECTRUM>" then
          reshaped (raw.mapM fun x => if x = "" then some 0 else parseInt x) rest
        else none
    else if '/' ∈ first.toList then
      let body := if "/R".toList.isSuffixOf first.toList then first.toList.take (first.toList.length - 2) else first.toList
      reshaped ((splitChar '/' (String.ofList body)).mapM parseInt) tokens
    else reshaped ((first :: tokens.take 1023).mapM parseInt) (tokens.drop 1023)

/-! ## Records of the FMI format, several files -/

/-- `parsivel.py:647-686` `_read_fmi`, after the regular expression found the records: their time stamps and their
variables, `none` if a record cannot be parsed. (Time stamps that are no dates raise and are not modelled.) The column
`_datetime` is kept apart; its telegram number 19 is skipped in records. -/
structure FmiData (T V : Type) where
  times : List T
  columns : List (String × List (Option V))

/-- `parsivel.py:669-672`: one value of a record; `n` records came before. -/
def fmiValue (n : ℕ) (cols : List (String × List (Option V))) (kv : String × V) : List (String × List (Option V)) :=
  let cols := if cols.any fun p => p.1 == kv.1 then cols else dictSet cols kv.1 (List.replicate n none)
  dictAppend cols kv.1 (some kv.2)

/-- The loop body of `parsivel.py:657-685`. -/
def fmiStep {T : Type} (out : FmiData T V) (rec : T × Option (List (String × V))) : FmiData T V :=
  match rec.2 with
  | none => out
  | some record =>
    let columns := record.foldl (fmiValue out.times.length) out.columns
    let columns := columns.map fun p => if record.any fun kv => kv.1 == p.1 then p else (p.1, p.2 ++ [none])
    { times := out.times ++ [rec.1], columns }

/-- `parsivel.py:647-686` `_read_fmi`. -/
def readFmi {T : Type} (records : List (T × Option (List (String × V)))) : FmiData T V :=
  records.foldl fmiStep ⟨[], []⟩

/-- `combined_data[key].extend(values)` -/
def dictExtend (d : List (String × List V)) (p : String × List V) : List (String × List V) :=
  dictSet d p.1 ((d.lookup p.1).getD [] ++ p.2)

/-- `parsivel.py:694-726`: the columns of several files are appended to each other. -/
def combineFiles (files : List (List (String × List V))) : List (String × List V) :=
  files.foldl (fun d file => file.foldl dictExtend d) []

/-! ## Records of numbered lines -/

/-- `parsivel.py:631-643` The effect of one line of a record. -/
inductive LineValue (V : Type) where
  | ignored
  | invalid
  | value (name : String) (v : V)

/-- `parsivel.py:631-643`, the loop body of `_read_typ_op4a`. `parseInt` is Python's `int`, `telegram` the table of
variable names. -/
def readLine (parseInt : String → Option ℤ) (telegram : ℤ → Option String) (parsers : String → TokenParser V)
    (line : String) : LineValue V :=
  if ':' ∉ line.toList then .ignored
  else
    let chars := (pyStrip line).toList
    let key := String.ofList (chars.takeWhile (· ≠ ':'))
    let value := String.ofList ((chars.dropWhile (· ≠ ':')).drop 1)
    if key ∈ ["19", "30", "31", "32", "33"] then .ignored
    else
      match parseInt key with
      | none => .invalid
      | some n =>
        match telegram n with
        | none => .ignored
        | some name =>
          match parsers name (splitChar ';' value) with
          | none => .invalid
          | some (v, _) => .value name v

/-- `parsivel.py:624-644` `_read_typ_op4a`; `none` if it raises. -/
def readTypOp4a (parseInt : String → Option ℤ) (telegram : ℤ → Option String) (parsers : String → TokenParser V) :
    List String → List (String × V) → Option (List (String × V))
  | [], data => some data
  | line :: lines, data =>
    match readLine parseInt telegram parsers line with
    | .ignored => readTypOp4a parseInt telegram parsers lines data
    | .invalid => none
    | .value name v => readTypOp4a parseInt telegram parsers lines (dictSet data name v)

end

end Cloudnet
