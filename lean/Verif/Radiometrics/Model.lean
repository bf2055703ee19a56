import Verif.Times.Model
import Verif.Station.Pipe
import Verif.Cli.Model
import Mathlib.Data.List.Sort

/-!
Model of `cloudnetpy/instruments/radiometrics.py`: Radiometrics microwave radiometers. The rows that `csv.reader` and `str.split`
make of the lines of the files are the input (`csv` itself is not modelled); `int`, `float` and the constructor of `datetime` are
parameters. Times are integers: seconds since an epoch at midnight.
-/

namespace Cloudnet

/-- What the reader needs of Python: `int(text)`, `float(text)` and `datetime(year, month, day, hour, minute, second)`; `none` is a
`ValueError`. -/
structure RmParsers (α : Type) where
  int : String → Option ℤ
  float : String → Option α
  datetime : ℤ → ℤ → ℤ → ℤ → ℤ → ℤ → Option ℤ

/-- `text.split()`, for the white space of `Char.isWhitespace` (Python splits at some more Unicode characters). -/
def rmWords (text : String) : List String :=
  ((text.toList.splitOnP Char.isWhitespace).filter fun w => decide (w ≠ [])).map String.ofList

/-- `radiometrics.py:423-436` `_parse_datetime`, given the two words. -/
def rmStamp {α : Type} (p : RmParsers α) (date clock : String) : Option ℤ :=
  match (splitChar '/' date).mapM p.int, (splitChar ':' clock).mapM p.int with
  | some [month, day, year], some [hour, minute, second] =>
    p.datetime (if year < 100 then year + 2000 else year) month day hour minute second
  | _, _ => none

/-- `radiometrics.py:423-436` `_parse_datetime`. -/
def rmDatetime {α : Type} (p : RmParsers α) (text : String) : Option ℤ :=
  match rmWords text with
  | [date, clock] => rmStamp p date clock
  | _ => none

/-- `radiometrics.py:76-81` `Record`. The values are the pairs of column name and text, the last one of a name counts. -/
structure RmRecord where
  row : ℤ
  kind : ℤ
  idx : ℤ
  time : ℤ
  values : List (String × String)

/-- `record.values[name]`. -/
def RmRecord.value (r : RmRecord) (name : String) : Option String := r.values.reverse.lookup name

/-- `radiometrics.py:119`: `re.fullmatch(r"\d+\.\d+", column)`, for ASCII digits. -/
def rmIsRange (column : String) : Bool :=
  let whole := column.toList.takeWhile Char.isDigit
  match column.toList.dropWhile Char.isDigit with
  | '.' :: part => !whole.isEmpty && !part.isEmpty && part.all Char.isDigit
  | _ => false

/-- The variables of `radiometrics.py:100-143`. -/
structure RmRaw where
  columns : ℤ → Option (List String)
  ranges : List String
  rows : List RmRecord

/-- `radiometrics.py:108-120`: a header. -/
def rmHeader {α : Type} (p : RmParsers α) (st : RmRaw) (rest : List String) : Except String RmRaw :=
  match rest with
  | [] => .error "IndexError"
  | title :: rest =>
    if title ≠ "Date/Time" then .error "RuntimeError"
    else match rest with
      | [] => .error "IndexError"
      | no :: columns => match p.int no with
        | none => .error "ValueError"
        | some k => .ok { st with columns := Function.update st.columns k (some columns),
                                  ranges := if k = 10 ∨ k = 400 then columns.filter rmIsRange else st.ranges }

/-- `radiometrics.py:122-141`: a record. -/
def rmDataRow {α : Type} (p : RmParsers α) (st : RmRaw) (first : String) (rest : List String) : Except String RmRaw :=
  match rest with
  | stamp :: no :: _ => match p.int no with
    | none => .error "ValueError"
    | some k => match st.columns (k / 10 * 10) with
      | none => .ok st
      | some names => match p.int first, rmDatetime p stamp with
        | some row, some t =>
          let vals := ((first :: rest).filter fun v => decide (v ≠ "")).drop 3
          if names.length = vals.length then
            .ok { st with rows := st.rows ++ [{ row := row, kind := k / 10 * 10, idx := k - k / 10 * 10 - 1, time := t, values := names.zip vals }] }
          else .error "ValueError"
        | _, _ => .error "ValueError"
  | _ => .error "IndexError"

/-- `radiometrics.py:107-141`: one row. -/
def rmRow {α : Type} (p : RmParsers α) (st : RmRaw) (row : List String) : Except String RmRaw :=
  match row with
  | [] => .error "IndexError"
  | first :: rest => if first = "Record" then rmHeader p st rest else rmDataRow p st first rest

/-- `radiometrics.py:100-143` `read_raw_data`: the ranges and the records in order of the row number (`sorted` is stable). -/
def rmRawData {α : Type} (p : RmParsers α) (rows : List (List String)) : Except String (List String × List RmRecord) :=
  (rows.foldlM (rmRow p) { columns := fun _ => none, ranges := [], rows := [] }).map fun st =>
    (st.ranges, st.rows.insertionSort fun a b => a.row ≤ b.row)

/-- `radiometrics.py:164`: `text.replace(".", "", 1).isdigit()`, for ASCII digits. -/
def rmNumeric (text : String) : Bool :=
  let l := text.toList.erase '.'
  !l.isEmpty && l.all Char.isDigit

/-- `radiometrics.py:161-167` `_parse_floats`: `none` in the result is NaN, errors are a `KeyError` or a `ValueError`. -/
def rmFloats {α : Type} (p : RmParsers α) (ranges : List String) (r : RmRecord) : Except String (List (Option α)) :=
  ranges.mapM fun column => match r.value column with
    | none => .error "KeyError"
    | some text => if rmNumeric text then match p.float text with
        | none => .error "ValueError"
        | some x => .ok (some x)
      else .ok none

/-- `float(record.values[name])`. -/
def rmFloat {α : Type} (p : RmParsers α) (r : RmRecord) (name : String) : Except String α :=
  match r.value name with
  | none => .error "KeyError"
  | some text => match p.float text with
    | none => .error "ValueError"
    | some x => .ok x

/-- What `radiometrics.py:180-228` appends to its lists: a value with its time. -/
inductive RmEvent (α : Type) where
  | integrated (time : ℤ) (lwp iwv : α)
  | irt (time : ℤ) (x : α)
  | temperature (time : ℤ) (xs : List (Option α))
  | relative (time : ℤ) (xs : List (Option α))
  | absolute (time : ℤ) (xs : List (Option α))

/-- `radiometrics.py:178`. -/
def rmGoodProcs : List String := ["0.00:90.00", "Zenith", "Zenith16", "Zenith18"]

/-- `radiometrics.py:181-184`: the titles after a record. -/
def rmTitles {α : Type} (p : RmParsers α) (titles : ℤ → Option String) (r : RmRecord) : Except String (ℤ → Option String) :=
  if r.kind = 100 then
    match r.value "Record Type" with
    | none => .error "KeyError"
    | some text => match p.int text with
      | none => .error "ValueError"
      | some k => match r.value "Title" with
        | none => .error "KeyError"
        | some title => .ok (Function.update titles (k - 1) (some title))
  else .ok titles

/-- `radiometrics.py:185-196`: a record with a title. -/
def rmTitled {α : Type} (p : RmParsers α) (ranges : List String) (title : String) (r : RmRecord) : Except String (List (RmEvent α)) :=
  match r.value "LV2 Processor" with
  | none => .error "KeyError"
  | some proc =>
    if proc ∉ rmGoodProcs then .ok []
    else if title = "Temperature (K)" then (rmFloats p ranges r).map fun xs => [.temperature r.time xs]
    else if title = "Relative Humidity (%)" then (rmFloats p ranges r).map fun xs => [.relative r.time xs]
    else if title = "Vapor Density (g/m^3)" then (rmFloats p ranges r).map fun xs => [.absolute r.time xs]
    else .ok []

/-- `radiometrics.py:197-214`: a record of block 10. -/
def rmBlock10 {α : Type} (p : RmParsers α) (ranges : List String) (r : RmRecord) : Except String (List (RmEvent α)) :=
  if r.idx = 0 then do
    let lwp ← rmFloat p r "Lqint(mm)"
    let iwv ← rmFloat p r "Vint(cm)"
    let irt ← rmFloat p r "Tir(K)"
    let xs ← rmFloats p ranges r
    return [.integrated r.time lwp iwv, .irt r.time irt, .temperature r.time xs]
  else if r.idx = 1 then (rmFloats p ranges r).map fun xs => [.absolute r.time xs]
  else if r.idx = 2 then (rmFloats p ranges r).map fun xs => [.relative r.time xs]
  else .ok []

/-- `radiometrics.py:224-228`: the integrated values of a record of block 300. -/
def rmIntegrated {α : Type} (p : RmParsers α) (r : RmRecord) : Except String (List (RmEvent α)) := do
  let lwp ← rmFloat p r "Int. Liquid(mm)"
  let iwv ← rmFloat p r "Int. Vapor(cm)"
  return [.integrated r.time lwp iwv]

/-- `radiometrics.py:219-228`: a record of block 300, `used` is `curr_proc` before. -/
def rmBlock300 {α : Type} (p : RmParsers α) (procs : List String) (used : ℕ) (r : RmRecord) : Except String (List (RmEvent α)) :=
  if procs = [] then rmIntegrated p r
  else match procs[used]? with
    | none => .error "IndexError"
    | some proc => if proc ∈ rmGoodProcs then rmIntegrated p r else .ok []

/-- `radiometrics.py:185`: the title of a record, if it is not empty. -/
def rmTitle (titles : ℤ → Option String) (r : RmRecord) : Option String :=
  match titles (r.kind + r.idx) with
  | some "" => none
  | t => t

/-- `radiometrics.py:185-228`: the values of a record and `curr_proc` after it. -/
def rmRecord {α : Type} (p : RmParsers α) (ranges procs : List String) (titles : ℤ → Option String) (used : ℕ) (r : RmRecord) :
    Except String (List (RmEvent α) × ℕ) :=
  match rmTitle titles r with
  | some title => (rmTitled p ranges title r).map fun e => (e, used)
  | none =>
    if r.kind = 10 then (rmBlock10 p ranges r).map fun e => (e, used)
    else if r.kind = 200 then (rmFloat p r "Tir(K)").map fun x => ([.irt r.time x], used)
    else if r.kind = 300 then (rmBlock300 p procs used r).map fun e => (e, used + 1)
    else .ok ([], used)

/-- `radiometrics.py:180-228`: the loop over the records of a superblock. -/
def rmRecords {α : Type} (p : RmParsers α) (ranges procs : List String) :
    (ℤ → Option String) → ℕ → List RmRecord → Except String ((ℤ → Option String) × List (RmEvent α))
  | titles, _, [] => .ok (titles, [])
  | titles, used, r :: rs =>
    match rmTitles p titles r with
    | .error e => .error e
    | .ok titles' => match rmRecord p ranges procs titles' used r with
      | .error e => .error e
      | .ok (events, used') => (rmRecords p ranges procs titles' used' rs).map fun out => (out.1, events ++ out.2)

/-- `radiometrics.py:174-177`: the processors of a superblock; `none` is a `KeyError`. -/
def rmProcs (block : List RmRecord) : Option (List String) :=
  (block.filter fun r => decide (r.kind = 400 ∧ r.idx = 1)).mapM fun r => r.value "LV2 Processor"

/-- `radiometrics.py:169-228` `_process_superblock`. -/
def rmSuperblock {α : Type} (p : RmParsers α) (ranges : List String) (titles : ℤ → Option String) (block : List RmRecord) :
    Except String ((ℤ → Option String) × List (RmEvent α)) :=
  match rmProcs block with
  | none => .error "KeyError"
  | some procs => rmRecords p ranges procs titles 0 block

/-- `radiometrics.py:230-236`: the superblocks, `current` is the one that is being filled. -/
def rmSplit : List RmRecord → List RmRecord → List (List RmRecord)
  | current, [] => if current = [] then [] else [current]
  | current, r :: rs => if r.kind = 200 ∧ current ≠ [] then current :: rmSplit [r] rs else rmSplit (current ++ [r]) rs

/-- `radiometrics.py:230-236`: all superblocks are processed in turn. -/
def rmBlocks {α : Type} (p : RmParsers α) (ranges : List String) : (ℤ → Option String) → List (List RmRecord) → Except String (List (RmEvent α))
  | _, [] => .ok []
  | titles, block :: blocks => match rmSuperblock p ranges titles block with
    | .error e => .error e
    | .ok (titles', events) => (rmBlocks p ranges titles' blocks).map fun rest => events ++ rest

/-- `radiometrics.py:439-440` `_find_closest`, for one time: the first value with the smallest distance in time. -/
def rmClosest {β : Type} (t : ℤ) : List (ℤ × β) → Option β
  | l => (l.foldl (fun (best : Option (ℤ × β)) q => match best with
      | none => some q
      | some b => if |t - q.1| < |t - b.1| then some q else some b) none).map Prod.snd

/-- One time of the data of a file; the values are `none` if the file has no such variable. -/
structure RmOut (α : Type) where
  time : ℤ
  lwp : Option α
  iwv : Option α
  irt : Option α
  temperature : Option (List (Option α))
  relative : Option (List (Option α))
  absolute : Option (List (Option α))

/-- The data of a file: the texts of the ranges, which of the variables irt, temperature, relative and absolute humidity there are,
and the values at each time. -/
structure RmFile (α : Type) where
  ranges : List String
  keys : List String
  rows : List (RmOut α)

/-- The lists of `radiometrics.py:147-157`. -/
def rmIntegrateds {α : Type} (es : List (RmEvent α)) : List (ℤ × α × α) :=
  es.filterMap fun e => match e with | .integrated t l i => some (t, l, i) | _ => none
def rmIrts {α : Type} (es : List (RmEvent α)) : List (ℤ × α) := es.filterMap fun e => match e with | .irt t x => some (t, x) | _ => none
def rmTemperatures {α : Type} (es : List (RmEvent α)) : List (ℤ × List (Option α)) :=
  es.filterMap fun e => match e with | .temperature t x => some (t, x) | _ => none
def rmRelatives {α : Type} (es : List (RmEvent α)) : List (ℤ × List (Option α)) :=
  es.filterMap fun e => match e with | .relative t x => some (t, x) | _ => none
def rmAbsolutes {α : Type} (es : List (RmEvent α)) : List (ℤ × List (Option α)) :=
  es.filterMap fun e => match e with | .absolute t x => some (t, x) | _ => none

/-- `radiometrics.py:241-264`: the variables of a file. -/
def rmKeys {α : Type} (es : List (RmEvent α)) : List String :=
  (if rmIrts es = [] then [] else ["irt"]) ++ (if rmTemperatures es = [] then [] else ["temperature"]) ++
    (if rmRelatives es = [] then [] else ["relative_humidity"]) ++ (if rmAbsolutes es = [] then [] else ["absolute_humidity"])

/-- `radiometrics.py:238-264`: the arrays of a file, one time each. -/
def rmOut {α : Type} [Field α] (es : List (RmEvent α)) (q : ℤ × α × α) : RmOut α :=
  { time := q.1, lwp := some q.2.1, iwv := some (q.2.2 * 10), irt := rmClosest q.1 (rmIrts es),
    temperature := rmClosest q.1 (rmTemperatures es),
    relative := (rmClosest q.1 (rmRelatives es)).map fun xs => xs.map fun x => x.map (· / 100),
    absolute := (rmClosest q.1 (rmAbsolutes es)).map fun xs => xs.map fun x => x.map (· / 1000) }

/-- `radiometrics.py:100-264` `RadiometricsMP`: the data of a file. -/
def rmMp {α : Type} [Field α] (p : RmParsers α) (rows : List (List String)) : Except String (RmFile α) :=
  match rmRawData p rows with
  | .error e => .error e
  | .ok (ranges, records) => (rmBlocks p ranges (fun _ => none) (rmSplit [] records)).map fun es =>
      { ranges := ranges, keys := rmKeys es, rows := (rmIntegrateds es).map (rmOut es) }

/-! ### WVR-1100 -/

/-- `radiometrics.py:407-408` `_parse_value`: `some none` is NaN, `none` is a `ValueError`. -/
def rmValue {α : Type} (p : RmParsers α) (text : String) : Option (Option α) :=
  if '*' ∈ text.toList then some none else (p.float text).map some

/-- `radiometrics.py:281-288`: the header and the lines after it. -/
def rmWvrHeader : List (List String) → Option (List String × List (List String))
  | [] => none
  | line :: rest => if line.take 2 = ["date", "time"] then some (line, rest) else rmWvrHeader rest

/-- A line of the table: its time and the values of the other columns. -/
structure RmWvrLine (α : Type) where
  time : ℤ
  values : List (String × Option α)

/-- `radiometrics.py:295-303` and `306-314`: a line. The first two columns are the date and the time; `none` is a `ValueError`. (A
further column named date or time is not modelled; `dict` order does not matter.) -/
def rmWvrLine {α : Type} (p : RmParsers α) (headers columns : List String) : Option (RmWvrLine α) :=
  match columns with
  | date :: clock :: rest =>
    match rmStamp p date clock, rest.mapM (rmValue p) with
    | some t, some vs => some { time := t, values := (headers.drop 2).zip vs }
    | _, _ => none
  | _ => none

/-- `radiometrics.py:317-320`: comparisons with NaN are false. -/
def rmWvrValid {α : Type} [Field α] [LinearOrder α] (el tb23 tb31 : Option α) : Bool :=
  match el, tb23, tb31 with
  | some e, some a, some b => decide (|e - 90| < 1) && decide (0 < a) && decide (0 < b)
  | _, _, _ => false

/-- `radiometrics.py:306-322`: the data of a line, if it is valid. -/
def rmWvrOut {α : Type} [Field α] [LinearOrder α] (l : RmWvrLine α) : Option (RmOut α) :=
  match l.values.lookup "LiqCM", l.values.lookup "VapCM", l.values.lookup "ELact", l.values.lookup "TbSky23", l.values.lookup "TbSky31" with
  | some liq, some vap, some el, some tb23, some tb31 =>
    if rmWvrValid el tb23 tb31 then
      some { time := l.time, lwp := liq.map (· * 10), iwv := vap.map (· * 10), irt := none, temperature := none, relative := none, absolute := none }
    else none
  | _, _, _, _, _ => none

/-- `radiometrics.py:315-319`: the columns that must be there. -/
def rmWvrNeeded : List String := ["LiqCM", "VapCM", "ELact", "TbSky23", "TbSky31"]

/-- `radiometrics.py:267-322` `RadiometricsWVR`: the data of a file, its lines given as lists of words. -/
def rmWvr {α : Type} [Field α] [LinearOrder α] (p : RmParsers α) (lines : List (List String)) : Except String (RmFile α) :=
  match rmWvrHeader lines with
  | none => .error "RuntimeError"
  | some (headers, rest) =>
    match (rest.filter fun l => decide (l.length = headers.length)).mapM (rmWvrLine p headers) with
    | none => .error "ValueError"
    | some ls =>
      if rmWvrNeeded.all fun k => decide (k ∈ headers.drop 2) then .ok { ranges := [], keys := [], rows := ls.filterMap rmWvrOut }
      else .error "KeyError"

/-! ### All files -/

/-- `radiometrics.py:394-404` `_read_file`, given the first line, the rows as read by `csv.reader` and the words of the lines. -/
def rmReadFile {α : Type} [Field α] [LinearOrder α] (p : RmParsers α) (firstLine : String) (rows words : List (List String)) :
    Except String (RmFile α) :=
  if "RETRIEVAL COEFFICIENTS".toList <:+: firstLine.toList then rmWvr p words else rmMp p rows

/-- The length of the array of a variable after `radiometrics.py:341-342`: only files that have it add to it. -/
def rmKeyLength {α : Type} (files : List (RmFile α)) (key : String) : ℕ :=
  ((files.filter fun f => decide (key ∈ f.keys)).map fun f => f.rows.length).sum

/-- `radiometrics.py:361` and `368`: an array with another length than the time cannot be indexed with a mask or with all positions
of the time. -/
def rmAligned {α : Type} (files : List (RmFile α)) : Bool :=
  files.all fun f => f.keys.all fun key => decide (rmKeyLength files key = (files.map fun f => f.rows.length).sum)

/-- `radiometrics.py:343-346`: the ranges in metres; `none` is a `ValueError`. -/
def rmRanges {α : Type} [Field α] (p : RmParsers α) (ranges : List String) : Option (List α) :=
  ranges.mapM fun x => (p.float x).map (· * 1000)

/-- What is written: the range, the height, the date and the values with their times in hours. -/
structure RmResult (α : Type) where
  range : List α
  height : List α
  day : ℤ
  rows : List (α × RmOut α)

/-- `radiometrics.py:349-372`: screening, sorting and the times in hours. `argsort` is a parameter. Days are numbers of days since
the epoch. -/
def rmScreen {α : Type} [Field α] (argsort : List ℤ → List ℕ) (date : Option ℤ) (aligned : Bool) (rows : List (RmOut α)) :
    Except String (ℤ × List (α × RmOut α)) :=
  match date, rows with
  | none, [] => .error "IndexError"
  | none, r :: rs =>
    if aligned then
      let sorted := pickRows (argsort ((r :: rs).map RmOut.time)) (r :: rs)
      match sorted with
      | [] => .error "IndexError"
      | s :: _ => .ok (r.time / 86400, sorted.map fun o => (((o.time - s.time / 86400 * 86400 : ℤ) : α) / 3600, o))
    else .error "IndexError"
  | some day, rows =>
    let kept := rows.filter fun o => decide (o.time / 86400 = day)
    if kept = [] then .error "ValidTimeStampError"
    else if aligned then
      let sorted := pickRows (argsort (kept.map RmOut.time)) kept
      match sorted with
      | [] => .error "IndexError"
      | s :: _ => .ok (day, sorted.map fun o => (((o.time - s.time / 86400 * 86400 : ℤ) : α) / 3600, o))
    else .error "IndexError"

/-- `radiometrics.py:325-372` `RadiometricsCombined` and `radiometrics.py:61-64`; `files` is not empty, otherwise there is an
`IndexError`. -/
def rmCombine {α : Type} [Field α] (p : RmParsers α) (argsort : List ℤ → List ℕ) (altitude : α) (date : Option ℤ) (files : List (RmFile α)) :
    Except String (RmResult α) :=
  match files with
  | [] => .error "IndexError"
  | first :: _ =>
    if files.all fun f => decide (f.ranges = first.ranges) then
      match rmRanges p first.ranges with
      | none => .error "ValueError"
      | some range =>
        (rmScreen argsort date (rmAligned files) (files.flatMap RmFile.rows)).map fun out =>
          { range := range, height := range.map (· + altitude), day := out.1, rows := out.2 }
    else .error "InconsistentDataError"

end Cloudnet
