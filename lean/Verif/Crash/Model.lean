import Verif.Concat.Model

/-!
What an interrupted update of a file leaves behind: `concat_lib.py` `update_nc`, one variable after the other.
-/

namespace Cloudnet

section
variable {α : Type} [Field α] [LinearOrder α]

/-- The other variables of a file whose time dimension has grown from `n`: the records that were never written hold fill values. -/
def grownVar (n : ℕ) (v : NcVar α) : NcVar α :=
  match v with
  | .static dims value => .static dims value
  | .series dims rows => .series dims fun i => if i < n then rows i else fillLike (rows 0)

/-- `concat_lib.py:320-325`: the variable with the records `validInd` of the new file at the positions `ind0 + validInd`. -/
def appendedVar (ind0 : ℕ) (validInd : List ℕ) (rowsNew : ℕ → Row α) (v : NcVar α) : NcVar α :=
  match v with
  | .static dims value => .static dims value
  | .series dims rows => .series dims fun i =>
      if i < ind0 then rows i else if i - ind0 ∈ validInd then rowsNew (i - ind0) else fillLike (rows 0)

/-- `concat_lib.py:314-325`: the file after one pass of the loop of `_update_fields`, for the variable `field` of the new file; `cur` is
the file before. Variables that the file does not have, without a time dimension or with more than two dimensions are passed over. -/
def updateField (ind0 : ℕ) (new : NcFile α) (validInd : List ℕ) (cur : NcFile α) (field : String) : NcFile α :=
  match cur.vars.lookup field, new.vars.lookup field with
  | some (.series _ _), some (.series dims rowsNew) =>
    if dims.length ≤ 1 then
      { cur with
        n := max cur.n (ind0 + validInd.getLast?.getD 0 + 1)
        vars := cur.vars.map fun kv => (kv.1, if kv.1 = field then appendedVar ind0 validInd rowsNew kv.2 else grownVar cur.n kv.2) }
    else cur
  | _, _ => cur

/-- `concat_lib.py:306-325` `_update_fields` interrupted after `done` variables of the new file, in the order of that file. The write of
one variable is taken as one step. -/
def updateInterrupted (old new : NcFile α) (validInd : List ℕ) (done : ℕ) : NcFile α :=
  ((new.vars.map Prod.fst).take done).foldl (updateField old.n new validInd) old

/-- How a write can fail: with an `OSError`, with another exception, or the process ends. -/
inductive WriteFault where
  | osError
  | otherError
  | killed
deriving DecidableEq

/-- How `update_nc` ends: it returns a number, raises, or never returns. -/
inductive UpdateEnd where
  | returned (value : ℕ)
  | raised (error : String)
  | killed
deriving DecidableEq

/-- `concat_lib.py:62-87` `update_nc` with files that can be opened, and a fault after `done` variables; `none` is no fault. What was
written stays in the file, which is closed on the way out; only `OSError` is caught. -/
def updateNcFaulty (old new : NcFile α) (fault : Option (ℕ × WriteFault)) : UpdateEnd × NcFile α :=
  if old.n = 0 then (.raised "IndexError", old)
  else
    let validInd := findLaterIndices old new
    if 0 < validInd.length then
      match fault with
      | none => (.returned 1, updateInterrupted old new validInd new.vars.length)
      | some (done, f) =>
        if done < new.vars.length then
          (match f with
            | .osError => .returned 0
            | .otherError => .raised "write error"
            | .killed => .killed, updateInterrupted old new validInd done)
        else (.returned 1, updateInterrupted old new validInd new.vars.length)
    else (.returned 0, old)

end

end Cloudnet
