import Verif.Source.Model

/-! Variables (`CloudnetArray`) and the arrays in memory they refer to. -/

namespace Cloudnet

/-- What a variable is made of (`cloudnetarray.py:119-136` `_init_data`). -/
inductive VariableInput where
  /-- A variable of a netCDF file: its values and units. -/
  | netcdf (values : ℕ → Option ℝ) (units : Option String)
  /-- A masked array of the caller, at its address. -/
  | array (address : ℕ)
  /-- A number of one of the types in `cloudnetarray.py:124-127`. -/
  | number (x : ℝ)
  | text (s : String)
  /-- Anything else: `None`, lists, and NumPy numbers of other types such as 64-bit integers. -/
  | other

/-- A `CloudnetArray`: where its data are, and its units. -/
structure VariableObject where
  data : ℕ
  units : String

/-- Masked arrays in memory, flattened; addresses from `next` are free. `objects` is the dictionary `data` of a file (`datasource.py:92-111`). -/
structure VariableMemory where
  cells : ℕ → ℕ → Option ℝ
  next : ℕ
  objects : String → Option VariableObject

/-- Methods of `CloudnetArray` that change it. Rebinning is any function of the data, a filter any function of what is known. -/
inductive VariableOp where
  | lin2db
  | db2lin
  | mask (ind : ℕ → Bool)
  | rebin (f : (ℕ → Option ℝ) → ℕ → Option ℝ)
  | filter (f : (ℕ → Bool) → ℕ → Bool)

/-- A new array. -/
def VariableMemory.put (m : VariableMemory) (key : String) (values : ℕ → Option ℝ) (units : String) : VariableMemory :=
  ⟨Function.update m.cells m.next values, m.next + 1, Function.update m.objects key (some ⟨m.next, units⟩)⟩

/-- `cloudnetarray.py:39` `units_from_user or self._init_units()`. -/
def unitsOr (user : Option String) (own : String) : String :=
  match user with
  | some u => if u = "" then own else u
  | none => own

/-- `datasource.py:111` with `cloudnetarray.py:28-43` and `:119-139`: an array of the caller is not copied. `parse` is `utils.str_to_numeric`. -/
def VariableMemory.create (parse : String → Option ℝ) (m : VariableMemory) (key : String) (input : VariableInput) (units : Option String) :
    Except String VariableMemory :=
  match input with
  | .netcdf values u => .ok (m.put key values (unitsOr units (u.getD "")))
  | .array a => .ok { m with objects := Function.update m.objects key (some ⟨a, unitsOr units ""⟩) }
  | .number x => .ok (m.put key (fun i => if i = 0 then some x else none) (unitsOr units ""))
  | .text s =>
    match parse s with
    | some x => .ok (m.put key (fun i => if i = 0 then some x else none) (unitsOr units ""))
    | none => .error "ValueError: Incorrect CloudnetArray input"
  | .other => .error "ValueError: Incorrect CloudnetArray input"

/-- `cloudnetarray.py:45-77` and `:104-117` for the variable with a name: conversions (if the units are others) and rebinning make a new array, masking
assigns to elements of the array. -/
noncomputable def VariableMemory.call (m : VariableMemory) (key : String) (op : VariableOp) : Except String VariableMemory :=
  match m.objects key with
  | none => .error "KeyError"
  | some o =>
    let a : UnitArray := ⟨m.cells o.data, o.units⟩
    match op with
    | .lin2db => if !inDb o.units then .ok (m.put key a.lin2db.data a.lin2db.units) else .ok m
    | .db2lin => if inDb o.units then .ok (m.put key a.db2lin.data a.db2lin.units) else .ok m
    | .mask ind => .ok { m with cells := Function.update m.cells o.data fun i => if ind i then none else m.cells o.data i }
    | .rebin f => .ok (m.put key (f (m.cells o.data)) o.units)
    | .filter f =>
      let isData := f fun i => (m.cells o.data i).isSome
      .ok { m with cells := Function.update m.cells o.data fun i => if isData i then m.cells o.data i else none }

/-- One thing that happens to the variables of a file. -/
inductive VariableEvent where
  | create (key : String) (input : VariableInput) (units : Option String)
  | call (key : String) (op : VariableOp)

/-- A history. -/
noncomputable def VariableMemory.run (parse : String → Option ℝ) (m : VariableMemory) : List VariableEvent → Except String VariableMemory
  | [] => .ok m
  | .create key input units :: rest => (m.create parse key input units).bind fun m' => m'.run parse rest
  | .call key op :: rest => (m.call key op).bind fun m' => m'.run parse rest

end Cloudnet
