import Verif.Lwc.Model
import Verif.Atmos.Model
import Verif.IceFile.Model

/-!
The file with liquid water content (`products/lwc.py`): content, error and retrieval status from the variables of the categorize file.
-/

namespace Cloudnet

/-- The variables of a categorize file that are used; `none` is a missing variable. `temperature` and `pressure` are the numbers in the
arrays of the model. Altitude, heights and model variables are assumed to be present. -/
structure LwcInput where
  nT : ℕ
  time : ℕ → ℝ
  nH : ℕ
  height : ℕ → ℝ
  altitude : ℝ
  nModelT : ℕ
  modelTime : ℕ → ℝ
  nModelH : ℕ
  modelHeight : ℕ → ℝ
  temperature : Grid ℝ
  pressure : Grid ℝ
  lwp : Option (ℕ → Option ℝ)
  lwpError : Option (ℕ → Option ℝ)
  categoryBits : Grid ℤ
  qualityBits : Grid ℤ
  rain : String → Option (ℕ → Option ℝ)

/-- `datasource.py:62-66`: height above ground. -/
def LwcInput.heightAgl (f : LwcInput) (h : ℕ) : ℝ := f.height h - f.altitude

/-- `products/lwc.py:120-126` `_get_atmosphere`: temperature at a pixel. -/
noncomputable def LwcInput.temperatureAt (f : LwcInput) : Grid ℝ :=
  interpolateModel f.nModelT f.modelTime f.nModelH f.modelHeight f.temperature f.time f.height

/-- `products/lwc.py:120-126` `_get_atmosphere`: pressure at a pixel. -/
noncomputable def LwcInput.pressureAt (f : LwcInput) : Grid ℝ :=
  interpolateModel f.nModelT f.modelTime f.nModelH f.modelHeight f.pressure f.time f.height

/-- The variables of the file. -/
structure LwcFile where
  lwc : Grid (Option ℝ)
  status : Grid ℕ
  error : Grid (Option ℝ)

/-- `products/lwc.py:96-100`: the check for liquid water path. -/
def readLwp (v : Option (ℕ → Option ℝ)) : Except String (ℕ → Option ℝ) := match v with
  | some x => .ok x
  | none => .error "InvalidSourceFileError: Liquid water path missing from the categorize file."

/-- `products/lwc.py:21-73` `generate_lwc` with `products/lwc.py:94-118` `LwcSource`. `g` is `atmoslib.adiabatic_lwc_gradient`. The adjustor
changes the array of adiabatic contents, which is not used any more afterwards: the content in the file and its error come from
`lwcProduct`, which was made before. -/
noncomputable def generateLwc (g : ℝ → ℝ → ℝ) (f : LwcInput) : Except String LwcFile :=
  (readLwp f.lwp).bind fun lwp0 => (readVar f.lwpError).bind fun lwpError => (getIsRain f.rain).bind fun isRain =>
    (readCategoryBits f.categoryBits).bind fun c => (readQualityBits f.qualityBits).bind fun q =>
      (lwcProduct g f.nT f.nH f.temperatureAt f.pressureAt c.droplet lwp0 isRain f.heightAgl).bind fun lwc =>
        (cloudAdjustor f.nT f.nH c.droplet q.radar q.lidar isRain
          (calcAdiabaticLwc (fillCloudsWithLwcDz g f.nT f.nH f.temperatureAt f.pressureAt c.droplet) f.heightAgl)
          (pathLengthsFromGround f.heightAgl) (clipLwp lwp0)).bind fun status =>
            (lwcError f.nT f.nH lwc (clipLwp lwp0) lwpError isRain).map fun error => ⟨lwc, status, error⟩

end Cloudnet
