import Mathlib.Algebra.Order.Field.Basic
import Verif.Basic
import Verif.Droplet.Model

namespace Cloudnet

/-! Rain amounts and wind directions: `instruments/cloudnet_instrument.py` and `instruments/weather_station.py`. -/

section
variable {α : Type} [Field α] [LinearOrder α]

/-- `cloudnet_instrument.py:122-127`: the loop body; the offset and the amount at the last valid index (masked only if it
is the first one). A comparison with a masked value is false. -/
def gaugeStep (st : α × Option α) (x : Option α) : α × Option α :=
  match x with
  | none => st
  | some v =>
    let offset := match st.2 with
      | some last => if v + st.1 < last then st.1 + last else st.1
      | none => st.1
    (offset, some (v + offset))

/-- `cloudnet_instrument.py:119-127`: offset and last amount after the values up to index `i`. -/
def gaugeState (x : ℕ → Option α) : ℕ → α × Option α
  | 0 => (0, x 0)
  | i + 1 => gaugeStep (gaugeState x i) (x (i + 1))

/-- `cloudnet_instrument.py:116-130` `normalize_cumulative_amount` for `n` values. Subtracting a masked first value masks
everything; without values `amount[0]` fails. -/
def normalizeAmount (n : ℕ) (x : ℕ → Option α) : Except String (ℕ → Option α) :=
  if n = 0 then .error "IndexError"
  else .ok fun i => (x i).bind fun v => (x 0).map fun first => v + (gaugeState x i).1 - first

/-- `weather_station.py:113-122` `calculate_rainfall_amount`: `np.median` of the time steps; `ma.cumsum` counts masked
rates as zero and keeps their mask. -/
def rainfallAmount (n : ℕ) (time : ℕ → α) (rate : ℕ → Option α) : ℕ → Option α :=
  if n = 1 then fun _ => some 0
  else
    let resolution := median ((List.range (n - 1)).map fun i => time (i + 1) - time i) * 3600
    fun i => (rate i).map fun _ => ((List.range (i + 1)).map fun k => (rate k).getD 0 * resolution).sum

/-- `weather_station.py:163-171` `wrap_wind_direction`, for one valid value. -/
def wrapWindDirection (v : α) : α :=
  let v := if -2 < v ∧ v < 0 then v + 360 else v
  if 360 ≤ v ∧ v < 360 + 2 then v - 360 else v

end

end Cloudnet
