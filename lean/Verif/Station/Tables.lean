import Verif.Station.Pipe
import Mathlib.Tactic

namespace Cloudnet

/-! C112, C113, C114: the names in files of stations. -/

/-- Columns of a station with the unit that is expected and the variable they become. -/
def Spec.toaTable : Site → List (String × String × String)
  | .granada => [("air_t_Avg", "degC", "air_temperature"), ("rh_Avg", "%", "relative_humidity"), ("pressure_Avg", "hPa", "air_pressure"),
      ("wind_speed_avg", "m/s", "wind_speed"), ("wind_dir_avg", "Deg", "wind_direction"), ("rain_Tot", "mm", "rainfall_rate")]
  | .juelich => [("AirTC_Avg", "Deg C", "air_temperature"), ("RH", "%", "relative_humidity"), ("BV_BP_Avg", "hPa", "air_pressure"),
      ("WS_ms_S_WVT", "meters/Second", "wind_speed"), ("WindDir_D1_WVT", "Deg", "wind_direction")]
  | .falkenberg => [("WS500_air_temperature", "degC", "air_temperature"), ("WS500_relative_humidity", "%", "relative_humidity"),
      ("WS500_absolute_air_pressure", "hPa", "air_pressure"), ("WS500_wind_speed_avg", "m s-1", "wind_speed"),
      ("WS500_wind_direction_avg", "deg", "wind_direction")]
  | _ => []

/-- C112. The columns of Granada, Jülich and Falkenberg; every column but the time has a unit, and a value that is not a number raises only for
Jülich. -/
theorem C112_toa_tables : ∀ p ∈ [(Site.granada, granada, false), (.juelich, juelich, true), (.falkenberg, falkenberg, false)],
    p.2.1.keymap = ("TIMESTAMP", "time") :: (Spec.toaTable p.1).map (fun c => (c.1, c.2.2)) ∧
    p.2.1.units = (Spec.toaTable p.1).map (fun c => (c.1, c.2.1)) ∧ p.2.1.strict = p.2.2 := by
  simp only [List.forall_mem_cons, List.not_mem_nil, false_imp_iff, implies_true, and_true]
  exact ⟨⟨rfl, rfl, rfl⟩, ⟨rfl, rfl, rfl⟩, rfl, rfl, rfl⟩

/-- C112. The titles of Galați in English and Romanian, and the columns of Lampedusa. -/
theorem C112_csv_tables :
    (∀ name titles, (name, titles) ∈ galatiNames ↔ (name, titles) ∈ [("time", ["TimeStamp"]),
      ("air_temperature", ["Temperature", "Temperatura"]), ("air_pressure", ["Atmospheric_pressure", "Presiune_atmosferica"]),
      ("relative_humidity", ["RH", "Umiditate_relativa"]), ("wind_speed", ["Wind_speed", "Viteza_vant"]),
      ("wind_direction", ["Wind_direction", "Directie_vant"]), ("rainfall_rate", ["Precipitations", "Precipitatii", "Precipitatii_Tot"]),
      ("visibility", ["Visibility", "Vizibilitate"])]) ∧
    (∀ name titles, (name, titles) ∈ lampedusaNames ↔ ∃ title, titles = [title] ∧ (name, title) ∈ [("time", "time"), ("air_temperature", "T"),
      ("air_pressure", "P"), ("relative_humidity", "RH"), ("wind_speed", "WSi"), ("wind_direction", "WDi"), ("rainfall_rate", "rain1m")]) := by
  constructor
  · intro name titles
    simp only [galatiNames, List.mem_cons, List.not_mem_nil, or_false]
    tauto
  · intro name titles
    simp only [lampedusaNames, List.mem_cons, List.not_mem_nil, or_false, Prod.mk.injEq]
    constructor
    · rintro (⟨rfl, rfl⟩ | ⟨rfl, rfl⟩ | ⟨rfl, rfl⟩ | ⟨rfl, rfl⟩ | ⟨rfl, rfl⟩ | ⟨rfl, rfl⟩ | ⟨rfl, rfl⟩) <;> exact ⟨_, rfl, by simp⟩
    · rintro ⟨title, rfl, h⟩
      rcases h with ⟨rfl, rfl⟩ | ⟨rfl, rfl⟩ | ⟨rfl, rfl⟩ | ⟨rfl, rfl⟩ | ⟨rfl, rfl⟩ | ⟨rfl, rfl⟩ | ⟨rfl, rfl⟩ <;> simp

/-- The variables of stations with a fixed order of columns; `none` is a column that is not used. -/
def Spec.fixedTable : Site → List (String × Option String)
  | .palaiseau => [("Windspeed(m/s)", some "wind_speed"), ("Winddirection(deg", some "wind_direction"), ("Airtemperature", some "air_temperature"),
      ("Relativehumidity(%)", some "relative_humidity"), ("Pressure(hPa)", some "air_pressure"),
      ("Precipitationrate(mm/min)", some "rainfall_rate"), ("precipitation", some "rainfall_amount")]
  | .maido => [("Winddirection-average", some "wind_direction"), ("Windspeed-maximumvalue(m/s)", none),
      ("Windspeed-average(m/s)", some "wind_speed"), ("Pressure-average(hPa)", some "air_pressure"),
      ("Relativehumidity-maximumvalue(%)", none), ("Relativehumidity-average(%)", some "relative_humidity"),
      ("Airtemperature-minimumvalue", none), ("Airtemperature-average", some "air_temperature")]
  | .potenza => [("WindspeedMaximumvalue(m/s)", none), ("WindspeedAveragevalue(m/s)", some "wind_speed"),
      ("Winddirection(degres)", some "wind_direction"), ("Airtemperature(°C)", some "air_temperature"),
      ("Relativehumidity(%)", some "relative_humidity"), ("Pressure(hPa)", some "air_pressure"), ("Precipitationrate(mm/min)", none),
      ("24-hrcumulatedprecipitation(mm)", none)]
  | _ => []

/-- C113. The titles expected in the header of Palaiseau, Maïdo and Potenza and the variables of the columns. -/
theorem C113_fixed_tables : ∀ p ∈ [(Site.palaiseau, palaiseau, "DateTime(yyyy-mm-ddThh:mm:ssZ)"), (.maido, maido, "DateTimeyyyy-mm-ddThh:mm:ssZ"),
      (.potenza, potenza, "DateTime(yyyy-mm-ddThh:mm:ssZ)")],
    p.2.1.identifiers = p.2.2 :: (Spec.fixedTable p.1).map Prod.fst ∧
    p.2.1.keys.map (fun k => if k.toList.head? = some '_' then none else some k) = (Spec.fixedTable p.1).map Prod.snd := by
  simp only [List.forall_mem_cons, List.not_mem_nil, false_imp_iff, implies_true, and_true]
  exact ⟨⟨rfl, by decide⟩, ⟨rfl, by decide⟩, rfl, by decide⟩

/-- C114. Where columns of another length than the time are an error: not for the sites that keep lists. -/
theorem C114_lists (site : Site) : site.hasLists = true ↔ site = .palaiseau ∨ site = .bucharest ∨ site = .maido ∨ site = .potenza ∨
    site = .limassol := by
  cases site <;> simp [Site.hasLists]

end Cloudnet
