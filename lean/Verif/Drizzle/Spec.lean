import Verif.Drizzle.Model
import Mathlib.Analysis.SpecialFunctions.Log.Base

/-! Independent specification of the drizzle product. -/

namespace Cloudnet.Spec

/-- A pixel where drizzle is retrieved: warm falling hydrometeors without droplets, seen by radar and
lidar without clutter, insects, melting or attenuation, with a known velocity variance, in a profile
without rain at the surface. -/
def Drizzle (c : CategoryBits) (q : QualityBits) (isVSigma : Grid Bool) (isRain : ℕ → Bool)
    (t h : ℕ) : Prop :=
  isRain t = false ∧ c.falling t h = true ∧ c.droplet t h = false ∧ c.freezing t h = false ∧
  c.melting t h = false ∧ c.insect t h = false ∧ q.radar t h = true ∧ q.lidar t h = true ∧
  q.clutter t h = false ∧ q.molecular t h = false ∧ q.attenuatedLiquid t h = false ∧
  q.attenuatedRain t h = false ∧ isVSigma t h = true

/-- Warm liquid with falling radar echo: drizzle that is hidden by the droplets. -/
def DrizzleInLiquid (c : CategoryBits) (q : QualityBits) (isRain : ℕ → Bool) (t h : ℕ) : Prop :=
  isRain t = false ∧ c.droplet t h = true ∧ c.freezing t h = false ∧ c.falling t h = true ∧
  c.melting t h = false ∧ c.insect t h = false ∧ q.radar t h = true ∧ q.clutter t h = false ∧
  q.molecular t h = false

open Classical in
/-- Retrieval status of a drizzle file, highest priority first: rain at the surface 5, drizzle hidden by
liquid 3, drizzle retrieved below a melting layer 2, drizzle retrieved 1, warm liquid 4, else 0. -/
noncomputable def drizzleStatus (nH : ℕ) (c : CategoryBits) (q : QualityBits) (isVSigma : Grid Bool)
    (isRain : ℕ → Bool) (t h : ℕ) : ℕ :=
  if isRain t = true then 5
  else if DrizzleInLiquid c q isRain t h then 3
  else if Drizzle c q isVSigma isRain t h then
    if ∃ k < nH, c.melting t k = true then 2 else 1
  else if c.droplet t h = true ∧ c.freezing t h = false then 4
  else 0

/-- Relative error of a value in dB, values above 100 dB counting as 100 dB. -/
noncomputable def relativeError (x : ℝ) : ℝ := (10 : ℝ) ^ (min x 100 / 10) - 1

/-- A relative error in dB. -/
noncomputable def errorDb (e : ℝ) : ℝ := 10 * Real.logb 10 (1 + e)

/-- Radar error `z` and lidar error `b` combined with weights. -/
noncomputable def weighted (scale w1 w2 z b : ℝ) : ℝ := scale * Real.sqrt ((w1 * z) ^ 2 + (w2 * b) ^ 2)

/-- Two independent errors combined. -/
noncomputable def quadrature (e f : ℝ) : ℝ := Real.sqrt (e ^ 2 + f ^ 2)

end Cloudnet.Spec
