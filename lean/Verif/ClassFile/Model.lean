import Verif.Classification.Model
import Verif.Atmos.Model

namespace Cloudnet

/-- The variables of a classification file (`products/classification.py:47-75`). A cloud top status is
`none` where the profile has no cloud top: the code then writes a status computed from the number below
the mask, which is not modelled. -/
structure ClassificationFile (α : Type*) where
  target : Grid ℕ
  detection : Grid ℕ
  signalSource : Grid ℕ
  attenuation : Grid ℕ
  baseAmsl : ℕ → Option α
  topAmsl : ℕ → Option α
  baseAgl : ℕ → Option α
  topAgl : ℕ → Option α
  topStatus : ℕ → Option ℕ

/-- `products/classification.py:20-86` `generate_classification`, from the integer bit fields, the
height vector and the attenuation variables of the categorize file to the written variables (netCDF
input and output left out). -/
def generateClassification {α : Type} [Field α] [LinearOrder α] (nT nH : ℕ)
    (categoryBits qualityBits : Grid ℤ) (att : AttenuationInput α) (height : ℕ → α) (altitude : α) :
    Except String (ClassificationFile α) := do
  let category ← readCategoryBits categoryBits
  let quality ← readQualityBits qualityBits
  let classification := targetClassification category quality.clutter
  let detection := detectionStatus quality
  let signalSource := signalSourceStatus quality
  let attStatus := radarAttenuationStatus att quality
  let (bases, tops) ← getCloudBaseAndTopHeights nT nH (findCloudMask nT nH classification) height
  return {
    target := classification
    detection := detection
    signalSource := signalSource
    attenuation := attStatus
    baseAmsl := bases
    topAmsl := tops
    baseAgl := heightAgl altitude bases
    topAgl := heightAgl altitude tops
    topStatus := fun t => (tops t).map fun top => cloudTopStatus height nH top (attStatus t) }

end Cloudnet
