import Mathlib.Data.Nat.Notation

/-!
The `definition` attributes of status and bit variables: `utils.py` `_format_definition` with the wrapping of lines of the standard library
(`textwrap.wrap`), and the tables of the products.
-/

namespace Cloudnet

/-- The characters that `str.split` and `str.strip` of Python take for white space. -/
def pySpace (c : Char) : Bool :=
  c.toNat ∈ [0x09, 0x0a, 0x0b, 0x0c, 0x0d, 0x1c, 0x1d, 0x1e, 0x1f, 0x20, 0x85, 0xa0, 0x1680, 0x2000, 0x2001, 0x2002, 0x2003, 0x2004, 0x2005, 0x2006,
    0x2007, 0x2008, 0x2009, 0x200a, 0x2028, 0x2029, 0x202f, 0x205f, 0x3000]

/-- `str.split()`: the words of a text; `cur` is the word so far. -/
def pyWords : List Char → List Char → List (List Char)
  | [], cur => if cur = [] then [] else [cur]
  | c :: cs, cur => if pySpace c then (if cur = [] then pyWords cs [] else cur :: pyWords cs []) else pyWords cs (cur ++ [c])

/-- `chunk.strip() == ''`. -/
def blankChunk (c : List Char) : Bool := c.all pySpace

/-- `textwrap.TextWrapper._wrap_chunks`: the chunks that fit on a line, with `cur` characters already there, and the others. -/
def takeFit (width : ℕ) : ℕ → List (List Char) → List (List Char) × List (List Char)
  | _, [] => ([], [])
  | cur, c :: cs =>
    if cur + c.length ≤ width then (c :: (takeFit width (cur + c.length) cs).1, (takeFit width (cur + c.length) cs).2) else ([], c :: cs)

/-- `chunk.rfind('-', 0, n)`: position of the last hyphen among the first `n` characters. -/
def lastHyphen (chunk : List Char) (n : ℕ) : Option ℕ :=
  ((List.range (min n chunk.length)).reverse).find? fun i => chunk[i]? = some '-'

/-- `textwrap.TextWrapper._handle_long_word`: how much of a chunk is put on the line. Widths below 1 are 0 here. -/
def cutLong (width cur : ℕ) (chunk : List Char) : ℕ :=
  let spaceLeft := if width < 1 then 1 else width - cur
  if spaceLeft < chunk.length then
    match lastHyphen chunk spaceLeft with
    | some hyphen => if 0 < hyphen ∧ (chunk.take hyphen).any (fun c => c ≠ '-') then hyphen + 1 else spaceLeft
    | none => spaceLeft
  else spaceLeft

/-- `textwrap.TextWrapper._wrap_chunks`: the next chunk is too long for any line. -/
def fitLong (width : ℕ) (cur rest : List (List Char)) : List (List Char) × List (List Char) := match rest with
  | [] => (cur, [])
  | c :: cs =>
    if width < c.length then (cur ++ [c.take (cutLong width cur.flatten.length c)], c.drop (cutLong width cur.flatten.length c) :: cs)
    else (cur, c :: cs)

/-- `textwrap.TextWrapper._wrap_chunks`: white space at the start of a line. -/
def dropBlankHead : List (List Char) → List (List Char)
  | [] => []
  | c :: cs => if blankChunk c then cs else c :: cs

/-- `textwrap.TextWrapper._wrap_chunks`: white space at the end of a line. -/
def dropBlankLast (cur : List (List Char)) : List (List Char) := match cur.getLast? with
  | some c => if blankChunk c then cur.dropLast else cur
  | none => cur

/-- One line and the chunks after it. -/
def wrapLine (first : Bool) (width : ℕ) (chunks : List (List Char)) : List (List Char) × List (List Char) :=
  let fit := takeFit width 0 (if first then chunks else dropBlankHead chunks)
  let long := fitLong width fit.1 fit.2
  (dropBlankLast long.1, long.2)

/-- The indent of the next line. -/
def wrapIndent (indent : ℕ) (lines : List (List Char)) : List Char := if lines = [] then [] else List.replicate indent ' '

/-- `textwrap.TextWrapper._wrap_chunks` for the width 70, an indent of `indent` spaces except in the first line, and no limit for the number of
lines. The loop ends after `fuel` lines at the latest. -/
def wrapLoop (indent : ℕ) : ℕ → List (List Char) → List (List Char) → List (List Char)
  | 0, lines, _ => lines
  | _ + 1, lines, [] => lines
  | fuel + 1, lines, c :: cs =>
    let ind := wrapIndent indent lines
    let step := wrapLine lines.isEmpty (70 - ind.length) (c :: cs)
    wrapLoop indent fuel (if step.1 = [] then lines else lines ++ [ind ++ step.1.flatten]) step.2

/-- An upper limit for the number of lines. -/
def chunkSize (chunks : List (List Char)) : ℕ := (chunks.map fun c => c.length + 1).sum

/-- `utils.py:1087-1090`: the text of one definition. -/
def definitionText (kind key value : List Char) : List Char :=
  kind ++ [' '] ++ key ++ [':', ' '] ++ [' '].intercalate (pyWords value [])

/-- `utils.py:1087-1091`: the lines of one definition. `split` is the splitting of a text into chunks of `textwrap` (a regular expression that
also looks for hyphens). -/
def definitionLines (split : List Char → List (List Char)) (kind key value : List Char) : List (List Char) :=
  let chunks := split (definitionText kind key value)
  wrapLoop (kind ++ [' '] ++ key ++ [':', ' ']).length (chunkSize chunks) [] chunks

/-- `utils.py:1084-1092` `_format_definition`. Keys are given as they are printed. -/
def formatDefinition (split : List Char → List (List Char)) (kind : List Char) (definitions : List (List Char × List Char)) : List Char :=
  ['\n'].intercalate ([] :: definitions.flatMap fun d => definitionLines split kind d.1 d.2)

/-- `utils.py:1095-1096` `status_field_definition`. -/
def statusFieldDefinition (split : List Char → List (List Char)) (definitions : List (ℕ × String)) : String :=
  String.ofList (formatDefinition split "Value".toList (definitions.map fun d => ((toString d.1).toList, d.2.toList)))

/-- `utils.py:1099-1100` `bit_field_definition`. -/
def bitFieldDefinition (split : List Char → List (List Char)) (definitions : List (ℕ × String)) : String :=
  String.ofList (formatDefinition split "Bit".toList (definitions.map fun d => ((toString d.1).toList, d.2.toList)))

/-! ### Tables. Line breaks and indents of the source are kept. -/

/-- `products/classification.py:342-360`: `target_classification` (Value). -/
def targetClassificationTable : List (ℕ × String) :=
  [(0, "Clear sky."),
   (1, "Cloud liquid droplets only."),
   (2, "Drizzle or rain."),
   (3, "Drizzle or rain\n                coexisting with cloud liquid droplets."),
   (4, "Ice particles."),
   (5, "Ice coexisting with\n                supercooled liquid droplets."),
   (6, "Melting ice particles."),
   (7, "Melting ice particles\n                coexisting with cloud liquid droplets."),
   (8, "Aerosol particles, no cloud or precipitation."),
   (9, "Insects, no cloud or precipitation."),
   (10, "Aerosol coexisting\n                with insects, no cloud or precipitation.")]

/-- `products/classification.py:361-384`: `detection_status` (Value). -/
def detectionStatusTable : List (ℕ × String) :=
  [(0, "Clear sky."),
   (1, "Lidar echo only."),
   (2, "\n                Radar echo but reflectivity may be unreliable as attenuation\n                by rain, melting ice or liquid cloud has not been\n                corrected."),
   (3, "Good radar and lidar echos."),
   (4, "\n                No radar echo but rain or liquid cloud beneath mean that\n                attenuation that would be experienced is unknown."),
   (5, "\n                Good radar echo only."),
   (6, "\n                No radar echo but known attenuation."),
   (7, "\n                Radar echo corrected for liquid, rain or melting attenuation."),
   (8, "\n                Radar ground clutter."),
   (9, "\n                Lidar clear-air molecular scattering.")]

/-- `products/classification.py:385-397`: `cloud_top_height_status` (Value). -/
def cloudTopHeightStatusTable : List (ℕ × String) :=
  [(0, "Reliable."),
   (1, "Uncertain due to moderate\n                radar attenuation."),
   (2, "Uncertain due to incomplete\n                radar attenuation correction."),
   (3, "Likely erroneous due to\n                severe radar attenuation."),
   (4, "Cloud top above radar\n                measurement range.")]

/-- `products/classification.py:398-405`: `signal_source_status` (Value). -/
def signalSourceStatusTable : List (ℕ × String) :=
  [(0, "No signal from radar or lidar."),
   (1, "Signal from both radar and lidar."),
   (2, "Signal from radar only."),
   (3, "Signal from lidar only.")]

/-- `products/classification.py:406-422`: `radar_attenuation_status` (Value). -/
def radarAttenuationStatusTable : List (ℕ × String) :=
  [(0, "No radar signal."),
   (1, "Radar signal,\n                negligible attenuation (corrected)."),
   (2, "Radar signal,\n                small attenuation (corrected)."),
   (3, "Radar signal,\n                moderate attenuation (corrected)."),
   (4, "Radar signal,\n                severe attenuation (corrected)."),
   (5, "Radar signal,\n                attenuation present but not corrected."),
   (6, "No radar signal, cloud\n                may be undetected due to severe attenuation beneath.")]

/-- `products/iwc.py:176-193`: `iwc_retrieval_status` (Value). -/
def iwcRetrievalStatusTable : List (ℕ × String) :=
  [(0, "No ice present."),
   (1, "Reliable retrieval."),
   (2, "Unreliable retrieval due to uncorrected liquid, rain or\n                  melting attenuation."),
   (3, "Retrieval performed with radar corrected for liquid, rain and\n                  melting attenuation."),
   (4, "Ice detected only by the lidar."),
   (5, "Uncorrected rain attenuation (deprecated)."),
   (6, "Clear sky above rain and wet-bulb temperature less than 0degC:\n                  if rain attenuation is strong, ice could be present but\n                  undetected."),
   (7, "Drizzle or rain that would have been classified as ice if the\n                  wet-bulb temperature were less than 0degC: may be ice if\n                  temperature is in error.")]

/-- `products/lwc.py:430-449`: `lwc_retrieval_status` (Value). -/
def lwcRetrievalStatusTable : List (ℕ × String) :=
  [(0, "No liquid water detected."),
   (1, "Reliable retrieval."),
   (2, "Adiabatic retrieval where cloud top has been adjusted to match\n                  liquid water path from microwave radiometer because layer is\n                  not detected by radar."),
   (3, "Adiabatic retrieval: new cloud pixels where cloud top has been\n                  adjusted to match liquid water path from microwave radiometer\n                  because layer is not detected by radar."),
   (4, "No retrieval: either no liquid water path is available or\n                  liquid water path is uncertain."),
   (5, "No retrieval: liquid water layer detected only by the lidar\n                  and liquid water path is unavailable or uncertain: cloud top\n                  may be higher than diagnosed cloud top since lidar signal has\n                  been attenuated."),
   (6, "Rain present: cloud extent is difficult to ascertain and\n                  liquid water path also uncertain.")]

/-- `products/der.py:240-251`: `der_retrieval_status` (Value). -/
def derRetrievalStatusTable : List (ℕ × String) :=
  [(0, "No data: No cloud observed."),
   (1, "Reliable retrieval."),
   (2, "Mix of drops and ice: Droplets and ice crystals coexist within\n                  pixel. Z may be biased by large crystals."),
   (3, "Precipitation in profile: Drizzle and rain affects LWP\n                  retrieval of MWR but also the target reflectivity."),
   (4, "Surrounding ice: Less crucial! Ice crystals in the vicinity of\n                  a droplet pixel may also bias its reflectivity.")]

/-- `categorize/categorize.py:353-365`: `category_bits` (Bit). -/
def categoryBitsTable : List (ℕ × String) :=
  [(0, "Small liquid droplets are present."),
   (1, "Falling hydrometeors are present; if Bit 2 is set then these\n                  are most likely ice particles, otherwise they are drizzle or\n                  rain drops."),
   (2, "Wet-bulb temperature is less than 0 degrees C, implying the\n                  phase of Bit-1 particles."),
   (3, "Melting ice particles are present."),
   (4, "Aerosol particles are present and visible to the lidar."),
   (5, "Insects are present and visible to the radar.")]

/-- `categorize/categorize.py:366-398`: `quality_bits` (Bit). -/
def qualityBitsTable : List (ℕ × String) :=
  [(0, "An echo is detected by the radar."),
   (1, "An echo is detected by the lidar."),
   (2, "The apparent echo detected by the radar is ground clutter or\n                  some other non-atmospheric artifact."),
   (3, "The lidar echo is due to clear-air molecular scattering."),
   (4, "Liquid water cloud, rainfall or melting ice below this pixel\n                  will have caused radar and lidar attenuation; if bit 5 is set\n                  then a correction for the radar attenuation has been\n                  performed; otherwise do not trust the absolute values of\n                  reflectivity factor. No correction is performed for lidar\n                  attenuation."),
   (5, "Radar reflectivity has been corrected for liquid-water\n                  attenuation using the microwave radiometer measurements of\n                  liquid water path and the lidar estimation of the location of\n                  liquid water cloud; be aware that errors in reflectivity may\n                  result."),
   (6, "Rain has caused radar attenuation; if bit 7 is set then a\n                  correction for the radar attenuation has been performed;\n                  otherwise do not trust the absolute values of reflectivity\n                  factor. No correction is performed for lidar attenuation."),
   (7, "Radar reflectivity has been corrected for rain attenuation\n                  using rainfall rate from a disdrometer; be aware that errors\n                  in reflectivity may result."),
   (8, "Melting layer has caused radar attenuation; if bit 9 is set then a\n                  correction for the radar attenuation has been performed;\n                  otherwise do not trust the absolute values of reflectivity\n                  factor. No correction is performed for lidar attenuation."),
   (9, "Radar reflectivity has been corrected for melting layer\n                  attenuation; be aware that errors in reflectivity may result.")]

/-- `instruments/rpg.py:423-428`: `model_number` (Value). -/
def modelNumberTable : List (ℕ × String) :=
  [(0, "Single polarisation radar."),
   (1, "Dual polarisation radar.")]

/-- `instruments/rpg.py:429-437`: `dual_polarization` (Value). -/
def dualPolarizationTable : List (ℕ × String) :=
  [(0, "Single polarisation radar."),
   (1, "Dual polarisation radar in linear depolarisation ratio (LDR)\n                  mode."),
   (2, "Dual polarisation radar in simultaneous transmission\n                  simultaneous reception (STSR) mode.")]

/-- `instruments/rpg.py:438-447`: `FFT_window` (Value). -/
def fftWindowTable : List (ℕ × String) :=
  [(0, "Square"),
   (1, "Parzen"),
   (2, "Blackman"),
   (3, "Welch"),
   (4, "Slepian2"),
   (5, "Slepian3")]

/-- `instruments/rpg.py:448-454`: `quality_flag` (Bit). -/
def qualityFlagTable : List (ℕ × String) :=
  [(0, "ADC saturation."),
   (1, "Spectral width too high."),
   (2, "No transmission power levelling.")]

/-- `instruments/bowtie.py:122`: `correction_bits` (Bit). -/
def correctionBitsTable : List (ℕ × String) := [(0, "Doppler velocity is dealiased.")]

/-- All `definition` attributes written with `status_field_definition` (true) or `bit_field_definition` (false): one entry per variable. -/
def definitionTables : List (Bool × List (ℕ × String)) :=
  [(true, targetClassificationTable), (true, detectionStatusTable), (true, cloudTopHeightStatusTable), (true, signalSourceStatusTable), (true, radarAttenuationStatusTable), (true, iwcRetrievalStatusTable), (true, lwcRetrievalStatusTable), (true, derRetrievalStatusTable), (false, categoryBitsTable), (false, qualityBitsTable), (true, modelNumberTable), (true, dualPolarizationTable), (true, fftWindowTable), (false, qualityFlagTable), (false, correctionBitsTable)]


end Cloudnet
