import Verif.ClassFile.Model
import Verif.Classification.Props
import Verif.Components.Props
import Verif.Atmos.Props

/-!
Property C71 (the classification file end to end) and the above-ground heights of C08.
-/

set_option linter.unusedSectionVars false

namespace Cloudnet

variable {α : Type} [Field α] [LinearOrder α] [IsStrictOrderedRing α]

/-- A pixel belongs to a cloud: one of the droplet, drizzle-and-droplet, ice and ice-and-supercooled
classes, in a face-connected object of such pixels with more than 20 pixels. -/
def Spec.Cloudy (nT nH : ℕ) (cls : Grid ℕ) (t h : ℕ) : Prop :=
  cls t h ∈ [1, 3, 4, 5] ∧
    Spec.ObjectLargerThan Spec.FaceNeighbours nT nH
      (fun t h => decide (cls t h ∈ [1, 3, 4, 5])) 20 (t, h)

/-- C71. For every categorize content written from masks `c` and `q` and every strictly increasing
height vector that avoids altitude zero, the classification file is generated; its pixel variables are
the ones of the decision tables; a profile has no cloud base and top iff it has no cloudy pixel,
otherwise they are the heights of its lowest and highest cloudy pixels, the above-ground heights are
these minus the site altitude, and the cloud top status is the one of the attenuation at the top. -/
theorem C71_classification_file (nT nH : ℕ) (hH : 0 < nH) (c : CategoryBits) (q : QualityBits)
    (att : AttenuationInput α) (height : ℕ → α) (altitude : α)
    (h0 : ∀ h < nH, height h ≠ 0) (hmono : ∀ i j, i < j → j < nH → height i < height j) :
    ∃ file, generateClassification nT nH (classesToBits c.fields) (classesToBits q.fields) att
        height altitude = .ok file ∧
      (∀ t h, file.target t h = Spec.target (c.droplet t h) (c.falling t h) (c.freezing t h)
        (c.melting t h) (c.aerosol t h) (c.insect t h) (q.clutter t h)) ∧
      (∀ t h, file.detection t h =
        Spec.detection (q.radar t h) (q.lidar t h) (q.clutter t h) (q.molecular t h)
        (decide (q.attenuatedLiquid t h = true ∨ q.attenuatedRain t h = true ∨
          q.attenuatedMelting t h = true))
        (decide ((q.attenuatedLiquid t h = true → q.correctedLiquid t h = true) ∧
          (q.attenuatedRain t h = true → q.correctedRain t h = true) ∧
          (q.attenuatedMelting t h = true → q.correctedMelting t h = true)))) ∧
      (∀ t h, file.signalSource t h = Spec.signalSource (q.radar t h) (q.lidar t h)) ∧
      (∀ t h, file.attenuation t h =
        if (∃ k < h, Spec.ownStatus att q t k = 4) ∧ Spec.ownStatus att q t h ≠ 4 then 6
        else Spec.ownStatus att q t h) ∧
      ∀ t < nT,
        ((∀ h < nH, ¬ Spec.Cloudy nT nH file.target t h) ∧ file.baseAmsl t = none ∧
          file.topAmsl t = none ∧ file.baseAgl t = none ∧ file.topAgl t = none) ∨
        ∃ b p, b ≤ p ∧ p < nH ∧ Spec.Cloudy nT nH file.target t b ∧
          Spec.Cloudy nT nH file.target t p ∧
          (∀ h < nH, Spec.Cloudy nT nH file.target t h → b ≤ h ∧ h ≤ p) ∧
          file.baseAmsl t = some (height b) ∧ file.topAmsl t = some (height p) ∧
          file.baseAgl t = some (height b - altitude) ∧
          file.topAgl t = some (height p - altitude) ∧
          file.topStatus t = some (if p = nH - 1 then 4 else match file.attenuation t p with
            | 5 => 2
            | 4 => 3
            | 3 => 1
            | _ => 0) := by
  set cls := targetClassification c q.clutter with hcls
  obtain ⟨bases, tops, hbt, hrow⟩ :=
    C08_base_and_top_heights nT nH hH (findCloudMask nT nH cls) height h0 hmono
  unfold generateClassification
  rw [C01_category_bits_round_trip, C02_quality_bits_round_trip]
  simp only [bind, Except.bind, pure, Except.pure, ← hcls, hbt]
  refine ⟨_, rfl, ?_, ?_, ?_, ?_, ?_⟩
  · intro t h; exact C05_target_classification c q.clutter t h
  · intro t h; exact C06_detection_status q t h
  · intro t h; exact C07_signal_source q t h
  · intro t h
    obtain ⟨h1, h2⟩ := C10_radar_attenuation_status att q t h
    split
    · next hc => exact h1 hc
    · next hc => exact h2 hc
  · intro t ht
    have hcl : ∀ h < nH, (findCloudMask nT nH cls t h = true ↔ Spec.Cloudy nT nH cls t h) :=
      fun h hh => C09_cloud_mask nT nH cls t h ht hh
    rcases hrow t ht with ⟨h1, h2, h3⟩ | ⟨b, p, h1, h2, h3, h4, h5, h6, h7, _⟩
    · left
      refine ⟨?_, h2, h3, by simp [heightAgl, h2], by simp [heightAgl, h3]⟩
      intro h hh hc
      have := (hcl h hh).2 hc
      rw [h1 h hh] at this; simp at this
    · right
      refine ⟨b, p, h1, h2, (hcl b (by omega)).1 h3, (hcl p h2).1 h4, ?_, h6, h7,
        by simp [heightAgl, h6], by simp [heightAgl, h7], ?_⟩
      · intro h hh hc; exact h5 h hh ((hcl h hh).2 hc)
      · simp only [h7, Option.map_some]
        rw [C11_cloud_top_status height nH p _ h2 hmono]
        generalize radarAttenuationStatus att q t p = s
        rcases s with _ | _ | _ | _ | _ | _ | s <;> rfl

/-- C08. The above-ground cloud heights are the heights above mean sea level minus the site altitude,
masked in the same profiles. -/
theorem C08_above_ground (nT nH : ℕ) (categoryBits qualityBits : Grid ℤ) (att : AttenuationInput α)
    (height : ℕ → α) (altitude : α) (file : ClassificationFile α)
    (hf : generateClassification nT nH categoryBits qualityBits att height altitude = .ok file)
    (t : ℕ) :
    file.baseAgl t = (file.baseAmsl t).map (fun x => x - altitude) ∧
    file.topAgl t = (file.topAmsl t).map (fun x => x - altitude) := by
  unfold generateClassification at hf
  simp only [bind, Except.bind, pure, Except.pure] at hf
  split at hf
  · cases hf
  · split at hf
    · cases hf
    · split at hf
      · cases hf
      · obtain rfl := Except.ok.inj hf
        exact ⟨rfl, rfl⟩

/-- One profile of 21 ice gates and one clear profile, site at 50 m, heights 100, 130, ...: base and top
at 100 and 700 m, 50 and 650 m above ground; nothing in the clear profile. -/
def exampleCategory : CategoryBits :=
  ⟨fun _ _ => false, fun t _ => t == 0, fun _ _ => true, fun _ _ => false, fun _ _ => false,
    fun _ _ => false⟩

def exampleQuality : QualityBits :=
  ⟨fun _ _ => true, fun _ _ => true, fun _ _ => false, fun _ _ => false, fun _ _ => false,
    fun _ _ => false, fun _ _ => false, fun _ _ => false, fun _ _ => false, fun _ _ => false⟩

example : (match generateClassification 2 21 (classesToBits exampleCategory.fields)
      (classesToBits exampleQuality.fields)
      ⟨fun _ _ => none, fun _ _ => none, fun _ _ => none, 35, none, none⟩
      (fun h => (100 + 30 * h : ℚ)) 50 with
    | .ok f => decide (f.baseAmsl 0 = some 100 ∧ f.topAmsl 0 = some 700 ∧ f.baseAgl 0 = some 50 ∧
        f.topAgl 0 = some 650 ∧ f.topStatus 0 = some 4 ∧ f.baseAmsl 1 = none)
    | .error _ => false) = true := by decide +kernel

end Cloudnet
