import Verif.Basic
import Mathlib.Data.Finset.Prod
import Mathlib.Data.Finset.Card

namespace Cloudnet

/-! Connected components (`scipy.ndimage.label`) and the filters built on them. -/

/-- A pixel, (time index, height index). -/
abbrev Pixel := ℕ × ℕ

/-- Distance of two indices along one axis. -/
def idxDist (a b : ℕ) : ℕ := (a - b) + (b - a)

/-- `np.ones((3, 3))` as structuring element (`utils.py:216`): all eight neighbours (and the pixel). -/
def adjFull (p q : Pixel) : Bool :=
  decide (idxDist p.1 q.1 ≤ 1) && decide (idxDist p.2 q.2 ≤ 1)

/-- `np.array([[0, 1, 0], [0, 1, 0], [0, 1, 0]])` as structuring element (`utils.py:239`): the
neighbours along the first axis (time). -/
def adjX (p q : Pixel) : Bool :=
  decide (idxDist p.1 q.1 ≤ 1) && decide (p.2 = q.2)

/-- `ndi.generate_binary_structure(2, connectivity)` (`utils.py:256`): offsets of at most one index
per axis whose squared length is at most `connectivity`. -/
def adjConn (connectivity : ℕ) (p q : Pixel) : Bool :=
  decide (idxDist p.1 q.1 ≤ 1) && decide (idxDist p.2 q.2 ≤ 1) &&
    decide (idxDist p.1 q.1 ^ 2 + idxDist p.2 q.2 ^ 2 ≤ connectivity)

/-- The set pixels of a mask with `nT` profiles and `nH` gates. -/
def setPixels (nT nH : ℕ) (mask : Grid Bool) : Finset Pixel :=
  (Finset.range nT ×ˢ Finset.range nH).filter (fun p => mask p.1 p.2 = true)

/-- One step of flood filling: add all set pixels adjacent to the region. -/
def grow (adj : Pixel → Pixel → Bool) (S R : Finset Pixel) : Finset Pixel :=
  S.filter (fun q => q ∈ R ∨ ∃ r ∈ R, adj r q = true)

/-- The region labelled like `p` by `scipy.ndimage.label` (called at `utils.py:245, 257`). SciPy is
modelled by its documented result: the flood fill of the set pixels starting at `p`. -/
def component (adj : Pixel → Pixel → Bool) (S : Finset Pixel) (p : Pixel) : Finset Pixel :=
  (grow adj S)^[S.card] {p}

/-- `utils.py:243-249` `_filter`: set to zero the pixels of regions of size 1. -/
def filterRegions (adj : Pixel → Pixel → Bool) (nT nH : ℕ) (mask : Grid Bool) : Grid Bool :=
  fun t h => mask t h && !decide ((component adj (setPixels nT nH mask) (t, h)).card = 1)

/-- `utils.py:200-217` `filter_isolated_pixels`. -/
def filterIsolatedPixels (nT nH : ℕ) (mask : Grid Bool) : Grid Bool :=
  filterRegions adjFull nT nH mask

/-- `utils.py:220-240` `filter_x_pixels`. -/
def filterXPixels (nT nH : ℕ) (mask : Grid Bool) : Grid Bool :=
  filterRegions adjX nT nH mask

/-- `utils.py:252-260` `remove_small_objects`: keep the pixels of regions of more than `maxSize`
pixels. -/
def removeSmallObjects (nT nH : ℕ) (mask : Grid Bool) (maxSize connectivity : ℕ) : Grid Bool :=
  fun t h => mask t h &&
    decide ((component (adjConn connectivity) (setPixels nT nH mask) (t, h)).card > maxSize)

/-- `products/classification.py:311-324` `_find_cloud_mask`: droplets (1), drizzle and droplets (3),
ice (4), ice and supercooled droplets (5), without face-connected objects of 20 pixels or less. -/
def findCloudMask (nT nH : ℕ) (classification : Grid ℕ) : Grid Bool :=
  let m0 : Grid Bool := Grid.const false
  let m1 := m0.assign (fun t h => classification t h == 1) true
  let m2 := m1.assign (fun t h => classification t h == 3) true
  let m3 := m2.assign (fun t h => classification t h == 4) true
  let m4 := m3.assign (fun t h => classification t h == 5) true
  removeSmallObjects nT nH m4 20 1

end Cloudnet
