import Verif.Basic

/-! Decision tables of the ice and droplet retrieval status, highest priority first. -/

namespace Cloudnet.Spec

/-- Ice: falling, freezing, neither melting layer nor insects. -/
def ice (falling freezing melting insect : Bool) : Bool := falling && freezing && !melting && !insect

/-- Ice retrieval status. `attenuated`: some attenuation affects the pixel; `uncorrected`: some
attenuation affecting the pixel was not corrected; `echo`: the radar measured something. -/
def iceStatus (falling freezing melting insect rain attenuated uncorrected echo : Bool) : ℕ :=
  if ice falling freezing melting insect then
    if uncorrected then 2 else if echo then (if attenuated then 3 else 1) else 4
  else if rain && freezing && !melting then 6
  else if melting || (falling && !freezing && !insect) then 7
  else 0

/-- Droplet effective radius retrieval status. -/
def derStatus (droplet falling freezing melting insect rain echo : Bool) : ℕ :=
  if droplet && echo then (if rain then 3 else if falling then 2 else 1)
  else if ice falling freezing melting insect && !droplet then 4
  else 0

end Cloudnet.Spec
