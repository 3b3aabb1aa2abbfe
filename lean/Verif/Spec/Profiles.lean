import Mathlib.Data.Real.Basic
import Mathlib.Analysis.SpecialFunctions.Pow.Real

/-
Power delay profiles: TR 38.811, Tables 6.9.2-1 to 6.9.2-4 (NTN-TDL-A to D), and TS 38.101-4, Tables B.2.1.1-2 to B.2.1.1-4 (TDLA30, TDLB100, TDLC300).
No copy of the standards was at hand: the values were recalled and then compared with the files of the repository, with which they agree. They
have not been compared with the printed tables.
-/
namespace OpenNTN.Spec

/-- A profile: power of the specular part in dB if there is one, and delay and power in dB of each fading tap. Delays are in units of the delay spread
if `spread` is `none`, otherwise in nanoseconds, and `spread` is the delay spread in nanoseconds. -/
structure Profile where
  specular : Option ℝ
  taps : List (ℝ × ℝ)
  spread : Option ℝ

noncomputable def profiles : List (String × Profile) := [
  ("A", ⟨none, [(0, 0), (1.0811, -4.675), (2.8416, -6.482)], none⟩),
  ("B", ⟨none, [(0, 0), (0.7249, -1.973), (0.7410, -4.332), (5.7392, -11.914)], none⟩),
  ("C", ⟨some (-0.394), [(0, -10.618), (14.8124, -23.373)], none⟩),
  ("D", ⟨some (-0.284), [(0, -11.991), (0.5596, -9.887), (7.3340, -16.771)], none⟩),
  ("A30", ⟨none, [(0, -15.5), (10, 0), (15, -5.1), (20, -5.1), (25, -9.6), (50, -8.2), (65, -13.1), (75, -11.5), (105, -11.0), (135, -16.2),
    (150, -16.6), (290, -26.2)], some 30⟩),
  ("B100", ⟨none, [(0, 0), (10, -2.2), (20, -0.6), (30, -0.6), (35, -0.3), (45, -1.2), (55, -5.9), (120, -2.2), (170, -0.8), (245, -6.3),
    (330, -7.5), (480, -7.1)], some 100⟩),
  ("C300", ⟨none, [(0, -6.9), (65, 0), (70, -7.7), (190, -2.5), (195, -2.4), (200, -9.9), (240, -8.0), (325, -6.6), (520, -7.1), (1045, -13.0),
    (1510, -14.2), (2595, -16.0)], some 300⟩)]

/-- Azimuth and zenith angles of the clusters at the terminal in degrees, without the specular path: NTN-CDL-A to D of TR 38.811, section 6.9.1
(recalled and compared with the files in the same way). -/
noncomputable def terminalAngles : List (String × List ℝ × List ℝ) := [
  ("A", [178.8, -115.7, 111.5], [35.6, 22.9, 127.4]),
  ("B", [-174.6, 144.9, -119.8, -88.8], [42.2, 63.4, 89.7, 174.1]),
  ("C", [-180, -75.9], [40, 87.1]),
  ("D", [-180, -135.4, -121.5], [40, 146.2, 136])]

/-- Linear value of a power in dB. -/
noncomputable def fromDb (p : ℝ) : ℝ := (10 : ℝ) ^ (p / 10)

/-- Delays of the taps in seconds for the delay spread `ds`. -/
noncomputable def Profile.delays (P : Profile) (ds : ℝ) : List ℝ := P.taps.map fun t => t.1 * (if P.spread = none then ds else 10 ^ (-9 : ℤ))

/-- Power of the taps, the specular part included in the first. -/
noncomputable def Profile.powers (P : Profile) : List ℝ := match P.specular, P.taps.map fun t => fromDb t.2 with
  | some s, p :: ps => (fromDb s + p) :: ps
  | _, ps => ps

/-- The Ricean K-factor of the first tap. -/
noncomputable def Profile.kFactor (P : Profile) : Option ℝ := match P.specular, P.taps with
  | some s, t :: _ => some (fromDb (s - t.2))
  | _, _ => none

end OpenNTN.Spec
