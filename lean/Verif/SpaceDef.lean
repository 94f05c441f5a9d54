import Verif.Matrix
import Verif.WhitePoint
import Verif.Gamma

/-!
# RGB colour space definitions (ColorMagic/spaces/rgb_color_space_definition.h)

White points and gamma curves are held by pointer; `none` is a null pointer.  White points have no member function that changes them, so
the store of white points is only ever extended.
-/

open Outcome

/-- The white points in memory. -/
abbrev WhiteStore := Nat → WhitePoint

/-- rgb_color_space_definition.h:232-281: the members. -/
structure SpaceDef where
  red : V3
  green : V3
  blue : V3
  white : Option Nat
  transform : Mat Fl
  inverse : Mat Fl
  gamma : Option Nat

namespace SpaceDef
open Fl
variable [FloatModel]

/-- rgb_color_space_definition.h:218-230 `calculate_transformation_matrix` -/
noncomputable def calcMatrix (red green blue white : V3) : Outcome (Mat Fl) := do
  let cc ← Mat.ofSquareList 3 [red.x, green.x, blue.x, red.y, green.y, blue.y, red.z, green.z, blue.z]
  let ccInv ← cc.invert
  let t ← ccInv.mulVec [white.x, white.y, white.z]
  let t0 ← Mat.vget t 0
  let t1 ← Mat.vget t 1
  let t2 ← Mat.vget t 2
  let m ← Mat.ofSquareList 3 [t0, 0, 0, 0, t1, 0, 0, 0, t2]
  cc.mul m

/-- rgb_color_space_definition.h:19-21: the default constructor allocates a zero white point at `w` and an empty gamma at `g`. -/
noncomputable def default (w g : Nat) : SpaceDef := ⟨⟨0, 0, 0⟩, ⟨0, 0, 0⟩, ⟨0, 0, 0⟩, some w, .empty, .empty, some g⟩

/-- rgb_color_space_definition.h:179-181 and 62-63: recomputing both matrices.  The first component is the object left behind, also when an
exception is thrown on the way. -/
noncomputable def recompute (ws : WhiteStore) (s : SpaceDef) : SpaceDef × Outcome Unit :=
  match s.white with
  | none => (s, ub)
  | some w =>
    match calcMatrix s.red s.green s.blue (ws w).tri with
    | .ub => (s, .ub)
    | .throw e => (s, .throw e)
    | ok t =>
      match Mat.assign s.transform t with
      | .ub => (s, .ub)
      | .throw e => (s, .throw e)
      | ok t' =>
        let s := { s with transform := t' }
        match s.transform.invert with
        | .ub => (s, .ub)
        | .throw e => (s, .throw e)
        | ok i =>
          match Mat.assign s.inverse i with
          | .ub => (s, .ub)
          | .throw e => (s, .throw e)
          | ok i' => ({ s with inverse := i' }, ok ())

/-- rgb_color_space_definition.h:45-64 (and 31-32, which calls it) -/
noncomputable def construct (ws : WhiteStore) (rx ry gx gy bx byy : Fl) (white : Option Nat) (gamma : Option Nat) : Outcome SpaceDef :=
  let s : SpaceDef := ⟨⟨rx, ry, 1 - rx - ry⟩, ⟨gx, gy, 1 - gx - gy⟩, ⟨bx, byy, 1 - bx - byy⟩, white, .empty, .empty, gamma⟩
  match recompute ws s with
  | (s', ok ()) => ok s'
  | (_, .throw e) => .throw e
  | (_, .ub) => .ub

/-- rgb_color_space_definition.h:67-76 copy constructor -/
noncomputable def copy (o : SpaceDef) : Outcome SpaceDef := do
  let t ← Mat.assign .empty o.transform.copy
  let i ← Mat.assign .empty o.inverse.copy
  ok ⟨o.red, o.green, o.blue, o.white, t, i, o.gamma⟩

/-- rgb_color_space_definition.h:177-182 `set_white_point` -/
noncomputable def setWhitePoint (ws : WhiteStore) (s : SpaceDef) (w : Option Nat) : SpaceDef × Outcome Unit :=
  recompute ws { s with white := w }

/-- rgb_color_space_definition.h:203-206 `set_gamma_curve` -/
def setGamma (s : SpaceDef) (g : Option Nat) : SpaceDef := { s with gamma := g }

end SpaceDef

/-- rgb_color_space_definition.h:287-448 `rgb_color_space_definition_presets`: the member functions. -/
inductive SpacePreset where
  | sRGB
  | adobeRGB
  | pal_secam
  | americaNTSC
  | oldNTSC
  | appleRGB
  | dci_p3
  | uhdtv
  | adobeWideGammutRGB
  | rommRGB
  | bestRGB
  | betaRGB
  | bruceRGB
  | colorMatchRGB
  | donRGB4
  | ektaSpacePS5
  | ProPhotoRGB
  | SMPTE_C_RGB
  | cieRGB
  | cieXYZ
  deriving DecidableEq

namespace SpacePreset

/-- rgb_color_space_definition.h:299-447: the chromaticities of the primaries (red x, red y, green x, green y, blue x, blue y). -/
noncomputable def primaries : SpacePreset → ℝ × ℝ × ℝ × ℝ × ℝ × ℝ
  | sRGB => (0.64, 0.33, 0.3, 0.6, 0.15, 0.06) -- line 299
  | adobeRGB => (0.64, 0.33, 0.21, 0.71, 0.15, 0.06) -- line 308
  | pal_secam => (0.64, 0.33, 0.29, 0.6, 0.15, 0.06) -- line 316
  | americaNTSC => (0.63, 0.34, 0.31, 0.595, 0.155, 0.07) -- line 323
  | oldNTSC => (0.67, 0.33, 0.21, 0.71, 0.14, 0.08) -- line 330
  | appleRGB => (0.625, 0.34, 0.28, 0.595, 0.155, 0.07) -- line 337
  | dci_p3 => (0.68, 0.32, 0.265, 0.69, 0.15, 0.06) -- line 345
  | uhdtv => (0.708, 0.292, 0.17, 0.797, 0.131, 0.046) -- line 354
  | adobeWideGammutRGB => (0.735, 0.265, 0.115, 0.826, 0.157, 0.018) -- line 363
  | rommRGB => (0.7347, 0.2653, 0.1596, 0.8404, 0.0366, 0.0001) -- line 373
  | bestRGB => (0.7347, 0.2653, 0.2150, 0.7750, 0.1300, 0.0350) -- line 380
  | betaRGB => (0.6888, 0.3112, 0.1986, 0.7551, 0.1265, 0.0352) -- line 387
  | bruceRGB => (0.6400, 0.3300, 0.2800, 0.6500, 0.1500, 0.0600) -- line 394
  | colorMatchRGB => (0.6300, 0.3400, 0.2950, 0.6050, 0.1500, 0.0750) -- line 401
  | donRGB4 => (0.6960, 0.3000, 0.2150, 0.7650, 0.1300, 0.0350) -- line 408
  | ektaSpacePS5 => (0.6950, 0.3050, 0.2600, 0.7000, 0.1100, 0.0050) -- line 415
  | ProPhotoRGB => (0.7347, 0.2653, 0.1596, 0.8404, 0.0366, 0.0001) -- line 422
  | SMPTE_C_RGB => (0.6300, 0.3400, 0.3100, 0.5950, 0.1550, 0.0700) -- line 429
  | cieRGB => (0.7347, 0.2653, 0.2738, 0.7174, 0.1666, 0.0089) -- line 438
  | cieXYZ => (1, 0, 0, 1, 0, 0) -- line 447

/-- rgb_color_space_definition.h:299-447: the white point. -/
def white : SpacePreset → WhitePreset
  | sRGB => .D65_2Degree -- line 299
  | adobeRGB => .D65_2Degree -- line 308
  | pal_secam => .D65_2Degree -- line 316
  | americaNTSC => .D65_2Degree -- line 323
  | oldNTSC => .C_2Degree -- line 330
  | appleRGB => .D65_2Degree -- line 337
  | dci_p3 => .D65_2Degree -- line 345
  | uhdtv => .D65_2Degree -- line 354
  | adobeWideGammutRGB => .D50_2Degree -- line 363
  | rommRGB => .D50_2Degree -- line 373
  | bestRGB => .D50_2Degree -- line 380
  | betaRGB => .D50_2Degree -- line 387
  | bruceRGB => .D65_2Degree -- line 394
  | colorMatchRGB => .D50_2Degree -- line 401
  | donRGB4 => .D50_2Degree -- line 408
  | ektaSpacePS5 => .D50_2Degree -- line 415
  | ProPhotoRGB => .D50_2Degree -- line 422
  | SMPTE_C_RGB => .D65_2Degree -- line 429
  | cieRGB => .E_2Degree -- line 438
  | cieXYZ => .E_2Degree -- line 447

/-- rgb_color_space_definition.h:299-447: the gamma curve. -/
def gamma : SpacePreset → GammaPreset
  | sRGB => .sRGB -- line 299
  | adobeRGB => .adobe -- line 308
  | pal_secam => .g2_8 -- line 316
  | americaNTSC => .g2_2 -- line 323
  | oldNTSC => .g2_2 -- line 330
  | appleRGB => .g1_8 -- line 337
  | dci_p3 => .g2_6 -- line 345
  | uhdtv => .uhdtv -- line 354
  | adobeWideGammutRGB => .adobe -- line 363
  | rommRGB => .romm -- line 373
  | bestRGB => .g2_2 -- line 380
  | betaRGB => .g2_2 -- line 387
  | bruceRGB => .g2_2 -- line 394
  | colorMatchRGB => .g1_8 -- line 401
  | donRGB4 => .g2_2 -- line 408
  | ektaSpacePS5 => .g2_2 -- line 415
  | ProPhotoRGB => .g1_8 -- line 422
  | SMPTE_C_RGB => .g2_2 -- line 429
  | cieRGB => .g2_2 -- line 438
  | cieXYZ => .g2_2 -- line 447

/-- rgb_color_space_definition.h:299-447: the object a preset creates when its white point was allocated at `w` and its gamma curve at `g`. -/
noncomputable def create [FloatModel] (p : SpacePreset) (ws : WhiteStore) (w g : Nat) : Outcome SpaceDef :=
  let l := p.primaries
  SpaceDef.construct (Function.update ws w p.white.create) (Fl.lit l.1) (Fl.lit l.2.1) (Fl.lit l.2.2.1) (Fl.lit l.2.2.2.1) (Fl.lit l.2.2.2.2.1)
    (Fl.lit l.2.2.2.2.2) (some w) (some g)

end SpacePreset
