import Verif.Predefined
import Verif.AdjustLemmas
import Verif.BlendLemmas
import Verif.Props.HexCodes
import Verif.Props.Convert

/-!
# Property C85: predefined colours
-/

open Outcome Fl Prog ObjectSpec ConvSpec BlendSpec

namespace PredefinedSpec

/-- The red, green and blue values of the named colours of CSS (Color Module Level 4), in decimal.  `Transparent` is the .NET colour, white with alpha 0. -/
def named : HexcodeColors → Nat × Nat × Nat
  | .aliceBlue => (240, 248, 255)
  | .antiqueWhite => (250, 235, 215)
  | .aqua => (0, 255, 255)
  | .aquamarine => (127, 255, 212)
  | .azure => (240, 255, 255)
  | .beige => (245, 245, 220)
  | .bisque => (255, 228, 196)
  | .black => (0, 0, 0)
  | .blanchedAlmond => (255, 235, 205)
  | .blue => (0, 0, 255)
  | .blueViolet => (138, 43, 226)
  | .brown => (165, 42, 42)
  | .burlyWood => (222, 184, 135)
  | .cadetBlue => (95, 158, 160)
  | .chartreuse => (127, 255, 0)
  | .chocolate => (210, 105, 30)
  | .coral => (255, 127, 80)
  | .cornflowerBlue => (100, 149, 237)
  | .cornsilk => (255, 248, 220)
  | .crimson => (220, 20, 60)
  | .cyan => (0, 255, 255)
  | .darkBlue => (0, 0, 139)
  | .darkCyan => (0, 139, 139)
  | .darkGoldenrod => (184, 134, 11)
  | .darkGray => (169, 169, 169)
  | .darkGreen => (0, 100, 0)
  | .darkKhaki => (189, 183, 107)
  | .darkMagenta => (139, 0, 139)
  | .darkOliveGreen => (85, 107, 47)
  | .darkOrange => (255, 140, 0)
  | .darkOrchid => (153, 50, 204)
  | .darkRed => (139, 0, 0)
  | .darkSalmon => (233, 150, 122)
  | .darkSeaGreen => (143, 188, 143)
  | .darkSlateBlue => (72, 61, 139)
  | .darkSlateGray => (47, 79, 79)
  | .darkTurquoise => (0, 206, 209)
  | .darkViolet => (148, 0, 211)
  | .deepPink => (255, 20, 147)
  | .deepSkyBlue => (0, 191, 255)
  | .dimGray => (105, 105, 105)
  | .dodgerBlue => (30, 144, 255)
  | .firebrick => (178, 34, 34)
  | .floralWhite => (255, 250, 240)
  | .forestGreen => (34, 139, 34)
  | .fuchsia => (255, 0, 255)
  | .gainsboro => (220, 220, 220)
  | .ghostWhite => (248, 248, 255)
  | .gold => (255, 215, 0)
  | .goldenrod => (218, 165, 32)
  | .gray => (128, 128, 128)
  | .green => (0, 128, 0)
  | .greenYellow => (173, 255, 47)
  | .honeydew => (240, 255, 240)
  | .hotPink => (255, 105, 180)
  | .indianRed => (205, 92, 92)
  | .indigo => (75, 0, 130)
  | .ivory => (255, 255, 240)
  | .khaki => (240, 230, 140)
  | .lavender => (230, 230, 250)
  | .lavenderBlush => (255, 240, 245)
  | .lawnGreen => (124, 252, 0)
  | .lemonChiffon => (255, 250, 205)
  | .lightBlue => (173, 216, 230)
  | .lightCoral => (240, 128, 128)
  | .lightCyan => (224, 255, 255)
  | .lightGoldenrodYellow => (250, 250, 210)
  | .lightGreen => (144, 238, 144)
  | .lightGray => (211, 211, 211)
  | .lightPink => (255, 182, 193)
  | .lightSalmon => (255, 160, 122)
  | .lightSeaGreen => (32, 178, 170)
  | .lightSkyBlue => (135, 206, 250)
  | .lightSlateGray => (119, 136, 153)
  | .lightSteelBlue => (176, 196, 222)
  | .lightYellow => (255, 255, 224)
  | .lime => (0, 255, 0)
  | .limeGreen => (50, 205, 50)
  | .linen => (250, 240, 230)
  | .magenta => (255, 0, 255)
  | .maroon => (128, 0, 0)
  | .mediumAquamarine => (102, 205, 170)
  | .mediumBlue => (0, 0, 205)
  | .mediumOrchid => (186, 85, 211)
  | .mediumPurple => (147, 112, 219)
  | .mediumSeaGreen => (60, 179, 113)
  | .mediumSlateBlue => (123, 104, 238)
  | .mediumSpringGreen => (0, 250, 154)
  | .mediumTurquoise => (72, 209, 204)
  | .mediumVioletRed => (199, 21, 133)
  | .midnightBlue => (25, 25, 112)
  | .mintCream => (245, 255, 250)
  | .mistyRose => (255, 228, 225)
  | .moccasin => (255, 228, 181)
  | .navajoWhite => (255, 222, 173)
  | .navy => (0, 0, 128)
  | .oldLace => (253, 245, 230)
  | .olive => (128, 128, 0)
  | .oliveDrab => (107, 142, 35)
  | .orange => (255, 165, 0)
  | .orangeRed => (255, 69, 0)
  | .orchid => (218, 112, 214)
  | .paleGoldenrod => (238, 232, 170)
  | .paleGreen => (152, 251, 152)
  | .paleTurquoise => (175, 238, 238)
  | .paleVioletRed => (219, 112, 147)
  | .papayaWhip => (255, 239, 213)
  | .peachPuff => (255, 218, 185)
  | .peru => (205, 133, 63)
  | .pink => (255, 192, 203)
  | .plum => (221, 160, 221)
  | .powderBlue => (176, 224, 230)
  | .purple => (128, 0, 128)
  | .red => (255, 0, 0)
  | .rosyBrown => (188, 143, 143)
  | .royalBlue => (65, 105, 225)
  | .saddleBrown => (139, 69, 19)
  | .salmon => (250, 128, 114)
  | .sandyBrown => (244, 164, 96)
  | .seaGreen => (46, 139, 87)
  | .seaShell => (255, 245, 238)
  | .sienna => (160, 82, 45)
  | .silver => (192, 192, 192)
  | .skyBlue => (135, 206, 235)
  | .slateBlue => (106, 90, 205)
  | .slateGray => (112, 128, 144)
  | .snow => (255, 250, 250)
  | .springGreen => (0, 255, 127)
  | .steelBlue => (70, 130, 180)
  | .tan => (210, 180, 140)
  | .teal => (0, 128, 128)
  | .thistle => (216, 191, 216)
  | .tomato => (255, 99, 71)
  | .transparent => (255, 255, 255)
  | .turquoise => (64, 224, 208)
  | .violet => (238, 130, 238)
  | .wheat => (245, 222, 179)
  | .white => (255, 255, 255)
  | .whiteSmoke => (245, 245, 245)
  | .yellow => (255, 255, 0)
  | .yellowGreen => (154, 205, 50)

/-- The getters of `predefined_color`, by class of the result. -/
inductive Getter where
  | rgbTrue | rgbDeep | greyTrue | greyDeep | cmyk | hsv | hsl | xyz | xyy | lab

/-- The class of the result. -/
def Getter.cls : Getter → ColorType
  | rgbTrue => .rgbTrue | rgbDeep => .rgbDeep | greyTrue => .greyTrue | greyDeep => .greyDeep | cmyk => .cmyk | hsv => .hsv | hsl => .hsl | xyz => .xyz | xyy => .xyy | lab => .lab

variable [FloatModel]

/-- The member function. -/
noncomputable def Getter.fn : Getter → Ptr → Prog Ptr
  | rgbTrue => Predefined.get_rgb_true
  | rgbDeep => Predefined.get_rgb_deep
  | greyTrue => Predefined.get_grey_true
  | greyDeep => Predefined.get_grey_deep
  | cmyk => Predefined.get_cmyk
  | hsv => Predefined.get_hsv
  | hsl => Predefined.get_hsl
  | xyz => Predefined.get_xyz
  | xyy => Predefined.get_xyy
  | lab => Predefined.get_lab

/-- A program that calls getters one after the other and collects what they return. -/
noncomputable def calls (base : Ptr) : List Getter → Prog (List Ptr)
  | [] => pure []
  | g :: gs => do
    let p ← g.fn base
    let ps ← calls base gs
    pure (p :: ps)

/-- Object `i` is the RGB_TRUE colour with the bytes of `code`. -/
def Bytes (code : BitVec 32) (sp : Option Nat) (c : Color) : Prop :=
  IsColor .rgbTrue c ∧ c.space = sp ∧ c.comps = [fin (code.toNat / 2 ^ 16 % 256 : Nat), fin (code.toNat / 2 ^ 8 % 256 : Nat), fin (code.toNat % 256 : Nat)]

theorem bytes_of (code : BitVec 32) (sp : Option Nat) : ∃ c, Color.fromHexInt code sp = ok c ∧ Bytes code sp c := by
  refine ⟨_, HexLemmas.fromHexInt_eq code sp, ?_, rfl, HexLemmas.mkRgbTrue_byte_comps sp _ _ _ _ (by omega) (by omega) (by omega)⟩
  have e := Color.construct_rgbTrue (Color.ofByte (code.toNat / 2 ^ 24)) sp (Color.ofByte (code.toNat / 2 ^ 16 % 256)) (Color.ofByte (code.toNat / 2 ^ 8 % 256)) (Color.ofByte (code.toNat % 256))
  exact (Conv.construct_result (t := .rgbTrue) (by simp) rfl e).col

theorem getter_run (g : Getter) {c : Color} (hc : IsColor .rgbTrue c) {h : Heap} {i : Nat} (hi : h.colors[i]? = some c) (hu : h.world.Usable c.space) :
    ∃ q r h', g.fn (some i) h = (ok (some q), h') ∧ h'.colors[q]? = some r ∧ IsColor g.cls r ∧ Frame h h' ∧ Converts h.world c g.cls r := by
  have hg : g.cls ≠ .undefined := by cases g <;> simp [Getter.cls]
  have hf : g ≠ .rgbTrue → g.fn = Conv.dispatcher g.cls := by cases g <;> intro h <;> first | rfl | exact absurd rfl h
  obtain ⟨r, er, hr, hrs⟩ := val_to_total (s := .rgbTrue) (t := g.cls) (w := h.world) (by simp) hg hc (fun _ _ => hu)
  have hconv : Converts h.world c g.cls r := by
    intro h2 j hw hj
    obtain ⟨q, h', e, hcall⟩ := call_to (by simp) hg hc hj (by rw [hw]; exact er)
    exact ⟨q, h', e, hcall.here⟩
  by_cases hgt : g = .rgbTrue
  · subst hgt
    have : r = c := by simpa [Val.to, Getter.cls, eq_comm] using er
    subst this
    exact ⟨i, r, h, rfl, hi, hc, Combine.frame_refl h, hconv⟩
  · obtain ⟨q, h', e, hcall⟩ := call_to (by simp) hg hc hi er
    exact ⟨q, r, h', by rw [hf hgt]; exact e, hcall.here, hcall.col, hcall.frame (by simp [hc.ctype]), hconv⟩

end PredefinedSpec

open PredefinedSpec

section props
variable [FloatModel]

/-! ## C85: predefined colours -/

/-- C85, the channels: the object made from any 32-bit code is a new RGB_TRUE colour with the bytes of the code (every arithmetic). -/
theorem C85_bytes (code : BitVec 32) (sp : Option Nat) (h : Heap) : ∃ c, Predefined.make code sp h = (ok (some h.colors.length), ⟨h.world, h.colors ++ [c]⟩) ∧ Bytes code sp c := by
  obtain ⟨c, e, hb⟩ := bytes_of code sp
  exact ⟨c, by simp only [Predefined.make, Prog.bind_def, lift, e, Combine.alloc_run], hb⟩

/-- C85, the named colours: every enumerator gives the colour of that name, opaque except for `Transparent`. -/
theorem C85_named [ExactModel] (n : HexcodeColors) (sp : Option Nat) (h : Heap) : ∃ c, Predefined.make n.code sp h = (ok (some h.colors.length), ⟨h.world, h.colors ++ [c]⟩) ∧
    IsColor .rgbTrue c ∧ c.comps = [fin (named n).1, fin (named n).2.1, fin (named n).2.2] ∧ (n ≠ .transparent → c.alpha = 255) ∧ (n = .transparent → c.alpha = 0) := by
  obtain ⟨c, e, hb⟩ := bytes_of n.code sp
  have ha := C13_hex_int_alpha n.code sp c e
  have key : n.code.toNat / 2 ^ 16 % 256 = (named n).1 ∧ n.code.toNat / 2 ^ 8 % 256 = (named n).2.1 ∧ n.code.toNat % 256 = (named n).2.2 ∧
      (n ≠ .transparent → n.code.toNat / 2 ^ 24 = 255) ∧ (n = .transparent → n.code.toNat / 2 ^ 24 = 0) := by
    cases n <;> refine ⟨by decide, by decide, by decide, fun h => ?_, fun h => ?_⟩ <;> first | decide | exact absurd rfl h | exact absurd h (by simp)
  refine ⟨c, by simp only [Predefined.make, Prog.bind_def, lift, e, Combine.alloc_run], hb.1, ?_, fun hn => ?_, fun hn => ?_⟩
  · rw [hb.2.2, key.1, key.2.1, key.2.2.1]
  · rw [ha, key.2.2.2.1 hn]; simp [lit_def]
  · rw [ha, key.2.2.2.2 hn]; simp [zero_def]

/-- C85, the getters: any sequence of getter calls succeeds; each returns a colour of the requested class that is the conversion of the colour; the colour itself and every other existing object stay as
they are, so `get_rgb_true` always gives the bytes of the code. -/
theorem C85_getters (code : BitVec 32) (gs : List Getter) (h : Heap) (i : Nat) (c : Color) (sp : Option Nat) (hi : h.colors[i]? = some c) (hb : Bytes code sp c) (hu : h.world.Usable sp) :
    ∃ ps h', calls (some i) gs h = (ok ps, h') ∧ ps.length = gs.length ∧ Frame h h' ∧ h'.colors[i]? = some c ∧
      ∀ (k : Nat) (g : Getter), gs[k]? = some g → ∃ q r, ps[k]? = some (some q) ∧ h'.colors[q]? = some r ∧ IsColor g.cls r ∧ Converts h.world c g.cls r := by
  induction gs generalizing h with
  | nil => exact ⟨[], h, rfl, rfl, Combine.frame_refl h, hi, by simp⟩
  | cons g gs ih =>
    obtain ⟨q, r, h1, e1, hq, hr, hf, hc⟩ := getter_run g hb.1 hi (by rw [hb.2.1]; exact hu)
    obtain ⟨ps, h2, e2, hl, hf2, hi2, hall⟩ := ih h1 (hf.2 i c hi) (by rw [hf.1]; exact hu)
    refine ⟨some q :: ps, h2, ?_, by simp [hl], ⟨hf2.1.trans hf.1, fun j d hj => hf2.2 j d (hf.2 j d hj)⟩, hi2, ?_⟩
    · simp only [calls, Prog.bind_def, e1, e2]; rfl
    · intro k g' hk
      cases k with
      | zero =>
        have : g = g' := by simpa using hk
        subst this
        exact ⟨q, r, rfl, hf2.2 q r hq, hr, hc⟩
      | succ k =>
        obtain ⟨q', r', h3, h4, h5, h6⟩ := hall k g' (by simpa using hk)
        exact ⟨q', r', by simpa using h3, h4, h5, by rw [← hf.1]; exact h6⟩

/-- `Teal`. -/
example [ExactModel] (sp : Option Nat) (h : Heap) : ∃ c, Predefined.make HexcodeColors.teal.code sp h = (ok (some h.colors.length), ⟨h.world, h.colors ++ [c]⟩) ∧
    c.comps = [fin (0 : Nat), fin (128 : Nat), fin (128 : Nat)] ∧ c.alpha = 255 := by
  obtain ⟨c, e, -, h1, h2, -⟩ := C85_named HexcodeColors.teal sp h
  exact ⟨c, e, h1, h2 (by simp)⟩

/-- The LAB and the HSL version of a code, and then the colour itself. -/
example [StdSort] [ExactModel] : ∃ (w : World) (c : Color) (ps : List Ptr) (h' : Heap), Bytes 0x80a0b0c0#32 (some 0) c ∧ calls (some 0) [.lab, .hsl, .rgbTrue] ⟨w, [c]⟩ = (ok ps, h') ∧ ps.length = 3 ∧
    h'.colors[0]? = some c := by
  obtain ⟨w, hu, -⟩ := exists_world .sRGB .g2_2
  obtain ⟨c, -, hb⟩ := bytes_of 0x80a0b0c0#32 (some 0)
  obtain ⟨ps, h', h1, h2, -, h3, -⟩ := C85_getters 0x80a0b0c0#32 [.lab, .hsl, .rgbTrue] ⟨w, [c]⟩ 0 c (some 0) rfl hb hu
  exact ⟨w, c, ps, h', hb, h1, h2, h3⟩

end props
