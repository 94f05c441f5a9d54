import Verif.Hex
import Verif.Converter

/-!
# Predefined colours

Model of `ColorMagic/utils/colors.h`.

The enumerators are values of type `unsigned int`; the constructor of `rgb_truecolor` that takes an `int` is selected, and the conversion keeps the 32 bits.
-/

open Outcome Prog

/-- colors.h:29-172: `HexcodeColors` -/
inductive HexcodeColors where
  | aliceBlue
  | antiqueWhite
  | aqua
  | aquamarine
  | azure
  | beige
  | bisque
  | black
  | blanchedAlmond
  | blue
  | blueViolet
  | brown
  | burlyWood
  | cadetBlue
  | chartreuse
  | chocolate
  | coral
  | cornflowerBlue
  | cornsilk
  | crimson
  | cyan
  | darkBlue
  | darkCyan
  | darkGoldenrod
  | darkGray
  | darkGreen
  | darkKhaki
  | darkMagenta
  | darkOliveGreen
  | darkOrange
  | darkOrchid
  | darkRed
  | darkSalmon
  | darkSeaGreen
  | darkSlateBlue
  | darkSlateGray
  | darkTurquoise
  | darkViolet
  | deepPink
  | deepSkyBlue
  | dimGray
  | dodgerBlue
  | firebrick
  | floralWhite
  | forestGreen
  | fuchsia
  | gainsboro
  | ghostWhite
  | gold
  | goldenrod
  | gray
  | green
  | greenYellow
  | honeydew
  | hotPink
  | indianRed
  | indigo
  | ivory
  | khaki
  | lavender
  | lavenderBlush
  | lawnGreen
  | lemonChiffon
  | lightBlue
  | lightCoral
  | lightCyan
  | lightGoldenrodYellow
  | lightGreen
  | lightGray
  | lightPink
  | lightSalmon
  | lightSeaGreen
  | lightSkyBlue
  | lightSlateGray
  | lightSteelBlue
  | lightYellow
  | lime
  | limeGreen
  | linen
  | magenta
  | maroon
  | mediumAquamarine
  | mediumBlue
  | mediumOrchid
  | mediumPurple
  | mediumSeaGreen
  | mediumSlateBlue
  | mediumSpringGreen
  | mediumTurquoise
  | mediumVioletRed
  | midnightBlue
  | mintCream
  | mistyRose
  | moccasin
  | navajoWhite
  | navy
  | oldLace
  | olive
  | oliveDrab
  | orange
  | orangeRed
  | orchid
  | paleGoldenrod
  | paleGreen
  | paleTurquoise
  | paleVioletRed
  | papayaWhip
  | peachPuff
  | peru
  | pink
  | plum
  | powderBlue
  | purple
  | red
  | rosyBrown
  | royalBlue
  | saddleBrown
  | salmon
  | sandyBrown
  | seaGreen
  | seaShell
  | sienna
  | silver
  | skyBlue
  | slateBlue
  | slateGray
  | snow
  | springGreen
  | steelBlue
  | tan
  | teal
  | thistle
  | tomato
  | transparent
  | turquoise
  | violet
  | wheat
  | white
  | whiteSmoke
  | yellow
  | yellowGreen

namespace HexcodeColors

/-- colors.h:31-171: the values of the enumerators. -/
def code : HexcodeColors → BitVec 32
  | aliceBlue => 0xFFF0F8FF#32 -- line 31
  | antiqueWhite => 0xFFFAEBD7#32 -- line 32
  | aqua => 0xFF00FFFF#32 -- line 33
  | aquamarine => 0xFF7FFFD4#32 -- line 34
  | azure => 0xFFF0FFFF#32 -- line 35
  | beige => 0xFFF5F5DC#32 -- line 36
  | bisque => 0xFFFFE4C4#32 -- line 37
  | black => 0xFF000000#32 -- line 38
  | blanchedAlmond => 0xFFFFEBCD#32 -- line 39
  | blue => 0xFF0000FF#32 -- line 40
  | blueViolet => 0xFF8A2BE2#32 -- line 41
  | brown => 0xFFA52A2A#32 -- line 42
  | burlyWood => 0xFFDEB887#32 -- line 43
  | cadetBlue => 0xFF5F9EA0#32 -- line 44
  | chartreuse => 0xFF7FFF00#32 -- line 45
  | chocolate => 0xFFD2691E#32 -- line 46
  | coral => 0xFFFF7F50#32 -- line 47
  | cornflowerBlue => 0xFF6495ED#32 -- line 48
  | cornsilk => 0xFFFFF8DC#32 -- line 49
  | crimson => 0xFFDC143C#32 -- line 50
  | cyan => 0xFF00FFFF#32 -- line 51
  | darkBlue => 0xFF00008B#32 -- line 52
  | darkCyan => 0xFF008B8B#32 -- line 53
  | darkGoldenrod => 0xFFB8860B#32 -- line 54
  | darkGray => 0xFFA9A9A9#32 -- line 55
  | darkGreen => 0xFF006400#32 -- line 56
  | darkKhaki => 0xFFBDB76B#32 -- line 57
  | darkMagenta => 0xFF8B008B#32 -- line 58
  | darkOliveGreen => 0xFF556B2F#32 -- line 59
  | darkOrange => 0xFFFF8C00#32 -- line 60
  | darkOrchid => 0xFF9932CC#32 -- line 61
  | darkRed => 0xFF8B0000#32 -- line 62
  | darkSalmon => 0xFFE9967A#32 -- line 63
  | darkSeaGreen => 0xFF8FBC8F#32 -- line 64
  | darkSlateBlue => 0xFF483D8B#32 -- line 65
  | darkSlateGray => 0xFF2F4F4F#32 -- line 66
  | darkTurquoise => 0xFF00CED1#32 -- line 67
  | darkViolet => 0xFF9400D3#32 -- line 68
  | deepPink => 0xFFFF1493#32 -- line 69
  | deepSkyBlue => 0xFF00BFFF#32 -- line 70
  | dimGray => 0xFF696969#32 -- line 71
  | dodgerBlue => 0xFF1E90FF#32 -- line 72
  | firebrick => 0xFFB22222#32 -- line 73
  | floralWhite => 0xFFFFFAF0#32 -- line 74
  | forestGreen => 0xFF228B22#32 -- line 75
  | fuchsia => 0xFFFF00FF#32 -- line 76
  | gainsboro => 0xFFDCDCDC#32 -- line 77
  | ghostWhite => 0xFFF8F8FF#32 -- line 78
  | gold => 0xFFFFD700#32 -- line 79
  | goldenrod => 0xFFDAA520#32 -- line 80
  | gray => 0xFF808080#32 -- line 81
  | green => 0xFF008000#32 -- line 82
  | greenYellow => 0xFFADFF2F#32 -- line 83
  | honeydew => 0xFFF0FFF0#32 -- line 84
  | hotPink => 0xFFFF69B4#32 -- line 85
  | indianRed => 0xFFCD5C5C#32 -- line 86
  | indigo => 0xFF4B0082#32 -- line 87
  | ivory => 0xFFFFFFF0#32 -- line 88
  | khaki => 0xFFF0E68C#32 -- line 89
  | lavender => 0xFFE6E6FA#32 -- line 90
  | lavenderBlush => 0xFFFFF0F5#32 -- line 91
  | lawnGreen => 0xFF7CFC00#32 -- line 92
  | lemonChiffon => 0xFFFFFACD#32 -- line 93
  | lightBlue => 0xFFADD8E6#32 -- line 94
  | lightCoral => 0xFFF08080#32 -- line 95
  | lightCyan => 0xFFE0FFFF#32 -- line 96
  | lightGoldenrodYellow => 0xFFFAFAD2#32 -- line 97
  | lightGreen => 0xFF90EE90#32 -- line 98
  | lightGray => 0xFFD3D3D3#32 -- line 99
  | lightPink => 0xFFFFB6C1#32 -- line 100
  | lightSalmon => 0xFFFFA07A#32 -- line 101
  | lightSeaGreen => 0xFF20B2AA#32 -- line 102
  | lightSkyBlue => 0xFF87CEFA#32 -- line 103
  | lightSlateGray => 0xFF778899#32 -- line 104
  | lightSteelBlue => 0xFFB0C4DE#32 -- line 105
  | lightYellow => 0xFFFFFFE0#32 -- line 106
  | lime => 0xFF00FF00#32 -- line 107
  | limeGreen => 0xFF32CD32#32 -- line 108
  | linen => 0xFFFAF0E6#32 -- line 109
  | magenta => 0xFFFF00FF#32 -- line 110
  | maroon => 0xFF800000#32 -- line 111
  | mediumAquamarine => 0xFF66CDAA#32 -- line 112
  | mediumBlue => 0xFF0000CD#32 -- line 113
  | mediumOrchid => 0xFFBA55D3#32 -- line 114
  | mediumPurple => 0xFF9370DB#32 -- line 115
  | mediumSeaGreen => 0xFF3CB371#32 -- line 116
  | mediumSlateBlue => 0xFF7B68EE#32 -- line 117
  | mediumSpringGreen => 0xFF00FA9A#32 -- line 118
  | mediumTurquoise => 0xFF48D1CC#32 -- line 119
  | mediumVioletRed => 0xFFC71585#32 -- line 120
  | midnightBlue => 0xFF191970#32 -- line 121
  | mintCream => 0xFFF5FFFA#32 -- line 122
  | mistyRose => 0xFFFFE4E1#32 -- line 123
  | moccasin => 0xFFFFE4B5#32 -- line 124
  | navajoWhite => 0xFFFFDEAD#32 -- line 125
  | navy => 0xFF000080#32 -- line 126
  | oldLace => 0xFFFDF5E6#32 -- line 127
  | olive => 0xFF808000#32 -- line 128
  | oliveDrab => 0xFF6B8E23#32 -- line 129
  | orange => 0xFFFFA500#32 -- line 130
  | orangeRed => 0xFFFF4500#32 -- line 131
  | orchid => 0xFFDA70D6#32 -- line 132
  | paleGoldenrod => 0xFFEEE8AA#32 -- line 133
  | paleGreen => 0xFF98FB98#32 -- line 134
  | paleTurquoise => 0xFFAFEEEE#32 -- line 135
  | paleVioletRed => 0xFFDB7093#32 -- line 136
  | papayaWhip => 0xFFFFEFD5#32 -- line 137
  | peachPuff => 0xFFFFDAB9#32 -- line 138
  | peru => 0xFFCD853F#32 -- line 139
  | pink => 0xFFFFC0CB#32 -- line 140
  | plum => 0xFFDDA0DD#32 -- line 141
  | powderBlue => 0xFFB0E0E6#32 -- line 142
  | purple => 0xFF800080#32 -- line 143
  | red => 0xFFFF0000#32 -- line 144
  | rosyBrown => 0xFFBC8F8F#32 -- line 145
  | royalBlue => 0xFF4169E1#32 -- line 146
  | saddleBrown => 0xFF8B4513#32 -- line 147
  | salmon => 0xFFFA8072#32 -- line 148
  | sandyBrown => 0xFFF4A460#32 -- line 149
  | seaGreen => 0xFF2E8B57#32 -- line 150
  | seaShell => 0xFFFFF5EE#32 -- line 151
  | sienna => 0xFFA0522D#32 -- line 152
  | silver => 0xFFC0C0C0#32 -- line 153
  | skyBlue => 0xFF87CEEB#32 -- line 154
  | slateBlue => 0xFF6A5ACD#32 -- line 155
  | slateGray => 0xFF708090#32 -- line 156
  | snow => 0xFFFFFAFA#32 -- line 157
  | springGreen => 0xFF00FF7F#32 -- line 158
  | steelBlue => 0xFF4682B4#32 -- line 159
  | tan => 0xFFD2B48C#32 -- line 160
  | teal => 0xFF008080#32 -- line 161
  | thistle => 0xFFD8BFD8#32 -- line 162
  | tomato => 0xFFFF6347#32 -- line 163
  | transparent => 0x00FFFFFF#32 -- line 164
  | turquoise => 0xFF40E0D0#32 -- line 165
  | violet => 0xFFEE82EE#32 -- line 166
  | wheat => 0xFFF5DEB3#32 -- line 167
  | white => 0xFFFFFFFF#32 -- line 168
  | whiteSmoke => 0xFFF5F5F5#32 -- line 169
  | yellow => 0xFFFFFF00#32 -- line 170
  | yellowGreen => 0xFF9ACD32#32 -- line 171

end HexcodeColors

namespace Predefined
variable [FloatModel]

/-- colors.h:188: the constructor of `predefined_color`, for any 32-bit code; the result is the address in the member `base`. -/
noncomputable def make (code : BitVec 32) (sp : Option Nat) : Prog Ptr := do
  let c ← lift (Color.fromHexInt code sp)
  alloc c

/-- colors.h:195 -/
def get_rgb_true (base : Ptr) : Prog Ptr := pure base
/-- colors.h:201 -/
noncomputable def get_rgb_deep (base : Ptr) : Prog Ptr := Converter.to_rgb_deep base
/-- colors.h:207 -/
noncomputable def get_grey_true (base : Ptr) : Prog Ptr := Converter.to_grey_true base
/-- colors.h:213 -/
noncomputable def get_grey_deep (base : Ptr) : Prog Ptr := Converter.to_grey_deep base
/-- colors.h:219 -/
noncomputable def get_cmyk (base : Ptr) : Prog Ptr := Converter.to_cmyk base
/-- colors.h:225 -/
noncomputable def get_hsv (base : Ptr) : Prog Ptr := Converter.to_hsv base
/-- colors.h:231 -/
noncomputable def get_hsl (base : Ptr) : Prog Ptr := Converter.to_hsl base
/-- colors.h:237 -/
noncomputable def get_xyz (base : Ptr) : Prog Ptr := Converter.to_xyz base
/-- colors.h:243 -/
noncomputable def get_xyy (base : Ptr) : Prog Ptr := Converter.to_xyy base
/-- colors.h:249 -/
noncomputable def get_lab (base : Ptr) : Prog Ptr := Converter.to_lab base

end Predefined
