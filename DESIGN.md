# Formal model of ColorMagic — design

Source under study: `/repo` (C++), read as text only.  Model and proofs: `/verif/lean` (Lean 4.33.0, Mathlib).
Property list: `properties.jsonl` (C01…).  Status per property: `MANIFEST.json`.  Wrong-program experiments: `seeded/LOG.jsonl`.

## Trusted base

* Lean's kernel.  No axioms of our own, no `sorry`, no `native_decide`/`bv_decide`.  Every theorem depends on at most
  Lean's three standard axioms `propext`, `Classical.choice`, `Quot.sound` (the real numbers of Mathlib need all three).
* The reading of the C++ source that the definitions in `Verif/` record (each definition cites file and lines), and the
  English reading of each theorem.  `tools/compare.py /repo` compares the transcribed tables (conversions and dispatchers, presets, named colours) with the source text; the
  formulas were compared by eye, file by file, a second time after the proofs were finished.

## How the code is modelled

* **Floats** (`Verif/Float.lean`).  `Fl = nan | +inf | -inf | fin r` with `r : ℝ`.  Each arithmetic operation computes the
  exact real result and passes it to a rounding function `rnd : ℝ → Fl`, a parameter (`class FloatModel`).  Theorems say what they need of `rnd`:
  nothing at all (range, NaN-freedom, commutativity, dispatch, frame, guards), "sane" (monotone, exact on small integers, small relative
  error), or exact (`rnd r = fin r`; algebraic round trips).  Simplifications: one zero (no `-0`; division by zero takes the
  sign of the dividend), float literals that binary32 cannot represent are `rnd c`, `double` intermediates are rounded like floats, and libm
  functions (`powf`, `sqrtf`, `cosf`…) are the real function followed by `rnd`.  `fmod`, `roundf`, `fminf`, `fmaxf`, `fabs` follow C
  (NaN is ignored by `fminf`/`fmaxf`).
* **Outcomes** (`Verif/Outcome.lean`).  A call ends `ok`, `throw` (which exception; whether it was thrown by value or, as most of this code does,
  as a pointer from `throw new`) or `ub` (undefined behaviour: null dereference, unchecked index, missing return, indeterminate value).
  Memory exhaustion and stack depth are not modelled; a colour is never freed, as in the code, and C148–C150 count the objects left behind.
* **Objects**.  A colour is a record: type tag, components, raw alpha, limits, colour-space pointer, dynamic class.  Pointers are numbers into a heap of
  colours, colour-space definitions, white points and gamma curves, so aliasing and pointer comparison are visible.
* **Leaf code as functions of values, plumbing over the heap.**  Leaf conversions are functions on colour values; dispatchers and public pointer
  functions are programs over the heap, proved to compute the leaf functions and to change nothing else (or exactly what the code changes).
* **Matrix** (`Verif/Matrix*.lean`).  `List (List K)` plus reported sizes, generic in the element type, integer arguments with
  C++ wrap/undefined cases; results over a field are tied to Mathlib's `Matrix`.

### Modules

| code in /repo/ColorMagic | model |
|---|---|
| `spaces/color_base.h` and the 15 colour classes `spaces/*.h`, `*.cpp` (constructors, setters, operators, alpha, hex) | `Color.lean`, `Hex.lean` |
| `utils/color_type.h`, `utils/colors.h` | `Color.lean`, `Predefined.lean` |
| `utils/matrix.h` | `Matrix.lean` |
| `spaces/gamma.h` (`std::sort` is any function that returns a sorted permutation, `StdSort`) | `Gamma.lean` |
| `spaces/white_point.h`, `spaces/rgb_color_space_definition.h` | `WhitePoint.lean`, `SpaceDef.lean` |
| `manipulation/color_converter.*` | `Leaf.lean`: leaf conversions on values; `Converter.lean`, `Dispatch.lean`: programs over the heap (`Heap.lean`) |
| `manipulation/porter_duff.*`, `base_color_blend.h`, `color_blend.*` | `Blend.lean` |
| `manipulation/color_calculation.*` | `Calc.lean` |
| `manipulation/color_distance.*` | `Distance.lean` |
| `manipulation/color_combinations.*`, `color_adjustments.*` | `Adjust.lean` |
| `manipulation/chromatic_adaptation.*` | `Adapt.lean` |

`Props/*.lean` hold the property theorems and the small specifications they are stated with (`ObjectSpec`, `ConvSpec`, `BlendSpec`, `FormulaSpec`, `CalcSpec`,
`DistSpec`, `CombineSpec`, `AdjustSpec`, `TransferSpec`, `PresetSpec`, `FrameSpec`, `SessionSpec`); `*Lemmas.lean` the helper lemmas.  The specifications do not
mention the model's helpers: published formulas are written down anew, memory claims speak of heaps before and after.

Programs that use the library are modelled by `SessionSpec`: a session is any list of public calls on pointers obtained so far, with arbitrary arguments.
`FrameSpec`/`Tame` is a footprint logic: which objects a call may write.
`ParSpec`/`Par` relates two runs of a program in memories that differ only in opacities.  `LocalitySpec`/`Loc` relates runs in memories that
agree on the objects a call is given.  `MemorySpec`/`Grow` counts the objects a call creates.  `SafetySpec`/`Safe` shows that calls on existing, suitable objects
never end in `ub`.

Not modelled: stream output, `std::string` internals, `rand()` beyond "an arbitrary stream", memory management (a heap cell is never freed), the dummy
`stdafx`/project files, concurrency (the library has none).

### Which float class a theorem uses

`[FloatModel]` alone: any rounding at all.  `[IntExact]`: small integers are representable and arithmetic on them exact.  `[SmallError]`: bounded relative error.  `[SquareNear]`: squares by `powf` accurate.  `[HalfExact]`: doubling exact.
`[FineError]`: relative error at most 2⁻²³ for each operation and 2⁻²² for `powf` with base up to 2 and exponent up to 4 (an assumption about the C library).
`[ExactModel]`: real arithmetic; such theorems say what the formulas mean, not how binary32 evaluates them.  `Fl.exactFloat` is an instance of all classes, so
no theorem is vacuous in its float hypotheses.  `Binary32.binary32` is IEEE single precision (24-bit significand, ties to even, gradual underflow, overflow to infinity; library
functions correctly rounded) and an instance of `IntExact`, `SmallError` and `FineError`, not of `ExactModel`.  `NearLemmas.lean` and `HueNear.lean` carry rounding errors through the
conversions; `FineError.lean`, `Mat3.lean` and `FineGamma.lean` do so for matrices and gamma curves, `FineLab*.lean` for LAB.

## Violations found

Each has a `_violated` theorem with a witness (or a theorem for a whole family of inputs); the property is then `partial` in the manifest.

* Objects: `set_component(v, 0)` of LAB, CIELUV and LCH limits L to 1 (C02); constructors do not limit alpha (C05); hue 359.5 is stored as 359 (C06); zero is not neutral for hue classes (C08);
  assignment drops alpha and space (C11); four constructors from `color_base` always throw (C12); a `#` inside a hex string is undefined behaviour (C14).
* Matrix: empty matrix has determinant 0 (C15); asking about a row or column with a negative index is undefined (C184); products of non-square matrices (C18–C20, C22), index overflow (C21), matrices of 39 or more rows (C24), `resize` with negative columns (C25).
* Gamma: removing a part can be undefined behaviour and borders of shared parts change (C26); sRGB, ROMM and UHDTV have gaps at the knee (C28, C29); UHDTV exchanges encoding and decoding,
  ROMM decodes with the wrong border (C121).
* `soft_light` is brighter than `screen` for middle grey sources and gets darker with a brighter source; `vivid_light` drops to 0 for a white source; `color_burn` gives the colour `color_dodge` gives for the negatives (C139–C141).
* Black becomes CMYK (1, 1, 1, 1) rather than (0, 0, 0, 1) (C142_violated); with the gamma curve of ROMM the grey 0.002 has a smaller Y than the grey 0.0019 (C143_violated); in cieRGB white has a smaller Y than cyan (C143_cieRGB_violated); the pieces of the CIELUV lightness function leave a downward step of about 0.00004 at X/Yn = 0.008856 (C143_luv_violated).
* Averages sum in `float`: the average of n opaque white RGB_DEEP colours is white exactly for n <= 2^24 + 1; 2^25 of them (a picture of 33 megapixels) average to medium grey, half transparent if the opacity is averaged (C164_white_violated).
* Euclidean distances underflow: the RGB_DEEP colours (2^-80, 0, 0) and black are different and have the distance 0 in `float` (C165_zero_violated).
* CIE94 and CMC differences can be NaN: the squared hue difference is computed as a difference that rounding makes negative, for instance between the grey (50, 0, 0) and (50, 6, 1) (C166_violated). For greys this happens whenever the rounded chroma, squared, exceeds the sum of squares; no test of a result against NaN or clamp at zero protects the root (color_distance.cpp:96 and 181).
* Mixtures of extremely dark RGB colours turn black: the components are squared, and squares of components below 2^-75 underflow, so mixing with weight 1 does not return the first colour (C167_violated).
* `alpha_divide` can leave the documented range. It does not limit its results. In binary32 white (255) with alpha 11468637/2^24 comes back from `alpha_multiply` and `alpha_divide` as 255 + 2^-16 (`C169_violated`); with the smallest alpha above zero, components below one half become 0 (`C169_lost_violated`).
* The limits ±128 of the LAB class are narrower than the gamut of twelve of the twenty preset colour spaces: a corner of the RGB cube does not survive a conversion to LAB and back (C158_others).
* `round_float_to_n_decimals` moves every negative value with the wanted number of decimals to the next one above (C137; no caller in the library).
* `gamma::operator==` compares addresses: two calls of the same preset are not equal (C135).
* Spaces: a singular transform is stored as its own inverse (C32); X of 16 white points is ten times too small (C86), hence cieRGB and cieXYZ have wrong weights and matrices (C87, C122).
* White points: 16 presets have a misplaced decimal point in X, for example 0.10985 instead of 1.0985 for illuminant A (C86, C185).
* Grey in single precision: `(v + v + v) / 3` is not `v` for one normal `float` in six: a GREY_DEEP level whose 24-bit significand is 2 modulo 4 and at least 2^25/3 comes back from RGB_DEEP one unit in the
  last place off, all other normal levels come back exactly (C45_single_partial, C45_single_violated; binary32 model). The grey of such a
  colour lies outside the range of its channels (C45_between_violated), by at most 4e-7 (C45_between_single_partial). The same holds for
  the average of three equal colours (C164_three_partial, C164_three_violated).
* Conversions: 8-bit detours quantise and HSL black becomes transparent (C33, C41, C45, C53); RGB_DEEP to CIE classes mutates the input (C34, C90, C96); LCH through `convertTo` gives null,
  a null space is undefined behaviour (C35, C36, C51, C88, C94, C99); hue gap between 359 and 360 (C40–C42, C76, C77); HSI loses the smallest channel (C43, C107); HSV–HSL direct and via RGB differ (C44);
  Y = 0 that is not black becomes black (C46); cieRGB red becomes black (C48); XYZ→CIELUV uses x for y and 4 for 9 (C49, C113); LCH chroma is rescaled one way only and hue is in radians (C50, C114);
  black becomes CMYK (1,1,1,1) through 0/0 (C108); in single precision 8-bit reds like (255, 0, 1) come back from HSV and HSL with another blue, and black from HSL transparent (C126, C127).
* Blending: hue modes dereference unchecked null pointers (C56); five modes leave [0, 1] (C58, C118); color_burn, vivid_light, soft_light, subtract compute something else (C62);
  `normal` with only the destination region is `atop` (C89).
* Calculation: NaN weights pass the guard, some classes return null, weight 0 is refused by the dispatcher only (C63); LAB mixtures are not between their ends (C64); LAB sums of colours with different white points depend on the order (C65); CMYK average alpha (C67);
  six classes ignore `include_alpha` (C68); 8-bit combinations become opaque (C93).
* Distances: `euclidean_distance` ignores the requested space (C70); CIE94 and CMC are not symmetric (C74); CIEDE2000 is zero for different colours (C91) and not the published formula (C123);
  CMC takes the wrong branch at 164° (C92).
* CIEDE2000 in single precision: line 161 of `color_distance.cpp` leaves out the minus sign in the exponent, so `60 * expf(...)` overflows for mean hues up to 45 degrees and the result is NaN; this concerns all pairs of greys, such as black and white, and most pairs of reds (C173). In exact arithmetic (C91, C123) there is no overflow and the mistake only changes the value.
* Nothing is ever freed: measuring a distance leaves the converted colours behind, so memory grows with every call (C150).
* Combinations and adjustments: negative counts, NaN amounts and invalid modes pass (C75, C78); HSI intensity halves when adjusted by 0 (C82); −∞ percent saturates (C83); HSL inputs are mutated (C84).
* Whole bytes (C180): RGB_TRUE to GREY_TRUE does not round the mean, so the 8-bit classes hold thirds of whole numbers; the other conversions to them round.
* Luminating in HSL next to white in single precision (C175): the lightness of 1, 1, 1 - 2^-24 is rounded to 1, the saturation becomes 0, and halving the lightness gives grey instead of yellow.
* Adaptation: inverses are rounded, so it is not exactly reversible (C79, C80); CMCCAT97 with factor 0 changes blue (C98); grey with full Bradford or CMCCAT97 is undefined behaviour, black becomes
  (100, 100, 100) (C99, C100); CAT02 ignores `wp_y_factor` (C101). Full Bradford and CMCCAT97 take the second component of
  a colour of any class for its luminance: RGB colours without green become white when adapted to (1, 1, 1) (C97).

## Plan per property

| id | what is modelled, how it is proved |
|---|---|
| C01 | object record with all constructors/setters; invariant by induction over operation lists, every rounding |
| C02 | violated through `set_component(v,0)`/`+`: witness, and `_partial` for histories that use the named setters |
| C03, C04 | list read/write lemmas and frame statements, every rounding |
| C05 | constructor does not limit alpha: witness; `_partial` for setter histories |
| C06 | `fmod` and loop modelled with explicit iteration; termination and periodicity; hue in (359,360) is stored as 359: witness |
| C07, C08, C09 | relational statements over records; `+` clamps; exact arithmetic for C09 |
| C10, C11, C12 | per-type constructors; assignment drops alpha and space: witness and `_partial`; four from-base constructors always throw: witness |
| C13, C14 | bytes of a 32-bit word; strings as `List Char`, acceptance decided outright; embedded `#` is undefined behaviour: witness |
| C15–C20 | recursion on size, tied to `Matrix.det`, `adjugate`, `mul`, `mulVec`, `transpose`; non-square product: witness |
| C21 | all integer indices; large indices read past a literal: witness; `_partial` for the rest |
| C22–C25 | storage lemmas and a shape invariant over operation histories |
| C26, C27 | sorted part lists over a part store, induction over histories; replacing a list leaves exactly the new parts (C26_replace) |
| C28, C29 | presets as real functions, case analysis at the knees; ROMM and UHDTV: witnesses |
| C30–C32 | field algebra and the matrix theorems; histories of `set_white_point` |
| C33–C37 | 15×15 dispatch over the heap; every rounding |
| C38 | integers 0..255, any rounding with relative error ≤ 2⁻²⁰ |
| C39–C50 | real case analysis in exact arithmetic; witnesses where the code is wrong (HSI, HSL→HSV, CIELUV, LCH) |
| C51–C56 | general_porter_duff with its flags; exact arithmetic for formulas, every rounding for symmetry, guards |
| C57–C62 | blend functions on `Fl`; witnesses for burn/vivid/soft light |
| C63–C68 | calculation functions per type; lists by induction; witnesses for average_cmyk and subtract |
| C69–C74 | sums of squares, Minkowski inequality, witnesses for cie94 asymmetry |
| C75–C78 | integer loops building lists |
| C79–C81 | matrix theorems; heap frame |
| C82–C84 | exact algebra; heap frame; witness for the mutating HSL variant |
| C85 | composition of C13 and the dispatch theorems |
| C86, C87 | tables of white points and primaries against the standards; determinant signs |
| C88 | footprints of blending; LCH sources: witness |
| C93, C94 | alpha of combinations; by-reference variants over the heap |
| C89 | Porter–Duff region flags |
| C90, C96 | footprints of distances and adaptation |
| C91, C92, C123 | distance values against published formulas |
| C95, C124 | adjustment formulas in exact arithmetic |
| C97–C102 | adaptation: invertibility, values, guards |
| C103 | every route along the conversion tree agrees with the composed conversion |
| C104–C114 | elementary conversions against textbook formulas |
| C115, C116 | sums, mixtures and differences as values |
| C117–C120 | sessions: invariants of every reachable memory, footprints, result types |
| C121, C122 | presets against published transfer functions and matrices |
| C125–C127 | 8-bit and deep round trips with rounding errors: error bounds carried through the code, Lipschitz weights on the hue circle; `SingleGap` decides the last degree with the precision of `float`, up to the tie R-G = 60(B-G)+30 |
| C128, C129 | the opacity erased from inputs and results: every leaf commutes with erasing, then every composition |
| C130 | C112 (RGB to XYZ), C110 (XYZ to xyY) and the composition of the two conversions; the columns of the matrix of primaries sum to 1 |
| C131 | every conversion function outside the CIE family commutes with changing the colour space, then every composition |
| C132, C133 | rounding errors relative to the covered area carried through `general_porter_duff` and the division by alpha; absolute errors through the blend functions; for vivid_light the doubled channel is exact and binary32 has no numbers within 2^-30 of one half (`float_half`) |
| C134 | monotonicity of rounding for the order; error bounds for the value; the degree formula of C98 for CAT02 |
| C135 | unfolding of the comparisons; the 40 white points by a table of integer keys; strictly sorted lists are fixed by std::sort |
| C136 | C121 and C122 glued by C112 for every memory that still holds the objects of the preset |
| C137 | floor and ceiling of the scaled value |
| C139, C140 | the result is a monotone function of the value in the shared region; the values compared mode by mode |
| C141 | `1 - f(1 - s, 1 - d)` mode by mode, carried through the three regions |
| C142 | formulas of C104–C112 at `r = g = b`; a grey is a multiple of the white point in XYZ, and `labF` is injective |
| C143 | the formulas are monotone in each channel; primaries are non-negative, so XYZ is monotone in the linear light |
| C144 | a relational logic (`Par`): two runs in memories that differ only in opacities; a rule per construct, an instance per function |
| C145 | a second relational logic (`Loc`): a growing correspondence between the addresses of two memories; pointer comparisons respect it because no address corresponds to two |
| C146 | every cell of the determinant, the adjugate and the product is followed with an error relative to the magnitude of its terms (`Fl.Appr`); the numbers of the 20 spaces are in `FineNumbers.lean` |
| C147 | C146, the slope of the gamma curves, and the distance of the 8-bit values from the knees of the curves |
| C148 | a counting logic (`Grow`): a rule per construct, an instance per conversion function; the table in `MemorySpec.lean` was counted in the C++ text |
| C149, C150 | the same logic for every function of the library, then induction over programs; C119 for the types of the second colour; the witness of the leak is iterated |
| C151 | a logic of safe runs (`Safe`): a rule per construct, an instance per public function; then induction over programs.  The excluded situations do end in `ub`: C14_violated, C35_null_space_violated, C78_lch_violated, C94_lch_violated, C99_grey_violated |
| C152 | symmetries of the hue hexagon (`HueTurn`), applied to the closed formulas C104–C107 |
| C153 | closed HSL formulas C105 in both directions around the turned hue; black excluded as C77_black_violated |
| C154 | closed form of mixtures (C64/C115); composition of affine and of root-mean-square combinations |
| C155 | the computed transforms are matrices up to the limits of the range (homogeneous for the normalising methods); chains as in C102 |
| C156 | closed HSL formulas C105 in both directions with C124 in between |
| C157 | C95 and C124 twice; for HSL saturation of RGB colours C156 twice, with the hue kept by `hueOf_affine` |
| C158 | Bounds on the LAB function over the gamut: a and b are differences of concave functions of positive combinations of the primaries; the worst cases are bounded by tangent lines with exact rational coefficients (`LabGamutLemmas`). For the other presets the cut-off colour is computed and carried back through the inverse matrix by Cramer's rule |
| C159 | Error bounds through the whole chain: `FineGamma` (curve), `FineLabLinear` (matrix, its inverse, and a disturbance of XYZ in between), `FineLab`/`FineLabTrip` (LAB formulas with their literal constants), `FineLabLines` (the bounds of C158 with a margin). Only white can have L above 100 before it is cut; there the slope of the curve leaves room for a larger error |
| C160 | As C159, with `FineXyy.xyy_round`: the relative errors of the chromaticities cancel the division by a small y, so XYZ moves by at most 2.5e-6 whatever the luminance is, provided it is at least 1e-9. That the luminance of a colour other than black is at least 1e-9 follows from the curve (a channel of at least 1 decodes to at least 6e-5) and from bounds on the matrix (`Fine.row_low`) |
| C161 | loops without exceptions that reach an undefined step are undefined; the first failing cell decides between exception and undefined behaviour |
| C162 | `HcyNear` carries errors through the HCY code; at the last degree `HcyFine.hcy_window` is precise to 5e-6, while the nearest 8-bit colours are 32 steps (0.4948 of a step lifted) and 33 steps (0.5103) above the hue of 359 degrees, so no tie stays open |
| C163 | `TurnNear.turn_near` carries errors through RGB to HSL, a turn by 120, 180 or 240 degrees, and back; the only discontinuity, at 360 degrees, is crossed on the right side because 8-bit channels are equal (then the hue has no error, `hue_pure`) or 1/255 apart (then the error is smaller than the distance, `turn_side`) |
| C164 | induction over the list: the running sum stays between whole-numbered bounds because rounding is monotone and keeps whole numbers up to 2^24 (`run_between`), its error is at most n^2 units (`run_near`); for white in binary32 the running sum is min(n, 2^24) (`run_ones`, `Binary32.stuck`) |
| C165 | relative error bounds for squares of differences, sums and roots (`SquareNear.lean`); for 8-bit colours the total error of a squared distance, 4.8e-6, is less than half of the smallest gap 1/65025, and the gap of the roots is larger than their rounding errors; symmetry from `round32 (-r) = -round32 r` |
| C166 | error bounds for the squares of all intermediate results (`Cie94Near.lean`), so that no division by the hue difference is needed; the witness is computed with the exact roundings of sqrt(37) and its square; for CMC interval bounds for every intermediate result (`CmcNear.lean`) |
| C167 | relative error bounds for weighted sums of squares (`MixNear.lean`); limiting to the range never increases the error; the end points follow from the half-unit error of the square of a 24-bit significand (`Binary32.root_square`) |
| C168 | running error bounds for the dot products of the three matrices (`Fl.Appr.dot`, `AdaptNear.lean`), with the sum of the absolute entries of `inverse * matrix` at most 4.05 for every stored pair; then the comparison with the published transform of C97 |
| C169 | two relative errors; monotonicity of rounding for the premultiplied components; evaluation of two roundings for the counterexamples |
| C170 | relative error bounds for products, sums and roots of non-negative numbers (`WeightedNear.lean`); the error of the weights is absolute, but the weights are at least 2; symmetry from the symmetry of binary32 rounding |
| C171 | `C95_converted` gives the code of both functions for every arithmetic; the error is collected operation by operation with `Appr`, limiting to [0, 1] does not increase it, and for 8-bit colours the error of the division by 255 goes through the formula with factor 1 + 2\|p\|. |
| C172 | `C97_class_values` reduces every class to its XYZ value, `C111_to_lab` with the white point of the new definition gives the LAB components: the ratios to the white point are unchanged; `C172_lab` adds that the LAB function and its inverse cancel. |
| C173 | the violation: the share of the chroma stays between 0 and 1 after rounding, so the stretched `a` only lowers the hue, and 60·exp overflows (`Cie00Near.lean`); the positive part: interval bounds for all weights and a lower bound for the radicand (`Cie00Number.lean`) |
| C174 | The shares of the primaries are coordinates (`mixed_inj`, `mixed_surj`); C112 in both directions gives the result of the trip; C28 forward for the gamma presets; a grey in the knee gap of sRGB as witness |
| C175 | `hsl_parts` (HSL components with rounding errors, from the lemmas of C129), `sat_real` and `lum_real` (how the errors reach the channels); the error of the saturation is carried as saturation times distance to black or white; witness next to white computed in binary32 |
| C176 | `saturated_deep` and `luminated_deep` (C175 before the result is stored) at the deep channels of the bytes, which are within 12e-8 of R/255 (`byte_unit`); `sat_close` and `lum_close` say that the formulas hardly change with the channels, `blue_close` that the byte decides whether the hue lies in the last degree; greys go through HSL without rounding (`grey_hsl`) |
| C177 | `C51_any_type` reduces the operator on RGB_TRUE to `C132_table` on the deep colours; `Pixel8.deep` bounds their error by 12e-8 for channels and 4e-7 relative for alpha, exactly 1 at 255; `factors`, `product` and `mean` carry it through the table (1 - A/255 is 0 or at least 1/255, a coverage 0 or at least 1/65025), `Pixel8.store` rounds back |
| C178 | `mode_close`: between R/255 and its deep channel every formula changes by at most 1e-4, by cases on the mode (a byte is 0, 1 or 1/255 away from the poles, 1/510 from the middle); `complementary`: S/255 has the binary places SSS..., so two complementary bytes never add up to less than 1 after rounding; then `Blend.opaque_gives` and `C57_any_type` |
| C179 | As C177 with three weights (`mean3`) and with `mode_close` of C178 for the formula, from `C133_translucent_partial` |
| C180 | Every route to RGB_TRUE from a class with channels up to 1 ends in `round` and the limiting setter, which give a byte for every float (`byte_of`); the grey of bytes is `rnd (n / 3)` with `n` a whole number, a third away from every byte unless 3 divides `n` |
| C181 | `quad2_near`, `lin2_near`, `minus_near` bound the combinations for two arbitrary weights; limiting is 1-Lipschitz (`within_close`); bytes by `IntExact` |
| C182 | the code's six sectors share `3 i s` out by the weights of the hue (`sector_place`, `hsi_value`); shares are Lipschitz in the hue (`share_lip`); in the gap the hue is exactly 359 (`hue_wide`), so the bytes follow with margin 0.49 of a step |
| C183 | a grey and the RGB colour of three equal bytes become the same RGB_DEEP colour (`same_deep`) and all ways back lead through RGB_TRUE (`way_back`), so trips carry over (`lift`); the mean of three equal bytes is exact (`mean3`) |
| C184 | the early-exit loop as a conjunction; a first step outside the storage makes it undefined |
| C185 | table of published chromaticities as specification, compared with the literals, rounding of the literals on top |
| C186 | loop invariant: after k steps the first k cells (rows) are filled and the rest is as before |
| C138 | empty and zero matrices; a singular matrix is returned by `invert` unchanged |
