{"id": "C01", "title": "Components stay inside their limits", "statement": "Whatever values a caller passes to a colour's constructors, channel setters, set_component(value,index), copy, assignment and gamma functions, every component read back is a number (never NaN) and lies between get_component_min() and get_component_max() (0..359 for a hue).", "quantifier": "all 15 colour types, all constructor arguments (every float value including NaN and the infinities), all finite histories of those calls", "why_tests_cant": "the histories and the float arguments are unbounded; a single NaN or infinity slipping through one path breaks it", "anchors": ["ColorMagic/spaces/color_base.h: set_component, do_gamma_correction, do_inverse_gamma_correction, clamp", "ColorMagic/spaces/*.cpp: constructors, setters, operator="]}
{"id": "C02", "title": "Lightness of LAB and CIELUV stays in 0..100", "statement": "The lightness L of a LAB or CIELUV colour is always between 0 and 100.", "quantifier": "all constructor arguments and all histories of public calls on a LAB or CIELUV object", "why_tests_cant": "only one of several write paths skips the tighter limit; tests that use the named setter never see it", "anchors": ["ColorMagic/spaces/lab.cpp: luminance", "ColorMagic/spaces/cieluv.cpp: L", "ColorMagic/spaces/color_base.h: set_component, operator+"]}
{"id": "C03", "title": "Component access by index is exact", "statement": "get_component(i) and set_component(v,i) throw out_of_range exactly when i is negative or not below the number of components; otherwise a read after a write returns the written value limited to the component range.", "quantifier": "all colours, all integer indices, every float value including NaN and the infinities", "why_tests_cant": "all indices of all vectors; sampling cannot exclude an unchecked access", "anchors": ["ColorMagic/spaces/color_base.h: get_component, set_component"]}
{"id": "C04", "title": "Writing one channel disturbs nothing else", "statement": "Setting one channel, or the alpha value, leaves every other channel, the colour type, the limits and the attached RGB colour space unchanged.", "quantifier": "all colours, all channels, every float value including NaN and the infinities", "why_tests_cant": "frame conditions quantify over everything that is not touched", "anchors": ["ColorMagic/spaces/color_base.h: set_component, alpha", "ColorMagic/spaces/*.cpp: setters"]}
{"id": "C05", "title": "Alpha is always a valid opacity", "statement": "alpha() of any colour is between 0 and 1 (0 and 255 for the two true-colour types), and setting a valid alpha value reads back unchanged.", "quantifier": "all colour types, all constructor arguments, all histories", "why_tests_cant": "needs every constructor and every argument", "anchors": ["ColorMagic/spaces/color_base.h: color_base, alpha", "ColorMagic/spaces/rgb_truecolor.cpp: alpha", "ColorMagic/spaces/grey_truecolor.cpp: alpha"]}
{"id": "C06", "title": "Hue is an angle modulo 360", "statement": "Setting a hue of h degrees on HSI, HSV, HSL or HCY always terminates and stores h modulo 360, so h and h+360k are indistinguishable.", "quantifier": "all finite floats h and all integers k", "why_tests_cant": "infinitely many periods and a data dependent loop", "anchors": ["ColorMagic/spaces/hsv.cpp: hue", "ColorMagic/spaces/hsl.cpp: hue", "ColorMagic/spaces/hsi.cpp: hue", "ColorMagic/spaces/hcy.cpp: hue"]}
{"id": "C07", "title": "Colour equality is an equivalence", "statement": "== on colours is reflexive, symmetric and transitive for colours without NaN components, != is its negation, and two colours are equal exactly when type and all components agree (alpha and colour space do not matter).", "quantifier": "all colours, all triples of colours", "why_tests_cant": "relations over all triples", "anchors": ["ColorMagic/spaces/color_base.h: operator==, operator!="]}
{"id": "C08", "title": "Adding two colours with +", "statement": "a + b throws exactly when the types or component counts differ; otherwise each component is the limited sum, the result does not depend on the order of the operands except for alpha and colour space (taken from the left), and black/zero is neutral.", "quantifier": "all pairs of colours", "why_tests_cant": "all pairs, all component counts", "anchors": ["ColorMagic/spaces/color_base.h: operator+"]}
{"id": "C09", "title": "Premultiplied alpha round trip", "statement": "alpha_multiply followed by alpha_divide gives back every component when alpha is not zero; with alpha zero all components become zero and stay zero.", "quantifier": "all colours, all alpha values", "why_tests_cant": "continuous domain; the zero case is a single point", "anchors": ["ColorMagic/spaces/color_base.h: alpha_multiply, alpha_divide"]}
{"id": "C10", "title": "Copying a colour", "statement": "A copy-constructed colour compares equal to the original and has the same alpha (limited to the valid range), type, limits and colour space.", "quantifier": "all 15 types and all colours", "why_tests_cant": "all objects of all types", "anchors": ["ColorMagic/spaces/*.cpp: copy constructors"]}
{"id": "C11", "title": "Assigning a colour", "statement": "After a = b the colour a is indistinguishable from b: same type, components, limits, alpha and colour space.", "quantifier": "all pairs of colours of one type", "why_tests_cant": "all pairs; a dropped field is invisible to tests that compare with ==", "anchors": ["ColorMagic/spaces/*.cpp: operator="]}
{"id": "C12", "title": "Rebuilding a colour from its base view", "statement": "Constructing a concrete colour from a color_base reference succeeds exactly when the reference denotes a colour of that type.", "quantifier": "all 15 types, all colours", "why_tests_cant": "quantifies over all objects; a constructor that always throws needs a universal statement", "anchors": ["ColorMagic/spaces/*.cpp: constructors from const color_base&"]}
{"id": "C13", "title": "Hex integer codes", "statement": "A colour built from a 32-bit code 0xAARRGGBB has exactly those four bytes as alpha, red, green and blue, distinct codes give distinct colours, and re-packing the channels gives back the code.", "quantifier": "all 2^32 codes", "why_tests_cant": "four billion inputs", "anchors": ["ColorMagic/spaces/rgb_truecolor.cpp: rgb_truecolor(int,...)"]}
{"id": "C14", "title": "Hex string codes", "statement": "A string is accepted exactly when it is an optional '#' followed by 6 or 8 hex digits; upper and lower case agree, 6 digits mean opaque, 8 digits are AARRGGBB, and every other string is rejected with invalid_argument.", "quantifier": "all strings of all lengths", "why_tests_cant": "unbounded set of strings", "anchors": ["ColorMagic/spaces/rgb_truecolor.cpp: rgb_truecolor(std::string,...)"]}
{"id": "C15", "title": "Matrix determinant", "statement": "determinante() of an n x n matrix is the mathematical determinant, whichever of its shortcuts or the general expansion is taken; for a non-square matrix it is 0.", "quantifier": "all n and all entries", "why_tests_cant": "all sizes and entries; recursion over n", "anchors": ["ColorMagic/utils/matrix.h: determinante, calculate_determinante, get_cofactor, is_row_null, are_rows_equal"]}
{"id": "C16", "title": "Matrix inverse", "statement": "invert() of a matrix with non-zero determinant is its two-sided inverse; a matrix with zero determinant is returned unchanged.", "quantifier": "all n and all entries", "why_tests_cant": "all sizes and entries", "anchors": ["ColorMagic/utils/matrix.h: invert, adjoint"]}
{"id": "C17", "title": "Matrix adjoint", "statement": "adjoint() is the classical adjugate: M * adjoint(M) = det(M) * I for every square M, also a singular one.", "quantifier": "all n and all entries", "why_tests_cant": "all sizes and entries", "anchors": ["ColorMagic/utils/matrix.h: adjoint"]}
{"id": "C18", "title": "Matrix product", "statement": "A * B is the mathematical product whenever the column count of A equals the row count of B; it is associative, distributes over + and has the identity matrix as unit.", "quantifier": "all matrices of all shapes", "why_tests_cant": "all shapes and entries", "anchors": ["ColorMagic/utils/matrix.h: operator*(const matrix&), create_idendity"]}
{"id": "C19", "title": "Matrix times vector", "statement": "A * v is the mathematical matrix-vector product, is linear in v and is compatible with the matrix product: (A*B)*v = A*(B*v).", "quantifier": "all matrices and vectors", "why_tests_cant": "all sizes and entries", "anchors": ["ColorMagic/utils/matrix.h: operator*(const std::vector&)"]}
{"id": "C20", "title": "Transpose", "statement": "transpose() swaps rows and columns for every shape and is its own inverse.", "quantifier": "all matrices of all shapes", "why_tests_cant": "non-square shapes of every size", "anchors": ["ColorMagic/utils/matrix.h: transpose"]}
{"id": "C21", "title": "Matrix element access is checked", "statement": "Reading element (i,j) throws out_of_range exactly when i or j is outside the matrix and never has undefined behaviour.", "quantifier": "all matrices, all integer indices", "why_tests_cant": "memory safety for all indices", "anchors": ["ColorMagic/utils/matrix.h: operator()"]}
{"id": "C22", "title": "Filling a matrix from a list", "statement": "Constructing or inserting from a flat list places element i*columns+j at position (i,j) when the list has rows*columns elements and otherwise leaves the matrix unchanged.", "quantifier": "all shapes, all lists", "why_tests_cant": "non-square shapes of every size", "anchors": ["ColorMagic/utils/matrix.h: insert, constructors from std::vector"]}
{"id": "C23", "title": "Matrix resize", "statement": "resize keeps every element that lies in both the old and the new shape and sets every other element of the new shape to the fill value.", "quantifier": "all shapes before and after, all entries", "why_tests_cant": "all pairs of shapes", "anchors": ["ColorMagic/utils/matrix.h: resize"]}
{"id": "C24", "title": "Elementwise matrix arithmetic", "statement": "+ and - of equal shapes and + - * / with a number act elementwise; adding then subtracting the same matrix is the identity; adding a smaller matrix throws out_of_range and leaves the operands unchanged.", "quantifier": "all shapes and entries", "why_tests_cant": "all shapes", "anchors": ["ColorMagic/utils/matrix.h: operator+, operator-, operator*(const T&), operator/"]}
{"id": "C25", "title": "A matrix always has the shape it reports", "statement": "After any sequence of matrix operations, values() has rows() rows of columns() elements each.", "quantifier": "all histories of matrix operations", "why_tests_cant": "unbounded histories", "anchors": ["ColorMagic/utils/matrix.h: all constructors and operators"]}
{"id": "C26", "title": "Gamma curve parts stay ordered", "statement": "After any sequence of constructing, copying, adding, replacing and removing curve parts both part lists are in ascending order of their upper border.", "quantifier": "all histories of part insertions, replacements and removals", "why_tests_cant": "unbounded histories", "anchors": ["ColorMagic/spaces/gamma.h: gamma, add_gamma_curve_part, set_gamma_curve_parts, remove_gamma_curve_part, sort_gamma_parts"]}
{"id": "C27", "title": "Gamma curve evaluation", "statement": "gamma_correction(x) applies the function of the usable part with the smallest upper border not below x, and returns x unchanged when there is none; the order in which parts were added does not matter when borders are distinct.", "quantifier": "all part lists, all orders of insertion, all x", "why_tests_cant": "all permutations of all lists", "anchors": ["ColorMagic/spaces/gamma.h: gamma_correction, inverse_gamma_correction"]}
{"id": "C28", "title": "Gamma presets are inverse pairs", "statement": "For every preset, inverse_gamma_correction(gamma_correction(x)) = x and vice versa for every x in [0,1].", "quantifier": "all presets, all x in [0,1]", "why_tests_cant": "a continuum of inputs; failures hide in a tiny window at the knee", "anchors": ["ColorMagic/spaces/gamma.h: gamma_presets"]}
{"id": "C29", "title": "Gamma presets map the unit interval monotonically onto itself", "statement": "For every preset both directions are non-decreasing on [0,1], send 0 to 0 and 1 to 1, and keep values in [0,1].", "quantifier": "all presets, all x <= y in [0,1]", "why_tests_cant": "a continuum of pairs", "anchors": ["ColorMagic/spaces/gamma.h: gamma_presets"]}
{"id": "C30", "title": "White point chromaticity and tristimulus agree", "statement": "A white point built from chromaticity coordinates (y not 0) has tristimulus values with exactly those chromaticities and Y = 1, and one built from tristimulus values has chromaticities that sum to 1 and convert back to the same tristimulus values (up to Y).", "quantifier": "all coordinates", "why_tests_cant": "continuous domain", "anchors": ["ColorMagic/spaces/white_point.h: white_point, tristimulus_to_chromaticity, chromaticity_to_tristimulus"]}
{"id": "C31", "title": "White maps to the white point", "statement": "In every RGB colour space definition with non-degenerate primaries, linear RGB (1,1,1) is transformed to exactly the tristimulus values of its white point, also after the white point was replaced any number of times.", "quantifier": "all primaries and white points with invertible primary matrix, all histories of set_white_point", "why_tests_cant": "all definitions and histories", "anchors": ["ColorMagic/spaces/rgb_color_space_definition.h: calculate_transformation_matrix, set_white_point"]}
{"id": "C32", "title": "RGB to XYZ matrix and its inverse belong together", "statement": "The stored inverse transform is always the inverse of the stored transform, after construction, copying and every set_white_point.", "quantifier": "all non-degenerate definitions, all histories", "why_tests_cant": "all definitions and histories", "anchors": ["ColorMagic/spaces/rgb_color_space_definition.h: rgb_color_space_definition, set_white_point, get_inverse_transform_matrix"]}
{"id": "C33", "title": "Converted colours have the requested type, alpha and colour space", "statement": "convertTo(c,T) returns a colour of type T that carries the same opacity and the same RGB colour space as c.", "quantifier": "all 15 source types, all target types, all colours", "why_tests_cant": "225 routes times all colours", "anchors": ["ColorMagic/manipulation/color_converter.cpp: convertTo, to_*"]}
{"id": "C34", "title": "Conversion does not modify its input", "statement": "convertTo(c,T) leaves the object c unchanged.", "quantifier": "all source and target types, all colours, all heaps", "why_tests_cant": "side effects on the argument for every route and value", "anchors": ["ColorMagic/manipulation/color_converter.cpp: rgb_deep_to_xyz and callers"]}
{"id": "C35", "title": "Every conversion is available", "statement": "convertTo(c,T) returns a colour (not null) for every colour c of a defined type and every defined target type T.", "quantifier": "all 225 pairs of types", "why_tests_cant": "total coverage of the dispatch tables for all inputs", "anchors": ["ColorMagic/manipulation/color_converter.cpp: convertTo, to_*"]}
{"id": "C36", "title": "Conversion to the own type is the identity and shares the object", "statement": "Converting a colour to the type it already has returns the very same object.", "quantifier": "all types, all colours, all heaps", "why_tests_cant": "aliasing for every object", "anchors": ["ColorMagic/manipulation/color_converter.cpp: to_*"]}
{"id": "C37", "title": "Conversions never produce out-of-range or NaN components", "statement": "Every component of a converted colour is a number inside the limits of the target space, for every input colour, even one with NaN or infinite components.", "quantifier": "all conversions, all inputs including NaN and infinities, any rounding of the arithmetic", "why_tests_cant": "all floats; divisions by zero hide at isolated points", "anchors": ["ColorMagic/manipulation/color_converter.cpp: all conversions"]}
{"id": "C38", "title": "RGB true colour survives a trip through RGB deep", "statement": "Converting an RGB_TRUE colour with integer channels 0..255 to RGB_DEEP and back gives the same channels and alpha.", "quantifier": "all 2^32 integer colours and every rounding with small relative error", "why_tests_cant": "rounding must never cross a half integer", "anchors": ["ColorMagic/manipulation/color_converter.cpp: rgb_true_to_rgb_deep, rgb_deep_to_rgb_true"]}
{"id": "C39", "title": "CMYK round trip", "statement": "RGB_DEEP -> CMYK -> RGB_DEEP is the identity, also for black.", "quantifier": "all colours", "why_tests_cant": "continuous domain with a singular point at black", "anchors": ["ColorMagic/manipulation/color_converter.cpp: rgb_deep_to_cmyk, cmyk_to_rgb_deep"]}
{"id": "C40", "title": "HSV round trip", "statement": "RGB_DEEP -> HSV -> RGB_DEEP is the identity.", "quantifier": "all colours", "why_tests_cant": "continuous domain with six hue sectors", "anchors": ["ColorMagic/manipulation/color_converter.cpp: rgb_deep_to_hsv, hsv_to_rgb_deep, hue_from_rgb_helper, hsv_to_rgb_helper"]}
{"id": "C41", "title": "HSL round trip", "statement": "RGB_DEEP -> HSL -> RGB_DEEP is the identity.", "quantifier": "all colours", "why_tests_cant": "continuous domain with six hue sectors", "anchors": ["ColorMagic/manipulation/color_converter.cpp: rgb_deep_to_hsl, hsl_to_rgb_deep, hsl_to_rgb_helper"]}
{"id": "C42", "title": "HCY round trip", "statement": "RGB_DEEP -> HCY -> RGB_DEEP is the identity.", "quantifier": "all colours", "why_tests_cant": "continuous domain with six hue sectors", "anchors": ["ColorMagic/manipulation/color_converter.cpp: rgb_deep_to_hcy, hcy_to_rgb_deep"]}
{"id": "C43", "title": "HSI round trip", "statement": "RGB_DEEP -> HSI -> RGB_DEEP is the identity.", "quantifier": "all colours", "why_tests_cant": "continuous domain with six hue sectors", "anchors": ["ColorMagic/manipulation/color_converter.cpp: rgb_deep_to_hsi, hsi_to_rgb_deep"]}
{"id": "C44", "title": "Direct HSV/HSL conversions agree with the route through RGB", "statement": "hsv -> hsl directly gives the same colour as hsv -> rgb -> hsl, and hsl -> hsv the same as hsl -> rgb -> hsv.", "quantifier": "all HSV and HSL colours", "why_tests_cant": "continuous domain, degenerate greys", "anchors": ["ColorMagic/manipulation/color_converter.cpp: hsv_to_hsl, hsl_to_hsv"]}
{"id": "C45", "title": "Grey conversions", "statement": "The grey value of a colour lies between its smallest and largest channel, a grey colour converts to RGB and back unchanged, and converting to grey twice changes nothing more.", "quantifier": "all colours", "why_tests_cant": "continuous domain", "anchors": ["ColorMagic/manipulation/color_converter.cpp: rgb_*_to_grey_*, grey_*_to_rgb_*"]}
{"id": "C46", "title": "XYZ and xyY round trip", "statement": "XYZ -> xyY -> XYZ is the identity.", "quantifier": "all XYZ colours", "why_tests_cant": "continuous domain with singular points", "anchors": ["ColorMagic/manipulation/color_converter.cpp: xyz_to_xyy, xyy_to_xyz"]}
{"id": "C47", "title": "XYZ and LAB round trip", "statement": "XYZ -> LAB -> XYZ is the identity whenever the LAB value is inside the LAB limits, for every white point with positive tristimulus values.", "quantifier": "all XYZ colours and white points", "why_tests_cant": "continuous domain with a knee", "anchors": ["ColorMagic/manipulation/color_converter.cpp: xyz_to_lab, lab_to_xyz, xyz_to_lab_helper, lab_to_xyz_helper"]}
{"id": "C48", "title": "RGB and XYZ round trip", "statement": "RGB_DEEP -> XYZ -> RGB_DEEP returns the original colour for every colour space whose gamma curves are inverse to each other and whose primaries are non-degenerate.", "quantifier": "all colours, all such colour space definitions", "why_tests_cant": "all definitions and colours", "anchors": ["ColorMagic/manipulation/color_converter.cpp: rgb_deep_to_xyz, xyz_to_rgb_deep"]}
{"id": "C49", "title": "XYZ and CIELUV round trip", "statement": "XYZ -> CIELUV -> XYZ is the identity whenever the CIELUV value is inside its limits.", "quantifier": "all XYZ colours and white points", "why_tests_cant": "continuous domain", "anchors": ["ColorMagic/manipulation/color_converter.cpp: xyz_to_cieluv, cieluv_to_xyz"]}
{"id": "C50", "title": "LAB/LUV and LCH round trip", "statement": "LAB -> LCH(ab) -> LAB and CIELUV -> LCH(uv) -> CIELUV are the identity.", "quantifier": "all colours", "why_tests_cant": "continuous domain", "anchors": ["ColorMagic/manipulation/color_converter.cpp: lab_to_lch_ab, lch_ab_to_lab, cieluv_to_lch_uv, lch_uv_to_cieluv"]}
{"id": "C51", "title": "Porter-Duff operators compute the Porter-Duff table", "statement": "Each of the twelve operators yields alpha = as*Fa + ad*Fb and premultiplied colour as*Fa*Cs + ad*Fb*Cd with the Fa and Fb of the Porter-Duff table.", "quantifier": "all twelve operators, all colours with opacities in [0,1]", "why_tests_cant": "twelve operators times a continuum", "anchors": ["ColorMagic/manipulation/porter_duff.cpp", "ColorMagic/manipulation/base_color_blend.h: general_porter_duff"]}
{"id": "C52", "title": "Porter-Duff operators come in mirrored pairs", "statement": "dest_over, dest_in, dest_out, dest_atop, dest of (s,d) equal over, in, out, atop, src of (d,s); x_or and clear are symmetric.", "quantifier": "all colours, any rounding", "why_tests_cant": "all pairs of colours", "anchors": ["ColorMagic/manipulation/porter_duff.cpp"]}
{"id": "C53", "title": "Porter-Duff identities", "statement": "An opaque source over anything is the source; a fully transparent source over d is d; clear and out-of-opaque give alpha 0; src returns the source and dest the destination.", "quantifier": "all colours", "why_tests_cant": "all colours", "anchors": ["ColorMagic/manipulation/porter_duff.cpp"]}
{"id": "C54", "title": "Compositing with over is associative", "statement": "(a over b) over c equals a over (b over c) in alpha and in colour.", "quantifier": "all triples of colours", "why_tests_cant": "triples of a continuum", "anchors": ["ColorMagic/manipulation/porter_duff.cpp: over"]}
{"id": "C55", "title": "Porter-Duff results are valid colours", "statement": "The result of any Porter-Duff operator on valid colours has alpha in [0,1] and components in [0,1].", "quantifier": "all operators, all valid colours", "why_tests_cant": "division by alpha after limiting", "anchors": ["ColorMagic/manipulation/base_color_blend.h: general_porter_duff", "ColorMagic/spaces/color_base.h: alpha_divide"]}
{"id": "C56", "title": "Compositing and blending reject bad arguments", "statement": "Every Porter-Duff operator and every componentwise blend mode throws when source or destination is null or when their RGB colour spaces differ, and changes no existing object.", "quantifier": "all operators, all pointers, all heaps", "why_tests_cant": "all combinations of arguments", "anchors": ["ColorMagic/manipulation/porter_duff.cpp", "ColorMagic/manipulation/color_blend.cpp"]}
{"id": "C57", "title": "Blending opaque colours", "statement": "Blending two opaque colours with any componentwise mode gives each component as the mode's formula limited to [0,1], with alpha 1.", "quantifier": "all modes, all opaque colours", "why_tests_cant": "all modes times a continuum", "anchors": ["ColorMagic/manipulation/color_blend.cpp", "ColorMagic/manipulation/color_blend.h: *_func"]}
{"id": "C58", "title": "Blend results are valid colours", "statement": "The result of every blend mode on valid colours has components in [0,1].", "quantifier": "all modes, all valid colours", "why_tests_cant": "division by alpha after limiting", "anchors": ["ColorMagic/manipulation/base_color_blend.h: general_porter_duff", "ColorMagic/manipulation/color_blend.cpp"]}
{"id": "C59", "title": "Commutative blend modes", "statement": "multiply, screen, darken, lighten, linear_dodge, linear_burn, difference, exclusion, plus_lighter, plus_darker and hard_mix do not depend on which colour is source and which destination.", "quantifier": "all pairs of colours", "why_tests_cant": "all pairs", "anchors": ["ColorMagic/manipulation/color_blend.h: *_func"]}
{"id": "C60", "title": "Neutral and absorbing colours of blend modes", "statement": "White is neutral for multiply and darken and absorbing for screen and lighten; black is neutral for screen, lighten, linear_dodge and difference and absorbing for multiply and darken; overlay is hard_light with swapped arguments.", "quantifier": "all colours", "why_tests_cant": "all colours", "anchors": ["ColorMagic/manipulation/color_blend.h: *_func"]}
{"id": "C61", "title": "Dissolve always picks one of the two colours per channel", "statement": "Whatever the random number generator returns, each channel of dissolving two opaque colours equals that channel of the source or of the destination.", "quantifier": "all random streams, all opaque colours", "why_tests_cant": "all random streams", "anchors": ["ColorMagic/manipulation/color_blend.h: dissolve_func", "ColorMagic/manipulation/color_blend.cpp: dissolve"]}
{"id": "C62", "title": "Blend formulas match their definition", "statement": "color_burn, vivid_light, soft_light and divide compute the formulas that define these modes (burn: 1-min(1,(1-d)/s), vivid light: burn with 2s / dodge with 2s-1, divide: d/s), and darken, lighten, screen, hard_light, color_dodge, pin_light, linear_light, exclusion theirs.", "quantifier": "all channel values in [0,1]", "why_tests_cant": "continuum of channel pairs", "anchors": ["ColorMagic/manipulation/color_blend.h: *_func"]}
{"id": "C63", "title": "Adding, mixing and subtracting colours checks its weights", "statement": "add, mix and subtract throw invalid_argument exactly when a weight is outside the documented range and otherwise return a colour of the first colour's type, for every type.", "quantifier": "all types, all weights including NaN", "why_tests_cant": "all floats", "anchors": ["ColorMagic/manipulation/color_calculation.cpp: add, mix, subtract"]}
{"id": "C64", "title": "Mixing stays between the two colours", "statement": "Each channel of mixing two colours of the same (non-cylindrical) space with weight w in (0,1] lies between the two input channels, mixing a colour with itself returns it, and weight 1 returns the first colour.", "quantifier": "all colours, all weights", "why_tests_cant": "continuum", "anchors": ["ColorMagic/manipulation/color_calculation.cpp: mix, add"]}
{"id": "C65", "title": "Addition of colours is symmetric", "statement": "add(c1,c2,w1,w2) equals add(c2,c1,w2,w1) in all components.", "quantifier": "all colours and weights, any rounding", "why_tests_cant": "continuum", "anchors": ["ColorMagic/manipulation/color_calculation.cpp: add"]}
{"id": "C66", "title": "Averages stay between the extremes", "statement": "average_*(list) throws for an empty list; otherwise each channel lies between the smallest and the largest such channel in the list, the average of copies of one colour is that colour, and the order of the list does not matter.", "quantifier": "all lists of all lengths", "why_tests_cant": "unbounded list length and all permutations", "anchors": ["ColorMagic/manipulation/color_calculation.cpp: average_*"]}
{"id": "C67", "title": "Average alpha", "statement": "With alpha included, the alpha of an average is the arithmetic mean of the alphas; otherwise it is the alpha of the first colour.", "quantifier": "all lists of all lengths", "why_tests_cant": "unbounded list length", "anchors": ["ColorMagic/manipulation/color_calculation.cpp: average_*"]}
{"id": "C68", "title": "Subtracting colours honours include_alpha", "statement": "subtract(c1,c2,...,include_alpha) includes alpha in the result when asked to, for every colour type.", "quantifier": "all types, all colours", "why_tests_cant": "all types and values", "anchors": ["ColorMagic/manipulation/color_calculation.cpp: subtract"]}
{"id": "C69", "title": "Euclidean colour distance is a metric", "statement": "euclidean_distance is non-negative, zero exactly for colours with equal RGB components, symmetric and satisfies the triangle inequality; the squared distance lies in [0,3].", "quantifier": "all colours of all types that convert to RGB_DEEP", "why_tests_cant": "triples of a continuum", "anchors": ["ColorMagic/manipulation/color_distance.cpp: euclidean_distance, euclidean_distance_squared"]}
{"id": "C70", "title": "Euclidean distance honours the requested space", "statement": "euclidean_distance(c1,c2,space) is the square root of euclidean_distance_squared(c1,c2,space) for both supported spaces.", "quantifier": "all colours, both spaces", "why_tests_cant": "all colours", "anchors": ["ColorMagic/manipulation/color_distance.cpp: euclidean_distance"]}
{"id": "C71", "title": "Weighted Euclidean distance", "statement": "euclidean_distance_weighted is non-negative, symmetric, zero exactly for equal RGB components and never NaN for valid colours.", "quantifier": "all valid colours", "why_tests_cant": "continuum; radicand sign", "anchors": ["ColorMagic/manipulation/color_distance.cpp: euclidean_distance_weighted"]}
{"id": "C72", "title": "CIE76 distance is a metric on LAB colours", "statement": "cielab_delta_e_cie76 is non-negative, symmetric, zero exactly for equal LAB components and satisfies the triangle inequality.", "quantifier": "all LAB colours", "why_tests_cant": "triples", "anchors": ["ColorMagic/manipulation/color_distance.cpp: cielab_delta_e_cie76"]}
{"id": "C73", "title": "CIE94 and CMC distances are well defined", "statement": "cielab_delta_e_cie94 and cmc_delta_e_lc84 never take the root of a negative number or divide by zero for LAB colours and positive parameters, are non-negative, and are zero exactly for equal LAB components.", "quantifier": "all LAB colours, all positive parameters", "why_tests_cant": "sign of a radicand for all inputs", "anchors": ["ColorMagic/manipulation/color_distance.cpp: cielab_delta_e_cie94, cmc_delta_e_lc84"]}
{"id": "C74", "title": "Colour difference is symmetric", "statement": "Every colour distance gives the same value when the two colours are exchanged.", "quantifier": "all distances, all colours, all parameters", "why_tests_cant": "all pairs", "anchors": ["ColorMagic/manipulation/color_distance.cpp"]}
{"id": "C75", "title": "Colour combinations have the requested size and start colour", "statement": "create_combination(c,n) throws for n outside its documented range and otherwise returns n colours, the first of which is c itself; triplet, quartet and quintet return 3, 4 and 5.", "quantifier": "all colours, all integers n", "why_tests_cant": "all n", "anchors": ["ColorMagic/manipulation/color_combinations.cpp: create_combination, create_triplet, create_quartet, create_quintet"]}
{"id": "C76", "title": "Colour combinations are evenly spaced in hue", "statement": "The i-th colour of create_combination(c,n) has the hue of c plus i*360/n degrees (modulo 360) and the same saturation and lightness.", "quantifier": "all HSL colours, all n, all i", "why_tests_cant": "all n and i", "anchors": ["ColorMagic/manipulation/color_combinations.cpp: create_combination"]}
{"id": "C77", "title": "Complement is an involution", "statement": "The complement of the complement of a colour is the colour itself.", "quantifier": "all colours", "why_tests_cant": "continuum, wrap around", "anchors": ["ColorMagic/manipulation/color_combinations.cpp: create_complimentary"]}
{"id": "C78", "title": "Monochromatic and analogous sets", "statement": "create_monochromatic returns color_count colours (throwing on an illegal amount or count), create_analogous and create_complimentary_split return three colours with the base colour in the middle.", "quantifier": "all colours, counts, amounts", "why_tests_cant": "all counts", "anchors": ["ColorMagic/manipulation/color_combinations.cpp: create_monochromatic, create_analogous, create_complimentary_split"]}
{"id": "C79", "title": "Chromatic adaptation maps white to white", "statement": "Adapting the source white point with any of the simplified methods gives exactly the target white point.", "quantifier": "all source and target white points, all methods", "why_tests_cant": "all white points", "anchors": ["ColorMagic/manipulation/chromatic_adaptation.cpp: do_adaption"]}
{"id": "C80", "title": "Chromatic adaptation between equal white points is the identity", "statement": "Adapting to a white point with the same tristimulus values as the current one returns the same colour.", "quantifier": "all colours, all white points, all methods", "why_tests_cant": "all colours", "anchors": ["ColorMagic/manipulation/chromatic_adaptation.cpp: do_adaption"]}
{"id": "C81", "title": "Chromatic adaptation leaves shared state alone", "statement": "An adaptation never modifies the RGB colour space definition of its input or the target white point, and attaches a separate definition to its result.", "quantifier": "all colours, heaps, methods", "why_tests_cant": "side effects for all heaps", "anchors": ["ColorMagic/manipulation/chromatic_adaptation.cpp: do_adaption"]}
{"id": "C82", "title": "Adjusting by zero changes nothing", "statement": "Saturating or luminating a colour by 0 percent returns the same colour.", "quantifier": "all colours", "why_tests_cant": "continuum", "anchors": ["ColorMagic/manipulation/color_adjustments.cpp"]}
{"id": "C83", "title": "Adjusted colours are valid and adjustments are monotone", "statement": "The result of saturate/luminate is in range for every percentage, and a larger percentage never gives a smaller saturation or lightness in HSL.", "quantifier": "all colours, all percentages", "why_tests_cant": "continuum", "anchors": ["ColorMagic/manipulation/color_adjustments.cpp"]}
{"id": "C84", "title": "Pointer variants of adjustments leave their input alone", "statement": "The pointer versions of saturate and luminate return a new colour and do not modify the given one.", "quantifier": "all colours of all types, all heaps", "why_tests_cant": "side effects for all types", "anchors": ["ColorMagic/manipulation/color_adjustments.cpp: saturate_in_hsl_space, luminate_in_hsl_space"]}
{"id": "C85", "title": "Predefined colours", "statement": "predefined_color(code).get_rgb_true() has exactly the bytes of the code as channels and the get_* functions agree with converting that colour.", "quantifier": "all codes", "why_tests_cant": "all 2^32 codes", "anchors": ["ColorMagic/utils/colors.h: predefined_color"]}
{"id": "C86", "title": "Preset white points are consistent", "statement": "For every preset of white_point_presets the stored chromaticity coordinates are the ones of the stored tristimulus values up to the rounding of the published tables (0.0002).", "quantifier": "all 40 presets", "why_tests_cant": "a table of literals: a slipped decimal point in one of 200 numbers is invisible to tests that use the same table", "anchors": ["ColorMagic/spaces/white_point.h: white_point_presets"]}
{"id": "C87", "title": "Preset RGB colour spaces are usable", "statement": "Every preset RGB colour space can be created, maps (1,1,1) to its white point, stores mutually inverse matrices and gives every primary a positive weight.", "quantifier": "all 20 presets, all colours for the inverse", "why_tests_cant": "continuum of colours", "anchors": ["ColorMagic/spaces/rgb_color_space_definition.h: rgb_color_space_definition_presets"]}
{"id": "C88", "title": "Compositing and blending have no side effects", "statement": "Every Porter-Duff operator and every blend mode, called on valid colours of any types (also on the same object twice), returns normally, changes no existing object, and returns a newly created object.", "quantifier": "all operators and modes, all colour types, all heaps", "why_tests_cant": "all pairs of types and aliasing situations", "anchors": ["ColorMagic/manipulation/porter_duff.cpp", "ColorMagic/manipulation/color_blend.cpp", "ColorMagic/manipulation/base_color_blend.h: general_porter_duff"]}
{"id": "C89", "title": "Normal blending equals the documented Porter-Duff operators", "statement": "normal with both regions is over, with only the source region src, with only the destination region dest, with neither in.", "quantifier": "all colours of any opacity, all four settings", "why_tests_cant": "continuum of colours and opacities", "anchors": ["ColorMagic/manipulation/color_blend.h: normal", "ColorMagic/manipulation/color_blend.cpp:4-20"]}
{"id": "C90", "title": "Measuring a distance does not change the colours", "statement": "No distance function modifies the colours it compares, or any other object or shared state.", "quantifier": "all distances, all colours of all types, all memories", "why_tests_cant": "side effects on all objects for all types; a test compares return values", "anchors": ["ColorMagic/manipulation/color_distance.cpp", "ColorMagic/manipulation/color_converter.cpp: rgb_deep_to_xyz"]}
{"id": "C91", "title": "CIEDE2000 is well defined and separates colours", "statement": "cielab_delta_e_cie00 never takes the root of a negative number or divides by zero for positive parameters, is non-negative, and is zero exactly for equal LAB components.", "quantifier": "all LAB colours, all positive parameters", "why_tests_cant": "the sign of the radicand for a continuum of colour pairs", "anchors": ["ColorMagic/manipulation/color_distance.cpp: cielab_delta_e_cie00"]}
{"id": "C92", "title": "CIE94 and CMC follow the published formulas", "statement": "cielab_delta_e_cie94 and cmc_delta_e_lc84 return the value of the published formulas, for every choice of parameters.", "quantifier": "all LAB colours, all positive parameters", "why_tests_cant": "equality of two formulas on a continuum, including every case distinction", "anchors": ["ColorMagic/manipulation/color_distance.cpp: cielab_delta_e_cie94, cmc_delta_e_lc84"]}
{"id": "C93", "title": "Combinations keep the opacity of the base colour", "statement": "Every colour of a colour combination, including the complement, has the opacity of the base colour.", "quantifier": "all colours of all types, all counts", "why_tests_cant": "all types, colours and counts; the result passes through two conversions", "anchors": ["ColorMagic/manipulation/color_combinations.cpp: create_combination, create_complimentary"]}
{"id": "C94", "title": "By-reference adjustments update exactly the given object", "statement": "The by-reference variants of saturate and luminate write the colour that the pointer variant returns into the given object and change no other object.", "quantifier": "all colours of all types, all heaps, all percentages", "why_tests_cant": "side effects for all heaps and types", "anchors": ["ColorMagic/manipulation/color_adjustments.cpp:4-7, 21-24, 38-41, 55-58"]}
{"id": "C95", "title": "RGB adjustments follow their formulas", "statement": "saturate_in_rgb_space moves every RGB channel away from the Rec. 601 luma by the factor 1 + p and luminate_in_rgb_space multiplies every channel by 1 + p, limited to the legal range; -1 gives the grey of the same luma and black; the luma is kept when nothing is limited.", "quantifier": "all colours, all percentages", "why_tests_cant": "continuum", "anchors": ["ColorMagic/manipulation/color_adjustments.cpp: saturate_in_rgb_space, luminate_in_rgb_space"]}
{"id": "C96", "title": "Chromatic adaptation has no side effects on colours", "statement": "An adaptation leaves the colour it is given, and every other existing colour object, exactly as it was.", "quantifier": "all colours of all classes, all heaps, all methods and parameters", "why_tests_cant": "absence of side effects on every object of every heap", "anchors": ["ColorMagic/manipulation/chromatic_adaptation.cpp: do_adaption", "ColorMagic/manipulation/chromatic_adaptation.cpp: bradford_adaptation"]}
{"id": "C99", "title": "Chromatic adaptation returns a colour of the same class", "statement": "Every adaptation of a valid colour with a usable colour space returns a non-null colour of the same class as its input, without undefined behaviour.", "quantifier": "all classes, colours, white points, methods and parameters", "why_tests_cant": "all combinations of class, method and value", "anchors": ["ColorMagic/manipulation/chromatic_adaptation.cpp"]}
{"id": "C97", "title": "Chromatic adaptation computes the published transforms", "statement": "Each adaptation method maps the XYZ values of a colour as published: cone responses with the published matrix, scaled by the ratio of the white points' cone responses (full Bradford and CMCCAT97 with the published blue correction), and transformed back with the inverse matrix.", "quantifier": "all colours, all white points, all methods", "why_tests_cant": "continuum of colours and white points", "anchors": ["ColorMagic/manipulation/chromatic_adaptation.cpp"]}
{"id": "C98", "title": "Degree of adaptation", "statement": "CAT02, CMCCAT2000 and CMCCAT97 mix the unadapted and the fully adapted colour with the published degree of adaptation, limited to [0,1]: factor 0 leaves every colour unchanged, degree 1 adapts fully.", "quantifier": "all colours, white points, factors and luminances", "why_tests_cant": "continuum of parameters", "anchors": ["ColorMagic/manipulation/chromatic_adaptation.cpp: cat02_adaptation, cmccat2000_adaptation, cmccat97_adaptation"]}
{"id": "C100", "title": "Black stays black under chromatic adaptation", "statement": "Adapting black gives black for every method and every pair of white points.", "quantifier": "all white points, all methods and parameters", "why_tests_cant": "all white points", "anchors": ["ColorMagic/manipulation/chromatic_adaptation.cpp"]}
{"id": "C101", "title": "The full adaptation methods depend on chromaticity only", "statement": "For the methods that compensate luminance (full Bradford, CMCCAT97, CMCCAT2000, CAT02), adapting between two white points of equal chromaticity leaves every colour unchanged.", "quantifier": "all colours, white points, luminance ratios", "why_tests_cant": "continuum", "anchors": ["ColorMagic/manipulation/chromatic_adaptation.cpp"]}
{"id": "C102", "title": "Chromatic adaptation can be undone", "statement": "Adapting to another white point and back to the first gives the original colour (simplified methods, as long as no component leaves the range).", "quantifier": "all colours, all pairs of white points", "why_tests_cant": "continuum", "anchors": ["ColorMagic/manipulation/chromatic_adaptation.cpp: do_adaption"]}
{"id": "C103", "title": "Every conversion is composed of elementary steps", "statement": "The colour types form a tree (RGB_DEEP in the middle, XYZ next to it, the other types around these two and behind LAB and CIELUV). Converting between two types gives exactly the colour obtained by stopping at any type on the path between them, so no composed conversion takes a different route or drops a step. Eight pairs that have a conversion of their own are excluded; they are the subject of C44 and C45.", "quantifier": "all pairs of types, all stations on the path, all colours, all roundings, all placements in memory", "why_tests_cant": "302 routes times a continuum of colours; a composed conversion wired through a wrong neighbour can look plausible on any sample", "anchors": ["ColorMagic/manipulation/color_converter.cpp", "ColorMagic/manipulation/color_converter.h"]}
{"id": "C104", "title": "HSV and RGB follow the published formulas", "statement": "HSV of an RGB colour: the hue of the colour (0 for grey), saturation (max-min)/max (0 for black), value max. RGB of an HSV colour: v(1 - s + s*f) with f the channel of the pure hue. A hue above 359 degrees is stored as 359.", "quantifier": "all colours of the source type with components in range, all placements in memory; exact arithmetic", "why_tests_cant": "the claim ranges over a continuum of colours, and a pair of conversions with matching mistakes passes every round-trip test", "anchors": ["ColorMagic/manipulation/color_converter.cpp: rgb_deep_to_hsv, hsv_to_rgb_deep"]}
{"id": "C105", "title": "HSL and RGB follow the published formulas", "statement": "HSL of an RGB colour: its hue, saturation (max-min)/(1-|2l-1|), lightness (max+min)/2. RGB of an HSL colour: the pure hue stretched to the chroma, centred at the lightness. A hue above 359 degrees is stored as 359.", "quantifier": "all colours of the source type with components in range, all placements in memory; exact arithmetic", "why_tests_cant": "the claim ranges over a continuum of colours, and a pair of conversions with matching mistakes passes every round-trip test", "anchors": ["ColorMagic/manipulation/color_converter.cpp: rgb_deep_to_hsl, hsl_to_rgb_deep"]}
{"id": "C106", "title": "HCY and RGB follow the published formulas", "statement": "HCY of an RGB colour: its hue, the chroma max-min, the BT.709 luma. RGB of an HCY colour: chroma times the channel of the pure hue plus what is missing to the luma, limited to 0..1. A hue above 359 degrees is stored as 359.", "quantifier": "all colours of the source type with components in range, all placements in memory; exact arithmetic", "why_tests_cant": "the claim ranges over a continuum of colours, and a pair of conversions with matching mistakes passes every round-trip test", "anchors": ["ColorMagic/manipulation/color_converter.cpp: rgb_deep_to_hcy, hcy_to_rgb_deep"]}
{"id": "C107", "title": "HSI and RGB follow the published formulas", "statement": "HSI of an RGB colour: its hue, saturation 1 - min/intensity, intensity (r+g+b)/3. RGB of an HSI colour: the colour of that hue, saturation and intensity. A hue above 359 degrees is stored as 359.", "quantifier": "all colours of the source type with components in range, all placements in memory; exact arithmetic", "why_tests_cant": "the claim ranges over a continuum of colours, and a pair of conversions with matching mistakes passes every round-trip test", "anchors": ["ColorMagic/manipulation/color_converter.cpp: rgb_deep_to_hsi, hsi_to_rgb_deep"]}
{"id": "C108", "title": "CMYK and RGB follow the published formulas", "statement": "Key is 1 - max, the inks are (max - channel)/max, black is (0,0,0,1); back, a channel is (1-ink)(1-key).", "quantifier": "all colours of the source type with components in range, all placements in memory; exact arithmetic", "why_tests_cant": "the claim ranges over a continuum of colours, and a pair of conversions with matching mistakes passes every round-trip test", "anchors": ["ColorMagic/manipulation/color_converter.cpp: rgb_deep_to_cmyk, cmyk_to_rgb_deep"]}
{"id": "C109", "title": "Grey and 8-bit colours follow the published formulas", "statement": "Grey is the mean of the three channels, RGB of a grey repeats it three times, 8-bit values are 255 times the value from 0 to 1, rounded to the nearest integer, halves upwards.", "quantifier": "all colours of the source type with components in range, all placements in memory; exact arithmetic", "why_tests_cant": "the claim ranges over a continuum of colours, and a pair of conversions with matching mistakes passes every round-trip test", "anchors": ["ColorMagic/manipulation/color_converter.cpp: rgb_deep_to_grey_deep, rgb_true_to_grey_true, grey_deep_to_rgb_deep, rgb_true_to_rgb_deep, rgb_deep_to_rgb_true and the further grey conversions"]}
{"id": "C110", "title": "xyY and XYZ follow the published formulas", "statement": "x and y are the shares of X and Y in X+Y+Z, black gets the chromaticities of the white point; back, X = xY/y and Z = (1-x-y)Y/y, black if y = 0.", "quantifier": "all colours of the source type with components in range, all placements in memory; exact arithmetic", "why_tests_cant": "the claim ranges over a continuum of colours, and a pair of conversions with matching mistakes passes every round-trip test", "anchors": ["ColorMagic/manipulation/color_converter.cpp: xyz_to_xyy, xyy_to_xyz"]}
{"id": "C111", "title": "LAB and XYZ follow the published formulas", "statement": "L = 116 f(Y/Yn) - 16, a = 500 (f(X/Xn) - f(Y/Yn)), b = 200 (f(Y/Yn) - f(Z/Zn)) with the CIE function f and the white point of the colour space of the colour, limited to the ranges of the type; back with the inverse function.", "quantifier": "all colours of the source type with components in range, all placements in memory; exact arithmetic; all white points", "why_tests_cant": "the claim ranges over a continuum of colours, and a pair of conversions with matching mistakes passes every round-trip test", "anchors": ["ColorMagic/manipulation/color_converter.cpp: xyz_to_lab, lab_to_xyz, xyz_to_lab_helper, lab_to_xyz_helper"]}
{"id": "C112", "title": "RGB and XYZ are related by the primaries of the colour space", "statement": "XYZ of an RGB colour is the sum of the primaries weighted by the linearised channels, scaled such that (1,1,1) gives the white point; RGB of an XYZ colour are the shares of the primaries, limited to 0..1, after gamma correction, for colours outside the gamut too.", "quantifier": "all colours of the source type with components in range, all placements in memory; exact arithmetic; all regular colour spaces, all gamma curves", "why_tests_cant": "the claim ranges over a continuum of colours, and a pair of conversions with matching mistakes passes every round-trip test", "anchors": ["ColorMagic/manipulation/color_converter.cpp: rgb_deep_to_xyz, xyz_to_rgb_deep"]}
{"id": "C113", "title": "CIELUV and XYZ follow the published formulas", "statement": "L comes from Y/Yn, u = 13 L (u' - u'n), v = 13 L (v' - v'n) with u' = 4X/(X+15Y+3Z) and v' = 9Y/(X+15Y+3Z); back, the colour with these chromaticities and this luminance.", "quantifier": "all colours of the source type with components in range, all placements in memory; exact arithmetic; all white points", "why_tests_cant": "the claim ranges over a continuum of colours, and a pair of conversions with matching mistakes passes every round-trip test", "anchors": ["ColorMagic/manipulation/color_converter.cpp: xyz_to_cieluv, cieluv_to_xyz"]}
{"id": "C114", "title": "LCH is the polar form of LAB and CIELUV", "statement": "Chroma is the distance of the second and third component from 0 and hue their angle in degrees; back, the components are C cos h and C sin h.", "quantifier": "all colours of the source type with components in range, all placements in memory; exact arithmetic", "why_tests_cant": "the claim ranges over a continuum of colours, and a pair of conversions with matching mistakes passes every round-trip test", "anchors": ["ColorMagic/manipulation/color_converter.cpp: lab_to_lch_ab, lch_ab_to_lab, cieluv_to_lch_uv, lch_uv_to_cieluv"]}
{"id": "C115", "title": "Sums and mixtures of colours are what the type prescribes", "statement": "The weighted sum of two RGB colours is the root of the weighted sum of squares per channel, that of grey, CMYK, XYZ, xyY and CIELUV colours the weighted sum per channel, each limited to the range of the channel; HSV colours are added as vectors with the hue as direction and the saturation as length; HSI, HSL, HCY, LAB and LCH colours are converted to HSV or XYZ, added there, and converted back; a colour of another type is converted to the type of the first; a mixture is the sum with weights w and 1 - w.", "quantifier": "all types, all pairs of colours with components in range, all weights in [0,1], both settings of include_alpha, all placements in memory; exact arithmetic for the values, any rounding for the composition", "why_tests_cant": "the claim ranges over a continuum of colours and weights, and over every pair of types", "anchors": ["ColorMagic/manipulation/color_calculation.cpp: add, mix"]}
{"id": "C116", "title": "Differences of colours are what the type prescribes", "statement": "The difference of two RGB, grey, CMYK, XYZ, xyY or CIELUV colours is x - w y per channel, limited to the range of the channel; HSV colours are subtracted as vectors; HSI, HSL, HCY, LAB and LCH colours are converted to HSV or XYZ, subtracted there and converted back; a colour of another type is converted to the type of the first.", "quantifier": "all types, all pairs of colours with components in range, all weights in [0,1], both settings of include_alpha, all placements in memory; exact arithmetic for the values, any rounding for the composition", "why_tests_cant": "the claim ranges over a continuum of colours and weights, and over every pair of types", "anchors": ["ColorMagic/manipulation/color_calculation.cpp: subtract"]}
{"id": "C117", "title": "Every colour in memory is always a well-formed instance of its class", "statement": "In every memory a program can reach by constructors, hex codes, copies, assignments, setters, gamma correction, alpha multiplication and division, conversions, compositing, blending, arithmetic, distances, adjustments, combinations and adaptation, including calls that threw, each colour is an instance of the class its type tag names, has the number of components and the limits of that class, and no call makes an object disappear or changes its class or type.", "quantifier": "all finite sequences of calls with any arguments, any rounding, any changes to colour spaces in between", "why_tests_cant": "The number of call sequences is infinite and the invariant must survive every interleaving, including calls that end in an exception.", "anchors": ["ColorMagic/spaces/color_base.h", "ColorMagic/spaces/", "ColorMagic/manipulation/"]}
{"id": "C118", "title": "Components stay numbers in the documented range throughout a program", "statement": "In every memory a program can reach, each component of each colour is a finite number in the documented range of its channel.", "quantifier": "all finite sequences of calls with any arguments (NaN and infinities included), any rounding", "why_tests_cant": "A test runs finitely many sequences on finitely many inputs; the property speaks about all of them.", "anchors": ["ColorMagic/spaces/color_base.h", "ColorMagic/manipulation/base_color_blend.h:60-72"]}
{"id": "C119", "title": "A call changes nothing but the objects handed to it", "statement": "Whatever its outcome, a call of a conversion, blend, sum, distance, adjustment or combination leaves colour spaces, white points and gamma curves as they are, keeps class, type, opacity, limits and colour space of every colour, and leaves every colour that was not among its arguments unchanged; setters change only their object; adaptation writes only its new colour space definition.", "quantifier": "all functions, arguments, outcomes and reachable memories", "why_tests_cant": "Absence of side effects on every other object in every memory cannot be observed by running examples.", "anchors": ["ColorMagic/manipulation/color_converter.cpp", "ColorMagic/manipulation/color_adjustments.cpp", "ColorMagic/manipulation/chromatic_adaptation.cpp"]}
{"id": "C120", "title": "Returned pointers are null or point to an object of the promised type", "statement": "A conversion to a type, a sum, mixture, difference or average of a type returns null or a colour of that class; blends, adjustments, combinations and dispatched sums return null or colours of the class of their first argument; every returned pointer is an argument or points to a new object.", "quantifier": "all functions, arguments and reachable memories", "why_tests_cant": "The dispatch tables have hundreds of entries and the claim is about all memories in which they can be called.", "anchors": ["ColorMagic/manipulation/color_converter.cpp", "ColorMagic/manipulation/color_combinations.cpp", "ColorMagic/manipulation/color_calculation.cpp"]}
{"id": "C121", "title": "Gamma presets are the published transfer functions", "statement": "Each predefined gamma curve encodes and decodes every value in [0, 1] by the transfer function its name stands for (sRGB, linear, power laws, ROMM, UHDTV).", "quantifier": "all presets, all values in [0, 1]", "why_tests_cant": "A sampled comparison misses the neighbourhood of the knees and cannot tell a swapped pair that is close to its mirror image.", "anchors": ["ColorMagic/spaces/gamma.h"]}
{"id": "C122", "title": "RGB space presets have the published conversion matrices", "statement": "The RGB to XYZ transform computed from the primaries and white point of each predefined RGB space differs from the published matrix by at most 0.0003 per unit, for every colour.", "quantifier": "all presets, all RGB triples", "why_tests_cant": "All triples at once; the bound is uniform.", "anchors": ["ColorMagic/spaces/rgb_color_space_definition.h", "ColorMagic/spaces/white_point.h"]}
{"id": "C123", "title": "CIEDE2000 is the published formula", "statement": "The CIEDE2000 distance of two colours is the value of the formula published by Sharma, Wu and Dalal for their LAB components, for all positive parameters.", "quantifier": "all pairs of colours, all positive parameters", "why_tests_cant": "All pairs and parameters; the formula has many branches and errors in rare branches survive test vectors.", "anchors": ["ColorMagic/manipulation/color_distance.h", "ColorMagic/manipulation/color_distance.cpp"]}
{"id": "C124", "title": "HSL adjustments scale exactly one HSL channel", "statement": "Saturating or luminating in HSL by p multiplies the saturation or the lightness by 1 + p, limits it to [0, 1] and keeps the other two HSL channels, for colours of every class through conversion to HSL and back.", "quantifier": "all colours, all percentages", "why_tests_cant": "All real percentages and all colours of all classes.", "anchors": ["ColorMagic/manipulation/color_adjustments.cpp"]}
{"id": "C125", "title": "CMYK round trip in single precision", "statement": "In every arithmetic with exact small integers and relative rounding error at most 2^-20 (binary32 is one), converting an RGB_DEEP colour to CMYK and back moves no channel by more than 1/50000, and an 8-bit colour comes back unchanged.", "quantifier": "all RGB_DEEP colours, all 8-bit colours, all such arithmetics", "why_tests_cant": "4 billion 8-bit colours with opacity, real channels, and every compiler's rounding choices.", "anchors": ["ColorMagic/manipulation/color_converter.cpp"]}
{"id": "C126", "title": "HSV round trip in single precision", "statement": "In every arithmetic with exact small integers and relative rounding error at most 2^-20, converting an RGB_DEEP colour to HSV and back moves no channel by more than 1/5000, and an 8-bit colour comes back unchanged.", "quantifier": "all RGB_DEEP colours, all 8-bit colours, all such arithmetics", "why_tests_cant": "All colours and all roundings; near-grey colours, where the hue is dominated by rounding errors, are the critical ones.", "anchors": ["ColorMagic/manipulation/color_converter.cpp", "ColorMagic/spaces/hsv.cpp"]}
{"id": "C127", "title": "HSL round trip in single precision", "statement": "In every arithmetic with exact small integers and relative rounding error at most 2^-20, converting an RGB_DEEP colour to HSL and back moves no channel by more than 1/2000, and an 8-bit colour comes back unchanged.", "quantifier": "all RGB_DEEP colours, all 8-bit colours, all such arithmetics", "why_tests_cant": "All colours and all roundings; nearly white, nearly black and nearly grey colours divide small numbers by small numbers.", "anchors": ["ColorMagic/manipulation/color_converter.cpp", "ColorMagic/spaces/hsl.cpp"]}
{"id": "C128", "title": "Conversions do not look at the opacity", "statement": "Two colours that differ only in their opacity are converted to two colours that differ only in their opacity (or both conversions fail alike).", "quantifier": "all 15x15 pairs of types, all colours, all colour spaces and worlds, all heaps, every rounding", "why_tests_cant": "a conversion that premultiplies, tests or leaks the alpha value goes wrong only for particular combinations of type, colour and opacity; tests use opaque colours", "anchors": ["ColorMagic/manipulation/color_converter.cpp:41-1344"]}
{"id": "C129", "title": "Distances do not look at the opacity", "statement": "The seven colour distances of two colours do not change when the opacities of the colours change.", "quantifier": "all pairs of colours of all types, all parameters, every rounding", "why_tests_cant": "an alpha component slipping into a component loop changes the distances of translucent colours only", "anchors": ["ColorMagic/manipulation/color_distance.cpp:5-212"]}
{"id": "C130", "title": "The chromaticity of an RGB colour is the weighted mean of its primaries", "statement": "Converting an RGB colour to xyY gives the mean of the chromaticities of the primaries of its colour space, weighted by the amount of each primary in the white point times the linearised channel; a pure primary therefore has exactly the chromaticity given to the constructor of the colour space, and every grey but black has the chromaticity of the white point.", "quantifier": "all RGB_DEEP colours, all opacities, all colour spaces built from chromaticities in the unit triangle (after any history of copies, set_white_point and set_gamma_curve) whose white point is a non-negative mixture of the primaries, all gamma curves that stay in 0..1", "why_tests_cant": "The claim ranges over a continuum of colours, primaries, white points and gamma curves and combines the matrix set-up, the gamma decoding and two conversions.", "anchors": ["ColorMagic/spaces/rgb_color_space_definition.h:45-64", "ColorMagic/spaces/rgb_color_space_definition.h:218-230", "ColorMagic/manipulation/color_converter.cpp"]}
{"id": "C131", "title": "Conversions outside the CIE family do not look at the colour space", "statement": "Converting between RGB, grey, CMYK, HSI, HSV, HSL and HCY always succeeds and gives the same components and opacity whatever colour space is attached to the colour (also none) and whatever else is in memory; the colour space is passed on unchanged.", "quantifier": "all pairs of the nine types, all colours, all colour spaces including a null pointer, all contents of memory, any rounding", "why_tests_cant": "Independence of everything else in memory is a statement about all pairs of states.", "anchors": ["ColorMagic/manipulation/color_converter.cpp"]}
{"id": "C132", "title": "Porter-Duff operators stay accurate in single precision", "statement": "With rounding errors as small as those of float, every Porter-Duff operator gives the alpha of the table with a relative error of at most 6 parts in a million and every channel with an error of at most 1/70000, however transparent the colours are; where the table says that nothing is covered, the result is exactly transparent black.", "quantifier": "all operators, all RGB_DEEP colours with channels and alpha in [0,1] whose combined alpha is 0 or at least 2^-60, every arithmetic with small relative rounding error (float included)", "why_tests_cant": "The division by a tiny alpha could amplify rounding errors; the claim ranges over all alphas, channels and rounding functions.", "anchors": ["ColorMagic/manipulation/base_color_blend.h: general_porter_duff", "ColorMagic/manipulation/porter_duff.h", "ColorMagic/spaces/color_base.h: alpha_divide"]}
{"id": "C133", "title": "Blend modes stay accurate in single precision", "statement": "With rounding errors as small as those of float, every blend mode gives the exact blend (its formula on the shared area, the two colours elsewhere, limited to 0..1) with an error of at most 1/25000 per channel; two opaque colours give alpha exactly 1.", "quantifier": "all modes, all RGB_DEEP colours with channels and alpha in [0,1], away from the jump of hard_mix, every arithmetic with small relative rounding error (float included)", "why_tests_cant": "The claim ranges over all alphas, channels and rounding functions; quotients may overflow.", "anchors": ["ColorMagic/manipulation/color_blend.h: *_func", "ColorMagic/manipulation/color_blend.h: general_porter_duff"]}
{"id": "C134", "title": "Adapting luminance", "statement": "calculate_adapting_luminance returns the share of the luminance that the background reflects: the luminance times the factor over 100, never lower for a brighter white or background in any rounding, unchanged for whole luminances with the default factor, accurate to 2^-18 in single precision. CAT02 called with it moves a colour further towards full adaptation the brighter the white or background, and by at least 82 % of the surround factor.", "quantifier": "all luminances, background factors, surround factors, colours and white points", "why_tests_cant": "continuum of parameters; order between results for every pair of parameters", "anchors": ["ColorMagic/manipulation/chromatic_adaptation.h: calculate_adapting_luminance", "ColorMagic/manipulation/chromatic_adaptation.cpp: cat02_adaptation"]}
{"id": "C135", "title": "Equality and copies of white points, matrices and gamma curves", "statement": "White points and matrices are == exactly if all their numbers (and the shape of the matrix) agree and none is NaN, so a copy is == to its original and == objects cannot be told apart; two preset white points are == only if they are the same preset or the two equal-energy ones. Equal gamma curves compute the same function, and a copy of a curve whose parts have different borders is == to it. Two calls of the same gamma preset give curves that agree everywhere but are not ==, because == compares addresses.", "quantifier": "all white points, matrices of every size, gamma curves and part stores", "why_tests_cant": "All pairs of objects of every size, NaN and shape included; the 1600 pairs of presets follow from one key argument.", "anchors": ["ColorMagic/spaces/white_point.h: operator==", "ColorMagic/utils/matrix.h: operator==", "ColorMagic/spaces/gamma.h: operator==", "ColorMagic/spaces/gamma.h: gamma(const gamma&)"]}
{"id": "C136", "title": "Colours of the preset colour spaces have their published XYZ values", "statement": "In the colour space that a preset makes, with the white point and the gamma curve that the preset itself chooses and whatever else has been allocated since, to_xyz of an RGB_DEEP colour is the published matrix applied to the published transfer function of each channel, to 0.0003 of the light.", "quantifier": "all presets (violated for UHDTV, cieRGB, cieXYZ; ROMM outside a gap of dark values), all colours, all memory contents", "why_tests_cant": "continuum of colours for each of 20 presets, independent of the history of allocations", "anchors": ["ColorMagic/spaces/rgb_color_space_definition.h: rgb_color_space_definition_presets", "ColorMagic/spaces/gamma.h: gamma_presets", "ColorMagic/manipulation/color_converter.cpp: to_xyz"]}
{"id": "C137", "title": "Rounding to decimals", "statement": "round_float_to_n_decimals returns a multiple of the last decimal that is at most half of it away from the value.", "quantifier": "all finite values and numbers of decimals whose result fits an int (undefined behaviour otherwise, proved)", "why_tests_cant": "continuum of values; the error for negative values is an off-by-one that hides among positive samples", "anchors": ["ColorMagic/manipulation/color_converter.cpp: round_float_to_n_decimals"]}
{"id": "C138", "title": "Default-constructed and degenerate colour spaces", "statement": "A default-constructed gamma curve is the identity and a default-constructed part never applies. In a default-constructed colour space every RGB colour has the XYZ value (0,0,0) and every XYZ colour becomes black, and replacing the white point does not change that. A definition with dependent primaries is constructed without an error; its inverse transform is the transform itself, white is sent to P(P(white)) and different colours share an XYZ value.", "quantifier": "all colours, all white points, all dependent primaries, all memory contents", "why_tests_cant": "continuum of colours and primaries; the failure is silent", "anchors": ["ColorMagic/spaces/rgb_color_space_definition.h: rgb_color_space_definition()", "ColorMagic/spaces/gamma.h: gamma(), gamma_part()", "ColorMagic/spaces/white_point.h: white_point()", "ColorMagic/utils/matrix.h: invert"]}
{"id": "C139", "title": "Blend modes are ordered by brightness", "statement": "linear_burn ≤ multiply ≤ darken ≤ normal ≤ lighten ≤ screen ≤ linear_dodge in every channel of the result; overlay, hard_light and pin_light lie between multiply and screen, difference below exclusion and lighten, exclusion below screen. soft_light leaves this order above (brighter than screen), color_burn too (brighter than multiply).", "quantifier": "all RGB_DEEP colours, all opacities, all region flags; exact arithmetic", "why_tests_cant": "continuum of colours and opacities", "anchors": ["ColorMagic/manipulation/color_blend.cpp: *_func, basic_alpha_blending"]}
{"id": "C140", "title": "Brighter colours give brighter blends", "statement": "Making the destination (18 modes) or the source (16 modes) brighter at the same opacity makes no channel of the result darker. It does with soft_light and vivid_light (source) and color_burn (destination).", "quantifier": "all RGB_DEEP colours, all opacities, all region flags; exact arithmetic", "why_tests_cant": "a statement about pairs of results over a continuum", "anchors": ["ColorMagic/manipulation/color_blend.cpp: *_func"]}
{"id": "C141", "title": "Blend modes and their negatives", "statement": "Blending the negatives of two colours with the dual mode gives the negative of the blend: multiply/screen, darken/lighten, linear_dodge/linear_burn, plus_lighter/plus_darker; normal, overlay, hard_light, pin_light and linear_light are self-dual; difference and exclusion do not change. color_burn and color_dodge must be such a pair but are not.", "quantifier": "all RGB_DEEP colours; all opacities and region flags for the modes that stay in range, opaque colours for the others; exact arithmetic", "why_tests_cant": "continuum of colours and opacities", "anchors": ["ColorMagic/manipulation/color_blend.cpp: *_func"]}
{"id": "C142", "title": "Grey stays grey", "statement": "An RGB colour with three equal channels v becomes hue 0 and saturation/chroma 0 with value, lightness, luma or intensity v in HSV, HSL, HCY and HSI, grey v in the grey spaces, CMYK (0,0,0,1-v), and LAB with a = b = 0; conversely only greys have saturation 0 and a = b = 0, and colours with saturation 0 or a = b = 0 become greys in RGB.", "quantifier": "all grey levels, all colour spaces with positive white point, all gamma curves that keep the unit interval", "why_tests_cant": "a neutral axis is a continuum in every colour space and for every choice of primaries and white point; tests check a few greys in sRGB", "anchors": ["ColorMagic/manipulation/color_converter.cpp: rgb_deep_to_hsv, rgb_deep_to_hsl, rgb_deep_to_hcy, rgb_deep_to_hsi, rgb_deep_to_cmyk, rgb_deep_to_xyz, xyz_to_lab, lab_to_xyz"]}
{"id": "C143", "title": "A brighter RGB colour is brighter in every colour space", "statement": "If every channel of one RGB colour is at least that of another, its HSV value, HSL lightness, HCY luma, HSI intensity, grey value, X, Y, Z and LAB lightness are at least those of the other, and its CMYK black share at most.", "quantifier": "all pairs of ordered RGB colours, all predefined colour spaces and gamma curves", "why_tests_cant": "monotonicity relates every pair of colours; a discontinuity of a piecewise curve shows up only between two close values", "anchors": ["ColorMagic/manipulation/color_converter.cpp: rgb_deep_to_hsv, rgb_deep_to_xyz, xyz_to_lab", "ColorMagic/spaces/gamma.h: gamma_presets"]}
{"id": "C144", "title": "Opacities influence nothing but opacities", "statement": "In two runs of a program that differ only in the opacities given to constructors and setters, all colours agree up to opacity after any number of conversions, adjustments, combinations, adaptations, sums, averages and HCY blends, and every such call returns the same pointers and numbers or throws the same exception.", "quantifier": "all programs of any length, all memories, all functions other than compositing, blend modes built on it, alpha_multiply and alpha_divide; every rounding", "why_tests_cant": "it compares pairs of runs of unbounded length; a test fixes the calls and the opacities", "anchors": ["ColorMagic/manipulation/color_converter.cpp", "ColorMagic/manipulation/color_adjustments.cpp", "ColorMagic/manipulation/color_combinations.cpp", "ColorMagic/manipulation/chromatic_adaptation.cpp", "ColorMagic/manipulation/color_calculation.cpp", "ColorMagic/manipulation/color_distance.cpp"]}
{"id": "C145", "title": "A call depends only on the objects it is given", "statement": "What any call returns, which exception it throws and what it leaves in the objects it was given is determined by these objects and the world of colour spaces and white points. All other objects of the program, their number and all addresses are irrelevant; the result is one of the arguments in one run exactly if it is in the other.", "quantifier": "all calls of the library, all pairs of memories of any size that agree on the arguments, every rounding", "why_tests_cant": "it compares pairs of memories of any size and content; a test sees one memory", "anchors": ["ColorMagic/manipulation/color_converter.cpp", "ColorMagic/manipulation/color_adjustments.cpp", "ColorMagic/manipulation/color_combinations.cpp", "ColorMagic/manipulation/chromatic_adaptation.cpp", "ColorMagic/manipulation/color_calculation.cpp", "ColorMagic/manipulation/color_distance.cpp", "ColorMagic/manipulation/color_blend.cpp"]}
{"id": "C146", "title": "Colour space matrices in single precision", "statement": "Computed in single precision, the RGB to XYZ matrix of every preset colour space is within 1.4e-4 of the matrix its primaries and white point define, its XYZ to RGB matrix is within 4.6e-5 of the inverse of the RGB to XYZ matrix, and (except in cieRGB) linear RGB values return from XYZ within 6.4e-5.", "quantifier": "all preset spaces, all linear channel values between 0 and 1, every arithmetic with relative errors up to 2^-23", "why_tests_cant": "a continuum of channel values and of permitted roundings; a test sees one compiler's rounding of a few colours", "anchors": ["ColorMagic/utils/matrix.h: invert, adjoint, calculate_determinante, operator*", "ColorMagic/spaces/rgb_color_space_definition.h: calculate_transformation_matrix, rgb_color_space_definition_presets"]}
{"id": "C147", "title": "8-bit colours survive XYZ in single precision", "statement": "Converting any 8-bit RGB colour to XYZ and back with single precision arithmetic returns exactly the same colour, in every preset colour space but cieRGB with the gamma curve of sRGB or UHDTV.", "quantifier": "all 2^32 colours with opacity, 19 preset spaces, two curves, every arithmetic with relative errors up to 2^-23 (2^-22 for powf)", "why_tests_cant": "all colours in all spaces under every permitted rounding and every sufficiently accurate powf", "anchors": ["ColorMagic/manipulation/color_converter.cpp: rgb_true_to_xyz, xyz_to_rgb_true", "ColorMagic/spaces/rgb_color_space_definition.h", "ColorMagic/spaces/gamma.h: gamma_presets"]}
{"id": "C148", "title": "A conversion makes exactly the objects on its route", "statement": "For every pair of the fifteen types, a conversion that ends normally has created exactly as many colour objects as the table of routes says: the result and one object for every stop on the way. A conversion to the own type creates none, every other conversion creates at least one, and a conversion that fails has not created more. The functions for two given classes, the functions that look at the type and convertTo agree in this.", "quantifier": "all pairs of types, all memories, all objects, all float models", "why_tests_cant": "Leaked temporaries do not change any result a test compares; the count has to hold for all 210 conversions and in every memory.", "anchors": ["ColorMagic/manipulation/color_converter.cpp", "ColorMagic/manipulation/color_converter.h"]}
{"id": "C149", "title": "Memory grows at most linearly with what a program asks for", "statement": "No call of the library, however it ends, removes colour objects or creates more than 33 for every colour it is asked for (a call that returns a number or writes to an object counts as one). A program that has asked for n colours therefore has at most 33 n colour objects in memory, whatever calls it has made.", "quantifier": "all programs of any length, all calls, all arguments, all outcomes including exceptions", "why_tests_cant": "The library never frees anything, so this is a bound over unboundedly many calls with unboundedly large requests.", "anchors": ["ColorMagic/manipulation/color_converter.cpp", "ColorMagic/manipulation/color_calculation.cpp", "ColorMagic/manipulation/color_combinations.cpp", "ColorMagic/manipulation/color_adjustments.cpp", "ColorMagic/manipulation/color_distance.cpp", "ColorMagic/manipulation/base_color_blend.h", "ColorMagic/manipulation/chromatic_adaptation.cpp"]}
{"id": "C150", "title": "Measuring a distance leaves nothing behind", "statement": "A function that only returns the distance of two colours leaves as many colour objects in memory as there were before.", "quantifier": "all distance functions, all programs that reach the call, all pairs of different objects", "why_tests_cant": "Leaks are invisible to tests that compare results; that memory grows without bound is a statement about arbitrarily long programs.", "anchors": ["ColorMagic/manipulation/color_distance.cpp", "ColorMagic/manipulation/color_converter.cpp"]}
{"id": "C151", "title": "Careful programs never run into undefined behaviour", "statement": "A program that only passes pointers to existing objects of the right classes, gives every colour that takes part in a CIE conversion a complete colour space definition, passes no hex string with a # after its first character, does not use the monochromatic, split-complementary or in-place adjustment functions on LCH colours, and does not use the two normalising adaptations on greys, never runs into undefined behaviour, whatever calls it makes, with whatever numbers (also NaN and infinities), in whatever order and for however long; exceptions may be thrown and the program may go on after them. Each pointer a call returns is null or points to an object that is good for further calls, and what was good before a call is good after it. CIEDE2000 is included when arithmetic is exact and no premultiplied colours are around.", "quantifier": "all programs of any length, all public calls, all arguments, all memories such programs reach, all float models", "why_tests_cant": "Undefined behaviour (null dereferences, indices out of range, uninitialised reads) may go unnoticed in any number of test runs; its absence is a statement about all programs and all numbers.", "anchors": ["ColorMagic/manipulation/color_converter.cpp", "ColorMagic/manipulation/color_calculation.cpp", "ColorMagic/manipulation/color_combinations.cpp", "ColorMagic/manipulation/color_adjustments.cpp", "ColorMagic/manipulation/chromatic_adaptation.cpp", "ColorMagic/spaces/rgb_truecolor.cpp"]}
{"id": "C152", "title": "The hue classes follow the geometry of the colour circle", "statement": "Handing the RGB channels on in a circle turns the hue of a colour by 120 degrees in HSV, HSL, HSI and HCY and leaves saturation, value, lightness, intensity and chroma alone; exchanging green and blue mirrors the hue. The negative of a colour has the opposite hue, the same HSL saturation and HCY chroma, and one minus the lightness, intensity and luma. Dimming (multiplying the channels by a positive factor) keeps the hue and the HSV and HSI saturations and multiplies value, lightness, intensity, chroma and luma by the factor. Fading (mixing with a grey) keeps the hue, mixes value, lightness, intensity and luma with the grey and shrinks the chroma.", "quantifier": "all RGB colours, all factors, mixing ratios and greys, exact arithmetic", "why_tests_cant": "The relation must hold between every colour and its transformed partner; a case distinction of the hue formula that is wrong in one of the six sectors shows only for colours there.", "anchors": ["ColorMagic/manipulation/color_converter.cpp", "ColorMagic/spaces/hsv.cpp", "ColorMagic/spaces/hsl.cpp", "ColorMagic/spaces/hsi.cpp", "ColorMagic/spaces/hcy.cpp"]}
{"id": "C153", "title": "Combinations of RGB colours in closed form", "statement": "The j-th member of a combination of n colours made from an RGB colour has the largest and the smallest channel of that colour, the hue turned by j * 360 / n degrees, and its alpha and colour space; the analogous colours likewise at minus and plus the distance. The triplet of a colour (r, g, b) is the colour itself, (b, r, g) and (g, b, r).", "quantifier": "all RGB colours, all sizes 2 to 360, all distances, all memories, exact arithmetic", "why_tests_cant": "Tests compare single triplets; the closed form for every colour and every size needs the conversion to HSL, the turned hue and the conversion back together.", "anchors": ["ColorMagic/manipulation/color_combinations.cpp", "ColorMagic/manipulation/color_converter.cpp"]}
{"id": "C154", "title": "Mixtures of two colours form a gradient", "statement": "For RGB, grey, CMYK, XYZ, xyY and CIELUV colours: mixing a with b at weight w gives the channels of mixing b with a at 1 - w (the same colour if alpha is included and both share a colour space). Mixing two mixtures of a and b is again a mixture of a and b, with the weight interpolated. As the weight grows every channel and the opacity move in one direction only. The mixture at 1/2 is the average of the two colours for grey, XYZ, xyY and CIELUV and has its channels for CMYK; for RGB colours it is at least as bright as the average in every channel and brighter where they differ.", "quantifier": "all pairs of colours, all weights from 0 to 1, all memories, exact arithmetic", "why_tests_cant": "The laws relate results for different weights and argument orders over a continuum of colours and weights; tests look at single mixtures.", "anchors": ["ColorMagic/manipulation/color_calculation.cpp"]}
{"id": "C155", "title": "Chromatic adaptation respects intensities, mixtures and chains", "statement": "For XYZ colours in exact arithmetic: with every adaptation method, a colour k times as intense (k > 0) adapts to a colour k times as intense, limited to the range; the methods that do not divide by the colour's luminance (the simplified ones, CAT02, CMCCAT2000) take every linear combination a*x + b*x' of two colours to the same combination of the adapted colours, limited to the range, so a mixture of two colours adapts to the mixture of the adapted colours; and with a simplified method adapting to one white point and from there to another gives the same colour as adapting to the last one at once, up to the error of the stored inverse (exactly for XYZ scaling).", "quantifier": "All colours, white points with positive cone responses, factors, weights, parameters of the methods and heaps; the adapted colours must be strictly inside the range so that nothing was cut off before", "why_tests_cant": "The laws quantify over pairs and triples of real colours and white points; a test checks some of them with a tolerance that hides a wrong matrix entry.", "anchors": ["ColorMagic/manipulation/chromatic_adaptation.cpp"]}
{"id": "C156", "title": "HSL adjustments of RGB colours in closed form", "statement": "Saturating an RGB colour by p in HSL space moves every channel away from the lightness (mean of largest and smallest channel) by the factor 1 + p, at most until a channel reaches the end of its range and at least onto the lightness. Luminating it by p multiplies the lightness by 1 + p, at most up to 1, and scales the distances of the channels from it like the largest chroma the lightness allows; as long as the lightness stays below one half this is the same as luminating in RGB space. Opacity and colour space are kept.", "quantifier": "all RGB colours except black and hues in the last degree before 360, all amounts p other than 0 (luminating: p > -1), exact arithmetic", "why_tests_cant": "The formula is piecewise over six hue sectors and two limits; a test compares single colours with numbers obtained from another implementation of the same detour.", "anchors": ["ColorMagic/manipulation/color_adjustments.cpp", "ColorMagic/manipulation/color_converter.cpp"]}
{"id": "C157", "title": "Adjustments compose and can be undone", "statement": "Adjusting by p and then by q is adjusting once by (1 + p)(1 + q) - 1: luminating RGB colours in RGB, saturating RGB colours in RGB or in HSL, saturating and luminating HSL colours in HSL, provided the first step cut nothing off or (except for saturating in RGB) the second step does not decrease. An adjustment by p > -1 that cut nothing off is undone exactly by one by -p / (1 + p).", "quantifier": "all colours of the classes, all amounts, all memories, exact arithmetic", "why_tests_cant": "A law about pairs of amounts and all colours; tests look at single adjustments.", "anchors": ["ColorMagic/manipulation/color_adjustments.cpp"]}
{"id": "C158", "title": "Which preset colour spaces fit into LAB", "statement": "The LAB class keeps a and b between -128 and 128. In sRGB, PAL/SECAM, American NTSC, Apple RGB, DCI-P3, Bruce RGB, ColorMatch RGB and SMPTE-C RGB nothing is cut off: every RGB_DEEP colour whose channels survive the gamma curves, and every 8-bit RGB_TRUE colour (with any curve but ROMM), comes back from LAB unchanged, and the CIE76 distance of two colours is 0 exactly if their channels agree. In each of the other twelve presets a corner of the RGB cube comes back as a different colour. So a preset is lossless exactly if the corners of the cube survive.", "quantifier": "all 20 colour space presets, all gamma presets, all colours of the space, all opacities, exact arithmetic", "why_tests_cant": "That no colour of a gamut exceeds a bound is a statement about a continuum of colours under a nonlinear map; a test samples some colours in some spaces.", "anchors": ["ColorMagic/spaces/lab.cpp", "ColorMagic/manipulation/color_converter.cpp", "ColorMagic/spaces/rgb_color_space_definition.h"]}
{"id": "C159", "title": "8-bit colours survive LAB in single precision", "statement": "In sRGB, PAL/SECAM, American NTSC, Apple RGB, DCI-P3, Bruce RGB, ColorMatch RGB and SMPTE-C RGB, with the sRGB gamma curve, every 8-bit RGB_TRUE colour comes back from LAB exactly as it was: the rounding errors of the gamma curve, of the matrix computed from the primaries, of its inverse, of the cube roots and cubes, the literal constants of the LAB formulas and the cut of L at 100 together never move a channel to another integer.", "quantifier": "the eight preset spaces whose gamut fits into LAB, all 2^32 RGB_TRUE colours with integer channels and opacity, every rounding with relative error 2^-23 (2^-22 for powf) that is exact on integers, binary32 among them", "why_tests_cant": "There are 2^24 colours in eight spaces and the answer depends on the rounding of the platform and its C library; a test fixes one platform and samples colours.", "anchors": ["ColorMagic/spaces/lab.cpp", "ColorMagic/manipulation/color_converter.cpp", "ColorMagic/spaces/rgb_color_space_definition.h", "ColorMagic/spaces/gamma.h"]}
{"id": "C160", "title": "8-bit colours survive xyY in single precision", "statement": "In every preset colour space but CIE RGB and CIE XYZ, with the sRGB gamma curve (or, except in DCI-P3, the UHDTV curve), every 8-bit RGB_TRUE colour comes back from xyY exactly as it was: the rounding errors of the gamma curve, the matrix, its inverse, the chromaticities and the divisions by the small chromaticity y of saturated blues together never move a channel to another integer, no colour but black takes the branch for X = Y = Z = 0, and black, which is given the chromaticity of the white point, comes back black.", "quantifier": "eighteen preset spaces, two gamma curves, all 2^32 RGB_TRUE colours with integer channels and opacity, every rounding with relative error 2^-23 (2^-22 for powf) that is exact on integers, binary32 among them", "why_tests_cant": "There are 2^24 colours in eighteen spaces and the answer depends on the rounding of the platform and its C library; the delicate colours are single dark blues whose luminance is close to 0.", "anchors": ["ColorMagic/spaces/xyy.cpp", "ColorMagic/manipulation/color_converter.cpp", "ColorMagic/spaces/rgb_color_space_definition.h", "ColorMagic/spaces/gamma.h"]}
{"id": "C161", "title": "Matrix operations for every combination of shapes", "statement": "For operands of any shapes it is determined what the matrix operations do. A * B and A * v (with elements) are the mathematical product exactly if A is square; transpose is right exactly for square matrices; filling from a list is right exactly for square matrices, at most one row or no columns; + and - work exactly if the right operand covers the left one. In all other cases: the product of the upper left square (B has no more rows than A has rows and columns), zeros appended to the vector, an out_of_range exception, or undefined behaviour.", "quantifier": "all shapes of both operands, all elements, every element type carrying a field (products) or any element type (transpose, filling, sums)", "why_tests_cant": "There are infinitely many combinations of shapes, and undefined behaviour may look like success in a test.", "anchors": ["ColorMagic/utils/matrix.h"]}
{"id": "C162", "title": "Exactly which 8-bit colours survive the trip through HCY", "statement": "An RGB_TRUE colour converted to HCY and back is the same object value, exactly if it is not a slightly bluish red with G < B and R > G + 60 (B - G) + 32; every such red comes back with another blue. A deep colour moves by at most 1/3000 per channel; if its hue lies between 359 and 360 degrees its blue moves 0.9278 of the way to the blue of 359 degrees instead and red and green by at most 8/5000.", "quantifier": "all 2^32 8-bit colours and all deep colours, every arithmetic with the precision of float (in particular IEEE single precision)", "why_tests_cant": "There are 2^32 8-bit colours and uncountably many arithmetics; the boundary is at 0.495 and 0.510 of a step and the errors of a dozen roundings must be bounded to place it.", "anchors": ["ColorMagic/manipulation/color_converter.cpp", "ColorMagic/spaces/hcy.cpp"]}
{"id": "C163", "title": "Complements and triplets of 8-bit colours are exact in single precision", "statement": "The complement of an RGB_TRUE colour has the channels max + min - R, max + min - G, max + min - B, without any rounding error, and the complement of the complement has the channels of the colour again; the triplet consists of the colour and the colours with channels (B, R, G) and (G, B, R). This fails for black and when one of the hues involved is far inside the last degree before 360: then the complement has another blue.", "quantifier": "all RGB_TRUE colours with 8-bit channels and any opacity, every place in memory, every arithmetic with small rounding errors and exact small integers (in particular IEEE single precision)", "why_tests_cant": "There are 2^24 colours and uncountably many arithmetics; hue, saturation and lightness are all rounded, and next to 360 degrees a rounding error on the wrong side would change the result by up to four steps.", "anchors": ["ColorMagic/manipulation/color_combinations.cpp", "ColorMagic/manipulation/color_converter.cpp", "ColorMagic/spaces/hsl.cpp"]}
{"id": "C164", "title": "Averages of many colours in single precision", "statement": "In single precision the average of n colours of a class has channels and an opacity inside their limits, and each is the mean of the n values up to n + 2 rounding errors of numbers of that size. Channels that are whole numbers, such as those of 8-bit colours, are averaged without any error but that of rounding the mean, and copies of one such colour average to exactly that colour.", "quantifier": "all fifteen classes, all lists of colours of any length, every arithmetic with the precision of float; binary32 in particular", "why_tests_cant": "The error grows with the number of colours and only shows for pictures of millions of pixels; tests average a handful of colours.", "anchors": ["ColorMagic/manipulation/color_calculation.cpp:522-742"]}
{"id": "C165", "title": "Euclidean colour distances in single precision", "statement": "In single precision the squared Euclidean distance, the Euclidean distance and the CIE76 difference of two colours are those of their RGB or LAB components up to one part in a million. The distances of 8-bit colours are ordered like the exact ones: of two pairs of 8-bit colours the one that is closer has the strictly smaller distance, so nearest-colour searches are right. Both Euclidean distances are symmetric to the last bit and colours with the same components have the distance zero. A distance of zero does not imply equal deep colours: red 2^-80 and black have the distance zero.", "quantifier": "all pairs of valid colours of all types, all quadruples of 8-bit colours, every arithmetic with the precision of float; symmetry and zero in binary32", "why_tests_cant": "There are 2^96 pairs of pairs of 8-bit colours; the smallest gap of two squared distances is 1/65025 and the errors of a dozen roundings must be bounded to see that it is never bridged.", "anchors": ["ColorMagic/manipulation/color_distance.cpp:5-43", "ColorMagic/manipulation/color_distance.cpp:63-81"]}
{"id": "C166", "title": "CIE94 and CMC differences are numbers in single precision", "statement": "Computed in single precision, the CIE94 and CMC differences of two valid colours are numbers, not NaN, close to the published formula, and zero for colours with the same LAB components.", "quantifier": "all pairs of valid colours and all factors kL, kC, kH from 1 to 100 and k1, k2 from 0 to 1", "why_tests_cant": "whether the value under the root becomes negative depends on the last bit of two square roots; a test with a handful of colours may see none of the cases", "anchors": ["ColorMagic/manipulation/color_distance.cpp:82-101", "ColorMagic/manipulation/color_distance.cpp:166-212"]}
{"id": "C167", "title": "Mixtures and gradients are accurate in single precision", "statement": "Mixing two colours of one of the classes that mix channel by channel (RGB, grey, CMYK, XYZ, xyY, CIELUV) in single precision gives every channel to within one millionth of its range of the weighted mean (for RGB the weighted root mean square) and never outside the range, and the opacity to two millionths. Mixing a colour with itself returns its 8-bit channels after rounding. A gradient starts and ends exactly with the components of the two colours.", "quantifier": "all pairs of valid colours of the eight classes, all weights from 0 to 1, with and without alpha", "why_tests_cant": "the weights and components are a continuum; whether the root of a rounded square gives back the number has to be shown for all 24-bit significands", "anchors": ["ColorMagic/manipulation/color_calculation.cpp:42-182", "ColorMagic/manipulation/color_calculation.cpp:241-342"]}
{"id": "C168", "title": "Simplified chromatic adaptation is accurate in single precision", "statement": "In single precision, every simplified chromatic adaptation (von Kries, Bradford, XYZ scaling, Sharp, CMCCAT97, CMCCAT2000 and CAT02 matrices) of an XYZ colour succeeds and returns the published transform, limited to the range of XYZ, with an error of at most the known error of the stored inverse matrix plus g*X/40000, where X bounds the components and g bounds the ratio of the cone responses of the two white points. The source white and its greys become the target white and its greys, and adapting to the same white point changes a colour by at most the error of the inverse plus X/10000.", "quantifier": "every simplified method, heap, XYZ colour, pair of white points with tristimulus values in [0.01, 3] whose source responses are at least 0.02 and not the result of heavy cancellation, every g in [1, 100] and X >= 0.01 with g*X <= 200, every arithmetic with the relative error of float", "why_tests_cant": "The computation multiplies three matrices with negative entries in single precision; tests compare a few colours with a tolerance and cannot bound the error over all colours and pairs of white points.", "anchors": ["ColorMagic/manipulation/chromatic_adaptation.cpp", "ColorMagic/utils/matrix.h"]}
{"id": "C169", "title": "Premultiplied alpha round trip in single precision", "statement": "In single precision alpha_multiply never makes a component larger, alpha_multiply followed by alpha_divide changes a component by at most 2.1 parts in 2^23 (plus 2.1/(2^100 alpha)), gives back 8-bit components after rounding, and does nothing at all when alpha is 1. Components stay in their documented range.", "quantifier": "all colours with components up to 1000, all alpha values from 2^-90 to 1, every arithmetic with the relative error of float", "why_tests_cant": "the colours and alpha values are a continuum, and whether rounding twice can leave the range depends on single bits of alpha", "anchors": ["ColorMagic/spaces/color_base.h:195-215"]}
{"id": "C170", "title": "Weighted Euclidean distance in single precision", "statement": "In single precision euclidean_distance_weighted of two colours of any type is the published weighted distance of their RGB components up to 1.3 parts in a million and 1e-9, so it is never NaN and orders pairs of colours correctly unless their distances agree to three parts in a million. It is symmetric to the last bit and zero for colours with the same RGB components.", "quantifier": "all pairs of valid colours of all types, every arithmetic with the relative error of float (symmetry: binary32)", "why_tests_cant": "the colours are a continuum; a radicand that rounds below zero would give NaN for single pairs only", "anchors": ["ColorMagic/manipulation/color_distance.cpp:45-61"]}
{"id": "C171", "title": "The RGB adjustments in single precision", "statement": "Saturating and luminating in RGB space by p (|p| <= 400), computed with float rounding, gives channels in [0, 1] that differ from the real formulas (luma plus (1 + p) times the distance from it, and (1 + p) times the channel, both limited to [0, 1]) by at most (3 + 2|p|) millionths, and changes nothing else of the colour. On an 8-bit colour the new channels are whole numbers 0..255 within half a step plus (3 + 2|p|)/3000 of the exact ones. A grey stays exactly grey, adjusting by zero returns the same colour to the last bit, and luminating by -1 gives exactly black.", "quantifier": "all RGB_DEEP colours with channels in [0, 1] and all 8-bit RGB_TRUE colours, all p with |p| <= 400, every heap, every arithmetic with small relative rounding error (binary32 is one)", "why_tests_cant": "the rounding errors depend on every channel and on the amount; tests check a handful of colours against values computed by the same code", "anchors": ["ColorMagic/manipulation/color_adjustments.cpp:4-71", "ColorMagic/manipulation/color_converter.cpp:36-62"]}
{"id": "C172", "title": "XYZ scaling keeps LAB components", "statement": "Adapting with XYZ scaling does not change the LAB components of a colour: those of the result, relative to the target white point, are those of the original, relative to its own white point. A LAB colour adapted by XYZ scaling therefore keeps its components and opacity exactly and only gets another colour space, and adapting back returns the original.", "quantifier": "all colours of all classes but LCH in usable colour spaces, all positive white points, exact arithmetic, as long as no XYZ component leaves its range", "why_tests_cant": "colours and pairs of white points form a continuum; a wrong white point in one of the two conversions shows only for colours away from the ones tested", "anchors": ["ColorMagic/manipulation/chromatic_adaptation.cpp", "ColorMagic/manipulation/color_converter.cpp: xyz_to_lab, lab_to_xyz"]}
{"id": "C173", "title": "CIEDE2000 differences are numbers in single precision", "statement": "Computed in single precision, the CIEDE2000 difference of two valid colours is a number that is not negative, and zero for colours with the same LAB components.", "quantifier": "all pairs of valid colours and all factors kL, kC, kH from 1 to 100 and k1, k2 from 0 to 1", "why_tests_cant": "the result depends on whether an intermediate exponential overflows, which depends on the mean hue of the pair; tests with a few pairs of saturated greens or blues see only numbers", "anchors": ["ColorMagic/manipulation/color_distance.cpp:103-164"]}
{"id": "C174", "title": "Exactly the colours of the gamut survive RGB", "statement": "An XYZ colour comes back unchanged from RGB exactly if it is in the gamut of its colour space. Every other colour is moved to the gamut by limiting its shares of the primaries to 0..1, and converting once more changes nothing.", "quantifier": "all XYZ colours inside and outside the gamut, all colour spaces with non-negative primaries and positive weights, all presets but cieRGB, all gamma presets", "why_tests_cant": "An exact characterisation over a continuum of colours and spaces; tests use colours of the gamut.", "anchors": ["ColorMagic/manipulation/color_converter.cpp:838-848", "ColorMagic/manipulation/color_converter.cpp:214-220"]}
{"id": "C175", "title": "HSL adjustments of RGB colours stay accurate in single precision", "statement": "With rounding errors, saturating or luminating an RGB colour in HSL gives the channels of exact arithmetic up to a small error. For saturating the error grows only with the factor. For luminating it also grows like the reciprocal of the room for chroma, so the result is accurate away from white.", "quantifier": "all RGB colours not nearly black, all percentages up to 9900 percent, every arithmetic with small rounding errors and exact small integers, in particular binary32", "why_tests_cant": "An error bound over a continuum of colours and percentages; the colours where the accuracy is lost are a few units in the last place from white.", "anchors": ["ColorMagic/manipulation/color_adjustments.cpp:26-37", "ColorMagic/manipulation/color_adjustments.cpp:60-71", "ColorMagic/manipulation/color_converter.cpp:174-190"]}
{"id": "C176", "title": "HSL adjustments of 8-bit colours are accurate in single precision", "statement": "Saturating or luminating an 8-bit colour in HSL gives whole channels next to those of exact arithmetic. For saturating they differ by half a step and a few hundredths of a step that grow with the factor. For luminating there is another 0.016 steps divided by the room for chroma. Saturating a grey, black and white included, keeps its channels.", "quantifier": "all 16777216 8-bit colours of any opacity, all percentages from -100 to 9900 percent other than 0, every arithmetic with fine rounding errors and exact small integers, in particular binary32", "why_tests_cant": "The percentages form a continuum and the bound is about every colour; tests sample a few pairs.", "anchors": ["ColorMagic/manipulation/color_adjustments.cpp:26-37", "ColorMagic/manipulation/color_adjustments.cpp:60-71", "ColorMagic/manipulation/color_converter.cpp:174-190", "ColorMagic/manipulation/color_converter.cpp:650-680"]}
{"id": "C177", "title": "Compositing 8-bit pixels gives the rounded values of the Porter-Duff table", "statement": "In single precision, every Porter-Duff operator on two RGB_TRUE pixels of four bytes in one colour space gives a pixel of four bytes in that space. Its alpha and its channels are within 1/2 + 1/30 of 255 times what the Porter-Duff table says for A / 255 and R / 255, G / 255, B / 255. Where the table gives whole bytes the result has exactly these bytes: an opaque pixel over anything is unchanged, operators in which only the source contributes keep the channels of the source at every alpha, a pixel atop another keeps the alpha of the other exactly, and pixels of equal channels keep them under every operator. Where the table says fully transparent, all four bytes are 0.", "quantifier": "all twelve operators, all pairs of 8-bit pixels with all alpha bytes, every arithmetic with single-precision rounding errors and exact small integers", "why_tests_cant": "there are 2^64 pairs of pixels for each of twelve operators, and the errors of division by 255, of the product of alphas and of unmultiplying by a tiny alpha add up differently in each of them", "anchors": ["ColorMagic/manipulation/porter_duff.cpp", "ColorMagic/manipulation/color_converter.cpp:41-44", "ColorMagic/manipulation/color_converter.cpp:113-116", "ColorMagic/spaces/rgb_truecolor.cpp"]}
{"id": "C178", "title": "Blending opaque 8-bit pixels gives the rounded values of the formulas, exactly where these are bytes", "statement": "In IEEE single precision, every blend mode with a fixed formula gives for two opaque RGB_TRUE pixels in one colour space an opaque RGB_TRUE pixel whose channels are within 1/2 + 1/25 of 255 times the value of the formula at S / 255 and D / 255, limited to 0..1. Modes whose formula maps bytes to bytes (normal, darken, lighten, linear_dodge, plus_lighter, linear_burn, plus_darker, linear_light, pin_light, hard_mix, difference, subtract) give exactly these bytes; in particular hard_mix is white exactly where the bytes add up to 255 or more, complementary bytes included. Blending with the neutral grey of a mode changes no byte of the destination.", "quantifier": "all 22 modes with a fixed formula, all pairs of opaque 8-bit pixels, both region flags", "why_tests_cant": "there are 2^48 pairs of pixels per mode, and the jumps of hard_mix, the poles of divide, color_dodge, color_burn and vivid_light are where rounding of S / 255 could decide", "anchors": ["ColorMagic/manipulation/color_blend.cpp", "ColorMagic/manipulation/base_color_blend.h", "ColorMagic/manipulation/color_converter.cpp:41-44", "ColorMagic/manipulation/color_converter.cpp:113-116"]}
{"id": "C179", "title": "Blending translucent 8-bit pixels gives the rounded weighted mean", "statement": "In single precision, a blend mode whose formula stays between 0 and 1 and has no jump (normal, multiply, screen, overlay, darken, lighten, color_dodge, color_burn, hard_light, soft_light, pin_light, difference, exclusion) gives for two RGB_TRUE pixels of any alpha bytes a pixel of four bytes in the same colour space. Alpha is within 1/2 + 1/30 of 255 (a + b - a b), each channel within 1/2 + 1/15 of 255 times the mean of source, destination and formula, weighted by the areas covered by the source alone, the destination alone and both. Two fully transparent pixels give four bytes 0, and over a fully transparent destination the source keeps all four bytes.", "quantifier": "the 13 modes, all pairs of 8-bit pixels with all alpha bytes, every arithmetic with single-precision rounding errors and exact small integers", "why_tests_cant": "there are 2^64 pairs of pixels per mode; the result is divided by an alpha as small as 1 / 255, which magnifies errors", "anchors": ["ColorMagic/manipulation/color_blend.cpp", "ColorMagic/manipulation/base_color_blend.h", "ColorMagic/manipulation/color_converter.cpp:41-44", "ColorMagic/manipulation/color_converter.cpp:113-116"]}
{"id": "C180", "title": "Conversions to the 8-bit classes give whole numbers from 0 to 255", "statement": "Converting a colour to RGB_TRUE or GREY_TRUE gives an object whose channels are whole numbers from 0 to 255. Proved for RGB_TRUE from every class without 8-bit channels and for GREY_TRUE from GREY_DEEP, whatever the components are, in every arithmetic. Violated by the conversion of RGB_TRUE to GREY_TRUE, which does not round: the grey is the mean up to rounding errors, and it (and the RGB_TRUE colour made of it) has whole channels exactly when the sum of the channels is a multiple of three. All other classes reach GREY_TRUE through that conversion and give thirds of whole numbers.", "quantifier": "all classes, all component values including infinities and NaN, all usable worlds; for greys all 8-bit colours and every arithmetic with the error bounds of single precision that is exact on integers", "why_tests_cant": "The claim covers every float in every class, also NaN; the failing colours look right when printed as integers.", "anchors": ["ColorMagic/manipulation/color_converter.cpp:46-50", "ColorMagic/manipulation/color_converter.cpp:113-116", "ColorMagic/manipulation/color_converter.cpp:247-250", "ColorMagic/manipulation/color_converter.cpp:317-330"]}
{"id": "C181", "title": "Sums and differences are accurate in single precision, exact for 8-bit differences and greys", "statement": "Adding two colours of a class that adds channel by channel (RGB, grey, CMYK, XYZ, xyY, CIELUV) with any weights from 0 to 1 in single precision gives every channel to within two millionths of its range of the limited weighted sum (for RGB the root of the weighted sum of squares), subtracting to within one millionth, never outside the range; the opacity is within four millionths. The difference of two 8-bit colours and the sum and difference of two 8-bit greys (weights 1) are exact whole numbers, limited to 0..255.", "quantifier": "all valid colours of the eight classes, all weights from 0 to 1, every arithmetic with the precision of float; all 8-bit colours and greys for the exact part", "why_tests_cant": "Rounding errors over all pairs of colours and weights cannot be enumerated.", "anchors": ["ColorMagic/manipulation/color_calculation.cpp:42-102", "ColorMagic/manipulation/color_calculation.cpp:145-182", "ColorMagic/manipulation/color_calculation.cpp:377-426", "ColorMagic/manipulation/color_calculation.cpp:465-499"]}
{"id": "C182", "title": "What an 8-bit colour becomes on a trip through HSI", "statement": "Converting an 8-bit RGB colour to HSI and back in single precision gives the same colour exactly if it is grey, or if it has a channel 0 and is not a slightly bluish red whose red is more than 30 steps above the red at which its hue would be 359 degrees. Any other colour comes back with its smallest channel subtracted from all three, and in those reds one to three steps have moved from red to blue. What came back survives every further trip.", "quantifier": "for all 8-bit channels and alpha values, all spaces, every arithmetic that is exact on small integers and has relative error 2^-23", "why_tests_cant": "A test compares a few colours with a tolerance; the claim fixes the exact byte of all 2^24 colours for every way the rounding may go.", "anchors": ["ColorMagic/manipulation/color_converter.cpp:41-44", "ColorMagic/manipulation/color_converter.cpp:137-154", "ColorMagic/manipulation/color_converter.cpp:465-487"]}
{"id": "C183", "title": "8-bit greys survive the other classes in single precision", "statement": "Converting an 8-bit grey (GREY_TRUE) to GREY_DEEP, RGB_TRUE, RGB_DEEP, CMYK, HSV, HSL, HSI, HCY, and in the preset colour spaces in which 8-bit RGB colours survive also to XYZ, LAB or xyY, and back in single precision gives the same level exactly, and the same opacity (exactly for opaque and transparent greys and for GREY_DEEP, otherwise up to a millionth).", "quantifier": "for all levels and opacities from 0 to 255, all spaces, every arithmetic that is exact on small integers and has relative error 2^-23", "why_tests_cant": "A test compares a few greys with a tolerance on one machine; the claim is equality for all levels and classes however the intermediate results are rounded.", "anchors": ["ColorMagic/manipulation/color_converter.cpp:46-50", "ColorMagic/manipulation/color_converter.cpp:252-260", "ColorMagic/manipulation/color_converter.cpp:317-325", "ColorMagic/spaces/grey_truecolor.cpp:58-61"]}
{"id": "C184", "title": "Asking a matrix about its rows and columns", "statement": "is_row_null, is_column_null, are_rows_equal and are_columns_equal answer whether all elements of the row or column compare equal to 0, or the two rows or columns compare equal element by element, and answer no for a row or column that does not exist.", "quantifier": "all matrices of any shape and element type, all int indexes", "why_tests_cant": "unbounded shapes and indexes; a negative index reads outside the storage, which a test cannot observe reliably", "anchors": ["ColorMagic/utils/matrix.h: is_row_null, is_column_null, are_rows_equal, are_columns_equal"]}
{"id": "C185", "title": "Preset white points are the CIE standard illuminants", "statement": "Every white point preset has the published chromaticity of the standard illuminant and observer it is named after, to 0.0005 in x and y, and the tristimulus values that belong to it for Y = 1, to 0.0015, in single precision.", "quantifier": "all forty presets, every arithmetic with relative error 2^-23", "why_tests_cant": "A test would repeat the literals of the code; the claim compares all of them with an independent table and covers the rounding of every conforming arithmetic.", "anchors": ["ColorMagic/spaces/white_point.h: white_point_presets"]}
{"id": "C186", "title": "Making and filling matrices", "statement": "A matrix made with a size and a value has that value in every element, one made without a value is zero, one made from a list of the right length has element i*columns+j of the list at (i,j), one made from a list of another length is zero, a negative size is an exception, and fill gives every element the value and keeps the shape.", "quantifier": "all sizes, all element types, all lists", "why_tests_cant": "unbounded sizes and lists", "anchors": ["ColorMagic/utils/matrix.h: constructors, fill"]}
