{
 "claims": [
  {
   "property": "C01",
   "status": "proved",
   "theorems": [
    "C01_components_in_range"
   ],
   "note": ""
  },
  {
   "property": "C02",
   "status": "partial",
   "theorems": [
    "C02_lightness_violated",
    "C02_lightness_partial"
   ],
   "note": "Violated through set_component (C02_lightness_violated); proved for all states reached by constructors and the named setters."
  },
  {
   "property": "C03",
   "status": "proved",
   "theorems": [
    "C03_get_component",
    "C03_set_component",
    "C03_set_get"
   ],
   "note": ""
  },
  {
   "property": "C04",
   "status": "proved",
   "theorems": [
    "C04_setter_frame",
    "C04_set_component_frame",
    "C04_alpha_frame"
   ],
   "note": ""
  },
  {
   "property": "C05",
   "status": "partial",
   "theorems": [
    "C05_alpha_violated",
    "C05_alpha_partial",
    "C05_true_constructors",
    "C05_setter",
    "C05_set_get",
    "C05_set_get_true"
   ],
   "note": "Violated: most constructors store the given alpha unclamped (C05_alpha_violated); proved for valid constructor alphas, for the setter, and for the true-colour constructors."
  },
  {
   "property": "C06",
   "status": "partial",
   "theorems": [
    "C06_hue_loop_terminates",
    "C06_hue_periodic",
    "C06_hue_violated",
    "C06_hue_mod_360_partial",
    "C06_integer_hues",
    "C06_hue_nonfinite"
   ],
   "note": "Violated for non-integer hues above 359 (C06_hue_violated: 359.5 becomes 359); proved for hues reduced mod 360 to a value the loop leaves alone."
  },
  {
   "property": "C07",
   "status": "proved",
   "theorems": [
    "C07_eq_iff",
    "C07_equivalence",
    "C07_reachable_no_nan"
   ],
   "note": ""
  },
  {
   "property": "C08",
   "status": "partial",
   "theorems": [
    "C08_plus_throws_iff",
    "C08_plus_components",
    "C08_plus_comm",
    "C08_zero_not_neutral",
    "C08_zero_neutral_partial"
   ],
   "note": "Commutativity and the component sums are proved; black/zero is not neutral for hue types when the alpha is scaled (C08_zero_not_neutral)."
  },
  {
   "property": "C09",
   "status": "proved",
   "theorems": [
    "C09_multiply_divide",
    "C09_zero_alpha"
   ],
   "note": ""
  },
  {
   "property": "C10",
   "status": "proved",
   "theorems": [
    "C10_copy",
    "C10_copy_alpha",
    "C10_copy_alpha_true",
    "C10_copy_same"
   ],
   "note": ""
  },
  {
   "property": "C11",
   "status": "partial",
   "theorems": [
    "C11_assign_violated",
    "C11_assign_partial"
   ],
   "note": "Violated: assignment keeps the target's alpha and space (C11_assign_violated); the components part is proved."
  },
  {
   "property": "C12",
   "status": "partial",
   "theorems": [
    "C12_from_base_always_throws",
    "C12_from_base_partial"
   ],
   "note": "Four of the constructors from color_base always throw (C12_from_base_always_throws); the rest is proved."
  },
  {
   "property": "C13",
   "status": "proved",
   "theorems": [
    "C13_hex_int",
    "C13_hex_int_alpha",
    "C13_hex_int_injective"
   ],
   "note": ""
  },
  {
   "property": "C14",
   "status": "partial",
   "theorems": [
    "C14_rrggbb",
    "C14_aarrggbb",
    "C14_alpha",
    "C14_violated",
    "C14_rejects_partial"
   ],
   "note": "Documented strings are accepted with the right bytes; strings without inner # outside the language are rejected; an inner # is accepted or undefined (C14_violated)."
  },
  {
   "property": "C15",
   "status": "proved",
   "theorems": [
    "C15_determinant",
    "C15_non_square",
    "C15_empty"
   ],
   "note": "For a 0x0 matrix the code returns 0 (C15_empty); every size n+1 gives the determinant."
  },
  {
   "property": "C16",
   "status": "proved",
   "theorems": [
    "C16_inverse",
    "C16_inverse_mul",
    "C16_singular"
   ],
   "note": ""
  },
  {
   "property": "C17",
   "status": "proved",
   "theorems": [
    "C17_adjoint",
    "C17_minors"
   ],
   "note": ""
  },
  {
   "property": "C18",
   "status": "partial",
   "theorems": [
    "C18_violated",
    "C18_row_times_column",
    "C18_product_partial",
    "C18_laws_partial",
    "C18_mul_assign"
   ],
   "note": "The result has the shape of the right operand and uses its row count as inner dimension: the mathematical product exactly if the left factor is square (C161_mul_iff); C161_mul says what happens for all other shapes (upper left square of A times B, or undefined)."
  },
  {
   "property": "C19",
   "status": "partial",
   "theorems": [
    "C19_violated",
    "C19_mulVec_partial",
    "C19_laws_partial"
   ],
   "note": "Right exactly for square matrices (C161_mulVec_iff); otherwise zeros are appended or the result is written outside (C161_mulVec, C19_violated)."
  },
  {
   "property": "C20",
   "status": "partial",
   "theorems": [
    "C20_violated",
    "C20_transpose_partial"
   ],
   "note": "Right exactly for square matrices; for other shapes with elements the call is undefined behaviour (C20_violated, C161_transpose)."
  },
  {
   "property": "C21",
   "status": "partial",
   "theorems": [
    "C21_violated",
    "C21_access_partial",
    "C21_inside"
   ],
   "note": "Negative indexes and indexes past the end by one row or column reach out-of-range memory (C21_violated); indexes inside work (C21_inside)."
  },
  {
   "property": "C22",
   "status": "partial",
   "theorems": [
    "C22_violated",
    "C22_insert_partial",
    "C22_wrong_length"
   ],
   "note": "Right exactly for square matrices, at most one row or no columns (C161_insert_iff); the flat index i*rows+j is wrong for other shapes (C22_violated, C161_insert)."
  },
  {
   "property": "C23",
   "status": "proved",
   "theorems": [
    "C23_resize"
   ],
   "note": ""
  },
  {
   "property": "C24",
   "status": "partial",
   "theorems": [
    "C24_elementwise",
    "C24_add_sub",
    "C24_smaller_partial",
    "C24_smaller_violated"
   ],
   "note": "Same shape: proved. Smaller right operand: out_of_range unless the message of the exception is overrun (C24_smaller_violated); C161_cells gives the outcome for all shapes."
  },
  {
   "property": "C25",
   "status": "partial",
   "theorems": [
    "C25_violated",
    "C25_shape_partial",
    "C25_all_matrices"
   ],
   "note": "Invariant kept by every operation except resize with a negative column count (C25_violated)."
  },
  {
   "property": "C26",
   "status": "partial",
   "theorems": [
    "C26_replace",
    "C26_ordered_partial",
    "C26_operations",
    "C26_remove_violated",
    "C26_shared_part_violated"
   ],
   "note": "Removing a part is undefined behaviour (C26_remove_violated); changing the border of a part that is already in a list unsorts it (C26_shared_part_violated). Proved for all other histories with borders that are not NaN."
  },
  {
   "property": "C27",
   "status": "proved",
   "theorems": [
    "C27_evaluation",
    "C27_order_irrelevant"
   ],
   "note": ""
  },
  {
   "property": "C28",
   "status": "partial",
   "theorems": [
    "C28_power",
    "C28_sRGB_partial",
    "C28_sRGB_violated",
    "C28_romm_partial",
    "C28_romm_violated",
    "C28_uhdtv_partial",
    "C28_uhdtv_violated"
   ],
   "note": "Proved for 1.8, 2.2, 2.6, 2.8, Adobe. sRGB, ROMM and UHDTV are not inverse near the knee (C28_*_violated); proved outside it. Exact arithmetic."
  },
  {
   "property": "C29",
   "status": "partial",
   "theorems": [
    "C29_ends",
    "C29_unit_partial",
    "C29_knees_partial",
    "C29_violated"
   ],
   "note": "Endpoints and range proved for all presets; monotone except across the knee of sRGB and UHDTV (forward) and ROMM (inverse), where C29_violated shows a decrease. Exact arithmetic."
  },
  {
   "property": "C30",
   "status": "proved",
   "theorems": [
    "C30_from_chromaticity",
    "C30_from_tristimulus"
   ],
   "note": "Exact arithmetic."
  },
  {
   "property": "C31",
   "status": "proved",
   "theorems": [
    "C31_white",
    "C31_primaries",
    "C31_reported",
    "C31_built"
   ],
   "note": "Exact arithmetic, for every history of construction, copying, set_white_point, set_gamma_curve (C31_white, C31_primaries, C31_built); C31_reported holds in every rounding."
  },
  {
   "property": "C32",
   "status": "proved",
   "theorems": [
    "C32_inverse",
    "C32_degenerate"
   ],
   "note": "Exact arithmetic; C32_degenerate says what is stored when a primary has weight zero."
  },
  {
   "property": "C33",
   "status": "partial",
   "theorems": [
    "C33_type_and_space",
    "C33_convertTo_partial",
    "C33_opacity_partial",
    "C33_black_violated",
    "C33_black_witness",
    "C33_quantised_violated"
   ],
   "note": "Type and colour space hold for all 15 to_* functions (C33_type_and_space). Opacity: exact except that 8-bit targets quantise to n/255 (C33_quantised_violated) and black HSL colours become transparent (C33_black_violated)."
  },
  {
   "property": "C34",
   "status": "partial",
   "theorems": [
    "C34_unmodified_partial",
    "C34_convertTo_partial",
    "C34_rgb_deep_to_cie",
    "C34_violated"
   ],
   "note": "Holds for all pairs except RGB_DEEP to a CIE type, where the input is gamma-decoded in place (C34_rgb_deep_to_cie, C34_violated)."
  },
  {
   "property": "C35",
   "status": "partial",
   "theorems": [
    "C35_available",
    "C35_convertTo_partial",
    "C35_violated",
    "C35_null_space_violated",
    "C35_sum_violated"
   ],
   "note": "Holds for the 15 to_* functions with usable colour spaces; convertTo returns null for LCH (C35_violated); null colour space and color_base sums are undefined behaviour."
  },
  {
   "property": "C36",
   "status": "partial",
   "theorems": [
    "C36_same_object",
    "C36_convertTo_partial",
    "C36_fresh_otherwise"
   ],
   "note": "Holds for the 15 to_* functions; convertTo on LCH returns null (C35_violated)."
  },
  {
   "property": "C37",
   "status": "proved",
   "theorems": [
    "C37_in_range",
    "C37_reachable"
   ],
   "note": "For conversions between different types for every input; conversions to the own type return the input, which is in range when reachable (C37_reachable)."
  },
  {
   "property": "C38",
   "status": "proved",
   "theorems": [
    "C38_true_deep"
   ],
   "note": "Holds for every arithmetic in which rounding has relative error at most 2^-20 (SmallError); the exact arithmetic is one instance."
  },
  {
   "property": "C39",
   "status": "proved",
   "theorems": [
    "C39_cmyk"
   ],
   "note": "Exact arithmetic."
  },
  {
   "property": "C40",
   "status": "partial",
   "theorems": [
    "C40_hsv_partial",
    "C40_gap_partial",
    "C40_gap_violated"
   ],
   "note": "Identity exactly for the colours whose hue is not strictly between 359 and 360 degrees (C40_hsv_partial, C40_gap_violated); in the gap only blue changes, by less than 1/60. Exact arithmetic."
  },
  {
   "property": "C41",
   "status": "partial",
   "theorems": [
    "C41_hsl_partial",
    "C41_gap_violated",
    "C41_black_violated"
   ],
   "note": "Identity outside the hue gap for all colours but opaque black; black comes back transparent (C41_black_violated). Exact arithmetic."
  },
  {
   "property": "C42",
   "status": "partial",
   "theorems": [
    "C42_hcy_partial",
    "C42_gap_violated"
   ],
   "note": "Identity exactly outside the hue gap. Exact arithmetic; with rounding errors see C162."
  },
  {
   "property": "C43",
   "status": "partial",
   "theorems": [
    "C43_hsi_partial",
    "C43_violated",
    "C43_offset_partial"
   ],
   "note": "Identity exactly for greys and for colours with a zero channel outside the hue gap; other colours lose their smallest channel (C43_violated, C43_offset_partial)."
  },
  {
   "property": "C44",
   "status": "partial",
   "theorems": [
    "C44_hsv_hsl_partial",
    "C44_hsv_hsl_violated",
    "C44_hsl_hsv_partial",
    "C44_hsl_hsv_violated"
   ],
   "note": "Exact characterisation of the HSV and HSL colours for which the direct conversion agrees with the route through RGB, with the negation for all others."
  },
  {
   "property": "C45",
   "status": "partial",
   "theorems": [
    "C45_between_deep",
    "C45_between_true",
    "C45_deep_partial",
    "C45_true_partial",
    "C45_again",
    "C45_quantised_violated",
    "C45_single_partial",
    "C45_single_violated",
    "C45_between_single_partial",
    "C45_between_violated"
   ],
   "note": "Mean between min and max, deep/deep and true/true trips, second conversion; a GREY_DEEP colour does not survive RGB_TRUE (C45_quantised_violated). The deep trip and the bounds are exact with exact arithmetic; in binary32 C45_single_partial says for every normal level whether it survives RGB_DEEP, and that the error is one unit in the last place (C45_single_violated is a witness); the mean leaves the range of the channels by at most 4e-7 (C45_between_single_partial) and does leave it (C45_between_violated)."
  },
  {
   "property": "C46",
   "status": "partial",
   "theorems": [
    "C46_xyy_partial",
    "C46_black_partial",
    "C46_violated"
   ],
   "note": "Exact arithmetic. Identity for every colour with Y > 0 (C46_xyy_partial) and for black (C46_black_partial). False for every other colour with Y = 0, which comes back black (C46_violated): the two cases together are exhaustive."
  },
  {
   "property": "C47",
   "status": "proved",
   "theorems": [
    "C47_lab"
   ],
   "note": "Exact arithmetic; all white points with positive tristimulus values, all colours whose LAB values are within the limits of the class."
  },
  {
   "property": "C48",
   "status": "partial",
   "theorems": [
    "C48_xyz_partial",
    "C48_presets_partial",
    "C48_true_partial",
    "C48_violated"
   ],
   "note": "Exact arithmetic. Identity in every space with non-negative chromaticities and positive weights for every channel value that the gamma curves return (C48_xyz_partial), in every preset but cieRGB outside the knee gaps of C28 (C48_presets_partial), and for every 8-bit colour in these presets with every gamma but ROMM (C48_true_partial). False for cieRGB, where red comes back black (C48_violated)."
  },
  {
   "property": "C49",
   "status": "partial",
   "theorems": [
    "C49_opacity_partial",
    "C49_aux",
    "C49_violated"
   ],
   "note": "Exact arithmetic. No colour inside the CIELUV limits comes back unchanged (C49_violated), because of the two formula errors in xyz_to_cieluv. Opacity, space and type survive (C49_opacity_partial)."
  },
  {
   "property": "C50",
   "status": "partial",
   "theorems": [
    "C50_lightness_partial",
    "C50_violated"
   ],
   "note": "Exact arithmetic. False for every colour with b > 0 or with a chroma other than 100 M/(2 M - 100), M being the limit of a and b (C50_violated): the chroma is rescaled one way only and the hue is stored in radians but read as degrees. Lightness, opacity, space and validity survive (C50_lightness_partial)."
  },
  {
   "property": "C51",
   "status": "partial",
   "theorems": [
    "C51_table",
    "C51_any_type",
    "C51_any_type_total",
    "C51_lch_violated"
   ],
   "note": "Exact arithmetic for the table on RGB_DEEP (C51_table); any rounding for the reduction of every other type to RGB_DEEP (C51_any_type, C51_any_type_total). An LCH source yields a null pointer (C51_lch_violated)."
  },
  {
   "property": "C52",
   "status": "proved",
   "theorems": [
    "C52_mirrored"
   ],
   "note": "Any rounding."
  },
  {
   "property": "C53",
   "status": "partial",
   "theorems": [
    "C53_opaque_over",
    "C53_transparent_over_partial",
    "C53_src_dest_partial",
    "C53_clear_out",
    "C53_violated"
   ],
   "note": "Exact arithmetic. Opaque over, clear and out hold; transparent over, src and dest hold only where the result is not fully transparent, because fully transparent colours lose their colour (C53_violated)."
  },
  {
   "property": "C54",
   "status": "proved",
   "theorems": [
    "C54_associative"
   ],
   "note": "Exact arithmetic."
  },
  {
   "property": "C55",
   "status": "proved",
   "theorems": [
    "C55_valid",
    "C55_rounding",
    "C55_any_type"
   ],
   "note": "C55_valid in exact arithmetic, C55_rounding for rounding that is exact on small integers, C55_any_type for the other types."
  },
  {
   "property": "C56",
   "status": "proved",
   "theorems": [
    "C56_null",
    "C56_space",
    "C56_hue_modes_unchecked"
   ],
   "note": "Covers what the statement names: the operators and the componentwise modes. Hue, saturation, color and luminosity are outside it and dereference null without a check (C56_hue_modes_unchecked)."
  },
  {
   "property": "C57",
   "status": "proved",
   "theorems": [
    "C57_opaque",
    "C57_translucent",
    "C57_any_type",
    "C57_any_type_total"
   ],
   "note": "Exact arithmetic for RGB_DEEP with Mode.Finite (custom functions must return finite numbers); the formula is the implemented one, whether it is the standard one is C62. Any rounding for the reduction of other types."
  },
  {
   "property": "C58",
   "status": "partial",
   "theorems": [
    "C58_bounded_partial",
    "C58_opaque_partial",
    "C58_violated",
    "C58_any_type",
    "C58_hue_modes"
   ],
   "note": "RGB_DEEP in exact arithmetic: all modes but five and custom for any opacity, all modes for opaque colours. False for linear_dodge, plus_lighter, vivid_light, linear_light and divide on half-transparent colours (C58_violated). Other source types and the hue modes: any rounding, LCH sources excluded (they yield null)."
  },
  {
   "property": "C59",
   "status": "partial",
   "theorems": [
    "C59_commutative",
    "C59_commutative_exact",
    "C59_types",
    "C59_types_exact"
   ],
   "note": "All types other than LCH (LCH sources give a null pointer, C58). Same type: both orders give the same colour. Different types (C59_types, C59_types_exact): both orders give one RGB_DEEP colour, converted to the type of the respective first colour. Any rounding for eight modes, exact arithmetic for difference, exclusion and hard_mix."
  },
  {
   "property": "C60",
   "status": "proved",
   "theorems": [
    "C60_white_neutral",
    "C60_black_neutral",
    "C60_white_absorbing",
    "C60_black_absorbing",
    "C60_white_neutral_any",
    "C60_black_neutral_any",
    "C60_white_absorbing_any",
    "C60_black_absorbing_any",
    "C60_overlay"
   ],
   "note": "Exact arithmetic for RGB_DEEP colours, in either order; neutral colours of any opacity act on opaque colours, opaque absorbing colours on colours of any opacity. Overlay / hard_light: any rounding, all types but LCH, both colours of the same type."
  },
  {
   "property": "C61",
   "status": "proved",
   "theorems": [
    "C61_dissolve",
    "C61_any_type"
   ],
   "note": "RGB_DEEP colours, for every rounding that keeps small integers and all representable channel values; also says which of the two is picked."
  },
  {
   "property": "C62",
   "status": "partial",
   "theorems": [
    "C62_standard_partial",
    "C62_burn_violated",
    "C62_violated",
    "C62_soft_light_jump"
   ],
   "note": "Exact arithmetic, opaque RGB_DEEP colours. Holds for all modes but color_burn (1 minus the definition everywhere), vivid_light (burn and dodge exchanged), soft_light (missing complement, C62_soft_light_jump) and, beyond the statement, subtract (source minus destination)."
  },
  {
   "property": "C63",
   "status": "partial",
   "theorems": [
    "C63_add",
    "C63_mix",
    "C63_subtract",
    "C63_add_base_partial",
    "C63_mix_base_partial",
    "C63_subtract_base_partial",
    "C63_zero_violated",
    "C63_null_violated",
    "C63_nan_violated"
   ],
   "note": "Proved for the typed functions of every type and every weight other than NaN, in every rounding. Violated for NaN weights (accepted), for the base-class functions on HSI/HCY (null pointer from add), HSI/HCY/XYY/CIELUV (null pointer from mix and subtract), and for weight 0, which base mix and subtract reject."
  },
  {
   "property": "C64",
   "status": "partial",
   "theorems": [
    "C64_between_partial",
    "C64_lab_violated",
    "C64_hsv_self"
   ],
   "note": "Proved for the eight types mixed channel by channel, in exact arithmetic; HSV colours mixed with themselves too. Violated for LAB, which is mixed through XYZ."
  },
  {
   "property": "C65",
   "status": "partial",
   "theorems": [
    "C65_symmetric",
    "C65_components",
    "C65_two_spaces",
    "C65_two_spaces_violated",
    "C65_excluded"
   ],
   "note": "All fifteen types, every rounding, for colours of one colour space: the same object value with alpha included, nothing but alpha differs otherwise (C65_symmetric, C65_excluded). For colours of two colour spaces the components agree for the nine types outside the CIE family (C65_two_spaces) and for XYZ, xyY and CIELUV (C65_components). False for LAB colours of two colour spaces (C65_two_spaces_violated), because each colour is converted relative to its own white point and the sum relative to the first one's."
  },
  {
   "property": "C66",
   "status": "proved",
   "theorems": [
    "C66_empty",
    "C66_between",
    "C66_copies",
    "C66_order"
   ],
   "note": "All fifteen types, lists of any length, exact arithmetic. The whole-colour clauses exclude the alpha of CMYK averages (C67). In binary32 the average of three equal colours can miss them by one unit in the last place (C164_three_violated); C164 bounds the error."
  },
  {
   "property": "C67",
   "status": "partial",
   "theorems": [
    "C67_alpha_partial",
    "C67_violated"
   ],
   "note": "All types and lists of any length, except the alpha-included average of CMYK colours, where the claim is violated."
  },
  {
   "property": "C68",
   "status": "partial",
   "theorems": [
    "C68_alpha_partial",
    "C68_violated"
   ],
   "note": "The nine types with a difference of their own. Violated for HSI, HSL, HCY, LAB and both LCH classes, which drop the flag."
  },
  {
   "property": "C69",
   "status": "proved",
   "theorems": [
    "C69_value",
    "C69_metric",
    "C69_squared_range",
    "C69_same_object"
   ],
   "note": "Colours of all types, exact arithmetic, every requested space but CIELUV (see C70)."
  },
  {
   "property": "C70",
   "status": "partial",
   "theorems": [
    "C70_root_partial",
    "C70_violated"
   ],
   "note": "Every rounding, every requested space but CIELUV. Violated for CIELUV: euclidean_distance drops its last argument."
  },
  {
   "property": "C71",
   "status": "proved",
   "theorems": [
    "C71_value",
    "C71_weighted"
   ],
   "note": "Colours of all types, exact arithmetic."
  },
  {
   "property": "C72",
   "status": "proved",
   "theorems": [
    "C72_value",
    "C72_metric"
   ],
   "note": "LAB colours and, through their LAB components, colours of all types; exact arithmetic."
  },
  {
   "property": "C73",
   "status": "proved",
   "theorems": [
    "C73_cie94",
    "C73_cmc"
   ],
   "note": "Exact arithmetic, positive kL, kC, kH, non-negative k1, k2. Rounding is not covered: the difference under the root may then become negative."
  },
  {
   "property": "C74",
   "status": "partial",
   "theorems": [
    "C74_symmetric_partial",
    "C74_violated"
   ],
   "note": "Exact arithmetic, for the Euclidean distances, CIE76 and CIEDE2000. Violated for CIE94 and CMC, which weigh by the chroma of the first colour only."
  },
  {
   "property": "C75",
   "status": "partial",
   "theorems": [
    "C75_illegal",
    "C75_size_partial",
    "C75_sets_partial",
    "C75_negative_violated",
    "C75_lch_violated"
   ],
   "note": "proved for 2 to 360 colours and refusal of 0, 1 and more than 360; negative counts are accepted and LCH colours give null pointers (both shown as violations)"
  },
  {
   "property": "C76",
   "status": "partial",
   "theorems": [
    "C76_converted",
    "C76_hues_partial",
    "C76_limited_partial",
    "C76_violated"
   ],
   "note": "every arithmetic: each member is the conversion of the turned HSL colour; exact arithmetic: hues evenly spaced unless the hue falls between 359 and 360 degrees (violation shown)"
  },
  {
   "property": "C77",
   "status": "partial",
   "theorems": [
    "C77_hsl_partial",
    "C77_hsl_violated",
    "C77_rgb_formula",
    "C77_rgb_partial",
    "C77_black_violated"
   ],
   "note": "exact arithmetic: HSL hues outside the gap and RGB colours that are not black; violations shown for the gap and for black"
  },
  {
   "property": "C78",
   "status": "partial",
   "theorems": [
    "C78_monochromatic_illegal",
    "C78_monochromatic_partial",
    "C78_mode",
    "C78_mode_violated",
    "C78_nan_violated",
    "C78_lch_violated",
    "C78_analogous_illegal",
    "C78_analogous_partial",
    "C78_split_partial",
    "C78_shades",
    "C78_analogous_hsl_partial"
   ],
   "note": "sizes, refusals and positions for all types but LCH; NaN amounts, invalid modes for one colour and LCH colours are shown as violations"
  },
  {
   "property": "C79",
   "status": "partial",
   "theorems": [
    "C79_partial",
    "C79_xyz_scale",
    "C79_presets",
    "C79_violated",
    "C79_class",
    "C79_rgb_grey"
   ],
   "note": "Exact arithmetic, every class except LCH (C79_class): every multiple of the source white goes to the same multiple of the target white within 4e-8 to 1e-5 times its size, exactly for XYZ scaling, which leaves every RGB grey exactly unchanged (C79_rgb_grey); the hypothesis holds for all presets. Not exact for the other methods because the stored inverse matrices are rounded (C79_violated)."
  },
  {
   "property": "C80",
   "status": "partial",
   "theorems": [
    "C80_same_pointer",
    "C80_partial",
    "C80_xyz_scale",
    "C80_violated",
    "C80_class",
    "C80_rgb"
   ],
   "note": "Same white point object: identical pointer returned, nothing changed, all methods, classes and arithmetics. Equal values in another object, exact arithmetic: XYZ colours within the error of the stored inverse (C80_violated shows it is not exact; full Bradford and CMCCAT97 need a non-zero luminance); every other class except LCH through its XYZ value (C80_class, methods that do not read a second component); RGB colours come back exactly with XYZ scaling (C80_rgb)."
  },
  {
   "property": "C81",
   "status": "partial",
   "theorems": [
    "C81_partial",
    "C81_transform_partial"
   ],
   "note": "All eleven methods, every class except LCH (null pointer, C99_lch_violated) and, for the full Bradford and CMCCAT97 methods, grey (undefined, C99_grey_violated), every arithmetic; C81_transform_partial in exact arithmetic: the new definition maps RGB white to the target white."
  },
  {
   "property": "C82",
   "status": "partial",
   "theorems": [
    "C82_hsl_partial",
    "C82_rgb_deep_partial",
    "C82_rgb_converted",
    "C82_hsi_violated"
   ],
   "note": "HSL variants: exact no-op for every colour; RGB variants: RGB_DEEP keeps its value, other classes get the round trip through RGB_DEEP, which changes e.g. HSI colours (violation shown)"
  },
  {
   "property": "C83",
   "status": "partial",
   "theorems": [
    "C83_range",
    "C83_monotone_partial",
    "C83_infinite_violated"
   ],
   "note": "range for all four functions and all percentages in every arithmetic; monotonicity for HSL colours when 1 + percentage is finite; minus infinity is a counterexample"
  },
  {
   "property": "C84",
   "status": "partial",
   "theorems": [
    "C84_rgb",
    "C84_hsl_partial",
    "C84_hsl_violated",
    "C84_zero_violated"
   ],
   "note": "RGB variants: all types; HSL variants: all types but HSL and percentages other than 0; HSL colours are modified in place and 0 returns the given pointer (both shown as violations)"
  },
  {
   "property": "C85",
   "status": "proved",
   "theorems": [
    "C85_bytes",
    "C85_named",
    "C85_getters"
   ],
   "note": ""
  },
  {
   "property": "C86",
   "status": "partial",
   "theorems": [
    "C86_presets_partial",
    "C86_violated"
   ],
   "note": "Violated by 16 presets whose X is ten times too small (C86_violated); proved for the other 24."
  },
  {
   "property": "C87",
   "status": "partial",
   "theorems": [
    "C87_presets_partial",
    "C87_violated"
   ],
   "note": "Violated by cieRGB (C87_violated): its red primary has negative weight because of the wrong white point E; proved for the other 19."
  },
  {
   "property": "C88",
   "status": "partial",
   "theorems": [
    "C88_pure"
   ],
   "note": "Any rounding, all types, CIE types in a usable colour space. Returns normally and changes nothing in all cases; the result is a new object except for LCH sources, where it is null (stated in the theorem)."
  },
  {
   "property": "C89",
   "status": "partial",
   "theorems": [
    "C89_normal_partial",
    "C89_violated"
   ],
   "note": "Exact arithmetic, RGB_DEEP. Three of the four settings are as documented; only the destination region gives atop instead of dest (C89_violated)."
  },
  {
   "property": "C90",
   "status": "partial",
   "theorems": [
    "C90_unmodified_partial",
    "C90_violated"
   ],
   "note": "Every rounding. RGB distances on all colours, LAB and CIELUV distances on colours that are not RGB_DEEP. Violated for RGB_DEEP colours, whose channels are gamma-decoded in place."
  },
  {
   "property": "C91",
   "status": "partial",
   "theorems": [
    "C91_defined_partial",
    "C91_violated"
   ],
   "note": "Exact arithmetic. Well-definedness is complete; zero only for equal components is violated, since hues are cut to whole degrees."
  },
  {
   "property": "C92",
   "status": "partial",
   "theorems": [
    "C92_cie94",
    "C92_cmc_partial",
    "C92_cmc_violated"
   ],
   "note": "Exact arithmetic. CIE94 in full; CMC for all hues but exactly 164 degrees, where the code takes the other branch (C92_cmc_violated)."
  },
  {
   "property": "C93",
   "status": "partial",
   "theorems": [
    "C93_opacity_partial",
    "C93_eight_bit_violated",
    "C93_black_violated"
   ],
   "note": "proved for the types without 8-bit alpha and for colours that are not black; violations shown for the others"
  },
  {
   "property": "C94",
   "status": "partial",
   "theorems": [
    "C94_partial",
    "C94_lch_violated"
   ],
   "note": "all types but LCH, for which the by-reference variants dereference a null pointer (violation shown)"
  },
  {
   "property": "C95",
   "status": "proved",
   "theorems": [
    "C95_converted",
    "C95_formulas",
    "C95_minus_one",
    "C95_luma"
   ],
   "note": ""
  },
  {
   "property": "C96",
   "status": "partial",
   "theorems": [
    "C96_partial",
    "C96_others",
    "C96_violated"
   ],
   "note": "False for RGB_DEEP, whose components are linearised in place (C96_violated). Proved for all other classes; all other objects are untouched for every class (C96_others)."
  },
  {
   "property": "C99",
   "status": "partial",
   "theorems": [
    "C99_partial",
    "C99_lch_violated",
    "C99_grey_violated"
   ],
   "note": "False for LCH (null pointer) and for grey with bradford_adaptation and cmccat97_adaptation (reads past the end). Proved for all other combinations in every arithmetic."
  },
  {
   "property": "C97",
   "status": "partial",
   "theorems": [
    "C97_partial",
    "C97_bradford_partial",
    "C97_cmccat97_partial",
    "C97_any_class",
    "C97_class_values",
    "C97_second_zero_violated",
    "C97_class_published",
    "C97_no_green_violated"
   ],
   "note": "Every class except LCH: simplified methods, CAT02 and CMCCAT2000 adapt the XYZ value and convert back (C97_any_class, every arithmetic; C97_class_values carries C97, C98, C100 over); the XYZ value is the published transform up to the error of the stored inverse (C97_class_published). Full Bradford and CMCCAT97: XYZ colours only; for other classes they divide by the second component of the colour instead of the luminance, so colours without green, saturation or a* are destroyed (C97_second_zero_violated), e.g. red becomes white (C97_no_green_violated)."
  },
  {
   "property": "C98",
   "status": "partial",
   "theorems": [
    "C98_cat02_partial",
    "C98_cmccat2000_partial",
    "C98_none_cat02_partial",
    "C98_none_cmccat2000_partial",
    "C98_full_cat02",
    "C98_violated"
   ],
   "note": "Exact arithmetic. XYZ colours; every other class except LCH through C97_class_values. False for CMCCAT97 with factor 0 (C98_violated): the blue response is raised to a power in any case."
  },
  {
   "property": "C100",
   "status": "partial",
   "theorems": [
    "C100_partial",
    "C100_violated",
    "C100_class"
   ],
   "note": "Every class except LCH (C100_class). False for full Bradford and CMCCAT97, which divide by the luminance and turn black into (100, 100, 100) in every arithmetic (C100_violated, C97_second_zero_violated)."
  },
  {
   "property": "C101",
   "status": "partial",
   "theorems": [
    "C101_partial",
    "C101_violated",
    "C101_class"
   ],
   "note": "Exact arithmetic. XYZ colours for the three full methods; every class except LCH for CMCCAT2000 (C101_class). False for CAT02, which computes the luminance ratio but does not use it (C101_violated)."
  },
  {
   "property": "C102",
   "status": "partial",
   "theorems": [
    "C102_lab",
    "C102_xyy",
    "C102_partial"
   ],
   "note": "XYZ colours (C102_partial), exact arithmetic, simplified methods; exact for XYZ scaling, otherwise with an explicit bound from the error of the stored inverse. LAB colours (C102_lab) and xyY colours that are not black (C102_xyy) under XYZ scaling exactly. Missing: the other classes, and LAB and xyY with the other methods."
  },
  {
   "property": "C103",
   "status": "proved",
   "theorems": [
    "C103_path",
    "C103_grey_true"
   ],
   "note": "The eight pairs with a conversion of their own (greys and RGB_TRUE among each other, HSV and HSL) are outside the statement; for the 8-bit grey the station RGB_TRUE is proved as well (C103_grey_true)."
  },
  {
   "property": "C104",
   "status": "proved",
   "theorems": [
    "C104_to_hsv",
    "C104_from_hsv"
   ],
   "note": "In exact arithmetic."
  },
  {
   "property": "C105",
   "status": "proved",
   "theorems": [
    "C105_to_hsl",
    "C105_from_hsl",
    "C105_from_black"
   ],
   "note": "Exact arithmetic. At lightness 0 the channels are those of the formula but the opacity is cleared (C105_from_black, C41)."
  },
  {
   "property": "C106",
   "status": "proved",
   "theorems": [
    "C106_to_hcy",
    "C106_from_hcy"
   ],
   "note": "In exact arithmetic."
  },
  {
   "property": "C107",
   "status": "partial",
   "theorems": [
    "C107_to_hsi",
    "C107_from_hsi",
    "C107_from_hsi_partial",
    "C107_grey",
    "C107_from_hsi_violated"
   ],
   "note": "RGB to HSI proved. HSI to RGB is violated for saturations strictly between 0 and 1 (C107_from_hsi_violated): the code leaves out the part i(1-s) common to all channels. What it computes is stated in C107_from_hsi; for saturation 1 (C107_from_hsi_partial) and 0 (C107_grey) it agrees with the formula."
  },
  {
   "property": "C108",
   "status": "partial",
   "theorems": [
    "C108_to_cmyk",
    "C108_black",
    "C108_from_cmyk"
   ],
   "note": "Proved for all colours but black; black becomes (1,1,1,1) (C108_black), the division 0/0 behind it."
  },
  {
   "property": "C109",
   "status": "proved",
   "theorems": [
    "C109_grey_deep",
    "C109_from_grey_deep",
    "C109_true_to_deep",
    "C109_deep_to_true",
    "C109_true_to_grey",
    "C109_true_to_grey_deep",
    "C109_grey_true",
    "C109_grey_deep_to_true"
   ],
   "note": "In exact arithmetic."
  },
  {
   "property": "C110",
   "status": "proved",
   "theorems": [
    "C110_to_xyy",
    "C110_black",
    "C110_from_xyy",
    "C110_from_xyy_zero"
   ],
   "note": "In exact arithmetic; the results are limited to the range of the type as the constructors do."
  },
  {
   "property": "C111",
   "status": "proved",
   "theorems": [
    "C111_to_lab",
    "C111_from_lab"
   ],
   "note": "In exact arithmetic."
  },
  {
   "property": "C112",
   "status": "proved",
   "theorems": [
    "C112_to_xyz",
    "C112_from_xyz",
    "C112_white"
   ],
   "note": "In exact arithmetic. C112_white applies it to every predefined space and curve."
  },
  {
   "property": "C113",
   "status": "partial",
   "theorems": [
    "C113_from_luv",
    "C113_to_luv",
    "C113_to_luv_violated"
   ],
   "note": "CIELUV to XYZ proved for positive lightness and chromaticities that are not 0, with luminance relative to 1. XYZ to CIELUV is violated: lightness comes from X and the white point's v' has 4 instead of 9 (C113_to_luv states what is computed, C113_to_luv_violated that white is not neutral)."
  },
  {
   "property": "C114",
   "status": "partial",
   "theorems": [
    "C114_from_lch",
    "C114_to_lch",
    "C114_to_lch_violated"
   ],
   "note": "LCH to LAB and CIELUV proved. The other direction is violated: the chroma is rescaled and the hue is in radians (C114_to_lch); every grey gets chroma 50 (C114_to_lch_violated)."
  },
  {
   "property": "C115",
   "status": "proved",
   "theorems": [
    "C115_componentwise",
    "C115_hsv",
    "C115_through",
    "C115_base",
    "C115_mix"
   ],
   "note": "exact arithmetic for C115_componentwise and C115_hsv; C115_through, C115_base and C115_mix hold with every rounding. HSV hues above 359 degrees are stored as 359 (C06)."
  },
  {
   "property": "C116",
   "status": "proved",
   "theorems": [
    "C116_componentwise",
    "C116_hsv",
    "C116_through",
    "C116_base"
   ],
   "note": "exact arithmetic for C116_componentwise and C116_hsv; C116_through and C116_base hold with every rounding. The types that go through HSV or XYZ drop include_alpha (C68), which C116_through states."
  },
  {
   "property": "C117",
   "status": "proved",
   "theorems": [
    "C117_sound",
    "C117_permanent"
   ],
   "note": "For all sessions; floats with any rounding."
  },
  {
   "property": "C118",
   "status": "partial",
   "theorems": [
    "C118_in_range_partial",
    "C118_blending_partial",
    "C118_violated"
   ],
   "note": "Holds for sessions without component-wise compositing/blending and alpha_multiply/alpha_divide; with blending for all types but RGB_DEEP. Violated for RGB_DEEP after linear_dodge (witness)."
  },
  {
   "property": "C119",
   "status": "proved",
   "theorems": [
    "C119_calls",
    "C119_writes",
    "C119_adapt"
   ],
   "note": "Covers all modelled functions; the objects handed over may change (C34, C84, C90, C96 say when)."
  },
  {
   "property": "C120",
   "status": "proved",
   "theorems": [
    "C120_promises"
   ],
   "note": "Null is allowed by the statement; C35, C36, C51, C63, C75, C78, C88, C99 say when it occurs."
  },
  {
   "property": "C121",
   "status": "partial",
   "theorems": [
    "C121_transfer_partial",
    "C121_romm_violated",
    "C121_uhdtv_violated"
   ],
   "note": "Proved for every preset but UHDTV; ROMM outside a gap between its rounded and exact knee. C121_uhdtv_violated: encode and decode are exchanged for UHDTV at every value strictly between 0 and 1. C121_romm_violated: the decoding branch of ROMM is chosen at the encoded knee's preimage, so e.g. 0.02 decodes too small."
  },
  {
   "property": "C122",
   "status": "partial",
   "theorems": [
    "C122_matrix_partial",
    "C122_violated"
   ],
   "note": "Proved for all presets but cieRGB and cieXYZ; C122_violated: their white point E has an X ten times too small, so the matrices are off by more than 0.8."
  },
  {
   "property": "C123",
   "status": "partial",
   "theorems": [
    "C123_lightness_partial",
    "C123_violated",
    "C123_coded"
   ],
   "note": "C123_coded: what the code computes for all pairs of LAB colours and all positive factors, as a formula with five deviations from the published one. The published value for colours that differ in lightness only, at any chroma and hue (C123_lightness_partial). C123_violated: for all pairs on the positive a axis of different chroma the code returns less than published, because chroma is taken before the a axis is stretched (also the hue is cut to whole degrees, see C91, and the exponent in the rotation term has the wrong sign)."
  },
  {
   "property": "C124",
   "status": "proved",
   "theorems": [
    "C124_hsl",
    "C124_converted"
   ],
   "note": "Exact arithmetic. HSL colours are changed in place (C84_hsl_violated), others through conversion; LCH sources are excluded because the conversion back returns null (C88)."
  },
  {
   "property": "C125",
   "status": "proved",
   "theorems": [
    "C125_cmyk",
    "C125_bytes"
   ],
   "note": "Binary32.binary32 instantiates the float classes (binary32_int, binary32_small)."
  },
  {
   "property": "C126",
   "status": "partial",
   "theorems": [
    "C126_hsv_partial",
    "C126_bytes_partial",
    "C126_bytes_violated",
    "C126_fine_partial",
    "C126_fine_violated"
   ],
   "note": "False for slightly bluish reds: hues between 359 and 360 degrees are limited to 359 (C126_fine_violated, any G < B with R-G >= 60(B-G)+31). Proved for all other colours (C126_fine_partial) except the tie R-G = 60(B-G)+30, where the last bit of the arithmetic decides and nothing is claimed."
  },
  {
   "property": "C127",
   "status": "partial",
   "theorems": [
    "C127_hsl_partial",
    "C127_bytes_partial",
    "C127_bytes_violated",
    "C127_black_violated",
    "C127_fine_partial",
    "C127_fine_violated"
   ],
   "note": "False for slightly bluish reds (C127_fine_violated, R-G >= 60(B-G)+31) and for opaque black (C127_black_violated). Proved for all other 8-bit colours (C127_fine_partial) except the tie R-G = 60(B-G)+30, where the last bit of the arithmetic decides and nothing is claimed."
  },
  {
   "property": "C128",
   "status": "proved",
   "theorems": [
    "C128_conversion"
   ],
   "note": "Every rounding."
  },
  {
   "property": "C129",
   "status": "proved",
   "theorems": [
    "C129_distance"
   ],
   "note": "Every rounding; colours whose conversion is defined."
  },
  {
   "property": "C130",
   "status": "proved",
   "theorems": [
    "C130_chromaticity",
    "C130_grey",
    "C130_presets"
   ],
   "note": "Exact arithmetic. C130_presets: pure primaries of every preset but cieRGB, whose white point is not a non-negative mixture of its primaries (C87)."
  },
  {
   "property": "C131",
   "status": "proved",
   "theorems": [
    "C131_conversion"
   ],
   "note": "Every rounding."
  },
  {
   "property": "C132",
   "status": "proved",
   "theorems": [
    "C132_table"
   ],
   "note": "Every operator, every arithmetic with small rounding errors. The bound on the combined alpha (0 or at least 2^-60) is part of the claim."
  },
  {
   "property": "C133",
   "status": "partial",
   "theorems": [
    "C133_translucent_partial",
    "C133_opaque_partial",
    "C133_vivid_light",
    "C133_opaque_binary32",
    "C133_wide_partial"
   ],
   "note": "Opaque colours: all modes; in binary32 every mode without further conditions but the jump of hard_mix (C133_opaque_binary32), vivid_light in every arithmetic where doubling is exact (C133_vivid_light), the others in every arithmetic with small errors (C133_opaque_partial). Any opacity: the thirteen modes whose formula is continuous and stays in 0..1 (C133_translucent_partial), and up to 1/12500 also the eight modes that leave 0..1 or jump (C133_wide_partial). Missing for translucent colours: vivid_light, divide and custom functions, whose values are unbounded."
  },
  {
   "property": "C134",
   "status": "proved",
   "theorems": [
    "C134_monotone",
    "C134_default",
    "C134_accuracy",
    "C134_cat02"
   ],
   "note": "Order in every rounding model; value in IntExact and SmallError models (binary32 is an instance); CAT02 in exact arithmetic for XYZ colours."
  },
  {
   "property": "C135",
   "status": "proved",
   "theorems": [
    "C135_white_point",
    "C135_white_copy",
    "C135_white_presets",
    "C135_matrix",
    "C135_matrix_cells",
    "C135_matrix_copy",
    "C135_gamma",
    "C135_gamma_copy",
    "C135_gamma_violated"
   ],
   "note": "The statement includes the surprising part: == of two calls of the same gamma preset is false although the curves agree (C135_gamma_violated)."
  },
  {
   "property": "C136",
   "status": "partial",
   "theorems": [
    "C136_to_xyz_partial",
    "C136_uhdtv_violated",
    "C136_cie_violated"
   ],
   "note": "All presets but UHDTV, cieRGB, cieXYZ (violated, witnesses proved) and, for ROMM, stored values in (0.001953, 1/32) (C121_romm_violated)."
  },
  {
   "property": "C137",
   "status": "partial",
   "theorems": [
    "C137_partial",
    "C137_overflow",
    "C137_violated"
   ],
   "note": "Non-negative values; every negative value that already has the wanted decimals is changed to the next one above (C137_violated)."
  },
  {
   "property": "C138",
   "status": "proved",
   "theorems": [
    "C138_gamma",
    "C138_default_to_xyz",
    "C138_default_from_xyz",
    "C138_degenerate",
    "C138_set_white"
   ],
   "note": "Characterises what the code does; nothing reports the unusable space."
  },
  {
   "property": "C139",
   "status": "partial",
   "theorems": [
    "C139_order",
    "C139_violated"
   ],
   "note": "soft_light and color_burn break the order (C139_violated)"
  },
  {
   "property": "C140",
   "status": "partial",
   "theorems": [
    "C140_destination",
    "C140_source",
    "C140_violated"
   ],
   "note": "soft_light and vivid_light (source) and color_burn (destination) are not monotone (C140_violated)"
  },
  {
   "property": "C141",
   "status": "partial",
   "theorems": [
    "C141_dual",
    "C141_dual_limited",
    "C141_apart",
    "C141_violated"
   ],
   "note": "color_burn/color_dodge are not dual (C141_violated): on negatives they give the same colour; the adding modes are dual for opaque colours only"
  },
  {
   "property": "C142",
   "status": "partial",
   "theorems": [
    "C142_from_rgb",
    "C142_only",
    "C142_to_rgb",
    "C142_violated",
    "C142_to_lab",
    "C142_from_lab",
    "C142_lab_only",
    "C142_presets"
   ],
   "note": "black becomes CMYK (1,1,1,1) (C142_violated); the neutral axis of CIELUV and of LCH_uv is not zero (C113_to_luv_violated, C114_to_lch_violated)"
  },
  {
   "property": "C143",
   "status": "partial",
   "theorems": [
    "C143_brighter",
    "C143_luminance_partial",
    "C143_violated",
    "C143_luv_violated",
    "C143_cieRGB_violated"
   ],
   "note": "Proved for all channels of the hue and grey spaces and CMYK; XYZ, LAB and CIELUV lightness (the latter up to 0.0001) for all predefined colour spaces except cieRGB and all predefined gamma curves except ROMM. Each exception is shown to break the claim: ROMM's inverse curve is not monotone (C143_violated), cieRGB has a primary of negative weight (C143_cieRGB_violated), and the two pieces of the CIELUV lightness function do not meet (C143_luv_violated)."
  },
  {
   "property": "C144",
   "status": "proved",
   "theorems": [
    "C144_call",
    "C144_write",
    "C144_adapt",
    "C144_runs",
    "C144_needed"
   ],
   "note": "C144_call, C144_write and C144_adapt for single calls in arbitrary memories, C144_runs for whole programs; C144_needed shows that alpha_multiply has to be left out."
  },
  {
   "property": "C145",
   "status": "proved",
   "theorems": [
    "C145_call",
    "C145_write",
    "C145_adapt",
    "C145_convert_anywhere",
    "C145_blend_anywhere",
    "C145_distance_anywhere"
   ],
   "note": "All calls, writes and adaptations, in memories of any size. Different addresses are stated for conversions, blending and distances."
  },
  {
   "property": "C146",
   "status": "proved",
   "theorems": [
    "C146_matrices",
    "C146_linear"
   ],
   "note": "Bounds for all 20 presets; the round trip of linear values leaves out cieRGB, whose matrix has negative weights (C87, C48_violated)."
  },
  {
   "property": "C147",
   "status": "proved",
   "theorems": [
    "C147_bytes"
   ],
   "note": "The statement names the spaces and curves; cieRGB fails (C48_violated), the pure power curves and ROMM are outside it."
  },
  {
   "property": "C148",
   "status": "proved",
   "theorems": [
    "C148_direct",
    "C148_dispatcher",
    "C148_convertTo",
    "C148_identity"
   ],
   "note": "Counts colour objects only, not the arrays and helper objects some functions also allocate."
  },
  {
   "property": "C149",
   "status": "proved",
   "theorems": [
    "C149_call",
    "C149_program",
    "C149_all"
   ],
   "note": "Counts colour objects only. 33 is attained by no single route; it bounds the longest sequence of conversions inside one call."
  },
  {
   "property": "C150",
   "status": "partial",
   "theorems": [
    "C150_exact",
    "C150_partial",
    "C150_violated"
   ],
   "note": "The code does not do this. C150_exact says what is left behind, C150_partial when nothing is, C150_violated that memory grows without bound."
  },
  {
   "property": "C151",
   "status": "proved",
   "theorems": [
    "C151_call",
    "C151_results",
    "C151_stays",
    "C151_write",
    "C151_adapt",
    "C151_program"
   ],
   "note": "Every public call, write and adaptation has a constructor in SafetySpec with its precondition; C151_program turns a session of such calls into one in which no call ended in undefined behaviour."
  },
  {
   "property": "C152",
   "status": "partial",
   "theorems": [
    "C152_rotate_partial",
    "C152_mirror_partial",
    "C152_negative_partial",
    "C152_dim",
    "C152_fade",
    "C152_rotate_violated"
   ],
   "note": "Proved for all RGB colours that are not grey (dimming and fading also for greys), with the stored hue min H 359. Missing: for hues in the last degree before 360 the stored hue is 359, so the stored hues of a colour and its rotation differ by another angle (C152_rotate_violated)."
  },
  {
   "property": "C153",
   "status": "partial",
   "theorems": [
    "C153_combination_partial",
    "C153_analogous_partial",
    "C153_triplet_partial"
   ],
   "note": "Proved for every RGB colour but black, exactly, including the hues in the last degree before 360, where the stored 359 degrees take the place of the hue. Black loses its opacity (C77_black_violated, C93_black_violated). The triplet as rotated channels additionally excludes colours with one of the three hues in the last degree."
  },
  {
   "property": "C154",
   "status": "proved",
   "theorems": [
    "C154_turn",
    "C154_section",
    "C154_steady",
    "C154_middle",
    "C154_rgb_middle"
   ],
   "note": "All laws for the eight classes mixed channel by channel (C64_lab_violated shows why LAB is not among them). RGB mixes the squares of the channels, so its middle differs from the average (C154_rgb_middle)."
  },
  {
   "property": "C155",
   "status": "partial",
   "theorems": [
    "C155_scale",
    "C155_linear_partial",
    "C155_mixture_partial",
    "C155_chain_partial",
    "C155_violated"
   ],
   "note": "Intensities for all methods; combinations and mixtures for the methods that do not divide by the luminance (refuted for full Bradford and CMCCAT97, which take black to (100, 100, 100)); chains for the simplified methods within the error of the stored inverse, exactly for XYZ scaling."
  },
  {
   "property": "C156",
   "status": "partial",
   "theorems": [
    "C156_saturate_partial",
    "C156_luminate_partial",
    "C156_dark_partial",
    "C156_black_violated"
   ],
   "note": "Black becomes transparent and hues in the last degree become 359 on the way through HSL (C77_black_violated, C105); by 0 the same object is returned (C82_hsl_partial). For p <= -1 luminating in HSL gives transparent black (C156_black_violated)."
  },
  {
   "property": "C157",
   "status": "partial",
   "theorems": [
    "C157_luminate_rgb",
    "C157_saturate_rgb",
    "C157_hsl",
    "C157_undo_rgb",
    "C157_undo_hsl",
    "C157_saturate_hsl_partial"
   ],
   "note": "Complete for RGB adjustments of RGB colours and HSL adjustments of HSL colours. HSL saturation of RGB colours without black and hues in the last degree, as in C156."
  },
  {
   "property": "C158",
   "status": "proved",
   "theorems": [
    "C158_deep",
    "C158_true",
    "C158_distance",
    "C158_others",
    "C158_exactly"
   ],
   "note": "C158_exactly characterises the presets: the eight of LabSpec.Fits are lossless, for each of the other twelve C158_others gives a corner of the RGB cube that comes back different. Made worlds exist for every preset (exists_made)."
  },
  {
   "property": "C159",
   "status": "proved",
   "theorems": [
    "C159_bytes"
   ],
   "note": "The sRGB curve only; under FineError and IntExact (binary32 is an instance); the white point the LAB formulas read is the one of the preset."
  },
  {
   "property": "C160",
   "status": "proved",
   "theorems": [
    "C160_bytes"
   ],
   "note": "Curves of sRGB and UHDTV; under FineError and IntExact (binary32 is an instance); the white point read for black is the one of the preset. CIE XYZ is excluded because its red and blue have luminance 0 (C46_violated), CIE RGB because of C48_violated."
  },
  {
   "property": "C161",
   "status": "proved",
   "theorems": [
    "C161_mul",
    "C161_mul_iff",
    "C161_mulVec",
    "C161_mulVec_iff",
    "C161_transpose",
    "C161_insert",
    "C161_insert_iff",
    "C161_cells"
   ],
   "note": "Exact arithmetic for products; any element type and rounding otherwise. Elements exist unless stated; sizes below 2^31 for filling."
  },
  {
   "property": "C162",
   "status": "proved",
   "theorems": [
    "C162_hcy",
    "C162_bytes"
   ],
   "note": "Complete: both directions, no tie left open. C162_hcy is the statement for deep colours."
  },
  {
   "property": "C163",
   "status": "partial",
   "theorems": [
    "C163_complement_partial",
    "C163_complement_violated",
    "C163_involution_partial",
    "C163_triplet_partial"
   ],
   "note": "Proved for complement, twice complement and triplet, outside black and hues far inside the last degree before 360; there C163_complement_violated shows the complement has another blue (between the two thresholds, 20 and 40 steps above the hue of 359 degrees, nothing is claimed)."
  },
  {
   "property": "C164",
   "status": "partial",
   "theorems": [
    "C164_accurate_partial",
    "C164_whole_partial",
    "C164_copies_partial",
    "C164_opacity_partial",
    "C164_white_violated",
    "C164_three_partial",
    "C164_three_violated"
   ],
   "note": "Proved for lists of up to 2^24 / span colours, where span is the largest magnitude of a channel of the class (255 for 8-bit colours: 65793 colours; 1 for deep colours: 16777216), and for the error bound up to 2^23 colours. Beyond that the claim is false: in binary32 the average of n white colours is white exactly for n <= 2^24 + 1, because the running sum stops at 2^24; 2^25 white pixels average to medium grey (C164_white_violated). Copies of a colour that is not made of whole numbers need not average to it: for three copies C164_three_partial says exactly which normal numbers are kept and that the others are one unit in the last place off (C164_three_violated)."
  },
  {
   "property": "C165",
   "status": "proved",
   "theorems": [
    "C165_euclidean",
    "C165_cie76",
    "C165_order",
    "C165_symmetric",
    "C165_zero_violated"
   ],
   "note": "Accuracy and ordering hold for every arithmetic with the precision of float and accurate squares (class SquareNear); symmetry and zero are about binary32, where C165_zero_violated gives two different colours at distance zero because the square of 2^-80 underflows. Squared distances asked for in CIELUV are not covered."
  },
  {
   "property": "C166",
   "status": "partial",
   "theorems": [
    "C166_cie94",
    "C166_cie94_partial",
    "C166_violated",
    "C166_zero",
    "C166_cmc",
    "C166_cmc_partial",
    "C166_cmc_zero"
   ],
   "note": "The code violates the claim: C166_violated shows that the CIE94 and CMC differences of the grey (50, 0, 0) and the colour (50, 6, 1) are NaN in binary32, in both directions and for all parameters, because the chroma sqrt(37) is rounded up. Proved for CIE94: every result is NaN or has a square within 1/80000 of the squared lightness difference plus the squared sum of the chromas (C166_cie94); it is a number if the squared hue difference is at least 1/200000 of the squared sum of the chromas (C166_cie94_partial); it is exactly zero for equal components in binary32 (C166_zero). Proved for CMC in binary32: the result is NaN or a number that is not negative (C166_cmc); it is a number if the hue difference is at least 1/447 of the sum of the chromas (C166_cmc_partial); it is zero for equal components (C166_cmc_zero). Missing: how close a CMC difference that is a number is to the published formula."
  },
  {
   "property": "C167",
   "status": "partial",
   "theorems": [
    "C167_mix",
    "C167_self",
    "C167_ends_partial",
    "C167_violated"
   ],
   "note": "The end points are exact only if no RGB component is a nonzero number below 2^-60; C167_violated gives a colour whose gradient starts with black because the squares underflow. The classes that mix through HSV or XYZ are not covered in single precision."
  },
  {
   "property": "C168",
   "status": "proved",
   "theorems": [
    "C168_simplified",
    "C168_white",
    "C168_same"
   ],
   "note": "Simplified methods, XYZ colours and white points of ordinary size; the full Bradford and CMCCAT97 methods with powers are not covered."
  },
  {
   "property": "C169",
   "status": "partial",
   "theorems": [
    "C169_premultiplied_partial",
    "C169_opaque",
    "C169_round_trip",
    "C169_bytes",
    "C169_violated",
    "C169_lost_violated"
   ],
   "note": "The range is left: white with alpha 11468637/2^24 comes back above 255 (C169_violated), and dark components are lost with the smallest alpha (C169_lost_violated). Everything else is proved."
  },
  {
   "property": "C170",
   "status": "proved",
   "theorems": [
    "C170_weighted",
    "C170_order",
    "C170_symmetric"
   ],
   "note": ""
  },
  {
   "property": "C171",
   "status": "proved",
   "theorems": [
    "C171_rgb",
    "C171_zero",
    "C171_grey",
    "C171_bytes"
   ],
   "note": "For every arithmetic with small relative rounding errors; the zero theorem needs 1 and the channels to be representable."
  },
  {
   "property": "C172",
   "status": "proved",
   "theorems": [
    "C172_same_lab",
    "C172_lab"
   ],
   "note": "Exact arithmetic. C172_same_lab: every class, LAB components of the XYZ values; C172_lab: LAB colours. The condition that no XYZ value leaves 0..100 is part of the claim."
  },
  {
   "property": "C173",
   "status": "partial",
   "theorems": [
    "C173_violated",
    "C173_grey_violated",
    "C173_partial",
    "C173_zero"
   ],
   "note": "The code violates the claim: line 161 leaves out the minus sign in the exponent of the rotation term, so 60 * expf(...) overflows for mean hues up to 45 degrees and the sine of infinity is NaN. C173_violated: in binary32 the difference of two colours with a, b not negative whose hue angles add up to at most 90 degrees is NaN, for all factors. C173_grey_violated: so is that of any two greys, such as black and white. Proved for colours with a not positive that are not grey: the difference is a number that is not negative if the lightness difference, divided by the largest weight it can have, is at least about a thirtieth of the sum of the chromas (C173_partial); it is zero for equal components (C173_zero). Missing: the other quadrants with larger hue sums, and pairs that differ less in lightness."
  },
  {
   "property": "C174",
   "status": "partial",
   "theorems": [
    "C174_clipped",
    "C174_survives",
    "C174_presets",
    "C174_presets_partial",
    "C174_once",
    "C174_violated"
   ],
   "note": "Exact arithmetic. Survival exactly for the colours of the gamut in every space with non-negative primaries, positive weights and invertible gamma curves (C174_survives), in particular in all presets but cieRGB with the five power curves (C174_presets); for the curves sRGB, ROMM and UHDTV limited shares outside the gap at the knee come back (C174_presets_partial), and in the gap not even a grey of the gamut does (C174_violated). C174_clipped gives the result for colours outside the gamut, C174_once says that a second trip changes nothing."
  },
  {
   "property": "C175",
   "status": "partial",
   "theorems": [
    "C175_saturate_partial",
    "C175_luminate_partial",
    "C175_white_violated"
   ],
   "note": "Error bounds for both functions in every arithmetic with small errors and exact small integers, binary32 among them; for hues in the last degree before 360 with the blue that the limit of 359 degrees leaves. Missing: nearly black colours, for luminating also white and nearly black results. C175_white_violated: next to white all accuracy is lost, the yellowish white 1, 1, 1 - 2^-24 at half the lightness becomes grey instead of yellow."
  },
  {
   "property": "C176",
   "status": "proved",
   "theorems": [
    "C176_saturate",
    "C176_luminate",
    "C176_grey"
   ],
   "note": "For every colour made of bytes, of any opacity; the opacity of the result is not part of the claim (C33, C156). Where the hue lies in the last degree before 360 the formula for blue uses the value the hue setter leaves (byteBlue). Percentages are exact numbers from -1 to 99; 0 is the subject of C82."
  },
  {
   "property": "C177",
   "status": "proved",
   "theorems": [
    "C177_table",
    "C177_source",
    "C177_opaque_over",
    "C177_same",
    "C177_atop"
   ],
   "note": "All twelve operators and all pairs of 8-bit pixels. The bound 1/2 + 1/30 includes the rounding to a byte."
  },
  {
   "property": "C178",
   "status": "proved",
   "theorems": [
    "C178_modes",
    "C178_exact",
    "C178_neutral"
   ],
   "note": "All modes with a fixed formula (dissolve and custom formulas are left to C57 and C133); binary32, with round to nearest even. The formulas are those of the code; C62 compares them with the definitions."
  },
  {
   "property": "C179",
   "status": "proved",
   "theorems": [
    "C179_translucent",
    "C179_alone"
   ],
   "note": "The 13 modes without a jump whose formula stays in 0..1, both regions used. For the others C133 and C58 hold."
  },
  {
   "property": "C180",
   "status": "partial",
   "theorems": [
    "C180_whole_partial",
    "C180_grey",
    "C180_thirds",
    "C180_violated"
   ],
   "note": "Violated: RGB_TRUE to GREY_TRUE does not round (C180_violated: (0, 0, 1)). C180_grey says exactly which 8-bit colours have a whole grey; every conversion to RGB_TRUE from a class with channels up to 1 gives whole channels."
  },
  {
   "property": "C181",
   "status": "proved",
   "theorems": [
    "C181_sum",
    "C181_difference",
    "C181_bytes",
    "C181_greys"
   ],
   "note": "Accuracy for every arithmetic with the error bounds of single precision; exactness of 8-bit differences and greys for every arithmetic that is exact on integers."
  },
  {
   "property": "C182",
   "status": "proved",
   "theorems": [
    "C182_bytes",
    "C182_grey",
    "C182_survives",
    "C182_twice"
   ],
   "note": "C182_bytes gives the exact bytes for every colour that is not grey, C182_grey for greys, C182_survives the colours that come back; the loss itself is a defect of hsi_to_rgb_deep, see C43."
  },
  {
   "property": "C183",
   "status": "partial",
   "theorems": [
    "C183_transfer",
    "C183_partial",
    "C183_deep",
    "C183_true",
    "C183_violated",
    "C183_cie"
   ],
   "note": "False for black and HSL: hsl_to_rgb_deep makes black transparent (C183_violated). Proved for all other levels and classes named (C183_partial, C183_deep, C183_true, C183_cie); C183_transfer carries every further trip of 8-bit RGB colours over to greys."
  },
  {
   "property": "C184",
   "status": "partial",
   "theorems": [
    "C184_row_partial",
    "C184_column_partial",
    "C184_rows_equal_partial",
    "C184_columns_equal_partial",
    "C184_negative_violated"
   ],
   "note": "Proved for every index: right answer for those that exist, no above, and undefined behaviour for negative indexes (true when the row or column has no elements), because only the upper limit is checked (C184_negative_violated)."
  },
  {
   "property": "C185",
   "status": "partial",
   "theorems": [
    "C185_chromaticity",
    "C185_tristimulus_partial",
    "C185_tenth_violated"
   ],
   "note": "Chromaticities hold for all forty presets. The tristimulus values hold for 24 presets; in the 16 others (illuminants A, E and most warm fluorescent lamps, those with X of 1 or more) X is a tenth of the right value (C185_tenth_violated)."
  },
  {
   "property": "C186",
   "status": "partial",
   "theorems": [
    "C186_create",
    "C186_zero",
    "C186_fill",
    "C186_list_partial"
   ],
   "note": "Everything but lists for matrices that are neither square nor a single row, which are read at the wrong positions or out of bounds (C22_violated, C161_insert)."
  }
 ]
}