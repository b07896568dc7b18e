{
 "claims": [
  {
   "property": "C01",
   "status": "proved",
   "theorems": [
    "Boof.C01_at_reads",
    "Boof.C01_injective",
    "Boof.C01_at_writes",
    "Boof.C01_at_throws"
   ],
   "note": "All valid images, all coordinates; the value written is read back, other cells unchanged, outside throws."
  },
  {
   "property": "C02",
   "status": "proved",
   "theorems": [
    "Boof.C02_new",
    "Boof.C02_reshape",
    "Boof.C02_reshape_keeps",
    "Boof.C02_reshape_grows",
    "Boof.C02_reshape_same",
    "Boof.C02_reshape_sub_throws",
    "Boof.C02_overflow_refuted"
   ],
   "note": "Proved as stated, with the proviso that w*h fits in 32 bits; C02_overflow_refuted shows the proviso is needed."
  },
  {
   "property": "C03",
   "status": "partial",
   "theorems": [
    "Boof.C03_step",
    "Boof.C03_history",
    "Boof.C03_init",
    "Boof.C03_dangling_view_refuted"
   ],
   "note": "Invariant by induction over operation lists. The rule that views of a replaced array are not used any more is part of the theorem; without it the claim is false (C03_dangling_view_refuted)."
  },
  {
   "property": "C04",
   "status": "proved",
   "theorems": [
    "Boof.C04_bounds",
    "Boof.C04_window",
    "Boof.C04_write_through",
    "Boof.C04_nested"
   ],
   "note": ""
  },
  {
   "property": "C05",
   "status": "proved",
   "theorems": [
    "Boof.C05_copy",
    "Boof.C05_copy_throws"
   ],
   "note": ""
  },
  {
   "property": "C06",
   "status": "proved",
   "theorems": [
    "Boof.C06_assign_owner",
    "Boof.C06_assign_view",
    "Boof.C06_assign_throws",
    "Boof.C06_self_assign"
   ],
   "note": ""
  },
  {
   "property": "C07",
   "status": "partial",
   "theorems": [
    "Boof.C07_getters_partial",
    "Boof.C07_getHeight_refuted",
    "Boof.C07_total_pixels"
   ],
   "note": "getWidth proved; getHeight returns the width, so it is right for square images only (C07_getHeight_refuted)."
  },
  {
   "property": "C08",
   "status": "proved",
   "theorems": [
    "Boof.C08_at_reads",
    "Boof.C08_injective",
    "Boof.C08_at_writes",
    "Boof.C08_at_throws",
    "Boof.C08_new",
    "Boof.C08_reshape3",
    "Boof.C08_reshape",
    "Boof.C08_set_bands",
    "Boof.C08_sub_throws",
    "Boof.C08_band_not_checked"
   ],
   "note": ""
  },
  {
   "property": "C09",
   "status": "proved",
   "theorems": [
    "Boof.C09_bounds",
    "Boof.C09_throws",
    "Boof.C09_window",
    "Boof.C09_write_through"
   ],
   "note": ""
  },
  {
   "property": "C10",
   "status": "partial",
   "theorems": [
    "Boof.C10_setTo_partial",
    "Boof.C10_setTo_wide",
    "Boof.C10_setTo_last_refuted",
    "Boof.C10_setTo_throws",
    "Boof.C10_setTo_refuted"
   ],
   "note": "Element types of one byte proved; false for wider ones (C10_setTo_refuted): C10_setTo_wide says exactly which cells are copied."
  },
  {
   "property": "C11",
   "status": "partial",
   "theorems": [
    "Boof.C11_resize_partial",
    "Boof.C11_full_array",
    "Boof.C11_resize_throws",
    "Boof.C11_stale_refuted",
    "Boof.C11_default_refuted",
    "Boof.C11_grow_array"
   ],
   "note": "C11_resize_partial says what resize does in every case. New elements have the default value only if the array is enlarged and all bytes of the default value are equal (C11_stale_refuted, C11_default_refuted). C11_grow_array: what grow_array leaves in an enlarged array, which takes a number of elements for a number of bytes."
  },
  {
   "property": "C12",
   "status": "partial",
   "theorems": [
    "Boof.C12_fill_partial",
    "Boof.C12_fill_u8",
    "Boof.C12_fill_zero",
    "Boof.C12_fill_refuted",
    "Boof.C12_fill_u32_iff"
   ],
   "note": "C12_fill_partial says what fill does in every case; it fills only with values whose bytes are equal (C12_fill_refuted)."
  },
  {
   "property": "C13",
   "status": "proved",
   "theorems": [
    "Boof.C13_at",
    "Boof.C13_set_at",
    "Boof.C13_assign",
    "Boof.C13_setTo",
    "Boof.C13_set",
    "Boof.C13_construct",
    "Boof.C13_construct_default",
    "Boof.C13_wrap",
    "Boof.C13_index",
    "Boof.C13_wrapper_throws",
    "Boof.C13_step",
    "Boof.C13_history"
   ],
   "note": ""
  },
  {
   "property": "C14",
   "status": "proved",
   "theorems": [
    "Boof.C14_refines_list_of_lists",
    "Boof.C14_accepts",
    "Boof.C14_default",
    "Boof.C14_zero_block_refuted"
   ],
   "note": "Proved as stated (positive block size), by simulation for every history of operations; block size 0 divides by zero (C14_zero_block_refuted)."
  },
  {
   "property": "C15",
   "status": "proved",
   "theorems": [
    "Boof.C15_at",
    "Boof.C15_load"
   ],
   "note": ""
  },
  {
   "property": "C16",
   "status": "proved",
   "theorems": [
    "Boof.C16_write_set"
   ],
   "note": ""
  },
  {
   "property": "C17",
   "status": "proved",
   "theorems": [
    "Boof.C17_extended"
   ],
   "note": "Every coordinate of type int."
  },
  {
   "property": "C18",
   "status": "partial",
   "theorems": [
    "Boof.C18_reflect_partial",
    "Boof.C18_reflect_refuted",
    "Boof.C18_reflect_wrong_row_refuted",
    "Boof.C18_reflect_far"
   ],
   "note": "Coordinates at most n-1 beyond an edge; farther away the code reads a wrong cell or outside the array (two refutations; C18_reflect_far says exactly what every 32-bit coordinate reads)."
  },
  {
   "property": "C19",
   "status": "partial",
   "theorems": [
    "Boof.C19_wrap_partial",
    "Boof.C19_wrap_refuted",
    "Boof.C19_wrap_far",
    "Boof.C19_wrap_later_row"
   ],
   "note": "Coordinates within one period; farther away the code reads outside the array or a cell of another row (C19_wrap_refuted; C19_wrap_far says exactly what every 32-bit coordinate reads)."
  },
  {
   "property": "C20",
   "status": "proved",
   "theorems": [
    "Boof.C20_value",
    "Boof.C20_value_factory",
    "Boof.C20_factory",
    "Boof.C20_inside"
   ],
   "note": ""
  },
  {
   "property": "C21",
   "status": "proved",
   "theorems": [
    "Boof.C21_fill",
    "Boof.C21_parent"
   ],
   "note": ""
  },
  {
   "property": "C22",
   "status": "proved",
   "theorems": [
    "Boof.C22_fill_border"
   ],
   "note": ""
  },
  {
   "property": "C23",
   "status": "partial",
   "theorems": [
    "Boof.C23_fill_interleaved_partial",
    "Boof.C23_fill_interleaved_refuted",
    "Boof.C23_fill_interleaved_cells",
    "Boof.C23_fill_interleaved_iff"
   ],
   "note": "Images that own their array; false for sub-images (C23_fill_interleaved_refuted). Exact for every image: C23_fill_interleaved_cells gives the cells written, C23_fill_interleaved_iff the images filled rightly."
  },
  {
   "property": "C24",
   "status": "partial",
   "theorems": [
    "Boof.C24_fill_uniform_partial",
    "Boof.C24_fill_uniform_refuted",
    "Boof.C24_fill_uniform_cells",
    "Boof.C24_fill_uniform_iff"
   ],
   "note": "Images that own their array; false for sub-images (C24_fill_uniform_refuted). The generator is a parameter. Exact for every image: C24_fill_uniform_cells, C24_fill_uniform_iff."
  },
  {
   "property": "C25",
   "status": "partial",
   "theorems": [
    "Boof.C25_sum_iff",
    "Boof.C25_sum_unsigned",
    "Boof.C25_sum_s16",
    "Boof.C25_sum_partial",
    "Boof.C25_sum_refuted"
   ],
   "note": "Unsigned sum types (sum modulo 2^32 never wraps when it fits) proved; signed ones when the running sums are representable (C25_sum_refuted shows that this is needed). Exact domain: C25_sum_iff."
  },
  {
   "property": "C26",
   "status": "partial",
   "theorems": [
    "Boof.C26_min_partial",
    "Boof.C26_max_partial",
    "Boof.C26_int",
    "Boof.C26_sub_refuted",
    "Boof.C26_max_float_refuted",
    "Boof.C26_min_cells",
    "Boof.C26_max_cells",
    "Boof.C26_min_linear"
   ],
   "note": "Images that own their array, integer types; false for sub-images and, for max, for floating types (C26_sub_refuted, C26_max_float_refuted). Exact for every image: C26_min_cells, C26_max_cells (the cells compared), C26_min_linear."
  },
  {
   "property": "C27",
   "status": "partial",
   "theorems": [
    "Boof.C27_mean_unsigned",
    "Boof.C27_mean_partial",
    "Boof.C27_mean_s64",
    "Boof.C27_mean_negative",
    "Boof.C27_mean_wrong",
    "Boof.C27_mean_refuted",
    "Boof.C27_empty"
   ],
   "note": "Unsigned types proved; signed 16- and 32-bit types when the sum is not negative; otherwise false (C27_mean_refuted): C27_mean_negative gives the exact result for a negative sum."
  },
  {
   "property": "C28",
   "status": "proved",
   "theorems": [
    "Boof.C28_histogram_float",
    "Boof.C28_histogram",
    "Boof.C28_out_of_range"
   ],
   "note": ""
  },
  {
   "property": "C29",
   "status": "partial",
   "theorems": [
    "Boof.C29_unsigned",
    "Boof.C29_bounds",
    "Boof.C29_signed_partial",
    "Boof.C29_s64",
    "Boof.C29_signed",
    "Boof.C29_refuted",
    "Boof.C29_no_bands"
   ],
   "note": "Unsigned types proved; signed 16- and 32-bit types when the sums are not negative; otherwise false (C29_refuted): C29_signed gives the exact result whatever the signs."
  },
  {
   "property": "C30",
   "status": "proved",
   "theorems": [
    "Boof.C30_and",
    "Boof.C30_or",
    "Boof.C30_throws"
   ],
   "note": ""
  },
  {
   "property": "C31",
   "status": "partial",
   "theorems": [
    "Boof.C31_erode4",
    "Boof.C31_dilate4",
    "Boof.C31_no_rows_refuted",
    "Boof.C31_no_rows_undefined"
   ],
   "note": "All images with at least one row and column; images without rows make the code read outside the array (C31_no_rows_refuted, and C31_no_rows_undefined for all such images)."
  },
  {
   "property": "C32",
   "status": "proved",
   "theorems": [
    "Boof.C32_ordered",
    "Boof.C32_dual",
    "Boof.C32_monotone"
   ],
   "note": ""
  },
  {
   "property": "C33",
   "status": "proved",
   "theorems": [
    "Boof.C33_threshold",
    "Boof.C33_complementary",
    "Boof.C33_filter"
   ],
   "note": ""
  },
  {
   "property": "C34",
   "status": "proved",
   "theorems": [
    "Boof.C34_otsu",
    "Boof.C34_image",
    "Boof.C34_image_float"
   ],
   "note": "Exact arithmetic (any ordered field) in place of double."
  },
  {
   "property": "C35",
   "status": "partial",
   "theorems": [
    "Boof.C35_threshold_partial",
    "Boof.C35_refuted",
    "Boof.C35_zero_min",
    "Boof.C35_float_partial",
    "Boof.C35_float_refuted"
   ],
   "note": "False of the code (C35_refuted). What holds: the computed threshold does not change (C35_threshold_partial)."
  },
  {
   "property": "C36",
   "status": "partial",
   "theorems": [
    "Boof.C36_localMean_partial",
    "Boof.C36_localMean_float_partial",
    "Boof.C36_throws",
    "Boof.C36_localMean_undefined",
    "Boof.C36_localMean_float_undefined"
   ],
   "note": "Images for which the mean blur is defined (hshape: not both at least as wide and shorter than the window), because of C54_vertical_refuted. On the other shapes the filter is undefined for every picture whose array ends with the image (C36_localMean_undefined). Blur arithmetic exact for floating point."
  },
  {
   "property": "C37",
   "status": "proved",
   "theorems": [
    "Boof.C37_partition",
    "Boof.C37_process"
   ],
   "note": ""
  },
  {
   "property": "C38",
   "status": "proved",
   "theorems": [
    "Boof.C38_shape",
    "Boof.C38_tooLarge",
    "Boof.C38_zero"
   ],
   "note": "The requested block size must not be 0 (division by zero in the code)."
  },
  {
   "property": "C39",
   "status": "partial",
   "theorems": [
    "Boof.C39_mean_partial",
    "Boof.C39_complementary",
    "Boof.C39_negative_refuted",
    "Boof.C39_mean_float",
    "Boof.C39_mean_float_exact",
    "Boof.C39_mean_signed",
    "Boof.C39_signed_iff",
    "Boof.C39_signed_small"
   ],
   "note": "Images without negative pixels; with negative pixels false (C39_negative_refuted). Any rounding of the scaled statistics. Float images: every image, every rounding (C39_mean_float).  C39_mean_signed: signed 16-bit images with any pixels; C39_signed_iff: exactly when the value compared with is the mean; C39_signed_small: right without local blocks or with at most 2x2 blocks."
  },
  {
   "property": "C40",
   "status": "partial",
   "theorems": [
    "Boof.C40_minmax_partial",
    "Boof.C40_disabled_refuted",
    "Boof.C40_minmax_float_all",
    "Boof.C40_minmax_float_partial",
    "Boof.C40_float_refuted",
    "Boof.C40_texture_undefined"
   ],
   "note": "Texture limits which the sum type can hold; the documented -1 is undefined behaviour for unsigned pixels (C40_disabled_refuted). Float images: any texture limit, groups of blocks with a positive pixel; false without one (C40_float_refuted).  C40_texture_undefined: a limit the sum type cannot hold is undefined for every image; C40_minmax_float_all: exactly what happens on float images without a positive pixel."
  },
  {
   "property": "C41",
   "status": "proved",
   "theorems": [
    "Boof.C41_otsu_float_with",
    "Boof.C41_otsu_float",
    "Boof.C41_standard_float",
    "Boof.C41_float_undefined",
    "Boof.C41_float_exact",
    "Boof.C41_otsu_with",
    "Boof.C41_otsu",
    "Boof.C41_standard"
   ],
   "note": ""
  },
  {
   "property": "C42",
   "status": "partial",
   "theorems": [
    "Boof.C42_new1D",
    "Boof.C42_new1D_middle",
    "Boof.C42_list1D",
    "Boof.C42_access1D",
    "Boof.C42_new2D_partial",
    "Boof.C42_new2D_middle_partial",
    "Boof.C42_radius",
    "Boof.C42_new2D_refuted",
    "Boof.C42_list2D_partial",
    "Boof.C42_list2D_refuted",
    "Boof.C42_access2D",
    "Boof.C42_assign",
    "Boof.C42_new2D_all"
   ],
   "note": "1D proved; 2D kernels with less than 2^32 coefficients (C42_new2D_refuted); the offset of a 2D list is not checked (C42_list2D_refuted). C42_new2D_all: kernels of every width."
  },
  {
   "property": "C43",
   "status": "proved",
   "theorems": [
    "Boof.C43_table",
    "Boof.C43_meanInt",
    "Boof.C43_tableSum",
    "Boof.C43_mean"
   ],
   "note": "Exact arithmetic for floating point kernels."
  },
  {
   "property": "C44",
   "status": "partial",
   "theorems": [
    "Boof.C44_normalize1D",
    "Boof.C44_normalize2D_partial",
    "Boof.C44_normalize2D_refuted"
   ],
   "note": "1D proved in exact arithmetic; for 2D only row 0 is scaled (C44_normalize2D_refuted), which C44_normalize2D_partial states exactly."
  },
  {
   "property": "C45",
   "status": "partial",
   "theorems": [
    "Boof.C45_gaussian1D",
    "Boof.C45_gaussian1D_sigma",
    "Boof.C45_gaussian1D_width",
    "Boof.C45_gaussian1D_throws",
    "Boof.C45_gaussian1D_real",
    "Boof.C45_gaussian2D_partial",
    "Boof.C45_gaussian2D",
    "Boof.C45_gaussian2D_refuted",
    "Boof.C45_gaussian2D_large",
    "Boof.C45_gaussian2D_nonpos",
    "Boof.C45_determined"
   ],
   "note": "1D proved for any positive strictly increasing function as the exponential (instance: the real one), exact arithmetic; 2D for positive widths; gaussian2D with width <= 0 throws, undefined for -1 (C45_gaussian2D_refuted, C45_gaussian2D_nonpos); widths whose square exceeds 32 bits throw (C45_gaussian2D_large)."
  },
  {
   "property": "C46",
   "status": "proved",
   "theorems": [
    "Boof.C46_convert1D",
    "Boof.C46_convert2D",
    "Boof.C46_types",
    "Boof.C46_gaussianInt_of",
    "Boof.C46_gaussianInt",
    "Boof.C46_gaussian2DInt",
    "Boof.C46_zeros",
    "Boof.C46_determined"
   ],
   "note": "Exact arithmetic."
  },
  {
   "property": "C47",
   "status": "partial",
   "theorems": [
    "Boof.C47_horizontal_partial",
    "Boof.C47_horizontal",
    "Boof.C47_integer",
    "Boof.C47_exact",
    "Boof.C47_horizontal_refuted"
   ],
   "note": "All kernels, images and borders, except reflecting and wrapping borders reached by more than one period (C47_horizontal_refuted). Generic arithmetic: integers with overflow as undefined behaviour, floats in the order of the code."
  },
  {
   "property": "C48",
   "status": "partial",
   "theorems": [
    "Boof.C48_vertical_partial",
    "Boof.C48_vertical",
    "Boof.C48_integer",
    "Boof.C48_exact",
    "Boof.C48_vertical_refuted"
   ],
   "note": "As C47, see C48_vertical_refuted."
  },
  {
   "property": "C49",
   "status": "partial",
   "theorems": [
    "Boof.C49_convolve_partial",
    "Boof.C49_convolve",
    "Boof.C49_integer",
    "Boof.C49_exact",
    "Boof.C49_large"
   ],
   "note": "As C47; kernels of less than 65536 columns. C49_large: with 65536 or more columns the call throws for every image with a pixel, since the library has no room for the coefficients, so this is the exact domain."
  },
  {
   "property": "C50",
   "status": "proved",
   "theorems": [
    "Boof.C50_horizontal",
    "Boof.C50_vertical",
    "Boof.C50_convolve"
   ],
   "note": "Same outcome of the two programs, for any arithmetic."
  },
  {
   "property": "C51",
   "status": "partial",
   "theorems": [
    "Boof.C51_horizontal",
    "Boof.C51_horizontal_float",
    "Boof.C51_vertical_partial",
    "Boof.C51_vertical_tall",
    "Boof.C51_vertical_float",
    "Boof.C51_float_hypotheses",
    "Boof.C51_integer",
    "Boof.C51_rounded",
    "Boof.C51_exact",
    "Boof.C51_throws",
    "Boof.C51_agrees_horizontal",
    "Boof.C51_agrees_vertical_partial",
    "Boof.C51_convolve_partial",
    "Boof.C51_vertical_refuted"
   ],
   "note": "Horizontal proved; vertical when coefficients fit the pixel type or the kernel is shorter than the image is tall; otherwise false (C51_vertical_refuted). C51_vertical_tall: exact for every kernel (coefficients are converted to the pixel type when the kernel is as tall as the image)."
  },
  {
   "property": "C52",
   "status": "partial",
   "theorems": [
    "Boof.C52_horizontal_partial",
    "Boof.C52_range_refuted",
    "Boof.C52_negative",
    "Boof.C52_vertical_partial",
    "Boof.C52_convolve_partial",
    "Boof.C52_horizontal_float",
    "Boof.C52_vertical_float",
    "Boof.C52_convolve_float"
   ],
   "note": "Rows, columns and both directions; integral pixels with rounding, and exact floating point without restriction. Integral pixels: the upper bound must not be negative, otherwise false (C52_range_refuted). Negative upper bounds are exceeded by at most one per averaging step and never above zero (KeepsRange, C52_negative)."
  },
  {
   "property": "C53",
   "status": "partial",
   "theorems": [
    "Boof.C53_transpose_partial",
    "Boof.C53_transpose_narrowed",
    "Boof.C53_transpose_refuted"
   ],
   "note": "Coefficients representable in the pixel type; otherwise false (C53_transpose_refuted). Exact for every kernel: C53_transpose_narrowed."
  },
  {
   "property": "C54",
   "status": "partial",
   "theorems": [
    "Boof.C54_horizontal",
    "Boof.C54_vertical_partial",
    "Boof.C54_mean_partial",
    "Boof.C54_throws",
    "Boof.C54_throws_shape",
    "Boof.C54_horizontal_float",
    "Boof.C54_vertical_float_partial",
    "Boof.C54_mean_float_partial",
    "Boof.C54_vertical_refuted",
    "Boof.C54_vertical_undefined",
    "Boof.C54_mean_undefined",
    "Boof.C54_vertical_float_undefined",
    "Boof.C54_mean_float_undefined"
   ],
   "note": "Horizontal proved for all sizes; vertical and mean except images at least as wide as the window and not as tall, where the code reads outside the array (C54_vertical_refuted); there it is undefined for every picture whose array ends with the image (C54_mean_undefined), so the restriction is the exact domain. Exact arithmetic for floating point here, rounding in C84."
  },
  {
   "property": "C55",
   "status": "proved",
   "theorems": [
    "Boof.C55_gaussian_float",
    "Boof.C55_gaussian",
    "Boof.C55_throws",
    "Boof.C55_throws_int"
   ],
   "note": "Exact arithmetic for the kernel; integral and floating point images."
  },
  {
   "property": "C56",
   "status": "proved",
   "theorems": [
    "Boof.C56_fixed",
    "Boof.C56_relative",
    "Boof.C56_checkValidity",
    "Boof.C56_computeI",
    "Boof.C56_computeI_unset",
    "Boof.C56_empty",
    "Boof.C56_mode",
    "Boof.C56_getLengthI"
   ],
   "note": ""
  },
  {
   "property": "C57",
   "status": "proved",
   "theorems": [
    "Boof.C57_distanceSq",
    "Boof.C57_no_overflow",
    "Boof.C57_metric",
    "Boof.C57_u16_overflow",
    "Boof.C57_distanceSq_iff"
   ],
   "note": "Exact domain: C57_distanceSq_iff."
  },
  {
   "property": "C58",
   "status": "proved",
   "theorems": [
    "Boof.C58_two",
    "Boof.C58_three"
   ],
   "note": ""
  },
  {
   "property": "C59",
   "status": "proved",
   "theorems": [
    "Boof.C59_trace_terminates"
   ],
   "note": "Termination and number of steps for every image and both rules."
  },
  {
   "property": "C60",
   "status": "proved",
   "theorems": [
    "Boof.C60_trace_stays_inside"
   ],
   "note": ""
  },
  {
   "property": "C61",
   "status": "proved",
   "theorems": [
    "Boof.C61_contours_closed",
    "Boof.C61_trace_closed_path"
   ],
   "note": ""
  },
  {
   "property": "C62",
   "status": "proved",
   "theorems": [
    "Boof.C62_labels"
   ],
   "note": "Pictures of zeros and ones whose padded size fits in 32 bits."
  },
  {
   "property": "C63",
   "status": "proved",
   "theorems": [
    "Boof.C63_boundaries"
   ],
   "note": ""
  },
  {
   "property": "C64",
   "status": "proved",
   "theorems": [
    "Boof.C64_limits",
    "Boof.C64_limits_only_drop"
   ],
   "note": ""
  },
  {
   "property": "C65",
   "status": "proved",
   "theorems": [
    "Boof.C65_history_does_not_matter"
   ],
   "note": ""
  },
  {
   "property": "C66",
   "status": "proved",
   "theorems": [
    "Boof.C66_bookkeeping"
   ],
   "note": ""
  },
  {
   "property": "C67",
   "status": "proved",
   "theorems": [
    "Boof.C67_process_succeeds",
    "Boof.C67_refused"
   ],
   "note": ""
  },
  {
   "property": "C68",
   "status": "proved",
   "theorems": [
    "Boof.C68_java_decodes",
    "Boof.C68_mismatch_throws"
   ],
   "note": ""
  },
  {
   "property": "C69",
   "status": "proved",
   "theorems": [
    "Boof.C69_otsu2"
   ],
   "note": ""
  },
  {
   "property": "C70",
   "status": "proved",
   "theorems": [
    "Boof.C70_rows",
    "Boof.C70_rows_throw"
   ],
   "note": ""
  },
  {
   "property": "C71",
   "status": "partial",
   "theorems": [
    "Boof.C71_abs_s16",
    "Boof.C71_abs_wide",
    "Boof.C71_extrema",
    "Boof.C71_extrema_int",
    "Boof.C71_abs_int_partial",
    "Boof.C71_abs_refuted",
    "Boof.C71_empty"
   ],
   "note": "Floating point kernels and integer extrema proved; magnitudes unless a coefficient is the most negative number of its type (C71_abs_refuted). Exact: C71_abs_s16 (all 16-bit kernels), C71_abs_wide (undefined iff a coefficient is the most negative number)."
  },
  {
   "property": "C72",
   "status": "partial",
   "theorems": [
    "Boof.C72_step",
    "Boof.C72_history",
    "Boof.C72_all_released",
    "Boof.C72_copy_constructor_refuted",
    "Boof.C72_assign_view_leaks_refuted",
    "Boof.C72_rows_leak_refuted"
   ],
   "note": "Every history of making, reshaping, copying, assigning, viewing and destroying is proved free of double release and, when all images are gone, leak free, except for the three operations refuted: copy construction, assigning a view to an owner, rows of different length."
  },
  {
   "property": "C73",
   "status": "partial",
   "theorems": [
    "Boof.C73_new",
    "Boof.C73_reshape",
    "Boof.C73_reshape_subimage",
    "Boof.C73_getBand",
    "Boof.C73_independent",
    "Boof.C73_destroy_refuted"
   ],
   "note": "Everything but destruction: the destructor is undefined behaviour (C73_destroy_refuted)."
  },
  {
   "property": "C74",
   "status": "partial",
   "theorems": [
    "Boof.C74_blockMean_float",
    "Boof.C74_blockMinMax_float_partial",
    "Boof.C74_blockOtsu_float",
    "Boof.C74_globalFixed",
    "Boof.C74_globalOtsu",
    "Boof.C74_localMean_partial",
    "Boof.C74_localMean_float_partial",
    "Boof.C74_blockMean_partial",
    "Boof.C74_blockMinMax_partial",
    "Boof.C74_blockOtsu",
    "Boof.C74_mean_partial",
    "Boof.C74_mean_float_partial",
    "Boof.C74_gaussian_float",
    "Boof.C74_gaussian",
    "Boof.C74_horizontal_partial",
    "Boof.C74_vertical_partial",
    "Boof.C74_convolve_partial",
    "Boof.C74_normalizedHorizontal",
    "Boof.C74_normalizedVertical_partial",
    "Boof.C74_swallow_refuted",
    "Boof.C74_null_refuted",
    "Boof.C74_null_throws",
    "Boof.C74_escape_refuted",
    "Boof.C74_leak_refuted"
   ],
   "note": "Every native call, whether or not arrays are copied; with the restrictions of C36, C39, C40, C47, C51, C54. Refuted: pins stay after exceptions, null input, escaping exceptions, one empty array leaked per wrapped image."
  },
  {
   "property": "C75",
   "status": "proved",
   "theorems": [
    "Boof.C75_tuned",
    "Boof.C75_selects_fewer"
   ],
   "note": ""
  },
  {
   "property": "C76",
   "status": "proved",
   "theorems": [
    "Boof.C76_process",
    "Boof.C76_again"
   ],
   "note": "Any sequence of pictures of zeros and ones, both rules, all settings."
  },
  {
   "property": "C77",
   "status": "proved",
   "theorems": [
    "Boof.C77_settings",
    "Boof.C77_rule",
    "Boof.C77_negative_min"
   ],
   "note": ""
  },
  {
   "property": "C78",
   "status": "proved",
   "theorems": [
    "Boof.C78_sigma",
    "Boof.C78_radius",
    "Boof.C78_inverse"
   ],
   "note": ""
  },
  {
   "property": "C79",
   "status": "partial",
   "theorems": [
    "Boof.C79_reshape1D",
    "Boof.C79_shrink1D",
    "Boof.C79_reshape2D_partial",
    "Boof.C79_reshape2D_same_partial",
    "Boof.C79_reshape2D_refuted",
    "Boof.C79_fill1D",
    "Boof.C79_fill2D_partial",
    "Boof.C79_new1D",
    "Boof.C79_empty1D",
    "Boof.C79_empty2D_partial"
   ],
   "note": "1D proved; 2D kernels of less than 2^32 coefficients, which keep them in storage order but not in their rows and columns (C79_reshape2D_refuted)."
  },
  {
   "property": "C80",
   "status": "partial",
   "theorems": [
    "Boof.C80_horizontal_partial",
    "Boof.C80_vertical_partial",
    "Boof.C80_convolve_partial",
    "Boof.C80_horizontalFloat_partial",
    "Boof.C80_verticalFloat_partial",
    "Boof.C80_convolveFloat_partial",
    "Boof.C80_border_rejected",
    "Boof.C80_rejected",
    "Boof.C80_rejected_float",
    "Boof.C80_rejected_output",
    "Boof.C80_rules_refuted",
    "Boof.C80_normalizedHorizontal",
    "Boof.C80_normalizedVertical_partial",
    "Boof.C80_normalizedHorizontalFloat",
    "Boof.C80_normalizedVerticalFloat"
   ],
   "note": "All kernels, images and supported borders within one period; the rule for columns is ignored (C80_rules_refuted); narrowing as in C51."
  },
  {
   "property": "C81",
   "status": "partial",
   "theorems": [
    "Boof.C81_gaussian",
    "Boof.C81_gaussianFloat",
    "Boof.C81_mean_partial",
    "Boof.C81_meanFloat_partial",
    "Boof.C81_radius_refuted"
   ],
   "note": "Gaussian proved (radius below 2^30, C81_radius_refuted); mean with hshape as in C54."
  },
  {
   "property": "C82",
   "status": "partial",
   "theorems": [
    "Boof.C82_globalFixed_float",
    "Boof.C82_globalOtsu_float_partial",
    "Boof.C82_localMean_float_partial",
    "Boof.C82_blockMean_float",
    "Boof.C82_blockMinMax_float_partial",
    "Boof.C82_blockOtsu_float_partial",
    "Boof.C82_globalFixed",
    "Boof.C82_globalFixed_refuted",
    "Boof.C82_globalFixed_negative_refuted",
    "Boof.C82_globalOtsu_partial",
    "Boof.C82_localMean_partial",
    "Boof.C82_blockMean_partial",
    "Boof.C82_blockMinMax_partial",
    "Boof.C82_blockOtsu_partial",
    "Boof.C82_destroy_twice_refuted"
   ],
   "note": "Whole lives of all six filters; thresholds in [0,256), full range of levels for Otsu, local mean with a window of radius at least 1 on images of the shapes of C54, scales up to 1 for block mean, spreads not negative; the rest is refuted or as in C35, C40, C75. Float images: all six filters. Destroying twice is undefined behaviour."
  },
  {
   "property": "C83",
   "status": "partial",
   "theorems": [
    "Boof.C83_mean_partial",
    "Boof.C83_mean_float_partial",
    "Boof.C83_gaussian_partial",
    "Boof.C83_gaussian_float",
    "Boof.C83_negative_refuted"
   ],
   "note": "Mean and Gaussian, integral pixels (rounding included) and exact floating point. Missing: bounds below zero for integral pixels (false, C83_negative_refuted), and for the mean the images of C54_vertical_refuted. Negative upper bounds are exceeded by at most 2 and never above zero (KeepsRange)."
  },
  {
   "property": "C84",
   "status": "partial",
   "theorems": [
    "Boof.C84_float32",
    "Boof.C84_float64",
    "Boof.C84_representable",
    "Boof.C84_simple",
    "Boof.C84_horizontal",
    "Boof.C84_vertical",
    "Boof.C84_convolve",
    "Boof.C84_normalized_horizontal",
    "Boof.C84_normalized_vertical",
    "Boof.C84_mean_horizontal",
    "Boof.C84_mean_vertical_partial",
    "Boof.C84_mean_partial",
    "Boof.C84_index_refuted"
   ],
   "note": "Mean blur except the shapes of C54, and only while indexes of the array are exact in the format (C84_index_refuted: float beyond 2^24). Borders within one period as in C47-C49; weighted averages with coefficients which are not negative. Infinities and NaN are not modelled."
  },
  {
   "property": "C85",
   "status": "proved",
   "theorems": [
    "Boof.C85_exit",
    "Boof.C85_posix",
    "Boof.C85_crash"
   ],
   "note": "Deleting an existing file is assumed to succeed."
  },
  {
   "property": "C86",
   "status": "partial",
   "theorems": [
    "Boof.C86_bytes",
    "Boof.C86_path",
    "Boof.C86_first",
    "Boof.C86_fallback_refuted"
   ],
   "note": "The first library there is is taken, but one which cannot be loaded ends the search with an error instead of going on (C86_fallback_refuted); C86_first says exactly what happens."
  },
  {
   "property": "C87",
   "status": "partial",
   "theorems": [
    "Boof.C87_print",
    "Boof.C87_print_int",
    "Boof.C87_print_faithful",
    "Boof.C87_print_long_refuted",
    "Boof.C87_kernel1D",
    "Boof.C87_kernel2D",
    "Boof.C87_kernel_faithful",
    "Boof.C87_difference",
    "Boof.C87_difference_throws"
   ],
   "note": "Integral pixels of at most 32 bits for injectivity; 64-bit pixels cannot be printed (C87_print_long_refuted). The text of a floating point number is a parameter."
  },
  {
   "property": "C88",
   "status": "partial",
   "theorems": [
    "Boof.C88_check_equals",
    "Boof.C88_check_border",
    "Boof.C88_check_inner",
    "Boof.C88_check_split",
    "Boof.C88_border_refuted"
   ],
   "note": "Frames whose right and lower parts fit into the image (C88_border_refuted for the others); for 32 and 64 bit pixels differences which fit the type."
  },
  {
   "property": "C89",
   "status": "proved",
   "theorems": [
    "Boof.C89_create_subimage"
   ],
   "note": "The array of the window is never released (create_subimage returns a view of an image nobody owns): the theorem says so."
  },
  {
   "property": "C90",
   "status": "proved",
   "theorems": [
    "Boof.C90_horizontal",
    "Boof.C90_vertical",
    "Boof.C90_convolve"
   ],
   "note": "Exact arithmetic; reflecting and wrapping borders within one period as in C47."
  },
  {
   "property": "C91",
   "status": "proved",
   "theorems": [
    "Boof.C91_horizontal",
    "Boof.C91_vertical",
    "Boof.C91_convolve",
    "Boof.C91_identity",
    "Boof.C91_shift_int"
   ],
   "note": "Reflecting and wrapping borders within one period as in C47."
  },
  {
   "property": "C92",
   "status": "partial",
   "theorems": [
    "Boof.C92_separable",
    "Boof.C92_compose",
    "Boof.C92_separable_int",
    "Boof.C92_separable_refuted"
   ],
   "note": "Exact arithmetic, and integral pixels while the sums of magnitudes fit into 32 bits. A constant other than zero outside the image is excluded (C92_separable_refuted); reflecting and wrapping borders within one period as in C47."
  },
  {
   "property": "C93",
   "status": "partial",
   "theorems": [
    "Boof.C93_horizontal",
    "Boof.C93_vertical_partial",
    "Boof.C93_horizontal_float",
    "Boof.C93_vertical_float_partial"
   ],
   "note": "Columns except the shapes for which the mean blur is undefined (C54)."
  },
  {
   "property": "C94",
   "status": "proved",
   "theorems": [
    "Boof.C94_filter_contours",
    "Boof.C94_threshold_contours",
    "Boof.C94_thresholds_nest"
   ],
   "note": ""
  },
  {
   "property": "C95",
   "status": "proved",
   "theorems": [
    "Boof.C95_one_component_surrounds",
    "Boof.C95_internal_sets_are_holes",
    "Boof.C95_sets_count_components_and_holes",
    "Boof.C95_other_values_miss_holes"
   ],
   "note": "Pictures of zeros and ones, as documented; with other values holes are missed (C95_other_values_miss_holes)."
  },
  {
   "property": "C96",
   "status": "proved",
   "theorems": [
    "Boof.C96_four_refines_eight",
    "Boof.C96_more_black_merges",
    "Boof.C96_transposed",
    "Boof.C96_mirrored",
    "Boof.C96_upside_down",
    "Boof.C96_moved"
   ],
   "note": ""
  },
  {
   "property": "C97",
   "status": "proved",
   "theorems": [
    "Boof.C97_mean_mirrored",
    "Boof.C97_mean_mirrored_float",
    "Boof.C97_mean_transposed_float",
    "Boof.C97_rounding_transposed",
    "Boof.C97_gaussian_mirrored_float",
    "Boof.C97_gaussian_transposed_float",
    "Boof.C97_gaussian_mirrored",
    "Boof.C97_erode_mirrored",
    "Boof.C97_dilate_mirrored",
    "Boof.C97_morphology_transposed"
   ],
   "note": "Mean blur with the shapes of C54 (hshape). For integral pixels rows and columns differ by rounding (C97_rounding_transposed)."
  },
  {
   "property": "C98",
   "status": "proved",
   "theorems": [
    "Boof.C98_any_order",
    "Boof.C98_copy",
    "Boof.C98_threshold",
    "Boof.C98_and",
    "Boof.C98_or",
    "Boof.C98_convolve",
    "Boof.C98_mean",
    "Boof.C98_mean_float",
    "Boof.C98_gaussian_float",
    "Boof.C98_gaussian",
    "Boof.C98_localMean",
    "Boof.C98_localMean_float",
    "Boof.C98_erode4",
    "Boof.C98_dilate4",
    "Boof.C98_normalized",
    "Boof.C98_otsu"
   ],
   "note": ""
  },
  {
   "property": "C99",
   "status": "partial",
   "theorems": [
    "Boof.C99_defined_iff",
    "Boof.C99_leak_iff",
    "Boof.C99_all_released",
    "Boof.C99_plain",
    "Boof.C99_plain_end",
    "Boof.C99_destroy_refuted",
    "Boof.C99_type_refuted",
    "Boof.C99_reinit_refuted",
    "Boof.C99_contour_destroy",
    "Boof.C99_contour_released"
   ],
   "note": "Exact characterisation of the histories which are defined and of those which leak; programs which only construct, use and drop objects are proved right. Refuted: explicit release of a filter followed by its finalizer, change of the image type, second nativeinit."
  },
  {
   "property": "C100",
   "status": "proved",
   "theorems": [
    "Boof.C100_mean_grows",
    "Boof.C100_mean_local",
    "Boof.C100_mean_brightness",
    "Boof.C100_negative_brightness",
    "Boof.C100_mean_grows_float",
    "Boof.C100_mean_brightness_float",
    "Boof.C100_gaussian_grows_float",
    "Boof.C100_gaussian_brightness_float",
    "Boof.C100_gaussian_grows",
    "Boof.C100_gaussian_local",
    "Boof.C100_gaussian_brightness"
   ],
   "note": "Growth, locality and brightness of mean and Gaussian blurs, integral and floating point pixels (exact arithmetic). C100_negative_brightness shows why brightness needs pixels that are not negative. The mean blur has the shape condition of C54."
  },
  {
   "property": "C101",
   "status": "proved",
   "theorems": [
    "Boof.C101_view",
    "Boof.C101_mean",
    "Boof.C101_mean_float",
    "Boof.C101_gaussian_float",
    "Boof.C101_gaussian",
    "Boof.C101_horizontal",
    "Boof.C101_vertical",
    "Boof.C101_convolve"
   ],
   "note": "Mean and Gaussian blurs (integral and floating point pixels) and the three convolutions (any arithmetic). C101_view: views show parts. The mean blur has the shape condition of C54, convolutions the reach condition of C47-C49."
  },
  {
   "property": "C102",
   "status": "proved",
   "theorems": [
    "Boof.C102_calls",
    "Boof.C102_shape",
    "Boof.C102_erode",
    "Boof.C102_dilate",
    "Boof.C102_opening",
    "Boof.C102_closing",
    "Boof.C102_same",
    "Boof.C102_opening_twice",
    "Boof.C102_closing_twice",
    "Boof.C102_grows",
    "Boof.C102_frame"
   ],
   "note": "Refinement of sequences of calls to operations on sets of points of the plane, by induction over the sequence; the laws follow for sets. C102_frame shows what happens nearer to the edges, where the library leaves the frame unwritten."
  },
  {
   "property": "C103",
   "status": "proved",
   "theorems": [
    "Boof.C103_turned_horizontal",
    "Boof.C103_turned_vertical",
    "Boof.C103_turned_convolve",
    "Boof.C103_transposed",
    "Boof.C103_transposed_convolve",
    "Boof.C103_mirrored_horizontal",
    "Boof.C103_mirrored_vertical",
    "Boof.C103_mirrored_convolve",
    "Boof.C103_total_horizontal",
    "Boof.C103_total_vertical",
    "Boof.C103_total_convolve",
    "Boof.C103_mirrored_horizontal_int",
    "Boof.C103_mirrored_vertical_int",
    "Boof.C103_mirrored_convolve_int"
   ],
   "note": "Turning and exchanging rows and columns hold for any arithmetic; mirroring and sums for exact arithmetic, mirroring also for integral pixels whose sums fit. Reach condition of C47-C49."
  },
  {
   "property": "C104",
   "status": "proved",
   "theorems": [
    "Boof.C104_otsu",
    "Boof.C104_double",
    "Boof.C104_otsu_double",
    "Boof.C104_clear",
    "Boof.C104_two_levels",
    "Boof.C104_tie",
    "Boof.C104_image",
    "Boof.C104_global",
    "Boof.C104_otsu2",
    "Boof.C104_otsu2_double",
    "Boof.C104_exact"
   ],
   "note": "Every operation on double rounded (Model/RoundedOtsu.lean); error analysis of the sums, class means and variances, then an invariant of the scan. C104_double: the hypotheses hold for double. C104_tie: splits that are exactly equally good are decided by rounding, so C34 (exact arithmetic) says more than double precision gives there. C104_exact: without rounding this is the model of C34. Tuning and scale: C113."
  },
  {
   "property": "C105",
   "status": "partial",
   "theorems": [
    "Boof.C105_sigma",
    "Boof.C105_radius",
    "Boof.C105_throws",
    "Boof.C105_inverse",
    "Boof.C105_inverse_refuted"
   ],
   "note": "Every operation on double rounded (Model/RoundedGauss.lean). C105_inverse: for order 0 the round trip holds in double for every radius, because the rounded fifth of an integer below 2^51, times five, rounds back to it (ieee_fifth). C105_inverse_refuted: for order 1 it fails in double at radius 6 (gives 7), although it holds with exact arithmetic (C78)."
  },
  {
   "property": "C106",
   "status": "partial",
   "theorems": [
    "Boof.C106_shape",
    "Boof.C106_width",
    "Boof.C106_sigma",
    "Boof.C106_radius",
    "Boof.C106_accuracy",
    "Boof.C106_exact",
    "Boof.C106_sum",
    "Boof.C106_float",
    "Boof.C106_double",
    "Boof.C106_even_refuted"
   ],
   "note": "Model/RoundedGauss.lean: every operation rounded, exp any function. C106_shape needs only that rounding keeps order and sign (Format); C106_accuracy is an error analysis over the reals with Real.exp; C106_float/C106_double show the hypotheses hold for the IEEE formats; C106_exact ties the specification to C45. C106_even_refuted: for an even width and a small sigma (1/128) all samples underflow, the sum is zero and C++ returns NaN. 2D kernels: C109."
  },
  {
   "property": "C107",
   "status": "partial",
   "theorems": [
    "Boof.C107_convert",
    "Boof.C107_largest",
    "Boof.C107_same",
    "Boof.C107_gaussian",
    "Boof.C107_double",
    "Boof.C107_largest_refuted"
   ],
   "note": "C107_convert for any kernel (NearIntKernel is IsIntKernel of C46 with an error before truncation); C107_same: equal to C46 unless near an integer; C107_largest: 99 or 100; C107_largest_refuted: 99 does happen in double, for the coefficient 7/64. 2D kernels: C109."
  },
  {
   "property": "C108",
   "status": "proved",
   "theorems": [
    "Boof.C108_blur",
    "Boof.C108_int",
    "Boof.C108_exact",
    "Boof.C108_width",
    "Boof.C108_sigma",
    "Boof.C108_float",
    "Boof.C108_double"
   ],
   "note": "C108_blur end to end for floating point pixels; C108_exact ties the specification to C55; C108_float/C108_double give the ranges; C108_width, C108_sigma for missing parameters; C108_int for integral pixels."
  },
  {
   "property": "C109",
   "status": "partial",
   "theorems": [
    "Boof.C109_gaussian",
    "Boof.C109_sum",
    "Boof.C109_convert",
    "Boof.C109_int",
    "Boof.C109_double",
    "Boof.C109_symmetric_refuted",
    "Boof.C109_exp_half"
   ],
   "note": "C109_gaussian, C109_sum, C109_int, C109_convert, C109_double. The symmetry of columns and axes holds apart from row 0 only: normalize divides row 0 alone, and C109_symmetric_refuted shows gaussian2D(1,3) in double whose first and last rows differ (C109_exp_half: the assumed value of exp is the correctly rounded one)."
  },
  {
   "property": "C110",
   "status": "partial",
   "theorems": [
    "Boof.C110_width",
    "Boof.C110_width_fixed",
    "Boof.C110_width_mono",
    "Boof.C110_width_refuted",
    "Boof.C110_near",
    "Boof.C110_localMean_partial",
    "Boof.C110_localMean_float_partial",
    "Boof.C110_percent",
    "Boof.C110_u8_partial",
    "Boof.C110_percent_refuted"
   ],
   "note": "C110_localMean_partial for integral pixels (LocalBit is the exact characterisation, C110_near the distance), C110_u8_partial for decimal scales, C110_localMean_float_partial for floating point pixels; all miss the images of C54_vertical_refuted (hshape), as C36. C110_percent_refuted: with scale 1.05 a pixel 105 with mean 100 is classified wrongly. C110_width, C110_width_fixed, C110_width_mono; C110_width_refuted: 0.49999999999999994 becomes width 1."
  },
  {
   "property": "C111",
   "status": "proved",
   "theorems": [
    "Boof.C111_life",
    "Boof.C111_references"
   ],
   "note": "Model/PackedMemory.lean has the array of pointers, the blocks and the heap; C111_life refines it to lists of lists for every history, with memory outside unchanged and nothing left after destruction; C111_references: a place obtained from at() holds the same element after any further history which keeps it. Bounded by MemBounded (32 bit counters do not wrap)."
  },
  {
   "property": "C112",
   "status": "partial",
   "theorems": [
    "Boof.C112_step",
    "Boof.C112_history",
    "Boof.C112_set_own",
    "Boof.C112_returned",
    "Boof.C112_returned_refuted",
    "Boof.C112_empty_kernel",
    "Boof.C112_copy_refuted",
    "Boof.C112_packed_copy_refuted",
    "Boof.C112_packed_copied_refuted"
   ],
   "note": "C112_history: objects in memory refine the values of C13 for every program (C112_step one operation, with both outcomes); C112_set_own: memmove within the own array; C112_returned/C112_empty_kernel: factories when the copy is elided. Refuted: C112_copy_refuted, C112_packed_copy_refuted (implicit copy constructors share the array, so it is released twice) and C112_returned_refuted (C++11 does not guarantee elision). Wrapping constructors (memory of others) are in C13 as values only."
  },
  {
   "property": "C113",
   "status": "proved",
   "theorems": [
    "Boof.C113_tuned",
    "Boof.C113_selects_fewer",
    "Boof.C113_fits",
    "Boof.C113_double"
   ],
   "note": "C113_tuned: the penalty relative to the exact variance of the split found, which needs a relative error bound for the computed variance (product_rel); the penalty and the moved threshold are the ones of C75 up to tuneError. C113_double: the constants for double. C113_selects_fewer needs only a monotone format."
  },
  {
   "property": "C114",
   "status": "proved",
   "theorems": [
    "Boof.C114_mean",
    "Boof.C114_mean_u8",
    "Boof.C114_limit",
    "Boof.C114_mean_scale",
    "Boof.C114_minmax",
    "Boof.C114_otsu",
    "Boof.C114_mean_float",
    "Boof.C114_mean_float32",
    "Boof.C114_float_limit",
    "Boof.C114_minmax_float",
    "Boof.C114_otsu_float"
   ],
   "note": "C114_mean: exact for scale 1, because halves are numbers of the format and rounding is monotone, so that only quotients within two roundings below a half could go wrong, and for small blocks there are none. C114_limit: a block of 100001 pixels where the statistic is off by one. C114_mean_scale, C114_minmax, C114_otsu (via C113): error bounds. C114_mean_u8: the constants for 8 bit images in float. Overflow of float is excluded by hypotheses. C114_mean_float, C114_mean_float32, C114_minmax_float: float pixels; C114_float_limit shows that the errors are real. C114_otsu_float: the Otsu filter on float pixels."
  },
  {
   "property": "C115",
   "status": "partial",
   "theorems": [
    "Boof.C115_histogram",
    "Boof.C115_levels",
    "Boof.C115_image",
    "Boof.C115_integers_partial",
    "Boof.C115_global",
    "Boof.C115_refuted",
    "Boof.C115_large_refuted"
   ],
   "note": "False in general: the size of the histogram and the index of the largest pixel are rounded separately, so that the largest pixel may be counted behind the end of the histogram (C115_refuted: a range of about -0.25 to 0.75; C115_large_refuted: 2^24). C115_image: the exact condition on the range under which the call is right. C115_integers_partial: ranges given by integers up to 2^22. C115_global: the range 0 to 255. Not modelled: infinities and not-a-number pixels."
  },
  {
   "property": "C116",
   "status": "partial",
   "theorems": [
    "Boof.C116_enough_image",
    "Boof.C116_enough_array",
    "Boof.C116_enough_packed",
    "Boof.C116_image_new",
    "Boof.C116_reshape_fits",
    "Boof.C116_reshape_refuted",
    "Boof.C116_copy_refuted",
    "Boof.C116_interleaved_refuted",
    "Boof.C116_bands_refuted",
    "Boof.C116_array_step",
    "Boof.C116_array_history",
    "Boof.C116_grow_refuted",
    "Boof.C116_packed_life",
    "Boof.C116_packed_leak_refuted",
    "Boof.C116_packed_new_refuted"
   ],
   "note": "C116_array_history/C116_array_step: arrays (resize, set to a list, construction) in histories with failing allocations; C116_packed_life: packed sets, with the arrays left behind counted; C116_reshape_fits, C116_image_new; C116_enough_*: with memory the functions are those of the other claims. Refuted, since the code releases the old array before it asks for the new one: C116_reshape_refuted, C116_copy_refuted, C116_interleaved_refuted, C116_bands_refuted, C116_grow_refuted (every such object, not only a witness); PackedSet loses a pointer array: C116_packed_leak_refuted, C116_packed_new_refuted."
  },
  {
   "property": "C117",
   "status": "partial",
   "theorems": [
    "Boof.C117_localMean_u8",
    "Boof.C117_mean_u8",
    "Boof.C117_minmax",
    "Boof.C117_otsu_counts",
    "Boof.C117_otsu_partial",
    "Boof.C117_global_partial",
    "Boof.C117_global_refuted",
    "Boof.C117_otsu_refuted",
    "Boof.C117_signed_refuted"
   ],
   "note": "C117_localMean_u8, C117_mean_u8 (scale 1, float and double), C117_minmax (all three integer types, not negative), C117_otsu_counts: proved with rounding where the code rounds. C117_otsu_partial, C117_global_partial: exact arithmetic, when at least two values occur (in every local region). Refuted: a picture of one value has the threshold 0 whatever the value (C117_global_refuted, C117_otsu_refuted); negative pixels are averaged toward zero (C117_signed_refuted)."
  },
  {
   "property": "C118",
   "status": "partial",
   "theorems": [
    "Boof.C118_localMean_local",
    "Boof.C118_localMean_complement",
    "Boof.C118_localMean_complement_refuted",
    "Boof.C118_localMean_mirrored",
    "Boof.C118_mean_local",
    "Boof.C118_mean_complement",
    "Boof.C118_mean_mirrored_partial",
    "Boof.C118_mirrored_refuted",
    "Boof.C118_minmax_local",
    "Boof.C118_minmax_complement_partial",
    "Boof.C118_minmax_flat",
    "Boof.C118_minmax_complement_refuted",
    "Boof.C118_minmax_mirrored_partial",
    "Boof.C118_otsu_local",
    "Boof.C118_otsu_complement",
    "Boof.C118_otsu_mirrored_partial",
    "Boof.C118_otsuR_local",
    "Boof.C118_otsuR_complement_partial",
    "Boof.C118_otsu_complement_refuted",
    "Boof.C118_otsuR_mirrored_partial"
   ],
   "note": "Locality, complement and mirror theorems for the local mean (with rounding, percentages 85 to 103, 8-bit), block mean and min-max (any scaling function, so also the rounded one) and Otsu (exact arithmetic, and all settings in double precision: C118_otsuR_*). Refuted and kept partial: mirrored pictures when the last block is larger (C118_mirrored_refuted), complement of the min-max filter in flat regions (C118_minmax_complement_refuted, exact by C118_minmax_flat), complement of the local mean with scale other than 1 (C118_localMean_complement_refuted), complement of Otsu with tuning (C118_otsu_complement_refuted)."
  },
  {
   "property": "C119",
   "status": "proved",
   "theorems": [
    "Boof.C119_at_most_four",
    "Boof.C119_boundary",
    "Boof.C119_steps"
   ],
   "note": "Each listing of a pixel is charged to a different one of its four sides. The bound of four is attained (example: the middle of a cross)."
  },
  {
   "property": "C120",
   "status": "proved",
   "theorems": [
    "Boof.C120_sum",
    "Boof.C120_sum_s16",
    "Boof.C120_mean",
    "Boof.C120_minmax",
    "Boof.C120_histogram",
    "Boof.C120_mirrored",
    "Boof.C120_transposed",
    "Boof.C120_columns",
    "Boof.C120_rows"
   ],
   "note": "Otsu thresholds of images with equal counts are equal too: C117_otsu_counts. Minimum and maximum of sub-images are wrong (C26_sub_refuted), hence the restriction to owners."
  },
  {
   "property": "C121",
   "status": "proved",
   "theorems": [
    "Boof.C121_contours_determine",
    "Boof.C121_different"
   ],
   "note": "The example beside the theorem shows that external contours alone do not determine the picture."
  },
  {
   "property": "C122",
   "status": "partial",
   "theorems": [
    "Boof.C122_new",
    "Boof.C122_owns",
    "Boof.C122_refines",
    "Boof.C122_no_leak",
    "Boof.C122_apart",
    "Boof.C122_labels",
    "Boof.C122_boundaries",
    "Boof.C122_destroy",
    "Boof.C122_copy_refuted",
    "Boof.C122_life",
    "Boof.C122_enough",
    "Boof.C122_oom_refuted"
   ],
   "note": "Holds for the finder itself; refuted are copying a finder (both copies own the same arrays) and a constructor which runs out of memory (the tables made before stay allocated). The points stay a value here, their memory is C111."
  },
  {
   "property": "C123",
   "status": "proved",
   "theorems": [
    "Boof.C123_each",
    "Boof.C123_others",
    "Boof.C123_results",
    "Boof.C123_destroy",
    "Boof.C123_destroy_all"
   ],
   "note": "Histories are those of ContourTeam: finders are not copied (C122 shows what copying does), and the rest of the program does not write to their arrays."
  },
  {
   "property": "C124",
   "status": "partial",
   "theorems": [
    "Boof.C124_add",
    "Boof.C124_sub",
    "Boof.C124_mul",
    "Boof.C124_div_zero",
    "Boof.C124_div",
    "Boof.C124_compare",
    "Boof.C124_rounded",
    "Boof.C124_again",
    "Boof.C124_normalized_horizontal",
    "Boof.C124_normalized_vertical",
    "Boof.C124_otsu_refuted",
    "Boof.C124_horizontal",
    "Boof.C124_vertical",
    "Boof.C124_convolve",
    "Boof.C124_row_exact",
    "Boof.C124_mean_horizontal_partial",
    "Boof.C124_mean_vertical_partial",
    "Boof.C124_mean_left",
    "Boof.C124_mean_border",
    "Boof.C124_mean_exact",
    "Boof.C124_threshold",
    "Boof.C124_min_partial",
    "Boof.C124_max_partial",
    "Boof.C124_min_refuted",
    "Boof.C124_mean_refuted",
    "Boof.C124_mean_infinity_refuted",
    "Boof.C124_bright_refuted",
    "Boof.C124_overflow_refuted",
    "Boof.C124_mean_partial",
    "Boof.C124_mean_image_refuted",
    "Boof.C124_gaussian"
   ],
   "note": "False for the mean blur: its running sums carry a not-a-number, an infinity, an overflow or a large value from one window to all windows to the right of it or below it (C124_mean_refuted, C124_mean_infinity_refuted, C124_bright_refuted, C124_overflow_refuted); proved are the exact extent of the damage and that nothing before the window counts beyond that. The minimum of an image of +infinity and not-a-number only is the largest finite number (C124_min_refuted). Borders of convolutions: extend and value, as in C47. Normalised convolution, and so each pass of the Gaussian blur, is local. The histogram and the Otsu filter are undefined for every float image with such a pixel (C124_otsu_refuted). Zeros have no sign. C124_add, _sub, _mul, _div, _div_zero, _compare: the arithmetic and the comparisons are those of the extended reals of Mathlib where they are defined; C124_rounded, C124_again: with a rounding the result is the exact one rounded, an infinity of its sign on overflow. C124_mean_partial, C124_mean_image_refuted: the whole mean blur; C124_gaussian: the whole Gaussian blur is local."
  },
  {
   "property": "C125",
   "status": "proved",
   "theorems": [
    "Boof.C125_parts",
    "Boof.C125_threshold_pixels",
    "Boof.C125_windows",
    "Boof.C125_logic_pixels",
    "Boof.C125_copy_pixels",
    "Boof.C125_filter_pixels",
    "Boof.C125_threads",
    "Boof.C125_threshold",
    "Boof.C125_copy",
    "Boof.C125_logic",
    "Boof.C125_convolve",
    "Boof.C125_mean",
    "Boof.C125_mean_float",
    "Boof.C125_gaussian",
    "Boof.C125_localMean",
    "Boof.C125_calls",
    "Boof.C125_statistics",
    "Boof.C125_shared_output_races",
    "Boof.C125_average",
    "Boof.C125_blocks",
    "Boof.C125_block_mean",
    "Boof.C125_block_otsu",
    "Boof.C125_block_minmax",
    "Boof.C125_results",
    "Boof.C125_contours",
    "Boof.C125_morphology",
    "Boof.C125_morphology_pixels",
    "Boof.C125_normalized",
    "Boof.C125_otsu",
    "Boof.C125_rounded_blocks",
    "Boof.C125_rounded_block_mean",
    "Boof.C125_rounded_block_otsu",
    "Boof.C125_rounded_mean",
    "Boof.C125_rounded_gaussian",
    "Boof.C125_rounded_localMean",
    "Boof.C125_rounded_otsu"
   ],
   "note": "Proved from the theorems about each call alone (C98): a call is a tree of single reads and writes (C125_threshold, C125_copy, C125_logic, C125_convolve, C125_mean, C125_mean_float, C125_gaussian, C125_localMean, C125_normalized, C125_morphology, C125_otsu say so for the modelled functions, and which arrays they read and write), and C125_threads is about every schedule of any such trees which are apart array by array. C125_parts is about calls which are apart cell by cell: C125_filter_pixels applies to all of these calls but erosion and dilation, whose result keeps a frame of the output, see C125_morphology_pixels (output by pixels, inputs and storage by arrays), C125_threshold_pixels, C125_logic_pixels and C125_copy_pixels have inputs by pixels too; C125_windows says that windows at rectangles which do not meet share no pixel. Outputs must already have the right size (no allocation in the threads); kernels and local arrays are private values. Sequential consistency for programs without races is part of the trusted base. C125_contours: contour finders in several threads, each with its own finder and label image, which may read the same picture; each returns what the call alone returns (so C59-C67 apply to it). The finders have worked on pictures of these sizes before, so that no image is allocated; the point lists and direction tables of a finder are values, private to its thread (C122 has the tables in memory). C125_results is the underlying theorem for calls which return anything. C125_statistics (smallest, largest pixel, sum, mean, filling), C125_average (average of the bands) and C125_blocks (block mean, min-max and Otsu filters, each thread with its own filter, whose statistics image has the right size) likewise: every thread returns what its call alone returns and its arrays are as after that call alone; C125_calls is the theorem behind them; C125_block_mean, C125_block_otsu and C125_block_minmax say what the outputs of the filters show. C125_shared_output_races: two calls with the same output do race. C125_rounded_blocks, C125_rounded_block_mean and C125_rounded_block_otsu: the same with rounded arithmetic, float for the mean filter and double for Otsu (C114). C125_rounded_mean, C125_rounded_gaussian, C125_rounded_localMean and C125_rounded_otsu say which arrays those calls read and write when their arithmetic is rounded."
  }
 ]
}