{
 "claims": [
  {
   "property": "C01",
   "status": "proved",
   "theorems": [
    "PV.Props.C01_validate_iff"
   ],
   "note": "accepted iff the rectangle fits, for all 32-bit values"
  },
  {
   "property": "C02",
   "status": "proved",
   "theorems": [
    "PV.Props.C02_validate_all_iff",
    "PV.Props.C02_validate_images_iff"
   ],
   "note": ""
  },
  {
   "property": "C03",
   "status": "proved",
   "theorems": [
    "PV.Props.C03_optimise_same_cells",
    "PV.Props.C03_optimise_only_full_rows"
   ],
   "note": ""
  },
  {
   "property": "C09",
   "status": "proved",
   "theorems": [
    "PV.Props.C09_absoluteDifference",
    "PV.Props.C09_absoluteDifference_rejects"
   ],
   "note": ""
  },
  {
   "property": "C10",
   "status": "proved",
   "theorems": [
    "PV.Props.C10_bitwiseAnd",
    "PV.Props.C10_bitwiseOr",
    "PV.Props.C10_bitwiseXor",
    "PV.Props.C10_bitwise_rejects"
   ],
   "note": ""
  },
  {
   "property": "C11",
   "status": "proved",
   "theorems": [
    "PV.Props.C11_maximum",
    "PV.Props.C11_minimum",
    "PV.Props.C11_rejects"
   ],
   "note": ""
  },
  {
   "property": "C12",
   "status": "partial",
   "theorems": [
    "PV.Props.C12_subtract_partial",
    "PV.Props.C12_subtract_rejects",
    "PV.Props.C12_subtract_wrong"
   ],
   "note": "false for a second input with different row length when complete rows are processed; C12_subtract_wrong is the witness, the partial theorem covers all other calls"
  },
  {
   "property": "C13",
   "status": "proved",
   "theorems": [
    "PV.Props.C13_invert",
    "PV.Props.C13_invert_rejects",
    "PV.Props.C13_invert_involution"
   ],
   "note": ""
  },
  {
   "property": "C14",
   "status": "proved",
   "theorems": [
    "PV.Props.C14_threshold",
    "PV.Props.C14_threshold2",
    "PV.Props.C14_threshold_rejects",
    "PV.Props.C14_threshold2_rejects_limits"
   ],
   "note": ""
  },
  {
   "property": "C15",
   "status": "proved",
   "theorems": [
    "PV.Props.C15_lookupTable",
    "PV.Props.C15_lookupTable_rejects"
   ],
   "note": ""
  },
  {
   "property": "C16",
   "status": "proved",
   "theorems": [
    "PV.Props.C16_copy",
    "PV.Props.C16_copy_rejects",
    "PV.Props.C16_copy_self_ub"
   ],
   "note": "for rectangles without common bytes; an in-place copy is memcpy with overlapping ranges"
  },
  {
   "property": "C17",
   "status": "proved",
   "theorems": [
    "PV.Props.C17_fill",
    "PV.Props.C17_fill_rejects"
   ],
   "note": ""
  },
  {
   "property": "C36",
   "status": "partial",
   "theorems": [
    "PV.Props.C36_fill_large_image_noop",
    "PV.Props.C36_invert_large_image_noop"
   ],
   "note": "the property is false: negation with a concrete image; below 4 GiB see C09-C17"
  },
  {
   "property": "C18",
   "status": "proved",
   "theorems": [
    "PV.Props.C18_flip",
    "PV.Props.C18_flip_twice",
    "PV.Props.C18_flip_rejects"
   ],
   "note": ""
  },
  {
   "property": "C19",
   "status": "proved",
   "theorems": [
    "PV.Props.C19_transpose",
    "PV.Props.C19_transpose_twice",
    "PV.Props.C19_transpose_rejects"
   ],
   "note": ""
  },
  {
   "property": "C20",
   "status": "proved",
   "theorems": [
    "PV.Props.C20_extractChannel",
    "PV.Props.C20_extractChannel_rejects",
    "PV.Props.C20_split",
    "PV.Props.C20_split_rejects",
    "PV.Props.C20_merge",
    "PV.Props.C20_merge_rejects",
    "PV.Props.C20_merge_split"
   ],
   "note": ""
  },
  {
   "property": "C21",
   "status": "partial",
   "theorems": [
    "PV.Props.C21_rgbToBgr_partial",
    "PV.Props.C21_rgbToBgr_twice_partial",
    "PV.Props.C21_rgbToBgr_rejects",
    "PV.Props.C21_inPlace_wrong"
   ],
   "note": "true for images with separate storage; false in place (C21_inPlace_wrong)"
  },
  {
   "property": "C22",
   "status": "proved",
   "theorems": [
    "PV.Props.C22_convertToRgb_gray",
    "PV.Props.C22_convertToRgb_rgb",
    "PV.Props.C22_convertToGrayScale_rgb",
    "PV.Props.C22_convertToGrayScale_gray",
    "PV.Props.C22_gray_rgb_gray",
    "PV.Props.C22_rejects",
    "PV.Props.C22_toRgb_rgba_exact",
    "PV.Props.C22_toGray_rgba_exact",
    "PV.Props.C22_rgba_wrong"
   ],
   "note": "RGBA inputs, which the functions accept, are outside the claim and give wrong results (C22_rgba_wrong); the C22_\u2026_rgba_exact theorems say which"
  },
  {
   "property": "C23",
   "status": "proved",
   "theorems": [
    "PV.Props.C23_rgbToRgba",
    "PV.Props.C23_rgbaToRgb",
    "PV.Props.C23_rgb_rgba_rgb",
    "PV.Props.C23_rejects"
   ],
   "note": ""
  },
  {
   "property": "C67",
   "status": "proved",
   "theorems": [
    "PV.Props.C67_replaceChannel",
    "PV.Props.C67_replaceChannel_rejects"
   ],
   "note": ""
  },
  {
   "property": "C24",
   "status": "partial",
   "theorems": [
    "PV.Props.C24_histogram_partial",
    "PV.Props.C24_histogramMask_partial",
    "PV.Props.C24_histogram_rejects",
    "PV.Props.C24_histogram_colour_wrong",
    "PV.Props.C24_histogram_colour_ub"
   ],
   "note": "proved for gray-scale images (also with mask); false for colour images, witnesses given"
  },
  {
   "property": "C25",
   "status": "proved",
   "theorems": [
    "PV.Props.C25_sum",
    "PV.Props.C25_sum_exact",
    "PV.Props.C25_sum_histogram",
    "PV.Props.C25_sum_rejects"
   ],
   "note": ""
  },
  {
   "property": "C26",
   "status": "proved",
   "theorems": [
    "PV.Props.C26_projection_horizontal",
    "PV.Props.C26_projection_vertical",
    "PV.Props.C26_projection_totals",
    "PV.Props.C26_projection_rejects"
   ],
   "note": "profile entries are 32-bit, i.e. the exact sums modulo 2^32"
  },
  {
   "property": "C27",
   "status": "proved",
   "theorems": [
    "PV.Props.C27_accumulate",
    "PV.Props.C27_accumulate_rejects"
   ],
   "note": "also for colour images (entries per byte)"
  },
  {
   "property": "C28",
   "status": "proved",
   "theorems": [
    "PV.Props.C28_isEqual",
    "PV.Props.C28_isEqual_rejects"
   ],
   "note": ""
  },
  {
   "property": "C29",
   "status": "proved",
   "theorems": [
    "PV.Props.C29_isBinary",
    "PV.Props.C29_isBinary_rejects"
   ],
   "note": ""
  },
  {
   "property": "C30",
   "status": "proved",
   "theorems": [
    "PV.Props.C30_setPixel",
    "PV.Props.C30_getPixel",
    "PV.Props.C30_rejects",
    "PV.Props.C30_setPixels",
    "PV.Props.C30_setPixels_not_atomic"
   ],
   "note": "the list form of SetPixel is proved for valid points; with an invalid point it throws after writing earlier points (C30_setPixels_not_atomic)"
  },
  {
   "property": "C37",
   "status": "proved",
   "theorems": [
    "PV.Props.C37_blocks_disjoint",
    "PV.Props.C37_overflow_wrong"
   ],
   "note": "for requests whose byte count fits in size_t; a request that overflows size_t gets a one-byte block (C37_overflow_wrong)"
  },
  {
   "property": "C38",
   "status": "proved",
   "theorems": [
    "PV.Props.C38_partition",
    "PV.Props.C38_total"
   ],
   "note": ""
  },
  {
   "property": "C39",
   "status": "partial",
   "theorems": [
    "PV.Props.C39_restored_partial",
    "PV.Props.C39_all_free_partial",
    "PV.Props.C39_restored_wrong"
   ],
   "note": "false in general (C39_restored_wrong); true when blocks are released in reverse order"
  },
  {
   "property": "C40",
   "status": "partial",
   "theorems": [
    "PV.Props.C40_aligned_partial",
    "PV.Props.C40_aligned_big_partial",
    "PV.Props.C40_aligned_wrong"
   ],
   "note": "false in general (C40_aligned_wrong); true in stack order, and in any order if no request is small"
  },
  {
   "property": "C41",
   "status": "partial",
   "theorems": [
    "PV.Props.C41_usable_partial",
    "PV.Props.C41_usable_wrong",
    "PV.Props.C41_refused_blocks_all"
   ],
   "note": "false: every later call hangs (C41_refused_blocks_all); histories without such a refusal never hang"
  },
  {
   "property": "C42",
   "status": "proved",
   "theorems": [
    "PV.Props.C42_exactly_once",
    "PV.Props.C42_at_most_once"
   ],
   "note": "for runs with at least as many tasks as the provider's previous run, see C46 for the others"
  },
  {
   "property": "C43",
   "status": "proved",
   "theorems": [
    "PV.Props.C43_wait_result"
   ],
   "note": "same range as C42"
  },
  {
   "property": "C44",
   "status": "proved",
   "theorems": [
    "PV.Props.C44_bounded",
    "PV.Props.C44_no_deadlock",
    "PV.Props.C44_wait_returns"
   ],
   "note": "same range as C42; the pool has a worker that is not told to end; the number of worker steps is bounded, so no fairness is needed apart from finitely many spurious wake-ups"
  },
  {
   "property": "C45",
   "status": "partial",
   "theorems": [
    "PV.Props.C45_nothing_pending_partial",
    "PV.Props.C45_clear_hangs_wrong",
    "PV.Props.C45_clear_runs_bodies_wrong"
   ],
   "note": "false: the wait never returns in any continuation, and bodies are run; true when nothing is pending"
  },
  {
   "property": "C46",
   "status": "partial",
   "theorems": [
    "PV.Props.C46_rerun_partial",
    "PV.Props.C46_rerun_wrong"
   ],
   "note": "false when the second run has fewer tasks; true when the counts do not decrease"
  },
  {
   "property": "C47",
   "status": "partial",
   "theorems": [
    "PV.Props.C47_restart_partial",
    "PV.Props.C47_restart_wrong"
   ],
   "note": "false for a resize to at most the previous number of threads; true above it"
  },
  {
   "property": "C68",
   "status": "partial",
   "theorems": [
    "PV.Props.C68_destroy_partial",
    "PV.Props.C68_destroy_hangs_wrong"
   ],
   "note": "false with pending tasks; harmless without"
  },
  {
   "property": "C69",
   "status": "partial",
   "theorems": [
    "PV.Props.C69_late_access_partial",
    "PV.Props.C69_late_access_wrong"
   ],
   "note": "false: a worker may still read one counter; proved that it reads nothing else and writes nothing"
  },
  {
   "property": "C48",
   "status": "proved",
   "theorems": [
    "PV.Props.C48_tiles1",
    "PV.Props.C48_tiles",
    "PV.Props.C48_tiles3",
    "PV.Props.C48_tiles4",
    "PV.Props.C48_flip",
    "PV.Props.C48_transpose",
    "PV.Props.C48_no_threads",
    "PV.Props.C48_rejects"
   ],
   "note": "Every ROI accepted by the validation, every thread count from 1 to 2^32-1."
  },
  {
   "property": "C49",
   "status": "partial",
   "theorems": [
    "PV.Props.C49_absoluteDifference",
    "PV.Props.C49_bitwiseAnd",
    "PV.Props.C49_bitwiseOr",
    "PV.Props.C49_bitwiseXor",
    "PV.Props.C49_maximum",
    "PV.Props.C49_minimum",
    "PV.Props.C49_subtract_partial",
    "PV.Props.C49_subtract_wrong",
    "PV.Props.C49_invert",
    "PV.Props.C49_threshold",
    "PV.Props.C49_threshold2",
    "PV.Props.C49_threshold2_rejects_limits",
    "PV.Props.C49_lookupTable",
    "PV.Props.C49_flip",
    "PV.Props.C49_transpose",
    "PV.Props.C49_extractChannel",
    "PV.Props.C49_rgbToBgr",
    "PV.Props.C49_convertToGrayScale",
    "PV.Props.C49_convertToRgb",
    "PV.Props.C49_merge",
    "PV.Props.C49_split",
    "PV.Props.C49_colours_rejected"
   ],
   "note": "All interleavings of single memory accesses of all tasks. Missing: Subtract outside of the guard of C12 (false there, witness). GammaCorrection, Normalize and Resize are C103 - C105."
  },
  {
   "property": "C50",
   "status": "partial",
   "theorems": [
    "PV.Props.C50_sum",
    "PV.Props.C50_histogram",
    "PV.Props.C50_isEqual",
    "PV.Props.C50_projection_vertical",
    "PV.Props.C50_projection_horizontal_partial",
    "PV.Props.C50_projection_colour_wrong",
    "PV.Props.C50_projection_colour_silent"
   ],
   "note": "False for the horizontal profile of every colour image: proved for all colour images; Histogram for gray-scale images only, as in C24."
  },
  {
   "property": "C04",
   "status": "proved",
   "theorems": [
    "PV.Props.C04_storage"
   ],
   "note": "All histories of 16 kinds of calls over any number of images, by induction; includes assign and mutate under their preconditions."
  },
  {
   "property": "C05",
   "status": "proved",
   "theorems": [
    "PV.Props.C05_copy_equal",
    "PV.Props.C05_copy_construct",
    "PV.Props.C05_independent",
    "PV.Props.C05_types"
   ],
   "note": "Independence under every later history."
  },
  {
   "property": "C06",
   "status": "partial",
   "theorems": [
    "PV.Props.C06_self_assign_empties",
    "PV.Props.C06_self_assign_wrong",
    "PV.Props.C06_self_assign_partial",
    "PV.Props.C06_self_move"
   ],
   "note": "False: for every image the self copy-assignment leaves it empty (proved in general and with a concrete image); holds for empty images and for self move-assignment."
  },
  {
   "property": "C07",
   "status": "partial",
   "theorems": [
    "PV.Props.C07_mutate_false",
    "PV.Props.C07_mutate_true_partial",
    "PV.Props.C07_mutate_wrong",
    "PV.Props.C07_mutate_empty_wrong"
   ],
   "note": "False: the product of row size and height wraps (1x1 becomes 641x6700417); proved for sizes below 2^32."
  },
  {
   "property": "C08",
   "status": "proved",
   "theorems": [
    "PV.Props.C08_swap",
    "PV.Props.C08_move_construct",
    "PV.Props.C08_no_leak"
   ],
   "note": ""
  },
  {
   "property": "C70",
   "status": "proved",
   "theorems": [
    "PV.Props.C70_resize",
    "PV.Props.C70_fill",
    "PV.Props.C70_construct",
    "PV.Props.C70_pixel_functions"
   ],
   "note": ""
  },
  {
   "property": "C53",
   "status": "proved",
   "theorems": [
    "PV.Props.C53_components",
    "PV.Props.C53_same_blob",
    "PV.Props.C53_rejects"
   ],
   "note": "All images, thresholds and ROIs with (w+2)(h+2) < 2^32."
  },
  {
   "property": "C54",
   "status": "proved",
   "theorems": [
    "PV.Props.C54_edges",
    "PV.Props.C54_edges_of_blob",
    "PV.Props.C54_outer"
   ],
   "note": "Edge points of holes are in the contour too when they touch it."
  },
  {
   "property": "C71",
   "status": "proved",
   "theorems": [
    "PV.Props.C71_filters",
    "PV.Props.C71_filters_pixels",
    "PV.Props.C71_rejects"
   ],
   "note": "The filters on size, width and height; the others are in C122."
  },
  {
   "property": "C72",
   "status": "partial",
   "theorems": [
    "PV.Props.C72_large_undefined",
    "PV.Props.C72_false",
    "PV.Props.C72_search_partial"
   ],
   "note": "False: the end of the search is computed with 32 bits; with 65535x65535 pixels the search runs over its map. Holds for (w+2)(h+2) < 2^32."
  },
  {
   "property": "C31",
   "status": "partial",
   "theorems": [
    "PV.Props.C31_resize_wrapped",
    "PV.Props.C31_resize_partial",
    "PV.Props.C31_inside",
    "PV.Props.C31_same_size",
    "PV.Props.C31_resize_rejects",
    "PV.Props.C31_resize_wrong"
   ],
   "note": "Exact for every ROI with the products modulo 2^32 (C31_resize_wrapped) and always memory-safe; equal to the stated sampling when the products fit 32 bits. False beyond that: a row of 65537 pixels is not copied."
  },
  {
   "property": "C33",
   "status": "partial",
   "theorems": [
    "PV.Props.C33_to16_exact",
    "PV.Props.C33_to8_exact",
    "PV.Props.C33_to16_partial",
    "PV.Props.C33_to8_partial",
    "PV.Props.C33_round_trip_partial",
    "PV.Props.C33_rejects",
    "PV.Props.C33_to8_rejects",
    "PV.Props.C33_round_trip_wrong"
   ],
   "note": "False for colour images with x > 0: the start offset is not multiplied by the colour count. Proved for gray-scale images and for x = 0; the exact effect of any call is proved too."
  },
  {
   "property": "C73",
   "status": "partial",
   "theorems": [
    "PV.Props.C73_resize_colours_wrong",
    "PV.Props.C73_resize_colours_partial"
   ],
   "note": "False: an RGB input and a gray-scale output is undefined behaviour. The partial theorem covers the calls that are refused."
  },
  {
   "property": "C32",
   "status": "partial",
   "theorems": [
    "PV.Props.C32_dilate_partial",
    "PV.Props.C32_erode_partial",
    "PV.Props.C32_rejects",
    "PV.Props.C32_wide_wrong"
   ],
   "note": "Proved for every 0/255 image and ROI below 2^31 in each direction. False at 2^31: the position array has 2*width entries computed with 32 bits."
  },
  {
   "property": "C34",
   "status": "partial",
   "theorems": [
    "PV.Props.C34_normalize_partial",
    "PV.Props.C34_strict_partial",
    "PV.Props.C34_strict_wrong",
    "PV.Props.C34_rejects"
   ],
   "note": "Proved for every image and rounding if the conversion of out-of-range doubles to uint8_t for unused table entries gives some value. By the C++ standard it is undefined: C34_strict_wrong shows that every non-constant ROI with values from 2 meets it."
  },
  {
   "property": "C35",
   "status": "partial",
   "theorems": [
    "PV.Props.C35_threshold_partial",
    "PV.Props.C35_rejects",
    "PV.Props.C35_wrong"
   ],
   "note": "Proved for every histogram of less than 2^32 pixels (every histogram of an image). False for 2^32 pixels: division by zero."
  },
  {
   "property": "C74",
   "status": "proved",
   "theorems": [
    "PV.Props.C74_gamma",
    "PV.Props.C74_rejects"
   ],
   "note": "pow of the C library is an arbitrary function which is monotone and not negative; infinities are not modelled."
  },
  {
   "property": "C75",
   "status": "partial",
   "theorems": [
    "PV.Props.C75_otsu_partial",
    "PV.Props.C75_rounded_partial",
    "PV.Props.C75_wrong"
   ],
   "note": "C75_otsu_partial: exact arithmetic. C75_rounded_partial: with the rounding of double no split has a variance greater than the chosen one by more than 2^-31. False above 16 million pixels: the sum of values wraps; C75_wrong is an image of 61 million pixels with a wrong threshold."
  },
  {
   "property": "C51",
   "status": "partial",
   "theorems": [
    "PV.Props.C51_absoluteDifference",
    "PV.Props.C51_bitwiseAnd",
    "PV.Props.C51_bitwiseOr",
    "PV.Props.C51_bitwiseXor",
    "PV.Props.C51_maximum",
    "PV.Props.C51_minimum",
    "PV.Props.C51_subtract_partial",
    "PV.Props.C51_subtract_vector",
    "PV.Props.C51_binary_rejects",
    "PV.Props.C51_invert",
    "PV.Props.C51_invert_rejects",
    "PV.Props.C51_threshold",
    "PV.Props.C51_threshold2_partial",
    "PV.Props.C51_threshold_rejects",
    "PV.Props.C51_threshold2_wrong",
    "PV.Props.C51_sum",
    "PV.Props.C51_sum_rejects",
    "PV.Props.C51_projection_vertical",
    "PV.Props.C51_projection_horizontal_partial",
    "PV.Props.C51_projection_horizontal_shuffled",
    "PV.Props.C51_projection_horizontal_wrong",
    "PV.Props.C51_projection_rejects",
    "PV.Props.C51_accumulate_partial",
    "PV.Props.C51_accumulate_safe",
    "PV.Props.C51_accumulate_rejects",
    "PV.Props.C51_accumulate_wrong",
    "PV.Props.C51_accumulate_colour_refused",
    "PV.Props.C51_load_outside",
    "PV.Props.C51_store_outside"
   ],
   "note": "Proved on AVX-512, AVX, SSE and NEON for every listed function but these disagreements: Subtract under the scalar function's guard (C12) or with a register; Threshold with two limits does not refuse min > max; the horizontal profile is permuted on AVX, AVX-512 and NEON and Accumulate on AVX and AVX-512 (exact permutation proved); Accumulate refuses colour images."
  },
  {
   "property": "C52",
   "status": "partial",
   "theorems": [
    "PV.Props.C52_to16_partial",
    "PV.Props.C52_to16_shuffled",
    "PV.Props.C52_to16_wrong",
    "PV.Props.C52_to16_rejects"
   ],
   "note": "Proved for NEON, for machines without vector units and for ROIs narrower than a register. False with SSE, AVX and AVX-512 (C52_to16_wrong): both stores take the low half; C52_to16_shuffled gives exactly what is written and shows that no access leaves the images."
  },
  {
   "property": "C76",
   "status": "partial",
   "theorems": [
    "PV.Props.C76_to8_partial",
    "PV.Props.C76_to8_shuffled",
    "PV.Props.C76_to8_wrong",
    "PV.Props.C76_to8_rejects"
   ],
   "note": "Proved for SSE, NEON, machines without vector units and ROIs narrower than a register. False with AVX and AVX-512 (C76_to8_wrong): packing works per 128-bit lane; C76_to8_shuffled gives exactly what is written."
  },
  {
   "property": "C77",
   "status": "partial",
   "theorems": [
    "PV.Props.C77_convertToRgb_gray",
    "PV.Props.C77_convertToRgb_rgb",
    "PV.Props.C77_convertToRgb_rgba",
    "PV.Props.C77_convertToRgb_rejects",
    "PV.Props.C77_flip",
    "PV.Props.C77_flip_rejects",
    "PV.Props.C77_rgbToBgr_partial",
    "PV.Props.C77_rgbToBgr_rejects",
    "PV.Props.C77_rgbToBgr_inPlace_differs"
   ],
   "note": "Proved for ROIs which do not overlap. In place the scalar RgbToBgr is wrong (C21) and the vector forms give other results (C77_rgbToBgr_inPlace_differs). RGBA inputs of ConvertToRgb are read with the wrong stride by all forms alike. SSSE3 is assumed wherever SSE2 is present."
  },
  {
   "property": "C55",
   "status": "proved",
   "theorems": [
    "PV.Props.C55_median",
    "PV.Props.C55_rejects"
   ],
   "note": "For images below 4 GiB whose input and output rectangles do not overlap, and every std::nth_element with the guarantees of the standard."
  },
  {
   "property": "C56",
   "status": "proved",
   "theorems": [
    "PV.Props.C56_prewitt",
    "PV.Props.C56_sobel",
    "PV.Props.C56_rejects"
   ],
   "note": "Also gives every output value: zero at the border, elsewhere the table entry of the two gradients. The region read (one pixel wider) must not overlap the output."
  },
  {
   "property": "C78",
   "status": "partial",
   "theorems": [
    "PV.Props.C78_table_partial",
    "PV.Props.C78_table_wrong"
   ],
   "note": "True for the entries a filter can look up. False for the unused last entries, whose conversion is undefined behaviour (C78_table_wrong)."
  },
  {
   "property": "C79",
   "status": "partial",
   "theorems": [
    "PV.Props.C79_gauss_partial",
    "PV.Props.C79_rounded_partial",
    "PV.Props.C79_rejects",
    "PV.Props.C79_wrong_size",
    "PV.Props.C79_wrong_sigma"
   ],
   "note": "C79_gauss_partial: exact arithmetic, any positive function as expf. C79_rounded_partial: every operation rounded to float (unbounded exponents), kernel sizes up to 1023, expf may underflow to zero; relative error at most (n+5)/2^22 for n values. Proved for sizes whose product fits 32 bits, kernel sizes below 2^31 and sigma above 0. False for a kernel size of 2^31 (C79_wrong_size) and for sigma = 0 (C79_wrong_sigma)."
  },
  {
   "property": "C62",
   "status": "partial",
   "theorems": [
    "PV.Props.C62_direct",
    "PV.Props.C62_round_trip",
    "PV.Props.C62_haar_partial",
    "PV.Props.C62_rejects",
    "PV.Props.C62_wrong"
   ],
   "note": "Exact arithmetic; any vectors, in place included. C62_round_trip gives the factor (2c\u00b2)\u00b2 for every coefficient c (the code uses a single-precision 1/sqrt 2 also for doubles). False when width * height wraps 64 bits (C62_wrong)."
  },
  {
   "property": "C61",
   "status": "partial",
   "theorems": [
    "PV.Props.C61_roots_partial",
    "PV.Props.C61_total_partial",
    "PV.Props.C61_rejects",
    "PV.Props.C61_rounded_wrong",
    "PV.Props.C61_wrong_room",
    "PV.Props.C61_wrong_size"
   ],
   "note": "That the roots solve the system, that they are the only solution and that an exception means the matrix is almost singular: exact (rational) arithmetic. With any rounding: no undefined behaviour, and only the roots are changed; with the rounding of double the claim is false, a singular system of whole numbers without a solution is given roots (C61_rounded_wrong). Needs room for the roots in the vector passed by the caller (C61_wrong_room) and a number of coefficients below 2^64 (C61_wrong_size). No infinities or NaN."
  },
  {
   "property": "C63",
   "status": "partial",
   "theorems": [
    "PV.Props.C63_hough_partial",
    "PV.Props.C63_rounded_partial",
    "PV.Props.C63_wrong",
    "PV.Props.fourPts_found"
   ],
   "note": "Arbitrary sin and cos, any correct sort; in exact arithmetic and (C63_rounded_partial) for every monotone idempotent rounding, e.g. those of float and double. Proved when the number of angle steps on one side is below the greatest int. False above: the conversion to int is undefined behaviour (C63_wrong)."
  },
  {
   "property": "C80",
   "status": "partial",
   "theorems": [
    "PV.Props.C80_hough_partial",
    "PV.Props.C80_rounded_wrong"
   ],
   "note": "Proved in exact arithmetic, arbitrary sin and cos, any correct sort, same bound as C63. False with the rounding of double: four points within the tolerance of one line of a searched angle, two of them reported (C80_rounded_wrong)."
  },
  {
   "property": "C59",
   "status": "partial",
   "theorems": [
    "PV.Props.C59_length",
    "PV.Props.C59_raw_partial",
    "PV.Props.C59_rejects",
    "PV.Props.saveLoad_tight",
    "PV.Props.C59_noImage",
    "PV.Props.C59_wrong"
   ],
   "note": "Proved for images without row padding below 4 GiB and any behaviour of the file system: Save throws or Load returns the saved image. False for padded rows (C59_wrong): the file does not have the size Load expects and the loaded image is empty."
  },
  {
   "property": "C60",
   "status": "proved",
   "theorems": [
    "PV.Props.C60_reverses",
    "PV.Props.C60_twice",
    "PV.Props.C60_rejects",
    "PV.Props.rawImg_swapped"
   ],
   "note": "Images below 4 GiB, every element size; bytes outside of the pixels are not changed."
  },
  {
   "property": "C64",
   "status": "partial",
   "theorems": [
    "PV.Props.C64_other",
    "PV.Props.C64_light_partial",
    "PV.Props.C64_whole_partial",
    "PV.Props.lightImg_flat",
    "PV.Props.C64_wrong_new",
    "PV.Props.C64_wrong_failed",
    "PV.Props.C64_wrong_size",
    "PV.Props.C64_wrong_colour"
   ],
   "note": "Gray-scale images of the analysed size, any rounding. False when correct is called before analyze (uninitialised members), after an analyze which threw (division by zero), with a larger image (access outside of the table) and for colour images."
  },
  {
   "property": "C81",
   "status": "partial",
   "theorems": [
    "PV.Props.C81_incorrect_partial",
    "PV.Props.lightImg_found",
    "PV.Props.C81_wrong"
   ],
   "note": "Proved for gray-scale images of the analysed size. The function checks no parameter: with a smaller image it reads outside of it (C81_wrong)."
  },
  {
   "property": "C65",
   "status": "partial",
   "theorems": [
    "PV.Props.C65_get_partial",
    "PV.Props.C65_inside",
    "PV.Props.C65_empty",
    "PV.Props.ramp_get",
    "PV.Props.C65_wrong_odd",
    "PV.Props.C65_wrong",
    "PV.Props.C65_wrong_value"
   ],
   "note": "Proved for even widths and heights and values in the range of a pixel; for every size get stays inside of the image. False for every odd width above 1 (C65_wrong_odd): the last column is never written. A value outside of the range of a pixel is undefined behaviour (C65_wrong_value)."
  },
  {
   "property": "C82",
   "status": "proved",
   "theorems": [
    "PV.Props.C82_set_image",
    "PV.Props.C82_set_image_rejects",
    "PV.Props.C82_set_vector",
    "PV.Props.C82_set_vector_rejects"
   ],
   "note": "Sizes below 2^32 values."
  },
  {
   "property": "C83",
   "status": "partial",
   "theorems": [
    "PV.Props.C83_product_partial",
    "PV.Props.C83_rejects",
    "PV.Props.cMem_product",
    "PV.Props.C83_wrong"
   ],
   "note": "Proved when the output is neither input (the inputs may be the same object), for any rounding. False in place (C83_wrong): the imaginary part is computed from the already overwritten real part."
  },
  {
   "property": "C84",
   "status": "partial",
   "theorems": [
    "PV.Props.C84_through_partial",
    "PV.Props.C84_through_exact",
    "PV.Props.C84_angle",
    "PV.Props.C84_intersection",
    "PV.Props.C84_parallel",
    "PV.Props.C84_parallel_of_multiple",
    "PV.Props.C84_parallel_angle",
    "PV.Props.C84_shift",
    "PV.Props.C84_wrong"
   ],
   "note": "Exact real arithmetic. False for points closer than 1e-9 (C84_wrong): the line through them is horizontal. operator== of lines calls a function which does not exist and is not modelled."
  },
  {
   "property": "C85",
   "status": "partial",
   "theorems": [
    "PV.Props.C85_distance",
    "PV.Props.C85_projection_twice",
    "PV.Props.C85_opposite",
    "PV.Props.C85_wrong"
   ],
   "note": "Exact real arithmetic, every line with a direction of length 1 (all constructors but the default one). A default line has no direction: every point is at distance 0 (C85_wrong)."
  },
  {
   "property": "C86",
   "status": "proved",
   "theorems": [
    "PV.Props.C86_horizontal",
    "PV.Props.C86_vertical",
    "PV.Props.C86_point",
    "PV.Props.C86_too_few"
   ],
   "note": "Exact real arithmetic."
  },
  {
   "property": "C66",
   "status": "partial",
   "theorems": [
    "PV.Props.C66_selected",
    "PV.Props.C66_own_partial",
    "PV.Props.C66_other_partial",
    "PV.Props.C66_wrong"
   ],
   "note": "Every call goes to a function registered in this slot for the type, or with conversion enabled for the smallest type having it. That a registered function is found is proved for all slots but RgbToRgba, RgbaToRgb and Shift, which setupTable forgets: registered in a second table they are lost (C66_wrong). Validity of references is C88."
  },
  {
   "property": "C87",
   "status": "partial",
   "theorems": [
    "PV.Props.C87_forced_partial",
    "PV.Props.C87_order_partial",
    "PV.Props.C87_wrong"
   ],
   "note": "False for the three slots setupTable forgets (C87_wrong)."
  },
  {
   "property": "C88",
   "status": "partial",
   "theorems": [
    "PV.Props.C88_one",
    "PV.Props.C88_plain",
    "PV.Props.C88_two_partial",
    "PV.Props.C88_outputs",
    "PV.Props.C88_rejects",
    "PV.Props.someImages_call",
    "PV.Props.C88_wrong_two",
    "PV.Props.C88_wrong_unregistered",
    "PV.Props.C88_wrong_back",
    "PV.Props.C88_wrong_plain"
   ],
   "note": "Proved for one input, and for two inputs of which at most one is converted. False for two converted inputs (the first reference dangles), for an output whose conversion is not registered in both directions (destructor reads a missing element or throws), and for all functions but four, which pass the images unconverted."
  },
  {
   "property": "C58",
   "status": "partial",
   "theorems": [
    "PV.Props.C58_bmp_partial",
    "PV.Props.C58_rejects",
    "PV.Props.C58_wrong_small",
    "PV.Props.C58_wrong",
    "PV.Props.bmpImg_loaded",
    "PV.Props.bmpGray_loaded"
   ],
   "note": "Proved for every rectangle whose file has 76 bytes or more and less than 4 GiB and is narrower than 2^31 pixels, for any behaviour of the file system. False for smaller files (C58_wrong_small: all of them; C58_wrong: 2 x 2 pixels of three colours): Load compares the file size with sizes of C++ structures and returns an image without pixels."
  },
  {
   "property": "C89",
   "status": "partial",
   "theorems": [
    "PV.Props.C89_partial",
    "PV.Props.bmpDown_valid",
    "PV.Props.C89_wrong_min",
    "PV.Props.C89_wrong_huge"
   ],
   "note": "Proved for every byte sequence below 4 GiB whose declared size with four bytes per pixel is below 4 GiB and whose height is not -2^31. False otherwise: the height -2^31 is negated (C89_wrong_min), and a file of 78 bytes with a height above 2^30 passes the check computed with 32 bits and is turned upside down outside of its block (C89_wrong_huge)."
  },
  {
   "property": "C90",
   "status": "partial",
   "theorems": [
    "PV.Props.C90_partial",
    "PV.Props.bmp256_valid",
    "PV.Props.bmp256_loaded",
    "PV.Props.C90_wrong"
   ],
   "note": "Proved for all pixels of files as in C89 except the first row in the file of 256-colour images, which is never converted: C90_wrong shows it for every such file."
  },
  {
   "property": "C57",
   "status": "partial",
   "theorems": [
    "PV.Props.C57_partial",
    "PV.Props.C57_short",
    "PV.Props.C57_rejects",
    "PV.Props.find_ok",
    "PV.Props.C57_wrong_group",
    "PV.Props.C57_wrong_offset"
   ],
   "note": "Proved for double results and any rounding, if not more lines are summed up than the ROI has (plus one), their number is below 2^31/1020, the contrast at most 255 and the right offset plus the line length at most 2^32: the exact set of positions is find_ok. False without these: too many lines or a wrapped offset read outside of the image and of the line (C57_wrong_group, C57_wrong_offset)."
  },
  {
   "property": "C91",
   "status": "proved",
   "theorems": [
    "PV.Props.C91_step",
    "PV.Props.edgeStep_ex",
    "PV.Props.edgeStep_checked"
   ],
   "note": "For calls as in C57, for any rounding exact on halves of integers (double is). With the additional contrast check switched on its pixels have to lie on the line and their sums be exact in float."
  },
  {
   "property": "C92",
   "status": "proved",
   "theorems": [
    "PV.Props.C92_transposed"
   ],
   "note": "For calls as in C57, any rounding."
  },
  {
   "property": "C93",
   "status": "proved",
   "theorems": [
    "PV.Props.C93_opposite"
   ],
   "note": "For calls as in C57, any rounding."
  },
  {
   "property": "C94",
   "status": "proved",
   "theorems": [
    "PV.Props.C94_select"
   ],
   "note": "For calls as in C57."
  },
  {
   "property": "C95",
   "status": "proved",
   "theorems": [
    "PV.Props.C95_range",
    "PV.Props.C95_only_region",
    "PV.Props.C95_rejects"
   ],
   "note": "cos and sin of the angle are parameters of absolute value at most one; the regions do not overlap; three times the largest centre coordinate plus the size is at most 2^32, so that the conversions to uint32_t are defined. Any rounding."
  },
  {
   "property": "C96",
   "status": "partial",
   "theorems": [
    "PV.Props.C96_partial",
    "PV.Props.C96_wrong",
    "PV.Props.C96_region_wrong"
   ],
   "note": "Proved for all pixels but the last row and the last column, which become zero (C96_wrong, for every region where they are not). The form which returns a new image of a region passes the same centre for both images: a region further from the left side than it is wide becomes zero (C96_region_wrong)."
  },
  {
   "property": "C97",
   "status": "proved",
   "theorems": [
    "PV.Props.C97_turned",
    "PV.Props.C97_exact"
   ],
   "note": "As C95; C97_exact is without rounding."
  },
  {
   "property": "C98",
   "status": "partial",
   "theorems": [
    "PV.Props.C98_partial",
    "PV.Props.C98_too_far",
    "PV.Props.C98_rejects",
    "PV.Props.C98_wrong"
   ],
   "note": "Proved where the moved region ends a pixel before the end of the image or the shift is at least one pixel towards the beginning, for images below 2 GiB that do not overlap the output. False otherwise: shifting a whole image by (0, 0) or (-1/2, -1/2) reads after its end (C98_wrong)."
  },
  {
   "property": "C99",
   "status": "partial",
   "theorems": [
    "PV.Props.C99_partial",
    "PV.Props.C99_wrong"
   ],
   "note": "Proved for calls as in C98_partial, fractional in both directions, if the region is not moved before the first column. False there: the columns that have to be empty get pixels, and the columns after them the wrong ones (C99_wrong)."
  },
  {
   "property": "C100",
   "status": "partial",
   "theorems": [
    "PV.Props.C100_partial",
    "PV.Props.C100_wrong"
   ],
   "note": "False: whole shifts move by one pixel less in both directions, C100_partial states the exact result; C100_wrong: (0, 0) is not the identity."
  },
  {
   "property": "C101",
   "status": "partial",
   "theorems": [
    "PV.Props.C101_region_partial",
    "PV.Props.C101_image_partial",
    "PV.Props.C101_rejects",
    "PV.Props.C101_rejects_rectangle",
    "PV.Props.C101_rejects_image",
    "PV.Props.C101_region2_partial",
    "PV.Props.C101_image2_partial",
    "PV.Props.C101_rejects2",
    "PV.Props.C101_merge",
    "PV.Props.C101_merge_image",
    "PV.Props.C101_transpose",
    "PV.Props.C101_transpose_image",
    "PV.Props.C101_transpose_twice",
    "PV.Props.C101_resize_partial",
    "PV.Props.C101_resize_image_partial",
    "PV.Props.C101_resize_rejects",
    "PV.Props.C101_gamma_partial",
    "PV.Props.C101_normalize_partial",
    "PV.Props.C101_rotate",
    "PV.Props.C101_rotate_image",
    "PV.Props.C101_image_region",
    "PV.Props.C101_shift_partial",
    "PV.Props.C101_copy",
    "PV.Props.C101_colour_wrong",
    "PV.Props.C101_resize_wrong"
   ],
   "note": "Proved for all functions of image_function_helper.cpp that return an image (inputs as for the form with an output image). False for colour images: LookupTable, GammaCorrection and Normalize throw (C101_colour_wrong, for every such image), Resize writes outside of the new image (C101_resize_wrong)."
  },
  {
   "property": "C102",
   "status": "partial",
   "theorems": [
    "PV.Props.C102_one",
    "PV.Props.C102_rejects",
    "PV.Props.C102_two_partial",
    "PV.Props.C102_rejects2"
   ],
   "note": "Images which share no pixel (functions of two images: or are the same). Subtract as in C12. Copy( in, out ), an assignment of images, is C04 - C06."
  },
  {
   "property": "C103",
   "status": "proved",
   "theorems": [
    "PV.Props.C103_gamma",
    "PV.Props.C103_rejects",
    "PV.Props.C103_rejects_parameters",
    "PV.Props.C103_colours"
   ],
   "note": "All interleavings; pow as in C74."
  },
  {
   "property": "C104",
   "status": "partial",
   "theorems": [
    "PV.Props.C104_normalize_partial",
    "PV.Props.C104_rejects",
    "PV.Props.C104_colour_wrong",
    "PV.Props.C104_rejects_histogram"
   ],
   "note": "Gray-scale images, all interleavings of both pooled steps. False for colour images (witness: throws, undefined behaviour). Conversions out of range as in C34."
  },
  {
   "property": "C105",
   "status": "partial",
   "theorems": [
    "PV.Props.C105_resize_parts",
    "PV.Props.C105_resize_partial",
    "PV.Props.C105_one_thread",
    "PV.Props.C105_rejects",
    "PV.Props.C105_resize_wrong"
   ],
   "note": "False: the pixels depend on the number of threads (3 rows to 2 with two threads). The exact result by parts is proved for all sizes; equality with the single-threaded function if the number of threads divides both heights, for one thread, or without change of size."
  },
  {
   "property": "C106",
   "status": "partial",
   "theorems": [
    "PV.Props.C106_grid1",
    "PV.Props.C106_grid2",
    "PV.Props.C106_grid3_partial",
    "PV.Props.C106_grid3_wrong"
   ],
   "note": "One and two dimensions proved for every device with usable limits. Three dimensions: proved for devices which allow a whole block of threads in each of the first two directions; otherwise false (witness: blocks with eight times too many threads)."
  },
  {
   "property": "C107",
   "status": "proved",
   "theorems": [
    "PV.Props.C107_range1",
    "PV.Props.C107_range2",
    "PV.Props.C107_range3"
   ],
   "note": "Limits below 2^62 (2^61 in three dimensions)."
  },
  {
   "property": "C108",
   "status": "proved",
   "theorems": [
    "PV.Props.C108_absoluteDifference",
    "PV.Props.C108_maximum",
    "PV.Props.C108_minimum",
    "PV.Props.C108_subtract",
    "PV.Props.C108_bitwiseAnd",
    "PV.Props.C108_bitwiseOr",
    "PV.Props.C108_bitwiseXor",
    "PV.Props.C108_rejects",
    "PV.Props.C108_as_host"
   ],
   "note": "All interleavings of the accesses of all threads; devices whose grid limits suffice (C106)."
  },
  {
   "property": "C109",
   "status": "proved",
   "theorems": [
    "PV.Props.C109_copy",
    "PV.Props.C109_invert",
    "PV.Props.C109_threshold",
    "PV.Props.C109_threshold2",
    "PV.Props.C109_lookupTable",
    "PV.Props.C109_fill",
    "PV.Props.C109_gammaCorrection",
    "PV.Props.C109_as_host",
    "PV.Props.C109_rejects"
   ],
   "note": "As C108; pow as in C74."
  },
  {
   "property": "C110",
   "status": "partial",
   "theorems": [
    "PV.Props.C110_extractChannel",
    "PV.Props.C110_flip",
    "PV.Props.C110_convertToGrayScale_rgb",
    "PV.Props.C110_convertToGrayScale_rgba",
    "PV.Props.C110_convertToGrayScale_gray",
    "PV.Props.C110_convertToRgb_partial",
    "PV.Props.C110_rejects",
    "PV.Props.C110_convertToRgb_rgba_wrong"
   ],
   "note": "As C108. False for RGBA input of ConvertToRgb (witness)."
  },
  {
   "property": "C111",
   "status": "proved",
   "theorems": [
    "PV.Props.C111_histogram",
    "PV.Props.C111_isEqual",
    "PV.Props.C111_projection_horizontal",
    "PV.Props.C111_projection_vertical",
    "PV.Props.C111_same_as_host",
    "PV.Props.C111_rejects"
   ],
   "note": "All interleavings of reads and atomic updates; devices whose grid limits suffice (C106)."
  },
  {
   "property": "C112",
   "status": "proved",
   "theorems": [
    "PV.Props.C112_absoluteDifference",
    "PV.Props.C112_maximum",
    "PV.Props.C112_minimum",
    "PV.Props.C112_subtract",
    "PV.Props.C112_bitwiseAnd",
    "PV.Props.C112_bitwiseOr",
    "PV.Props.C112_bitwiseXor",
    "PV.Props.C112_invert",
    "PV.Props.C112_isEqual",
    "PV.Props.C112_projection_horizontal",
    "PV.Props.C112_projection_vertical",
    "PV.Props.C112_rejects",
    "PV.Props.C112_as_host"
   ],
   "note": "All interleavings; group sizes from 1 to below 2^62."
  },
  {
   "property": "C113",
   "status": "partial",
   "theorems": [
    "PV.Props.C113_threshold_partial",
    "PV.Props.C113_threshold2_partial",
    "PV.Props.C113_lookupTable_partial",
    "PV.Props.C113_gammaCorrection_partial",
    "PV.Props.C113_fill_partial",
    "PV.Props.C113_histogram_partial",
    "PV.Props.C113_copy_partial",
    "PV.Props.C113_extractChannel_partial",
    "PV.Props.C113_flip_partial",
    "PV.Props.C113_convertToGrayScale_partial",
    "PV.Props.C113_convertToRgb_partial",
    "PV.Props.C113_rejects",
    "PV.Props.C113_threshold_exact",
    "PV.Props.C113_threshold2_exact",
    "PV.Props.C113_lookupTable_exact",
    "PV.Props.C113_fill_exact",
    "PV.Props.C113_histogram_exact",
    "PV.Props.C113_copy_exact",
    "PV.Props.C113_threshold_wrong",
    "PV.Props.C113_threshold_outside",
    "PV.Props.C113_lookupTable_wrong",
    "PV.Props.C113_fill_wrong",
    "PV.Props.C113_histogram_wrong",
    "PV.Props.C113_copy_wrong",
    "PV.Props.C113_extractChannel_wrong",
    "PV.Props.C113_flip_wrong",
    "PV.Props.C113_convert_wrong",
    "PV.Props.C113_normalize_wrong"
   ],
   "note": "False: the offset of the input is computed with x and y exchanged, so that the rectangle mirrored at the diagonal is used (_exact); right if x = y (_partial). Copy always writes to the second row; ExtractChannel is right for one row or one colour; Flip uses the size of the whole image; conversions that need no conversion copy the whole image; Normalize always throws. Witnesses for all of them."
  },
  {
   "property": "C114",
   "status": "partial",
   "theorems": [
    "PV.Props.C114_to_cuda_partial",
    "PV.Props.C114_from_cuda_partial",
    "PV.Props.C114_to_opencl_partial",
    "PV.Props.C114_from_opencl_partial",
    "PV.Props.C114_to_opencl_padded",
    "PV.Props.C114_from_opencl_padded",
    "PV.Props.C114_rejects",
    "PV.Props.C114_to_cuda_new",
    "PV.Props.C114_from_cuda_new_partial",
    "PV.Props.C114_opencl_new_partial",
    "PV.Props.C114_cuda_round_trip",
    "PV.Props.C114_opencl_round_trip_partial",
    "PV.Props.C114_to_opencl_new_padded",
    "PV.Props.C114_to_cuda_wrong",
    "PV.Props.C114_to_opencl_wrong",
    "PV.Props.C114_from_cuda_wrong",
    "PV.Props.C114_from_cuda_new_wrong"
   ],
   "note": "The CUDA round trip through new images holds for every image. False where one side has padding and the other has none (witnesses: wrong pixels, bytes overwritten behind the image, undefined behaviour); padded images are refused by OpenCL."
  },
  {
   "property": "C115",
   "status": "partial",
   "theorems": [
    "PV.Props.C115_setPixel_exact",
    "PV.Props.C115_setPixel_partial",
    "PV.Props.C115_setPixel_host",
    "PV.Props.C115_setPixel_rejects",
    "PV.Props.C115_setPixels_exact",
    "PV.Props.C115_setPixels_partial",
    "PV.Props.C115_setPixels_rejects",
    "PV.Props.C115_setPixels_empty",
    "PV.Props.C115_setPixel_wrong"
   ],
   "note": "All interleavings; gray-scale images. The exact effect is proved for all colours; for colour images it is the wrong pixel (witness), where the host function throws. Empty lists are accepted."
  },
  {
   "property": "C116",
   "status": "proved",
   "theorems": [
    "PV.Props.C116_blocks_disjoint",
    "PV.Props.C116_partition",
    "PV.Props.C116_free",
    "PV.Props.C116_reserve",
    "PV.Props.C116_cuda_as_host"
   ],
   "note": "Requests whose byte count fits in size_t, as C37. Releasing memory of the device is assumed not to fail."
  },
  {
   "property": "C117",
   "status": "partial",
   "theorems": [
    "PV.Props.C117_opencl_aligned",
    "PV.Props.C117_cuda_partial",
    "PV.Props.C117_cuda_wrong"
   ],
   "note": "OpenCL: proved for all histories. CUDA: false after small blocks were merged (witness); true for all histories without small requests."
  },
  {
   "property": "C118",
   "status": "proved",
   "theorems": [
    "PV.Props.C118_bounds",
    "PV.Props.C71_filters_pixels"
   ],
   "note": "Regions with (w + 2)(h + 2) < 2^32, as C53."
  },
  {
   "property": "C119",
   "status": "partial",
   "theorems": [
    "PV.Props.C119_exact",
    "PV.Props.C119_length_partial",
    "PV.Props.C119_wrong"
   ],
   "note": "Exact: the greatest distance of all pixels if its square fits into 31 bits, undefined otherwise (witness: a row of 46342 pixels). The square root is not modelled."
  },
  {
   "property": "C120",
   "status": "partial",
   "theorems": [
    "PV.Props.C120_centre_partial",
    "PV.Props.C120_wrong"
   ],
   "note": "True while the sums of the coordinates are below 2^31; a row of 65538 pixels has a negative centre. For every rounding of the quotients (e.g. that of double): the centre is the mean rounded, and inside of the area."
  },
  {
   "property": "C121",
   "status": "partial",
   "theorems": [
    "PV.Props.C121_circularity_most",
    "PV.Props.C121_circularity_moved_partial",
    "PV.Props.C121_elongation_partial",
    "PV.Props.C121_wrong"
   ],
   "note": "Over rationals with any rounding after each operation, square root and angles are parameters; that the circularity does not depend on the place only in exact arithmetic. The elongation depends on the position (witness); only its bounds hold."
  },
  {
   "property": "C122",
   "status": "partial",
   "theorems": [
    "PV.Props.C122_filters_partial",
    "PV.Props.C122_rejects"
   ],
   "note": "Limits on length or elongation need a region whose squared diagonal is below 2^31 (see C119). Circularity and elongation are unknown functions of the blob."
  },
  {
   "property": "C123",
   "status": "partial",
   "theorems": [
    "PV.Props.C123_best_partial",
    "PV.Props.C123_sort_partial",
    "PV.Props.C123_sort_wrong",
    "PV.Props.C123_unmeasured"
   ],
   "note": "The order is descending (witness against ascending). Without a limit on the criterion the first blob is returned and any order may be left. No NaN among the values."
  },
  {
   "property": "C124",
   "status": "partial",
   "theorems": [
    "PV.Props.C124_png_load",
    "PV.Props.C124_png_partial",
    "PV.Props.C124_four_exact",
    "PV.Props.C124_wrong",
    "PV.Props.C124_rejects"
   ],
   "note": "Load proved for every file. The round trip holds for one and three colours; four colours are shifted (exact result and witness). libpng is assumed lossless; disks with room."
  },
  {
   "property": "C125",
   "status": "partial",
   "theorems": [
    "PV.Props.C125_jpeg_save_partial",
    "PV.Props.C125_jpeg_save_exact",
    "PV.Props.C125_wrong",
    "PV.Props.C125_jpeg_load_partial",
    "PV.Props.C125_wrong_big",
    "PV.Props.C125_quality",
    "PV.Props.C125_rejects"
   ],
   "note": "Only for rectangles in the corner of the image: others save the wrong pixels (exact result and witness). Load below 4 GiB of pixels, above the rest is uninitialised. Four colours end the process."
  },
  {
   "property": "C126",
   "status": "partial",
   "theorems": [
    "PV.Props.C126_format",
    "PV.Props.C126_round_trip_partial",
    "PV.Props.C126_missing"
   ],
   "note": "The format is the same for Save and Load; round trip for bitmap and PNG names within C58 and C124. A missing JPEG file throws, other missing files give an empty image."
  },
  {
   "property": "C127",
   "status": "partial",
   "theorems": [
    "PV.Props.C127_colors_partial",
    "PV.Props.C127_jpeg_exact",
    "PV.Props.C127_wrong"
   ],
   "note": "Bitmap and PNG agree; JPEG files have red and blue exchanged (exact result and witness)."
  },
  {
   "property": "C128",
   "status": "partial",
   "theorems": [
    "PV.Props.C128_direct_exact",
    "PV.Props.C128_inverse_exact",
    "PV.Props.C128_direct_partial",
    "PV.Props.C128_inverse_partial",
    "PV.Props.C128_wrong",
    "PV.Props.C128_rejects",
    "PV.Props.C128_rejects_no_plan",
    "PV.Props.C128_rejects_empty",
    "PV.Props.C128_failed_plan"
   ],
   "note": "Exact arithmetic (C178 is about rounding), at most 2^30 values. Holds for squares, one row and one column; for other sizes the dimensions are exchanged (what is computed is proved for all sizes; witness for 2 x 3)."
  },
  {
   "property": "C129",
   "status": "partial",
   "theorems": [
    "PV.Props.C129_inverse_direct",
    "PV.Props.C129_in_place"
   ],
   "note": "All sizes up to 2^30 values, exact arithmetic; C178 is about rounding."
  },
  {
   "property": "C130",
   "status": "partial",
   "theorems": [
    "PV.Props.C130_convolution_exact",
    "PV.Props.C130_convolution_partial",
    "PV.Props.C130_wrong",
    "PV.Props.C130_rejects"
   ],
   "note": "Exact arithmetic (C178 is about rounding), at most 2^30 values. Holds for squares, one row and one column; for other sizes the dimensions are exchanged (what is computed is proved for all sizes; witness for 2 x 3)."
  },
  {
   "property": "C131",
   "status": "proved",
   "theorems": [
    "PV.Props.C131_array_safe"
   ],
   "note": "For programs which use arrays where they exist and do not copy an array to itself (see C132). Allocation is any allocation of new memory; sizes in bytes do not overflow."
  },
  {
   "property": "C132",
   "status": "partial",
   "theorems": [
    "PV.Props.C132_array_contents_partial",
    "PV.Props.C132_no_leak",
    "PV.Props.C132_wrong",
    "PV.Props.C132_wrong_stale_size",
    "PV.Props.C132_wrong_leak"
   ],
   "note": "Proved for every program on a device on which nothing fails, with the exceptions of copies as they are: copies of empty arrays and all copies in OpenCL throw, a copy to itself is undefined (witnesses). After a failed allocation the size stays although the array is empty, and later assignments are lost silently; a constructor whose copy fails leaks (witnesses)."
  },
  {
   "property": "C133",
   "status": "partial",
   "theorems": [
    "PV.Props.C133_value_safe",
    "PV.Props.C133_value_contents_partial",
    "PV.Props.C133_wrong"
   ],
   "note": "Safety for all failures; contents when nothing fails. A copy of an object whose value was moved away throws and leaks, values cannot be copied in OpenCL, copying to itself is undefined (witnesses)."
  },
  {
   "property": "C134",
   "status": "proved",
   "theorems": [
    "PV.Props.C134_device_history",
    "PV.Props.C134_device_state",
    "PV.Props.C134_initialise",
    "PV.Props.C134_initialise_all",
    "PV.Props.C134_stream_defined"
   ],
   "note": "Closing a device when the runtime cannot switch to it ends the process (exception in a destructor); excluded as hypothesis. Calls of threads do not overlap (the manager has no lock). References kept after closing are not modelled."
  },
  {
   "property": "C135",
   "status": "partial",
   "theorems": [
    "PV.Props.C135_active_device_partial",
    "PV.Props.C135_set_active",
    "PV.Props.C135_close_exact",
    "PV.Props.C135_close_wrong",
    "PV.Props.C135_close_all_wrong"
   ],
   "note": "Holds for all calls but those which close devices: the closed device becomes the default of the calling thread (exact statement and witnesses)."
  },
  {
   "property": "C136",
   "status": "partial",
   "theorems": [
    "PV.Props.C136_threads_partial",
    "PV.Props.C136_set_threads",
    "PV.Props.C136_threads_wrong",
    "PV.Props.C136_set_streams",
    "PV.Props.C136_set_current",
    "PV.Props.C136_stream",
    "PV.Props.C136_streams_partial",
    "PV.Props.C136_streams_wrong",
    "PV.Props.C136_synchronize_partial",
    "PV.Props.C136_synchronize_wrong"
   ],
   "note": "Threads per block below 2^31 (2^31 is accepted: witness). Streams and synchronize() are those of the default device of the calling thread (witnesses), so right if the device is the default one."
  },
  {
   "property": "C137",
   "status": "partial",
   "theorems": [
    "PV.Props.C137_device_history_partial",
    "PV.Props.C137_device_state",
    "PV.Props.C137_initialise",
    "PV.Props.C137_initialise_all",
    "PV.Props.C137_set_queues",
    "PV.Props.C137_out_of_range",
    "PV.Props.C137_wrong",
    "PV.Props.C137_no_queue_wrong"
   ],
   "note": "For IDs of supported devices, and work only with at least one queue: other IDs read outside of a vector once a device is open, and setQueueCount( 0 ) makes the device unusable (witnesses). Calls of threads do not overlap (the manager has no lock)."
  },
  {
   "property": "C138",
   "status": "proved",
   "theorems": [
    "PV.Props.C138_active_device",
    "PV.Props.C138_device"
   ],
   "note": "For a fixed list of supported devices (see C139 for its change)."
  },
  {
   "property": "C139",
   "status": "partial",
   "theorems": [
    "PV.Props.C139_supported_exact",
    "PV.Props.C139_supported_partial",
    "PV.Props.C139_sublist",
    "PV.Props.C139_no_platforms",
    "PV.Props.C139_wrong",
    "PV.Props.C139_reset_wrong"
   ],
   "note": "Holds if contexts can be made for all devices; the list is characterised exactly for all cases: devices behind a broken one are lost, the broken ones of the last platform are listed (witness). Default devices of threads are not reset, so device() may read outside of the new list (witness)."
  },
  {
   "property": "C140",
   "status": "partial",
   "theorems": [
    "PV.Props.C140_programs_partial",
    "PV.Props.C140_reopen_exact",
    "PV.Props.C140_reopen_wrong",
    "PV.Props.C140_build_wrong"
   ],
   "note": "Holds as long as no device is closed and no build fails: programs are kept per device but belong to the context of the closed device, so a device opened again always throws (proved for all states); a failed build can leave an entry without program (witness, depends on the order of evaluation before C++17)."
  },
  {
   "property": "C141",
   "status": "partial",
   "theorems": [
    "PV.Props.C141_fill_partial",
    "PV.Props.C141_size_exact",
    "PV.Props.C141_size_wrong",
    "PV.Props.C141_threads_wrong",
    "PV.Props.C141_threads_fail_wrong"
   ],
   "note": "Holds for calls which do not overlap and less than 2^32 bytes. All threads share one kernel object per device without lock: witnesses with a wrong result and with an exception; sizes count modulo 2^32."
  },
  {
   "property": "C142",
   "status": "partial",
   "theorems": [
    "PV.Props.C142_program_file_partial",
    "PV.Props.C142_wrong"
   ],
   "note": "Only for files which contain a zero byte; for all others the text is read past the end of the vector."
  },
  {
   "property": "C143",
   "status": "partial",
   "theorems": [
    "PV.Props.C143_objects_partial",
    "PV.Props.C143_contents",
    "PV.Props.C143_no_leak_partial",
    "PV.Props.C143_self_copy_exact",
    "PV.Props.C143_self_copy_wrong",
    "PV.Props.C143_leak_wrong",
    "PV.Props.C143_copy_leak_wrong",
    "PV.Props.C143_large_wrong"
   ],
   "note": "Missing: copying an object to itself (empties it, exact statement and witness), 2^32 values and more (witness), leaks of constructors which throw after their allocation (witnesses)."
  },
  {
   "property": "C144",
   "status": "partial",
   "theorems": [
    "PV.Props.C144_set_image_exact",
    "PV.Props.C144_set_image_partial",
    "PV.Props.C144_set_image_rejects",
    "PV.Props.C144_set_image_wrong",
    "PV.Props.C144_set_array",
    "PV.Props.C144_set_array_rejects",
    "PV.Props.C144_get_partial",
    "PV.Props.C144_get_empty",
    "PV.Props.C144_get_odd_wrong"
   ],
   "note": "Images without padding (with padding other bytes are read: exact statement and witness); get() for even sizes (for odd sizes the result depends on the order of threads and pixels are not written: witness)."
  },
  {
   "property": "C145",
   "status": "partial",
   "theorems": [
    "PV.Props.C145_multiply_exact",
    "PV.Props.C145_multiply_partial",
    "PV.Props.C145_rejects",
    "PV.Props.C145_larger_exact",
    "PV.Props.C145_smaller_wrong",
    "PV.Props.C145_alias_wrong"
   ],
   "note": "Executors of the size of the data and a result which is none of the factors. The launch has the size of the executor, not of the data: larger ones access memory outside of the arrays (proved for all), smaller ones leave products out (witness)."
  },
  {
   "property": "C146",
   "status": "partial",
   "theorems": [
    "PV.Props.C146_executors_partial",
    "PV.Props.C146_no_leak",
    "PV.Props.C146_copy",
    "PV.Props.C146_copy_wrong",
    "PV.Props.C146_size_wrong"
   ],
   "note": "All operations but copies, which release plans twice (witness). After a failing initialize the executor shows the new size and throws."
  },
  {
   "property": "C147",
   "status": "partial",
   "theorems": [
    "PV.Props.C147_kind_partial",
    "PV.Props.C147_kind_enabled",
    "PV.Props.C147_off",
    "PV.Props.C147_builds",
    "PV.Props.C147_platforms",
    "PV.Props.C147_platforms_none",
    "PV.Props.C147_avx512_wrong",
    "PV.Props.C147_os_wrong",
    "PV.Props.C147_ssse3_wrong"
   ],
   "note": "Computers where the parts of AVX-512 come together, the operating system saves the registers and SSSE3 comes with SSE2. One part of AVX-512 is enough for the code (witness: F and CD only), operating system support is not asked (witness), SSSE3 is used without asking (witness). Switches, builds and the off switch hold everywhere."
  },
  {
   "property": "C148",
   "status": "partial",
   "theorems": [
    "PV.Props.C148_absoluteDifference",
    "PV.Props.C148_bitwiseAnd",
    "PV.Props.C148_bitwiseOr",
    "PV.Props.C148_bitwiseXor",
    "PV.Props.C148_maximum",
    "PV.Props.C148_minimum",
    "PV.Props.C148_subtract_partial",
    "PV.Props.C148_binary_rejects",
    "PV.Props.C148_invert",
    "PV.Props.C148_invert_rejects",
    "PV.Props.C148_threshold",
    "PV.Props.C148_threshold2_partial",
    "PV.Props.C148_threshold_rejects",
    "PV.Props.C148_sum",
    "PV.Props.C148_sum_rejects",
    "PV.Props.C148_projection_vertical",
    "PV.Props.C148_projection_horizontal_partial",
    "PV.Props.C148_projection_rejects",
    "PV.Props.C148_accumulate_partial",
    "PV.Props.C148_accumulate_safe",
    "PV.Props.C148_accumulate_rejects",
    "PV.Props.C148_to16_partial",
    "PV.Props.C148_to8_partial",
    "PV.Props.C148_conversions_reject",
    "PV.Props.C148_convertToRgb_gray_partial",
    "PV.Props.C148_convertToRgb_rgb_partial",
    "PV.Props.C148_flip_partial",
    "PV.Props.C148_rgbToBgr_partial",
    "PV.Props.C148_moves_reject",
    "PV.Props.C148_ssse3_refused",
    "PV.Props.C148_ssse3_wrong"
   ],
   "note": "The exceptions of C51, C52, C76, C77 remain. In builds with SSE2 but without SSSE3 (gcc and clang for x86-64 without options) ConvertToRgb, Flip and RgbToBgr throw for every rectangle as wide as a register (proved for all, with witness)."
  },
  {
   "property": "C149",
   "status": "partial",
   "theorems": [
    "PV.Props.C149_picture_partial",
    "PV.Props.C149_reduced_partial",
    "PV.Props.C149_zero_none",
    "PV.Props.C149_zero_old",
    "PV.Props.C149_empty_wrong",
    "PV.Props.C149_overflow_wrong"
   ],
   "note": "Images that fit on the screen: everything. Reduced images: if the reduced size is not zero and the products of sizes stay within 2^32 (witness of a black middle otherwise). A reduced size of zero shows nothing or keeps the former size; an empty image keeps the former picture. The floating-point numbers of the reduced size are a parameter: the theorem holds for whatever size they give."
  },
  {
   "property": "C150",
   "status": "partial",
   "theorems": [
    "PV.Props.C150_picture_partial",
    "PV.Props.C150_msb_exact",
    "PV.Props.C150_msb_wrong",
    "PV.Props.C150_large_ub",
    "PV.Props.C150_rgba_rejects",
    "PV.Props.C150_empty_wrong"
   ],
   "note": "Servers with the least significant byte first and less than 2^30 pixels. Other servers exchange colours (exact statement and witness), from 2^30 pixels on the buffer is overrun (proved for all), four colours are refused only after the window has been made, and without an image a null pointer reaches the X library."
  },
  {
   "property": "C151",
   "status": "partial",
   "theorems": [
    "PV.Props.C151_win_partial",
    "PV.Props.C151_win_complete",
    "PV.Props.C151_qt_partial",
    "PV.Props.C151_x11_partial",
    "PV.Props.C151_set_wrong",
    "PV.Props.C151_lines_wrong",
    "PV.Props.C151_order_wrong"
   ],
   "note": "Exact description of what every window shows after every history. Missing: on Windows the order between points, lines and ellipses; with X11 and Qt setImage; with X11 lines, ellipses and rectangles (witnesses)."
  },
  {
   "property": "C152",
   "status": "partial",
   "theorems": [
    "PV.Props.C152_gray_partial",
    "PV.Props.C152_colour_exact",
    "PV.Props.C152_colour_wrong",
    "PV.Props.C152_rgba_wrong"
   ],
   "note": "Gray-scale images. Images with three colours as loaded from bitmap and PNG files show red and blue exchanged (proved for all), four colours are read as three (witness)."
  },
  {
   "property": "C153",
   "status": "partial",
   "theorems": [
    "PV.Props.C153_history_partial",
    "PV.Props.C153_usable",
    "PV.Props.C153_returns",
    "PV.Props.C153_first_start",
    "PV.Props.C153_grow_wrong",
    "PV.Props.C153_early_wrong"
   ],
   "note": "All histories without a call for more threads than ever before while there are threads: such a call moves the flags which the threads read without a lock (witness: released memory is read). Only the first call waits for the start of the threads (witness); after stop see C47."
  },
  {
   "property": "C154",
   "status": "partial",
   "theorems": [
    "PV.Props.C154_bars_partial",
    "PV.Props.C154_ends",
    "PV.Props.C154_exact",
    "PV.Props.C154_nothing",
    "PV.Props.C154_wrong"
   ],
   "note": "Differences below 42949673; above them the product overflows and bars are too short (exact statement for all, and witness)."
  },
  {
   "property": "C155",
   "status": "partial",
   "theorems": [
    "PV.Props.C155_history_partial",
    "PV.Props.C155_independent",
    "PV.Props.C155_copy_assign",
    "PV.Props.C155_copy_types",
    "PV.Props.C155_construct",
    "PV.Props.C155_construct_empty",
    "PV.Props.C155_move_construct",
    "PV.Props.C155_move_assign",
    "PV.Props.C155_copy_construct_throws",
    "PV.Props.C155_copy_construct_partial",
    "PV.Props.C155_fill",
    "PV.Props.C155_fill_value",
    "PV.Props.C155_type_partial",
    "PV.Props.C155_fill_wrong",
    "PV.Props.C155_moved_wrong",
    "PV.Props.C155_leak_wrong",
    "PV.Props.C155_active_wrong"
   ],
   "note": "Copy construction of CUDA, pinned and OpenCL images always throws (proved for all); moved images change their type, fill of 16-bit CUDA images stores another value, the base copy constructor loses memory when copying fails, memory goes to the device active at its release (witnesses). Everything else for all histories and failures."
  },
  {
   "property": "C156",
   "status": "partial",
   "theorems": [
    "PV.Props.C156_construct",
    "PV.Props.C156_retry_partial",
    "PV.Props.C156_failed_exact",
    "PV.Props.C156_copy_exact",
    "PV.Props.C156_wrong"
   ],
   "note": "Constructors: everything. After a failed resize or assignment the image has sizes without elements, and the same resize again does nothing (proved for all, with witness)."
  },
  {
   "property": "C157",
   "status": "partial",
   "theorems": [
    "PV.Props.C157_gaussian_partial",
    "PV.Props.C157_rejects",
    "PV.Props.C157_rejects_kernel",
    "PV.Props.C157_returns",
    "PV.Props.C157_product_exact",
    "PV.Props.C144_get_odd_exact",
    "PV.Props.C157_odd_exact",
    "PV.Props.C157_wrong"
   ],
   "note": "Square images of even size, with exact transforms and exact arithmetic. For odd sizes the last column or row of the result is what the new memory held before (proved for all); the plan is made with width and height exchanged, so images which are not square are blurred along wrong rows (witness)."
  },
  {
   "property": "C158",
   "status": "partial",
   "theorems": [
    "PV.Props.C158_defined_partial",
    "PV.Props.C158_exactly_once_partial",
    "PV.Props.C158_not_lost_partial",
    "PV.Props.C158_returns_partial",
    "PV.Props.C158_copy",
    "PV.Props.C158_assign",
    "PV.Props.C158_moved_exact",
    "PV.Props.C158_moved_wrong",
    "PV.Props.C158_destroy_wrong",
    "PV.Props.C158_pool_first_wrong"
   ],
   "note": "For histories in which providers are destroyed after their tasks have ended and while their pool exists, and pools without tasks; changes of the pool, copies and assignments at any time. Otherwise: a provider moved to another pool with unfinished tasks is used by the old pool during its destruction (proved for all, with witness), one that is not moved waits for ever, one that outlives its pool uses it."
  },
  {
   "property": "C159",
   "status": "partial",
   "theorems": [
    "PV.Props.C159_races_partial",
    "PV.Props.C159_throw_exact",
    "PV.Props.C159_exit_exact",
    "PV.Props.C159_throw_wrong",
    "PV.Props.C159_stop_wrong",
    "PV.Props.C159_count_wrong"
   ],
   "note": "Proved for all pairs of threads none of which changes the number of threads, except two tasks of one provider which throw at the same time: both write the same bool without a lock (proved for all states, witness). resize and stop race with every worker that looks at its flag (proved for all) and with providers asking for the number of threads (witness)."
  },
  {
   "property": "C160",
   "status": "partial",
   "theorems": [
    "PV.Props.C160_host",
    "PV.Props.C160_device_partial",
    "PV.Props.C160_rejects",
    "PV.Props.C160_wrong_missing",
    "PV.Props.C160_missing_exact",
    "PV.Props.C160_wrong_conversion",
    "PV.Props.C160_wrong_pinned",
    "PV.Props.C160_functions",
    "PV.Props.C160_conversions",
    "PV.Props.C160_converted",
    "PV.Props.address_inj"
   ],
   "note": "Proved for images in host memory, and for device images and functions their files register. False otherwise: the CUDA file has Flip, IsEqual and the list form of SetPixel, the OpenCL file Flip, Normalize and the list form of SetPixel, but do not register them; with conversions enabled every function a device does not register gets unconverted device images; images in pinned memory have a type of their own for which nothing is registered, every function throws."
  },
  {
   "property": "C161",
   "status": "partial",
   "theorems": [
    "PV.Props.C161_accumulate",
    "PV.Props.C161_accumulate_rejects",
    "PV.Props.C161_histogram_partial",
    "PV.Props.C161_histogram_region_partial",
    "PV.Props.C161_masked_partial",
    "PV.Props.C161_masked_region_partial",
    "PV.Props.C161_profile",
    "PV.Props.C161_profile_image",
    "PV.Props.C161_isEqual",
    "PV.Props.C161_isBinary",
    "PV.Props.C161_sum",
    "PV.Props.C161_merge",
    "PV.Props.C161_split",
    "PV.Props.C161_transpose",
    "PV.Props.C161_transpose_rejects",
    "PV.Props.C161_resize_partial",
    "PV.Props.C161_to16",
    "PV.Props.C161_to8",
    "PV.Props.C161_rejects",
    "PV.Props.C161_rejects_images",
    "PV.Props.C161_rejects_channels"
   ],
   "note": "Proved for all functions but Histogram of colour images (its counters are interleaved and it can write outside of the vector, C24) and Resize with products of sizes of 2^32 or more or different colours (C31)."
  },
  {
   "property": "C162",
   "status": "partial",
   "theorems": [
    "PV.Props.C162_search_again",
    "PV.Props.C162_rejected",
    "PV.Props.C162_answers_partial",
    "PV.Props.C162_defined",
    "PV.Props.C162_constant_exact",
    "PV.Props.C162_constant_wrong",
    "PV.Props.C162_known_after",
    "PV.Props.C162_centre_known",
    "PV.Props.C162_kept",
    "PV.Props.C162_same_answer",
    "PV.Props.C162_edges_again",
    "PV.Props.C162_edges_rejected",
    "PV.Props.C162_edges_wrong"
   ],
   "note": "Does not hold for constant references (zero until the value was asked for otherwise: exact statement and witness) nor for rejected searches of edges (both lists are emptied: witness). The centre and the length have the limits of C120 and C119."
  },
  {
   "property": "C163",
   "status": "partial",
   "theorems": [
    "PV.Props.C163_self",
    "PV.Props.C163_symmetric",
    "PV.Props.C163_near",
    "PV.Props.C163_exact",
    "PV.Props.C163_transitive_wrong",
    "PV.Props.C163_opposite_exact",
    "PV.Props.C163_opposite_wrong",
    "PV.Props.C163_history",
    "PV.Props.C163_order",
    "PV.Props.C163_whole_partial",
    "PV.Props.C163_undo_wrong",
    "PV.Props.C163_operators",
    "PV.Props.C163_times",
    "PV.Props.C163_angles",
    "PV.Props.C163_angles_mono",
    "PV.Props.C163_multiplier"
   ],
   "note": "Integer coordinates: everything, but != of 3D points compares x and y only, so that two points can be neither equal nor unequal (exact statement and witness). Floating-point coordinates: within the tolerance equality is not transitive (witness), sums are exact for whole numbers below 2^53 and not in general (witness); angles come back within a relative 2^-49."
  },
  {
   "property": "C164",
   "status": "proved",
   "theorems": [
    "PV.Props.C164_median",
    "PV.Props.C164_median_image",
    "PV.Props.C164_median_whole",
    "PV.Props.C164_gradient",
    "PV.Props.C164_gradient_image",
    "PV.Props.C164_gradient_whole",
    "PV.Props.C164_rejects",
    "PV.Props.C164_rejects_whole"
   ],
   "note": "For Prewitt and Sobel the rounded root is the table of C56."
  },
  {
   "property": "C165",
   "status": "partial",
   "theorems": [
    "PV.Props.C165_limits",
    "PV.Props.C165_param",
    "PV.Props.C165_verify",
    "PV.Props.C165_verify_search",
    "PV.Props.C165_search_partial",
    "PV.Props.C165_reset"
   ],
   "note": "Everything about the limits; the blobs found are exactly those within the limits in force in regions whose squared diagonal is below 2^31 (beyond that the length of a blob is wrong, C119)."
  },
  {
   "property": "C166",
   "status": "partial",
   "theorems": [
    "PV.Props.C166_exact",
    "PV.Props.C166_solid_partial",
    "PV.Props.C166_hole",
    "PV.Props.C166_wrong"
   ],
   "note": "A blob without holes is solid, a blob that is not solid has a hole (for all shapes; the edge of a set without holes is connected). The converse fails: a ring around a hole whose two edges touch, one or two pixels thick, is solid too (witness). Which blobs are solid is said exactly: those whose edge points are in one piece."
  },
  {
   "property": "C167",
   "status": "partial",
   "theorems": [
    "PV.Props.C167_inside",
    "PV.Props.C167_turned_partial",
    "PV.Props.C167_exact_partial",
    "PV.Props.C167_margin",
    "PV.Props.C167_rejects",
    "PV.Props.C167_wrong",
    "PV.Props.C167_undefined"
   ],
   "note": "Everything, if no computed point is less than one pixel to the left of or above the image (C167_margin says when that is certain). The code truncates coordinates towards zero, so such points are treated as inside and extrapolated: the result may be brighter than any pixel (witness) or not fit into a pixel, which is undefined (witness)."
  },
  {
   "property": "C168",
   "status": "partial",
   "theorems": [
    "PV.Props.C168_setPixel_exact",
    "PV.Props.C168_setPixel_outside",
    "PV.Props.C168_setPixel_partial",
    "PV.Props.C168_setPixel_never",
    "PV.Props.C168_setPixel_rejects",
    "PV.Props.C168_list_rejected",
    "PV.Props.C168_wrong",
    "PV.Props.C168_undefined"
   ],
   "note": "The code violates it. Which byte is written is said exactly: byte x + y of row x + y, since the host adds an offset with x and y exchanged and the kernel adds the point again; so only the first pixel can be set, other calls change another pixel or write outside the image. The list form always throws, since an argument of the kernel is left out. What the driver finds under the name shared by the two kernels is a parameter."
  },
  {
   "property": "C169",
   "status": "partial",
   "theorems": [
    "PV.Props.C169_image_region",
    "PV.Props.C169_into",
    "PV.Props.C169_into2",
    "PV.Props.C169_into_rejects",
    "PV.Props.C169_rejects_rectangle",
    "PV.Props.C169_rejects_image",
    "PV.Props.C169_cuda_region_partial",
    "PV.Props.C169_cuda_image_partial",
    "PV.Props.C169_cuda_into_partial",
    "PV.Props.C169_cuda_rejects",
    "PV.Props.C169_opencl_rejects",
    "PV.Props.C169_opencl_region_partial",
    "PV.Props.C169_opencl_image_partial",
    "PV.Props.C169_opencl_into_partial",
    "PV.Props.C169_opencl_copy_never",
    "PV.Props.C169_cuda_gammaCorrection",
    "PV.Props.C169_opencl_gammaCorrection_partial",
    "PV.Props.C169_cuda_region2",
    "PV.Props.C169_opencl_region2",
    "PV.Props.C169_image_region2",
    "PV.Props.C169_into2_values",
    "PV.Props.C169_rejects2"
   ],
   "note": "Ten functions of one image and seven of two images. CUDA: not ConvertToRgb of RGBA images and LookupTable of colour images, where the long form itself differs (C109). OpenCL: regions where the long form is right (C113); Copy never works: for every image and every region the form that returns an image writes beyond its memory."
  },
  {
   "property": "C170",
   "status": "partial",
   "theorems": [
    "PV.Props.C170_region_partial",
    "PV.Props.C170_image_partial",
    "PV.Props.C170_into_partial",
    "PV.Props.C170_rejects",
    "PV.Props.C170_gammaCorrection",
    "PV.Props.C170_region2_partial",
    "PV.Props.C170_image2_partial",
    "PV.Props.C170_into2_partial",
    "PV.Props.C170_colours2",
    "PV.Props.C170_merge",
    "PV.Props.C170_merge_image",
    "PV.Props.C170_transpose",
    "PV.Props.C170_transpose_image",
    "PV.Props.C170_transpose_rejects",
    "PV.Props.C170_resize_partial",
    "PV.Props.C170_resize_image",
    "PV.Props.C170_rejects_rectangle",
    "PV.Props.C170_rejects_image",
    "PV.Props.C170_rejects_sizes"
   ],
   "note": "Nine functions of one image, GammaCorrection, seven of two images, Merge, Transpose and Resize. As without a pool (C101): LookupTable only for gray-scale images, ConvertToGrayScale and ConvertToRgb not for RGBA images, Subtract only where C12 holds. Resize is made in parts (C105), so its pixels are those of the form without a pool only when the parts agree with the whole."
  },
  {
   "property": "C171",
   "status": "partial",
   "theorems": [
    "PV.Props.C171_region_partial",
    "PV.Props.C171_image_partial",
    "PV.Props.C171_whole_partial",
    "PV.Props.C171_region2_partial",
    "PV.Props.C171_image2_partial",
    "PV.Props.C171_whole2_partial",
    "PV.Props.C171_rejects_partial",
    "PV.Props.C171_rejects2",
    "PV.Props.C171_sum",
    "PV.Props.C171_profile_partial",
    "PV.Props.C171_accumulate_partial",
    "PV.Props.C171_ssse3_wrong",
    "PV.Props.C171_threshold2_wrong"
   ],
   "note": "All builds and processors. Not: ConvertToRgb, Flip and RgbToBgr in a build with SSE and without SSSE3 (they throw, C171_ssse3_wrong); limits of Threshold in the wrong order are accepted (witness); horizontal profiles and Accumulate where the long form is wrong (C51); RGBA in ConvertToRgb; Subtract where C12 fails."
  },
  {
   "property": "C172",
   "status": "partial",
   "theorems": [
    "PV.Props.C172_full_partial",
    "PV.Props.C172_region_partial",
    "PV.Props.C172_image_partial",
    "PV.Props.C172_whole_partial",
    "PV.Props.C172_rejects_partial",
    "PV.Props.C172_full2_partial",
    "PV.Props.C172_region2_partial",
    "PV.Props.C172_image2_partial",
    "PV.Props.C172_whole2_partial",
    "PV.Props.C172_rejects2",
    "PV.Props.C172_copy",
    "PV.Props.C172_same",
    "PV.Props.C172_sum",
    "PV.Props.C172_profile_partial",
    "PV.Props.C172_profile_image",
    "PV.Props.C172_accumulate_partial",
    "PV.Props.C172_missing",
    "PV.Props.C172_ssse3_wrong",
    "PV.Props.C172_threshold2_wrong"
   ],
   "note": "All linkages, orders, builds and processors, nine functions of one image and seven of two by formula; the functions without a SIMD form are shown to be those of Image_Function in all forms. Exceptions as in C171, when the SIMD file is linked: the function that cannot work is chosen although the scalar one is there (C172_ssse3_wrong). LookupTable of colour images as in C101."
  },
  {
   "property": "C173",
   "status": "partial",
   "theorems": [
    "PV.Props.C173_sum",
    "PV.Props.C173_histogram_partial",
    "PV.Props.C173_isEqual",
    "PV.Props.C173_profile_partial",
    "PV.Props.C173_sum_image",
    "PV.Props.C173_histogram_image_partial",
    "PV.Props.C173_isEqual_image",
    "PV.Props.C173_profile_image_partial",
    "PV.Props.C173_rejects",
    "PV.Props.C173_rejects_image",
    "PV.Props.C173_rejects_images",
    "PV.Props.C173_sum_colours",
    "PV.Props.C173_split",
    "PV.Props.C173_split_image",
    "PV.Props.C173_split_rejects",
    "PV.Props.C173_normalize_partial"
   ],
   "note": "Sum, IsEqual and Split without restriction. Partial: Histogram of gray-scale images (as C24), horizontal profiles of gray-scale images (a pool mixes up the colours, C50_projection_colour_wrong), Normalize of gray-scale images (C104_colour_wrong)."
  },
  {
   "property": "C174",
   "status": "partial",
   "theorems": [
    "PV.Props.C174_float",
    "PV.Props.C174_double_partial",
    "PV.Props.C174_double_wrong",
    "PV.Props.C174_rejects"
   ],
   "note": "float: everything (1/250000 of the greatest value of the block). double: false, the coefficient has the precision of float: the greatest value of every block is changed by more than 1/2^24 of it, for every vector and rounding (C174_double_wrong), and all errors are below 1/10000000 (C174_double_partial). Overflow and underflow are not modelled."
  },
  {
   "property": "C175",
   "status": "partial",
   "theorems": [
    "PV.Props.C175_handles",
    "PV.Props.C175_never_lost",
    "PV.Props.C175_released_partial",
    "PV.Props.C175_events_kept",
    "PV.Props.C175_event_wrong",
    "PV.Props.C175_device_wrong",
    "PV.Props.C175_program_wrong"
   ],
   "note": "Proved for all histories and failures: nothing is released twice or too late, contexts, queues and kernels are never lost, at most one handle is lost per launch, failed device and failed program (C175_handles, C175_never_lost). The full claim is false: every launch leaves its event in the driver (C175_events_kept, C175_event_wrong), a device whose first queue fails leaves its allocator (C175_device_wrong), a program that is not built can stay (C175_program_wrong). C175_released_partial: without launches and failures everything is given back."
  },
  {
   "property": "C176",
   "status": "partial",
   "theorems": [
    "PV.Props.C176_status",
    "PV.Props.C176_supported",
    "PV.Props.C176_types",
    "PV.Props.C176_unsupported",
    "PV.Props.C176_listed_partial",
    "PV.Props.C176_wrong"
   ],
   "note": "The status, the answer of isOpenCLSupported, that only enabled types are listed and that nothing is listed when OpenCL is not supported hold always. That the list is exactly the usable devices holds when all devices can be used and queries do not fail; otherwise the list may be empty although OpenCL is supported, or have a device which cannot be used (C176_wrong)."
  },
  {
   "property": "C177",
   "status": "partial",
   "theorems": [
    "PV.Props.C177_distance",
    "PV.Props.C177_projection",
    "PV.Props.C177_opposite",
    "PV.Props.C177_through",
    "PV.Props.C177_through_moderate",
    "PV.Props.C177_through_end",
    "PV.Props.C177_intersection",
    "PV.Props.C177_parallel",
    "PV.Props.C177_fit_wrong",
    "PV.Props.C177_fit_single_wrong"
   ],
   "note": "Bounds of 40, 128, 512, 16 and 64 rounding errors for distance, projection, mirror image, length of the direction and the second point; the intersection point is on both lines up to 150 and 300 rounding errors of the greatest coordinate, its own ones included. The projection and the mirror image are compared with the point computed exactly from the rounded direction. Two points taken as the same by the tolerance of the code are left out for the second point. The claim about the best fitting line is false: the code subtracts means of squares, and two points one pixel apart at 10^8 (5000 in single precision) give a horizontal line half a pixel away. No infinities, NaN or subnormal numbers; the relative error of std::sqrt is a hypothesis, cosine, sine and atan2 are parameters."
  },
  {
   "property": "C178",
   "status": "partial",
   "theorems": [
    "PV.Props.C178_direct",
    "PV.Props.C178_inverse",
    "PV.Props.C178_direct_symmetric",
    "PV.Props.C178_small",
    "PV.Props.C178_inverse_direct",
    "PV.Props.C178_convolution",
    "PV.Props.C178_table",
    "PV.Props.C178_float",
    "PV.Props.C178_exact",
    "PV.Props.C178_rejects"
   ],
   "note": "No overflow, underflow or fused operations, no OpenMP; the library functions cos and sin are assumed right up to 2^-50. The bound is relative to the sum of absolute values (a bound for the worst case, also for large prime factors, for which it grows with the factor). For sizes which are no squares the transform compared with is that of C128_direct_exact, with the dimensions exchanged."
  },
  {
   "property": "C179",
   "status": "partial",
   "theorems": [
    "PV.Props.C179_partial",
    "PV.Props.C179_step",
    "PV.Props.C179_rejects",
    "PV.Props.C179_wrong"
   ],
   "note": "For calls as in C57 with regions which end before coordinate 2^23 (whatever the size of the image); farther away edges of different rows become the same point (witness)."
  },
  {
   "property": "C180",
   "status": "partial",
   "theorems": [
    "PV.Props.C180_closing_partial",
    "PV.Props.C180_opening_partial",
    "PV.Props.C180_twice_partial",
    "PV.Props.C180_twice_exact",
    "PV.Props.C180_dual_partial",
    "PV.Props.C180_whole_partial",
    "PV.Props.C180_whole_rejects",
    "PV.Props.C180_twice_wrong"
   ],
   "note": "For rectangles narrower and lower than 2^31 (beyond that see C32_wide_wrong); two dilations are one by the sums only up to half of the rectangle, because larger numbers are taken as half of it (witness)."
  },
  {
   "property": "C181",
   "status": "partial",
   "theorems": [
    "PV.Props.C181_flip",
    "PV.Props.C181_transpose",
    "PV.Props.C181_invert",
    "PV.Props.C181_threshold",
    "PV.Props.C181_difference_partial",
    "PV.Props.C181_difference_wrong",
    "PV.Props.C181_max_min_partial",
    "PV.Props.C181_deMorgan",
    "PV.Props.C181_xor"
   ],
   "note": "Histograms and sums of gray-scale rectangles. A sum of 0 tells equality only up to 2^32 / 255 pixels (witness); maximum minus minimum under the guard of C12 for Subtract."
  },
  {
   "property": "C182",
   "status": "partial",
   "theorems": [
    "PV.Props.C182_flip",
    "PV.Props.C182_transpose",
    "PV.Props.C182_threshold",
    "PV.Props.C182_area",
    "PV.Props.C182_dilate_partial"
   ],
   "note": "Without filters. For rectangles with fewer than 2^32 pixels together with a frame of one pixel (the guard of the other blob claims); dilation also for rectangles narrower and lower than 2^31. The order of the found blobs is not compared."
  },
  {
   "property": "C183",
   "status": "partial",
   "theorems": [
    "PV.Props.C183_tables",
    "PV.Props.C183_invert_table",
    "PV.Props.C183_threshold_table",
    "PV.Props.C183_flips",
    "PV.Props.C183_transpose_flip",
    "PV.Props.C183_quarter_turns",
    "PV.Props.C183_resize_back_partial",
    "PV.Props.C183_accumulate",
    "PV.Props.C183_accumulate_order"
   ],
   "note": "Resize only while products of positions and sizes stay below 2^32 (beyond that see C31_resize_wrong). Intermediate images have storage of their own. Entries of Accumulate are sums modulo 2^32."
  },
  {
   "property": "C184",
   "status": "proved",
   "theorems": [
    "PV.Props.C184_median_table",
    "PV.Props.C184_median_flip",
    "PV.Props.C184_median_transpose",
    "PV.Props.C184_gradient_invert",
    "PV.Props.C184_gradient_flip",
    "PV.Props.C184_gradient_transpose",
    "PV.Props.C184_gradient_flat"
   ],
   "note": "For every std::nth_element which keeps its promise. The table of gradient lengths is any table; for the transposed image it must not distinguish the two gradients and for the image of one value its first entry must be 0, both of which hold for the lengths computed by the code. Intermediate images have storage of their own."
  },
  {
   "property": "C185",
   "status": "proved",
   "theorems": [
    "PV.Props.C185_twice",
    "PV.Props.C185_flip",
    "PV.Props.C185_transpose"
   ],
   "note": "The call is assumed to be defined: it is not by the letter of the standard if it converts values out of the range of uint8_t (C34_strict_wrong), but the second call is always. Intermediate images have storage of their own."
  },
  {
   "property": "C186",
   "status": "partial",
   "theorems": [
    "PV.Props.C186_file_partial",
    "PV.Props.C186_rejects"
   ],
   "note": "For files below 4 GiB and rectangles narrower than 2^31 pixels: larger numbers do not fit into the fields of the format."
  },
  {
   "property": "C187",
   "status": "proved",
   "theorems": [
    "PV.Props.C187_gray_bgr",
    "PV.Props.C187_channel_bgr",
    "PV.Props.C187_merge_bgr",
    "PV.Props.C187_channel_table",
    "PV.Props.C187_replaced_channel"
   ],
   "note": "Intermediate images have storage of their own (RgbToBgr in place is wrong, see C21_inPlace_wrong)."
  },
  {
   "property": "C188",
   "status": "partial",
   "theorems": [
    "PV.Props.C188_brighter_partial",
    "PV.Props.C188_float_partial",
    "PV.Props.C188_wrong"
   ],
   "note": "At any rounding if the contrast of the two sides is not asked for (contrastCheckLeftSideOffset or contrastCheckRightSideOffset is 0) and at the rounding of double and float if both sides have a power of two of pixels with sums below 2^24; in all other cases only in exact arithmetic: rounded means of three pixels lose an edge in a brighter image (C188_wrong)."
  },
  {
   "property": "C189",
   "status": "proved",
   "theorems": [
    "PV.Props.C189_columns",
    "PV.Props.C189_rows",
    "PV.Props.C189_profile_columns",
    "PV.Props.C189_profile_rows",
    "PV.Props.C189_table"
   ],
   "note": "Histogram and Sum for gray-scale images (the only ones they accept or count rightly, see C24), profiles for all. Sums and entries of profiles are modulo 2^32."
  },
  {
   "property": "C190",
   "status": "proved",
   "theorems": [
    "PV.Props.C190_one",
    "PV.Props.C190_two",
    "PV.Props.C190_fill",
    "PV.Props.C190_copy"
   ],
   "note": "Threshold for gray-scale images (the only ones it accepts). Copy for rectangles without a common byte, since it is undefined otherwise (C16). Subtract is in C191."
  },
  {
   "property": "C191",
   "status": "partial",
   "theorems": [
    "PV.Props.C191_subtract_partial",
    "PV.Props.C191_subtract_wrong"
   ],
   "note": "Holds if the rows of both inputs have the same length. It can be false otherwise: the whole is wrong (C12) while its rows one by one are right, shown for two rows of two pixels."
  }
 ]
}
