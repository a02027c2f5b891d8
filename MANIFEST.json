{
 "claims": [
  {
   "property": "C01",
   "status": "proved",
   "theorems": [
    "CCGL.C01_compact_1d",
    "CCGL.C01_compact_2d"
   ],
   "note": "valid means valid in the first layer"
  },
  {
   "property": "C02",
   "status": "proved",
   "theorems": [
    "CCGL.C02_positions"
   ],
   "note": ""
  },
  {
   "property": "C03",
   "status": "partial",
   "theorems": [
    "CCGL.C03_getPosition_partial",
    "CCGL.C03_false_empty",
    "CCGL.C03_false_empty2"
   ],
   "note": "false of rasters without any valid cell"
  },
  {
   "property": "C04",
   "status": "partial",
   "theorems": [
    "CCGL.C04_last_write_partial",
    "CCGL.C04_false_empty"
   ],
   "note": "undefined for multi-layer rasters without any valid cell"
  },
  {
   "property": "C05",
   "status": "partial",
   "theorems": [
    "CCGL.C05_reads",
    "CCGL.C05_ops_partial",
    "CCGL.C05_history_1d",
    "CCGL.C05_false_positions",
    "CCGL.C05_false_mask",
    "CCGL.C05_of_mask1",
    "CCGL.C05_of_mask2"
   ],
   "note": "false of rasters built from a mask and of multi-layer rasters without valid cells"
  },
  {
   "property": "C11",
   "status": "proved",
   "theorems": [
    "CCGL.C11_replaceNoData",
    "CCGL.C11_idempotent"
   ],
   "note": ""
  },
  {
   "property": "C12",
   "status": "partial",
   "theorems": [
    "CCGL.truncQ_spec",
    "CCGL.C12_reclassify_partial",
    "CCGL.C12_throws",
    "CCGL.C12_false"
   ],
   "note": "the code throws on a value without table entry"
  },
  {
   "property": "C31",
   "status": "proved",
   "theorems": [
    "CCGL.C31_trim",
    "CCGL.C31_trimSpaces",
    "CCGL.C31_unique",
    "CCGL.C31_agree",
    "CCGL.C31_idempotent"
   ],
   "note": ""
  },
  {
   "property": "C32",
   "status": "proved",
   "theorems": [
    "CCGL.C32_split_join",
    "CCGL.C32_join_split",
    "CCGL.C32_fields",
    "CCGL.C32_trailing_empty_lost"
   ],
   "note": ""
  },
  {
   "property": "C33",
   "status": "partial",
   "theorems": [
    "CCGL.C33_words_partial",
    "CCGL.C33_trailing_white",
    "CCGL.C33_total",
    "CCGL.C33_false"
   ],
   "note": "false if the text ends with white space: the last word is returned twice"
  },
  {
   "property": "C34",
   "status": "proved",
   "theorems": [
    "CCGL.C34_match",
    "CCGL.C34_cstring_nul",
    "CCGL.C34_refl",
    "CCGL.C34_symm",
    "CCGL.C34_trans",
    "CCGL.C34_upper",
    "CCGL.C34_cstring"
   ],
   "note": ""
  },
  {
   "property": "C35",
   "status": "proved",
   "theorems": [
    "CCGL.C35_isInt",
    "CCGL.C35_isInt64",
    "CCGL.C35_isUInt64"
   ],
   "note": ""
  },
  {
   "property": "C36",
   "status": "proved",
   "theorems": [
    "CCGL.C36_itoa",
    "CCGL.C36_i64toa",
    "CCGL.C36_u64toa",
    "CCGL.C36_decimal",
    "CCGL.C36_injective"
   ],
   "note": ""
  },
  {
   "property": "C38",
   "status": "proved",
   "theorems": [
    "CCGL.C38_copy",
    "CCGL.C38_update",
    "CCGL.C38_history",
    "CCGL.C38_keys_unique"
   ],
   "note": ""
  },
  {
   "property": "C06",
   "status": "proved",
   "theorems": [
    "CCGL.C06_roundtrip",
    "CCGL.C06_center"
   ],
   "note": ""
  },
  {
   "property": "C07",
   "status": "partial",
   "theorems": [
    "CCGL.C07_contains_partial",
    "CCGL.C07_outside",
    "CCGL.C07_rejected_iff",
    "CCGL.C07_false_lower_left",
    "CCGL.C07_false_right",
    "CCGL.C07_getPosition_xy"
   ],
   "note": "points left of/below the centre of the lower-left cell are rejected, the right border gives a column that does not exist"
  },
  {
   "property": "C60",
   "status": "partial",
   "theorems": [
    "CCGL.C60_layers_partial",
    "CCGL.C60_false",
    "CCGL.C60_false_right"
   ],
   "note": "inherits the lookup errors of C07"
  },
  {
   "property": "C44",
   "status": "proved",
   "theorems": [
    "CCGL.C44_next",
    "CCGL.C44_count",
    "CCGL.C44_monotone",
    "CCGL.C44_injective",
    "CCGL.C44_anchor",
    "CCGL.C44_leap"
   ],
   "note": ""
  },
  {
   "property": "C45",
   "status": "proved",
   "theorems": [
    "CCGL.C45_roundtrip",
    "CCGL.C45_later",
    "CCGL.C45_next",
    "CCGL.C45_date_of_time",
    "CCGL.C45_epoch"
   ],
   "note": "C library UTC conversions modelled by exact day counts"
  },
  {
   "property": "C46",
   "status": "proved",
   "theorems": [
    "CCGL.C46_first",
    "CCGL.C46_next",
    "CCGL.C46_last",
    "CCGL.C46_julian",
    "CCGL.C46_of_time",
    "CCGL.C46_julian_of_time"
   ],
   "note": ""
  },
  {
   "property": "C47",
   "status": "proved",
   "theorems": [
    "CCGL.C47_roundtrip",
    "CCGL.C47_roundtrip2",
    "CCGL.C47_roundtrip3",
    "CCGL.C47_dateInfo",
    "CCGL.C47_order",
    "CCGL.C47_empty",
    "CCGL.C47_false"
   ],
   "note": "C47_false: the year 10000 and texts not matching the format are undefined"
  },
  {
   "property": "C48",
   "status": "partial",
   "theorems": [
    "CCGL.C48_forward_partial",
    "CCGL.C48_false"
   ],
   "note": "the parameter is ignored: right exactly when it equals the milliseconds field"
  },
  {
   "property": "C49",
   "status": "proved",
   "theorems": [
    "CCGL.C49_instant",
    "CCGL.C49_order",
    "CCGL.C49_total",
    "CCGL.C49_fromDateTime",
    "CCGL.C49_toUTC_shifts"
   ],
   "note": "local time conversion is the POSIX contract Zone, with instances; C49_toUTC_shifts: ToUTCTime moves the instant by the zone offset"
  },
  {
   "property": "C13",
   "status": "proved",
   "theorems": [
    "CCGL.C13_total",
    "CCGL.C13_partition",
    "CCGL.C13_only",
    "CCGL.C13_count"
   ],
   "note": "rasters without a mask"
  },
  {
   "property": "C14",
   "status": "proved",
   "theorems": [
    "CCGL.C14_box",
    "CCGL.C14_local",
    "CCGL.C14_distinct",
    "CCGL.C14_header",
    "CCGL.C14_new"
   ],
   "note": "rasters without a mask"
  },
  {
   "property": "C15",
   "status": "partial",
   "theorems": [
    "CCGL.C15_decompose_full",
    "CCGL.C15_decompose_valid",
    "CCGL.C15_combine",
    "CCGL.C15_roundtrip_partial",
    "CCGL.C15_com",
    "CCGL.C15_com_combine",
    "CCGL.C15_false_onelayer",
    "CCGL.C15_false_onelayer_reached",
    "CCGL.C15_origin_fails",
    "CCGL.C15_refuses_layers",
    "CCGL.C15_refuses_empty",
    "CCGL.C15_set",
    "CCGL.C15_set2D",
    "CCGL.C15_set_refused"
   ],
   "note": "round trip proved for every raster except two-dimensional ones with a single layer, where the code fails (C15_false_onelayer_reached); files with a wrong number of values are dropped (C15_com); combining with out_origin and without a table always fails (C15_origin_fails)"
  },
  {
   "property": "C16",
   "status": "proved",
   "theorems": [
    "CCGL.C16_idempotent",
    "CCGL.C16_rebuild",
    "CCGL.C16_history"
   ],
   "note": ""
  },
  {
   "property": "C19",
   "status": "partial",
   "theorems": [
    "CCGL.C19_statistics_partial",
    "CCGL.C19_excluded",
    "CCGL.C19_false_large",
    "CCGL.C19_maxInArray",
    "CCGL.C19_minInArray"
   ],
   "note": "maximum/minimum wrong for double values beyond FLT_MAX; exact arithmetic"
  },
  {
   "property": "C20",
   "status": "proved",
   "theorems": [
    "CCGL.C20_layers",
    "CCGL.C20_stats",
    "CCGL.C20_independent"
   ],
   "note": ""
  },
  {
   "property": "C21",
   "status": "proved",
   "theorems": [
    "CCGL.C21_sum",
    "CCGL.C21_sumIdx",
    "CCGL.C21_statistics",
    "CCGL.C21_statistics2",
    "CCGL.C21_interleaving",
    "CCGL.C21_replaceNoData",
    "CCGL.C21_order"
   ],
   "note": ""
  },
  {
   "property": "C22",
   "status": "partial",
   "theorems": [
    "CCGL.C22_cache_partial",
    "CCGL.C22_total",
    "CCGL.C22_update",
    "CCGL.C22_layerValues",
    "CCGL.C22_false_array"
   ],
   "note": "the array getters return null for every raster with data"
  },
  {
   "property": "C37",
   "status": "partial",
   "theorems": [
    "CCGL.C37_isNumber",
    "CCGL.C37_isNumber_partial",
    "CCGL.C37_value",
    "CCGL.C37_value_unique",
    "CCGL.C37_false_empty"
   ],
   "note": "the empty text is accepted; exact for every other text"
  },
  {
   "property": "C39",
   "status": "partial",
   "theorems": [
    "CCGL.C39_exact",
    "CCGL.C39_values_partial",
    "CCGL.C39_success",
    "CCGL.C39_empty",
    "CCGL.C39_false",
    "CCGL.C39_false_inf"
   ],
   "note": "a field counts as converted if it contains a digit: \"a1\" counts as 0, \"inf\" does not count"
  },
  {
   "property": "C54",
   "status": "proved",
   "theorems": [
    "CCGL.C54_content",
    "CCGL.C54_total",
    "CCGL.C54_unique",
    "CCGL.C54_missing"
   ],
   "note": ""
  },
  {
   "property": "C08",
   "status": "partial",
   "theorems": [
    "CCGL.C08_roundtrip_partial",
    "CCGL.C08_roundtrip_int",
    "CCGL.C08_roundtrip_near",
    "CCGL.C08_roundtrip_general",
    "CCGL.C08_nearest",
    "CCGL.C08_false_precision",
    "CCGL.C08_false_empty",
    "CCGL.C08_false_char",
    "CCGL.C08_false_char_text"
   ],
   "note": "exact for numbers with at most six significant digits (what the writer prints), within 5e-6 otherwise; grids without cells are refused by the reader; cells of the 8-bit types are written as characters: grids of them come back with other values or are refused (C08_false_char, C08_false_char_text)"
  },
  {
   "property": "C09",
   "status": "partial",
   "theorems": [
    "CCGL.C09_accept",
    "CCGL.C09_reject",
    "CCGL.C09_incomplete",
    "CCGL.C09_malformed",
    "CCGL.C09_short",
    "CCGL.C09_nofile",
    "CCGL.C09_no_overrun_partial",
    "CCGL.C09_false_missing",
    "CCGL.C09_false_order",
    "CCGL.C09_false_overflow"
   ],
   "note": "rows and columns missing before the data, given again after it, or with a product beyond int are undefined behaviour"
  },
  {
   "property": "C10",
   "status": "partial",
   "theorems": [
    "CCGL.C10_asc_1d",
    "CCGL.C10_asc_2d",
    "CCGL.C10_asc_2d_partial",
    "CCGL.C10_gdal_1d",
    "CCGL.C10_gdal_2d",
    "CCGL.C10_stream",
    "CCGL.C10_stream_valid",
    "CCGL.C10_fullsize",
    "CCGL.C10_false_asc_2d_nodata",
    "CCGL.C10_false_empty_2d"
   ],
   "note": "multi-layer ASCII output fills with -9999 whatever the NoData value is; a compacted multi-layer raster without valid cells is undefined behaviour"
  },
  {
   "property": "C25",
   "status": "partial",
   "theorems": [
    "CCGL.C25_names",
    "CCGL.C25_unknown",
    "CCGL.C25_roundtrip",
    "CCGL.C25_roundtrip_case",
    "CCGL.C25_other",
    "CCGL.C25_injective",
    "CCGL.C25_default_partial",
    "CCGL.C25_false_uint64",
    "CCGL.C25_ctype"
   ],
   "note": "all but the default NoData of UINT64, which is 2^64 and not representable in the type"
  },
  {
   "property": "C57",
   "status": "proved",
   "theorems": [
    "CCGL.C57_entries",
    "CCGL.C57_shape",
    "CCGL.C57_result",
    "CCGL.C57_available",
    "CCGL.C57_kept",
    "CCGL.C57_absent",
    "CCGL.C57_skip"
   ],
   "note": ""
  },
  {
   "property": "C58",
   "status": "proved",
   "theorems": [
    "CCGL.C58_mode",
    "CCGL.C58_mode_unknown",
    "CCGL.C58_format",
    "CCGL.C58_format_unknown"
   ],
   "note": ""
  },
  {
   "property": "C59",
   "status": "partial",
   "theorems": [
    "CCGL.C59_exact",
    "CCGL.C59_accepts",
    "CCGL.C59_partial",
    "CCGL.C59_false_trailing",
    "CCGL.C59_false_wrap"
   ],
   "note": "every dotted quad is accepted; texts continuing with more dots and digits and numbers that wrap in 32 bits are accepted too"
  },
  {
   "property": "C29",
   "status": "partial",
   "theorems": [
    "CCGL.C29_roundtrip_partial",
    "CCGL.C29_text",
    "CCGL.C29_false",
    "CCGL.C29_missing",
    "CCGL.C29_special"
   ],
   "note": "integers beyond 32 bits and infinities are undefined behaviour when stored; decimals come back with six significant digits"
  },
  {
   "property": "C30",
   "status": "partial",
   "theorems": [
    "CCGL.C30_text_partial",
    "CCGL.C30_false_number",
    "CCGL.C30_false_int",
    "CCGL.C30_false_bool"
   ],
   "note": "correct for text; inverted for numbers and always false for BSON booleans"
  },
  {
   "property": "C61",
   "status": "partial",
   "theorems": [
    "CCGL.C61_seconds_partial",
    "CCGL.C61_seconds_mod",
    "CCGL.C61_second_zero",
    "CCGL.C61_last_second",
    "CCGL.C61_false_small",
    "CCGL.C61_false_2038",
    "CCGL.C61_text",
    "CCGL.C61_date",
    "CCGL.C61_missing"
   ],
   "note": "the full claim is false: wrong for the first 99 ms of 1970 and the last 9 ms before, and for seconds beyond 32 bits; what is returned is proved for every date, text and other value"
  },
  {
   "property": "C40",
   "status": "partial",
   "theorems": [
    "CCGL.Arr.C40_safe_partial",
    "CCGL.Arr.C40_release1",
    "CCGL.Arr.C40_release2",
    "CCGL.Arr.C40_request",
    "CCGL.Arr.C40_nonnull",
    "CCGL.Arr.C40_refused",
    "CCGL.Arr.C40_empty",
    "CCGL.Arr.C40_release_all",
    "CCGL.Arr.C40_false_zero_rows",
    "CCGL.Arr.C40_false_pool",
    "CCGL.Arr.C40_false_batch",
    "CCGL.Arr.C40_false_read2D"
   ],
   "note": "for all histories in which two-dimensional arrays are requested with at least one row and their data block can be allocated; otherwise releasing is undefined behaviour"
  },
  {
   "property": "C41",
   "status": "partial",
   "theorems": [
    "CCGL.Arr.C41_init",
    "CCGL.Arr.C41_injective",
    "CCGL.Arr.C41_rows",
    "CCGL.Arr.C41_write",
    "CCGL.Arr.C41_independent",
    "CCGL.Arr.C41_copy_partial",
    "CCGL.Arr.C41_stable_init",
    "CCGL.Arr.C41_stable_release",
    "CCGL.Arr.C41_one_init",
    "CCGL.Arr.C41_one_copy",
    "CCGL.Arr.C41_one_flag",
    "CCGL.Arr.C41_one_copy_flag",
    "CCGL.Arr.C41_one_write",
    "CCGL.Arr.C41_false_source",
    "CCGL.Arr.C41_false_one"
   ],
   "note": "a two-dimensional copy from a null or empty source is undefined behaviour; a one-dimensional copy from a null source reports failure but leaves an allocated array with indeterminate elements (C41_false_one); everything else proved"
  },
  {
   "property": "C42",
   "status": "proved",
   "theorems": [
    "CCGL.Arr.C42_irregular",
    "CCGL.Arr.C42_disjoint",
    "CCGL.Arr.C42_end",
    "CCGL.Arr.C42_refused",
    "CCGL.Arr.C42_read"
   ],
   "note": ""
  },
  {
   "property": "C43",
   "status": "proved",
   "theorems": [
    "CCGL.Arr.C43_member",
    "CCGL.Arr.C43_remove",
    "CCGL.Arr.C43_idempotent"
   ],
   "note": ""
  },
  {
   "property": "C50",
   "status": "proved",
   "theorems": [
    "CCGL.MathFn.C50_expo",
    "CCGL.MathFn.C50_expo_mono",
    "CCGL.MathFn.C50_expo_reversed",
    "CCGL.MathFn.C50_expo_default",
    "CCGL.MathFn.C50_power",
    "CCGL.MathFn.C50_power_mono",
    "CCGL.MathFn.C50_power_odd"
   ],
   "note": "in real arithmetic"
  },
  {
   "property": "C51",
   "status": "proved",
   "theorems": [
    "CCGL.MathFn.C51_inBounds",
    "CCGL.MathFn.C51_accuracy"
   ],
   "note": "bit operations and the whole 2048-entry table exact; argument of the cast in real arithmetic"
  },
  {
   "property": "C62",
   "status": "proved",
   "theorems": [
    "CCGL.MathFn.C62_accuracy",
    "CCGL.MathFn.C62_overflow"
   ],
   "note": "in real arithmetic"
  },
  {
   "property": "C63",
   "status": "proved",
   "theorems": [
    "CCGL.MathFn.C63_lnFloat",
    "CCGL.MathFn.C63_lnDouble",
    "CCGL.MathFn.C63_pow"
   ],
   "note": "bit operations exact, arithmetic in the reals"
  },
  {
   "property": "C64",
   "status": "proved",
   "theorems": [
    "CCGL.MathFn.C64_sqrtFloat",
    "CCGL.MathFn.C64_sqrtDouble"
   ],
   "note": "bit operations exact, arithmetic in the reals"
  },
  {
   "property": "C52",
   "status": "partial",
   "theorems": [
    "CCGL.Fs.C52_parts",
    "CCGL.Fs.C52_parts_nosuffix_partial",
    "CCGL.Fs.C52_false_dotted_dir",
    "CCGL.Fs.C52_relative"
   ],
   "note": "proved for every full name with a suffix and for suffix-less names in dot-free directories; for a suffix-less name in a directory with a dot GetSuffix returns a piece of the directory"
  },
  {
   "property": "C53",
   "status": "proved",
   "theorems": [
    "CCGL.Fs.C53_rename",
    "CCGL.Fs.C53_rename_int",
    "CCGL.Fs.C53_injective",
    "CCGL.Fs.C53_replace_nosuffix"
   ],
   "note": "for full names of existing or absolute entries with a suffix"
  },
  {
   "property": "C55",
   "status": "proved",
   "theorems": [
    "CCGL.Fs.C55_delete_safe",
    "CCGL.Fs.C55_delete_all",
    "CCGL.Fs.C55_delete_missing",
    "CCGL.Fs.C55_delete_flat",
    "CCGL.Fs.C55_clean",
    "CCGL.Fs.C55_clean_missing"
   ],
   "note": "on an abstract POSIX file tree without symbolic links; refused operations are an arbitrary predicate"
  },
  {
   "property": "C56",
   "status": "partial",
   "theorems": [
    "CCGL.Fs.C56_found",
    "CCGL.Fs.C56_only",
    "CCGL.Fs.C56_exact_partial",
    "CCGL.Fs.C56_false"
   ],
   "note": "the exact set returned is characterised; it also contains directories, suffix-less entries and entries whose suffix merely occurs in the expression"
  },
  {
   "property": "C65",
   "status": "proved",
   "theorems": [
    "CCGL.Fs.C65_exists",
    "CCGL.Fs.C65_filesExist",
    "CCGL.Fs.C65_makeDirectory",
    "CCGL.Fs.C65_makeDirectory_twice",
    "CCGL.Fs.C65_deleteFile"
   ],
   "note": "on an abstract POSIX file tree without symbolic links; paths given absolutely for MakeDirectory"
  },
  {
   "property": "C17",
   "status": "partial",
   "theorems": [
    "CCGL.C17_ext",
    "CCGL.C17_calc",
    "CCGL.C17_ext_calc_partial",
    "CCGL.C17_plain_partial",
    "CCGL.C17_false_ext_calc",
    "CCGL.C17_false_plain"
   ],
   "note": "Every raster read (one or several layers), every mask built by the API whose stored cells are valid, every placement on a common cell grid. Proved without restriction for use_mask_ext without calc_pos, and for calc_pos without use_mask_ext whenever some valid cell lies under the mask; with the stated placement conditions for the other two option combinations, for which the statement is false in general (counterexamples proved)."
  },
  {
   "property": "C18",
   "status": "partial",
   "theorems": [
    "CCGL.C18_positions",
    "CCGL.C18_setUseMaskExt",
    "CCGL.C17_ext",
    "CCGL.C17_calc",
    "CCGL.C17_ext_calc_partial",
    "CCGL.C17_plain_partial",
    "CCGL.C18_false_nothing_matched",
    "CCGL.C18_false_setUseMaskExt",
    "CCGL.C17_false_ext_calc"
   ],
   "note": "C18_positions with the C17 theorems: all lookups agree for every stored cell and the grid is the one of the mask under use_mask_ext. False in general: both options with a partial overlap, nothing matched (negative header sizes), SetUseMaskExt after masking."
  },
  {
   "property": "C23",
   "status": "proved",
   "theorems": [
    "CCGL.Copy.C23_copy",
    "CCGL.Copy.C23_writes",
    "CCGL.Copy.C23_false_no_valid_cell",
    "CCGL.Copy.C23_false_into_2d",
    "CCGL.Copy.C23_false_self",
    "CCGL.Copy.C23_false_shared_positions"
   ],
   "note": "explicit heap with addresses, so aliasing is expressible; the arrays, header, NoData, positions and settings are modelled, the statistics cache and subsets are not. Counterexamples: no stored cell, Copy into a multi-layer object, self-copy, Copy into a raster sharing positions with its mask"
  },
  {
   "property": "C24",
   "status": "partial",
   "theorems": [
    "CCGL.Gtiff.C24_written",
    "CCGL.Gtiff.C24_written_uint64",
    "CCGL.Gtiff.C24_written_float",
    "CCGL.Gtiff.C24_mask_float",
    "CCGL.Gtiff.C24_io_failure",
    "CCGL.Gtiff.C24_false_float_nodata",
    "CCGL.Gtiff.C24_same_type",
    "CCGL.Gtiff.C24_mask_partial",
    "CCGL.Gtiff.C24_refused_int",
    "CCGL.Gtiff.C24_refused_double",
    "CCGL.Gtiff.C24_refused_floating",
    "CCGL.Gtiff.C24_false_collision",
    "CCGL.Gtiff.C24_false_fraction",
    "CCGL.Gtiff.C24_false_nodata_fraction",
    "CCGL.Gtiff.C24_false_uint64",
    "CCGL.Gtiff.C24_false_unsigned",
    "CCGL.Gtiff.C24_false_float_range"
   ],
   "note": "The written cells are characterised exactly for every grid and target type (rounding to Float32 is a parameter); that no valid cell becomes NoData (and NoData cells stay NoData) is proved under the stated conditions and is false without them (counterexamples). An out-of-range floating cell is undefined behaviour before the refusal."
  },
  {
   "property": "C66",
   "status": "proved",
   "theorems": [
    "CCGL.Gtiff.C66_roundtrip",
    "CCGL.Gtiff.C66_roundtrip_int",
    "CCGL.Gtiff.C66_byte_values",
    "CCGL.Gtiff.C66_false_byte_type"
   ],
   "note": "GDAL is modelled as a store returning the written dataset; the reading side is CCGL code (byte-type heuristic, header, NoData)"
  },
  {
   "property": "C26",
   "status": "partial",
   "theorems": [
    "CCGL.Gfs.C26_history_partial",
    "CCGL.Gfs.C26_read",
    "CCGL.Gfs.C26_remove_others",
    "CCGL.Gfs.C26_false_overwrite",
    "CCGL.Gfs.C26_false_raw",
    "CCGL.Gfs.C26_false_type"
   ],
   "note": "Every history of writes and removals of GridFS raster files whose keys are equal or disjoint, with arbitrary driver failures on other keys. False in general: a failed overwrite loses the previous file, the raw stream interface does not replace files, another DATATYPE_OUT leaves both (counterexamples proved)."
  },
  {
   "property": "C27",
   "status": "partial",
   "theorems": [
    "CCGL.Gfs.C27_attempts",
    "CCGL.Gfs.C27_single_partial",
    "CCGL.Gfs.C27_false_duplicate",
    "CCGL.Gfs.C27_false_remove"
   ],
   "note": "At most four attempts and the exact result for every failure pattern; a single file if every attempt either stores the whole file or nothing and removals succeed. False otherwise: a truncated duplicate after a reported write error, an old file after an ignored removal failure (counterexamples proved)."
  },
  {
   "property": "C28",
   "status": "partial",
   "theorems": [
    "CCGL.Gfs.C28_file",
    "CCGL.Gfs.C28_raster_partial",
    "CCGL.Gfs.outOpts_spec",
    "CCGL.Gfs.inOpts_spec",
    "CCGL.Gfs.C28_false_memory",
    "CCGL.Gfs.C28_false_narrow",
    "CCGL.Gfs.C28_false_type64",
    "CCGL.Gfs.C28_false_header",
    "CCGL.Gfs.C28_false_compact"
   ],
   "note": "Cells as little-endian bytes (two's complement, IEEE 754), metadata as BSON. Proved for every raster built by the API, every layer count, every stored type, as long as the cells are numbers of the types involved, integral header numbers fit in 32 bits, NoData cells are included, and some cell is valid if positions are computed on reading. False without these conditions (counterexamples)."
  },
  {
   "property": "C67",
   "status": "partial",
   "theorems": [
    "CCGL.C67_parse_total",
    "CCGL.C67_parse_partial",
    "CCGL.C67_false_empty"
   ],
   "note": "The parser agrees with an independent (unique and total) specification for every argument list, except a single empty text, where it throws (proved). Note: the word naming the format alone (-in gfs) is also taken as the path."
  },
  {
   "property": "C68",
   "status": "partial",
   "theorems": [
    "CCGL.MongoDb.C68_names_partial",
    "CCGL.MongoDb.C68_failure",
    "CCGL.MongoDb.C68_collections",
    "CCGL.MongoDb.C68_dotted_counterexample",
    "CCGL.MongoDb.C68_phantom_counterexample",
    "CCGL.MongoDb.C68_twice_counterexample"
   ],
   "note": "Collections: proved for every list. Buckets: proved when no bucket name contains a dot; false otherwise (dots are dropped when the name is put together). A bucket with the name of a collection is listed twice."
  },
  {
   "property": "C69",
   "status": "proved",
   "theorems": [
    "CCGL.Arr2.C69_values",
    "CCGL.Arr2.C69_no_leak",
    "CCGL.Arr2.C69_memory",
    "CCGL.Arr2.C69_false_copy_empty",
    "CCGL.Arr2.C69_false_wrap",
    "CCGL.Arr2.C69_false_alloc",
    "CCGL.Arr2.C69_false_size"
   ],
   "note": "refinement of a value-semantics specification over all histories on an explicit heap; outside the contract the code is undefined (copying an empty or moved-from object, 2^32 cells or more, failed allocation: proved), and a moved-from object reports its old size"
  },
  {
   "property": "C70",
   "status": "partial",
   "theorems": [
    "CCGL.Gfs.C70_subsets_partial",
    "CCGL.Gfs.C70_endtoend",
    "CCGL.Gfs.subOpts_spec",
    "CCGL.Gfs.C70_none",
    "CCGL.Gfs.C70_false_failure",
    "CCGL.Gfs.C70_false_combined"
   ],
   "note": "Full result for any pattern of failing attempts: subsets before the first failed write are read back exactly (C70_subsets_partial), and with no failure the chain store/load/combine/store/read gives the original raster (C70_endtoend). As stated C70 is false of the code: the call returns true although a write failed, and the remaining subsets are silently not written (C70_false_failure); the combined mode divides by an uninitialised number when the combination fails (C70_false_combined)."
  },
  {
   "property": "C71",
   "status": "partial",
   "theorems": [
    "CCGL.Gfs.C71_grid_partial",
    "CCGL.Gfs.C71_compact_partial",
    "CCGL.Gfs.C71_direct_partial",
    "CCGL.Gfs.C71_validNumber",
    "CCGL.checkDefault_spec",
    "CCGL.Gfs.C71_false_shifted",
    "CCGL.Gfs.C71_false_outside",
    "CCGL.Gfs.C71_false_positions",
    "CCGL.Gfs.C71_false_allvalid"
   ],
   "note": "Proved: files with all cells (C71_grid_partial, every combination of the options), files without NoData cells read with a mask with the same valid cells (C71_compact_partial: the object is again one that the library builds), full files with an all-valid mask of the same size (C71_direct_partial). As stated C71 is false of the code: only counts of cells are compared, so with a mask of another grid cells outside the mask stay and positions outside the raster appear, or memory outside of the array is read, and with the same number of other valid cells values are silently shown at wrong cells. The mask has no subsets in this model."
  },
  {
   "property": "C72",
   "status": "partial",
   "theorems": [
    "CCGL.C72_refl",
    "CCGL.C72_symm",
    "CCGL.C72_near",
    "CCGL.C72_int",
    "CCGL.C72_double_partial",
    "CCGL.C72_false_tiny"
   ],
   "note": "exact for integral values and for doubles one of which is at least 2^-53 in magnitude; false near zero (2^-107 equals 0, not transitive)"
  },
  {
   "property": "C73",
   "status": "partial",
   "theorems": [
    "CCGL.C73_combine_id_partial",
    "CCGL.C73_combine_origin_partial",
    "CCGL.C73_subset_origin_partial",
    "CCGL.C73_subset_id_partial",
    "CCGL.C73_subset_fresh",
    "CCGL.C73_inconsistent",
    "CCGL.C73_false_unusable",
    "CCGL.C73_false_layers"
   ],
   "note": "one fresh subset by id always fails (C73_subset_fresh); unusable subsets are reclassified too when the default value is not NoData (C73_false_unusable); out_origin with more table layers than raster layers is undefined (C73_false_layers)"
  },
  {
   "property": "C74",
   "status": "partial",
   "theorems": [
    "CCGL.C74_cropped_partial",
    "CCGL.C74_same_partial",
    "CCGL.C74_built",
    "CCGL.C74_false_positions",
    "CCGL.C74_false_exact"
   ],
   "note": "Proved when the extent is cropped and some mask cell is unmatched (C74_cropped_partial) and when the mask's positions are shared (C74_same_partial), for every subset map that describes points, as made by BuildSubSet (C74_built). Missing because false: positions recalculated without cropping (C74_false_positions), and cropping although all mask cells match (C74_false_exact)."
  },
  {
   "property": "C75",
   "status": "partial",
   "theorems": [
    "CCGL.Disk.C75_subsets_partial",
    "CCGL.Disk.C75_reclass_partial",
    "CCGL.Disk.C75_whole_asc_partial",
    "CCGL.Disk.C75_whole_asc_gaps",
    "CCGL.Disk.C75_whole_tif_partial",
    "CCGL.Disk.C75_subsets_result",
    "CCGL.Disk.C75_subsets_answer",
    "CCGL.Disk.C75_reclass_answer",
    "CCGL.Disk.C75_whole_asc_answer",
    "CCGL.Disk.C75_whole_tif_answer",
    "CCGL.Disk.C75_whole_convert_answer",
    "CCGL.Disk.C75_none",
    "CCGL.Disk.C75_reclass_origin_partial",
    "CCGL.Disk.C75_reclass_subsets_partial",
    "CCGL.Disk.C75_false_append",
    "CCGL.Disk.C75_false_disk_full"
   ],
   "note": "Round trips proved for every tree, name, raster and table if the files can be written and the format can carry the values (ASCII: six significant digits in the header). Layered ASCII with another NoData value than -9999: C75_whole_asc_gaps says what the files hold, the number -9999 in cells the raster does not store, which is not NoData there (the property is false, see App.C92_false_ascii). What the result tells is proved for any behaviour of the operating system (the *_answer theorems): true exactly if each file could be opened (ASCII) or GDAL wrote it (GeoTIFF, with the exact refusals of integer conversions), and no other file is touched. Missing because false: ASCII output returns true for truncated files and appends to files that cannot be removed."
  },
  {
   "property": "C76",
   "status": "partial",
   "theorems": [
    "CCGL.Main.C76_settings",
    "CCGL.Main.C76_jobs_partial",
    "CCGL.Main.C76_options_partial",
    "CCGL.Main.C76_exit",
    "CCGL.Main.C76_false_last",
    "CCGL.Main.C76_false_single",
    "CCGL.Main.C76_false_names",
    "CCGL.Main.C76_false_mask",
    "CCGL.Main.C76_false_order",
    "CCGL.Main.C76_false_items",
    "CCGL.Main.C76_false_empty"
   ],
   "note": "Proved for every command line and configuration file in which not both names of a setting are used: the settings in force (C76_settings), the jobs of the command line and of every data item (C76_jobs_partial), the other settings (C76_options_partial), and the reasons for an exit code (C76_exit). Missing because false: see the C76_false theorems."
  },
  {
   "property": "C77",
   "status": "proved",
   "theorems": [
    "CCGL.App.C77_mask_job",
    "CCGL.App.C77_plain_job",
    "CCGL.App.C77_mask_jobs",
    "CCGL.App.C77_plain_jobs",
    "CCGL.App.C77_mask_run",
    "CCGL.App.C77_plain_run",
    "CCGL.App.C77_missing_input",
    "CCGL.App.C77_missing_jobs",
    "CCGL.App.C77_missing_first",
    "CCGL.App.C77_unreadable_mask",
    "CCGL.App.C77_no_mask_run",
    "CCGL.App.C77_exit",
    "CCGL.App.C77_outside",
    "CCGL.App.C77_false_outside"
   ],
   "note": "ASCII and GeoTIFF outputs; GeoTIFF with the cell type double. The hypotheses say that the files can be written and that the format carries the numbers (FileJob). Without overlap the behaviour is undefined (C77_outside)."
  },
  {
   "property": "C78",
   "status": "proved",
   "theorems": [
    "CCGL.App.C78_plain_job",
    "CCGL.App.C78_mask_job",
    "CCGL.App.C78_groups_job",
    "CCGL.App.C78_job_plain",
    "CCGL.App.C78_job_mask",
    "CCGL.App.C78_job_groups",
    "CCGL.App.C78_plain_run",
    "CCGL.App.C78_mask_run",
    "CCGL.App.C78_groups_run",
    "CCGL.App.C78_dec_nothing",
    "CCGL.App.C78_false_zero"
   ],
   "note": "ASCII and GeoTIFF outputs; GeoTIFF with the cell type double. Hypotheses: the input lies on the grid of the mask and overlaps it (else undefined, C77_outside), the mask has no coordinate equal to -9999 (C74), the outputs can be written (JobOk). Excepted as stated: group 0 in MASKDEC (C78_false_zero)."
  },
  {
   "property": "C79",
   "status": "proved",
   "theorems": [
    "CCGL.App.C79_job",
    "CCGL.App.C79_batch",
    "CCGL.App.C79_run",
    "CCGL.App.C79_no_mask",
    "CCGL.App.C79_piece",
    "CCGL.App.C79_roundtrip"
   ],
   "note": "Hypotheses: the outputs can be written and the format carries the numbers (ComOk), no job writes to a file of a later job (ApartCom). That pieces written by DEC and MASKDEC fit is C79_piece and C79_roundtrip (if the table gives no cell the NoData value)."
  },
  {
   "property": "C80",
   "status": "proved",
   "theorems": [
    "CCGL.Life.C80_safe",
    "CCGL.Life.C80_noleak",
    "CCGL.Life.C80_frame",
    "CCGL.Life.C80_example",
    "CCGL.Life.C80_example_arrays",
    "CCGL.Life.C80_mask_first",
    "CCGL.Life.C80_copy_shared",
    "CCGL.Life.C80_setExt_shared",
    "CCGL.Life.C80_setCalc_newMask",
    "CCGL.Life.C80_setPositions",
    "CCGL.Life.C80_reread",
    "CCGL.Life.C80_gfs_leak",
    "CCGL.Life.C80_subset_data_leak",
    "CCGL.Life.C80_copy_stats",
    "CCGL.Life.C80_no_valid"
   ],
   "note": "The contract is Allowed in Spec/RasterLife.lean. Outside of it the property is false of the code: theorems C80_mask_first ... C80_no_valid."
  },
  {
   "property": "C81",
   "status": "proved",
   "theorems": [
    "CCGL.ArrText.C81_output1D",
    "CCGL.ArrText.C81_output2D",
    "CCGL.ArrText.C81_output_short",
    "CCGL.ArrText.C81_int",
    "CCGL.ArrText.C81_read1D",
    "CCGL.ArrText.C81_read1D_short",
    "CCGL.ArrText.C81_read2D",
    "CCGL.ArrText.C81_missing_file",
    "CCGL.ArrText.C81_formats_differ",
    "CCGL.ArrText.C81_negative_row"
   ],
   "note": "Extracts and StopsAtEnd say what operator>> does for the element type; both are proved for int (C81_int). A missing file, a negative count and files written by the output functions are not handled: C81_missing_file, C81_negative_row, C81_formats_differ."
  },
  {
   "property": "C82",
   "status": "proved",
   "theorems": [
    "CCGL.MLife.C82_safe",
    "CCGL.MLife.C82_call",
    "CCGL.MLife.C82_forgets",
    "CCGL.MLife.C82_noleak",
    "CCGL.MLife.C82_clean",
    "CCGL.MLife.C82_held",
    "CCGL.MLife.C82_copy",
    "CCGL.MLife.C82_destroy_twice",
    "CCGL.MLife.C82_delete_client",
    "CCGL.MLife.C82_no_metadata",
    "CCGL.MLife.C82_example"
   ],
   "note": "The contract is Allowed in Spec/MongoLife.lean; outside of it the property is false of the code (C82_copy, C82_destroy_twice, C82_delete_client, C82_no_metadata). What the driver needs is assumed in the header of Model/MongoLife.lean."
  },
  {
   "property": "C83",
   "status": "proved",
   "theorems": [
    "CCGL.Flt.C83_sum",
    "CCGL.Flt.C83_sum_integers",
    "CCGL.Flt.C83_statistics",
    "CCGL.Flt.C83_layers",
    "CCGL.Flt.C83_schedule",
    "CCGL.Flt.C83_mean_integers",
    "CCGL.Flt.C83_constant",
    "CCGL.Flt.C83_rounding_exists",
    "CCGL.Flt.C83_false_schedule"
   ],
   "note": "every rounding to nearest, every plan of the parallel loops; no overflow; maximum and minimum for values in the range of float (C19). The deviation and Sum are not the same for every number of threads (C83_false_schedule)"
  },
  {
   "property": "C84",
   "status": "proved",
   "theorems": [
    "CCGL.Flt.C84_locate",
    "CCGL.Flt.C84_outside",
    "CCGL.Flt.C84_centre",
    "CCGL.Flt.C84_roundtrip",
    "CCGL.Flt.C84_aligned",
    "CCGL.Flt.C84_false_far",
    "CCGL.Flt.C84_false_first_column"
   ],
   "note": "every rounding to nearest; no overflow. The conditions are needed: cells of 0.5 at 2^53 (C84_false_far); GetPositionByCoordinate loses first-column cells of exactly aligned layers (C84_false_first_column, cell size 0.1)"
  },
  {
   "property": "C85",
   "status": "proved",
   "theorems": [
    "CCGL.Par.C85_fill",
    "CCGL.Par.C85_copy",
    "CCGL.Par.C85_copy2",
    "CCGL.Par.C85_convert",
    "CCGL.Par.C85_convert_float",
    "CCGL.Par.C85_first_layer",
    "CCGL.Par.C85_other_positions",
    "CCGL.Par.C85_other_rows",
    "CCGL.Par.C85_gridfs_one",
    "CCGL.Par.C85_gridfs_layers",
    "CCGL.Par.C85_replace_one",
    "CCGL.Par.C85_replace_layers",
    "CCGL.Par.C85_store_one",
    "CCGL.Par.C85_store_layers",
    "CCGL.Par.C85_sum",
    "CCGL.Par.C85_sum_idx",
    "CCGL.Par.C85_deviation",
    "CCGL.Par.C85_deviation_layer"
   ],
   "note": "all 21 loops; sequentially consistent interleavings (sufficient for race-free programs); exact addition in reductions (rounded: C83); array bounds are the matter of the sequential properties"
  },
  {
   "property": "C86",
   "status": "partial",
   "theorems": [
    "CCGL.C86_states",
    "CCGL.C86_header",
    "CCGL.C86_cut_partial",
    "CCGL.C86_safe",
    "CCGL.C86_accepted_partial",
    "CCGL.C86_false_truncated",
    "CCGL.C86_false_number"
   ],
   "note": "false of the code that incomplete files are refused: for every grid of two or more cells and every k a crash can leave an accepted file with NoData from cell k on (C86_false_truncated); a cut number is taken for a shorter one (C86_false_number). Proved: the exact set of crash states and what each of them reads as"
  },
  {
   "property": "C87",
   "status": "partial",
   "theorems": [
    "CCGL.App.C87_mask_store_partial",
    "CCGL.App.C87_plain_store_partial",
    "CCGL.App.C87_mask_file",
    "CCGL.App.C87_plain_file",
    "CCGL.App.C87_mask_jobs_partial",
    "CCGL.App.C87_plain_jobs_partial",
    "CCGL.App.C87_mask_few",
    "CCGL.App.C87_plain_few",
    "CCGL.App.C87_few_store",
    "CCGL.App.C87_few_file",
    "CCGL.App.C87_few_jobs",
    "CCGL.App.C87_few_plain_jobs",
    "CCGL.App.C87_skip",
    "CCGL.App.C87_false_type"
   ],
   "note": "mode MASK, one layer, no reclassification; all cells stored (INCLUDE_NODATA TRUE: the theorems with _store, _file, _jobs) or only those of the mask, or without a mask those that are not NoData (INCLUDE_NODATA FALSE: C87_mask_few, C87_plain_few; files stored so are read with the mask again by C87_few_store, C87_few_file, batches C87_few_jobs, C87_few_plain_jobs). Inputs without NoData cells are taken as stored: no default value is filled in. False of the code that inputs are found whatever type they are stored in (C87_false_type); a job whose input is not found under its own options is skipped with exit code 0 (C87_skip). The other modes: writing and reading subsets in GridFS is C70"
  },
  {
   "property": "C88",
   "status": "partial",
   "theorems": [
    "CCGL.App.C88_file",
    "CCGL.App.C88_bucket_partial",
    "CCGL.App.C88_jobs_partial",
    "CCGL.App.C88_few",
    "CCGL.App.C88_few_jobs",
    "CCGL.App.C88_numbers",
    "CCGL.App.C88_false_nothing"
   ],
   "note": "output to the bucket: whole grids (INCLUDE_NODATA TRUE) or the cells of the mask (FALSE: C88_few), at least one piece, removals of old files that succeed; pieces are files with one layer. False if no piece contributes and the output goes to the bucket: undefined behaviour (C88_false_nothing)"
  },
  {
   "property": "C89",
   "status": "partial",
   "theorems": [
    "CCGL.Nan.C89_equal",
    "CCGL.Nan.C89_positions",
    "CCGL.Nan.C89_finite_partial",
    "CCGL.Nan.C89_false_nan",
    "CCGL.Nan.C89_stats",
    "CCGL.Nan.C89_push_fin"
   ],
   "note": "recognition of NoData: only for finite NoData values (C89_finite_partial); false of the code if NoData is NaN or infinite (C89_false_nan). Finite numbers are exact rationals: sums do not overflow to infinities"
  },
  {
   "property": "C90",
   "status": "partial",
   "theorems": [
    "CCGL.App.C90_recls_partial",
    "CCGL.App.C90_mask_recls_partial",
    "CCGL.App.C90_units_recls_partial",
    "CCGL.App.C90_units_partial",
    "CCGL.App.C90_own_partial",
    "CCGL.App.C90_mask_partial",
    "CCGL.App.C90_plain_partial",
    "CCGL.App.C90_own_jobs_partial",
    "CCGL.App.C90_mask_jobs_partial",
    "CCGL.App.C90_units_jobs_partial",
    "CCGL.App.C90_few_recls",
    "CCGL.App.C90_few_mask_recls",
    "CCGL.App.C90_few_units_recls",
    "CCGL.App.C90_few_units",
    "CCGL.App.C90_few_own",
    "CCGL.App.C90_few_own_jobs",
    "CCGL.App.C90_few_mask_jobs",
    "CCGL.App.C90_few_units_jobs",
    "CCGL.App.C90_few_store_recls",
    "CCGL.App.C90_few_store_units_recls",
    "CCGL.App.C90_few_store_units"
   ],
   "note": "the _partial theorems: all cells stored (INCLUDE_NODATA TRUE); the few theorems: INCLUDE_NODATA FALSE, the input a file or (C90_few_store_\u2026, with a mask of the same size) a file in the bucket that holds the cells of the mask; without a mask such a file cannot be read. Every file stored at the latest in the fourth attempt, removals of old files that succeed. A group with number 0 is excepted if single groups and the whole grid are asked for: its file is replaced"
  },
  {
   "property": "C100",
   "status": "partial",
   "theorems": [
    "CCGL.App.C100_job_plain",
    "CCGL.App.C100_job_mask",
    "CCGL.App.C100_job_units",
    "CCGL.App.C100_few_mask",
    "CCGL.App.C100_few_units",
    "CCGL.App.C100_file",
    "CCGL.App.C91_mixed_units_jobs",
    "CCGL.App.C91_mixed_mask_jobs",
    "CCGL.App.C91_mixed_plain_jobs",
    "CCGL.App.C91_mixed_units_run_partial",
    "CCGL.App.C91_mixed_mask_run_partial",
    "CCGL.App.C91_mixed_plain_run_partial"
   ],
   "note": "JobDone says what the files hold with the same specification as for files (C78, C77). Partial only for the runs: all cells stored. C100_few_\u2026: one job, mask with a NoData cell and the numbers of rows and columns of the stored header; without a mask such a file is not read (C87). One input per job, one layer"
  },
  {
   "property": "C101",
   "status": "partial",
   "theorems": [
    "CCGL.App.C101_plain",
    "CCGL.App.C101_mask",
    "CCGL.App.C101_groups",
    "CCGL.App.C101_com",
    "CCGL.App.C101_many_plain",
    "CCGL.App.C101_many_mask",
    "CCGL.App.C101_many_groups",
    "CCGL.App.C101_db_plain",
    "CCGL.App.C101_db_mask",
    "CCGL.App.C101_db_units",
    "CCGL.App.C101_db_com",
    "CCGL.App.C101_db_few_own",
    "CCGL.App.C101_db_few_mask",
    "CCGL.App.C101_db_few_units",
    "CCGL.App.C101_db_com_few",
    "CCGL.App.C101_db_few_cells",
    "CCGL.App.C101_db_few_plain",
    "CCGL.App.C101_db_full_plain",
    "CCGL.App.C101_db_full_mask",
    "CCGL.App.C101_db_full_units",
    "CCGL.App.C101_db_few_full_plain",
    "CCGL.App.C101_db_few_full_mask",
    "CCGL.App.C101_db_few_full_units"
   ],
   "note": "Stopped: the mask loaded, some jobs done, and then any change to the output files of the next job (over-approximates every prefix of its writes). Partial only in that the stopped states are given by this specification instead of being derived from a small-step semantics of the writes. Jobs with several input files: _many (files) and _full (bucket). Bucket: all outputs of the run in the bucket; files with names of outputs that the options of the job find carry all options of its outputs (OldFiles: the program stores no others)"
  },
  {
   "property": "C91",
   "status": "partial",
   "theorems": [
    "CCGL.App.C91_mixed_units_run_partial",
    "CCGL.App.C91_mixed_mask_run_partial",
    "CCGL.App.C91_mixed_plain_run_partial",
    "CCGL.App.C91_mixed_units_jobs",
    "CCGL.App.C91_mixed_mask_jobs",
    "CCGL.App.C91_mixed_plain_jobs",
    "CCGL.App.C91_plain_run_partial",
    "CCGL.App.C91_mask_run_partial",
    "CCGL.App.C91_units_run_partial",
    "CCGL.App.C91_com_run_partial",
    "CCGL.App.C91_few_run",
    "CCGL.App.C91_few_plain_run",
    "CCGL.App.C91_com_few_run",
    "CCGL.App.C91_few_own_run",
    "CCGL.App.C91_few_mask_recls_run",
    "CCGL.App.C91_few_units_run",
    "CCGL.App.C91_no_mask",
    "CCGL.App.C91_offline",
    "CCGL.App.C91_stored_mask",
    "CCGL.App.C91_store_mask"
   ],
   "note": "restrictions of C87, C88 and C90: all cells stored, or -include_nodata 0 (the few theorems: inputs in files), all outputs of the run in the bucket, or, for all cells stored, some in files and some in the bucket (C91_mixed_\u2026), every file stored at the latest in the fourth attempt. C91_no_mask, C91_offline and the two theorems about stored masks are complete"
  },
  {
   "property": "C92",
   "status": "partial",
   "theorems": [
    "CCGL.App.C92_mask_partial",
    "CCGL.App.C92_plain_partial",
    "CCGL.App.C92_mask_run_partial",
    "CCGL.App.C92_plain_run_partial",
    "CCGL.App.C92_gfs_mask_partial",
    "CCGL.App.C92_gfs_plain_partial",
    "CCGL.App.C92_gfs_mask_jobs_partial",
    "CCGL.App.C92_gfs_plain_jobs_partial",
    "CCGL.App.C92_gfs_mask_run_partial",
    "CCGL.App.C92_gfs_plain_run_partial",
    "CCGL.App.C92_gfs_few_mask_partial",
    "CCGL.App.C92_gfs_few_plain_partial",
    "CCGL.App.C92_gfs_few_mask_jobs_partial",
    "CCGL.App.C92_gfs_few_plain_jobs_partial",
    "CCGL.App.C92_gfs_few_mask_run_partial",
    "CCGL.App.C92_gfs_few_plain_run_partial",
    "CCGL.App.C92_false_ascii"
   ],
   "note": "several input files in DEC and MASKDEC or with a table: C98. GridFS (with and without the NoData cells): runs whose jobs all have several files. ASCII layers of a masked job whose NoData value is not -9999 have the number -9999 outside the mask: the theorems say so (LayersOut), the property is false there (C92_false_ascii)"
  },
  {
   "property": "C93",
   "status": "proved",
   "theorems": [
    "CCGL.I32.C93_cell",
    "CCGL.I32.C93_call",
    "CCGL.I32.C93_history",
    "CCGL.I32.C93_history_ok",
    "CCGL.I32.C93_build",
    "CCGL.I32.C93_stream",
    "CCGL.I32.C93_length",
    "CCGL.I32.C93_subset",
    "CCGL.I32.C93_comb",
    "CCGL.I32.C93_false_positions",
    "CCGL.I32.C93_false_stream",
    "CCGL.I32.C93_reached",
    "CCGL.I32.C93_false_value"
   ],
   "note": "masked reading and the file readers are not in the checked model (the ASCII, GeoTIFF and GridFS readers model their own size products); the keys of a reclassification table with OUT_ORIGIN are not checked; lengths of std::vector beyond memory are not modelled"
  },
  {
   "property": "C94",
   "status": "proved",
   "theorems": [
    "CCGL.SubObj.C94_history",
    "CCGL.SubObj.C94_independent",
    "CCGL.SubObj.C94_built",
    "CCGL.SubObj.C94_false_shared",
    "CCGL.SubObj.C94_false_double_free",
    "CCGL.SubObj.C94_false_dangling",
    "CCGL.SubObj.C94_false_one_layer",
    "CCGL.SubObj.C94_false_stale",
    "CCGL.SubObj.C94_false_grow",
    "CCGL.SubObj.C94_false_copy_shrinks",
    "CCGL.SubObj.C94_false_empty"
   ],
   "note": "values are rationals (T = double); allocation never fails; the cutting of subsets by a mask, which changes these objects from outside, is in Model/MaskSubset and Model/RasterLife; the arrays handed out by Output are values owned by the caller"
  },
  {
   "property": "C95",
   "status": "proved",
   "theorems": [
    "CCGL.C95_entries",
    "CCGL.C95_own",
    "CCGL.C95_place",
    "CCGL.C95_nodata",
    "CCGL.C95_reshape",
    "CCGL.C95_positions",
    "CCGL.C95_positions_refused",
    "CCGL.C95_positions_lone",
    "CCGL.C95_false_large",
    "CCGL.C95_false_layers",
    "CCGL.C95_false_columns",
    "CCGL.C95_false_positions",
    "CCGL.C95_false_empty"
   ],
   "note": "values are rationals; headers with non-standard keys (silently added to the map, never read) are not modelled; SetPositions takes over the caller's array (ownership: see C80_setPositions)"
  },
  {
   "property": "C96",
   "status": "proved",
   "theorems": [
    "CCGL.FText.C96_text",
    "CCGL.FText.C96_exact",
    "CCGL.FText.C96_decimal",
    "CCGL.FText.C96_special",
    "CCGL.FText.C96_false_small"
   ],
   "note": "C locale decimal point; printf(\"%f\") is the exactly rounded text (glibc, default rounding mode); ToDouble is the exact value of the text, the rounding of strtod is the explicit Rounding in C96_decimal"
  },
  {
   "property": "C97",
   "status": "proved",
   "theorems": [
    "CCGL.FText.C97_convert",
    "CCGL.FText.C97_ascii",
    "CCGL.FText.C97_ftow",
    "CCGL.FText.C97_false"
   ],
   "note": "mbstowcs/wcstombs are parameters (any locale); strings shorter than 2^31; the wide number functions (itow, IsInt of wstring, ...) are not modelled separately"
  },
  {
   "property": "C98",
   "status": "partial",
   "theorems": [
    "CCGL.App.C98_plain_partial",
    "CCGL.App.C98_mask_partial",
    "CCGL.App.C98_groups_partial",
    "CCGL.App.C98_job_plain",
    "CCGL.App.C98_job_mask",
    "CCGL.App.C98_job_groups",
    "CCGL.App.C98_plain_run_partial",
    "CCGL.App.C98_mask_run_partial",
    "CCGL.App.C98_groups_run_partial",
    "CCGL.App.C98_gfs_plain_partial",
    "CCGL.App.C98_gfs_mask_partial",
    "CCGL.App.C98_gfs_groups_partial",
    "CCGL.App.C98_gfs_stack_own_partial",
    "CCGL.App.C98_gfs_stack_units_partial",
    "CCGL.App.C98_gfs_plain_jobs_partial",
    "CCGL.App.C98_gfs_mask_jobs_partial",
    "CCGL.App.C98_gfs_groups_jobs_partial",
    "CCGL.App.C98_gfs_plain_run_partial",
    "CCGL.App.C98_gfs_mask_run_partial",
    "CCGL.App.C98_gfs_groups_run_partial",
    "CCGL.App.C98_gfs_few_plain_partial",
    "CCGL.App.C98_gfs_few_mask_partial",
    "CCGL.App.C98_gfs_few_groups_partial",
    "CCGL.App.C98_gfs_few_stack_own_partial",
    "CCGL.App.C98_gfs_few_stack_units_partial",
    "CCGL.App.C98_gfs_few_plain_jobs_partial",
    "CCGL.App.C98_gfs_few_mask_jobs_partial",
    "CCGL.App.C98_gfs_few_groups_jobs_partial",
    "CCGL.App.C98_gfs_few_plain_run_partial",
    "CCGL.App.C98_gfs_few_mask_run_partial",
    "CCGL.App.C98_gfs_few_groups_run_partial",
    "CCGL.App.C98_false_wide_table"
   ],
   "note": "tables with at most as many columns as input files (wider ones: undefined behaviour, C98_false_wide_table, proved without mask); ASCII layers (no table) of a masked job whose NoData value is not -9999 have the number -9999 outside the mask: the theorems say so (LayersOut), the property is false there (C92_false_ascii)"
  },
  {
   "property": "C99",
   "status": "partial",
   "theorems": [
    "CCGL.C99_texts_partial",
    "CCGL.C99_first_hour",
    "CCGL.C99_utc",
    "CCGL.C99_local_date",
    "CCGL.C99_local_days",
    "CCGL.C99_ymd_roundtrip",
    "CCGL.C99_ymd_order",
    "CCGL.C99_string",
    "CCGL.C99_dateInfo",
    "CCGL.C99_false",
    "CCGL.C99_false_day",
    "CCGL.C99_false_half_hour"
   ],
   "note": "the texts are false in the first hour of most months under daylight saving: C99_first_hour says exactly when; zones with one standard offset and one saving, mktime(tm_isdst = 0) means standard time (glibc), integer overflow not modelled"
  }
 ]
}