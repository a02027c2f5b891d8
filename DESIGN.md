# Formal model of CCGL in Lean 4 — design

The pinned source is `/repo` (C++). It is read as text; nothing of it is built or run. `lean/Verif/Model` holds the model (each
definition cites the file and lines it models and says where it simplifies), `lean/Verif/Spec` small specifications that do not use the
model's helpers, `lean/Verif/Props` the property theorems with concrete examples that meet their hypotheses, `lean/Verif/Lemmas`
helper lemmas. `tools/` holds the generators of MANIFEST.json, AXIOMS.md and this file and the list of seeded wrong programs;
`seeded/LOG.jsonl` is the log of running these against the theorems.

## Trusted base

* Lean 4.33.0's kernel (and the elaborator only in so far as it produces the terms the kernel checks). No `native_decide`, no
  `bv_decide`, no compiled evaluation. `decide +kernel` evaluates closed terms in the kernel; it is used for examples, counterexamples
  and finite tables only, never to stand for a quantified claim.
* Axioms: only `propext`, `Classical.choice` and `Quot.sound` (Lean's standard three). AXIOMS.md lists the axioms of every theorem named
  in MANIFEST.json, from `#print axioms`. No axiom is added by this project.
* Mathlib (one module at a time) for arithmetic tactics, real analysis (C62–C64) and list lemmas; all of it is checked by the same kernel.
* That the model says what the C++ says. This is the part no proof covers; it rests on reading. It is supported by the citations, by the
  examples beside the theorems and by the seeded wrong programs (every realistic edit of a model definition must break a theorem, or the
  log says why it is not wrong).

## What is modelled

* `utils_string`: case, trimming, splitting, integer and decimal conversions, option maps. `utils_array`: all allocation, copy and release
  helpers, `Array2D`, the vector helpers, the text output and input of arrays. `utils_math`: `FloatEqual`, statistics, sums, extrema, `Expo`,
  `Power`, the fast exponential, logarithm, square root and power functions. `utils_time`: all date functions and the class `DateTime`.
  `utils_filesystem`: names, directories, searching, deleting, plain text files. `basic`: `IsIpAddress`.
* `data_raster`: types and headers; constructors from memory, files and GridFS; the position calculation with and without mask; all cell,
  position, coordinate and statistics accessors; setters; `ReplaceNoData`, `Reclassify`, `Copy`; subsets (building, data, reading,
  output, combination); ASCII, GeoTIFF and GridFS input and output, whole rasters and subsets.
* `db_mongoc`: GridFS files with retries, metadata, the BSON codec, collection names; the lifetimes of
  clients, databases, collections, GridFS, cursors, files, documents and buffers under all answers of the driver.
* `apps/mask_rasterio`: argument and configuration parsing, the list of jobs, and the jobs on files and on GridFS in all modes.

## What is not modelled

* The MSVC/Windows branches, logging and status messages, thread settings, `GetAppPath`, time measurement,
  connection pools, documents of ordinary collections, `ModelException`.
* Floating point: cells are exact rationals (every finite value of a cell type is one); sums and statistics are also modelled with
  operations rounded to nearest double (C83), coordinates too (C84; overflow is not modelled). NaN and infinite cells are modelled for NoData and statistics (C89). Elsewhere rounding, NaN and infinities are not modelled except
  where the code handles them as such (statistics of no values, default values of the application); `float` conversions on output use a
  rounding parameter. The fast math functions are proved with exact real arithmetic on exact bit patterns.
* `int` overflow, except where the model says otherwise (cells, positions, subsets and output arrays of rasters, C93; products of sizes in the ASCII
  reader and `Array2D`, conversions of GeoTIFF/GridFS cells, BSON integers).
* OpenMP: every loop is proved free of data races, with the result of the sequential loop, under any schedule and interleaving (C85, C21);
  the other models use the sequential order.
* GDAL, the Mongo server and driver, libc and the operating system are parameters or small abstract machines, with arbitrary failures where
  the property speaks of failures; the assumed behaviour is written next to each definition.

## General modelling decisions

* Platform: 64-bit Linux/GCC build (`CPP_64`, `vint = int64_t`, `SEP = '/'`).
* Strings are `List Char`; characters with the C locale's ASCII classification.
* Undefined behaviour (out-of-bounds access, null dereference, use after free, double free, division by zero, out-of-range conversions) is a
  distinct outcome (`Out.ub`) and never totalised away; so are escaping exceptions (`Out.exn`). A theorem that a call "ends normally"
  says that the outcome is `Out.ok`.
* Rasters in theorems are those a program can get (`Spec.Built`: constructors from memory, files, GridFS, masking, then any history of
  mutators), not arbitrary records.
* A property that is false of the code is stated as far as it is true in a theorem with the suffix `_partial`, and the failure is proved
  with a concrete counterexample (`_false_…`).

## Properties, models and theorems

| id | property | status | model (lean/Verif/Model) | proof | theorems (namespace CCGL) |
|----|----|----|----|----|----|
| C01 | Compacting a grid loses no cell value | proved | Raster (`CalculateValidPositionsFromGridData`, `GetValue`, `GetPosition`) | invariant of compaction (positions = filtered indexes in order) and correctness of the binary search; refinement of the raster to the function (row, column, layer) → value | `C01_compact_1d`, `C01_compact_2d` |
| C02 | Position data is the sorted list of valid cells | proved | Raster (`CalculateValidPositionsFromGridData`, `GetValue`, `GetPosition`) | invariant of compaction (positions = filtered indexes in order) and correctness of the binary search; refinement of the raster to the function (row, column, layer) → value | `C02_positions` |
| C03 | GetPosition is an exact search | partial | Raster (`GetPosition` with its loop) | loop invariant of the binary search over sorted positions | `C03_getPosition_partial`, `C03_false_empty`, `C03_false_empty2` |
| C04 | Reads return the last write | partial | Raster (`SetValue`, `GetValue`, …) as a state machine | refinement to function update, induction over histories of all mutators | `C04_last_write_partial`, `C04_false_empty` |
| C05 | No out-of-bounds access through the cell accessors | partial | all accessors with an explicit `ub` outcome | invariant "storage length = cells × layers" over all ways to build and change rasters | `C05_reads`, `C05_ops_partial`, `C05_history_1d`, `C05_false_positions`, `C05_false_mask`, `C05_of_mask1`, `C05_of_mask2` |
| C06 | Cell centre coordinates round-trip | proved | Coord | floor arithmetic over ℚ | `C06_roundtrip`, `C06_center` |
| C07 | A coordinate inside the extent is mapped to the cell that contains it | partial | Coord | floor arithmetic over ℚ | `C07_contains_partial`, `C07_outside`, `C07_rejected_iff`, `C07_false_lower_left`, `C07_false_right`, `C07_getPosition_xy` |
| C08 | ASCII grid write/read round-trip | partial | Asc, Dec (file = list of characters, `strtod`, `operator<<`) | induction over lines/tokens; printing/reading of decimals; invariant of the reader loop | `C08_roundtrip_partial`, `C08_roundtrip_int`, `C08_roundtrip_near`, `C08_roundtrip_general`, `C08_nearest`, `C08_false_precision`, `C08_false_empty`, `C08_false_char`, `C08_false_char_text` |
| C09 | ASCII grid reader never overruns | partial | Asc, Dec (file = list of characters, `strtod`, `operator<<`) | induction over lines/tokens; printing/reading of decimals; invariant of the reader loop | `C09_accept`, `C09_reject`, `C09_incomplete`, `C09_malformed`, `C09_short`, `C09_nofile`, `C09_no_overrun_partial`, `C09_false_missing`, `C09_false_order`, `C09_false_overflow` |
| C10 | Full-size output reproduces the grid | partial | Output (`OutputFileByGdal`, `OutputAscFile`, `OutputToMongoDB`) | scatter/gather fold invariants | `C10_asc_1d`, `C10_asc_2d`, `C10_asc_2d_partial`, `C10_gdal_1d`, `C10_gdal_2d`, `C10_stream`, `C10_stream_valid`, `C10_fullsize`, `C10_false_asc_2d_nodata`, `C10_false_empty_2d` |
| C11 | ReplaceNoData changes exactly the NoData cells | proved | Raster (`ReplaceNoData`, `Reclassify`) | pointwise | `C11_replaceNoData`, `C11_idempotent` |
| C12 | Reclassify maps every cell by the table | partial | Raster (`ReplaceNoData`, `Reclassify`) | pointwise | `truncQ_spec`, `C12_reclassify_partial`, `C12_throws`, `C12_false` |
| C13 | Subsets partition the valid cells | proved | Subset (`BuildSubSet`, `PrepareSubsetData`, `PrepareCombSubsetData`, …) | fold invariants over the cells, gather/scatter inverse | `C13_total`, `C13_partition`, `C13_only`, `C13_count` |
| C14 | Subset bounding boxes are tight and local indexes valid | proved | Subset (`BuildSubSet`, `PrepareSubsetData`, `PrepareCombSubsetData`, …) | fold invariants over the cells, gather/scatter inverse | `C14_box`, `C14_local`, `C14_distinct`, `C14_header`, `C14_new` |
| C15 | Combining decomposed subsets restores the raster | partial | Subset (`BuildSubSet`, `PrepareSubsetData`, `PrepareCombSubsetData`, …) | fold invariants over the cells, gather/scatter inverse | `C15_decompose_full`, `C15_decompose_valid`, `C15_combine`, `C15_roundtrip_partial`, `C15_com`, `C15_com_combine`, `C15_false_onelayer`, `C15_false_onelayer_reached`, `C15_origin_fails`, `C15_refuses_layers`, `C15_refuses_empty`, `C15_set`, `C15_set2D`, `C15_set_refused` |
| C16 | Re-building subsets is idempotent | proved | Subset (`BuildSubSet`, `PrepareSubsetData`, `PrepareCombSubsetData`, …) | fold invariants over the cells, gather/scatter inverse | `C16_idempotent`, `C16_rebuild`, `C16_history` |
| C17 | Masking keeps exactly the values under the mask | partial | Mask (`MaskAndCalculateValidPosition`) | exact grid geometry over ℚ, loop invariants over rows/columns of the mask | `C17_ext`, `C17_calc`, `C17_ext_calc_partial`, `C17_plain_partial`, `C17_false_ext_calc`, `C17_false_plain` |
| C18 | Masked positions agree with the header | partial | Mask (`MaskAndCalculateValidPosition`) | exact grid geometry over ℚ, loop invariants over rows/columns of the mask | `C18_positions`, `C18_setUseMaskExt`, `C17_ext`, `C17_calc`, `C17_ext_calc_partial`, `C17_plain_partial`, `C18_false_nothing_matched`, `C18_false_setUseMaskExt`, `C17_false_ext_calc` |
| C19 | Basic statistics are those of the valid values | partial | Stats | folds vs. a mathematical specification; state machine of the cache, induction over histories | `C19_statistics_partial`, `C19_excluded`, `C19_false_large`, `C19_maxInArray`, `C19_minInArray` |
| C20 | Multi-layer statistics are the per-layer statistics | proved | Stats | folds vs. a mathematical specification; state machine of the cache, induction over histories | `C20_layers`, `C20_stats`, `C20_independent` |
| C21 | Parallel loops do not depend on how they are split among threads | proved | Stats (reductions under any schedule), Par (interleavings) | commutation/permutation lemmas; any interleaving of owner-computes loops equals the sequential loop | `C21_sum`, `C21_sumIdx`, `C21_statistics`, `C21_statistics2`, `C21_interleaving`, `C21_replaceNoData`, `C21_order` |
| C22 | Statistics are cached until updated | partial | Stats | folds vs. a mathematical specification; state machine of the cache, induction over histories | `C22_cache_partial`, `C22_total`, `C22_update`, `C22_layerValues`, `C22_false_array` |
| C23 | Copies are equal and independent | proved | Copy (explicit heap with addresses) | separation invariant, induction over histories after the copy | `Copy.C23_copy`, `Copy.C23_writes`, `Copy.C23_false_no_valid_cell`, `Copy.C23_false_into_2d`, `Copy.C23_false_self`, `Copy.C23_false_shared_positions` |
| C24 | Narrowing on GeoTIFF output is safe | partial | Geotiff, Types | case analysis over types with exact C++ conversion rules | `Gtiff.C24_written`, `Gtiff.C24_written_uint64`, `Gtiff.C24_written_float`, `Gtiff.C24_mask_float`, `Gtiff.C24_io_failure`, `Gtiff.C24_false_float_nodata`, `Gtiff.C24_same_type`, `Gtiff.C24_mask_partial`, `Gtiff.C24_refused_int`, `Gtiff.C24_refused_double`, `Gtiff.C24_refused_floating`, `Gtiff.C24_false_collision`, `Gtiff.C24_false_fraction`, `Gtiff.C24_false_nodata_fraction`, `Gtiff.C24_false_uint64`, `Gtiff.C24_false_unsigned`, `Gtiff.C24_false_float_range` |
| C25 | Raster type names round-trip | partial | Types | tables + string matching | `C25_names`, `C25_unknown`, `C25_roundtrip`, `C25_roundtrip_case`, `C25_other`, `C25_injective`, `C25_default_partial`, `C25_false_uint64`, `C25_ctype` |
| C26 | GridFS file store behaves like a map | partial | Gfs, Bytes, Bson (bucket = list of files, failing driver calls) | refinement to a map over all histories; induction over attempts; byte-level round trip | `Gfs.C26_history_partial`, `Gfs.C26_read`, `Gfs.C26_remove_others`, `Gfs.C26_false_overwrite`, `Gfs.C26_false_raw`, `Gfs.C26_false_type` |
| C27 | Retries are bounded and do not duplicate files | partial | Gfs, Bytes, Bson (bucket = list of files, failing driver calls) | refinement to a map over all histories; induction over attempts; byte-level round trip | `Gfs.C27_attempts`, `Gfs.C27_single_partial`, `Gfs.C27_false_duplicate`, `Gfs.C27_false_remove` |
| C28 | GridFS raster round-trip | partial | Gfs, Bytes, Bson (bucket = list of files, failing driver calls) | refinement to a map over all histories; induction over attempts; byte-level round trip | `Gfs.C28_file`, `Gfs.C28_raster_partial`, `Gfs.outOpts_spec`, `Gfs.inOpts_spec`, `Gfs.C28_false_memory`, `Gfs.C28_false_narrow`, `Gfs.C28_false_type64`, `Gfs.C28_false_header`, `Gfs.C28_false_compact` |
| C29 | Options survive the BSON metadata encoding | partial | Bson | case analysis, number/text lemmas | `C29_roundtrip_partial`, `C29_text`, `C29_false`, `C29_missing`, `C29_special` |
| C30 | Boolean metadata decodes to its truth value | partial | Bson | case analysis, number/text lemmas | `C30_text_partial`, `C30_false_number`, `C30_false_int`, `C30_false_bool` |
| C31 | Trim removes exactly the surrounding white space | proved | Str | list induction against independent specifications | `C31_trim`, `C31_trimSpaces`, `C31_unique`, `C31_agree`, `C31_idempotent` |
| C32 | Splitting by a delimiter inverts joining | proved | Str | list induction against independent specifications | `C32_split_join`, `C32_join_split`, `C32_fields`, `C32_trailing_empty_lost` |
| C33 | Splitting by white space gives the words | partial | Str | list induction against independent specifications | `C33_words_partial`, `C33_trailing_white`, `C33_total`, `C33_false` |
| C34 | String matching ignores case and nothing else | proved | Str | list induction against independent specifications | `C34_match`, `C34_cstring_nul`, `C34_refl`, `C34_symm`, `C34_trans`, `C34_upper`, `C34_cstring` |
| C35 | Integer recognition is exact | proved | Num, Dec, Raster (`FloatEqual`) | digit induction; order arguments on ℚ | `C35_isInt`, `C35_isInt64`, `C35_isUInt64` |
| C36 | Integers round-trip through text | proved | Num, Dec, Raster (`FloatEqual`) | digit induction; order arguments on ℚ | `C36_itoa`, `C36_i64toa`, `C36_u64toa`, `C36_decimal`, `C36_injective` |
| C37 | IsNumber accepts numbers only | partial | Num, Dec, Raster (`FloatEqual`) | digit induction; order arguments on ℚ | `C37_isNumber`, `C37_isNumber_partial`, `C37_value`, `C37_value_unique`, `C37_false_empty` |
| C38 | Option maps: copy and update semantics | proved | Str | list induction against independent specifications | `C38_copy`, `C38_update`, `C38_history`, `C38_keys_unique` |
| C39 | SplitStringForValues reports success only when every field was converted | partial | Num, Dec, Raster (`FloatEqual`) | digit induction; order arguments on ℚ | `C39_exact`, `C39_values_partial`, `C39_success`, `C39_empty`, `C39_false`, `C39_false_inf` |
| C40 | Array helpers neither leak nor free twice | partial | Array (explicit heap, failing `new`) | ownership invariant over all histories | `Arr.C40_safe_partial`, `Arr.C40_release1`, `Arr.C40_release2`, `Arr.C40_request`, `Arr.C40_nonnull`, `Arr.C40_refused`, `Arr.C40_empty`, `Arr.C40_release_all`, `Arr.C40_false_zero_rows`, `Arr.C40_false_pool`, `Arr.C40_false_batch`, `Arr.C40_false_read2D` |
| C41 | Arrays hold what they were given, 2D arrays are one contiguous block in row-major order | partial | Array (explicit heap, failing `new`) | ownership invariant over all histories | `Arr.C41_init`, `Arr.C41_injective`, `Arr.C41_rows`, `Arr.C41_write`, `Arr.C41_independent`, `Arr.C41_copy_partial`, `Arr.C41_stable_init`, `Arr.C41_stable_release`, `Arr.C41_one_init`, `Arr.C41_one_copy`, `Arr.C41_one_flag`, `Arr.C41_one_copy_flag`, `Arr.C41_one_write`, `Arr.C41_false_source`, `Arr.C41_false_one` |
| C42 | Irregular 2D arrays keep their row lengths and contents | proved | Array (explicit heap, failing `new`) | ownership invariant over all histories | `Arr.C42_irregular`, `Arr.C42_disjoint`, `Arr.C42_end`, `Arr.C42_refused`, `Arr.C42_read` |
| C43 | Value lookup and removal in vectors | proved | Array (explicit heap, failing `new`) | ownership invariant over all histories | `Arr.C43_member`, `Arr.C43_remove`, `Arr.C43_idempotent` |
| C44 | Julian day numbers count days | proved | Time | integer arithmetic; day counts | `C44_next`, `C44_count`, `C44_monotone`, `C44_injective`, `C44_anchor`, `C44_leap` |
| C45 | Dates round-trip through time_t | proved | Time | integer arithmetic; day counts | `C45_roundtrip`, `C45_later`, `C45_next`, `C45_date_of_time`, `C45_epoch` |
| C46 | Day of year is the ordinal date | proved | Time | integer arithmetic; day counts | `C46_first`, `C46_next`, `C46_last`, `C46_julian`, `C46_of_time`, `C46_julian_of_time` |
| C47 | Date texts round-trip and sort | proved | Time | integer arithmetic; day counts | `C47_roundtrip`, `C47_roundtrip2`, `C47_roundtrip3`, `C47_dateInfo`, `C47_order`, `C47_empty`, `C47_false` |
| C48 | Moving a DateTime forward and backward | partial | Time | integer arithmetic; day counts | `C48_forward_partial`, `C48_false` |
| C49 | DateTime keeps its instant | proved | Time | integer arithmetic; day counts | `C49_instant`, `C49_order`, `C49_total`, `C49_fromDateTime`, `C49_toUTC_shifts` |
| C50 | Expo clamps, Power keeps the sign | proved | MathFn, PowTable | real analysis (error bounds), exact bit arithmetic | `MathFn.C50_expo`, `MathFn.C50_expo_mono`, `MathFn.C50_expo_reversed`, `MathFn.C50_expo_default`, `MathFn.C50_power`, `MathFn.C50_power_mono`, `MathFn.C50_power_odd` |
| C51 | Table lookups in the fast power function are in bounds | proved | MathFn, PowTable | real analysis (error bounds), exact bit arithmetic | `MathFn.C51_inBounds`, `MathFn.C51_accuracy` |
| C52 | Paths decompose and recompose | partial | Fs (tree of files and directories) | list lemmas, tree invariants | `Fs.C52_parts`, `Fs.C52_parts_nosuffix_partial`, `Fs.C52_false_dotted_dir`, `Fs.C52_relative` |
| C53 | Renaming helpers change only their part | proved | Fs (tree of files and directories) | list lemmas, tree invariants | `Fs.C53_rename`, `Fs.C53_rename_int`, `Fs.C53_injective`, `Fs.C53_replace_nosuffix` |
| C54 | Plain text loading keeps exactly the content lines | proved | Asc, Dec (file = list of characters, `strtod`, `operator<<`) | induction over lines/tokens; printing/reading of decimals; invariant of the reader loop | `C54_content`, `C54_total`, `C54_unique`, `C54_missing` |
| C55 | Directory deletion and cleaning touch only the directory | proved | Fs (tree of files and directories) | list lemmas, tree invariants | `Fs.C55_delete_safe`, `Fs.C55_delete_all`, `Fs.C55_delete_missing`, `Fs.C55_delete_flat`, `Fs.C55_clean`, `Fs.C55_clean_missing` |
| C56 | FindFiles returns exactly the matching files | partial | Fs (tree of files and directories) | list lemmas, tree invariants | `Fs.C56_found`, `Fs.C56_only`, `Fs.C56_exact_partial`, `Fs.C56_false` |
| C57 | Key:value option parsing | proved | App | parser = independent specification, induction over the text | `C57_entries`, `C57_shape`, `C57_result`, `C57_available`, `C57_kept`, `C57_absent`, `C57_skip` |
| C58 | Mode and format names | proved | App | parser = independent specification, induction over the text | `C58_mode`, `C58_mode_unknown`, `C58_format`, `C58_format_unknown` |
| C59 | IP address check accepts addresses only | partial | App | parser = independent specification, induction over the text | `C59_exact`, `C59_accepts`, `C59_partial`, `C59_false_trailing`, `C59_false_wrap` |
| C60 | All layers of a multi-layer raster are aligned | partial | Coord, Read (`AddOtherLayerRasterData`) | pointwise | `C60_layers_partial`, `C60_false`, `C60_false_right` |
| C61 | Times in metadata decode to the stored time | partial | Bson | case analysis, number/text lemmas | `C61_seconds_partial`, `C61_seconds_mod`, `C61_second_zero`, `C61_last_second`, `C61_false_small`, `C61_false_2038`, `C61_text`, `C61_date`, `C61_missing` |
| C62 | Fast exponential is accurate on its range | proved | MathFn, PowTable | real analysis (error bounds), exact bit arithmetic | `MathFn.C62_accuracy`, `MathFn.C62_overflow` |
| C63 | Fast logarithm and power are accurate for every normal float | proved | MathFn, PowTable | real analysis (error bounds), exact bit arithmetic | `MathFn.C63_lnFloat`, `MathFn.C63_lnDouble`, `MathFn.C63_pow` |
| C64 | Fast square root is accurate for every normal float | proved | MathFn, PowTable | real analysis (error bounds), exact bit arithmetic | `MathFn.C64_sqrtFloat`, `MathFn.C64_sqrtDouble` |
| C65 | Creating, testing and deleting single entries | proved | Fs (tree of files and directories) | list lemmas, tree invariants | `Fs.C65_exists`, `Fs.C65_filesExist`, `Fs.C65_makeDirectory`, `Fs.C65_makeDirectory_twice`, `Fs.C65_deleteFile` |
| C66 | GeoTIFF round trip keeps grid and cells | proved | Geotiff, Types | case analysis over types with exact C++ conversion rules | `Gtiff.C66_roundtrip`, `Gtiff.C66_roundtrip_int`, `Gtiff.C66_byte_values`, `Gtiff.C66_false_byte_type` |
| C67 | Format and path arguments of the command line | partial | App | parser = independent specification, induction over the text | `C67_parse_total`, `C67_parse_partial`, `C67_false_empty` |
| C68 | Collection and bucket names | partial | MongoDb | list induction | `MongoDb.C68_names_partial`, `MongoDb.C68_failure`, `MongoDb.C68_collections`, `MongoDb.C68_dotted_counterexample`, `MongoDb.C68_phantom_counterexample`, `MongoDb.C68_twice_counterexample` |
| C69 | Array2D objects are values and release their memory | proved | Array2D (explicit heap) | refinement to values over all histories, leak freedom | `Arr2.C69_values`, `Arr2.C69_no_leak`, `Arr2.C69_memory`, `Arr2.C69_false_copy_empty`, `Arr2.C69_false_wrap`, `Arr2.C69_false_alloc`, `Arr2.C69_false_size` |
| C70 | Subsets stored in MongoDB are read back and combined into the original raster | partial | GfsSubset, Gfs, Subset | composition of C13–C15 with C26–C28 | `Gfs.C70_subsets_partial`, `Gfs.C70_endtoend`, `Gfs.subOpts_spec`, `Gfs.C70_none`, `Gfs.C70_false_failure`, `Gfs.C70_false_combined` |
| C71 | A raster stored in MongoDB and read with a mask is the masked raster | partial | GfsMask, Gfs, Mask | composition of C28 with C17 | `Gfs.C71_grid_partial`, `Gfs.C71_compact_partial`, `Gfs.C71_direct_partial`, `Gfs.C71_validNumber`, `checkDefault_spec`, `Gfs.C71_false_shifted`, `Gfs.C71_false_outside`, `Gfs.C71_false_positions`, `Gfs.C71_false_allvalid` |
| C72 | FloatEqual tells different values apart | partial | Num, Dec, Raster (`FloatEqual`) | digit induction; order arguments on ℚ | `C72_refl`, `C72_symm`, `C72_near`, `C72_int`, `C72_double_partial`, `C72_false_tiny` |
| C73 | Reclassified output of subsets | partial | Subset (`BuildSubSet`, `PrepareSubsetData`, `PrepareCombSubsetData`, …) | fold invariants over the cells, gather/scatter inverse | `C73_combine_id_partial`, `C73_combine_origin_partial`, `C73_subset_origin_partial`, `C73_subset_id_partial`, `C73_subset_fresh`, `C73_inconsistent`, `C73_false_unusable`, `C73_false_layers` |
| C74 | Subsets of the mask after masking | partial | MaskSubset, Mask, Subset | fold invariants, relation of positions before/after cropping | `C74_cropped_partial`, `C74_same_partial`, `C74_built`, `C74_false_positions`, `C74_false_exact` |
| C75 | Rasters and subsets in files | partial | FileOut (disk = tree + contents, hostile OS as parameter), Asc, Geotiff, Output, Subset | composition of C10/C13–C15/C66/C08/C53; frame property of the disk | `Disk.C75_subsets_partial`, `Disk.C75_reclass_partial`, `Disk.C75_whole_asc_partial`, `Disk.C75_whole_asc_gaps`, `Disk.C75_whole_tif_partial`, `Disk.C75_subsets_result`, `Disk.C75_subsets_answer`, `Disk.C75_reclass_answer`, `Disk.C75_whole_asc_answer`, `Disk.C75_whole_tif_answer`, `Disk.C75_whole_convert_answer`, `Disk.C75_none`, `Disk.C75_reclass_origin_partial`, `Disk.C75_reclass_subsets_partial`, `Disk.C75_false_append`, `Disk.C75_false_disk_full` |
| C76 | Command line and configuration file of mask_rasterio | partial | AppMain (`main` up to the list of jobs) | independent specification of settings and jobs, induction over lines and arguments | `Main.C76_settings`, `Main.C76_jobs_partial`, `Main.C76_options_partial`, `Main.C76_exit`, `Main.C76_false_last`, `Main.C76_false_single`, `Main.C76_false_names`, `Main.C76_false_mask`, `Main.C76_false_order`, `Main.C76_false_items`, `Main.C76_false_empty` |
| C77 | A run of mask_rasterio in the mode MASK delivers the masked rasters | proved | AppRun (`main`, the jobs on files), FileOut, Mask, MaskSubset, Subset | composition of all file level results, induction over the list of jobs with a frame property | `App.C77_mask_job`, `App.C77_plain_job`, `App.C77_mask_jobs`, `App.C77_plain_jobs`, `App.C77_mask_run`, `App.C77_plain_run`, `App.C77_missing_input`, `App.C77_missing_jobs`, `App.C77_missing_first`, `App.C77_unreadable_mask`, `App.C77_no_mask_run`, `App.C77_exit`, `App.C77_outside`, `App.C77_false_outside` |
| C78 | Reclassification runs of mask_rasterio in the modes MASK, DEC and MASKDEC | proved | AppRun (`main`, the jobs on files), FileOut, Mask, MaskSubset, Subset | composition of all file level results, induction over the list of jobs with a frame property | `App.C78_plain_job`, `App.C78_mask_job`, `App.C78_groups_job`, `App.C78_job_plain`, `App.C78_job_mask`, `App.C78_job_groups`, `App.C78_plain_run`, `App.C78_mask_run`, `App.C78_groups_run`, `App.C78_dec_nothing`, `App.C78_false_zero` |
| C79 | The mode COM of mask_rasterio puts the pieces of a decomposition together | proved | AppRun (`main`, the jobs on files), FileOut, Mask, MaskSubset, Subset | composition of all file level results, induction over the list of jobs with a frame property | `App.C79_job`, `App.C79_batch`, `App.C79_run`, `App.C79_no_mask`, `App.C79_piece`, `App.C79_roundtrip` |
| C80 | Rasters, masks and subsets release every array exactly once | proved | RasterLife (ownership of the arrays of rasters, masks and subsets) | ownership invariant over all histories | `Life.C80_safe`, `Life.C80_noleak`, `Life.C80_frame`, `Life.C80_example`, `Life.C80_example_arrays`, `Life.C80_mask_first`, `Life.C80_copy_shared`, `Life.C80_setExt_shared`, `Life.C80_setCalc_newMask`, `Life.C80_setPositions`, `Life.C80_reread`, `Life.C80_gfs_leak`, `Life.C80_subset_data_leak`, `Life.C80_copy_stats`, `Life.C80_no_valid` |
| C81 | Arrays written to and read from text files | proved | ArrayText (text output and reading templates of utils_array) | induction on the words of the text; printing lemma of six significant digits | `ArrText.C81_output1D`, `ArrText.C81_output2D`, `ArrText.C81_output_short`, `ArrText.C81_int`, `ArrText.C81_read1D`, `ArrText.C81_read1D_short`, `ArrText.C81_read2D`, `ArrText.C81_missing_file`, `ArrText.C81_formats_differ`, `ArrText.C81_negative_row` |
| C82 | Every driver object of the Mongo client is released exactly once | proved | MongoLife (heap of driver objects, wrapper objects, answers of the driver in the calls) | invariant over all histories; the heap after each call computed symbolically | `MLife.C82_safe`, `MLife.C82_call`, `MLife.C82_forgets`, `MLife.C82_noleak`, `MLife.C82_clean`, `MLife.C82_held`, `MLife.C82_copy`, `MLife.C82_destroy_twice`, `MLife.C82_delete_client`, `MLife.C82_no_metadata`, `MLife.C82_example` |
| C83 | Statistics in floating-point arithmetic | proved | Float (doubles, any rounding to nearest), FloatStats (the functions of Stats with rounded operations, plans of parallel loops) | standard error analysis by induction over loops and plans; doubles as multiples of powers of two | `Flt.C83_sum`, `Flt.C83_sum_integers`, `Flt.C83_statistics`, `Flt.C83_layers`, `Flt.C83_schedule`, `Flt.C83_mean_integers`, `Flt.C83_constant`, `Flt.C83_rounding_exists`, `Flt.C83_false_schedule` |
| C84 | Coordinates in floating-point arithmetic | proved | FloatCoord (the functions of Coord with rounded operations) | error bounds along one axis, truncation between two integers, multiples of powers of two for the counterexamples | `Flt.C84_locate`, `Flt.C84_outside`, `Flt.C84_centre`, `Flt.C84_roundtrip`, `Flt.C84_aligned`, `Flt.C84_false_far`, `Flt.C84_false_first_column` |
| C85 | No data races in the parallel loops | proved | ParMem (threads as programs of reads and writes, small-step interleaving, all 21 loop bodies) | invariant over executions of threads confined to own and read-only data; frame and congruence of programs; permutation of iterations for sums | `Par.C85_fill`, `Par.C85_copy`, `Par.C85_copy2`, `Par.C85_convert`, `Par.C85_convert_float`, `Par.C85_first_layer`, `Par.C85_other_positions`, `Par.C85_other_rows`, `Par.C85_gridfs_one`, `Par.C85_gridfs_layers`, `Par.C85_replace_one`, `Par.C85_replace_layers`, `Par.C85_store_one`, `Par.C85_store_layers`, `Par.C85_sum`, `Par.C85_sum_idx`, `Par.C85_deviation`, `Par.C85_deviation_layer` |
| C86 | Crash while writing an ASCII grid | partial | AscCrash (WriteSingleAsc as a sequence of file operations), Asc | induction over the operations; prefixes of texts made of pieces with separators; words of a cut text; C09 | `C86_states`, `C86_header`, `C86_cut_partial`, `C86_safe`, `C86_accepted_partial`, `C86_false_truncated`, `C86_false_number` |
| C87 | mask_rasterio with files in GridFS | partial | AppGfs (jobs with one bucket), AppRun, Gfs, GfsMask, GfsSubset | the predicate HoldsGrid is what a job stores and what a job reads; masking and storing by C77, C28; HoldsCells is the same for files without NoData cells (read by C71); induction over the jobs | `App.C87_mask_store_partial`, `App.C87_plain_store_partial`, `App.C87_mask_file`, `App.C87_plain_file`, `App.C87_mask_jobs_partial`, `App.C87_plain_jobs_partial`, `App.C87_mask_few`, `App.C87_plain_few`, `App.C87_few_store`, `App.C87_few_file`, `App.C87_few_jobs`, `App.C87_few_plain_jobs`, `App.C87_skip`, `App.C87_false_type` |
| C88 | Pieces from GridFS put together by mask_rasterio (mode COM) | partial | AppGfs.comOneDb, comJobDb, runJobsDb; Subset.readDb | each input keeps the invariant ComSubs of C79 (the loaded subsets hold the last pieces); the combined grid is that of C79, stored as in C87; induction over inputs and jobs | `App.C88_file`, `App.C88_bucket_partial`, `App.C88_jobs_partial`, `App.C88_few`, `App.C88_few_jobs`, `App.C88_numbers`, `App.C88_false_nothing` |
| C89 | NoData and statistics with NaN and infinite cells | partial | NanCells: floatEqual, calcValid, replaceNoData, basicStats over numbers, infinities and NaN | case analysis of the comparison; induction over rows and columns; invariant of the accumulators | `Nan.C89_equal`, `Nan.C89_positions`, `Nan.C89_finite_partial`, `Nan.C89_false_nan`, `Nan.C89_stats`, `Nan.C89_push_fin` |
| C90 | mask_rasterio stores groups of cells and reclassified grids in GridFS | partial | AppGfs.writeJobDb, layerJobDb, runJobsDb; Gfs.outputSubsetToMongo | the groups of the raster a job builds (Ready, Cut of C78) are stored one by one (C70); invariant over the stored files, induction over jobs | `App.C90_recls_partial`, `App.C90_mask_recls_partial`, `App.C90_units_recls_partial`, `App.C90_units_partial`, `App.C90_own_partial`, `App.C90_mask_partial`, `App.C90_plain_partial`, `App.C90_own_jobs_partial`, `App.C90_mask_jobs_partial`, `App.C90_units_jobs_partial`, `App.C90_few_recls`, `App.C90_few_mask_recls`, `App.C90_few_units_recls`, `App.C90_few_units`, `App.C90_few_own`, `App.C90_few_own_jobs`, `App.C90_few_mask_jobs`, `App.C90_few_units_jobs`, `App.C90_few_store_recls`, `App.C90_few_store_units_recls`, `App.C90_few_store_units` |
| C91 | Whole runs of mask_rasterio with a database | partial | AppGfsRun.runDb, loadMaskDb (apps/mask_rasterio.cpp main), App.configure, App.jobs | configure and jobs of C77 give the jobs; the mask is read from its file or by readFromMongo as the grid it is; then the batch theorems C90, C88 | `App.C91_mixed_units_run_partial`, `App.C91_mixed_mask_run_partial`, `App.C91_mixed_plain_run_partial`, `App.C91_mixed_units_jobs`, `App.C91_mixed_mask_jobs`, `App.C91_mixed_plain_jobs`, `App.C91_plain_run_partial`, `App.C91_mask_run_partial`, `App.C91_units_run_partial`, `App.C91_com_run_partial`, `App.C91_few_run`, `App.C91_few_plain_run`, `App.C91_com_few_run`, `App.C91_few_own_run`, `App.C91_few_mask_recls_run`, `App.C91_few_units_run`, `App.C91_no_mask`, `App.C91_offline`, `App.C91_stored_mask`, `App.C91_store_mask` |
| C92 | mask_rasterio jobs with several input files | partial | AppRun.initFiles, readLayer, Raster.addLayers (data_raster.hpp ReadFromFiles 3430-3509, AddOtherLayerRasterData), AppRun.layerJob | C77 for the first file, with the stored cells; addLayers by induction over the files (C60 extended to values at cell centres); C75 for the files of the layers; induction over the jobs | `App.C92_mask_partial`, `App.C92_plain_partial`, `App.C92_mask_run_partial`, `App.C92_plain_run_partial`, `App.C92_gfs_mask_partial`, `App.C92_gfs_plain_partial`, `App.C92_gfs_mask_jobs_partial`, `App.C92_gfs_plain_jobs_partial`, `App.C92_gfs_mask_run_partial`, `App.C92_gfs_plain_run_partial`, `App.C92_gfs_few_mask_partial`, `App.C92_gfs_few_plain_partial`, `App.C92_gfs_few_mask_jobs_partial`, `App.C92_gfs_few_plain_jobs_partial`, `App.C92_gfs_few_mask_run_partial`, `App.C92_gfs_few_plain_run_partial`, `App.C92_false_ascii` |
| C93 | 32-bit arithmetic of rasters | proved | Model/Int32.lean: the functions of Model/Raster, Model/Subset and Model/Output written again with every int sum, product, difference and conversion checked | pointwise equality with the unbounded models from the size invariant of Built rasters (rows*cols bounds cells, indexes and boxes); induction over histories; explicit rasters for the overflows | `I32.C93_cell`, `I32.C93_call`, `I32.C93_history`, `I32.C93_history_ok`, `I32.C93_build`, `I32.C93_stream`, `I32.C93_length`, `I32.C93_subset`, `I32.C93_comb`, `I32.C93_false_positions`, `I32.C93_false_stream`, `I32.C93_reached`, `I32.C93_false_value` |
| C94 | Subset objects own what they show | proved | Model/SubObj.lean: SubsetPositions objects on a heap of blocks (pointers, alloc_, copy constructor, destructor, SetData, Set2DData, ReadFromMongoDB, Output) | simulation of a heap-free reference (Spec/SubObj.lean: shape, last layers, room, lender) under an ownership invariant (every block has one owning member, every pointer points to an owned block); induction over histories; link to the subsets of BuildSubSet | `SubObj.C94_history`, `SubObj.C94_independent`, `SubObj.C94_built`, `SubObj.C94_false_shared`, `SubObj.C94_false_double_free`, `SubObj.C94_false_dangling`, `SubObj.C94_false_one_layer`, `SubObj.C94_false_stale`, `SubObj.C94_false_grow`, `SubObj.C94_false_copy_shrinks`, `SubObj.C94_false_empty` |
| C95 | Headers and positions set from outside | proved | Model/SetHdr.lean: SetHeader (CopyHeader over optional entries) and the two SetPositions on the raster of Model/Raster.lean | header entries against Spec/SetHdr.lean; the raster invariant (full / compact) is kept or replaced by the array and the new position list; binary search theorem of C03; counterexamples evaluated | `C95_entries`, `C95_own`, `C95_place`, `C95_nodata`, `C95_reshape`, `C95_positions`, `C95_positions_refused`, `C95_positions_lone`, `C95_false_large`, `C95_false_layers`, `C95_false_columns`, `C95_false_positions`, `C95_false_empty` |
| C96 | Floating numbers as text | proved | Model/Ftoa.lean: _gcvt_s on its buffer (snprintf %f, backward stripping loop with undefined reads before the buffer), ftoa | the stripping loop equals removal of trailing zeros; decimal texts of Lemmas/DecFmt; length bound 10^309; nearest double (Model/Float.lean) for the round trip | `FText.C96_text`, `FText.C96_exact`, `FText.C96_decimal`, `FText.C96_special`, `FText.C96_false_small` |
| C97 | Wide and narrow strings | proved | Model/Ftoa.lean: atow, wtoa, ftow over a locale parameter | direct; C96 for ftow | `FText.C97_convert`, `FText.C97_ascii`, `FText.C97_ftow`, `FText.C97_false` |
| C98 | mask_rasterio jobs with several input files, with or without a table, in all modes | partial | AppRun.initFiles, layerJob, writeJob, run; Subset.prepareComb, prepareSubsetData on rasters with several layers | the raster of the layers (C92) is ready for the table (ReadyL, the analogue of Ready of C78 with a number per layer); per-job theorems in three settings; induction over the jobs with a frame property (batch_gen) | `App.C98_plain_partial`, `App.C98_mask_partial`, `App.C98_groups_partial`, `App.C98_job_plain`, `App.C98_job_mask`, `App.C98_job_groups`, `App.C98_plain_run_partial`, `App.C98_mask_run_partial`, `App.C98_groups_run_partial`, `App.C98_gfs_plain_partial`, `App.C98_gfs_mask_partial`, `App.C98_gfs_groups_partial`, `App.C98_gfs_stack_own_partial`, `App.C98_gfs_stack_units_partial`, `App.C98_gfs_plain_jobs_partial`, `App.C98_gfs_mask_jobs_partial`, `App.C98_gfs_groups_jobs_partial`, `App.C98_gfs_plain_run_partial`, `App.C98_gfs_mask_run_partial`, `App.C98_gfs_groups_run_partial`, `App.C98_gfs_few_plain_partial`, `App.C98_gfs_few_mask_partial`, `App.C98_gfs_few_groups_partial`, `App.C98_gfs_few_stack_own_partial`, `App.C98_gfs_few_stack_units_partial`, `App.C98_gfs_few_plain_jobs_partial`, `App.C98_gfs_few_mask_jobs_partial`, `App.C98_gfs_few_groups_jobs_partial`, `App.C98_gfs_few_plain_run_partial`, `App.C98_gfs_few_mask_run_partial`, `App.C98_gfs_few_groups_run_partial`, `App.C98_false_wide_table` |
| C99 | Dates, times and their texts in local time (utc_time = false) | partial | TimeLocal: the functions of utils_time.cpp with utc_time = false over a zone (standard offset, saving, set of instants with daylight saving) | the date one hour earlier from the injectivity of the day count (C45); the correction code by cases on hour, day and month, the table of month lengths evaluated for each month; texts by the injectivity of two-digit numbers and the scanner lemmas of C47 | `C99_texts_partial`, `C99_first_hour`, `C99_utc`, `C99_local_date`, `C99_local_days`, `C99_ymd_roundtrip`, `C99_ymd_order`, `C99_string`, `C99_dateInfo`, `C99_false`, `C99_false_day`, `C99_false_half_hour` |
| C100 | mask_rasterio reads stored grids and writes raster files, in all modes | partial | AppGfs.layerJobDb, finishJobDb, readFromMongo…, writeJob | the object read from the bucket shows the same grid as the one read from a file (input_plain, input_masked, input_groups), and what is written depends on nothing else (finish_whole, finish_recls) | `App.C100_job_plain`, `App.C100_job_mask`, `App.C100_job_units`, `App.C100_few_mask`, `App.C100_few_units`, `App.C100_file`, `App.C91_mixed_units_jobs`, `App.C91_mixed_mask_jobs`, `App.C91_mixed_plain_jobs`, `App.C91_mixed_units_run_partial`, `App.C91_mixed_mask_run_partial`, `App.C91_mixed_plain_run_partial` |
| C101 | A run of mask_rasterio that is stopped can be started again | partial | AppRun.run, layerJob | the finished jobs give their outputs (batch_all) and change only these; inputs, mask and directories are as before, so all hypotheses of the run theorems C78 hold for the disk that was left (jobOk_only, rasterFile_only) | `App.C101_plain`, `App.C101_mask`, `App.C101_groups`, `App.C101_com`, `App.C101_many_plain`, `App.C101_many_mask`, `App.C101_many_groups`, `App.C101_db_plain`, `App.C101_db_mask`, `App.C101_db_units`, `App.C101_db_com`, `App.C101_db_few_own`, `App.C101_db_few_mask`, `App.C101_db_few_units`, `App.C101_db_com_few`, `App.C101_db_few_cells`, `App.C101_db_few_plain`, `App.C101_db_full_plain`, `App.C101_db_full_mask`, `App.C101_db_full_units`, `App.C101_db_few_full_plain`, `App.C101_db_few_full_mask`, `App.C101_db_few_full_units` |

## Findings

Behaviour of the code found while proving that contradicts what its interface promises (most with a proved counterexample `…_false_…`).

*Cells, positions, coordinates.* `GetPosition` on a raster without valid cells returns −2 (one layer) or the raw index (several). `SetValue`
and a repeated position getter on a compacted multi-layer raster without valid cells are undefined. Constructing from a mask keeps compact
data with positions switched off, so `GetValue` reads out of bounds. `GetPositionByCoordinate` rejects points in the lower and left
half of the border cells, and the right border gives a column that does not exist. `Reclassify` tests `count < 0`, which is never true, and throws
for values without entry. `FloatEqual` has an absolute threshold 1e-32: different small values are equal, and equality is not transitive.

*Statistics.* Maximum/minimum are wrong for doubles beyond `FLT_MAX`; the mean of no values is NaN; the array getters return null for every raster
with data (inverted test).

*Copy.* Copying a compacted raster without valid cells is undefined; copying a one-layer raster into a multi-layer object keeps the
wrong kind; self-copy and copying into an object with layer statistics are undefined/throw; `operator=` is private and empty.

*Masking.* The default value is written to the wrong layer of the original; `release_origin = false` keeps unmasked cells; recalculated positions with
`use_mask_ext` are shifted without the header; nothing matched gives negative header sizes; `SetUseMaskExt` frees arrays that belong to the
mask; deleting the mask first leaves dangling pointers. Subsets of the mask are not recomputed when positions are recalculated
without cropping, nor when all mask cells match but the extent is cropped.

*Subsets.* Combining with `out_origin` and no table always fails; reclassifying one fresh subset always fails; unusable subsets are
reclassified when the default value is not NoData; more table layers than raster layers with `out_origin` reads past rows; two-dimensional
rasters with one layer cannot be decomposed; a subset whose data contains NoData is dropped silently when reading; after one failed write the
remaining subsets are not written, and the GridFS variant still returns true.

*ASCII files.* Six significant digits only; character types are printed as characters; a truncated file is accepted; sizes missing, repeated or too
large are undefined behaviour; layered output fills with −9999 whatever NoData is; a failing delete is ignored and the new grid is
appended to the old one; write errors after opening are not noticed (the result only says whether the file could be opened twice).
Layered names count from 0 for ASCII and from 1 for GeoTIFF.

*GeoTIFF.* A valid cell can equal the replacement NoData; a `float` NoData that `Float32` cannot hold makes NoData cells valid; unsigned 32/64-bit
cells are never accepted for signed types; an out-of-range floating cell is cast before it is refused (undefined).

*GridFS.* A failed overwrite loses the old file; a write error after which saving succeeds leaves a truncated duplicate that is read first; ignored
removal failures; narrowing wraps silently; several unreadable or undefined combinations of options (C28, C71); names with dots are mangled (C68).

*Sizes.* A raster of 2^30 or more valid cells can be constructed and read, but compacting it overflows an `int` (`n_cells_ * 2` in `Initialize2DArray`);
storing a compacted raster of several layers with its NoData cells overflows if layers times rows times columns exceeds 2^31-1, however few cells are
valid; values of 2^31 and more make `BuildSubSet` undefined (C93).

*Subset objects.* The default copy of a `SubsetPositions` is shallow, shares the data and releases them twice (`C94_false_shared`, `C94_false_double_free`), dangles
after its source (`C94_false_dangling`); `Set2DData` with one layer is accepted but not output (`C94_false_one_layer`, `C94_false_stale`); more
layers than the first time overrun the array (`C94_false_grow`), for a deep copy even as many as its source had (`C94_false_copy_shrinks`);
deep-copying a subset without cells dereferences null (`C94_false_empty`).

*Texts.* `SplitString` on blanks repeats the last word before trailing blanks; a trailing empty field is lost; `IsNumber("")`; "a1" counts as 0;
`IsIpAddress` accepts trailing parts; numeric booleans are inverted and BSON booleans always false.

*Time.* `Forward`/`Backward` ignore their parameter; converting to UTC shifts the instant; years beyond 9999 overflow a buffer; texts that do not
match the format leave variables uninitialised.

*Files and directories.* `DeleteDirectory` always returns true; `GetSuffix` looks at the directory; `FindFiles` returns directories and
entries whose suffix merely occurs in the expression; `CleanDirectory` leaves hidden entries.

*Arrays.* A two-dimensional array with no rows cannot be released; failed allocation of the data block leaves an array that cannot be released;
`BatchRelease2DArray` does not compile when used; copies from moved-from `Array2D` objects are undefined; sizes wrap in 32 bits.

*Ownership (C80).* `SetCalcPositions` on a raster constructed from a mask and values, `SetUseMaskExt`, `Copy` and `SetPositions` on a raster that shares the positions
of its mask release the arrays of the mask; `SetPositions` of one array loses the other; reading a second file with GDAL loses the first array;
`ReadFromMongoDB` loses the data read at its early returns (3556, 3581); recalculated subsets lose their data; `Copy` of a raster constructed from a mask
loses the positions; `Copy` of a raster with one layer into one with several leaves `is_2draster` set; `Copy` from 2D statistics into a raster with
calculated statistics throws; positions of a raster without valid cells give arrays that cannot be released; the constructor with a vector of file names
does not initialise the members; a mask without data makes a vector of negative size.

*Floating point (C83).* The parallel reductions of `Sum` and of the standard deviation give results that depend on the number of threads (2^54 or
2^54 + 4 for the same four numbers); mean, extrema, count and range do not.

*Mongo objects (C82).* `GetCollection` of a missing collection forgets the database object; `QueryRecordsCount` never releases its document and
`GetFileNames` makes it unreleasable with `bson_init`; `GetFileNames` goes on with a null GridFS; a file without metadata is copied from null;
`~MongoClient` does not close the connection, `Destroy` ends the driver for all clients and leaves a dangling pointer; `MongoCollection` and
`MongoGridFs` can be copied and then release twice.

*Arrays in text files (C81).* The reading templates expect a title and a count that the output functions do not write; they are defined in the `.cpp` and
never instantiated, so programs cannot link them; a missing file, a short file and negative counts are not noticed.

*Cells of 8-bit types in ASCII grids (C08).* `WriteSingleAsc` writes `unsigned char` and `signed char` cells with `operator<<`, as characters: the cell
50 is read back as 2, the cell 65 makes the file unreadable.

*Interrupted output (C86).* `ReadAscFile` accepts files with too few values: an ASCII grid whose writing was interrupted reads as a complete grid with
NoData in the missing cells, and the last number may have lost digits.

*Coordinates (C84).* `GetPositionByCoordinate` compares with the centre of the lower left cell, not with the border: a mask with cells of 0.1
from -0.4 loses its cell 5, the first column of an exactly aligned raster from 0.1, because `-0.4 + 5 * 0.1` is less than `0.1` in doubles.

*mask_rasterio and GridFS (C87).* A job finds its input in GridFS only if it is stored with the output type and the `INCLUDE_NODATA` flag of the job:
changing the type is impossible, and the job is skipped with exit code 0. If the output cannot be stored, the old output is gone and the exit code is 0.

*mask_rasterio COM and GridFS (C88).* If no piece contributes and the output goes to GridFS, `OutputSubsetToMongoDB` divides by the uninitialised `sublyrs`
(`OutputSubsetToFile` checks the return value first).

*mask_rasterio groups and GridFS (C90).* In the mode MASKDEC the file of the group with number 0 is replaced by that of the whole grid. If the raster has no valid
cell and there is no mask nothing is stored; if one group cannot be stored the remaining ones are not tried; the exit code is 0 in both cases.

*Several input files (C92).* The default value fills the first layer only. Without a mask further layers have values only where the first file has one; with a mask
wherever the mask has one. ASCII layers are numbered from 0, GeoTIFF layers from 1.

*Setters (C95).* `SetHeader` and `SetPositions` check nothing but the length of a replaced position array: a larger header, other columns on a raster with
positions, or positions for a raster without them lead to accesses outside the arrays or to values of other cells.

*Strings (C96, C97).* `ftoa` shows `-0` for small negative numbers and 0 for everything below 5e-7. `atow`/`wtoa` of a string the locale cannot convert
allocate nothing and then convert without limit (`mbstowcs` returns `(size_t)-1`, plus 1 is 0).

*NoData NaN (C89).* If the NoData value is NaN (or infinite) no cell equals it (`FloatEqual`, utils_math.h:141, subtracts): all cells become valid cells,
`ReplaceNoData` changes the header value only, and mean and standard deviation are NaN.

*mask_rasterio.* A single configuration file argument (documented) does nothing; `-configfile` as last argument dereferences null; options given with
both names misalign the jobs; command line defaults do not reach configuration items; a raster the mask does not touch is undefined behaviour
(null check after use); mode DEC without table writes nothing; subset 0 is overwritten by the combined output; COM compares only the number
of cells, writes `0_<out>`, and needs a mask; a job with several input files and a table with more columns than files reads beyond the
numbers of the cells (C98).

*Local time (C99).* Under daylight saving the code moves the clock back one hour by hand. In the first hour of a month it indexes the
table of month lengths one entry too low, takes `tm_year` (since 1900) for the year of the leap-year test and adds the leap day to every
month: January reads before the array, February prints month 13, and only September (or June, August, November in years whose count since
1900 is a leap year) come out right. `ConvertToString` and `ConvertToString2` disagree about the date in the hour after midnight, and a
saving of half an hour is taken for a whole one.
