c('C01', 'proved', 'C01_compact_1d C01_compact_2d', 'valid means valid in the first layer')
c('C02', 'proved', 'C02_positions')
c('C03', 'partial', 'C03_getPosition_partial C03_false_empty C03_false_empty2', 'false of rasters without any valid cell')
c('C04', 'partial', 'C04_last_write_partial C04_false_empty', 'undefined for multi-layer rasters without any valid cell')
c('C05', 'partial', 'C05_reads C05_ops_partial C05_history_1d C05_false_positions C05_false_mask C05_of_mask1 C05_of_mask2', 'false of rasters built from a mask and of multi-layer rasters without valid cells')
c('C11', 'proved', 'C11_replaceNoData C11_idempotent')
c('C12', 'partial', 'truncQ_spec C12_reclassify_partial C12_throws C12_false', 'the code throws on a value without table entry')
c('C31', 'proved', 'C31_trim C31_trimSpaces C31_unique C31_agree C31_idempotent')
c('C32', 'proved', 'C32_split_join C32_join_split C32_fields C32_trailing_empty_lost')
c('C33', 'partial', 'C33_words_partial C33_trailing_white C33_total C33_false', 'false if the text ends with white space: the last word is returned twice')
c('C34', 'proved', 'C34_match C34_cstring_nul C34_refl C34_symm C34_trans C34_upper C34_cstring')
c('C35', 'proved', 'C35_isInt C35_isInt64 C35_isUInt64')
c('C36', 'proved', 'C36_itoa C36_i64toa C36_u64toa C36_decimal C36_injective')
c('C38', 'proved', 'C38_copy C38_update C38_history C38_keys_unique')
c('C06', 'proved', 'C06_roundtrip C06_center')
c('C07', 'partial', 'C07_contains_partial C07_outside C07_rejected_iff C07_false_lower_left C07_false_right C07_getPosition_xy', 'points left of/below the centre of the lower-left cell are rejected, the right border gives a column that does not exist')
c('C60', 'partial', 'C60_layers_partial C60_false C60_false_right', 'inherits the lookup errors of C07')
c('C44', 'proved', 'C44_next C44_count C44_monotone C44_injective C44_anchor C44_leap')
c('C45', 'proved', 'C45_roundtrip C45_later C45_next C45_date_of_time C45_epoch', 'C library UTC conversions modelled by exact day counts')
c('C46', 'proved', 'C46_first C46_next C46_last C46_julian C46_of_time C46_julian_of_time')
c('C47', 'proved', 'C47_roundtrip C47_roundtrip2 C47_roundtrip3 C47_dateInfo C47_order C47_empty C47_false', 'C47_false: the year 10000 and texts not matching the format are undefined')
c('C48', 'partial', 'C48_forward_partial C48_false', 'the parameter is ignored: right exactly when it equals the milliseconds field')
c('C49', 'proved', 'C49_instant C49_order C49_total C49_fromDateTime C49_toUTC_shifts', 'local time conversion is the POSIX contract Zone, with instances; C49_toUTC_shifts: ToUTCTime moves the instant by the zone offset')
c('C13', 'proved', 'C13_total C13_partition C13_only C13_count', 'rasters without a mask')
c('C14', 'proved', 'C14_box C14_local C14_distinct C14_header C14_new', 'rasters without a mask')
c('C15', 'partial', 'C15_decompose_full C15_decompose_valid C15_combine C15_roundtrip_partial C15_com C15_com_combine C15_false_onelayer C15_false_onelayer_reached C15_origin_fails C15_refuses_layers C15_refuses_empty C15_set C15_set2D C15_set_refused', 'round trip proved for every raster except two-dimensional ones with a single layer, where the code fails (C15_false_onelayer_reached); files with a wrong number of values are dropped (C15_com); combining with out_origin and without a table always fails (C15_origin_fails)')
c('C16', 'proved', 'C16_idempotent C16_rebuild C16_history')
c('C19', 'partial', 'C19_statistics_partial C19_excluded C19_false_large C19_maxInArray C19_minInArray', 'maximum/minimum wrong for double values beyond FLT_MAX; exact arithmetic')
c('C20', 'proved', 'C20_layers C20_stats C20_independent')
c('C21', 'proved', 'C21_sum C21_sumIdx C21_statistics C21_statistics2 C21_interleaving C21_replaceNoData C21_order')
c('C22', 'partial', 'C22_cache_partial C22_total C22_update C22_layerValues C22_false_array', 'the array getters return null for every raster with data')
c('C37', 'partial', 'C37_isNumber C37_isNumber_partial C37_value C37_value_unique C37_false_empty', 'the empty text is accepted; exact for every other text')
c('C39', 'partial', 'C39_exact C39_values_partial C39_success C39_empty C39_false C39_false_inf', 'a field counts as converted if it contains a digit: "a1" counts as 0, "inf" does not count')
c('C54', 'proved', 'C54_content C54_total C54_unique C54_missing')
c('C08', 'partial', 'C08_roundtrip_partial C08_roundtrip_int C08_roundtrip_near C08_roundtrip_general C08_nearest C08_false_precision C08_false_empty C08_false_char C08_false_char_text', 'exact for numbers with at most six significant digits (what the writer prints), within 5e-6 otherwise; grids without cells are refused by the reader; cells of the 8-bit types are written as characters: grids of them come back with other values or are refused (C08_false_char, C08_false_char_text)')
c('C09', 'partial', 'C09_accept C09_reject C09_incomplete C09_malformed C09_short C09_nofile C09_no_overrun_partial C09_false_missing C09_false_order C09_false_overflow', 'rows and columns missing before the data, given again after it, or with a product beyond int are undefined behaviour')
c('C10', 'partial', 'C10_asc_1d C10_asc_2d C10_asc_2d_partial C10_gdal_1d C10_gdal_2d C10_stream C10_stream_valid C10_fullsize C10_false_asc_2d_nodata C10_false_empty_2d', 'multi-layer ASCII output fills with -9999 whatever the NoData value is; a compacted multi-layer raster without valid cells is undefined behaviour')
c('C25', 'partial', 'C25_names C25_unknown C25_roundtrip C25_roundtrip_case C25_other C25_injective C25_default_partial C25_false_uint64 C25_ctype', 'all but the default NoData of UINT64, which is 2^64 and not representable in the type')
c('C57', 'proved', 'C57_entries C57_shape C57_result C57_available C57_kept C57_absent C57_skip')
c('C58', 'proved', 'C58_mode C58_mode_unknown C58_format C58_format_unknown')
c('C59', 'partial', 'C59_exact C59_accepts C59_partial C59_false_trailing C59_false_wrap', 'every dotted quad is accepted; texts continuing with more dots and digits and numbers that wrap in 32 bits are accepted too')
c('C29', 'partial', 'C29_roundtrip_partial C29_text C29_false C29_missing C29_special', 'integers beyond 32 bits and infinities are undefined behaviour when stored; decimals come back with six significant digits')
c('C30', 'partial', 'C30_text_partial C30_false_number C30_false_int C30_false_bool', 'correct for text; inverted for numbers and always false for BSON booleans')
c('C61', 'partial', 'C61_seconds_partial C61_seconds_mod C61_second_zero C61_last_second C61_false_small C61_false_2038 C61_text C61_date C61_missing', 'the full claim is false: wrong for the first 99 ms of 1970 and the last 9 ms before, and for seconds beyond 32 bits; what is returned is proved for every date, text and other value')
c('C40', 'partial', 'Arr.C40_safe_partial Arr.C40_release1 Arr.C40_release2 Arr.C40_request Arr.C40_nonnull Arr.C40_refused Arr.C40_empty Arr.C40_release_all Arr.C40_false_zero_rows Arr.C40_false_pool Arr.C40_false_batch Arr.C40_false_read2D', 'for all histories in which two-dimensional arrays are requested with at least one row and their data block can be allocated; otherwise releasing is undefined behaviour')
c('C41', 'partial', 'Arr.C41_init Arr.C41_injective Arr.C41_rows Arr.C41_write Arr.C41_independent Arr.C41_copy_partial Arr.C41_stable_init Arr.C41_stable_release Arr.C41_one_init Arr.C41_one_copy Arr.C41_one_flag Arr.C41_one_copy_flag Arr.C41_one_write Arr.C41_false_source Arr.C41_false_one', 'a two-dimensional copy from a null or empty source is undefined behaviour; a one-dimensional copy from a null source reports failure but leaves an allocated array with indeterminate elements (C41_false_one); everything else proved')
c('C42', 'proved', 'Arr.C42_irregular Arr.C42_disjoint Arr.C42_end Arr.C42_refused Arr.C42_read')
c('C43', 'proved', 'Arr.C43_member Arr.C43_remove Arr.C43_idempotent')
c('C50', 'proved', 'MathFn.C50_expo MathFn.C50_expo_mono MathFn.C50_expo_reversed MathFn.C50_expo_default MathFn.C50_power MathFn.C50_power_mono MathFn.C50_power_odd', 'in real arithmetic')
c('C51', 'proved', 'MathFn.C51_inBounds MathFn.C51_accuracy', 'bit operations and the whole 2048-entry table exact; argument of the cast in real arithmetic')
c('C62', 'proved', 'MathFn.C62_accuracy MathFn.C62_overflow', 'in real arithmetic')
c('C63', 'proved', 'MathFn.C63_lnFloat MathFn.C63_lnDouble MathFn.C63_pow', 'bit operations exact, arithmetic in the reals')
c('C64', 'proved', 'MathFn.C64_sqrtFloat MathFn.C64_sqrtDouble', 'bit operations exact, arithmetic in the reals')
c('C52', 'partial', 'Fs.C52_parts Fs.C52_parts_nosuffix_partial Fs.C52_false_dotted_dir Fs.C52_relative', 'proved for every full name with a suffix and for suffix-less names in dot-free directories; for a suffix-less name in a directory with a dot GetSuffix returns a piece of the directory')
c('C53', 'proved', 'Fs.C53_rename Fs.C53_rename_int Fs.C53_injective Fs.C53_replace_nosuffix', 'for full names of existing or absolute entries with a suffix')
c('C55', 'proved', 'Fs.C55_delete_safe Fs.C55_delete_all Fs.C55_delete_missing Fs.C55_delete_flat Fs.C55_clean Fs.C55_clean_missing', 'on an abstract POSIX file tree without symbolic links; refused operations are an arbitrary predicate')
c('C56', 'partial', 'Fs.C56_found Fs.C56_only Fs.C56_exact_partial Fs.C56_false', 'the exact set returned is characterised; it also contains directories, suffix-less entries and entries whose suffix merely occurs in the expression')
c('C65', 'proved', 'Fs.C65_exists Fs.C65_filesExist Fs.C65_makeDirectory Fs.C65_makeDirectory_twice Fs.C65_deleteFile', 'on an abstract POSIX file tree without symbolic links; paths given absolutely for MakeDirectory')

c('C17','partial','C17_ext C17_calc C17_ext_calc_partial C17_plain_partial C17_false_ext_calc C17_false_plain',
  'Every raster read (one or several layers), every mask built by the API whose stored cells are valid, every placement on a common cell grid. Proved without restriction for use_mask_ext without calc_pos, and for calc_pos without use_mask_ext whenever some valid cell lies under the mask; with the stated placement conditions for the other two option combinations, for which the statement is false in general (counterexamples proved).')
c('C18','partial','C18_positions C18_setUseMaskExt C17_ext C17_calc C17_ext_calc_partial C17_plain_partial C18_false_nothing_matched C18_false_setUseMaskExt C17_false_ext_calc',
  'C18_positions with the C17 theorems: all lookups agree for every stored cell and the grid is the one of the mask under use_mask_ext. False in general: both options with a partial overlap, nothing matched (negative header sizes), SetUseMaskExt after masking.')
c('C23','proved','Copy.C23_copy Copy.C23_writes Copy.C23_false_no_valid_cell Copy.C23_false_into_2d Copy.C23_false_self Copy.C23_false_shared_positions',
  'explicit heap with addresses, so aliasing is expressible; the arrays, header, NoData, positions and settings are modelled, the statistics cache and subsets are not. Counterexamples: no stored cell, Copy into a multi-layer object, self-copy, Copy into a raster sharing positions with its mask')
c('C24','partial','Gtiff.C24_written Gtiff.C24_written_uint64 Gtiff.C24_written_float Gtiff.C24_mask_float Gtiff.C24_io_failure Gtiff.C24_false_float_nodata Gtiff.C24_same_type Gtiff.C24_mask_partial Gtiff.C24_refused_int Gtiff.C24_refused_double Gtiff.C24_refused_floating Gtiff.C24_false_collision Gtiff.C24_false_fraction Gtiff.C24_false_nodata_fraction Gtiff.C24_false_uint64 Gtiff.C24_false_unsigned Gtiff.C24_false_float_range',
  'The written cells are characterised exactly for every grid and target type (rounding to Float32 is a parameter); that no valid cell becomes NoData (and NoData cells stay NoData) is proved under the stated conditions and is false without them (counterexamples). An out-of-range floating cell is undefined behaviour before the refusal.')
c('C66','proved','Gtiff.C66_roundtrip Gtiff.C66_roundtrip_int Gtiff.C66_byte_values Gtiff.C66_false_byte_type',
  'GDAL is modelled as a store returning the written dataset; the reading side is CCGL code (byte-type heuristic, header, NoData)')
c('C26','partial','Gfs.C26_history_partial Gfs.C26_read Gfs.C26_remove_others Gfs.C26_false_overwrite Gfs.C26_false_raw Gfs.C26_false_type',
  'Every history of writes and removals of GridFS raster files whose keys are equal or disjoint, with arbitrary driver failures on other keys. False in general: a failed overwrite loses the previous file, the raw stream interface does not replace files, another DATATYPE_OUT leaves both (counterexamples proved).')
c('C27','partial','Gfs.C27_attempts Gfs.C27_single_partial Gfs.C27_false_duplicate Gfs.C27_false_remove',
  'At most four attempts and the exact result for every failure pattern; a single file if every attempt either stores the whole file or nothing and removals succeed. False otherwise: a truncated duplicate after a reported write error, an old file after an ignored removal failure (counterexamples proved).')
c('C28','partial','Gfs.C28_file Gfs.C28_raster_partial Gfs.outOpts_spec Gfs.inOpts_spec Gfs.C28_false_memory Gfs.C28_false_narrow Gfs.C28_false_type64 Gfs.C28_false_header Gfs.C28_false_compact',
  'Cells as little-endian bytes (two\'s complement, IEEE 754), metadata as BSON. Proved for every raster built by the API, every layer count, every stored type, as long as the cells are numbers of the types involved, integral header numbers fit in 32 bits, NoData cells are included, and some cell is valid if positions are computed on reading. False without these conditions (counterexamples).')
c('C67','partial','C67_parse_total C67_parse_partial C67_false_empty',
  'The parser agrees with an independent (unique and total) specification for every argument list, except a single empty text, where it throws (proved). Note: the word naming the format alone (-in gfs) is also taken as the path.')
c('C68','partial','MongoDb.C68_names_partial MongoDb.C68_failure MongoDb.C68_collections MongoDb.C68_dotted_counterexample MongoDb.C68_phantom_counterexample MongoDb.C68_twice_counterexample',
  'Collections: proved for every list. Buckets: proved when no bucket name contains a dot; false otherwise (dots are dropped when the name is put together). A bucket with the name of a collection is listed twice.')
c('C69','proved','Arr2.C69_values Arr2.C69_no_leak Arr2.C69_memory Arr2.C69_false_copy_empty Arr2.C69_false_wrap Arr2.C69_false_alloc Arr2.C69_false_size',
  'refinement of a value-semantics specification over all histories on an explicit heap; outside the contract the code is undefined (copying an empty or moved-from object, 2^32 cells or more, failed allocation: proved), and a moved-from object reports its old size')

c('C70','partial','Gfs.C70_subsets_partial Gfs.C70_endtoend Gfs.subOpts_spec Gfs.C70_none Gfs.C70_false_failure Gfs.C70_false_combined','Full result for any pattern of failing attempts: subsets before the first failed write are read back exactly (C70_subsets_partial), and with no failure the chain store/load/combine/store/read gives the original raster (C70_endtoend). As stated C70 is false of the code: the call returns true although a write failed, and the remaining subsets are silently not written (C70_false_failure); the combined mode divides by an uninitialised number when the combination fails (C70_false_combined).')

c('C71','partial','Gfs.C71_grid_partial Gfs.C71_compact_partial Gfs.C71_direct_partial Gfs.C71_validNumber checkDefault_spec Gfs.C71_false_shifted Gfs.C71_false_outside Gfs.C71_false_positions Gfs.C71_false_allvalid','Proved: files with all cells (C71_grid_partial, every combination of the options), files without NoData cells read with a mask with the same valid cells (C71_compact_partial: the object is again one that the library builds), full files with an all-valid mask of the same size (C71_direct_partial). As stated C71 is false of the code: only counts of cells are compared, so with a mask of another grid cells outside the mask stay and positions outside the raster appear, or memory outside of the array is read, and with the same number of other valid cells values are silently shown at wrong cells. The mask has no subsets in this model.')

c('C72','partial','C72_refl C72_symm C72_near C72_int C72_double_partial C72_false_tiny','exact for integral values and for doubles one of which is at least 2^-53 in magnitude; false near zero (2^-107 equals 0, not transitive)')

c('C73','partial','C73_combine_id_partial C73_combine_origin_partial C73_subset_origin_partial C73_subset_id_partial C73_subset_fresh C73_inconsistent C73_false_unusable C73_false_layers','one fresh subset by id always fails (C73_subset_fresh); unusable subsets are reclassified too when the default value is not NoData (C73_false_unusable); out_origin with more table layers than raster layers is undefined (C73_false_layers)')
c('C74','partial','C74_cropped_partial C74_same_partial C74_built C74_false_positions C74_false_exact','Proved when the extent is cropped and some mask cell is unmatched (C74_cropped_partial) and when the mask\'s positions are shared (C74_same_partial), for every subset map that describes points, as made by BuildSubSet (C74_built). Missing because false: positions recalculated without cropping (C74_false_positions), and cropping although all mask cells match (C74_false_exact).')
c('C75','partial','Disk.C75_subsets_partial Disk.C75_reclass_partial Disk.C75_whole_asc_partial Disk.C75_whole_asc_gaps Disk.C75_whole_tif_partial Disk.C75_subsets_result Disk.C75_subsets_answer Disk.C75_reclass_answer Disk.C75_whole_asc_answer Disk.C75_whole_tif_answer Disk.C75_whole_convert_answer Disk.C75_none Disk.C75_reclass_origin_partial Disk.C75_reclass_subsets_partial Disk.C75_false_append Disk.C75_false_disk_full','Round trips proved for every tree, name, raster and table if the files can be written and the format can carry the values (ASCII: six significant digits in the header). Layered ASCII with another NoData value than -9999: C75_whole_asc_gaps says what the files hold, the number -9999 in cells the raster does not store, which is not NoData there (the property is false, see App.C92_false_ascii). What the result tells is proved for any behaviour of the operating system (the *_answer theorems): true exactly if each file could be opened (ASCII) or GDAL wrote it (GeoTIFF, with the exact refusals of integer conversions), and no other file is touched. Missing because false: ASCII output returns true for truncated files and appends to files that cannot be removed.')
c('C76','partial','Main.C76_settings Main.C76_jobs_partial Main.C76_options_partial Main.C76_exit Main.C76_false_last Main.C76_false_single Main.C76_false_names Main.C76_false_mask Main.C76_false_order Main.C76_false_items Main.C76_false_empty','Proved for every command line and configuration file in which not both names of a setting are used: the settings in force (C76_settings), the jobs of the command line and of every data item (C76_jobs_partial), the other settings (C76_options_partial), and the reasons for an exit code (C76_exit). Missing because false: see the C76_false theorems.')
c('C77','proved','App.C77_mask_job App.C77_plain_job App.C77_mask_jobs App.C77_plain_jobs App.C77_mask_run App.C77_plain_run App.C77_missing_input App.C77_missing_jobs App.C77_missing_first App.C77_unreadable_mask App.C77_no_mask_run App.C77_exit App.C77_outside App.C77_false_outside','ASCII and GeoTIFF outputs; GeoTIFF with the cell type double. The hypotheses say that the files can be written and that the format carries the numbers (FileJob). Without overlap the behaviour is undefined (C77_outside).')
c('C78','proved','App.C78_plain_job App.C78_mask_job App.C78_groups_job App.C78_job_plain App.C78_job_mask App.C78_job_groups App.C78_plain_run App.C78_mask_run App.C78_groups_run App.C78_dec_nothing App.C78_false_zero','ASCII and GeoTIFF outputs; GeoTIFF with the cell type double. Hypotheses: the input lies on the grid of the mask and overlaps it (else undefined, C77_outside), the mask has no coordinate equal to -9999 (C74), the outputs can be written (JobOk). Excepted as stated: group 0 in MASKDEC (C78_false_zero).')
c('C79','proved','App.C79_job App.C79_batch App.C79_run App.C79_no_mask App.C79_piece App.C79_roundtrip','Hypotheses: the outputs can be written and the format carries the numbers (ComOk), no job writes to a file of a later job (ApartCom). That pieces written by DEC and MASKDEC fit is C79_piece and C79_roundtrip (if the table gives no cell the NoData value).')
c('C80','proved','Life.C80_safe Life.C80_noleak Life.C80_frame Life.C80_example Life.C80_example_arrays Life.C80_mask_first Life.C80_copy_shared Life.C80_setExt_shared Life.C80_setCalc_newMask Life.C80_setPositions Life.C80_reread Life.C80_gfs_leak Life.C80_subset_data_leak Life.C80_copy_stats Life.C80_no_valid','The contract is Allowed in Spec/RasterLife.lean. Outside of it the property is false of the code: theorems C80_mask_first ... C80_no_valid.')
c('C81','proved','ArrText.C81_output1D ArrText.C81_output2D ArrText.C81_output_short ArrText.C81_int ArrText.C81_read1D ArrText.C81_read1D_short ArrText.C81_read2D ArrText.C81_missing_file ArrText.C81_formats_differ ArrText.C81_negative_row','Extracts and StopsAtEnd say what operator>> does for the element type; both are proved for int (C81_int). A missing file, a negative count and files written by the output functions are not handled: C81_missing_file, C81_negative_row, C81_formats_differ.')
c('C82','proved','MLife.C82_safe MLife.C82_call MLife.C82_forgets MLife.C82_noleak MLife.C82_clean MLife.C82_held MLife.C82_copy MLife.C82_destroy_twice MLife.C82_delete_client MLife.C82_no_metadata MLife.C82_example','The contract is Allowed in Spec/MongoLife.lean; outside of it the property is false of the code (C82_copy, C82_destroy_twice, C82_delete_client, C82_no_metadata). What the driver needs is assumed in the header of Model/MongoLife.lean.')

c('C83','proved','Flt.C83_sum Flt.C83_sum_integers Flt.C83_statistics Flt.C83_layers Flt.C83_schedule Flt.C83_mean_integers Flt.C83_constant Flt.C83_rounding_exists Flt.C83_false_schedule','every rounding to nearest, every plan of the parallel loops; no overflow; maximum and minimum for values in the range of float (C19). The deviation and Sum are not the same for every number of threads (C83_false_schedule)')
c('C84','proved','Flt.C84_locate Flt.C84_outside Flt.C84_centre Flt.C84_roundtrip Flt.C84_aligned Flt.C84_false_far Flt.C84_false_first_column','every rounding to nearest; no overflow. The conditions are needed: cells of 0.5 at 2^53 (C84_false_far); GetPositionByCoordinate loses first-column cells of exactly aligned layers (C84_false_first_column, cell size 0.1)')
c('C85','proved','Par.C85_fill Par.C85_copy Par.C85_copy2 Par.C85_convert Par.C85_convert_float Par.C85_first_layer Par.C85_other_positions Par.C85_other_rows Par.C85_gridfs_one Par.C85_gridfs_layers Par.C85_replace_one Par.C85_replace_layers Par.C85_store_one Par.C85_store_layers Par.C85_sum Par.C85_sum_idx Par.C85_deviation Par.C85_deviation_layer','all 21 loops; sequentially consistent interleavings (sufficient for race-free programs); exact addition in reductions (rounded: C83); array bounds are the matter of the sequential properties')
c('C86','partial','C86_states C86_header C86_cut_partial C86_safe C86_accepted_partial C86_false_truncated C86_false_number','false of the code that incomplete files are refused: for every grid of two or more cells and every k a crash can leave an accepted file with NoData from cell k on (C86_false_truncated); a cut number is taken for a shorter one (C86_false_number). Proved: the exact set of crash states and what each of them reads as')
c('C87','partial','App.C87_mask_store_partial App.C87_plain_store_partial App.C87_mask_file App.C87_plain_file App.C87_mask_jobs_partial App.C87_plain_jobs_partial App.C87_mask_few App.C87_plain_few App.C87_few_store App.C87_few_file App.C87_few_jobs App.C87_few_plain_jobs App.C87_skip App.C87_false_type','mode MASK, one layer, no reclassification; all cells stored (INCLUDE_NODATA TRUE: the theorems with _store, _file, _jobs) or only those of the mask, or without a mask those that are not NoData (INCLUDE_NODATA FALSE: C87_mask_few, C87_plain_few; files stored so are read with the mask again by C87_few_store, C87_few_file, batches C87_few_jobs, C87_few_plain_jobs). Inputs without NoData cells are taken as stored: no default value is filled in. False of the code that inputs are found whatever type they are stored in (C87_false_type); a job whose input is not found under its own options is skipped with exit code 0 (C87_skip). The other modes: writing and reading subsets in GridFS is C70')
c('C88','partial','App.C88_file App.C88_bucket_partial App.C88_jobs_partial App.C88_few App.C88_few_jobs App.C88_numbers App.C88_false_nothing','output to the bucket: whole grids (INCLUDE_NODATA TRUE) or the cells of the mask (FALSE: C88_few), at least one piece, removals of old files that succeed; pieces are files with one layer. False if no piece contributes and the output goes to the bucket: undefined behaviour (C88_false_nothing)')
c('C89','partial','Nan.C89_equal Nan.C89_positions Nan.C89_finite_partial Nan.C89_false_nan Nan.C89_stats Nan.C89_push_fin','recognition of NoData: only for finite NoData values (C89_finite_partial); false of the code if NoData is NaN or infinite (C89_false_nan). Finite numbers are exact rationals: sums do not overflow to infinities')
c('C90','partial','App.C90_recls_partial App.C90_mask_recls_partial App.C90_units_recls_partial App.C90_units_partial App.C90_own_partial App.C90_mask_partial App.C90_plain_partial App.C90_own_jobs_partial App.C90_mask_jobs_partial App.C90_units_jobs_partial App.C90_few_recls App.C90_few_mask_recls App.C90_few_units_recls App.C90_few_units App.C90_few_own App.C90_few_own_jobs App.C90_few_mask_jobs App.C90_few_units_jobs App.C90_few_store_recls App.C90_few_store_units_recls App.C90_few_store_units','the _partial theorems: all cells stored (INCLUDE_NODATA TRUE); the few theorems: INCLUDE_NODATA FALSE, the input a file or (C90_few_store_…, with a mask of the same size) a file in the bucket that holds the cells of the mask; without a mask such a file cannot be read. Every file stored at the latest in the fourth attempt, removals of old files that succeed. A group with number 0 is excepted if single groups and the whole grid are asked for: its file is replaced')
c('C100','partial','App.C100_job_plain App.C100_job_mask App.C100_job_units App.C100_few_mask App.C100_few_units App.C100_file App.C91_mixed_units_jobs App.C91_mixed_mask_jobs App.C91_mixed_plain_jobs App.C91_mixed_units_run_partial App.C91_mixed_mask_run_partial App.C91_mixed_plain_run_partial','JobDone says what the files hold with the same specification as for files (C78, C77). Partial only for the runs: all cells stored. C100_few_…: one job, mask with a NoData cell and the numbers of rows and columns of the stored header; without a mask such a file is not read (C87). One input per job, one layer')
c('C101','partial','App.C101_plain App.C101_mask App.C101_groups App.C101_com App.C101_many_plain App.C101_many_mask App.C101_many_groups App.C101_db_plain App.C101_db_mask App.C101_db_units App.C101_db_com App.C101_db_few_own App.C101_db_few_mask App.C101_db_few_units App.C101_db_com_few App.C101_db_few_cells App.C101_db_few_plain App.C101_db_full_plain App.C101_db_full_mask App.C101_db_full_units App.C101_db_few_full_plain App.C101_db_few_full_mask App.C101_db_few_full_units','Stopped: the mask loaded, some jobs done, and then any change to the output files of the next job (over-approximates every prefix of its writes). Partial only in that the stopped states are given by this specification instead of being derived from a small-step semantics of the writes. Jobs with several input files: _many (files) and _full (bucket). Bucket: all outputs of the run in the bucket; files with names of outputs that the options of the job find carry all options of its outputs (OldFiles: the program stores no others)')
c('C91','partial','App.C91_mixed_units_run_partial App.C91_mixed_mask_run_partial App.C91_mixed_plain_run_partial App.C91_mixed_units_jobs App.C91_mixed_mask_jobs App.C91_mixed_plain_jobs App.C91_plain_run_partial App.C91_mask_run_partial App.C91_units_run_partial App.C91_com_run_partial App.C91_few_run App.C91_few_plain_run App.C91_com_few_run App.C91_few_own_run App.C91_few_mask_recls_run App.C91_few_units_run App.C91_no_mask App.C91_offline App.C91_stored_mask App.C91_store_mask','restrictions of C87, C88 and C90: all cells stored, or -include_nodata 0 (the few theorems: inputs in files), all outputs of the run in the bucket, or, for all cells stored, some in files and some in the bucket (C91_mixed_…), every file stored at the latest in the fourth attempt. C91_no_mask, C91_offline and the two theorems about stored masks are complete')
c('C92','partial','App.C92_mask_partial App.C92_plain_partial App.C92_mask_run_partial App.C92_plain_run_partial App.C92_gfs_mask_partial App.C92_gfs_plain_partial App.C92_gfs_mask_jobs_partial App.C92_gfs_plain_jobs_partial App.C92_gfs_mask_run_partial App.C92_gfs_plain_run_partial App.C92_gfs_few_mask_partial App.C92_gfs_few_plain_partial App.C92_gfs_few_mask_jobs_partial App.C92_gfs_few_plain_jobs_partial App.C92_gfs_few_mask_run_partial App.C92_gfs_few_plain_run_partial App.C92_false_ascii','several input files in DEC and MASKDEC or with a table: C98. GridFS (with and without the NoData cells): runs whose jobs all have several files. ASCII layers of a masked job whose NoData value is not -9999 have the number -9999 outside the mask: the theorems say so (LayersOut), the property is false there (C92_false_ascii)')
c('C93','proved','I32.C93_cell I32.C93_call I32.C93_history I32.C93_history_ok I32.C93_build I32.C93_stream I32.C93_length I32.C93_subset I32.C93_comb I32.C93_false_positions I32.C93_false_stream I32.C93_reached I32.C93_false_value','masked reading and the file readers are not in the checked model (the ASCII, GeoTIFF and GridFS readers model their own size products); the keys of a reclassification table with OUT_ORIGIN are not checked; lengths of std::vector beyond memory are not modelled')
c('C94','proved','SubObj.C94_history SubObj.C94_independent SubObj.C94_built SubObj.C94_false_shared SubObj.C94_false_double_free SubObj.C94_false_dangling SubObj.C94_false_one_layer SubObj.C94_false_stale SubObj.C94_false_grow SubObj.C94_false_copy_shrinks SubObj.C94_false_empty','values are rationals (T = double); allocation never fails; the cutting of subsets by a mask, which changes these objects from outside, is in Model/MaskSubset and Model/RasterLife; the arrays handed out by Output are values owned by the caller')
c('C95','proved','C95_entries C95_own C95_place C95_nodata C95_reshape C95_positions C95_positions_refused C95_positions_lone C95_false_large C95_false_layers C95_false_columns C95_false_positions C95_false_empty','values are rationals; headers with non-standard keys (silently added to the map, never read) are not modelled; SetPositions takes over the caller\'s array (ownership: see C80_setPositions)')
c('C96','proved','FText.C96_text FText.C96_exact FText.C96_decimal FText.C96_special FText.C96_false_small','C locale decimal point; printf("%f") is the exactly rounded text (glibc, default rounding mode); ToDouble is the exact value of the text, the rounding of strtod is the explicit Rounding in C96_decimal')
c('C97','proved','FText.C97_convert FText.C97_ascii FText.C97_ftow FText.C97_false','mbstowcs/wcstombs are parameters (any locale); strings shorter than 2^31; the wide number functions (itow, IsInt of wstring, ...) are not modelled separately')
c('C98','partial','App.C98_plain_partial App.C98_mask_partial App.C98_groups_partial App.C98_job_plain App.C98_job_mask App.C98_job_groups App.C98_plain_run_partial App.C98_mask_run_partial App.C98_groups_run_partial App.C98_gfs_plain_partial App.C98_gfs_mask_partial App.C98_gfs_groups_partial App.C98_gfs_stack_own_partial App.C98_gfs_stack_units_partial App.C98_gfs_plain_jobs_partial App.C98_gfs_mask_jobs_partial App.C98_gfs_groups_jobs_partial App.C98_gfs_plain_run_partial App.C98_gfs_mask_run_partial App.C98_gfs_groups_run_partial App.C98_gfs_few_plain_partial App.C98_gfs_few_mask_partial App.C98_gfs_few_groups_partial App.C98_gfs_few_stack_own_partial App.C98_gfs_few_stack_units_partial App.C98_gfs_few_plain_jobs_partial App.C98_gfs_few_mask_jobs_partial App.C98_gfs_few_groups_jobs_partial App.C98_gfs_few_plain_run_partial App.C98_gfs_few_mask_run_partial App.C98_gfs_few_groups_run_partial App.C98_false_wide_table','tables with at most as many columns as input files (wider ones: undefined behaviour, C98_false_wide_table, proved without mask); ASCII layers (no table) of a masked job whose NoData value is not -9999 have the number -9999 outside the mask: the theorems say so (LayersOut), the property is false there (C92_false_ascii)')
c('C99','partial','C99_texts_partial C99_first_hour C99_utc C99_local_date C99_local_days C99_ymd_roundtrip C99_ymd_order C99_string C99_dateInfo C99_false C99_false_day C99_false_half_hour','the texts are false in the first hour of most months under daylight saving: C99_first_hour says exactly when; zones with one standard offset and one saving, mktime(tm_isdst = 0) means standard time (glibc), integer overflow not modelled')
