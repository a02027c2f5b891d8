# Axioms of the theorems named in MANIFEST.json

Generated by tools/axioms.py from `#print axioms`.

## none

- CCGL.C44_anchor
- CCGL.C45_epoch
- CCGL.C95_positions_refused
- CCGL.FText.C97_false

## propext

- CCGL.C34_symm
- CCGL.C34_trans
- CCGL.C47_empty
- CCGL.C25_ctype
- CCGL.Arr.C40_nonnull
- CCGL.Arr.C40_refused
- CCGL.Arr.C40_false_batch
- CCGL.Arr.C40_false_read2D
- CCGL.Arr.C41_rows
- CCGL.Arr.C41_one_write
- CCGL.Arr.C41_false_source
- CCGL.Arr.C42_refused
- CCGL.Arr2.C69_false_size
- CCGL.Life.C80_example_arrays
- CCGL.Life.C80_mask_first
- CCGL.Life.C80_copy_shared
- CCGL.Life.C80_setExt_shared
- CCGL.Life.C80_setCalc_newMask
- CCGL.Life.C80_setPositions
- CCGL.Life.C80_reread
- CCGL.Life.C80_gfs_leak
- CCGL.Life.C80_subset_data_leak
- CCGL.Life.C80_copy_stats
- CCGL.Life.C80_no_valid
- CCGL.MLife.C82_copy
- CCGL.MLife.C82_destroy_twice
- CCGL.MLife.C82_delete_client
- CCGL.MLife.C82_no_metadata

## Quot.sound, propext

- CCGL.C31_unique
- CCGL.C32_split_join
- CCGL.C32_join_split
- CCGL.C32_fields
- CCGL.C32_trailing_empty_lost
- CCGL.C33_false
- CCGL.C38_copy
- CCGL.C38_update
- CCGL.C38_history
- CCGL.C38_keys_unique
- CCGL.C46_first
- CCGL.C48_forward_partial
- CCGL.C49_instant
- CCGL.C49_order
- CCGL.C49_fromDateTime
- CCGL.C15_set
- CCGL.C15_set_refused
- CCGL.C54_missing
- CCGL.C57_entries
- CCGL.C61_second_zero
- CCGL.C61_false_2038
- CCGL.C61_missing
- CCGL.Arr.C40_request
- CCGL.Arr.C41_injective
- CCGL.Arr.C41_write
- CCGL.Arr.C41_one_init
- CCGL.Arr.C41_one_flag
- CCGL.Arr.C41_one_copy_flag
- CCGL.Arr.C42_disjoint
- CCGL.Arr.C42_end
- CCGL.Arr.C43_member
- CCGL.Arr.C43_remove
- CCGL.Arr.C43_idempotent
- CCGL.Fs.C53_replace_nosuffix
- CCGL.Fs.C55_delete_missing
- CCGL.Fs.C65_exists
- CCGL.Fs.C65_filesExist
- CCGL.Copy.C23_false_into_2d
- CCGL.Copy.C23_false_self
- CCGL.Copy.C23_false_shared_positions
- CCGL.Arr2.C69_false_copy_empty
- CCGL.Arr2.C69_false_alloc
- CCGL.ArrText.C81_missing_file
- CCGL.SubObj.C94_false_shared
- CCGL.SubObj.C94_false_double_free
- CCGL.SubObj.C94_false_dangling
- CCGL.SubObj.C94_false_one_layer
- CCGL.SubObj.C94_false_stale
- CCGL.SubObj.C94_false_grow
- CCGL.SubObj.C94_false_copy_shrinks
- CCGL.SubObj.C94_false_empty
- CCGL.FText.C97_convert
- CCGL.FText.C97_ascii
- CCGL.C99_utc

## Classical.choice, Quot.sound, propext

- CCGL.C01_compact_1d
- CCGL.C01_compact_2d
- CCGL.C02_positions
- CCGL.C03_getPosition_partial
- CCGL.C03_false_empty
- CCGL.C03_false_empty2
- CCGL.C04_last_write_partial
- CCGL.C04_false_empty
- CCGL.C05_reads
- CCGL.C05_ops_partial
- CCGL.C05_history_1d
- CCGL.C05_false_positions
- CCGL.C05_false_mask
- CCGL.C05_of_mask1
- CCGL.C05_of_mask2
- CCGL.C11_replaceNoData
- CCGL.C11_idempotent
- CCGL.truncQ_spec
- CCGL.C12_reclassify_partial
- CCGL.C12_throws
- CCGL.C12_false
- CCGL.C31_trim
- CCGL.C31_trimSpaces
- CCGL.C31_agree
- CCGL.C31_idempotent
- CCGL.C33_words_partial
- CCGL.C33_trailing_white
- CCGL.C33_total
- CCGL.C34_match
- CCGL.C34_cstring_nul
- CCGL.C34_refl
- CCGL.C34_upper
- CCGL.C34_cstring
- CCGL.C35_isInt
- CCGL.C35_isInt64
- CCGL.C35_isUInt64
- CCGL.C36_itoa
- CCGL.C36_i64toa
- CCGL.C36_u64toa
- CCGL.C36_decimal
- CCGL.C36_injective
- CCGL.C06_roundtrip
- CCGL.C06_center
- CCGL.C07_contains_partial
- CCGL.C07_outside
- CCGL.C07_rejected_iff
- CCGL.C07_false_lower_left
- CCGL.C07_false_right
- CCGL.C07_getPosition_xy
- CCGL.C60_layers_partial
- CCGL.C60_false
- CCGL.C60_false_right
- CCGL.C44_next
- CCGL.C44_count
- CCGL.C44_monotone
- CCGL.C44_injective
- CCGL.C44_leap
- CCGL.C45_roundtrip
- CCGL.C45_later
- CCGL.C45_next
- CCGL.C45_date_of_time
- CCGL.C46_next
- CCGL.C46_last
- CCGL.C46_julian
- CCGL.C46_of_time
- CCGL.C46_julian_of_time
- CCGL.C47_roundtrip
- CCGL.C47_roundtrip2
- CCGL.C47_roundtrip3
- CCGL.C47_dateInfo
- CCGL.C47_order
- CCGL.C47_false
- CCGL.C48_false
- CCGL.C49_total
- CCGL.C49_toUTC_shifts
- CCGL.C13_total
- CCGL.C13_partition
- CCGL.C13_only
- CCGL.C13_count
- CCGL.C14_box
- CCGL.C14_local
- CCGL.C14_distinct
- CCGL.C14_header
- CCGL.C14_new
- CCGL.C15_decompose_full
- CCGL.C15_decompose_valid
- CCGL.C15_combine
- CCGL.C15_roundtrip_partial
- CCGL.C15_com
- CCGL.C15_com_combine
- CCGL.C15_false_onelayer
- CCGL.C15_false_onelayer_reached
- CCGL.C15_origin_fails
- CCGL.C15_refuses_layers
- CCGL.C15_refuses_empty
- CCGL.C15_set2D
- CCGL.C16_idempotent
- CCGL.C16_rebuild
- CCGL.C16_history
- CCGL.C19_statistics_partial
- CCGL.C19_excluded
- CCGL.C19_false_large
- CCGL.C19_maxInArray
- CCGL.C19_minInArray
- CCGL.C20_layers
- CCGL.C20_stats
- CCGL.C20_independent
- CCGL.C21_sum
- CCGL.C21_sumIdx
- CCGL.C21_statistics
- CCGL.C21_statistics2
- CCGL.C21_interleaving
- CCGL.C21_replaceNoData
- CCGL.C21_order
- CCGL.C22_cache_partial
- CCGL.C22_total
- CCGL.C22_update
- CCGL.C22_layerValues
- CCGL.C22_false_array
- CCGL.C37_isNumber
- CCGL.C37_isNumber_partial
- CCGL.C37_value
- CCGL.C37_value_unique
- CCGL.C37_false_empty
- CCGL.C39_exact
- CCGL.C39_values_partial
- CCGL.C39_success
- CCGL.C39_empty
- CCGL.C39_false
- CCGL.C39_false_inf
- CCGL.C54_content
- CCGL.C54_total
- CCGL.C54_unique
- CCGL.C08_roundtrip_partial
- CCGL.C08_roundtrip_int
- CCGL.C08_roundtrip_near
- CCGL.C08_roundtrip_general
- CCGL.C08_nearest
- CCGL.C08_false_precision
- CCGL.C08_false_empty
- CCGL.C08_false_char
- CCGL.C08_false_char_text
- CCGL.C09_accept
- CCGL.C09_reject
- CCGL.C09_incomplete
- CCGL.C09_malformed
- CCGL.C09_short
- CCGL.C09_nofile
- CCGL.C09_no_overrun_partial
- CCGL.C09_false_missing
- CCGL.C09_false_order
- CCGL.C09_false_overflow
- CCGL.C10_asc_1d
- CCGL.C10_asc_2d
- CCGL.C10_asc_2d_partial
- CCGL.C10_gdal_1d
- CCGL.C10_gdal_2d
- CCGL.C10_stream
- CCGL.C10_stream_valid
- CCGL.C10_fullsize
- CCGL.C10_false_asc_2d_nodata
- CCGL.C10_false_empty_2d
- CCGL.C25_names
- CCGL.C25_unknown
- CCGL.C25_roundtrip
- CCGL.C25_roundtrip_case
- CCGL.C25_other
- CCGL.C25_injective
- CCGL.C25_default_partial
- CCGL.C25_false_uint64
- CCGL.C57_shape
- CCGL.C57_result
- CCGL.C57_available
- CCGL.C57_kept
- CCGL.C57_absent
- CCGL.C57_skip
- CCGL.C58_mode
- CCGL.C58_mode_unknown
- CCGL.C58_format
- CCGL.C58_format_unknown
- CCGL.C59_exact
- CCGL.C59_accepts
- CCGL.C59_partial
- CCGL.C59_false_trailing
- CCGL.C59_false_wrap
- CCGL.C29_roundtrip_partial
- CCGL.C29_text
- CCGL.C29_false
- CCGL.C29_missing
- CCGL.C29_special
- CCGL.C30_text_partial
- CCGL.C30_false_number
- CCGL.C30_false_int
- CCGL.C30_false_bool
- CCGL.C61_seconds_partial
- CCGL.C61_seconds_mod
- CCGL.C61_last_second
- CCGL.C61_false_small
- CCGL.C61_text
- CCGL.C61_date
- CCGL.Arr.C40_safe_partial
- CCGL.Arr.C40_release1
- CCGL.Arr.C40_release2
- CCGL.Arr.C40_empty
- CCGL.Arr.C40_release_all
- CCGL.Arr.C40_false_zero_rows
- CCGL.Arr.C40_false_pool
- CCGL.Arr.C41_init
- CCGL.Arr.C41_independent
- CCGL.Arr.C41_copy_partial
- CCGL.Arr.C41_stable_init
- CCGL.Arr.C41_stable_release
- CCGL.Arr.C41_one_copy
- CCGL.Arr.C41_false_one
- CCGL.Arr.C42_irregular
- CCGL.Arr.C42_read
- CCGL.MathFn.C50_expo
- CCGL.MathFn.C50_expo_mono
- CCGL.MathFn.C50_expo_reversed
- CCGL.MathFn.C50_expo_default
- CCGL.MathFn.C50_power
- CCGL.MathFn.C50_power_mono
- CCGL.MathFn.C50_power_odd
- CCGL.MathFn.C51_inBounds
- CCGL.MathFn.C51_accuracy
- CCGL.MathFn.C62_accuracy
- CCGL.MathFn.C62_overflow
- CCGL.MathFn.C63_lnFloat
- CCGL.MathFn.C63_lnDouble
- CCGL.MathFn.C63_pow
- CCGL.MathFn.C64_sqrtFloat
- CCGL.MathFn.C64_sqrtDouble
- CCGL.Fs.C52_parts
- CCGL.Fs.C52_parts_nosuffix_partial
- CCGL.Fs.C52_false_dotted_dir
- CCGL.Fs.C52_relative
- CCGL.Fs.C53_rename
- CCGL.Fs.C53_rename_int
- CCGL.Fs.C53_injective
- CCGL.Fs.C55_delete_safe
- CCGL.Fs.C55_delete_all
- CCGL.Fs.C55_delete_flat
- CCGL.Fs.C55_clean
- CCGL.Fs.C55_clean_missing
- CCGL.Fs.C56_found
- CCGL.Fs.C56_only
- CCGL.Fs.C56_exact_partial
- CCGL.Fs.C56_false
- CCGL.Fs.C65_makeDirectory
- CCGL.Fs.C65_makeDirectory_twice
- CCGL.Fs.C65_deleteFile
- CCGL.C17_ext
- CCGL.C17_calc
- CCGL.C17_ext_calc_partial
- CCGL.C17_plain_partial
- CCGL.C17_false_ext_calc
- CCGL.C17_false_plain
- CCGL.C18_positions
- CCGL.C18_setUseMaskExt
- CCGL.C18_false_nothing_matched
- CCGL.C18_false_setUseMaskExt
- CCGL.Copy.C23_copy
- CCGL.Copy.C23_writes
- CCGL.Copy.C23_false_no_valid_cell
- CCGL.Gtiff.C24_written
- CCGL.Gtiff.C24_written_uint64
- CCGL.Gtiff.C24_written_float
- CCGL.Gtiff.C24_mask_float
- CCGL.Gtiff.C24_io_failure
- CCGL.Gtiff.C24_false_float_nodata
- CCGL.Gtiff.C24_same_type
- CCGL.Gtiff.C24_mask_partial
- CCGL.Gtiff.C24_refused_int
- CCGL.Gtiff.C24_refused_double
- CCGL.Gtiff.C24_refused_floating
- CCGL.Gtiff.C24_false_collision
- CCGL.Gtiff.C24_false_fraction
- CCGL.Gtiff.C24_false_nodata_fraction
- CCGL.Gtiff.C24_false_uint64
- CCGL.Gtiff.C24_false_unsigned
- CCGL.Gtiff.C24_false_float_range
- CCGL.Gtiff.C66_roundtrip
- CCGL.Gtiff.C66_roundtrip_int
- CCGL.Gtiff.C66_byte_values
- CCGL.Gtiff.C66_false_byte_type
- CCGL.Gfs.C26_history_partial
- CCGL.Gfs.C26_read
- CCGL.Gfs.C26_remove_others
- CCGL.Gfs.C26_false_overwrite
- CCGL.Gfs.C26_false_raw
- CCGL.Gfs.C26_false_type
- CCGL.Gfs.C27_attempts
- CCGL.Gfs.C27_single_partial
- CCGL.Gfs.C27_false_duplicate
- CCGL.Gfs.C27_false_remove
- CCGL.Gfs.C28_file
- CCGL.Gfs.C28_raster_partial
- CCGL.Gfs.outOpts_spec
- CCGL.Gfs.inOpts_spec
- CCGL.Gfs.C28_false_memory
- CCGL.Gfs.C28_false_narrow
- CCGL.Gfs.C28_false_type64
- CCGL.Gfs.C28_false_header
- CCGL.Gfs.C28_false_compact
- CCGL.C67_parse_total
- CCGL.C67_parse_partial
- CCGL.C67_false_empty
- CCGL.MongoDb.C68_names_partial
- CCGL.MongoDb.C68_failure
- CCGL.MongoDb.C68_collections
- CCGL.MongoDb.C68_dotted_counterexample
- CCGL.MongoDb.C68_phantom_counterexample
- CCGL.MongoDb.C68_twice_counterexample
- CCGL.Arr2.C69_values
- CCGL.Arr2.C69_no_leak
- CCGL.Arr2.C69_memory
- CCGL.Arr2.C69_false_wrap
- CCGL.Gfs.C70_subsets_partial
- CCGL.Gfs.C70_endtoend
- CCGL.Gfs.subOpts_spec
- CCGL.Gfs.C70_none
- CCGL.Gfs.C70_false_failure
- CCGL.Gfs.C70_false_combined
- CCGL.Gfs.C71_grid_partial
- CCGL.Gfs.C71_compact_partial
- CCGL.Gfs.C71_direct_partial
- CCGL.Gfs.C71_validNumber
- CCGL.checkDefault_spec
- CCGL.Gfs.C71_false_shifted
- CCGL.Gfs.C71_false_outside
- CCGL.Gfs.C71_false_positions
- CCGL.Gfs.C71_false_allvalid
- CCGL.C72_refl
- CCGL.C72_symm
- CCGL.C72_near
- CCGL.C72_int
- CCGL.C72_double_partial
- CCGL.C72_false_tiny
- CCGL.C73_combine_id_partial
- CCGL.C73_combine_origin_partial
- CCGL.C73_subset_origin_partial
- CCGL.C73_subset_id_partial
- CCGL.C73_subset_fresh
- CCGL.C73_inconsistent
- CCGL.C73_false_unusable
- CCGL.C73_false_layers
- CCGL.C74_cropped_partial
- CCGL.C74_same_partial
- CCGL.C74_built
- CCGL.C74_false_positions
- CCGL.C74_false_exact
- CCGL.Disk.C75_subsets_partial
- CCGL.Disk.C75_reclass_partial
- CCGL.Disk.C75_whole_asc_partial
- CCGL.Disk.C75_whole_asc_gaps
- CCGL.Disk.C75_whole_tif_partial
- CCGL.Disk.C75_subsets_result
- CCGL.Disk.C75_subsets_answer
- CCGL.Disk.C75_reclass_answer
- CCGL.Disk.C75_whole_asc_answer
- CCGL.Disk.C75_whole_tif_answer
- CCGL.Disk.C75_whole_convert_answer
- CCGL.Disk.C75_none
- CCGL.Disk.C75_reclass_origin_partial
- CCGL.Disk.C75_reclass_subsets_partial
- CCGL.Disk.C75_false_append
- CCGL.Disk.C75_false_disk_full
- CCGL.Main.C76_settings
- CCGL.Main.C76_jobs_partial
- CCGL.Main.C76_options_partial
- CCGL.Main.C76_exit
- CCGL.Main.C76_false_last
- CCGL.Main.C76_false_single
- CCGL.Main.C76_false_names
- CCGL.Main.C76_false_mask
- CCGL.Main.C76_false_order
- CCGL.Main.C76_false_items
- CCGL.Main.C76_false_empty
- CCGL.App.C77_mask_job
- CCGL.App.C77_plain_job
- CCGL.App.C77_mask_jobs
- CCGL.App.C77_plain_jobs
- CCGL.App.C77_mask_run
- CCGL.App.C77_plain_run
- CCGL.App.C77_missing_input
- CCGL.App.C77_missing_jobs
- CCGL.App.C77_missing_first
- CCGL.App.C77_unreadable_mask
- CCGL.App.C77_no_mask_run
- CCGL.App.C77_exit
- CCGL.App.C77_outside
- CCGL.App.C77_false_outside
- CCGL.App.C78_plain_job
- CCGL.App.C78_mask_job
- CCGL.App.C78_groups_job
- CCGL.App.C78_job_plain
- CCGL.App.C78_job_mask
- CCGL.App.C78_job_groups
- CCGL.App.C78_plain_run
- CCGL.App.C78_mask_run
- CCGL.App.C78_groups_run
- CCGL.App.C78_dec_nothing
- CCGL.App.C78_false_zero
- CCGL.App.C79_job
- CCGL.App.C79_batch
- CCGL.App.C79_run
- CCGL.App.C79_no_mask
- CCGL.App.C79_piece
- CCGL.App.C79_roundtrip
- CCGL.Life.C80_safe
- CCGL.Life.C80_noleak
- CCGL.Life.C80_frame
- CCGL.Life.C80_example
- CCGL.ArrText.C81_output1D
- CCGL.ArrText.C81_output2D
- CCGL.ArrText.C81_output_short
- CCGL.ArrText.C81_int
- CCGL.ArrText.C81_read1D
- CCGL.ArrText.C81_read1D_short
- CCGL.ArrText.C81_read2D
- CCGL.ArrText.C81_formats_differ
- CCGL.ArrText.C81_negative_row
- CCGL.MLife.C82_safe
- CCGL.MLife.C82_call
- CCGL.MLife.C82_forgets
- CCGL.MLife.C82_noleak
- CCGL.MLife.C82_clean
- CCGL.MLife.C82_held
- CCGL.MLife.C82_example
- CCGL.Flt.C83_sum
- CCGL.Flt.C83_sum_integers
- CCGL.Flt.C83_statistics
- CCGL.Flt.C83_layers
- CCGL.Flt.C83_schedule
- CCGL.Flt.C83_mean_integers
- CCGL.Flt.C83_constant
- CCGL.Flt.C83_rounding_exists
- CCGL.Flt.C83_false_schedule
- CCGL.Flt.C84_locate
- CCGL.Flt.C84_outside
- CCGL.Flt.C84_centre
- CCGL.Flt.C84_roundtrip
- CCGL.Flt.C84_aligned
- CCGL.Flt.C84_false_far
- CCGL.Flt.C84_false_first_column
- CCGL.Par.C85_fill
- CCGL.Par.C85_copy
- CCGL.Par.C85_copy2
- CCGL.Par.C85_convert
- CCGL.Par.C85_convert_float
- CCGL.Par.C85_first_layer
- CCGL.Par.C85_other_positions
- CCGL.Par.C85_other_rows
- CCGL.Par.C85_gridfs_one
- CCGL.Par.C85_gridfs_layers
- CCGL.Par.C85_replace_one
- CCGL.Par.C85_replace_layers
- CCGL.Par.C85_store_one
- CCGL.Par.C85_store_layers
- CCGL.Par.C85_sum
- CCGL.Par.C85_sum_idx
- CCGL.Par.C85_deviation
- CCGL.Par.C85_deviation_layer
- CCGL.C86_states
- CCGL.C86_header
- CCGL.C86_cut_partial
- CCGL.C86_safe
- CCGL.C86_accepted_partial
- CCGL.C86_false_truncated
- CCGL.C86_false_number
- CCGL.App.C87_mask_store_partial
- CCGL.App.C87_plain_store_partial
- CCGL.App.C87_mask_file
- CCGL.App.C87_plain_file
- CCGL.App.C87_mask_jobs_partial
- CCGL.App.C87_plain_jobs_partial
- CCGL.App.C87_mask_few
- CCGL.App.C87_plain_few
- CCGL.App.C87_few_store
- CCGL.App.C87_few_file
- CCGL.App.C87_few_jobs
- CCGL.App.C87_few_plain_jobs
- CCGL.App.C87_skip
- CCGL.App.C87_false_type
- CCGL.App.C88_file
- CCGL.App.C88_bucket_partial
- CCGL.App.C88_jobs_partial
- CCGL.App.C88_few
- CCGL.App.C88_few_jobs
- CCGL.App.C88_numbers
- CCGL.App.C88_false_nothing
- CCGL.Nan.C89_equal
- CCGL.Nan.C89_positions
- CCGL.Nan.C89_finite_partial
- CCGL.Nan.C89_false_nan
- CCGL.Nan.C89_stats
- CCGL.Nan.C89_push_fin
- CCGL.App.C90_recls_partial
- CCGL.App.C90_mask_recls_partial
- CCGL.App.C90_units_recls_partial
- CCGL.App.C90_units_partial
- CCGL.App.C90_own_partial
- CCGL.App.C90_mask_partial
- CCGL.App.C90_plain_partial
- CCGL.App.C90_own_jobs_partial
- CCGL.App.C90_mask_jobs_partial
- CCGL.App.C90_units_jobs_partial
- CCGL.App.C90_few_recls
- CCGL.App.C90_few_mask_recls
- CCGL.App.C90_few_units_recls
- CCGL.App.C90_few_units
- CCGL.App.C90_few_own
- CCGL.App.C90_few_own_jobs
- CCGL.App.C90_few_mask_jobs
- CCGL.App.C90_few_units_jobs
- CCGL.App.C90_few_store_recls
- CCGL.App.C90_few_store_units_recls
- CCGL.App.C90_few_store_units
- CCGL.App.C100_job_plain
- CCGL.App.C100_job_mask
- CCGL.App.C100_job_units
- CCGL.App.C100_few_mask
- CCGL.App.C100_few_units
- CCGL.App.C100_file
- CCGL.App.C91_mixed_units_jobs
- CCGL.App.C91_mixed_mask_jobs
- CCGL.App.C91_mixed_plain_jobs
- CCGL.App.C91_mixed_units_run_partial
- CCGL.App.C91_mixed_mask_run_partial
- CCGL.App.C91_mixed_plain_run_partial
- CCGL.App.C101_plain
- CCGL.App.C101_mask
- CCGL.App.C101_groups
- CCGL.App.C101_com
- CCGL.App.C101_many_plain
- CCGL.App.C101_many_mask
- CCGL.App.C101_many_groups
- CCGL.App.C101_db_plain
- CCGL.App.C101_db_mask
- CCGL.App.C101_db_units
- CCGL.App.C101_db_com
- CCGL.App.C101_db_few_own
- CCGL.App.C101_db_few_mask
- CCGL.App.C101_db_few_units
- CCGL.App.C101_db_com_few
- CCGL.App.C101_db_few_cells
- CCGL.App.C101_db_few_plain
- CCGL.App.C101_db_full_plain
- CCGL.App.C101_db_full_mask
- CCGL.App.C101_db_full_units
- CCGL.App.C101_db_few_full_plain
- CCGL.App.C101_db_few_full_mask
- CCGL.App.C101_db_few_full_units
- CCGL.App.C91_plain_run_partial
- CCGL.App.C91_mask_run_partial
- CCGL.App.C91_units_run_partial
- CCGL.App.C91_com_run_partial
- CCGL.App.C91_few_run
- CCGL.App.C91_few_plain_run
- CCGL.App.C91_com_few_run
- CCGL.App.C91_few_own_run
- CCGL.App.C91_few_mask_recls_run
- CCGL.App.C91_few_units_run
- CCGL.App.C91_no_mask
- CCGL.App.C91_offline
- CCGL.App.C91_stored_mask
- CCGL.App.C91_store_mask
- CCGL.App.C92_mask_partial
- CCGL.App.C92_plain_partial
- CCGL.App.C92_mask_run_partial
- CCGL.App.C92_plain_run_partial
- CCGL.App.C92_gfs_mask_partial
- CCGL.App.C92_gfs_plain_partial
- CCGL.App.C92_gfs_mask_jobs_partial
- CCGL.App.C92_gfs_plain_jobs_partial
- CCGL.App.C92_gfs_mask_run_partial
- CCGL.App.C92_gfs_plain_run_partial
- CCGL.App.C92_gfs_few_mask_partial
- CCGL.App.C92_gfs_few_plain_partial
- CCGL.App.C92_gfs_few_mask_jobs_partial
- CCGL.App.C92_gfs_few_plain_jobs_partial
- CCGL.App.C92_gfs_few_mask_run_partial
- CCGL.App.C92_gfs_few_plain_run_partial
- CCGL.App.C92_false_ascii
- CCGL.I32.C93_cell
- CCGL.I32.C93_call
- CCGL.I32.C93_history
- CCGL.I32.C93_history_ok
- CCGL.I32.C93_build
- CCGL.I32.C93_stream
- CCGL.I32.C93_length
- CCGL.I32.C93_subset
- CCGL.I32.C93_comb
- CCGL.I32.C93_false_positions
- CCGL.I32.C93_false_stream
- CCGL.I32.C93_reached
- CCGL.I32.C93_false_value
- CCGL.SubObj.C94_history
- CCGL.SubObj.C94_independent
- CCGL.SubObj.C94_built
- CCGL.C95_entries
- CCGL.C95_own
- CCGL.C95_place
- CCGL.C95_nodata
- CCGL.C95_reshape
- CCGL.C95_positions
- CCGL.C95_positions_lone
- CCGL.C95_false_large
- CCGL.C95_false_layers
- CCGL.C95_false_columns
- CCGL.C95_false_positions
- CCGL.C95_false_empty
- CCGL.FText.C96_text
- CCGL.FText.C96_exact
- CCGL.FText.C96_decimal
- CCGL.FText.C96_special
- CCGL.FText.C96_false_small
- CCGL.FText.C97_ftow
- CCGL.App.C98_plain_partial
- CCGL.App.C98_mask_partial
- CCGL.App.C98_groups_partial
- CCGL.App.C98_job_plain
- CCGL.App.C98_job_mask
- CCGL.App.C98_job_groups
- CCGL.App.C98_plain_run_partial
- CCGL.App.C98_mask_run_partial
- CCGL.App.C98_groups_run_partial
- CCGL.App.C98_gfs_plain_partial
- CCGL.App.C98_gfs_mask_partial
- CCGL.App.C98_gfs_groups_partial
- CCGL.App.C98_gfs_stack_own_partial
- CCGL.App.C98_gfs_stack_units_partial
- CCGL.App.C98_gfs_plain_jobs_partial
- CCGL.App.C98_gfs_mask_jobs_partial
- CCGL.App.C98_gfs_groups_jobs_partial
- CCGL.App.C98_gfs_plain_run_partial
- CCGL.App.C98_gfs_mask_run_partial
- CCGL.App.C98_gfs_groups_run_partial
- CCGL.App.C98_gfs_few_plain_partial
- CCGL.App.C98_gfs_few_mask_partial
- CCGL.App.C98_gfs_few_groups_partial
- CCGL.App.C98_gfs_few_stack_own_partial
- CCGL.App.C98_gfs_few_stack_units_partial
- CCGL.App.C98_gfs_few_plain_jobs_partial
- CCGL.App.C98_gfs_few_mask_jobs_partial
- CCGL.App.C98_gfs_few_groups_jobs_partial
- CCGL.App.C98_gfs_few_plain_run_partial
- CCGL.App.C98_gfs_few_mask_run_partial
- CCGL.App.C98_gfs_few_groups_run_partial
- CCGL.App.C98_false_wide_table
- CCGL.C99_texts_partial
- CCGL.C99_first_hour
- CCGL.C99_local_date
- CCGL.C99_local_days
- CCGL.C99_ymd_roundtrip
- CCGL.C99_ymd_order
- CCGL.C99_string
- CCGL.C99_dateInfo
- CCGL.C99_false
- CCGL.C99_false_day
- CCGL.C99_false_half_hour

