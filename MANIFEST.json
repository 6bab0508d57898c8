{
 "claims": [
  {
   "property": "C01",
   "status": "proved",
   "theorems": [
    "Pwtools.C01_nested_loops",
    "Pwtools.C01_nested_loops_only",
    "Pwtools.C01_nested_loops_flatten"
   ],
   "note": ""
  },
  {
   "property": "C02",
   "status": "proved",
   "theorems": [
    "Pwtools.C02_unique2d_row",
    "Pwtools.C02_unique2d_col",
    "Pwtools.C02_unique2d_errors"
   ],
   "note": ""
  },
  {
   "property": "C03",
   "status": "proved",
   "theorems": [
    "Pwtools.C03_backup",
    "Pwtools.C03_history"
   ],
   "note": ""
  },
  {
   "property": "C04",
   "status": "partial",
   "theorems": [
    "Pwtools.C04_template_replace_partial",
    "Pwtools.C04_order_independent_partial",
    "Pwtools.C04_absent_key",
    "Pwtools.C04_nonstring_raises",
    "Pwtools.C04_order_counterexample",
    "Pwtools.C04_prefix_counterexample"
   ],
   "note": "Proved for dicts which are unambiguous for the text (no key inside another key or inside an inserted value). The unrestricted claim is false: C04_order_counterexample, C04_prefix_counterexample."
  },
  {
   "property": "C05",
   "status": "proved",
   "theorems": [
    "Pwtools.C05_roundtrip_ws",
    "Pwtools.C05_roundtrip_sep",
    "Pwtools.C05_roundtrip_int",
    "Pwtools.C05_sep_overlap_counterexample",
    "Pwtools.C05_empty_sep_counterexample",
    "Pwtools.C05_white_space"
   ],
   "note": ""
  },
  {
   "property": "C06",
   "status": "proved",
   "theorems": [
    "Pwtools.C06_pop_from_list",
    "Pwtools.C06_pop_first"
   ],
   "note": ""
  },
  {
   "property": "C07",
   "status": "proved",
   "theorems": [
    "Pwtools.C07_flatten",
    "Pwtools.C07_asseq",
    "Pwtools.C07_flatten_idem"
   ],
   "note": ""
  },
  {
   "property": "C08",
   "status": "partial",
   "theorems": [
    "Pwtools.C08_tobool_partial",
    "Pwtools.C08_strings_rejected"
   ],
   "note": "False for every text input: C08_strings_rejected. Proved for booleans and integers."
  },
  {
   "property": "C09",
   "status": "proved",
   "theorems": [
    "Pwtools.C09_values",
    "Pwtools.C09_order_independent",
    "Pwtools.C09_check_set_attr",
    "Pwtools.C09_check_set_attr_lst",
    "Pwtools.C09_once",
    "Pwtools.C09_none_reexecuted",
    "Pwtools.C09_getter_names_injective"
   ],
   "note": ""
  },
  {
   "property": "C10",
   "status": "proved",
   "theorems": [
    "Pwtools.C10_lazyprop",
    "Pwtools.C10_lazyprop_once"
   ],
   "note": ""
  },
  {
   "property": "C11",
   "status": "proved",
   "theorems": [
    "Pwtools.C11_tagtimer"
   ],
   "note": ""
  },
  {
   "property": "C12",
   "status": "proved",
   "theorems": [
    "Pwtools.C12_add_column",
    "Pwtools.C12_add_columns"
   ],
   "note": ""
  },
  {
   "property": "C13",
   "status": "partial",
   "theorems": [
    "Pwtools.C13_fill_column_partial",
    "Pwtools.C13_no_overwrite",
    "Pwtools.C13_error_leaves_prefix",
    "Pwtools.C13_not_atomic",
    "Pwtools.C13_start_beyond_end",
    "Pwtools.C13_deleted_row",
    "Pwtools.C13_empty_table",
    "Pwtools.C13_attach_column_partial",
    "Pwtools.C13_attach_existing"
   ],
   "note": "Proved for tables with rows 1..n and a start row at most one beyond the end; no cell that is not NULL is ever overwritten. False: all-or-nothing (C13_not_atomic), start row beyond the end (C13_start_beyond_end), deleted rows (C13_deleted_row), empty tables (C13_empty_table)."
  },
  {
   "property": "C14",
   "status": "proved",
   "theorems": [
    "Pwtools.C14_fix_sqltype",
    "Pwtools.C14_find_sqltype",
    "Pwtools.C14_sql_column",
    "Pwtools.C14_stored_value"
   ],
   "note": ""
  },
  {
   "property": "C15",
   "status": "proved",
   "theorems": [
    "Pwtools.C15_history",
    "Pwtools.C15_idx"
   ],
   "note": "For histories of calls that returned; all calls use the same table name and at least one machine. Case or type clashes of column names make a call raise, they need no hypothesis."
  },
  {
   "property": "C16",
   "status": "proved",
   "theorems": [
    "Pwtools.C16_touches_only_new",
    "Pwtools.C16_old_untouched",
    "Pwtools.C16_append",
    "Pwtools.C16_leftover"
   ],
   "note": "C16_touches_only_new and C16_old_untouched also hold for calls that raise or are killed at any step. C16_append needs distinct host names."
  },
  {
   "property": "C17",
   "status": "partial",
   "theorems": [
    "Pwtools.C17_committed_safe_partial",
    "Pwtools.C17_shared_directory",
    "Pwtools.C17_shared_after_exception"
   ],
   "note": "The property is false: C17_shared_directory and C17_shared_after_exception are counterexamples. Proved: directories of committed rows are safe."
  },
  {
   "property": "C18",
   "status": "partial",
   "theorems": [
    "Pwtools.C18_excl_push_partial",
    "Pwtools.C18_stale",
    "Pwtools.C18_other_table"
   ],
   "note": "Proved for the default table name calc and mode a. C18_stale and C18_other_table show that the full statement is false."
  },
  {
   "property": "C19",
   "status": "partial",
   "theorems": [
    "Pwtools.C19_record",
    "Pwtools.C19_db_record",
    "Pwtools.C19_template_record_partial",
    "Pwtools.C19_entries",
    "Pwtools.C19_machine_key_differs",
    "Pwtools.C19_template_rules",
    "Pwtools.C19_template_keys"
   ],
   "note": "Template and database records differ for the keys subcmd, scratch, home and hostname (C19_machine_key_differs)."
  },
  {
   "property": "C20",
   "status": "proved",
   "theorems": [
    "Pwtools.C20_get_dict",
    "Pwtools.C20_makedb_create",
    "Pwtools.C20_makedb_append",
    "Pwtools.C20_roundtrip",
    "Pwtools.C20_roundtrip_values"
   ],
   "note": ""
  },
  {
   "property": "C21",
   "status": "proved",
   "theorems": [
    "Pwtools.Num.C21_vlinspace",
    "Pwtools.Num.C21_vlinspace_ends",
    "Pwtools.Num.C21_vlinspace_error",
    "Pwtools.Num.C21_kpath",
    "Pwtools.Num.C21_kpath_vertices",
    "Pwtools.Num.C21_kpath_distinct",
    "Pwtools.Num.C21_kpath_errors"
   ],
   "note": ""
  },
  {
   "property": "C22",
   "status": "partial",
   "theorems": [
    "Pwtools.Num.C22_path_norm_partial",
    "Pwtools.Num.C22_start",
    "Pwtools.Num.C22_start_example"
   ],
   "note": "Values, order and number are proved. False: the path does not start at 0 unless it starts at the origin (C22_start, C22_start_example)."
  },
  {
   "property": "C23",
   "status": "proved",
   "theorems": [
    "Pwtools.Nd.C23_extend_array",
    "Pwtools.Nd.C23_extend_array_errors"
   ],
   "note": ""
  },
  {
   "property": "C24",
   "status": "proved",
   "theorems": [
    "Pwtools.Nd.C24_slicetake",
    "Pwtools.Nd.C24_slicetake_int",
    "Pwtools.Nd.C24_slicetake_errors",
    "Pwtools.Nd.C24_slicetake_all",
    "Pwtools.Nd.C24_view",
    "Pwtools.Nd.C24_copy",
    "Pwtools.Nd.C24_view_axis"
   ],
   "note": ""
  },
  {
   "property": "C25",
   "status": "partial",
   "theorems": [
    "Pwtools.Nd.C25_sum_tuple_partial",
    "Pwtools.Nd.C25_order",
    "Pwtools.Nd.C25_sum_int",
    "Pwtools.Nd.C25_sum_none",
    "Pwtools.Nd.C25_keepdims",
    "Pwtools.Nd.C25_keepdims_int",
    "Pwtools.Nd.C25_keepdims_negative",
    "Pwtools.Nd.C25_negative_tuple",
    "Pwtools.Nd.C25_errors"
   ],
   "note": "axis given as a tuple is right for sorted or unsorted non negative axes; C25_negative_tuple and C25_keepdims_negative are counterexamples for negative axes."
  },
  {
   "property": "C26",
   "status": "proved",
   "theorems": [
    "Pwtools.Num.C26_match_mask"
   ],
   "note": ""
  },
  {
   "property": "C27",
   "status": "partial",
   "theorems": [
    "Pwtools.Num.C27_round_up",
    "Pwtools.Num.C27_round_up_other",
    "Pwtools.Num.C27_order_similar_partial",
    "Pwtools.Num.C27_order_similar_nearest",
    "Pwtools.Num.C27_order_similar_loses",
    "Pwtools.Num.C27_order_zero_collapses",
    "Pwtools.Num.C27_repeat",
    "Pwtools.Num.C27_order_similar_extrapolates",
    "Pwtools.Num.C27_order_similar_errors"
   ],
   "note": "Rounding is proved; order_similar chooses the nearest value to the extrapolation (C27_order_similar_extrapolates), but need not return a permutation of the row (C27_order_similar_loses), and order=0 collapses the rows (C27_order_zero_collapses)."
  },
  {
   "property": "C28",
   "status": "proved",
   "theorems": [
    "Pwtools.Poly.C28_poly_powers",
    "Pwtools.Poly.C28_vander",
    "Pwtools.Poly.C28_fit_optimal",
    "Pwtools.Poly.C28_fit_exact",
    "Pwtools.Poly.C28_scale_vand",
    "Pwtools.Poly.C28_scales",
    "Pwtools.Poly.C28_constant_values",
    "Pwtools.Poly.C28_polyval_der"
   ],
   "note": "lstsq is modelled as any minimiser of the residual; zero scales (NaN in the program, C28_constant_values) are excluded."
  },
  {
   "property": "C29",
   "status": "proved",
   "theorems": [
    "Pwtools.Num.C29_norm_int",
    "Pwtools.Num.C29_rules",
    "Pwtools.Num.C29_zero",
    "Pwtools.Num.C29_trapz_sum",
    "Pwtools.Num.C29_simps_exact",
    "Pwtools.Num.C29_scaled",
    "Pwtools.Num.C29_simps_even"
   ],
   "note": ""
  },
  {
   "property": "C30",
   "status": "proved",
   "theorems": [
    "Pwtools.Num.C30_rms_value",
    "Pwtools.Num.C30_rms_norm",
    "Pwtools.Num.C30_rms3d",
    "Pwtools.Num.C30_rms3d_errors"
   ],
   "note": ""
  },
  {
   "property": "C31",
   "status": "proved",
   "theorems": [
    "Pwtools.Num.C31_euler",
    "Pwtools.Num.C31_euler_when"
   ],
   "note": ""
  },
  {
   "property": "C32",
   "status": "partial",
   "theorems": [
    "Pwtools.Aio.C32_squeezed",
    "Pwtools.Aio.C32_1d_2d_partial",
    "Pwtools.Aio.C32_empty",
    "Pwtools.Aio.C32_3d_partial",
    "Pwtools.Aio.C32_3d_refused",
    "Pwtools.Aio.C32_counterexample",
    "Pwtools.Aio.C32_override"
   ],
   "note": "Proved for arrays whose 2d form in the file has no axis of length 0 or 1. Otherwise axes are lost (C32_squeezed, C32_empty) or reading fails (C32_3d_refused, C32_counterexample)."
  },
  {
   "property": "C33",
   "status": "proved",
   "theorems": [
    "Pwtools.Dcd.C33_agree",
    "Pwtools.Dcd.C33_complete",
    "Pwtools.Dcd.C33_read",
    "Pwtools.Dcd.C33_fortran"
   ],
   "note": "All three readers (Python, Fortran, batch-wise) on the record layout; endianness and float32 rounding are not modelled."
  },
  {
   "property": "C34",
   "status": "proved",
   "theorems": [
    "Pwtools.Cry.C34_scell",
    "Pwtools.Cry.C34_methods",
    "Pwtools.Cry.C34_traj",
    "Pwtools.Cry.C34_errors"
   ],
   "note": ""
  },
  {
   "property": "C35",
   "status": "proved",
   "theorems": [
    "Pwtools.Cry.C35_wrap",
    "Pwtools.Cry.C35_idempotent",
    "Pwtools.Cry.C35_errors"
   ],
   "note": ""
  },
  {
   "property": "C36",
   "status": "proved",
   "theorems": [
    "Pwtools.Cry.C36_min_image",
    "Pwtools.Cry.C36_fortran",
    "Pwtools.Cry.C36_agree",
    "Pwtools.Cry.C36_idempotent"
   ],
   "note": ""
  },
  {
   "property": "C37",
   "status": "proved",
   "theorems": [
    "Pwtools.Cry.C37_exact",
    "Pwtools.Cry.C37_dist_exists"
   ],
   "note": ""
  },
  {
   "property": "C38",
   "status": "proved",
   "theorems": [
    "Pwtools.Cry.C38_same_point",
    "Pwtools.Cry.C38_unique",
    "Pwtools.Cry.C38_roundtrip",
    "Pwtools.Cry.C38_compose",
    "Pwtools.Cry.C38_cart"
   ],
   "note": ""
  },
  {
   "property": "C39",
   "status": "proved",
   "theorems": [
    "Pwtools.Cry.C39_frac_cart",
    "Pwtools.Cry.C39_traj"
   ],
   "note": ""
  },
  {
   "property": "C40",
   "status": "partial",
   "theorems": [
    "Pwtools.Cry.C40_products",
    "Pwtools.Cry.C40_dual_partial",
    "Pwtools.Cry.C40_left_handed",
    "Pwtools.Cry.C40_volume",
    "Pwtools.Cry.C40_twice_partial"
   ],
   "note": "C40_products: the products are right for every regular cell. Duality with the sign +2 pi holds for right-handed cells only (C40_dual_partial, C40_left_handed)."
  },
  {
   "property": "C41",
   "status": "proved",
   "theorems": [
    "Pwtools.Cry.C41_cc_roundtrip",
    "Pwtools.Cry.C41_cell_metric",
    "Pwtools.Cry.C41_volume",
    "Pwtools.Cry.C41_orientation"
   ],
   "note": ""
  },
  {
   "property": "C42",
   "status": "proved",
   "theorems": [
    "Pwtools.Cry.C42_cc_roundtrip",
    "Pwtools.Cry.C42_celldm_roundtrip"
   ],
   "note": ""
  },
  {
   "property": "C43",
   "status": "proved",
   "theorems": [
    "Pwtools.Cry.C43_voigt_roundtrip",
    "Pwtools.Cry.C43_tensor_roundtrip",
    "Pwtools.Cry.C43_symmetric",
    "Pwtools.Cry.C43_3d"
   ],
   "note": ""
  },
  {
   "property": "C44",
   "status": "partial",
   "theorems": [
    "Pwtools.Cry.C44_counts",
    "Pwtools.Cry.C44_spacing",
    "Pwtools.Cry.C44_returns",
    "Pwtools.Cry.C44_even_counterexample",
    "Pwtools.Cry.C44_even_partial",
    "Pwtools.Cry.C44_ties",
    "Pwtools.Cry.C44_kgrid"
   ],
   "note": "C44_even_counterexample: even=True together with minpoints can return odd counts."
  },
  {
   "property": "C45",
   "status": "partial",
   "theorems": [
    "Pwtools.Cry.C45_num_partial",
    "Pwtools.Cry.C45_cutoff",
    "Pwtools.Cry.C45_unsorted",
    "Pwtools.Cry.C45_skip_own_symbol",
    "Pwtools.Cry.C45_counterexample"
   ],
   "note": "False if the symbol of the central atom is skipped (C45_counterexample, C45_skip_own_symbol). argsort is any sorting permutation."
  },
  {
   "property": "C46",
   "status": "proved",
   "theorems": [
    "Pwtools.Cry.C46_velocity",
    "Pwtools.Cry.C46_no_endpoints",
    "Pwtools.Cry.C46_uniform",
    "Pwtools.Cry.C46_short"
   ],
   "note": ""
  },
  {
   "property": "C47",
   "status": "partial",
   "theorems": [
    "Pwtools.Tr.C47_once",
    "Pwtools.Tr.C47_not_applied",
    "Pwtools.Tr.C47_bad_cryst_const",
    "Pwtools.Tr.C47_parser_first_partial",
    "Pwtools.Tr.C47_parser_again",
    "Pwtools.Tr.C47_counterexample"
   ],
   "note": "Proved for containers in all call histories and for the first get_struct()/get_traj(). False for later calls of the same parser: C47_parser_again, C47_counterexample."
  },
  {
   "property": "C48",
   "status": "proved",
   "theorems": [
    "Pwtools.Tr.C48_int",
    "Pwtools.Tr.C48_int_out",
    "Pwtools.Tr.C48_slice",
    "Pwtools.Tr.C48_slice_zero",
    "Pwtools.Tr.C48_compose",
    "Pwtools.Tr.C48_compose_slices",
    "Pwtools.Tr.C48_time",
    "Pwtools.Tr.C48_other_length"
   ],
   "note": ""
  },
  {
   "property": "C49",
   "status": "partial",
   "theorems": [
    "Pwtools.Tr.C49_full_loops_partial",
    "Pwtools.Tr.C49_break",
    "Pwtools.Tr.C49_counterexample",
    "Pwtools.Tr.C49_nested",
    "Pwtools.Tr.C49_nested_start"
   ],
   "note": "Proved for complete, not nested loops. False after break (C49_break, C49_counterexample) and for nested loops, which never end (C49_nested) unless no step is left at their start (C49_nested_start)."
  },
  {
   "property": "C50",
   "status": "partial",
   "theorems": [
    "Pwtools.Tr.C50_concatenate_partial",
    "Pwtools.Tr.C50_empty",
    "Pwtools.Tr.C50_leftover",
    "Pwtools.Tr.C50_counterexample",
    "Pwtools.Tr.C50_assoc_partial"
   ],
   "note": "Proved if all parts have the same per-step quantities. False otherwise: C50_leftover, C50_counterexample."
  },
  {
   "property": "C51",
   "status": "proved",
   "theorems": [
    "Pwtools.Tr.C51_mean",
    "Pwtools.Tr.C51_mean_const",
    "Pwtools.Tr.C51_getTraj_steps",
    "Pwtools.Tr.C51_mix",
    "Pwtools.Tr.C51_mix_ends",
    "Pwtools.Tr.C51_mix_refused"
   ],
   "note": ""
  },
  {
   "property": "C52",
   "status": "partial",
   "theorems": [
    "Pwtools.Rp.C52_total",
    "Pwtools.Rp.C52_bins",
    "Pwtools.Rp.C52_number_integral",
    "Pwtools.Rp.C52_largest_radius_partial",
    "Pwtools.Rp.C52_neighbours",
    "Pwtools.Rp.C52_images",
    "Pwtools.Rp.C52_counterexample",
    "Pwtools.Rp.C52_select_symbol",
    "Pwtools.Rp.C52_select_steps",
    "Pwtools.Rp.C52_call"
   ],
   "note": "False in one point: pairs closer than dr are never counted, because the first bin is set to zero (C52_counterexample). Everything else is proved, including that each pair has at most one image within rmax (C52_images)."
  },
  {
   "property": "C53",
   "status": "proved",
   "theorems": [
    "Pwtools.Tr.C53_unique",
    "Pwtools.Tr.C53_order",
    "Pwtools.Tr.C53_typat",
    "Pwtools.Tr.C53_nspecies",
    "Pwtools.Tr.C53_znucl_mass",
    "Pwtools.Tr.C53_mass_unique",
    "Pwtools.Tr.C53_unknown_symbol"
   ],
   "note": ""
  },
  {
   "property": "C54",
   "status": "proved",
   "theorems": [
    "Pwtools.Cry.C54_rigid",
    "Pwtools.Cry.C54_xy",
    "Pwtools.Cry.C54_right_handed"
   ],
   "note": ""
  },
  {
   "property": "C55",
   "status": "proved",
   "theorems": [
    "Pwtools.Cry.C55_center",
    "Pwtools.Cry.C55_distances",
    "Pwtools.Cry.C55_error"
   ],
   "note": ""
  },
  {
   "property": "C56",
   "status": "proved",
   "theorems": [
    "Pwtools.Sig.C56_pad_zeros",
    "Pwtools.Sig.C56_pad_tonext",
    "Pwtools.Sig.C56_errors"
   ],
   "note": ""
  },
  {
   "property": "C57",
   "status": "partial",
   "theorems": [
    "Pwtools.Sig.C57_mirror_partial",
    "Pwtools.Sig.C57_other_axis_raises",
    "Pwtools.Sig.C57_mirror_1d"
   ],
   "note": "C57_mirror_partial / C57_other_axis_raises: mirroring works along the first axis only."
  },
  {
   "property": "C58",
   "status": "proved",
   "theorems": [
    "Pwtools.Sig.C58_acorr",
    "Pwtools.Sig.C58_bound",
    "Pwtools.Sig.C58_normalised",
    "Pwtools.Sig.C58_error"
   ],
   "note": ""
  },
  {
   "property": "C59",
   "status": "partial",
   "theorems": [
    "Pwtools.Sig.C59_smooth_mirror_partial",
    "Pwtools.Sig.C59_smooth_const",
    "Pwtools.Sig.C59_shape",
    "Pwtools.Sig.C59_constant",
    "Pwtools.Sig.C59_delta",
    "Pwtools.Sig.C59_errors",
    "Pwtools.Sig.C59_long_kernel"
   ],
   "note": "C59_long_kernel: with edge='m' zeros enter if the kernel is longer than twice the data; proved for M/2 <= N-1. edge='c' proved for all lengths."
  },
  {
   "property": "C60",
   "status": "partial",
   "theorems": [
    "Pwtools.Sig.C60_find_peaks",
    "Pwtools.Sig.C60_ymin_partial",
    "Pwtools.Sig.C60_counterexample",
    "Pwtools.Sig.C60_empty"
   ],
   "note": "Without ymin proved. With ymin peaks whose left neighbour is below ymin are lost (C60_ymin_partial says exactly which, C60_counterexample)."
  },
  {
   "property": "C61",
   "status": "proved",
   "theorems": [
    "Pwtools.Sig.C61_fftsample",
    "Pwtools.Sig.C61_fftsample_meaning",
    "Pwtools.Sig.C61_error"
   ],
   "note": ""
  },
  {
   "property": "C62",
   "status": "proved",
   "theorems": [
    "Pwtools.Sig.C62_dft",
    "Pwtools.Sig.C62_dft_fft",
    "Pwtools.Sig.C62_linear",
    "Pwtools.Sig.C62_ezfft",
    "Pwtools.Sig.C62_error"
   ],
   "note": ""
  },
  {
   "property": "C63",
   "status": "proved",
   "theorems": [
    "Pwtools.Dos.C63_pyvacf",
    "Pwtools.Dos.C63_fvacf",
    "Pwtools.Dos.C63_fvacf_returns",
    "Pwtools.Dos.C63_unknown_method"
   ],
   "note": ""
  },
  {
   "property": "C64",
   "status": "proved",
   "theorems": [
    "Pwtools.Dos.C64_same_spectrum",
    "Pwtools.Dos.C64_direct",
    "Pwtools.Dos.C64_window",
    "Pwtools.Dos.C64_vacf_returns"
   ],
   "note": ""
  },
  {
   "property": "C65",
   "status": "proved",
   "theorems": [
    "Pwtools.Sig.C65_odd",
    "Pwtools.Sig.C65_odd_error",
    "Pwtools.Sig.C65_scale",
    "Pwtools.Sig.C65_scale_constant",
    "Pwtools.Sig.C65_welch",
    "Pwtools.Sig.C65_welch_cases",
    "Pwtools.Sig.C65_lorentz",
    "Pwtools.Sig.C65_gauss"
   ],
   "note": ""
  },
  {
   "property": "C66",
   "status": "proved",
   "theorems": [
    "Pwtools.Thermo.C66_energy",
    "Pwtools.Thermo.C66_entropy",
    "Pwtools.Thermo.C66_cv",
    "Pwtools.Thermo.C66_high_temperature",
    "Pwtools.Thermo.C66_nonneg",
    "Pwtools.Thermo.C66_temperatures",
    "Pwtools.Thermo.C66_rules",
    "Pwtools.Thermo.C66_low_temperature"
   ],
   "note": "Sums over any number of modes, in exact real arithmetic; the trapezoidal rule is used for the integrals as in the code."
  },
  {
   "property": "C67",
   "status": "proved",
   "theorems": [
    "Pwtools.Thermo.C67_skipfreq",
    "Pwtools.Thermo.C67_noskip",
    "Pwtools.Thermo.C67_dosarea"
   ],
   "note": "Exactly the small frequencies are dropped; warnings are not modelled."
  },
  {
   "property": "C68",
   "status": "partial",
   "theorems": [
    "Pwtools.Thermo.Gibbs.C68_F",
    "Pwtools.Thermo.Gibbs.C68_F_ok",
    "Pwtools.Thermo.Gibbs.C68_evib_partial",
    "Pwtools.Thermo.Gibbs.C68_H",
    "Pwtools.Thermo.Gibbs.C68_G",
    "Pwtools.Thermo.Gibbs.C68_inputs",
    "Pwtools.Thermo.Gibbs.C68_inputs_values",
    "Pwtools.Thermo.Gibbs.C68_opt_1d",
    "Pwtools.Thermo.Gibbs.C68_opt_2d",
    "Pwtools.Thermo.Gibbs.C68_none",
    "Pwtools.Thermo.Gibbs.C68_calc_all",
    "Pwtools.Thermo.Gibbs.C68_unsupported",
    "Pwtools.Thermo.Gibbs.C68_keys",
    "Pwtools.Thermo.Gibbs.C68_evib_counterexample",
    "Pwtools.Thermo.Gibbs.C68_init"
   ],
   "note": "All entries and shapes are proved. False: Evib uses Svib in units of kb (C68_evib_counterexample). The fits are arbitrary functions."
  },
  {
   "property": "C69",
   "status": "partial",
   "theorems": [
    "Pwtools.Eos.C69_deriv1",
    "Pwtools.Eos.C69_deriv2",
    "Pwtools.Eos.C69_minimum",
    "Pwtools.Eos.C69_pressure_sign",
    "Pwtools.Eos.C69_pressure",
    "Pwtools.Eos.C69_bulkmod_partial",
    "Pwtools.Eos.C69_bulkmod_counterexample"
   ],
   "note": "Derivatives and pressure are proved. False: bulkmod returns B0 for every volume (C69_bulkmod_counterexample)."
  },
  {
   "property": "C70",
   "status": "partial",
   "theorems": [
    "Pwtools.Eos.C70_left_partial",
    "Pwtools.Eos.C70_counterexample"
   ],
   "note": "Minima left of the data are refused. Minima right of the data are not (C70_counterexample)."
  },
  {
   "property": "C71",
   "status": "partial",
   "theorems": [
    "Pwtools.Rbf.Obj.C71_interpolation_partial",
    "Pwtools.Rbf.Obj.C71_zero_counterexample",
    "Pwtools.Rbf.Obj.C71_lstsq",
    "Pwtools.Rbf.Obj.C71_regularised",
    "Pwtools.Rbf.Obj.C71_double_points",
    "Pwtools.Rbf.Obj.C71_gradient",
    "Pwtools.Rbf.Obj.C71_call",
    "Pwtools.Rbf.Obj.C71_fit_error_train",
    "Pwtools.Rbf.Obj.C71_fit_error",
    "Pwtools.Rbf.C71_mean",
    "Pwtools.Rbf.C71_init",
    "Pwtools.Rbf.C71_single_point"
   ],
   "note": "Proved for training values that are not all zero; for these the code gives nan (C71_zero_counterexample). Linear solvers are any function that returns a solution."
  },
  {
   "property": "C72",
   "status": "proved",
   "theorems": [
    "Pwtools.Ibrav.C72_ibrav1",
    "Pwtools.Ibrav.C72_ibrav2",
    "Pwtools.Ibrav.C72_ibrav3",
    "Pwtools.Ibrav.C72_ibrav4",
    "Pwtools.Ibrav.C72_ibrav5",
    "Pwtools.Ibrav.C72_ibrav6",
    "Pwtools.Ibrav.C72_ibrav7",
    "Pwtools.Ibrav.C72_orthorhombic",
    "Pwtools.Ibrav.C72_ibrav12",
    "Pwtools.Ibrav.C72_ibrav13",
    "Pwtools.Ibrav.C72_ibrav14",
    "Pwtools.Ibrav.C72_refused"
   ],
   "note": "All 14 lattices, over the real numbers."
  },
  {
   "property": "C73",
   "status": "partial",
   "theorems": [
    "Pwtools.Pw.C73_read_matdyn_freq",
    "Pwtools.Pw.C73_too_many",
    "Pwtools.Pw.C73_refused",
    "Pwtools.Pw.C73_truncated_counterexample"
   ],
   "note": "Complete files, and files with too many records, are proved. False: a truncated file is not refused and gives arbitrary rows (C73_truncated_counterexample)."
  },
  {
   "property": "C74",
   "status": "proved",
   "theorems": [
    "Pwtools.H5.C74_append",
    "Pwtools.H5.C74_replace",
    "Pwtools.H5.C74_roundtrip",
    "Pwtools.H5.C74_append_new",
    "Pwtools.H5.C74_existing_refused",
    "Pwtools.H5.C74_open_refused",
    "Pwtools.H5.C74_exception"
   ],
   "note": "Groups and datasets as a tree; types of numbers and compression are not modelled."
  },
  {
   "property": "C75",
   "status": "proved",
   "theorems": [
    "Pwtools.Pw.C75_write_xyz",
    "Pwtools.Pw.C75_refused"
   ],
   "note": "The words of the file; number formats are any function."
  },
  {
   "property": "C76",
   "status": "partial",
   "theorems": [
    "Pwtools.Pw.C76_kpoints_str",
    "Pwtools.Pw.C76_kpoints_str_injective",
    "Pwtools.Pw.C76_gamma",
    "Pwtools.Pw.C76_automatic",
    "Pwtools.Pw.C76_refused",
    "Pwtools.Pw.C76_pwin_counterexample"
   ],
   "note": "False for kpoints_str_pwin, which documents any sequence (C76_pwin_counterexample). Everything else is proved."
  },
  {
   "property": "C77",
   "status": "partial",
   "theorems": [
    "Pwtools.Num.C77_data_nd_partial",
    "Pwtools.Num.C77_unordered",
    "Pwtools.Num.C77_error"
   ],
   "note": "True for rows in the order written by meshgridt / itertools.product; C77_unordered shows that other row orders give wrong values."
  },
  {
   "property": "C78",
   "status": "partial",
   "theorems": [
    "Pwtools.Rp.C78_again_partial",
    "Pwtools.Rp.C78_trajs_kept",
    "Pwtools.Rp.C78_amask_kept",
    "Pwtools.Rp.C78_masks_used",
    "Pwtools.Rp.C78_counterexample"
   ],
   "note": "False: a call changes the lists of the caller (C78_counterexample); C78_trajs_kept and C78_amask_kept say which calls do not."
  },
  {
   "property": "C79",
   "status": "partial",
   "theorems": [
    "Pwtools.Cry.C79_cosines",
    "Pwtools.Cry.C79_degrees_partial",
    "Pwtools.Cry.C79_assert",
    "Pwtools.Cry.C79_mask_counterexample"
   ],
   "note": "False for deg=True and mask_val in [-1,0) (C79_mask_counterexample), which the assertion lets through."
  },
  {
   "property": "C80",
   "status": "proved",
   "theorems": [
    "Pwtools.Ibrav.C80_particle",
    "Pwtools.Ibrav.C80_barostat",
    "Pwtools.Ibrav.C80_refused",
    "Pwtools.Ibrav.C80_mass"
   ],
   "note": "Chain length and values of the masses."
  },
  {
   "property": "C81",
   "status": "partial",
   "theorems": [
    "Pwtools.Nd.C81_array",
    "Pwtools.Nd.C81_roundtrip",
    "Pwtools.Nd.C81_sliceput_all",
    "Pwtools.Nd.C81_sliceput_axis_raises"
   ],
   "note": "axis=None proved for scalars (C81_sliceput_all) and arrays (C81_array, C81_roundtrip). With axis=<int> the property is false: C81_sliceput_axis_raises (list of slices used as index, IndexError in numpy >= 1.23)."
  },
  {
   "property": "C82",
   "status": "partial",
   "theorems": [
    "Pwtools.Cry.C82_symmetric_partial",
    "Pwtools.Cry.C82_not_symmetric",
    "Pwtools.Cry.C82_diagonal"
   ],
   "note": "Symmetry is false with pbc for positions half a cell vector apart in a skew cell (C82_not_symmetric)."
  },
  {
   "property": "C83",
   "status": "partial",
   "theorems": [
    "Pwtools.Atomic.C83_numbers",
    "Pwtools.Atomic.C83_atomic_number_partial",
    "Pwtools.Atomic.C83_counterexample"
   ],
   "note": "Proved for all elements up to number 116; the last entry of the table (Uuo) has number 117 instead of 118 (C83_counterexample)."
  },
  {
   "property": "C84",
   "status": "proved",
   "theorems": [
    "Pwtools.Pw.C84_write_axsf",
    "Pwtools.Pw.C84_write_axsf_forces"
   ],
   "note": "The words of the file for every number of atoms and steps."
  },
  {
   "property": "C85",
   "status": "proved",
   "theorems": [
    "Pwtools.Pw.C85_str_arr",
    "Pwtools.Pw.C85_str_arr_1d",
    "Pwtools.Pw.C85_atpos_str",
    "Pwtools.Pw.C85_atspec_str",
    "Pwtools.Pw.C85_bool"
   ],
   "note": "The words of the blocks; number formats are any function."
  },
  {
   "property": "C86",
   "status": "partial",
   "theorems": [
    "Pwtools.Units.C86_units_partial",
    "Pwtools.Units.C86_user_units",
    "Pwtools.Units.C86_counterexample"
   ],
   "note": "Partial because the code violates the property: a cp2k MD parser changes the dictionary shared with the cp2k SCF parser (C86_counterexample); proved for everything else."
  },
  {
   "property": "C87",
   "status": "partial",
   "theorems": [
    "Pwtools.PwOut.C87_coords",
    "Pwtools.PwOut.C87_cell",
    "Pwtools.PwOut.C87_stress",
    "Pwtools.PwOut.C87_energies",
    "Pwtools.PwOut.C87_forces",
    "Pwtools.PwOut.C87_getters",
    "Pwtools.PwOut.C87_aligned_partial",
    "Pwtools.PwOut.C87_killed_counterexample",
    "Pwtools.PwOut.C87_no_forces_counterexample",
    "Pwtools.PwOut.C87_truncated",
    "Pwtools.PwOut.C87_no_natoms",
    "Pwtools.PwOut.C87_bad_energy",
    "Pwtools.PwOut.C87_surplus"
   ],
   "note": "Partial because the code violates the property when the last position block has no energy (C87_killed_counterexample, e.g. test/files/pw.vc_relax.out) and raises when no forces are printed (C87_no_forces_counterexample). alat, _cell_2d and _cell_3d_factors are parameters."
  },
  {
   "property": "C88",
   "status": "partial",
   "theorems": [
    "Pwtools.PwOut.C88_unit",
    "Pwtools.PwOut.C88_coords_partial",
    "Pwtools.PwOut.C88_no_unit_counterexample",
    "Pwtools.PwOut.C88_cell"
   ],
   "note": "Partial because without a unit in the ATOMIC_POSITIONS header no coordinates are returned (C88_no_unit_counterexample)."
  },
  {
   "property": "C89",
   "status": "partial",
   "theorems": [
    "Pwtools.Lmp.C89_arrays",
    "Pwtools.Lmp.C89_symbols",
    "Pwtools.Lmp.C89_cell_partial",
    "Pwtools.Lmp.C89_orthogonal_counterexample",
    "Pwtools.Lmp.C89_truncated",
    "Pwtools.Lmp.C89_thermo_partial",
    "Pwtools.Lmp.C89_thermo_first_header",
    "Pwtools.Lmp.C89_thermo_counterexample",
    "Pwtools.Lmp.C89_no_rows_counterexample",
    "Pwtools.Lmp.C89_columns",
    "Pwtools.Lmp.C89_no_natoms",
    "Pwtools.Lmp.C89_thermo_short"
   ],
   "note": "Partial because the code violates the full property: C89_orthogonal_counterexample (every dump file of an orthogonal box makes get_cell raise ValueError), C89_thermo_counterexample (a second run with other columns is read with the header of the first one), C89_no_rows_counterexample (header without rows: TypeError). Frames, killed runs, symbols and triclinic cells are proved in full."
  },
  {
   "property": "C90",
   "status": "partial",
   "theorems": [
    "Pwtools.Cp2k.C90_energies_partial",
    "Pwtools.Cp2k.C90_single_step_counterexample",
    "Pwtools.Cp2k.C90_cell_partial",
    "Pwtools.Cp2k.C90_stress_partial",
    "Pwtools.Cp2k.C90_single_cell_counterexample",
    "Pwtools.Cp2k.C90_relax_cell",
    "Pwtools.Cp2k.C90_xyz",
    "Pwtools.Cp2k.C90_xyz_truncated",
    "Pwtools.Cp2k.C90_symbols",
    "Pwtools.Cp2k.C90_relax_etot",
    "Pwtools.Cp2k.C90_columns",
    "Pwtools.Cp2k.C90_ener_columns"
   ],
   "note": "Partial because the code violates the full property for files with a single row: np.loadtxt returns a 1d array and all getters raise IndexError (C90_single_step_counterexample, C90_single_cell_counterexample). For at least two rows, and for xyz files, killed runs and relaxations the statements are proved in full."
  },
  {
   "property": "C91",
   "status": "partial",
   "theorems": [
    "Pwtools.Cpmd.C91_energies_partial",
    "Pwtools.Cpmd.C91_other_columns",
    "Pwtools.Cpmd.C91_single_row_counterexample",
    "Pwtools.Cpmd.C91_trajectory_partial",
    "Pwtools.Cpmd.C91_single_atom_counterexample",
    "Pwtools.Cpmd.C91_trajectory_truncated",
    "Pwtools.Cpmd.C91_cell",
    "Pwtools.Cpmd.C91_cell_gap",
    "Pwtools.Cpmd.C91_stress",
    "Pwtools.Cpmd.C91_natoms"
   ],
   "note": "Partial because the code violates the full property for an ENERGIES file with one row (IndexError, C91_single_row_counterexample) and for a trajectory with one atom and one step (AssertionError, C91_single_atom_counterexample). Everything else is proved in full."
  },
  {
   "property": "C92",
   "status": "partial",
   "theorems": [
    "Pwtools.Rnd.C92_valid_partial",
    "Pwtools.Rnd.C92_nofail_partial",
    "Pwtools.Rnd.C92_fail",
    "Pwtools.Rnd.C92_only_fail",
    "Pwtools.Rnd.C92_domain_counterexample",
    "Pwtools.Rnd.C92_close_counterexample"
   ],
   "note": "Partial because the code violates the full property: in skew cells the minimum image convention misses the closest periodic image (C92_close_counterexample, default settings, two atoms of any element), and wide angle ranges make the cell construction raise ValueError (C92_domain_counterexample). Proved: the ranges, and the distance bound up to the radius of the largest sphere for which minimum images are exact."
  },
  {
   "property": "C93",
   "status": "partial",
   "theorems": [
    "Pwtools.Drv.C93_struct_complete",
    "Pwtools.Drv.C93_struct_consistent",
    "Pwtools.Drv.C93_idempotent",
    "Pwtools.Drv.C93_restore",
    "Pwtools.Drv.C93_traj_partial",
    "Pwtools.Drv.C93_short_counterexample",
    "Pwtools.ReadMd.C93_parsed_cc"
   ],
   "note": "Structures: C93_struct_complete (for all inputs: nothing given is changed, everything that follows is set), C93_struct_consistent (good input gives attributes that agree), C93_idempotent, C93_restore. Trajectories: C93_traj_partial, each step as the structure built from that step, plus masses, times, velocities, kinetic energies and temperatures; partial because a trajectory with positions and a time step but only one or two steps cannot be built (C93_short_counterexample). Units are 1 (C05, C07 treat them)."
  },
  {
   "property": "C94",
   "status": "partial",
   "theorems": [
    "Pwtools.Ph.C94_modes",
    "Pwtools.Ph.C94_counts",
    "Pwtools.Ph.C94_wrong_natoms",
    "Pwtools.Ph.C94_dyn",
    "Pwtools.Ph.C94_all_dyn",
    "Pwtools.Ph.C94_dynmat",
    "Pwtools.Ph.C94_short_counterexample",
    "Pwtools.Ph.C94_table",
    "Pwtools.Ph.C94_columns",
    "Pwtools.Ph.C94_one_unit"
   ],
   "note": "All readers are proved for complete files; C94_counts and C94_wrong_natoms: incomplete files and wrong natoms raise in read_matdyn_modes. Missing: read_dynmat does not notice a dynmat.out which ends within the table (C94_short_counterexample: fewer frequencies than modes, no error). The sed expressions are modelled by their effect on a line."
  },
  {
   "property": "C95",
   "status": "proved",
   "theorems": [
    "Pwtools.Cry.C95_schedule",
    "Pwtools.Cry.C95_result",
    "Pwtools.Cry.C95_private_needed"
   ],
   "note": "Interleavings of single loads and stores. Simplified: the difference of the coordinates and the while loops of one entry are one store instruction. C95_private_needed: without the private clause the property is false."
  },
  {
   "property": "C96",
   "status": "proved",
   "theorems": [
    "Pwtools.Cry.C96_value",
    "Pwtools.Cry.C96_error",
    "Pwtools.Cry.C96_zero",
    "Pwtools.Cry.C96_motion"
   ],
   "note": "Time axis 0 (that of Trajectory); exact real arithmetic."
  },
  {
   "property": "C97",
   "status": "partial",
   "theorems": [
    "Pwtools.Cry.C97_struct_partial",
    "Pwtools.Cry.C97_cutoff_partial",
    "Pwtools.Cry.C97_size",
    "Pwtools.Cry.C97_negative",
    "Pwtools.Cry.C97_negative_counterexample"
   ],
   "note": "Proved for idx >= 0. False for negative idx, which nearest_neighbors accepts: the central atom is then missing (C97_negative, C97_negative_counterexample)."
  },
  {
   "property": "C98",
   "status": "partial",
   "theorems": [
    "Pwtools.Calc.C98_fresh_partial",
    "Pwtools.Calc.C98_pwscf",
    "Pwtools.Calc.C98_keys",
    "Pwtools.Calc.C98_untouched_partial",
    "Pwtools.Calc.C98_history",
    "Pwtools.Calc.C98_poisoned",
    "Pwtools.Calc.C98_counterexample"
   ],
   "note": "False: the class attribute default_parameters is updated in place. C98_fresh_partial holds for the first calculator of a process, C98_untouched_partial for keys no earlier call gave, C98_history says what later ones get, C98_poisoned: after a rejected xc every later call fails; C98_counterexample."
  },
  {
   "property": "C99",
   "status": "partial",
   "theorems": [
    "Pwtools.Calc.C99_string",
    "Pwtools.Calc.C99_list_partial",
    "Pwtools.Calc.C99_accepted",
    "Pwtools.Calc.C99_counterexample",
    "Pwtools.Calc.C99_template",
    "Pwtools.Calc.C99_template_error",
    "Pwtools.Calc.C99_template_unclosed",
    "Pwtools.Calc.C99_stress"
   ],
   "note": "pp as string, template and stress proved; pp as list is matched with startswith, so with Ca before C in the list C gets the file of Ca (C99_counterexample). C99_list_partial: right if no other name begins with the symbol."
  },
  {
   "property": "C100",
   "status": "partial",
   "theorems": [
    "Pwtools.Cut.C100_lines_partial",
    "Pwtools.Cut.C100_absent",
    "Pwtools.Cut.C100_headlines_partial",
    "Pwtools.Cut.C100_cp2k_xyz_partial",
    "Pwtools.Cut.C100_natoms",
    "Pwtools.Cut.C100_cpmd_xyz_partial",
    "Pwtools.Cut.C100_cpmd_xyz_absent",
    "Pwtools.Cut.C100_absent_counterexample"
   ],
   "note": "Proved for all five kinds of files if the step is in the file. False if not (files written every n-th step): C100_absent (nothing is cut), C100_cpmd_xyz_absent (TRAJEC.xyz loses its last line), C100_absent_counterexample. Backup copies and runs in a directory are in C150."
  },
  {
   "property": "C101",
   "status": "partial",
   "theorems": [
    "Pwtools.LmpData.C101_orientation",
    "Pwtools.LmpData.C101_distances",
    "Pwtools.LmpData.C101_box",
    "Pwtools.LmpData.C101_atoms",
    "Pwtools.LmpData.C101_counts",
    "Pwtools.LmpData.C101_results",
    "Pwtools.LmpData.C101_forces_partial",
    "Pwtools.LmpData.C101_forces_counterexample"
   ],
   "note": "Written structure: proved for all cells. Energy: proved. Forces and stress: proved only if the cell of the user is already lower triangular (C101_forces_partial); false otherwise, because read_results does not rotate LAMMPS vectors back (C101_forces_counterexample)."
  },
  {
   "property": "C102",
   "status": "proved",
   "theorems": [
    "Pwtools.ConvTable.C102_table",
    "Pwtools.ConvTable.C102_too_many",
    "Pwtools.ConvTable.C102_mode",
    "Pwtools.ConvTable.C102_telescope"
   ],
   "note": "Proved; telescoping sum as an additional consistency check."
  },
  {
   "property": "C103",
   "status": "partial",
   "theorems": [
    "Pwtools.Cif.C103_number",
    "Pwtools.Cif.C103_label",
    "Pwtools.Cif.C103_coords_partial",
    "Pwtools.Cif.C103_no_coords",
    "Pwtools.Cif.C103_symbols",
    "Pwtools.Cif.C103_cell",
    "Pwtools.Cif.C103_roundtrip_rounded",
    "Pwtools.Cif.C103_roundtrip",
    "Pwtools.Cif.C103_single_counterexample"
   ],
   "note": "Proved for atoms in a loop_. False for a single atom outside of a loop_ (C103_single_counterexample): the text of the number is split into characters. The CIF grammar (PyCifRW) is not modelled."
  },
  {
   "property": "C104",
   "status": "partial",
   "theorems": [
    "Pwtools.Alias.C104_first_partial",
    "Pwtools.Alias.C104_later",
    "Pwtools.Alias.C104_counterexample",
    "Pwtools.Alias.C104_no_key_partial",
    "Pwtools.Alias.C104_result"
   ],
   "note": "The first call with a dict is proved; false for later calls (C104_later, C104_counterexample): start values, bounds and disp are popped from the dict of the caller."
  },
  {
   "property": "C105",
   "status": "proved",
   "theorems": [
    "Pwtools.Alias.C105_copy",
    "Pwtools.Alias.C105_copy_separate",
    "Pwtools.Alias.C105_compress"
   ],
   "note": "Proved on a heap model: in-place writes through one object are never visible through the other."
  },
  {
   "property": "C106",
   "status": "partial",
   "theorems": [
    "Pwtools.Symm.C106_same",
    "Pwtools.Symm.C106_refl",
    "Pwtools.Symm.C106_symm_counterexample",
    "Pwtools.Symm.C106_roundtrip",
    "Pwtools.Symm.C106_primitive",
    "Pwtools.Symm.C106_spacegroup"
   ],
   "note": "Proved except symmetry in the arguments, which is false at the edge of the tolerance (C106_symm_counterexample). spglib is an arbitrary function."
  },
  {
   "property": "C107",
   "status": "partial",
   "theorems": [
    "Pwtools.Alias.C107_return_partial",
    "Pwtools.Alias.C107_open",
    "Pwtools.Alias.C107_exception"
   ],
   "note": "Proved for normal returns; false if the function raises (C107_exception)."
  },
  {
   "property": "C108",
   "status": "partial",
   "theorems": [
    "Pwtools.Nd.C108_axis",
    "Pwtools.Nd.C108_errors",
    "Pwtools.Nd.C108_integer_counterexample",
    "Pwtools.Nd.C108_steps_partial",
    "Pwtools.Nd.C108_last_counterexample"
   ],
   "note": "Proved for arrays of floats and all axes; false for arrays of integers (C108_integer_counterexample: results are truncated) and for timeaxis=-1 in coord_trans3d (C108_last_counterexample)."
  },
  {
   "property": "C109",
   "status": "partial",
   "theorems": [
    "Pwtools.Fit.C109_mono_partial",
    "Pwtools.Fit.C109_mono_counterexample",
    "Pwtools.Fit.C109_root",
    "Pwtools.Fit.C109_start",
    "Pwtools.Fit.C109_min_partial",
    "Pwtools.Fit.C109_max_partial",
    "Pwtools.Fit.C109_min_counterexample",
    "Pwtools.Fit.C109_inverse",
    "Pwtools.Fit.C109_range",
    "Pwtools.Fit.C109_shape_partial",
    "Pwtools.Fit.C109_shape_counterexample",
    "Pwtools.Fit.C109_init"
   ],
   "note": "get_root, invsplev: proved for any solver with the documented behaviour of brentq. get_min/get_max: proved for convex/concave curves, false otherwise (C109_min_counterexample). is_mono: characterised exactly, false for flat parts and between data points (C109_mono_counterexample). PolyFit1D: points (npoints,1) raise, one point gives a scalar (C109_init, C109_shape_counterexample)."
  },
  {
   "property": "C110",
   "status": "partial",
   "theorems": [
    "Pwtools.Scf.C110_forces",
    "Pwtools.Scf.C110_etot_partial",
    "Pwtools.Scf.C110_etot_twice",
    "Pwtools.Scf.C110_stress_partial",
    "Pwtools.Scf.C110_no_stress"
   ],
   "note": "Forces table (natoms, symbols, forces) for every output of the CP2K layout. Kinds of lines are described in Spec/ScfOut. Energy proved for outputs with exactly one line of energy (C110_etot_partial), the stress tensor for outputs with exactly one (C110_stress_partial). The code violates the property: two energies raise (C110_etot_twice), no stress tensor raises IndexError instead of giving None (C110_no_stress)."
  },
  {
   "property": "C111",
   "status": "proved",
   "theorems": [
    "Pwtools.Scf.C111_stress",
    "Pwtools.Scf.C111_cell",
    "Pwtools.Scf.C111_atoms",
    "Pwtools.Scf.C111_etot",
    "Pwtools.Scf.C111_forces"
   ],
   "note": "Last block of the file, whatever stands before it; cell, coordinates, symbols, forces, stress, energy."
  },
  {
   "property": "C112",
   "status": "partial",
   "theorems": [
    "Pwtools.Scf.C112_pw",
    "Pwtools.Scf.C112_cpmd_partial",
    "Pwtools.Scf.C112_cpmd_counterexample"
   ],
   "note": "pw.x: exactly the outputs with the message. CPMD: the flag only tests that the message of failure is absent, hence truncated and empty outputs are reported as converged (C112_cpmd_counterexample)."
  },
  {
   "property": "C113",
   "status": "partial",
   "theorems": [
    "Pwtools.D2.C113_forms",
    "Pwtools.D2.C113_update_partial",
    "Pwtools.D2.C113_zz_ignored",
    "Pwtools.D2.C113_points_ignored",
    "Pwtools.D2.C113_counterexample",
    "Pwtools.D2.C113_copy"
   ],
   "note": "Proved for construction in all forms with or without values, for update with axes and Z, and for copy. False for update of an object with zz, or with xx,yy, XY or X,Y: these are ignored (C113_zz_ignored, C113_points_ignored, C113_counterexample). Grids with repeated points and ragged input are not covered."
  },
  {
   "property": "C114",
   "status": "partial",
   "theorems": [
    "Pwtools.Eos2.C114_first_partial",
    "Pwtools.Eos2.C114_min",
    "Pwtools.Eos2.C114_before_fit",
    "Pwtools.Eos2.C114_again",
    "Pwtools.Eos2.C114_counterexample",
    "Pwtools.Eos2.C114_switch",
    "Pwtools.Eos2.C114_old_order",
    "Pwtools.Eos2.C114_sorted_counterexample",
    "Pwtools.Eos2.C114_sorted",
    "Pwtools.Eos2.C114_elk"
   ],
   "note": "Proved for the first fit of an object, for get_min and for units and normalisation. False for a second fit: the splines stay those of the first (C114_again, C114_counterexample), and set_bv_method after a fit mixes the methods (C114_switch); the list of get_min(behave='old') is in another order than documented (C114_old_order); volumes which are not in order are accepted (C114_sorted_counterexample). The program eos.x and splines are functions."
  },
  {
   "property": "C115",
   "status": "partial",
   "theorems": [
    "Pwtools.Repl.C115_result",
    "Pwtools.Repl.C115_exception",
    "Pwtools.Repl.C115_crash_partial",
    "Pwtools.Repl.C115_counterexample"
   ],
   "note": "Complete result, exceptions and all crash points with a backup suffix. Without backup (the default) a crash can lose the text: C115_counterexample. A write is modelled as growing character by character, which has all prefixes as crash points; loss of data in caches of the operating system is not modelled."
  },
  {
   "property": "C116",
   "status": "partial",
   "theorems": [
    "Pwtools.Cv.C116_cv",
    "Pwtools.Cv.C116_no_leak",
    "Pwtools.Cv.C116_call",
    "Pwtools.Cv.C116_params",
    "Pwtools.Cv.C116_one_parameter",
    "Pwtools.Cv.C116_counterexample"
   ],
   "note": "Rbf is an arbitrary function which builds models. The documentation for params=[p] does not hold: it uses r=0 (C116_one_parameter, C116_counterexample). The splitter of sklearn is any list of index pairs."
  },
  {
   "property": "C117",
   "status": "proved",
   "theorems": [
    "Pwtools.Hdr.C117_roundtrip",
    "Pwtools.Hdr.C117_shape_axis",
    "Pwtools.Hdr.C117_long",
    "Pwtools.Hdr.C117_counterexample"
   ],
   "note": "Proved for names in lower case without delimiters and values without the comment sign; values with the comment sign lose it (C117_counterexample). ConfigParser is written out as far as needed (no multi-line values, no interpolation)."
  },
  {
   "property": "C118",
   "status": "partial",
   "theorems": [
    "Pwtools.Gofr.C118_frames_partial",
    "Pwtools.Gofr.C118_noslice",
    "Pwtools.Gofr.C118_variable_cell",
    "Pwtools.Gofr.C118_not_orthogonal",
    "Pwtools.Gofr.C118_counterexample"
   ],
   "note": "Proved for trajectories with one cell (both values of slicefirst) and for all trajectories with slicefirst=False. False for variable cells with the default slicefirst=True, where all frames get the cell of the first step: C118_variable_cell says exactly what happens, C118_counterexample is an instance. VMD is modelled as an arbitrary function of the frames."
  },
  {
   "property": "C119",
   "status": "proved",
   "theorems": [
    "Pwtools.PwHead.C119_alat",
    "Pwtools.PwHead.C119_cell",
    "Pwtools.PwHead.C119_coords",
    "Pwtools.PwHead.C119_nkpoints",
    "Pwtools.PwHead.C119_absent"
   ],
   "note": "Number texts are read by an arbitrary function. The hypotheses on get_alat and get_natoms in C119_cell, C119_coords are discharged by C119_alat and C87_coords."
  },
  {
   "property": "C120",
   "status": "partial",
   "theorems": [
    "Pwtools.PwHead.C120_factors",
    "Pwtools.PwHead.C120_vcmd_partial",
    "Pwtools.PwHead.C120_vcmd_counterexample",
    "Pwtools.PwHead.C120_nstep_scf",
    "Pwtools.PwHead.C120_nstep_scf_counterexample"
   ],
   "note": "Unit factors: complete. vc-md table: proved for runs with at least one line; C120_vcmd_counterexample: without any line the getters raise a TypeError instead of returning None. Numbers of iterations: C120_nstep_scf says what is returned; C120_nstep_scf_counterexample: in MD outputs entry i does not belong to step i, as the start structure is left out of the energies but not here."
  },
  {
   "property": "C121",
   "status": "proved",
   "theorems": [
    "Pwtools.Debye.C121_debye",
    "Pwtools.Debye.C121_expansion_einstein",
    "Pwtools.Debye.C121_expansion_debye"
   ],
   "note": "Real numbers instead of floats. The error bound is 4/(x (nstep-1)^2) + zero^3/x."
  },
  {
   "property": "C122",
   "status": "proved",
   "theorems": [
    "Pwtools.PwRead.C122_struct",
    "Pwtools.PwRead.C122_use_alat"
   ],
   "note": "Exact arithmetic; the getters of the container which compute further attributes (coords_frac, volume, ...) are arbitrary."
  },
  {
   "property": "C123",
   "status": "proved",
   "theorems": [
    "Pwtools.Cp2kOut.C123_forces_of",
    "Pwtools.Cp2kOut.C123_forces",
    "Pwtools.Cp2kOut.C123_natoms",
    "Pwtools.Cp2kOut.C123_timestep",
    "Pwtools.Cp2kOut.C123_run_type"
   ],
   "note": "Rows are separated by blanks and begin with one, as CP2K writes them."
  },
  {
   "property": "C124",
   "status": "proved",
   "theorems": [
    "Pwtools.Sg.C124_sgroup_rounded",
    "Pwtools.Sg.C124_sgroup"
   ],
   "note": "The number format %.16e is any function whose texts are words and can be read back."
  },
  {
   "property": "C125",
   "status": "partial",
   "theorems": [
    "Pwtools.ThermoNan.C125_above_zero",
    "Pwtools.ThermoNan.C125_fixnan",
    "Pwtools.ThermoNan.C125_zero_partial",
    "Pwtools.ThermoNan.C125_zero_counterexample",
    "Pwtools.ThermoNan.C125_negative_counterexample"
   ],
   "note": "The code violates the property: at T=0 free energy and heat capacity are NaN for every DOS, with and without fixnan (C125_zero_counterexample), and with fixnan negative frequencies contribute to E but not to F and S (C125_negative_counterexample). Proved: T > 0 (C125_above_zero, C125_fixnan), and E and S at T=0 (C125_zero_partial)."
  },
  {
   "property": "C126",
   "status": "partial",
   "theorems": [
    "Pwtools.FftLoop.C126_fft_along_partial",
    "Pwtools.FftLoop.C126_negative_axis",
    "Pwtools.FftLoop.C126_counterexample"
   ],
   "note": "The code violates the property for axes below -1: every negative axis is taken for the last one (C126_negative_axis, C126_counterexample). Proved for non-negative axes and -1 (C126_fft_along_partial)."
  },
  {
   "property": "C127",
   "status": "proved",
   "theorems": [
    "Pwtools.PwMd.C127_tables",
    "Pwtools.PwMd.C127_one_cell",
    "Pwtools.PwMd.C127_traj",
    "Pwtools.PwMd.C127_with_scf"
   ],
   "note": "The getters of the container which compute further attributes (coords from coords_frac, volume, velocity, ...) are arbitrary. Files are as pw.x writes them when a run ends regularly: a last structure without energy is C87_killed_counterexample, a block of positions without a unit is C88_no_unit_counterexample."
  },
  {
   "property": "C128",
   "status": "partial",
   "theorems": [
    "Pwtools.PbcObj.C128_consistent_partial",
    "Pwtools.PbcObj.C128_persistent_partial",
    "Pwtools.PbcObj.C128_result",
    "Pwtools.PbcObj.C128_unshared_partial",
    "Pwtools.PbcObj.C128_view_counterexample",
    "Pwtools.PbcObj.C128_lost_counterexample"
   ],
   "note": "Result of pbc_wrap proved after every history; other objects are unchanged and consistent after every history without copy=False, and for copy=False if the memory is not shared. False otherwise: tr[k] is a view, wrapping it in place leaves the trajectory with contradicting coords and coords_frac (C128_view_counterexample); without a cell pbc_wrap(copy=False) raises and drops coords (C128_lost_counterexample)."
  },
  {
   "property": "C129",
   "status": "partial",
   "theorems": [
    "Pwtools.Cp2kRead.C129_traj_partial",
    "Pwtools.Cp2kRead.C129_steps_partial",
    "Pwtools.Cp2kRead.C129_single_row_counterexample",
    "Pwtools.Cp2kRead.C129_relax_partial",
    "Pwtools.Cp2kRead.C129_relax_refused",
    "Pwtools.Cp2kRead.C129_intervals_counterexample"
   ],
   "note": "Tables with a single row (a run of one step) cannot be read (C129_single_row_counterexample), and files written at different intervals give attributes of different lengths without an error (C129_intervals_counterexample). Everything else holds."
  },
  {
   "property": "C130",
   "status": "partial",
   "theorems": [
    "Pwtools.LmpRead.C130_traj_partial",
    "Pwtools.LmpRead.C130_steps_partial",
    "Pwtools.LmpRead.C130_two_runs_counterexample",
    "Pwtools.LmpRead.C130_default_timestep_counterexample",
    "Pwtools.LmpRead.C130_comment_counterexample",
    "Pwtools.LmpRead.C130_no_symbols_counterexample",
    "Pwtools.LmpRead.C130_volume_counterexample",
    "Pwtools.LmpRead.C130_no_dump",
    "Pwtools.LmpRead.C130_killed",
    "Pwtools.LmpRead.C130_indented_counterexample"
   ],
   "note": "Proved for logs with one table format and triclinic boxes. The code violates the rest: two `run` commands print a step twice in the log, and from there on entry k of the temperature belongs to step k-1 (C130_two_runs_counterexample); a log without a `timestep` command but with `... timesteps/s` in the summary, or a comment behind the time step, cannot be read; a type column without symbols raises KeyError; tables with an indented header (newer LAMMPS) cannot be read; the factor of the user for lengths does not apply to the volume."
  },
  {
   "property": "C131",
   "status": "partial",
   "theorems": [
    "Pwtools.CpmdRead.C131_traj_partial",
    "Pwtools.CpmdRead.C131_steps_partial",
    "Pwtools.CpmdRead.C131_single_row_counterexample",
    "Pwtools.CpmdRead.C131_appended_counterexample",
    "Pwtools.CpmdRead.C131_stride_counterexample",
    "Pwtools.CpmdRead.C131_no_geometry",
    "Pwtools.CpmdRead.C131_killed"
   ],
   "note": "Proved for tables with at least two rows. The code violates the rest: one row in ENERGIES raises IndexError (C131_single_row_counterexample); the time step printed twice, as in an output file to which a restart was appended, raises ValueError (C131_appended_counterexample); files written in different steps give attributes of different length without an error (C131_stride_counterexample)."
  },
  {
   "property": "C132",
   "status": "partial",
   "theorems": [
    "Pwtools.PwVcMd.C132_traj_partial",
    "Pwtools.PwVcMd.C132_steps_partial",
    "Pwtools.PwVcMd.C132_no_rows_counterexample"
   ],
   "note": "Proved for files with at least one row Ekin ... T ... Etot. Without one (killed in the first step) the code raises TypeError instead of returning a Trajectory without kinetic energies (C132_no_rows_counterexample)."
  },
  {
   "property": "C133",
   "status": "partial",
   "theorems": [
    "Pwtools.CpmdScfRead.C133_struct_partial",
    "Pwtools.CpmdScfRead.C133_restart_counterexample",
    "Pwtools.CpmdScfRead.C133_appended_counterexample",
    "Pwtools.CpmdScfRead.C133_no_geometry"
   ],
   "note": "Proved for outputs in which the line two lines before the first message about the restart file is empty or begins with a number. Otherwise int(...) raises ValueError and nothing can be read (C133_restart_counterexample); an appended second output with k points raises ValueError too (C133_appended_counterexample)."
  },
  {
   "property": "C134",
   "status": "partial",
   "theorems": [
    "Pwtools.Cp2kScfRead.C134_struct_partial",
    "Pwtools.Cp2kScfRead.C134_history_counterexample",
    "Pwtools.Cp2kScfRead.C134_user_stress",
    "Pwtools.Cp2kScfRead.C134_no_stress_counterexample",
    "Pwtools.Cp2kScfRead.C134_second_energy_counterexample"
   ],
   "note": "The code violates the property: after a cp2k MD, relax or dcd parser was created, the stress is 1e-4 of the printed one (C134_history_counterexample); an output without stress tensor raises IndexError (C134_no_stress_counterexample); an appended second output raises ValueError (C134_second_energy_counterexample). Proved for everything else."
  },
  {
   "property": "C135",
   "status": "partial",
   "theorems": [
    "Pwtools.DcdRead.C135_cp2k_partial",
    "Pwtools.DcdRead.C135_lammps_partial",
    "Pwtools.DcdRead.C135_killed",
    "Pwtools.DcdRead.C135_same_cell",
    "Pwtools.DcdRead.C135_single_row_counterexample",
    "Pwtools.DcdRead.C135_two_runs_counterexample"
   ],
   "note": "Proved for text tables with at least two rows and logs with one table format and one timestep command. The code violates the rest: with a table of energies of one row the CP2K run cannot be read (C135_single_row_counterexample); with two run commands in the LAMMPS log entry k of the temperature belongs to step k-1 (C135_two_runs_counterexample). C135_same_cell proves the claim in the docstring that both LAMMPS readers find identical cells, over the real numbers and for every positive length factor."
  },
  {
   "property": "C136",
   "status": "partial",
   "theorems": [
    "Pwtools.Pdb.C136_struct_partial",
    "Pwtools.Pdb.C136_no_cell_counterexample",
    "Pwtools.Pdb.C136_no_atoms_counterexample",
    "Pwtools.Pdb.C136_residue_counterexample",
    "Pwtools.Pdb.C136_columns_counterexample",
    "Pwtools.Pdb.C136_prime_counterexample",
    "Pwtools.Pdb.C136_wide_cell_counterexample"
   ],
   "note": "Proved for records whose fields are separated by blanks, without special characters between the name and the coordinates, at least two blanks before the first coordinate and the first cell length, and a CRYST1 record. The code violates the rest: no CRYST1 record raises AttributeError although None is documented (C136_no_cell_counterexample), no atoms raise IndexError (C136_no_atoms_counterexample), a negative residue number is read as x (C136_residue_counterexample), full columns raise ValueError (C136_columns_counterexample), atoms with a prime in the name are left out silently (C136_prime_counterexample), a length of 1000 or more raises AttributeError (C136_wide_cell_counterexample)."
  },
  {
   "property": "C137",
   "status": "partial",
   "theorems": [
    "Pwtools.Cif2any.C137_abinit",
    "Pwtools.Cif2any.C137_abinit_unique",
    "Pwtools.Cif2any.C137_abinit_partial",
    "Pwtools.Cif2any.C137_abinit_counterexample",
    "Pwtools.Cif2any.C137_cpmd",
    "Pwtools.Cif2any.C137_cp2k",
    "Pwtools.Cif2any.C137_pwscf",
    "Pwtools.Cif2any.C137_numbers"
   ],
   "note": "Proved for CPMD, CP2K and PWscf (C137_cpmd, C137_cp2k, C137_pwscf) and the numbers (C137_numbers). For ABINIT C137_abinit says what is read, C137_abinit_partial gives the crystal when the first ntypat atoms have the different symbols in sorted order, and C137_abinit_counterexample shows that wurtzite AlN is read as four Al atoms, because znucl is printed per atom. Not covered: the k-point table and the notes."
  },
  {
   "property": "C138",
   "status": "proved",
   "theorems": [
    "Pwtools.Conv.C138_read_cif",
    "Pwtools.Conv.C138_read_cif_cartesian",
    "Pwtools.Conv.C138_cif2sgroup",
    "Pwtools.Conv.C138_cif2any",
    "Pwtools.Conv.C138_pdb2cif"
   ],
   "note": "C138_read_cif and C138_read_cif_cartesian for any earlier parsers, C138_cif2sgroup, C138_cif2any and C138_pdb2cif for the scripts. Numbers are real; rnd is what is read back from a printed number. PyCifRW (text of a CIF file to data block and back) is not modelled. PDB files: those of C136_struct_partial."
  },
  {
   "property": "C139",
   "status": "proved",
   "theorems": [
    "Pwtools.Ase.C139_roundtrip",
    "Pwtools.Ase.C139_positions",
    "Pwtools.Ase.C139_wrapped",
    "Pwtools.Ase.C139_fake",
    "Pwtools.Ase.C139_none",
    "Pwtools.Ase.C139_pbc_counterexample"
   ],
   "note": "ASE is modelled as documented (Atoms stores Cartesian positions; get_scaled_positions wraps periodic directions). C139_pbc_counterexample shows that Cartesian coordinates are not kept with pbc=True, as the documentation of get_ase_atoms warns."
  },
  {
   "property": "C140",
   "status": "partial",
   "theorems": [
    "Pwtools.SqlQ.C140_list_partial",
    "Pwtools.SqlQ.C140_column_partial",
    "Pwtools.SqlQ.C140_single_partial",
    "Pwtools.SqlQ.C140_blob_counterexample",
    "Pwtools.SqlQ.C140_create",
    "Pwtools.SqlQ.C140_header_roundtrip",
    "Pwtools.SqlQ.C140_table_keyword",
    "Pwtools.SqlQ.C140_add_columns",
    "Pwtools.SqlQ.C140_history",
    "Pwtools.SqlQ.C140_has_table"
   ],
   "note": "The statements about the query helpers exclude BLOB columns (C140_list_partial, C140_column_partial, C140_single_partial): C140_blob_counterexample shows that the bytes of BLOBs are returned as integers, all rows joined, and get_single raises. The statements about tables are complete. SQL text is not parsed; sqlite is modelled as in C12-C14."
  },
  {
   "property": "C141",
   "status": "partial",
   "theorems": [
    "Pwtools.Thermo.C141_history",
    "Pwtools.Thermo.C141_results",
    "Pwtools.Thermo.C141_fresh_partial",
    "Pwtools.Thermo.C141_repeat",
    "Pwtools.Thermo.C141_stale_counterexample"
   ],
   "note": "C141_history says exactly which functions are used. The property holds unless 1d-ax is set after a calculation (C141_fresh_partial); then the old axis fits are used (C141_stale_counterexample). Fit functions do not raise; changing attributes of the object or arrays in a result by hand is not modelled."
  },
  {
   "property": "C142",
   "status": "partial",
   "theorems": [
    "Pwtools.Fqha.C142_lines",
    "Pwtools.Fqha.C142_output_partial",
    "Pwtools.Fqha.C142_natoms",
    "Pwtools.Fqha.C142_comment_counterexample"
   ],
   "note": "Proved for files without comment lines (C142_output_partial), C142_lines for all files. The code violates the property for files with a comment line, as newer versions of matdyn.x write them (C142_comment_counterexample). F_QHA.f90 is not in the repository; its format is taken from the comments of the script."
  },
  {
   "property": "C143",
   "status": "proved",
   "theorems": [
    "Pwtools.Gather.C143_history",
    "Pwtools.Gather.C143_interrupted",
    "Pwtools.Gather.C143_gather",
    "Pwtools.Gather.C143_returns"
   ],
   "note": "Gather scripts do not write to the columns of write_input itself (revision, study_name, idx, calc_name, hostname). Calls of write_input in the history return; interrupted ones are C17."
  },
  {
   "property": "C144",
   "status": "partial",
   "theorems": [
    "Pwtools.GL.C144_history",
    "Pwtools.GL.C144_same",
    "Pwtools.GL.C144_reset_remark",
    "Pwtools.GL.C144_raw_partial",
    "Pwtools.GL.C144_raw_counterexample",
    "Pwtools.GL.C144_slice",
    "Pwtools.GL.C144_init"
   ],
   "note": "The history part is proved in full (C144_history, C144_same). C144_raw_partial leaves out raw arrays of shape (1,): there the code violates what the docstring of raw_return says (C144_raw_counterexample). Assignments of attributes by the user between calls are not in the history; a computed attribute is then not recomputed (C144_reset_remark for resetting)."
  },
  {
   "property": "C145",
   "status": "partial",
   "theorems": [
    "Pwtools.Peaks.C145_positions_partial",
    "Pwtools.Peaks.C145_found",
    "Pwtools.Peaks.C145_left_edge",
    "Pwtools.Peaks.C145_no_axis",
    "Pwtools.Peaks.C145_edge_counterexample",
    "Pwtools.Peaks.C145_other_counterexample"
   ],
   "note": "C145_positions_partial leaves out peaks closer than spread to the first point. There the code violates the property: it raises for every input with at least 2*spread+1 points (C145_left_edge, C145_edge_counterexample), or returns the position of another peak (C145_other_counterexample). The spline is a parameter with the properties in Spec.GoodSpline; Lagrange interpolation has them (lagrange_good)."
  },
  {
   "property": "C146",
   "status": "partial",
   "theorems": [
    "Pwtools.ReplKeys.C146_keys",
    "Pwtools.ReplKeys.C146_available",
    "Pwtools.ReplKeys.C146_replaced_partial",
    "Pwtools.ReplKeys.C146_only",
    "Pwtools.ReplKeys.C146_prefix_counterexample"
   ],
   "note": "The keys and their rules are proved in full (C146_keys, C146_available, C146_only). C146_replaced_partial assumes that the rules are unambiguous for the template; otherwise the code violates the docstring, e.g. for a parameter named id and the placeholder XXXIDX (C146_prefix_counterexample). The temporary directory and its removal are not modelled."
  },
  {
   "property": "C147",
   "status": "partial",
   "theorems": [
    "Pwtools.Dispersion.C147_labels_partial",
    "Pwtools.Dispersion.C147_tick_distance",
    "Pwtools.Dispersion.C147_coords",
    "Pwtools.Dispersion.C147_dos",
    "Pwtools.Dispersion.C147_no_special_points_counterexample",
    "Pwtools.Dispersion.C147_frac_required_counterexample",
    "Pwtools.Dispersion.C147_symbols_required"
   ],
   "note": "The placement of labels and curves is proved for all paths (C147_labels_partial, C147_tick_distance, C147_coords, C147_dos). The code violates the documented optional arguments: without special_points_path plot_dis always raises (C147_no_special_points_counterexample), SpecialPointsPath without ks_frac always raises (C147_frac_required_counterexample), without symbols it cannot be plotted (C147_symbols_required)."
  },
  {
   "property": "C148",
   "status": "partial",
   "theorems": [
    "Pwtools.Compare.C148_equal_complete",
    "Pwtools.Compare.C148_equal_partial",
    "Pwtools.Compare.C148_almost_partial",
    "Pwtools.Compare.C148_tolerance_partial",
    "Pwtools.Compare.C148_tolerance_text_counterexample",
    "Pwtools.Compare.C148_keys_partial",
    "Pwtools.Compare.C148_keys_missing",
    "Pwtools.Compare.C148_strict_partial",
    "Pwtools.Compare.C148_strict_scalar",
    "Pwtools.Compare.C148_shape_counterexample",
    "Pwtools.Compare.C148_scalar_counterexample",
    "Pwtools.Compare.C148_strict_nested_counterexample",
    "Pwtools.Compare.C148_tolerance_nested_counterexample",
    "Pwtools.Compare.C148_dict_other_counterexample"
   ],
   "note": "Equal values always compare as equal (C148_equal_complete); the converse is proved if arrays at the same place have the same shape (C148_equal_partial, C148_almost_partial, C148_keys_partial, C148_tolerance_partial). The code violates the rest: arrays whose shapes can be broadcast are equal (C148_shape_counterexample), a number equals an array (C148_scalar_counterexample), strict and tolerances are dropped in nested dicts (C148_strict_nested_counterexample, C148_tolerance_nested_counterexample, C148_tolerance_text_counterexample), a dict compared with something else raises (C148_dict_other_counterexample). Numpy scalars, bools, lists and NaN are not modelled."
  },
  {
   "property": "C149",
   "status": "partial",
   "theorems": [
    "Pwtools.Dists.C149_distsq",
    "Pwtools.Dists.C149_distsq_refused",
    "Pwtools.Dists.C149_distsq_result",
    "Pwtools.Dists.C149_modes_partial",
    "Pwtools.Dists.C149_modes_counterexample",
    "Pwtools.Dists.C149_mean",
    "Pwtools.Dists.C149_units",
    "Pwtools.Dists.C149_order",
    "Pwtools.Dists.C149_positive",
    "Pwtools.Dists.C149_flat",
    "Pwtools.Dists.C149_line",
    "Pwtools.Dists.C149_init",
    "Pwtools.Dists.C149_gauss_units",
    "Pwtools.Dists.C149_origin",
    "Pwtools.Dists.C149_exact_units"
   ],
   "note": "num.distsq is proved for every schedule (C149_distsq), the estimates and models in full. The JAX variant of squared_dists accepts points of different dimension if one dimension is 1, where the others raise (C149_modes_counterexample). Invariance of regularised models in other units is proved for the Gaussian kernel (it fails for the others, whose values scale with the units); with r=0 for all kernels. The docstring of estimate_p names the scipy estimate 'mean nearest neighbor distance'; C149_line shows what it is for a regular line."
  },
  {
   "property": "C150",
   "status": "partial",
   "theorems": [
    "Pwtools.Cut.C150_cp2k",
    "Pwtools.Cut.C150_cpmd",
    "Pwtools.Cut.C150_simulate",
    "Pwtools.Cut.C150_kept",
    "Pwtools.Cut.C150_rerun_partial",
    "Pwtools.Cut.C150_rename_counterexample",
    "Pwtools.Cut.C150_second_run_counterexample",
    "Pwtools.Cut.C150_cpmd_rerun_partial",
    "Pwtools.Cut.C150_cpmd_again_counterexample",
    "Pwtools.Cut.C150_lookup",
    "Pwtools.Cut.C150_no_value_counterexample",
    "Pwtools.Cut.C150_no_pos_counterexample",
    "Pwtools.Cut.C150_first_step_counterexample"
   ],
   "note": "Proved: complete runs, backups, -s, originals kept at every crash point of one run, same result after crash and second run where no file is missing and (CP2K) a step is left in the position file. Violated by the code, with counterexamples: a crash between the two renames of sed leaves the file only as .bak and a second run skips it; a second run overwrites the backups; every further run of cut-cpmd.sh deletes one more line of TRAJEC.xyz; without the position file the count line of the deleted step stays; a restart file without STEP_START_VAL makes the step empty and nearly everything is deleted."
  },
  {
   "property": "C151",
   "status": "proved",
   "theorems": [
    "Pwtools.PolyStr.C151_poly_str",
    "Pwtools.PolyStr.C151_injective",
    "Pwtools.PolyStr.C151_no_variables"
   ],
   "note": ""
  },
  {
   "property": "C152",
   "status": "proved",
   "theorems": [
    "Pwtools.Inner.C152_1d",
    "Pwtools.Inner.C152_edges",
    "Pwtools.Inner.C152_inner",
    "Pwtools.Inner.C152_equal_points"
   ],
   "note": ""
  },
  {
   "property": "C153",
   "status": "proved",
   "theorems": [
    "Pwtools.Styles.C153_cycle",
    "Pwtools.Styles.C153_iter",
    "Pwtools.Styles.C153_smooth",
    "Pwtools.Styles.C153_smooth_one"
   ],
   "note": ""
  },
  {
   "property": "C154",
   "status": "proved",
   "theorems": [
    "Pwtools.Styles.C154_legends",
    "Pwtools.Styles.C154_prepare"
   ],
   "note": ""
  },
  {
   "property": "C155",
   "status": "partial",
   "theorems": [
    "Pwtools.Rp.C155_supercell",
    "Pwtools.Rp.C155_number_partial",
    "Pwtools.Rp.C155_vmd_counterexample"
   ],
   "note": "Proved in full for norm_vmd=False (C155_supercell). With norm_vmd=True g(r) does depend on the supercell: C155_vmd_counterexample gives the exact factor N(A-1)/(NA-1); radii and number integral agree (C155_number_partial)."
  },
  {
   "property": "C156",
   "status": "proved",
   "theorems": [
    "Pwtools.Rp.C156_distance",
    "Pwtools.Rp.C156_distance_open",
    "Pwtools.Rp.C156_rpdf",
    "Pwtools.Rp.C156_wrap"
   ],
   "note": ""
  },
  {
   "property": "C157",
   "status": "proved",
   "theorems": [
    "Pwtools.Thermo.C157_low_temperature",
    "Pwtools.Thermo.C157_heat",
    "Pwtools.Thermo.C157_monotone",
    "Pwtools.Thermo.C157_zero_point",
    "Pwtools.Thermo.C157_additive"
   ],
   "note": ""
  },
  {
   "property": "C158",
   "status": "proved",
   "theorems": [
    "Pwtools.Dos.C158_products",
    "Pwtools.Dos.C158_units",
    "Pwtools.Dos.C158_rotation",
    "Pwtools.Dos.C158_order",
    "Pwtools.Dos.C158_copies",
    "Pwtools.Dos.C158_rest",
    "Pwtools.Dos.C158_reversal"
   ],
   "note": ""
  },
  {
   "property": "C159",
   "status": "proved",
   "theorems": [
    "Pwtools.Rbf.Obj.C159_isometry",
    "Pwtools.Rbf.Obj.C159_order",
    "Pwtools.Rbf.Obj.C159_units",
    "Pwtools.Rbf.Obj.C159_linear"
   ],
   "note": ""
  },
  {
   "property": "C160",
   "status": "proved",
   "theorems": [
    "Pwtools.Poly.C160_unique",
    "Pwtools.Poly.C160_exact",
    "Pwtools.Poly.C160_linear",
    "Pwtools.Poly.C160_units",
    "Pwtools.Poly.C160_grid",
    "Pwtools.Poly.C160_exists"
   ],
   "note": ""
  },
  {
   "property": "C161",
   "status": "proved",
   "theorems": [
    "Pwtools.Rp.C161_distances",
    "Pwtools.Rp.C161_volume_smith",
    "Pwtools.Rp.C161_rpdf",
    "Pwtools.Rp.C161_angles",
    "Pwtools.Rp.C161_neighbours_cutoff",
    "Pwtools.Rp.C161_neighbours_num",
    "Pwtools.Rp.C161_total"
   ],
   "note": ""
  },
  {
   "property": "C162",
   "status": "proved",
   "theorems": [
    "Pwtools.Cry.C162_crystal",
    "Pwtools.Cry.C162_compose",
    "Pwtools.Cry.C162_commute",
    "Pwtools.Cry.C162_direc",
    "Pwtools.Cry.C162_one",
    "Pwtools.Cry.C162_negative"
   ],
   "note": ""
  },
  {
   "property": "C163",
   "status": "partial",
   "theorems": [
    "Pwtools.MplPlot.C163_lines_partial",
    "Pwtools.MplPlot.C163_lines_shapes",
    "Pwtools.MplPlot.C163_lines_1d",
    "Pwtools.MplPlot.C163_lines_counterexample",
    "Pwtools.MplPlot.C163_color_partial",
    "Pwtools.MplPlot.C163_color_both",
    "Pwtools.MplPlot.C163_savefig",
    "Pwtools.MplPlot.C163_offset",
    "Pwtools.MplPlot.C163_whitespace",
    "Pwtools.MplPlot.C163_name"
   ],
   "note": "Violated by the code in two documented uses, proved: plotlines3d with a 1d z always fails (z[:,j] instead of zz[:,j], C163_lines_1d, C163_lines_counterexample) and color_ax(axis='both') always fails (C163_color_both). Proved for 2d z, for axis x or y, and in full for savefig and new_axis. new_axis names every line bottom2 and not bottom2, bottom3, \u2026 as its comment says (C163_name)."
  },
  {
   "property": "C164",
   "status": "proved",
   "theorems": [
    "Pwtools.Thermo.C164_exists",
    "Pwtools.Thermo.Gibbs.C164_enthalpy",
    "Pwtools.Thermo.Gibbs.C164_gibbs",
    "Pwtools.Thermo.Gibbs.C164_two_axes"
   ],
   "note": "Exact arithmetic; brentq returns an exact root (GoodBrent), fmin any point. hfit says that each fit call of the run is the default one and did not raise; C164_exists gives a condition for this."
  },
  {
   "property": "C165",
   "status": "proved",
   "theorems": [
    "Pwtools.Eos.C165_b1",
    "Pwtools.Eos.C165_minimum",
    "Pwtools.Eos.C165_stability",
    "Pwtools.Eos.C165_compression",
    "Pwtools.Eos.C165_units",
    "Pwtools.Eos.C165_unique",
    "Pwtools.Eos.C165_fit_units",
    "Pwtools.Eos.C165_order"
   ],
   "note": "Real arithmetic; leastsq is not modelled beyond the least squares property of its result (BestVinet)."
  },
  {
   "property": "C166",
   "status": "proved",
   "theorems": [
    "Pwtools.Dos.C166_returns",
    "Pwtools.Dos.C166_short",
    "Pwtools.Dos.C166_modes",
    "Pwtools.Dos.C166_bound",
    "Pwtools.Dos.C166_uniform"
   ],
   "note": "Exact arithmetic; Simpson rule of scipy with even='avg', as in C29."
  },
  {
   "property": "C167",
   "status": "partial",
   "theorems": [
    "Pwtools.Rbf.Obj.C167_optimal_partial",
    "Pwtools.Rbf.Obj.C167_stiffer_partial",
    "Pwtools.Rbf.Obj.C167_limits_partial",
    "Pwtools.Rbf.Obj.C167_multi_counterexample"
   ],
   "note": "Proved for rbf='gauss' and 'inv_multi'. False for 'multi': its kernel matrix is not positive, and adding r can make it singular (C167_multi_counterexample)."
  },
  {
   "property": "C168",
   "status": "partial",
   "theorems": [
    "Pwtools.Sig.C168_linear_map",
    "Pwtools.Sig.C168_linear",
    "Pwtools.Sig.C168_reverse",
    "Pwtools.Sig.C168_within_partial",
    "Pwtools.Sig.C168_within_zero",
    "Pwtools.Sig.C168_order",
    "Pwtools.Sig.C168_middle",
    "Pwtools.Sig.C168_ramp",
    "Pwtools.Sig.C168_centre",
    "Pwtools.Sig.C168_long_counterexample"
   ],
   "note": "'Within the data' is false for edge='m' with kernels reaching beyond the mirrored data, where zeros are added (C168_long_counterexample); then it holds for convex sets that contain zero (C168_within_zero). The other parts are proved in full."
  },
  {
   "property": "C169",
   "status": "partial",
   "theorems": [
    "Pwtools.Tr.C169_methods",
    "Pwtools.Tr.C169_series",
    "Pwtools.Tr.C169_method_error",
    "Pwtools.Tr.C169_frac_partial",
    "Pwtools.Tr.C169_varcell_counterexample",
    "Pwtools.Tr.C169_time_partial",
    "Pwtools.Tr.C169_time_counterexample"
   ],
   "note": "Series, attributes, and equality of the methods are proved in full. Consistency is false for a changing cell (C169_varcell_counterexample) and for time at the ends (C169_time_counterexample); proved for a fixed cell and for times in the middle."
  },
  {
   "property": "C170",
   "status": "partial",
   "theorems": [
    "Pwtools.View.C170_normal_partial",
    "Pwtools.View.C170_refuse",
    "Pwtools.View.C170_bg_counterexample",
    "Pwtools.View.C170_exit_counterexample",
    "Pwtools.View.C170_leak_counterexample",
    "Pwtools.View.C170_leak_many",
    "Pwtools.View.C170_viewers"
   ],
   "note": "Proved for wait=True, bg=False and a viewer with exit code 0. False otherwise: bg=True and wait=False always raise NotImplementedError, start no viewer and leave the files (C170_bg_counterexample); a failing viewer leaves both temporary files (C170_exit_counterexample); each temporary file leaves an open descriptor and symbols None become 'H' (C170_leak_counterexample, C170_leak_many)."
  },
  {
   "property": "C171",
   "status": "partial",
   "theorems": [
    "Pwtools.Interpol.C171_forms",
    "Pwtools.Interpol.C171_conflict",
    "Pwtools.Interpol.C171_dd",
    "Pwtools.Interpol.C171_eval",
    "Pwtools.Interpol.C171_unknown",
    "Pwtools.Interpol.C171_rbf_partial",
    "Pwtools.Interpol.C171_zero_counterexample",
    "Pwtools.Interpol.C171_min",
    "Pwtools.Interpol.C171_min_global"
   ],
   "note": "C171_rbf_partial: at least two different points, values not all zero. False for values that are all zero, which give nan everywhere (C171_zero_counterexample). Everything else is proved in full; scipy's interpolators are opaque."
  },
  {
   "property": "C172",
   "status": "partial",
   "theorems": [
    "Pwtools.Fir.C172_causal",
    "Pwtools.Fir.C172_linear",
    "Pwtools.Fir.C172_shift",
    "Pwtools.Fir.C172_response",
    "Pwtools.Fir.C172_phase",
    "Pwtools.Fir.C172_pass_partial",
    "Pwtools.Fir.C172_taps",
    "Pwtools.Fir.C172_mode",
    "Pwtools.Fir.C172_bandstop_counterexample"
   ],
   "note": "Everything but mode='bandstop', which raises UnboundLocalError for all arguments (C172_bandstop_counterexample). firwin is opaque: number and symmetry of the coefficients and gain 1 in the pass band are hypotheses."
  },
  {
   "property": "C173",
   "status": "partial",
   "theorems": [
    "Pwtools.SqlTx.C173_kill",
    "Pwtools.SqlTx.C173_end",
    "Pwtools.SqlTx.C173_atomic_partial",
    "Pwtools.SqlTx.C173_schema",
    "Pwtools.SqlTx.C173_schema_history",
    "Pwtools.SqlTx.C173_error",
    "Pwtools.SqlTx.C173_finish",
    "Pwtools.SqlTx.C173_attach_counterexample",
    "Pwtools.SqlTx.C173_script"
   ],
   "note": "All or nothing holds for changes of rows (C173_atomic_partial). False for attach_column: its ALTER TABLE is in the file at once, the values only after a commit, and the call cannot be repeated after a kill (C173_attach_counterexample). The rules of the sqlite3 module for transactions are part of the model."
  },
  {
   "property": "C174",
   "status": "proved",
   "theorems": [
    "Pwtools.Cry.C174_accuracy",
    "Pwtools.Cry.C174_quadratic",
    "Pwtools.Cry.C174_linear",
    "Pwtools.Cry.C174_origin",
    "Pwtools.Cry.C174_time",
    "Pwtools.Cry.C174_reverse",
    "Pwtools.Cry.C174_displacement",
    "Pwtools.Cry.C174_rmsd_metric"
   ],
   "note": "Proved in exact arithmetic for all motions and trajectories."
  },
  {
   "property": "C175",
   "status": "proved",
   "theorems": [
    "Pwtools.Thermo.C175_heat",
    "Pwtools.Thermo.C175_energy",
    "Pwtools.Thermo.C175_energy_bounds",
    "Pwtools.Thermo.C175_free",
    "Pwtools.Thermo.C175_entropy",
    "Pwtools.Thermo.C175_dulong_petit",
    "Pwtools.Thermo.C175_units"
   ],
   "note": "Proved for every rule which is a weighted sum with weights depending on the axis (trapz, simps); the inequalities for rules non-negative on non-negative arrays and a non-negative dos."
  },
  {
   "property": "C176",
   "status": "partial",
   "theorems": [
    "Pwtools.Dump.C176_roundtrip",
    "Pwtools.Dump.C176_ok",
    "Pwtools.Dump.C176_kill",
    "Pwtools.Dump.C176_kept_partial",
    "Pwtools.Dump.C176_history",
    "Pwtools.Dump.C176_load",
    "Pwtools.Dump.C176_load_same",
    "Pwtools.Dump.C176_no_reparse",
    "Pwtools.Dump.C176_lost_counterexample"
   ],
   "note": "Partial because of the code: dump opens the file before it pickles, so a dump which raises because the object cannot be pickled destroys the previous dump (C176_lost_counterexample). Everything else is proved."
  },
  {
   "property": "C177",
   "status": "proved",
   "theorems": [
    "Pwtools.Sig.C177_parseval",
    "Pwtools.Sig.C177_real",
    "Pwtools.Sig.C177_delay",
    "Pwtools.Sig.C177_padding",
    "Pwtools.Sig.C177_power",
    "Pwtools.Sig.C177_line"
   ],
   "note": "Proved for all signals; the FFT of scipy is taken as documented (C62)."
  },
  {
   "property": "C178",
   "status": "partial",
   "theorems": [
    "Pwtools.Solv.C178_usage",
    "Pwtools.Solv.C178_frame_partial",
    "Pwtools.Solv.C178_input",
    "Pwtools.Solv.C178_results",
    "Pwtools.Solv.C178_again",
    "Pwtools.Solv.C178_water_counterexample",
    "Pwtools.Solv.C178_log_counterexample",
    "Pwtools.Solv.C178_stale_counterexample",
    "Pwtools.Solv.C178_help_counterexample"
   ],
   "note": "Missing because the script violates it: an input called water.pdb is overwritten without -ci, all *.log files of the directory are deleted, stale results are converted after an error of gmx, names which contain -h only print the usage (four counterexample theorems)."
  },
  {
   "property": "C179",
   "status": "partial",
   "theorems": [
    "Pwtools.Rbf.Obj.C179_fit_partial",
    "Pwtools.Rbf.Obj.C179_call",
    "Pwtools.Rbf.Obj.C179_multi",
    "Pwtools.Rbf.Obj.C179_multi_counterexample"
   ],
   "note": "Missing because the code violates it: multiquadrics with jax (C179_multi, C179_multi_counterexample); sym_pos=True needs a positive definite matrix, that of multiquadrics never is for r=0 and different points."
  },
  {
   "property": "C180",
   "status": "partial",
   "theorems": [
    "Pwtools.Sh.C180_words",
    "Pwtools.Sh.C180_exact",
    "Pwtools.Sh.C180_split",
    "Pwtools.Sh.C180_inject",
    "Pwtools.Sh.C180_clear_partial",
    "Pwtools.Sh.C180_clear_counterexample",
    "Pwtools.Sh.C180_clear_none",
    "Pwtools.Sh.C180_parse_partial",
    "Pwtools.Sh.C180_view_partial",
    "Pwtools.Sh.C180_backtick"
   ],
   "note": "Missing because the code violates it: names are not quoted, so the claims hold exactly for names without characters special to the shell (C180_exact, C180_split, C180_inject, C180_clear_counterexample)."
  },
  {
   "property": "C181",
   "status": "partial",
   "theorems": [
    "Pwtools.Sh.C181_submit_partial",
    "Pwtools.Sh.C181_again",
    "Pwtools.Sh.C181_failed_counterexample",
    "Pwtools.Sh.C181_blank_counterexample",
    "Pwtools.Sh.C181_elsewhere",
    "Pwtools.Sh.C181_text"
   ],
   "note": "Missing because the code violates it: after a failed submission nothing more is submitted (C181_failed_counterexample), and with a blank in the name of the directory only the first job is (C181_blank_counterexample)."
  },
  {
   "property": "C182",
   "status": "proved",
   "theorems": [
    "Pwtools.Cry.C182_rigid",
    "Pwtools.Cry.C182_structure",
    "Pwtools.Cry.C182_trajectory",
    "Pwtools.Cry.C182_angle",
    "Pwtools.Cry.C182_unchecked",
    "Pwtools.Cry.C182_args"
   ],
   "note": ""
  },
  {
   "property": "C183",
   "status": "proved",
   "theorems": [
    "Pwtools.SplD.C183_exact",
    "Pwtools.SplD.C183_refused",
    "Pwtools.SplD.C183_spline",
    "Pwtools.SplD.C183_check",
    "Pwtools.SplD.C183_findmin",
    "Pwtools.SplD.C183_findroot"
   ],
   "note": ""
  },
  {
   "property": "C184",
   "status": "partial",
   "theorems": [
    "Pwtools.Num.C184_untangle_partial",
    "Pwtools.Num.C184_parabolas",
    "Pwtools.Num.C184_order_counterexample"
   ],
   "note": "Missing because the code violates it: with order=0 or order=1 and repeat=1 the reference value is not renewed after order + 2 rows, and all bands get the same value in each later row (C184_order_counterexample)."
  },
  {
   "property": "C185",
   "status": "partial",
   "theorems": [
    "Pwtools.WriteLmp.C185_files",
    "Pwtools.WriteLmp.C185_symbols",
    "Pwtools.WriteLmp.C185_history_partial",
    "Pwtools.WriteLmp.C185_shared_counterexample",
    "Pwtools.WriteLmp.C185_killed",
    "Pwtools.WriteLmp.C185_killed_counterexample",
    "Pwtools.WriteLmp.C185_name_counterexample"
   ],
   "note": "Missing because the code violates it: two structures in one directory share the symbols file, and runs of the first get the symbols of the second (C185_shared_counterexample); a killed call leaves the earlier data file without symbols, which is read as an empty list (C185_killed_counterexample); a data file called lmp.struct.symbols replaces the symbols (C185_name_counterexample). The same file is always named by the same text."
  },
  {
   "property": "C186",
   "status": "proved",
   "theorems": [
    "Pwtools.Cry.C186_finer",
    "Pwtools.Cry.C186_minpoints",
    "Pwtools.Cry.C186_spacing",
    "Pwtools.Cry.C186_supercell",
    "Pwtools.Cry.C186_units",
    "Pwtools.Cry.C186_orientation"
   ],
   "note": ""
  },
  {
   "property": "C187",
   "status": "partial",
   "theorems": [
    "Pwtools.Pw.C187_curves_partial",
    "Pwtools.Pw.C187_args",
    "Pwtools.Pw.C187_truncated_counterexample"
   ],
   "note": "Missing because the code violates it: a truncated file is drawn with arbitrary values for the missing k-points (C187_truncated_counterexample), and the path starts at the distance of the first k-point from the origin instead of 0 (part of C187_curves_partial, see C22_start)."
  },
  {
   "property": "C188",
   "status": "partial",
   "theorems": [
    "Pwtools.Sig.C188_real_partial",
    "Pwtools.Sig.C188_negative_counterexample",
    "Pwtools.Sig.C188_none",
    "Pwtools.Sig.C188_complex_partial",
    "Pwtools.Sig.C188_complex_real",
    "Pwtools.Sig.C188_complex_counterexample",
    "Pwtools.Sig.C188_twice_counterexample"
   ],
   "note": "Missing because the code violates it: for arrays of negative numbers the order is reversed and 1 is the smallest entry (C188_negative_counterexample); for a maximum of 0 there is no finite result (C188_none); for complex arrays the maximum is the largest real part, so absolute values are not bounded (C188_complex_counterexample) and normalising twice differs from normalising once (C188_twice_counterexample)."
  },
  {
   "property": "C189",
   "status": "proved",
   "theorems": [
    "Pwtools.FullPath.C189_canonical",
    "Pwtools.FullPath.C189_names",
    "Pwtools.FullPath.C189_unique",
    "Pwtools.FullPath.C189_two_slashes",
    "Pwtools.FullPath.C189_idempotent",
    "Pwtools.FullPath.C189_home",
    "Pwtools.FullPath.C189_join"
   ],
   "note": "Proved in full for trees without links; os.path is modelled from its posix semantics. C189_two_slashes shows the exception of the statement."
  }
 ]
}