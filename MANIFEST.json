{
 "claims": [
  {
   "property": "C01",
   "status": "proved",
   "theorems": [
    "LCQ.C01_matMul",
    "LCQ.C01_matTMul",
    "LCQ.C01_addMatTMul"
   ],
   "note": "Exact arithmetic over any ordered field; the kernels' closed forms in any arithmetic are in Lemmas/Dense."
  },
  {
   "property": "C02",
   "status": "proved",
   "theorems": [
    "LCQ.C02_spMul",
    "LCQ.C02_spTMul",
    "LCQ.C02_addSpTMul"
   ],
   "note": "For every valid csc (unsorted rows and duplicates allowed)."
  },
  {
   "property": "C03",
   "status": "proved",
   "theorems": [
    "LCQ.C03_symProd",
    "LCQ.C03_quadratic_identity",
    "LCQ.C03_symmetric"
   ],
   "note": "Symmetry is proved in any arithmetic."
  },
  {
   "property": "C04",
   "status": "proved",
   "theorems": [
    "LCQ.C04_symProdSparse",
    "LCQ.C04_unsorted_wrong"
   ],
   "note": "Exact arithmetic; includes the negative witness for unsorted rows."
  },
  {
   "property": "C05",
   "status": "proved",
   "theorems": [
    "LCQ.C05_affine",
    "LCQ.C05_spAffine_transposed",
    "LCQ.C05_spAffine_symmetric",
    "LCQ.C05_spAffine_documented_false",
    "LCQ.C05_quadForm",
    "LCQ.C05_spQuadForm"
   ],
   "note": "Includes the witness that the sparse affine map is transposed."
  },
  {
   "property": "C06",
   "status": "proved",
   "theorems": [
    "LCQ.C06_finite",
    "LCQ.C06_infinite",
    "LCQ.C06_nan_ignored"
   ],
   "note": ""
  },
  {
   "property": "C07",
   "status": "proved",
   "theorems": [
    "LCQ.C07_weightedAdd",
    "LCQ.C07_alias"
   ],
   "note": "Any arithmetic."
  },
  {
   "property": "C08",
   "status": "proved",
   "theorems": [
    "LCQ.C08_roundtrip",
    "LCQ.C08_nan_lost",
    "LCQ.C08_denotation"
   ],
   "note": ""
  },
  {
   "property": "C09",
   "status": "proved",
   "theorems": [
    "LCQ.C09_faithful",
    "LCQ.C09_reject",
    "LCQ.C09_denotation"
   ],
   "note": "Any arithmetic for the first two."
  },
  {
   "property": "C10",
   "status": "proved",
   "theorems": [
    "LCQ.C10_copy",
    "LCQ.C10_upper",
    "LCQ.C10_mirror"
   ],
   "note": ""
  },
  {
   "property": "C11",
   "status": "proved",
   "theorems": [
    "LCQ.C11_always_valid",
    "LCQ.C11_nan_breaks",
    "LCQ.C11_any_arithmetic"
   ],
   "note": "The first theorem excludes NaN arguments and out-of-enumeration values of the unchecked enum overloads; C11_nan_breaks shows this is needed."
  },
  {
   "property": "C12",
   "status": "proved",
   "theorems": [
    "LCQ.C12_setters",
    "LCQ.C12_nan"
   ],
   "note": ""
  },
  {
   "property": "C13",
   "status": "proved",
   "theorems": [
    "LCQ.OptWorld.C13_value_semantics",
    "LCQ.OptWorld.C13_self_settings_uaf"
   ],
   "note": "Passing an object its own settings pointer is a use after free (witness); all other client programs have value semantics."
  },
  {
   "property": "C31",
   "status": "proved",
   "theorems": [
    "LCQ.Stats.C31_history",
    "LCQ.Stats.C31_reset",
    "LCQ.Stats.C31_assign",
    "LCQ.Stats.C31_counters",
    "LCQ.Stats.C31_getters"
   ],
   "note": ""
  },
  {
   "property": "C42",
   "status": "proved",
   "theorems": [
    "LCQ.C42_printMessage",
    "LCQ.C42_printSolution",
    "LCQ.C42_messages_distinct",
    "LCQ.C42_codes_distinct",
    "LCQ.C42_loadDense",
    "LCQ.C42_loadSparse",
    "LCQ.C42_loadFiles"
   ],
   "note": ""
  },
  {
   "property": "C18",
   "status": "proved",
   "theorems": [
    "LCQ.C18_terminates",
    "LCQ.C18_fuel",
    "LCQ.C18_bounds",
    "LCQ.C18_init_fails"
   ],
   "note": ""
  },
  {
   "property": "C19",
   "status": "proved",
   "theorems": [
    "LCQ.C19_codes",
    "LCQ.C19_status",
    "LCQ.C19_stale"
   ],
   "note": "C19_stale: a failing initialisation leaves the status of an earlier run in place."
  },
  {
   "property": "C29",
   "status": "proved",
   "theorems": [
    "LCQ.C29_rule",
    "LCQ.C29_off",
    "LCQ.C29_negative",
    "LCQ.C29_pass"
   ],
   "note": ""
  },
  {
   "property": "C30",
   "status": "proved",
   "theorems": [
    "LCQ.C30_tracking"
   ],
   "note": ""
  },
  {
   "property": "C22",
   "status": "proved",
   "theorems": [
    "LCQ.C22_schedule",
    "LCQ.C22_during",
    "LCQ.C22_pass",
    "LCQ.C22_exact",
    "LCQ.C22_monotone"
   ],
   "note": ""
  },
  {
   "property": "C23",
   "status": "proved",
   "theorems": [
    "LCQ.C23_success",
    "LCQ.C23_max",
    "LCQ.C23_bound",
    "LCQ.C23_exact"
   ],
   "note": ""
  },
  {
   "property": "C43",
   "status": "proved",
   "theorems": [
    "LCQ.C43_output",
    "LCQ.C43_init_fails",
    "LCQ.pass_out"
   ],
   "note": "pass_out gives the exact output of every single pass."
  },
  {
   "property": "C14",
   "status": "proved",
   "theorems": [
    "LCQ.C14_stored",
    "LCQ.C14_box",
    "LCQ.C14_matrices",
    "LCQ.C14_hessian"
   ],
   "note": ""
  },
  {
   "property": "C15",
   "status": "proved",
   "theorems": [
    "LCQ.C15_codes",
    "LCQ.C15_missing_LR",
    "LCQ.C15_missing_Q",
    "LCQ.C15_range"
   ],
   "note": "The code faults for missing Q, L or R although codes exist for them; proved as C15_missing_LR and C15_missing_Q. C15_range: one of five codes is returned, never INVALID_COMPLEMENTARITY_MATRIX"
  },
  {
   "property": "C36",
   "status": "proved",
   "theorems": [
    "LCQ.C36_dense",
    "LCQ.C36_sparse",
    "LCQ.C36_modes",
    "LCQ.C36_mixed",
    "LCQ.C36_small",
    "LCQ.C36_one_bound",
    "LCQ.C36_overflow"
   ],
   "note": "C36_dense allows any sequence of loads, options and runs; C36_sparse is a first run with sparse data (later runs can fault, see C34); C36_modes is a first run after any sequence of loads and mode switches; C36_mixed allows loads, mode switches, option changes and runs in any order with at most one run in sparse mode.  C36_one_bound and C36_overflow show that the two hypotheses are needed."
  },
  {
   "property": "C38",
   "status": "proved",
   "theorems": [
    "LCQ.C38_primal",
    "LCQ.C38_dual",
    "LCQ.C38_null",
    "LCQ.C38_uninit"
   ],
   "note": ""
  },
  {
   "property": "C39",
   "status": "proved",
   "theorems": [
    "LCQ.C39_dims",
    "LCQ.C39_usable",
    "LCQ.C39_unusable"
   ],
   "note": ""
  },
  {
   "property": "C16",
   "status": "proved",
   "theorems": [
    "LCQ.C16_codes",
    "LCQ.C16_vectors",
    "LCQ.C16_matrices",
    "LCQ.C16_same"
   ],
   "note": ""
  },
  {
   "property": "C17",
   "status": "proved",
   "theorems": [
    "LCQ.C17_same",
    "LCQ.C17_roundtrip",
    "LCQ.C17_toSparse",
    "LCQ.C17_toDense",
    "LCQ.C17_duplicates",
    "LCQ.C17_bad_index"
   ],
   "note": "C17_toDense: no position stored twice (C17_duplicates shows that this is needed)."
  },
  {
   "property": "C20",
   "status": "proved",
   "theorems": [
    "LCQ.C20_any",
    "LCQ.C20_complementary",
    "LCQ.C20_certified",
    "LCQ.C20_no_update",
    "LCQ.C20_fails"
   ],
   "note": "C20_fails shows that the condition of C20_certified (a penalty update has been made, or the complementarity term has no linear part) is needed; C20_no_update says what is certified otherwise."
  },
  {
   "property": "C21",
   "status": "proved",
   "theorems": [
    "LCQ.C21_stationary",
    "LCQ.C21_error",
    "LCQ.C21_fails"
   ],
   "note": "C21_error gives the exact error for non-zero lower complementarity bounds, C21_fails a witness."
  },
  {
   "property": "C24",
   "status": "proved",
   "theorems": [
    "LCQ.C24_dense",
    "LCQ.C24_head",
    "LCQ.C24_bump"
   ],
   "note": ""
  },
  {
   "property": "C25",
   "status": "proved",
   "theorems": [
    "LCQ.C25_phi",
    "LCQ.C36_one_bound"
   ],
   "note": "C36_one_bound is the null dereference when exactly one of the two lower bounds is given."
  },
  {
   "property": "C26",
   "status": "proved",
   "theorems": [
    "LCQ.C26_range",
    "LCQ.C26_optimal",
    "LCQ.C26_descent",
    "LCQ.C26_increase"
   ],
   "note": "C26_increase shows that the penalty function can increase when the slope is zero and the curvature positive."
  },
  {
   "property": "C27",
   "status": "proved",
   "theorems": [
    "LCQ.C27_pass",
    "LCQ.C27_run",
    "LCQ.C27_success",
    "LCQ.C27_dense",
    "LCQ.C27_sparse",
    "LCQ.C27_products"
   ],
   "note": ""
  },
  {
   "property": "C37",
   "status": "proved",
   "theorems": [
    "LCQ.C37_step",
    "LCQ.C37_gradient",
    "LCQ.C37_drift",
    "LCQ.C37_inexact",
    "LCQ.C37_run",
    "LCQ.C37_returned"
   ],
   "note": ""
  },
  {
   "property": "C47",
   "status": "proved",
   "theorems": [
    "LCQ.C47_not_stationary"
   ],
   "note": ""
  },
  {
   "property": "C48",
   "status": "proved",
   "theorems": [
    "LCQ.C48_first",
    "LCQ.C48_next"
   ],
   "note": ""
  },
  {
   "property": "C33",
   "status": "proved",
   "theorems": [
    "LCQ.C33_code",
    "LCQ.C33_duals",
    "LCQ.C33_run",
    "LCQ.C33_total",
    "LCQ.C33_osqp_refused"
   ],
   "note": "Solver selection table, number of duals, box refusal for OSQP; includes the refusal after an earlier qpOASES run."
  },
  {
   "property": "C40",
   "status": "proved",
   "theorems": [
    "LCQ.C40_qpoases",
    "LCQ.C40_osqp",
    "LCQ.C40_solution"
   ],
   "note": "Return codes, warm starts and solution copies of both wrappers, for every answer of the external solver."
  },
  {
   "property": "C32",
   "status": "proved",
   "theorems": [
    "LCQ.C32_any",
    "LCQ.C32_type",
    "LCQ.TypeIs.unique",
    "LCQ.C32_shift"
   ],
   "note": "Any arithmetic and exact arithmetic; uniqueness of the type for a positive tolerance."
  },
  {
   "property": "C49",
   "status": "proved",
   "theorems": [
    "LCQ.C32_always",
    "LCQ.C32_fails"
   ],
   "note": ""
  },
  {
   "property": "C34",
   "status": "proved",
   "theorems": [
    "LCQ.C34_cleared",
    "LCQ.C34_box",
    "LCQ.C34_again",
    "LCQ.C34_osqp",
    "LCQ.C34_workspace",
    "LCQ.C34_sparse",
    "LCQ.Ex.C34_fails"
   ],
   "note": "Any arithmetic: a run that passed initialisation leaves no box bounds, so the next qpOASES run gets infinite ones (C34_box); a second OSQP run is an out-of-bounds read for every environment (C34_osqp); a run after a reload whose OSQP setup fails uses the released workspace (C34_workspace); a second run of a loaded sparse problem never completes a penalty update (C34_sparse). Exact arithmetic: the second dense run is a run of the problem without its box constraints (C34_again); concrete witness reporting success outside the box (C34_fails)."
  },
  {
   "property": "C35",
   "status": "proved",
   "theorems": [
    "LCQ.C35_load",
    "LCQ.C35_same",
    "LCQ.C35_after_run",
    "LCQ.C35_kept",
    "LCQ.C35_mixed",
    "LCQ.Ex.C35_fails",
    "LCQ.Ex.C35_record",
    "LCQ.Ex.C35_boxes"
   ],
   "note": "Reloading equals a new object when nothing is left over (any arithmetic, dense qpOASES). With left-over lower complementarity bounds the run treats the mixed problem (C35_mixed) and reports success at a non-complementary point (Ex.C35_fails); left-over dynamic penalty records and box bounds change runs (Ex.C35_record, Ex.C35_boxes)."
  },
  {
   "property": "C28",
   "status": "proved",
   "theorems": [
    "LCQ.C28_same",
    "LCQ.C28_objects",
    "LCQ.Ex.C28_asymmetric",
    "LCQ.Ex.C28_tiny"
   ],
   "note": "Exact arithmetic, dense qpOASES against sparse qpOASES (OSQP answers have another form, see C33/C40): same faults, return code, iterate, multipliers, status, statistics with all stored steps, printed text. Preconditions: Q symmetric and no nonzero entry of the complementarity Hessian below 1e-25; both are needed, see the two witnesses."
  },
  {
   "property": "C41",
   "status": "proved",
   "theorems": [
    "LCQ.C41_read",
    "LCQ.C41_full",
    "LCQ.C41_short",
    "LCQ.C41_int",
    "LCQ.C41_write",
    "LCQ.C41_load",
    "LCQ.C41_determined",
    "LCQ.C41_unreadable",
    "LCQ.C41_unnamed",
    "LCQ.C41_dual",
    "LCQ.Ex.C41_garbage"
   ],
   "note": "Files are token streams; any arithmetic. A short file is reported as success and leaves the rest of the buffer as it was (C41_short); a load from files equals the dense load of the arrays read (C41_load); the result is independent of uninitialised memory when all files are full (C41_determined); a named dual guess file is always an out-of-bounds read for positive nV (C41_dual)."
  },
  {
   "property": "C44",
   "status": "proved",
   "theorems": [
    "LCQ.C44_layout",
    "LCQ.C44_plain",
    "LCQ.C44_stats",
    "LCQ.C44_misnamed",
    "LCQ.C44_call"
   ],
   "note": "any arithmetic; C44_misnamed: with stored steps ten of the tracked series are found under another field's name, and the field qp_exit_flag is overwritten"
  },
  {
   "property": "C50",
   "status": "proved",
   "theorems": [
    "LCQ.C50_load",
    "LCQ.C50_outcome",
    "LCQ.C50_symmetric"
   ],
   "note": "any arithmetic; full arrays; guesses in the parameter struct assumed to have the sizes expected by the loader (with OSQP they have not, see C51)"
  },
  {
   "property": "C51",
   "status": "proved",
   "theorems": [
    "LCQ.C51_unchecked",
    "LCQ.C51_checks",
    "LCQ.C51_foreign",
    "LCQ.C51_foreign_empty",
    "LCQ.C51_dual",
    "LCQ.C51_guesses",
    "LCQ.C51_guess_refused"
   ],
   "note": "any arithmetic; the reads past the end for short lbL, sparse g and sparse L are shown by concrete calls (examples in Props/MatlabLoad)"
  },
  {
   "property": "C52",
   "status": "proved",
   "theorems": [
    "LCQ.C52_options",
    "LCQ.C52_refused"
   ],
   "note": "any arithmetic; conversion of double to int is a parameter of the model that may fail; examples with truncating conversion"
  },
  {
   "property": "C53",
   "status": "proved",
   "theorems": [
    "LCQ.C53_mismatch",
    "LCQ.C53_garbage"
   ],
   "note": "any arithmetic"
  },
  {
   "property": "C45",
   "status": "proved",
   "theorems": [
    "LCQ.C45_load",
    "LCQ.C45_right",
    "LCQ.C45_held",
    "LCQ.C45_square",
    "LCQ.C45_row",
    "LCQ.C45_shapes",
    "LCQ.C45_transposed",
    "LCQ.C45_getters",
    "LCQ.Ex.C45_fails"
   ],
   "note": "any arithmetic; numpy to Eigen conversion is external. reread = reading column-major storage as row-major. C45_shapes: only shapes with at most one row or column are safe for all matrices. Ex.C45_fails: success reported at a non-complementary point. The example warm_up_binary.py passes transposed matrices, which C45_transposed shows to be the working way"
  },
  {
   "property": "C46",
   "status": "proved",
   "theorems": [
    "LCQ.Mem.C46_sound",
    "LCQ.Mem.C46_guess",
    "LCQ.Mem.C46_final",
    "LCQ.Mem.C46_stale",
    "LCQ.Mem.C46_members",
    "LCQ.Mem.C46_last_load",
    "LCQ.Mem.C46_clean",
    "LCQ.Mem.C46_reload_leaks",
    "LCQ.Mem.C46_rerun_leaks",
    "LCQ.Mem.C46_qpSparse_leaks",
    "LCQ.Mem.C46_problem",
    "LCQ.Mem.C46_uses",
    "LCQ.Mem.C46_hot",
    "LCQ.Mem.C46_bounds",
    "LCQ.Mem.C46_compBounds",
    "LCQ.Mem.C46_boxes",
    "LCQ.Mem.C46_hessian",
    "LCQ.Mem.C46_toSparse",
    "LCQ.Mem.C46_toDense"
   ],
   "note": "Heap model: pointers, allocations, releases and uses of every member and local array, all branches universally quantified. The claim is false in one situation, which C46_sound excludes and C46_stale proves: an OSQP run whose osqp_setup rejects its input after an earlier OSQP run uses a released workspace. Last load: the last successful one. Further leaks: second run without load (C46_rerun_leaks), every run with sparse qpOASES (C46_qpSparse_leaks)."
  },
  {
   "property": "C54",
   "status": "proved",
   "theorems": [
    "LCQ.Mem.C54_copy",
    "LCQ.Mem.C54_fresh"
   ],
   "note": ""
  },
  {
   "property": "C55",
   "status": "proved",
   "theorems": [
    "LCQ.C55_head",
    "LCQ.C55_iterations",
    "LCQ.C55_enough",
    "LCQ.C55_dense",
    "LCQ.C55_sparse",
    "LCQ.C55_cycles",
    "LCQ.C55_example"
   ],
   "note": "any Archimedean ordered field; the bound B is existential. C55_cycles: convex objective 0, exact answers, dynamic rule off: every iteration limit up to 700000000 is used up"
  },
  {
   "property": "C56",
   "status": "proved",
   "theorems": [
    "LCQ.C56_table",
    "LCQ.C56_last",
    "LCQ.C56_rows",
    "LCQ.C56_merit",
    "LCQ.C56_distance",
    "LCQ.C56_merit_fails"
   ],
   "note": "C56_table and C56_last hold for any arithmetic. Stationarity value: Q symmetric in sparse mode. C56_merit_fails: with nonzero lower complementarity bounds the recorded merit value is not obj + rho*phi"
  },
  {
   "property": "C57",
   "status": "proved",
   "theorems": [
    "LCQ.C57_phi",
    "LCQ.C57_complementary",
    "LCQ.C57_certified",
    "LCQ.C57_stationary",
    "LCQ.C57_error",
    "LCQ.C57_gamma",
    "LCQ.C57_double",
    "LCQ.C57_binary64",
    "LCQ.ExD.solved",
    "LCQ.ExD.solved2"
   ],
   "note": "any arithmetic satisfying Rounds (standard model of floating point arithmetic); C57_binary64: IEEE binary64 (up to the sign of zero) does. Finiteness of the tested values is assumed, because MaxAbs ignores NaN and -inf passes the complementarity test. Dense mode"
  },
  {
   "property": "C58",
   "status": "proved",
   "theorems": [
    "LCQ.C58_unchanged",
    "LCQ.C58_none",
    "LCQ.C58_changed"
   ],
   "note": "IEEE binary64 up to the sign of zero; the boundary |x| = 4 is left out (there adding is absorbed and subtracting may not be)"
  },
  {
   "property": "C59",
   "status": "proved",
   "theorems": [
    "LCQ.C59_value",
    "LCQ.C59_grows",
    "LCQ.C59_bound",
    "LCQ.C59_setters",
    "LCQ.penalty_dbl"
   ],
   "note": "IEEE binary64; NaN is accepted by the setters and excluded by hypothesis; a last example shows that growth fails for a subnormal initial value, which the setter rejects"
  },
  {
   "property": "C60",
   "status": "proved",
   "theorems": [
    "LCQ.C60_new",
    "LCQ.C60_loadDense",
    "LCQ.C60_loadSparse",
    "LCQ.C60_loadDense_overflow",
    "LCQ.C60_loadSparse_overflow",
    "LCQ.C60_run",
    "LCQ.C60_switch",
    "LCQ.C60_switchDense",
    "LCQ.C60_dense",
    "LCQ.C60_sparse",
    "LCQ.C60_count_dns",
    "LCQ.C60_count_dns_fits",
    "LCQ.C60_count_dns_full",
    "LCQ.C60_count_sym",
    "LCQ.C60_count_upper",
    "LCQ.C60_count_merge",
    "LCQ.C60_count_square",
    "LCQ.C60_count_loaded",
    "LCQ.C60_count_switched"
   ],
   "note": "checked copy of the model (Model/Checked.lean), every arithmetic. The counters of stored entries are checked function by function (Model/CheckedCount.lean), not inside the checked run. Not checked: the functions of the interfaces and for files. An example shows that the range test of csc_to_dns overflows itself"
  },
  {
   "property": "C61",
   "status": "proved",
   "theorems": [
    "LCQ.C61_point",
    "LCQ.C61_maxAbs",
    "LCQ.C61_blind",
    "LCQ.NanLike.dbl",
    "LCQ.NanLike.ext"
   ],
   "note": "every arithmetic with NaN-like values; examples in IEEE doubles, among them a run that succeeds at a point that is not stationary. In sparse mode a NaN multiplier reaches only the components with a stored entry in its row; C61_maxAbs says that these are ignored"
  },
  {
   "property": "C62",
   "status": "proved",
   "theorems": [
    "LCQ.C62_qpoases",
    "LCQ.C62_osqp",
    "LCQ.C62_qpoases_ignored",
    "LCQ.C62_osqp_ignored",
    "LCQ.C62_foreign"
   ],
   "note": "any type of numbers. The negative part (foreign scalars) is C62_foreign; sparse scalars are covered by the model but not by C62_qpoases and C62_osqp"
  },
  {
   "property": "C63",
   "status": "proved",
   "theorems": [
    "LCQ.C63_entries",
    "LCQ.C63_error",
    "LCQ.C63_exact",
    "LCQ.C63_magnitude",
    "LCQ.C63_binary64",
    "LCQ.C63_drift"
   ],
   "note": "sorted columns of Q. The bound is for entries whose computed value is a finite number; the drift in doubles is C63_drift"
  },
  {
   "property": "C64",
   "status": "proved",
   "theorems": [
    "LCQ.C64_phi",
    "LCQ.C64_complementary",
    "LCQ.C64_certified",
    "LCQ.C64_stationary",
    "LCQ.C64_error",
    "LCQ.C64_symmetric",
    "LCQ.C64_binary64",
    "LCQ.C64_dropped"
   ],
   "note": "C64_dropped is the witness that the term for dropped entries is needed."
  },
  {
   "property": "C65",
   "status": "proved",
   "theorems": [
    "LCQ.C65_load",
    "LCQ.C65_outcome",
    "LCQ.C65_exact",
    "LCQ.C65_refused",
    "LCQ.C65_mixed",
    "LCQ.C65_vector",
    "LCQ.C65_emptyA"
   ],
   "note": "C65_mixed, C65_vector and C65_emptyA are defects: calls that pass the checks and read outside of an array."
  },
  {
   "property": "C66",
   "status": "proved",
   "theorems": [
    "LCQ.C66_default",
    "LCQ.C66_choice",
    "LCQ.C66_finite",
    "LCQ.C66_nan",
    "LCQ.C66_int",
    "LCQ.C66_index",
    "LCQ.C66_sorted"
   ],
   "note": "C66_finite and C66_nan in exact arithmetic with infinities and NaN; the others in any arithmetic."
  },
  {
   "property": "C67",
   "status": "proved",
   "theorems": [
    "LCQ.C67_outcome",
    "LCQ.C67_exact",
    "LCQ.C67_csc",
    "LCQ.C67_matlab",
    "LCQ.C67_short",
    "LCQ.Ex.C67_shapes",
    "LCQ.Ex.C67_missing"
   ],
   "note": "Ex.C67_shapes and Ex.C67_missing are witnesses of missing checks."
  },
  {
   "property": "C68",
   "status": "proved",
   "theorems": [
    "LCQ.C68_vi",
    "LCQ.C68_compare",
    "LCQ.C68_dense",
    "LCQ.C68_sparse",
    "LCQ.C68_signs",
    "LCQ.C68_not_global"
   ],
   "note": "Exact arithmetic and exactly solved subproblems; C68_not_global is the witness that the minimum need not be global."
  },
  {
   "property": "C69",
   "status": "proved",
   "theorems": [
    "LCQ.C69_symmetric",
    "LCQ.C69_never",
    "LCQ.C69_fails",
    "LCQ.C69_witness"
   ],
   "note": "Exact arithmetic and exactly solved subproblems; C69_witness is a run of the kind excluded from success by C69_fails."
  },
  {
   "property": "C70",
   "status": "proved",
   "theorems": [
    "LCQ.C70_reference",
    "LCQ.Ref.run_unique",
    "LCQ.C70_same",
    "LCQ.C70_loads",
    "LCQ.C70_swap",
    "LCQ.C70_box",
    "LCQ.C70_multipliers"
   ],
   "note": "Exact arithmetic and exactly solved subproblems; runs ended by a failing QP call are excluded (Ref.Own). C70_multipliers is the witness that multipliers may differ."
  },
  {
   "property": "C71",
   "status": "proved",
   "theorems": [
    "LCQ.C71_codes",
    "LCQ.C71_only",
    "LCQ.C71_show",
    "LCQ.C71_cpp",
    "LCQ.C71_status",
    "LCQ.C71_levels",
    "LCQ.C71_level_names",
    "LCQ.C71_distinct",
    "LCQ.C71_all",
    "LCQ.C71_types",
    "LCQ.C71_set_get",
    "LCQ.C71_hidden",
    "LCQ.C71_stats",
    "LCQ.C71_stats_hidden",
    "LCQ.C71_object",
    "LCQ.C71_run"
   ],
   "note": "Arguments of the documented types; pybind11 itself is external."
  },
  {
   "property": "C72",
   "status": "proved",
   "theorems": [
    "LCQ.C72_tokens",
    "LCQ.C72_number",
    "LCQ.C72_read",
    "LCQ.C72_read_int",
    "LCQ.C72_literal",
    "LCQ.C72_write",
    "LCQ.C72_text",
    "LCQ.C72_error",
    "LCQ.C72_exact",
    "LCQ.C72_stable",
    "LCQ.C72_mono",
    "LCQ.C72_small"
   ],
   "note": "Formats of the C library as modelled in Model/Text (no hexadecimal numbers, no nan(...), sign of zero lost)."
  },
  {
   "property": "C73",
   "status": "proved",
   "theorems": [
    "LCQ.C73_value",
    "LCQ.C73_special",
    "LCQ.C73_int",
    "LCQ.C73_width",
    "LCQ.C73_header",
    "LCQ.C73_row",
    "LCQ.C73_overflow",
    "LCQ.C73_run",
    "LCQ.C73_places",
    "LCQ.C73_matrix",
    "LCQ.C73_matrix_int",
    "LCQ.C73_csc",
    "LCQ.C73_step",
    "LCQ.C73_message"
   ],
   "note": "Formats of the C library as modelled in Model/Print (sign of zero lost)."
  },
  {
   "property": "C74",
   "status": "proved",
   "theorems": [
    "LCQ.C74_silent",
    "LCQ.C74_output",
    "LCQ.C74_results",
    "LCQ.C74_program",
    "LCQ.C74_dense",
    "LCQ.C74_sparse",
    "LCQ.C74_modes"
   ],
   "note": ""
  },
  {
   "property": "C75",
   "status": "proved",
   "theorems": [
    "LCQ.Circle.C75_data",
    "LCQ.Circle.C75_safe",
    "LCQ.Circle.C75_meaning",
    "LCQ.Circle.C75_polygon",
    "LCQ.Circle.C75_result",
    "LCQ.Circle.C75_boundary",
    "LCQ.Circle.C75_circle",
    "LCQ.Circle.C75_hundred"
   ],
   "note": "C75_safe and C75_data in any arithmetic; the rest in exact arithmetic, with the accuracy t of the points returned by OSQP as a parameter. Absence of undefined behaviour: bounded QP iteration counts, and OSQP accepting its set-up and warm start at the first QP."
  },
  {
   "property": "C76",
   "status": "proved",
   "theorems": [
    "LCQ.FromFile.C76_tokens",
    "LCQ.FromFile.C76_lines",
    "LCQ.FromFile.C76_column",
    "LCQ.FromFile.C76_forms",
    "LCQ.FromFile.C76_nodir",
    "LCQ.FromFile.C76_divzero",
    "LCQ.FromFile.C76_sizes",
    "LCQ.FromFile.C76_nocomp",
    "LCQ.FromFile.C76_unreadable",
    "LCQ.FromFile.C76_safe",
    "LCQ.FromFile.C76_run",
    "LCQ.FromFile.C76_written",
    "LCQ.FromFile.C76_dual",
    "LCQ.FromFile.C76_rows"
   ],
   "note": "Doubles; files do not change during the run. C76_divzero, C76_nocomp, C76_dual and C76_rows are defects."
  },
  {
   "property": "C77",
   "status": "proved",
   "theorems": [
    "LCQ.WarmUp.C77_options",
    "LCQ.WarmUp.C77_safe",
    "LCQ.WarmUp.C77_max_safe",
    "LCQ.WarmUp.C77_meaning",
    "LCQ.WarmUp.C77_minimizers",
    "LCQ.WarmUp.C77_solution",
    "LCQ.WarmUp.C77_origin",
    "LCQ.WarmUp.C77_max",
    "LCQ.WarmUp.C77_meaningA",
    "LCQ.WarmUp.C77_withA",
    "LCQ.WarmUp.C77_withA_axis",
    "LCQ.WarmUp.C77_meaningB",
    "LCQ.WarmUp.C77_binary",
    "LCQ.WarmUp.C77_binary_values"
   ],
   "note": "C77_safe, C77_max_safe: any arithmetic and QP answers. C77_solution: exact arithmetic and exact QP answers, plain problem (seven of the nine programs). C77_origin is a defect. C77_max: test_max_penalty.cpp ends with exit code 0 (exact arithmetic and QP answers). C77_withA, C77_binary: the two programs with more constraints, exact arithmetic, QP answers within t of feasible points. Absence of undefined behaviour: bounded QP iteration counts, and OSQP accepting its set-up and warm start at the first QP."
  },
  {
   "property": "C78",
   "status": "proved",
   "theorems": [
    "LCQ.C78_dense",
    "LCQ.C78_sparse",
    "LCQ.C78_solution",
    "LCQ.C78_solution_sparse"
   ],
   "note": "C78_dense, C78_sparse: any arithmetic and QP answers. C78_solution, C78_solution_sparse: exact arithmetic; the accuracy t of the QP answers is a parameter. Absence of undefined behaviour: bounded QP iteration counts, and OSQP accepting its set-up and warm start at the first QP."
  },
  {
   "property": "C79",
   "status": "proved",
   "theorems": [
    "LCQ.Script.C79_sizes",
    "LCQ.Script.C79_data",
    "LCQ.Script.C79_sparse",
    "LCQ.Script.C79_warmUp",
    "LCQ.Script.C79_generalized",
    "LCQ.Script.C79_scale",
    "LCQ.Script.C79_test",
    "LCQ.Script.C79_circle",
    "LCQ.Script.C79_solvers_test",
    "LCQ.Script.C79_optimize_on_circle",
    "LCQ.Script.C79_warmUp_ends",
    "LCQ.Script.C79_warmUp_solution",
    "LCQ.Script.C79_generalized_ends",
    "LCQ.Script.C79_generalized_solution",
    "LCQ.Script.C79_scale_solution",
    "LCQ.Script.C79_test_ends",
    "LCQ.Script.C79_solvers_test_ends",
    "LCQ.Script.C79_test_solution",
    "LCQ.Script.C79_circle_solution",
    "LCQ.Script.C79_boundary",
    "LCQ.Script.C79_rhos",
    "LCQ.Script.C79_optimize_on_circle_ends"
   ],
   "note": "C79_data to C79_optimize_on_circle: any arithmetic and QP answers. The rest: exact arithmetic; C79_warmUp_solution with exact QP answers, the other solutions with the accuracy t of the QP answers as a parameter. Absence of undefined behaviour: bounded QP iteration counts, and OSQP accepting its set-up and warm start at the first QP."
  },
  {
   "property": "C80",
   "status": "proved",
   "theorems": [
    "LCQ.PyScript.C80_data",
    "LCQ.PyScript.C80_shapes",
    "LCQ.PyScript.C80_warm_up",
    "LCQ.PyScript.C80_w_A",
    "LCQ.PyScript.C80_max",
    "LCQ.PyScript.C80_binary",
    "LCQ.PyScript.C80_osqp",
    "LCQ.PyScript.C80_sparse_never",
    "LCQ.PyScript.C80_circle_data",
    "LCQ.PyScript.C80_circle_never",
    "LCQ.PyScript.C80_count",
    "LCQ.PyScript.C80_newlines",
    "LCQ.PyScript.C80_files_missing",
    "LCQ.PyScript.C80_files_args",
    "LCQ.PyScript.C80_files_nocomp",
    "LCQ.PyScript.C80_files_never",
    "LCQ.PyScript.C80_warm_up_solution",
    "LCQ.PyScript.C80_w_A_solution",
    "LCQ.PyScript.C80_max_exact",
    "LCQ.PyScript.C80_binary_solution",
    "LCQ.PyScript.C80_osqp_solution",
    "LCQ.PyScript.C80_circle_exact"
   ],
   "note": "C80_data to C80_circle_never: any arithmetic and QP answers (C80_binary, C80_osqp: unless rounding makes 0 or -1/2 equal to minus infinity, or 0+1*1 zero, and OSQP setup succeeds). Files: doubles. The rest: exact arithmetic. Absence of undefined behaviour: bounded QP iteration counts, and OSQP accepting its set-up and warm start at the first QP."
  },
  {
   "property": "C81",
   "status": "proved",
   "theorems": [
    "LCQ.TestSuite.C81_options",
    "LCQ.TestSuite.C81_roundTrip",
    "LCQ.TestSuite.C81_roundTrip_double",
    "LCQ.TestSuite.C81_switch",
    "LCQ.TestSuite.C81_flag",
    "LCQ.TestSuite.C81_flag_sound",
    "LCQ.TestSuite.C81_flag_order",
    "LCQ.TestSuite.C81_warmUp_safe",
    "LCQ.TestSuite.C81_warmUp_exact",
    "LCQ.TestSuite.C81_warmUp_origin"
   ],
   "note": "C81_switch, C81_flag, C81_warmUp_safe: any arithmetic and QP answers; C81_flag_sound: exact arithmetic and doubles (C81_flag_order). C81_warmUp_exact: exact arithmetic and exact QP answers. ASSERT_DOUBLE_EQ is modelled by equality. Absence of undefined behaviour: bounded QP iteration counts, and OSQP accepting its set-up and warm start at the first QP."
  },
  {
   "property": "C82",
   "status": "proved",
   "theorems": [
    "LCQ.Wrap.C82_sound",
    "LCQ.Wrap.C82_leak",
    "LCQ.Wrap.C82_released",
    "LCQ.Wrap.C82_only",
    "LCQ.Wrap.C82_load",
    "LCQ.Wrap.C82_make",
    "LCQ.Wrap.C82_copy"
   ],
   "note": "All programs; allocation is assumed to succeed."
  },
  {
   "property": "C83",
   "status": "proved",
   "theorems": [
    "LCQ.Ref.C83_run",
    "LCQ.C83_same",
    "LCQ.C83_loads",
    "LCQ.Ref.C83_scale",
    "LCQ.Ref.C83_reorder",
    "LCQ.C83_shift"
   ],
   "note": "Exact arithmetic, exact QP answers, strictly convex objective, runs not ended by a failing QP call. C83_shift: the expected invariance under moves of the origin is false."
  },
  {
   "property": "C84",
   "status": "proved",
   "theorems": [
    "LCQ.Ref.C84_run",
    "LCQ.C84_unused",
    "LCQ.C84_loads",
    "LCQ.Ref.C84_stay",
    "LCQ.Ref.C84_fixed",
    "LCQ.C84_recognised",
    "LCQ.C84_guess",
    "LCQ.C84_large",
    "LCQ.C84_worse"
   ],
   "note": "Exact arithmetic, exact QP answers, strictly convex objective, runs not ended by a failing QP call. C84_worse: expected behaviour is false with the default first subproblem."
  },
  {
   "property": "C85",
   "status": "proved",
   "theorems": [
    "LCQ.Ref.C85_penalty",
    "LCQ.C85_codes",
    "LCQ.C85_success",
    "LCQ.C85_total",
    "LCQ.Ref.C85_stays",
    "LCQ.C85_stuck"
   ],
   "note": "Exact arithmetic, exact QP answers, strongly convex objective. The constants in the proof are far beyond practical limits; C85_stuck shows that the expected success fails without the assumption on the constraints."
  },
  {
   "property": "C86",
   "status": "proved",
   "theorems": [
    "LCQ.C86_rows",
    "LCQ.C86_products",
    "LCQ.C86_vi",
    "LCQ.C86_loads",
    "LCQ.C86_hidden"
   ],
   "note": "Arithmetic of the solver itself exact; QP answers exact up to eps in the sense of Qp.Near. C86_hidden: the expected statement that success means complementarity of every pair up to the tolerance is false for inexact answers."
  },
  {
   "property": "C87",
   "status": "proved",
   "theorems": [
    "LCQ.Mex.C87_file",
    "LCQ.Mex.C87_logical",
    "LCQ.Mex.C87_double",
    "LCQ.Mex.C87_values",
    "LCQ.C87_bound",
    "LCQ.C87_norm"
   ],
   "note": "The options file is modelled with its two syntax errors removed. C87_file, C87_double and C87_norm: the documented behaviour is false."
  },
  {
   "property": "C88",
   "status": "proved",
   "theorems": [
    "LCQ.C88_requests",
    "LCQ.C88_none",
    "LCQ.C88_one"
   ],
   "note": "Any arithmetic. What qpOASES and OSQP do with a set-up or a hot start is not modelled; whether a hot start refactorizes is theirs."
  },
  {
   "property": "C89",
   "status": "proved",
   "theorems": [
    "LCQ.C89_dense",
    "LCQ.C89_sparse",
    "LCQ.C89_prepared",
    "LCQ.C89_run",
    "LCQ.C89_again",
    "LCQ.C89_success",
    "LCQ.C89_garbage",
    "LCQ.C89_osqp",
    "LCQ.Ex.C89_depends"
   ],
   "note": "Any arithmetic. Fresh arrays have arbitrary contents chosen by the environment per allocation site. C89_garbage and C89_osqp describe the two exceptions; Ex.C89_depends is a run whose return code depends on uninitialised memory."
  },
  {
   "property": "C90",
   "status": "proved",
   "theorems": [
    "LCQ.C90_off",
    "LCQ.C90_rest",
    "LCQ.C90_used",
    "LCQ.C90_step",
    "LCQ.C90_count",
    "LCQ.Ex.C90_again",
    "LCQ.Ex.C90_code"
   ],
   "note": "Any arithmetic; rand() is an arbitrary sequence of the environment with a position kept in the state. Ex.C90_again and Ex.C90_code: repeated runs need not agree."
  },
  {
   "property": "C91",
   "status": "proved",
   "theorems": [
    "LCQ.C91_any",
    "LCQ.C91_any_penalty",
    "LCQ.C91_unfinished",
    "LCQ.C91_never",
    "LCQ.C91_penalty",
    "LCQ.C91_iterations",
    "LCQ.C91_witness"
   ],
   "note": "C91_any and C91_any_penalty: any arithmetic and all data. The others: exact arithmetic, finite data and answers. C91_penalty assumes that the initial penalty parameter is at most the maximum. C91_witness: a run whose multipliers violate the stationarity condition of the LCQP by 2."
  },
  {
   "property": "C92",
   "status": "proved",
   "theorems": [
    "LCQ.C92_set",
    "LCQ.C92_first",
    "LCQ.C92_run",
    "LCQ.C92_osqp",
    "LCQ.C92_useless"
   ],
   "note": "Any arithmetic. The setters are protected: the statements are about calls from a derived class."
  },
  {
   "property": "C93",
   "status": "proved",
   "theorems": [
    "LCQ.C93_count",
    "LCQ.C93_stale",
    "LCQ.C93_never",
    "LCQ.C93_rho",
    "LCQ.C93_uninit",
    "LCQ.C93_fresh",
    "LCQ.C93_circle",
    "LCQ.C93_witness"
   ],
   "note": "Any arithmetic. C93_count is about runs that do not return one of the three codes of a failed OSQP start."
  }
 ]
}