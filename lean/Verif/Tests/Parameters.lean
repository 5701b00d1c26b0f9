/-
The package's own tests of the parameters and of the attempts, `test_parameters.py` and `test_strategies.py` in
`xlseries/tests/strategies`, run on the model. They check that the model agrees with what the authors expect of
the code; they prove nothing about it.
-/
import Verif.Model.ParamsView
import Verif.Model.Attempts
import Verif.Spec.Samples
import Batteries.Lean.Except

set_option autoImplicit false

namespace Xls.Tests

/-- The result is this value. -/
def gives (r : Except Err PVal) (v : PVal) : Bool :=
  match r with
  | .ok w => w.pyEq v
  | .error _ => false

/-- The parameters have these values. -/
def holds (p : Except Err Params) (vs : List (Name × PVal)) : Bool :=
  match p with
  | .ok p => vs.all fun nv => (p nv.1).pyEq nv.2
  | .error _ => false

/-- Two results are the same parameters. -/
def agree (p q : Except Err Params) : Bool :=
  match p, q with
  | .ok p, .ok q => p.pyEq q
  | _, _ => false

/-- The result is these two. -/
def pair (r : Except Err (List Params)) (p q : Except Err Params) : Bool :=
  match r with
  | .ok [a, b] => agree (.ok a) p && agree (.ok b) q
  | _ => false

/-- `remove_non_critical`. -/
def onlyCritical (p : Except Err Params) : Except Err Params := p.bind fun p => p.removeNonCritical false

/-- `test_load_from_json`, `test_load_from_dict`. -/
example :
    agree (Params.ofDict [(.known .alignment, .str c!"vertical"), (.known .blankRows, .bool false),
    (.known .continuity, .bool true), (.known .dataEnds, .int 256), (.known .dataStarts, .int 2), (.known
    .frequency, .str c!"M"), (.known .headersCoord, .list [.str c!"B1", .str c!"C1-C2"]), (.known
    .missings, .bool true), (.known .missingValue, .none), (.known .seriesNames, .none), (.known
    .timeComposed, .bool false), (.known .timeMulticolumn, .bool false), (.known .timeAlignment, .int 0),
    (.known .timeHeaderCoord, .str c!"A1")]) (Params.ofDict [(.known .alignment, .list [.str c!"vertical",
    .str c!"vertical", .str c!"vertical"]), (.known .blankRows, .list [.bool false, .bool false, .bool
    false]), (.known .continuity, .list [.bool true, .bool true, .bool true]), (.known .dataEnds, .list
    [.int 256, .int 256, .int 256]), (.known .dataStarts, .list [.int 2, .int 2, .int 2]), (.known
    .frequency, .list [.str c!"M", .str c!"M", .str c!"M"]), (.known .headersCoord, .list [.str c!"B1",
    .str c!"C1", .str c!"C2"]), (.known .composedHeadersCoord, .none), (.known .context, .none), (.known
    .missings, .list [.bool true, .bool true, .bool true]), (.known .missingValue, .list [.list [.none,
    .str c!"-", .str c!"...", .str c!".", .str c!"/", .str c!"///", .str c!"", .str c!"s.d.", .str
    c!"s/d", .str c!"n,d,", .str c!"s.d", .str c!" "], .list [.none, .str c!"-", .str c!"...", .str c!".",
    .str c!"/", .str c!"///", .str c!"", .str c!"s.d.", .str c!"s/d", .str c!"n,d,", .str c!"s.d", .str
    c!" "], .list [.none, .str c!"-", .str c!"...", .str c!".", .str c!"/", .str c!"///", .str c!"", .str
    c!"s.d.", .str c!"s/d", .str c!"n,d,", .str c!"s.d", .str c!" "]]), (.known .seriesNames, .list
    [.none, .none, .none]), (.known .timeComposed, .list [.bool false, .bool false, .bool false]), (.known
    .timeMulticolumn, .list [.bool false, .bool false, .bool false]), (.known .timeAlignment, .list [.int
    0, .int 0, .int 0]), (.known .timeHeaderCoord, .list [.str c!"A1", .str c!"A1", .str c!"A1"])]) = true := by
  decide +kernel

/-- The expected values themselves. -/
example :
    holds (Params.ofDict [(.known .alignment, .str c!"vertical"), (.known .blankRows, .bool false),
    (.known .continuity, .bool true), (.known .dataEnds, .int 256), (.known .dataStarts, .int 2), (.known
    .frequency, .str c!"M"), (.known .headersCoord, .list [.str c!"B1", .str c!"C1-C2"]), (.known
    .missings, .bool true), (.known .missingValue, .none), (.known .seriesNames, .none), (.known
    .timeComposed, .bool false), (.known .timeMulticolumn, .bool false), (.known .timeAlignment, .int 0),
    (.known .timeHeaderCoord, .str c!"A1")]) [(.alignment, .list [.str c!"vertical", .str c!"vertical",
    .str c!"vertical"]), (.blankRows, .list [.bool false, .bool false, .bool false]), (.continuity, .list
    [.bool true, .bool true, .bool true]), (.dataEnds, .list [.int 256, .int 256, .int 256]),
    (.dataStarts, .list [.int 2, .int 2, .int 2]), (.frequency, .list [.str c!"M", .str c!"M", .str
    c!"M"]), (.headersCoord, .list [.str c!"B1", .str c!"C1", .str c!"C2"]), (.missings, .list [.bool
    true, .bool true, .bool true]), (.missingValue, .list [.list [.none, .str c!"-", .str c!"...", .str
    c!".", .str c!"/", .str c!"///", .str c!"", .str c!"s.d.", .str c!"s/d", .str c!"n,d,", .str c!"s.d",
    .str c!" "], .list [.none, .str c!"-", .str c!"...", .str c!".", .str c!"/", .str c!"///", .str c!"",
    .str c!"s.d.", .str c!"s/d", .str c!"n,d,", .str c!"s.d", .str c!" "], .list [.none, .str c!"-", .str
    c!"...", .str c!".", .str c!"/", .str c!"///", .str c!"", .str c!"s.d.", .str c!"s/d", .str c!"n,d,",
    .str c!"s.d", .str c!" "]]), (.seriesNames, .list [.none, .none, .none]), (.timeComposed, .list [.bool
    false, .bool false, .bool false]), (.timeMulticolumn, .list [.bool false, .bool false, .bool false]),
    (.timeAlignment, .list [.int 0, .int 0, .int 0]), (.timeHeaderCoord, .list [.str c!"A1", .str c!"A1",
    .str c!"A1"])] = true := by
  decide +kernel

/-- `test_get_num_series`. -/
example :
    ((Params.ofDict [(.known .alignment, .str c!"vertical"), (.known .blankRows, .bool false), (.known
    .continuity, .bool true), (.known .dataEnds, .int 256), (.known .dataStarts, .int 2), (.known
    .frequency, .str c!"M"), (.known .headersCoord, .list [.str c!"B1", .str c!"C1-C2"]), (.known
    .missings, .bool true), (.known .missingValue, .none), (.known .seriesNames, .none), (.known
    .timeComposed, .bool false), (.known .timeMulticolumn, .bool false), (.known .timeAlignment, .int 0),
    (.known .timeHeaderCoord, .str c!"A1")]).map fun p => p.num) = .ok (some 3) := by
  decide +kernel

/-- `test_get_series_params`. -/
example :
    holds (Params.ofDict [(.known .alignment, .str c!"vertical"), (.known .blankRows, .bool false),
    (.known .continuity, .bool true), (.known .dataEnds, .int 256), (.known .dataStarts, .int 2), (.known
    .frequency, .str c!"M"), (.known .headersCoord, .list [.str c!"B1", .str c!"C1", .str c!"D1"]),
    (.known .missings, .bool true), (.known .missingValue, .none), (.known .seriesNames, .none), (.known
    .timeComposed, .bool false), (.known .timeAlignment, .int 0), (.known .timeMulticolumn, .bool true),
    (.known .timeHeaderCoord, .list [.str c!"A1", .str c!"A2"])]) [(.timeHeaderCoord, .list [.list [.str
    c!"A1", .str c!"A2"], .list [.str c!"A1", .str c!"A2"], .list [.str c!"A1", .str c!"A2"]])] = true ∧
    (((Params.ofDict [(.known .alignment, .str c!"vertical"), (.known .blankRows, .bool false), (.known
    .continuity, .bool true), (.known .dataEnds, .int 256), (.known .dataStarts, .int 2), (.known
    .frequency, .str c!"M"), (.known .headersCoord, .list [.str c!"B1", .str c!"C1", .str c!"D1"]),
    (.known .missings, .bool true), (.known .missingValue, .none), (.known .seriesNames, .none), (.known
    .timeComposed, .bool false), (.known .timeAlignment, .int 0), (.known .timeMulticolumn, .bool true),
    (.known .timeHeaderCoord, .list [.str c!"A1", .str c!"A2"])]).bind fun p => p.series 0).map fun vs =>
    vs.any fun nv => nv.1 = .timeHeaderCoord && nv.2.pyEq (.list [.str c!"A1", .str c!"A2"])) = .ok true := by
  decide +kernel

/-- `test_valid_param_value`. -/
example :
    validParamValue (.bool true) [.val (.bool true), .val (.bool false)] = true ∧ validParamValue (.bool
    true) [] = true ∧ validParamValue (.str c!"A1") [.val (.bool true), .val (.bool false)] = false ∧
    validParamValue .none [.val (.bool true), .val (.bool false)] = false := by
  decide +kernel

/-- `test_valid_freq`, after the translation of years. -/
example :
    validFreq (.str c!"AQQQQ") = .ok true ∧ validFreq (.str c!"D") = .ok true ∧ validFreq (.str c!"AQQX")
    = .ok false := by
  decide +kernel

/-- `test_freq_translation`, both. -/
example :
    holds (Params.ofDict [(.known .headersCoord, .list [.str c!"A1", .str c!"B1", .str c!"C1"]), (.known
    .dataStarts, .int 2), (.known .dataEnds, .int 256), (.known .frequency, .str c!"y"), (.known
    .timeHeaderCoord, .str c!"A1")]) [(.frequency, .list [.str c!"A", .str c!"A", .str c!"A"])] = true ∧
    holds (Params.ofDict [(.known .headersCoord, .list [.str c!"A1", .str c!"B1", .str c!"C1"]), (.known
    .dataStarts, .int 2), (.known .dataEnds, .int 256), (.known .frequency, .str c!"YQQQQ"), (.known
    .timeHeaderCoord, .str c!"A1")]) [(.frequency, .list [.str c!"AQQQQ", .str c!"AQQQQ", .str
    c!"AQQQQ"])] = true := by
  decide +kernel

/-- `test_get_missings`. -/
example :
    ((Params.ofDict [(.known .alignment, .none), (.known .headersCoord, .list [.str c!"B1", .str c!"C1"]),
    (.known .dataStarts, .int 2), (.known .dataEnds, .int 256), (.known .frequency, .str c!"m"), (.known
    .timeHeaderCoord, .str c!"A1"), (.known .timeMulticolumn, .none), (.known .timeComposed, .none),
    (.known .timeAlignment, .int 0), (.known .continuity, .none), (.known .blankRows, .none), (.known
    .missings, .none), (.known .missingValue, .none), (.known .seriesNames, .none), (.known
    .composedHeadersCoord, .none), (.known .context, .none)]).map fun p => Name.all.filter fun n =>
    p.getMissings.contains n) = .ok (Name.all.filter fun n => [Name.timeComposed, .continuity, .blankRows,
    .missings].contains n) := by
  decide +kernel

/-- `test_validate_parameters_exception`. -/
example :
    validateParams [(.known .continuity, .str c!"A1")] = .error .invalidParameter := by
  decide +kernel

/-- `test_remove_blank_headers`. -/
example :
    holds ((Params.ofDict [(.known .headersCoord, .list [.str c!"A1", .str c!"B1", .str c!"C1"]), (.known
    .dataStarts, .int 2), (.known .dataEnds, .int 256), (.known .frequency, .str c!"m"), (.known
    .timeHeaderCoord, .str c!"A1")]).bind fun p => p.removeBlankHeaders (Sample.rows [[.str
    c!"Importaciones", .str c!"Exportaciones"]])) [(.headersCoord, .list [.str c!"A1", .str c!"B1"]),
    (.dataStarts, .list [.int 2, .int 2]), (.dataEnds, .list [.int 256, .int 256])] = true ∧
    holds ((Params.ofDict [(.known .headersCoord, .list [.str c!"A1_A2", .str c!"B1", .str c!"C1_C2"]),
    (.known .dataStarts, .int 2), (.known .dataEnds, .int 256), (.known .frequency, .str c!"m"), (.known
    .timeHeaderCoord, .str c!"A1")]).bind fun p => p.removeBlankHeaders (Sample.rows [[.str
    c!"Importaciones", .str c!"Exportaciones", .str c!"Saldo"]])) [(.headersCoord, .list [.str c!"A2",
    .str c!"B1", .str c!"C2"]), (.dataStarts, .list [.int 2, .int 2, .int 2]), (.dataEnds, .list [.int
    256, .int 256, .int 256])] = true ∧
    holds ((Params.ofDict [(.known .headersCoord, .list [.str c!"A1", .str c!"E1", .str c!"E2", .str
    c!"E3", .str c!"E4"]), (.known .dataStarts, .int 2), (.known .dataEnds, .int 256), (.known .frequency,
    .str c!"m"), (.known .timeHeaderCoord, .str c!"A1")]).bind fun p => p.removeBlankHeaders (Sample.rows
    [[.str c!"Importaciones", .str c!"Exportaciones", .str c!"Saldo"], [], [], [.none, .none, .none,
    .none, .str c!"dont remove!"]])) [(.headersCoord, .list [.str c!"A1", .str c!"E4"]), (.dataStarts,
    .list [.int 2, .int 2]), (.dataEnds, .list [.int 256, .int 256])] = true := by
  decide +kernel

/-- `test_remove_series`. -/
example :
    holds ((Params.ofDict [(.known .headersCoord, .list [.str c!"A1", .str c!"B1", .str c!"C1"]), (.known
    .dataStarts, .int 2), (.known .dataEnds, .int 256), (.known .frequency, .str c!"m"), (.known
    .timeHeaderCoord, .str c!"A1")]).bind fun p => p.removeSeries 1) [(.headersCoord, .list [.str c!"A1",
    .str c!"C1"]), (.dataStarts, .list [.int 2, .int 2]), (.timeHeaderCoord, .list [.str c!"A1", .str
    c!"A1"])] = true := by
  decide +kernel

/-- `test_ensure_critical_parameters_exception`. -/
example :
    checkHasCritical [(.known .dataStarts, .none)] [.dataStarts] = .error .criticalParameterMissing := by
  decide +kernel

/-- `test_check_consistency`. -/
example :
    checkConsistency (.int 1) [.str c!"A2", .str c!"B2", .str c!"C2", .str c!"D2"] none = .error
    .assertionError ∧ checkConsistency (.int 1) [.str c!"B1", .str c!"B2", .str c!"B3", .str c!"B4"] none
    = .error .assertionError := by
  decide +kernel

/-- `test_guess_alignment`. -/
example :
    gives (guessAlignment [.str c!"A1", .str c!"B1", .str c!"C1"]) (.str c!"vertical") = true ∧
    gives (guessAlignment [.str c!"A1", .str c!"B1", .str c!"D1", .str c!"E1"]) (.str c!"vertical") = true ∧
    gives (guessAlignment [.str c!"A1", .str c!"A2"]) (.str c!"horizontal") = true ∧
    gives (guessAlignment [.str c!"A1", .str c!"A3", .str c!"A5", .str c!"A7"]) (.str c!"horizontal") =
    true ∧
    gives (guessAlignment [.str c!"A1", .str c!"A3", .str c!"A5"]) (.none) = true ∧
    gives (guessAlignment [.str c!"A1", .str c!"A3", .str c!"A5", .str c!"B7"]) (.none) = true := by
  decide +kernel

/-- `test_apply_to_all_missing_value`. -/
example :
    gives (applyMissingValue (.str c!"-") (some 3)) (.list [.list [.str c!"-"], .list [.str c!"-"], .list
    [.str c!"-"]]) = true ∧
    gives (applyMissingValue (.list [.str c!"-"]) (some 3)) (.list [.list [.str c!"-"], .list [.str
    c!"-"], .list [.str c!"-"]]) = true ∧
    gives (applyMissingValue (.list [.str c!"-", .str c!"."]) (some 3)) (.list [.list [.str c!"-", .str
    c!"."], .list [.str c!"-", .str c!"."], .list [.str c!"-", .str c!"."]]) = true ∧
    gives (applyMissingValue (.list []) (some 3)) (.list [.list [], .list [], .list []]) = true := by
  decide +kernel

/-- `test_unpack_header_ranges`. -/
example :
    gives (unpackRanges (.str c!"a5-A8")) (.list [.str c!"A5", .str c!"A6", .str c!"A7", .str c!"A8"]) =
    true ∧
    gives (unpackRanges (.str c!"A5-c5")) (.list [.str c!"A5", .str c!"B5", .str c!"C5"]) = true ∧
    gives (unpackRanges (.str c!"a5")) (.list [.str c!"A5"]) = true ∧
    gives (unpackRanges (.str c!"None")) (.none) = true ∧
    gives (unpackRanges (.list [.list [.str c!"A1", .str c!"A2"], .list [.str c!"A1", .str c!"A2"]]))
    (.list [.list [.str c!"A1", .str c!"A2"], .list [.str c!"A1", .str c!"A2"]]) = true ∧
    gives (unpackRanges (.list [.list [.str c!"A1-A3"], .list [.str c!"A1-A3"]])) (.list [.list [.str
    c!"A1", .str c!"A2", .str c!"A3"], .list [.str c!"A1", .str c!"A2", .str c!"A3"]]) = true := by
  decide +kernel

/-- `test_unpack_composed_header_ranges`. -/
example :
    gives (unpackRanges (.str c!"(a5_B5)-(A8_B8)")) (.list [.str c!"A5_B5", .str c!"A6_B6", .str
    c!"A7_B7", .str c!"A8_B8"]) = true ∧
    gives (unpackRanges (.list [.list [.str c!"(A1_B1)-(A3_b3)"], .list [.str c!"(A1_B1)-(A3_b3)"]]))
    (.list [.list [.str c!"A1_B1", .str c!"A2_B2", .str c!"A3_B3"], .list [.str c!"A1_B1", .str c!"A2_B2",
    .str c!"A3_B3"]]) = true := by
  decide +kernel

/-- `test_separate_composed_headers`. -/
example :
    gives ((separateAll [.str c!"A1_B1", .str c!"A2_B2", .str c!"A3_B3"]).map composedOf) (.list [.list
    [.str c!"A1"], .list [.str c!"A2"], .list [.str c!"A3"]]) = true ∧ gives ((separateAll [.str
    c!"A1_B1", .str c!"A2_B2", .str c!"A3_B3"]).map headersOf) (.list [.str c!"B1", .str c!"B2", .str
    c!"B3"]) = true ∧
    gives ((separateAll [.str c!"A1_B1_C1", .str c!"A2_B2_C2", .str c!"A3_B3_C3"]).map composedOf) (.list
    [.list [.str c!"A1", .str c!"B1"], .list [.str c!"A2", .str c!"B2"], .list [.str c!"A3", .str
    c!"B3"]]) = true ∧ gives ((separateAll [.str c!"A1_B1_C1", .str c!"A2_B2_C2", .str c!"A3_B3_C3"]).map
    headersOf) (.list [.str c!"C1", .str c!"C2", .str c!"C3"]) = true := by
  decide +kernel

/-- `test_process_context`. -/
example :
    gives (processContext (.dict [(c!"GDP", .str c!"A5-A8")]) (.list [.str c!"A5", .str c!"A6", .str
    c!"A7", .str c!"A8"])) (.list [.list [.str c!"GDP"], .list [.str c!"GDP"], .list [.str c!"GDP"], .list
    [.str c!"GDP"]]) = true ∧
    gives (processContext (.dict [(c!"GDP", .str c!"A5-A8")]) (.list [.str c!"B5", .str c!"B6", .str
    c!"B7", .str c!"B8"])) (.list [.list [.str c!"GDP"], .list [.str c!"GDP"], .list [.str c!"GDP"], .list
    [.str c!"GDP"]]) = true ∧
    gives (processContext (.dict [(c!"GDP", .list [.str c!"A5-A6", .str c!"A8-A9"])]) (.list [.str c!"B5",
    .str c!"B6", .str c!"B7", .str c!"B8", .str c!"B9"])) (.list [.list [.str c!"GDP"], .list [.str
    c!"GDP"], .list [], .list [.str c!"GDP"], .list [.str c!"GDP"]]) = true ∧
    gives (processContext (.dict [(c!"GDP", .list [.str c!"A5-A6", .str c!"A8-A9"]), (c!"Agricultural",
    .str c!"A5-A6"), (c!"Industrial", .str c!"A8-A9")]) (.list [.str c!"B5", .str c!"B6", .str c!"B7",
    .str c!"B8", .str c!"B9"])) (.list [.list [.str c!"GDP", .str c!"Agricultural"], .list [.str c!"GDP",
    .str c!"Agricultural"], .list [], .list [.str c!"GDP", .str c!"Industrial"], .list [.str c!"GDP", .str
    c!"Industrial"]]) = true := by
  decide +kernel

/-- `ParametersCriticalDictTestCase.test_case1`. -/
example :
    agree ((Params.ofDict [(.known .dataStarts, .int 2), (.known .frequency, .str c!"m"), (.known
    .headersCoord, .list [.str c!"B1", .str c!"C1"]), (.known .timeHeaderCoord, .str c!"A1")]).map fun p
    => p.remove .alignment) (onlyCritical (Params.ofDict [(.known .continuity, .bool true), (.known
    .timeMulticolumn, .bool false), (.known .timeComposed, .bool false), (.known .seriesNames, .none),
    (.known .missingValue, .none), (.known .timeHeaderCoord, .str c!"A1"), (.known .dataEnds, .int 256),
    (.known .frequency, .str c!"M"), (.known .dataStarts, .int 2), (.known .blankRows, .bool false),
    (.known .headersCoord, .list [.str c!"B1", .str c!"C1"]), (.known .missings, .bool true), (.known
    .alignment, .str c!"vertical"), (.known .timeAlignment, .int 0)])) = true := by
  decide +kernel

/-- `ParametersCriticalDictTestCase.test_case2`. -/
example :
    agree ((Params.ofDict [(.known .blankRows, .list [.bool false, .bool true]), (.known .continuity,
    .list [.bool true, .bool false]), (.known .dataStarts, .list [.int 5, .int 22]), (.known .frequency,
    .list [.str c!"D", .str c!"M"]), (.known .headersCoord, .list [.str c!"D4", .str c!"F4"]), (.known
    .missingValue, .list [.str c!"Implicit", .none]), (.known .missings, .list [.bool true, .bool false]),
    (.known .timeAlignment, .list [.int 0, .int (-1)]), (.known .timeHeaderCoord, .list [.str c!"C4", .str
    c!"F4"])]).map fun p => p.remove .alignment) (onlyCritical (Params.ofDict [(.known .continuity, .list
    [.bool true, .bool false]), (.known .timeMulticolumn, .bool false), (.known .timeComposed, .bool
    false), (.known .seriesNames, .none), (.known .missingValue, .list [.str c!"Implicit", .none]),
    (.known .timeHeaderCoord, .list [.str c!"C4", .str c!"F4"]), (.known .dataEnds, .list [.int 2993, .int
    2986]), (.known .frequency, .list [.str c!"D", .str c!"M"]), (.known .dataStarts, .list [.int 5, .int
    22]), (.known .blankRows, .list [.bool false, .bool true]), (.known .headersCoord, .list [.str c!"D4",
    .str c!"F4"]), (.known .missings, .list [.bool true, .bool false]), (.known .alignment, .str
    c!"vertical"), (.known .timeAlignment, .list [.int 0, .int (-1)])])) = true := by
  decide +kernel

/-- `ParametersCriticalDictTestCase.test_case3`. -/
example :
    agree ((Params.ofDict [(.known .dataStarts, .int 7), (.known .frequency, .str c!"Q"), (.known
    .headersCoord, .list [.str c!"B4", .str c!"C4", .str c!"D4"]), (.known .timeHeaderCoord, .str
    c!"A4")]).map fun p => p.remove .alignment) (onlyCritical (Params.ofDict [(.known .continuity, .bool
    true), (.known .timeMulticolumn, .bool false), (.known .timeComposed, .bool true), (.known
    .seriesNames, .none), (.known .missingValue, .none), (.known .timeHeaderCoord, .str c!"A4"), (.known
    .dataEnds, .int 119), (.known .frequency, .str c!"Q"), (.known .dataStarts, .int 7), (.known
    .blankRows, .bool false), (.known .headersCoord, .list [.str c!"B4", .str c!"C4", .str c!"D4"]),
    (.known .missings, .bool false), (.known .alignment, .str c!"vertical"), (.known .timeAlignment, .int
    0)])) = true := by
  decide +kernel

/-- `ParametersCriticalDictTestCase.test_case4`. -/
example :
    agree ((Params.ofDict [(.known .dataStarts, .list [.int 5, .int 5, .int 5, .int 5, .int 52, .int 52,
    .int 52, .int 52]), (.known .frequency, .str c!"q"), (.known .headersCoord, .list [.str c!"B4", .str
    c!"C4", .str c!"D4", .str c!"E4", .str c!"B51", .str c!"C51", .str c!"D51", .str c!"E51"]), (.known
    .timeHeaderCoord, .list [.str c!"A4", .str c!"A4", .str c!"A4", .str c!"A4", .str c!"A51", .str
    c!"A51", .str c!"A51", .str c!"A51"]), (.known .missingValue, .list [.str c!"…"])]).map fun p =>
    p.remove .alignment) (onlyCritical (Params.ofDict [(.known .continuity, .bool true), (.known
    .timeMulticolumn, .bool false), (.known .timeComposed, .bool true), (.known .seriesNames, .none),
    (.known .missingValue, .str c!"…"), (.known .timeHeaderCoord, .list [.str c!"A4", .str c!"A4", .str
    c!"A4", .str c!"A4", .str c!"A51", .str c!"A51", .str c!"A51", .str c!"A51"]), (.known .dataEnds,
    .list [.int 46, .int 46, .int 46, .int 46, .int 93, .int 93, .int 93, .int 93]), (.known .frequency,
    .str c!"Q"), (.known .dataStarts, .list [.int 5, .int 5, .int 5, .int 5, .int 52, .int 52, .int 52,
    .int 52]), (.known .blankRows, .bool false), (.known .headersCoord, .list [.str c!"B4", .str c!"C4",
    .str c!"D4", .str c!"E4", .str c!"B51", .str c!"C51", .str c!"D51", .str c!"E51"]), (.known .missings,
    .bool true), (.known .alignment, .str c!"vertical"), (.known .timeAlignment, .int 0)])) = true := by
  decide +kernel

/-- `ParametersCriticalDictTestCase.test_case5`. -/
example :
    agree ((Params.ofDict [(.known .dataStarts, .int 28), (.known .frequency, .str c!"M"), (.known
    .headersCoord, .list [.str c!"G22", .str c!"H22"]), (.known .timeHeaderCoord, .str c!"A18")]).map fun
    p => p.remove .alignment) (onlyCritical (Params.ofDict [(.known .continuity, .bool false), (.known
    .timeMulticolumn, .bool false), (.known .timeComposed, .bool true), (.known .seriesNames, .none),
    (.known .missingValue, .none), (.known .timeHeaderCoord, .str c!"A18"), (.known .dataEnds, .int 1001),
    (.known .frequency, .str c!"M"), (.known .dataStarts, .int 28), (.known .blankRows, .bool true),
    (.known .headersCoord, .list [.str c!"G22", .str c!"H22"]), (.known .missings, .bool true), (.known
    .alignment, .str c!"vertical"), (.known .timeAlignment, .int 0)])) = true := by
  decide +kernel

/-- `ParametersCriticalDictTestCase.test_case6`. -/
example :
    agree ((Params.ofDict [(.known .dataStarts, .int 3), (.known .frequency, .str c!"yQQQQ"), (.known
    .headersCoord, .list [.str c!"B8", .str c!"B9", .str c!"B10", .str c!"B11", .str c!"B12", .str
    c!"B13", .str c!"B14", .str c!"B15", .str c!"B16", .str c!"B17", .str c!"B18", .str c!"B19", .str
    c!"B20", .str c!"B21", .str c!"B22", .str c!"B23", .str c!"B24", .str c!"B25", .str c!"B26", .str
    c!"B27", .str c!"B28"]), (.known .timeHeaderCoord, .list [.str c!"C4", .str c!"C6"])]).map fun p =>
    p.remove .alignment) (onlyCritical (Params.ofDict [(.known .continuity, .bool false), (.known
    .timeMulticolumn, .bool true), (.known .timeComposed, .bool true), (.known .seriesNames, .none),
    (.known .missingValue, .none), (.known .timeHeaderCoord, .list [.str c!"C4", .str c!"C6"]), (.known
    .dataEnds, .int 61), (.known .frequency, .str c!"YQQQQ"), (.known .dataStarts, .int 3), (.known
    .blankRows, .bool true), (.known .headersCoord, .str c!"B8-B28"), (.known .missings, .bool false),
    (.known .alignment, .str c!"horizontal"), (.known .timeAlignment, .int 0)])) = true := by
  decide +kernel

/-- `ParametersCriticalDictTestCase.test_case7`. -/
example :
    agree ((Params.ofDict [(.known .dataStarts, .int 2), (.known .frequency, .str c!"Y"), (.known
    .headersCoord, .list [.str c!"A8", .str c!"A10", .str c!"A11", .str c!"A12", .str c!"A14", .str
    c!"A15", .str c!"A16", .str c!"A18", .str c!"A19", .str c!"A20", .str c!"A21", .str c!"A22", .str
    c!"A24", .str c!"A25", .str c!"A26", .str c!"A28", .str c!"A30", .str c!"A32", .str c!"A34", .str
    c!"A36", .str c!"A37", .str c!"A38", .str c!"A39", .str c!"A41", .str c!"A42", .str c!"A43", .str
    c!"A44", .str c!"A46", .str c!"A48", .str c!"A50", .str c!"A51", .str c!"A52", .str c!"A55"]), (.known
    .timeHeaderCoord, .str c!"A6")]).map fun p => p.remove .alignment) (onlyCritical (Params.ofDict
    [(.known .continuity, .bool true), (.known .timeMulticolumn, .bool false), (.known .timeComposed,
    .bool true), (.known .seriesNames, .none), (.known .missingValue, .none), (.known .timeHeaderCoord,
    .str c!"A6"), (.known .dataEnds, .int 44), (.known .frequency, .str c!"Y"), (.known .dataStarts, .int
    2), (.known .blankRows, .bool true), (.known .headersCoord, .list [.str c!"A8", .str c!"A10-A12", .str
    c!"A14-A16", .str c!"A18-A22", .str c!"A24-A26", .str c!"A28", .str c!"A30", .str c!"A32", .str
    c!"A34", .str c!"A36-A39", .str c!"A41-A44", .str c!"A46", .str c!"A48", .str c!"A50-A52", .str
    c!"A55"]), (.known .missings, .bool false), (.known .alignment, .str c!"horizontal"), (.known
    .timeAlignment, .int 0)])) = true := by
  decide +kernel

/-- `test_case_external1`. -/
example :
    holds (Params.ofDict [(.known .dataStarts, .int 2), (.known .frequency, .str c!"Q"), (.known
    .headersCoord, .str c!"A53"), (.known .timeHeaderCoord, .str c!"A52")]) [(.alignment, .none)] = true ∧
    holds (Params.ofDict [(.known .alignment, .str c!"horizontal"), (.known .dataStarts, .int 2), (.known
    .frequency, .str c!"Q"), (.known .headersCoord, .str c!"A53"), (.known .timeHeaderCoord, .str
    c!"A52")]) [(.alignment, .list [.str c!"horizontal"])] = true := by
  decide +kernel

/-- `ParametersIntegrationTestCase.test_composed_headers`. -/
example :
    holds (Params.ofDict [(.known .dataStarts, .int 4), (.known .frequency, .str c!"Q"), (.known
    .headersCoord, .str c!"(A2_B2)-(A5_B5)"), (.known .timeHeaderCoord, .str c!"A1")]) [(.headersCoord,
    .list [.str c!"B2", .str c!"B3", .str c!"B4", .str c!"B5"]), (.composedHeadersCoord, .list [.list
    [.str c!"A2"], .list [.str c!"A3"], .list [.str c!"A4"], .list [.str c!"A5"]])] = true := by
  decide +kernel

/-- `ParametersIntegrationTestCase.test_context`. -/
example :
    holds (Params.ofDict [(.known .dataStarts, .int 2), (.known .frequency, .str c!"Q"), (.known
    .headersCoord, .str c!"A2-A5"), (.known .timeHeaderCoord, .str c!"A1"), (.known .context, .dict
    [(c!"GDP", .str c!"A2-A5")])]) [(.context, .list [.list [.str c!"GDP"], .list [.str c!"GDP"], .list
    [.str c!"GDP"], .list [.str c!"GDP"]])] = true := by
  decide +kernel

/-- `test_generate_attempts`. -/
example :
    pair ((Params.ofDict [(.known .alignment, .str c!"vertical"), (.known .headersCoord, .list [.str
    c!"B1", .str c!"C1"]), (.known .dataStarts, .int 2), (.known .dataEnds, .int 256), (.known .frequency,
    .str c!"M"), (.known .timeHeaderCoord, .str c!"A1"), (.known .timeMulticolumn, .bool true), (.known
    .timeComposed, .bool true), (.known .timeAlignment, .int 0), (.known .continuity, .bool true), (.known
    .blankRows, .bool true), (.known .missings, .none), (.known .missingValue, .none), (.known
    .seriesNames, .none)]).bind fun p => generateAttempts p [.missings]) (Params.ofDict [(.known
    .alignment, .str c!"vertical"), (.known .headersCoord, .list [.str c!"B1", .str c!"C1"]), (.known
    .dataStarts, .int 2), (.known .dataEnds, .int 256), (.known .frequency, .str c!"M"), (.known
    .timeHeaderCoord, .str c!"A1"), (.known .timeMulticolumn, .bool true), (.known .timeComposed, .bool
    true), (.known .timeAlignment, .int 0), (.known .continuity, .bool true), (.known .blankRows, .bool
    true), (.known .missings, .bool false), (.known .missingValue, .none), (.known .seriesNames, .none)])
    (Params.ofDict [(.known .alignment, .str c!"vertical"), (.known .headersCoord, .list [.str c!"B1",
    .str c!"C1"]), (.known .dataStarts, .int 2), (.known .dataEnds, .int 256), (.known .frequency, .str
    c!"M"), (.known .timeHeaderCoord, .str c!"A1"), (.known .timeMulticolumn, .bool true), (.known
    .timeComposed, .bool true), (.known .timeAlignment, .int 0), (.known .continuity, .bool true), (.known
    .blankRows, .bool true), (.known .missings, .bool true), (.known .missingValue, .none), (.known
    .seriesNames, .none)]) = true := by
  decide +kernel

/-- The combinations are these, in this order. -/
def combs (r : Except Err (List (List (Name × PVal)))) (vs : List (List (Name × PVal))) : Bool :=
  match r with
  | .ok cs => cs.length == vs.length && (cs.zip vs).all fun p =>
      p.1.length == p.2.length && p.2.all fun nv => p.1.any fun mw => mw.1 = nv.1 && mw.2.pyEq nv.2
  | .error _ => false

/-- `test_param_combinations_generator_with_default_values`; the package's defaults are false and the ones in the
test true, so the two values come in the other order. -/
example :
    combs (combinations 1 [.missings, .blankRows] [.blankRows, .missings])
      [[(.missings, .bool false), (.blankRows, .bool false)],
       [(.missings, .bool true), (.blankRows, .bool false)],
       [(.missings, .bool false), (.blankRows, .bool true)],
       [(.missings, .bool true), (.blankRows, .bool true)]] = true := by
  decide +kernel

/-- `test_param_combinations_generator_total_results`: each of the 64 combinations once. -/
example :
    (match combinations 5 [.alignment, .continuity, .blankRows, .missings, .timeMulticolumn, .timeComposed]
        likelinessOrder with
      | .ok cs => cs.length == 64 && (listedValues .alignment).all fun a =>
          [true, false].all fun b => [true, false].all fun c => [true, false].all fun d =>
          [true, false].all fun e => [true, false].all fun f => cs.any fun comb =>
            [(Name.alignment, a), (.continuity, .bool b), (.blankRows, .bool c), (.missings, .bool d),
             (.timeMulticolumn, .bool e), (.timeComposed, .bool f)].all fun nv =>
              comb.any fun mw => mw.1 = nv.1 && mw.2.pyEq nv.2
      | .error _ => false) = true := by
  decide +kernel

end Xls.Tests
