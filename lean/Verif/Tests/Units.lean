/-
Other unit tests of the package run on the model: `xlseries/tests/strategies/clean/test_time_index.py`,
`xlseries/tests/strategies/get/test_data.py`, `xlseries/tests/strategies/get/test_period_range.py`,
`xlseries/tests/utils/test_xl_methods.py`, `test_comparing.py` and `test_time_manipulation.py`. They check that the
model agrees with what the authors expect of the code; they prove nothing about it.
-/
import Verif.Model.GetData
import Verif.Model.PeriodRange
import Verif.Model.Compare
import Verif.Spec.Samples
import Verif.Tests.ParseTime

set_option autoImplicit false

namespace Xls.Tests

/-! ### Cleaning of time indexes -/

/-- `test_correct_progression_backwards_exception` and `test_correct_progression_forth_exception`. -/
example :
    correctProgression (some ⟨2015, 5, 9, 0⟩) ⟨2015, 2, 15, 0⟩ c!"D" false .none =
      .error .timeValueGoingBackwards ∧
    correctProgression (some ⟨2015, 5, 9, 0⟩) ⟨2016, 6, 30, 0⟩ c!"M" false .none =
      .error .timeValueGoingForth := by decide +kernel

/-- `test_correct_progression`. -/
example :
    correctProgression (some ⟨2011, 7, 5, 0⟩) ⟨2011, 5, 6, 0⟩ c!"D" true (.str c!"Implicit") =
      .ok (some ⟨2011, 7, 6, 0⟩) ∧
    correctProgression (some ⟨2011, 7, 5, 0⟩) ⟨2011, 8, 6, 0⟩ c!"D" true (.str c!"Implicit") =
      .ok (some ⟨2011, 7, 6, 0⟩) := by decide +kernel

/-- `test_forth_time_value_typo`. -/
example : forthTimeValueTypo ⟨2015, 7, 2, 0⟩ ⟨2015, 5, 22, 0⟩ = .ok (some ⟨2015, 5, 2, 0⟩) := by decide +kernel

/-- The parameters of one series of the tests. -/
def params : SParams where
  alignment := .vertical
  seriesName := none
  headerCoord := c!"B1"
  composedHeaders := none
  context := none
  dataStarts := 1
  dataEnds := none
  continuity := true
  blankRows := false
  missings := true
  missingValue := .list [.str c!"Implicit"]
  timeAlignment := 0
  timeMulticolumn := false
  timeHeader := .single c!"A1"
  timeComposed := false
  frequency := c!"D"

/-- `test_parse_time`. -/
example : parseTimeValue ext params none (.str c!"17-12.09") (some ⟨2009, 12, 16, 0⟩) .none =
    (.ok ⟨2009, 12, 17, 0⟩, some .simple) := by decide +kernel

/-- The values the iterator gives at the positions, and the sheet afterwards: looking at the next position may
make the sheet grow. -/
def timeValues (sp : SParams) : List Int → Sheet → List (Except Err Cell) × Sheet
  | [], s => ([], s)
  | i :: is, s =>
    let (v, s) := getTimeValue ext sp i s
    let (_, s) := getTimeValue ext sp (i + 1) s
    let (vs, s) := timeValues sp is s
    (v :: vs, s)

/-- The values of a first pass from `ini` to `stop` and of a second pass without end. -/
def twoPasses (sp : SParams) (s : Sheet) (ini stop : Int) :
    List (Except Err Cell) × List (Except Err Cell) :=
  let (vs, s) := timeValues sp (intRange ini (stop + 1)) s
  (vs, (timeValues sp (intRange ini (scanEnd sp s + 1)) s).1)

/-- The sheet of the tests of the iterators. -/
def letters : Sheet := Sample.rows
  [[.str c!"a", .str c!"1", .none, .none, .none, .str c!"d", .str c!"e", .str c!"f"],
   [.str c!"b", .str c!"2", .none, .none, .none, .str c!"4", .str c!"5", .str c!"6"],
   [.str c!"c", .str c!"3"]]

/-- `CleanSingleColumnTestCase.test_time_index_iterator`. -/
example :
    twoPasses params letters 1 3 =
      ([.ok (.str c!"a"), .ok (.str c!"b"), .ok (.str c!"c")],
       [.ok (.str c!"a"), .ok (.str c!"b"), .ok (.str c!"c"), .ok .none]) ∧
    twoPasses { params with alignment := .horizontal, timeHeader := .single c!"F1" } letters 6 8 =
      ([.ok (.str c!"d"), .ok (.str c!"e"), .ok (.str c!"f")],
       [.ok (.str c!"d"), .ok (.str c!"e"), .ok (.str c!"f"), .ok .none]) := by decide +kernel

/-- `CleanMultipleColumnsTestCase.test_time_index_iterator`. -/
example :
    (timeValues { params with timeMulticolumn := true, timeHeader := .multi [c!"A1", c!"B1"] } [1, 2, 3]
      letters).1 = [.ok (.str c!"a 1"), .ok (.str c!"b 2"), .ok (.str c!"c 3")] ∧
    (timeValues { params with
      timeMulticolumn := true, timeHeader := .multi [c!"F1", c!"F2"], alignment := .horizontal } [6, 7, 8]
      letters).1 = [.ok (.str c!"d 4"), .ok (.str c!"e 5"), .ok (.str c!"f 6")] := by
  decide +kernel

/-- `test_next_frequency`. -/
example :
    (nextFrequency c!"AQQQQ" c!"AQ").map Prod.fst = .ok 'Q' ∧
    (nextFrequency c!"AQQQQ" c!"AQQQQ").map Prod.fst = .ok 'A' ∧
    (nextFrequency c!"QQQQA" c!"QQ").map Prod.fst = .ok 'Q' ∧
    (nextFrequency c!"QQQQA" c!"QQQQ").map Prod.fst = .ok 'A' := by decide +kernel

/-! ### Values -/

/-- The dates of the tests of implicit missings. -/
def gaps : List Cell :=
  [.dt ⟨2015, 6, 13, 0⟩, .dt ⟨2015, 6, 14, 0⟩, .dt ⟨2015, 6, 15, 0⟩, .dt ⟨2015, 6, 18, 0⟩,
   .dt ⟨2015, 6, 19, 0⟩, .dt ⟨2015, 6, 20, 0⟩, .dt ⟨2015, 6, 22, 0⟩, .dt ⟨2015, 6, 23, 0⟩]

/-- `test_fill_implicit_missings_vertical` and `test_fill_implicit_missings_horizontal`: the values are in the
second column (row). -/
example :
    let sheet := Sample.rows ((gaps.zip (List.range 8)).map fun p => [p.1, .int p.2])
    let exp : List Num := [.fin 0, .fin 1, .fin 2, .nan, .nan, .fin 3, .fin 4, .fin 5, .nan, .fin 6, .fin 7]
    getValues ext { params with dataEnds := some 8 } sheet = .ok [exp] ∧
    getValues ext { params with dataEnds := some 8, alignment := .horizontal, headerCoord := c!"A2" }
      (Sample.transpose sheet) = .ok [exp] := by decide +kernel

/-- The sheet of `BaseGetDataStrategyTestCase`. -/
def names : Sheet := Sample.rows
  [[.str c!"A", .str c!"Agricultural"], [.str c!"B", .str c!"Industrial"], [.str c!"C", .str c!"Services"],
   [.str c!"GDP", .str c!"Gross Domestic Product"], [], [.none, .none, .int 1]]

/-- `test_get_name_simple`, `test_get_name_composed` and `test_get_name_context`. -/
example :
    getName ext params names = .ok c!"Agricultural" ∧
    getName ext { params with headerCoord := c!"C6" } names = .ok c!"1" ∧
    getName ext { params with composedHeaders := some [c!"A1"] } names = .ok c!"A Agricultural" ∧
    getName ext { params with composedHeaders := some [c!"A1"], context := some [c!"GDP"] } names =
      .ok c!"GDP - A Agricultural" := by decide +kernel

/-! ### Period ranges -/

/-- Four quarters. -/
def quarters : List Time := [⟨2000, 1, 1, 0⟩, ⟨2000, 4, 1, 0⟩, ⟨2000, 7, 1, 0⟩, ⟨2000, 10, 1, 0⟩]

/-- Two years, the second one without its last quarter. -/
def years : List Time :=
  [⟨2000, 1, 1, 0⟩, ⟨2000, 1, 1, 0⟩, ⟨2000, 4, 1, 0⟩, ⟨2000, 7, 1, 0⟩, ⟨2000, 10, 1, 0⟩,
   ⟨2001, 1, 1, 0⟩, ⟨2001, 1, 1, 0⟩, ⟨2001, 4, 1, 0⟩, ⟨2001, 7, 1, 0⟩]

/-- `GetPeriodRangesSingleFrequencyTestCase`. -/
example :
    let s := Sample.column (quarters.map .dt)
    let exp : Except Err (List PRange) := .ok [⟨c!"QS-JAN", quarters⟩]
    seriesRanges ext s c!"Q" 1 c!"A1" 4 0 .vertical = exp ∧
    seriesRanges ext (Sample.transpose s) c!"Q" 1 c!"A1" 4 0 .horizontal = exp := by decide +kernel

/-- `GetPeriodRangesMultifrequencyTestCase`. -/
example :
    let y : PRange := ⟨c!"AS-JAN", [⟨2000, 1, 1, 0⟩, ⟨2001, 1, 1, 0⟩]⟩
    let q : List Time := quarters ++ [⟨2001, 1, 1, 0⟩, ⟨2001, 4, 1, 0⟩, ⟨2001, 7, 1, 0⟩]
    let s := Sample.column (years.map .dt)
    let s' := Sample.column ((years ++ [(⟨2001, 10, 1, 0⟩ : Time)]).map .dt)
    let exp : Except Err (List PRange) := .ok [y, ⟨c!"QS-JAN", q⟩]
    let exp' : Except Err (List PRange) := .ok [y, ⟨c!"QS-JAN", q ++ [⟨2001, 10, 1, 0⟩]⟩]
    seriesRanges ext s c!"AQQQQ" 1 c!"A1" 9 0 .vertical = exp ∧
    seriesRanges ext s' c!"AQQQQ" 1 c!"A1" 10 0 .vertical = exp' ∧
    seriesRanges ext (Sample.transpose s) c!"AQQQQ" 1 c!"A1" 9 0 .horizontal = exp ∧
    seriesRanges ext (Sample.transpose s') c!"AQQQQ" 1 c!"A1" 10 0 .horizontal = exp' := by decide +kernel

/-! ### Coordinates -/

/-- Coordinates as parameter values. -/
def texts (cs : List Str) : List PVal := cs.map .str

/-- `test_xl_coordinates_range`; the fourth case (no end) is `unpackStr` of a coordinate. -/
example :
    coordRange c!"A5" c!"A7" = .ok [c!"A5", c!"A6", c!"A7"] ∧
    coordRange c!"A5" c!"C5" = .ok [c!"A5", c!"B5", c!"C5"] ∧
    coordRange c!"A5" c!"C7" =
      .ok [c!"A5", c!"B5", c!"C5", c!"A6", c!"B6", c!"C6", c!"A7", c!"B7", c!"C7"] := by decide +kernel

/-- `test_common_row_or_column`. -/
example :
    commonRowOrColumn (texts [c!"A1", c!"A2", c!"A3"]) = .ok 1 ∧
    commonRowOrColumn (texts [c!"A1", c!"B1", c!"C1"]) = .ok 1 ∧
    commonRowOrColumn (texts [c!"A1", c!"A2", c!"B3"]) = .error .exception := by decide +kernel

/-- `test_coord_in_scope`. -/
example :
    coordInScope (.str c!"B2") (texts [c!"A1", c!"A2", c!"A3"]) = .ok true ∧
    coordInScope (.str c!"B2") (texts [c!"B1", c!"B2", c!"B3"]) = .ok true ∧
    coordInScope (.str c!"B2") (texts [c!"C1", c!"C2", c!"C3"]) = .ok false ∧
    coordInScope (.str c!"B4") (texts [c!"A1", c!"A2", c!"A3"]) = .ok false := by decide +kernel

/-! ### Comparisons and times -/

/-- `test_approx_equal`. -/
example :
    approxEqual (.int 10) (.int 10) (1 / 100) = .ok true ∧
    approxEqual (.int 10) (.float (.fin (101 / 10))) (9 / 1000) = .ok false ∧
    approxEqual .none .none (1 / 100) = .ok true ∧
    approxEqual (.float .nan) (.float .nan) (1 / 100) = .ok true ∧
    approxEqual (.str c!"a") (.str c!"a") (1 / 100) = .ok true ∧
    approxEqual (.str c!"a") (.str c!"b") (1 / 100) = .ok false := by decide +kernel

/-- `test_list_values`. -/
example :
    compareListValues [.fin 10, .fin 20, .fin 30] [.fin 10, .fin 20, .fin 30] = .ok true ∧
    compareListValues [.fin 10, .fin 20, .fin 30]
      [.fin (9999 / 1000), .fin (19999 / 1000), .fin (29999 / 1000)] = .ok true ∧
    compareListValues [.fin 10, .fin 20, .fin 30]
      [.fin (9998 / 1000), .fin (19998 / 1000), .fin (29998 / 1000)] = .ok false := by decide +kernel

/-- `test_increment_time` and `test_increment_time_exception`. -/
example :
    incrementTime ⟨2015, 12, 1, 0⟩ 1 c!"S" = .ok ⟨2015, 12, 1, 1000000⟩ ∧
    incrementTime ⟨2015, 12, 1, 0⟩ 1 c!"D" = .ok ⟨2015, 12, 2, 0⟩ ∧
    incrementTime ⟨2015, 12, 1, 0⟩ 1 c!"M" = .ok ⟨2016, 1, 1, 0⟩ ∧
    incrementTime ⟨2015, 12, 1, 0⟩ 1 c!"Q" = .ok ⟨2016, 3, 1, 0⟩ ∧
    incrementTime ⟨2015, 12, 1, 0⟩ 1 c!"A" = .ok ⟨2016, 12, 1, 0⟩ ∧
    incrementTime ⟨2015, 2, 15, 0⟩ 4 c!"X" = .error .invalidTimeFrequency := by decide +kernel

/-- `test_infer_freq`. -/
example : inferFreq (.int 2618767) = .ok c!"MS" := by decide +kernel

end Xls.Tests
