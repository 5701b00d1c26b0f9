/-
Test cases of the package: `xlseries/utils/case_loaders.py`, and the choice of strategies by their names,
`xlseries/utils/strategies_helpers.py`.
-/
import Verif.Model.Stored
import Mathlib.Data.List.Sort

set_option autoImplicit false

namespace Xls

/-! ### Test cases -/

/-- `_gen_filename`, `case_loaders.py:105-107`; no special case is the empty text. -/
def caseName (num : Int) (special : Option Str) (format : Str) : Str :=
  c!"test_case" ++ intStr num ++ special.getD [] ++ c!"." ++ format

/-- POSIX `os.path.join(dir, name)` for a `name` that does not begin with a slash. -/
def joinPath (dir name : Str) : Str :=
  if dir = [] ∨ dir.getLast? = some '/' then dir ++ name else dir ++ '/' :: name

/-- `load_expected_case`, `case_loaders.py:89-102`; `dir` is `get_exp_cases_dir()`. -/
def loadExpected (ext : Ext) (fs : Files) (dir : Str) (num : Int) (special : Option Str) :
    Except Err (List Frame) :=
  loadFrames ext fs (joinPath dir (caseName num special c!"xlsx"))

/-- The loop of `check_case_exp_result`, `case_loaders.py:31-32`, over the pairs of `zip`. -/
def compareCase : List (Frame × Frame) → Except Err Unit
  | [] => .ok ()
  | (f, g) :: rest =>
    match compareFrames f g with
    | .error e => .error e
    | .ok () => compareCase rest

/-- `check_case_exp_result`, `case_loaders.py:20-34`: it prints OK or raises. -/
def checkCase (ext : Ext) (fs : Files) (dir : Str) (num : Int) (dfs : List Frame) : Except Err Unit :=
  match loadExpected ext fs dir num none with
  | .error e => .error e
  | .ok exp => compareCase (dfs.zip exp)

/-- `get_param_cases_path`, `get_orig_cases_path`, `get_exp_cases_path` and `get_screenshot_cases_path`,
`path_finders.py:38-141`; `base` is their `base_dir`, `format` is `json`, `xlsx`, `xlsx` and `png`, and `not case_num`
holds for no number and for 0. -/
def casesPath (base format : Str) : Option Int → Str
  | none => base
  | some num => if num = 0 then base else joinPath base (c!"test_case" ++ intStr num ++ c!"." ++ format)

/-- The file that `load_original_case` and `load_parameters_case` open, `case_loaders.py:48-49, 67-68`; `dir` is the
directory of the cases. -/
def caseFile (dir format : Str) (num : Int) (special : Option Str) : Str := joinPath dir (caseName num special format)

/-! ### Strategies -/

/-- A class in the namespace of a module: its name there and whether it is a subclass of `Exception`. -/
structure PyClass where
  name : Str
  isException : Bool
  deriving DecidableEq

/-- `get_parent_module_classes`, `strategies_helpers.py:52-69`: `inspect.getmembers` gives the classes sorted
by name, the dictionary keeps that order. -/
def moduleClasses (ns : List PyClass) : List PyClass := 
  ns.insertionSort fun a b => strLe a.name b.name = true

/-- The condition of `get_strategies_names`, `strategies_helpers.py:27-30`. -/
def isStrategy (c : PyClass) : Bool :=
  c.name.take 4 != c!"Base" && c.name != c!"Parameters" && !c.isException

/-- `get_strategies` and `get_strategies_names`, `strategies_helpers.py:20-49`: the classes taken from a
module. -/
def strategiesOf (ns : List PyClass) : List PyClass := (moduleClasses ns).filter isStrategy

/-- The names of the parsers, `parse_time.py`, in the order of `parsers`. -/
def Parser.className : Parser → Str
  | .month1 => c!"ParseComposedMonth1"
  | .month2 => c!"ParseComposedMonth2"
  | .quarter1 => c!"ParseComposedQuarter1"
  | .quarter2 => c!"ParseComposedQuarter2"
  | .quarter3 => c!"ParseComposedQuarter3"
  | .quarter4 => c!"ParseComposedQuarter4"
  | .quarterYear1 => c!"ParseComposedQuarterYear1"
  | .semester => c!"ParseComposedSemester"
  | .year1 => c!"ParseComposedYear1"
  | .year2 => c!"ParseComposedYear2"
  | .yearQuarter1 => c!"ParseComposedYearQuarter1"
  | .simple => c!"ParseSimpleTime"

/-- The classes `parse_time.py` defines, in the order of the file (lines 36-1044). -/
def parseTimeClasses : List PyClass :=
  [⟨c!"NoPossibleTimeValue", true⟩, ⟨c!"TimeIsNotComposed", true⟩, ⟨c!"NoTimeValue", true⟩,
   ⟨c!"BaseDateMemberOutOfRange", true⟩, ⟨c!"DayOutOfRange", true⟩, ⟨c!"MonthOutOfRange", true⟩,
   ⟨c!"BaseParseTimeStrategy", false⟩, ⟨c!"ParseSimpleTime", false⟩, ⟨c!"BasePEG", false⟩,
   ⟨c!"BaseComposedQuarter", false⟩, ⟨c!"ParseComposedQuarter1", false⟩, ⟨c!"ParseComposedQuarter2", false⟩,
   ⟨c!"ParseComposedQuarter3", false⟩, ⟨c!"ParseComposedQuarter4", false⟩,
   ⟨c!"ParseComposedYearQuarter1", false⟩, ⟨c!"ParseComposedQuarterYear1", false⟩,
   ⟨c!"BaseComposedSemester", false⟩, ⟨c!"ParseComposedSemester", false⟩, ⟨c!"BaseComposedMonth", false⟩,
   ⟨c!"ParseComposedMonth1", false⟩, ⟨c!"ParseComposedMonth2", false⟩, ⟨c!"BaseComposedYear", false⟩,
   ⟨c!"ParseComposedYear1", false⟩, ⟨c!"ParseComposedYear2", false⟩]

/-- The classes in the namespace of `strategies.py`, in the order of the file (lines 19, 28, 35, 75). -/
def scraperClasses : List PyClass :=
  [⟨c!"Parameters", false⟩, ⟨c!"TimeIndexNotClean", true⟩, ⟨c!"BaseXlSeriesScraper", false⟩,
   ⟨c!"ParameterDiscovery", false⟩]

end Xls
