/-
Parameter values and the parameters of one series.
-/
import Verif.Model.Sheet

set_option autoImplicit false

namespace Xls

/-- Values a user can put in a parameters dictionary (JSON-like Python values). -/
inductive PVal
  | none
  | bool (b : Bool)
  | int (i : Int)
  | float (x : Num)
  | str (s : Str)
  | list (xs : List PVal)
  | dict (kvs : List (Str × PVal))

/-- Alignment of a series; `other` is any value that is neither of the two valid ones. -/
inductive Align
  | vertical
  | horizontal
  | other
  deriving DecidableEq, Repr

/-- `time_header_coord` of one series: a coordinate or a list of coordinates. -/
inductive TimeHeader
  | single (coord : Str)
  | multi (coords : List Str)
  deriving DecidableEq, Repr

/-- The parameters of one series (`xlseries/strategies/discover/parameters.py:329-343`, the dict
returned by `get_series_params`), with the types `VALID_VALUES` (60-84) asks for. Simplification:
values are typed; a dictionary with an ill-typed or missing entry corresponds to no `SParams` and is
reported as `TypeError`/`KeyError` where the record is built. -/
structure SParams where
  alignment : Align
  seriesName : Option Str
  headerCoord : Str
  composedHeaders : Option (List Str)
  context : Option (List Str)
  dataStarts : Int
  dataEnds : Option Int
  continuity : Bool
  blankRows : Bool
  missings : Bool
  missingValue : PVal
  timeAlignment : Int
  timeMulticolumn : Bool
  timeHeader : TimeHeader
  timeComposed : Bool
  frequency : Str

end Xls
