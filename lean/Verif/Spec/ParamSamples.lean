/-
Concrete parameter dictionaries for the examples and witnesses.
-/
import Verif.Model.Params

set_option autoImplicit false

namespace Xls.Sample

/-- Two monthly series: time in column A, headers B1 and C1, data from row 2. -/
def two : PDict :=
  [(.known .headersCoord, .str c!"B1-C1"), (.known .dataStarts, .int 2),
   (.known .frequency, .str c!"m"), (.known .timeHeaderCoord, .str c!"A1"),
   (.known .continuity, .bool true), (.known .dataEnds, .list [.int 9, .int 12])]

/-- One header, a time header of two cells. -/
def oneHeader : PDict :=
  [(.known .headersCoord, .str c!"C1"), (.known .dataStarts, .int 2),
   (.known .frequency, .str c!"M"), (.known .timeHeaderCoord, .list [.str c!"A1", .str c!"B1"]),
   (.known .alignment, .str c!"vertical")]

/-- Three series, the last two with composed headers and a context. -/
def withContext : PDict :=
  [(.known .headersCoord, .list [.str c!"B3", .str c!"C2_C3", .str c!"C2_D3"]),
   (.known .dataStarts, .int 4), (.known .frequency, .str c!"yqqqq"),
   (.known .timeHeaderCoord, .str c!"A1"),
   (.known .context, .dict [(c!"Exports", .str c!"C1-D1"), (c!"Total", .str c!"B1-D1")])]

/-- An object of two series. -/
def pair : Params
  | .headersCoord => .list [.str c!"B1", .str c!"C1"]
  | .composedHeadersCoord => .list [.none, .none]
  | .dataEnds => .list [.int 9, .int 12]
  | _ => .none

/-- Two complete monthly series, time in column A, data from row 2 on. -/
def table : Params
  | .alignment => .list [.str c!"vertical", .str c!"vertical"]
  | .seriesNames => .list [.none, .none]
  | .headersCoord => .list [.str c!"B1", .str c!"C1"]
  | .composedHeadersCoord => .list [.none, .none]
  | .context => .list [.none, .none]
  | .dataStarts => .list [.int 2, .int 2]
  | .dataEnds => .list [.none, .none]
  | .continuity => .list [.bool true, .bool true]
  | .blankRows => .list [.bool false, .bool false]
  | .missings => .list [.bool false, .bool false]
  | .missingValue => .list [.list [], .list []]
  | .timeAlignment => .list [.int 0, .int 0]
  | .timeMulticolumn => .list [.bool false, .bool false]
  | .timeHeaderCoord => .list [.str c!"A1", .str c!"A1"]
  | .timeComposed => .list [.bool false, .bool false]
  | .frequency => .list [.str c!"M", .str c!"M"]

end Xls.Sample
