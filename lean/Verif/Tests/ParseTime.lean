/-
The package's own tests of the time parsers, `xlseries/tests/strategies/clean/test_parse_time.py`, run on the
model. They check that the model agrees with what the authors expect of the code; they prove nothing about it.
-/
import Verif.Model.TimeIndex
import Verif.Spec.Samples
import Batteries.Lean.Except

set_option autoImplicit false

namespace Xls.Tests

/-- Names and abbreviations of months in some of the locales of arrow. -/
def monthNames : List (Str × Nat) :=
  [(c!"January", 1), (c!"February", 2), (c!"March", 3), (c!"April", 4), (c!"May", 5), (c!"June", 6),
   (c!"July", 7), (c!"August", 8), (c!"September", 9), (c!"October", 10), (c!"November", 11),
   (c!"December", 12), (c!"Jan", 1), (c!"Feb", 2), (c!"Mar", 3), (c!"Apr", 4), (c!"Jun", 6), (c!"Jul", 7),
   (c!"Aug", 8), (c!"Sep", 9), (c!"Oct", 10), (c!"Nov", 11), (c!"Dec", 12), (c!"Enero", 1),
   (c!"Febrero", 2), (c!"Marzo", 3), (c!"Abril", 4), (c!"Mayo", 5), (c!"Junio", 6), (c!"Julio", 7),
   (c!"Agosto", 8), (c!"Septiembre", 9), (c!"Octubre", 10), (c!"Noviembre", 11), (c!"Diciembre", 12),
   (c!"Ene", 1), (c!"Abr", 4), (c!"Ago", 8), (c!"Set", 9), (c!"Dic", 12)]

/-- `arrow.get` of a text of three numbers and a format of three fields. -/
def arrowDate (s f : Str) : Option Time :=
  match splitOn '-' s, splitOn '-' f with
  | [a, b, c], [x, y, z] =>
    let value (l : Char) (ok : List Nat) : Option (Nat × Nat) :=
      ([(x, a), (y, b), (z, c)].find? fun p => p.1.head? = some l).bind fun p =>
        if p.2.all isDigit && ok.contains p.2.length then some (digitsVal p.2, p.2.length) else none
    match value 'Y' [2, 4], value 'M' [1, 2], value 'D' [1, 2] with
    | some (y, n), some (m, _), some (d, _) =>
      (mkDate (if n = 4 then y else if y < 69 then 2000 + y else 1900 + y) m d).toOption
    | _, _, _ => none
  | _, _ => none

/-- The libraries as far as the tests need them. -/
def ext : Ext := { Sample.ext0 with
  unidecode := fun s => s.flatMap fun c =>
    if c = 'º' then c!"o" else if c = '°' then c!"deg" else if c = 'ñ' then c!"n" else [c]
  monthNumber := fun s => (monthNames.find? fun p => p.1 = s).map (·.2)
  arrowParse := arrowDate }

/-- `parse_time_values`, lines 175-187: one value after the other. -/
def parseValues (p : Parser) : Option Time → List Str → List (Except Err Time)
  | _, [] => []
  | last, v :: vs =>
    match parseWith ext p [] (.str v) last .none with
    | .error e => [.error e]
    | .ok t => .ok t :: parseValues p (some t) vs

/-- `test_parse_time_case3`. -/
example : parseValues .quarter1 none
      [c!"'1986    1º trim. (1)", c!"'            2º trim. *", c!"'            3º trim. (2) *",
       c!"'            4º trim."] =
      [.ok ⟨1986, 1, 1, 0⟩, .ok ⟨1986, 4, 1, 0⟩, .ok ⟨1986, 7, 1, 0⟩, .ok ⟨1986, 10, 1, 0⟩] := by
  decide +kernel

/-- `test_parse_time_case4`. -/
example : parseValues .quarter3 none
      [c!"2° Trim 07", c!"u' 3 Trim 07 2'", c!"4° Trim 07 ", c!"1° Trim 08 "] =
      [.ok ⟨2007, 4, 1, 0⟩, .ok ⟨2007, 7, 1, 0⟩, .ok ⟨2007, 10, 1, 0⟩, .ok ⟨2008, 1, 1, 0⟩] := by
  decide +kernel

/-- `test_parse_time_case5`. -/
example : parseValues .month1 none
      [c!"1991    Ene.", c!"1991    Feb.", c!"1991    Mar. *", c!"1991    Abr.", c!"1991    May.",
       c!"1991    Jun.", c!"1991    Jul. (1)", c!"1991  - Ago.", c!"1991    Set.", c!"1991    Oct.",
       c!"1991    Nov.", c!"1991    Dic."] =
      [.ok ⟨1991, 1, 1, 0⟩, .ok ⟨1991, 2, 1, 0⟩, .ok ⟨1991, 3, 1, 0⟩, .ok ⟨1991, 4, 1, 0⟩,
       .ok ⟨1991, 5, 1, 0⟩, .ok ⟨1991, 6, 1, 0⟩, .ok ⟨1991, 7, 1, 0⟩, .ok ⟨1991, 8, 1, 0⟩,
       .ok ⟨1991, 9, 1, 0⟩, .ok ⟨1991, 10, 1, 0⟩, .ok ⟨1991, 11, 1, 0⟩, .ok ⟨1991, 12, 1, 0⟩] := by
  decide +kernel

/-- `test_parse_time_case5b`. -/
example : parseValues .month2 none
      [c!"1991,01 ", c!"1991,02  ", c!"1991,03  ", c!"1991,04  ", c!"1991.05  ", c!"1991.06  ",
       c!"1991,07  ", c!"1991,08  ", c!"1991-09  ", c!"1991/10  ", c!"1991,11  ", c!"1991,12  "] =
      [.ok ⟨1991, 1, 1, 0⟩, .ok ⟨1991, 2, 1, 0⟩, .ok ⟨1991, 3, 1, 0⟩, .ok ⟨1991, 4, 1, 0⟩,
       .ok ⟨1991, 5, 1, 0⟩, .ok ⟨1991, 6, 1, 0⟩, .ok ⟨1991, 7, 1, 0⟩, .ok ⟨1991, 8, 1, 0⟩,
       .ok ⟨1991, 9, 1, 0⟩, .ok ⟨1991, 10, 1, 0⟩, .ok ⟨1991, 11, 1, 0⟩, .ok ⟨1991, 12, 1, 0⟩] := by
  decide +kernel

/-- `test_parse_time_case6`. -/
example : parseValues .yearQuarter1 none
      [c!"2004  ", c!"             I", c!"             II", c!"             III", c!"             IV"] =
      [.ok ⟨2004, 1, 1, 0⟩, .ok ⟨2004, 1, 1, 0⟩, .ok ⟨2004, 4, 1, 0⟩, .ok ⟨2004, 7, 1, 0⟩,
       .ok ⟨2004, 10, 1, 0⟩] := by
  decide +kernel

/-- `test_parse_time_case6b`. -/
example : parseValues .yearQuarter1 none
      [c!"2008    Año *", c!"Trimestre    I *", c!"             II * (1)", c!"             III (2) *",
       c!"             IV (3) * (4)"] =
      [.ok ⟨2008, 1, 1, 0⟩, .ok ⟨2008, 1, 1, 0⟩, .ok ⟨2008, 4, 1, 0⟩, .ok ⟨2008, 7, 1, 0⟩,
       .ok ⟨2008, 10, 1, 0⟩] := by
  decide +kernel

/-- `test_parse_time_case7`. -/
example : parseValues .year1 none
      [c!"  1995   ", c!"(1) 1996", c!"1997 (2)", c!"(3) 1998 (4)", c!"   (5)  1999   (6)  * "] =
      [.ok ⟨1995, 1, 1, 0⟩, .ok ⟨1996, 1, 1, 0⟩, .ok ⟨1997, 1, 1, 0⟩, .ok ⟨1998, 1, 1, 0⟩,
       .ok ⟨1999, 1, 1, 0⟩] := by
  decide +kernel

/-- `test_parse_time_external_case1`. -/
example : parseValues .month1 none
      [c!"1991    Ene.", c!"        Feb.", c!"        Mar.", c!"        Abr. *", c!"        May.",
       c!"        Jun. (1)", c!"        Jul.", c!"        Ago.", c!"        Set.", c!"        Oct.",
       c!"        Nov.", c!"        Dic."] =
      [.ok ⟨1991, 1, 1, 0⟩, .ok ⟨1991, 2, 1, 0⟩, .ok ⟨1991, 3, 1, 0⟩, .ok ⟨1991, 4, 1, 0⟩,
       .ok ⟨1991, 5, 1, 0⟩, .ok ⟨1991, 6, 1, 0⟩, .ok ⟨1991, 7, 1, 0⟩, .ok ⟨1991, 8, 1, 0⟩,
       .ok ⟨1991, 9, 1, 0⟩, .ok ⟨1991, 10, 1, 0⟩, .ok ⟨1991, 11, 1, 0⟩, .ok ⟨1991, 12, 1, 0⟩] := by
  decide +kernel

/-- `test_parse_time_external_case2`. -/
example : parseValues .month1 none
      [c!"1991    Enero.", c!"        Febrero (1) * (4)", c!"        Marzo (2).", c!"        Abril",
       c!"        Mayo", c!"        Junio.", c!"        Julio.", c!"        Agosto (3).",
       c!"        Septiembre", c!"        Octubre * (1) *", c!"        Noviembre", c!"        Diciembre"] =
      [.ok ⟨1991, 1, 1, 0⟩, .ok ⟨1991, 2, 1, 0⟩, .ok ⟨1991, 3, 1, 0⟩, .ok ⟨1991, 4, 1, 0⟩,
       .ok ⟨1991, 5, 1, 0⟩, .ok ⟨1991, 6, 1, 0⟩, .ok ⟨1991, 7, 1, 0⟩, .ok ⟨1991, 8, 1, 0⟩,
       .ok ⟨1991, 9, 1, 0⟩, .ok ⟨1991, 10, 1, 0⟩, .ok ⟨1991, 11, 1, 0⟩, .ok ⟨1991, 12, 1, 0⟩] := by
  decide +kernel

/-- `test_parse_time_external_case3`. -/
example : parseValues .quarter1 none
      [c!"2004             I  (1)", c!"2004             II  *", c!"2004             III * (2) *",
       c!"2004             IV"] =
      [.ok ⟨2004, 1, 1, 0⟩, .ok ⟨2004, 4, 1, 0⟩, .ok ⟨2004, 7, 1, 0⟩, .ok ⟨2004, 10, 1, 0⟩] := by
  decide +kernel

/-- `test_parse_time_external_case4`. -/
example : parseValues .month1 none
      [c!"Ago-91", c!"Sep-91 *", c!"Oct-91 (2)", c!"Nov - 91", c!"1991 - Dec", c!"Ene - 1992",
       c!"Feb. - 1992"] =
      [.ok ⟨1991, 8, 1, 0⟩, .ok ⟨1991, 9, 1, 0⟩, .ok ⟨1991, 10, 1, 0⟩, .ok ⟨1991, 11, 1, 0⟩,
       .ok ⟨1991, 12, 1, 0⟩, .ok ⟨1992, 1, 1, 0⟩, .ok ⟨1992, 2, 1, 0⟩] := by
  decide +kernel

/-- `test_parse_time_external_case5`. -/
example : parseValues .quarterYear1 none
      [c!"2003 I", c!"II", c!"III", c!"IV", c!"Año", c!"2004 I", c!"II"] =
      [.ok ⟨2003, 1, 1, 0⟩, .ok ⟨2003, 4, 1, 0⟩, .ok ⟨2003, 7, 1, 0⟩, .ok ⟨2003, 10, 1, 0⟩,
       .ok ⟨2003, 1, 1, 0⟩, .ok ⟨2004, 1, 1, 0⟩, .ok ⟨2004, 4, 1, 0⟩] := by
  decide +kernel

/-- `test_parse_time_external_case6`. -/
example : parseValues .quarter4 none
      [c!"III 01", c!"IV 01", c!"I 02", c!"II 02"] =
      [.ok ⟨2001, 7, 1, 0⟩, .ok ⟨2001, 10, 1, 0⟩, .ok ⟨2002, 1, 1, 0⟩, .ok ⟨2002, 4, 1, 0⟩] := by
  decide +kernel

/-- `test_parse_time_external_case7`. -/
example : parseValues .quarter4 none
      [c!"I 04", c!"II 04", c!"III 04", c!"IV 04", c!"I 05", c!"II 05", c!"III 05", c!"IV 05", c!"I 06",
       c!"II 06", c!"III 06", c!"IV 06"] =
      [.ok ⟨2004, 1, 1, 0⟩, .ok ⟨2004, 4, 1, 0⟩, .ok ⟨2004, 7, 1, 0⟩, .ok ⟨2004, 10, 1, 0⟩,
       .ok ⟨2005, 1, 1, 0⟩, .ok ⟨2005, 4, 1, 0⟩, .ok ⟨2005, 7, 1, 0⟩, .ok ⟨2005, 10, 1, 0⟩,
       .ok ⟨2006, 1, 1, 0⟩, .ok ⟨2006, 4, 1, 0⟩, .ok ⟨2006, 7, 1, 0⟩, .ok ⟨2006, 10, 1, 0⟩] := by
  decide +kernel

/-- `test_parse_time_external_case8`. -/
example : parseValues .quarter4 none
      [c!"I 95", c!"II", c!"III", c!"IV", c!"I 96", c!"II", c!"III", c!"IV"] =
      [.ok ⟨1995, 1, 1, 0⟩, .ok ⟨1995, 4, 1, 0⟩, .ok ⟨1995, 7, 1, 0⟩, .ok ⟨1995, 10, 1, 0⟩,
       .ok ⟨1996, 1, 1, 0⟩, .ok ⟨1996, 4, 1, 0⟩, .ok ⟨1996, 7, 1, 0⟩, .ok ⟨1996, 10, 1, 0⟩] := by
  decide +kernel

/-- `test_parse_time_external_case9`. -/
example : parseValues .quarter4 none
      [c!"I-04", c!"II-04", c!"III-04", c!"IV-04", c!"I-05", c!"*II-05", c!"III-05*", c!"IV-05", c!"I-06",
       c!"II.T.06", c!"III-06", c!"IV-06"] =
      [.ok ⟨2004, 1, 1, 0⟩, .ok ⟨2004, 4, 1, 0⟩, .ok ⟨2004, 7, 1, 0⟩, .ok ⟨2004, 10, 1, 0⟩,
       .ok ⟨2005, 1, 1, 0⟩, .ok ⟨2005, 4, 1, 0⟩, .ok ⟨2005, 7, 1, 0⟩, .ok ⟨2005, 10, 1, 0⟩,
       .ok ⟨2006, 1, 1, 0⟩, .ok ⟨2006, 4, 1, 0⟩, .ok ⟨2006, 7, 1, 0⟩, .ok ⟨2006, 10, 1, 0⟩] := by
  decide +kernel

/-- `test_parse_time_external_case10`. -/
example : parseValues .year2 none
      [c!"2000/01 ", c!"2001/02", c!" 2002/03", c!"2003/04 "] =
      [.ok ⟨2000, 1, 1, 0⟩, .ok ⟨2001, 1, 1, 0⟩, .ok ⟨2002, 1, 1, 0⟩, .ok ⟨2003, 1, 1, 0⟩] := by
  decide +kernel

/-- `test_parse_time_external_case11`. -/
example : parseValues .semester none
      [c!"(2)I.S.03", c!"II.S.03*", c!"I.S.04", c!"*II.S.04", c!"I.S.05(1)"] =
      [.ok ⟨2003, 1, 1, 0⟩, .ok ⟨2003, 7, 1, 0⟩, .ok ⟨2004, 1, 1, 0⟩, .ok ⟨2004, 7, 1, 0⟩,
       .ok ⟨2005, 1, 1, 0⟩] := by
  decide +kernel

/-- `test_parse_time_external_case12`. -/
example : parseValues .quarter2 none
      [c!"III.1963", c!"IV.1963", c!"I.1964", c!"II.1964", c!"III.1964"] =
      [.ok ⟨1963, 7, 1, 0⟩, .ok ⟨1963, 10, 1, 0⟩, .ok ⟨1964, 1, 1, 0⟩, .ok ⟨1964, 4, 1, 0⟩,
       .ok ⟨1964, 7, 1, 0⟩] := by
  decide +kernel

/-- `ParseSimpleTime._parse_time` with the frequency of case 2. -/
def simple (v : Str) (last : Option Time) (next : Cell) : Except Err Time :=
  parseStrWith ext .simple c!"D" last next v

/-- `test_parse_time_case2_normal_behaviour`. -/
example :
    let vs := [c!"17-12.09", c!"12-17.09", c!"17-12.2009", c!"12-17.2009", c!"2009.12.17"]
    let last : Option Time := some ⟨2009, 12, 16, 0⟩
    let next : Cell := .str c!"18-12-09"
    (∀ v ∈ vs, simple v last next = .ok ⟨2009, 12, 17, 0⟩) ∧
    (∀ v ∈ vs, simple v none next = .ok ⟨2009, 12, 17, 0⟩) ∧
    (∀ v ∈ vs, simple v last .none = .ok ⟨2009, 12, 17, 0⟩) ∧
    simple c!"02.03.10" (some ⟨2010, 3, 1, 0⟩) (.dt ⟨2010, 3, 3, 0⟩) = .ok ⟨2010, 3, 2, 0⟩ := by
  decide +kernel

/-- `test_parse_time_case2_exceptions`: with one format only. -/
example :
    trySimpleFormats ext c!"12-17-09" (makesSense ext c!"D" (some ⟨2009, 12, 16, 0⟩) (.str c!"18-12-09"))
      [c!"YY-MM-DD"] = .error .noTimeValue ∧
    trySimpleFormats ext c!"17-12-09" (makesSense ext c!"D" (some ⟨2009, 12, 16, 0⟩) (.str c!"18-12-09"))
      [c!"MM-DD-YY"] = .error .noTimeValue := by decide +kernel

/-- `test_parse_time_case4_invalid_date`. -/
example : parseWith ext .quarter3 [] (.str c!"Var. 4° Trim.13 / 4° Trim.12") (some ⟨2013, 10, 1, 0⟩) .none =
    .error .parseError := by decide +kernel

/-- `test_time_make_sense`. -/
example :
    makesSense ext c!"D" (some ⟨2009, 12, 16, 0⟩) (.str c!"18-12-09") ⟨2017, 12, 9, 0⟩ = .ok false ∧
    makesSense ext c!"D" none (.str c!"18-12-09") ⟨2017, 12, 9, 0⟩ = .ok false ∧
    makesSense ext c!"D" (some ⟨2010, 3, 1, 0⟩) (.str c!"18-12-09") ⟨2002, 3, 10, 0⟩ = .ok false ∧
    makesSense ext c!"D" (some ⟨2010, 3, 1, 0⟩) (.dt ⟨2010, 3, 3, 0⟩) ⟨2010, 2, 3, 0⟩ = .ok false ∧
    makesSense ext c!"D" (some ⟨2010, 3, 1, 0⟩) (.dt ⟨2010, 3, 3, 0⟩) ⟨2010, 3, 2, 0⟩ = .ok true := by
  decide +kernel

/-- `test_get_possible_time_formats`. -/
example :
    timeFormats c!"02-03-10" = .ok [c!"DD-MM-YY", c!"MM-DD-YY", c!"YY-MM-DD"] ∧
    timeFormats c!"02-03-2010" = .ok [c!"DD-MM-YYYY", c!"MM-DD-YYYY", c!"YY-MM-DDDD"] := by decide +kernel

end Xls.Tests
