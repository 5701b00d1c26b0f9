import Verif.Model.Scraper
import Verif.Model.ParamsView
import Lean.Data.Json
import Std.Data.HashMap
open Lean Xls

def jstr (j : Json) : String := j.getStr?.toOption.getD ""
def jarr (j : Json) : Array Json := j.getArr?.toOption.getD #[]
def jget (j : Json) (k : String) : Json := (j.getObjVal? k).toOption.getD .null
def jnat (j : Json) : Nat := j.getNat?.toOption.getD 0
def jint (j : Json) : Int := j.getInt?.toOption.getD 0
def sInt (s : String) : Int := s.toInt?.getD 0

def jnum (j : Json) : Xls.Num :=
  match j with
  | .str _ => .nan
  | j => let a := jarr j; .fin ((sInt (jstr a[0]!) : Rat) / (sInt (jstr a[1]!) : Rat))

def jcell (a : Array Json) (i : Nat) : Xls.Cell :=
  match jstr a[i]! with
  | "bool" => .bool (a[i+1]! == Json.bool true)
  | "int" => .int (sInt (jstr a[i+1]!))
  | "float" => .float (jnum a[i+1]!)
  | "str" => .str (jstr a[i+1]!).toList
  | "dt" => .dt ⟨jnat a[i+1]!, jnat a[i+2]!, jnat a[i+3]!, jnat a[i+4]!⟩
  | _ => .none

instance : Inhabited PVal := ⟨.none⟩
partial def jpval (j : Json) : PVal :=
  match j with
  | .null => .none
  | .bool b => .bool b
  | .num n => .int n.mantissa
  | .str s => .str s.toList
  | .arr xs => .list (xs.toList.map jpval)
  | .obj o => .dict (o.toList.map fun (k, v) => (k.toList, jpval v))

def nameOf (s : String) : Key :=
  match s with
  | "alignment" => .known .alignment | "series_names" => .known .seriesNames
  | "headers_coord" => .known .headersCoord | "composed_headers_coord" => .known .composedHeadersCoord
  | "context" => .known .context | "data_starts" => .known .dataStarts | "data_ends" => .known .dataEnds
  | "continuity" => .known .continuity | "blank_rows" => .known .blankRows | "missings" => .known .missings
  | "missing_value" => .known .missingValue | "time_alignment" => .known .timeAlignment
  | "time_multicolumn" => .known .timeMulticolumn | "time_header_coord" => .known .timeHeaderCoord
  | "time_composed" => .known .timeComposed | "frequency" => .known .frequency
  | s => .unknown s.toList

def enMonths := [("January",1),("February",2),("March",3),("April",4),("May",5),("June",6),("July",7),("August",8),("September",9),("October",10),("November",11),("December",12),("Jan",1),("Feb",2),("Mar",3),("Apr",4),("Jun",6),("Jul",7),("Aug",8),("Sep",9),("Oct",10),("Nov",11),("Dec",12),
 ("Enero",1),("Febrero",2),("Marzo",3),("Abril",4),("Mayo",5),("Junio",6),("Julio",7),("Agosto",8),("Septiembre",9),("Octubre",10),("Noviembre",11),("Diciembre",12),("Ene",1),("Abr",4),("Ago",8),("Dic",12)]

/-- dates of the form digits-digits-digits with a format of D, M, Y -/
def arrowParse (s f : Str) : Option Time := do
  let ps := splitOn '-' s
  let fs := splitOn '-' f
  if ps.length ≠ 3 ∨ fs.length ≠ 3 then none else
  let ok := ps.all fun p => !p.isEmpty && p.all isDigit
  if !ok then none else
  let look (c : Char) : Option (Nat × Nat) :=
    ((fs.zip ps).find? fun (a, _) => a.head? = some c).map fun (_, b) => (b.length, digitsVal b)
  let (yl, y) ← look 'Y'
  let (ml, m) ← look 'M'
  let (dl, d) ← look 'D'
  if ml > 2 ∨ dl > 2 then none else
  let y ← if yl = 4 then some y else if yl = 2 then some (if y > 68 then 1900 + y else 2000 + y) else none
  (mkDate y m d).toOption

def pad (n : Nat) : String := if n < 10 then s!"0{n}" else s!"{n}"

def mkExt (j : Json) : Ext :=
  let chars : Std.HashMap Char Str := .ofList ((jarr (jget j "chars")).toList.map fun a => ((jstr (jarr a)[0]!).toList.head!, (jstr (jarr a)[1]!).toList))
  let fl : Std.HashMap String Xls.Num := .ofList ((jarr (jget j "floats")).toList.map fun a => (jstr (jarr a)[0]!, jnum (jarr a)[1]!))
  let rp : Std.HashMap (Int × Nat) String := .ofList ((jarr (jget j "reprs")).toList.map fun a => match jnum (jarr a)[0]! with | .nan => ((0,0),"nan") | .fin q => ((q.num, q.den), jstr (jarr a)[1]!))
  { unidecode := fun s => s.flatMap fun c => if c.toNat < 128 then [c] else chars.getD c []
    floatOfStr := fun s => fl[String.ofList s]?
    reprFloat := fun x => match x with | .nan => "nan".toList | .fin q => (rp.getD (q.num, q.den) (if q.den = 1 then s!"{q.num}.0" else "?")).toList
    monthNumber := fun s => (enMonths.find? fun p => p.1 == String.ofList s).map (·.2)
    arrowParse := arrowParse
    reprTime := fun t => s!"{t.year}-{pad t.month}-{pad t.day} 00:00:00".toList
    now := ⟨2018, 1, 1, 0⟩
    arrowOfCell := fun _ => none
    pandasTime := fun _ => none
    businessDays := fun _ _ => [] }

def mkSheet (j : Json) : Sheet :=
  let m : Std.HashMap (Int × Int) Xls.Cell := .ofList ((jarr (jget j "cells")).toList.map fun a => let a := jarr a; (((jnat a[0]! : Int), (jnat a[1]! : Int)), jcell a 2))
  { title := (jstr (jget j "title")).toList
    cells := fun r c => m.getD (r, c) .none
    maxRow := jnat (jget j "maxRow"), maxCol := jnat (jget j "maxCol") }

def outNum : Xls.Num → Json
  | .nan => .str "nan"
  | .fin q => .arr #[.str (toString q.num), .str (toString q.den)]

def outTime (t : Time) : Json := .arr #[t.year, t.month, t.day, t.us]

def outFrame (f : Frame) : Json := Json.mkObj [("freq", String.ofList f.freq), ("index", .arr (f.index.map outTime).toArray),
  ("columns", .arr (f.columns.map fun c => Json.str (String.ofList c)).toArray), ("data", .arr (f.data.map fun c => Json.arr (c.map outNum).toArray).toArray)]

/-- the parameters of a test: from the file, then removed or set -/
def mkParams (j : Json) : Except Err Params := do
  let d : PDict := ((jarr (jget j "params")).toList.map fun a => (nameOf (jstr (jarr a)[0]!), jpval (jarr a)[1]!))
  let mut p ← Params.new (.json d)
  if jget j "remove" == Json.bool true then p ← p.removeNonCritical false
  for kv in (jarr (jget j "set")) do
    match nameOf (jstr (jarr kv)[0]!) with
    | .known n => p ← p.setItem n (jpval (jarr kv)[1]!)
    | _ => throw .keyError
  -- make the functions into tables
  let t := Name.all.map fun n => (n, p n)
  return fun n => ((t.find? fun x => x.1 = n).map (·.2)).getD .none

def run (j : Json) : IO (Except Err (List Frame)) := do
  let ext := mkExt j
  let s := mkSheet j
  match mkParams j with
  | .error e => return .error e
  | .ok p =>
    match discoverParameters p with
    | .error e => return .error e
    | .ok .same => return (scrape ext p s).1
    | .ok (.new ps) =>
      let mut k := 0
      for q in ps do
        k := k + 1
        match (scrape ext q s).1 with
        | .ok fs => IO.eprintln s!"attempt {k} of {ps.length}"; return .ok fs
        | .error _ => pure ()
      return .error .exception

def main (args : List String) : IO Unit := do
  let text ← IO.FS.readFile args.head!
  match Json.parse text with
  | .error e => IO.eprintln e
  | .ok j =>
    match ← run j with
    | .error e => IO.println (Json.compress (Json.mkObj [("error", reprStr e)]))
    | .ok fs => IO.println (Json.compress (Json.mkObj [("frames", .arr (fs.map outFrame).toArray)]))
