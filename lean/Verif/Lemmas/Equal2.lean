/-
Parameters that compare equal: from values to data frames.
-/
import Verif.Lemmas.Equal
import Verif.Model.Attempts

set_option autoImplicit false

namespace Xls

mutual

/-- A value with its truth values (and, if `fl`, its whole numbers) written as the numbers they compare as. -/
def canon (fl : Bool) : PVal → PVal
  | .bool b => if fl then .float (.fin (if b then 1 else 0)) else .int (if b then 1 else 0)
  | .int i => if fl then .float (.fin i) else .int i
  | .list vs => .list (canonList fl vs)
  | v => v

/-- The same for the values of a list. -/
def canonList (fl : Bool) : List PVal → List PVal
  | [] => []
  | v :: vs => canon fl v :: canonList fl vs

end

theorem canonList_map (fl : Bool) (vs : List PVal) : canonList fl vs = vs.map (canon fl) := by
  induction vs with
  | nil => rfl
  | cons v vs ih => rw [canonList, ih, List.map_cons]

theorem canon_list (fl : Bool) (vs : List PVal) : canon fl (.list vs) = .list (vs.map (canon fl)) := by
  rw [canon, canonList_map]

/-! ### What is made of values -/

theorem canon_truthy (fl : Bool) (v : PVal) : (canon fl v).truthy = v.truthy := by
  cases v with
  | bool b => cases b <;> cases fl <;> simp [canon, PVal.truthy]
  | int i =>
    cases fl with
    | false => rfl
    | true =>
      show ((i : Rat) != 0) = (i != 0)
      rw [Bool.eq_iff_iff, bne_iff_ne, bne_iff_ne]
      exact not_congr Rat.intCast_eq_zero_iff
  | list vs =>
    rw [canon_list]
    cases vs <;> rfl
  | _ => rfl

theorem canon_isNone (fl : Bool) (v : PVal) : (canon fl v).isNone = v.isNone := by
  cases v with
  | bool b => cases fl <;> rfl
  | int i => cases fl <;> rfl
  | list vs => rw [canon_list]; rfl
  | _ => rfl

theorem canon_asStr (v : PVal) : (canon false v).asStr = v.asStr := by
  cases v with
  | list vs => rw [canon_list]; rfl
  | _ => rfl

theorem canon_asInt (v : PVal) : (canon false v).asInt = v.asInt := by
  cases v with
  | list vs => rw [canon_list]; rfl
  | _ => rfl

theorem canon_asAlign (v : PVal) : (canon false v).asAlign = v.asAlign := by
  cases v with
  | list vs => rw [canon_list]; rfl
  | _ => rfl

theorem canon_asStrs (vs : List PVal) : asStrs (vs.map (canon false)) = asStrs vs := by
  induction vs with
  | nil => rfl
  | cons v vs ih => rw [List.map_cons, asStrs, asStrs, canon_asStr, ih]

theorem canon_asHeader (v : PVal) : (canon false v).asHeader = v.asHeader := by
  cases v with
  | list vs =>
    rw [canon_list, PVal.asHeader, PVal.asHeader, canon_asStrs]
  | _ => rfl

theorem canon_orNone {α : Type} {f : PVal → Except Err α} (hf : ∀ v, f (canon false v) = f v) (v : PVal) :
    orNone f (canon false v) = orNone f v := by
  have key : ∀ w : PVal, w.isNone = false → orNone f w = match f w with
      | .ok a => .ok (some a)
      | .error e => .error e := by
    intro w hw
    cases w <;> first | rfl | cases hw
  cases hv : v.isNone with
  | true =>
    cases v <;> first | rfl | cases hv
  | false => rw [key _ hv, key _ (by rw [canon_isNone]; exact hv), hf]

theorem canon_len (fl : Bool) (v : PVal) : Params.len (canon fl v) = Params.len v := by
  cases v with
  | bool b => cases fl <;> rfl
  | int i => cases fl <;> rfl
  | list vs => rw [canon_list, Params.len, Params.len, List.length_map]
  | _ => rfl

theorem canon_index (fl : Bool) (v : PVal) (i : Nat) : Params.index (canon fl v) i = (Params.index v i).map (canon fl) := by
  cases v with
  | bool b => cases fl <;> rfl
  | int i => cases fl <;> rfl
  | list vs =>
    rw [canon_list, Params.index, Params.index, List.getElem?_map]
    cases vs[i]? <;> rfl
  | _ => rfl

theorem canon_items (fl : Bool) (v : PVal) : (canon fl v).items = v.items.map (List.map (canon fl)) := by
  cases v with
  | bool b => cases fl <;> rfl
  | int i => cases fl <;> rfl
  | list vs => rw [canon_list]; rfl
  | _ => rfl

/-! ### Markers -/

theorem canon_number (m : PVal) : (canon true m).number = m.number := by
  cases m with
  | list vs => rw [canon_list]; rfl
  | _ => rfl

theorem canon_cellEq (v : Cell) (m : PVal) : cellEq v (canon true m) = cellEq v m := by
  cases v with
  | none => exact canon_isNone true m
  | bool b => rw [cellEq, cellEq, PVal.pyEq, PVal.pyEq, canon_number]
  | int i => rw [cellEq, cellEq, PVal.pyEq, PVal.pyEq, canon_number]
  | float x =>
    cases x with
    | nan => rw [cellEq, cellEq, PVal.pyEq, PVal.pyEq]
    | fin q => rw [cellEq, cellEq, PVal.pyEq, PVal.pyEq, canon_number]
  | str s =>
    cases m with
    | list vs =>
      rw [canon_list, cellEq, cellEq]
      unfold PVal.pyEq
      rfl
    | _ =>
      rw [cellEq, cellEq]
      unfold canon PVal.pyEq
      rfl
  | dt t => rfl

theorem canon_marks (m : PVal) : SameMarks m (canon true m) where
  holds := by
    intro v
    cases m with
    | list ms =>
      rw [canon_list, cellIn, cellIn, List.any_map]
      congr 2
      funext m
      exact canon_cellEq v m
    | _ => cases v <;> rfl
  implicit := by
    cases m with
    | list ms => rw [canon_list]; rfl
    | _ => rfl

/-! ### The parameters of one series -/

/-- Only markers for missing values may be decimal numbers. -/
def canonAt (n : Name) : PVal → PVal := canon (decide (n = .missingValue))

/-- Parameters with all values written so. -/
def canonParams (p : Params) : Params := fun n => canonAt n (p n)

/-- A series with its markers written so. -/
def canonSeries (sp : SParams) : SParams := { sp with missingValue := canon true sp.missingValue }

theorem canonSeries_alike (sp : SParams) : MarkedAlike sp (canonSeries sp) := ⟨rfl, canon_marks _⟩

theorem canonAt_eq {n : Name} (h : n ≠ .missingValue) (v : PVal) : canonAt n v = canon false v := by
  unfold canonAt
  rw [decide_eq_false h]

theorem canonParams_dict (p : Params) (i : Nat) : ∀ ns : List Name, (canonParams p).seriesDict i ns =
    (p.seriesDict i ns).map (List.map fun kv => (kv.1, canonAt kv.1 kv.2))
  | [] => rfl
  | n :: ns => by
    rw [Params.seriesDict, Params.seriesDict, show canonParams p n = canonAt n (p n) from rfl]
    unfold canonAt
    rw [canon_isNone]
    split
    · exact canonParams_dict p i ns
    · rw [canon_index, canonParams_dict p i ns]
      cases Params.index (p n) i with
      | error e => rfl
      | ok v =>
        cases p.seriesDict i ns with
        | error e => rfl
        | ok rest => rfl

theorem canon_entry (d : List (Name × PVal)) (n : Name) :
    entry (d.map fun kv => (kv.1, canonAt kv.1 kv.2)) n = (entry d n).map (canonAt n) := by
  unfold entry
  induction d with
  | nil => rfl
  | cons kv d ih =>
    rw [List.map_cons, List.find?_cons, List.find?_cons]
    by_cases h : kv.1 = n
    · simp only [h, decide_true]
      rfl
    · simp only [h, decide_false]
      exact ih

theorem except_bind_map {α β γ : Type} (x : Except Err α) (f : α → β) (g : β → Except Err γ) :
    (x.map f).bind g = x.bind fun a => g (f a) := by
  cases x <;> rfl

theorem canon_givenName (v : PVal) : (canon false v).givenName = v.givenName := by
  cases v with
  | bool b => cases b <;> rfl
  | list vs =>
    rw [canon_list]
    cases vs <;> rfl
  | _ => rfl

theorem canon_nameParts (named : Bool) (v : PVal) : (canon false v).nameParts named = v.nameParts named := by
  cases v with
  | bool b => cases b <;> rfl
  | list vs =>
    rw [canon_list, PVal.nameParts, PVal.nameParts, canon_asStrs]
  | _ => rfl

theorem canon_ofDict (d : List (Name × PVal)) :
    SParams.ofDict (d.map fun kv => (kv.1, canonAt kv.1 kv.2)) = (SParams.ofDict d).map canonSeries := by
  have e : ∀ n, n ≠ .missingValue → entry (d.map fun kv => (kv.1, canonAt kv.1 kv.2)) n = (entry d n).map (canon false) := by
    intro n hn
    rw [canon_entry]
    congr 1
    funext v
    exact canonAt_eq hn v
  have b : ∀ {α : Type} (n : Name) (f : PVal → Except Err α), n ≠ .missingValue → (∀ v, f (canon false v) = f v) →
      (entry (d.map fun kv => (kv.1, canonAt kv.1 kv.2)) n).bind f = (entry d n).bind f := by
    intro α n f hn hf
    rw [e n hn, except_bind_map]
    simp only [hf]
  unfold SParams.ofDict
  simp only [e .seriesNames (by decide), b .headersCoord _ (by decide) canon_asStr,
    b .composedHeadersCoord _ (by decide) (canon_nameParts _), b .context _ (by decide) (canon_nameParts _), b .dataStarts _ (by decide) canon_asInt,
    b .dataEnds _ (by decide) (canon_orNone canon_asInt), b .timeAlignment _ (by decide) canon_asInt,
    b .timeHeaderCoord _ (by decide) canon_asHeader, b .frequency _ (by decide) canon_asStr,
    e .alignment (by decide), e .continuity (by decide), e .blankRows (by decide), e .missings (by decide),
    e .timeMulticolumn (by decide), e .timeComposed (by decide)]
  rw [canon_entry]
  cases entry d .alignment with
  | error e => rfl
  | ok a =>
  cases entry d .seriesNames with
  | error e => rfl
  | ok g =>
  simp only [Except.map, bind_intro rfl, canon_givenName, canon_truthy]
  cases g.givenName with
  | error e => rfl
  | ok a =>
  cases (entry d .headersCoord).bind PVal.asStr with
  | error e => rfl
  | ok a =>
  cases (entry d .composedHeadersCoord).bind (PVal.nameParts g.truthy) with
  | error e => rfl
  | ok a =>
  cases (entry d .context).bind (PVal.nameParts g.truthy) with
  | error e => rfl
  | ok a =>
  cases (entry d .dataStarts).bind PVal.asInt with
  | error e => rfl
  | ok a =>
  cases (entry d .dataEnds).bind (orNone PVal.asInt) with
  | error e => rfl
  | ok a =>
  cases entry d .continuity with
  | error e => rfl
  | ok a =>
  cases entry d .blankRows with
  | error e => rfl
  | ok a =>
  cases entry d .missings with
  | error e => rfl
  | ok a =>
  cases entry d .missingValue with
  | error e => rfl
  | ok a =>
  cases (entry d .timeAlignment).bind PVal.asInt with
  | error e => rfl
  | ok a =>
  cases entry d .timeMulticolumn with
  | error e => rfl
  | ok a =>
  cases (entry d .timeHeaderCoord).bind PVal.asHeader with
  | error e => rfl
  | ok a =>
  cases entry d .timeComposed with
  | error e => rfl
  | ok a =>
  cases (entry d .frequency).bind PVal.asStr with
  | error e => rfl
  | ok a =>
    show Except.ok _ = Except.ok _
    simp only [canon_truthy, canon_asAlign]
    rfl

theorem canonParams_typed (p : Params) (i : Nat) : (canonParams p).typed i = (p.typed i).map canonSeries := by
  unfold Params.typed Params.series
  rw [canonParams_dict, except_bind_map]
  simp only [canon_ofDict]
  cases p.seriesDict i Name.all <;> rfl

/-! ### Cleaning -/

theorem canon_num (p : Params) : (canonParams p).num = p.num := by
  unfold Params.num numSeries Params.toDict
  generalize (none : Option Nat) = acc
  induction Name.all generalizing acc with
  | nil => rfl
  | cons n ns ih =>
    rw [List.map_cons, List.map_cons]
    show numSeriesFrom acc ((.known n, canonAt n (p n)) :: _) = _
    unfold canonAt
    cases hv : p n with
    | list vs =>
      rw [canon_list]
      unfold numSeriesFrom
      rw [List.length_map]
      simp only [ih]
    | bool b =>
      cases decide (n = .missingValue) <;> exact ih acc
    | int i =>
      cases decide (n = .missingValue) <;> exact ih acc
    | _ => exact ih acc

theorem canonParams_store (p : Params) (n : Name) (v : PVal) :
    (canonParams p).store n (canonAt n v) = canonParams (p.store n v) := by
  funext m
  show (if m = n then canonAt n v else canonAt m (p m)) = canonAt m (if m = n then v else p m)
  split
  next h => rw [h]
  · rfl

theorem canonParams_setEnd (p : Params) (i : Nat) (stop : Int) :
    setEnd (canonParams p) i stop = canonParams (setEnd p i stop) := by
  unfold setEnd
  rw [show canonParams p .dataEnds = canon false (p .dataEnds) from canonAt_eq (by decide) _]
  cases hd : p .dataEnds with
  | list vs =>
    rw [canon_list]
    dsimp only
    rw [← canonParams_store, canonAt_eq (by decide), canon_list, List.map_set]
    rfl
  | _ => rfl

theorem canonParams_setItem (p : Params) (stop : Int) :
    (canonParams p).setItem .dataEnds (.int stop) = (p.setItem .dataEnds (.int stop)).map canonParams := by
  unfold Params.setItem
  dsimp only
  rw [if_neg (by simp), if_neg (by decide), if_neg (by simp), if_neg (by decide)]
  unfold Params.setPlain
  rw [canon_num, show ∀ k, Params.validParamList .dataEnds (.int stop) k = false from fun _ => rfl]
  simp only [Bool.false_eq_true, if_false]
  split
  · show Except.ok _ = Except.ok _
    rw [← canonParams_store]
    congr 2
    rw [canonAt_eq (by decide)]
    unfold applyGeneric
    split
    · rfl
    · cases p.num with
      | none => rfl
      | some k =>
        cases k with
        | zero => rfl
        | succ k =>
          dsimp only
          rw [canon_list, List.map_replicate]
          rfl
  · rfl

/-- The result of cleaning, with the parameters written so. -/
def canonState (x : Except Err Unit × Params × Sheet) : Except Err Unit × Params × Sheet := (x.1, canonParams x.2.1, x.2.2)

theorem cleanMulti_canon (ext : Ext) (p : Params) (s : Sheet) :
    cleanMulti ext (canonParams p) s = canonState (cleanMulti ext p s) := by
  unfold cleanMulti
  rw [canonParams_typed]
  cases p.typed 0 with
  | error e => rfl
  | ok sp =>
    show (match cleanTimeIndex ext (canonSeries sp) s with
      | (.error e, s') => ((.error e, canonParams p, s') : Except Err Unit × Params × Sheet)
      | (.ok stop, s') => _) = _
    rw [cleanTimeIndex_marks ext (canonSeries_alike sp)]
    dsimp only
    rcases cleanTimeIndex ext sp s with ⟨_ | stop, s'⟩
    · rfl
    · dsimp only
      rw [show canonParams p .dataEnds = canon false (p .dataEnds) from canonAt_eq (by decide) _, canon_index]
      cases Params.index (p .dataEnds) 0 with
      | error e => rfl
      | ok v =>
        show (if (canon false v).truthy = true then _ else _) = canonState (if v.truthy = true then _ else _)
        rw [canon_truthy]
        split
        · rfl
        · rw [canonParams_setItem]
          cases p.setItem .dataEnds (.int stop) <;> rfl

theorem cleanOnce_canon (ext : Ext) (p : Params) (s : Sheet) (ends : List (Str × Int)) (i : Nat) (header : Str) :
    cleanOnce ext (canonParams p) s ends i header = cleanOnce ext p s ends i header := by
  unfold cleanOnce
  cases endOf ends header with
  | some stop => rfl
  | none =>
    dsimp only
    rw [canonParams_typed]
    cases p.typed i with
    | error e => rfl
    | ok sp =>
      show (match cleanTimeIndex ext (canonSeries sp) s with
        | (.error e, s') => ((.error e, s') : Except Err (Int × List (Str × Int)) × Sheet)
        | (.ok stop, s') => _) = _
      rw [cleanTimeIndex_marks ext (canonSeries_alike sp)]
      rfl

theorem cleanSeries_canon (ext : Ext) : ∀ (is : List Nat) (p : Params) (s : Sheet) (ends : List (Str × Int)),
    cleanSeries ext is (canonParams p) s ends = canonState (cleanSeries ext is p s ends)
  | [], _, _, _ => rfl
  | i :: is, p, s, ends => by
    unfold cleanSeries
    rw [show canonParams p .timeHeaderCoord = canon false (p .timeHeaderCoord) from canonAt_eq (by decide) _,
      canon_index, except_bind_map, show canonParams p .dataEnds = canon false (p .dataEnds) from canonAt_eq (by decide) _,
      canon_index]
    simp only [canon_asStr]
    rw [show (fun a : PVal => a.asStr) = PVal.asStr from rfl]
    cases (Params.index (p .timeHeaderCoord) i).bind PVal.asStr with
    | error e => rfl
    | ok header =>
      dsimp only
      rw [cleanOnce_canon]
      rcases cleanOnce ext p s ends i header with ⟨_ | ⟨stop, ends'⟩, s'⟩
      · rfl
      · dsimp only
        cases Params.index (p .dataEnds) i with
        | error e => rfl
        | ok v =>
          show cleanSeries ext is (if (canon false v).truthy then canonParams p else setEnd (canonParams p) i stop) s' ends' = _
          rw [canon_truthy, canonParams_setEnd, ← apply_ite canonParams]
          exact cleanSeries_canon ext is _ s' ends'

theorem cleanData_canon (ext : Ext) (p : Params) (s : Sheet) :
    cleanData ext (canonParams p) s = canonState (cleanData ext p s) := by
  unfold cleanData
  rw [show canonParams p .timeMulticolumn = canon false (p .timeMulticolumn) from canonAt_eq (by decide) _, canon_index,
    show canonParams p .timeHeaderCoord = canon false (p .timeHeaderCoord) from canonAt_eq (by decide) _, canon_len]
  cases Params.index (p .timeMulticolumn) 0 with
  | error e => rfl
  | ok v =>
    show (if (canon false v).truthy = true then _ else _) = canonState (if v.truthy = true then _ else _)
    rw [canon_truthy]
    split
    · exact cleanMulti_canon ext p s
    · cases Params.len (p .timeHeaderCoord) with
      | error e => rfl
      | ok n => exact cleanSeries_canon ext _ p s []

/-! ### Extraction -/

/-- The arguments of a range, written so. -/
def canonArgs (a : RangeArgs) : RangeArgs :=
  ⟨canon false a.frequency, canon false a.dataStarts, canon false a.timeHeader, canon false a.dataEnds,
    canon false a.timeAlignment, canon false a.alignment⟩

theorem zipArgs_canon : ∀ fs bs hs es ts as : List PVal,
    zipArgs (fs.map (canon false)) (bs.map (canon false)) (hs.map (canon false)) (es.map (canon false))
      (ts.map (canon false)) (as.map (canon false)) = (zipArgs fs bs hs es ts as).map canonArgs := by
  intro fs
  induction fs with
  | nil => intros; rfl
  | cons f fs ih =>
    intro bs hs es ts as
    rcases bs with _ | ⟨b, bs⟩
    · rfl
    rcases hs with _ | ⟨h, hs⟩
    · rfl
    rcases es with _ | ⟨e, es⟩
    · rfl
    rcases ts with _ | ⟨t, ts⟩
    · rfl
    rcases as with _ | ⟨a, as⟩
    · rfl
    simp only [List.map_cons]
    rw [zipArgs, zipArgs, List.map_cons, ih]
    rfl

theorem rangeArgs_canon (p : Params) : rangeArgs (canonParams p) = (rangeArgs p).map (List.map canonArgs) := by
  have e : ∀ n, n ≠ .missingValue → (canonParams p n).items = (p n).items.map (List.map (canon false)) := by
    intro n hn
    rw [show canonParams p n = canon false (p n) from canonAt_eq hn _, canon_items]
  unfold rangeArgs
  rw [e _ (by decide), e _ (by decide), e _ (by decide), e _ (by decide), e _ (by decide), e _ (by decide)]
  cases (p .frequency).items with
  | error e => rfl
  | ok fs =>
  cases (p .dataStarts).items with
  | error e => rfl
  | ok bs =>
  cases (p .timeHeaderCoord).items with
  | error e => rfl
  | ok hs =>
  cases (p .dataEnds).items with
  | error e => rfl
  | ok es =>
  cases (p .timeAlignment).items with
  | error e => rfl
  | ok ts =>
  cases (p .alignment).items with
  | error e => rfl
  | ok as => exact congrArg Except.ok (zipArgs_canon fs bs hs es ts as)

theorem rangesOfArgs_canon (ext : Ext) (p : Params) (s : Sheet) (a : RangeArgs) :
    rangesOfArgs ext (canonParams p) s (canonArgs a) = rangesOfArgs ext p s a := by
  unfold rangesOfArgs canonArgs
  dsimp only
  rw [canon_orNone canon_asInt, canon_asInt, canon_asInt, canon_asHeader, canon_asStr, canon_asAlign,
    show canonParams p .timeMulticolumn = canon false (p .timeMulticolumn) from canonAt_eq (by decide) _, canon_truthy]

theorem bucketLoop_canon (ext : Ext) (p : Params) : ∀ (as : List RangeArgs) (s : Sheet) (bs : List Bucket),
    bucketLoop ext (canonParams p) (as.map canonArgs) s bs = bucketLoop ext p as s bs
  | [], _, _ => rfl
  | a :: as, s, bs => by
    rw [List.map_cons, bucketLoop, bucketLoop, rangesOfArgs_canon]
    simp only [bucketLoop_canon ext p as]

theorem seriesStep_canon (ext : Ext) (p : Params) (i : Nat) (s : Sheet) (bs : List Bucket) :
    seriesStep ext (canonParams p) i s bs = seriesStep ext p i s bs := by
  unfold seriesStep
  rw [canonParams_typed]
  cases p.typed i with
  | error e => rfl
  | ok sp =>
    obtain ⟨h1, h2⟩ := getSeries_marks ext (canonSeries_alike sp) s
    show (match extractors.find? fun x => x.accepts (canonSeries sp) with
      | none => _
      | some _ => _) = _
    rw [h1, h2]
    rfl

theorem seriesLoop_canon (ext : Ext) (p : Params) : ∀ (is : List Nat) (s : Sheet) (bs : List Bucket),
    seriesLoop ext (canonParams p) is s bs = seriesLoop ext p is s bs
  | [], _, _ => rfl
  | i :: is, s, bs => by
    rw [seriesLoop, seriesLoop, seriesStep_canon]
    simp only [seriesLoop_canon ext p is]

theorem getData_canon (ext : Ext) (p : Params) (s : Sheet) : getData ext (canonParams p) s = getData ext p s := by
  unfold getData
  rw [rangeArgs_canon, except_bind_map,
    show canonParams p .headersCoord = canon false (p .headersCoord) from canonAt_eq (by decide) _, canon_len]
  simp only [bucketLoop_canon, seriesLoop_canon]

/-- Parameters written so give the same. -/
theorem scrape_canon (ext : Ext) (p : Params) (s : Sheet) :
    scrape ext (canonParams p) s = ((scrape ext p s).1, canonParams (scrape ext p s).2.1, (scrape ext p s).2.2) := by
  unfold scrape
  rw [cleanData_canon]
  rcases cleanData ext p s with ⟨_ | _, p', s'⟩
  · rfl
  · show (match getData ext (canonParams p') s' with | (r, s'') => (r, canonParams p', s'')) = _
    rw [getData_canon]

end Xls
