/-
Properties C91, C92, C93: stored data frames.
-/
import Verif.Spec.Stored
import Verif.Lemmas.Stored
import Verif.Props.Result
import Verif.Props.CompareCells

set_option autoImplicit false

namespace Xls

open Spec

/-! ### C91: loading files -/

theorem endsWith_extension {path e : Str} (he : e ∈ endings) : EndsWith path e ↔ EndsWithExtension path e := by
  constructor
  · rintro ⟨base, rfl⟩
    simp only [endings, List.mem_cons, List.not_mem_nil, or_false] at he
    rcases he with rfl | rfl | rfl <;> exact ⟨base, _, rfl, by decide, rfl⟩
  · rintro ⟨base, _, _, _, rfl⟩
    exact ⟨base, rfl⟩

theorem storedPath_ending (fs : Files) {path ending : Str} (he : ending ∈ endings) (h : EndsWith path ending) :
    storedPath fs path = .ok (path, ending) := by
  unfold storedPath
  rw [C82_named fs.isFile fs.isDir ((endsWith_extension he).1 h) he]

/-- C91. If there is no file or directory to be found, both functions raise `NoSerializedDataFrameFound`. -/
theorem C91_nothing (ext : Ext) (fs : Files) {path : Str} (index : Nat) (h : ∀ e ∈ endings, ¬ EndsWith path e)
    (hd : fs.isDir path = false) (hf : ∀ e ∈ endings, fs.isFile (path ++ e) = false) :
    loadFrames ext fs path = .error .noSerializedDataFrameFound ∧
    loadFrame ext fs path index = .error .noSerializedDataFrameFound := by
  have e : storedPath fs path = .error .noSerializedDataFrameFound := by
    unfold storedPath
    rw [C82_not_found fs.isFile fs.isDir (fun e he k => h e he ((endsWith_extension he).2 k)) hd hf]
  unfold loadFrames loadFrame
  rw [e]
  exact ⟨rfl, rfl⟩

theorem loadEach_all (ext : Ext) (fs : Files) {files : List (Str × Nat)} {frames : List Frame}
    (h : List.Forall₂ (fun file f => loadFrame ext fs file.1 file.2 = .ok f) files frames) :
    loadEach ext fs files = .ok frames := by
  induction h with
  | nil => rfl
  | @cons file f files frames h1 _ ih =>
    obtain ⟨path, index⟩ := file
    rw [loadEach, h1]
    dsimp only
    rw [ih]

/-- C91. From a workbook the data frames of all its sheets are loaded, in their order. -/
theorem C91_workbook (ext : Ext) (fs : Files) {path : Str} {frames : List Frame} (h : EndsWith path c!".xlsx")
    (hn : fs.sheets path = .ok frames.length)
    (hf : ∀ i, ∀ hi : i < frames.length, loadFrame ext fs path i = .ok frames[i]) :
    loadFrames ext fs path = .ok frames := by
  unfold loadFrames
  rw [storedPath_ending fs (by decide) h]
  dsimp only
  rw [if_pos rfl, hn]
  dsimp only
  apply loadEach_all
  rw [List.forall₂_iff_get]
  refine ⟨by simp, fun i h1 h2 => ?_⟩
  simpa using hf i h2

theorem replaceFuel_ending {e : Str} : ∀ (base : Str) (n : Nat), '.' ∉ base → base.length + 1 ≤ n →
    replaceFuel ('.' :: e) [] n (base ++ '.' :: e) = base
  | [], 0, _, hn => absurd hn (by simp)
  | [], n + 1, _, _ => by
    have h : ∀ s : Str, stripPrefix? s s = some [] := by
      intro s
      induction s with
      | nil => rfl
      | cons c s ih => simp [stripPrefix?, ih]
    rw [List.nil_append, replaceFuel, h]
    cases n <;> rfl
  | c :: cs, 0, _, hn => absurd hn (by simp)
  | c :: cs, n + 1, hd, hn => by
    have hc : '.' ≠ c := fun h => hd (h ▸ List.mem_cons_self)
    rw [List.cons_append, replaceFuel, stripPrefix?, if_neg hc]
    dsimp only
    rw [replaceFuel_ending cs n (fun h => hd (by simp [h])) (by simp at hn; omega)]

/-- C91. From a `.csv` or `.json` file one data frame is loaded; if there is no such file but a directory of
the same name without the ending, those of all files in it with this ending. -/
theorem C91_text (ext : Ext) (fs : Files) {base ending : Str} {frames : List Frame} {files : List Str}
    (he : ending = c!".csv" ∨ ending = c!".json") (hdot : '.' ∉ base)
    (h : (fs.isFile (base ++ ending) = true ∧ files = [base ++ ending]) ∨
      (fs.isFile (base ++ ending) = false ∧ fs.isDir base = true ∧ files = fs.glob base ending))
    (hf : List.Forall₂ (fun file f => loadFrame ext fs file 0 = .ok f) files frames) :
    loadFrames ext fs (base ++ ending) = .ok frames := by
  have hm : ending ∈ endings := by rcases he with rfl | rfl <;> simp [endings]
  have hb : replaceStr ending [] (base ++ ending) = base := by
    unfold replaceStr
    rcases he with rfl | rfl <;> exact replaceFuel_ending base _ hdot (by simp)
  have hx : ending ≠ c!".xlsx" := by rcases he with rfl | rfl <;> decide
  unfold loadFrames
  rw [storedPath_ending fs hm ⟨base, rfl⟩]
  dsimp only
  rw [if_neg hx, hb]
  rcases h with ⟨h1, rfl⟩ | ⟨h1, h2, rfl⟩
  · rw [if_pos h1]
    apply loadEach_all
    cases hf with
    | cons h t =>
      cases t
      exact .cons h .nil
  · rw [if_neg (by simp [h1]), if_pos h2]
    apply loadEach_all
    rw [List.forall₂_map_left_iff]
    exact hf

/-- C91, violated: if there is a directory of that name (as for data frames of several frequencies) and no
workbook, the directory itself is opened as a workbook, whatever it contains and whatever other files there
are. -/
theorem C91_directory_violated (ext : Ext) (fs : Files) {path : Str} {e : Err}
    (h : ∀ e ∈ endings, ¬ EndsWith path e) (hd : fs.isDir path = true)
    (hx : fs.isFile (path ++ c!".xlsx") = false) (hs : fs.sheets path = .error e) :
    loadFrames ext fs path = .error e := by
  have k : storedPath fs path = .ok (path, c!".xlsx") := by
    unfold storedPath
    rw [C82_directory_violated fs.isFile fs.isDir (fun e he k => h e he ((endsWith_extension he).2 k)) hd hx]
  unfold loadFrames
  rw [k]
  dsimp only
  rw [if_pos rfl, hs]

/-- C91, violated: for a `.csv` or `.json` file that does not exist, and no directory either, no exception is
raised: there are just no data frames. -/
theorem C91_missing_violated (ext : Ext) (fs : Files) {path ending : Str}
    (he : ending = c!".csv" ∨ ending = c!".json") (h : EndsWith path ending) (hf : fs.isFile path = false)
    (hd : ∀ p, fs.isDir p = false) : loadFrames ext fs path = .ok [] := by
  have hm : ending ∈ endings := by rcases he with rfl | rfl <;> simp [endings]
  unfold loadFrames
  rw [storedPath_ending fs hm h]
  dsimp only
  rw [if_neg (by rcases he with rfl | rfl <;> decide), hf, if_neg (by decide), hd, if_neg (by decide)]

/-- C91, violated: the data frames of a directory cannot be loaded one by one (`string.lowercase` does not
exist). -/
theorem C91_lowercase_violated (ext : Ext) (fs : Files) {path ending : Str} (index : Nat)
    (he : ending = c!".csv" ∨ ending = c!".json") (h : EndsWith path ending) (hd : fs.isDir path = true) :
    loadFrame ext fs path index = .error .attributeError := by
  have hm : ending ∈ endings := by rcases he with rfl | rfl <;> simp [endings]
  unfold loadFrame
  rw [storedPath_ending fs hm h]
  dsimp only
  rcases he with rfl | rfl
  · rw [if_neg (by decide), if_pos rfl, hd, if_pos rfl]
  · rw [if_neg (by decide), if_neg (by decide), hd, if_pos rfl]

/-- A directory `cases` and a file `cases.csv`; two workbooks. -/
def Sample.mixedFiles : Files where
  isFile p := p = c!"cases.csv" ∨ p = c!"pbi.json"
  isDir p := p = c!"cases" ∨ p = c!"ipc"
  sheets p := if p = c!"cases" ∨ p = c!"ipc" then .error .exception else .ok 2
  glob p e := if p = c!"ipc" ∧ e = c!".csv" then [c!"ipc/ipca.csv", c!"ipc/ipcb.csv"] else []
  read _ i := .ok ⟨[], (List.range 10).map fun (i : Nat) => ⟨2018, 1, i + 1, 0⟩, [if i = 0 then c!"a" else c!"b"],
    [List.replicate 10 .nan]⟩

/-- What is read from them. -/
def Sample.mixedFrame (name : Str) : Frame :=
  ⟨c!"D", (List.range 10).map fun (i : Nat) => ⟨2018, 1, i + 1, 0⟩, [name], [List.replicate 10 .nan]⟩

example : loadFrames Sample.ext0 Sample.mixedFiles c!"v.2/book.xlsx" =
      .ok [Sample.mixedFrame c!"a", Sample.mixedFrame c!"b"] ∧
    loadFrames Sample.ext0 Sample.mixedFiles c!"pbi" = .ok [Sample.mixedFrame c!"a"] ∧
    loadFrames Sample.ext0 Sample.mixedFiles c!"ipc.csv" =
      .ok [Sample.mixedFrame c!"a", Sample.mixedFrame c!"a"] ∧
    loadFrames Sample.ext0 Sample.mixedFiles c!"ipc.json" = .ok [] ∧
    loadFrames Sample.ext0 Sample.mixedFiles c!"emae.csv" = .ok [] ∧
    loadFrames Sample.ext0 Sample.mixedFiles c!"emae" = .error .noSerializedDataFrameFound ∧
    loadFrames Sample.ext0 Sample.mixedFiles c!"cases" = .error .exception := by
  decide +kernel

/-! ### C92: what is loaded again -/

theorem indexFreq_cases {letter : Char} {n : Nat} (hk : (periodShift [letter]).isSome)
    (h : rowsNeeded (indexFreq [letter]) = some n) :
    ([letter] = ['D'] ∧ n = 10) ∨ ([letter] = ['W'] ∧ n = 10) ∨ ([letter] = ['M'] ∧ n = 7) ∨
      ([letter] = ['Q'] ∧ n = 9) ∨ (([letter] = ['A'] ∨ [letter] = ['Y']) ∧ n = 10) := by
  obtain ⟨sh, hsh⟩ := Option.isSome_iff_exists.1 hk
  rcases periodShift_cases hsh with e | e | e | e | e | e | e <;> rw [e.1] at h ⊢ <;>
    simp [rowsNeeded, indexFreq] at h ⊢ <;> omega

/-- The frequency of a run of periods is inferred if there are enough of them. -/
theorem infer_run {letter : Char} {ts : List Time} {a z : Time} {n : Nat} (hv : ∀ t ∈ ts, ValidTime t)
    (hk : (periodShift [letter]).isSome) (hr : PeriodRun [letter] ts) (hs : ∀ t ∈ ts, PeriodStart [letter] t)
    (ha : ts.head? = some a) (hz : ts.getLast? = some z) (hn : rowsNeeded (indexFreq [letter]) = some n)
    (hl : n ≤ ts.length) :
    inferFreq (.float (.fin ((divTimedelta (elapsed a z) ts.length : Rat) / 1000000))) =
      .ok (convertFreq [letter]) := by
  cases ts with
  | nil => cases ha
  | cons t ts =>
    simp only [List.head?_cons, Option.some.injEq] at ha
    subst ha
    have hzm : z ∈ t :: ts := List.mem_of_getLast? hz
    have va := hv t (by simp)
    have vz := hv z hzm
    have sa := hs t (by simp)
    have sz := hs z hzm
    rw [elapsed_instant va vz]
    rw [List.length_cons] at hl ⊢
    rcases indexFreq_cases hk hn with ⟨e, rfl⟩ | ⟨e, rfl⟩ | ⟨e, rfl⟩ | ⟨e, rfl⟩ | ⟨e, rfl⟩
    · rw [e] at hr ⊢
      have hi := run_micros (k := 86400000000) rfl hr hz
      show _ = Except.ok c!"D"
      refine inferFreq_near (s := 86400) (by omega) (by decide) (by norm_num [namedSpacings]) ?_ ?_ <;>
        rw [hi] <;> push_cast <;> omega
    · rw [e] at hr ⊢
      have hi := run_micros (k := 604800000000) rfl hr hz
      show _ = Except.ok c!"W"
      refine inferFreq_near (s := 604800) (by omega) (by decide) (by norm_num [namedSpacings]) ?_ ?_ <;>
        rw [hi] <;> push_cast <;> omega
    · rw [e] at hr sa sz ⊢
      obtain ⟨h1, h2⟩ := run_months (k := 1) rfl hr hz
      rw [Nat.mul_one] at h1
      have hav := months_average va vz sa sz h1 (by omega)
      show _ = Except.ok c!"MS"
      refine inferFreq_near (s := 2419200) (by omega) (by decide) (by norm_num [namedSpacings]) ?_ ?_ <;>
        unfold instant <;> rw [h2] <;> push_cast <;> omega
    · rw [e] at hr sa sz ⊢
      obtain ⟨h1, h2⟩ := run_months (k := 3) rfl hr hz
      have hav := quarters_average va vz sa sz h1 (by omega)
      show _ = Except.ok c!"QS"
      refine inferFreq_near (s := 7776000) (by omega) (by decide) (by norm_num [namedSpacings]) ?_ ?_ <;>
        unfold instant <;> rw [h2] <;> push_cast <;> omega
    · have hav : ∃ h2 : z.us = t.us, 3285 * (ts.length + 1) + 10 * dayNumber t ≤ 10 * dayNumber z ∧
          10 * dayNumber z ≤ 4015 * (ts.length + 1) + 10 * dayNumber t := by
        rcases e with e | e <;>
        · rw [e] at hr sa sz
          obtain ⟨h1, h2⟩ := run_months (k := 12) rfl hr hz
          exact ⟨h2, years_average va vz sa sz h1 (by omega)⟩
      obtain ⟨h2, hav⟩ := hav
      have ec : convertFreq [letter] = c!"AS" := by rcases e with e | e <;> rw [e] <;> rfl
      rw [ec]
      refine inferFreq_near (s := 31536000) (by omega) (by decide) (by norm_num [namedSpacings]) ?_ ?_ <;>
        unfold instant <;> rw [h2] <;> push_cast <;> omega

theorem rebuild_sound (ext : Ext) {f g : Frame} {n : Nat} (hs : SoundFrame ext f) (hg : SameTable g f)
    (hn : rowsNeeded f.freq = some n) (hl : n ≤ f.index.length) (hr : ∀ t ∈ f.index, Representable t) :
    rebuildFrame ext g = .ok f := by
  obtain ⟨g1, g2, g3⟩ := hg
  rcases hs.periods with hp | ⟨hb, _⟩
  · obtain ⟨letter, k1, k2, k3, k4⟩ := hp.kind
    cases hi : f.index with
    | nil => exact absurd hi hp.some_period
    | cons a rest =>
      obtain ⟨z, hz⟩ : ∃ z, f.index.getLast? = some z := by
        rw [hi]; exact ⟨_, List.getLast?_eq_some_getLast (by simp)⟩
      have ha : f.index.head? = some a := by rw [hi]; rfl
      rw [k2] at hn
      have h1 := infer_run hs.real k1 k3 k4 ha hz hn hl
      have h2 := dateRange_run ext hs.real k3 ha hz (k4 a (by rw [hi]; simp)) (hr a (by rw [hi]; simp))
        (hr z (List.mem_of_getLast? hz))
      unfold rebuildFrame
      rw [g1, ha, hz]
      dsimp only
      rw [h1]
      dsimp only
      rw [h2]
      dsimp only
      rw [g2, g3, if_pos]
      · rw [← k2]
      · rw [List.all_eq_true]
        intro d hd
        simpa using hs.sizes d hd
  · rw [hb] at hn
    cases hn

/-- C92. A data frame that `get_data_frames` gave back is loaded again from a file as it was, if it has
enough rows (and its frequency is neither semesters nor business days). -/
theorem C92_round_trip_partial (ext : Ext) (wb : List Nat) (given : Given) (name : Str) (safe preserve : Bool)
    (w w' : World) (ans : Answer) (nm : Str) (pr : Nat) (he : RealDates ext)
    (hwb : ∀ r ∈ wb, r < w.nextSheet ∧ SheetValid (w.sheets r))
    (h : getDataFrames ext wb given name safe preserve w = (.ok (ans, nm, pr), w'))
    (f : Frame) (hf : InAnswer f ans) (n : Nat) (hn : rowsNeeded f.freq = some n) (hl : n ≤ f.index.length)
    (hr : ∀ t ∈ f.index, Representable t) (fs : Files) (path ending : Str) (g : Frame)
    (hend : ending ∈ endings) (hpath : EndsWith path ending) (hfile : fs.isFile path = true)
    (hdir : fs.isDir path = false) (hread : fs.read path 0 = .ok g) (hg : SameTable g f) :
    loadFrame ext fs path 0 = .ok f := by
  have hsf := C85_sound_frames ext wb given name safe preserve w w' ans nm pr he hwb h f hf
  unfold loadFrame
  rw [storedPath_ending fs hend hpath]
  dsimp only
  have e : (if ending = c!".xlsx" then fs.read path 0
      else if ending = c!".csv" then
        if fs.isDir path = true then Except.error Err.attributeError else fs.read path 0
      else
        if fs.isDir path = true then Except.error Err.attributeError
        else if fs.isFile path = false ∧ fs.isDir (dropLastChars 5 path) = true then
          Except.error Err.attributeError
        else fs.read path 0) = .ok g := by
    rw [hdir, hfile, hread]
    simp
  rw [e]
  exact rebuild_sound ext hsf hg hn hl hr

/-- Twelve months of one series. -/
def Sample.stored (n : Nat) : Frame :=
  ⟨c!"MS", (List.range n).map fun (i : Nat) => ⟨2014, i + 1, 1, 0⟩, [c!"PBI"],
    [(List.range n).map fun (i : Nat) => .fin i]⟩

/-- A file with a data frame, and nothing else. -/
def Sample.oneFile (path : Str) (f : Frame) : Files where
  isFile p := p = path
  isDir _ := false
  sheets p := if p = path then .ok 1 else .error .exception
  glob _ _ := []
  read p _ := if p = path then .ok f else .error .exception

example : loadFrame Sample.ext0 (Sample.oneFile c!"pbi.csv" (Sample.stored 12)) c!"pbi" 0 =
    .ok (Sample.stored 12) := by decide +kernel

/-- Ten days. -/
def Sample.tenDays : Sheet := Sample.rows
  [[.str c!"fecha", .str c!"PBI", .str c!"IPC"],
   [Sample.day 2018 1 1, .int 11, .int 1],
   [Sample.day 2018 1 2, .int 12, .int 2],
   [Sample.day 2018 1 3, .int 13, .int 3],
   [Sample.day 2018 1 4, .int 14, .int 4],
   [Sample.day 2018 1 5, .int 15, .int 5],
   [Sample.day 2018 1 6, .int 16, .int 6],
   [Sample.day 2018 1 7, .int 17, .int 7],
   [Sample.day 2018 1 8, .int 18, .int 8],
   [Sample.day 2018 1 9, .int 19, .int 9],
   [Sample.day 2018 1 10, .int 20, .int 10]]

/-- The data frame of the ten days. -/
def Sample.tenFrame : Frame :=
  ⟨c!"D", (List.range 10).map fun (i : Nat) => ⟨2018, 1, i + 1, 0⟩, [c!"PBI", c!"IPC"],
    [(List.range 10).map fun (i : Nat) => .fin (11 + i), (List.range 10).map fun (i : Nat) => .fin (1 + i)]⟩

theorem Sample.tenDays_answer :
    (getDataFrames Sample.extWeek [0] (.object 0) [] false true
      (Sample.world Sample.tenDays (Sample.weekTable false))).1 =
    .ok (.dfs (.one Sample.tenFrame), c!"S", 0) := by decide +kernel

/-- A data frame that is scraped, stored in a CSV file (where its frequency is not told) and loaded. -/
example : loadFrame Sample.extWeek (Sample.oneFile c!"ten.csv" { Sample.tenFrame with freq := [] }) c!"ten.csv" 0 =
    .ok Sample.tenFrame := by
  obtain ⟨w', h⟩ : ∃ w', getDataFrames Sample.extWeek [0] (.object 0) [] false true
      (Sample.world Sample.tenDays (Sample.weekTable false)) =
      (.ok (.dfs (.one Sample.tenFrame), c!"S", 0), w') := ⟨_, by rw [← Sample.tenDays_answer]⟩
  refine C92_round_trip_partial _ _ _ _ _ _ _ _ _ _ _ Sample.extWeek_real ?_ h Sample.tenFrame rfl 10 rfl (by decide)
    (by decide) (Sample.oneFile c!"ten.csv" { Sample.tenFrame with freq := [] }) c!"ten.csv" c!".csv"
    { Sample.tenFrame with freq := [] } (by decide) ⟨c!"ten", rfl⟩ rfl rfl rfl ⟨rfl, rfl, rfl⟩
  intro r hr
  rw [List.mem_singleton] at hr
  subst hr
  refine ⟨by decide, Sample.rows_valid ?_⟩
  simp only [List.mem_cons, List.not_mem_nil, or_false, forall_eq_or_imp, forall_eq, Sample.day]
  simp only [reduceCtorEq, false_implies, implies_true, true_and, Cell.dt.injEq, forall_eq']
  decide

/-- C92, violated: a data frame with few rows cannot be loaded again, because the time from the first to the
last date is divided by the number of dates, not of the steps between them. -/
theorem C92_short_violated :
    rebuildFrame Sample.ext0 (Sample.stored 5) = .error .exception ∧
    rebuildFrame Sample.ext0 (Sample.stored 1) = .error .notImplementedError := by
  constructor <;> decide +kernel

/-- C92, violated: six months can be loaded again or not, depending on where they start. -/
theorem C92_february_violated :
    rebuildFrame Sample.ext0 ⟨c!"MS", [⟨2014, 7, 1, 0⟩, ⟨2014, 8, 1, 0⟩, ⟨2014, 9, 1, 0⟩, ⟨2014, 10, 1, 0⟩,
      ⟨2014, 11, 1, 0⟩, ⟨2014, 12, 1, 0⟩], [c!"PBI"], [[.nan, .nan, .nan, .nan, .nan, .nan]]⟩ =
      .ok ⟨c!"MS", [⟨2014, 7, 1, 0⟩, ⟨2014, 8, 1, 0⟩, ⟨2014, 9, 1, 0⟩, ⟨2014, 10, 1, 0⟩,
      ⟨2014, 11, 1, 0⟩, ⟨2014, 12, 1, 0⟩], [c!"PBI"], [[.nan, .nan, .nan, .nan, .nan, .nan]]⟩ ∧
    rebuildFrame Sample.ext0 ⟨c!"MS", [⟨2014, 2, 1, 0⟩, ⟨2014, 3, 1, 0⟩, ⟨2014, 4, 1, 0⟩, ⟨2014, 5, 1, 0⟩,
      ⟨2014, 6, 1, 0⟩, ⟨2014, 7, 1, 0⟩], [c!"PBI"], [[.nan, .nan, .nan, .nan, .nan, .nan]]⟩ =
      .error .exception := by
  constructor <;> decide +kernel

/-- C92, violated: semesters are refused, however many there are. -/
theorem C92_semesters_violated :
    rebuildFrame Sample.ext0 ⟨c!"6MS", (List.range 20).map fun (i : Nat) => ⟨2000 + i / 2, i % 2 * 6 + 1, 1, 0⟩,
      [c!"PBI"], [List.replicate 20 (.fin 1)]⟩ = .error .exception := by
  decide +kernel

/-- C92, violated: business days are refused (here those of two weeks). -/
theorem C92_business_violated :
    rebuildFrame Sample.ext0 ⟨c!"B", [⟨2018, 1, 1, 0⟩, ⟨2018, 1, 2, 0⟩, ⟨2018, 1, 3, 0⟩, ⟨2018, 1, 4, 0⟩,
      ⟨2018, 1, 5, 0⟩, ⟨2018, 1, 8, 0⟩, ⟨2018, 1, 9, 0⟩, ⟨2018, 1, 10, 0⟩, ⟨2018, 1, 11, 0⟩, ⟨2018, 1, 12, 0⟩],
      [c!"USD"], [List.replicate 10 (.fin 1)]⟩ = .error .valueError := by
  decide +kernel

/-! ### C93: converting -/

theorem convertLoop_all (ext : Ext) (fs : Files) : ∀ (bs : List (Str × Frame)) (d : Disk),
    (∀ b ∈ bs, loadFrames ext fs (b.1 ++ c!".xlsx") = .ok [b.2]) →
    convertLoop ext fs (bs.map fun b => b.1 ++ c!".xlsx") d =
      (.ok (), { d with written := d.written ++ copiesOf bs })
  | [], d, _ => by simp [convertLoop, copiesOf]
  | (base, f) :: bs, d, h => by
    have e : dropLastChars 5 (base ++ c!".xlsx") = base := by
      unfold dropLastChars
      simp
    rw [List.map_cons, convertLoop, h (base, f) (by simp)]
    dsimp only
    rw [e, convertLoop_all ext fs bs _ fun b hb => h b (by simp [hb])]
    simp [copiesOf]

/-- C93. If each workbook of the directory holds one data frame, each is written to a JSON and a CSV file of
the same name, no directory is made and the working directory is afterwards what it was. -/
theorem C93_converted_partial (ext : Ext) (fs : Files) (cwd dir : Str) (bs : List (Str × Frame))
    (h : ∀ b ∈ bs, loadFrames ext fs (b.1 ++ c!".xlsx") = .ok [b.2]) :
    convertAll ext fs cwd dir (bs.map fun b => b.1 ++ c!".xlsx") = (.ok (), ⟨cwd, [], copiesOf bs⟩) := by
  unfold convertAll
  rw [convertLoop_all ext fs bs _ h]
  simp

/-- C93, violated: a workbook with several data frames ends the conversion with an `AttributeError`
(`string.lowercase`); the workbooks after it are not converted and the working directory is not restored. -/
theorem C93_several_violated (ext : Ext) (fs : Files) (cwd dir : Str) (bs : List (Str × Frame)) (book : Str)
    (f g : Frame) (more : List Frame) (rest : List Str)
    (h : ∀ b ∈ bs, loadFrames ext fs (b.1 ++ c!".xlsx") = .ok [b.2])
    (hb : loadFrames ext fs book = .ok (f :: g :: more)) :
    ∃ made, convertAll ext fs cwd dir ((bs.map fun b => b.1 ++ c!".xlsx") ++ book :: rest) =
      (.error .attributeError, ⟨dir, made, copiesOf bs⟩) := by
  have key : ∀ (bs : List (Str × Frame)) (d : Disk),
      (∀ b ∈ bs, loadFrames ext fs (b.1 ++ c!".xlsx") = .ok [b.2]) →
      ∃ made, convertLoop ext fs ((bs.map fun b => b.1 ++ c!".xlsx") ++ book :: rest) d =
        (.error .attributeError, ⟨d.cwd, made, d.written ++ copiesOf bs⟩) := by
    intro bs
    induction bs with
    | nil =>
      intro d _
      rw [List.map_nil, List.nil_append, convertLoop, hb]
      dsimp only
      rw [if_neg (by simp)]
      by_cases hd : fs.isDir (dropLastChars 5 book) = true
      · rw [if_pos hd]; exact ⟨d.made, by simp [copiesOf]⟩
      · rw [if_neg hd]; exact ⟨d.made ++ [dropLastChars 5 book], by simp only [copiesOf, List.append_nil]⟩
    | cons b bs ih =>
      intro d h
      obtain ⟨base, f⟩ := b
      have e : dropLastChars 5 (base ++ c!".xlsx") = base := by
        unfold dropLastChars
        simp
      rw [List.map_cons, List.cons_append, convertLoop, h (base, f) (by simp)]
      dsimp only
      rw [e]
      obtain ⟨made, hm⟩ := ih { d with
        written := d.written ++ [(base ++ c!".json", f), (base ++ c!".csv", f)] } fun b hb => h b (by simp [hb])
      exact ⟨made, by rw [hm]; simp [copiesOf]⟩
  obtain ⟨made, hm⟩ := key bs ⟨dir, [], []⟩ h
  refine ⟨made, ?_⟩
  unfold convertAll
  rw [hm]
  simp

example : convertAll Sample.ext0 (Sample.oneFile c!"pbi.xlsx" (Sample.stored 12)) c!"home" c!"cases"
    [c!"pbi.xlsx"] = (.ok (), ⟨c!"home", [], [(c!"pbi.json", Sample.stored 12),
      (c!"pbi.csv", Sample.stored 12)]⟩) := by decide +kernel

end Xls
