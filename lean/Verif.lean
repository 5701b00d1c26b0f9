import Verif.Model.Basic
import Verif.Model.Time
import Verif.Model.Sheet
import Verif.Model.Peg
import Verif.Model.SParams
import Verif.Model.ParseTime
import Verif.Model.TimeIndex
import Verif.Model.PyVal
import Verif.Model.Coords
import Verif.Model.Params
import Verif.Spec.Calendar
import Verif.Lemmas.Calendar
import Verif.Lemmas.Increment
import Verif.Props.Increment
import Verif.Spec.TimeIndex
import Verif.Lemmas.Parse
import Verif.Lemmas.Clean
import Verif.Lemmas.CleanInv
import Verif.Lemmas.CleanRun
import Verif.Lemmas.CleanMisc
import Verif.Spec.Samples
import Verif.Props.Progression
import Verif.Props.Cleaning
import Verif.Spec.Frequency
import Verif.Lemmas.Frequency
import Verif.Props.MultiFrequency
import Verif.Spec.TimeText
import Verif.Lemmas.Peg
import Verif.Lemmas.TimeText
import Verif.Lemmas.TimeText2
import Verif.Lemmas.TimeText3
import Verif.Props.Parsing
import Verif.Props.SimpleDates
import Verif.Spec.Coords
import Verif.Lemmas.Text
import Verif.Lemmas.Coords
import Verif.Lemmas.Runs
import Verif.Props.Coords
import Verif.Spec.Params
import Verif.Lemmas.Build
import Verif.Lemmas.NumSeries
import Verif.Lemmas.BuildErrors
import Verif.Lemmas.Validate
import Verif.Spec.ParamSamples
import Verif.Props.ParamsBuild
import Verif.Lemmas.Headers
import Verif.Props.ParamsHeaders
import Verif.Props.ParamsLayout
import Verif.Props.ParamsObject
import Verif.Model.GetData
import Verif.Spec.Extraction
import Verif.Spec.Shown
import Verif.Spec.WholeNumber
import Verif.Lemmas.GetData
import Verif.Lemmas.GetData2
import Verif.Lemmas.GetData3
import Verif.Props.Extraction
import Verif.Model.PeriodRange
import Verif.Spec.Periods
import Verif.Lemmas.PeriodRange
import Verif.Lemmas.Between
import Verif.Lemmas.MultiRange
import Verif.Props.Periods
import Verif.Model.Frames
import Verif.Spec.Frames
import Verif.Lemmas.Frames
import Verif.Lemmas.RangeUnique
import Verif.Lemmas.Frames2
import Verif.Props.Frames
import Verif.Spec.Table
import Verif.Lemmas.Table
import Verif.Props.EndToEnd
import Verif.Model.Compare
import Verif.Spec.Compare
import Verif.Props.Compare
import Verif.Model.Books
import Verif.Spec.Books
import Verif.Props.Books
import Verif.Model.Attempts
import Verif.Model.Scraper
import Verif.Spec.Attempts
import Verif.Spec.Scraper
import Verif.Spec.ScraperSamples
import Verif.Lemmas.Attempts
import Verif.Lemmas.Scraper
import Verif.Props.Attempts
import Verif.Props.Scraper
import Verif.Props.Preserve
import Verif.Spec.Description
import Verif.Spec.Series
import Verif.Spec.Layout
import Verif.Lemmas.Accept
import Verif.Lemmas.Call
import Verif.Lemmas.OneIndex
import Verif.Lemmas.CleanRead
import Verif.Lemmas.Layout
import Verif.Lemmas.LayoutData
import Verif.Props.Call
import Verif.Props.Tables
import Verif.Spec.Describes
import Verif.Lemmas.Describes
import Verif.Props.Describes
import Verif.Model.ParamsView
import Verif.Lemmas.ParamsView
import Verif.Props.ParamsView
import Verif.Model.CompareCells
import Verif.Spec.CompareCells
import Verif.Props.CompareCells
import Verif.Spec.MixedText
import Verif.Spec.MixedTable
import Verif.Lemmas.MixedText
import Verif.Lemmas.MixedTable
import Verif.Lemmas.MixedData
import Verif.Props.MixedTable
import Verif.Spec.Result
import Verif.Lemmas.Result
import Verif.Props.Result
import Verif.Spec.WorkingDays
import Verif.Props.WorkingDays
import Verif.Spec.Reading
import Verif.Props.SeveralColumns
import Verif.Lemmas.Answers
import Verif.Spec.Provenance
import Verif.Lemmas.Provenance
import Verif.Props.Provenance
import Verif.Spec.Usable
import Verif.Lemmas.Usable
import Verif.Props.Usable
import Verif.Model.Stored
import Verif.Spec.Stored
import Verif.Lemmas.Stored
import Verif.Props.Stored
import Verif.Spec.Columns
import Verif.Lemmas.Columns
import Verif.Props.Columns
import Verif.Spec.Again
import Verif.Lemmas.Again
import Verif.Lemmas.Again2
import Verif.Props.Again
import Verif.Spec.Offset
import Verif.Lemmas.Offset
import Verif.Lemmas.InTurn
import Verif.Props.Offset
import Verif.Model.Cases
import Verif.Spec.Cases
import Verif.Props.Cases
import Verif.Spec.LeftOut
import Verif.Props.LeftOut
import Verif.Spec.Turned
import Verif.Lemmas.Turned
import Verif.Lemmas.TurnedDates
import Verif.Props.Turned
import Verif.Props.Semesters
import Verif.Model.Templates
import Verif.Spec.Templates
import Verif.Lemmas.Templates
import Verif.Props.Templates
import Verif.Spec.SeveralTables
import Verif.Lemmas.SeveralTables
import Verif.Lemmas.SeveralRows
import Verif.Props.SeveralTables
import Verif.Spec.Marks
import Verif.Lemmas.Marks
import Verif.Props.Marks
import Verif.Tests.ParseTime
import Verif.Tests.Units
import Verif.Tests.Parameters
import Verif.Model.Display
import Verif.Spec.Display
import Verif.Lemmas.Display
import Verif.Props.Display
import Verif.Model.Floats
import Verif.Spec.Floats
import Verif.Lemmas.Floats
import Verif.Props.Floats
import Verif.Spec.Determined
import Verif.Lemmas.Determined
import Verif.Props.Determined
import Verif.Spec.Moved
import Verif.Lemmas.Moved
import Verif.Lemmas.Moved2
import Verif.Lemmas.Moved3
import Verif.Props.Moved
import Verif.Spec.Joined
import Verif.Lemmas.Joined
import Verif.Props.Joined
import Verif.Spec.Likely
import Verif.Lemmas.Likely
import Verif.Props.Likely
import Verif.Spec.NumberCells
import Verif.Lemmas.NumberCells
import Verif.Props.NumberCells
import Verif.Props.Refused
import Verif.Props.MovedLeftOut
import Verif.Spec.SafeMode
import Verif.Props.SafeMode
import Verif.Props.Remembered
import Verif.Spec.Apart
import Verif.Lemmas.Apart
import Verif.Lemmas.Apart2
import Verif.Props.Apart
import Verif.Spec.Numbers
import Verif.Lemmas.Numbers
import Verif.Lemmas.Numbers2
import Verif.Lemmas.Numbers3
import Verif.Props.Numbers
import Verif.Lemmas.Spelling
import Verif.Props.TextMarker
import Verif.Spec.Appended
import Verif.Lemmas.Appended
import Verif.Props.Appended
import Verif.Spec.Equal
import Verif.Lemmas.Equal
import Verif.Lemmas.Equal2
import Verif.Props.Equal
import Verif.Lemmas.Alike
import Verif.Spec.Retitled
import Verif.Props.Retitled
import Verif.Props.Basics
import Verif.Spec.Rewritten
import Verif.Lemmas.Letters
import Verif.Lemmas.Rewritten
import Verif.Lemmas.Rewritten2
import Verif.Props.Rewritten
import Verif.Props.BothModes
import Verif.Spec.OtherNames
import Verif.Lemmas.AlikePairs
import Verif.Lemmas.OtherNames
import Verif.Props.OtherNames
import Verif.Spec.Cut
import Verif.Lemmas.Cut
import Verif.Props.Cut
import Verif.Spec.Later
import Verif.Lemmas.Later
import Verif.Props.Later
import Verif.Spec.Window
import Verif.Lemmas.Window
import Verif.Props.Window
import Verif.Spec.NameParts
import Verif.Spec.Markers
import Verif.Lemmas.NameParts
import Verif.Lemmas.Markers
import Verif.Props.NameParts
import Verif.Props.Markers
