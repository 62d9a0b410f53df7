import Verif.Props.Biff
import Verif.Props.BiffEnum
import Verif.Props.Recs
import Verif.Props.Refusals
import Verif.Props.Rels
import Verif.Props.Casts
import Verif.Props.Chunk
import Verif.Props.ChunkSize
import Verif.Props.Series
import Verif.Props.Xlsb
import Verif.Props.Format
import Verif.Props.XlsbParts
import Verif.Props.Xlsx
import Verif.Props.XlsxParts
import Verif.Props.Queue
import Verif.Props.Read
import Verif.Props.Table
import Verif.Props.EndToEnd
import Verif.Props.EndToEndXlsx
import Verif.Props.Resolve
import Verif.Props.ReadFile
import Verif.Props.DateParts
import Verif.Props.Repr
import Verif.Props.Accel
import Verif.Props.Names
import Verif.Props.Literals
import Verif.Props.DateText
import Verif.Props.Documented
import Verif.Props.Agree
import Verif.Props.SharedDates
import Verif.Props.Book
import Verif.Props.ArrowFn
import Verif.Props.Runs
import Verif.Model.XmlText
import Verif.Model.Archive
import Verif.Spec.XmlText
import Verif.Spec.XmlWrite
import Verif.Spec.Archive
import Verif.Spec.XlsxWrite
import Verif.Lemmas.XmlText
import Verif.Lemmas.XmlWrite
import Verif.Lemmas.XmlCut
import Verif.Lemmas.XmlOnly
import Verif.Lemmas.XlsxWrite
import Verif.Props.XmlText
import Verif.Props.Archive
import Verif.Props.XlsxWrite
import Verif.Spec.XlsbWrite
import Verif.Props.XlsbWrite
import Verif.Props.RelsParsed
import Verif.Props.Held
import Verif.Props.Shown
import Verif.Props.EmptySeries
import Verif.Props.Offsets
import Verif.Props.FullRead
import Verif.Spec.History
import Verif.Lemmas.History
import Verif.Lemmas.HistoryLow
import Verif.Lemmas.HistoryRead
import Verif.Lemmas.HistoryGrid
import Verif.Model.Buffer
import Verif.Model.NumText
import Verif.Spec.NumText
import Verif.Spec.Numbers
import Verif.Props.Buffer
import Verif.Props.NumText
import Verif.Spec.TwoFormats
import Verif.Props.TwoFormats
import Verif.Model.ArrowText
import Verif.Props.ArrowText
import Verif.Spec.Meaning
import Verif.Props.Meaning
import Verif.Spec.FullWrite
import Verif.Props.FullWrite
import Verif.Props.SerialExact
import Verif.Spec.Padding
import Verif.Props.Padding
import Verif.Props.SkipRows
import Verif.Spec.Xstring
import Verif.Props.Xstring
import Verif.Props.Entries
import Verif.Spec.Elapsed
import Verif.Props.Elapsed
import Verif.Props.CellOrder
import Verif.Props.OwnColumn
import Verif.Model.ArrowRender
import Verif.Props.MomentText
import Verif.Model.StrptimePolars
import Verif.Spec.PreciseText
import Verif.Props.PolarsText
import Verif.Props.PolarsMixed
import Verif.Props.ColumnNumbers
import Verif.Spec.Differential
import Verif.Props.Differential
import Verif.Model.UserFns
import Verif.Props.UserFns
import Verif.Spec.CellFormats
import Verif.Props.CellFormats
import Verif.Spec.CellType
import Verif.Props.CellType
import Verif.Spec.Errors
import Verif.Props.Errors
import Verif.Spec.Phonetic
import Verif.Props.Phonetic
import Verif.Spec.Gaps
import Verif.Props.Gaps
import Verif.Props.Abandon
import Verif.Spec.LongText
import Verif.Props.LongText
import Verif.Spec.Options
import Verif.Lemmas.Options
import Verif.Props.Options
import Verif.Spec.Blanks
import Verif.Props.Blanks
import Verif.Spec.OptionalFmt
import Verif.Props.OptionalFmt
import Verif.Spec.Memory
import Verif.Props.Memory
import Verif.Spec.InCell
import Verif.Lemmas.InCell
import Verif.Props.InCell
import Verif.Spec.SkipCols
import Verif.Lemmas.SkipCols
import Verif.Props.SkipCols
import Verif.Spec.TakeRows
import Verif.Props.TakeRows
import Verif.Spec.SortRows
import Verif.Props.SortRows
import Verif.Spec.Moved
import Verif.Lemmas.Moved
import Verif.Props.Moved
import Verif.Spec.Stored
import Verif.Props.Stored
import Verif.Props.WholeNumbers
import Verif.Lemmas.RoundAgain
import Verif.Spec.Again
import Verif.Props.Again
import Verif.Spec.Parts
import Verif.Props.Parts
import Verif.Spec.Faithful
import Verif.Props.Faithful
import Verif.Spec.BookParts
import Verif.Props.BookParts
import Verif.Spec.RowFilter
import Verif.Props.RowFilter
import Verif.Spec.NullValues
import Verif.Props.NullValues
import Verif.Spec.Rearranged
import Verif.Props.Rearranged
import Verif.Spec.OtherSheets
import Verif.Props.OtherSheets
import Verif.Spec.Storage
import Verif.Props.Storage
import Verif.Spec.Renamed
import Verif.Props.Renamed
import Verif.Spec.Retyped
import Verif.Lemmas.ColumnCount
import Verif.Props.Retyped
import Verif.Props.Shorthand
import Verif.Spec.DataStart
import Verif.Props.DataStart
import Verif.Props.FilterForms
import Verif.Spec.Limits
import Verif.Props.Limits
import Verif.Spec.LookupSize
import Verif.Props.LookupSize
import Verif.Spec.Strategies
import Verif.Props.Strategies
import Verif.Spec.FormatList
import Verif.Props.FormatList
import Verif.Props.FewerDigits
import Verif.Props.MoreFilters
import Verif.Props.SameRow
