import Verif.Model.Base
import Verif.Model.Registry
import Verif.Model.Simple
import Verif.Props.Registry
import Verif.Lemmas.Decimal
import Verif.Lemmas.Simple
import Verif.Props.Simple
import Verif.Lemmas.Sheet
import Verif.Props.Sheet
import Verif.Props.Cell
import Verif.Props.Format
import Verif.Lemmas.FloatPack
import Verif.Lemmas.FloatRound
import Verif.Lemmas.FloatVal
import Verif.Lemmas.FloatOps
import Verif.Lemmas.FloatOrd
import Verif.Spec.Calendar
import Verif.Props.Detect
import Verif.Props.CellNum
import Verif.Props.Dates
import Verif.Model.SliceReader
import Verif.Spec.Stream
import Verif.Lemmas.SliceReader
import Verif.Props.Stream
import Verif.Model.Cfb
import Verif.Spec.Cfb
import Verif.Lemmas.Cfb
import Verif.Lemmas.CfbLoad
import Verif.Lemmas.CfbDoc
import Verif.Props.Cfb
import Verif.Model.Crypto
import Verif.Spec.Crypto
import Verif.Lemmas.Crypto
import Verif.Props.Crypto
import Verif.Spec.Utf16
import Verif.Props.Utf16
import Verif.Model.XlsStrings
import Verif.Spec.XlsStrings
import Verif.Lemmas.XlsStrings
import Verif.Props.XlsStrings
import Verif.Model.XlsStream
import Verif.Spec.XlsStream
import Verif.Lemmas.XlsStream
import Verif.Lemmas.XlsGlobals
import Verif.Model.Hyperlinks
import Verif.Model.XlsSheet
import Verif.Props.XlsStream
import Verif.Spec.Hyperlinks
import Verif.Lemmas.Hyperlinks
import Verif.Props.Hyperlinks
import Verif.Spec.XlsSheet
import Verif.Lemmas.XlsSheet
import Verif.Lemmas.XlsPasses
import Verif.Lemmas.XlsLoad
import Verif.Props.XlsSheet
import Verif.Model.Tokens
import Verif.Model.XlsxRefs
import Verif.Model.Xlsx
import Verif.Spec.XlsxRefs
import Verif.Spec.Xlsx
import Verif.Lemmas.XlsxRefs
import Verif.Lemmas.Xlsx
import Verif.Lemmas.XlsxRels
import Verif.Lemmas.XlsxSheet
import Verif.Props.XlsxRefs
import Verif.Props.Xlsx
import Verif.Props.XlsxDoc
import Verif.Model.Grate2tsv
import Verif.Model.Workers
import Verif.Spec.Grate2tsv
import Verif.Lemmas.Grate2tsv
import Verif.Lemmas.Workers
import Verif.Props.Grate2tsv
import Verif.Props.Workers
import Verif.Lemmas.Fraction
import Verif.Props.Fraction
import Verif.Model.MakeFormat
import Verif.Spec.FormatCode
import Verif.Lemmas.MakeFormat
import Verif.Lemmas.MakeDate
import Verif.Props.MakeFormat
import Verif.Lemmas.FloatSpecial
import Verif.Spec.Display
import Verif.Lemmas.Display
import Verif.Props.Display
import Verif.Model.Open
import Verif.Spec.Open
import Verif.Props.Open
import Verif.Model.Grater
import Verif.Props.Grater
import Verif.Props.Rows
import Verif.Props.GraterMore
import Verif.Props.Again
import Verif.Model.GoTime
import Verif.Spec.DateText
import Verif.Lemmas.GoTime
import Verif.Lemmas.GoFormat
import Verif.Lemmas.SerialTime
import Verif.Props.DateText
import Verif.Props.TimeText
import Verif.Model.GoFloat
import Verif.Spec.NumText
import Verif.Lemmas.GoFloat
import Verif.Lemmas.GoScience
import Verif.Props.NumText
import Verif.Model.GoParse
import Verif.Model.GoShort
import Verif.Spec.NumRead
import Verif.Lemmas.FloatNearest
import Verif.Lemmas.GoParse
import Verif.Lemmas.GoShort
import Verif.Lemmas.GoShortText
import Verif.Lemmas.GoShortMore
import Verif.Props.NumRead
import Verif.Model.GoXml
import Verif.Spec.Xml
import Verif.Spec.XlsxText
import Verif.Lemmas.GoXml
import Verif.Lemmas.GoXmlTok
import Verif.Lemmas.GoXmlDoc
import Verif.Lemmas.GoXmlBad
import Verif.Props.Xml
import Verif.Props.XlsxText
import Verif.Spec.XlsSafe
import Verif.Lemmas.XlsSafe
import Verif.Lemmas.XlsSafePasses
import Verif.Props.XlsSafe
import Verif.Spec.XlsxSafe
import Verif.Lemmas.XlsxSafe
import Verif.Props.XlsxSafe
import Verif.Model.RecPool
import Verif.Lemmas.RecPool
import Verif.Props.RecPool
import Verif.Model.Close
import Verif.Props.Close
import Verif.Props.Memory
import Verif.Model.Grate2tsvSrc
import Verif.Lemmas.SourceReads
import Verif.Props.Grate2tsvSrc
import Verif.Props.OpenEncrypted
import Verif.Props.EncryptedWitness
import Verif.Props.Grate2tsvCreate
import Verif.Spec.CfbSafe
import Verif.Lemmas.CfbSafe
import Verif.Props.OpenSafe
import Verif.Props.OpenSafeWitness
import Verif.Props.SameNumber
import Verif.Props.SameTable
import Verif.Props.SameTableWitness
import Verif.Props.Reexport
import Verif.Props.PartOrder
import Verif.Props.FileName
import Verif.Props.Unused
import Verif.Props.Independent
import Verif.Props.LineEnds
import Verif.Props.Determinism
import Verif.Lemmas.XlsTight
import Verif.Lemmas.XlsErrors
import Verif.Props.XlsLayout
import Verif.Props.XlsLayoutWitness
import Verif.Props.SameStored
import Verif.Props.SameStoredWitness
import Verif.Model.WorkersDisk
import Verif.Lemmas.WorkersDisk
import Verif.Props.WorkersDisk
import Verif.Lemmas.CfbCut
import Verif.Props.CutOff
import Verif.Lemmas.GoXmlCut
import Verif.Props.Damaged
import Verif.Props.Hidden
import Verif.Model.CellHeap
import Verif.Model.GoCrypto
import Verif.Model.Protected
import Verif.Props.CellHeap
import Verif.Props.GoCrypto
import Verif.Props.ValidUtf8
import Verif.Props.ValidUtf8Witness
import Verif.Spec.Links
import Verif.Props.Links
import Verif.Props.OtherArchive
import Verif.Spec.Formulas
import Verif.Props.Formulas
import Verif.Spec.Columns
import Verif.Props.Columns
import Verif.Spec.Defined
import Verif.Props.Defined
import Verif.Model.BufWriter
import Verif.Props.FullDisk
import Verif.Model.Report
import Verif.Spec.Report
import Verif.Props.Report
import Verif.Spec.G2tFlags
import Verif.Props.G2tFlags
import Verif.Spec.ScanTypes
import Verif.Props.ScanTypes
import Verif.Model.GoZip
import Verif.Spec.Zip
import Verif.Lemmas.GoZip
import Verif.Props.Zip
import Verif.Props.ZipWitness
import Verif.Props.TextFile
import Verif.Model.GoCrc32
import Verif.Lemmas.GoCrc32
import Verif.Spec.ZipDamage
import Verif.Lemmas.ZipDamage
import Verif.Props.ZipDamage
import Verif.Props.ZipDamageWitness
import Verif.Props.Dimension
import Verif.Props.TruthError
import Verif.Props.DimensionXls
import Verif.Props.IsoDate
import Verif.Props.Indent
import Verif.Props.Layout
import Verif.Props.LayoutXls
import Verif.Props.LayoutXlsWitness
import Verif.Props.Rename
import Verif.Props.Bom
import Verif.Props.LineOrder
