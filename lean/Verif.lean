import Verif.Py.Str
import Verif.Py.Dict
import Verif.Py.Float
import Verif.Spec.Float
import Verif.Lemmas.Float
import Verif.Model
import Verif.Validator
import Verif.Spec.History
import Verif.Lemmas.Dict
import Verif.Props.Registry
import Verif.Lemmas.Validator
import Verif.Lemmas.Shown
import Verif.Lemmas.WellKeyed
import Verif.Props.Validation
import Verif.Generator
import Verif.Diff
import Verif.Lemmas.Order
import Verif.Lemmas.Merge
import Verif.Lemmas.Compare
import Verif.Lemmas.CompareNodup
import Verif.Props.Compare
import Verif.Spec.Catalog
import Verif.Lemmas.Alter
import Verif.Props.Migrate
import Verif.Lemmas.MigrateNeeds
import Verif.Props.MigrateExact
import Verif.Spec.MigrateOrder
import Verif.Lemmas.MigrateOrder
import Verif.Props.MigrateOrder
import Verif.Spec.TQL
import Verif.Lemmas.TQL
import Verif.Lemmas.TQLStmt
import Verif.Lemmas.TQLCreate
import Verif.Lemmas.Script
import Verif.Lemmas.Plain
import Verif.Props.AlterScript
import Verif.Spec.Case
import Verif.Props.Case
import Verif.Lemmas.Recreate
import Verif.Props.TqlScript
import Verif.Py.Re
import Verif.Parser
import Verif.Lemmas.Text
import Verif.Spec.Types
import Verif.Lemmas.PyInt
import Verif.Props.Types
import Verif.Spec.Parse
import Verif.Lemmas.Re
import Verif.Lemmas.Parse
import Verif.Props.Parse
import Verif.Config
import Verif.Spec.Config
import Verif.Lemmas.Config
import Verif.Props.Config
import Verif.Worksheet
import Verif.Review
import Verif.Spec.Graph
import Verif.Lemmas.DanglingPaths
import Verif.Lemmas.Graph
import Verif.Props.Graph
import Verif.Props.GraphExact
import Verif.Spec.Review
import Verif.Lemmas.Review
import Verif.Props.Review
import Verif.Spec.Worksheet
import Verif.Lemmas.Worksheet
import Verif.Props.Worksheet
import Verif.Spec.WorksheetFails
import Verif.Lemmas.WorksheetFails
import Verif.Props.WorksheetFails
import Verif.Props.Constructors
import Verif.Excel
import Verif.Spec.Excel
import Verif.Lemmas.Excel
import Verif.Lemmas.ExcelRows
import Verif.Lemmas.ExcelRead
import Verif.Lemmas.ExcelSame
import Verif.Props.Excel
import Verif.Cli
import Verif.Spec.Cli
import Verif.Lemmas.Cli
import Verif.Props.Cli
import Verif.Spec.Lines
import Verif.Lemmas.Squeeze
import Verif.Lemmas.Lines
import Verif.Lemmas.Words
import Verif.Lemmas.Comment
import Verif.Lemmas.BlockComment
import Verif.Props.Lines
import Verif.Spec.CreateTable
import Verif.Lemmas.Fields
import Verif.Lemmas.CreateTable
import Verif.Props.CreateTable
import Verif.Spec.RoundTrip
import Verif.Lemmas.Free
import Verif.Lemmas.Greedy
import Verif.Lemmas.Quoted
import Verif.Lemmas.Blocks
import Verif.Lemmas.TqlLines
import Verif.Lemmas.TqlOk
import Verif.Lemmas.ReadNames
import Verif.Lemmas.ReadAlter
import Verif.Lemmas.ReadCreate
import Verif.Lemmas.ReadBack
import Verif.Lemmas.ReadableDec
import Verif.Props.RoundTrip
import Verif.Lemmas.Again
import Verif.Props.Again
import Verif.Spec.Alter
import Verif.Lemmas.AlterText
import Verif.Props.Alter
import Verif.Spec.Formulas
import Verif.Lemmas.Formulas
import Verif.Props.Formulas
import Verif.Props.DiffAlters
import Verif.Props.DiffExact
import Verif.Reports
import Verif.Spec.Reports
import Verif.Lemmas.Reports
import Verif.Props.Reports
import Verif.Listing
import Verif.Spec.Listing
import Verif.Props.Listing
import Verif.Spec.CreateKeys
import Verif.Lemmas.CreateKeys
import Verif.Props.CreateKeys
import Verif.Spec.WholeFile
import Verif.Lemmas.WholeFile
import Verif.Props.WholeFile
import Verif.ExcelReports
import Verif.Spec.ExcelReports
import Verif.Lemmas.ExcelReports
import Verif.Props.ExcelReports
import Verif.Spec.EndToEnd
import Verif.Props.EndToEnd
import Verif.Console
import Verif.Spec.Console
import Verif.Lemmas.Console
import Verif.Props.Console
import Verif.ReviewConsole
import Verif.Spec.ReviewConsole
import Verif.Lemmas.ReviewConsole
import Verif.Props.ReviewConsole
import Verif.DiffConsole
import Verif.Spec.DiffConsole
import Verif.Props.DiffConsole
import Verif.Spec.StrictServer
import Verif.Lemmas.CaseScript
import Verif.Lemmas.StrictServer
import Verif.Props.StrictServer
import Verif.Spec.StrictMigrate
import Verif.Lemmas.StrictMigrate
import Verif.Props.StrictMigrate
import Verif.Lemmas.Shapes
import Verif.Props.ReportText
import Verif.Argparse
import Verif.CommandLine
import Verif.Spec.CommandLine
import Verif.Lemmas.Argparse
import Verif.Lemmas.ArgHelp
import Verif.Lemmas.CommandLine
import Verif.Props.CommandLine
import Verif.Props.Runs
import Verif.Props.Decoding
import Verif.Props.ScriptExact
import Verif.Props.ReviewExact
import Verif.Props.CliExact
import Verif.Props.Streams
import Verif.Spec.Names
import Verif.Lemmas.Names
import Verif.Lemmas.NamesRead
import Verif.Lemmas.NamesMake
import Verif.Props.Names
import Verif.Spec.Breaks
import Verif.Lemmas.Breaks
import Verif.Props.Breaks
import Verif.Tests
import Verif.Spec.Statements
import Verif.Lemmas.Statements
import Verif.Props.Statements
import Verif.Spec.Reading
import Verif.Lemmas.Longest
import Verif.Lemmas.ReadingNames
import Verif.Lemmas.ReadingAlter
import Verif.Lemmas.ReadingTypes
import Verif.Lemmas.ReadingTable
import Verif.Lemmas.ReadingFile
import Verif.Props.Reading
import Verif.Spec.Messages
import Verif.Lemmas.Messages
import Verif.Props.Messages
import Verif.Props.MoreExact
import Verif.Spec.Workbook
import Verif.Lemmas.Workbook
import Verif.Props.Workbook
import Verif.Spec.WorkbookSays
import Verif.Lemmas.WorkbookSays
import Verif.Props.WorkbookSays
import Verif.Props.ColumnIds
import Verif.Api
import Verif.Spec.Api
import Verif.Props.Api
import Verif.Props.ConfigSaved
import Verif.Props.ValidKept
import Verif.Props.ValidReviews
import Verif.Props.DiffOrder
