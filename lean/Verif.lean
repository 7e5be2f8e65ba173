import Verif.Props.FindFK
import Verif.Props.RemoveFK
import Verif.Props.PanFK
import Verif.Props.Implied
import Verif.Props.Graph
import Verif.Props.DataType
import Verif.Props.ReplaceTypes
import Verif.Props.RowPred
import Verif.Props.PanRowPred
import Verif.Props.PredNames
import Verif.Props.CellIO
import Verif.Props.Params
import Verif.Props.PanIO
import Verif.Props.RowFactory
import Verif.Props.Freeze
import Verif.Props.TableShapes
import Verif.Props.Slicer
import Verif.Props.Underscore
import Verif.Props.Duplicates
import Verif.Props.TrailingNan
import Verif.Props.NearlySame
import Verif.Props.Names
import Verif.Props.CsvHeader
import Verif.Props.SqlText
import Verif.Props.Init
import Verif.Props.JsonTable
import Verif.Props.CsvTable
import Verif.Props.SqliteTable
import Verif.Props.FoundNames
import Verif.Props.Used
import Verif.Props.CloneTables
import Verif.Props.Copy
import Verif.Props.ObfusTotal
import Verif.Props.ExcelRound
import Verif.Props.ReadLocal
import Verif.Props.PanInit
import Verif.Props.Good
import Verif.Props.Links
import Verif.Props.PanTypes
import Verif.Props.PanReplace
import Verif.Props.PanXls
import Verif.Props.Main
import Verif.Props.Ampl
import Verif.Props.Mip
import Verif.Props.Report
import Verif.Model.Mdb
import Verif.Model.Pg
import Verif.Spec.DbIO
import Verif.Props.DbIO
import Verif.Props.Mdb
import Verif.Props.Pg
import Verif.Model.FindDups
import Verif.Spec.FindDups
import Verif.Lemmas.Dups
import Verif.Props.FindDups
import Verif.Props.FindDupsFiles
import Verif.Props.FindDupsDb
import Verif.Props.FindDupsJson
import Verif.Props.FindDupsEx
import Verif.Model.PgSchema
import Verif.Spec.PgSchema
import Verif.Lemmas.PgSchema
import Verif.Props.PgSchema
import Verif.Props.PgSchemaEx
import Verif.Model.PanFactory
import Verif.Spec.PanFactory
import Verif.Lemmas.PanFactory
import Verif.Lemmas.PanClone
import Verif.Props.PanFactory
import Verif.Props.PanEdit
import Verif.Props.PanFactoryEx
import Verif.Model.AmplData
import Verif.Spec.AmplData
import Verif.Props.AmplData
import Verif.Props.AmplSend
import Verif.Props.AmplEx
import Verif.Props.PanCells
import Verif.Model.PgPan
import Verif.Spec.PgPan
import Verif.Props.PgPan
import Verif.Model.PanFiles
import Verif.Spec.PanFiles
import Verif.Props.PanFiles
import Verif.Model.AsDict
import Verif.Spec.AsDict
import Verif.Props.AsDict
import Verif.Model.SameData
import Verif.Spec.SameData
import Verif.Props.SameData
import Verif.Model.GenFiles
import Verif.Props.GenFiles
import Verif.Model.GenericFiles
import Verif.Spec.GenericFiles
import Verif.Props.GenericFiles
import Verif.Model.SqlFile
import Verif.Spec.SqlFile
import Verif.Props.SqlFile
import Verif.Props.SqlFileWrite
import Verif.Props.SqlFileExamples
import Verif.Model.PanSame
import Verif.Spec.PanSame
import Verif.Props.PanSame
import Verif.Model.Reserved
import Verif.Spec.Reserved
import Verif.Props.Reserved
import Verif.Model.JsonFile
import Verif.Spec.JsonFile
import Verif.Props.JsonFile
import Verif.Model.PanCsv
import Verif.Spec.PanCsv
import Verif.Props.PanCsv
import Verif.Model.PanObfus
import Verif.Spec.PanObfus
import Verif.Props.PanObfus
import Verif.Model.Objects
import Verif.Spec.Objects
import Verif.Props.Objects
import Verif.Model.Logs
import Verif.Spec.Logs
import Verif.Props.Logs
import Verif.Model.MipCalls
import Verif.Spec.MipCalls
import Verif.Props.MipCalls
import Verif.Model.ReadCache
import Verif.Spec.ReadCache
import Verif.Props.ReadCache
import Verif.Spec.Setters
import Verif.Props.Setters
import Verif.Model.WriteDisk
import Verif.Spec.WriteDisk
import Verif.Props.WriteDisk
import Verif.Model.MdbFile
import Verif.Spec.MdbFile
import Verif.Props.MdbFile
import Verif.Props.MdbFileWrite
import Verif.Props.MdbNames
import Verif.Model.MdbSchema
import Verif.Spec.MdbSchema
import Verif.Props.MdbSchema
import Verif.Model.AmplSet
import Verif.Spec.AmplSet
import Verif.Props.AmplSet
import Verif.Spec.JsonCells
import Verif.Props.JsonCells
import Verif.Props.JsonBack
import Verif.Model.FKReport
import Verif.Spec.FKReport
import Verif.Props.FKReport
import Verif.Model.PanDisk
import Verif.Spec.PanDisk
import Verif.Props.PanDisk
import Verif.Spec.CsvCells
import Verif.Props.CsvCells
import Verif.Props.CsvBack
import Verif.Model.Sloc
import Verif.Spec.Sloc
import Verif.Props.Sloc
import Verif.Spec.SqlCells
import Verif.Props.SqlCells
import Verif.Props.SqlBack
import Verif.Spec.XlCells
import Verif.Props.XlCells
import Verif.Props.XlBack
import Verif.Spec.JsonParams
import Verif.Props.JsonParams
import Verif.Spec.CsvParams
import Verif.Props.CsvParams
import Verif.Spec.SqlParams
import Verif.Props.SqlParams
import Verif.Spec.XlParams
import Verif.Props.XlParams
