import Verif.Model.PanFiles
import Verif.Model.WriteDisk
/-!
# What the writers of a `PanDatFactory` leave on the disk

The file system is that of `WriteDisk`.  What pandas and `json` do with the file that they are given is a parameter, also when
they raise.  Simplifications: a path can be opened for writing unless it is a directory; paths are spelled in one way, and
`dir_path` does not end in a slash.
-/
namespace Ticdat

/-- A library that writes one file: it writes all of it, or it raises with some of it written, or it raises before the file
is opened. -/
inductive Saved (A : Type)
  | whole (a : A)
  | torn (a : A)
  | refused

/-- The file at this path after the library has written it, and whether an exception was raised. -/
def savedAt {A : Type} (path : String) (disk : FileSys A) : Saved A → FileSys A × Bool
  | .whole a => if disk.isDir path then (disk, true) else (PyDict.set disk path (.file a), false)
  | .torn a => if disk.isDir path then (disk, true) else (PyDict.set disk path (.file a), true)
  | .refused => (disk, true)

/-- The loop of `write_directory` over the tables (pandatio.py:371-374). -/
def csvPanTables {A : Type} (toCsv : Frame → Saved A) (pathOf : String → String) :
    List (String × Frame) → FileSys A → FileSys A × Bool
  | [], disk => (disk, false)
  | p :: rest, disk =>
    let r := savedAt (pathOf p.1) disk (toCsv p.2)
    if r.2 then r else csvPanTables toCsv pathOf rest r.1

/-- `CsvPanFactory.write_directory` (pandatio.py:340-374); `mkdirOk` tells if `os.mkdir` succeeds.  The check that `kwargs` does
not have `index` (pandatio.py:364) never fails, since `index` is a named argument. -/
def csvPanDisk {A : Type} (env : TextEnv) (cenv : CaseEnv) (cf : IOConf) (toCsv : Frame → Saved A) (mkdirOk caseSpace : Bool)
    (schema : List (String × TabClass)) (dat : PyDict String Frame) (dir : String) (disk : FileSys A) : FileSys A × Bool :=
  if disk.isFile dir then (disk, true)
  else
    match panHanded env cf schema dat with
    | none => (disk, true)
    | some ws =>
      if !disk.isDir dir && !mkdirOk then (disk, true)
      else csvPanTables toCsv (fun t => csvPath dir (panNameOut cenv schema caseSpace t ++ ".csv".toList)) ws
        (if disk.isDir dir then disk else PyDict.set disk dir .dir)

/-- `XlsPanFactory.write_file` (pandatio.py:597-625); `toBook` is what `ExcelWriter` does with the sheets, also when
`to_excel` raises for one of them. -/
def xlsPanDisk {A : Type} (env : TextEnv) (cenv : CaseEnv) (cf : IOConf) (toBook : List (String × Frame) → Saved A)
    (caseSpace : Bool) (schema : List (String × TabClass)) (dat : PyDict String Frame) (path : String) (disk : FileSys A) :
    FileSys A × Bool :=
  if !sheetNamesDiffer (schema.map (fun tc => tc.1.toList)) then (disk, true)
  else
    match panHanded env cf schema dat with
    | none => (disk, true)
    | some ws =>
      if disk.isDir path then (disk, true)
      else savedAt path disk
        (toBook (ws.map (fun p => (String.ofList ((panNameOut cenv schema caseSpace p.1).take longestSheet), p.2))))

/-- The last step of the json writers (pandatio.py:177-180, 249-253): a text is returned if there is no path; the file is
opened, and so emptied, before `json.dump`, which writes the first component and raises or not. -/
def jsonPanDump {A J : Type} (dump : J → A × Bool) (path : String) (disk : FileSys A) (j : J) : FileSys A × Bool :=
  if path = "" then (disk, (dump j).2)
  else if disk.isDir path then (disk, true)
  else (PyDict.set disk path (.file (dump j).1), (dump j).2)

/-- `JsonPanFactory.write_file` (pandatio.py:148-180). -/
def jsonPanDisk {A : Type} (env : TextEnv) (cf : IOConf) (dump : PyDict String JPan → A × Bool)
    (schema : List (String × TabClass)) (dat : PyDict String Frame) (path : String) (disk : FileSys A) : FileSys A × Bool :=
  match jsonPanWrite env cf schema dat with
  | none => (disk, true)
  | some j => jsonPanDump dump path disk j

/-- `JsonPanFactory.write_file_pd` (pandatio.py:182-253); `toJson` is `to_json` of a DataFrame and `json.loads` of its text,
which may raise. -/
def jsonPanDiskPd {A J : Type} (env : TextEnv) (cenv : CaseEnv) (cf : IOConf) (toJson : Frame → Option J)
    (dump : PyDict String J → A × Bool) (caseSpace : Bool) (schema : List (String × TabClass)) (dat : PyDict String Frame)
    (path : String) (disk : FileSys A) : FileSys A × Bool :=
  match (panHanded env cf schema dat).bind (List.mapM (fun p => (toJson p.2).map (fun j =>
      (String.ofList (panNameOut cenv schema caseSpace p.1), j)))) with
  | none => (disk, true)
  | some js => jsonPanDump dump path disk (js.foldl (fun d p => PyDict.set d p.1 p.2) [])

end Ticdat
