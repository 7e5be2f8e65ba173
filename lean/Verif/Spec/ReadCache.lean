import Verif.Model.ReadCache
/-!
# What is asked of readers that are called again and again
-/
namespace Ticdat.Spec
variable {V K : Type}

/-- The default values of a factory, as the readers of a new factory with the same settings see them. -/
def currentDefaults (f : Factory V K) : Defaults := fun t fld => PyDict.get2 f.defaults t fld

/-- All four readers give what a factory with the same settings that has read nothing yet gives. -/
structure ReadsCurrent (r : FileReader V K) : Prop where
  csv : ∀ env cenv policy headers schema dir, csvCreateBy env cenv r.factory.ioConf r.getDvDt policy headers schema dir =
    csvCreate env cenv r.factory.ioConf (currentDefaults r.factory) policy headers schema dir
  csvDups : ∀ env cenv headers schema dir, csvDupsBy env cenv r.factory.ioConf r.getDvDt headers schema dir =
    Ticdat.csvDups env cenv r.factory.ioConf (currentDefaults r.factory) headers schema dir
  xl : ∀ env policy o schema book, xlCreateBy env r.factory.ioConf r.getDvDt policy o schema book =
    xlCreate env r.factory.ioConf (currentDefaults r.factory) policy o schema book
  xlDups : ∀ env o schema book, xlDupsBy env r.factory.ioConf r.getDvDt o schema book =
    Ticdat.xlDups env r.factory.ioConf (currentDefaults r.factory) o schema book

/-- The step reads a file. -/
def IsRead : ROp V K → Prop
  | .read _ _ => True
  | _ => False

/-- The step is a call that sets data types or default values. -/
def SetsTypes : ROp V K → Prop
  | .call (.setDataType _ _ _) => True
  | .call (.clearDataType _ _) => True
  | .call (.setDefault _ _ _) => True
  | .call (.setDefaults _) => True
  | _ => False

end Ticdat.Spec
