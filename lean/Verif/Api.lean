import Verif.Config
import Verif.Console
/-
Model of the calls Python code makes on a `ConfigFile` (dt/util.py:47-124) and on a `ValidationResult` (dt/model.py:493-540).
-/

namespace Verif

/-- `ConfigFile.__init__` (dt/util.py:47-51). -/
def Config.new : Config := []

/-- `ConfigFile.__setitem__` (dt/util.py:65-72), for the values of the model. -/
def Config.setItem (cfg : Config) (key : Str) (value : CfgVal) : Config := cfg.set key value

/-- `ConfigFile.__getitem__` (dt/util.py:74-80). -/
def Config.getItem (cfg : Config) (item : Str) : Option CfgVal := Dict.get? cfg item

/-- `ConfigFile.__len__` (dt/util.py:82-88). -/
def Config.len (cfg : Config) : Nat := cfg.keys.length

/-- A call that can change a configuration: `cfg[key] = value` (dt/util.py:65-72), or `cfg.load_from_file(f)` (dt/util.py:99-124) with the files of that moment. -/
inductive CfgCall where
  | set (key : Str) (value : CfgVal)
  | load (files : FS) (f : Str)

/-- The configuration after a call; an exception of `load_from_file` is caught by the caller. -/
def CfgCall.run (cfg : Config) : CfgCall → Config
  | .set key value => cfg.setItem key value
  | .load files f => (loadConfig files cfg f).1

namespace ValidationResult

/-- `ValidationResult.add_error` (dt/model.py:511-517). -/
def addError (r : ValidationResult) (issue : Str) : ValidationResult := r.addIssue issue .error

/-- `ValidationResult.add_warning` (dt/model.py:519-525). -/
def addWarning (r : ValidationResult) (issue : Str) : ValidationResult := r.addIssue issue .warning

/-- `ValidationResult.add_info` (dt/model.py:527-533). -/
def addInfo (r : ValidationResult) (issue : Str) : ValidationResult := r.addIssue issue .info

/-- The calls that add something (dt/model.py:500-533); `add_issue` takes the level `ERROR` if none is given. -/
inductive Call where
  | issue (text : Str) (level : Option Level)
  | error (text : Str)
  | warning (text : Str)
  | info (text : Str)

/-- One call. -/
def Call.run (r : ValidationResult) : Call → ValidationResult
  | .issue s l => r.addIssue s (l.getD .error)
  | .error s => r.addError s
  | .warning s => r.addWarning s
  | .info s => r.addInfo s

end ValidationResult
end Verif
