import Verif.Parser
/-
Model of `ConfigFile` (dt/util.py:35-141).

`loadConfig` and `writeConfig` leave out what is said on the standard error stream; `loadConfigTold` and `writeConfigTold` have it.
-/

namespace Verif

/-- A configuration value: texts come from files, numbers from Python code (`cfg[key] = value`, dt/util.py:65-72) and from
defaults. -/
inductive CfgVal where
  | int (n : Int)
  | flt (q : Rat)
  | text (s : Str)
deriving DecidableEq, Repr

/-- Instance state of `ConfigFile` (dt/util.py:47-51). -/
abbrev Config := Dict CfgVal

/-- `f"{value}"` (dt/util.py:137); how Python prints a float is the parameter `floatRepr`. -/
def CfgVal.str (floatRepr : Rat → Str) : CfgVal → Str
  | .int n => intToStr n
  | .flt q => floatRepr q
  | .text s => s

/-- The body of the loop of `load_from_file` (dt/util.py:110-119). -/
def configLine (cfg : Config) (line : Str) : Config :=
  let line := strip ((splitC '#' line).headD [])
  if line ≠ [] ∧ hasSub c!"=" line then
    let key := strip (partitionS c!"=" line).1
    let value := strip (partitionS c!"=" line).2.2
    if key ≠ [] ∧ value ≠ [] then cfg.set key (.text value) else cfg
  else cfg

/-- `load_from_file` (dt/util.py:99-124): the configuration afterwards and the returned flag or the exception.  A missing file and one that cannot be opened both raise `IOError`, which
is caught; the `UnicodeDecodeError` of a file that cannot be decoded is not an `IOError`. -/
def loadConfig (fs : FS) (cfg : Config) (filename : Str) : Config × Except PyErr Bool :=
  match fs filename with
  | some (.text content) => ((fileLines content).foldl configLine cfg, .ok true)
  | some (.undecodable before _) => ((fileLines before).foldl configLine cfg, .error .value)
  | _ => (cfg, .ok false)

/-- The text `write_to_file` writes (dt/util.py:126-141). -/
def configText (floatRepr : Rat → Str) (cfg : Config) : Str :=
  (cfg.map (fun p => p.1 ++ c!" = " ++ p.2.str floatRepr ++ c!"\n")).flatten

/-- `write_to_file` (dt/util.py:126-141): the file system afterwards and the returned flag; `writable` says whether `open(filename, "w")`
succeeds. -/
def writeConfig (floatRepr : Rat → Str) (fs : FS) (writable : Bool) (cfg : Config) (filename : Str) : FS × Bool :=
  if writable then ((fun f => if f = filename then some (.text (configText floatRepr cfg)) else fs f), true) else (fs, false)

/-- What the body of the loop of `load_from_file` says about a line (dt/util.py:110-119). -/
def configNote (filename line : Str) : List Str :=
  let line := strip ((splitC '#' line).headD [])
  if line ≠ [] ∧ hasSub c!"=" line then
    let key := strip (partitionS c!"=" line).1
    let value := strip (partitionS c!"=" line).2.2
    if key ≠ [] ∧ value ≠ [] then [] else [filename ++ c!": badly formed line '" ++ line ++ c!"'"]
  else if line ≠ [] then [filename ++ c!": ignoring line '" ++ line ++ c!"'"]
  else []

/-- `load_from_file` (dt/util.py:99-124) with the lines it writes to the standard error stream. -/
def loadConfigTold (fs : FS) (cfg : Config) (filename : Str) : List Str × Config × Except PyErr Bool :=
  match fs filename with
  | some (.text content) =>
    let r := (fileLines content).foldl (fun (acc : List Str × Config) line => (acc.1 ++ configNote filename line, configLine acc.2 line)) ([], cfg)
    (r.1, r.2, .ok true)
  | some (.undecodable before _) =>
    let r := (fileLines before).foldl (fun (acc : List Str × Config) line => (acc.1 ++ configNote filename line, configLine acc.2 line)) ([], cfg)
    (r.1, r.2, .error .value)
  | _ => ([c!"Unable to open file " ++ filename ++ c!".  No configuration loaded."], cfg, .ok false)

/-- `write_to_file` (dt/util.py:126-141) with the lines it writes to the standard error stream. -/
def writeConfigTold (floatRepr : Rat → Str) (fs : FS) (writable : Bool) (cfg : Config) (filename : Str) : List Str × FS × Bool :=
  (if writable then [] else [c!"Unable to open file " ++ filename ++ c!".  No configuration written."], writeConfig floatRepr fs writable cfg filename)

/-- `==` of two configuration values (dt/util.py:97): an integer can equal a float, a text equals only texts. -/
def CfgVal.same : CfgVal → CfgVal → Bool
  | .int m, .int n => m = n
  | .int m, .flt q => (m : Rat) = q
  | .flt p, .int n => p = (n : Rat)
  | .flt p, .flt q => p = q
  | .text s, .text t => s = t
  | _, _ => false

/-- `ConfigFile.__eq__` (dt/util.py:90-97): Python compares dictionaries without regard to order. -/
def Config.eq (a b : Config) : Bool :=
  a.length == b.length && a.all (fun p => match b.get? p.1 with | some v => p.2.same v | none => false)

/-- `ConfigFile.get` (dt/util.py:53-63). -/
def Config.value (cfg : Config) (name : Str) (default : CfgVal) : CfgVal := (Dict.get? cfg name).getD default

end Verif
