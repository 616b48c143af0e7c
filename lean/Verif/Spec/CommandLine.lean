import Verif.Argparse
import Verif.CommandLine
import Verif.Spec.Cli
import Verif.Spec.TQL
/-
What a command line means, as a grammar over the declared options.  It says nothing about passes over the command line, tokens and left over arguments.
-/

namespace Verif.Spec

/-- `n` is declared as a name of the option. -/
def Called (t : List OptDecl) (n : Str) (d : OptDecl) : Prop := d ∈ t ∧ n ∈ d.names

/-- Options as one declares them: a name is a dash and a character, or two dashes and a text; no name occurs twice, and no two
options set the same thing. -/
structure Sensible (t : List OptDecl) : Prop where
  shape : ∀ d ∈ t, ∀ n ∈ d.names, (∃ c, n = ['-', c] ∧ c ≠ '-' ∧ c ≠ '=') ∨ (∃ a s, n = '-' :: '-' :: a :: s ∧ '=' ∉ n)
  unique : (t.flatMap (·.names)).Nodup
  places : ((t.filter (fun d => d.kind ≠ .help)).map (·.dest)).Nodup

/-- A word stands for an option: it is one of its names, or it begins with two dashes and is the beginning of just one name. -/
inductive StandsFor (t : List OptDecl) (w : Str) (d : OptDecl) : Prop
  | name (h : Called t w d)
  | short (n : Str) (h : Called t n d) (dashes : ['-', '-'] <+: w) (pre : w <+: n) (only : ∀ n' d', Called t n' d' → w <+: n' → n' = n)

/-- Figures. -/
def Figures (s : Str) : Prop := s ≠ [] ∧ ∀ c ∈ s, '0' ≤ c ∧ c ≤ '9'

/-- A negative number: a dash and digits, possibly with a point (and possibly a line feed at the end). -/
def NegativeNumber (s : Str) : Prop :=
  ∃ x y, s = '-' :: (x ++ y) ∧ (y = [] ∨ y = ['\n']) ∧ (Figures x ∨ (∃ a b, x = a ++ '.' :: b ∧ (a = [] ∨ Figures a) ∧ Figures b))

/-- No option can be seen in the word: it is no name and does not begin with a name and an equals sign, it does not begin with the name of an option of one character, and if it
begins with two dashes, then neither it nor the part before the equals sign is the beginning of a name. -/
def NoOption (t : List OptDecl) (w : Str) : Prop :=
  ∀ n d, Called t n d → n ≠ w ∧ ¬ n ++ ['='] <+: w ∧ (n.length = 2 → ¬ n <+: w) ∧ (['-', '-'] <+: w → ∀ p, '=' ∉ p → (p = w ∨ p ++ ['='] <+: w) → ¬ p <+: n)

/-- A word that can be the value of an option: it does not begin with a dash, is a single dash, or has no option in it and is a negative number or contains a blank. -/
def Argument (t : List OptDecl) (w : Str) : Prop :=
  w.head? ≠ some '-' ∨ w = ['-'] ∨ (w ≠ ['-', '-'] ∧ NoOption t w ∧ (NegativeNumber w ∨ ' ' ∈ w))

/-- What a command line sets, in its order. -/
inductive Reads (t : List OptDecl) : List Str → List (Str × ArgVal) → Prop
  | done : Reads t [] []
  /-- `--flag` -/
  | flag (w : Str) (d : OptDecl) (r : List Str) (l : List (Str × ArgVal)) (ne : w ≠ ['-', '-']) (h : StandsFor t w d) (k : d.kind = .flag) (rest : Reads t r l) :
      Reads t (w :: r) ((d.dest, .flag true) :: l)
  /-- `--option value` -/
  | value (w v : Str) (d : OptDecl) (r : List Str) (l : List (Str × ArgVal)) (ne : w ≠ ['-', '-']) (h : StandsFor t w d) (k : d.kind = .value) (arg : Argument t v) (rest : Reads t r l) :
      Reads t (w :: v :: r) ((d.dest, .text v) :: l)
  /-- `--option=value` -/
  | equals (w v : Str) (d : OptDecl) (r : List Str) (l : List (Str × ArgVal)) (ne : '=' ∉ w) (h : StandsFor t w d) (k : d.kind = .value) (rest : Reads t r l) :
      Reads t ((w ++ '=' :: v) :: r) ((d.dest, .text v) :: l)
  /-- `-ovalue` -/
  | attached (o : Char) (v : Str) (d : OptDecl) (r : List Str) (l : List (Str × ArgVal)) (h : Called t ['-', o] d) (k : d.kind = .value) (ne : v ≠ []) (he : v.head? ≠ some '=')
      (rest : Reads t r l) : Reads t (('-' :: o :: v) :: r) ((d.dest, .text v) :: l)
  /-- `-fg…` for the flag `-f` and what `-g…` means -/
  | flags (f : Char) (x : Str) (d : OptDecl) (r : List Str) (l : List (Str × ArgVal)) (h : Called t ['-', f] d) (k : d.kind = .flag) (ne : x ≠ []) (hd : x.head? ≠ some '-')
      (he : x.head? ≠ some '=') (rest : Reads t (('-' :: x) :: r) l) : Reads t (('-' :: f :: x) :: r) ((d.dest, .flag true) :: l)

/-- A word that could be the beginning of two names and is none: two dashes and a text, before an equals sign if there is one. -/
def Ambiguous (t : List OptDecl) (w : Str) : Prop :=
  ['-', '-'] <+: w ∧ ∃ p, '=' ∉ p ∧ (p = w ∨ p ++ ['='] <+: w) ∧ (∀ d, ¬ Called t p d) ∧ ∃ n d n' d', Called t n d ∧ Called t n' d' ∧ n ≠ n' ∧ p <+: n ∧ p <+: n'

/-- No word is ambiguous up to the first that consists of two dashes. -/
def Clear (t : List OptDecl) (argv : List Str) : Prop := ∀ a w b, argv = a ++ w :: b → ['-', '-'] ∉ a → w ≠ ['-', '-'] → ¬ Ambiguous t w

/-- The text can stand behind `-h` in the same word, before the words `r`: single characters for options without a value up to one that is no option, or up to an option that has its
value in the same word or in the next. -/
inductive Fits (t : List OptDecl) : Str → List Str → Prop
  | unknown (c : Char) (y : Str) (r : List Str) (hc : c ≠ '-') (h : ∀ d, ¬ Called t ['-', c] d) : Fits t (c :: y) r
  | last (c : Char) (d : OptDecl) (r : List Str) (h : Called t ['-', c] d) (k : d.kind ≠ .value) : Fits t [c] r
  | value (c : Char) (v : Str) (d : OptDecl) (r : List Str) (h : Called t ['-', c] d) (k : d.kind = .value) (arg : Argument t v) : Fits t [c] (v :: r)
  | attached (c : Char) (y : Str) (d : OptDecl) (r : List Str) (h : Called t ['-', c] d) (k : d.kind = .value) (ne : y ≠ []) : Fits t (c :: y) r
  | more (c a : Char) (y : Str) (d : OptDecl) (r : List Str) (h : Called t ['-', c] d) (k : d.kind ≠ .value) (ha : a ≠ '=') (rest : Fits t (a :: y) r) : Fits t (c :: a :: y) r

/-- The command line asks for the help: the first option that is no flag, has no value and is not skipped is `-h`. -/
inductive AsksHelp (t : List OptDecl) : List Str → Prop
  /-- `--help` -/
  | here (w : Str) (d : OptDecl) (r : List Str) (ne : w ≠ ['-', '-']) (h : StandsFor t w d) (k : d.kind = .help) : AsksHelp t (w :: r)
  /-- `-hx…` -/
  | first (f : Char) (x : Str) (d : OptDecl) (r : List Str) (h : Called t ['-', f] d) (k : d.kind = .help) (he : x.head? ≠ some '=') (rest : Fits t x r) : AsksHelp t (('-' :: f :: x) :: r)
  /-- a word that is no option and no value of one -/
  | stray (w : Str) (r : List Str) (ne : w ≠ ['-', '-']) (h : w.head? ≠ some '-' ∨ NoOption t w) (rest : AsksHelp t r) : AsksHelp t (w :: r)
  | flag (w : Str) (d : OptDecl) (r : List Str) (ne : w ≠ ['-', '-']) (h : StandsFor t w d) (k : d.kind = .flag) (rest : AsksHelp t r) : AsksHelp t (w :: r)
  | value (w v : Str) (d : OptDecl) (r : List Str) (ne : w ≠ ['-', '-']) (h : StandsFor t w d) (k : d.kind = .value) (arg : Argument t v) (rest : AsksHelp t r) : AsksHelp t (w :: v :: r)
  | equals (w v : Str) (d : OptDecl) (r : List Str) (ne : '=' ∉ w) (h : StandsFor t w d) (k : d.kind = .value) (rest : AsksHelp t r) : AsksHelp t ((w ++ '=' :: v) :: r)
  | attached (o : Char) (v : Str) (d : OptDecl) (r : List Str) (h : Called t ['-', o] d) (k : d.kind = .value) (ne : v ≠ []) (he : v.head? ≠ some '=') (rest : AsksHelp t r) :
      AsksHelp t (('-' :: o :: v) :: r)
  | flags (f : Char) (x : Str) (d : OptDecl) (r : List Str) (h : Called t ['-', f] d) (k : d.kind = .flag) (ne : x ≠ []) (hd : x.head? ≠ some '-') (he : x.head? ≠ some '=')
      (rest : AsksHelp t (('-' :: x) :: r)) : AsksHelp t (('-' :: f :: x) :: r)

/-- What was last set for a name. -/
def Gives (l : List (Str × ArgVal)) (dest : Str) (v : ArgVal) : Prop := ∃ a b, l = a ++ (dest, v) :: b ∧ ∀ p ∈ b, p.1 ≠ dest

/-- Nothing was set for a name. -/
def Silent (l : List (Str × ArgVal)) (dest : Str) : Prop := ∀ p ∈ l, p.1 ≠ dest

/-- The values after the settings: the last one counts, otherwise the default. -/
def ValueAfter (t : List OptDecl) (l : List (Str × ArgVal)) (dest : Str) (v : ArgVal) : Prop :=
  Gives l dest v ∨ (Silent l dest ∧ ∃ d ∈ t, d.kind ≠ .help ∧ d.dest = dest ∧ d.default = v)

/-! ## The options as they are documented -/

/-- The options of convert_ddl in README.md:31-66: the names and whether a value follows. -/
def convertManual : List (List Str × Bool) :=
  [([c!"-h", c!"--help"], false), ([c!"--version"], false), ([c!"--empty"], false), ([c!"--from_ddl"], true), ([c!"--to_tql"], true), ([c!"--from_ts"], true), ([c!"--to_ts"], true),
   ([c!"--username"], true), ([c!"--password"], true), ([c!"--from_excel"], true), ([c!"--to_excel"], true), ([c!"-d", c!"--database"], true), ([c!"-s", c!"--schema"], true),
   ([c!"-c", c!"--create_db"], false), ([c!"-l", c!"--lowercase"], false), ([c!"-u", c!"--uppercase"], false), ([c!"--camelcase"], false), ([c!"-v", c!"--validate"], false),
   ([c!"--debug"], false)]

/-- The options of ddldiff in README.md:71-89. -/
def diffManual : List (List Str × Bool) :=
  [([c!"-h", c!"--help"], false), ([c!"--ddl1"], true), ([c!"--ddl2"], true), ([c!"--database"], true), ([c!"--schema"], true), ([c!"--alter1"], false), ([c!"--alter2"], false),
   ([c!"--ignore_case"], false)]

/-- The options of review_model in the list README.md:172-189; the usage message above it (README.md:164-168) has `--show_descriptions` in place of `--show_tests`. -/
def reviewManual : List (List Str × Bool) :=
  [([c!"-h", c!"--help"], false), ([c!"--version"], false), ([c!"--show_tests"], false), ([c!"--database_file"], true), ([c!"--worksheet_file"], true), ([c!"--ts_ip"], true),
   ([c!"--username"], true), ([c!"--password"], true), ([c!"-d", c!"--database"], true), ([c!"--debug"], false)]

/-- An option declared as it is documented. -/
def Declared (d : OptDecl) (m : List Str × Bool) : Prop := d.names = m.1 ∧ (d.kind = .value ↔ m.2 = true)

/-! ## Command lines that give all arguments -/

/-- A flag, if it is to be set. -/
def flagWord (n : Str) (b : Bool) : List Str := if b then [n] else []

/-- An option with a value, if it is to be given. -/
def valueWord (n : Str) : Option Str → List Str
  | none => []
  | some v => [n ++ '=' :: v]

/-- The words that give convert_ddl these arguments. -/
def convertWords (user password : Option Str) (debug : Bool) (a : ConvertArgs) : List Str :=
  flagWord c!"--version" a.version ++ flagWord c!"--empty" a.empty ++ valueWord c!"--from_ddl" a.fromDdl ++ valueWord c!"--to_tql" a.toTql ++ valueWord c!"--from_ts" a.fromTs ++
  valueWord c!"--to_ts" a.toTs ++ valueWord c!"--username" user ++ valueWord c!"--password" password ++ valueWord c!"--from_excel" a.fromExcel ++ valueWord c!"--to_excel" a.toExcel ++
  valueWord c!"--database" a.database ++ valueWord c!"--schema" (some a.schema) ++ flagWord c!"--create_db" a.createDb ++ flagWord c!"--lowercase" a.lowercase ++
  flagWord c!"--uppercase" a.uppercase ++ flagWord c!"--camelcase" a.camelcase ++ flagWord c!"--validate" a.validate ++ flagWord c!"--debug" debug

/-- The words that give ddldiff these arguments. -/
def diffWords (a : DiffArgs) : List Str :=
  valueWord c!"--ddl1" a.ddl1 ++ valueWord c!"--ddl2" a.ddl2 ++ valueWord c!"--database" (some a.database) ++ valueWord c!"--schema" (some a.schema) ++ flagWord c!"--alter1" a.alter1 ++
  flagWord c!"--alter2" a.alter2 ++ flagWord c!"--ignore_case" a.ignoreCase

/-- The words that give review_model these arguments. -/
def reviewWords (user password : Option Str) (debug : Bool) (a : ReviewArgs) : List Str :=
  flagWord c!"--version" a.version ++ flagWord c!"--show_tests" a.showTests ++ valueWord c!"--database_file" a.databaseFile ++ valueWord c!"--worksheet_file" a.worksheetFile ++
  valueWord c!"--ts_ip" a.tsIp ++ valueWord c!"--username" user ++ valueWord c!"--password" password ++ valueWord c!"--database" a.database ++ flagWord c!"--debug" debug ++
  valueWord c!"--config_file" a.configFile

/-! ## Runs -/

/-- Printable ASCII text without the characters that Python escapes. -/
def PlainAscii (s : Str) : Prop := ∀ c ∈ s, ' ' ≤ c ∧ c ≤ '~' ∧ c ≠ '\'' ∧ c ≠ '\\'

/-- The text can be read on the standard output. -/
def Visible (s : Str) (e : Ended) : Prop := s <:+: e.out

/-- The run was refused because of its command line. -/
def Refused (e : Ended) : Prop := e.out = [] ∧ e.status = 2 ∧ ∃ m, e.err = [.err m]

end Verif.Spec
