import Verif.Validator
/-
Model of the part of Python's `argparse` (Python 3.11, Lib/argparse.py) that the three programs use: `ArgumentParser.parse_args` for parsers without positional arguments whose options
are flags (`action="store_true"`) or take one value, all optional (ddltools/convert_ddl.py:88-157, ddltools/ddldiff.py:74-114, ddltools/review_model.py:104-142).  Line numbers without
a file refer to Lib/argparse.py.  This is library code: that it is modelled rightly is trusted; the programs' own part are the tables of CommandLine.lean.

Left out: the text of the usage and help messages.  Simplified: digits are ASCII digits.
-/

namespace Verif

/-- A value in the namespace. -/
inductive ArgVal where
  | none
  | text (s : Str)
  | flag (b : Bool)
deriving DecidableEq, Repr

/-- What an option does: `-h`, `action="store_true"`, or storing its argument. -/
inductive OptKind where
  | help | flag | value
deriving DecidableEq, Repr

/-- An option as `add_argument` declares it. -/
structure OptDecl where
  names : List Str
  dest : Str
  kind : OptKind
  default : ArgVal := .none
deriving DecidableEq, Repr

/-- Why a command line is refused. -/
inductive ArgError where
  /-- `ambiguous option: … could match …` (2276). -/
  | ambiguous (s : Str) (names : List Str)
  /-- `argument …: expected one argument` (2213). -/
  | expected (d : OptDecl)
  /-- `argument …: ignored explicit argument …` (2018, 2049). -/
  | ignored (d : OptDecl) (x : Str)
  /-- `unrecognized arguments: …` (1876). -/
  | unrecognized (l : List Str)
deriving DecidableEq, Repr

/-- How a command line ends if not with a namespace: `exit(0)` after the help, `exit(2)` after an error. -/
inductive ArgStop where
  | help
  | error (e : ArgError)
deriving DecidableEq, Repr

/-- The parts before and after the first `c`, if there is one (`str.partition`). -/
def cutAt (c : Char) : Str → Option (Str × Str)
  | [] => none
  | a :: s => if a = c then some ([], s) else (cutAt c s).map (fun p => (a :: p.1, p.2))

/-- `_option_string_actions`. -/
def optionStrings (t : List OptDecl) : Dict OptDecl := t.flatMap (fun d => d.names.map (fun n => (n, d)))

/-- An option found in an argument: the option, its name, and the separator and text attached to it, if any. -/
structure Hit where
  decl : OptDecl
  name : Str
  extra : Option (Str × Str)
deriving DecidableEq, Repr

/-- What an argument is taken for. -/
inductive ArgTok where
  | dashes | plain | unknown
  | option (h : Hit)
deriving DecidableEq, Repr

/-- `_get_option_tuples` (2300-2340). -/
def optionTuples (m : Dict OptDecl) (s : Str) : List Hit :=
  if startsWith s c!"--" then
    match cutAt '=' s with
    | some (p, x) => m.filterMap (fun q => if startsWith q.1 p then some ⟨q.2, q.1, some (c!"=", x)⟩ else none)
    | none => m.filterMap (fun q => if startsWith q.1 s then some ⟨q.2, q.1, none⟩ else none)
  else
    m.filterMap (fun q => if q.1 = s.take 2 then some ⟨q.2, q.1, some ([], s.drop 2)⟩ else if startsWith q.1 s then some ⟨q.2, q.1, none⟩ else none)

/-- ASCII digits. -/
def isDigitA (c : Char) : Bool := '0' ≤ c && c ≤ '9'

/-- `\d+` or `\d*\.\d+`. -/
def plainNumber (s : Str) : Bool :=
  match cutAt '.' s with
  | none => s ≠ [] && s.all isDigitA
  | some (a, b) => a.all isDigitA && b ≠ [] && b.all isDigitA

/-- `^-\d+$|^-\d*\.\d+$` (1386); `$` also matches before a line feed at the end. -/
def negativeNumber : Str → Bool
  | [] => false
  | c :: s => c == '-' && plainNumber (if s.getLast? == some '\n' then s.dropLast else s)

/-- `option_string, sep, explicit_arg = arg_string.partition('=')` with the option of that name (2261-2265). -/
def beforeEquals (m : Dict OptDecl) (s : Str) : Option Hit :=
  match cutAt '=' s with
  | some (p, x) => (m.get? p).map (fun d => ⟨d, p, some (c!"=", x)⟩)
  | none => none

/-- `_parse_optional` (2243-2298). -/
def parseOptional (m : Dict OptDecl) (s : Str) : Except ArgError ArgTok :=
  if s.head? ≠ some '-' then .ok .plain
  else
    match m.get? s with
    | some d => .ok (.option ⟨d, s, none⟩)
    | none =>
      if s.length = 1 then .ok .plain
      else
        match beforeEquals m s with
        | some h => .ok (.option h)
        | none =>
          match optionTuples m s with
          | [h] => .ok (.option h)
          | [] => if negativeNumber s || s.contains ' ' then .ok .plain else .ok .unknown
          | hs => .error (.ambiguous s (hs.map (·.name)))

/-- The first pass of `_parse_known_args` (1936-1959). -/
def classifyArgs (m : Dict OptDecl) : List Str → Except ArgError (List (Str × ArgTok))
  | [] => .ok []
  | s :: r =>
    if s = c!"--" then .ok ((s, .dashes) :: r.map (fun x => (x, .plain)))
    else
      match parseOptional m s with
      | .error e => .error e
      | .ok k =>
        match classifyArgs m r with
        | .error e => .error e
        | .ok l => .ok ((s, k) :: l)

/-- What is found in one argument: options with their values, an option whose value is still to come or that has none, and a text that is no option. -/
structure Cluster where
  actions : List (OptDecl × Option Str)
  pending : Option OptDecl
  extra : Option Str
deriving DecidableEq, Repr

/-- Put an option without value in front. -/
def Cluster.after (d : OptDecl) (c : Cluster) : Cluster := { c with actions := (d, none) :: c.actions }

/-- The loop of `consume_optional` for an option with a text attached to it (2003-2050). -/
def cluster (m : Dict OptDecl) (d : OptDecl) (name sep : Str) : Str → Except ArgError Cluster
  | [] => if d.kind = .value then .ok ⟨[(d, some [])], none, none⟩ else .error (.ignored d [])
  | c :: rest =>
    if d.kind = .value then .ok ⟨[(d, some (c :: rest))], none, none⟩
    else if startsWith name c!"--" ∨ sep ≠ [] ∨ c = '-' then .error (.ignored d (c :: rest))
    else
      match m.get? ['-', c] with
      | none => .ok ⟨[(d, none)], none, some ('-' :: c :: rest)⟩
      | some d' =>
        match rest with
        | [] => .ok ⟨[(d, none)], some d', none⟩
        | e :: r => if e = '=' then (cluster m d' ['-', c] c!"=" r).map (Cluster.after d) else (cluster m d' ['-', c] [] (e :: r)).map (Cluster.after d)

/-- The options in an argument (1986-2060). -/
def opening (m : Dict OptDecl) (h : Hit) : Except ArgError Cluster :=
  match h.extra with
  | none => .ok ⟨[], some h.decl, none⟩
  | some (sep, x) => cluster m h.decl h.name sep x

/-- `take_action` for one option (1965-1983). -/
def takeAction (ns : Dict ArgVal) (a : OptDecl × Option Str) : Except ArgStop (Dict ArgVal) :=
  match a.1.kind with
  | .help => .error .help
  | .flag => .ok (ns.set a.1.dest (.flag true))
  | .value => .ok (ns.set a.1.dest (.text (a.2.getD [])))

/-- `take_action` for several options (2066-2067). -/
def takeAll : Dict ArgVal → List (OptDecl × Option Str) → Except ArgStop (Dict ArgVal)
  | ns, [] => .ok ns
  | ns, a :: l =>
    match takeAction ns a with
    | .error e => .error e
    | .ok ns => takeAll ns l

/-- The second pass of `_parse_known_args` (2092-2140): the namespace and the arguments that are left over. -/
def consumeArgs (m : Dict OptDecl) : Dict ArgVal → List Str → List (Str × ArgTok) → Except ArgStop (Dict ArgVal × List Str)
  | ns, ex, [] => .ok (ns, ex)
  | ns, ex, (s, .plain) :: r => consumeArgs m ns (ex ++ [s]) r
  | ns, ex, (s, .dashes) :: r => consumeArgs m ns (ex ++ [s]) r
  | ns, ex, (s, .unknown) :: r => consumeArgs m ns (ex ++ [s]) r
  | ns, ex, (_, .option h) :: r =>
    match opening m h with
    | .error e => .error (.error e)
    | .ok c =>
      match c.pending with
      | none =>
        match takeAll ns c.actions with
        | .error e => .error e
        | .ok ns => consumeArgs m ns (ex ++ c.extra.toList) r
      | some d =>
        if d.kind = .value then
          match r with
          | (v, .plain) :: r' =>
            match takeAll ns (c.actions ++ [(d, some v)]) with
            | .error e => .error e
            | .ok ns => consumeArgs m ns ex r'
          | _ => .error (.error (.expected d))
        else
          match takeAll ns (c.actions ++ [(d, none)]) with
          | .error e => .error e
          | .ok ns => consumeArgs m ns ex r

/-- The namespace before the command line is read (1893-1898); `help` is not in it. -/
def argDefaults (t : List OptDecl) : Dict ArgVal := (t.filter (fun d => d.kind ≠ .help)).map (fun d => (d.dest, d.default))

/-- `parse_args` (1873-1878). -/
def parseArgs (t : List OptDecl) (argv : List Str) : Except ArgStop (Dict ArgVal) :=
  match classifyArgs (optionStrings t) argv with
  | .error e => .error (.error e)
  | .ok l =>
    match consumeArgs (optionStrings t) (argDefaults t) [] l with
    | .error e => .error e
    | .ok (ns, []) => .ok ns
    | .ok (_, ex) => .error (.error (.unrecognized ex))

/-! ## What is printed -/

/-- `repr` of a value. -/
def ArgVal.repr : ArgVal → Str
  | .none => c!"None"
  | .text s => pyRepr s
  | .flag true => c!"True"
  | .flag false => c!"False"

/-- `Namespace.__repr__` (109-135), as `print(args)` prints it. -/
def namespaceText (ns : Dict ArgVal) : Str := c!"Namespace(" ++ joinS c!", " (ns.map (fun p => p.1 ++ c!"=" ++ p.2.repr)) ++ c!")"

/-- The text of an error, after `usage: … error: ` (749-765, 1876, 2018, 2049, 2213, 2276). -/
def ArgError.text : ArgError → Str
  | .ambiguous s names => c!"ambiguous option: " ++ s ++ c!" could match " ++ joinS c!", " names
  | .expected d => c!"argument " ++ joinS c!"/" d.names ++ c!": expected one argument"
  | .ignored d x => c!"argument " ++ joinS c!"/" d.names ++ c!": ignored explicit argument " ++ pyRepr x
  | .unrecognized l => c!"unrecognized arguments: " ++ joinS c!" " l

end Verif
