import Verif.Review
import Verif.Spec.Float
import Verif.Spec.Graph
import Verif.Spec.Types
/-
Specification of the reviews of primary keys, sharding, joins and worksheets, and of the reviewer.  Uses the data structures of the model
and the notion of a server, none of the model's functions.
-/

namespace Verif.Spec
open Verif

/-- The text `s` denotes the integer `n` for Python's `int`. -/
def IntValue (s : Str) (n : Int) : Prop :=
  ∃ pre sign ds post, (∀ c ∈ pre, isSpace c = true) ∧ (∀ c ∈ post, isSpace c = true) ∧
    (sign = [] ∨ sign = ['+'] ∨ sign = ['-']) ∧ Digits ds ∧ s = pre ++ sign ++ ds ++ post ∧
    n = (if sign = ['-'] then -1 else 1) * ((Nat.ofDigitChars 10 (ds.filter (· ≠ '_')) 0 : Nat) : Int)

/-! ## Sharding -/

/-- What the sharding review can find. -/
inductive Finding where
  | unsharded | few | many | skewed
deriving DecidableEq

/-- Rows per shard and skew ratio, as the code computes them with floats: `p` is `rows / shards` and `z` is `skew / p`, rounded; the ratio is
0 for an empty table.  An integer is rounded before it is divided by a float. -/
inductive Ratios (rows shards skew : Int) (p : Rat) : Rat → Prop where
  | some (k z : Rat) : 0 < rows → Rounds ((rows : Rat) / shards) p → Rounds skew k → Rounds (k / p) z → Ratios rows shards skew p z
  | empty : ¬ 0 < rows → Rounds ((rows : Rat) / shards) p → Ratios rows shards skew p 0

/-- When it finds it, for a table with at least one shard, `p` rows per shard and the skew ratio `z`. -/
def Found (max min ratio : Rat) (rows shards : Int) (p z : Rat) : Finding → Prop
  | .unsharded => shards = 1 ∧ max < rows
  | .few => shards ≠ 1 ∧ p < min
  | .many => shards ≠ 1 ∧ ¬ p < min ∧ max < p
  | .skewed => shards ≠ 1 ∧ ratio < z

/-- When it should find it, with exact quotients: rows per shard are `rows / shards`, the skew ratio is `skew / (rows / shards)`, or 0 for an
empty table. -/
def Exactly (max min ratio : Rat) (rows shards skew : Int) : Finding → Prop
  | .unsharded => shards = 1 ∧ max < rows
  | .few => shards ≠ 1 ∧ (rows : Rat) < min * shards
  | .many => shards ≠ 1 ∧ ¬ (rows : Rat) < min * shards ∧ max * shards < rows
  | .skewed => shards ≠ 1 ∧ ((0 < rows ∧ ratio * rows < skew * shards) ∨ (¬ 0 < rows ∧ ratio < 0))

/-- `Thousands n s`: `s` is the number in decimal with commas between groups of three digits. -/
inductive Thousands : Nat → Str → Prop where
  | small (n : Nat) : n < 1000 → Thousands n (Nat.toDigits 10 n)
  | group (n : Nat) (s : Str) (a b c : Nat) : 0 < n → Thousands n s → a < 10 → b < 10 → c < 10 →
      Thousands (1000 * n + 100 * a + 10 * b + c) (s ++ [',', Nat.digitChar a, Nat.digitChar b, Nat.digitChar c])

/-- `Groups d s`: `s` is `d` with commas between groups of three characters, counted from the end. -/
inductive Groups : Str → Str → Prop where
  | small (d : Str) : d.length ≤ 3 → Groups d d
  | group (d s : Str) (a b c : Char) : d ≠ [] → Groups d s → Groups (d ++ [a, b, c]) (s ++ [',', a, b, c])

/-- `GroupsFloat t s`: `s` is the text `t` of a number with commas in the digits at its beginning, behind the sign. -/
inductive GroupsFloat : Str → Str → Prop where
  | mk (sign d rest s : Str) : sign = [] ∨ sign = ['-'] → (∀ c ∈ d, c.isDigit) → (∀ c ∈ rest.head?, ¬ c.isDigit) → (sign = [] → d = [] → rest.head? ≠ some '-') → Groups d s →
      GroupsFloat (sign ++ d ++ rest) (sign ++ s ++ rest)

/-- How a limit is printed: with commas; how floats are printed without them is a parameter. -/
inductive Limit (floatRepr : Rat → Str) : CfgVal → Str → Prop where
  | nat (n : Nat) (s : Str) : Thousands n s → Limit floatRepr (.int n) s
  | neg (n : Nat) (s : Str) : 0 < n → Thousands n s → Limit floatRepr (.int (-n)) ('-' :: s)
  | flt (q : Rat) (s : Str) : GroupsFloat (floatRepr q) s → Limit floatRepr (.flt q) s

/-- The text of a finding; `z` is the skew ratio. -/
inductive Says (floatRepr : Rat → Str) (max min : CfgVal) (r : StatRow) (rows : Int) (z : Rat) : Finding → Str → Prop where
  | unsharded (l : Str) : Limit floatRepr max l → Says floatRepr max min r rows z .unsharded
      (r.database ++ ['.'] ++ r.schema ++ ['.'] ++ r.table ++ c!" is not sharded and has more than " ++ l ++ c!" rows total")
  | few (l : Str) : Limit floatRepr min l → Says floatRepr max min r rows z .few
      (r.database ++ ['.'] ++ r.schema ++ ['.'] ++ r.table ++ c!" is sharded and has less than " ++ l ++ c!" rows per shard")
  | many (l : Str) : Limit floatRepr max l → Says floatRepr max min r rows z .many
      (r.database ++ ['.'] ++ r.schema ++ ['.'] ++ r.table ++ c!" is sharded and has more than " ++ l ++ c!" rows per shard")
  | skewed : 0 < rows → Says floatRepr max min r rows z .skewed
      (r.database ++ ['.'] ++ r.schema ++ ['.'] ++ r.table ++ c!" has a high skew of " ++ floatRepr z)
  | empty : ¬ 0 < rows → Says floatRepr max min r rows z .skewed
      (r.database ++ ['.'] ++ r.schema ++ ['.'] ++ r.table ++ c!" has a high skew of 0")

/-- The messages about one row of the statistics. -/
inductive RowReport (floatRepr : Rat → Str) (vmax vmin : CfgVal) (max min ratio : Rat) (db : Str) (r : StatRow) : List Str → Prop where
  | other : r.database ≠ db → RowReport floatRepr vmax vmin max min ratio db r []
  | own (rows shards skew : Int) (p z : Rat) (fs : List Finding) (l : List Str) : r.database = db →
      IntValue r.rowCount rows → IntValue r.shards shards → IntValue r.skew skew → (shards ≠ 1 → Ratios rows shards skew p z) →
      (∀ f, f ∈ fs ↔ Found max min ratio rows shards p z f) → fs.Sublist [.unsharded, .few, .many, .skewed] →
      List.Forall₂ (Says floatRepr vmax vmin r rows z) fs l → RowReport floatRepr vmax vmin max min ratio db r l

/-- The messages about one row of the statistics, with findings from exact quotients; only the ratio shown is rounded. -/
inductive ExactReport (floatRepr : Rat → Str) (vmax vmin : CfgVal) (max min ratio : Rat) (db : Str) (r : StatRow) : List Str → Prop where
  | other : r.database ≠ db → ExactReport floatRepr vmax vmin max min ratio db r []
  | own (rows shards skew : Int) (p z : Rat) (fs : List Finding) (l : List Str) : r.database = db →
      IntValue r.rowCount rows → IntValue r.shards shards → IntValue r.skew skew → (shards ≠ 1 → Ratios rows shards skew p z) →
      (∀ f, f ∈ fs ↔ Exactly max min ratio rows shards skew f) → fs.Sublist [.unsharded, .few, .many, .skewed] →
      List.Forall₂ (Says floatRepr vmax vmin r rows z) fs l → ExactReport floatRepr vmax vmin max min ratio db r l

/-! ## Joins -/

/-- `Conj es s`: `s` is the conjunction of the texts `es`, in order, with one pair of parentheses per text. -/
inductive Conj : List Str → Str → Prop where
  | none : Conj [] []
  | one (e : Str) : Conj [e] (c!"(" ++ e ++ c!")")
  | more (es : List Str) (s e : Str) : es ≠ [] → Conj es s → Conj (es ++ [e]) (c!"(" ++ s ++ c!" AND " ++ e ++ c!")")

/-- Names in double quotes, separated by dots. -/
def qualified (names : List Str) : Str := ((names.map (fun n => c!"\"" ++ n ++ c!"\"")).intersperse c!".").flatten

/-- The equations of a foreign key: the i-th column of the one table with the i-th column of the other. -/
def equations (t u : Table) (k : FK) : List Str :=
  (k.fromKeys.zip k.toKeys).map (fun p => qualified [t.name, p.1] ++ c!" = " ++ qualified [u.name, p.2])

/-- A join to be tested. -/
structure Join where
  name : Str
  source : Table
  target : Table
  condition : Str

/-- The join of a foreign key of `t`. -/
inductive FkJoin (db : Database) (t : Table) (k : FK) : Join → Prop where
  | mk (u : Table) (cond : Str) : TableOf db k.toTable u → Conj (equations t u k) cond → FkJoin db t k ⟨k.name, t, u, cond⟩

/-- The join of a relationship of `t`. -/
inductive RelJoin (db : Database) (t : Table) (r : Rel) : Join → Prop where
  | mk (u : Table) : TableOf db r.toTable u → RelJoin db t r ⟨r.name, t, u, r.conditions⟩

/-- The joins of a table: its foreign keys, then its relationships. -/
inductive TableJoins (db : Database) (t : Table) : List Join → Prop where
  | mk (a b : List Join) : List.Forall₂ (FkJoin db t) (t.fks.map Prod.snd) a → List.Forall₂ (RelJoin db t) (t.rels.map Prod.snd) b →
      TableJoins db t (a ++ b)

/-- The columns that tell the rows of a table apart: its primary key, or all of its columns. -/
inductive KeyOf (t : Table) : List Str → Prop where
  | pk : t.pk ≠ [] → KeyOf t t.pk
  | cols : t.pk = [] → KeyOf t (t.cols.map Prod.fst)

/-- Texts separated by commas. -/
def commas (l : List Str) : Str := (l.intersperse c!",").flatten

/-- `CountQuery db g c cond q`: the query `q` counts, for each key of `g`, the joined rows of `c`, and returns the largest count as `c1`. -/
inductive CountQuery (db : Str) (g c : Table) (cond : Str) : Str → Prop where
  | mk (gk : List Str) (ck : Str) (cks : List Str) : KeyOf g gk → KeyOf c (ck :: cks) →
      CountQuery db g c cond (c!"select " ++ commas (gk.map (fun x => qualified [db, g.schema, g.name, x])) ++ c!", count(" ++
        qualified [db, c.schema, c.name, ck] ++ c!") as c1 from " ++ qualified [db, g.schema, g.name] ++ c!", " ++
        qualified [db, c.schema, c.name] ++ c!" where " ++ cond ++ c!" group by " ++
        commas (gk.map (fun x => qualified [g.name, x])) ++ c!" order by c1 desc limit 1;")

/-- The server answers the query, after those asked before, with a positive count. -/
def Counts (srv : QueryServer) (asked : List Str) (q : Str) (n : Int) : Prop :=
  0 < n ∧ ∃ t rest, srv asked q = .ok (some t :: rest) ∧ IntValue t n

/-- What is to be reported about a join, given the queries for the to-count and the from-count. -/
inductive Verdict (srv : QueryServer) (asked : List Str) (name qTo qFrom : Str) : List Str → Prop where
  | noData : (¬ ∃ n, Counts srv asked qTo n) ∨ (¬ ∃ n, Counts srv (asked ++ [qTo]) qFrom n) →
      Verdict srv asked name qTo qFrom [name ++ c!" didn't return data."]
  | oneToMany (n : Int) : Counts srv asked qTo n → 1 < n → Counts srv (asked ++ [qTo]) qFrom 1 →
      Verdict srv asked name qTo qFrom [name ++ c!" is a 1:M join."]
  | manyToMany (n m : Int) : Counts srv asked qTo n → 1 < n → Counts srv (asked ++ [qTo]) qFrom m → 1 < m →
      Verdict srv asked name qTo qFrom [name ++ c!" is a M:M join."]
  | fine (m : Int) : Counts srv asked qTo 1 → Counts srv (asked ++ [qTo]) qFrom m → Verdict srv asked name qTo qFrom []

/-- The reports about a list of joins, tested one after the other. -/
inductive JoinReport (db : Str) (srv : QueryServer) : List Str → List Join → List Str → Prop where
  | nil (asked : List Str) : JoinReport db srv asked [] []
  | cons (asked : List Str) (j : Join) (js : List Join) (qTo qFrom : Str) (l ls : List Str) :
      CountQuery db j.source j.target j.condition qTo → CountQuery db j.target j.source j.condition qFrom →
      Verdict srv asked j.name qTo qFrom l → JoinReport db srv (asked ++ [qTo, qFrom]) js ls →
      JoinReport db srv asked (j :: js) (l ++ ls)

/-! ## Worksheet joins -/

/-- The first table of the worksheet with this name has this type. -/
def WsType (w : Worksheet) (n : Str) (type : Yaml) : Prop :=
  n ≠ [] ∧ ∃ pre t post, w.tables = pre ++ t :: post ∧ t.name = .str n ∧ t.type = type ∧ ∀ t' ∈ pre, t'.name ≠ .str n

/-- The query for rows of one table without partner: `nullTable` and `nullCol` name the column tested. -/
def unmatchedQuery (db : Str) (t1 t2 : Str × Table) (fk : FK) (nullTable nullCol : Str) : Str :=
  c!"select " ++ commas (fk.fromKeys.map (fun c => qualified [db, t1.2.schema, t1.1, c])) ++ c!", " ++
  commas (fk.toKeys.map (fun c => qualified [db, t2.2.schema, t2.1, c])) ++ c!" FROM " ++ qualified [db, t1.2.schema, t1.1] ++
  c!" full outer join " ++ qualified [db, t2.2.schema, t2.1] ++ c!" ON " ++
  (((fk.fromKeys.zip fk.toKeys).map (fun p =>
    c!"(" ++ qualified [db, t1.2.schema, t1.1, p.1] ++ c!" = " ++ qualified [db, t2.2.schema, t2.1, p.2] ++ c!")")).intersperse
      c!" AND ").flatten ++
  c!" WHERE " ++ qualified [nullTable, nullCol] ++ c!" = NULL;"

/-- The join type the data need: `left` says that the first query returned rows, `right` that the second did. -/
inductive Needed : Bool → Bool → Str → Prop where
  | outer : Needed true true c!"OUTER"
  | right : Needed false true c!"RIGHT_OUTER"
  | left : Needed true false c!"LEFT_OUTER"
  | inner : Needed false false c!"INNER"

/-- What is to be reported about a worksheet join, and the queries asked for it. -/
inductive WsVerdict (srv : QueryServer) (db : Database) (w : Worksheet) (asked : List Str) (j : WsJoin) : List Str → List Str → Prop where
  | otherSource (s : Str) (ty : Yaml) : j.source = .str s → WsType w s ty → ty ≠ .str c!"table" → WsVerdict srv db w asked j [] []
  | otherTarget (s d : Str) (t1 : Table) (ty : Yaml) : j.source = .str s → WsType w s (.str c!"table") → TableOf db s t1 →
      j.destination = .str d → WsType w d ty → ty ≠ .str c!"table" → WsVerdict srv db w asked j [] []
  | noKey (s d n actual : Str) (t1 t2 : Table) : j.source = .str s → WsType w s (.str c!"table") → TableOf db s t1 →
      j.destination = .str d → WsType w d (.str c!"table") → TableOf db d t2 → j.name = .str n → j.type = .str actual →
      (∀ k, (n, k) ∉ t1.fks) → WsVerdict srv db w asked j [] []
  | checked (s d n actual : Str) (t1 t2 : Table) (k : FK) (a b : Str) (as bs : List Str) (r1 r2 : List (Option Str)) (should : Str) :
      j.source = .str s → WsType w s (.str c!"table") → TableOf db s t1 →
      j.destination = .str d → WsType w d (.str c!"table") → TableOf db d t2 → j.name = .str n → j.type = .str actual →
      (n, k) ∈ t1.fks → k.fromKeys = a :: as → k.toKeys = b :: bs → k.fromKeys.length ≤ k.toKeys.length →
      srv asked (unmatchedQuery db.name (s, t1) (d, t2) k d a) = .ok r1 →
      srv (asked ++ [unmatchedQuery db.name (s, t1) (d, t2) k d a]) (unmatchedQuery db.name (s, t1) (d, t2) k s b) = .ok r2 →
      Needed (!r1.isEmpty) (!r2.isEmpty) should →
      WsVerdict srv db w asked j [unmatchedQuery db.name (s, t1) (d, t2) k d a, unmatchedQuery db.name (s, t1) (d, t2) k s b]
        (if actual = should then []
         else [c!"Join " ++ n ++ c!" is type " ++ actual ++ c!", but should probably be " ++ should ++ c!"."])

/-- The reports about a list of worksheet joins. -/
inductive WsReport (srv : QueryServer) (db : Database) (w : Worksheet) : List Str → List WsJoin → List Str → Prop where
  | nil (asked : List Str) : WsReport srv db w asked [] []
  | cons (asked : List Str) (j : WsJoin) (js : List WsJoin) (qs l ls : List Str) : WsVerdict srv db w asked j qs l →
      WsReport srv db w (asked ++ qs) js ls → WsReport srv db w asked (j :: js) (l ++ ls)

/-! ## The reviewer -/

/-- The inputs a review function can ask for. -/
def knownInputs : List Str := [c!"database", c!"rtql", c!"worksheet", c!"config_file"]

/-- The function is a selected review whose inputs are available. -/
structure Applicable (names : List Str) (i : Inputs) (t : TestItem) : Prop where
  review : ∃ rest, t.name = c!"review_" ++ rest
  selected : names = [] ∨ t.name ∈ names
  rtql : c!"rtql" ∈ t.params → i.rtql = true
  worksheet : c!"worksheet" ∈ t.params → i.worksheet = true

/-- The arguments a review is called with. -/
def inputsOf (t : TestItem) : List Str := knownInputs.filter (fun x => x ∈ t.params)

/-- What happens when the reviews are called one after the other: the calls made, and the non-empty results in the order of the calls, or the
exception of the first review that raises. -/
inductive Reviews (run : Str → List Str → Except PyErr (List Str)) :
    List TestItem → List (Str × List Str) → Except PyErr (List (Str × List Str)) → Prop where
  | nil : Reviews run [] [] (.ok [])
  | raises (t : TestItem) (ts : List TestItem) (e : PyErr) : run t.name (inputsOf t) = .error e →
      Reviews run (t :: ts) [(t.name, inputsOf t)] (.error e)
  | clean (t : TestItem) (ts : List TestItem) (calls : List (Str × List Str)) (r : Except PyErr (List (Str × List Str))) :
      run t.name (inputsOf t) = .ok [] → Reviews run ts calls r → Reviews run (t :: ts) ((t.name, inputsOf t) :: calls) r
  | found (t : TestItem) (ts : List TestItem) (calls : List (Str × List Str)) (l : List Str) (r : Except PyErr (List (Str × List Str))) :
      run t.name (inputsOf t) = .ok l → l ≠ [] → Reviews run ts calls r →
      Reviews run (t :: ts) ((t.name, inputsOf t) :: calls) (r.map ((t.name, l) :: ·))

/-- The review of sharding looks at a limit that is a text because of this row: at the limit of the rows of unsharded tables, at the least number of rows per shard or
the skew ratio of sharded ones, or at the largest number of rows per shard if the table does not have too few. -/
inductive LooksAtText (vmax vmin vskew : CfgVal) (r : StatRow) : Prop where
  | unsharded {s} : IntValue r.shards 1 → vmax = .text s → LooksAtText vmax vmin vskew r
  | few {m s} : IntValue r.shards m → m ≠ 1 → vmin = .text s → LooksAtText vmax vmin vskew r
  | skew {m s} : IntValue r.shards m → m ≠ 1 → vskew = .text s → LooksAtText vmax vmin vskew r
  | many {n m : Int} {s} {p q : Rat} : IntValue r.rowCount n → IntValue r.shards m → m ≠ 1 → vmax = .text s → Number vmin q → Rounds ((n : Rat) / m) p → ¬ p < q →
      LooksAtText vmax vmin vskew r

end Verif.Spec
