import Verif.Spec.Breaks
import Verif.Spec.Reports
import Verif.Spec.Review
/-
Specification of what the parser makes of a statement, for every statement: which type a column gets, what a CREATE TABLE creates, and what an ALTER TABLE changes.
-/

namespace Verif.Spec
open Verif

/-! ## Types -/

/-- The words that tell types apart, in the order in which they count, and the types they stand for; NUMBER has its own rules. -/
def typeRules : List (Str × Option Str) :=
  [(c!"int", some c!"BIGINT"), (c!"rowversion", some c!"INT"), (c!"uniqueidentifier", some c!"VARCHAR(0)"), (c!"sysname", some c!"VARCHAR(0)"), (c!"serial", some c!"INT"),
   (c!"bit", some c!"BOOL"), (c!"blob", some c!"UNKNOWN"), (c!"binary", some c!"UNKNOWN"), (c!"number", none), (c!"decimal", some c!"DOUBLE"), (c!"numeric", some c!"DOUBLE"),
   (c!"float", some c!"DOUBLE"), (c!"double", some c!"DOUBLE"), (c!"money", some c!"DOUBLE"), (c!"real", some c!"DOUBLE"), (c!"datetime", some c!"DATETIME"),
   (c!"timestamp", some c!"DATETIME"), (c!"time", some c!"TIME"), (c!"date", some c!"DATE"), (c!"bool", some c!"BOOL"), (c!"text", some c!"VARCHAR(0)"),
   (c!"long", some c!"VARCHAR(0)"), (c!"enum", some c!"VARCHAR(0)"), (c!"xml", some c!"VARCHAR(0)"), (c!"char", some c!"VARCHAR(0)")]

/-- The arguments of a type that ends with its first closing parenthesis: after the first opening one, everything if there is none. -/
def ArgsOf (h args : Str) : Prop := ')' ∉ args ∧ ((h = args ++ [')'] ∧ '(' ∉ args) ∨ ∃ v, h = v ++ '(' :: args ++ [')'] ∧ '(' ∉ v)

/-- A NUMBER: without arguments, with one, with a scale that is not 0, with a scale 0 and a precision. -/
inductive NumberType (h : Str) : Str → Prop where
  | bare : ')' ∉ h → NumberType h c!"BIGINT"
  | one {args} : ArgsOf h args → ',' ∉ args → NumberType h c!"INT"
  | scale {a b z} : ArgsOf h (a ++ ',' :: b) → ',' ∉ a → ',' ∉ b → Padded b z → z ≠ c!"0" → NumberType h c!"DOUBLE"
  | star {b} : ArgsOf h ('*' :: ',' :: b) → Padded b c!"0" → NumberType h c!"BIGINT"
  | large {a b n} : ArgsOf h (a ++ ',' :: b) → ',' ∉ a → Padded b c!"0" → IntValue a n → 9 < n → NumberType h c!"BIGINT"
  | small {a b n} : ArgsOf h (a ++ ',' :: b) → ',' ∉ a → Padded b c!"0" → IntValue a n → n ≤ 9 → NumberType h c!"INT"

/-- The type a type text stands for: the first of the words that occurs decides, upper and lower case are the same. -/
inductive Converts (d : Str) : Str → Prop where
  | word {h pre w ty post} : Head d h → typeRules = pre ++ (w, some ty) :: post → (∀ r ∈ pre, Lacks r.1 h) → ¬ Lacks w h → Converts d ty
  | number {h pre w post ty} : Head d h → typeRules = pre ++ (w, none) :: post → (∀ r ∈ pre, Lacks r.1 h) → ¬ Lacks w h → NumberType (h.map small) ty → Converts d ty
  | unknown {h} : Head d h → (∀ r ∈ typeRules, Lacks r.1 h) → Converts d c!"UNKNOWN"

/-! ## CREATE TABLE -/

/-- A value filed under a name: in the place of the one that is there, or last. -/
def put {A : Type} (d : List (Str × A)) (n : Str) (a : A) : List (Str × A) :=
  d.takeWhile (fun p => p.1 ≠ n) ++ (n, a) :: (d.dropWhile (fun p => p.1 ≠ n)).tail

/-- The name of a column and the text after it.  Without a blank after it the last character is lost, and so it is without the closing quote. -/
inductive NameAndRest : Str → Str → Str → Prop where
  | plain {n r} : (∀ c, n.head? = some c → c ∉ c!"\"'`") → ' ' ∉ n → NameAndRest (n ++ ' ' :: r) n r
  | plainEnd {n c} : (∀ x, (n ++ [c]).head? = some x → x ∉ c!"\"'`") → ' ' ∉ n ++ [c] → NameAndRest (n ++ [c]) n []
  | quoted {q n r} : q ∈ c!"\"'`" → q ∉ n → NameAndRest (q :: n ++ q :: r) n (r.drop 1)
  | unclosed {q n} : q ∈ c!"\"'`" → q ∉ n → NameAndRest (q :: n) n.dropLast []

/-- The type at the beginning of a text: up to the first closing parenthesis; without one, up to the first blank or comma. -/
inductive TypeAhead : Str → Str → Prop where
  | sized {a b} : ')' ∉ a → TypeAhead (a ++ ')' :: b) (a ++ [')'])
  | word {a b} : ')' ∉ a ++ b → ' ' ∉ a → ',' ∉ a → (∀ c, b.head? = some c → c = ' ' ∨ c = ',') → TypeAhead (a ++ b) a

/-- The text in the first parentheses: after the first opening one, up to the next closing one or the end; nothing if there are none. -/
inductive InParens : Str → Str → Prop where
  | closed {a x b} : '(' ∉ a → ')' ∉ x → InParens (a ++ '(' :: x ++ ')' :: b) x
  | unclosed {a x} : '(' ∉ a → ')' ∉ x → InParens (a ++ '(' :: x) x
  | missing {a} : '(' ∉ a → InParens a []

/-- Names with commas between them; blanks and double quotes do not count. -/
def KeyList (x : Str) (ks : List Str) : Prop := ks ≠ [] ∧ (∀ k ∈ ks, ',' ∉ k) ∧ x.filter (fun c => c ≠ ' ' ∧ c ≠ '"') = List.intercalate [','] ks

/-- What a field of a CREATE TABLE stands for. -/
inductive FieldItem where
  | column (c : Column)
  | key (cols : List Str)
  | skipped
deriving DecidableEq, Repr

/-- The item a field is: one with KEY and a blank after it is a key, the others are columns. -/
inductive ItemOf : Str → FieldItem → Prop where
  | column {f n r d ty} : Lacks c!"key " f → NameAndRest f n r → TypeAhead r d → Converts d ty → ItemOf f (.column ⟨n, ty⟩)
  | key {f x ks} : ¬ Lacks c!"key " f → ¬ Lacks c!"primary" f → InParens f x → KeyList x ks → ItemOf f (.key ks)
  | skipped {f} : ¬ Lacks c!"key " f → Lacks c!"primary" f → ItemOf f .skipped

/-- The name of the table: before the first parenthesis, without the words CREATE TABLE (of which only the length counts), the path and the quotes.
Without a parenthesis the last character is lost. -/
def CreatedName (s n : Str) : Prop :=
  ∃ front core k path x, ((∃ rest, s = front ++ '(' :: rest ∧ '(' ∉ front) ∨ ('(' ∉ s ∧ front = s.dropLast)) ∧
    (∃ w, front = core ++ w ∧ White w ∧ ∀ c, core.getLast? = some c → isSpace c = false) ∧
    ((Lacks c!"or replace" core ∧ k = 13) ∨ (¬ Lacks c!"or replace" core ∧ k = 24)) ∧ core.drop k = path ++ x ∧ Prefixed path ∧ '.' ∉ x ∧ n = x.filter (fun c => c ∉ c!"\"'`")

/-- The groups of a text that begins with these pieces, each gap as long as possible, the first ones first. -/
def Longest : List ((Str × Between) × Bool) → Str → List Str → Prop
  | [], _, gs => gs = []
  | p :: l, s, gs => ∃ m g r gs', s = m ++ (g ++ r) ∧ m.map small = p.1.1 ∧ (∀ c ∈ g, p.1.2.allows c) ∧
      (∀ g' r', g ++ r = g' ++ r' → (∀ c ∈ g', p.1.2.allows c) → g.length < g'.length → ¬ HasShape (l.map Prod.fst) r') ∧ Longest l r gs' ∧
      gs = if p.2 = true then g :: gs' else gs'

/-- The shape with marks for the gaps that are read. -/
def marked (l : List (Str × Between)) (caps : List Bool) : List ((Str × Between) × Bool) := l.zip caps

/-- The shard key of a statement: from the first place with a complete clause. -/
def ShardOf (s : Str) (k : ShardKey) : Prop :=
  ∃ a r n keys m cols, s = a ++ r ∧ (∀ r', r' <:+ s → r.length < r'.length → ¬ HasShape hashShape r') ∧
    Longest (marked hashShape [false, false, true, false, true, false]) r [n, keys] ∧ IntValue n m ∧ Columns keys cols ∧ k = { keys := cols, number := .int m }

/-- The columns among the items. -/
def itemColumns (l : List FieldItem) : List Column := l.filterMap (fun i => match i with | .column c => some c | _ => none)

/-- The primary key: the last one. -/
def itemKey (l : List FieldItem) : List Str := l.foldl (fun k i => match i with | .key ks => ks | _ => k) []

/-- The table a CREATE TABLE creates; of columns with the same name the last one counts, at the place of the first. -/
def TableBuilt (schema s : Str) (t : Table) : Prop :=
  ∃ n fields items, CreatedName (asQuotes s) n ∧ FieldsOf (asQuotes s) fields ∧ List.Forall₂ ItemOf fields items ∧
    t.name = n ∧ t.schema = schema ∧ t.pk = itemKey items ∧ t.cols = (itemColumns items).foldl (fun d c => put d c.name c) [] ∧ t.fks = [] ∧ t.rels = [] ∧
    ((∃ k, ¬ Lacks c!"partition by hash" s ∧ ShardOf (asQuotes s) k ∧ t.shard = some k) ∨
      ((Lacks c!"partition by hash" s ∨ ∀ k, ¬ ShardOf (asQuotes s) k) ∧ t.shard = none))

/-! ## ALTER TABLE -/

/-- The name of a table in a text: after the path, in quotes up to the closing one, otherwise up to the first blank. -/
inductive NamesTable : Str → Str → Prop where
  | quoted {pre q y z n} : Prefixed pre → '.' ∉ q :: y ++ z → q ∈ c!"\"'" → q ∉ y → (∀ c, z.head? = some c → c = q) → Written y n → NamesTable (pre ++ (q :: y ++ z)) n
  | plain {pre y z n} : Prefixed pre → '.' ∉ y ++ z → y ++ z ≠ [] → (∀ c, (y ++ z).head? = some c → c ∉ c!"\"'") → ' ' ∉ y → (∀ c, z.head? = some c → c = ' ') →
      Written y n → NamesTable (pre ++ (y ++ z)) n

/-- The parts of a text between the occurrences of a word. -/
inductive WordCut (w : Str) : Str → List Str → Prop where
  | last {s} : Lacks w s → WordCut w s [s]
  | more {p kw r l} : kw.map small = w → Lacks w (p ++ kw).dropLast → WordCut w r l → WordCut w (p ++ (kw ++ r)) (p :: l)

/-- A text without such characters at its ends. -/
def Shorn (p : Char → Bool) (s t : Str) : Prop :=
  (∃ a b, s = a ++ (t ++ b) ∧ ∀ c ∈ a ++ b, p c = true) ∧ (∀ c, t.head? = some c → p c = false) ∧ (∀ c, t.getLast? = some c → p c = false)

/-- A constraint without the white space, commas and semicolons around it. -/
def Shaved (s t : Str) : Prop := ∃ x y z, Shorn isSpace s x ∧ Shorn (fun c => c == ',') x y ∧ Shorn (fun c => c == ';') y z ∧ Shorn isSpace z t

/-- The foreign key a constraint gives. -/
inductive GivesKey (s : Str) : KeyText → Prop where
  | named {c n f u g k} : Shaved s c → Longest (marked namedKeyShape [true, false, true, false, true, true, false]) c [n, f, u, g] →
      (∃ m, k.name = some m ∧ Written n m) → Columns f k.cols → NamesTable u k.table → Columns g k.refs → GivesKey s k
  | unnamed {c f u g k} : Shaved s c → ¬ HasShape namedKeyShape c → Longest (marked keyShape [false, true, false, true, true, false]) c [f, u, g] →
      k.name = none → Columns f k.cols → NamesTable u k.table → Columns g k.refs → GivesKey s k

/-- The foreign keys of the constraints up to the first one that cannot be used. -/
inductive UsableKeys : List Str → List KeyText → Prop where
  | nil : UsableKeys [] []
  | stop {c l} : (∀ k, GivesKey c k → k.cols.length ≠ k.refs.length) → UsableKeys (c :: l) []
  | more {c l k ks} : GivesKey c k → k.cols.length = k.refs.length → UsableKeys l ks → UsableKeys (c :: l) (k :: ks)

/-- The relationship a statement gives, and the table it is for. -/
inductive GivesRelationship (s : Str) : Str → RelText → Prop where
  | named {t m u c tn r} : Longest (marked namedRelationshipShape [true, true, true, true]) s [t, m, u, c] → NamesTable t tn → (∃ n, r.name = some n ∧ Written m n) →
      NamesTable u r.table → r.cond = c → GivesRelationship s tn r
  | unnamed {t u c tn r} : ¬ HasShape namedRelationshipShape s → Longest (marked relationshipShape [true, true, true]) s [t, u, c] → NamesTable t tn → r.name = none →
      NamesTable u r.table → r.cond = c → GivesRelationship s tn r

/-- The table an ALTER TABLE changes, and how. -/
inductive Changes (s : Str) : Str → (Table → Table) → Prop where
  | primary {g f tn cols} : ¬ Lacks c!"primary key" s → Longest (marked primaryShape [true, false, false, true, false]) s [g, f] → NamesTable g tn → Columns f cols →
      Changes s tn (fun t => { t with pk := cols })
  | foreign {g tn p parts ks} : Lacks c!"primary key" s → ¬ Lacks c!"foreign" s → Longest (marked addShape [true, false]) s [g] → Written g tn →
      WordCut c!"constraint" s (p :: parts) → UsableKeys parts ks →
      Changes s tn (fun t => { t with fks := ks.foldl (fun d k => put d (k.key t.name).name (k.key t.name)) t.fks })
  | relationship {tn r} : Lacks c!"primary key" s → Lacks c!"foreign" s → ¬ Lacks c!"relationship" s → GivesRelationship s tn r →
      Changes s tn (fun t => { t with rels := put t.rels (r.rel t.name).name (r.rel t.name) })

/-! ## Statements and files -/

/-- The database after a CREATE TABLE: the table takes the place of one with the same name, or comes last; one more table is counted for its schema. -/
def withTable (db : Database) (t : Table) : Database :=
  { db with tables := put db.tables t.name t, schemas := put db.schemas t.schema (((db.schemas.find? (fun p => p.1 = t.schema)).map Prod.snd).getD 0 + 1) }

/-- What a statement does to the database. -/
inductive Does (schema s : Str) (db : Database) : Database → Prop where
  | creates {t} : CreatesTable s → TableBuilt schema s t → Does schema s db (withTable db t)
  | changes {n f} : Alters s → Changes s n f → Does schema s db (changed db n f)
  | nothing : Alters s → (∀ n f, ¬ Changes s n f) → Does schema s db db
  | other : ¬ CreatesTable s → ¬ Alters s → Does schema s db db

/-- What statements do, one after the other. -/
inductive DoAll (schema : Str) : List Str → Database → Database → Prop where
  | nil {db} : DoAll schema [] db db
  | cons {s l db db' db''} : Does schema s db db' → DoAll schema l db' db'' → DoAll schema (s :: l) db db''

end Verif.Spec
