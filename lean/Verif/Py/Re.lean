import Verif.Py.Str
/-
The part of Python's `re` module used by dt/io.py: greedy backtracking patterns made of literal characters, `.*` and ` *`,
matched without regard to (ASCII) letter case.
-/

namespace Verif

/-- A pattern element: a literal character, or a starred character class, possibly captured. -/
inductive Tok where
  | ch (c : Char)
  | star (dot : Bool) (capture : Bool)
deriving DecidableEq, Repr

/-- The characters a starred class accepts: `.` is everything but a newline, the other class is the blank. -/
def starAccepts (dot : Bool) (c : Char) : Bool := if dot then c ≠ '\n' else c = ' '

/-- Equality under `re.IGNORECASE`, ASCII only. -/
def eqCi (a b : Char) : Bool := lowerC a == lowerC b

/-- Greedy star followed by the rest of the pattern: longest match first; returns what the star consumed and the rest's groups. -/
def starMatch (p : Char → Bool) (k : Str → Option (List Str)) : Str → Option (Str × List Str)
  | [] => (k []).map (fun r => ([], r))
  | x :: xs =>
    if p x then
      match starMatch p k xs with
      | some (g, r) => some (x :: g, r)
      | none => (k (x :: xs)).map (fun r => ([], r))
    else (k (x :: xs)).map (fun r => ([], r))

/-- The groups of a captured or uncaptured star. -/
def starGroups (capture : Bool) (m : Str × List Str) : List Str := if capture then m.1 :: m.2 else m.2

/-- `re.match(pattern, s, re.IGNORECASE).groups()` (dt/io.py:527); `none` if there is no match. -/
def reMatch : List Tok → Str → Option (List Str)
  | [], _ => some []
  | .ch _ :: _, [] => none
  | .ch c :: ts, x :: xs => if eqCi c x then reMatch ts xs else none
  | .star dot cap :: ts, s => (starMatch (starAccepts dot) (reMatch ts) s).map (starGroups cap)

/-- `pattern.search(s)` (dt/io.py:473): the first position with a match. -/
def reSearch (ts : List Tok) : Str → Option (List Str)
  | [] => reMatch ts []
  | x :: xs =>
    match reMatch ts (x :: xs) with
    | some g => some g
    | none => reSearch ts xs

/-- A literal text in a pattern. -/
def lit (s : Str) : List Tok := s.map .ch
/-- `.*` -/
def dots : List Tok := [.star true false]
/-- `(.*)` -/
def group : List Tok := [.star true true]
/-- ` *` -/
def blanks : List Tok := [.star false false]

/-- The literal `w` stands at the start of the text, ignoring case. -/
def startsCi : Str → Str → Bool
  | [], _ => true
  | _ :: _, [] => false
  | a :: w, b :: s => eqCi a b && startsCi w s

/-- Splitting; the counter skips the rest of a matched separator. -/
def splitCiGo (sep : Str) : Nat → Str → List Str
  | _, [] => [[]]
  | k + 1, _ :: t => splitCiGo sep k t
  | 0, c :: t =>
    if startsCi sep (c :: t) then [] :: splitCiGo sep (sep.length - 1) t
    else consHead c (splitCiGo sep 0 t)

/-- `re.split(word, s, flags=re.IGNORECASE)` for a plain non-empty word (dt/io.py:577). -/
def splitCi (sep s : Str) : List Str := splitCiGo sep 0 s

/-- `re.sub("c+", " ", s)` for a single character (dt/io.py:188, 439-440); the flag says whether a run has been replaced already. -/
def subRunGo (c : Char) : Bool → Str → Str
  | _, [] => []
  | inRun, x :: t =>
    if x = c then (if inRun then subRunGo c true t else ' ' :: subRunGo c true t)
    else x :: subRunGo c false t

/-- `re.sub("c+", " ", s)` (dt/io.py:188, 439-440). -/
def subRun (c : Char) (s : Str) : Str := subRunGo c false s

/-- `s.partition(sep)` as (before, separator found, after) (dt/io.py:149). -/
def partitionS (sep : Str) : Str → Str × Bool × Str
  | [] => if sep.isPrefixOf ([] : Str) then ([], true, []) else ([], false, [])
  | c :: t =>
    if sep.isPrefixOf (c :: t) then ([], true, (c :: t).drop sep.length)
    else let r := partitionS sep t; (c :: r.1, r.2.1, r.2.2)

/-- `s.find(sub, start)` (dt/io.py:309, 318, 323) for non-empty `sub`. -/
def pyFindFrom (sub s : Str) (start : Nat) : Int :=
  match findIdx sub (s.drop start) with
  | some i => ((start + i : Nat) : Int)
  | none => -1

/-- Digits with single underscores in between; the flag says whether the last character was a digit. -/
def digitsGo : Bool → Nat → Str → Option Nat
  | afterDigit, acc, [] => if afterDigit then some acc else none
  | afterDigit, acc, c :: t =>
    if '0' ≤ c ∧ c ≤ '9' then digitsGo true (acc * 10 + (c.toNat - '0'.toNat)) t
    else if c = '_' ∧ afterDigit then digitsGo false acc t
    else none

/-- `int(s)` for a `str` (dt/io.py:383, 474), ASCII digits only; `none` is the `ValueError`. -/
def pyInt (s : Str) : Option Int :=
  match strip s with
  | '-' :: t => (digitsGo false 0 t).map (fun (n : Nat) => -(n : Int))
  | '+' :: t => (digitsGo false 0 t).map (fun (n : Nat) => (n : Int))
  | t => (digitsGo false 0 t).map (fun (n : Nat) => (n : Int))

end Verif
