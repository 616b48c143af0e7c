/-
Python `str` and `list` primitives used by the code in /repo, on lists of characters.

These definitions model the Python standard library, not /repo code; the citation at each one names the
place in /repo that uses it.  Case mapping is ASCII only (DESIGN.md, section 3).
-/

namespace Verif

/-- A Python `str`: a sequence of code points. -/
abbrev Str := List Char

open Lean in
/-- `c!"abc"` is the list of characters of the literal. -/
syntax:max "c!" noWs str : term

open Lean in
macro_rules
  | `(c!$s:str) => do
    let cs := s.getString.toList.map (fun c => Syntax.mkCharLit c)
    `(([$(cs.toArray),*] : List Char))

/-- The Python exceptions that occur in the modelled code. -/
inductive PyErr where
  | assertion | value | type | key | index | attribute | zeroDiv | overflow | recursion
  /-- A run-time situation outside the model (documented where it is used). -/
  | unmodelled
deriving DecidableEq, Repr

deriving instance DecidableEq for Except

/-- `str.isspace` for one character: the exact set of code points `str.strip()` removes
(used by dt/io.py:201, dt/util.py:111). -/
def isSpace (c : Char) : Bool :=
  let n := c.toNat
  (9 ≤ n && n ≤ 13) || (28 ≤ n && n ≤ 32) || n == 133 || n == 160 || n == 5760 ||
  (8192 ≤ n && n ≤ 8202) || n == 8232 || n == 8233 || n == 8239 || n == 8287 || n == 12288

/-- `str.lstrip()` (dt/util.py:111 via `strip`). -/
def lstrip (s : Str) : Str := s.dropWhile isSpace

/-- `str.rstrip()` (dt/util.py:111 via `strip`). -/
def rstrip (s : Str) : Str := (s.reverse.dropWhile isSpace).reverse

/-- `str.strip()` (dt/util.py:111, dt/io.py:437). -/
def strip (s : Str) : Str := rstrip (lstrip s)

/-- `str.strip(chars)` (dt/generator.py:85). -/
def stripChars (p : Char → Bool) (s : Str) : Str :=
  ((s.dropWhile p).reverse.dropWhile p).reverse

/-- ASCII upper-case letter test. -/
def isUpperA (c : Char) : Bool := 'A' ≤ c && c ≤ 'Z'
/-- ASCII lower-case letter test. -/
def isLowerA (c : Char) : Bool := 'a' ≤ c && c ≤ 'z'

/-- `str.lower()` on one character, ASCII only (dt/generator.py:64). -/
def lowerC (c : Char) : Char := if isUpperA c then Char.ofNat (c.toNat + 32) else c
/-- `str.upper()` on one character, ASCII only (dt/generator.py:67). -/
def upperC (c : Char) : Char := if isLowerA c then Char.ofNat (c.toNat - 32) else c

/-- `str.lower()`, ASCII only (dt/generator.py:64, dt/io.py:100). -/
def lower (s : Str) : Str := s.map lowerC
/-- `str.upper()`, ASCII only (dt/generator.py:67, dt/io.py:355). -/
def upper (s : Str) : Str := s.map upperC

/-- `s.startswith(pre)` (dt/model.py:70). -/
def startsWith (s pre : Str) : Bool := pre.isPrefixOf s

/-- First index at which `sub` occurs in `s` (`str.find`, `in`). -/
def findIdx (sub : Str) : Str → Option Nat
  | [] => if sub.isPrefixOf ([] : Str) then some 0 else none
  | c :: t => if sub.isPrefixOf (c :: t) then some 0 else (findIdx sub t).map (· + 1)

/-- `sub in s` for strings (dt/io.py:101). -/
def hasSub (sub s : Str) : Bool := (findIdx sub s).isSome

/-- `s.find(sub)` with `-1` for "not found" (dt/io.py:280). -/
def pyFind (sub s : Str) : Int :=
  match findIdx sub s with
  | some i => (i : Int)
  | none => -1

/-- Last index at which `sub` occurs in `s` (`str.rfind`). -/
def rfindIdx (sub : Str) : Str → Option Nat
  | [] => if sub.isPrefixOf ([] : Str) then some 0 else none
  | c :: t =>
    match rfindIdx sub t with
    | some i => some (i + 1)
    | none => if sub.isPrefixOf (c :: t) then some 0 else none

/-- `s.rfind(sub)` with `-1` for "not found" (dt/io.py:279). -/
def pyRfind (sub s : Str) : Int :=
  match rfindIdx sub s with
  | some i => (i : Int)
  | none => -1

/-- A slice bound: negative bounds count from the end, everything is clamped to `[0, len]`. -/
def sliceBound (len : Nat) (i : Int) : Nat :=
  if i < 0 then (i + len).toNat else min i.toNat len

/-- `s[i:j]` with Python's treatment of negative and out-of-range bounds (dt/io.py:282). -/
def pySlice {α : Type} (s : List α) (i j : Int) : List α :=
  (s.take (sliceBound s.length j)).drop (sliceBound s.length i)

/-- Prepend a character to the first part of a split. -/
def consHead (c : Char) : List Str → List Str
  | [] => [[c]]
  | p :: ps => (c :: p) :: ps

/-- `s.split(c)` for a one-character separator (dt/io.py:288, dt/util.py:110). -/
def splitC (sep : Char) : Str → List Str
  | [] => [[]]
  | c :: t => if c == sep then [] :: splitC sep t else consHead c (splitC sep t)

/-- Split on a non-empty separator; the counter skips the rest of a matched separator. -/
def splitSGo (sep : Str) : Nat → Str → List Str
  | _, [] => [[]]
  | k + 1, _ :: t => splitSGo sep k t
  | 0, c :: t =>
    if sep.isPrefixOf (c :: t) then [] :: splitSGo sep (sep.length - 1) t
    else consHead c (splitSGo sep 0 t)

/-- `s.split(sep)` for a non-empty separator (dt/model.py:1029). -/
def splitS (sep s : Str) : List Str := splitSGo sep 0 s

/-- Replace every occurrence of a non-empty text; the counter skips the rest of a matched occurrence. -/
def replaceGo (old new : Str) : Nat → Str → Str
  | _, [] => []
  | k + 1, _ :: t => replaceGo old new k t
  | 0, c :: t =>
    if old.isPrefixOf (c :: t) then new ++ replaceGo old new (old.length - 1) t
    else c :: replaceGo old new 0 t

/-- `s.replace(old, new)` for non-empty `old` (dt/io.py:248). -/
def replace (old new s : Str) : Str := replaceGo old new 0 s

/-- `sep.join(parts)` (dt/generator.py:27). -/
def joinS (sep : Str) : List Str → Str
  | [] => []
  | [p] => p
  | p :: ps => p ++ sep ++ joinS sep ps

/-- Decimal digits of a natural number, `str(n)` (dt/generator.py:149). -/
def natToStr (n : Nat) : Str := Nat.toDigits 10 n

/-- `str(i)` / `'%d' % i` for an integer (dt/generator.py:149). -/
def intToStr : Int → Str
  | .ofNat n => natToStr n
  | .negSucc n => '-' :: natToStr (n + 1)

/-- `<=` on Python strings: lexicographic by code point (`sorted` of names, dt/diff.py:562). -/
def strLe : Str → Str → Bool
  | [], _ => true
  | _ :: _, [] => false
  | a :: s, b :: t => if a.toNat < b.toNat then true else if b.toNat < a.toNat then false else strLe s t

/-- `sorted(names)` (dt/diff.py:562): insertion sort, which is stable like Python's. -/
def insertStr (x : Str) : List Str → List Str
  | [] => [x]
  | y :: ys => if strLe x y then x :: y :: ys else y :: insertStr x ys

/-- `sorted(names)` (dt/diff.py:562). -/
def sortStr : List Str → List Str
  | [] => []
  | x :: xs => insertStr x (sortStr xs)

end Verif
