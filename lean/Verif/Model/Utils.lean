import Verif.Model.Bytes
/-
Model of src/pypsrp/_utils.py: `version_equal_or_newer` and `get_pwsh_script`.
Python strings are lists of characters here.
-/
namespace Verif

/-- Python `str` without lone surrogates. -/
abbrev PyStr := List Char

/-- `str.split(sep)` for a one character separator: never empty. -/
def splitChar (sep : Char) : PyStr → List PyStr
  | [] => [[]]
  | c :: cs =>
    if c = sep then [] :: splitChar sep cs
    else match splitChar sep cs with
      | [] => [[c]]
      | p :: ps => (c :: p) :: ps

/-- `sep.join(parts)`. -/
def joinWith (sep : PyStr) : List PyStr → PyStr
  | [] => []
  | [p] => p
  | p :: q :: ps => p ++ sep ++ joinWith sep (q :: ps)

/-- Characters that `str.strip()` removes (`str.isspace`, the complete list of the Unicode database). -/
def isPySpace (c : Char) : Bool :=
  let n := c.toNat
  (9 ≤ n && n ≤ 13) || (28 ≤ n && n ≤ 32) || n == 0x85 || n == 0xa0 || n == 0x1680 ||
    (0x2000 ≤ n && n ≤ 0x200a) || n == 0x2028 || n == 0x2029 || n == 0x202f || n == 0x205f || n == 0x3000

/-- `str.strip()`. -/
def pyStrip (s : PyStr) : PyStr := ((s.dropWhile isPySpace).reverse.dropWhile isPySpace).reverse

/-- The white space that `int()` accepts around a number: not the separators 28-31, which `str.strip()` removes. -/
def isIntSpace (c : Char) : Bool := isPySpace c && !(28 ≤ c.toNat && c.toNat ≤ 31)

/-- A text without the white space that `int()` accepts around it. -/
def intStrip (s : PyStr) : PyStr := ((s.dropWhile isIntSpace).reverse.dropWhile isIntSpace).reverse

/-- The digits of a Python integer literal as `int()` accepts them: digits with single underscores between them.
`acc` is the value so far, `ok` says that the previous character was a digit. -/
def pyDigits (acc : Nat) (ok : Bool) : PyStr → Option Nat
  | [] => if ok then some acc else none
  | c :: cs =>
    if c.isDigit then pyDigits (10 * acc + (c.toNat - 48)) true cs
    else if c = '_' && ok then pyDigits acc false cs
    else none

/-- `int(s)` for a string. Surrounding white space, a sign and underscores are accepted as in Python; non-ASCII
digits, which Python also accepts, are not modelled (they are an error here). -/
def pyInt (s : PyStr) : Except PyErr Int :=
  match intStrip s with
  | '+' :: cs => match pyDigits 0 false cs with
    | some n => .ok n
    | none => .error .valueError
  | '-' :: cs => match pyDigits 0 false cs with
    | some n => .ok (-n)
    | none => .error .valueError
  | cs => match pyDigits 0 false cs with
    | some n => .ok n
    | none => .error .valueError

/-- `str(n)` for a natural number: its decimal digits. -/
def pyStrNat (n : Nat) : PyStr :=
  if h : n < 10 then [Char.ofNat (48 + n)]
  else pyStrNat (n / 10) ++ [Char.ofNat (48 + n % 10)]
termination_by n
decreasing_by omega

/-- `str(n)` for an integer. -/
def pyStrInt (n : Int) : PyStr :=
  if n < 0 then '-' :: pyStrNat n.natAbs else pyStrNat n.natAbs

/-- _utils.py 81-88, the comparison loop, over the pairs `(version_parts[idx], reference_version_parts[idx])`.
The components are converted lazily, the reference first. -/
def versionLoop : List (PyStr × PyStr) → Except PyErr Bool
  | [] => .ok true
  | (v, r) :: rest => do
    let cur ← pyInt r
    let ver ← pyInt v
    if ver < cur then return false
    else if ver > cur then return true
    else versionLoop rest

/-- _utils.py 71-79: pad the shorter list with "0". -/
def padZero (parts : List PyStr) (n : Nat) : List PyStr := parts ++ List.replicate (n - parts.length) ['0']

/-- _utils.py 54-90 `version_equal_or_newer`. -/
def versionEqualOrNewer (version reference : PyStr) : Except PyErr Bool :=
  let v := splitChar '.' version
  let r := splitChar '.' reference
  let v := padZero v r.length
  let r := padZero r v.length
  versionLoop (v.zip r)

/-- Line boundaries of `str.splitlines()`, apart from "\r\n" which counts as one. -/
def isLineBreak (c : Char) : Bool :=
  let n := c.toNat
  (10 ≤ n && n ≤ 13) || (0x1c ≤ n && n ≤ 0x1e) || n == 0x85 || n == 0x2028 || n == 0x2029

/-- `str.splitlines()`; `cur` is the current line reversed, `started` says that there is a current line. -/
def splitLinesAux (cur : PyStr) (started : Bool) : PyStr → List PyStr
  | [] => if started then [cur.reverse] else []
  | '\r' :: '\n' :: cs => cur.reverse :: splitLinesAux [] false cs
  | c :: cs =>
    if isLineBreak c then cur.reverse :: splitLinesAux [] false cs
    else splitLinesAux (c :: cur) true cs

def pySplitLines (s : PyStr) : List PyStr := splitLinesAux [] false s

/-- _utils.py 107-116: the loop over the lines, `block` is `block_comment`. -/
def scriptLoop (block : Bool) : List PyStr → List PyStr
  | [] => []
  | l :: ls =>
    let line := pyStrip l
    if block then scriptLoop (!(['#', '>'].isSuffixOf line)) ls
    else if ['<', '#'].isPrefixOf line then scriptLoop true ls
    else if line ≠ [] ∧ ¬ ['#'].isPrefixOf line then line :: scriptLoop false ls
    else scriptLoop false ls

/-- _utils.py 97-118 `get_pwsh_script`, on the text of the bundled file (reading the file is not modelled). -/
def getPwshScript (script : PyStr) : PyStr := joinWith ['\n'] (scriptLoop false (pySplitLines script))

end Verif
