import Verif.Model.Utils
/-
Specifications for versions and bundled scripts.
-/
namespace Verif

/-- A non-empty string of decimal digits. -/
def IsDecimal (s : PyStr) : Prop := s ≠ [] ∧ ∀ c ∈ s, c.isDigit = true

/-- The number a decimal string denotes. -/
def decimalValue (s : PyStr) : Nat := s.foldl (fun n c => 10 * n + (c.toNat - 48)) 0

/-- `s` is a dotted version with components `ns`, e.g. "2.10" with [2, 10]. -/
def Dotted (s : PyStr) (ns : List Nat) : Prop :=
  ∃ parts : List PyStr, parts ≠ [] ∧ s = ['.'].intercalate parts ∧ (∀ p ∈ parts, IsDecimal p) ∧
    ns = parts.map decimalValue

/-- Component `i` of a version, missing ones being zero. -/
def component (ns : List Nat) (i : Nat) : Nat := ns.getD i 0

/-- Version `a` is equal to or newer than `b`: all components agree, or the first that differs is larger in `a`. -/
def VersionGe (a b : List Nat) : Prop :=
  (∀ i, component a i = component b i) ∨
    ∃ i, (∀ j, j < i → component a j = component b j) ∧ component b i < component a i

/-- The code lines of a script given as trimmed lines: block comments run from a line starting with `<#` to the first
line ending with `#>`, which may be the same line; other lines are kept unless they are empty or start with `#`. -/
def codeLines (ls : List PyStr) : List PyStr := go ls.length ls
where
  /-- the first argument bounds the number of lines left -/
  go : Nat → List PyStr → List PyStr
    | 0, _ => []
    | _, [] => []
    | n + 1, l :: ls =>
      if ['<', '#'].isPrefixOf l then
        if ['#', '>'].isSuffixOf l then go n ls
        else go n ((ls.dropWhile (fun m => !['#', '>'].isSuffixOf m)).drop 1)
      else if l = [] ∨ ['#'].isPrefixOf l then go n ls
      else l :: go n ls

/-- The white space of Python texts: the code points for which `str.isspace` holds. -/
def whiteSpace : List Nat := [9, 10, 11, 12, 13, 28, 29, 30, 31, 32, 133, 160, 5760, 8192, 8193, 8194, 8195, 8196, 8197, 8198, 8199, 8200, 8201,
  8202, 8232, 8233, 8239, 8287, 12288]

/-- The characters that end a line, as the documentation of `str.splitlines` lists them. -/
def lineEnds : List Nat := [10, 13, 11, 12, 28, 29, 30, 133, 8232, 8233]

/-- `t` is `l` without the white space around it. -/
def Trims (l t : PyStr) : Prop :=
  ∃ a b, l = a ++ t ++ b ∧ (∀ c ∈ a ++ b, c.toNat ∈ whiteSpace) ∧ (∀ c, t.head? = some c → c.toNat ∉ whiteSpace) ∧
    ∀ c, t.getLast? = some c → c.toNat ∉ whiteSpace

/-- The lines of a text. The last one needs no end; carriage return and line feed are one end. -/
inductive Lines : PyStr → List PyStr → Prop
  | none : Lines [] []
  | last {l : PyStr} : l ≠ [] → (∀ c ∈ l, c.toNat ∉ lineEnds) → Lines l [l]
  | crlf {l s : PyStr} {ls : List PyStr} : (∀ c ∈ l, c.toNat ∉ lineEnds) → Lines s ls → Lines (l ++ '\r' :: '\n' :: s) (l :: ls)
  | line {l s : PyStr} {e : Char} {ls : List PyStr} : (∀ c ∈ l, c.toNat ∉ lineEnds) → e.toNat ∈ lineEnds → ¬ (e = '\r' ∧ s.head? = some '\n') →
      Lines s ls → Lines (l ++ e :: s) (l :: ls)

/-- The lines of a text and what they are without white space around them. -/
inductive TrimmedLines (s : PyStr) : List PyStr → Prop
  | mk {ls ts : List PyStr} : Lines s ls → ts.length = ls.length → (∀ p ∈ ls.zip ts, Trims p.1 p.2) → TrimmedLines s ts

end Verif
