/-
What a user expects of the text form of a parsed structure: words, braces and lines.
-/
set_option autoImplicit false

namespace H265.Spec

/-- blank characters -/
def blank (c : Char) : Bool := c == ' ' || c == '\n'

/-- The words of a text: the maximal pieces without blanks.  `cur` is the word being read. -/
def wordsFrom : List Char → List Char → List (List Char)
  | cur, [] => if cur = [] then [] else [cur]
  | cur, c :: s =>
    if blank c then (if cur = [] then wordsFrom [] s else cur :: wordsFrom [] s)
    else wordsFrom (cur ++ [c]) s

/-- the words of a text -/
def words (s : List Char) : List (List Char) := wordsFrom [] s

/-- The number of open braces after reading `s` with `d` open braces; `none` if a brace is closed that was not opened. -/
def braceDepth : Nat → List Char → Option Nat
  | d, [] => some d
  | d, c :: s =>
    if c = '{' then braceDepth (d + 1) s
    else if c = '}' then (if d = 0 then none else braceDepth (d - 1) s)
    else braceDepth d s

/-- every brace that is opened is closed, and conversely -/
def Balanced (s : List Char) : Prop := braceDepth 0 s = some 0

/-- a single line: no line break -/
def OneLine (s : List Char) : Prop := '\n' ∉ s

/-- What follows a line break at brace depth `d` in a text indented by `lvl`: `2 · (lvl + d)` blanks and then the first character of the line, where a
line that begins with a closing brace is at the depth outside of the brace; or an empty line. -/
def LineStart (lvl d : Nat) (s : List Char) : Prop :=
  match s.dropWhile (· == ' ') with
  | [] => True
  | c :: _ => c = '\n' ∨ (s.takeWhile (· == ' ')).length = 2 * (lvl + if c = '}' then d - 1 else d)

/-- every line but the first is indented by two blanks per level -/
def Indented (lvl : Nat) (s : List Char) : Prop := ∀ a b d, s = a ++ '\n' :: b → braceDepth 0 a = some d → LineStart lvl d b

example : words "a b\n  c: 12".toList = ["a".toList, "b".toList, "c:".toList, "12".toList] := by decide
example : Balanced "a { b: 1 c { 2 } }".toList := by unfold Balanced; decide
example : ¬ Balanced "} {".toList := by unfold Balanced; decide

example : LineStart 1 1 "    b: 1\n  }".toList := .inr (by decide)
example : ¬ LineStart 1 1 "  b: 1\n  }".toList := fun h => h.elim (by decide) (by decide)

end H265.Spec
