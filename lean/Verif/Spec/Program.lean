/-
What a user expects of the program as a whole: which bytes it reads and which files it writes.
-/
import Verif.Spec.CommandLine

set_option autoImplicit false

namespace H265.Spec

/-- what there is to read under a name: `-` is standard input; a file that is missing or empty cannot be read -/
def source (w : World) (name : List Char) : Option (List UInt8) :=
  if name = ['-'] then some w.stdin
  else match w.files name with
    | some (b :: bs) => some (b :: bs)
    | _ => none

/-- the input for a file name option -/
def input (w : World) : Option (List Char) → ToolInput
  | none => .absent
  | some name =>
    match source w name with
    | none => .unreadable
    | some data => .bytes data

/-- what is left after reading this input: `-` reads all of standard input -/
def afterReading (w : World) (name : Option (List Char)) : World := if name = some ['-'] then { w with stdin := [] } else w

/-- output goes to standard output -/
def ToStdout (outfile : Option (List Char)) : Prop := outfile = none ∨ outfile = some ['-']

/-- the output was written: `w'` differs from `w` by the text on standard output or by the contents of the output file -/
structure Written (w : World) (outfile : Option (List Char)) (text : List Char) (w' : World) : Prop where
  stdin : w'.stdin = w.stdin
  stdout : w'.stdout = (w.stdout ++ if outfile = none ∨ outfile = some ['-'] then text else [])
  file : ∀ name, outfile = some name → name ≠ ['-'] → w.writable name = true ∧ w'.files name = some (text.map fun c => UInt8.ofNat c.toNat)
  others : ∀ name, outfile ≠ some name ∨ name = ['-'] → w'.files name = w.files name
  writable : w'.writable = w.writable

/-- what can be seen of a run: exit status, standard output and files -/
def outcome (r : Except Bad (Nat × World)) : Except Bad (Nat × List Char × (List Char → Option (List UInt8))) := r.map fun x => (x.1, x.2.stdout, x.2.files)

end H265.Spec
