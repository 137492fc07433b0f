/-
What a user expects of the command line: how options can be typed, which numbers are accepted, what the settings are.
-/
import Verif.Model.CommandLine
import Verif.Spec.Tool

set_option autoImplicit false

namespace H265.Spec

/-- The full name of an option. -/
def optionName : OptCode → String
  | .debug => "debug"
  | .infile => "infile"
  | .outfile => "outfile"
  | .quiet => "quiet"
  | .dumpAll => "dump-all"
  | .dumpLength => "dump-length"
  | .asOneLine => "as-one-line"
  | .noAsOneLine => "no-as-one-line"
  | .addOffset => "add-offset"
  | .noAddOffset => "no-add-offset"
  | .addLength => "add-length"
  | .noAddLength => "no-add-length"
  | .addParsedLength => "add-parsed-length"
  | .noAddParsedLength => "no-add-parsed-length"
  | .addChecksum => "add-checksum"
  | .noAddChecksum => "no-add-checksum"
  | .addResolution => "add-resolution"
  | .noAddResolution => "no-add-resolution"
  | .addContents => "add-contents"
  | .noAddContents => "no-add-contents"
  | .hvccFile => "hvcc-file"
  | .naluLengthBytes => "nalu-length-bytes"
  | .framesPerSecond => "frames-per-second"
  | .version => "version"
  | .help => "help"

/-- The letter of an option. -/
def optionLetter : OptCode → Option Char
  | .debug => some 'd'
  | .infile => some 'i'
  | .outfile => some 'o'
  | .help => some 'h'
  | _ => none

/-- The options that have an argument. -/
def hasArgument : OptCode → Bool
  | .infile | .outfile | .hvccFile | .naluLengthBytes | .framesPerSecond => true
  | _ => false

/-- `--name` means this option: it is its full name, or the beginning of its full name and of no other. -/
def Means (name : List Char) (o : OptCode) : Prop :=
  name = (optionName o).toList ∨ (name <+: (optionName o).toList ∧ ∀ o', name <+: (optionName o').toList → o' = o)

/-- The arguments are a correct way to type these options with these arguments (empty for options without argument), in this order. -/
inductive Typed : List (List Char) → List (OptCode × List Char) → Prop
  /-- nothing -/
  | nil : Typed [] []
  /-- after `--` come no more options -/
  | stop (l : List (List Char)) : Typed (['-', '-'] :: l) []
  /-- arguments that are not options are ignored: those that do not begin with a dash, and the dash alone -/
  | other {a : List Char} {l : List (List Char)} {os : List (OptCode × List Char)} (ha : a = ['-'] ∨ a.head? ≠ some '-') (h : Typed l os) : Typed (a :: l) os
  /-- `--add-offset` -/
  | long {name : List Char} {o : OptCode} {l : List (List Char)} {os : List (OptCode × List Char)} (hn : Means name o) (ho : hasArgument o = false)
      (h : Typed l os) : Typed (('-' :: '-' :: name) :: l) ((o, []) :: os)
  /-- `--infile v` -/
  | longNext {name v : List Char} {o : OptCode} {l : List (List Char)} {os : List (OptCode × List Char)} (hn : Means name o) (ho : hasArgument o = true)
      (h : Typed l os) : Typed (('-' :: '-' :: name) :: v :: l) ((o, v) :: os)
  /-- `--infile=v` -/
  | longEq {name v : List Char} {o : OptCode} {l : List (List Char)} {os : List (OptCode × List Char)} (hn : Means name o) (ho : hasArgument o = true)
      (h : Typed l os) : Typed (('-' :: '-' :: (name ++ '=' :: v)) :: l) ((o, v) :: os)
  /-- `-d` -/
  | short {c : Char} {o : OptCode} {l : List (List Char)} {os : List (OptCode × List Char)} (hc : optionLetter o = some c) (ho : hasArgument o = false)
      (h : Typed l os) : Typed (['-', c] :: l) ((o, []) :: os)
  /-- `-dd`, the same as `-d -d` -/
  | group {c c' : Char} {cs : List Char} {o : OptCode} {l : List (List Char)} {os : List (OptCode × List Char)} (hc : optionLetter o = some c)
      (ho : hasArgument o = false) (hd : c' ≠ '-') (h : Typed (('-' :: c' :: cs) :: l) os) : Typed (('-' :: c :: c' :: cs) :: l) ((o, []) :: os)
  /-- `-i v` -/
  | shortNext {c : Char} {v : List Char} {o : OptCode} {l : List (List Char)} {os : List (OptCode × List Char)} (hc : optionLetter o = some c)
      (ho : hasArgument o = true) (h : Typed l os) : Typed (['-', c] :: v :: l) ((o, v) :: os)
  /-- `-iv` -/
  | shortArg {c : Char} {v : List Char} {o : OptCode} {l : List (List Char)} {os : List (OptCode × List Char)} (hc : optionLetter o = some c)
      (ho : hasArgument o = true) (hv : v ≠ []) (h : Typed l os) : Typed (('-' :: c :: v) :: l) ((o, v) :: os)

/-- white space of the C language -/
def whiteSpace : List Char := [' ', '\t', '\n', '\x0b', '\x0c', '\r']

/-- the decimal digits -/
def digits : List Char := ['0', '1', '2', '3', '4', '5', '6', '7', '8', '9']

/-- the number written with these digits -/
def decimalValue : List Char → Nat
  | [] => 0
  | c :: cs => (digits.idxOf c) * 10 ^ cs.length + decimalValue cs

/-- The texts the program takes for the number `n`: white space, a sign, digits; the minus sign only before zeros.  The empty text is taken for zero. -/
def NumberText (s : List Char) (n : Nat) : Prop :=
  (s = [] ∧ n = 0) ∨
  ∃ ws sign ds : List Char, s = ws ++ sign ++ ds ∧ (∀ c ∈ ws, c ∈ whiteSpace) ∧ (sign = [] ∨ sign = ['+'] ∨ (sign = ['-'] ∧ n = 0)) ∧
    ds ≠ [] ∧ (∀ c ∈ ds, c ∈ digits) ∧ decimalValue ds = n

/-- a number option with an argument that is not a number below 2³¹ -/
def BadArgument (x : OptCode × List Char) : Prop :=
  (x.1 = .naluLengthBytes ∨ x.1 = .framesPerSecond) ∧ ∀ n, n < 2 ^ 31 → ¬ NumberText x.2 n

/-- the argument of this option -/
def argOf (o : OptCode) (x : OptCode × List Char) : Option (List Char) := if x.1 = o then some x.2 else none

/-- what an option says about a flag with these two names -/
def flagOf (on off : OptCode) (x : OptCode × List Char) : Option Bool := if x.1 = on then some true else if x.1 = off then some false else none

/-- an option after which the program ends -/
def EndsProgram (x : OptCode × List Char) : Prop := x.1 = .help ∨ x.1 = .version ∨ BadArgument x

/-- what `--version` writes -/
def versionText (version : List Char) : List Char := "version: ".toList ++ version ++ ['\n']

/-- the number of `--debug` after the last `--quiet` -/
def verbosity (os : List (OptCode × List Char)) : Nat := (os.reverse.takeWhile fun x => x.1 ≠ .quiet).countP fun x => x.1 = .debug

/-- `s` are the settings these options make: the last option counts; `--debug` counts from the last `--quiet` on. -/
structure SettingsOf (os : List (OptCode × List Char)) (s : Settings) : Prop where
  infile : s.infile = lastOf (fun x => (argOf .infile x).map some) none os
  outfile : s.outfile = lastOf (fun x => (argOf .outfile x).map some) none os
  hvcc_file : s.hvcc_file = lastOf (fun x => (argOf .hvccFile x).map some) none os
  debug : s.debug = verbosity os
  dump_length : s.opts.dump_length = lastOf (flagOf .dumpLength .dumpAll) false os
  as_one_line : s.opts.as_one_line = lastOf (flagOf .asOneLine .noAsOneLine) true os
  add_offset : s.opts.add_offset = lastOf (flagOf .addOffset .noAddOffset) false os
  add_length : s.opts.add_length = lastOf (flagOf .addLength .noAddLength) false os
  add_parsed_length : s.opts.add_parsed_length = lastOf (flagOf .addParsedLength .noAddParsedLength) false os
  add_checksum : s.opts.add_checksum = lastOf (flagOf .addChecksum .noAddChecksum) false os
  add_resolution : s.opts.add_resolution = lastOf (flagOf .addResolution .noAddResolution) false os
  add_contents : s.opts.add_contents = lastOf (flagOf .addContents .noAddContents) false os
  nalu_length_bytes : match lastOf (fun x => (argOf .naluLengthBytes x).map some) none os with
    | none => s.opts.nalu_length_bytes = -1
    | some t => ∃ n : Nat, NumberText t n ∧ s.opts.nalu_length_bytes = n
  frames_per_second : match lastOf (fun x => (argOf .framesPerSecond x).map some) none os with
    | none => s.opts.frames_per_second = 30
    | some t => ∃ n : Nat, NumberText t n ∧ s.opts.frames_per_second = n

end H265.Spec
