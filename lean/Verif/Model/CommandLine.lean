/-
Model of the command line tool from the arguments as typed to the files written: tools/h265nal.cc and `H265Utils::ReadFile`.

External functions, modelled after their documentation: `getopt_long` (glibc, POSIXLY_CORRECT not set: arguments that are not options are skipped, long
options may be shortened), `strtol` (in the "C" locale, 64-bit `long`), `fopen`/`fread`/`fseek`/`ftell` on regular files that do not change while the program
runs, `std::cin.read`.  Not modelled: messages to stderr (among them the text of `usage`), failing writes, and `SMALL_FOOTPRINT`.
-/
import Verif.Model.Tool

set_option autoImplicit false

namespace H265

/-- The options of the program: the last members of `longopts`, tools/h265nal.cc:168-196, named as in the `switch` of lines 201-334. -/
inductive OptCode where
  | debug | infile | outfile | quiet | dumpAll | dumpLength | asOneLine | noAsOneLine | addOffset | noAddOffset | addLength | noAddLength
  | addParsedLength | noAddParsedLength | addChecksum | noAddChecksum | addResolution | noAddResolution | addContents | noAddContents
  | hvccFile | naluLengthBytes | framesPerSecond | version | help
  deriving DecidableEq

/-- `longopts`, tools/h265nal.cc:168-196: name, whether it has an argument (`required_argument`), the value returned; all the `flag`s are NULL -/
def longopts : List (String × Bool × OptCode) := [
  ("debug", false, .debug),
  ("infile", true, .infile),
  ("outfile", true, .outfile),
  ("quiet", false, .quiet),
  ("dump-all", false, .dumpAll),
  ("dump-length", false, .dumpLength),
  ("as-one-line", false, .asOneLine),
  ("no-as-one-line", false, .noAsOneLine),
  ("add-offset", false, .addOffset),
  ("no-add-offset", false, .noAddOffset),
  ("add-length", false, .addLength),
  ("no-add-length", false, .noAddLength),
  ("add-parsed-length", false, .addParsedLength),
  ("no-add-parsed-length", false, .noAddParsedLength),
  ("add-checksum", false, .addChecksum),
  ("no-add-checksum", false, .noAddChecksum),
  ("add-resolution", false, .addResolution),
  ("no-add-resolution", false, .noAddResolution),
  ("add-contents", false, .addContents),
  ("no-add-contents", false, .noAddContents),
  ("hvcc-file", true, .hvccFile),
  ("nalu-length-bytes", true, .naluLengthBytes),
  ("frames-per-second", true, .framesPerSecond),
  ("version", false, .version),
  ("help", false, .help)]

/-- the short options `"di:o:h"`, tools/h265nal.cc:199, and the cases they lead to (lines 213, 221, 225, 325) -/
def shortopt (c : Char) : Option (Bool × OptCode) :=
  if c = 'd' then some (false, .debug)
  else if c = 'i' then some (true, .infile)
  else if c = 'o' then some (true, .outfile)
  else if c = 'h' then some (false, .help)
  else none

/-- a return value of `getopt_long` (other than -1), called in tools/h265nal.cc:199: an option with `optarg` (empty for options without argument), or `'?'` -/
inductive GetoptEvent where
  | opt (o : OptCode) (arg : List Char)
  | unknown
  deriving DecidableEq

/-- `getopt_long`, the name of a long option (external, called in tools/h265nal.cc:199): the option of this name; failing that, the only one whose name begins like this -/
def findLong (name : List Char) : Option (Bool × OptCode) :=
  match longopts.find? (fun e => e.1.toList == name) with
  | some e => some e.2
  | none =>
    match longopts.filter (fun e => name.isPrefixOf e.1.toList) with
    | [e] => some e.2
    | _ => none

/-- the long option `--name` or `--name=value`: the part before the first `=`, and the part after it if there is one.
`getopt_long` (external, called in tools/h265nal.cc:199) -/
def splitLong : List Char → List Char × Option (List Char)
  | [] => ([], none)
  | c :: cs => if c = '=' then ([], some cs) else ((c :: (splitLong cs).1), (splitLong cs).2)

/-- A group of short options `-ddifile`, after the dash: the options, and the option at its end that still needs the next argument, if any; `unknown`
ends the list.  `getopt_long` (external, called in tools/h265nal.cc:199) -/
def shortGroup : List Char → List GetoptEvent × Option OptCode
  | [] => ([], none)
  | c :: cs =>
    match shortopt c with
    | none => ([.unknown], none)
    | some (false, o) => (.opt o [] :: (shortGroup cs).1, (shortGroup cs).2)
    | some (true, o) => if cs = [] then ([], some o) else ([.opt o cs], none)

/-- The values `getopt_long` (external, called in tools/h265nal.cc:199) returns one after the other for these arguments, up to -1.  After an `unknown` the
program does not call it again. -/
def getoptLong : List (List Char) → List GetoptEvent
  | [] => []
  | a :: l =>
    match a with
    | ['-', '-'] => []
    | '-' :: '-' :: cs =>
      match findLong (splitLong cs).1 with
      | none => [.unknown]
      | some (false, o) =>
        match (splitLong cs).2 with
        | some _ => [.unknown]
        | none => .opt o [] :: getoptLong l
      | some (true, o) =>
        match (splitLong cs).2 with
        | some v => .opt o v :: getoptLong l
        | none =>
          match l with
          | [] => [.unknown]
          | v :: l' => .opt o v :: getoptLong l'
    | '-' :: c :: cs =>
      match shortGroup (c :: cs) with
      | (es, none) => es ++ getoptLong l
      | (es, some o) =>
        match l with
        | [] => es ++ [.unknown]
        | v :: l' => es ++ .opt o v :: getoptLong l'
    | _ => getoptLong l

/-- `isspace` in the "C" locale, used by `strtol` (external, called in tools/h265nal.cc:301, 312) -/
def isSpace (c : Char) : Bool := c == ' ' || (9 ≤ c.toNat && c.toNat ≤ 13)

/-- a decimal digit, used by `strtol` (external, called in tools/h265nal.cc:301, 312) -/
def isDigit10 (c : Char) : Bool := 48 ≤ c.toNat && c.toNat ≤ 57

/-- the value of a row of digits, used by `strtol` (external, called in tools/h265nal.cc:301, 312) -/
def digitsValue (ds : List Char) : Nat := ds.foldl (fun n c => n * 10 + (c.toNat - 48)) 0

/-- `strtol(s, &end, 10)` (external, called in tools/h265nal.cc:301, 312): value, rest of the text at `end`, and whether `errno` is set (`ERANGE`).
Without any digit `end` is the beginning of the text. -/
def strtol (s : List Char) : Int × List Char × Bool :=
  let t := s.dropWhile isSpace
  let neg := t.head? == some '-'
  let u := if t.head? == some '-' || t.head? == some '+' then t.drop 1 else t
  let ds := u.takeWhile isDigit10
  if ds = [] then (0, s, false)
  else
    let v : Int := if neg then - (digitsValue ds : Int) else digitsValue ds
    if v < -2 ^ 63 then (-2 ^ 63, u.drop ds.length, true)
    else if v > 2 ^ 63 - 1 then (2 ^ 63 - 1, u.drop ds.length, true)
    else (v, u.drop ds.length, false)

/-- The number of an argument as used by `toolNumber`: tools/h265nal.cc:298-302, 309-313, `errno != 0 || *end != '\0'`. -/
def argNumber (s : List Char) : Option Int :=
  let (v, rest, err) := strtol s
  if err = true ∨ rest ≠ [] then none else some v

/-- all of `arg_options`, tools/h265nal.cc:42-57, with the defaults of lines 60-75; `debug` is a signed int, here without its bound (2³¹ times `-d`) -/
structure Settings where
  debug : Nat := 0
  opts : ToolOptions := {}
  hvcc_file : Option (List Char) := none
  infile : Option (List Char) := none
  outfile : Option (List Char) := none
  deriving DecidableEq

/-- what becomes of the program after an option: it goes on, or it ends with an exit status after writing to stdout. -/
inductive ArgsResult where
  | go (s : Settings)
  | exit (status : Nat) (out : List Char)
  deriving DecidableEq

/-- the body of the loop of `parse_args`, tools/h265nal.cc:200-334.  `exit(-1)` (in `usage`, line 134) is status 255; a number that is not accepted makes
`parse_args` return -1, after which `main` calls `usage` (lines 353-356).  `version` is `PROJECT_VERSION`, set by the build. -/
def argStep (version : List Char) (s : Settings) : GetoptEvent → ArgsResult
  | .unknown => .exit 255 []
  | .opt o arg =>
    let flag (a : ToolArg) : ArgsResult :=
      match toolArg s.opts a with
      | none => .exit 255 []
      | some p => .go { s with opts := p }
    match o with
    | .debug => .go { s with debug := s.debug + 1 }
    | .quiet => .go { s with debug := 0 }
    | .infile => .go { s with infile := some arg }
    | .outfile => .go { s with outfile := some arg }
    | .dumpAll => flag .dumpAll
    | .dumpLength => flag .dumpLength
    | .asOneLine => flag (.asOneLine true)
    | .noAsOneLine => flag (.asOneLine false)
    | .addOffset => flag (.addOffset true)
    | .noAddOffset => flag (.addOffset false)
    | .addLength => flag (.addLength true)
    | .noAddLength => flag (.addLength false)
    | .addParsedLength => flag (.addParsedLength true)
    | .noAddParsedLength => flag (.addParsedLength false)
    | .addChecksum => flag (.addChecksum true)
    | .noAddChecksum => flag (.addChecksum false)
    | .addResolution => flag (.addResolution true)
    | .noAddResolution => flag (.addResolution false)
    | .addContents => flag (.addContents true)
    | .noAddContents => flag (.addContents false)
    | .hvccFile => .go { s with hvcc_file := some arg }
    | .naluLengthBytes => flag (.naluLengthBytes (argNumber arg))
    | .framesPerSecond => flag (.framesPerSecond (argNumber arg))
    | .version => .exit 0 ("version: ".toList ++ version ++ ['\n'])
    | .help => .exit 255 []

/-- the loop of `parse_args` and the check after it, tools/h265nal.cc:198-340 -/
def argLoop (version : List Char) (s : Settings) : List GetoptEvent → ArgsResult
  | [] => if s.infile = none ∧ s.hvcc_file = none then .exit 255 [] else .go s
  | e :: l =>
    match argStep version s e with
    | .exit c t => .exit c t
    | .go s' => argLoop version s' l

/-- `parse_args`, tools/h265nal.cc:158-343, and its call in `main`, lines 350-356; `args` are the arguments after the name of the program -/
def parseArgs (version : List Char) (args : List (List Char)) : ArgsResult := argLoop version {} (getoptLong args)

/-- What the program finds and leaves behind: the bytes not yet read from stdin, the text written to stdout, the files that can be read, and the names that
can be opened for writing. -/
structure World where
  stdin : List UInt8
  stdout : List Char
  files : List Char → Option (List UInt8)
  writable : List Char → Bool

/-- `ReadStdinToBuffer`, src/h265_utils.cc:23-33: chunks of 4096 bytes until `cin.read` gets none; at most `fuel` rounds -/
def readStdinLoop : Nat → List UInt8 → List UInt8 → List UInt8 × List UInt8
  | 0, stdin, buffer => (buffer, stdin)
  | fuel + 1, stdin, buffer =>
    let temp := stdin.take 4096
    if temp.length = 0 then (buffer, stdin) else readStdinLoop fuel (stdin.drop 4096) (buffer ++ temp)

/-- `H265Utils::ReadFile`, src/h265_utils.cc:136-173, into an empty buffer (`filename` is never NULL in `main`): the bytes, `none` for -1, and the bytes left
on stdin.  An empty file is an error, an empty stdin is not. -/
def readFile (w : World) (name : List Char) : Option (List UInt8) × World :=
  if name = ['-'] then
    let (buffer, rest) := readStdinLoop (w.stdin.length + 1) w.stdin []
    (some buffer, { w with stdin := rest })
  else
    match w.files name with
    | none => (none, w)
    | some data => if data.length = 0 then (none, w) else (some data, w)

/-- the input of `toolMain` for a file name option, tools/h265nal.cc:398-403, 424-428 -/
def readInput (w : World) (name : Option (List Char)) : ToolInput × World :=
  match name with
  | none => (.absent, w)
  | some n =>
    match readFile w n with
    | (none, w') => (.unreadable, w')
    | (some d, w') => (.bytes d, w')

/-- the debug messages of `main`, tools/h265nal.cc:358-373 (without `SMALL_FOOTPRINT`) -/
def debugText (s : Settings) : List Char :=
  if s.debug > 1 then
    "h265nal: original version\n".toList ++
    ("options.debug = ".toList ++ putU s.debug ++ "\n".toList) ++
    ("options.infile = ".toList ++ s.infile.getD "null".toList ++ "\n".toList) ++
    ("options.outfile = ".toList ++ s.outfile.getD "null".toList ++ "\n".toList)
  else []

/-- the bytes of a text written with `fprintf`, tools/h265nal.cc:466 etc.: all of it is ASCII -/
def textBytes (t : List Char) : List UInt8 := t.map fun c => UInt8.ofNat c.toNat

/-- step 4.1 of `main`, tools/h265nal.cc:445-460: whether the output can be opened -/
def canOpen (w : World) (outfile : Option (List Char)) : Bool :=
  match outfile with
  | none => true
  | some name => name == ['-'] || w.writable name

/-- the text written to stdout or to a file opened with "wb", tools/h265nal.cc:445-558 -/
def writeOutput (w : World) (outfile : Option (List Char)) (t : List Char) : World :=
  match outfile with
  | none => { w with stdout := w.stdout ++ t }
  | some name =>
    if name = ['-'] then { w with stdout := w.stdout ++ t }
    else { w with files := fun n => if n = name then some (textBytes t) else w.files n }

/-- step 3 of `main` alone, tools/h265nal.cc:421-440: whether parsing the stream is undefined -/
def toolParses (o : ToolOptions) (st : ParserState) (infile : ToolInput) : Except Bad Unit :=
  match infile with
  | .bytes data =>
    match (if o.nalu_length_bytes < 0 then parseBitstreamObject o.parsing st data else parseNaluLengthObject o.parsing o.nalu_length_bytes.toNat st data) with
    | .error k => .error k
    | .ok _ => .ok ()
  | _ => .ok ()

/-- steps 3 and 4 of `main`, tools/h265nal.cc:421-562, with the configuration box `hvcc`, which left the state `st` -/
def toolRest (s : Settings) (w : World) (hvcc : ToolInput) (st : ParserState) : Except Bad (Nat × World) :=
  match readInput w s.infile with
  | (.unreadable, w') => .ok (255, w')
  | (infile, w') =>
    match toolParses s.opts.effective st infile with
    | .error k => .error k
    | .ok () =>
      if canOpen w' s.outfile then
        match toolMain s.opts hvcc infile with
        | .error k => .error k
        | .ok none => .ok (255, w')
        | .ok (some t) => .ok (0, writeOutput w' s.outfile t)
      else .ok (255, w')

/-- `main`, tools/h265nal.cc:349-562: exit status and the world after it; an error is undefined behaviour (a crash, which can leave part of the output
written).  The hvcC file is read and parsed before the stream is read; if it cannot be, the stream is not read.  The box and the stream are parsed once in the
program; the model parses them again inside `toolMain`, which also makes the text. -/
def toolProgram (version : List Char) (w : World) (args : List (List Char)) : Except Bad (Nat × World) :=
  match parseArgs version args with
  | .exit c t => .ok (c, { w with stdout := w.stdout ++ t })
  | .go s =>
    match readInput { w with stdout := w.stdout ++ debugText s } s.hvcc_file with
    | (.absent, w') => toolRest s w' .absent .empty
    | (.unreadable, w') => .ok (255, w')
    | (.bytes data, w') =>
      match parseConfigurationBoxBytes s.opts.effective.add_checksum .empty data with
      | .bad k => .error k
      | .fail _ => .ok (255, w')
      | .ok (none, _) _ => .ok (255, w')
      | .ok (some _, st) _ => toolRest s w' (.bytes data) st

end H265
