/-
Parser programs.

Every parse function of the library is straight-line code with loops over calls of a
`BitBuffer`.  A `Prog α` is such a piece of code: a tree of reader calls, each followed by
what the code does with the returned `bool` + value (`some v` = `true` with value, `none` =
`false`).  `Prog.run` executes the calls on the statement-level reader model of
`Verif/Model/BitBuffer.lean`.  Results: `ret a` = the function returns an object,
`fail` = it returns `nullptr`/`false`, `bad k` = undefined behaviour.
-/
import Verif.Model.BitBuffer

namespace H265

/-- Programs over a `BitBuffer`: one constructor per reader call used by the parsers
(include/rtc_common.h:67-153, src/h265_common.cc:553-564 for `byte_aligned`). -/
inductive Prog (α : Type) : Type where
  | ret (a : α)
  | fail
  | bad (k : Bad)
  /-- `bit_buffer->ReadBits(n, uint32/uint64)`, `w` = width of the out-parameter -/
  | read (w n : Nat) (k : Option Nat → Prog α)
  /-- `bit_buffer->ReadExponentialGolomb` -/
  | ue (k : Option Nat → Prog α)
  /-- `bit_buffer->ReadSignedExponentialGolomb` -/
  | se (k : Option Int → Prog α)
  /-- `bit_buffer->PeekBits(n, uint32)` -/
  | peek (n : Nat) (k : Option Nat → Prog α)
  /-- `bit_buffer->RemainingBitCount()` -/
  | remaining (k : Nat → Prog α)
  /-- `byte_aligned(bit_buffer)` -/
  | aligned (k : Bool → Prog α)

namespace Prog

/-- Sequencing of code.  (Any two statements of a parser, e.g. src/h265_aud_parser.cc:37-41.) -/
def bind {α β : Type} : Prog α → (α → Prog β) → Prog β
  | ret a, f => f a
  | fail, _ => fail
  | bad k, _ => bad k
  | read w n k, f => read w n (fun v => bind (k v) f)
  | ue k, f => ue (fun v => bind (k v) f)
  | se k, f => se (fun v => bind (k v) f)
  | peek n k, f => peek n (fun v => bind (k v) f)
  | remaining k, f => remaining (fun v => bind (k v) f)
  | aligned k, f => aligned (fun v => bind (k v) f)

instance : Monad Prog where
  pure := ret
  bind := bind

/-- Call a sub-parser whose `nullptr` result the caller tolerates: the reader stays where the
sub-parser left it.  E.g. `rbsp_trailing_bits(bit_buffer);` at src/h265_aud_parser.cc:41, the payload parsers called at src/h265_nal_unit_payload_parser.cc:97-147. -/
def attempt {α : Type} : Prog α → Prog (Option α)
  | ret a => ret (some a)
  | fail => ret none
  | bad k => bad k
  | read w n k => read w n (fun v => attempt (k v))
  | ue k => ue (fun v => attempt (k v))
  | se k => se (fun v => attempt (k v))
  | peek n k => peek n (fun v => attempt (k v))
  | remaining k => remaining (fun v => attempt (k v))
  | aligned k => aligned (fun v => attempt (k v))

/-- Execute a program on the reader model.  (The calls go to the reader of src/rtc_common.cc:84-300.) -/
def run {α : Type} : Prog α → BB → Res α
  | ret a, bb => .ok a bb
  | fail, bb => .fail bb
  | bad k, _ => .bad k
  | read w n k, bb =>
    match bb.readBits w n with
    | .ok v bb' => run (k (some v)) bb'
    | .fail bb' => run (k none) bb'
    | .bad e => .bad e
  | ue k, bb =>
    match bb.readUE with
    | .ok v bb' => run (k (some v)) bb'
    | .fail bb' => run (k none) bb'
    | .bad e => .bad e
  | se k, bb =>
    match bb.readSE with
    | .ok v bb' => run (k (some v)) bb'
    | .fail bb' => run (k none) bb'
    | .bad e => .bad e
  | peek n k, bb =>
    match bb.peekBits 32 n with
    | .ok v bb' => run (k (some v)) bb'
    | .fail bb' => run (k none) bb'
    | .bad e => .bad e
  | remaining k, bb => run (k bb.remaining) bb
  | aligned k, bb => run (k (bb.bitOff == 0)) bb

/-- `if (!bit_buffer->ReadBits(n, x)) return nullptr;` with a `uint32_t` target.  E.g. src/h265_aud_parser.cc:37-39. -/
def u (n : Nat) : Prog Nat := read 32 n fun | some v => ret v | none => fail

/-- The same with a `uint64_t` target.  E.g. src/h265_configuration_box_parser.cc:82-85. -/
def u64 (n : Nat) : Prog Nat := read 64 n fun | some v => ret v | none => fail

/-- `if (!bit_buffer->ReadExponentialGolomb(x)) return nullptr;`  E.g. src/h265_vps_parser.cc:228-230. -/
def uev : Prog Nat := ue fun | some v => ret v | none => fail

/-- `if (!bit_buffer->ReadExponentialGolomb(x)) return nullptr; if (x < lo || x > hi) return nullptr;`  E.g. src/h265_sps_parser.cc:87-101. -/
def ueRange (lo hi : Nat) : Prog Nat := uev.bind fun v => if lo ≤ v ∧ v ≤ hi then ret v else fail

/-- `if (!bit_buffer->ReadSignedExponentialGolomb(x)) return nullptr;`  E.g. src/h265_scaling_list_data_parser.cc:93-96. -/
def sev : Prog Int := se fun | some v => ret v | none => fail

/-- `if (!c) return nullptr;`  E.g. src/h265_configuration_box_parser.cc:115-121. -/
def check (c : Prop) [Decidable c] : Prog Unit := if c then ret () else fail

/-- `if (c) { x = p } ` where the field `x` keeps its initial value `d` otherwise.  E.g. src/h265_sps_parser.cc:103-108. -/
def opt {α : Type} (c : Prop) [Decidable c] (p : Prog α) (d : α) : Prog α := if c then p else ret d

/-- `if (c) { x = p }` where `x` is a pointer (or an absent entry) otherwise left empty.  E.g. src/h265_vps_parser.cc:237-242. -/
def maybe {α : Type} (c : Prop) [Decidable c] (p : Prog α) : Prog (Option α) :=
  if c then p.bind (fun a => ret (some a)) else ret none

/-- `for (i = 0; i < n; i++) v.push_back(p);`  E.g. src/h265_vps_parser.cc:150-158. -/
def rep {α : Type} : Nat → Prog α → Prog (List α)
  | 0, _ => ret []
  | n + 1, p => do
    let a ← p
    let l ← rep n p
    return a :: l

/-- `for (i = start; i < start + n; i++) v.push_back(p(i));`  E.g. src/h265_vps_parser.cc:219-243. -/
def repI {α : Type} (start : Nat) : Nat → (Nat → Prog α) → Prog (List α)
  | 0, _ => ret []
  | n + 1, p => do
    let a ← p start
    let l ← repI (start + 1) n p
    return a :: l

/-- Read of element `i` of a `std::vector`; out-of-range is undefined behaviour.  E.g. src/h265_vps_parser.cc:238. -/
def at' {α : Type} (l : List α) (i : Nat) : Prog α :=
  match l[i]? with
  | some a => ret a
  | none => bad .oob

/-- Signed 32-bit arithmetic: the mathematical result must fit in an `int32_t`.  E.g. src/h265_st_ref_pic_set_parser.cc:51-52, 60. -/
def int32 (x : Int) : Prog Int :=
  if -(2 ^ 31) ≤ x ∧ x ≤ 2 ^ 31 - 1 then ret x else bad .signedOverflow

end Prog

/-- Entry points taking `(data, length)` construct a `BitBuffer` on the bytes; its constructor
asserts that the size fits in 32 bits (src/rtc_common.cc:78-82). -/
def Prog.runBytes {α : Type} (p : Prog α) (bytes : List UInt8) : Res α :=
  if bytes.length ≤ 2 ^ 32 - 1 then p.run (BB.init bytes) else .bad .assertion

end H265
