/- Model of the two functions that write a checksum as text into a character array, src/h265_common.cc:720-748. -/
import Verif.Model.Dump
import Verif.Model.DumpNal

set_option autoImplicit false

namespace H265

/-- A character array of C++: `none` is a character never written (the array is not initialised).  src/h265_common.cc:721-748. -/
abbrev CharBuf := List (Option Char)

/-- `b[i] = c`, with the (signed) index arithmetic of src/h265_common.cc:727; undefined outside the array -/
def CharBuf.put (b : CharBuf) (i : Int) (c : Char) : Except Bad CharBuf :=
  if 0 ≤ i ∧ i < b.length then .ok (b.set i.toNat (some c)) else .error .oob

/-- The characters of `s` stored from index `i` on, one after the other (the effect of `snprintf`, src/h265_common.cc:730 and 741) -/
def CharBuf.puts (b : CharBuf) (i : Int) : List Char → Except Bad CharBuf
  | [] => .ok b
  | c :: s => (b.put i c).bind fun b => b.puts (i + 1) s

/-- `snprintf(b + i, n, …)` where the formatted text is `s`, src/h265_common.cc:730-731 and 741-742: at most `n - 1` characters of it
and a null character; nothing for `n = 0`.  (The return value is `s.length`.) -/
def CharBuf.snprintf (b : CharBuf) (i : Int) (n : Nat) (s : List Char) : Except Bad CharBuf :=
  if n = 0 then .ok b else b.puts i (s.take (n - 1) ++ ['\x00'])

/-- The loop of `NaluChecksum::fdump`, src/h265_common.cc:724-732: `oi` as in the code, the list is the rest of the checksum.
(`output_len - oi` is at least 3 when it is converted to `size_t`.) -/
def checksumFdumpLoop (output_len : Int) : List UInt8 → Int → CharBuf → Except Bad CharBuf
  | [], _, b => .ok b
  | c :: l, oi, b =>
    if oi + 2 ≥ output_len then b.put (output_len - 1) '\x00'
    else
      let s := putX0 2 c.toNat
      (b.snprintf oi (output_len - oi).toNat s).bind fun b => checksumFdumpLoop output_len l (oi + s.length) b

/-- `NaluChecksum::fdump(char* output, int output_len)`, src/h265_common.cc:721-733: `l` is the checksum (the first `length`
characters of the member), `output` the array of the caller. -/
def checksumFdump (l : List UInt8) (output : CharBuf) (output_len : Int) : Except Bad CharBuf :=
  checksumFdumpLoop output_len l 0 output

/-- The loop of `GetPrintableChecksum`, src/h265_common.cc:740-743; `BUFFER_LEN - oi` is converted to `size_t`.  Also returns `oi`. -/
def printableLoop (len : Nat) : List UInt8 → Nat → CharBuf → Except Bad (CharBuf × Nat)
  | [], oi, b => .ok (b, oi)
  | c :: l, oi, b =>
    let s := putX0 2 c.toNat
    (b.snprintf oi (((len : Int) - oi) % 2 ^ 64).toNat s).bind fun b => printableLoop len l (oi + s.length) b

/-- `std::string(buffer)`, src/h265_common.cc:745: the characters up to the first null character; reading an uninitialised character or past the
end of the array is undefined. -/
def CharBuf.toStdString : CharBuf → Except Bad (List Char)
  | [] => .error .oob
  | none :: _ => .error .oob
  | some c :: b => if c = '\x00' then .ok [] else (CharBuf.toStdString b).map (c :: ·)

/-- `NaluChecksum::GetPrintableChecksum`, src/h265_common.cc:735-746; `BUFFER_LEN` is `2 * kMaxLength + 1 = 65`
(include/h265_common.h:234) -/
def getPrintableChecksum (l : List UInt8) : Except Bad (List Char) :=
  (printableLoop 65 l 0 (List.replicate 65 none)).bind fun (b, oi) =>
    (b.put oi '\x00').bind CharBuf.toStdString

end H265
