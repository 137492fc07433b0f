/-
Model of src/h265_st_ref_pic_set_parser.cc.
-/
import Verif.Model.Common
import Verif.Spec.Rps

namespace H265
open Prog

/-- `static_cast<int32_t>` of a `uint32_t`, src/h265_st_ref_pic_set_parser.cc:51-52, 60, 68 -/
def castI32 (x : Nat) : Int := if x < 2 ^ 31 then x else (x : Int) - 2 ^ 32

/-- The two loops filling ref_delta_poc_s0 / ref_delta_poc_s1, src/h265_st_ref_pic_set_parser.cc:56-71; `n` iterations from
index `i`; `sgn` is -1 for `-=`, 1 for `+=`.  The 16-element arrays are modelled by the list of the elements written. -/
def refDeltas (sgn : Int) (v : List RpsEntry) : Nat → Nat → Int → Prog (List Int)
  | 0, _, _ => ret []
  | n + 1, i, d =>
    if i ≥ 16 then fail
    else (at' v i).bind fun e =>
      (int32 (castI32 e.delta_poc_minus1 + 1)).bind fun c =>
      (int32 (d + sgn * c)).bind fun d' =>
      (refDeltas sgn v n (i + 1) d').bind fun l => ret (d' :: l)

/-- `if (d_poc < 0 && use_delta_flag[k]) { if (i >= 16) return false; delta_poc[i] = d_poc; used[i++] = used_by_curr_pic_flag[k]; }`
(`> 0` for the positive pictures), e.g. src/h265_st_ref_pic_set_parser.cc:77-86, 89-95, 129-135.  `acc` = the elements written so far.
The used flags are 0 or 1, so that their conversion to `uint8_t` does not change them. -/
def pushPoc (neg : Bool) (flags : List RpsFlags) (d : Int) (k : Nat) (acc : List (Int × Nat)) : Prog (List (Int × Nat)) :=
  if (if neg then d < 0 else d > 0) then
    (at' flags k).bind fun f =>
      if f.use_delta_flag ≠ 0 then
        if acc.length ≥ 16 then fail else ret (acc ++ [(d, f.used_by_curr_pic_flag)])
      else ret acc
  else ret acc

/-- `for (j = n - 1; j >= 0; j--) { d_poc = ref_delta_poc[j] + delta_rps; … }`, src/h265_st_ref_pic_set_parser.cc:73-88, 115-128 -/
def pocsDown (neg : Bool) (flags : List RpsFlags) (rps : Int) (ds : List Int) (base : Nat) : Nat → List (Int × Nat) → Prog (List (Int × Nat))
  | 0, acc => ret acc
  | j + 1, acc =>
    (at' ds j).bind fun rd =>
      (int32 (rd + rps)).bind fun d =>
      (pushPoc neg flags d (base + j) acc).bind fun acc => pocsDown neg flags rps ds base j acc

/-- `for (j = 0; j < n; j++) { d_poc = ref_delta_poc[j] + delta_rps; … }`, src/h265_st_ref_pic_set_parser.cc:96-105, 136-148 -/
def pocsUp (neg : Bool) (flags : List RpsFlags) (rps : Int) (ds : List Int) (base : Nat) : Nat → Nat → List (Int × Nat) → Prog (List (Int × Nat))
  | 0, _, acc => ret acc
  | n + 1, j, acc =>
    (at' ds j).bind fun rd =>
      (int32 (rd + rps)).bind fun d =>
      (pushPoc neg flags d (base + j) acc).bind fun acc => pocsUp neg flags rps ds base n (j + 1) acc

/-- The loop computing delta_poc_s0_minus1, src/h265_st_ref_pic_set_parser.cc:107-112, over the array elements `l` with
predecessor `p` (0 for the first) -/
def outS0 : Int → List (Int × Nat) → Prog (List RpsEntry)
  | _, [] => ret []
  | p, (d, f) :: l =>
    (int32 (d - p)).bind fun x =>
      (int32 (-x)).bind fun x =>
      (int32 (x - 1)).bind fun x =>
      (outS0 d l).bind fun es => ret (⟨(x % 2 ^ 32).toNat, f⟩ :: es)

/-- The loop computing delta_poc_s1_minus1, src/h265_st_ref_pic_set_parser.cc:150-155 -/
def outS1 : Int → List (Int × Nat) → Prog (List RpsEntry)
  | _, [] => ret []
  | p, (d, f) :: l =>
    (int32 (d - p)).bind fun x =>
      (int32 (x - 1)).bind fun x =>
      (outS1 d l).bind fun es => ret (⟨(x % 2 ^ 32).toNat, f⟩ :: es)

/-- `DeriveValues`, src/h265_st_ref_pic_set_parser.cc:36-158.  `sign`, `absm1`, `flags` are the members of the new set. -/
def deriveValues (ref : StRefPicSet) (sign absm1 : Nat) (flags : List RpsFlags) : Prog (List RpsEntry × List RpsEntry) := do
  -- delta_rps, lines 51-52; absm1 ≤ 32767, so that nothing overflows
  let rps : Int := (1 - 2 * (sign : Int)) * ((absm1 : Int) + 1)
  let ds0 ← refDeltas (-1) ref.s0 ref.num_negative_pics 0 0
  let ds1 ← refDeltas 1 ref.s1 ref.num_positive_pics 0 0
  let acc ← pocsDown true flags rps ds1 ref.num_negative_pics ref.num_positive_pics []
  let acc ← pushPoc true flags rps (ref.num_negative_pics + ref.num_positive_pics) acc
  let acc ← pocsUp true flags rps ds0 0 ref.num_negative_pics 0 acc
  let s0 ← outS0 0 acc
  let acc ← pocsDown false flags rps ds0 0 ref.num_negative_pics []
  let acc ← pushPoc false flags rps (ref.num_negative_pics + ref.num_positive_pics) acc
  let acc ← pocsUp false flags rps ds1 ref.num_negative_pics ref.num_positive_pics 0 acc
  let s1 ← outS1 0 acc
  return (s0, s1)

/-- loop body, src/h265_st_ref_pic_set_parser.cc:315-327 and 329-341 -/
def parseRpsEntry : Prog RpsEntry := do
  let delta_poc_minus1 ← uev
  let used_by_curr_pic ← u 1
  return { delta_poc_minus1, used_by_curr_pic }

/-- loop body, src/h265_st_ref_pic_set_parser.cc:256-273 -/
def parseRpsFlags : Prog RpsFlags := do
  let used_by_curr_pic_flag ← u 1
  let use_delta_flag ← opt (used_by_curr_pic_flag = 0) (u 1) 1
  return { used_by_curr_pic_flag, use_delta_flag }

/-- The branch with inter_ref_pic_set_prediction_flag set, src/h265_st_ref_pic_set_parser.cc:197-278.  (`stRpsIdx - 1` does not
wrap since the flag is only read for `stRpsIdx != 0`.) -/
def parseInterRps (idx num : Nat) (prev : List StRefPicSet) : Prog StRefPicSet := do
  let delta_idx_minus1 ← opt (idx = num) uev 0
  check (delta_idx_minus1 ≤ idx - 1)
  let delta_rps_sign ← u 1
  let abs_delta_rps_minus1 ← ueRange 0 32767
  let ref ← at' prev (idx - (delta_idx_minus1 + 1))
  check (ref.num_negative_pics + ref.num_positive_pics < 16)
  let flags ← rep (ref.num_negative_pics + ref.num_positive_pics + 1) parseRpsFlags
  let d ← deriveValues ref delta_rps_sign abs_delta_rps_minus1 flags
  return ⟨1, delta_idx_minus1, delta_rps_sign, abs_delta_rps_minus1, flags, d.1.length, d.2.length, d.1, d.2⟩

/-- The other branch, src/h265_st_ref_pic_set_parser.cc:279-342 -/
def parseExplicitRps (maxNum : Nat) : Prog StRefPicSet := do
  let num_negative_pics ← ueRange 0 maxNum
  let num_positive_pics ← ueRange 0 (maxNum - num_negative_pics)
  let s0 ← rep num_negative_pics parseRpsEntry
  let s1 ← rep num_positive_pics parseRpsEntry
  return ⟨0, 0, 0, 0, [], num_negative_pics, num_positive_pics, s0, s1⟩

/-- `ParseStRefPicSet`, src/h265_st_ref_pic_set_parser.cc:160-345 -/
def parseStRefPicSet (idx num : Nat) (prev : List StRefPicSet) (maxNum : Nat) : Prog StRefPicSet := do
  check (num ≤ 64)
  let inter ← opt (idx ≠ 0) (u 1) 0
  if inter ≠ 0 then parseInterRps idx num prev else parseExplicitRps maxNum

/-- The loop over the sets of an SPS, src/h265_sps_parser.cc:438-452: `n` iterations left, `acc` = the vector so far; the loop index
is the size of the vector since every iteration pushes one element. -/
def parseStRefPicSets (num maxNum : Nat) : Nat → List StRefPicSet → Prog (List StRefPicSet)
  | 0, acc => ret acc
  | n + 1, acc => do
    let s ← parseStRefPicSet acc.length num acc maxNum
    parseStRefPicSets num maxNum n (acc ++ [s])

end H265
