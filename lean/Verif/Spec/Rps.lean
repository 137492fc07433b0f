/-
Syntax and semantics of st_ref_pic_set() (clauses 7.3.7 and 7.4.8).
-/
import Verif.Spec.Bits

namespace H265
open Spec

/-- One entry of the vectors delta_poc_s0_minus1 / used_by_curr_pic_s0_flag (or _s1_), which are pushed in lockstep. -/
structure RpsEntry where
  delta_poc_minus1 : Nat
  used_by_curr_pic : Nat
  deriving DecidableEq, Repr, Inhabited

/-- One entry of the vectors used_by_curr_pic_flag / use_delta_flag, pushed in lockstep. -/
structure RpsFlags where
  used_by_curr_pic_flag : Nat
  use_delta_flag : Nat
  deriving DecidableEq, Repr, Inhabited

/-- `StRefPicSetState`, include/h265_st_ref_pic_set_parser.h:57-69, without the two input parameters. -/
structure StRefPicSet where
  inter_ref_pic_set_prediction_flag : Nat
  delta_idx_minus1 : Nat
  delta_rps_sign : Nat
  abs_delta_rps_minus1 : Nat
  flags : List RpsFlags
  num_negative_pics : Nat
  num_positive_pics : Nat
  s0 : List RpsEntry
  s1 : List RpsEntry
  deriving DecidableEq, Repr, Inhabited

namespace Spec

/-- delta_poc and used_by_curr_pic of one picture -/
def rpsEntry (e : RpsEntry) : List Bool := seq [ue e.delta_poc_minus1, u 1 e.used_by_curr_pic]

/-- used_by_curr_pic_flag[j] and, if that is 0, use_delta_flag[j] -/
def rpsFlags (f : RpsFlags) : List Bool :=
  seq [u 1 f.used_by_curr_pic_flag, cond (f.used_by_curr_pic_flag = 0) (u 1 f.use_delta_flag)]

/-- st_ref_pic_set( idx ), clause 7.3.7; `num` = num_short_term_ref_pic_sets -/
def stRefPicSet (idx num : Nat) (s : StRefPicSet) : List Bool :=
  seq [cond (idx ≠ 0) (u 1 s.inter_ref_pic_set_prediction_flag),
    if s.inter_ref_pic_set_prediction_flag ≠ 0 then
      seq [cond (idx = num) (ue s.delta_idx_minus1),
        u 1 s.delta_rps_sign,
        ue s.abs_delta_rps_minus1,
        list rpsFlags s.flags]
    else
      seq [ue s.num_negative_pics,
        ue s.num_positive_pics,
        list rpsEntry s.s0,
        list rpsEntry s.s1]]

/-- The value of a 32-bit word read as a signed number. -/
def toInt32 (x : Nat) : Int := if x < 2 ^ 31 then x else (x : Int) - 2 ^ 32

/-- representable in 32 bits -/
def I32 (x : Int) : Prop := -(2 ^ 31) ≤ x ∧ x ≤ 2 ^ 31 - 1

instance (x : Int) : Decidable (I32 x) := by unfold I32; infer_instance

/-- DeltaPocS0 (`sgn = -1`) or DeltaPocS1 (`sgn = 1`): equations 7-65 to 7-70, running sums from `d`. -/
def deltaPocs (sgn : Int) : Int → List RpsEntry → List Int
  | _, [] => []
  | d, e :: l => (d + sgn * (toInt32 e.delta_poc_minus1 + 1)) :: deltaPocs sgn (d + sgn * (toInt32 e.delta_poc_minus1 + 1)) l

/-- deltaRps, equation 7-60 -/
def deltaRps (s : StRefPicSet) : Int := (1 - 2 * (s.delta_rps_sign : Int)) * (s.abs_delta_rps_minus1 + 1)

/-- The candidates of equation 7-61 in the order the standard visits them: the positive pictures of the reference set in
reverse order, the reference picture itself (delta 0), the negative pictures. -/
def candS0 (ref : StRefPicSet) (flags : List RpsFlags) : List (Int × RpsFlags) :=
  ((deltaPocs 1 0 ref.s1).zip (flags.drop ref.s0.length)).reverse ++
    (0, flags.getD (ref.s0.length + ref.s1.length) default) :: (deltaPocs (-1) 0 ref.s0).zip flags

/-- The candidates of equation 7-62: the negative pictures in reverse order, the reference picture, the positive pictures. -/
def candS1 (ref : StRefPicSet) (flags : List RpsFlags) : List (Int × RpsFlags) :=
  ((deltaPocs (-1) 0 ref.s0).zip flags).reverse ++
    (0, flags.getD (ref.s0.length + ref.s1.length) default) :: (deltaPocs 1 0 ref.s1).zip (flags.drop ref.s0.length)

/-- Equation 7-61: delta POC and used flag of the new negative pictures. -/
def derivedS0 (ref s : StRefPicSet) : List (Int × Nat) :=
  ((candS0 ref s.flags).filter fun c => decide (c.1 + deltaRps s < 0) && decide (c.2.use_delta_flag ≠ 0)).map
    fun c => (c.1 + deltaRps s, c.2.used_by_curr_pic_flag)

/-- Equation 7-62: delta POC and used flag of the new positive pictures. -/
def derivedS1 (ref s : StRefPicSet) : List (Int × Nat) :=
  ((candS1 ref s.flags).filter fun c => decide (c.1 + deltaRps s > 0) && decide (c.2.use_delta_flag ≠ 0)).map
    fun c => (c.1 + deltaRps s, c.2.used_by_curr_pic_flag)

/-- delta_poc_minus1 differences of running POCs, stored as 32-bit words -/
def differences (sgn : Int) : Int → List (Int × Nat) → List RpsEntry
  | _, [] => []
  | p, (d, f) :: l => ⟨((sgn * (d - p) - 1) % 2 ^ 32).toNat, f⟩ :: differences sgn d l

/-- All intermediate results of the derivation are representable as 32-bit signed integers. -/
structure DeriveFits (ref s : StRefPicSet) : Prop where
  entries : ∀ e ∈ ref.s0 ++ ref.s1, e.delta_poc_minus1 ≠ 2 ^ 31 - 1
  pocs : ∀ d ∈ deltaPocs (-1) 0 ref.s0 ++ deltaPocs 1 0 ref.s1, I32 d ∧ I32 (d + deltaRps s)
  first : ∀ x, (derivedS0 ref s).head? = some x → x.1 ≠ -(2 ^ 31)

/-- The inter-predicted set `s` is the one derived from `ref` by equations 7-61 and 7-62. -/
structure DerivedFrom (ref s : StRefPicSet) : Prop where
  fits : DeriveFits ref s
  s0 : s.s0 = differences (-1) 0 (derivedS0 ref s)
  s1 : s.s1 = differences 1 0 (derivedS1 ref s)

structure ValidRpsEntry (e : RpsEntry) : Prop where
  delta_poc_minus1 : e.delta_poc_minus1 < 2 ^ 32 - 1
  used_by_curr_pic : e.used_by_curr_pic < 2

structure ValidRpsFlags (f : RpsFlags) : Prop where
  used_by_curr_pic_flag : f.used_by_curr_pic_flag < 2
  use_delta_flag : Opt (f.used_by_curr_pic_flag = 0) (f.use_delta_flag < 2) (f.use_delta_flag = 1)

/-- An inter-predicted set: `prev` = the previous sets, the set is number `idx` of `num`. -/
structure ValidInterRps (idx num : Nat) (prev : List StRefPicSet) (s : StRefPicSet) : Prop where
  inter_ref_pic_set_prediction_flag : s.inter_ref_pic_set_prediction_flag = 1
  delta_idx_minus1 : Opt (idx = num) (s.delta_idx_minus1 < 2 ^ 32 - 1) (s.delta_idx_minus1 = 0)
  delta_idx_range : s.delta_idx_minus1 + 1 ≤ idx
  delta_rps_sign : s.delta_rps_sign < 2
  abs_delta_rps_minus1 : s.abs_delta_rps_minus1 ≤ 32767
  ref_size : (prev.getD (idx - (s.delta_idx_minus1 + 1)) default).s0.length + (prev.getD (idx - (s.delta_idx_minus1 + 1)) default).s1.length < 16
  flags : Each ((prev.getD (idx - (s.delta_idx_minus1 + 1)) default).s0.length + (prev.getD (idx - (s.delta_idx_minus1 + 1)) default).s1.length + 1) ValidRpsFlags s.flags
  derived : DerivedFrom (prev.getD (idx - (s.delta_idx_minus1 + 1)) default) s
  num_negative_pics : s.num_negative_pics = s.s0.length
  num_positive_pics : s.num_positive_pics = s.s1.length

/-- An explicitly coded set of at most `maxNum` pictures. -/
structure ValidExplicitRps (maxNum : Nat) (s : StRefPicSet) : Prop where
  inter_ref_pic_set_prediction_flag : s.inter_ref_pic_set_prediction_flag = 0
  delta_idx_minus1 : s.delta_idx_minus1 = 0
  delta_rps_sign : s.delta_rps_sign = 0
  abs_delta_rps_minus1 : s.abs_delta_rps_minus1 = 0
  flags : s.flags = []
  num_negative_pics : s.num_negative_pics ≤ maxNum
  num_positive_pics : s.num_positive_pics ≤ maxNum - s.num_negative_pics
  s0 : Each s.num_negative_pics ValidRpsEntry s.s0
  s1 : Each s.num_positive_pics ValidRpsEntry s.s1

/-- ranges of st_ref_pic_set( idx ) -/
def ValidStRefPicSet (idx num : Nat) (prev : List StRefPicSet) (maxNum : Nat) (s : StRefPicSet) : Prop :=
  num ≤ 64 ∧ (ValidExplicitRps maxNum s ∨ (idx ≠ 0 ∧ ValidInterRps idx num prev s))

/-- the sets of an SPS: st_ref_pic_set( i ) for i = 0 … num - 1, clause 7.3.2.2 -/
def stRefPicSets (num : Nat) (l : List StRefPicSet) : List Bool := listI (fun i => stRefPicSet i num) 0 l

/-- set number `i` is valid given the sets before it -/
structure ValidStRefPicSets (num maxNum : Nat) (l : List StRefPicSet) : Prop where
  length : l.length = num
  valid : ∀ i s, l[i]? = some s → ValidStRefPicSet i num (l.take i) maxNum s

end Spec
end H265
