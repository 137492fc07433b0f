import Verif.Model.Slice
import Verif.Proof.Pwt
import Verif.Proof.Pps
import Verif.Proof.Sps

namespace H265
open Spec
codec_opaque

variable {H : Cond} {A : Bad → Prop}

theorem clog2From_pos {x : Nat} (hx : 1 < x) : ∀ (fuel k : Nat), 0 < fuel ∨ 0 < k → 0 < clog2From x fuel k := by
  intro fuel
  induction fuel with
  | zero => intro k h; simp only [clog2From]; omega
  | succ fuel ih =>
    intro k h
    unfold clog2From
    split
    · rename_i hk
      rcases Nat.eq_zero_or_pos k with rfl | h
      · simp at hk; omega
      · exact h
    · exact ih (k + 1) (by omega)

theorem clog2From_le {x m : Nat} (hm : x ≤ 2 ^ m) : ∀ (fuel k : Nat), k ≤ m → clog2From x fuel k ≤ m := by
  intro fuel
  induction fuel with
  | zero => intro k h; exact h
  | succ fuel ih =>
    intro k h
    unfold clog2From
    split
    · exact h
    · rename_i hk
      refine ih (k + 1) ?_
      rcases Nat.lt_or_ge k m with h' | h'
      · omega
      · exact absurd (Nat.le_trans hm (Nat.pow_le_pow_right (by decide) h')) hk

theorem ceilLog2f_pos {x : Nat} (h1 : 1 < x) (h2 : x ≤ 64) : 0 < ceilLog2f x := by
  unfold ceilLog2f
  rw [if_pos (by omega)]
  exact clog2From_pos h1 _ _ (by omega)

theorem ceilLog2f_le {x : Nat} (h2 : x ≤ 64) : ceilLog2f x ≤ 32 := by
  unfold ceilLog2f
  rw [if_pos (by omega)]
  exact clog2From_le (m := 32) (by omega) _ _ (by omega)

macro_rules | `(tactic| codec) => `(tactic| exact u_codec (ceilLog2f_pos (by omega) (by omega)) (ceilLog2f_le (by omega)))

theorem parseLtRefPicHead_codec [CondOk H] {numSps numLtSps pocLen i : Nat} (hn : numLtSps ≤ 32) (hl : 0 < pocLen ∧ pocLen ≤ 32) :
    Codec H A (parseLtRefPicHead numSps numLtSps pocLen i) (Spec.ltRefPicHead numSps numLtSps pocLen i) (ValidLtRefPicHead numSps numLtSps pocLen i) where
  sound := by
    unfold parseLtRefPicHead; snd_all
    refine Snd.pure ⟨?_, ?_⟩
    · simp [Spec.ltRefPicHead, Spec.seq]
    · constructor <;> assumption
  complete := by
    rintro ⟨⟩ ⟨⟩
    simp only at *
    unfold parseLtRefPicHead
    simp only [Spec.ltRefPicHead, Spec.seq, List.flatten_cons, List.flatten_nil]
    cmp_all
    exact Cmp.pure

macro_rules | `(tactic| codec) => `(tactic| exact parseLtRefPicHead_codec (by assumption) (by omega))

theorem parseLtRefPic_codec [CondOk H] {numSps numLtSps pocLen i : Nat} (hn : numLtSps ≤ 32) (hl : 0 < pocLen ∧ pocLen ≤ 32) :
    Codec H A (parseLtRefPic numSps numLtSps pocLen i) (Spec.ltRefPic numSps numLtSps pocLen i) (ValidLtRefPic numSps numLtSps pocLen i) where
  sound := by
    unfold parseLtRefPic; snd_all
    refine Snd.pure ⟨?_, ?_⟩
    · simp [Spec.ltRefPic, Spec.seq]
    · constructor <;> assumption
  complete := by
    rintro ⟨⟩ ⟨⟩
    simp only at *
    unfold parseLtRefPic
    simp only [Spec.ltRefPic, Spec.seq, List.flatten_cons, List.flatten_nil]
    cmp_all
    exact Cmp.pure

macro_rules | `(tactic| codec) => `(tactic| exact parseLtRefPic_codec (by assumption) (by omega))

theorem encLtHead_pos {numSps numLtSps pocLen i : Nat} (s : LtRefPicHead) : 0 < (Spec.ltRefPicHead numSps numLtSps pocLen i s).length := by
  unfold Spec.ltRefPicHead Spec.seq
  simp only [List.flatten_cons, List.length_append, List.flatten_nil, Spec.u_length]
  omega

/-- an entry takes at least one bit -/
theorem parseLtRefPicHead_step {numSps numLtSps pocLen i : Nat} (hn : numLtSps ≤ 32) (hl : 0 < pocLen ∧ pocLen ≤ 32) (r : List Bool) :
    match (parseLtRefPicHead numSps numLtSps pocLen i).denote r with
    | .ok _ r' => r'.length < r.length
    | .fail _ => True
    | .bad _ => False := by
  have h := (parseLtRefPicHead_codec (H := Cond.any) (A := fun _ => False) (numSps := numSps) (i := i) hn hl).sound r
  revert h
  cases (parseLtRefPicHead numSps numLtSps pocLen i).denote r with
  | fail r' => intros; trivial
  | bad k => exact fun h => h
  | ok a r' =>
    rintro ⟨w, hw, _, rfl, _⟩
    simp only
    rw [hw trivial, List.length_append]
    have := encLtHead_pos (numSps := numSps) (numLtSps := numLtSps) (pocLen := pocLen) (i := i) a
    omega

theorem optUev_denote (c : Prop) [Decidable c] (r : List Bool) :
    match (Prog.opt c Prog.uev 0).denote r with
    | .ok _ r' => r'.length ≤ r.length
    | .fail _ => True
    | .bad _ => False := by
  have h := (opt_codec (H := Cond.any) (A := fun _ => False) (c := c) (d := 0) (fun _ => uev_codec)).sound r
  revert h
  cases (Prog.opt c Prog.uev 0).denote r with
  | fail r' => intros; trivial
  | bad k => exact fun h => h
  | ok a r' =>
    rintro ⟨w, hw, _⟩
    simp only
    rw [hw trivial, List.length_append]; omega

/-- below 2^32 entries the loop does what it looks like -/
theorem ltLoop_eq {numSps numPics numLtSps pocLen : Nat} (hn : numLtSps ≤ 32) (hl : 0 < pocLen ∧ pocLen ≤ 32) (hc : numSps + numPics < 2 ^ 32) :
    ∀ (fuel i : Nat) (acc : List LtRefPic) (r : List Bool), r.length < fuel → acc.length = i → i ≤ numSps + numPics →
    (ltLoop numSps numPics numLtSps pocLen fuel i acc).denote r =
      ((Prog.repI i (numSps + numPics - i) (parseLtRefPic numSps numLtSps pocLen)).bind fun l => Prog.ret (acc ++ l)).denote r := by
  intro fuel
  induction fuel with
  | zero => intro i acc r h; omega
  | succ fuel ih =>
    intro i acc r hr ha hi
    unfold ltLoop
    by_cases hlt : i < numSps + numPics
    · rw [if_pos hlt]
      obtain ⟨m, hm⟩ : ∃ m, numSps + numPics - i = m + 1 := ⟨numSps + numPics - i - 1, by omega⟩
      rw [hm]
      unfold Prog.repI
      rw [show parseLtRefPic numSps numLtSps pocLen i = ((parseLtRefPicHead numSps numLtSps pocLen i).bind fun h =>
        (Prog.opt (h.delta_poc_msb_present_flag ≠ 0) Prog.uev 0).bind fun c => Prog.ret ⟨h, c⟩) from rfl]
      simp only [← Prog.bind_def]
      rw [Prog.denote_bind, Prog.denote_bind, Prog.denote_bind, Prog.denote_bind]
      have hs := parseLtRefPicHead_step (numSps := numSps) (i := i) hn hl r
      revert hs
      cases (parseLtRefPicHead numSps numLtSps pocLen i).denote r with
      | fail r' => intros; rfl
      | bad k => exact fun h => h.elim
      | ok h r1 =>
        intro hlen
        simp only [ARes.ok_bind]
        have hat : Prog.at' (acc.map (·.head.delta_poc_msb_present_flag) ++ [h.delta_poc_msb_present_flag]) i = Prog.ret h.delta_poc_msb_present_flag := by
          rw [at_eq (by simp; omega)]
          congr 1
          rw [List.getElem_append_right (by simp; omega)]
          simp
        rw [hat, Prog.denote_bind, Prog.denote_ret, ARes.ok_bind, Prog.denote_bind, Prog.denote_bind]
        have ho := optUev_denote (h.delta_poc_msb_present_flag ≠ 0) r1
        revert ho
        cases (Prog.opt (h.delta_poc_msb_present_flag ≠ 0) Prog.uev 0).denote r1 with
        | fail r' => intros; rfl
        | bad k => exact fun h => h.elim
        | ok c r2 =>
          intro hlen2
          simp only at hlen hlen2
          simp only [ARes.ok_bind, Prog.denote_pure]
          rw [Nat.mod_eq_of_lt (by omega), ih (i + 1) (acc ++ [(⟨h, c⟩ : LtRefPic)]) r2 (by omega) (by simp [ha]) (by omega)]
          rw [show numSps + numPics - (i + 1) = m by omega, ← Prog.bind_def, Prog.denote_bind, Prog.denote_ret, ARes.ok_bind, Prog.denote_bind]
          cases (Prog.repI (i + 1) m (parseLtRefPic numSps numLtSps pocLen)).denote r2 with
          | fail r' => rfl
          | bad k => rfl
          | ok l r3 =>
            simp only [ARes.ok_bind, Prog.denote_pure, Prog.denote_ret, List.append_assoc, List.singleton_append]
    · rw [if_neg hlt, show numSps + numPics - i = 0 by omega]
      simp only [Prog.repI, Prog.ret_bind, List.append_nil]

/-- from 2^32 entries on the index wraps and the loop only ends when the bits run out -/
theorem ltLoop_never {numSps numPics numLtSps pocLen : Nat} (hn : numLtSps ≤ 32) (hl : 0 < pocLen ∧ pocLen ≤ 32) (hc : 2 ^ 32 ≤ numSps + numPics) :
    ∀ (fuel i : Nat) (acc : List LtRefPic) (r : List Bool), r.length < fuel → i ≤ acc.length → i < 2 ^ 32 →
    ∃ r', (ltLoop numSps numPics numLtSps pocLen fuel i acc).denote r = .fail r' := by
  intro fuel
  induction fuel with
  | zero => intro i acc r h; omega
  | succ fuel ih =>
    intro i acc r hr ha hi
    unfold ltLoop
    rw [if_pos (by omega)]
    simp only [← Prog.bind_def]
    rw [Prog.denote_bind]
    have hs := parseLtRefPicHead_step (numSps := numSps) (i := i) hn hl r
    revert hs
    cases (parseLtRefPicHead numSps numLtSps pocLen i).denote r with
    | fail r' => intros; exact ⟨r', rfl⟩
    | bad k => exact fun h => h.elim
    | ok h r1 =>
      intro hlen
      simp only [ARes.ok_bind]
      have hia : i < (acc.map (·.head.delta_poc_msb_present_flag) ++ [h.delta_poc_msb_present_flag]).length := by simp; omega
      rw [at_eq hia, Prog.denote_bind, Prog.denote_ret, ARes.ok_bind, Prog.denote_bind]
      generalize (acc.map (·.head.delta_poc_msb_present_flag) ++ [h.delta_poc_msb_present_flag])[i] = f
      have ho := optUev_denote (f ≠ 0) r1
      revert ho
      cases (Prog.opt (f ≠ 0) Prog.uev 0).denote r1 with
      | fail r' => intros; exact ⟨r', rfl⟩
      | bad k => exact fun h => h.elim
      | ok c r2 =>
        intro hlen2
        simp only at hlen hlen2
        rw [ARes.ok_bind]
        refine ih _ _ r2 (by omega) ?_ (Nat.mod_lt _ (by decide))
        have := Nat.mod_le (i + 1) (2 ^ 32)
        simp only [List.length_append, List.length_singleton]
        omega

theorem parseLtRefPics_codec [CondOk H] {numSps numPics numLtSps pocLen : Nat} (hn : numLtSps ≤ 32) (hl : 0 < pocLen ∧ pocLen ≤ 32) :
    Codec H A (parseLtRefPics numSps numPics numLtSps pocLen) (Spec.listI (Spec.ltRefPic numSps numLtSps pocLen) 0)
      (ValidLtRefPics numSps numPics numLtSps pocLen) := by
  have hd : ∀ r, (parseLtRefPics numSps numPics numLtSps pocLen).denote r = (ltLoop numSps numPics numLtSps pocLen (r.length + 1) 0 []).denote r := fun _ => rfl
  by_cases hc : numSps + numPics < 2 ^ 32
  · have hd2 : ∀ r, (parseLtRefPics numSps numPics numLtSps pocLen).denote r =
        (Prog.repI 0 (numSps + numPics) (parseLtRefPic numSps numLtSps pocLen)).denote r := by
      intro r
      rw [hd, ltLoop_eq hn hl hc (r.length + 1) 0 [] r (by omega) rfl (by omega), ← Prog.bind_def, Prog.denote_bind, Nat.sub_zero]
      cases (Prog.repI 0 (numSps + numPics) (parseLtRefPic numSps numLtSps pocLen)).denote r <;> rfl
    have hcod := repI0_codec (H := Cond.any) (A := A) (n := numSps + numPics) (p := parseLtRefPic numSps numLtSps pocLen) (fun i _ => parseLtRefPic_codec (numSps := numSps) (i := i) hn hl)
    constructor
    · intro r
      rw [hd2]
      have := hcod.sound r
      revert this
      cases (Prog.repI 0 (numSps + numPics) (parseLtRefPic numSps numLtSps pocLen)).denote r with
      | fail r' => exact fun h => h
      | bad k => exact fun h => h
      | ok a r' => rintro ⟨w, hw, h0, h1, h2⟩; exact ⟨w, fun _ => hw trivial, h0, h1, hc, h2⟩
    · intro a hv r
      rw [hd2]; exact hcod.complete a hv.each r
  · constructor
    · intro r
      rw [hd]
      obtain ⟨r', h⟩ := ltLoop_never (numSps := numSps) (numPics := numPics) hn hl (by omega) (r.length + 1) 0 [] r (by omega) (by simp) (by decide)
      rw [h]; trivial
    · intro a hv; exact absurd hv.count hc

macro_rules | `(tactic| codec) => `(tactic| exact parseLtRefPics_codec (by assumption) (by omega))

theorem parseSliceHead_codec [CondOk H] {nal_unit_type : Nat} :
    Codec H A (parseSliceHead nal_unit_type) (Spec.sliceHead nal_unit_type) (ValidSliceHead nal_unit_type) where
  sound := by
    unfold parseSliceHead; snd_all
    refine Snd.pure ⟨?_, ?_⟩
    · simp [Spec.sliceHead, Spec.seq]
    · constructor <;> assumption
  complete := by
    rintro ⟨⟩ ⟨⟩
    simp only at *
    unfold parseSliceHead
    simp only [Spec.sliceHead, Spec.seq, List.flatten_cons, List.flatten_nil]
    cmp_all
    exact Cmp.pure

macro_rules | `(tactic| codec) => `(tactic| exact parseSliceHead_codec)

theorem optLe31 {c : Prop} {v : Nat} (h : Opt c (0 ≤ v ∧ v ≤ 31) (v = 0)) : v + 1 ≤ 32 := by
  by_cases hc : c
  · have := h.present hc; omega
  · have := h.absent hc; omega
macro_rules | `(tactic| codec) => `(tactic| exact u_codec (Nat.succ_pos _) (optLe31 (by assumption)))

theorem ppsActFlag_codec {pps : PpsBody} (hscc : pps.head.pps_scc_extension_flag ≠ 0 → pps.pps_scc_extension.isSome) :
    Codec H A (ppsActFlag pps) Spec.noBits (fun v => v = slicePpsActFlag pps) := by
  have he : ppsActFlag pps = Prog.ret (slicePpsActFlag pps) := by
    unfold ppsActFlag slicePpsActFlag
    by_cases h : pps.head.pps_scc_extension_flag ≠ 0
    · rw [if_pos h, if_pos h]
      have := hscc h
      revert this
      cases pps.pps_scc_extension with
      | none => intro h; cases h
      | some e => intro _; rfl
    · rw [if_neg h, if_neg h]
  rw [he]
  exact ⟨Snd.ret ⟨rfl, rfl⟩, by rintro _ rfl; exact Cmp.pure⟩
macro_rules | `(tactic| codec) => `(tactic| exact ppsActFlag_codec (by assumption))
macro_rules | `(tactic| codec) => `(tactic| exact parseStRefPicSet_codec (by assumption) (by assumption) (by decide))

theorem uAddress_codec {n : Nat} (h : 0 < n) : Codec H A (uAddress n) (Spec.u (ceilLog2f n)) (ValidUVar (ceilLog2f n)) := by
  unfold uAddress
  rw [if_neg (by omega)]
  exact uVar_codec

theorem optAddress_codec {c : Prop} [Decidable c] {n : Nat} (h : c → 0 < n) :
    Codec H A (Prog.opt c (uAddress n) 0) (fun a => Spec.cond c (Spec.u (ceilLog2f n) a)) (fun a => Opt c (ValidUVar (ceilLog2f n) a) (a = 0)) :=
  opt_codec fun hc => uAddress_codec (h hc)
attribute [local irreducible] uAddress
macro_rules | `(tactic| codec) => `(tactic| exact optAddress_codec (by assumption))

set_option maxHeartbeats 1000000 in
theorem parseSliceBody_codec [CondOk H] [SeOk H] [OvfOk A] {nal_unit_type : Nat} {pps : PpsBody} {sps : SpsBody} {first : Nat} (hlog : sps.log2_max_pic_order_cnt_lsb_minus4 ≤ 12) (hst : sps.num_short_term_ref_pic_sets ≤ 64) (hlt : sps.num_long_term_ref_pics_sps ≤ 32)
    (hlen : sps.num_short_term_ref_pic_sets ≤ sps.st_ref_pic_set.length) (hwf : ∀ p ∈ sps.st_ref_pic_set, RpsWF p)
    (hscc : pps.head.pps_scc_extension_flag ≠ 0 → pps.pps_scc_extension.isSome) (hpic : first = 0 → 0 < sps.getPicSizeInCtbsY) :
    Codec H A (parseSliceBody nal_unit_type pps sps first) (Spec.sliceBody nal_unit_type pps sps first) (ValidSliceBody nal_unit_type pps sps first) where
  sound := by
    unfold parseSliceBody; snd_all
    refine Snd.pure ⟨?_, ?_⟩
    · simp [Spec.sliceBody, Spec.seq]
    · constructor <;> assumption
  complete := by
    rintro ⟨⟩ ⟨⟩
    simp only at *
    unfold parseSliceBody
    simp only [Spec.sliceBody, Spec.seq, List.flatten_cons, List.flatten_nil]
    cmp_all
    exact Cmp.pure

macro_rules | `(tactic| codec) => `(tactic| exact parseSliceBody_codec (by assumption) (by assumption) (by assumption) (by assumption) (by assumption) (by assumption) (by assumption))

end H265
