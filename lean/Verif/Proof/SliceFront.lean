/- The first part of a conforming slice segment header is what the library expects, also with parameter sets known by their first parts only (C83, C84). -/
import Verif.Proof.Front

set_option autoImplicit false

namespace H265.Std
open Spec

theorem ConformsSliceBody.start {nal_unit_type : Nat} {pps : PpsBody} {sps : SpsBody} {first : Nat} {s : SliceBody} (h : ConformsSliceBody nal_unit_type pps sps first s)
    {ptl : StdPtl} (hS : ConformsSpsBody ptl (noVui sps)) (hS' : ValidSpsBody (noVui sps)) : ValidSliceStart nal_unit_type pps sps first s where
  dependent_slice_segment_flag := h.dependent_slice_segment_flag
  slice_segment_address := ⟨fun c => by
    have h1 := h.slice_segment_address.present c
    have h2 : picSizeInCtbsY sps ≤ 2 ^ 20 := (picSize_le hS :)
    rw [show sps.getPicSizeInCtbsY = picSizeInCtbsY sps from (picSizeInCtbsY_eq hS' h2 :), ceilLog2f_eq h2]
    refine ⟨?_, ?_, Nat.lt_of_lt_of_le h1.2 (ceilLog2_le _)⟩
    · unfold ceilLog2; rw [if_neg (by omega)]; omega
    · exact Nat.le_trans (ceilLog2_le_of_le h2) (by decide), h.slice_segment_address.absent⟩
  slice_reserved_flag := h.slice_reserved_flag
  slice_type := ⟨fun c => by have := h.slice_type.present c; omega, h.slice_type.absent⟩
  pic_output_flag := h.pic_output_flag
  colour_plane_id := h.colour_plane_id
  slice_pic_order_cnt_lsb := h.slice_pic_order_cnt_lsb
  short_term_ref_pic_set_sps_flag := h.short_term_ref_pic_set_sps_flag
  st_ref_pic_set := ⟨h.st_ref_pic_set.present, fun x hx => sliceRps_valid hS (h.st_ref_pic_set.valid x hx)⟩
  short_term_ref_pic_set_idx := ⟨fun c => by
    have := hS.num_short_term_ref_pic_sets
    rw [ceilLog2f_eq (show sps.num_short_term_ref_pic_sets ≤ 2 ^ 20 from Nat.le_trans this (by decide))]
    exact Nat.lt_of_lt_of_le (h.short_term_ref_pic_set_idx.present c) (ceilLog2_le _), h.short_term_ref_pic_set_idx.absent⟩
  num_long_term_sps := ⟨fun c => by have := h.num_long_term_sps.present c; have : sps.num_long_term_ref_pics_sps ≤ 32 := (numLt_le hS :); omega, h.num_long_term_sps.absent⟩
  num_long_term_pics := ⟨fun c => by have := h.num_long_term_pics.present c; omega, h.num_long_term_pics.absent⟩
  lt_ref_pics := ⟨fun c => ⟨by have := h.num_long_term_pics.present c; omega, (h.lt_ref_pics.present c).length, fun i x hx =>
    ((h.lt_ref_pics.present c).valid i x hx).valid ((numLt_le hS :)) (by omega)⟩, h.lt_ref_pics.absent⟩
  slice_temporal_mvp_enabled_flag := h.slice_temporal_mvp_enabled_flag
  slice_sao_luma_flag := h.slice_sao_luma_flag
  slice_sao_chroma_flag := by
    have := h.slice_sao_chroma_flag
    by_cases hc : sps.sample_adaptive_offset_enabled_flag ≠ 0
    · rw [show sliceChromaArrayType sps = chromaArrayType sps from (chromaArrayType_eq hS' hc :)]; exact this
    · exact ⟨fun c => absurd c.2.1 hc, fun _ => this.absent fun c => hc c.2.1⟩
  num_ref_idx_active_override_flag := h.num_ref_idx_active_override_flag
  num_ref_idx_l0_active_minus1 := ⟨fun c => by have := h.num_ref_idx_l0_active_minus1.present c; omega, h.num_ref_idx_l0_active_minus1.absent⟩
  num_ref_idx_l1_active_minus1 := ⟨fun c => by have := h.num_ref_idx_l1_active_minus1.present c; omega, h.num_ref_idx_l1_active_minus1.absent⟩


theorem slice_start_eq {nal : Nat} {P : PpsBody} {S : SpsBody} {hd : SliceHead} {s : SliceBody} (x : SliceExtra) (hS : ValidSpsBody (noVui S))
    (hsize : picSizeInCtbsY S ≤ 2 ^ 20) (hv : ValidSliceStart nal P S hd.first_slice_segment_in_pic_flag s) :
    ∃ w, sliceSegmentHeader nal P S hd s x = Spec.sliceHead nal hd ++ (sliceStart nal P S hd.first_slice_segment_in_pic_flag s ++ w) := by
  have hns : 0 ≤ S.num_short_term_ref_pic_sets ∧ S.num_short_term_ref_pic_sets ≤ 64 := hS.num_short_term_ref_pic_sets
  have hnl : S.num_long_term_ref_pics_sps ≤ 32 := by
    by_cases hc : S.long_term_ref_pics_present_flag ≠ 0
    · exact (hS.num_long_term_ref_pics_sps.present hc).2
    · rw [show S.num_long_term_ref_pics_sps = 0 from hS.num_long_term_ref_pics_sps.absent hc]; decide
  unfold sliceSegmentHeader Spec.sliceHead sliceStart
  rw [show S.getPicSizeInCtbsY = picSizeInCtbsY S from (picSizeInCtbsY_eq hS hsize :), ceilLog2f_eq hsize, ceilLog2f_eq (x := S.num_short_term_ref_pic_sets) (by omega)]
  -- the long-term pictures
  have hlt : listI (fun i (l : LtRefPic) => seq [
            if i < s.num_long_term_sps then
              ifThen (S.num_long_term_ref_pics_sps > 1) [
                u (ceilLog2 S.num_long_term_ref_pics_sps) l.head.lt_idx_sps]
            else seq [
              u (S.log2_max_pic_order_cnt_lsb_minus4 + 4) l.head.poc_lsb_lt,
              u 1 l.head.used_by_curr_pic_lt_flag],
            u 1 l.head.delta_poc_msb_present_flag,
            ifThen (l.head.delta_poc_msb_present_flag ≠ 0) [
              ue l.delta_poc_msb_cycle_lt]]) 0 s.lt_ref_pics =
      listI (Spec.ltRefPic s.num_long_term_sps S.num_long_term_ref_pics_sps (S.log2_max_pic_order_cnt_lsb_minus4 + 4)) 0 s.lt_ref_pics := by
    refine listI_congr fun i l _ => ?_
    unfold Spec.ltRefPic Spec.ltRefPicHead
    rw [ceilLog2f_eq (x := S.num_long_term_ref_pics_sps) (by omega)]
    by_cases hc : 0 + i < s.num_long_term_sps
    · rw [if_pos hc]
      std_norm
      rw [cond_neg (by omega) (u (S.log2_max_pic_order_cnt_lsb_minus4 + 4) _), cond_neg (by omega) (u 1 l.head.used_by_curr_pic_lt_flag),
        cond_congr (c := S.num_long_term_ref_pics_sps > 1) (d := 0 + i < s.num_long_term_sps ∧ S.num_long_term_ref_pics_sps > 1) ⟨fun h => ⟨hc, h⟩, And.right⟩]
      rfl
    · rw [if_neg hc]
      std_norm
      rw [cond_pos (by omega) (u (S.log2_max_pic_order_cnt_lsb_minus4 + 4) _), cond_pos (by omega) (u 1 l.head.used_by_curr_pic_lt_flag),
        cond_neg (fun h => hc h.1) (u (ceilLog2 _) _)]
      rfl
  rw [hlt]
  have e1 := cond_optional hv.st_ref_pic_set (stRefPicSet S.num_short_term_ref_pic_sets S.num_short_term_ref_pic_sets)
  std_norm
  have c1 : (s.dependent_slice_segment_flag = 0 ∧ (s.slice_type = 1 ∨ s.slice_type = 0) ∧ s.num_ref_idx_active_override_flag ≠ 0 ∧ s.slice_type = 0) ↔
      (s.dependent_slice_segment_flag = 0 ∧ s.slice_type = 0 ∧ s.num_ref_idx_active_override_flag ≠ 0) := by omega
  have c8 : (s.dependent_slice_segment_flag = 0 ∧ S.sample_adaptive_offset_enabled_flag ≠ 0 ∧ chromaArrayType S ≠ 0) ↔
      (s.dependent_slice_segment_flag = 0 ∧ S.sample_adaptive_offset_enabled_flag ≠ 0 ∧ sliceChromaArrayType S ≠ 0) := by
    by_cases hc : S.sample_adaptive_offset_enabled_flag ≠ 0
    · rw [show sliceChromaArrayType S = chromaArrayType S from (chromaArrayType_eq hS hc :)]
    · exact ⟨fun h => absurd h.2.1 hc, fun h => absurd h.2.1 hc⟩
  rw [e1, cond_congr c1, cond_congr c8]
  exact ⟨_, rfl⟩


/-! ### only the first parts of the parameter sets matter -/

theorem sliceStart_same {t : Nat} {V P : PpsBody} {W S : SpsBody} {first : Nat} {s : SliceBody} (hP : V.head = P.head) (hS : noVui W = noVui S) :
    sliceStart t V W first s = sliceStart t P S first s := by
  show sliceStart t ⟨V.head, none, none⟩ (noVui W) first s = sliceStart t ⟨P.head, none, none⟩ (noVui S) first s
  rw [hP, hS]

theorem validStart_front {t : Nat} {P : PpsBody} {S : SpsBody} {first : Nat} {s : SliceBody} :
    ValidSliceStart t P S first s ↔ ValidSliceStart t ⟨P.head, none, none⟩ (noVui S) first s :=
  ⟨fun ⟨a1, a2, a3, a4, a5, a6, a7, a8, a9, a10, a11, a12, a13, a14, a15, a16, a17, a18, a19⟩ =>
    ⟨a1, a2, a3, a4, a5, a6, a7, a8, a9, a10, a11, a12, a13, a14, a15, a16, a17, a18, a19⟩,
   fun ⟨a1, a2, a3, a4, a5, a6, a7, a8, a9, a10, a11, a12, a13, a14, a15, a16, a17, a18, a19⟩ =>
    ⟨a1, a2, a3, a4, a5, a6, a7, a8, a9, a10, a11, a12, a13, a14, a15, a16, a17, a18, a19⟩⟩

theorem validStart_same {t : Nat} {V P : PpsBody} {W S : SpsBody} {first : Nat} {s : SliceBody} (hP : V.head = P.head) (hS : noVui W = noVui S)
    (h : ValidSliceStart t P S first s) : ValidSliceStart t V W first s := by
  rw [validStart_front, hP, hS]
  exact validStart_front.1 h

end H265.Std
