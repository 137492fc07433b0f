/- The first syntax elements of a slice header, whatever follows them (C83). -/
import Verif.Proof.StdConf
import Verif.Spec.SliceStart

set_option autoImplicit false

namespace H265
open Spec
codec_opaque
attribute [local irreducible] uAddress

/-- whatever the program returns satisfies `Q` -/
def Post {α : Type} (p : Prog α) (Q : α → Prop) : Prop := ∀ r a r', p.denote r = .ok a r' → Q a
/-- whatever the program returns on input that begins with `w` satisfies `Q` -/
def PostOn {α : Type} (p : Prog α) (w : List Bool) (Q : α → Prop) : Prop := ∀ r a r', p.denote (w ++ r) = .ok a r' → Q a

theorem Post.pure {α : Type} {a : α} {Q : α → Prop} (h : Q a) : Post (Pure.pure a : Prog α) Q := by
  intro r b r' hr; cases hr; exact h

theorem Post.bind {α β : Type} {p : Prog α} {f : α → Prog β} {Q : β → Prop} (h : ∀ a, Post (f a) Q) : Post (p >>= f) Q := by
  intro r b r' hr
  rw [Prog.denote_bind] at hr
  revert hr
  cases p.denote r with
  | ok a r1 => exact h a r1 b r'
  | fail r1 => intro hr; cases hr
  | bad k => intro hr; cases hr

theorem PostOn.of {α : Type} {p : Prog α} {w : List Bool} {Q : α → Prop} (h : Post p Q) : PostOn p w Q := fun r a r' hr => h _ a r' hr

theorem Codec.post_bind {α β : Type} {p : Prog α} {W : α → List Bool} {V : α → Prop} {f : α → Prog β} {Q : β → Prop} {a : α} {w w' : List Bool}
    (hc : Codec Cond.canon (fun k => k = Bad.signedOverflow) p W V) (hw : w = W a ++ w') (hv : V a) (hf : PostOn (f a) w' Q) :
    PostOn (p >>= f) w Q := by
  subst hw
  intro r b r' hr
  rw [Prog.denote_bind, List.append_assoc, hc.complete a hv, ARes.ok_bind] at hr
  exact hf r b r' hr

/-- the conditions of `ValidSliceBody` on the syntax elements in front of ref_pic_lists_modification( ) -/
structure ValidSliceStart (nal_unit_type : Nat) (pps : PpsBody) (sps : SpsBody) (first : Nat) (s : SliceBody) : Prop where
  dependent_slice_segment_flag : Opt ((first = 0 ∧ pps.head.dependent_slice_segments_enabled_flag ≠ 0)) (s.dependent_slice_segment_flag < 2 ^ 1) (s.dependent_slice_segment_flag = 0)
  slice_segment_address : Opt (first = 0) (ValidUVar (ceilLog2f sps.getPicSizeInCtbsY) s.slice_segment_address) (s.slice_segment_address = 0)
  slice_reserved_flag : Opt (s.dependent_slice_segment_flag = 0) (Each (pps.head.num_extra_slice_header_bits) (· < 2 ^ 1) s.slice_reserved_flag) (s.slice_reserved_flag = [])
  slice_type : Opt (s.dependent_slice_segment_flag = 0) (s.slice_type < 2 ^ 32 - 1) (s.slice_type = 0)
  pic_output_flag : Opt ((s.dependent_slice_segment_flag = 0 ∧ pps.head.output_flag_present_flag ≠ 0)) (s.pic_output_flag < 2 ^ 1) (s.pic_output_flag = 0)
  colour_plane_id : Opt ((s.dependent_slice_segment_flag = 0 ∧ sps.separate_colour_plane_flag = 1)) (s.colour_plane_id < 2 ^ 2) (s.colour_plane_id = 0)
  slice_pic_order_cnt_lsb : Opt ((s.dependent_slice_segment_flag = 0 ∧ nal_unit_type ≠ 19 ∧ nal_unit_type ≠ 20)) (s.slice_pic_order_cnt_lsb < 2 ^ ((sps.log2_max_pic_order_cnt_lsb_minus4 + 4))) (s.slice_pic_order_cnt_lsb = 0)
  short_term_ref_pic_set_sps_flag : Opt ((s.dependent_slice_segment_flag = 0 ∧ nal_unit_type ≠ 19 ∧ nal_unit_type ≠ 20)) (s.short_term_ref_pic_set_sps_flag < 2 ^ 1) (s.short_term_ref_pic_set_sps_flag = 0)
  st_ref_pic_set : Maybe ((s.dependent_slice_segment_flag = 0 ∧ nal_unit_type ≠ 19 ∧ nal_unit_type ≠ 20 ∧ s.short_term_ref_pic_set_sps_flag = 0)) (ValidStRefPicSet sps.num_short_term_ref_pic_sets sps.num_short_term_ref_pic_sets sps.st_ref_pic_set 15) s.st_ref_pic_set
  short_term_ref_pic_set_idx : Opt ((s.dependent_slice_segment_flag = 0 ∧ nal_unit_type ≠ 19 ∧ nal_unit_type ≠ 20 ∧ s.short_term_ref_pic_set_sps_flag ≠ 0 ∧ sps.num_short_term_ref_pic_sets > 1)) (s.short_term_ref_pic_set_idx < 2 ^ (ceilLog2f sps.num_short_term_ref_pic_sets)) (s.short_term_ref_pic_set_idx = 0)
  num_long_term_sps : Opt ((s.dependent_slice_segment_flag = 0 ∧ nal_unit_type ≠ 19 ∧ nal_unit_type ≠ 20 ∧ sps.long_term_ref_pics_present_flag ≠ 0 ∧ sps.num_long_term_ref_pics_sps > 0)) (s.num_long_term_sps < 2 ^ 32 - 1) (s.num_long_term_sps = 0)
  num_long_term_pics : Opt ((s.dependent_slice_segment_flag = 0 ∧ nal_unit_type ≠ 19 ∧ nal_unit_type ≠ 20 ∧ sps.long_term_ref_pics_present_flag ≠ 0)) (s.num_long_term_pics < 2 ^ 32 - 1) (s.num_long_term_pics = 0)
  lt_ref_pics : Opt ((s.dependent_slice_segment_flag = 0 ∧ nal_unit_type ≠ 19 ∧ nal_unit_type ≠ 20 ∧ sps.long_term_ref_pics_present_flag ≠ 0)) (ValidLtRefPics s.num_long_term_sps s.num_long_term_pics sps.num_long_term_ref_pics_sps (sps.log2_max_pic_order_cnt_lsb_minus4 + 4) s.lt_ref_pics) (s.lt_ref_pics = [])
  slice_temporal_mvp_enabled_flag : Opt ((s.dependent_slice_segment_flag = 0 ∧ nal_unit_type ≠ 19 ∧ nal_unit_type ≠ 20 ∧ sps.sps_temporal_mvp_enabled_flag ≠ 0)) (s.slice_temporal_mvp_enabled_flag < 2 ^ 1) (s.slice_temporal_mvp_enabled_flag = 0)
  slice_sao_luma_flag : Opt ((s.dependent_slice_segment_flag = 0 ∧ sps.sample_adaptive_offset_enabled_flag ≠ 0)) (s.slice_sao_luma_flag < 2 ^ 1) (s.slice_sao_luma_flag = 0)
  slice_sao_chroma_flag : Opt ((s.dependent_slice_segment_flag = 0 ∧ sps.sample_adaptive_offset_enabled_flag ≠ 0 ∧ sliceChromaArrayType sps ≠ 0)) (s.slice_sao_chroma_flag < 2 ^ 1) (s.slice_sao_chroma_flag = 0)
  num_ref_idx_active_override_flag : Opt ((s.dependent_slice_segment_flag = 0 ∧ (s.slice_type = 1 ∨ s.slice_type = 0))) (s.num_ref_idx_active_override_flag < 2 ^ 1) (s.num_ref_idx_active_override_flag = 0)
  num_ref_idx_l0_active_minus1 : Opt ((s.dependent_slice_segment_flag = 0 ∧ (s.slice_type = 1 ∨ s.slice_type = 0) ∧ s.num_ref_idx_active_override_flag ≠ 0)) (s.num_ref_idx_l0_active_minus1 < 2 ^ 32 - 1) (s.num_ref_idx_l0_active_minus1 = 0)
  num_ref_idx_l1_active_minus1 : Opt ((s.dependent_slice_segment_flag = 0 ∧ s.slice_type = 0 ∧ s.num_ref_idx_active_override_flag ≠ 0)) (s.num_ref_idx_l1_active_minus1 < 2 ^ 32 - 1) (s.num_ref_idx_l1_active_minus1 = 0)

/-- the bits of the syntax elements in front of ref_pic_lists_modification( ) -/
def sliceStart (nal_unit_type : Nat) (pps : PpsBody) (sps : SpsBody) (first : Nat) (s : SliceBody) : List Bool :=
  seq [cond ((first = 0 ∧ pps.head.dependent_slice_segments_enabled_flag ≠ 0)) (u 1 s.dependent_slice_segment_flag),
    cond (first = 0) (u (ceilLog2f sps.getPicSizeInCtbsY) s.slice_segment_address),
    cond (s.dependent_slice_segment_flag = 0) (list (u 1) s.slice_reserved_flag),
    cond (s.dependent_slice_segment_flag = 0) (ue s.slice_type),
    cond ((s.dependent_slice_segment_flag = 0 ∧ pps.head.output_flag_present_flag ≠ 0)) (u 1 s.pic_output_flag),
    cond ((s.dependent_slice_segment_flag = 0 ∧ sps.separate_colour_plane_flag = 1)) (u 2 s.colour_plane_id),
    cond ((s.dependent_slice_segment_flag = 0 ∧ nal_unit_type ≠ 19 ∧ nal_unit_type ≠ 20)) (u ((sps.log2_max_pic_order_cnt_lsb_minus4 + 4)) s.slice_pic_order_cnt_lsb),
    cond ((s.dependent_slice_segment_flag = 0 ∧ nal_unit_type ≠ 19 ∧ nal_unit_type ≠ 20)) (u 1 s.short_term_ref_pic_set_sps_flag),
    optional (stRefPicSet sps.num_short_term_ref_pic_sets sps.num_short_term_ref_pic_sets) s.st_ref_pic_set,
    cond ((s.dependent_slice_segment_flag = 0 ∧ nal_unit_type ≠ 19 ∧ nal_unit_type ≠ 20 ∧ s.short_term_ref_pic_set_sps_flag ≠ 0 ∧ sps.num_short_term_ref_pic_sets > 1)) (u (ceilLog2f sps.num_short_term_ref_pic_sets) s.short_term_ref_pic_set_idx),
    cond ((s.dependent_slice_segment_flag = 0 ∧ nal_unit_type ≠ 19 ∧ nal_unit_type ≠ 20 ∧ sps.long_term_ref_pics_present_flag ≠ 0 ∧ sps.num_long_term_ref_pics_sps > 0)) (ue s.num_long_term_sps),
    cond ((s.dependent_slice_segment_flag = 0 ∧ nal_unit_type ≠ 19 ∧ nal_unit_type ≠ 20 ∧ sps.long_term_ref_pics_present_flag ≠ 0)) (ue s.num_long_term_pics),
    cond ((s.dependent_slice_segment_flag = 0 ∧ nal_unit_type ≠ 19 ∧ nal_unit_type ≠ 20 ∧ sps.long_term_ref_pics_present_flag ≠ 0)) (listI (ltRefPic s.num_long_term_sps sps.num_long_term_ref_pics_sps (sps.log2_max_pic_order_cnt_lsb_minus4 + 4)) 0 s.lt_ref_pics),
    cond ((s.dependent_slice_segment_flag = 0 ∧ nal_unit_type ≠ 19 ∧ nal_unit_type ≠ 20 ∧ sps.sps_temporal_mvp_enabled_flag ≠ 0)) (u 1 s.slice_temporal_mvp_enabled_flag),
    cond ((s.dependent_slice_segment_flag = 0 ∧ sps.sample_adaptive_offset_enabled_flag ≠ 0)) (u 1 s.slice_sao_luma_flag),
    cond ((s.dependent_slice_segment_flag = 0 ∧ sps.sample_adaptive_offset_enabled_flag ≠ 0 ∧ sliceChromaArrayType sps ≠ 0)) (u 1 s.slice_sao_chroma_flag),
    cond ((s.dependent_slice_segment_flag = 0 ∧ (s.slice_type = 1 ∨ s.slice_type = 0))) (u 1 s.num_ref_idx_active_override_flag),
    cond ((s.dependent_slice_segment_flag = 0 ∧ (s.slice_type = 1 ∨ s.slice_type = 0) ∧ s.num_ref_idx_active_override_flag ≠ 0)) (ue s.num_ref_idx_l0_active_minus1),
    cond ((s.dependent_slice_segment_flag = 0 ∧ s.slice_type = 0 ∧ s.num_ref_idx_active_override_flag ≠ 0)) (ue s.num_ref_idx_l1_active_minus1)]

set_option maxHeartbeats 1000000 in
theorem sliceBody_start {nal_unit_type : Nat} {pps : PpsBody} {sps : SpsBody} {first : Nat} {s : SliceBody} (hlog : sps.log2_max_pic_order_cnt_lsb_minus4 ≤ 12)
    (hst : sps.num_short_term_ref_pic_sets ≤ 64) (hlt : sps.num_long_term_ref_pics_sps ≤ 32)
    (hlen : sps.num_short_term_ref_pic_sets ≤ sps.st_ref_pic_set.length) (hwf : ∀ p ∈ sps.st_ref_pic_set, RpsWF p)
    (hpic : first = 0 → 0 < sps.getPicSizeInCtbsY) (hv : ValidSliceStart nal_unit_type pps sps first s) :
    PostOn (parseSliceBody nal_unit_type pps sps first) (sliceStart nal_unit_type pps sps first s) (fun b => Std.SameStart b s) := by
  obtain ⟨⟩ := s
  obtain ⟨⟩ := hv
  simp only at *
  unfold parseSliceBody
  simp only [sliceStart, Spec.seq, List.flatten_cons, List.flatten_nil]
  iterate 19 (first | (refine Codec.post_bind (by codec) (by with_reducible rfl) ?_ ?_; assumption) | fail)
  refine PostOn.of ?_
  repeat refine Post.bind fun _ => ?_
  exact Post.pure ⟨rfl, rfl, rfl, rfl, rfl, rfl, rfl, rfl, rfl, rfl, rfl, rfl, rfl, rfl, rfl, rfl, rfl, rfl, rfl⟩

end H265
