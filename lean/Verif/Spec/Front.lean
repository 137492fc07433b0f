/-
Specification for C84: the syntax elements of parameter sets in front of the parts that may be unsupported, streams of such parameter sets, and what is reported for them.
Not a model of code.
-/
import Verif.Spec.SliceStart

set_option autoImplicit false

namespace H265.Std
open Spec

/-- seq_parameter_set_rbsp( ) up to vui_parameters_present_flag (clause 7.3.2.2.1) -/
def spsFront (ptl : StdPtl) (s : SpsBody) : List Bool :=
  seq [u 4 s.sps_video_parameter_set_id,
    u 3 s.sps_max_sub_layers_minus1,
    u 1 s.sps_temporal_id_nesting_flag,
    profileTierLevel s.sps_max_sub_layers_minus1 ptl,
    ue s.sps_seq_parameter_set_id,
    ue s.chroma_format_idc,
    ifThen (s.chroma_format_idc = 3) [
      u 1 s.separate_colour_plane_flag],
    ue s.pic_width_in_luma_samples,
    ue s.pic_height_in_luma_samples,
    u 1 s.conformance_window_flag,
    ifThen (s.conformance_window_flag ≠ 0) [
      ue s.conf_win_left_offset,
      ue s.conf_win_right_offset,
      ue s.conf_win_top_offset,
      ue s.conf_win_bottom_offset],
    ue s.bit_depth_luma_minus8,
    ue s.bit_depth_chroma_minus8,
    ue s.log2_max_pic_order_cnt_lsb_minus4,
    u 1 s.sps_sub_layer_ordering_info_present_flag,
    list (fun o => seq [
      ue o.sps_max_dec_pic_buffering_minus1,
      ue o.sps_max_num_reorder_pics,
      ue o.sps_max_latency_increase_plus1]) s.sub_layer_ordering,
    ue s.log2_min_luma_coding_block_size_minus3,
    ue s.log2_diff_max_min_luma_coding_block_size,
    ue s.log2_min_luma_transform_block_size_minus2,
    ue s.log2_diff_max_min_luma_transform_block_size,
    ue s.max_transform_hierarchy_depth_inter,
    ue s.max_transform_hierarchy_depth_intra,
    u 1 s.scaling_list_enabled_flag,
    ifThen (s.scaling_list_enabled_flag ≠ 0) [
      u 1 s.sps_scaling_list_data_present_flag,
      ifThen (s.sps_scaling_list_data_present_flag ≠ 0) [
        optional scalingListData s.scaling_list_data]],
    u 1 s.amp_enabled_flag,
    u 1 s.sample_adaptive_offset_enabled_flag,
    u 1 s.pcm_enabled_flag,
    ifThen (s.pcm_enabled_flag ≠ 0) [
      u 4 s.pcm_sample_bit_depth_luma_minus1,
      u 4 s.pcm_sample_bit_depth_chroma_minus1,
      ue s.log2_min_pcm_luma_coding_block_size_minus3,
      ue s.log2_diff_max_min_pcm_luma_coding_block_size,
      u 1 s.pcm_loop_filter_disabled_flag],
    ue s.num_short_term_ref_pic_sets,
    stRefPicSets s.num_short_term_ref_pic_sets s.st_ref_pic_set,
    u 1 s.long_term_ref_pics_present_flag,
    ifThen (s.long_term_ref_pics_present_flag ≠ 0) [
      ue s.num_long_term_ref_pics_sps,
      list (fun e => seq [
        u (s.log2_max_pic_order_cnt_lsb_minus4 + 4) e.lt_ref_pic_poc_lsb_sps,
        u 1 e.used_by_curr_pic_lt_sps_flag]) s.lt_ref_pics],
    u 1 s.sps_temporal_mvp_enabled_flag,
    u 1 s.strong_intra_smoothing_enabled_flag,
    u 1 s.vui_parameters_present_flag]

/-- video_parameter_set_rbsp( ) up to vps_num_hrd_parameters (clause 7.3.2.1) -/
def vpsFront (ptl : StdPtl) (s : VpsBody) : List Bool :=
  seq [u 4 s.vps_video_parameter_set_id,
    u 1 s.vps_base_layer_internal_flag,
    u 1 s.vps_base_layer_available_flag,
    u 6 s.vps_max_layers_minus1,
    u 3 s.vps_max_sub_layers_minus1,
    u 1 s.vps_temporal_id_nesting_flag,
    u 16 s.vps_reserved_0xffff_16bits,
    profileTierLevel s.vps_max_sub_layers_minus1 ptl,
    u 1 s.vps_sub_layer_ordering_info_present_flag,
    list (fun o => seq [
      ue o.max_dec_pic_buffering_minus1,
      ue o.max_num_reorder_pics,
      ue o.max_latency_increase_plus1]) s.sub_layer_ordering,
    u 6 s.vps_max_layer_id,
    ue s.vps_num_layer_sets_minus1,
    list (list (u 1)) s.layer_id_included_flag,
    u 1 s.vps_timing_info_present_flag,
    ifThen (s.vps_timing_info_present_flag ≠ 0) [
      u 32 s.vps_num_units_in_tick,
      u 32 s.vps_time_scale,
      u 1 s.vps_poc_proportional_to_timing_flag,
      ifThen (s.vps_poc_proportional_to_timing_flag ≠ 0) [
        ue s.vps_num_ticks_poc_diff_one_minus1],
      ue s.vps_num_hrd_parameters]]

/-- pic_parameter_set_rbsp( ) up to pps_extension_4bits (clause 7.3.2.3.1) -/
def ppsFront (s : PpsHead) : List Bool :=
  seq [ue s.pps_pic_parameter_set_id,
    ue s.pps_seq_parameter_set_id,
    u 1 s.dependent_slice_segments_enabled_flag,
    u 1 s.output_flag_present_flag,
    u 3 s.num_extra_slice_header_bits,
    u 1 s.sign_data_hiding_enabled_flag,
    u 1 s.cabac_init_present_flag,
    ue s.num_ref_idx_l0_default_active_minus1,
    ue s.num_ref_idx_l1_default_active_minus1,
    se s.init_qp_minus26,
    u 1 s.constrained_intra_pred_flag,
    u 1 s.transform_skip_enabled_flag,
    u 1 s.cu_qp_delta_enabled_flag,
    ifThen (s.cu_qp_delta_enabled_flag ≠ 0) [
      ue s.diff_cu_qp_delta_depth],
    se s.pps_cb_qp_offset,
    se s.pps_cr_qp_offset,
    u 1 s.pps_slice_chroma_qp_offsets_present_flag,
    u 1 s.weighted_pred_flag,
    u 1 s.weighted_bipred_flag,
    u 1 s.transquant_bypass_enabled_flag,
    u 1 s.tiles_enabled_flag,
    u 1 s.entropy_coding_sync_enabled_flag,
    ifThen (s.tiles_enabled_flag ≠ 0) [
      ue s.num_tile_columns_minus1,
      ue s.num_tile_rows_minus1,
      u 1 s.uniform_spacing_flag,
      ifThen (s.uniform_spacing_flag = 0) [
        list ue s.column_width_minus1,
        list ue s.row_height_minus1],
      u 1 s.loop_filter_across_tiles_enabled_flag],
    u 1 s.pps_loop_filter_across_slices_enabled_flag,
    u 1 s.deblocking_filter_control_present_flag,
    ifThen (s.deblocking_filter_control_present_flag ≠ 0) [
      u 1 s.deblocking_filter_override_enabled_flag,
      u 1 s.pps_deblocking_filter_disabled_flag,
      ifThen (s.pps_deblocking_filter_disabled_flag = 0) [
        se s.pps_beta_offset_div2,
        se s.pps_tc_offset_div2]],
    u 1 s.pps_scaling_list_data_present_flag,
    ifThen (s.pps_scaling_list_data_present_flag ≠ 0) [
      optional scalingListData s.scaling_list_data],
    u 1 s.lists_modification_present_flag,
    ue s.log2_parallel_merge_level_minus2,
    u 1 s.slice_segment_header_extension_present_flag,
    u 1 s.pps_extension_present_flag,
    ifThen (s.pps_extension_present_flag ≠ 0) [
      u 1 s.pps_range_extension_flag,
      u 1 s.pps_multilayer_extension_flag,
      u 1 s.pps_3d_extension_flag,
      u 1 s.pps_scc_extension_flag,
      u 4 s.pps_extension_4bits]]

/-- the SPS without its VUI parameters and extensions -/
def noVui (s : SpsBody) : SpsBody :=
  { s with
    vui_parameters_present_flag := 0, vui_parameters := none, sps_extension_present_flag := 0, sps_range_extension_flag := 0, sps_multilayer_extension_flag := 0,
    sps_3d_extension_flag := 0, sps_scc_extension_flag := 0, sps_extension_4bits := 0, sps_range_extension := none, sps_multilayer_extension := none,
    sps_3d_extension := none, sps_scc_extension := none }

/-- the VPS without its HRD parameters and extension -/
def noHrd (s : VpsBody) : VpsBody := { s with vps_num_hrd_parameters := 0, hrds := [], vps_extension_flag := 0 }

/-- the values of `s` in front of the VUI parameters are the ones the standard allows, and the library supports them -/
structure FrontSps (ptl : StdPtl) (s : SpsBody) : Prop where
  conforms : ConformsSpsBody ptl (noVui s)
  ptl : SupportedPtl ptl
  vui_parameters_present_flag : s.vui_parameters_present_flag ≤ 1

/-- the values of `s` in front of the HRD parameters are the ones the standard allows, and the library supports them -/
structure FrontVps (ptl : StdPtl) (s : VpsBody) : Prop where
  conforms : ConformsVpsBody ptl (noHrd s)
  ptl : SupportedPtl ptl
  vps_num_hrd_parameters : Opt (s.vps_timing_info_present_flag ≠ 0) (s.vps_num_hrd_parameters ≤ s.vps_num_layer_sets_minus1 + 1) (s.vps_num_hrd_parameters = 0)

/-- the same values in front of the VUI parameters -/
def SameSps (a b : SpsBody) : Prop := noVui a = noVui b ∧ a.vui_parameters_present_flag = b.vui_parameters_present_flag
/-- the same values in front of the HRD parameters -/
def SameVps (a b : VpsBody) : Prop := noHrd a = noHrd b ∧ a.vps_num_hrd_parameters = b.vps_num_hrd_parameters

/-- A NAL unit of a stream in which parameter sets may have anything (`tail`) behind their first part and slices are any slices that conform to the standard.  `other`:
any NAL unit that is neither a parameter set nor such a slice. -/
inductive FrontNal (d : StdParams) (n : StdNal) : Prop
  | vps (ptl : StdPtl) (s : VpsBody) : n.unit = .vps ptl s → n.header.nal_unit_type = 32 → FrontVps ptl s →
      bitsOf n.rbsp = Spec.nalUnitHeader n.header ++ (vpsFront ptl s ++ n.tail) → FrontNal d n
  | sps (ptl : StdPtl) (s : SpsBody) : n.unit = .sps ptl s → n.header.nal_unit_type = 33 → FrontSps ptl s →
      bitsOf n.rbsp = Spec.nalUnitHeader n.header ++ (spsFront ptl s ++ n.tail) → FrontNal d n
  | pps (s : PpsBody) : n.unit = .pps s → n.header.nal_unit_type = 34 → ConformsPpsHead s.head →
      bitsOf n.rbsp = Spec.nalUnitHeader n.header ++ (ppsFront s.head ++ n.tail) → FrontNal d n
  | slice (hd : SliceHead) (s : SliceBody) (x : SliceExtra) (P : PpsBody) (ptl : StdPtl) (S : SpsBody) : n.unit = .slice hd s x →
      n.header.nal_unit_type ≤ 9 ∨ (16 ≤ n.header.nal_unit_type ∧ n.header.nal_unit_type ≤ 21) →
      d.pps hd.slice_pic_parameter_set_id = some P → d.sps P.head.pps_seq_parameter_set_id = some (ptl, S) →
      ConformsSliceHead n.header.nal_unit_type hd → ConformsSliceBody n.header.nal_unit_type P S hd.first_slice_segment_in_pic_flag s →
      bitsOf n.rbsp = Spec.nalUnitHeader n.header ++ (Std.sliceSegmentHeader n.header.nal_unit_type P S hd s x ++ n.tail) → FrontNal d n
  | other : n.unit = .other → n.header.nal_unit_type ∉ [32, 33, 34] → bitsOf n.rbsp = Spec.nalUnitHeader n.header ++ n.tail → FrontNal d n

/-- a sequence of such NAL units -/
inductive FrontAll : StdParams → List StdNal → StdParams → Prop
  | nil (d : StdParams) : FrontAll d [] d
  | cons {d d' : StdParams} {n : StdNal} {ns : List StdNal} : ValidNalUnitHeader n.header → (escape n.rbsp).getLast? ≠ some 0 → FrontNal d n →
      FrontAll (d.after n.unit) ns d' → FrontAll d (n :: ns) d'

/-- the NAL unit reported: its header, and no contents or contents with the same first part -/
def ReportsFront (l : StdNal) (n : NalUnit) : Prop :=
  n.nal_unit_header = l.header ∧
  match l.unit with
  | .vps _ s => n.nal_unit_payload = {} ∨ ∃ v, n.nal_unit_payload = { vps := some v } ∧ SameVps v.body s
  | .sps _ s => n.nal_unit_payload = {} ∨ ∃ v, n.nal_unit_payload = { sps := some v } ∧ SameSps v.body s
  | .pps s => n.nal_unit_payload = {} ∨ ∃ v, n.nal_unit_payload = { pps := some v } ∧ v.body.head = s.head
  | .slice hd s _ => n.nal_unit_payload = {} ∨ ∃ b, n.nal_unit_payload = { slice_segment_layer := some ⟨l.header.nal_unit_type, hd, b⟩ } ∧ SameStart b s
  | _ => True

/-- a parameter set for which no contents are reported -/
def Rejected (l : StdNal) (n : NalUnit) : Prop := l.header.nal_unit_type ∈ [32, 33, 34] ∧ n.nal_unit_payload = {}

/-- one NAL unit reported for each, in order, with the first part of its contents — up to and including the first parameter set for which no contents are reported -/
def ReportsUntil : List StdNal → List NalUnit → Prop
  | [], [] => True
  | l :: ls, n :: ns => ReportsFront l n ∧ (Rejected l n ∨ ReportsUntil ls ns)
  | _, _ => False

/-- the parser state holds parameter sets with the same first parts as those sent -/
structure HoldsFront (d : StdParams) (st : ParserState) : Prop where
  vps : ∀ i ptl s, d.vps i = some (ptl, s) → ∃ v, st.vps i = some v ∧ SameVps v.body s
  sps : ∀ i ptl s, d.sps i = some (ptl, s) → ∃ v, st.sps i = some v ∧ SameSps v.body s
  pps : ∀ i s, d.pps i = some s → ∃ v, st.pps i = some v ∧ v.body.head = s.head

end H265.Std
