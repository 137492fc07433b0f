/- C29: picture parameter sets. -/
import Verif.Proof.Pps
import Verif.Proof.RbspTail

namespace H265
open Spec

/-- Every PPS body the parser returns: everything but the multilayer extension is valid, and if the multilayer extension has not been
lost the bits read are the serialisation of the result. -/
theorem parsePpsBody_sound {H : Cond} {A : Bad → Prop} [CondOk H] [SeOk H] [OvfOk A] :
    Snd H A parsePpsBody (fun s w => ValidPpsHead s.head ∧ s.head.pps_3d_extension_flag = 0 ∧
      Maybe (s.head.pps_scc_extension_flag ≠ 0) ValidPpsSccExtension s.pps_scc_extension ∧
      (s.pps_multilayer_extension.isSome → s.head.pps_multilayer_extension_flag ≠ 0) ∧
      ((s.head.pps_multilayer_extension_flag ≠ 0 → s.pps_multilayer_extension.isSome) → w = Spec.ppsBody s ∧ ValidPpsBody s)) := by
  unfold parsePpsBody
  refine Codec.snd_bind parsePpsHead_codec (fun head hh => ?_)
  refine Snd.bind (Q1 := fun o w => (o.isSome → head.pps_multilayer_extension_flag ≠ 0) ∧
    ((head.pps_multilayer_extension_flag ≠ 0 → o.isSome) →
      w = Spec.optional Spec.ppsMultilayerExtension o ∧ Maybe (head.pps_multilayer_extension_flag ≠ 0) ValidPpsMultilayerExtension o)) ?_ ?_
  · unfold parsePpsMultilayerUnchecked
    refine Snd.ite (fun hc => ?_) (fun hc => ?_)
    · refine Snd.conseq (Snd.attempt parsePpsMultilayerExtension_codec.sound) ?_
      intro o w ho
      refine ⟨fun _ => hc, fun hs => ?_⟩
      have hs := hs hc
      cases o with
      | none => cases hs
      | some a =>
        obtain ⟨rfl, hv⟩ := ho a rfl
        refine ⟨by simp [Spec.optional], ?_⟩
        exact ⟨by simp [hc], by rintro _ ⟨⟩; exact hv⟩
    · refine Snd.ret ⟨(fun h => by cases h), fun _ => ⟨by simp [Spec.optional], ?_⟩⟩
      exact ⟨by simp [hc], by rintro _ ⟨⟩⟩
  · rintro o w ⟨ho1, ho⟩
    refine Snd.check_bind (fun h3 => ?_)
    refine Codec.snd_bind (maybe_codec fun _ => parsePpsSccExtension_codec) (fun scc hscc => ?_)
    refine Snd.pure ⟨hh, h3, hscc, ho1, fun hs => ?_⟩
    obtain ⟨rfl, hv⟩ := ho hs
    exact ⟨by simp [Spec.ppsBody, Spec.seq], hh, hv, h3, hscc⟩

theorem parsePpsBody_complete (s : PpsBody) (hv : ValidPpsBody s) : Cmp parsePpsBody s (Spec.ppsBody s) := by
  obtain ⟨head, ml, scc⟩ := s
  obtain ⟨hh, hml, h3, hscc⟩ := hv
  simp only at hh hml h3 hscc
  unfold parsePpsBody
  simp only [Spec.ppsBody, Spec.seq, List.flatten_cons, List.flatten_nil]
  refine Codec.cmp_bind parsePpsHead_codec rfl hh ?_
  refine Cmp.bind (a := ml) ?_ ?_
  · unfold parsePpsMultilayerUnchecked
    have hp := hml.present
    cases ml with
    | none => refine Cmp.ite_neg (by simpa using hp) ?_; exact Cmp.pure
    | some m =>
      refine Cmp.ite_pos (by simpa using hp) ?_
      exact Cmp.attempt ((parsePpsMultilayerExtension_codec (H := Cond.canon) (A := fun k => k = .signedOverflow)).complete m (hml.valid m rfl))
  · refine Cmp.check_bind h3 ?_
    refine Codec.cmp_bind (maybe_codec fun _ => parsePpsSccExtension_codec) rfl hscc ?_
    exact Cmp.pure

theorem parsePps_run {bb bb' : BB} {s : Pps} (h : bb.WF) (hr : parsePps.run bb = .ok s bb') :
    ∃ r, parsePpsBody.denote bb.rem = .ok s.body r ∧ bb'.WF ∧ bb'.bytes = bb.bytes ∧ (parsePps.NoAlias bb.rem → parsePpsBody.NoAlias bb.rem) := by
  have hag := Prog.run_agrees parsePps bb h
  rw [hr] at hag
  have hH : parsePps.NoAlias bb.rem → parsePpsBody.NoAlias bb.rem := fun hh => (Prog.NoAlias.of_bind hh).1
  unfold parsePps at hag
  rw [Prog.denote_bind] at hag
  revert hag
  cases hb : parsePpsBody.denote bb.rem with
  | fail r => intro h; exact h.elim
  | bad k => intro h; exact h.elim
  | ok b r =>
    intro hag
    rw [ARes.ok_bind, Prog.denote_bind] at hag
    obtain ⟨d, r', ht⟩ := rbspTail_total b.head.pps_extension_4bits r
    rw [ht] at hag
    obtain ⟨rfl, h1, h2, _⟩ := hag
    exact ⟨r, rfl, h1, h2, hH⟩

/-- C29 (soundness): a PPS returned by the parser is valid and the input starts with its serialisation, unless its multilayer extension was
lost (`C29_multilayer_lost` shows that this happens). -/
theorem C29_pps_sound {bb bb' : BB} {s : Pps} (h : bb.WF) (hr : parsePps.run bb = .ok s bb') (hl : ¬ Spec.MultilayerLost s.body) :
    ValidPpsBody s.body ∧ bb'.WF ∧ bb'.bytes = bb.bytes ∧ (parsePps.NoAlias bb.rem → Spec.ppsBody s.body <+: bb.rem) := by
  obtain ⟨r, hd, h1, h2, hH⟩ := parsePps_run h hr
  have hs := parsePpsBody_sound (H := Cond.canon) (A := fun k => k = .signedOverflow) bb.rem
  rw [hd] at hs
  obtain ⟨w, hw, _, hhead, _, _, _, hq⟩ := hs
  have hflag : s.body.head.pps_multilayer_extension_flag < 2 := by
    by_cases hc : s.body.head.pps_extension_present_flag ≠ 0
    · exact hhead.pps_multilayer_extension_flag.present hc
    · have := hhead.pps_multilayer_extension_flag.absent hc; omega
  obtain ⟨rfl, hv⟩ := hq fun hf => by
    cases hn : s.body.pps_multilayer_extension with
    | none => exact absurd ⟨by omega, hn⟩ hl
    | some _ => rfl
  exact ⟨hv, h1, h2, fun hn => ⟨r, (hw (hH hn)).symm⟩⟩

/-- C29 (completeness): the parser accepts every input that starts with the serialisation of a valid PPS and returns that PPS. -/
theorem C29_pps_accepts (bb : BB) (b : PpsBody) (rest : List Bool) (h : bb.WF) (hv : ValidPpsBody b) (hr : bb.rem = Spec.ppsBody b ++ rest) :
    ∃ s bb', parsePps.run bb = .ok s bb' ∧ s.body = b := by
  obtain ⟨d, r', ht⟩ := rbspTail_total b.head.pps_extension_4bits rest
  have hd : parsePps.denote bb.rem = .ok ⟨b, d⟩ r' := by
    unfold parsePps
    rw [hr, Prog.denote_bind, parsePpsBody_complete b hv, ARes.ok_bind, Prog.denote_bind, ht]; rfl
  obtain ⟨bb', h1, _⟩ := run_of_denote_ok h hd
  exact ⟨_, bb', h1, rfl⟩

/-- C29: a well-formed PPS RBSP (body, extension data if announced, stop bit, at most 7 zero bits) is read to its end. -/
theorem C29_pps_exact (bb : BB) (b : PpsBody) (w : List Bool) (k : Nat) (h : bb.WF) (hv : ValidPpsBody b) (hk : k ≤ 7)
    (hw : b.head.pps_extension_4bits = 0 → w = []) (hr : bb.rem = Spec.ppsBody b ++ (w ++ true :: List.replicate k false)) :
    ∃ bb', parsePps.run bb = .ok ⟨b, (w.getLast?.map Bool.toNat).getD 0⟩ bb' ∧ bb'.rem = [] := by
  have hd : parsePps.denote bb.rem = .ok ⟨b, (w.getLast?.map Bool.toNat).getD 0⟩ [] := by
    unfold parsePps
    rw [hr, Prog.denote_bind, parsePpsBody_complete b hv, ARes.ok_bind, Prog.denote_bind, rbspTail_exact _ hk w hw]; rfl
  obtain ⟨bb', h1, _, _, h4⟩ := run_of_denote_ok h hd
  exact ⟨bb', h1, h4⟩

/-- C29: body and trailing bits without extension data are consumed to the last trailing bit, whatever bytes follow. -/
theorem C29_pps_delimited (bb : BB) (b : PpsBody) (k : Nat) (rest : List Bool) (h : bb.WF) (hv : ValidPpsBody b) (hk : k ≤ 7)
    (he : b.head.pps_extension_4bits = 0) (hm : rest.length % 8 = 0) (hr : bb.rem = Spec.ppsBody b ++ (true :: List.replicate k false ++ rest)) :
    ∃ bb', parsePps.run bb = .ok ⟨b, 0⟩ bb' ∧ bb'.rem = rest := by
  have hd : parsePps.denote bb.rem = .ok ⟨b, 0⟩ rest := by
    unfold parsePps
    rw [hr, Prog.denote_bind, parsePpsBody_complete b hv, ARes.ok_bind, he, Prog.denote_bind, rbspTail_delim hk rest hm]; rfl
  obtain ⟨bb', h1, _, _, h4⟩ := run_of_denote_ok h hd
  exact ⟨bb', h1, h4⟩

/-- C29: from the PPS to its NAL unit payload bytes and back. -/
theorem C29_pps_roundtrip_bytes (b : PpsBody) (k : Nat) (rbsp : List UInt8) (hv : ValidPpsBody b) (hk : k ≤ 7)
    (hlen : rbsp.length < 2 ^ 32) (hr : bitsOf rbsp = Spec.ppsBody b ++ true :: List.replicate k false) :
    ∃ bb', parsePps.parseEscaped (escape rbsp) = .ok ⟨b, 0⟩ bb' ∧ bb'.rem = [] := by
  unfold Prog.parseEscaped
  rw [C10_unescape_escape]
  simp only
  unfold Prog.runBytes
  rw [if_pos (by omega)]
  exact C29_pps_exact _ b [] k (BB.WF.init rbsp) hv hk (fun _ => rfl) (by rw [BB.rem_init]; exact hr)

/-- C29: the only undefined behaviour of the PPS parser is signed overflow. -/
theorem C29_pps_safe {bb : BB} {k : Bad} (h : bb.WF) (hr : parsePps.run bb = .bad k) : k = .signedOverflow := by
  have hag := Prog.run_agrees parsePps bb h
  unfold parsePps at hr hag
  rw [hr, Prog.denote_bind] at hag
  have hs := parsePpsBody_sound (H := Cond.canon) (A := fun k => k = .signedOverflow) bb.rem
  revert hag hs
  cases parsePpsBody.denote bb.rem with
  | fail r => intro h; exact h.elim
  | bad k => rintro rfl h; exact h
  | ok b r =>
    intro hag _
    rw [ARes.ok_bind, Prog.denote_bind] at hag
    obtain ⟨d, r', ht⟩ := rbspTail_total b.head.pps_extension_4bits r
    rw [ht] at hag
    exact hag.elim

/-- C29: no PPS with a range or 3D extension is returned; lists have the announced lengths; extensions are present only if announced. -/
theorem C29_pps_limits {bb bb' : BB} {s : Pps} (h : bb.WF) (hr : parsePps.run bb = .ok s bb') :
    s.body.head.pps_range_extension_flag = 0 ∧ s.body.head.pps_3d_extension_flag = 0 ∧
    (s.body.pps_scc_extension.isSome ↔ s.body.head.pps_scc_extension_flag = 1) ∧
    (s.body.pps_multilayer_extension.isSome → s.body.head.pps_multilayer_extension_flag = 1) ∧
    (s.body.head.scaling_list_data.isSome ↔ s.body.head.pps_scaling_list_data_present_flag = 1) ∧
    s.body.head.num_extra_slice_header_bits ≤ 7 ∧
    s.body.head.column_width_minus1.length =
      (if s.body.head.tiles_enabled_flag = 1 ∧ s.body.head.uniform_spacing_flag = 0 then s.body.head.num_tile_columns_minus1 else 0) ∧
    s.body.head.row_height_minus1.length =
      (if s.body.head.tiles_enabled_flag = 1 ∧ s.body.head.uniform_spacing_flag = 0 then s.body.head.num_tile_rows_minus1 else 0) := by
  obtain ⟨r, hd, h1, h2, _⟩ := parsePps_run h hr
  have hs := parsePpsBody_sound (H := Cond.canon) (A := fun k => k = .signedOverflow) bb.rem
  rw [hd] at hs
  obtain ⟨w, _, _, hv, h3, hscc, hml, _⟩ := hs
  have optflag : ∀ {c : Prop} {v : Nat}, Opt c (v < 2 ^ 1) (v = 0) → v < 2 := by
    intro c v ho
    by_cases hc : c
    · exact ho.present hc
    · have := ho.absent hc; omega
  have e1 := hv.num_extra_slice_header_bits
  have e2 := hv.tiles_enabled_flag
  refine ⟨hv.pps_range_extension_unsupported, h3, ?_, ?_, ?_, by omega, ?_, ?_⟩
  · rw [hscc.present]; have := optflag hv.pps_scc_extension_flag; omega
  · intro hh; have := hml hh; have := optflag hv.pps_multilayer_extension_flag; omega
  · rw [hv.scaling_list_data.present]; have := hv.pps_scaling_list_data_present_flag; omega
  · split
    · rename_i hc; exact (hv.column_width_minus1.present ⟨by omega, hc.2⟩).length
    · rename_i hc; rw [hv.column_width_minus1.absent (fun hh => hc ⟨by omega, hh.2⟩)]; rfl
  · split
    · rename_i hc; exact (hv.row_height_minus1.present ⟨by omega, hc.2⟩).length
    · rename_i hc; rw [hv.row_height_minus1.absent (fun hh => hc ⟨by omega, hh.2⟩)]; rfl

/-- The PPS of the unit test, test/h265_pps_parser_unittest.cc:24-26 -/
def testPps : List UInt8 := [0xc0, 0xf3, 0xc0, 0x02, 0x10, 0x00]

/-- hypotheses met: the values expected by the unit test -/
example : ((parsePps.parseEscaped testPps).val?.map fun s =>
    [s.body.head.pps_pic_parameter_set_id, s.body.head.cabac_init_present_flag, s.body.head.cu_qp_delta_enabled_flag,
      s.body.head.tiles_enabled_flag, s.body.head.log2_parallel_merge_level_minus2, s.body.head.pps_extension_present_flag]) =
    some [0, 1, 1, 0, 3, 0] := by decide +kernel

/-- A PPS that announces a multilayer extension with a colour mapping table. -/
def lostPps : List UInt8 := [0xc0, 0x71, 0x80, 0x15, 0x0, 0xe0]

/-- C29: the unsupported extension makes the extension parser fail, but the PPS is returned all the same, without it. -/
theorem C29_multilayer_lost : ∃ s bb', parsePps.run (BB.init lostPps) = .ok s bb' ∧ Spec.MultilayerLost s.body := by
  have h : ((parsePps.run (BB.init lostPps)).val?.map fun s =>
    (s.body.head.pps_multilayer_extension_flag, s.body.pps_multilayer_extension)) = some (1, none) := by decide +kernel
  cases hr : parsePps.run (BB.init lostPps) with
  | ok s bb' =>
    rw [hr] at h
    simp only [Res.val?, Option.map_some, Option.some.injEq, Prod.mk.injEq] at h
    exact ⟨s, bb', rfl, h⟩
  | fail bb => rw [hr] at h; cases h
  | bad k => rw [hr] at h; cases h

/-- pps_scc_extension() of the standard (clause 7.3.2.3.3): chroma_bit_depth_entry_minus8 is present if monochrome_palette_flag is 0. -/
def Spec.ppsSccExtensionStd (s : PpsSccExtension) : List Bool :=
  seq [u 1 s.pps_curr_pic_ref_enabled_flag, u 1 s.residual_adaptive_colour_transform_enabled_flag,
    cond (s.residual_adaptive_colour_transform_enabled_flag = 1) (u 1 s.pps_slice_act_qp_offsets_present_flag),
    cond (s.residual_adaptive_colour_transform_enabled_flag = 1) (se s.pps_act_y_qp_offset_plus5),
    cond (s.residual_adaptive_colour_transform_enabled_flag = 1) (se s.pps_act_cb_qp_offset_plus5),
    cond (s.residual_adaptive_colour_transform_enabled_flag = 1) (se s.pps_act_cr_qp_offset_plus3),
    u 1 s.pps_palette_predictor_initializer_present_flag,
    cond (s.pps_palette_predictor_initializer_present_flag = 1) (ue s.pps_num_palette_predictor_initializer),
    cond (s.pps_num_palette_predictor_initializer > 0) (u 1 s.monochrome_palette_flag),
    cond (s.pps_num_palette_predictor_initializer > 0) (ue s.luma_bit_depth_entry_minus8),
    cond (s.pps_num_palette_predictor_initializer > 0 ∧ s.monochrome_palette_flag = 0) (ue s.chroma_bit_depth_entry_minus8),
    cond (s.pps_num_palette_predictor_initializer > 0)
      (listI (fun comp => list (u (if comp = 0 then s.luma_bit_depth_entry_minus8 + 8 else s.chroma_bit_depth_entry_minus8 + 8))) 0
        s.pps_palette_predictor_initializers)]

/-- A standard-conforming SCC extension: one 8-bit 4:4:4 palette entry (0xff, 0, 0). -/
def stdScc : PpsSccExtension :=
  { pps_curr_pic_ref_enabled_flag := 0, residual_adaptive_colour_transform_enabled_flag := 0, pps_slice_act_qp_offsets_present_flag := 0,
    pps_act_y_qp_offset_plus5 := 0, pps_act_cb_qp_offset_plus5 := 0, pps_act_cr_qp_offset_plus3 := 0,
    pps_palette_predictor_initializer_present_flag := 1, pps_num_palette_predictor_initializer := 1, monochrome_palette_flag := 0,
    luma_bit_depth_entry_minus8 := 0, chroma_bit_depth_entry_minus8 := 0, pps_palette_predictor_initializers := [[0xfe], [0], [0]] }

/-- C29 (deviation): the code reads chroma_bit_depth_entry_minus8 in the wrong case, so that a conforming SCC extension with a colour palette is
decoded to wrong palette entries (0xff instead of 0xfe), while the same values without the chroma bit depth are accepted. -/
theorem C29_scc_chroma_depth_counterexample :
    (∃ s r, parsePpsSccExtension.denote (Spec.ppsSccExtensionStd stdScc) = .ok s r ∧ s.pps_palette_predictor_initializers = [[0xff], [0], [0]] ∧ s ≠ stdScc) ∧
    parsePpsSccExtension.denote (Spec.ppsSccExtension stdScc) = .ok stdScc [] := by
  refine ⟨?_, by rfl⟩
  exact ⟨{ stdScc with pps_palette_predictor_initializers := [[0xff], [0], [0]] }, [false], rfl, rfl, by decide⟩

end H265
