/-
The text of a NAL unit determines everything of it that is shown.
-/
import Verif.Proof.DumpDet6
import Verif.Proof.DumpStream

set_option autoImplicit false

namespace H265
open Spec

/-! ### The elements that are not shown do not matter for the text -/

theorem textScalingListData_shown (s : ScalingListData) : textScalingListData s = textScalingListData s.shown := by
  unfold textScalingListData ScalingListData.scaling_list_pred_mode_flag ScalingListData.scaling_list_pred_matrix_id_delta
    ScalingListData.scaling_list_dc_coef_minus8 ScalingListData.ScalingList ScalingListData.shown
  simp only [List.mapIdx_eq_zipIdx_map, List.zipIdx_map, List.map_map, Function.comp_def, ScalingMatrix.shown, Prod.map, id]

theorem some?_some {α : Type} (x : α) (f : α → Text) : some? (some x) f = f x := by simp [some?]
theorem some?_none {α : Type} (f : α → Text) : some? none f = [] := rfl
theorem some?_congr {α : Type} {o : Option α} {f g : α → Text} (h : ∀ x, o = some x → f x = g x) : some? o f = some? o g := by
  cases o with
  | none => rfl
  | some x => rw [some?_some, some?_some, h x rfl]

theorem some?_map {α β : Type} (o : Option α) (g : α → β) (f : β → Text) : some? (o.map g) f = some? o (fun x => f (g x)) := by cases o <;> rfl

theorem textVps_shown (v : Vps) : textVps v = textVps v.shown := by
  have h1 : (shownHrds v.body.hrds).getLast? = v.body.hrds.getLast? := by
    unfold shownHrds
    cases h : v.body.hrds.getLast? with
    | none => rw [List.getLast?_eq_none_iff.1 h]; rfl
    | some x => simp
  have h2 : ∀ {β : Type} (g : VpsHrd → β), (∀ h, g { h with hrd_parameters := default } = g h) → (shownHrds v.body.hrds).map g = v.body.hrds.map g := by
    intro β g hg
    unfold shownHrds
    rw [List.map_append, List.map_map]
    have : (g ∘ fun h : VpsHrd => { h with hrd_parameters := default }) = g := funext hg
    rw [this, ← List.map_append]
    rcases List.eq_nil_or_concat v.body.hrds with h | ⟨l, a, h⟩ <;> rw [h] <;> simp
  unfold textVps Vps.shown
  dsimp only
  rw [h1, h2 _ (fun _ => rfl), h2 _ (fun _ => rfl)]

theorem textSps_shown (o : Bool) (v : Sps) : textSps o v = textSps o v.shown := by
  unfold textSps Sps.shown SpsBody.shown
  dsimp only
  rw [some?_map]
  simp only [← textScalingListData_shown]
  rfl

theorem textPpsScc_shown {s : PpsSccExtension} (h : ValidPpsSccExtension s) : textPpsSccExtension s = textPpsSccExtension s.shown := by
  unfold textPpsSccExtension PpsSccExtension.shown
  dsimp only
  unfold Spec.opt
  by_cases k : s.monochrome_palette_flag = 0
  · rw [if_pos k, if_pos k]
    have : s.chroma_bit_depth_entry_minus8 = 0 := by
      refine h.chroma_bit_depth_entry_minus8.absent (by omega)
    rw [this]
  · rw [if_neg k, if_neg k]

theorem textPps_shown {v : Pps} (h : ValidPpsBody v.body) : textPps v = textPps v.shown := by
  unfold textPps Pps.shown PpsBody.shown
  dsimp only
  rw [some?_map, some?_map]
  simp only [← textScalingListData_shown]
  have : some? v.body.pps_scc_extension textPpsSccExtension = some? v.body.pps_scc_extension (fun x => textPpsSccExtension x.shown) :=
    some?_congr (fun x hx => textPpsScc_shown (h.pps_scc_extension.valid x hx))
  rw [this]
  simp only [Option.isSome_map]

/-! ### Slices -/

theorem textSlice_shown (P : PpsBody) (S : SpsBody) (h : SliceSegmentHeader) :
    textSliceSegmentHeader P S h = textSliceSegmentHeader P.shown S.shown h := rfl

theorem ValidSliceBody.shown {t f : Nat} {P : PpsBody} {S : SpsBody} {b : SliceBody} (h : ValidSliceBody t P S f b) : ValidSliceBody t P.shown S.shown f b := by
  have e : slicePpsActFlag P.shown = slicePpsActFlag P := by
    unfold slicePpsActFlag PpsBody.shown
    dsimp only
    rw [Option.map_map]; rfl
  exact ⟨h.dependent_slice_segment_flag, h.slice_segment_address, h.slice_reserved_flag, h.slice_type, h.pic_output_flag, h.colour_plane_id, h.slice_pic_order_cnt_lsb, h.short_term_ref_pic_set_sps_flag, h.st_ref_pic_set, h.short_term_ref_pic_set_idx, h.num_long_term_sps, h.num_long_term_pics, h.lt_ref_pics, h.slice_temporal_mvp_enabled_flag, h.slice_sao_luma_flag, h.slice_sao_chroma_flag, h.num_ref_idx_active_override_flag, h.num_ref_idx_l0_active_minus1, h.num_ref_idx_l1_active_minus1, h.mvd_l1_zero_flag, h.cabac_init_flag, h.collocated_from_l0_flag, h.collocated_ref_idx, h.pred_weight_table, h.five_minus_max_num_merge_cand, h.use_integer_mv_flag, h.slice_qp_delta, h.slice_cb_qp_offset, h.slice_cr_qp_offset, e ▸ h.act_qp_offsets_present, h.slice_act_y_qp_offset, h.slice_act_cb_qp_offset, h.slice_act_cr_qp_offset, h.deblocking_filter_override_flag, h.slice_deblocking_filter_disabled_flag, h.slice_beta_offset_div2, h.slice_tc_offset_div2, h.slice_loop_filter_across_slices_enabled_flag, h.num_entry_point_offsets, h.num_entry_point_offsets_valid, h.offset_len_minus1, h.entry_point_offset_minus1, h.slice_segment_header_extension_length, h.slice_segment_header_extension_data_byte⟩

theorem slice_bounds {S : SpsBody} (hS : ValidSpsBody S) : S.log2_max_pic_order_cnt_lsb_minus4 + 4 ≤ 32 ∧ ceilLog2f S.num_long_term_ref_pics_sps ≤ 32 ∧
    ceilLog2f S.num_short_term_ref_pic_sets ≤ 32 := by
  refine ⟨?_, ceilLog2f_le ?_, ceilLog2f_le ?_⟩
  · have := hS.log2_max_pic_order_cnt_lsb_minus4; omega
  · exact Spec.Opt.either hS.num_long_term_ref_pics_sps (fun k => by omega) (fun k => by omega)
  · have := hS.num_short_term_ref_pic_sets; omega

/-- the elements before the parameter sets are looked up are printed first -/
theorem sliceHead_det {P P' : PpsBody} {S S' : SpsBody} {v w : SliceSegmentHeader} (ha : ValidSliceHead v.nal_unit_type v.head)
    (hb : ValidSliceHead w.nal_unit_type w.head) {r t : Text} (h : textSliceSegmentHeader P S v ++ r = textSliceSegmentHeader P' S' w ++ t) : v.head = w.head := by
  obtain ⟨a_t, ⟨a1, a2, a3⟩, av⟩ := v
  obtain ⟨b_t, ⟨b1, b2, b3⟩, bv⟩ := w
  obtain ⟨va1, va2, va3⟩ := ha
  obtain ⟨vb1, vb2, vb3⟩ := hb
  dsimp only at *
  unfold textSliceSegmentHeader at h
  simp only [Spec.block, braces, List.append_assoc] at h
  have h := List.append_cancel_left (List.append_cancel_left h)
  replace h := step (det_u32 (by bd va1) (by bd vb1)) h
  obtain ⟨rfl, h⟩ := h
  replace h := step (det_u32 (by bd va2) (by bd vb2)) h
  obtain ⟨rfl, h⟩ := h
  replace h := step (det_u32 (by bd va3) (by bd vb3)) h
  obtain ⟨rfl, h⟩ := h
  rfl

/-- two states whose parameter sets look the same in the text -/
structure Alike (st st' : ParserState) : Prop where
  sps : ∀ i, (st.sps i).map Sps.shown = (st'.sps i).map Sps.shown
  pps : ∀ i, (st.pps i).map Pps.shown = (st'.pps i).map Pps.shown

theorem Alike.refl (st : ParserState) : Alike st st := ⟨fun _ => rfl, fun _ => rfl⟩

/-- a slice header parsed in state `st` -/
def SliceIn (st : ParserState) (t : Nat) (h : SliceSegmentHeader) : Prop :=
  ∃ P S, Spec.Names st.pps st.sps h.head.slice_pic_parameter_set_id P S ∧ ValidSpsBody S.body ∧ h.nal_unit_type = t ∧ ValidSliceHead t h.head ∧
    ValidSliceBody t P.body S.body h.head.first_slice_segment_in_pic_flag h.body

theorem map_eq_some {α β : Type} {o o' : Option α} {f : α → β} (h : o.map f = o'.map f) {x : α} (hx : o = some x) : ∃ y, o' = some y ∧ f x = f y := by
  subst hx
  cases o' with
  | none => cases h
  | some y => exact ⟨y, rfl, Option.some.inj h⟩

theorem det_Slice {st st' : ParserState} {t : Nat} {v w : SliceSegmentHeader} (hs : Alike st st') (ha : SliceIn st t v) (hb : SliceIn st' t w) :
    Det (textSlice st v) (textSlice st' w) (v = w) := by
  obtain ⟨P, S, n1, hS, rfl, a1, a2⟩ := ha
  obtain ⟨P', S', n2, hS', ht, b1, b2⟩ := hb
  unfold textSlice
  rw [n1.1, n2.1, some?_some, some?_some, n1.2, n2.2, some?_some, some?_some]
  show Det (textSliceSegmentLayer P.body S.body v) (textSliceSegmentLayer P'.body S'.body w) _
  unfold textSliceSegmentLayer
  refine det_block ?_
  intro r t h
  have hh := sliceHead_det (r := r) (t := t) a1 (ht ▸ b1) (by simpa using h)
  have n1' := n1
  obtain ⟨y, hy, ey⟩ := map_eq_some (hs.pps _) n1.1
  rw [hh, n2.1] at hy
  obtain rfl := Option.some.inj hy
  have eb : P.body.shown = P'.body.shown := congrArg Pps.body ey
  have eid : P.body.head.pps_seq_parameter_set_id = P'.body.head.pps_seq_parameter_set_id := (congrArg (fun b : PpsBody => b.head.pps_seq_parameter_set_id) eb :)
  obtain ⟨z, hz, ez⟩ := map_eq_some (hs.sps _) n1.2
  rw [eid, n2.2] at hz
  obtain rfl := Option.some.inj hz
  have es : S.body.shown = S'.body.shown := congrArg Sps.body ez
  obtain ⟨k1, k2, k3⟩ := slice_bounds hS
  rw [textSlice_shown P.body, textSlice_shown P'.body, ← eb, ← es] at h
  have := det_SliceSegmentHeader (P := P.body.shown) (S := S.body.shown) k1 k2 k3 ht.symm a1 (ht.symm ▸ b1) (ValidSliceBody.shown a2)
    (by rw [eb, es, ht]; exact ValidSliceBody.shown b2)
  obtain ⟨e, h⟩ := step this h
  exact ⟨e, steps_nil h⟩

theorem textSlice_alike {st st' : ParserState} {t : Nat} {h : SliceSegmentHeader} (hs : Alike st st') (ha : SliceIn st t h) (hb : SliceIn st' t h) :
    textSlice st h = textSlice st' h := by
  obtain ⟨P, S, n1, -⟩ := ha
  obtain ⟨P', S', n2, -⟩ := hb
  obtain ⟨y, hy, ey⟩ := map_eq_some (hs.pps _) n1.1
  rw [n2.1] at hy
  obtain rfl := Option.some.inj hy
  have eb : P.body.shown = P'.body.shown := congrArg Pps.body ey
  have eid : P.body.head.pps_seq_parameter_set_id = P'.body.head.pps_seq_parameter_set_id := (congrArg (fun b : PpsBody => b.head.pps_seq_parameter_set_id) eb :)
  obtain ⟨z, hz, ez⟩ := map_eq_some (hs.sps _) n1.2
  rw [eid, n2.2] at hz
  obtain rfl := Option.some.inj hz
  have es : S.body.shown = S'.body.shown := congrArg Sps.body ez
  unfold textSlice
  rw [n1.1, n2.1, some?_some, some?_some, n1.2, n2.2, some?_some, some?_some]
  show block "slice_segment_layer" [textSliceSegmentHeader P.body S.body h] = block "slice_segment_layer" [textSliceSegmentHeader P'.body S'.body h]
  rw [textSlice_shown P.body, textSlice_shown P'.body, eb, es]

/-! ### SEI messages -/

/-- a message as the parser returns it -/
structure SeiOk (m : SeiMessage) : Prop where
  type : m.payload_type < 2 ^ 32
  payload : ∀ p, m.payload_state = some p → ValidSeiPayload m.payload_type m.payload_size p

theorem opens_block {name : String} {ts : List Text} (h : Opens (words name.toList)) : Opens (block name ts) := by
  obtain ⟨w, ws, e, hw⟩ := h
  exact ⟨w, ws ++ braces ts.flatten, by unfold Spec.block; rw [e]; rfl, hw⟩

/-- `some? …` followed by a closing brace, when the text does not begin with one -/
theorem det_optional {α : Type} {o o' : Option α} {f g : α → Text} {E : α → α → Prop} (hf : ∀ x, o = some x → Opens (f x)) (hg : ∀ y, o' = some y → Opens (g y))
    (h : ∀ x y, o = some x → o' = some y → Det (f x) (g y) (E x y)) :
    Det (some? o f ++ ["}".toList]) (some? o' g ++ ["}".toList]) (o.isSome = o'.isSome ∧ ∀ x y, o = some x → o' = some y → E x y) := by
  intro r t e
  cases o with
  | none =>
    cases o' with
    | none => exact ⟨⟨rfl, by simp⟩, (List.cons.inj e).2⟩
    | some y =>
      obtain ⟨w, ws, hw, hne⟩ := hg y rfl
      simp only [some?_some, some?_none, hw, List.nil_append, List.cons_append] at e
      exact absurd (List.cons.inj e).1.symm hne
  | some x =>
    cases o' with
    | none =>
      obtain ⟨w, ws, hw, hne⟩ := hf x rfl
      simp only [some?_some, some?_none, hw, List.nil_append, List.cons_append] at e
      exact absurd (List.cons.inj e).1 hne
    | some y =>
      simp only [some?_some, List.append_assoc] at e
      obtain ⟨p, e⟩ := h x y rfl rfl _ _ e
      exact ⟨⟨rfl, by rintro a b ⟨⟩ ⟨⟩; exact p⟩, (List.cons.inj e).2⟩

theorem opens_SeiPayload (p : SeiPayload) : Opens (textSeiPayload p) := by
  cases p <;> exact opens_block ⟨_, _, (by rfl), by decide⟩

theorem det_Sei {m m' : SeiMessage} (ha : SeiOk m) (hb : SeiOk m') : Det (textSei m) (textSei m') (m = m') := by
  obtain ⟨t, n, p⟩ := m
  obtain ⟨t', n', p'⟩ := m'
  obtain ⟨a1, a2⟩ := ha
  obtain ⟨b1, b2⟩ := hb
  dsimp only at *
  intro r s h
  unfold textSei at h
  simp only [Spec.block, braces, List.append_assoc] at h
  replace h := List.append_cancel_left (List.append_cancel_left h)
  replace h := step (det_u32 a1 b1) h
  obtain ⟨rfl, h⟩ := h
  replace h := step (det_numNat) h
  obtain ⟨rfl, h⟩ := h
  have h' : (some? p textSeiPayload ++ ["}".toList]) ++ r = (some? p' textSeiPayload ++ ["}".toList]) ++ s := by simpa using h
  obtain ⟨⟨e1, e2⟩, h⟩ := det_optional (fun x _ => opens_SeiPayload x) (fun x _ => opens_SeiPayload x) (fun x y hx hy => det_SeiPayload (a2 x hx) (b2 y hy)) _ _ h'
  rw [option_ext e1 e2]
  exact ⟨rfl, h⟩

/-! ### What the parser guarantees about a payload -/

theorem extLoop_bit (fuel : Nat) : ∀ (x : Nat) (r : List Bool) {d : Nat} {r' : List Bool}, x ≤ 1 → (Prog.extLoop fuel x).denote r = .ok d r' → d ≤ 1 := by
  induction fuel with
  | zero => intro x r d r' _ h; cases h
  | succ fuel ih =>
    intro x r d r' hx h
    rw [Prog.extLoop, show ∀ f : Bool → Prog Nat, Prog.moreRbspData.bind f = (Prog.moreRbspData >>= f) from fun _ => rfl,
      Prog.denote_bind, moreRbspData_denote, ARes.ok_bind] at h
    by_cases hm : moreData r = true
    · rw [if_pos hm, Prog.denote, if_neg (by omega)] at h
      split at h
      · refine ih _ _ ?_ h
        have := val_lt (r.take 1)
        rw [List.length_take] at this
        have h2 : 2 ^ min 1 r.length ≤ 2 ^ 1 := Nat.pow_le_pow_right (by decide) (Nat.min_le_left _ _)
        omega
      · cases h
    · rw [if_neg hm] at h; cases h; exact hx

theorem rbspTail_bit {ext d : Nat} {r r' : List Bool} (h : (Prog.rbspTail ext).denote r = .ok d r') : d ≤ 1 := by
  unfold Prog.rbspTail at h
  rw [← Prog.bind_def, Prog.denote_bind] at h
  cases h1 : (Prog.opt (ext ≠ 0) (Prog.remaining fun n => Prog.extLoop (n + 1) 0) 0).denote r with
  | fail r1 => rw [h1] at h; cases h
  | bad k => rw [h1] at h; cases h
  | ok x r1 =>
    rw [h1, ARes.ok_bind, ← Prog.bind_def, Prog.denote_bind] at h
    have hx : x = d := by
      cases h2 : Prog.rbspTrailingBits.denote r1 with
      | fail r1 => rw [h2] at h; cases h
      | bad k => rw [h2] at h; cases h
      | ok y r2 => rw [h2] at h; cases h; rfl
    subst hx
    unfold Prog.opt at h1
    by_cases hc : ext ≠ 0
    · rw [if_pos hc, Prog.denote] at h1; exact extLoop_bit _ _ _ (by omega) h1
    · rw [if_neg hc] at h1; cases h1; omega

theorem vps_ext_bit {bb bb' : BB} {s : Vps} (h : bb.WF) (hr : parseVps.run bb = .ok s bb') : s.vps_extension_data_flag < 2 ^ 32 := by
  have hd := denote_of_run_ok h hr
  unfold parseVps at hd
  rw [Prog.denote_bind] at hd
  cases h1 : parseVpsBody.denote bb.rem with
  | fail r1 => rw [h1] at hd; cases hd
  | bad k => rw [h1] at hd; cases hd
  | ok b r1 =>
    rw [h1, ARes.ok_bind, Prog.denote_bind] at hd
    cases h2 : (Prog.rbspTail b.vps_extension_flag).denote r1 with
    | fail r1 => rw [h2] at hd; cases hd
    | bad k => rw [h2] at hd; cases hd
    | ok x r2 =>
      rw [h2] at hd; cases hd
      have := rbspTail_bit h2
      show x < _
      omega

/-- a payload that the parser can return in state `st` for type `t`, and that can be dumped -/
structure PayloadIn (st : ParserState) (t : Nat) (p : NalUnitPayload) : Prop where
  vps : ∀ x, p.vps = some x → t = 32 ∧ ValidVpsBody x.body ∧ x.vps_extension_data_flag < 2 ^ 32
  sps : ∀ x, p.sps = some x → t = 33 ∧ ValidSpsBody x.body
  pps : ∀ x, p.pps = some x → t = 34 ∧ ValidPpsBody x.body
  aud : ∀ x, p.aud = some x → t = 35 ∧ ValidAud x
  slice : ∀ x, p.slice_segment_layer = some x → (t ≤ 9 ∨ (16 ≤ t ∧ t ≤ 21)) ∧ SliceIn st t x
  sei : ∀ x, p.sei = some x → (t = 39 ∨ t = 40) ∧ SeiOk x

theorem ParsedIn.payloadIn {st : ParserState} {t : Nat} {p : NalUnitPayload} (hs : Reach st) (h : ParsedIn st t p) (hn : ¬ NoPayload t p) : PayloadIn st t p := by
  obtain ⟨bb, bb', st', hw, hr⟩ := h
  obtain ⟨h1, h2, h3, h4, h5, h6⟩ := C21_payload hr
  have hst := C21_reachable_states hs
  refine ⟨fun x hx => ?_, fun x hx => ?_, fun x hx => ?_, fun x hx => ?_, fun x hx => ?_, fun x hx => ?_⟩
  · obtain ⟨ht, g⟩ := h1 x hx
    exact ⟨ht, (C28_vps_inverts.sound _ _ _ hw g).1, vps_ext_bit hw g⟩
  · obtain ⟨ht, g⟩ := h2 x hx
    exact ⟨ht, (C27_sps_inverts.sound _ _ _ hw g).1⟩
  · obtain ⟨ht, g⟩ := h3 x hx
    exact ⟨ht, (C29_pps_sound hw g (fun hl => hn (.inr ⟨x, hx, hl⟩))).1⟩
  · obtain ⟨ht, g⟩ := h4 x hx
    refine ⟨ht, ?_⟩
    rcases C19_aud hw with ⟨b, e, h3⟩ | ⟨b, e, _⟩
    · rw [e] at g; cases g
      have := val_lt (bb.rem.take 3)
      rw [List.length_take] at this
      have h2 : 2 ^ min 3 bb.rem.length ≤ 2 ^ 3 := Nat.pow_le_pow_right (by decide) (Nat.min_le_left _ _)
      exact ⟨by show val _ < _; omega⟩
    · rw [e] at g; cases g
  · obtain ⟨ht, g⟩ := h5 x hx
    refine ⟨(isSlice_iff t).1 ht, ?_⟩
    obtain ⟨P, S, n1, ⟨k1, k2, k3⟩, _⟩ := C36_slice_sound (fun i P h => (hst.pps i P h).1) (fun i S h => (hst.sps i S h).1) hw g
    exact ⟨P, S, n1, (hst.sps _ _ n1.2).1.spsValid, k1, k2, k3⟩
  · obtain ⟨ht, g⟩ := h6 x hx
    obtain ⟨k1, _, _, _, rest, _, k2⟩ := C40_sei_sound hw g
    refine ⟨ht, k1, fun p hp => ?_⟩
    rw [hp] at k2
    exact k2.1

/-! ### Payloads -/

theorem opens_word {w : List Char} {ws : Text} (h : w ≠ "}".toList) : Opens (w :: ws) := ⟨w, ws, rfl, h⟩

theorem det_payloadBlock {α : Type} {o o' : Option α} {f g : α → Text} {E : α → α → Prop} (hf : ∀ x, o = some x → Opens (f x)) (hg : ∀ y, o' = some y → Opens (g y))
    (h : ∀ x y, o = some x → o' = some y → Det (f x) (g y) (E x y)) {name : String} :
    Det (block name [some? o f]) (block name [some? o' g]) (o.isSome = o'.isSome ∧ ∀ x y, o = some x → o' = some y → E x y) := by
  intro r t e
  simp only [Spec.block, braces, List.append_assoc] at e
  replace e := List.append_cancel_left (List.append_cancel_left e)
  exact det_optional hf hg h r t (by simpa using e)

theorem map_ext {α β : Type} {o o' : Option α} {f : α → β} (h : o.isSome = o'.isSome ∧ ∀ x y, o = some x → o' = some y → f x = f y) : o.map f = o'.map f := by
  cases o <;> cases o' <;> simp_all

theorem PayloadIn.none {st : ParserState} {t : Nat} {p : NalUnitPayload} (h : PayloadIn st t p) :
    (t ≠ 32 → p.vps = none) ∧ (t ≠ 33 → p.sps = none) ∧ (t ≠ 34 → p.pps = none) ∧ (t ≠ 35 → p.aud = none) ∧
    (¬ (t ≤ 9 ∨ (16 ≤ t ∧ t ≤ 21)) → p.slice_segment_layer = none) ∧ (¬ (t = 39 ∨ t = 40) → p.sei = none) := by
  have key : ∀ {α : Type} {c : Prop} {P : α → Prop} (o : Option α), (∀ x, o = some x → c ∧ P x) → ¬ c → o = Option.none := by
    intro α c P o h hc
    cases o with
    | none => rfl
    | some x => exact absurd (h x rfl).1 hc
  exact ⟨fun k => key _ h.vps k, fun k => key _ h.sps k, fun k => key _ h.pps k, fun k => key _ h.aud k, fun k => key _ h.slice k, fun k => key _ h.sei k⟩

theorem textPayload_one {o : ParsingOptions} {st : ParserState} {p : NalUnitPayload} {ws : Text} (h : ws = List.flatten [
    some? p.slice_segment_layer (textSlice st), some? p.vps textVps, some? p.sps (textSps o.add_resolution),
    some? p.pps textPps, some? p.aud textAud, some? p.sei textSei]) : textNalUnitPayload o st p = block "nal_unit_payload" [ws] :=
  block_of_flatten (by rw [h]; simp only [List.flatten_cons, List.flatten_nil, List.append_nil])

theorem opens_Slice {st : ParserState} {t : Nat} {h : SliceSegmentHeader} (hs : SliceIn st t h) : Opens (textSlice st h) := by
  obtain ⟨P, S, n1, -⟩ := hs
  unfold textSlice
  rw [n1.1, some?_some, n1.2, some?_some]
  exact opens_block (opens_word (by decide))

theorem opens_Vps (v : Vps) : Opens (textVps v) := opens_block (opens_word (by decide))
theorem opens_Sps (o : Bool) (v : Sps) : Opens (textSps o v) := opens_block (opens_word (by decide))
theorem opens_Pps (v : Pps) : Opens (textPps v) := opens_block (opens_word (by decide))
theorem opens_Aud (v : Aud) : Opens (textAud v) := opens_block (opens_word (by decide))
theorem opens_Sei (v : SeiMessage) : Opens (textSei v) := opens_block (opens_word (by decide))

theorem det_Payload {o : ParsingOptions} {st st' : ParserState} {t : Nat} {p p' : NalUnitPayload} (hs : Alike st st') (ha : PayloadIn st t p)
    (hb : PayloadIn st' t p') : Det (textNalUnitPayload o st p) (textNalUnitPayload o st' p') (p.shown = p'.shown) := by
  obtain ⟨a1, a2, a3, a4, a5, a6⟩ := ha.none
  obtain ⟨b1, b2, b3, b4, b5, b6⟩ := hb.none
  obtain ⟨pv, ps, pp, pa, pl, pe⟩ := p
  obtain ⟨qv, qs, qp, qa, ql, qe⟩ := p'
  dsimp only at *
  by_cases h0 : t ≤ 9 ∨ (16 ≤ t ∧ t ≤ 21)
  · obtain rfl := a1 (by omega); obtain rfl := a2 (by omega); obtain rfl := a3 (by omega); obtain rfl := a4 (by omega); obtain rfl := a6 (by omega)
    obtain rfl := b1 (by omega); obtain rfl := b2 (by omega); obtain rfl := b3 (by omega); obtain rfl := b4 (by omega); obtain rfl := b6 (by omega)
    rw [textPayload_one (ws := some? pl (textSlice st)) (by simp [some?]), textPayload_one (ws := some? ql (textSlice st')) (by simp [some?])]
    refine (det_payloadBlock (E := Eq) (fun x hx => opens_Slice (ha.slice x hx).2) (fun x hx => opens_Slice (hb.slice x hx).2)
      (fun x y hx hy => det_Slice hs (ha.slice x hx).2 (hb.slice y hy).2)).mono (fun e => ?_)
    have e' := option_ext e.1 e.2; dsimp only at e'; subst e'; rfl
  obtain rfl := a5 h0; obtain rfl := b5 h0
  by_cases h1 : t = 32
  · obtain rfl := a2 (by omega); obtain rfl := a3 (by omega); obtain rfl := a4 (by omega); obtain rfl := a6 (by omega)
    obtain rfl := b2 (by omega); obtain rfl := b3 (by omega); obtain rfl := b4 (by omega); obtain rfl := b6 (by omega)
    rw [textPayload_one (ws := some? pv textVps) (by simp [some?]), textPayload_one (ws := some? qv textVps) (by simp [some?])]
    refine (det_payloadBlock (E := fun x y => x.shown = y.shown) (fun x _ => opens_Vps x) (fun x _ => opens_Vps x)
      (fun x y hx hy => det_Vps (ha.vps x hx).2.1 (hb.vps y hy).2.1 (ha.vps x hx).2.2 (hb.vps y hy).2.2)).mono (fun e => ?_)
    unfold NalUnitPayload.shown; dsimp only; rw [map_ext e]
  obtain rfl := a1 h1; obtain rfl := b1 h1
  by_cases h2 : t = 33
  · obtain rfl := a3 (by omega); obtain rfl := a4 (by omega); obtain rfl := a6 (by omega)
    obtain rfl := b3 (by omega); obtain rfl := b4 (by omega); obtain rfl := b6 (by omega)
    rw [textPayload_one (ws := some? ps (textSps o.add_resolution)) (by simp [some?]), textPayload_one (ws := some? qs (textSps o.add_resolution)) (by simp [some?])]
    refine (det_payloadBlock (E := fun x y => x.shown = y.shown) (fun x _ => opens_Sps _ x) (fun x _ => opens_Sps _ x)
      (fun x y hx hy => det_Sps (ha.sps x hx).2 (hb.sps y hy).2)).mono (fun e => ?_)
    unfold NalUnitPayload.shown; dsimp only; rw [map_ext e]
  obtain rfl := a2 h2; obtain rfl := b2 h2
  by_cases h3 : t = 34
  · obtain rfl := a4 (by omega); obtain rfl := a6 (by omega)
    obtain rfl := b4 (by omega); obtain rfl := b6 (by omega)
    rw [textPayload_one (ws := some? pp textPps) (by simp [some?]), textPayload_one (ws := some? qp textPps) (by simp [some?])]
    refine (det_payloadBlock (E := fun x y => x.shown = y.shown) (fun x _ => opens_Pps x) (fun x _ => opens_Pps x)
      (fun x y hx hy => det_Pps (ha.pps x hx).2 (hb.pps y hy).2)).mono (fun e => ?_)
    unfold NalUnitPayload.shown; dsimp only; rw [map_ext e]
  obtain rfl := a3 h3; obtain rfl := b3 h3
  by_cases h4 : t = 35
  · obtain rfl := a6 (by omega); obtain rfl := b6 (by omega)
    rw [textPayload_one (ws := some? pa textAud) (by simp [some?]), textPayload_one (ws := some? qa textAud) (by simp [some?])]
    refine (det_payloadBlock (E := Eq) (fun x _ => opens_Aud x) (fun x _ => opens_Aud x)
      (fun x y hx hy => det_Aud (ha.aud x hx).2 (hb.aud y hy).2)).mono (fun e => ?_)
    have e' := option_ext e.1 e.2; dsimp only at e'; subst e'; rfl
  obtain rfl := a4 h4; obtain rfl := b4 h4
  rw [textPayload_one (ws := some? pe textSei) (by simp [some?]), textPayload_one (ws := some? qe textSei) (by simp [some?])]
  refine (det_payloadBlock (E := Eq) (fun x _ => opens_Sei x) (fun x _ => opens_Sei x)
    (fun x y hx hy => det_Sei (ha.sei x hx).2 (hb.sei y hy).2)).mono (fun e => ?_)
  have e' := option_ext e.1 e.2; dsimp only at e'; subst e'; rfl

theorem some?_map_eq {α β : Type} {o o' : Option α} {g : α → β} {f f' : α → Text} (h : o.map g = o'.map g)
    (he : ∀ x y, o = some x → o' = some y → g x = g y → f x = f' y) : some? o f = some? o' f' := by
  cases o with
  | none => cases o' with
    | none => rfl
    | some y => cases h
  | some x => cases o' with
    | none => cases h
    | some y => rw [some?_some, some?_some]; exact he x y rfl rfl (Option.some.inj h)

theorem textPayload_alike {o : ParsingOptions} {st st' : ParserState} {t : Nat} {p p' : NalUnitPayload} (hs : Alike st st') (ha : PayloadIn st t p)
    (hb : PayloadIn st' t p') (h : p.shown = p'.shown) : textNalUnitPayload o st p = textNalUnitPayload o st' p' := by
  have e1 : p.vps.map Vps.shown = p'.vps.map Vps.shown := congrArg NalUnitPayload.vps h
  have e2 : p.sps.map Sps.shown = p'.sps.map Sps.shown := congrArg NalUnitPayload.sps h
  have e3 : p.pps.map Pps.shown = p'.pps.map Pps.shown := congrArg NalUnitPayload.pps h
  have e4 : p.aud = p'.aud := (congrArg NalUnitPayload.aud h :)
  have e5 : p.slice_segment_layer = p'.slice_segment_layer := (congrArg NalUnitPayload.slice_segment_layer h :)
  have e6 : p.sei = p'.sei := (congrArg NalUnitPayload.sei h :)
  have hb5 := hb.slice
  unfold textNalUnitPayload
  rw [← e4, ← e6]
  rw [← e5] at hb5 ⊢
  rw [some?_congr (f := textSlice st) (g := textSlice st') (fun x hx => textSlice_alike hs (ha.slice x hx).2 (hb5 x hx).2),
    some?_map_eq e1 (f' := textVps) (fun x y _ _ k => by rw [textVps_shown x, k, ← textVps_shown]),
    some?_map_eq e2 (f' := textSps o.add_resolution) (fun x y _ _ k => by rw [textSps_shown _ x, k, ← textSps_shown]),
    some?_map_eq e3 (f' := textPps) (fun x y hx hy k => by rw [textPps_shown (ha.pps x hx).2, k, ← textPps_shown (hb.pps y hy).2])]

/-! ### NAL units -/

theorem hex2_length : ∀ b : Nat, b < 256 → (hexadecimal 2 b).length = 2 := by decide +kernel

theorem checksum_inj : ∀ {c d : List UInt8}, (c.flatMap fun b => hexadecimal 2 b.toNat) = (d.flatMap fun b => hexadecimal 2 b.toNat) → c = d
  | [], [], _ => rfl
  | [], b :: d, h => by
    have := congrArg List.length h
    rw [List.flatMap_cons, List.length_append, hex2_length _ b.toNat_lt] at this
    simp at this <;> omega
  | a :: c, [], h => by
    have := congrArg List.length h
    rw [List.flatMap_cons, List.length_append, hex2_length _ a.toNat_lt] at this
    simp at this <;> omega
  | a :: c, b :: d, h => by
    rw [List.flatMap_cons, List.flatMap_cons] at h
    obtain ⟨h1, h2⟩ := List.append_inj h (by rw [hex2_length _ a.toNat_lt, hex2_length _ b.toNat_lt])
    rw [UInt8.toNat_inj.1 (hexadecimal_inj h1), checksum_inj h2]

theorem det_hexEntry {name : String} {x y : List Char} : Det (entry name ["0x".toList ++ x]) (entry name ["0x".toList ++ y]) (x = y) :=
  det_entry (fun r t e => ⟨List.append_cancel_left (List.cons.inj e).1, (List.cons.inj e).2⟩)

/-- what the parser guarantees about a NAL unit that can be dumped -/
structure UnitIn (o : ParsingOptions) (st : ParserState) (n : NalUnit) : Prop where
  header : ValidNalUnitHeader n.nal_unit_header
  payload : PayloadIn st n.nal_unit_header.nal_unit_type n.nal_unit_payload
  checksum : o.add_checksum = true → n.checksum.isSome = true

theorem UnitOk.unitIn {cs : Bool} {o : ParsingOptions} {st : ParserState} {n : NalUnit} (h : UnitOk cs st n) (hn : ¬ NoText o n) : UnitIn o st n := by
  refine ⟨h.header, h.parsed.payloadIn h.reach (fun k => hn (.inr k)), fun ho => ?_⟩
  cases hc : n.checksum with
  | none => exact absurd (.inl ⟨ho, hc⟩) hn
  | some c => rfl

theorem det_NalUnit {o : ParsingOptions} {st st' : ParserState} {n n' : NalUnit} (hs : Alike st st') (ha : UnitIn o st n) (hb : UnitIn o st' n') :
    Det (textNalUnit o st n) (textNalUnit o st' n') (n.shown o = n'.shown o) := by
  obtain ⟨a1, a2, a3⟩ := ha
  obtain ⟨b1, b2, b3⟩ := hb
  unfold textNalUnit
  refine det_block (fun r t h => ?_)
  obtain ⟨e1, h⟩ := step (P := (if o.add_offset = true then n.offset else 0) = (if o.add_offset = true then n'.offset else 0)) (det_when (fun hc r r' h2 => by
    obtain ⟨e, h2⟩ := step det_hexEntry h2
    rw [if_pos hc, if_pos hc]
    exact ⟨hexadecimal_inj e, steps_nil h2⟩) (fun hc => by rw [if_neg hc, if_neg hc])) h
  obtain ⟨e2, h⟩ := step (P := (if o.add_length = true then n.length else 0) = (if o.add_length = true then n'.length else 0)) (det_when (fun hc r r' h2 => by
    obtain ⟨e, h2⟩ := step det_numNat h2
    rw [if_pos hc, if_pos hc]
    exact ⟨e, steps_nil h2⟩) (fun hc => by rw [if_neg hc, if_neg hc])) h
  obtain ⟨e3, h⟩ := step (P := (if o.add_parsed_length = true then n.parsed_length else 0) = (if o.add_parsed_length = true then n'.parsed_length else 0))
    (det_when (fun hc r r' h2 => by
      obtain ⟨e, h2⟩ := step det_numNat h2
      rw [if_pos hc, if_pos hc]
      exact ⟨e, steps_nil h2⟩) (fun hc => by rw [if_neg hc, if_neg hc])) h
  obtain ⟨e4, h⟩ := step (P := (if o.add_checksum = true then n.checksum else none) = (if o.add_checksum = true then n'.checksum else none))
    (det_when (fun hc r r' h2 => by
      obtain ⟨e, h2⟩ := step (det_someEq ((a3 hc).trans (b3 hc).symm) (fun x y _ _ => det_hexEntry.mono checksum_inj)) h2
      rw [if_pos hc, if_pos hc]
      exact ⟨e, steps_nil h2⟩) (fun hc => by rw [if_neg hc, if_neg hc])) h
  obtain ⟨e5, h⟩ := step (det_NalUnitHeader a1 b1) h
  obtain ⟨e6, h⟩ := step (det_Payload hs a2 (e5 ▸ b2)) h
  refine ⟨?_, steps_nil h⟩
  unfold NalUnit.shown
  rw [e1, e2, e3, e4, e5, e6]

theorem textNalUnit_alike {o : ParsingOptions} {st st' : ParserState} {n n' : NalUnit} (hs : Alike st st') (ha : UnitIn o st n) (hb : UnitIn o st' n')
    (h : n.shown o = n'.shown o) : textNalUnit o st n = textNalUnit o st' n' := by
  have e1 : (if o.add_offset then n.offset else 0) = (if o.add_offset then n'.offset else 0) := congrArg NalUnit.offset h
  have e2 : (if o.add_length then n.length else 0) = (if o.add_length then n'.length else 0) := congrArg NalUnit.length h
  have e3 : (if o.add_parsed_length then n.parsed_length else 0) = (if o.add_parsed_length then n'.parsed_length else 0) := congrArg NalUnit.parsed_length h
  have e4 : (if o.add_checksum then n.checksum else none) = (if o.add_checksum then n'.checksum else none) := congrArg NalUnit.checksum h
  have e5 : n.nal_unit_header = n'.nal_unit_header := (congrArg NalUnit.nal_unit_header h :)
  have e6 : n.nal_unit_payload.shown = n'.nal_unit_payload.shown := (congrArg NalUnit.nal_unit_payload h :)
  have key : ∀ {α : Type} {c : Prop} [Decidable c] {x y d : α} (f : α → List Text), (if c then x else d) = (if c then y else d) → opt c (f x) = opt c (f y) := by
    intro α c _ x y d f h
    unfold Spec.opt
    by_cases k : c
    · rw [if_pos k, if_pos k] at h; rw [h]
    · rw [if_neg k, if_neg k]
  unfold textNalUnit
  rw [key (fun x => [entry "offset" ["0x".toList ++ hexadecimal 8 x]]) e1, key (fun x : Nat => [num "length" x]) e2, key (fun x : Nat => [num "parsed_length" x]) e3,
    key (fun x : Option (List UInt8) => [some? x fun c => entry "checksum" ["0x".toList ++ c.flatMap fun b => hexadecimal 2 b.toNat]]) e4, e5,
    textPayload_alike hs ha.payload (e5 ▸ hb.payload) e6]

/-! ### Streams -/

theorem stored_alike {st st' : ParserState} {p p' : NalUnitPayload} (hs : Alike st st') (h : p.shown = p'.shown) : Alike (st.stored p) (st'.stored p') := by
  have e2 : p.sps.map Sps.shown = p'.sps.map Sps.shown := congrArg NalUnitPayload.sps h
  have e3 : p.pps.map Pps.shown = p'.pps.map Pps.shown := congrArg NalUnitPayload.pps h
  refine ⟨fun i => ?_, fun i => ?_⟩
  · unfold ParserState.stored
    cases hp : p.sps with
    | none =>
      cases hq : p'.sps with
      | none => exact hs.sps i
      | some y => rw [hp, hq] at e2; cases e2
    | some x =>
      cases hq : p'.sps with
      | none => rw [hp, hq] at e2; cases e2
      | some y =>
        rw [hp, hq] at e2
        have e : x.shown = y.shown := Option.some.inj e2
        have ei : x.body.sps_seq_parameter_set_id = y.body.sps_seq_parameter_set_id := (congrArg (fun v : Sps => v.body.sps_seq_parameter_set_id) e :)
        simp only [mapSet, ei]
        split
        · simp only [Option.map_some, e]
        · exact hs.sps i
  · unfold ParserState.stored
    cases hp : p.pps with
    | none =>
      cases hq : p'.pps with
      | none => exact hs.pps i
      | some y => rw [hp, hq] at e3; cases e3
    | some x =>
      cases hq : p'.pps with
      | none => rw [hp, hq] at e3; cases e3
      | some y =>
        rw [hp, hq] at e3
        have e : x.shown = y.shown := Option.some.inj e3
        have ei : x.body.head.pps_pic_parameter_set_id = y.body.head.pps_pic_parameter_set_id := (congrArg (fun v : Pps => v.body.head.pps_pic_parameter_set_id) e :)
        simp only [mapSet, ei]
        split
        · simp only [Option.map_some, e]
        · exact hs.pps i

/-- the units, with the state before each -/
abbrev unitsFrom (st : ParserState) (ns : List NalUnit) : List (ParserState × NalUnit) := withStates (fun n => some n.nal_unit_payload) st ns

theorem textBitstream_from (o : ParsingOptions) (st : ParserState) (ns : List NalUnit) :
    textBitstream o st ns = (unitsFrom st ns).map fun x => textNalUnit o x.1 x.2 := by
  unfold textBitstream unitsFrom
  rw [withStates_eq]
  simp only [List.mapIdx_eq_zipIdx_map, List.map_map, Function.comp_def, List.filterMap_eq_map']

theorem opens_NalUnit (o : ParsingOptions) (st : ParserState) (n : NalUnit) : textNalUnit o st n ≠ [] := by
  unfold textNalUnit Spec.block braces
  intro h
  have := congrArg List.length h
  simp at this

theorem shownNal_payload {o : ParsingOptions} {n n' : NalUnit} (h : n.shown o = n'.shown o) : n.nal_unit_payload.shown = n'.nal_unit_payload.shown :=
  (congrArg NalUnit.nal_unit_payload h :)

theorem stream_det {o : ParsingOptions} : ∀ {ns ns' : List NalUnit} {st st' : ParserState}, Alike st st' → (∀ x ∈ unitsFrom st ns, UnitIn o x.1 x.2) →
    (∀ x ∈ unitsFrom st' ns', UnitIn o x.1 x.2) →
    ((unitsFrom st ns).map fun x => textNalUnit o x.1 x.2).flatten = ((unitsFrom st' ns').map fun x => textNalUnit o x.1 x.2).flatten →
    ns.map (NalUnit.shown o) = ns'.map (NalUnit.shown o)
  | [], [], _, _, _, _, _, _ => rfl
  | [], n :: ns', st, st', _, _, _, h => by
    have := (List.append_eq_nil_iff.1 h.symm).1
    exact absurd this (opens_NalUnit _ _ _)
  | n :: ns, [], st, st', _, _, _, h => by
    have := (List.append_eq_nil_iff.1 h).1
    exact absurd this (opens_NalUnit _ _ _)
  | n :: ns, n' :: ns', st, st', hs, ha, hb, h => by
    obtain ⟨e, h⟩ := det_NalUnit hs (ha _ List.mem_cons_self) (hb _ List.mem_cons_self) _ _ h
    rw [List.map_cons, List.map_cons, e]
    congr 1
    exact stream_det (stored_alike hs (shownNal_payload e)) (fun x hx => ha x (List.mem_cons_of_mem _ hx)) (fun x hx => hb x (List.mem_cons_of_mem _ hx)) h

theorem stream_alike {o : ParsingOptions} : ∀ {ns ns' : List NalUnit} {st st' : ParserState}, Alike st st' → (∀ x ∈ unitsFrom st ns, UnitIn o x.1 x.2) →
    (∀ x ∈ unitsFrom st' ns', UnitIn o x.1 x.2) → ns.map (NalUnit.shown o) = ns'.map (NalUnit.shown o) →
    ((unitsFrom st ns).map fun x => textNalUnit o x.1 x.2) = ((unitsFrom st' ns').map fun x => textNalUnit o x.1 x.2)
  | [], [], _, _, _, _, _, _ => rfl
  | [], n :: ns', st, st', _, _, _, h => by cases h
  | n :: ns, [], st, st', _, _, _, h => by cases h
  | n :: ns, n' :: ns', st, st', hs, ha, hb, h => by
    obtain ⟨e, h⟩ := List.cons.inj h
    show textNalUnit o st n :: _ = textNalUnit o st' n' :: _
    rw [textNalUnit_alike hs (ha _ List.mem_cons_self) (hb _ List.mem_cons_self) e]
    congr 1
    exact stream_alike (stored_alike hs (shownNal_payload e)) (fun x hx => ha x (List.mem_cons_of_mem _ hx)) (fun x hx => hb x (List.mem_cons_of_mem _ hx)) h
end H265
