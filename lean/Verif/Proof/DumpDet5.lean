/-
The text of a slice segment header, given its parameter sets, determines the header.  (The last proof is generated by a script from the table of names.)
-/
import Verif.Proof.DumpDet4
import Verif.Proof.Slice

set_option autoImplicit false

namespace H265
open Spec

theorem flagged_isSome {α β : Type} {n : Nat} {V : Nat → α → Prop} {l : List α} {g : α → Option β} {f : Nat → Nat} (h : EachI n V l)
    (hv : ∀ i x, V i x → ((g x).isSome = true ↔ f i ≠ 0)) : l.map (fun x => (g x).isSome) = (List.range n).map (fun i => decide (f i ≠ 0)) := by
  have hl := h.length
  refine List.ext_getElem (by simp [hl]) (fun i h1 h2 => ?_)
  simp only [List.length_map] at h1
  have := hv i _ (h.valid i _ (List.getElem?_eq_getElem h1))
  simp only [List.getElem_map, List.getElem_range]
  cases hg : (g l[i]).isSome <;> simp_all

theorem det_PredWeightTable {c n : Nat} {s t : PredWeightTable} (ha : ValidPredWeightTable c n s) (hb : ValidPredWeightTable c n t) :
    Det (textPredWeightTable c s) (textPredWeightTable c t) (s = t) := by
  obtain ⟨a1, a2, a3, a4, a5⟩ := s
  obtain ⟨b1, b2, b3, b4, b5⟩ := t
  obtain ⟨va1, va2, va3, va4, va5⟩ := ha
  obtain ⟨vb1, vb2, vb3, vb4, vb5⟩ := hb
  dsimp only at *
  unfold textPredWeightTable
  dsimp only
  refine det_block (fun r r' h1 => ?_)
  replace h1 := step (det_u32 (by bd va1) (by bd vb1)) h1
  obtain ⟨rfl, h1⟩ := h1
  replace h1 := step (P := a2 = b2) (det_when (fun hc r r' h3 => by
      replace h3 := step det_num h3
      exact ⟨h3.1, steps_nil h3.2⟩) (fun hn => (va2.absent hn).trans (vb2.absent hn).symm)) h1
  obtain ⟨rfl, h1⟩ := h1
  replace h1 := step det_listNat h1
  obtain ⟨rfl, h1⟩ := h1
  replace h1 := step (P := a4 = b4) (det_when (fun hc r r' h3 => by
      replace h3 := step det_listNat h3
      exact ⟨h3.1, steps_nil h3.2⟩) (fun hn => (va4.absent hn).trans (vb4.absent hn).symm)) h1
  obtain ⟨rfl, h1⟩ := h1
  replace h1 := step det_list h1
  obtain ⟨c1, h1⟩ := h1
  replace h1 := step det_list h1
  obtain ⟨c2, h1⟩ := h1
  have el := cols_inj (f := fun x : LumaWeight => (x.delta_luma_weight_l0, x.luma_offset_l0)) (by rintro ⟨⟩ ⟨⟩ h; simp_all) (cols c1 c2)
  have pl : a5.map (fun x => x.luma.isSome) = b5.map (fun x => x.luma.isSome) :=
    (flagged_isSome va5 (fun i x v => v.luma.present)).trans (flagged_isSome vb5 (fun i x v => v.luma.present)).symm
  have pc : a5.map (fun x => x.chroma.isSome) = b5.map (fun x => x.chroma.isSome) :=
    (flagged_isSome va5 (fun i x v => v.chroma.present)).trans (flagged_isSome vb5 (fun i x v => v.chroma.present)).symm
  replace h1 := step (P := a5.filterMap (·.chroma) = b5.filterMap (·.chroma)) (det_when (fun hc r r' h3 => by
      obtain ⟨d1, h3⟩ := step det_rows h3
      obtain ⟨d2, h3⟩ := step det_rows h3
      exact ⟨cols_inj (f := fun x : ChromaWeight => ([x.delta_chroma_weight_l0_0, x.delta_chroma_weight_l0_1], [x.delta_chroma_offset_l0_0, x.delta_chroma_offset_l0_1]))
        (by rintro ⟨⟩ ⟨⟩ h; simp_all) (cols d1 d2), steps_nil h3⟩) (fun hn => by
      have z := va4.absent hn
      have nil : ∀ {l : List PredWeight}, EachI (n + 1) (fun i => ValidPredWeight (a3.getD i 0) (a4.getD i 0)) l → l.filterMap (·.chroma) = [] := by
        intro l hl
        rw [List.filterMap_eq_nil_iff]
        intro x hx
        obtain ⟨i, hi⟩ := List.mem_iff_getElem?.1 hx
        exact (hl.valid i x hi).chroma.none (by rw [z]; simp)
      rw [nil va5, nil vb5])) h1
  obtain ⟨ec, h1⟩ := h1
  have e5 : a5 = b5 := cols_inj (f := fun x : PredWeight => (x.luma, x.chroma)) (by rintro ⟨⟩ ⟨⟩ h; simp_all) (cols (present_col pl el) (present_col pc ec))
  subst e5
  exact ⟨rfl, steps_nil h1⟩

/-- text that follows from what is known -/
theorem det_same {f g : Text} (h : f = g) : Det f g True := by rw [h]; exact det_refl g

theorem filter_cycles {α : Type} {p : α → Bool} {f : α → Nat} {l m : List α} (hp : l.map p = m.map p) (hl : ∀ x ∈ l, p x = false → f x = 0) (hm : ∀ x ∈ m, p x = false → f x = 0)
    (h : (l.filter p).map f = (m.filter p).map f) : l.map f = m.map f := by
  induction l generalizing m with
  | nil => cases m with
    | nil => rfl
    | cons => cases hp
  | cons x l ih =>
    cases m with
    | nil => cases hp
    | cons y m =>
      have hp' := List.cons.inj hp
      have e : p x = p y := hp'.1
      have hl' : ∀ x ∈ l, p x = false → f x = 0 := fun z hz => hl z (List.mem_cons_of_mem _ hz)
      have hm' : ∀ x ∈ m, p x = false → f x = 0 := fun z hz => hm z (List.mem_cons_of_mem _ hz)
      cases hx : p x with
      | true =>
        rw [List.filter_cons_of_pos hx, List.filter_cons_of_pos (e ▸ hx)] at h
        have h' := List.cons.inj h
        rw [List.map_cons, List.map_cons, ih hp'.2 hl' hm' h'.2]
        rw [show f x = f y from h'.1]
      | false =>
        rw [List.filter_cons_of_neg (by simp [hx]), List.filter_cons_of_neg (by simp [← e, hx])] at h
        rw [List.map_cons, List.map_cons, ih hp'.2 hl' hm' h, hl x (List.mem_cons_self ..) hx, hm y (List.mem_cons_self ..) (e ▸ hx)]

theorem take_col {α β : Type} {l m : List α} {f : α → β} {n i : Nat} {x y : α} (h : (l.take n).map f = (m.take n).map f) (hi : i < n) (hx : l[i]? = some x) (hy : m[i]? = some y) :
    f x = f y := by
  have := congrArg (·[i]?) h
  simp only [List.getElem?_map, List.getElem?_take, if_pos hi, hx, hy, Option.map_some, Option.some.injEq] at this
  exact this

theorem drop_col {α β : Type} {l m : List α} {f : α → β} {n i : Nat} {x y : α} (h : (l.drop n).map f = (m.drop n).map f) (hi : ¬ i < n) (hx : l[i]? = some x) (hy : m[i]? = some y) :
    f x = f y := by
  have := congrArg (·[i - n]?) h
  simp only [List.getElem?_map, List.getElem?_drop, Nat.add_sub_cancel' (Nat.le_of_not_lt hi), hx, hy, Option.map_some, Option.some.injEq] at this
  exact this

theorem map_col {α β : Type} {l m : List α} {f : α → β} {i : Nat} {x y : α} (h : l.map f = m.map f) (hx : l[i]? = some x) (hy : m[i]? = some y) : f x = f y := by
  have := congrArg (·[i]?) h
  simp only [List.getElem?_map, hx, hy, Option.map_some, Option.some.injEq] at this
  exact this

theorem det_ltRefPics {S : SpsBody} {s t : SliceBody} (hns : s.num_long_term_sps = t.num_long_term_sps) (hnp : s.num_long_term_pics = t.num_long_term_pics)
    (ha : ValidLtRefPics s.num_long_term_sps s.num_long_term_pics S.num_long_term_ref_pics_sps (S.log2_max_pic_order_cnt_lsb_minus4 + 4) s.lt_ref_pics)
    (hb : ValidLtRefPics t.num_long_term_sps t.num_long_term_pics S.num_long_term_ref_pics_sps (S.log2_max_pic_order_cnt_lsb_minus4 + 4) t.lt_ref_pics)
    (hpoc : S.log2_max_pic_order_cnt_lsb_minus4 + 4 ≤ 32) (hnum : ceilLog2f S.num_long_term_ref_pics_sps ≤ 32) :
    Det ((List.range (w32 (s.num_long_term_sps + s.num_long_term_pics))).flatMap (textLtRefPic S s))
      ((List.range (w32 (t.num_long_term_sps + t.num_long_term_pics))).flatMap (textLtRefPic S t)) (s.lt_ref_pics = t.lt_ref_pics) := by
  rw [← hns, ← hnp] at hb ⊢
  have hw : w32 (s.num_long_term_sps + s.num_long_term_pics) = s.num_long_term_sps + s.num_long_term_pics := Nat.mod_eq_of_lt ha.count
  rw [hw]
  have bound : ∀ {l : List LtRefPic} {f : LtRefPic → Nat}, EachI (s.num_long_term_sps + s.num_long_term_pics) (ValidLtRefPic s.num_long_term_sps S.num_long_term_ref_pics_sps (S.log2_max_pic_order_cnt_lsb_minus4 + 4)) l →
      (∀ i x, ValidLtRefPic s.num_long_term_sps S.num_long_term_ref_pics_sps (S.log2_max_pic_order_cnt_lsb_minus4 + 4) i x → f x < 2 ^ 32) → ∀ {l' : List LtRefPic}, (∀ x ∈ l', x ∈ l) → ∀ v ∈ l'.map f, v < 2 ^ 32 := by
    intro l f hl hf l' hsub v hv
    obtain ⟨x, hx, rfl⟩ := List.mem_map.1 hv
    obtain ⟨i, hi⟩ := List.mem_iff_getElem?.1 (hsub x hx)
    exact hf i x (hl.valid i x hi)
  refine Det.mono (P := ∀ (i : Nat) (x y : Nat), (List.range (s.num_long_term_sps + s.num_long_term_pics))[i]? = some x → (List.range (s.num_long_term_sps + s.num_long_term_pics))[i]? = some y →
    ((x < s.num_long_term_sps → S.num_long_term_ref_pics_sps > 1 → (s.lt_ref_pics.take s.num_long_term_sps).map (·.head.lt_idx_sps) = (t.lt_ref_pics.take s.num_long_term_sps).map (·.head.lt_idx_sps)) ∧
     (¬ x < s.num_long_term_sps → (s.lt_ref_pics.drop s.num_long_term_sps).map (·.head.poc_lsb_lt) = (t.lt_ref_pics.drop s.num_long_term_sps).map (·.head.poc_lsb_lt) ∧
       (s.lt_ref_pics.drop s.num_long_term_sps).map (·.head.used_by_curr_pic_lt_flag) = (t.lt_ref_pics.drop s.num_long_term_sps).map (·.head.used_by_curr_pic_lt_flag)) ∧
     s.lt_ref_pics.map (·.head.delta_poc_msb_present_flag) = t.lt_ref_pics.map (·.head.delta_poc_msb_present_flag) ∧
     (s.lt_ref_pics.filter (fun r => r.head.delta_poc_msb_present_flag ≠ 0)).map (·.delta_poc_msb_cycle_lt) =
       (t.lt_ref_pics.filter (fun r => r.head.delta_poc_msb_present_flag ≠ 0)).map (·.delta_poc_msb_cycle_lt)))
    (det_parts rfl (fun i x y hx hy => ?_)) (fun h => ?_)
  · rw [hx] at hy
    obtain rfl := Option.some.inj hy
    unfold textLtRefPic
    rw [← hns]
    intro r r' h
    obtain ⟨e1, h⟩ := step (P := x < s.num_long_term_sps → S.num_long_term_ref_pics_sps > 1 → (s.lt_ref_pics.take s.num_long_term_sps).map (·.head.lt_idx_sps) = (t.lt_ref_pics.take s.num_long_term_sps).map (·.head.lt_idx_sps))
      (det_when (fun hc q q' h3 => by
        obtain ⟨e, h3⟩ := step (P := S.num_long_term_ref_pics_sps > 1 → (s.lt_ref_pics.take s.num_long_term_sps).map (·.head.lt_idx_sps) = (t.lt_ref_pics.take s.num_long_term_sps).map (·.head.lt_idx_sps))
          (det_when (fun hc q q' h5 => by
            obtain ⟨e, h5⟩ := step (det_list32 (bound ha.each (fun i x v => by bd v.head.lt_idx_sps) (fun _ hx => List.mem_of_mem_take hx)) (bound hb.each (fun i x v => by bd v.head.lt_idx_sps) (fun _ hx => List.mem_of_mem_take hx))) h5
            exact ⟨fun _ => e, steps_nil h5⟩) (fun hn k => absurd k hn)) h3
        exact ⟨fun _ => e, steps_nil h3⟩) (fun hn k => absurd k hn)) h
    obtain ⟨e2, h⟩ := step (P := ¬ x < s.num_long_term_sps → (s.lt_ref_pics.drop s.num_long_term_sps).map (·.head.poc_lsb_lt) = (t.lt_ref_pics.drop s.num_long_term_sps).map (·.head.poc_lsb_lt) ∧
       (s.lt_ref_pics.drop s.num_long_term_sps).map (·.head.used_by_curr_pic_lt_flag) = (t.lt_ref_pics.drop s.num_long_term_sps).map (·.head.used_by_curr_pic_lt_flag))
      (det_when (fun hc q q' h3 => by
        obtain ⟨e, h3⟩ := step (det_list32 (bound ha.each (fun i x v => by bd v.head.poc_lsb_lt) (fun _ hx => List.mem_of_mem_drop hx)) (bound hb.each (fun i x v => by bd v.head.poc_lsb_lt) (fun _ hx => List.mem_of_mem_drop hx))) h3
        obtain ⟨e', h3⟩ := step (det_list32 (bound ha.each (fun i x v => by bd v.head.used_by_curr_pic_lt_flag) (fun _ hx => List.mem_of_mem_drop hx)) (bound hb.each (fun i x v => by bd v.head.used_by_curr_pic_lt_flag) (fun _ hx => List.mem_of_mem_drop hx))) h3
        exact ⟨fun _ => ⟨e, e'⟩, steps_nil h3⟩) (fun hn k => absurd k hn)) h
    obtain ⟨e3, h⟩ := step (det_list32 (bound ha.each (fun i x v => by bd v.head.delta_poc_msb_present_flag) (fun _ hx => hx)) (bound hb.each (fun i x v => by bd v.head.delta_poc_msb_present_flag) (fun _ hx => hx))) h
    obtain ⟨e4, h⟩ := step (det_list32 (bound ha.each (fun i x v => by bd v.delta_poc_msb_cycle_lt) (fun _ hx => (List.mem_filter.1 hx).1)) (bound hb.each (fun i x v => by bd v.delta_poc_msb_cycle_lt) (fun _ hx => (List.mem_filter.1 hx).1))) h
    exact ⟨⟨e1, e2, e3, e4⟩, steps_nil h⟩
  · have la := ha.each.length
    have lb := hb.each.length
    refine List.ext_getElem (la.trans lb.symm) (fun i h1 h2 => ?_)
    have hx := List.getElem?_eq_getElem h1
    have hy := List.getElem?_eq_getElem h2
    have hi : i < s.num_long_term_sps + s.num_long_term_pics := by omega
    have hr := List.getElem?_range hi
    obtain ⟨e1, e2, e3, e4⟩ := h i i i hr hr
    have va := ha.each.valid i _ hx
    have vb := hb.each.valid i _ hy
    have c4 := map_col e3 hx hy
    have zero : ∀ {l : List LtRefPic}, EachI (s.num_long_term_sps + s.num_long_term_pics) (ValidLtRefPic s.num_long_term_sps S.num_long_term_ref_pics_sps (S.log2_max_pic_order_cnt_lsb_minus4 + 4)) l →
        ∀ x ∈ l, decide (x.head.delta_poc_msb_present_flag ≠ 0) = false → x.delta_poc_msb_cycle_lt = 0 := by
      intro l hl x hx hz
      obtain ⟨i, hi⟩ := List.mem_iff_getElem?.1 hx
      exact (hl.valid i x hi).delta_poc_msb_cycle_lt.absent (by simpa using hz)
    have c5 := map_col (filter_cycles (p := fun r : LtRefPic => decide (r.head.delta_poc_msb_present_flag ≠ 0)) (by
      have := congrArg (List.map (fun n : Nat => decide (n ≠ 0))) e3
      rw [List.map_map, List.map_map] at this
      exact this) (zero ha.each) (zero hb.each) e4) hx hy
    have c1 : (s.lt_ref_pics[i]).head.lt_idx_sps = (t.lt_ref_pics[i]).head.lt_idx_sps := by
      by_cases k : i < s.num_long_term_sps ∧ S.num_long_term_ref_pics_sps > 1
      · exact take_col (f := fun x : LtRefPic => x.head.lt_idx_sps) (e1 k.1 k.2) k.1 hx hy
      · exact (va.head.lt_idx_sps.absent k).trans (vb.head.lt_idx_sps.absent k).symm
    have c2 : (s.lt_ref_pics[i]).head.poc_lsb_lt = (t.lt_ref_pics[i]).head.poc_lsb_lt ∧ (s.lt_ref_pics[i]).head.used_by_curr_pic_lt_flag = (t.lt_ref_pics[i]).head.used_by_curr_pic_lt_flag := by
      by_cases k : i < s.num_long_term_sps
      · exact ⟨(va.head.poc_lsb_lt.absent (by omega)).trans (vb.head.poc_lsb_lt.absent (by omega)).symm,
          (va.head.used_by_curr_pic_lt_flag.absent (by omega)).trans (vb.head.used_by_curr_pic_lt_flag.absent (by omega)).symm⟩
      · exact ⟨drop_col (f := fun x : LtRefPic => x.head.poc_lsb_lt) (e2 k).1 k hx hy, drop_col (f := fun x : LtRefPic => x.head.used_by_curr_pic_lt_flag) (e2 k).2 k hx hy⟩
    generalize s.lt_ref_pics[i] = x at *
    generalize t.lt_ref_pics[i] = y at *
    obtain ⟨⟨x1, x2, x3, x4⟩, x5⟩ := x
    obtain ⟨⟨y1, y2, y3, y4⟩, y5⟩ := y
    dsimp only at *
    rw [c1, c2.1, c2.2, c4, c5]


theorem det_ltRefPics' {S : SpsBody} {s t : SliceBody} {ns np : Nat} {l m : List LtRefPic} (h1 : s.num_long_term_sps = ns) (h2 : s.num_long_term_pics = np) (h3 : t.num_long_term_sps = ns)
    (h4 : t.num_long_term_pics = np) (h5 : s.lt_ref_pics = l) (h6 : t.lt_ref_pics = m)
    (ha : ValidLtRefPics ns np S.num_long_term_ref_pics_sps (S.log2_max_pic_order_cnt_lsb_minus4 + 4) l) (hb : ValidLtRefPics ns np S.num_long_term_ref_pics_sps (S.log2_max_pic_order_cnt_lsb_minus4 + 4) m)
    (hpoc : S.log2_max_pic_order_cnt_lsb_minus4 + 4 ≤ 32) (hnum : ceilLog2f S.num_long_term_ref_pics_sps ≤ 32) :
    Det ((List.range (w32 (ns + np))).flatMap (textLtRefPic S s)) ((List.range (w32 (ns + np))).flatMap (textLtRefPic S t)) (l = m) := by
  subst h1 h2 h5 h6
  have := det_ltRefPics h3.symm h4.symm ha (by rw [h3, h4]; exact hb) hpoc hnum
  rw [h3, h4] at this
  exact this

theorem det_SliceSegmentHeader {P : PpsBody} {S : SpsBody} {v w : SliceSegmentHeader} (hpoc : S.log2_max_pic_order_cnt_lsb_minus4 + 4 ≤ 32) (hnum : ceilLog2f S.num_long_term_ref_pics_sps ≤ 32) (hidx : ceilLog2f S.num_short_term_ref_pic_sets ≤ 32)
    (ht : v.nal_unit_type = w.nal_unit_type)
    (ha0 : ValidSliceHead v.nal_unit_type v.head) (hb0 : ValidSliceHead w.nal_unit_type w.head)
    (ha : ValidSliceBody v.nal_unit_type P S v.head.first_slice_segment_in_pic_flag v.body) (hb : ValidSliceBody w.nal_unit_type P S w.head.first_slice_segment_in_pic_flag w.body) :
    Det (textSliceSegmentHeader P S v) (textSliceSegmentHeader P S w) (v = w) := by
  obtain ⟨a_t, ⟨a_first_slice_segment_in_pic_flag, a_no_output_of_prior_pics_flag, a_slice_pic_parameter_set_id⟩, ⟨a_dependent_slice_segment_flag, a_slice_segment_address, a_slice_reserved_flag, a_slice_type, a_pic_output_flag, a_colour_plane_id, a_slice_pic_order_cnt_lsb, a_short_term_ref_pic_set_sps_flag, a_st_ref_pic_set, a_short_term_ref_pic_set_idx, a_num_long_term_sps, a_num_long_term_pics, a_lt_ref_pics, a_slice_temporal_mvp_enabled_flag, a_slice_sao_luma_flag, a_slice_sao_chroma_flag, a_num_ref_idx_active_override_flag, a_num_ref_idx_l0_active_minus1, a_num_ref_idx_l1_active_minus1, a_mvd_l1_zero_flag, a_cabac_init_flag, a_collocated_from_l0_flag, a_collocated_ref_idx, a_pred_weight_table, a_five_minus_max_num_merge_cand, a_use_integer_mv_flag, a_slice_qp_delta, a_slice_cb_qp_offset, a_slice_cr_qp_offset, a_act_qp_offsets_present, a_slice_act_y_qp_offset, a_slice_act_cb_qp_offset, a_slice_act_cr_qp_offset, a_deblocking_filter_override_flag, a_slice_deblocking_filter_disabled_flag, a_slice_beta_offset_div2, a_slice_tc_offset_div2, a_slice_loop_filter_across_slices_enabled_flag, a_num_entry_point_offsets, a_offset_len_minus1, a_entry_point_offset_minus1, a_slice_segment_header_extension_length, a_slice_segment_header_extension_data_byte⟩⟩ := v
  obtain ⟨b_t, ⟨b_first_slice_segment_in_pic_flag, b_no_output_of_prior_pics_flag, b_slice_pic_parameter_set_id⟩, ⟨b_dependent_slice_segment_flag, b_slice_segment_address, b_slice_reserved_flag, b_slice_type, b_pic_output_flag, b_colour_plane_id, b_slice_pic_order_cnt_lsb, b_short_term_ref_pic_set_sps_flag, b_st_ref_pic_set, b_short_term_ref_pic_set_idx, b_num_long_term_sps, b_num_long_term_pics, b_lt_ref_pics, b_slice_temporal_mvp_enabled_flag, b_slice_sao_luma_flag, b_slice_sao_chroma_flag, b_num_ref_idx_active_override_flag, b_num_ref_idx_l0_active_minus1, b_num_ref_idx_l1_active_minus1, b_mvd_l1_zero_flag, b_cabac_init_flag, b_collocated_from_l0_flag, b_collocated_ref_idx, b_pred_weight_table, b_five_minus_max_num_merge_cand, b_use_integer_mv_flag, b_slice_qp_delta, b_slice_cb_qp_offset, b_slice_cr_qp_offset, b_act_qp_offsets_present, b_slice_act_y_qp_offset, b_slice_act_cb_qp_offset, b_slice_act_cr_qp_offset, b_deblocking_filter_override_flag, b_slice_deblocking_filter_disabled_flag, b_slice_beta_offset_div2, b_slice_tc_offset_div2, b_slice_loop_filter_across_slices_enabled_flag, b_num_entry_point_offsets, b_offset_len_minus1, b_entry_point_offset_minus1, b_slice_segment_header_extension_length, b_slice_segment_header_extension_data_byte⟩⟩ := w
  obtain ⟨va_dependent_slice_segment_flag, va_slice_segment_address, va_slice_reserved_flag, va_slice_type, va_pic_output_flag, va_colour_plane_id, va_slice_pic_order_cnt_lsb, va_short_term_ref_pic_set_sps_flag, va_st_ref_pic_set, va_short_term_ref_pic_set_idx, va_num_long_term_sps, va_num_long_term_pics, va_lt_ref_pics, va_slice_temporal_mvp_enabled_flag, va_slice_sao_luma_flag, va_slice_sao_chroma_flag, va_num_ref_idx_active_override_flag, va_num_ref_idx_l0_active_minus1, va_num_ref_idx_l1_active_minus1, va_mvd_l1_zero_flag, va_cabac_init_flag, va_collocated_from_l0_flag, va_collocated_ref_idx, va_pred_weight_table, va_five_minus_max_num_merge_cand, va_use_integer_mv_flag, va_slice_qp_delta, va_slice_cb_qp_offset, va_slice_cr_qp_offset, va_act_qp_offsets_present, va_slice_act_y_qp_offset, va_slice_act_cb_qp_offset, va_slice_act_cr_qp_offset, va_deblocking_filter_override_flag, va_slice_deblocking_filter_disabled_flag, va_slice_beta_offset_div2, va_slice_tc_offset_div2, va_slice_loop_filter_across_slices_enabled_flag, va_num_entry_point_offsets, va_num_entry_point_offsets_valid, va_offset_len_minus1, va_entry_point_offset_minus1, va_slice_segment_header_extension_length, va_slice_segment_header_extension_data_byte⟩ := ha
  obtain ⟨vb_dependent_slice_segment_flag, vb_slice_segment_address, vb_slice_reserved_flag, vb_slice_type, vb_pic_output_flag, vb_colour_plane_id, vb_slice_pic_order_cnt_lsb, vb_short_term_ref_pic_set_sps_flag, vb_st_ref_pic_set, vb_short_term_ref_pic_set_idx, vb_num_long_term_sps, vb_num_long_term_pics, vb_lt_ref_pics, vb_slice_temporal_mvp_enabled_flag, vb_slice_sao_luma_flag, vb_slice_sao_chroma_flag, vb_num_ref_idx_active_override_flag, vb_num_ref_idx_l0_active_minus1, vb_num_ref_idx_l1_active_minus1, vb_mvd_l1_zero_flag, vb_cabac_init_flag, vb_collocated_from_l0_flag, vb_collocated_ref_idx, vb_pred_weight_table, vb_five_minus_max_num_merge_cand, vb_use_integer_mv_flag, vb_slice_qp_delta, vb_slice_cb_qp_offset, vb_slice_cr_qp_offset, vb_act_qp_offsets_present, vb_slice_act_y_qp_offset, vb_slice_act_cb_qp_offset, vb_slice_act_cr_qp_offset, vb_deblocking_filter_override_flag, vb_slice_deblocking_filter_disabled_flag, vb_slice_beta_offset_div2, vb_slice_tc_offset_div2, vb_slice_loop_filter_across_slices_enabled_flag, vb_num_entry_point_offsets, vb_num_entry_point_offsets_valid, vb_offset_len_minus1, vb_entry_point_offset_minus1, vb_slice_segment_header_extension_length, vb_slice_segment_header_extension_data_byte⟩ := hb
  obtain ⟨va_first_slice_segment_in_pic_flag, va_no_output_of_prior_pics_flag, va_slice_pic_parameter_set_id⟩ := ha0
  obtain ⟨vb_first_slice_segment_in_pic_flag, vb_no_output_of_prior_pics_flag, vb_slice_pic_parameter_set_id⟩ := hb0
  dsimp only at *
  obtain rfl := ht
  unfold textSliceSegmentHeader
  dsimp only
  refine det_block (fun r r' h1 => ?_)
  replace h1 := step (det_u32 (by bd va_first_slice_segment_in_pic_flag) (by bd vb_first_slice_segment_in_pic_flag)) h1
  obtain ⟨rfl, h1⟩ := h1
  replace h1 := step (det_u32 (by bd va_no_output_of_prior_pics_flag) (by bd vb_no_output_of_prior_pics_flag)) h1
  obtain ⟨rfl, h1⟩ := h1
  replace h1 := step (det_u32 (by bd va_slice_pic_parameter_set_id) (by bd vb_slice_pic_parameter_set_id)) h1
  obtain ⟨rfl, h1⟩ := h1
  replace h1 := step (det_u32 (by bd va_dependent_slice_segment_flag) (by bd vb_dependent_slice_segment_flag)) h1
  obtain ⟨rfl, h1⟩ := h1
  have e_act : a_act_qp_offsets_present = b_act_qp_offsets_present := by
    by_cases k : a_dependent_slice_segment_flag = 0
    · rw [va_act_qp_offsets_present.present k, vb_act_qp_offsets_present.present k]
    · rw [va_act_qp_offsets_present.absent k, vb_act_qp_offsets_present.absent k]
  subst e_act
  replace h1 := step (det_u32 (by bd va_slice_segment_address) (by bd vb_slice_segment_address)) h1
  obtain ⟨rfl, h1⟩ := h1
  replace h1 := step (P := a_slice_reserved_flag = b_slice_reserved_flag ∧ a_slice_type = b_slice_type ∧ a_pic_output_flag = b_pic_output_flag ∧ a_colour_plane_id = b_colour_plane_id ∧ a_slice_pic_order_cnt_lsb = b_slice_pic_order_cnt_lsb ∧ a_short_term_ref_pic_set_sps_flag = b_short_term_ref_pic_set_sps_flag ∧ a_st_ref_pic_set = b_st_ref_pic_set ∧ a_short_term_ref_pic_set_idx = b_short_term_ref_pic_set_idx ∧ a_num_long_term_sps = b_num_long_term_sps ∧ a_num_long_term_pics = b_num_long_term_pics ∧ a_lt_ref_pics = b_lt_ref_pics ∧ a_slice_temporal_mvp_enabled_flag = b_slice_temporal_mvp_enabled_flag ∧ a_slice_sao_luma_flag = b_slice_sao_luma_flag ∧ a_slice_sao_chroma_flag = b_slice_sao_chroma_flag ∧ a_num_ref_idx_active_override_flag = b_num_ref_idx_active_override_flag ∧ a_num_ref_idx_l0_active_minus1 = b_num_ref_idx_l0_active_minus1 ∧ a_num_ref_idx_l1_active_minus1 = b_num_ref_idx_l1_active_minus1 ∧ a_mvd_l1_zero_flag = b_mvd_l1_zero_flag ∧ a_cabac_init_flag = b_cabac_init_flag ∧ a_collocated_from_l0_flag = b_collocated_from_l0_flag ∧ a_collocated_ref_idx = b_collocated_ref_idx ∧ a_pred_weight_table = b_pred_weight_table ∧ a_five_minus_max_num_merge_cand = b_five_minus_max_num_merge_cand ∧ a_use_integer_mv_flag = b_use_integer_mv_flag ∧ a_slice_qp_delta = b_slice_qp_delta ∧ a_slice_cb_qp_offset = b_slice_cb_qp_offset ∧ a_slice_cr_qp_offset = b_slice_cr_qp_offset ∧ a_slice_act_y_qp_offset = b_slice_act_y_qp_offset ∧ a_slice_act_cb_qp_offset = b_slice_act_cb_qp_offset ∧ a_slice_act_cr_qp_offset = b_slice_act_cr_qp_offset ∧ a_deblocking_filter_override_flag = b_deblocking_filter_override_flag ∧ a_slice_deblocking_filter_disabled_flag = b_slice_deblocking_filter_disabled_flag ∧ a_slice_beta_offset_div2 = b_slice_beta_offset_div2 ∧ a_slice_tc_offset_div2 = b_slice_tc_offset_div2 ∧ a_slice_loop_filter_across_slices_enabled_flag = b_slice_loop_filter_across_slices_enabled_flag) (det_when (fun hc r r' h3 => by
      replace h3 := step (det_list32 (by bdl va_slice_reserved_flag) (by bdl vb_slice_reserved_flag)) h3
      obtain ⟨rfl, h3⟩ := h3
      replace h3 := step (det_u32 (by bd va_slice_type) (by bd vb_slice_type)) h3
      obtain ⟨rfl, h3⟩ := h3
      replace h3 := step (det_u32 (by bd va_pic_output_flag) (by bd vb_pic_output_flag)) h3
      obtain ⟨rfl, h3⟩ := h3
      replace h3 := step (det_u32 (by bd va_colour_plane_id) (by bd vb_colour_plane_id)) h3
      obtain ⟨rfl, h3⟩ := h3
      replace h3 := step (P := a_slice_pic_order_cnt_lsb = b_slice_pic_order_cnt_lsb ∧ a_short_term_ref_pic_set_sps_flag = b_short_term_ref_pic_set_sps_flag ∧ a_st_ref_pic_set = b_st_ref_pic_set ∧ a_short_term_ref_pic_set_idx = b_short_term_ref_pic_set_idx ∧ a_num_long_term_sps = b_num_long_term_sps ∧ a_num_long_term_pics = b_num_long_term_pics ∧ a_lt_ref_pics = b_lt_ref_pics ∧ a_slice_temporal_mvp_enabled_flag = b_slice_temporal_mvp_enabled_flag) (det_when (fun hc r r' h5 => by
          replace h5 := step (det_u32 (by bd va_slice_pic_order_cnt_lsb) (by bd vb_slice_pic_order_cnt_lsb)) h5
          obtain ⟨rfl, h5⟩ := h5
          replace h5 := step (det_u32 (by bd va_short_term_ref_pic_set_sps_flag) (by bd vb_short_term_ref_pic_set_sps_flag)) h5
          obtain ⟨rfl, h5⟩ := h5
          replace h5 := step (P := a_st_ref_pic_set = b_st_ref_pic_set) (det_when (fun hc r r' h7 => by
              replace h7 := step (det_someEq (va_st_ref_pic_set.same vb_st_ref_pic_set Iff.rfl) (fun x y hx hy => det_StRefPicSet (by decide) (va_st_ref_pic_set.valid x hx) (vb_st_ref_pic_set.valid y hy))) h7
              obtain ⟨rfl, h7⟩ := h7
              exact ⟨rfl, steps_nil h7⟩) (fun hn => by
              have x_st_ref_pic_set := va_st_ref_pic_set.none (by cnd); have y_st_ref_pic_set := vb_st_ref_pic_set.none (by cnd)
              exact x_st_ref_pic_set.trans y_st_ref_pic_set.symm)) h5
          obtain ⟨rfl, h5⟩ := h5
          replace h5 := step (P := a_short_term_ref_pic_set_idx = b_short_term_ref_pic_set_idx) (det_when (fun hc r r' h7 => by
              replace h7 := step (det_u32 (by bd va_short_term_ref_pic_set_idx) (by bd vb_short_term_ref_pic_set_idx)) h7
              obtain ⟨rfl, h7⟩ := h7
              exact ⟨rfl, steps_nil h7⟩) (fun hn => by
              have x_short_term_ref_pic_set_idx := va_short_term_ref_pic_set_idx.absent (by cnd); have y_short_term_ref_pic_set_idx := vb_short_term_ref_pic_set_idx.absent (by cnd)
              exact x_short_term_ref_pic_set_idx.trans y_short_term_ref_pic_set_idx.symm)) h5
          obtain ⟨rfl, h5⟩ := h5
          replace h5 := step (P := a_num_long_term_sps = b_num_long_term_sps ∧ a_num_long_term_pics = b_num_long_term_pics ∧ a_lt_ref_pics = b_lt_ref_pics) (det_when (fun hc r r' h7 => by
              replace h7 := step (P := a_num_long_term_sps = b_num_long_term_sps) (det_when (fun hc r r' h9 => by
                  replace h9 := step (det_u32 (by bd va_num_long_term_sps) (by bd vb_num_long_term_sps)) h9
                  obtain ⟨rfl, h9⟩ := h9
                  exact ⟨rfl, steps_nil h9⟩) (fun hn => by
                  have x_num_long_term_sps := va_num_long_term_sps.absent (by cnd); have y_num_long_term_sps := vb_num_long_term_sps.absent (by cnd)
                  exact x_num_long_term_sps.trans y_num_long_term_sps.symm)) h7
              obtain ⟨rfl, h7⟩ := h7
              replace h7 := step (det_u32 (by bd va_num_long_term_pics) (by bd vb_num_long_term_pics)) h7
              obtain ⟨rfl, h7⟩ := h7
              replace h7 := step (det_ltRefPics' (by rfl) (by rfl) (by rfl) (by rfl) (by rfl) (by rfl) (va_lt_ref_pics.present (by cnd)) (vb_lt_ref_pics.present (by cnd)) hpoc hnum) h7
              obtain ⟨rfl, h7⟩ := h7
              exact ⟨⟨rfl, rfl, rfl⟩, steps_nil h7⟩) (fun hn => by
              have x_num_long_term_sps := va_num_long_term_sps.absent (by cnd); have y_num_long_term_sps := vb_num_long_term_sps.absent (by cnd)
              have x_num_long_term_pics := va_num_long_term_pics.absent (by cnd); have y_num_long_term_pics := vb_num_long_term_pics.absent (by cnd)
              have x_lt_ref_pics := va_lt_ref_pics.absent (by cnd); have y_lt_ref_pics := vb_lt_ref_pics.absent (by cnd)
              exact ⟨x_num_long_term_sps.trans y_num_long_term_sps.symm, x_num_long_term_pics.trans y_num_long_term_pics.symm, x_lt_ref_pics.trans y_lt_ref_pics.symm⟩)) h5
          obtain ⟨⟨rfl, rfl, rfl⟩, h5⟩ := h5
          replace h5 := step (P := a_slice_temporal_mvp_enabled_flag = b_slice_temporal_mvp_enabled_flag) (det_when (fun hc r r' h7 => by
              replace h7 := step (det_u32 (by bd va_slice_temporal_mvp_enabled_flag) (by bd vb_slice_temporal_mvp_enabled_flag)) h7
              obtain ⟨rfl, h7⟩ := h7
              exact ⟨rfl, steps_nil h7⟩) (fun hn => by
              have x_slice_temporal_mvp_enabled_flag := va_slice_temporal_mvp_enabled_flag.absent (by cnd); have y_slice_temporal_mvp_enabled_flag := vb_slice_temporal_mvp_enabled_flag.absent (by cnd)
              exact x_slice_temporal_mvp_enabled_flag.trans y_slice_temporal_mvp_enabled_flag.symm)) h5
          obtain ⟨rfl, h5⟩ := h5
          exact ⟨⟨rfl, rfl, rfl, rfl, rfl, rfl, rfl, rfl⟩, steps_nil h5⟩) (fun hn => by
          have x_slice_pic_order_cnt_lsb := va_slice_pic_order_cnt_lsb.absent (by cnd); have y_slice_pic_order_cnt_lsb := vb_slice_pic_order_cnt_lsb.absent (by cnd)
          have x_short_term_ref_pic_set_sps_flag := va_short_term_ref_pic_set_sps_flag.absent (by cnd); have y_short_term_ref_pic_set_sps_flag := vb_short_term_ref_pic_set_sps_flag.absent (by cnd)
          have x_st_ref_pic_set := va_st_ref_pic_set.none (by cnd); have y_st_ref_pic_set := vb_st_ref_pic_set.none (by cnd)
          have x_short_term_ref_pic_set_idx := va_short_term_ref_pic_set_idx.absent (by cnd); have y_short_term_ref_pic_set_idx := vb_short_term_ref_pic_set_idx.absent (by cnd)
          have x_num_long_term_sps := va_num_long_term_sps.absent (by cnd); have y_num_long_term_sps := vb_num_long_term_sps.absent (by cnd)
          have x_num_long_term_pics := va_num_long_term_pics.absent (by cnd); have y_num_long_term_pics := vb_num_long_term_pics.absent (by cnd)
          have x_lt_ref_pics := va_lt_ref_pics.absent (by cnd); have y_lt_ref_pics := vb_lt_ref_pics.absent (by cnd)
          have x_slice_temporal_mvp_enabled_flag := va_slice_temporal_mvp_enabled_flag.absent (by cnd); have y_slice_temporal_mvp_enabled_flag := vb_slice_temporal_mvp_enabled_flag.absent (by cnd)
          exact ⟨x_slice_pic_order_cnt_lsb.trans y_slice_pic_order_cnt_lsb.symm, x_short_term_ref_pic_set_sps_flag.trans y_short_term_ref_pic_set_sps_flag.symm, x_st_ref_pic_set.trans y_st_ref_pic_set.symm, x_short_term_ref_pic_set_idx.trans y_short_term_ref_pic_set_idx.symm, x_num_long_term_sps.trans y_num_long_term_sps.symm, x_num_long_term_pics.trans y_num_long_term_pics.symm, x_lt_ref_pics.trans y_lt_ref_pics.symm, x_slice_temporal_mvp_enabled_flag.trans y_slice_temporal_mvp_enabled_flag.symm⟩)) h3
      obtain ⟨⟨rfl, rfl, rfl, rfl, rfl, rfl, rfl, rfl⟩, h3⟩ := h3
      replace h3 := step (P := a_slice_sao_luma_flag = b_slice_sao_luma_flag ∧ a_slice_sao_chroma_flag = b_slice_sao_chroma_flag) (det_when (fun hc r r' h5 => by
          replace h5 := step (det_u32 (by bd va_slice_sao_luma_flag) (by bd vb_slice_sao_luma_flag)) h5
          obtain ⟨rfl, h5⟩ := h5
          replace h5 := step (P := a_slice_sao_chroma_flag = b_slice_sao_chroma_flag) (det_when (fun hc r r' h7 => by
              replace h7 := step (det_u32 (by bd va_slice_sao_chroma_flag) (by bd vb_slice_sao_chroma_flag)) h7
              obtain ⟨rfl, h7⟩ := h7
              exact ⟨rfl, steps_nil h7⟩) (fun hn => by
              have x_slice_sao_chroma_flag := va_slice_sao_chroma_flag.absent (by cnd); have y_slice_sao_chroma_flag := vb_slice_sao_chroma_flag.absent (by cnd)
              exact x_slice_sao_chroma_flag.trans y_slice_sao_chroma_flag.symm)) h5
          obtain ⟨rfl, h5⟩ := h5
          exact ⟨⟨rfl, rfl⟩, steps_nil h5⟩) (fun hn => by
          have x_slice_sao_luma_flag := va_slice_sao_luma_flag.absent (by cnd); have y_slice_sao_luma_flag := vb_slice_sao_luma_flag.absent (by cnd)
          have x_slice_sao_chroma_flag := va_slice_sao_chroma_flag.absent (by cnd); have y_slice_sao_chroma_flag := vb_slice_sao_chroma_flag.absent (by cnd)
          exact ⟨x_slice_sao_luma_flag.trans y_slice_sao_luma_flag.symm, x_slice_sao_chroma_flag.trans y_slice_sao_chroma_flag.symm⟩)) h3
      obtain ⟨⟨rfl, rfl⟩, h3⟩ := h3
      replace h3 := step (P := a_num_ref_idx_active_override_flag = b_num_ref_idx_active_override_flag ∧ a_num_ref_idx_l0_active_minus1 = b_num_ref_idx_l0_active_minus1 ∧ a_num_ref_idx_l1_active_minus1 = b_num_ref_idx_l1_active_minus1 ∧ a_mvd_l1_zero_flag = b_mvd_l1_zero_flag ∧ a_cabac_init_flag = b_cabac_init_flag ∧ a_collocated_from_l0_flag = b_collocated_from_l0_flag ∧ a_collocated_ref_idx = b_collocated_ref_idx ∧ a_pred_weight_table = b_pred_weight_table ∧ a_five_minus_max_num_merge_cand = b_five_minus_max_num_merge_cand ∧ a_use_integer_mv_flag = b_use_integer_mv_flag) (det_when (fun hc r r' h5 => by
          replace h5 := step (det_u32 (by bd va_num_ref_idx_active_override_flag) (by bd vb_num_ref_idx_active_override_flag)) h5
          obtain ⟨rfl, h5⟩ := h5
          replace h5 := step (P := a_num_ref_idx_l0_active_minus1 = b_num_ref_idx_l0_active_minus1 ∧ a_num_ref_idx_l1_active_minus1 = b_num_ref_idx_l1_active_minus1) (det_when (fun hc r r' h7 => by
              replace h7 := step (det_u32 (by bd va_num_ref_idx_l0_active_minus1) (by bd vb_num_ref_idx_l0_active_minus1)) h7
              obtain ⟨rfl, h7⟩ := h7
              replace h7 := step (P := a_num_ref_idx_l1_active_minus1 = b_num_ref_idx_l1_active_minus1) (det_when (fun hc r r' h9 => by
                  replace h9 := step (det_u32 (by bd va_num_ref_idx_l1_active_minus1) (by bd vb_num_ref_idx_l1_active_minus1)) h9
                  obtain ⟨rfl, h9⟩ := h9
                  exact ⟨rfl, steps_nil h9⟩) (fun hn => by
                  have x_num_ref_idx_l1_active_minus1 := va_num_ref_idx_l1_active_minus1.absent (by cnd); have y_num_ref_idx_l1_active_minus1 := vb_num_ref_idx_l1_active_minus1.absent (by cnd)
                  exact x_num_ref_idx_l1_active_minus1.trans y_num_ref_idx_l1_active_minus1.symm)) h7
              obtain ⟨rfl, h7⟩ := h7
              exact ⟨⟨rfl, rfl⟩, steps_nil h7⟩) (fun hn => by
              have x_num_ref_idx_l0_active_minus1 := va_num_ref_idx_l0_active_minus1.absent (by cnd); have y_num_ref_idx_l0_active_minus1 := vb_num_ref_idx_l0_active_minus1.absent (by cnd)
              have x_num_ref_idx_l1_active_minus1 := va_num_ref_idx_l1_active_minus1.absent (by cnd); have y_num_ref_idx_l1_active_minus1 := vb_num_ref_idx_l1_active_minus1.absent (by cnd)
              exact ⟨x_num_ref_idx_l0_active_minus1.trans y_num_ref_idx_l0_active_minus1.symm, x_num_ref_idx_l1_active_minus1.trans y_num_ref_idx_l1_active_minus1.symm⟩)) h5
          obtain ⟨⟨rfl, rfl⟩, h5⟩ := h5
          replace h5 := step (P := a_mvd_l1_zero_flag = b_mvd_l1_zero_flag) (det_when (fun hc r r' h7 => by
              replace h7 := step (det_u32 (by bd va_mvd_l1_zero_flag) (by bd vb_mvd_l1_zero_flag)) h7
              obtain ⟨rfl, h7⟩ := h7
              exact ⟨rfl, steps_nil h7⟩) (fun hn => by
              have x_mvd_l1_zero_flag := va_mvd_l1_zero_flag.absent (by cnd); have y_mvd_l1_zero_flag := vb_mvd_l1_zero_flag.absent (by cnd)
              exact x_mvd_l1_zero_flag.trans y_mvd_l1_zero_flag.symm)) h5
          obtain ⟨rfl, h5⟩ := h5
          replace h5 := step (P := a_cabac_init_flag = b_cabac_init_flag) (det_when (fun hc r r' h7 => by
              replace h7 := step (det_u32 (by bd va_cabac_init_flag) (by bd vb_cabac_init_flag)) h7
              obtain ⟨rfl, h7⟩ := h7
              exact ⟨rfl, steps_nil h7⟩) (fun hn => by
              have x_cabac_init_flag := va_cabac_init_flag.absent (by cnd); have y_cabac_init_flag := vb_cabac_init_flag.absent (by cnd)
              exact x_cabac_init_flag.trans y_cabac_init_flag.symm)) h5
          obtain ⟨rfl, h5⟩ := h5
          replace h5 := step (P := a_collocated_from_l0_flag = b_collocated_from_l0_flag ∧ a_collocated_ref_idx = b_collocated_ref_idx) (det_when (fun hc r r' h7 => by
              replace h7 := step (P := a_collocated_from_l0_flag = b_collocated_from_l0_flag) (det_when (fun hc r r' h9 => by
                  replace h9 := step (det_u32 (by bd va_collocated_from_l0_flag) (by bd vb_collocated_from_l0_flag)) h9
                  obtain ⟨rfl, h9⟩ := h9
                  exact ⟨rfl, steps_nil h9⟩) (fun hn => by
                  have x_collocated_from_l0_flag := va_collocated_from_l0_flag.absent (by cnd); have y_collocated_from_l0_flag := vb_collocated_from_l0_flag.absent (by cnd)
                  exact x_collocated_from_l0_flag.trans y_collocated_from_l0_flag.symm)) h7
              obtain ⟨rfl, h7⟩ := h7
              replace h7 := step (P := a_collocated_ref_idx = b_collocated_ref_idx) (det_when (fun hc r r' h9 => by
                  replace h9 := step (det_u32 (by bd va_collocated_ref_idx) (by bd vb_collocated_ref_idx)) h9
                  obtain ⟨rfl, h9⟩ := h9
                  exact ⟨rfl, steps_nil h9⟩) (fun hn => by
                  have x_collocated_ref_idx := va_collocated_ref_idx.absent (by cnd); have y_collocated_ref_idx := vb_collocated_ref_idx.absent (by cnd)
                  exact x_collocated_ref_idx.trans y_collocated_ref_idx.symm)) h7
              obtain ⟨rfl, h7⟩ := h7
              exact ⟨⟨rfl, rfl⟩, steps_nil h7⟩) (fun hn => by
              have x_collocated_from_l0_flag := va_collocated_from_l0_flag.absent (by cnd); have y_collocated_from_l0_flag := vb_collocated_from_l0_flag.absent (by cnd)
              have x_collocated_ref_idx := va_collocated_ref_idx.absent (by cnd); have y_collocated_ref_idx := vb_collocated_ref_idx.absent (by cnd)
              exact ⟨x_collocated_from_l0_flag.trans y_collocated_from_l0_flag.symm, x_collocated_ref_idx.trans y_collocated_ref_idx.symm⟩)) h5
          obtain ⟨⟨rfl, rfl⟩, h5⟩ := h5
          replace h5 := step (P := a_pred_weight_table = b_pred_weight_table) (det_when (fun hc r r' h7 => by
              replace h7 := step (det_someEq (va_pred_weight_table.same vb_pred_weight_table Iff.rfl) (fun x y hx hy => det_PredWeightTable (va_pred_weight_table.valid x hx) (vb_pred_weight_table.valid y hy))) h7
              obtain ⟨rfl, h7⟩ := h7
              exact ⟨rfl, steps_nil h7⟩) (fun hn => by
              have x_pred_weight_table := va_pred_weight_table.none (by cnd); have y_pred_weight_table := vb_pred_weight_table.none (by cnd)
              exact x_pred_weight_table.trans y_pred_weight_table.symm)) h5
          obtain ⟨rfl, h5⟩ := h5
          replace h5 := step (det_u32 (by bd va_five_minus_max_num_merge_cand) (by bd vb_five_minus_max_num_merge_cand)) h5
          obtain ⟨rfl, h5⟩ := h5
          replace h5 := step (P := a_use_integer_mv_flag = b_use_integer_mv_flag) (det_when (fun hc r r' h7 => by
              replace h7 := step (det_u32 (by bd va_use_integer_mv_flag) (by bd vb_use_integer_mv_flag)) h7
              obtain ⟨rfl, h7⟩ := h7
              exact ⟨rfl, steps_nil h7⟩) (fun hn => by
              have x_use_integer_mv_flag := va_use_integer_mv_flag.absent (by cnd); have y_use_integer_mv_flag := vb_use_integer_mv_flag.absent (by cnd)
              exact x_use_integer_mv_flag.trans y_use_integer_mv_flag.symm)) h5
          obtain ⟨rfl, h5⟩ := h5
          exact ⟨⟨rfl, rfl, rfl, rfl, rfl, rfl, rfl, rfl, rfl, rfl⟩, steps_nil h5⟩) (fun hn => by
          have x_num_ref_idx_active_override_flag := va_num_ref_idx_active_override_flag.absent (by cnd); have y_num_ref_idx_active_override_flag := vb_num_ref_idx_active_override_flag.absent (by cnd)
          have x_num_ref_idx_l0_active_minus1 := va_num_ref_idx_l0_active_minus1.absent (by cnd); have y_num_ref_idx_l0_active_minus1 := vb_num_ref_idx_l0_active_minus1.absent (by cnd)
          have x_num_ref_idx_l1_active_minus1 := va_num_ref_idx_l1_active_minus1.absent (by cnd); have y_num_ref_idx_l1_active_minus1 := vb_num_ref_idx_l1_active_minus1.absent (by cnd)
          have x_mvd_l1_zero_flag := va_mvd_l1_zero_flag.absent (by cnd); have y_mvd_l1_zero_flag := vb_mvd_l1_zero_flag.absent (by cnd)
          have x_cabac_init_flag := va_cabac_init_flag.absent (by cnd); have y_cabac_init_flag := vb_cabac_init_flag.absent (by cnd)
          have x_collocated_from_l0_flag := va_collocated_from_l0_flag.absent (by cnd); have y_collocated_from_l0_flag := vb_collocated_from_l0_flag.absent (by cnd)
          have x_collocated_ref_idx := va_collocated_ref_idx.absent (by cnd); have y_collocated_ref_idx := vb_collocated_ref_idx.absent (by cnd)
          have x_pred_weight_table := va_pred_weight_table.none (by cnd); have y_pred_weight_table := vb_pred_weight_table.none (by cnd)
          have x_five_minus_max_num_merge_cand := va_five_minus_max_num_merge_cand.absent (by cnd); have y_five_minus_max_num_merge_cand := vb_five_minus_max_num_merge_cand.absent (by cnd)
          have x_use_integer_mv_flag := va_use_integer_mv_flag.absent (by cnd); have y_use_integer_mv_flag := vb_use_integer_mv_flag.absent (by cnd)
          exact ⟨x_num_ref_idx_active_override_flag.trans y_num_ref_idx_active_override_flag.symm, x_num_ref_idx_l0_active_minus1.trans y_num_ref_idx_l0_active_minus1.symm, x_num_ref_idx_l1_active_minus1.trans y_num_ref_idx_l1_active_minus1.symm, x_mvd_l1_zero_flag.trans y_mvd_l1_zero_flag.symm, x_cabac_init_flag.trans y_cabac_init_flag.symm, x_collocated_from_l0_flag.trans y_collocated_from_l0_flag.symm, x_collocated_ref_idx.trans y_collocated_ref_idx.symm, x_pred_weight_table.trans y_pred_weight_table.symm, x_five_minus_max_num_merge_cand.trans y_five_minus_max_num_merge_cand.symm, x_use_integer_mv_flag.trans y_use_integer_mv_flag.symm⟩)) h3
      obtain ⟨⟨rfl, rfl, rfl, rfl, rfl, rfl, rfl, rfl, rfl, rfl⟩, h3⟩ := h3
      replace h3 := step (det_num) h3
      obtain ⟨rfl, h3⟩ := h3
      replace h3 := step (P := a_slice_cb_qp_offset = b_slice_cb_qp_offset ∧ a_slice_cr_qp_offset = b_slice_cr_qp_offset) (det_when (fun hc r r' h5 => by
          replace h5 := step (det_num) h5
          obtain ⟨rfl, h5⟩ := h5
          replace h5 := step (det_num) h5
          obtain ⟨rfl, h5⟩ := h5
          exact ⟨⟨rfl, rfl⟩, steps_nil h5⟩) (fun hn => by
          have x_slice_cb_qp_offset := va_slice_cb_qp_offset.absent (by cnd); have y_slice_cb_qp_offset := vb_slice_cb_qp_offset.absent (by cnd)
          have x_slice_cr_qp_offset := va_slice_cr_qp_offset.absent (by cnd); have y_slice_cr_qp_offset := vb_slice_cr_qp_offset.absent (by cnd)
          exact ⟨x_slice_cb_qp_offset.trans y_slice_cb_qp_offset.symm, x_slice_cr_qp_offset.trans y_slice_cr_qp_offset.symm⟩)) h3
      obtain ⟨⟨rfl, rfl⟩, h3⟩ := h3
      replace h3 := step (P := a_slice_act_y_qp_offset = b_slice_act_y_qp_offset ∧ a_slice_act_cb_qp_offset = b_slice_act_cb_qp_offset ∧ a_slice_act_cr_qp_offset = b_slice_act_cr_qp_offset) (det_when (fun hc r r' h5 => by
          replace h5 := step (det_num) h5
          obtain ⟨rfl, h5⟩ := h5
          replace h5 := step (det_num) h5
          obtain ⟨rfl, h5⟩ := h5
          replace h5 := step (det_num) h5
          obtain ⟨rfl, h5⟩ := h5
          exact ⟨⟨rfl, rfl, rfl⟩, steps_nil h5⟩) (fun hn => by
          have x_slice_act_y_qp_offset := va_slice_act_y_qp_offset.absent (by cnd); have y_slice_act_y_qp_offset := vb_slice_act_y_qp_offset.absent (by cnd)
          have x_slice_act_cb_qp_offset := va_slice_act_cb_qp_offset.absent (by cnd); have y_slice_act_cb_qp_offset := vb_slice_act_cb_qp_offset.absent (by cnd)
          have x_slice_act_cr_qp_offset := va_slice_act_cr_qp_offset.absent (by cnd); have y_slice_act_cr_qp_offset := vb_slice_act_cr_qp_offset.absent (by cnd)
          exact ⟨x_slice_act_y_qp_offset.trans y_slice_act_y_qp_offset.symm, x_slice_act_cb_qp_offset.trans y_slice_act_cb_qp_offset.symm, x_slice_act_cr_qp_offset.trans y_slice_act_cr_qp_offset.symm⟩)) h3
      obtain ⟨⟨rfl, rfl, rfl⟩, h3⟩ := h3
      replace h3 := step (P := a_deblocking_filter_override_flag = b_deblocking_filter_override_flag) (det_when (fun hc r r' h5 => by
          replace h5 := step (det_u32 (by bd va_deblocking_filter_override_flag) (by bd vb_deblocking_filter_override_flag)) h5
          obtain ⟨rfl, h5⟩ := h5
          exact ⟨rfl, steps_nil h5⟩) (fun hn => by
          have x_deblocking_filter_override_flag := va_deblocking_filter_override_flag.absent (by cnd); have y_deblocking_filter_override_flag := vb_deblocking_filter_override_flag.absent (by cnd)
          exact x_deblocking_filter_override_flag.trans y_deblocking_filter_override_flag.symm)) h3
      obtain ⟨rfl, h3⟩ := h3
      replace h3 := step (P := a_slice_deblocking_filter_disabled_flag = b_slice_deblocking_filter_disabled_flag ∧ a_slice_beta_offset_div2 = b_slice_beta_offset_div2 ∧ a_slice_tc_offset_div2 = b_slice_tc_offset_div2) (det_when (fun hc r r' h5 => by
          replace h5 := step (det_u32 (by bd va_slice_deblocking_filter_disabled_flag) (by bd vb_slice_deblocking_filter_disabled_flag)) h5
          obtain ⟨rfl, h5⟩ := h5
          replace h5 := step (P := a_slice_beta_offset_div2 = b_slice_beta_offset_div2 ∧ a_slice_tc_offset_div2 = b_slice_tc_offset_div2) (det_when (fun hc r r' h7 => by
              replace h7 := step (det_num) h7
              obtain ⟨rfl, h7⟩ := h7
              replace h7 := step (det_num) h7
              obtain ⟨rfl, h7⟩ := h7
              exact ⟨⟨rfl, rfl⟩, steps_nil h7⟩) (fun hn => by
              have x_slice_beta_offset_div2 := va_slice_beta_offset_div2.absent (by cnd); have y_slice_beta_offset_div2 := vb_slice_beta_offset_div2.absent (by cnd)
              have x_slice_tc_offset_div2 := va_slice_tc_offset_div2.absent (by cnd); have y_slice_tc_offset_div2 := vb_slice_tc_offset_div2.absent (by cnd)
              exact ⟨x_slice_beta_offset_div2.trans y_slice_beta_offset_div2.symm, x_slice_tc_offset_div2.trans y_slice_tc_offset_div2.symm⟩)) h5
          obtain ⟨⟨rfl, rfl⟩, h5⟩ := h5
          exact ⟨⟨rfl, rfl, rfl⟩, steps_nil h5⟩) (fun hn => by
          have x_slice_deblocking_filter_disabled_flag := va_slice_deblocking_filter_disabled_flag.absent (by cnd); have y_slice_deblocking_filter_disabled_flag := vb_slice_deblocking_filter_disabled_flag.absent (by cnd)
          have x_slice_beta_offset_div2 := va_slice_beta_offset_div2.absent (by cnd); have y_slice_beta_offset_div2 := vb_slice_beta_offset_div2.absent (by cnd)
          have x_slice_tc_offset_div2 := va_slice_tc_offset_div2.absent (by cnd); have y_slice_tc_offset_div2 := vb_slice_tc_offset_div2.absent (by cnd)
          exact ⟨x_slice_deblocking_filter_disabled_flag.trans y_slice_deblocking_filter_disabled_flag.symm, x_slice_beta_offset_div2.trans y_slice_beta_offset_div2.symm, x_slice_tc_offset_div2.trans y_slice_tc_offset_div2.symm⟩)) h3
      obtain ⟨⟨rfl, rfl, rfl⟩, h3⟩ := h3
      replace h3 := step (P := a_slice_loop_filter_across_slices_enabled_flag = b_slice_loop_filter_across_slices_enabled_flag) (det_when (fun hc r r' h5 => by
          replace h5 := step (det_u32 (by bd va_slice_loop_filter_across_slices_enabled_flag) (by bd vb_slice_loop_filter_across_slices_enabled_flag)) h5
          obtain ⟨rfl, h5⟩ := h5
          exact ⟨rfl, steps_nil h5⟩) (fun hn => by
          have x_slice_loop_filter_across_slices_enabled_flag := va_slice_loop_filter_across_slices_enabled_flag.absent (by cnd); have y_slice_loop_filter_across_slices_enabled_flag := vb_slice_loop_filter_across_slices_enabled_flag.absent (by cnd)
          exact x_slice_loop_filter_across_slices_enabled_flag.trans y_slice_loop_filter_across_slices_enabled_flag.symm)) h3
      obtain ⟨rfl, h3⟩ := h3
      exact ⟨⟨rfl, rfl, rfl, rfl, rfl, rfl, rfl, rfl, rfl, rfl, rfl, rfl, rfl, rfl, rfl, rfl, rfl, rfl, rfl, rfl, rfl, rfl, rfl, rfl, rfl, rfl, rfl, rfl, rfl, rfl, rfl, rfl, rfl, rfl, rfl⟩, steps_nil h3⟩) (fun hn => by
      have x_slice_reserved_flag := va_slice_reserved_flag.absent (by cnd); have y_slice_reserved_flag := vb_slice_reserved_flag.absent (by cnd)
      have x_slice_type := va_slice_type.absent (by cnd); have y_slice_type := vb_slice_type.absent (by cnd)
      have x_pic_output_flag := va_pic_output_flag.absent (by cnd); have y_pic_output_flag := vb_pic_output_flag.absent (by cnd)
      have x_colour_plane_id := va_colour_plane_id.absent (by cnd); have y_colour_plane_id := vb_colour_plane_id.absent (by cnd)
      have x_slice_pic_order_cnt_lsb := va_slice_pic_order_cnt_lsb.absent (by cnd); have y_slice_pic_order_cnt_lsb := vb_slice_pic_order_cnt_lsb.absent (by cnd)
      have x_short_term_ref_pic_set_sps_flag := va_short_term_ref_pic_set_sps_flag.absent (by cnd); have y_short_term_ref_pic_set_sps_flag := vb_short_term_ref_pic_set_sps_flag.absent (by cnd)
      have x_st_ref_pic_set := va_st_ref_pic_set.none (by cnd); have y_st_ref_pic_set := vb_st_ref_pic_set.none (by cnd)
      have x_short_term_ref_pic_set_idx := va_short_term_ref_pic_set_idx.absent (by cnd); have y_short_term_ref_pic_set_idx := vb_short_term_ref_pic_set_idx.absent (by cnd)
      have x_num_long_term_sps := va_num_long_term_sps.absent (by cnd); have y_num_long_term_sps := vb_num_long_term_sps.absent (by cnd)
      have x_num_long_term_pics := va_num_long_term_pics.absent (by cnd); have y_num_long_term_pics := vb_num_long_term_pics.absent (by cnd)
      have x_lt_ref_pics := va_lt_ref_pics.absent (by cnd); have y_lt_ref_pics := vb_lt_ref_pics.absent (by cnd)
      have x_slice_temporal_mvp_enabled_flag := va_slice_temporal_mvp_enabled_flag.absent (by cnd); have y_slice_temporal_mvp_enabled_flag := vb_slice_temporal_mvp_enabled_flag.absent (by cnd)
      have x_slice_sao_luma_flag := va_slice_sao_luma_flag.absent (by cnd); have y_slice_sao_luma_flag := vb_slice_sao_luma_flag.absent (by cnd)
      have x_slice_sao_chroma_flag := va_slice_sao_chroma_flag.absent (by cnd); have y_slice_sao_chroma_flag := vb_slice_sao_chroma_flag.absent (by cnd)
      have x_num_ref_idx_active_override_flag := va_num_ref_idx_active_override_flag.absent (by cnd); have y_num_ref_idx_active_override_flag := vb_num_ref_idx_active_override_flag.absent (by cnd)
      have x_num_ref_idx_l0_active_minus1 := va_num_ref_idx_l0_active_minus1.absent (by cnd); have y_num_ref_idx_l0_active_minus1 := vb_num_ref_idx_l0_active_minus1.absent (by cnd)
      have x_num_ref_idx_l1_active_minus1 := va_num_ref_idx_l1_active_minus1.absent (by cnd); have y_num_ref_idx_l1_active_minus1 := vb_num_ref_idx_l1_active_minus1.absent (by cnd)
      have x_mvd_l1_zero_flag := va_mvd_l1_zero_flag.absent (by cnd); have y_mvd_l1_zero_flag := vb_mvd_l1_zero_flag.absent (by cnd)
      have x_cabac_init_flag := va_cabac_init_flag.absent (by cnd); have y_cabac_init_flag := vb_cabac_init_flag.absent (by cnd)
      have x_collocated_from_l0_flag := va_collocated_from_l0_flag.absent (by cnd); have y_collocated_from_l0_flag := vb_collocated_from_l0_flag.absent (by cnd)
      have x_collocated_ref_idx := va_collocated_ref_idx.absent (by cnd); have y_collocated_ref_idx := vb_collocated_ref_idx.absent (by cnd)
      have x_pred_weight_table := va_pred_weight_table.none (by cnd); have y_pred_weight_table := vb_pred_weight_table.none (by cnd)
      have x_five_minus_max_num_merge_cand := va_five_minus_max_num_merge_cand.absent (by cnd); have y_five_minus_max_num_merge_cand := vb_five_minus_max_num_merge_cand.absent (by cnd)
      have x_use_integer_mv_flag := va_use_integer_mv_flag.absent (by cnd); have y_use_integer_mv_flag := vb_use_integer_mv_flag.absent (by cnd)
      have x_slice_qp_delta := va_slice_qp_delta.absent (by cnd); have y_slice_qp_delta := vb_slice_qp_delta.absent (by cnd)
      have x_slice_cb_qp_offset := va_slice_cb_qp_offset.absent (by cnd); have y_slice_cb_qp_offset := vb_slice_cb_qp_offset.absent (by cnd)
      have x_slice_cr_qp_offset := va_slice_cr_qp_offset.absent (by cnd); have y_slice_cr_qp_offset := vb_slice_cr_qp_offset.absent (by cnd)
      have x_slice_act_y_qp_offset := va_slice_act_y_qp_offset.absent (by cnd); have y_slice_act_y_qp_offset := vb_slice_act_y_qp_offset.absent (by cnd)
      have x_slice_act_cb_qp_offset := va_slice_act_cb_qp_offset.absent (by cnd); have y_slice_act_cb_qp_offset := vb_slice_act_cb_qp_offset.absent (by cnd)
      have x_slice_act_cr_qp_offset := va_slice_act_cr_qp_offset.absent (by cnd); have y_slice_act_cr_qp_offset := vb_slice_act_cr_qp_offset.absent (by cnd)
      have x_deblocking_filter_override_flag := va_deblocking_filter_override_flag.absent (by cnd); have y_deblocking_filter_override_flag := vb_deblocking_filter_override_flag.absent (by cnd)
      have x_slice_deblocking_filter_disabled_flag := va_slice_deblocking_filter_disabled_flag.absent (by cnd); have y_slice_deblocking_filter_disabled_flag := vb_slice_deblocking_filter_disabled_flag.absent (by cnd)
      have x_slice_beta_offset_div2 := va_slice_beta_offset_div2.absent (by cnd); have y_slice_beta_offset_div2 := vb_slice_beta_offset_div2.absent (by cnd)
      have x_slice_tc_offset_div2 := va_slice_tc_offset_div2.absent (by cnd); have y_slice_tc_offset_div2 := vb_slice_tc_offset_div2.absent (by cnd)
      have x_slice_loop_filter_across_slices_enabled_flag := va_slice_loop_filter_across_slices_enabled_flag.absent (by cnd); have y_slice_loop_filter_across_slices_enabled_flag := vb_slice_loop_filter_across_slices_enabled_flag.absent (by cnd)
      exact ⟨x_slice_reserved_flag.trans y_slice_reserved_flag.symm, x_slice_type.trans y_slice_type.symm, x_pic_output_flag.trans y_pic_output_flag.symm, x_colour_plane_id.trans y_colour_plane_id.symm, x_slice_pic_order_cnt_lsb.trans y_slice_pic_order_cnt_lsb.symm, x_short_term_ref_pic_set_sps_flag.trans y_short_term_ref_pic_set_sps_flag.symm, x_st_ref_pic_set.trans y_st_ref_pic_set.symm, x_short_term_ref_pic_set_idx.trans y_short_term_ref_pic_set_idx.symm, x_num_long_term_sps.trans y_num_long_term_sps.symm, x_num_long_term_pics.trans y_num_long_term_pics.symm, x_lt_ref_pics.trans y_lt_ref_pics.symm, x_slice_temporal_mvp_enabled_flag.trans y_slice_temporal_mvp_enabled_flag.symm, x_slice_sao_luma_flag.trans y_slice_sao_luma_flag.symm, x_slice_sao_chroma_flag.trans y_slice_sao_chroma_flag.symm, x_num_ref_idx_active_override_flag.trans y_num_ref_idx_active_override_flag.symm, x_num_ref_idx_l0_active_minus1.trans y_num_ref_idx_l0_active_minus1.symm, x_num_ref_idx_l1_active_minus1.trans y_num_ref_idx_l1_active_minus1.symm, x_mvd_l1_zero_flag.trans y_mvd_l1_zero_flag.symm, x_cabac_init_flag.trans y_cabac_init_flag.symm, x_collocated_from_l0_flag.trans y_collocated_from_l0_flag.symm, x_collocated_ref_idx.trans y_collocated_ref_idx.symm, x_pred_weight_table.trans y_pred_weight_table.symm, x_five_minus_max_num_merge_cand.trans y_five_minus_max_num_merge_cand.symm, x_use_integer_mv_flag.trans y_use_integer_mv_flag.symm, x_slice_qp_delta.trans y_slice_qp_delta.symm, x_slice_cb_qp_offset.trans y_slice_cb_qp_offset.symm, x_slice_cr_qp_offset.trans y_slice_cr_qp_offset.symm, x_slice_act_y_qp_offset.trans y_slice_act_y_qp_offset.symm, x_slice_act_cb_qp_offset.trans y_slice_act_cb_qp_offset.symm, x_slice_act_cr_qp_offset.trans y_slice_act_cr_qp_offset.symm, x_deblocking_filter_override_flag.trans y_deblocking_filter_override_flag.symm, x_slice_deblocking_filter_disabled_flag.trans y_slice_deblocking_filter_disabled_flag.symm, x_slice_beta_offset_div2.trans y_slice_beta_offset_div2.symm, x_slice_tc_offset_div2.trans y_slice_tc_offset_div2.symm, x_slice_loop_filter_across_slices_enabled_flag.trans y_slice_loop_filter_across_slices_enabled_flag.symm⟩)) h1
  obtain ⟨⟨rfl, rfl, rfl, rfl, rfl, rfl, rfl, rfl, rfl, rfl, rfl, rfl, rfl, rfl, rfl, rfl, rfl, rfl, rfl, rfl, rfl, rfl, rfl, rfl, rfl, rfl, rfl, rfl, rfl, rfl, rfl, rfl, rfl, rfl, rfl⟩, h1⟩ := h1
  replace h1 := step (P := a_num_entry_point_offsets = b_num_entry_point_offsets ∧ a_offset_len_minus1 = b_offset_len_minus1 ∧ a_entry_point_offset_minus1 = b_entry_point_offset_minus1) (det_when (fun hc r r' h3 => by
      replace h3 := step (det_u32 (by bd va_num_entry_point_offsets) (by bd vb_num_entry_point_offsets)) h3
      obtain ⟨rfl, h3⟩ := h3
      replace h3 := step (P := a_offset_len_minus1 = b_offset_len_minus1 ∧ a_entry_point_offset_minus1 = b_entry_point_offset_minus1) (det_when (fun hc r r' h5 => by
          replace h5 := step (det_u32 (by bd va_offset_len_minus1) (by bd vb_offset_len_minus1)) h5
          obtain ⟨rfl, h5⟩ := h5
          have hlen : a_offset_len_minus1 ≤ 31 := Spec.Opt.either va_offset_len_minus1 (fun k => k.2) (fun k => by omega)
          replace h5 := step (det_list32 (by bdl va_entry_point_offset_minus1) (by bdl vb_entry_point_offset_minus1)) h5
          obtain ⟨rfl, h5⟩ := h5
          exact ⟨⟨rfl, rfl⟩, steps_nil h5⟩) (fun hn => by
          have x_offset_len_minus1 := va_offset_len_minus1.absent (by cnd); have y_offset_len_minus1 := vb_offset_len_minus1.absent (by cnd)
          have x_entry_point_offset_minus1 := va_entry_point_offset_minus1.absent (by cnd); have y_entry_point_offset_minus1 := vb_entry_point_offset_minus1.absent (by cnd)
          exact ⟨x_offset_len_minus1.trans y_offset_len_minus1.symm, x_entry_point_offset_minus1.trans y_entry_point_offset_minus1.symm⟩)) h3
      obtain ⟨⟨rfl, rfl⟩, h3⟩ := h3
      exact ⟨⟨rfl, rfl, rfl⟩, steps_nil h3⟩) (fun hn => by
      have x_num_entry_point_offsets := va_num_entry_point_offsets.absent (by cnd); have y_num_entry_point_offsets := vb_num_entry_point_offsets.absent (by cnd)
      have x_offset_len_minus1 := va_offset_len_minus1.absent (by cnd); have y_offset_len_minus1 := vb_offset_len_minus1.absent (by cnd)
      have x_entry_point_offset_minus1 := va_entry_point_offset_minus1.absent (by cnd); have y_entry_point_offset_minus1 := vb_entry_point_offset_minus1.absent (by cnd)
      exact ⟨x_num_entry_point_offsets.trans y_num_entry_point_offsets.symm, x_offset_len_minus1.trans y_offset_len_minus1.symm, x_entry_point_offset_minus1.trans y_entry_point_offset_minus1.symm⟩)) h1
  obtain ⟨⟨rfl, rfl, rfl⟩, h1⟩ := h1
  replace h1 := step (P := a_slice_segment_header_extension_length = b_slice_segment_header_extension_length ∧ a_slice_segment_header_extension_data_byte = b_slice_segment_header_extension_data_byte) (det_when (fun hc r r' h3 => by
      replace h3 := step (det_u32 (by bd va_slice_segment_header_extension_length) (by bd vb_slice_segment_header_extension_length)) h3
      obtain ⟨rfl, h3⟩ := h3
      replace h3 := step (det_list32 (by bdl va_slice_segment_header_extension_data_byte) (by bdl vb_slice_segment_header_extension_data_byte)) h3
      obtain ⟨rfl, h3⟩ := h3
      exact ⟨⟨rfl, rfl⟩, steps_nil h3⟩) (fun hn => by
      have x_slice_segment_header_extension_length := va_slice_segment_header_extension_length.absent (by cnd); have y_slice_segment_header_extension_length := vb_slice_segment_header_extension_length.absent (by cnd)
      have x_slice_segment_header_extension_data_byte := va_slice_segment_header_extension_data_byte.absent (by cnd); have y_slice_segment_header_extension_data_byte := vb_slice_segment_header_extension_data_byte.absent (by cnd)
      exact ⟨x_slice_segment_header_extension_length.trans y_slice_segment_header_extension_length.symm, x_slice_segment_header_extension_data_byte.trans y_slice_segment_header_extension_data_byte.symm⟩)) h1
  obtain ⟨⟨rfl, rfl⟩, h1⟩ := h1
  exact ⟨rfl, steps_nil h1⟩

end H265
