/-
Generated (by a script from the tables of names).
-/
import Verif.Proof.DumpDet1

set_option autoImplicit false

namespace H265
open Spec
theorem det_SubLayerHrd {sp : Nat} {s t : List SubLayerHrdEntry} (ha : ∀ x ∈ s, ValidSubLayerHrdEntry sp x) (hb : ∀ x ∈ t, ValidSubLayerHrdEntry sp x) :
    Det (textSubLayerHrd s) (textSubLayerHrd t) (s = t) := by
  unfold textSubLayerHrd
  refine det_block (fun r r' h => ?_)
  obtain ⟨e1, h⟩ := step (det_list32 (by intro x hx; obtain ⟨y, hy, rfl⟩ := List.mem_map.1 hx; bd (ha y hy).bit_rate_value_minus1) (by intro x hx; obtain ⟨y, hy, rfl⟩ := List.mem_map.1 hx; bd (hb y hy).bit_rate_value_minus1)) h
  obtain ⟨e2, h⟩ := step (det_list32 (by intro x hx; obtain ⟨y, hy, rfl⟩ := List.mem_map.1 hx; bd (ha y hy).cpb_size_value_minus1) (by intro x hx; obtain ⟨y, hy, rfl⟩ := List.mem_map.1 hx; bd (hb y hy).cpb_size_value_minus1)) h
  obtain ⟨e3, h⟩ := step (det_list32 (by intro x hx; obtain ⟨y, hy, rfl⟩ := List.mem_map.1 hx; bd (ha y hy).cpb_size_du_value_minus1) (by intro x hx; obtain ⟨y, hy, rfl⟩ := List.mem_map.1 hx; bd (hb y hy).cpb_size_du_value_minus1)) h
  obtain ⟨e4, h⟩ := step (det_list32 (by intro x hx; obtain ⟨y, hy, rfl⟩ := List.mem_map.1 hx; bd (ha y hy).bit_rate_du_value_minus1) (by intro x hx; obtain ⟨y, hy, rfl⟩ := List.mem_map.1 hx; bd (hb y hy).bit_rate_du_value_minus1)) h
  obtain ⟨e5, h⟩ := step (det_list32 (by intro x hx; obtain ⟨y, hy, rfl⟩ := List.mem_map.1 hx; bd (ha y hy).cbr_flag) (by intro x hx; obtain ⟨y, hy, rfl⟩ := List.mem_map.1 hx; bd (hb y hy).cbr_flag)) h
  refine ⟨cols_inj (f := fun x => (x.bit_rate_value_minus1, x.cpb_size_value_minus1, x.cpb_size_du_value_minus1, x.bit_rate_du_value_minus1, x.cbr_flag)) (by rintro ⟨⟩ ⟨⟩ h; simp_all) (cols e1 (cols e2 (cols e3 (cols e4 e5)))), steps_nil h⟩

/-- the HRD parameters of the sub-layers, in the order of the text -/
def hrdLists (l : List HrdSubLayer) : List (List SubLayerHrdEntry) := l.flatMap fun l => l.nal_hrd.toList ++ l.vcl_hrd.toList

theorem hrdLists_length {nal vcl sp : Nat} : ∀ {l : List HrdSubLayer}, (∀ x ∈ l, ValidHrdSubLayer nal vcl sp x) →
    (hrdLists l).length = l.length * ((if nal ≠ 0 then 1 else 0) + (if vcl ≠ 0 then 1 else 0))
  | [], _ => by simp [hrdLists]
  | x :: l, h => by
    have ih := hrdLists_length (l := l) (fun y hy => h y (by simp [hy]))
    have hn := (h x (by simp)).nal_hrd.present
    have hv := (h x (by simp)).vcl_hrd.present
    have e1 : x.nal_hrd.toList.length = if nal ≠ 0 then 1 else 0 := by
      cases hx : x.nal_hrd <;> simp_all
    have e2 : x.vcl_hrd.toList.length = if vcl ≠ 0 then 1 else 0 := by
      cases hx : x.vcl_hrd <;> simp_all
    simp only [hrdLists, List.flatMap_cons, List.length_append, List.length_cons] at ih ⊢
    rw [ih, e1, e2, Nat.succ_mul]; omega

theorem hrdLists_valid {nal vcl sp : Nat} {l : List HrdSubLayer} (h : ∀ x ∈ l, ValidHrdSubLayer nal vcl sp x) :
    ∀ e ∈ hrdLists l, ∀ y ∈ e, ValidSubLayerHrdEntry sp y := by
  intro e he y hy
  obtain ⟨x, hx, hex⟩ := List.mem_flatMap.1 he
  rcases List.mem_append.1 hex with hex | hex
  · exact ((h x hx).nal_hrd.valid e (by simpa using hex)).valid y hy
  · exact ((h x hx).vcl_hrd.valid e (by simpa using hex)).valid y hy

theorem option_toList_split {α : Type} {o o' : Option α} {r t : List α} (hs : o.isSome = o'.isSome) (h : o.toList ++ r = o'.toList ++ t) : o = o' ∧ r = t := by
  cases o <;> cases o' <;> simp_all

theorem hrd_sub_layers {nal vcl sp : Nat} : ∀ {l m : List HrdSubLayer}, (∀ x ∈ l, ValidHrdSubLayer nal vcl sp x) → (∀ x ∈ m, ValidHrdSubLayer nal vcl sp x) →
    l.map (fun x => (x.fixed_pic_rate_general_flag, x.fixed_pic_rate_within_cvs_flag, x.elemental_duration_in_tc_minus1, x.low_delay_hrd_flag, x.cpb_cnt_minus1)) =
      m.map (fun x => (x.fixed_pic_rate_general_flag, x.fixed_pic_rate_within_cvs_flag, x.elemental_duration_in_tc_minus1, x.low_delay_hrd_flag, x.cpb_cnt_minus1)) →
    hrdLists l = hrdLists m → l = m
  | [], [], _, _, _, _ => rfl
  | [], _ :: _, _, _, h, _ => by cases h
  | _ :: _, [], _, _, h, _ => by cases h
  | x :: l, y :: m, hl, hm, hc, he => by
    simp only [List.map_cons, List.cons.injEq] at hc
    simp only [hrdLists, List.flatMap_cons, List.append_assoc] at he
    have vx := hl x (by simp)
    have vy := hm y (by simp)
    obtain ⟨e1, he⟩ := option_toList_split (vx.nal_hrd.same vy.nal_hrd Iff.rfl) he
    obtain ⟨e2, he⟩ := option_toList_split (vx.vcl_hrd.same vy.vcl_hrd Iff.rfl) he
    have ih := hrd_sub_layers (l := l) (m := m) (fun z hz => hl z (by simp [hz])) (fun z hz => hm z (by simp [hz])) hc.2 he
    cases x; cases y; simp_all

theorem det_hrdLists {nal vcl sp : Nat} {l m : List HrdSubLayer} (hl : ∀ x ∈ l, ValidHrdSubLayer nal vcl sp x) (hm : ∀ x ∈ m, ValidHrdSubLayer nal vcl sp x)
    (hlen : l.length = m.length) : Det ((hrdLists l).flatMap textSubLayerHrd) ((hrdLists m).flatMap textSubLayerHrd) (hrdLists l = hrdLists m) :=
  det_partsEq (by rw [hrdLists_length hl, hrdLists_length hm, hlen]) (fun x hx y hy => det_SubLayerHrd (sp := sp) (hrdLists_valid hl x hx) (hrdLists_valid hm y hy))

theorem hrdLists_none {nal vcl sp : Nat} {l : List HrdSubLayer} (hl : ∀ x ∈ l, ValidHrdSubLayer nal vcl sp x) (hn : ¬ nal ≠ 0) (hv : ¬ vcl ≠ 0) : hrdLists l = [] := by
  rw [← List.length_eq_zero_iff, hrdLists_length hl, if_neg hn, if_neg hv]; simp

theorem ValidConstraints_bounds {idc : Nat} {flags : List Nat} {c : ProfileConstraints} (h : ValidConstraints idc flags c) :
    c.max_12bit_constraint_flag < 2 ^ 32 ∧ c.max_10bit_constraint_flag < 2 ^ 32 ∧ c.max_8bit_constraint_flag < 2 ^ 32 ∧
    c.max_422chroma_constraint_flag < 2 ^ 32 ∧ c.max_420chroma_constraint_flag < 2 ^ 32 ∧ c.max_monochrome_constraint_flag < 2 ^ 32 ∧
    c.intra_constraint_flag < 2 ^ 32 ∧ c.one_picture_only_constraint_flag < 2 ^ 32 ∧ c.lower_bit_rate_constraint_flag < 2 ^ 32 ∧
    c.max_14bit_constraint_flag < 2 ^ 32 := by
  by_cases k : compatAny idc flags [4, 5, 6, 7, 8, 9, 10, 11]
  · obtain ⟨h1, h2, h3, h4, h5, h6, h7, h8, h9, h10, -⟩ := h.ext k
    have : c.max_14bit_constraint_flag < 2 ^ 32 := by bd h10
    refine ⟨?_, ?_, ?_, ?_, ?_, ?_, ?_, ?_, ?_, this⟩ <;> omega
  · by_cases k2 : compatAny idc flags [2]
    · obtain ⟨r, o, p, hr, ho, hp, rfl⟩ := h.main10 k k2
      refine ⟨?_, ?_, ?_, ?_, ?_, ?_, ?_, ?_, ?_, ?_⟩ <;> dsimp only <;> omega
    · obtain ⟨p, hp, rfl⟩ := h.other k k2
      refine ⟨?_, ?_, ?_, ?_, ?_, ?_, ?_, ?_, ?_, ?_⟩ <;> dsimp only <;> omega

theorem profileName_words (p : ProfileType) : ("progressive_source_flag".toList ++ [':']) ∉ words (profileName p).toList := by
  cases p <;> decide +kernel

/-- The name of a profile, up to the next element. -/
theorem step_profile {name : String} {p q : ProfileType} {x y : Nat} {fs gs : List Text} {r t : Text}
    (e : (entry name (words (profileName p).toList) :: u32 "progressive_source_flag" x :: fs).flatten ++ r =
      (entry name (words (profileName q).toList) :: u32 "progressive_source_flag" y :: gs).flatten ++ t) :
    (u32 "progressive_source_flag" x :: fs).flatten ++ r = (u32 "progressive_source_flag" y :: gs).flatten ++ t := by
  simp only [List.flatten_cons, Spec.entry, Spec.u32, List.cons_append, List.nil_append, List.append_assoc, List.cons.injEq, true_and] at e ⊢
  exact List.cons.inj (split_at (profileName_words p) (profileName_words q) e).2

theorem det_ProfileInfo {s t : ProfileInfo} (ha : ValidProfileInfo s) (hb : ValidProfileInfo t) :
    Det (textProfileInfo s).flatten (textProfileInfo t).flatten (s = t) := by
  obtain ⟨a1, a2, a3, a4, a5, a6, a7, a8, a9, a10, a11, a12⟩ := s
  obtain ⟨b1, b2, b3, b4, b5, b6, b7, b8, b9, b10, b11, b12⟩ := t
  obtain ⟨v1, v2, v3, v4, v5, v6, v7, v8, v9, v10, v11, v12⟩ := ha
  obtain ⟨w1, w2, w3, w4, w5, w6, w7, w8, w9, w10, w11, w12⟩ := hb
  have vc := ValidConstraints_bounds v9
  have wc := ValidConstraints_bounds w9
  obtain ⟨c1, c2, c3, c4, c5, c6, c7, c8, c9, c10, c11, c12, c13, c14, c15⟩ := a9
  obtain ⟨d1, d2, d3, d4, d5, d6, d7, d8, d9, d10, d11, d12, d13, d14, d15⟩ := b9
  dsimp only at *
  intro r r' h
  unfold textProfileInfo at h
  dsimp only at h
  replace h := step (det_u32 (by bd v1) (by bd w1)) h
  obtain ⟨rfl, h⟩ := h
  replace h := step (det_u32 (by bd v2) (by bd w2)) h
  obtain ⟨rfl, h⟩ := h
  replace h := step (det_u32 (by bd v3) (by bd w3)) h
  obtain ⟨rfl, h⟩ := h
  replace h := step (det_list32 (by bdl v4) (by bdl w4)) h
  obtain ⟨rfl, h⟩ := h
  replace h := step_profile h
  replace h := step (det_u32 (by bd v5) (by bd w5)) h
  obtain ⟨rfl, h⟩ := h
  replace h := step (det_u32 (by bd v6) (by bd w6)) h
  obtain ⟨rfl, h⟩ := h
  replace h := step (det_u32 (by bd v7) (by bd w7)) h
  obtain ⟨rfl, h⟩ := h
  replace h := step (det_u32 (by bd v8) (by bd w8)) h
  obtain ⟨rfl, h⟩ := h
  replace h := step (det_u32 (by omega) (by omega)) h
  obtain ⟨rfl, h⟩ := h
  replace h := step (det_u32 (by omega) (by omega)) h
  obtain ⟨rfl, h⟩ := h
  replace h := step (det_u32 (by omega) (by omega)) h
  obtain ⟨rfl, h⟩ := h
  replace h := step (det_u32 (by omega) (by omega)) h
  obtain ⟨rfl, h⟩ := h
  replace h := step (det_u32 (by omega) (by omega)) h
  obtain ⟨rfl, h⟩ := h
  replace h := step (det_u32 (by omega) (by omega)) h
  obtain ⟨rfl, h⟩ := h
  replace h := step (det_u32 (by omega) (by omega)) h
  obtain ⟨rfl, h⟩ := h
  replace h := step (det_u32 (by omega) (by omega)) h
  obtain ⟨rfl, h⟩ := h
  replace h := step (det_u32 (by omega) (by omega)) h
  obtain ⟨rfl, h⟩ := h
  replace h := step (det_u32 (by omega) (by omega)) h
  obtain ⟨rfl, h⟩ := h
  replace h := step det_numNat h
  obtain ⟨rfl, h⟩ := h
  replace h := step det_numNat h
  obtain ⟨rfl, h⟩ := h
  replace h := step det_numNat h
  obtain ⟨rfl, h⟩ := h
  replace h := step det_numNat h
  obtain ⟨rfl, h⟩ := h
  replace h := step det_numNat h
  obtain ⟨rfl, h⟩ := h
  replace h := step (det_u32 (by bd v11) (by bd w11)) h
  obtain ⟨rfl, h⟩ := h
  replace h := step (det_u32 (by bd v12) (by bd w12)) h
  obtain ⟨rfl, h⟩ := h
  exact ⟨by rw [v10, w10], steps_nil h⟩

/-- Two lists of optional entries with the same ones present. -/
theorem present_length {α : Type} : ∀ {l m : List (Option α)}, l.map (·.isSome) = m.map (·.isSome) → (l.filterMap id).length = (m.filterMap id).length
  | [], [], _ => rfl
  | [], _ :: _, h => by cases h
  | _ :: _, [], h => by cases h
  | x :: l, y :: m, h => by
    simp only [List.map_cons, List.cons.injEq] at h
    have ih := present_length h.2
    cases x <;> cases y <;> simp_all

theorem present_ext {α : Type} : ∀ {l m : List (Option α)}, l.map (·.isSome) = m.map (·.isSome) → l.filterMap id = m.filterMap id → l = m
  | [], [], _, _ => rfl
  | [], _ :: _, h, _ => by cases h
  | _ :: _, [], h, _ => by cases h
  | x :: l, y :: m, h, h' => by
    simp only [List.map_cons, List.cons.injEq] at h
    cases x <;> cases y
    · rw [present_ext h.2 (by simpa [List.filterMap_cons] using h')]
    · simp at h
    · simp at h
    · simp only [List.filterMap_cons, id_eq, List.cons.injEq] at h'
      rw [h'.1, present_ext h.2 h'.2]

/-- the sub-layers present are those of the flags -/
theorem ptl_present {n : Nat} {fl : List (Nat × Nat)} {l m : List (Option (ProfileInfo × Nat))}
    (hl : EachI n (fun i => Maybe ((fl.getD i (0, 0)).1 ≠ 0) (fun x => ValidProfileInfo x.1 ∧ x.2 < 2 ^ 8)) l)
    (hm : EachI n (fun i => Maybe ((fl.getD i (0, 0)).1 ≠ 0) (fun x => ValidProfileInfo x.1 ∧ x.2 < 2 ^ 8)) m) : l.map (·.isSome) = m.map (·.isSome) := by
  have e := hl.length
  have e' := hm.length
  refine List.ext_getElem (by simp; omega) (fun i h1 h2 => ?_)
  simp only [List.length_map] at h1 h2
  simp only [List.getElem_map]
  exact (hl.valid i l[i] (by simp)).same (hm.valid i m[i] (by simp)) Iff.rfl

theorem ptl_valid {n : Nat} {fl : List (Nat × Nat)} {l : List (Option (ProfileInfo × Nat))}
    (hl : EachI n (fun i => Maybe ((fl.getD i (0, 0)).1 ≠ 0) (fun x => ValidProfileInfo x.1 ∧ x.2 < 2 ^ 8)) l) :
    ∀ x ∈ l.filterMap id, ValidProfileInfo x.1 ∧ x.2 < 2 ^ 8 := by
  intro x hx
  simp only [List.mem_filterMap, id_eq, exists_eq_right] at hx
  obtain ⟨i, hi⟩ := List.mem_iff_getElem?.1 hx
  exact (hl.valid i (some x) hi).valid x rfl

theorem det_Ptl {present : Bool} {n : Nat} {s t : ProfileTierLevel} (ha : ValidProfileTierLevel present n s) (hb : ValidProfileTierLevel present n t) :
    Det (textPtl present n s) (textPtl present n t) (s = t) := by
  obtain ⟨a1, a2, a3, a4, a5⟩ := s
  obtain ⟨b1, b2, b3, b4, b5⟩ := t
  obtain ⟨v1, v2, v3, v4, v5⟩ := ha
  obtain ⟨w1, w2, w3, w4, w5⟩ := hb
  dsimp only at *
  unfold textPtl
  dsimp only
  refine det_block (fun r r' h => ?_)
  replace h := step (P := a1 = b1) (det_when (fun hc r r' h2 => by
      replace h2 := step (det_someEq (v1.same w1 Iff.rfl) (fun x y hx hy => det_block (det_ProfileInfo (v1.valid x hx) (w1.valid y hy)))) h2
      exact ⟨h2.1, steps_nil h2.2⟩) (fun hn => (v1.none hn).trans (w1.none hn).symm)) h
  obtain ⟨rfl, h⟩ := h
  replace h := step (det_u32 (by bd v2) (by bd w2)) h
  obtain ⟨rfl, h⟩ := h
  replace h := step (det_list32 (by intro x hx; obtain ⟨y, hy, rfl⟩ := List.mem_map.1 hx; bd (v3.valid y hy).1) (by intro x hx; obtain ⟨y, hy, rfl⟩ := List.mem_map.1 hx; bd (w3.valid y hy).1)) h
  obtain ⟨e1, h⟩ := h
  replace h := step (det_list32 (by intro x hx; obtain ⟨y, hy, rfl⟩ := List.mem_map.1 hx; bd (v3.valid y hy).2) (by intro x hx; obtain ⟨y, hy, rfl⟩ := List.mem_map.1 hx; bd (w3.valid y hy).2)) h
  obtain ⟨e2, h⟩ := h
  obtain rfl := cols_inj (f := fun x : Nat × Nat => (x.1, x.2)) (by rintro ⟨⟩ ⟨⟩ h; simp_all) (cols e1 e2)
  replace h := step (P := a4 = b4) (det_when (fun hc r r' h2 => by
      replace h2 := step (det_list32 (by bdl v4) (by bdl w4)) h2
      exact ⟨h2.1, steps_nil h2.2⟩) (fun hn => by
        have x := v4.length; have y := w4.length
        rw [if_neg hn] at x y
        rw [List.length_eq_zero_iff.1 x, List.length_eq_zero_iff.1 y])) h
  obtain ⟨rfl, h⟩ := h
  have hp := ptl_present v5 w5
  replace h := step (P := a5 = b5) (det_when (fun hc r r' h2 => by
      replace h2 := step (det_parts (E := fun x y => x.1 = y.1) (present_length hp) (fun i x y hx hy =>
        det_block (det_ProfileInfo (ptl_valid v5 x (List.mem_of_getElem? hx)).1 (ptl_valid w5 y (List.mem_of_getElem? hy)).1))) h2
      obtain ⟨q1, h2⟩ := h2
      replace h2 := step (det_list32 (by intro x hx; obtain ⟨y, hy, rfl⟩ := List.mem_map.1 hx; bd (ptl_valid v5 y hy).2) (by intro x hx; obtain ⟨y, hy, rfl⟩ := List.mem_map.1 hx; bd (ptl_valid w5 y hy).2)) h2
      obtain ⟨q2, h2⟩ := h2
      refine ⟨present_ext hp ?_, steps_nil h2⟩
      refine cols_inj (f := fun x => (x.1, x.2)) (by rintro ⟨⟩ ⟨⟩ h; simp_all) (cols ?_ q2)
      refine List.ext_getElem (by simp [present_length hp]) (fun i h1 h2 => ?_)
      simp only [List.getElem_map]
      exact q1 i _ _ (List.getElem?_eq_getElem (by simpa using h1)) (List.getElem?_eq_getElem (by simpa using h2))) (fun hn => by
        have x := v5.length; have y := w5.length
        rw [List.length_eq_zero_iff.1 (by omega : a5.length = 0), List.length_eq_zero_iff.1 (by omega : b5.length = 0)])) h
  obtain ⟨rfl, h⟩ := h
  exact ⟨rfl, steps_nil h⟩

theorem det_Hrd {common max_sub : Nat} {s t : HrdParameters} (ha : ValidHrdParameters common max_sub s) (hb : ValidHrdParameters common max_sub t) :
    Det (textHrd common s) (textHrd common t) (s = t) := by
  obtain ⟨a_nal_hrd_parameters_present_flag, a_vcl_hrd_parameters_present_flag, a_sub_pic_hrd_params_present_flag, a_tick_divisor_minus2, a_du_cpb_removal_delay_increment_length_minus1, a_sub_pic_cpb_params_in_pic_timing_sei_flag, a_dpb_output_delay_du_length_minus1, a_bit_rate_scale, a_cpb_size_scale, a_cpb_size_du_scale, a_initial_cpb_removal_delay_length_minus1, a_au_cpb_removal_delay_length_minus1, a_dpb_output_delay_length_minus1, a_sub_layers⟩ := s
  obtain ⟨b_nal_hrd_parameters_present_flag, b_vcl_hrd_parameters_present_flag, b_sub_pic_hrd_params_present_flag, b_tick_divisor_minus2, b_du_cpb_removal_delay_increment_length_minus1, b_sub_pic_cpb_params_in_pic_timing_sei_flag, b_dpb_output_delay_du_length_minus1, b_bit_rate_scale, b_cpb_size_scale, b_cpb_size_du_scale, b_initial_cpb_removal_delay_length_minus1, b_au_cpb_removal_delay_length_minus1, b_dpb_output_delay_length_minus1, b_sub_layers⟩ := t
  obtain ⟨va_nal_hrd_parameters_present_flag, va_vcl_hrd_parameters_present_flag, va_sub_pic_hrd_params_present_flag, va_tick_divisor_minus2, va_du_cpb_removal_delay_increment_length_minus1, va_sub_pic_cpb_params_in_pic_timing_sei_flag, va_dpb_output_delay_du_length_minus1, va_bit_rate_scale, va_cpb_size_scale, va_cpb_size_du_scale, va_initial_cpb_removal_delay_length_minus1, va_au_cpb_removal_delay_length_minus1, va_dpb_output_delay_length_minus1, va_sub_layers⟩ := ha
  obtain ⟨vb_nal_hrd_parameters_present_flag, vb_vcl_hrd_parameters_present_flag, vb_sub_pic_hrd_params_present_flag, vb_tick_divisor_minus2, vb_du_cpb_removal_delay_increment_length_minus1, vb_sub_pic_cpb_params_in_pic_timing_sei_flag, vb_dpb_output_delay_du_length_minus1, vb_bit_rate_scale, vb_cpb_size_scale, vb_cpb_size_du_scale, vb_initial_cpb_removal_delay_length_minus1, vb_au_cpb_removal_delay_length_minus1, vb_dpb_output_delay_length_minus1, vb_sub_layers⟩ := hb
  dsimp only at *
  unfold textHrd
  dsimp only
  refine det_block (fun r r' h1 => ?_)
  replace h1 := step (P := a_nal_hrd_parameters_present_flag = b_nal_hrd_parameters_present_flag ∧ a_vcl_hrd_parameters_present_flag = b_vcl_hrd_parameters_present_flag ∧ a_sub_pic_hrd_params_present_flag = b_sub_pic_hrd_params_present_flag ∧ a_tick_divisor_minus2 = b_tick_divisor_minus2 ∧ a_du_cpb_removal_delay_increment_length_minus1 = b_du_cpb_removal_delay_increment_length_minus1 ∧ a_sub_pic_cpb_params_in_pic_timing_sei_flag = b_sub_pic_cpb_params_in_pic_timing_sei_flag ∧ a_dpb_output_delay_du_length_minus1 = b_dpb_output_delay_du_length_minus1 ∧ a_bit_rate_scale = b_bit_rate_scale ∧ a_cpb_size_scale = b_cpb_size_scale ∧ a_cpb_size_du_scale = b_cpb_size_du_scale ∧ a_initial_cpb_removal_delay_length_minus1 = b_initial_cpb_removal_delay_length_minus1 ∧ a_au_cpb_removal_delay_length_minus1 = b_au_cpb_removal_delay_length_minus1 ∧ a_dpb_output_delay_length_minus1 = b_dpb_output_delay_length_minus1) (det_when (fun hc r r' h3 => by
      replace h3 := step (det_u32 (by bd va_nal_hrd_parameters_present_flag) (by bd vb_nal_hrd_parameters_present_flag)) h3
      obtain ⟨rfl, h3⟩ := h3
      replace h3 := step (det_u32 (by bd va_vcl_hrd_parameters_present_flag) (by bd vb_vcl_hrd_parameters_present_flag)) h3
      obtain ⟨rfl, h3⟩ := h3
      replace h3 := step (P := a_sub_pic_hrd_params_present_flag = b_sub_pic_hrd_params_present_flag ∧ a_tick_divisor_minus2 = b_tick_divisor_minus2 ∧ a_du_cpb_removal_delay_increment_length_minus1 = b_du_cpb_removal_delay_increment_length_minus1 ∧ a_sub_pic_cpb_params_in_pic_timing_sei_flag = b_sub_pic_cpb_params_in_pic_timing_sei_flag ∧ a_dpb_output_delay_du_length_minus1 = b_dpb_output_delay_du_length_minus1 ∧ a_bit_rate_scale = b_bit_rate_scale ∧ a_cpb_size_scale = b_cpb_size_scale ∧ a_cpb_size_du_scale = b_cpb_size_du_scale ∧ a_initial_cpb_removal_delay_length_minus1 = b_initial_cpb_removal_delay_length_minus1 ∧ a_au_cpb_removal_delay_length_minus1 = b_au_cpb_removal_delay_length_minus1 ∧ a_dpb_output_delay_length_minus1 = b_dpb_output_delay_length_minus1) (det_when (fun hc r r' h5 => by
          replace h5 := step (det_u32 (by bd va_sub_pic_hrd_params_present_flag) (by bd vb_sub_pic_hrd_params_present_flag)) h5
          obtain ⟨rfl, h5⟩ := h5
          replace h5 := step (P := a_tick_divisor_minus2 = b_tick_divisor_minus2 ∧ a_du_cpb_removal_delay_increment_length_minus1 = b_du_cpb_removal_delay_increment_length_minus1 ∧ a_sub_pic_cpb_params_in_pic_timing_sei_flag = b_sub_pic_cpb_params_in_pic_timing_sei_flag ∧ a_dpb_output_delay_du_length_minus1 = b_dpb_output_delay_du_length_minus1) (det_when (fun hc r r' h7 => by
              replace h7 := step (det_u32 (by bd va_tick_divisor_minus2) (by bd vb_tick_divisor_minus2)) h7
              obtain ⟨rfl, h7⟩ := h7
              replace h7 := step (det_u32 (by bd va_du_cpb_removal_delay_increment_length_minus1) (by bd vb_du_cpb_removal_delay_increment_length_minus1)) h7
              obtain ⟨rfl, h7⟩ := h7
              replace h7 := step (det_u32 (by bd va_sub_pic_cpb_params_in_pic_timing_sei_flag) (by bd vb_sub_pic_cpb_params_in_pic_timing_sei_flag)) h7
              obtain ⟨rfl, h7⟩ := h7
              replace h7 := step (det_u32 (by bd va_dpb_output_delay_du_length_minus1) (by bd vb_dpb_output_delay_du_length_minus1)) h7
              obtain ⟨rfl, h7⟩ := h7
              exact ⟨⟨rfl, rfl, rfl, rfl⟩, steps_nil h7⟩) (fun hn => by
              have x_tick_divisor_minus2 := va_tick_divisor_minus2.absent (by cnd); have y_tick_divisor_minus2 := vb_tick_divisor_minus2.absent (by cnd)
              have x_du_cpb_removal_delay_increment_length_minus1 := va_du_cpb_removal_delay_increment_length_minus1.absent (by cnd); have y_du_cpb_removal_delay_increment_length_minus1 := vb_du_cpb_removal_delay_increment_length_minus1.absent (by cnd)
              have x_sub_pic_cpb_params_in_pic_timing_sei_flag := va_sub_pic_cpb_params_in_pic_timing_sei_flag.absent (by cnd); have y_sub_pic_cpb_params_in_pic_timing_sei_flag := vb_sub_pic_cpb_params_in_pic_timing_sei_flag.absent (by cnd)
              have x_dpb_output_delay_du_length_minus1 := va_dpb_output_delay_du_length_minus1.absent (by cnd); have y_dpb_output_delay_du_length_minus1 := vb_dpb_output_delay_du_length_minus1.absent (by cnd)
              exact ⟨x_tick_divisor_minus2.trans y_tick_divisor_minus2.symm, x_du_cpb_removal_delay_increment_length_minus1.trans y_du_cpb_removal_delay_increment_length_minus1.symm, x_sub_pic_cpb_params_in_pic_timing_sei_flag.trans y_sub_pic_cpb_params_in_pic_timing_sei_flag.symm, x_dpb_output_delay_du_length_minus1.trans y_dpb_output_delay_du_length_minus1.symm⟩)) h5
          obtain ⟨⟨rfl, rfl, rfl, rfl⟩, h5⟩ := h5
          replace h5 := step (det_u32 (by bd va_bit_rate_scale) (by bd vb_bit_rate_scale)) h5
          obtain ⟨rfl, h5⟩ := h5
          replace h5 := step (det_u32 (by bd va_cpb_size_scale) (by bd vb_cpb_size_scale)) h5
          obtain ⟨rfl, h5⟩ := h5
          replace h5 := step (P := a_cpb_size_du_scale = b_cpb_size_du_scale) (det_when (fun hc r r' h7 => by
              replace h7 := step (det_u32 (by bd va_cpb_size_du_scale) (by bd vb_cpb_size_du_scale)) h7
              obtain ⟨rfl, h7⟩ := h7
              exact ⟨rfl, steps_nil h7⟩) (fun hn => by
              have x_cpb_size_du_scale := va_cpb_size_du_scale.absent (by cnd); have y_cpb_size_du_scale := vb_cpb_size_du_scale.absent (by cnd)
              exact x_cpb_size_du_scale.trans y_cpb_size_du_scale.symm)) h5
          obtain ⟨rfl, h5⟩ := h5
          replace h5 := step (det_u32 (by bd va_initial_cpb_removal_delay_length_minus1) (by bd vb_initial_cpb_removal_delay_length_minus1)) h5
          obtain ⟨rfl, h5⟩ := h5
          replace h5 := step (det_u32 (by bd va_au_cpb_removal_delay_length_minus1) (by bd vb_au_cpb_removal_delay_length_minus1)) h5
          obtain ⟨rfl, h5⟩ := h5
          replace h5 := step (det_u32 (by bd va_dpb_output_delay_length_minus1) (by bd vb_dpb_output_delay_length_minus1)) h5
          obtain ⟨rfl, h5⟩ := h5
          exact ⟨⟨rfl, rfl, rfl, rfl, rfl, rfl, rfl, rfl, rfl, rfl, rfl⟩, steps_nil h5⟩) (fun hn => by
          have x_sub_pic_hrd_params_present_flag := va_sub_pic_hrd_params_present_flag.absent (by cnd); have y_sub_pic_hrd_params_present_flag := vb_sub_pic_hrd_params_present_flag.absent (by cnd)
          have x_tick_divisor_minus2 := va_tick_divisor_minus2.absent (by cnd); have y_tick_divisor_minus2 := vb_tick_divisor_minus2.absent (by cnd)
          have x_du_cpb_removal_delay_increment_length_minus1 := va_du_cpb_removal_delay_increment_length_minus1.absent (by cnd); have y_du_cpb_removal_delay_increment_length_minus1 := vb_du_cpb_removal_delay_increment_length_minus1.absent (by cnd)
          have x_sub_pic_cpb_params_in_pic_timing_sei_flag := va_sub_pic_cpb_params_in_pic_timing_sei_flag.absent (by cnd); have y_sub_pic_cpb_params_in_pic_timing_sei_flag := vb_sub_pic_cpb_params_in_pic_timing_sei_flag.absent (by cnd)
          have x_dpb_output_delay_du_length_minus1 := va_dpb_output_delay_du_length_minus1.absent (by cnd); have y_dpb_output_delay_du_length_minus1 := vb_dpb_output_delay_du_length_minus1.absent (by cnd)
          have x_bit_rate_scale := va_bit_rate_scale.absent (by cnd); have y_bit_rate_scale := vb_bit_rate_scale.absent (by cnd)
          have x_cpb_size_scale := va_cpb_size_scale.absent (by cnd); have y_cpb_size_scale := vb_cpb_size_scale.absent (by cnd)
          have x_cpb_size_du_scale := va_cpb_size_du_scale.absent (by cnd); have y_cpb_size_du_scale := vb_cpb_size_du_scale.absent (by cnd)
          have x_initial_cpb_removal_delay_length_minus1 := va_initial_cpb_removal_delay_length_minus1.absent (by cnd); have y_initial_cpb_removal_delay_length_minus1 := vb_initial_cpb_removal_delay_length_minus1.absent (by cnd)
          have x_au_cpb_removal_delay_length_minus1 := va_au_cpb_removal_delay_length_minus1.absent (by cnd); have y_au_cpb_removal_delay_length_minus1 := vb_au_cpb_removal_delay_length_minus1.absent (by cnd)
          have x_dpb_output_delay_length_minus1 := va_dpb_output_delay_length_minus1.absent (by cnd); have y_dpb_output_delay_length_minus1 := vb_dpb_output_delay_length_minus1.absent (by cnd)
          exact ⟨x_sub_pic_hrd_params_present_flag.trans y_sub_pic_hrd_params_present_flag.symm, x_tick_divisor_minus2.trans y_tick_divisor_minus2.symm, x_du_cpb_removal_delay_increment_length_minus1.trans y_du_cpb_removal_delay_increment_length_minus1.symm, x_sub_pic_cpb_params_in_pic_timing_sei_flag.trans y_sub_pic_cpb_params_in_pic_timing_sei_flag.symm, x_dpb_output_delay_du_length_minus1.trans y_dpb_output_delay_du_length_minus1.symm, x_bit_rate_scale.trans y_bit_rate_scale.symm, x_cpb_size_scale.trans y_cpb_size_scale.symm, x_cpb_size_du_scale.trans y_cpb_size_du_scale.symm, x_initial_cpb_removal_delay_length_minus1.trans y_initial_cpb_removal_delay_length_minus1.symm, x_au_cpb_removal_delay_length_minus1.trans y_au_cpb_removal_delay_length_minus1.symm, x_dpb_output_delay_length_minus1.trans y_dpb_output_delay_length_minus1.symm⟩)) h3
      obtain ⟨⟨rfl, rfl, rfl, rfl, rfl, rfl, rfl, rfl, rfl, rfl, rfl⟩, h3⟩ := h3
      exact ⟨⟨rfl, rfl, rfl, rfl, rfl, rfl, rfl, rfl, rfl, rfl, rfl, rfl, rfl⟩, steps_nil h3⟩) (fun hn => by
      have x_nal_hrd_parameters_present_flag := va_nal_hrd_parameters_present_flag.absent (by cnd); have y_nal_hrd_parameters_present_flag := vb_nal_hrd_parameters_present_flag.absent (by cnd)
      have x_vcl_hrd_parameters_present_flag := va_vcl_hrd_parameters_present_flag.absent (by cnd); have y_vcl_hrd_parameters_present_flag := vb_vcl_hrd_parameters_present_flag.absent (by cnd)
      have x_sub_pic_hrd_params_present_flag := va_sub_pic_hrd_params_present_flag.absent (by cnd); have y_sub_pic_hrd_params_present_flag := vb_sub_pic_hrd_params_present_flag.absent (by cnd)
      have x_tick_divisor_minus2 := va_tick_divisor_minus2.absent (by cnd); have y_tick_divisor_minus2 := vb_tick_divisor_minus2.absent (by cnd)
      have x_du_cpb_removal_delay_increment_length_minus1 := va_du_cpb_removal_delay_increment_length_minus1.absent (by cnd); have y_du_cpb_removal_delay_increment_length_minus1 := vb_du_cpb_removal_delay_increment_length_minus1.absent (by cnd)
      have x_sub_pic_cpb_params_in_pic_timing_sei_flag := va_sub_pic_cpb_params_in_pic_timing_sei_flag.absent (by cnd); have y_sub_pic_cpb_params_in_pic_timing_sei_flag := vb_sub_pic_cpb_params_in_pic_timing_sei_flag.absent (by cnd)
      have x_dpb_output_delay_du_length_minus1 := va_dpb_output_delay_du_length_minus1.absent (by cnd); have y_dpb_output_delay_du_length_minus1 := vb_dpb_output_delay_du_length_minus1.absent (by cnd)
      have x_bit_rate_scale := va_bit_rate_scale.absent (by cnd); have y_bit_rate_scale := vb_bit_rate_scale.absent (by cnd)
      have x_cpb_size_scale := va_cpb_size_scale.absent (by cnd); have y_cpb_size_scale := vb_cpb_size_scale.absent (by cnd)
      have x_cpb_size_du_scale := va_cpb_size_du_scale.absent (by cnd); have y_cpb_size_du_scale := vb_cpb_size_du_scale.absent (by cnd)
      have x_initial_cpb_removal_delay_length_minus1 := va_initial_cpb_removal_delay_length_minus1.absent (by cnd); have y_initial_cpb_removal_delay_length_minus1 := vb_initial_cpb_removal_delay_length_minus1.absent (by cnd)
      have x_au_cpb_removal_delay_length_minus1 := va_au_cpb_removal_delay_length_minus1.absent (by cnd); have y_au_cpb_removal_delay_length_minus1 := vb_au_cpb_removal_delay_length_minus1.absent (by cnd)
      have x_dpb_output_delay_length_minus1 := va_dpb_output_delay_length_minus1.absent (by cnd); have y_dpb_output_delay_length_minus1 := vb_dpb_output_delay_length_minus1.absent (by cnd)
      exact ⟨x_nal_hrd_parameters_present_flag.trans y_nal_hrd_parameters_present_flag.symm, x_vcl_hrd_parameters_present_flag.trans y_vcl_hrd_parameters_present_flag.symm, x_sub_pic_hrd_params_present_flag.trans y_sub_pic_hrd_params_present_flag.symm, x_tick_divisor_minus2.trans y_tick_divisor_minus2.symm, x_du_cpb_removal_delay_increment_length_minus1.trans y_du_cpb_removal_delay_increment_length_minus1.symm, x_sub_pic_cpb_params_in_pic_timing_sei_flag.trans y_sub_pic_cpb_params_in_pic_timing_sei_flag.symm, x_dpb_output_delay_du_length_minus1.trans y_dpb_output_delay_du_length_minus1.symm, x_bit_rate_scale.trans y_bit_rate_scale.symm, x_cpb_size_scale.trans y_cpb_size_scale.symm, x_cpb_size_du_scale.trans y_cpb_size_du_scale.symm, x_initial_cpb_removal_delay_length_minus1.trans y_initial_cpb_removal_delay_length_minus1.symm, x_au_cpb_removal_delay_length_minus1.trans y_au_cpb_removal_delay_length_minus1.symm, x_dpb_output_delay_length_minus1.trans y_dpb_output_delay_length_minus1.symm⟩)) h1
  obtain ⟨⟨rfl, rfl, rfl, rfl, rfl, rfl, rfl, rfl, rfl, rfl, rfl, rfl, rfl⟩, h1⟩ := h1
  replace h1 := step (det_list32 (by intro x hx; obtain ⟨y, hy, rfl⟩ := List.mem_map.1 hx; bd (va_sub_layers.valid y hy).fixed_pic_rate_general_flag) (by intro x hx; obtain ⟨y, hy, rfl⟩ := List.mem_map.1 hx; bd (vb_sub_layers.valid y hy).fixed_pic_rate_general_flag)) h1
  obtain ⟨e_sub_layers_fixed_pic_rate_general_flag, h1⟩ := h1
  replace h1 := step (det_list32 (by intro x hx; obtain ⟨y, hy, rfl⟩ := List.mem_map.1 hx; bd (va_sub_layers.valid y hy).fixed_pic_rate_within_cvs_flag) (by intro x hx; obtain ⟨y, hy, rfl⟩ := List.mem_map.1 hx; bd (vb_sub_layers.valid y hy).fixed_pic_rate_within_cvs_flag)) h1
  obtain ⟨e_sub_layers_fixed_pic_rate_within_cvs_flag, h1⟩ := h1
  replace h1 := step (det_list32 (by intro x hx; obtain ⟨y, hy, rfl⟩ := List.mem_map.1 hx; bd (va_sub_layers.valid y hy).elemental_duration_in_tc_minus1) (by intro x hx; obtain ⟨y, hy, rfl⟩ := List.mem_map.1 hx; bd (vb_sub_layers.valid y hy).elemental_duration_in_tc_minus1)) h1
  obtain ⟨e_sub_layers_elemental_duration_in_tc_minus1, h1⟩ := h1
  replace h1 := step (det_list32 (by intro x hx; obtain ⟨y, hy, rfl⟩ := List.mem_map.1 hx; bd (va_sub_layers.valid y hy).low_delay_hrd_flag) (by intro x hx; obtain ⟨y, hy, rfl⟩ := List.mem_map.1 hx; bd (vb_sub_layers.valid y hy).low_delay_hrd_flag)) h1
  obtain ⟨e_sub_layers_low_delay_hrd_flag, h1⟩ := h1
  replace h1 := step (det_list32 (by intro x hx; obtain ⟨y, hy, rfl⟩ := List.mem_map.1 hx; bd (va_sub_layers.valid y hy).cpb_cnt_minus1) (by intro x hx; obtain ⟨y, hy, rfl⟩ := List.mem_map.1 hx; bd (vb_sub_layers.valid y hy).cpb_cnt_minus1)) h1
  obtain ⟨e_sub_layers_cpb_cnt_minus1, h1⟩ := h1
  replace h1 := step (P := a_nal_hrd_parameters_present_flag ≠ 0 → hrdLists a_sub_layers = hrdLists b_sub_layers) (det_when (fun hc r r' h3 => by
      replace h3 := step (det_block (fun q q' h5 => by
          replace h5 := step (det_hrdLists va_sub_layers.valid vb_sub_layers.valid (by simpa using congrArg List.length e_sub_layers_cpb_cnt_minus1)) h5
          exact ⟨h5.1, steps_nil h5.2⟩)) h3
      exact ⟨fun _ => h3.1, steps_nil h3.2⟩) (fun hn k => absurd k hn)) h1
  obtain ⟨e_nal, h1⟩ := h1
  replace h1 := step (P := a_vcl_hrd_parameters_present_flag ≠ 0 → hrdLists a_sub_layers = hrdLists b_sub_layers) (det_when (fun hc r r' h3 => by
      replace h3 := step (det_block (fun q q' h5 => by
          replace h5 := step (det_hrdLists va_sub_layers.valid vb_sub_layers.valid (by simpa using congrArg List.length e_sub_layers_cpb_cnt_minus1)) h5
          exact ⟨h5.1, steps_nil h5.2⟩)) h3
      exact ⟨fun _ => h3.1, steps_nil h3.2⟩) (fun hn k => absurd k hn)) h1
  obtain ⟨e_vcl, h1⟩ := h1
  exact ⟨by
    obtain rfl := hrd_sub_layers va_sub_layers.valid vb_sub_layers.valid (cols e_sub_layers_fixed_pic_rate_general_flag (cols e_sub_layers_fixed_pic_rate_within_cvs_flag (cols e_sub_layers_elemental_duration_in_tc_minus1 (cols e_sub_layers_low_delay_hrd_flag e_sub_layers_cpb_cnt_minus1)))) (by
      by_cases k1 : a_nal_hrd_parameters_present_flag ≠ 0
      · exact e_nal k1
      · by_cases k2 : a_vcl_hrd_parameters_present_flag ≠ 0
        · exact e_vcl k2
        · rw [hrdLists_none va_sub_layers.valid k1 k2, hrdLists_none vb_sub_layers.valid k1 k2])
    rfl, steps_nil h1⟩

theorem det_Vui {max_sub : Nat} {s t : VuiParameters} (ha : ValidVuiParameters max_sub s) (hb : ValidVuiParameters max_sub t) :
    Det (textVui s) (textVui t) (s = t) := by
  obtain ⟨a_aspect_ratio_info_present_flag, a_aspect_ratio_idc, a_sar_width, a_sar_height, a_overscan_info_present_flag, a_overscan_appropriate_flag, a_video_signal_type_present_flag, a_video_format, a_video_full_range_flag, a_colour_description_present_flag, a_colour_primaries, a_transfer_characteristics, a_matrix_coeffs, a_chroma_loc_info_present_flag, a_chroma_sample_loc_type_top_field, a_chroma_sample_loc_type_bottom_field, a_neutral_chroma_indication_flag, a_field_seq_flag, a_frame_field_info_present_flag, a_default_display_window_flag, a_def_disp_win_left_offset, a_def_disp_win_right_offset, a_def_disp_win_top_offset, a_def_disp_win_bottom_offset, a_vui_timing_info_present_flag, a_vui_num_units_in_tick, a_vui_time_scale, a_vui_poc_proportional_to_timing_flag, a_vui_num_ticks_poc_diff_one_minus1, a_vui_hrd_parameters_present_flag, a_hrd_parameters, a_bitstream_restriction_flag, a_tiles_fixed_structure_flag, a_motion_vectors_over_pic_boundaries_flag, a_restricted_ref_pic_lists_flag, a_min_spatial_segmentation_idc, a_max_bytes_per_pic_denom, a_max_bits_per_min_cu_denom, a_log2_max_mv_length_horizontal, a_log2_max_mv_length_vertical⟩ := s
  obtain ⟨b_aspect_ratio_info_present_flag, b_aspect_ratio_idc, b_sar_width, b_sar_height, b_overscan_info_present_flag, b_overscan_appropriate_flag, b_video_signal_type_present_flag, b_video_format, b_video_full_range_flag, b_colour_description_present_flag, b_colour_primaries, b_transfer_characteristics, b_matrix_coeffs, b_chroma_loc_info_present_flag, b_chroma_sample_loc_type_top_field, b_chroma_sample_loc_type_bottom_field, b_neutral_chroma_indication_flag, b_field_seq_flag, b_frame_field_info_present_flag, b_default_display_window_flag, b_def_disp_win_left_offset, b_def_disp_win_right_offset, b_def_disp_win_top_offset, b_def_disp_win_bottom_offset, b_vui_timing_info_present_flag, b_vui_num_units_in_tick, b_vui_time_scale, b_vui_poc_proportional_to_timing_flag, b_vui_num_ticks_poc_diff_one_minus1, b_vui_hrd_parameters_present_flag, b_hrd_parameters, b_bitstream_restriction_flag, b_tiles_fixed_structure_flag, b_motion_vectors_over_pic_boundaries_flag, b_restricted_ref_pic_lists_flag, b_min_spatial_segmentation_idc, b_max_bytes_per_pic_denom, b_max_bits_per_min_cu_denom, b_log2_max_mv_length_horizontal, b_log2_max_mv_length_vertical⟩ := t
  obtain ⟨va_aspect_ratio_info_present_flag, va_aspect_ratio_idc, va_sar_width, va_sar_height, va_overscan_info_present_flag, va_overscan_appropriate_flag, va_video_signal_type_present_flag, va_video_format, va_video_full_range_flag, va_colour_description_present_flag, va_colour_primaries, va_transfer_characteristics, va_matrix_coeffs, va_chroma_loc_info_present_flag, va_chroma_sample_loc_type_top_field, va_chroma_sample_loc_type_bottom_field, va_neutral_chroma_indication_flag, va_field_seq_flag, va_frame_field_info_present_flag, va_default_display_window_flag, va_def_disp_win_left_offset, va_def_disp_win_right_offset, va_def_disp_win_top_offset, va_def_disp_win_bottom_offset, va_vui_timing_info_present_flag, va_vui_num_units_in_tick, va_vui_time_scale, va_vui_poc_proportional_to_timing_flag, va_vui_num_ticks_poc_diff_one_minus1, va_vui_hrd_parameters_present_flag, va_hrd_parameters, va_bitstream_restriction_flag, va_tiles_fixed_structure_flag, va_motion_vectors_over_pic_boundaries_flag, va_restricted_ref_pic_lists_flag, va_min_spatial_segmentation_idc, va_max_bytes_per_pic_denom, va_max_bits_per_min_cu_denom, va_log2_max_mv_length_horizontal, va_log2_max_mv_length_vertical⟩ := ha
  obtain ⟨vb_aspect_ratio_info_present_flag, vb_aspect_ratio_idc, vb_sar_width, vb_sar_height, vb_overscan_info_present_flag, vb_overscan_appropriate_flag, vb_video_signal_type_present_flag, vb_video_format, vb_video_full_range_flag, vb_colour_description_present_flag, vb_colour_primaries, vb_transfer_characteristics, vb_matrix_coeffs, vb_chroma_loc_info_present_flag, vb_chroma_sample_loc_type_top_field, vb_chroma_sample_loc_type_bottom_field, vb_neutral_chroma_indication_flag, vb_field_seq_flag, vb_frame_field_info_present_flag, vb_default_display_window_flag, vb_def_disp_win_left_offset, vb_def_disp_win_right_offset, vb_def_disp_win_top_offset, vb_def_disp_win_bottom_offset, vb_vui_timing_info_present_flag, vb_vui_num_units_in_tick, vb_vui_time_scale, vb_vui_poc_proportional_to_timing_flag, vb_vui_num_ticks_poc_diff_one_minus1, vb_vui_hrd_parameters_present_flag, vb_hrd_parameters, vb_bitstream_restriction_flag, vb_tiles_fixed_structure_flag, vb_motion_vectors_over_pic_boundaries_flag, vb_restricted_ref_pic_lists_flag, vb_min_spatial_segmentation_idc, vb_max_bytes_per_pic_denom, vb_max_bits_per_min_cu_denom, vb_log2_max_mv_length_horizontal, vb_log2_max_mv_length_vertical⟩ := hb
  dsimp only at *
  unfold textVui
  dsimp only
  refine det_block (fun r r' h1 => ?_)
  replace h1 := step (det_u32 (by bd va_aspect_ratio_info_present_flag) (by bd vb_aspect_ratio_info_present_flag)) h1
  obtain ⟨rfl, h1⟩ := h1
  replace h1 := step (P := a_aspect_ratio_idc = b_aspect_ratio_idc ∧ a_sar_width = b_sar_width ∧ a_sar_height = b_sar_height) (det_when (fun hc r r' h3 => by
      replace h3 := step (det_u32 (by bd va_aspect_ratio_idc) (by bd vb_aspect_ratio_idc)) h3
      obtain ⟨rfl, h3⟩ := h3
      replace h3 := step (P := a_sar_width = b_sar_width ∧ a_sar_height = b_sar_height) (det_when (fun hc r r' h5 => by
          replace h5 := step (det_u32 (by bd va_sar_width) (by bd vb_sar_width)) h5
          obtain ⟨rfl, h5⟩ := h5
          replace h5 := step (det_u32 (by bd va_sar_height) (by bd vb_sar_height)) h5
          obtain ⟨rfl, h5⟩ := h5
          exact ⟨⟨rfl, rfl⟩, steps_nil h5⟩) (fun hn => by
          have x_sar_width := va_sar_width.absent (by cnd); have y_sar_width := vb_sar_width.absent (by cnd)
          have x_sar_height := va_sar_height.absent (by cnd); have y_sar_height := vb_sar_height.absent (by cnd)
          exact ⟨x_sar_width.trans y_sar_width.symm, x_sar_height.trans y_sar_height.symm⟩)) h3
      obtain ⟨⟨rfl, rfl⟩, h3⟩ := h3
      exact ⟨⟨rfl, rfl, rfl⟩, steps_nil h3⟩) (fun hn => by
      have x_aspect_ratio_idc := va_aspect_ratio_idc.absent (by cnd); have y_aspect_ratio_idc := vb_aspect_ratio_idc.absent (by cnd)
      have x_sar_width := va_sar_width.absent (by cnd); have y_sar_width := vb_sar_width.absent (by cnd)
      have x_sar_height := va_sar_height.absent (by cnd); have y_sar_height := vb_sar_height.absent (by cnd)
      exact ⟨x_aspect_ratio_idc.trans y_aspect_ratio_idc.symm, x_sar_width.trans y_sar_width.symm, x_sar_height.trans y_sar_height.symm⟩)) h1
  obtain ⟨⟨rfl, rfl, rfl⟩, h1⟩ := h1
  replace h1 := step (det_u32 (by bd va_overscan_info_present_flag) (by bd vb_overscan_info_present_flag)) h1
  obtain ⟨rfl, h1⟩ := h1
  replace h1 := step (P := a_overscan_appropriate_flag = b_overscan_appropriate_flag) (det_when (fun hc r r' h3 => by
      replace h3 := step (det_u32 (by bd va_overscan_appropriate_flag) (by bd vb_overscan_appropriate_flag)) h3
      obtain ⟨rfl, h3⟩ := h3
      exact ⟨rfl, steps_nil h3⟩) (fun hn => by
      have x_overscan_appropriate_flag := va_overscan_appropriate_flag.absent (by cnd); have y_overscan_appropriate_flag := vb_overscan_appropriate_flag.absent (by cnd)
      exact x_overscan_appropriate_flag.trans y_overscan_appropriate_flag.symm)) h1
  obtain ⟨rfl, h1⟩ := h1
  replace h1 := step (det_u32 (by bd va_video_signal_type_present_flag) (by bd vb_video_signal_type_present_flag)) h1
  obtain ⟨rfl, h1⟩ := h1
  replace h1 := step (P := a_video_format = b_video_format ∧ a_video_full_range_flag = b_video_full_range_flag ∧ a_colour_description_present_flag = b_colour_description_present_flag ∧ a_colour_primaries = b_colour_primaries ∧ a_transfer_characteristics = b_transfer_characteristics ∧ a_matrix_coeffs = b_matrix_coeffs) (det_when (fun hc r r' h3 => by
      replace h3 := step (det_u32 (by bd va_video_format) (by bd vb_video_format)) h3
      obtain ⟨rfl, h3⟩ := h3
      replace h3 := step (det_u32 (by bd va_video_full_range_flag) (by bd vb_video_full_range_flag)) h3
      obtain ⟨rfl, h3⟩ := h3
      replace h3 := step (det_u32 (by bd va_colour_description_present_flag) (by bd vb_colour_description_present_flag)) h3
      obtain ⟨rfl, h3⟩ := h3
      replace h3 := step (P := a_colour_primaries = b_colour_primaries ∧ a_transfer_characteristics = b_transfer_characteristics ∧ a_matrix_coeffs = b_matrix_coeffs) (det_when (fun hc r r' h5 => by
          replace h5 := step (det_u32 (by bd va_colour_primaries) (by bd vb_colour_primaries)) h5
          obtain ⟨rfl, h5⟩ := h5
          replace h5 := step (det_u32 (by bd va_transfer_characteristics) (by bd vb_transfer_characteristics)) h5
          obtain ⟨rfl, h5⟩ := h5
          replace h5 := step (det_u32 (by bd va_matrix_coeffs) (by bd vb_matrix_coeffs)) h5
          obtain ⟨rfl, h5⟩ := h5
          exact ⟨⟨rfl, rfl, rfl⟩, steps_nil h5⟩) (fun hn => by
          have x_colour_primaries := va_colour_primaries.absent (by cnd); have y_colour_primaries := vb_colour_primaries.absent (by cnd)
          have x_transfer_characteristics := va_transfer_characteristics.absent (by cnd); have y_transfer_characteristics := vb_transfer_characteristics.absent (by cnd)
          have x_matrix_coeffs := va_matrix_coeffs.absent (by cnd); have y_matrix_coeffs := vb_matrix_coeffs.absent (by cnd)
          exact ⟨x_colour_primaries.trans y_colour_primaries.symm, x_transfer_characteristics.trans y_transfer_characteristics.symm, x_matrix_coeffs.trans y_matrix_coeffs.symm⟩)) h3
      obtain ⟨⟨rfl, rfl, rfl⟩, h3⟩ := h3
      exact ⟨⟨rfl, rfl, rfl, rfl, rfl, rfl⟩, steps_nil h3⟩) (fun hn => by
      have x_video_format := va_video_format.absent (by cnd); have y_video_format := vb_video_format.absent (by cnd)
      have x_video_full_range_flag := va_video_full_range_flag.absent (by cnd); have y_video_full_range_flag := vb_video_full_range_flag.absent (by cnd)
      have x_colour_description_present_flag := va_colour_description_present_flag.absent (by cnd); have y_colour_description_present_flag := vb_colour_description_present_flag.absent (by cnd)
      have x_colour_primaries := va_colour_primaries.absent (by cnd); have y_colour_primaries := vb_colour_primaries.absent (by cnd)
      have x_transfer_characteristics := va_transfer_characteristics.absent (by cnd); have y_transfer_characteristics := vb_transfer_characteristics.absent (by cnd)
      have x_matrix_coeffs := va_matrix_coeffs.absent (by cnd); have y_matrix_coeffs := vb_matrix_coeffs.absent (by cnd)
      exact ⟨x_video_format.trans y_video_format.symm, x_video_full_range_flag.trans y_video_full_range_flag.symm, x_colour_description_present_flag.trans y_colour_description_present_flag.symm, x_colour_primaries.trans y_colour_primaries.symm, x_transfer_characteristics.trans y_transfer_characteristics.symm, x_matrix_coeffs.trans y_matrix_coeffs.symm⟩)) h1
  obtain ⟨⟨rfl, rfl, rfl, rfl, rfl, rfl⟩, h1⟩ := h1
  replace h1 := step (det_u32 (by bd va_chroma_loc_info_present_flag) (by bd vb_chroma_loc_info_present_flag)) h1
  obtain ⟨rfl, h1⟩ := h1
  replace h1 := step (P := a_chroma_sample_loc_type_top_field = b_chroma_sample_loc_type_top_field ∧ a_chroma_sample_loc_type_bottom_field = b_chroma_sample_loc_type_bottom_field) (det_when (fun hc r r' h3 => by
      replace h3 := step (det_u32 (by bd va_chroma_sample_loc_type_top_field) (by bd vb_chroma_sample_loc_type_top_field)) h3
      obtain ⟨rfl, h3⟩ := h3
      replace h3 := step (det_u32 (by bd va_chroma_sample_loc_type_bottom_field) (by bd vb_chroma_sample_loc_type_bottom_field)) h3
      obtain ⟨rfl, h3⟩ := h3
      exact ⟨⟨rfl, rfl⟩, steps_nil h3⟩) (fun hn => by
      have x_chroma_sample_loc_type_top_field := va_chroma_sample_loc_type_top_field.absent (by cnd); have y_chroma_sample_loc_type_top_field := vb_chroma_sample_loc_type_top_field.absent (by cnd)
      have x_chroma_sample_loc_type_bottom_field := va_chroma_sample_loc_type_bottom_field.absent (by cnd); have y_chroma_sample_loc_type_bottom_field := vb_chroma_sample_loc_type_bottom_field.absent (by cnd)
      exact ⟨x_chroma_sample_loc_type_top_field.trans y_chroma_sample_loc_type_top_field.symm, x_chroma_sample_loc_type_bottom_field.trans y_chroma_sample_loc_type_bottom_field.symm⟩)) h1
  obtain ⟨⟨rfl, rfl⟩, h1⟩ := h1
  replace h1 := step (det_u32 (by bd va_neutral_chroma_indication_flag) (by bd vb_neutral_chroma_indication_flag)) h1
  obtain ⟨rfl, h1⟩ := h1
  replace h1 := step (det_u32 (by bd va_field_seq_flag) (by bd vb_field_seq_flag)) h1
  obtain ⟨rfl, h1⟩ := h1
  replace h1 := step (det_u32 (by bd va_frame_field_info_present_flag) (by bd vb_frame_field_info_present_flag)) h1
  obtain ⟨rfl, h1⟩ := h1
  replace h1 := step (det_u32 (by bd va_default_display_window_flag) (by bd vb_default_display_window_flag)) h1
  obtain ⟨rfl, h1⟩ := h1
  replace h1 := step (P := a_def_disp_win_left_offset = b_def_disp_win_left_offset ∧ a_def_disp_win_right_offset = b_def_disp_win_right_offset ∧ a_def_disp_win_top_offset = b_def_disp_win_top_offset ∧ a_def_disp_win_bottom_offset = b_def_disp_win_bottom_offset) (det_when (fun hc r r' h3 => by
      replace h3 := step (det_u32 (by bd va_def_disp_win_left_offset) (by bd vb_def_disp_win_left_offset)) h3
      obtain ⟨rfl, h3⟩ := h3
      replace h3 := step (det_u32 (by bd va_def_disp_win_right_offset) (by bd vb_def_disp_win_right_offset)) h3
      obtain ⟨rfl, h3⟩ := h3
      replace h3 := step (det_u32 (by bd va_def_disp_win_top_offset) (by bd vb_def_disp_win_top_offset)) h3
      obtain ⟨rfl, h3⟩ := h3
      replace h3 := step (det_u32 (by bd va_def_disp_win_bottom_offset) (by bd vb_def_disp_win_bottom_offset)) h3
      obtain ⟨rfl, h3⟩ := h3
      exact ⟨⟨rfl, rfl, rfl, rfl⟩, steps_nil h3⟩) (fun hn => by
      have x_def_disp_win_left_offset := va_def_disp_win_left_offset.absent (by cnd); have y_def_disp_win_left_offset := vb_def_disp_win_left_offset.absent (by cnd)
      have x_def_disp_win_right_offset := va_def_disp_win_right_offset.absent (by cnd); have y_def_disp_win_right_offset := vb_def_disp_win_right_offset.absent (by cnd)
      have x_def_disp_win_top_offset := va_def_disp_win_top_offset.absent (by cnd); have y_def_disp_win_top_offset := vb_def_disp_win_top_offset.absent (by cnd)
      have x_def_disp_win_bottom_offset := va_def_disp_win_bottom_offset.absent (by cnd); have y_def_disp_win_bottom_offset := vb_def_disp_win_bottom_offset.absent (by cnd)
      exact ⟨x_def_disp_win_left_offset.trans y_def_disp_win_left_offset.symm, x_def_disp_win_right_offset.trans y_def_disp_win_right_offset.symm, x_def_disp_win_top_offset.trans y_def_disp_win_top_offset.symm, x_def_disp_win_bottom_offset.trans y_def_disp_win_bottom_offset.symm⟩)) h1
  obtain ⟨⟨rfl, rfl, rfl, rfl⟩, h1⟩ := h1
  replace h1 := step (det_u32 (by bd va_vui_timing_info_present_flag) (by bd vb_vui_timing_info_present_flag)) h1
  obtain ⟨rfl, h1⟩ := h1
  replace h1 := step (P := a_vui_num_units_in_tick = b_vui_num_units_in_tick ∧ a_vui_time_scale = b_vui_time_scale ∧ a_vui_poc_proportional_to_timing_flag = b_vui_poc_proportional_to_timing_flag ∧ a_vui_num_ticks_poc_diff_one_minus1 = b_vui_num_ticks_poc_diff_one_minus1 ∧ a_vui_hrd_parameters_present_flag = b_vui_hrd_parameters_present_flag ∧ a_hrd_parameters = b_hrd_parameters) (det_when (fun hc r r' h3 => by
      replace h3 := step (det_u32 (by bd va_vui_num_units_in_tick) (by bd vb_vui_num_units_in_tick)) h3
      obtain ⟨rfl, h3⟩ := h3
      replace h3 := step (det_u32 (by bd va_vui_time_scale) (by bd vb_vui_time_scale)) h3
      obtain ⟨rfl, h3⟩ := h3
      replace h3 := step (det_u32 (by bd va_vui_poc_proportional_to_timing_flag) (by bd vb_vui_poc_proportional_to_timing_flag)) h3
      obtain ⟨rfl, h3⟩ := h3
      replace h3 := step (P := a_vui_num_ticks_poc_diff_one_minus1 = b_vui_num_ticks_poc_diff_one_minus1) (det_when (fun hc r r' h5 => by
          replace h5 := step (det_u32 (by bd va_vui_num_ticks_poc_diff_one_minus1) (by bd vb_vui_num_ticks_poc_diff_one_minus1)) h5
          obtain ⟨rfl, h5⟩ := h5
          exact ⟨rfl, steps_nil h5⟩) (fun hn => by
          have x_vui_num_ticks_poc_diff_one_minus1 := va_vui_num_ticks_poc_diff_one_minus1.absent (by cnd); have y_vui_num_ticks_poc_diff_one_minus1 := vb_vui_num_ticks_poc_diff_one_minus1.absent (by cnd)
          exact x_vui_num_ticks_poc_diff_one_minus1.trans y_vui_num_ticks_poc_diff_one_minus1.symm)) h3
      obtain ⟨rfl, h3⟩ := h3
      replace h3 := step (det_u32 (by bd va_vui_hrd_parameters_present_flag) (by bd vb_vui_hrd_parameters_present_flag)) h3
      obtain ⟨rfl, h3⟩ := h3
      replace h3 := step (P := a_hrd_parameters = b_hrd_parameters) (det_when (fun hc r r' h5 => by
          replace h5 := step (det_someEq (va_hrd_parameters.same vb_hrd_parameters Iff.rfl) (fun x y hx hy => det_Hrd (va_hrd_parameters.valid x hx) (vb_hrd_parameters.valid y hy))) h5
          obtain ⟨rfl, h5⟩ := h5
          exact ⟨rfl, steps_nil h5⟩) (fun hn => by
          have x_hrd_parameters := va_hrd_parameters.none (by cnd); have y_hrd_parameters := vb_hrd_parameters.none (by cnd)
          exact x_hrd_parameters.trans y_hrd_parameters.symm)) h3
      obtain ⟨rfl, h3⟩ := h3
      exact ⟨⟨rfl, rfl, rfl, rfl, rfl, rfl⟩, steps_nil h3⟩) (fun hn => by
      have x_vui_num_units_in_tick := va_vui_num_units_in_tick.absent (by cnd); have y_vui_num_units_in_tick := vb_vui_num_units_in_tick.absent (by cnd)
      have x_vui_time_scale := va_vui_time_scale.absent (by cnd); have y_vui_time_scale := vb_vui_time_scale.absent (by cnd)
      have x_vui_poc_proportional_to_timing_flag := va_vui_poc_proportional_to_timing_flag.absent (by cnd); have y_vui_poc_proportional_to_timing_flag := vb_vui_poc_proportional_to_timing_flag.absent (by cnd)
      have x_vui_num_ticks_poc_diff_one_minus1 := va_vui_num_ticks_poc_diff_one_minus1.absent (by cnd); have y_vui_num_ticks_poc_diff_one_minus1 := vb_vui_num_ticks_poc_diff_one_minus1.absent (by cnd)
      have x_vui_hrd_parameters_present_flag := va_vui_hrd_parameters_present_flag.absent (by cnd); have y_vui_hrd_parameters_present_flag := vb_vui_hrd_parameters_present_flag.absent (by cnd)
      have x_hrd_parameters := va_hrd_parameters.none (by cnd); have y_hrd_parameters := vb_hrd_parameters.none (by cnd)
      exact ⟨x_vui_num_units_in_tick.trans y_vui_num_units_in_tick.symm, x_vui_time_scale.trans y_vui_time_scale.symm, x_vui_poc_proportional_to_timing_flag.trans y_vui_poc_proportional_to_timing_flag.symm, x_vui_num_ticks_poc_diff_one_minus1.trans y_vui_num_ticks_poc_diff_one_minus1.symm, x_vui_hrd_parameters_present_flag.trans y_vui_hrd_parameters_present_flag.symm, x_hrd_parameters.trans y_hrd_parameters.symm⟩)) h1
  obtain ⟨⟨rfl, rfl, rfl, rfl, rfl, rfl⟩, h1⟩ := h1
  replace h1 := step (det_u32 (by bd va_bitstream_restriction_flag) (by bd vb_bitstream_restriction_flag)) h1
  obtain ⟨rfl, h1⟩ := h1
  replace h1 := step (P := a_tiles_fixed_structure_flag = b_tiles_fixed_structure_flag ∧ a_motion_vectors_over_pic_boundaries_flag = b_motion_vectors_over_pic_boundaries_flag ∧ a_restricted_ref_pic_lists_flag = b_restricted_ref_pic_lists_flag ∧ a_min_spatial_segmentation_idc = b_min_spatial_segmentation_idc ∧ a_max_bytes_per_pic_denom = b_max_bytes_per_pic_denom ∧ a_max_bits_per_min_cu_denom = b_max_bits_per_min_cu_denom ∧ a_log2_max_mv_length_horizontal = b_log2_max_mv_length_horizontal ∧ a_log2_max_mv_length_vertical = b_log2_max_mv_length_vertical) (det_when (fun hc r r' h3 => by
      replace h3 := step (det_u32 (by bd va_tiles_fixed_structure_flag) (by bd vb_tiles_fixed_structure_flag)) h3
      obtain ⟨rfl, h3⟩ := h3
      replace h3 := step (det_u32 (by bd va_motion_vectors_over_pic_boundaries_flag) (by bd vb_motion_vectors_over_pic_boundaries_flag)) h3
      obtain ⟨rfl, h3⟩ := h3
      replace h3 := step (det_u32 (by bd va_restricted_ref_pic_lists_flag) (by bd vb_restricted_ref_pic_lists_flag)) h3
      obtain ⟨rfl, h3⟩ := h3
      replace h3 := step (det_u32 (by bd va_min_spatial_segmentation_idc) (by bd vb_min_spatial_segmentation_idc)) h3
      obtain ⟨rfl, h3⟩ := h3
      replace h3 := step (det_u32 (by bd va_max_bytes_per_pic_denom) (by bd vb_max_bytes_per_pic_denom)) h3
      obtain ⟨rfl, h3⟩ := h3
      replace h3 := step (det_u32 (by bd va_max_bits_per_min_cu_denom) (by bd vb_max_bits_per_min_cu_denom)) h3
      obtain ⟨rfl, h3⟩ := h3
      replace h3 := step (det_u32 (by bd va_log2_max_mv_length_horizontal) (by bd vb_log2_max_mv_length_horizontal)) h3
      obtain ⟨rfl, h3⟩ := h3
      replace h3 := step (det_u32 (by bd va_log2_max_mv_length_vertical) (by bd vb_log2_max_mv_length_vertical)) h3
      obtain ⟨rfl, h3⟩ := h3
      exact ⟨⟨rfl, rfl, rfl, rfl, rfl, rfl, rfl, rfl⟩, steps_nil h3⟩) (fun hn => by
      have x_tiles_fixed_structure_flag := va_tiles_fixed_structure_flag.absent (by cnd); have y_tiles_fixed_structure_flag := vb_tiles_fixed_structure_flag.absent (by cnd)
      have x_motion_vectors_over_pic_boundaries_flag := va_motion_vectors_over_pic_boundaries_flag.absent (by cnd); have y_motion_vectors_over_pic_boundaries_flag := vb_motion_vectors_over_pic_boundaries_flag.absent (by cnd)
      have x_restricted_ref_pic_lists_flag := va_restricted_ref_pic_lists_flag.absent (by cnd); have y_restricted_ref_pic_lists_flag := vb_restricted_ref_pic_lists_flag.absent (by cnd)
      have x_min_spatial_segmentation_idc := va_min_spatial_segmentation_idc.absent (by cnd); have y_min_spatial_segmentation_idc := vb_min_spatial_segmentation_idc.absent (by cnd)
      have x_max_bytes_per_pic_denom := va_max_bytes_per_pic_denom.absent (by cnd); have y_max_bytes_per_pic_denom := vb_max_bytes_per_pic_denom.absent (by cnd)
      have x_max_bits_per_min_cu_denom := va_max_bits_per_min_cu_denom.absent (by cnd); have y_max_bits_per_min_cu_denom := vb_max_bits_per_min_cu_denom.absent (by cnd)
      have x_log2_max_mv_length_horizontal := va_log2_max_mv_length_horizontal.absent (by cnd); have y_log2_max_mv_length_horizontal := vb_log2_max_mv_length_horizontal.absent (by cnd)
      have x_log2_max_mv_length_vertical := va_log2_max_mv_length_vertical.absent (by cnd); have y_log2_max_mv_length_vertical := vb_log2_max_mv_length_vertical.absent (by cnd)
      exact ⟨x_tiles_fixed_structure_flag.trans y_tiles_fixed_structure_flag.symm, x_motion_vectors_over_pic_boundaries_flag.trans y_motion_vectors_over_pic_boundaries_flag.symm, x_restricted_ref_pic_lists_flag.trans y_restricted_ref_pic_lists_flag.symm, x_min_spatial_segmentation_idc.trans y_min_spatial_segmentation_idc.symm, x_max_bytes_per_pic_denom.trans y_max_bytes_per_pic_denom.symm, x_max_bits_per_min_cu_denom.trans y_max_bits_per_min_cu_denom.symm, x_log2_max_mv_length_horizontal.trans y_log2_max_mv_length_horizontal.symm, x_log2_max_mv_length_vertical.trans y_log2_max_mv_length_vertical.symm⟩)) h1
  obtain ⟨⟨rfl, rfl, rfl, rfl, rfl, rfl, rfl, rfl⟩, h1⟩ := h1
  exact ⟨rfl, steps_nil h1⟩

end H265
