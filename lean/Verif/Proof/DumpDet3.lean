/-
The texts of reference picture sets and scaling lists determine what they show.
-/
import Verif.Proof.DumpDet2
import Verif.Spec.DumpShown

set_option autoImplicit false

namespace H265
open Spec

theorem det_RpsFlags_cols {l m : List RpsFlags} (h1 : l.map (·.used_by_curr_pic_flag) = m.map (·.used_by_curr_pic_flag)) (h2 : l.map (·.use_delta_flag) = m.map (·.use_delta_flag)) :
    l = m := cols_inj (f := fun x => (x.used_by_curr_pic_flag, x.use_delta_flag)) (by rintro ⟨⟩ ⟨⟩ h; simp_all) (cols h1 h2)

theorem det_RpsEntry_cols {l m : List RpsEntry} (h1 : l.map (·.delta_poc_minus1) = m.map (·.delta_poc_minus1)) (h2 : l.map (·.used_by_curr_pic) = m.map (·.used_by_curr_pic)) :
    l = m := cols_inj (f := fun x => (x.delta_poc_minus1, x.used_by_curr_pic)) (by rintro ⟨⟩ ⟨⟩ h; simp_all) (cols h1 h2)

theorem rps_flag {idx num maxNum : Nat} {prev : List StRefPicSet} {s : StRefPicSet} (h : ValidStRefPicSet idx num prev maxNum s) :
    s.inter_ref_pic_set_prediction_flag < 2 ^ 32 ∧ (idx = 0 → s.inter_ref_pic_set_prediction_flag = 0) ∧
    (¬ s.inter_ref_pic_set_prediction_flag ≠ 0 → ValidExplicitRps maxNum s) ∧ (s.inter_ref_pic_set_prediction_flag ≠ 0 → ValidInterRps idx num prev s) := by
  rcases h.2 with k | ⟨hi, k⟩
  · have := k.inter_ref_pic_set_prediction_flag
    exact ⟨by omega, fun _ => this, fun _ => k, fun h => absurd this h⟩
  · have := k.inter_ref_pic_set_prediction_flag
    exact ⟨by omega, fun h => absurd h hi, fun h => by omega, fun _ => k⟩

/-- The pictures of an inter-predicted set are given by its flags. -/
theorem interRps_ext {idx num : Nat} {prev : List StRefPicSet} {s t : StRefPicSet} (ha : ValidInterRps idx num prev s) (hb : ValidInterRps idx num prev t)
    (h1 : s.delta_idx_minus1 = t.delta_idx_minus1) (h2 : s.delta_rps_sign = t.delta_rps_sign) (h3 : s.abs_delta_rps_minus1 = t.abs_delta_rps_minus1)
    (h4 : s.flags = t.flags) : s = t := by
  have hd : deltaRps s = deltaRps t := by unfold deltaRps; rw [h2, h3]
  have e0 : s.s0 = t.s0 := by
    rw [ha.derived.s0, hb.derived.s0, h1]; unfold derivedS0; rw [hd, h4]
  have e1 : s.s1 = t.s1 := by
    rw [ha.derived.s1, hb.derived.s1, h1]; unfold derivedS1; rw [hd, h4]
  have n0 := ha.num_negative_pics.trans ((congrArg List.length e0).trans hb.num_negative_pics.symm)
  have n1 := ha.num_positive_pics.trans ((congrArg List.length e1).trans hb.num_positive_pics.symm)
  have f := ha.inter_ref_pic_set_prediction_flag.trans hb.inter_ref_pic_set_prediction_flag.symm
  cases s; cases t; simp_all

theorem explicitRps_ext {maxNum : Nat} {s t : StRefPicSet} (ha : ValidExplicitRps maxNum s) (hb : ValidExplicitRps maxNum t)
    (h1 : s.num_negative_pics = t.num_negative_pics) (h2 : s.num_positive_pics = t.num_positive_pics) (h3 : s.s0 = t.s0) (h4 : s.s1 = t.s1) : s = t := by
  have e1 := ha.inter_ref_pic_set_prediction_flag.trans hb.inter_ref_pic_set_prediction_flag.symm
  have e2 := ha.delta_idx_minus1.trans hb.delta_idx_minus1.symm
  have e3 := ha.delta_rps_sign.trans hb.delta_rps_sign.symm
  have e4 := ha.abs_delta_rps_minus1.trans hb.abs_delta_rps_minus1.symm
  have e5 := ha.flags.trans hb.flags.symm
  cases s; cases t; simp_all

theorem det_StRefPicSet {idx num maxNum : Nat} {prev : List StRefPicSet} {s t : StRefPicSet} (hmax : maxNum < 2 ^ 32) (ha : ValidStRefPicSet idx num prev maxNum s)
    (hb : ValidStRefPicSet idx num prev maxNum t) : Det (textStRefPicSet idx num s) (textStRefPicSet idx num t) (s = t) := by
  obtain ⟨fa, fa0, fae, fai⟩ := rps_flag ha
  obtain ⟨fb, fb0, fbe, fbi⟩ := rps_flag hb
  unfold textStRefPicSet
  refine det_block (fun r r' h => ?_)
  replace h := step (P := s.inter_ref_pic_set_prediction_flag = t.inter_ref_pic_set_prediction_flag) (det_when (fun hc r r' h2 => by
      replace h2 := step (det_u32 fa fb) h2
      exact ⟨h2.1, steps_nil h2.2⟩) (fun hn => by rw [fa0 (by omega), fb0 (by omega)])) h
  obtain ⟨ef, h⟩ := h
  rw [← ef] at fbe fbi h
  by_cases k : s.inter_ref_pic_set_prediction_flag ≠ 0
  · have va := fai k
    have vb := fbi k
    replace h := step (P := s = t) (det_when (fun hc r r' h2 => by
        replace h2 := step (P := s.delta_idx_minus1 = t.delta_idx_minus1) (det_when (fun hc r r' h3 => by
            replace h3 := step (det_u32 (by bd va.delta_idx_minus1) (by bd vb.delta_idx_minus1)) h3
            exact ⟨h3.1, steps_nil h3.2⟩) (fun hn => (va.delta_idx_minus1.absent hn).trans (vb.delta_idx_minus1.absent hn).symm)) h2
        obtain ⟨e1, h2⟩ := h2
        obtain ⟨e2, h2⟩ := step (det_u32 (by bd va.delta_rps_sign) (by bd vb.delta_rps_sign)) h2
        obtain ⟨e3, h2⟩ := step (det_u32 (by bd va.abs_delta_rps_minus1) (by bd vb.abs_delta_rps_minus1)) h2
        obtain ⟨e4, h2⟩ := step (det_list32 (by intro x hx; obtain ⟨y, hy, rfl⟩ := List.mem_map.1 hx; bd (va.flags.valid y hy).used_by_curr_pic_flag) (by intro x hx; obtain ⟨y, hy, rfl⟩ := List.mem_map.1 hx; bd (vb.flags.valid y hy).used_by_curr_pic_flag)) h2
        obtain ⟨e5, h2⟩ := step (det_list32 (by intro x hx; obtain ⟨y, hy, rfl⟩ := List.mem_map.1 hx; bd (va.flags.valid y hy).use_delta_flag) (by intro x hx; obtain ⟨y, hy, rfl⟩ := List.mem_map.1 hx; bd (vb.flags.valid y hy).use_delta_flag)) h2
        exact ⟨interRps_ext va vb e1 e2 e3 (det_RpsFlags_cols e4 e5), steps_nil h2⟩) (fun hn => absurd k hn)) h
    obtain ⟨e, h⟩ := h
    rw [e] at h
    replace h := step (det_refl _) h
    exact ⟨e, steps_nil h.2⟩
  · have va := fae k
    have vb := fbe k
    replace h := step (P := True) (det_when (fun hc => absurd hc k) (fun hn => trivial)) h
    obtain ⟨-, h⟩ := h
    have ra := va.num_positive_pics; have rb := vb.num_positive_pics; have qa := va.num_negative_pics; have qb := vb.num_negative_pics
    replace h := step (P := s = t) (det_when (fun hc r r' h2 => by
        obtain ⟨e1, h2⟩ := step (det_u32 (by omega) (by omega)) h2
        obtain ⟨e2, h2⟩ := step (det_u32 (by omega) (by omega)) h2
        obtain ⟨e3, h2⟩ := step (det_list32 (by intro x hx; obtain ⟨y, hy, rfl⟩ := List.mem_map.1 hx; bd (va.s0.valid y hy).delta_poc_minus1) (by intro x hx; obtain ⟨y, hy, rfl⟩ := List.mem_map.1 hx; bd (vb.s0.valid y hy).delta_poc_minus1)) h2
        obtain ⟨e4, h2⟩ := step (det_list32 (by intro x hx; obtain ⟨y, hy, rfl⟩ := List.mem_map.1 hx; bd (va.s0.valid y hy).used_by_curr_pic) (by intro x hx; obtain ⟨y, hy, rfl⟩ := List.mem_map.1 hx; bd (vb.s0.valid y hy).used_by_curr_pic)) h2
        obtain ⟨e5, h2⟩ := step (det_list32 (by intro x hx; obtain ⟨y, hy, rfl⟩ := List.mem_map.1 hx; bd (va.s1.valid y hy).delta_poc_minus1) (by intro x hx; obtain ⟨y, hy, rfl⟩ := List.mem_map.1 hx; bd (vb.s1.valid y hy).delta_poc_minus1)) h2
        obtain ⟨e6, h2⟩ := step (det_list32 (by intro x hx; obtain ⟨y, hy, rfl⟩ := List.mem_map.1 hx; bd (va.s1.valid y hy).used_by_curr_pic) (by intro x hx; obtain ⟨y, hy, rfl⟩ := List.mem_map.1 hx; bd (vb.s1.valid y hy).used_by_curr_pic)) h2
        exact ⟨explicitRps_ext va vb e1 e2 (det_RpsEntry_cols e3 e4) (det_RpsEntry_cols e5 e6), steps_nil h2⟩) (fun hn => absurd k hn)) h
    exact ⟨h.1, steps_nil h.2⟩

/-- Parts of which each is determined given the ones before it. -/
theorem det_seq {α : Type} {f : Nat → α → Text} : ∀ (k : Nat) {l m : List α}, l.length = m.length →
    (∀ (i : Nat) (x y : α), l[i]? = some x → m[i]? = some y → l.take i = m.take i → Det (f (k + i) x) (f (k + i) y) (x = y)) →
    Det (l.mapIdx fun i => f (k + i)).flatten (m.mapIdx fun i => f (k + i)).flatten (l = m)
  | _, [], [], _, _ => det_nil rfl
  | _, [], _ :: _, h, _ => by cases h
  | _, _ :: _, [], h, _ => by cases h
  | k, x :: l, y :: m, hlen, h => by
    have h0 := h 0 x y rfl rfl rfl
    simp only [List.mapIdx_cons, List.flatten_cons]
    refine Det.mono (P := x = y ∧ l = m) (det_append h0 (fun hxy => ?_)) (fun ⟨h1, h2⟩ => by rw [h1, h2])
    have ht := det_seq (f := f) (k + 1) (l := l) (m := m) (by simpa using hlen) (fun i a b ha hb ht => by
      have := h (i + 1) a b ha hb (by rw [List.take_succ_cons, List.take_succ_cons, hxy, ht])
      rwa [← Nat.add_assoc, Nat.add_right_comm] at this)
    simpa only [Nat.add_assoc, Nat.add_comm 1] using ht

theorem det_StRefPicSets {num maxNum : Nat} {l m : List StRefPicSet} (hmax : maxNum < 2 ^ 32) (ha : ValidStRefPicSets num maxNum l) (hb : ValidStRefPicSets num maxNum m) :
    Det ((l.take num).mapIdx (fun i r => textStRefPicSet i num r)).flatten ((m.take num).mapIdx (fun i r => textStRefPicSet i num r)).flatten (l = m) := by
  rw [List.take_of_length_le (by rw [ha.length]; exact Nat.le_refl _), List.take_of_length_le (by rw [hb.length]; exact Nat.le_refl _)]
  have := det_seq (f := fun i r => textStRefPicSet i num r) 0 (l := l) (m := m) (by rw [ha.length, hb.length]) (fun i x y hx hy e => by
    rw [Nat.zero_add]
    have vb := hb.valid i y hy
    rw [← e] at vb
    exact det_StRefPicSet hmax (ha.valid i x hx) vb)
  simpa only [Nat.zero_add] using this

theorem scalingRow_inj {α : Type} {i : Nat} {d : α} {l m : List α} (hl : l.length = if i = 3 then 2 else 6) (hm : m.length = if i = 3 then 2 else 6)
    (h : scalingRow i d l = scalingRow i d m) : l = m := by
  unfold scalingRow at h
  by_cases k : i = 3
  · rw [if_pos k] at hl hm h
    rw [if_pos k] at h
    match l, m, hl, hm, h with
    | [a, b], [c, e], _, _, h => simpa using h
  · rw [if_neg k, if_neg k] at h; exact h

theorem scalingTable_inj {α : Type} {d : α} {f : ScalingMatrix → α} {s t : ScalingListData} (ha : ValidScalingListData s) (hb : ValidScalingListData t)
    (h : (s.sizes.mapIdx fun i l => scalingRow i d (l.map f)) = t.sizes.mapIdx fun i l => scalingRow i d (l.map f)) :
    ∀ (i : Nat) (x y : List ScalingMatrix), s.sizes[i]? = some x → t.sizes[i]? = some y → x.map f = y.map f := by
  intro i x y hx hy
  have := congrArg (·[i]?) h
  simp only [List.getElem?_mapIdx, hx, hy, Option.map_some, Option.some.injEq] at this
  exact scalingRow_inj (by rw [List.length_map]; exact (ha.valid i x hx).length) (by rw [List.length_map]; exact (hb.valid i y hy).length) this

theorem scalingMatrix_shown {l m : List ScalingMatrix} (h1 : l.map (·.scaling_list_pred_mode_flag) = m.map (·.scaling_list_pred_mode_flag))
    (h2 : l.map (·.scaling_list_pred_matrix_id_delta) = m.map (·.scaling_list_pred_matrix_id_delta))
    (h3 : l.map (·.scaling_list_dc_coef_minus8) = m.map (·.scaling_list_dc_coef_minus8))
    (h4 : l.map (fun x => x.coefs.map (·.coef)) = m.map (fun x => x.coefs.map (·.coef))) : l.map ScalingMatrix.shown = m.map ScalingMatrix.shown := by
  have := cols h1 (cols h2 (cols h3 h4))
  have e : ∀ x : ScalingMatrix, x.shown = (fun p : Nat × Nat × Int × List Nat => ⟨p.1, p.2.1, p.2.2.1, p.2.2.2.map fun c => ⟨0, c⟩⟩)
      (x.scaling_list_pred_mode_flag, x.scaling_list_pred_matrix_id_delta, x.scaling_list_dc_coef_minus8, x.coefs.map (·.coef)) := by
    intro x; simp [ScalingMatrix.shown, Function.comp_def]
  have := congrArg (List.map (fun p : Nat × Nat × Int × List Nat => (⟨p.1, p.2.1, p.2.2.1, p.2.2.2.map fun c => ⟨0, c⟩⟩ : ScalingMatrix))) this
  rw [List.map_map, List.map_map] at this
  have ef : ScalingMatrix.shown = (fun p : Nat × Nat × Int × List Nat => (⟨p.1, p.2.1, p.2.2.1, p.2.2.2.map fun c => ⟨0, c⟩⟩ : ScalingMatrix)) ∘
      fun x => (x.scaling_list_pred_mode_flag, x.scaling_list_pred_matrix_id_delta, x.scaling_list_dc_coef_minus8, x.coefs.map (·.coef)) := funext e
  rw [ef]; exact this

theorem scalingRow_bound {i : Nat} {l : List Nat} (h : ∀ v ∈ l, v < 2 ^ 32) : ∀ v ∈ scalingRow i 0 l, v < 2 ^ 32 := by
  have hd : ∀ j, l.getD j 0 < 2 ^ 32 := by
    intro j
    rw [List.getD_eq_getElem?_getD]
    cases e : l[j]? with
    | none => simp
    | some x => exact h x (List.mem_of_getElem? e)
  unfold scalingRow
  split
  · intro v hv
    simp only [List.mem_cons, List.not_mem_nil, or_false] at hv
    rcases hv with rfl | rfl | rfl | rfl | rfl | rfl
    · exact hd 0
    · decide
    · decide
    · exact hd 1
    · decide
    · decide
  · exact h

theorem scalingTable_bound {f : ScalingMatrix → Nat} {s : ScalingListData} (ha : ValidScalingListData s) (hf : ∀ i m, ValidScalingMatrix i m → f m < 2 ^ 32) :
    ∀ x ∈ (s.sizes.mapIdx fun i l => scalingRow i 0 (l.map f)), ∀ v ∈ x, v < 2 ^ 32 := by
  intro x hx
  obtain ⟨i, hi⟩ := List.mem_iff_getElem?.1 hx
  simp only [List.getElem?_mapIdx] at hi
  cases hl : s.sizes[i]? with
  | none => rw [hl] at hi; cases hi
  | some l =>
    rw [hl] at hi; simp only [Option.map_some, Option.some.injEq] at hi
    rw [← hi]
    refine scalingRow_bound (fun v hv => ?_)
    obtain ⟨m, hm, rfl⟩ := List.mem_map.1 hv
    exact hf i m ((ha.valid i l hl).valid m hm)

theorem coefs_bound : ∀ (l : List ScalingCoef) (n : Int), CoefsFrom n l → ∀ c ∈ l, c.coef < 2 ^ 32
  | [], _, _ => by simp
  | x :: l, n, h => by
    intro c hc
    rcases List.mem_cons.1 hc with rfl | hc
    · have := h.2.2.1; omega
    · exact coefs_bound l _ h.2.2.2 c hc

theorem det_ScalingListData {s t : ScalingListData} (ha : ValidScalingListData s) (hb : ValidScalingListData t) :
    Det (textScalingListData s) (textScalingListData t) (s.shown = t.shown) := by
  unfold textScalingListData
  refine det_block (fun r r' h => ?_)
  obtain ⟨e1, h⟩ := step (det_rows32 (scalingTable_bound ha (fun i m v => by bd v.scaling_list_pred_mode_flag)) (scalingTable_bound hb (fun i m v => by bd v.scaling_list_pred_mode_flag))) h
  obtain ⟨e2, h⟩ := step (det_rows32 (scalingTable_bound ha (fun i m v => by bd v.scaling_list_pred_matrix_id_delta)) (scalingTable_bound hb (fun i m v => by bd v.scaling_list_pred_matrix_id_delta))) h
  obtain ⟨e3, h⟩ := step det_rows h
  have hcoef : ∀ {s : ScalingListData}, ValidScalingListData s → ∀ x ∈ s.ScalingList, ∀ y ∈ x, ∀ v ∈ y, v < 2 ^ 32 := by
    intro s hs x hx y hy v hv
    obtain ⟨i, hi⟩ := List.mem_iff_getElem?.1 hx
    simp only [ScalingListData.ScalingList, List.getElem?_mapIdx] at hi
    cases hl : s.sizes[i]? with
    | none => rw [hl] at hi; cases hi
    | some l =>
      rw [hl] at hi; simp only [Option.map_some, Option.some.injEq] at hi
      have hm : ∀ z ∈ l.map (fun m => m.coefs.map (·.coef)), ∀ v ∈ z, v < 2 ^ 32 := by
        intro z hz v hv
        obtain ⟨m, hm, rfl⟩ := List.mem_map.1 hz
        obtain ⟨c, hc, rfl⟩ := List.mem_map.1 hv
        exact coefs_bound _ _ ((hs.valid i l hl).valid m hm).coefs c hc
      have hd : ∀ j, ∀ v ∈ (l.map (fun m => m.coefs.map (·.coef))).getD j [], v < 2 ^ 32 := by
        intro j
        rw [List.getD_eq_getElem?_getD]
        cases e : (l.map (fun m => m.coefs.map (·.coef)))[j]? with
        | none => simp
        | some x => exact hm x (List.mem_of_getElem? e)
      rw [← hi] at hy
      unfold scalingRow at hy
      split at hy
      · simp only [List.mem_cons, List.not_mem_nil, or_false] at hy
        rcases hy with rfl | rfl | rfl | rfl | rfl | rfl
        · exact hd 0 v hv
        · cases hv
        · cases hv
        · exact hd 1 v hv
        · cases hv
        · cases hv
      · exact hm y hy v hv
  obtain ⟨e4, h⟩ := step (det_listed (fun x hx y hy => det_row (fun a hxa b hyb => det_row (fun v hv w hw => det_one32 (hcoef ha x hx a hxa v hv) (hcoef hb y hy b hyb w hw)) Opens.one32) (Opens.row _)) (Opens.row _)) h
  refine ⟨?_, steps_nil h⟩
  have c1 := scalingTable_inj ha hb e1
  have c2 := scalingTable_inj ha hb e2
  have c4 := scalingTable_inj ha hb e4
  have c3 : ∀ (i : Nat) (x y : List ScalingMatrix), s.sizes[i]? = some x → t.sizes[i]? = some y →
      x.map (·.scaling_list_dc_coef_minus8) = y.map (·.scaling_list_dc_coef_minus8) := by
    intro i x y hx hy
    by_cases hi : 2 ≤ i
    · have hi4 : i < 4 := by have := (List.getElem?_eq_some_iff.1 hx).1; have := ha.length; omega
      have := congrArg (·[i - 2]?) e3
      simp only [ScalingListData.scaling_list_dc_coef_minus8] at this
      rw [List.getElem?_append_left (by have := ha.length; simp; omega), List.getElem?_append_left (by have := hb.length; simp; omega)] at this
      rw [List.getElem?_drop, List.getElem?_drop, Nat.add_sub_cancel' hi] at this
      simp only [List.getElem?_mapIdx, hx, hy, Option.map_some, Option.some.injEq] at this
      exact scalingRow_inj (by rw [List.length_map]; exact (ha.valid i x hx).length) (by rw [List.length_map]; exact (hb.valid i y hy).length) this
    · have z : ∀ {l : List ScalingMatrix}, Each (if i = 3 then 2 else 6) (ValidScalingMatrix i) l → l.map (·.scaling_list_dc_coef_minus8) = List.replicate 6 0 := by
        intro l hl
        rw [List.eq_replicate_iff]
        refine ⟨by rw [List.length_map, hl.length, if_neg (by omega)], fun v hv => ?_⟩
        obtain ⟨m, hm, rfl⟩ := List.mem_map.1 hv
        exact (hl.valid m hm).scaling_list_dc_coef_minus8.absent (by omega)
      rw [z (ha.valid i x hx), z (hb.valid i y hy)]
  unfold ScalingListData.shown
  congr 1
  have la := ha.length; have lb := hb.length
  refine List.ext_getElem (by simp; omega) (fun i h1 h2 => ?_)
  simp only [List.length_map] at h1 h2
  have gx := List.getElem?_eq_getElem h1
  have gy := List.getElem?_eq_getElem h2
  simp only [List.getElem_map]
  exact scalingMatrix_shown (c1 i _ _ gx gy) (c2 i _ _ gx gy) (c3 i _ _ gx gy) (c4 i _ _ gx gy)

end H265
