/- C34: scaling lists. -/
import Verif.Proof.Scaling
import Verif.Proof.Lossless

namespace H265
open Spec

/-- C34: scaling_list_data() is parsed losslessly and the coefficients are those of the recurrence of clause 7.3.4; no index is
out of range. -/
theorem C34_scaling_inverts : InvertsSigned parseScalingListData Spec.scalingListData ValidScalingListData :=
  parseScalingListData_codec.invertsSigned

theorem CoefsFrom.lt : ∀ {l : List ScalingCoef} {next : Int}, CoefsFrom next l → ∀ c ∈ l, c.coef < 256 := by
  intro l
  induction l with
  | nil => intro _ _ c hc; cases hc
  | cons d l ih =>
    rintro next ⟨_, _, h3, h4⟩ c hc
    rcases List.mem_cons.mp hc with rfl | hc
    · omega
    · exact ih h4 c hc

/-- C34: shape and ranges of the tables of an accepted scaling_list_data(): all tables are 4x6; `ScalingList[sizeId][matrixId]`
has 16 (4x4) resp. 64 coefficients in 0..255 if `scaling_list_pred_mode_flag[sizeId][matrixId]` is 1, and is empty otherwise. -/
theorem C34_scaling_tables {bb bb' : BB} {s : ScalingListData} (h : bb.WF) (hr : parseScalingListData.run bb = .ok s bb') :
    s.scaling_list_pred_mode_flag.length = 4 ∧ (∀ r ∈ s.scaling_list_pred_mode_flag, r.length = 6) ∧
    s.scaling_list_pred_matrix_id_delta.length = 4 ∧ (∀ r ∈ s.scaling_list_pred_matrix_id_delta, r.length = 6) ∧
    s.scaling_list_dc_coef_minus8.length = 4 ∧ (∀ r ∈ s.scaling_list_dc_coef_minus8, r.length = 6) ∧
    s.ScalingList.length = 4 ∧ (∀ r ∈ s.ScalingList, r.length = 6) ∧
    ∀ sizeId, sizeId < 4 → ∀ matrixId, matrixId < 6 → ∃ f l,
      (s.scaling_list_pred_mode_flag.getD sizeId [])[matrixId]? = some f ∧ (s.ScalingList.getD sizeId [])[matrixId]? = some l ∧
      (∀ c ∈ l, c < 256) ∧ l.length = (if f = 1 then (if sizeId = 0 then 16 else 64) else 0) := by
  obtain ⟨⟨hlen, hv⟩, _⟩ := C34_scaling_inverts.sound bb bb' s h hr
  have hrow : ∀ {α β : Type} (d : β) (g : ScalingMatrix → β), ∀ r ∈ s.sizes.mapIdx (fun sizeId l => scalingRow sizeId d (l.map g)), r.length = 6 := by
    intro α β d g r hr
    rw [List.mem_mapIdx] at hr
    obtain ⟨i, hi, rfl⟩ := hr
    have := (hv i s.sizes[i] (List.getElem?_eq_getElem hi)).length
    unfold scalingRow
    by_cases h3 : i = 3
    · rw [if_pos h3]; rfl
    · rw [if_neg h3, List.length_map, this, if_neg h3]
  refine ⟨by simpa [ScalingListData.scaling_list_pred_mode_flag] using hlen, hrow (α := Nat) _ _,
    by simpa [ScalingListData.scaling_list_pred_matrix_id_delta] using hlen, hrow (α := Nat) _ _,
    by simp [ScalingListData.scaling_list_dc_coef_minus8, hlen], ?_,
    by simpa [ScalingListData.ScalingList] using hlen, hrow (α := Nat) _ _, ?_⟩
  · intro r hr
    unfold ScalingListData.scaling_list_dc_coef_minus8 at hr
    rw [List.mem_append] at hr
    rcases hr with hr | hr
    · exact hrow (α := Nat) _ _ r (List.mem_of_mem_drop hr)
    · simp at hr; simp [hr]
  · intro i hi j hj
    have hil : i < s.sizes.length := by omega
    have hs := hv i s.sizes[i] (List.getElem?_eq_getElem hil)
    -- the matrix at position `j` of the row, if assigned
    have key : ∀ (k : Nat) (m : ScalingMatrix), (s.sizes[i])[k]? = some m →
        (∀ c ∈ m.coefs.map (·.coef), c < 256) ∧
        (m.coefs.map (·.coef)).length = (if m.scaling_list_pred_mode_flag = 1 then (if i = 0 then 16 else 64) else 0) := by
      intro k m hm
      have hm := hs.valid m (List.mem_of_getElem? hm)
      refine ⟨?_, ?_⟩
      · intro c hc
        rw [List.mem_map] at hc
        obtain ⟨x, hx, rfl⟩ := hc
        exact CoefsFrom.lt hm.coefs x hx
      · rw [List.length_map, hm.length]
        have := hm.scaling_list_pred_mode_flag
        by_cases hf : m.scaling_list_pred_mode_flag = 1
        · rw [if_pos (by omega), if_pos hf]
          unfold coefNum
          rcases (by omega : i = 0 ∨ i = 1 ∨ i = 2 ∨ i = 3) with rfl | rfl | rfl | rfl <;> rfl
        · rw [if_neg (by omega), if_neg hf]
    have hrowf : s.scaling_list_pred_mode_flag.getD i [] = scalingRow i 0 (s.sizes[i].map (·.scaling_list_pred_mode_flag)) := by
      simp [ScalingListData.scaling_list_pred_mode_flag, List.getElem?_eq_getElem hil]
    have hrowl : s.ScalingList.getD i [] = scalingRow i [] (s.sizes[i].map fun m => m.coefs.map (·.coef)) := by
      simp [ScalingListData.ScalingList, List.getElem?_eq_getElem hil]
    rw [hrowf, hrowl]
    unfold scalingRow
    by_cases h3 : i = 3
    · rw [if_pos h3, if_pos h3]
      have hl2 := hs.length
      rw [if_pos h3] at hl2
      obtain ⟨m0, m1, hm⟩ : ∃ m0 m1, s.sizes[i] = [m0, m1] := by
        match hx : s.sizes[i], hl2 with
        | [m0, m1], _ => exact ⟨m0, m1, rfl⟩
      have k0 := key 0 m0 (by rw [hm]; rfl)
      have k1 := key 1 m1 (by rw [hm]; rfl)
      rw [hm]
      rcases (by omega : j = 0 ∨ j = 1 ∨ j = 2 ∨ j = 3 ∨ j = 4 ∨ j = 5) with rfl | rfl | rfl | rfl | rfl | rfl
      · exact ⟨_, _, rfl, rfl, k0.1, k0.2⟩
      · exact ⟨0, [], rfl, rfl, by simp, by simp⟩
      · exact ⟨0, [], rfl, rfl, by simp, by simp⟩
      · exact ⟨_, _, rfl, rfl, k1.1, k1.2⟩
      · exact ⟨0, [], rfl, rfl, by simp, by simp⟩
      · exact ⟨0, [], rfl, rfl, by simp, by simp⟩
    · rw [if_neg h3, if_neg h3]
      have hl2 := hs.length
      rw [if_neg h3] at hl2
      have hjm : (s.sizes[i])[j]? = some ((s.sizes[i])[j]'(by omega)) := List.getElem?_eq_getElem _
      have k := key j _ hjm
      exact ⟨_, _, by rw [List.getElem?_map, hjm]; rfl, by rw [List.getElem?_map, hjm]; rfl, k.1, k.2⟩

/-- C34: the tables of an accepted scaling_list_data() hold the values of the `k`-th matrix of each size at matrixId = k (3 * k for
sizeId 3); scaling_list_dc_coef_minus8 is indexed by sizeId - 2; the elements of the four columns that sizeId 3 does not use are 0
(empty). -/
theorem C34_scaling_table_contents {bb bb' : BB} {s : ScalingListData} (h : bb.WF) (hr : parseScalingListData.run bb = .ok s bb') :
    (∀ sizeId ms k m, s.sizes[sizeId]? = some ms → ms[k]? = some m →
      (s.scaling_list_pred_mode_flag[sizeId]?.getD [])[if sizeId = 3 then 3 * k else k]? = some m.scaling_list_pred_mode_flag ∧
      (s.scaling_list_pred_matrix_id_delta[sizeId]?.getD [])[if sizeId = 3 then 3 * k else k]? = some m.scaling_list_pred_matrix_id_delta ∧
      (2 ≤ sizeId → (s.scaling_list_dc_coef_minus8[sizeId - 2]?.getD [])[if sizeId = 3 then 3 * k else k]? = some m.scaling_list_dc_coef_minus8) ∧
      (s.ScalingList[sizeId]?.getD [])[if sizeId = 3 then 3 * k else k]? = some (m.coefs.map (·.coef))) ∧
    (∀ matrixId, matrixId < 6 → matrixId ≠ 0 → matrixId ≠ 3 →
      (s.scaling_list_pred_mode_flag[3]?.getD [])[matrixId]? = some 0 ∧ (s.scaling_list_pred_matrix_id_delta[3]?.getD [])[matrixId]? = some 0 ∧
      (s.scaling_list_dc_coef_minus8[1]?.getD [])[matrixId]? = some 0 ∧ (s.ScalingList[3]?.getD [])[matrixId]? = some []) := by
  obtain ⟨⟨hlen, hv⟩, _⟩ := C34_scaling_inverts.sound bb bb' s h hr
  have hrow : ∀ {β : Type} (d : β) (g : ScalingMatrix → β) (i k : Nat) (ms : List ScalingMatrix) (m : ScalingMatrix), s.sizes[i]? = some ms →
      ms[k]? = some m → (scalingRow i d (ms.map g))[if i = 3 then 3 * k else k]? = some (g m) := by
    intro β d g i k ms m h1 h2
    have hl := (hv i ms h1).length
    have hk : k < ms.length := (List.getElem?_eq_some_iff.mp h2).1
    unfold scalingRow
    by_cases h3 : i = 3
    · rw [if_pos h3, if_pos h3]
      rw [if_pos h3] at hl
      rcases (by omega : k = 0 ∨ k = 1) with rfl | rfl
      · simp [h2]
      · simp [h2]
    · rw [if_neg h3, if_neg h3]; simp [h2]
  have hdef : ∀ {β : Type} (d : β) (l : List β) (j : Nat), j < 6 → j ≠ 0 → j ≠ 3 → (scalingRow 3 d l)[j]? = some d := by
    intro β d l j h1 h2 h3
    unfold scalingRow
    rw [if_pos rfl]
    rcases (by omega : j = 1 ∨ j = 2 ∨ j = 4 ∨ j = 5) with rfl | rfl | rfl | rfl <;> rfl
  have h3 : s.sizes[3]? = some s.sizes[3] := List.getElem?_eq_getElem (by omega)
  refine ⟨fun i ms k m h1 h2 => ⟨?_, ?_, fun h0 => ?_, ?_⟩, fun j j1 j2 j3 => ⟨?_, ?_, ?_, ?_⟩⟩
  · simp only [ScalingListData.scaling_list_pred_mode_flag, List.getElem?_mapIdx, h1, Option.map_some, Option.getD_some]
    exact hrow _ _ i k ms m h1 h2
  · simp only [ScalingListData.scaling_list_pred_matrix_id_delta, List.getElem?_mapIdx, h1, Option.map_some, Option.getD_some]
    exact hrow _ _ i k ms m h1 h2
  · have hi : i < s.sizes.length := (List.getElem?_eq_some_iff.mp h1).1
    simp only [ScalingListData.scaling_list_dc_coef_minus8]
    rw [List.getElem?_append_left (by simp; omega), List.getElem?_drop, show 2 + (i - 2) = i by omega]
    simp only [List.getElem?_mapIdx, h1, Option.map_some, Option.getD_some]
    exact hrow _ _ i k ms m h1 h2
  · simp only [ScalingListData.ScalingList, List.getElem?_mapIdx, h1, Option.map_some, Option.getD_some]
    exact hrow _ _ i k ms m h1 h2
  · simp only [ScalingListData.scaling_list_pred_mode_flag, List.getElem?_mapIdx, h3, Option.map_some, Option.getD_some]
    exact hdef _ _ _ j1 j2 j3
  · simp only [ScalingListData.scaling_list_pred_matrix_id_delta, List.getElem?_mapIdx, h3, Option.map_some, Option.getD_some]
    exact hdef _ _ _ j1 j2 j3
  · simp only [ScalingListData.scaling_list_dc_coef_minus8]
    rw [List.getElem?_append_left (by simp; omega), List.getElem?_drop]
    simp only [List.getElem?_mapIdx, h3, Option.map_some, Option.getD_some]
    exact hdef _ _ _ j1 j2 j3
  · simp only [ScalingListData.ScalingList, List.getElem?_mapIdx, h3, Option.map_some, Option.getD_some]
    exact hdef _ _ _ j1 j2 j3

/-- C34: the first coefficient of a coded 8x8 or 4x4 matrix is 8 + delta modulo 256, every further one is the previous one plus
its delta modulo 256. -/
theorem C34_coefficient_recurrence {bb bb' : BB} {sizeId : Nat} {m : ScalingMatrix} (h : bb.WF)
    (hr : (parseScalingMatrix sizeId).run bb = .ok m bb') (i : Nat) (c : ScalingCoef) (hc : m.coefs[i]? = some c) :
    (c.coef : Int) = ((if i = 0 then (if sizeId > 1 then m.scaling_list_dc_coef_minus8 + 8 else 8)
      else ((m.coefs.map (·.coef)).getD (i - 1) 0 : Nat)) + c.delta) % 256 := by
  obtain ⟨hv, _⟩ := (parseScalingMatrix_codec (sizeId := sizeId)).invertsSigned.sound bb bb' m h hr
  have gen : ∀ (l : List ScalingCoef) (next : Int), CoefsFrom next l → ∀ i c, l[i]? = some c →
      (c.coef : Int) = ((if i = 0 then next else ((l.map (·.coef)).getD (i - 1) 0 : Nat)) + c.delta) % 256 := by
    intro l
    induction l with
    | nil => intro _ _ i c hc; simp at hc
    | cons d l ih =>
      rintro next ⟨_, _, h3, h4⟩ i c hc
      cases i with
      | zero =>
        simp at hc
        subst hc
        rw [if_pos rfl, h3]
        omega
      | succ i =>
        have := ih _ h4 i c (by simpa using hc)
        rw [if_neg (by omega)]
        cases i with
        | zero => simpa using this
        | succ i => simpa using this
  exact gen _ _ hv.coefs i c hc

/-- C34, limit: the DC coefficient is not range checked (standard: -7..247), so that the coefficient arithmetic can overflow. -/
theorem C34_overflow_counterexample :
    (parseScalingMatrix 2).denote ([true] ++ se (-(2 ^ 31 - 1)) ++ se (-(2 ^ 31 - 1))) = .bad .signedOverflow := by
  decide +kernel

/-- hypotheses met: the all-ones buffer of test/h265_scaling_list_data_parser_unittest.cc:21-55 (all deltas 0) -/
example : ((parseScalingListData.parseEscaped (List.replicate 256 0xff)).val?.map fun s =>
    (s.scaling_list_pred_mode_flag, s.ScalingList.map (·.map (·.length)))) =
    some ([[1, 1, 1, 1, 1, 1], [1, 1, 1, 1, 1, 1], [1, 1, 1, 1, 1, 1], [1, 0, 0, 1, 0, 0]],
      [[16, 16, 16, 16, 16, 16], [64, 64, 64, 64, 64, 64], [64, 64, 64, 64, 64, 64], [64, 0, 0, 64, 0, 0]]) := by decide +kernel

/-- … and a matrix with non-zero deltas: 8 + 2 = 10, 10 - 11 = 255 (mod 256), … -/
example : (parseScalingMatrix 0).denote ([true] ++ se 2 ++ se (-11) ++ (List.replicate 14 true)) =
    .ok ⟨1, 0, 0, ⟨2, 10⟩ :: ⟨-11, 255⟩ :: List.replicate 14 ⟨0, 255⟩⟩ [] := by decide +kernel

end H265
