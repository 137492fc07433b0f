/-
Conforming structures satisfy the ranges the library accepts.
-/
import Verif.Spec.StdConf
import Verif.Proof.Std

namespace H265.Std
open Spec

/-! ### profile_tier_level( ) -/

theorem ConformsPtl.valid {maxSub : Nat} {p : StdPtl} (h : ConformsPtl maxSub p) (hs : SupportedPtl p) :
    ValidProfileTierLevel true maxSub (p.reported maxSub) where
  general := ⟨by simp [StdPtl.reported], fun x hx => by simp only [StdPtl.reported, Option.some.injEq] at hx; rw [← hx]; exact h.general⟩
  general_level_idc := by have := h.general_level_idc; show p.general_level_idc < _; omega
  sub_layer_flags := ⟨by simp [StdPtl.reported, h.count], fun f hf => by
    obtain ⟨x, hx, rfl⟩ := List.mem_map.mp hf
    have := h.flags x hx
    constructor
    · show x.profile_present_flag < _; omega
    · show x.level_present_flag < _; omega⟩
  reserved_zero_2bits := ⟨by unfold StdPtl.reported; dsimp only; split <;> simp, fun x hx => by
    unfold StdPtl.reported at hx; dsimp only at hx
    split at hx
    · rw [(List.mem_replicate.mp hx).2]; decide
    · cases hx⟩
  sub_layers := ⟨by simp [StdPtl.reported, h.count], fun i o ho => by
    simp only [StdPtl.reported, List.getElem?_map, Option.map_eq_some_iff] at ho
    obtain ⟨x, hx, rfl⟩ := ho
    have hm : x ∈ p.sub_layers := List.mem_of_getElem? hx
    have hf := h.flags x hm
    have hsx := hs x hm
    have hg : (p.reported maxSub).sub_layer_flags.getD i (0, 0) = (x.profile_present_flag, x.level_present_flag) := by
      simp [StdPtl.reported, List.getD_eq_getElem?_getD, List.getElem?_map, hx]
    rw [hg]
    by_cases hc : x.profile_present_flag ≠ 0
    · refine ⟨by simp [hc], fun y hy => ?_⟩
      rw [if_pos hc] at hy
      cases hy
      exact ⟨h.profile x hm (by omega), by have := h.level x hm (by omega); show x.level_idc < _; omega⟩
    · exact ⟨by simp [hc], fun y hy => by rw [if_neg hc] at hy; cases hy⟩⟩

/-! ### scaling lists -/

theorem coefs_valid : ∀ (l : List ScalingCoef) (next : Int), -1000 ≤ next ∧ next ≤ 1000 → ConformsCoefs next l → CoefsFrom next l := by
  intro l
  induction l with
  | nil => intros; trivial
  | cons c l ih =>
    rintro next hn ⟨h1, h2, _, h3⟩
    exact ⟨by omega, by omega, h2, ih _ (by omega) h3⟩

theorem scaling_valid {s : ScalingListData} (h : ConformsScalingListData s) : ValidScalingListData s := by
  refine ⟨h.length, fun i l hl => ⟨(h.valid i l hl).length, fun m hm => ?_⟩⟩
  obtain ⟨j, hj, rfl⟩ := List.getElem_of_mem hm
  have hlen := (h.valid i l hl).length
  have hx := (h.valid i l hl).valid j l[j] (List.getElem?_eq_getElem hj)
  have hj6 : j < 6 := by
    rw [hlen] at hj; split at hj <;> omega
  have hdc : -7 ≤ l[j].scaling_list_dc_coef_minus8 ∧ l[j].scaling_list_dc_coef_minus8 ≤ 247 := by
    by_cases hc : l[j].scaling_list_pred_mode_flag ≠ 0 ∧ i > 1
    · exact hx.scaling_list_dc_coef_minus8.present hc
    · have := hx.scaling_list_dc_coef_minus8.absent hc; omega
  exact {
    scaling_list_pred_mode_flag := by have := hx.scaling_list_pred_mode_flag; omega
    scaling_list_pred_matrix_id_delta := ⟨fun c => by have := hx.scaling_list_pred_matrix_id_delta.present c; omega, hx.scaling_list_pred_matrix_id_delta.absent⟩
    scaling_list_dc_coef_minus8 := ⟨fun c => by omega, hx.scaling_list_dc_coef_minus8.absent⟩
    length := hx.length
    coefs := coefs_valid _ _ (by split <;> omega) hx.coefs }

/-! ### reference picture sets -/

/-- all POC differences are at most `B` -/
def PocBound (B : Int) (s : StRefPicSet) : Prop := ∀ d ∈ deltaPocs (-1) 0 s.s0 ++ deltaPocs 1 0 s.s1, -B ≤ d ∧ d ≤ B

/-- the stored words are small numbers, possibly negative -/
def SmallEntries (s : StRefPicSet) : Prop := ∀ e ∈ s.s0 ++ s.s1, e.delta_poc_minus1 < 2 ^ 30 ∨ 2 ^ 32 - 2 ^ 30 ≤ e.delta_poc_minus1

theorem deltaPocs_bound {sgn : Int} (hsgn : sgn = 1 ∨ sgn = -1) : ∀ (l : List RpsEntry) (d : Int) (n : Nat), (∀ e ∈ l, ConformsRpsEntry e) →
    -(n * 2 ^ 15) ≤ d ∧ d ≤ n * 2 ^ 15 → ∀ x ∈ deltaPocs sgn d l, -((n + l.length : Nat) * 2 ^ 15) ≤ x ∧ x ≤ (n + l.length : Nat) * 2 ^ 15 := by
  intro l
  induction l with
  | nil => intro d n _ _ x hx; cases hx
  | cons e l ih =>
    intro d n he hd x hx
    have h1 := (he e List.mem_cons_self).delta_poc_minus1
    have h2 : toInt32 e.delta_poc_minus1 = e.delta_poc_minus1 := if_pos (by omega)
    have h3 : -((n + 1 : Nat) * 2 ^ 15) ≤ d + sgn * (toInt32 e.delta_poc_minus1 + 1) ∧ d + sgn * (toInt32 e.delta_poc_minus1 + 1) ≤ (n + 1 : Nat) * 2 ^ 15 := by
      rw [h2]; rcases hsgn with h | h <;> rw [h] <;> omega
    simp only [List.length_cons]
    rcases List.mem_cons.mp hx with h | h
    · rw [h]; omega
    · have := ih _ (n + 1) (fun e he' => he e (List.mem_cons_of_mem _ he')) h3 x h
      rw [show n + (l.length + 1) = n + 1 + l.length by omega]; exact this

theorem explicit_bound {s : StRefPicSet} (h : ConformsExplicitRps s) : PocBound (16 * 2 ^ 15) s ∧ SmallEntries s := by
  have hsz := h.size
  refine ⟨fun d hd => ?_, fun e he => ?_⟩
  · rcases List.mem_append.mp hd with hd | hd
    · have := deltaPocs_bound (.inr rfl) s.s0 0 0 h.s0.valid (by omega) d hd
      rw [h.s0.length] at this; omega
    · have := deltaPocs_bound (.inl rfl) s.s1 0 0 h.s1.valid (by omega) d hd
      rw [h.s1.length] at this; omega
  · rcases List.mem_append.mp he with he | he
    · have := (h.s0.valid e he).delta_poc_minus1; omega
    · have := (h.s1.valid e he).delta_poc_minus1; omega

theorem differences_small {sgn : Int} (hsgn : sgn = 1 ∨ sgn = -1) {B : Int} (hB : B ≤ 2 ^ 28) : ∀ (l : List (Int × Nat)) (p : Int), -B ≤ p ∧ p ≤ B →
    (∀ x ∈ l, -B ≤ x.1 ∧ x.1 ≤ B) →
    deltaPocs sgn p (differences sgn p l) = l.map (·.1) ∧
    ∀ e ∈ differences sgn p l, e.delta_poc_minus1 < 2 ^ 30 ∨ 2 ^ 32 - 2 ^ 30 ≤ e.delta_poc_minus1 := by
  intro l
  induction l with
  | nil => intro p _ _; exact ⟨rfl, fun e he => by cases he⟩
  | cons x l ih =>
    obtain ⟨d, f⟩ := x
    intro p hp hl
    have hd : -B ≤ d ∧ d ≤ B := hl (d, f) List.mem_cons_self
    obtain ⟨ih1, ih2⟩ := ih d hd fun y hy => hl y (List.mem_cons_of_mem _ hy)
    have hx : -(2 ^ 30) ≤ sgn * (d - p) - 1 ∧ sgn * (d - p) - 1 < 2 ^ 30 := by rcases hsgn with h | h <;> rw [h] <;> omega
    have hm : (∃ n : Nat, ((sgn * (d - p) - 1) % 2 ^ 32).toNat = n ∧ toInt32 n = sgn * (d - p) - 1 ∧ (n < 2 ^ 30 ∨ 2 ^ 32 - 2 ^ 30 ≤ n)) := by
      refine ⟨_, rfl, ?_⟩
      generalize sgn * (d - p) - 1 = y at hx
      unfold toInt32
      constructor
      · split <;> omega
      · omega
    obtain ⟨n, hn, h1, h2⟩ := hm
    have hss : sgn * (sgn * (d - p) - 1 + 1) = d - p := by rcases hsgn with h | h <;> rw [h] <;> omega
    constructor
    · unfold differences deltaPocs
      dsimp only
      rw [hn, h1, hss, show p + (d - p) = d by omega, ih1]
      rfl
    · intro e he
      unfold differences at he
      rcases List.mem_cons.mp he with h | h
      · rw [h]; dsimp only; rw [hn]; exact h2
      · exact ih2 e h

theorem deltaRps_bound {s : StRefPicSet} (h1 : s.delta_rps_sign ≤ 1) (h2 : s.abs_delta_rps_minus1 ≤ 2 ^ 15 - 1) : -(2 ^ 15) ≤ deltaRps s ∧ deltaRps s ≤ 2 ^ 15 := by
  unfold deltaRps
  have : s.delta_rps_sign = 0 ∨ s.delta_rps_sign = 1 := by omega
  rcases this with h | h <;> rw [h] <;> omega

theorem mem_zip_fst {α β : Type} {l : List α} {m : List β} {x : α × β} (h : x ∈ l.zip m) : x.1 ∈ l := (List.of_mem_zip h).1

theorem derived_bound {B : Int} {ref s : StRefPicSet} (hB : 0 ≤ B) (hr : PocBound B ref) (hd : -(2 ^ 15) ≤ deltaRps s ∧ deltaRps s ≤ 2 ^ 15) :
    (∀ x ∈ derivedS0 ref s, -(B + 2 ^ 15) ≤ x.1 ∧ x.1 ≤ B + 2 ^ 15) ∧ (∀ x ∈ derivedS1 ref s, -(B + 2 ^ 15) ≤ x.1 ∧ x.1 ≤ B + 2 ^ 15) := by
  have hc : ∀ c : Int × RpsFlags, (-B ≤ c.1 ∧ c.1 ≤ B) → -(B + 2 ^ 15) ≤ c.1 + deltaRps s ∧ c.1 + deltaRps s ≤ B + 2 ^ 15 := by intro c h; omega
  constructor
  · intro x hx
    unfold derivedS0 at hx
    obtain ⟨c, hc1, rfl⟩ := List.mem_map.mp hx
    have hc2 := (List.mem_filter.mp hc1).1
    refine hc c ?_
    unfold candS0 at hc2
    rcases List.mem_append.mp hc2 with h | h
    · exact hr _ (List.mem_append.mpr (.inr (mem_zip_fst (List.mem_reverse.mp h))))
    · rcases List.mem_cons.mp h with h | h
      · rw [h]; dsimp only; omega
      · exact hr _ (List.mem_append.mpr (.inl (mem_zip_fst h)))
  · intro x hx
    unfold derivedS1 at hx
    obtain ⟨c, hc1, rfl⟩ := List.mem_map.mp hx
    have hc2 := (List.mem_filter.mp hc1).1
    refine hc c ?_
    unfold candS1 at hc2
    rcases List.mem_append.mp hc2 with h | h
    · exact hr _ (List.mem_append.mpr (.inl (mem_zip_fst (List.mem_reverse.mp h))))
    · rcases List.mem_cons.mp h with h | h
      · rw [h]; dsimp only; omega
      · exact hr _ (List.mem_append.mpr (.inr (mem_zip_fst h)))

/-- what is known of a set that later sets may refer to -/
structure GoodRps (B : Int) (s : StRefPicSet) : Prop where
  bound : PocBound B s
  small : SmallEntries s
  size : s.s0.length + s.s1.length ≤ 15

theorem inter_step {idx num : Nat} {prev : List StRefPicSet} {s : StRefPicSet} {B : Int} (hB : 0 ≤ B ∧ B + 2 ^ 15 ≤ 2 ^ 28) (h : ConformsInterRps idx num prev s)
    (hi : idx ≠ 0) (hr : GoodRps B (prev.getD (idx - (s.delta_idx_minus1 + 1)) default)) :
    GoodRps (B + 2 ^ 15) s ∧ (num ≤ 64 → ValidInterRps idx num prev s) := by
  have hd := deltaRps_bound h.delta_rps_sign h.abs_delta_rps_minus1
  obtain ⟨b0, b1⟩ := derived_bound hB.1 hr.bound hd
  obtain ⟨p0, e0⟩ := differences_small (.inr rfl) hB.2 _ 0 (by omega) b0
  obtain ⟨p1, e1⟩ := differences_small (.inl rfl) hB.2 _ 0 (by omega) b1
  refine ⟨⟨?_, ?_, ?_⟩, fun hn => ?_⟩
  · intro d hd
    rw [h.s0, h.s1, p0, p1] at hd
    rcases List.mem_append.mp hd with hd | hd
    · obtain ⟨x, hx, rfl⟩ := List.mem_map.mp hd; exact b0 x hx
    · obtain ⟨x, hx, rfl⟩ := List.mem_map.mp hd; exact b1 x hx
  · intro e he
    rw [h.s0, h.s1] at he
    rcases List.mem_append.mp he with he | he
    · exact e0 e he
    · exact e1 e he
  · rw [← h.num_negative_pics, ← h.num_positive_pics]; exact h.size
  · exact {
      inter_ref_pic_set_prediction_flag := h.inter_ref_pic_set_prediction_flag
      delta_idx_minus1 := ⟨fun c => by have := h.delta_idx_minus1.present c; omega, h.delta_idx_minus1.absent⟩
      delta_idx_range := by
        by_cases hc : idx = num
        · have := h.delta_idx_minus1.present hc; omega
        · have := h.delta_idx_minus1.absent hc; omega
      delta_rps_sign := by have := h.delta_rps_sign; omega
      abs_delta_rps_minus1 := by have := h.abs_delta_rps_minus1; omega
      ref_size := by have := hr.size; omega
      flags := ⟨h.flags.length, fun f hf => by
        obtain ⟨f1, f2⟩ := h.flags.valid f hf
        exact ⟨by omega, ⟨fun c => by have := f2.present c; omega, f2.absent⟩⟩⟩
      derived := ⟨⟨fun e he => by have := hr.small e he; omega, fun d hd' => by
          have := hr.bound d hd'
          unfold I32
          constructor <;> omega, fun x hx => by
          have := b0 x (List.mem_of_mem_head? (by rw [hx]; rfl))
          omega⟩, h.s0, h.s1⟩
      num_negative_pics := h.num_negative_pics
      num_positive_pics := h.num_positive_pics }

theorem explicit_valid {s : StRefPicSet} (h : ConformsExplicitRps s) : ValidExplicitRps 15 s where
  inter_ref_pic_set_prediction_flag := h.inter_ref_pic_set_prediction_flag
  delta_idx_minus1 := h.delta_idx_minus1
  delta_rps_sign := h.delta_rps_sign
  abs_delta_rps_minus1 := h.abs_delta_rps_minus1
  flags := h.flags
  num_negative_pics := by have := h.size; omega
  num_positive_pics := by have := h.size; omega
  s0 := ⟨h.s0.length, fun e he => ⟨by have := (h.s0.valid e he).delta_poc_minus1; omega, by have := (h.s0.valid e he).used_by_curr_pic; omega⟩⟩
  s1 := ⟨h.s1.length, fun e he => ⟨by have := (h.s1.valid e he).delta_poc_minus1; omega, by have := (h.s1.valid e he).used_by_curr_pic; omega⟩⟩

theorem explicit_good {s : StRefPicSet} (h : ConformsExplicitRps s) : GoodRps (16 * 2 ^ 15) s :=
  ⟨(explicit_bound h).1, (explicit_bound h).2, by rw [h.s0.length, h.s1.length]; exact h.size⟩

theorem GoodRps.mono {B C : Int} {s : StRefPicSet} (h : GoodRps B s) (hc : B ≤ C) : GoodRps C s :=
  ⟨fun d hd => by have := h.bound d hd; omega, h.small, h.size⟩

theorem rps_step {idx num : Nat} {prev : List StRefPicSet} {s : StRefPicSet} (hn : num ≤ 64) (hi : idx ≤ num) (hlen : prev.length = idx)
    (h : ConformsStRefPicSet idx num prev s) (hp : ∀ j r, prev[j]? = some r → GoodRps ((16 + j : Nat) * 2 ^ 15) r) :
    GoodRps ((16 + idx : Nat) * 2 ^ 15) s ∧ ValidStRefPicSet idx num prev 15 s := by
  rcases h with h | ⟨h0, h⟩
  · exact ⟨(explicit_good h).mono (by omega), hn, .inl (explicit_valid h)⟩
  · have hdi : s.delta_idx_minus1 + 1 ≤ idx := by
      by_cases hc : idx = num
      · have := h.delta_idx_minus1.present hc; omega
      · have := h.delta_idx_minus1.absent hc; omega
    have hlt : idx - (s.delta_idx_minus1 + 1) < prev.length := by omega
    have hr : GoodRps ((16 + (idx - 1) : Nat) * 2 ^ 15) (prev.getD (idx - (s.delta_idx_minus1 + 1)) default) := by
      rw [List.getD_eq_getElem?_getD, List.getElem?_eq_getElem hlt]
      exact (hp _ _ (List.getElem?_eq_getElem hlt)).mono (by omega)
    obtain ⟨g, v⟩ := inter_step (by omega) h h0 hr
    exact ⟨g.mono (by omega), hn, .inr ⟨h0, v hn⟩⟩

theorem rps_good {num : Nat} {l : List StRefPicSet} (hn : num ≤ 64) (h : ConformsStRefPicSets num l) :
    ∀ i, ∀ s, l[i]? = some s → GoodRps ((16 + i : Nat) * 2 ^ 15) s ∧ ValidStRefPicSet i num (l.take i) 15 s := by
  intro i
  induction i using Nat.strongRecOn with
  | ind i ih =>
    intro s hs
    obtain ⟨hi, _⟩ := List.getElem?_eq_some_iff.mp hs
    refine rps_step hn (by have := h.length; omega) (by rw [List.length_take]; omega) (h.each i s hs) fun j r hr => ?_
    have hj : j < i := by
      obtain ⟨hj, _⟩ := List.getElem?_eq_some_iff.mp hr
      rw [List.length_take] at hj; omega
    exact (ih j hj r (by rw [List.getElem?_take_of_lt hj] at hr; exact hr)).1

theorem rps_valid {num : Nat} {l : List StRefPicSet} (hn : num ≤ 64) (h : ConformsStRefPicSets num l) : ValidStRefPicSets num 15 l :=
  ⟨h.length, fun i s hs => (rps_good hn h i s hs).2⟩

/-! ### helpers -/

theorem opt_cases {c v d : Prop} (h : Opt c v d) : v ∨ d := (Classical.em c).elim (fun hc => .inl (h.present hc)) fun hc => .inr (h.absent hc)

theorem mul8_of {w m : Nat} (h : w % 2 ^ (m + 3) = 0) : 8 * (w / 8) = w := by
  have h1 : 8 ∣ w := Nat.dvd_trans ⟨2 ^ m, by rw [Nat.pow_add, Nat.mul_comm]⟩ (Nat.dvd_of_mod_eq_zero h)
  exact Nat.mul_div_cancel' h1

theorem subWidthC_pos (s : SpsBody) : 0 < subWidthC s := by unfold subWidthC; split <;> decide
theorem subHeightC_pos (s : SpsBody) : 0 < subHeightC s := by unfold subHeightC; split <;> decide

theorem le_of_sub {c x y w : Nat} (h : c * x < w) (hc : 0 < c) (hy : y ≤ x) : y ≤ w := by
  have : x ≤ c * x := Nat.le_mul_of_pos_left _ hc
  omega

theorem ceilLog2_le_of_le {x k : Nat} (h : x ≤ 2 ^ k) : ceilLog2 x ≤ k := by
  rcases Nat.lt_or_ge k (ceilLog2 x) with hc | hc
  · have := ceilLog2_least hc; omega
  · exact hc


theorem ConformsSubLayerOrdering.valid {s : SubLayerOrdering} (h : ConformsSubLayerOrdering s) : ValidSubLayerOrdering s where
  max_dec_pic_buffering_minus1 := by have := h.max_dec_pic_buffering_minus1; omega
  max_num_reorder_pics := by have := h.max_num_reorder_pics; have := h.max_dec_pic_buffering_minus1; omega
  max_latency_increase_plus1 := by have := h.max_latency_increase_plus1; omega

theorem ConformsSubLayerHrdEntry.valid {sub_pic : Nat} {s : SubLayerHrdEntry} (h : ConformsSubLayerHrdEntry sub_pic s) : ValidSubLayerHrdEntry sub_pic s where
  bit_rate_value_minus1 := by have := h.bit_rate_value_minus1; omega
  cpb_size_value_minus1 := by have := h.cpb_size_value_minus1; omega
  cpb_size_du_value_minus1 := ⟨fun c => by have := h.cpb_size_du_value_minus1.present c; omega, h.cpb_size_du_value_minus1.absent⟩
  bit_rate_du_value_minus1 := ⟨fun c => by have := h.bit_rate_du_value_minus1.present c; omega, h.bit_rate_du_value_minus1.absent⟩
  cbr_flag := h.cbr_flag

theorem ConformsHrdSubLayer.valid {nal vcl sub_pic : Nat} {s : HrdSubLayer} (h : ConformsHrdSubLayer nal vcl sub_pic s) (hg : s.fixed_pic_rate_general_flag = 0) : ValidHrdSubLayer nal vcl sub_pic s where
  fixed_pic_rate_general_flag := h.fixed_pic_rate_general_flag
  fixed_pic_rate_within_cvs_flag := h.fixed_pic_rate_within_cvs_flag
  elemental_duration_in_tc_minus1 := by
    have h1 : fixedPicRateWithinCvs s = s.fixed_pic_rate_within_cvs_flag := if_neg (by omega)
    have := h.elemental_duration_in_tc_minus1
    rw [h1] at this
    exact ⟨fun c => by have := this.present c; omega, this.absent⟩
  low_delay_hrd_flag := by
    have h1 : fixedPicRateWithinCvs s = s.fixed_pic_rate_within_cvs_flag := if_neg (by omega)
    have := h.low_delay_hrd_flag
    rw [h1] at this
    exact ⟨fun c => by have := this.present (by omega); omega, fun c => this.absent (by omega)⟩
  cpb_cnt_minus1 := ⟨fun c => by have := h.cpb_cnt_minus1.present c; omega, h.cpb_cnt_minus1.absent⟩
  nal_hrd := ⟨h.nal_hrd.present, fun x hx => ⟨(h.nal_hrd.valid x hx).length, fun y hy => ((h.nal_hrd.valid x hx).valid y hy).valid⟩⟩
  vcl_hrd := ⟨h.vcl_hrd.present, fun x hx => ⟨(h.vcl_hrd.valid x hx).length, fun y hy => ((h.vcl_hrd.valid x hx).valid y hy).valid⟩⟩

theorem ConformsHrdParameters.valid {common max_sub : Nat} {s : HrdParameters} (h : ConformsHrdParameters common max_sub s) (hs : SupportedHrd s) : ValidHrdParameters common max_sub s where
  nal_hrd_parameters_present_flag := h.nal_hrd_parameters_present_flag
  vcl_hrd_parameters_present_flag := h.vcl_hrd_parameters_present_flag
  sub_pic_hrd_params_present_flag := h.sub_pic_hrd_params_present_flag
  tick_divisor_minus2 := h.tick_divisor_minus2
  du_cpb_removal_delay_increment_length_minus1 := h.du_cpb_removal_delay_increment_length_minus1
  sub_pic_cpb_params_in_pic_timing_sei_flag := h.sub_pic_cpb_params_in_pic_timing_sei_flag
  dpb_output_delay_du_length_minus1 := h.dpb_output_delay_du_length_minus1
  bit_rate_scale := h.bit_rate_scale
  cpb_size_scale := h.cpb_size_scale
  cpb_size_du_scale := h.cpb_size_du_scale
  initial_cpb_removal_delay_length_minus1 := h.initial_cpb_removal_delay_length_minus1
  au_cpb_removal_delay_length_minus1 := h.au_cpb_removal_delay_length_minus1
  dpb_output_delay_length_minus1 := h.dpb_output_delay_length_minus1
  sub_layers := ⟨h.sub_layers.length, fun x hx => (h.sub_layers.valid x hx).valid (hs x hx)⟩

theorem ConformsVpsBody.valid {ptl : StdPtl} {s : VpsBody} (h : ConformsVpsBody ptl s) (hs : SupportedPtl ptl) (hh : s.hrds = []) : ValidVpsBody s where
  vps_video_parameter_set_id := h.vps_video_parameter_set_id
  vps_base_layer_internal_flag := h.vps_base_layer_internal_flag
  vps_base_layer_available_flag := h.vps_base_layer_available_flag
  vps_max_layers_minus1 := h.vps_max_layers_minus1
  vps_max_sub_layers_minus1 := by have := h.vps_max_sub_layers_minus1; omega
  vps_temporal_id_nesting_flag := h.vps_temporal_id_nesting_flag
  vps_reserved_0xffff_16bits := by have := h.vps_reserved_0xffff_16bits; omega
  profile_tier_level := by rw [h.profile_tier_level.2]; exact h.profile_tier_level.1.valid hs
  vps_sub_layer_ordering_info_present_flag := h.vps_sub_layer_ordering_info_present_flag
  sub_layer_ordering := ⟨h.sub_layer_ordering.length, fun x hx => (h.sub_layer_ordering.valid x hx).valid⟩
  vps_max_layer_id := h.vps_max_layer_id
  vps_max_layer_id_le := h.vps_max_layer_id_le
  vps_num_layer_sets_minus1 := by have := h.vps_num_layer_sets_minus1; omega
  layer_id_included_flag := h.layer_id_included_flag
  vps_timing_info_present_flag := h.vps_timing_info_present_flag
  vps_num_units_in_tick := h.vps_num_units_in_tick
  vps_time_scale := h.vps_time_scale
  vps_poc_proportional_to_timing_flag := h.vps_poc_proportional_to_timing_flag
  vps_num_ticks_poc_diff_one_minus1 := ⟨fun c => by have := h.vps_num_ticks_poc_diff_one_minus1.present c; omega, h.vps_num_ticks_poc_diff_one_minus1.absent⟩
  vps_num_hrd_parameters := ⟨fun c => by have := h.vps_num_hrd_parameters.present c; omega, h.vps_num_hrd_parameters.absent⟩
  hrds := ⟨h.hrds.length, fun i x hx => by rw [hh] at hx; cases hx⟩
  vps_extension_flag := h.vps_extension_flag

theorem ConformsSpsSubLayerOrdering.valid {s : SpsSubLayerOrdering} (h : ConformsSpsSubLayerOrdering s) : ValidSpsSubLayerOrdering s where
  sps_max_dec_pic_buffering_minus1 := by have := h.sps_max_dec_pic_buffering_minus1; omega
  sps_max_num_reorder_pics := by have := h.sps_max_num_reorder_pics; have := h.sps_max_dec_pic_buffering_minus1; omega
  sps_max_latency_increase_plus1 := by have := h.sps_max_latency_increase_plus1; omega

theorem ConformsVuiParameters.valid {max_sub : Nat} {s : VuiParameters} (h : ConformsVuiParameters max_sub s) (hs : SupportedVui s) : ValidVuiParameters max_sub s where
  aspect_ratio_info_present_flag := h.aspect_ratio_info_present_flag
  aspect_ratio_idc := h.aspect_ratio_idc
  sar_width := h.sar_width
  sar_height := h.sar_height
  overscan_info_present_flag := h.overscan_info_present_flag
  overscan_appropriate_flag := h.overscan_appropriate_flag
  video_signal_type_present_flag := h.video_signal_type_present_flag
  video_format := h.video_format
  video_full_range_flag := h.video_full_range_flag
  colour_description_present_flag := h.colour_description_present_flag
  colour_primaries := h.colour_primaries
  transfer_characteristics := h.transfer_characteristics
  matrix_coeffs := h.matrix_coeffs
  chroma_loc_info_present_flag := h.chroma_loc_info_present_flag
  chroma_sample_loc_type_top_field := ⟨fun c => by have := h.chroma_sample_loc_type_top_field.present c; omega, h.chroma_sample_loc_type_top_field.absent⟩
  chroma_sample_loc_type_bottom_field := ⟨fun c => by have := h.chroma_sample_loc_type_bottom_field.present c; omega, h.chroma_sample_loc_type_bottom_field.absent⟩
  neutral_chroma_indication_flag := h.neutral_chroma_indication_flag
  field_seq_flag := h.field_seq_flag
  frame_field_info_present_flag := h.frame_field_info_present_flag
  default_display_window_flag := h.default_display_window_flag
  def_disp_win_left_offset := ⟨fun c => ⟨Nat.zero_le _, hs.left⟩, h.def_disp_win_left_offset.absent⟩
  def_disp_win_right_offset := ⟨fun c => ⟨Nat.zero_le _, hs.right⟩, h.def_disp_win_right_offset.absent⟩
  def_disp_win_top_offset := ⟨fun c => ⟨Nat.zero_le _, hs.top⟩, h.def_disp_win_top_offset.absent⟩
  def_disp_win_bottom_offset := ⟨fun c => ⟨Nat.zero_le _, hs.bottom⟩, h.def_disp_win_bottom_offset.absent⟩
  vui_timing_info_present_flag := h.vui_timing_info_present_flag
  vui_num_units_in_tick := h.vui_num_units_in_tick
  vui_time_scale := h.vui_time_scale
  vui_poc_proportional_to_timing_flag := h.vui_poc_proportional_to_timing_flag
  vui_num_ticks_poc_diff_one_minus1 := ⟨fun c => by have := h.vui_num_ticks_poc_diff_one_minus1.present c; omega, h.vui_num_ticks_poc_diff_one_minus1.absent⟩
  vui_hrd_parameters_present_flag := h.vui_hrd_parameters_present_flag
  hrd_parameters := ⟨h.hrd_parameters.present, fun x hx => (h.hrd_parameters.valid x hx).valid (hs.hrd x hx)⟩
  bitstream_restriction_flag := h.bitstream_restriction_flag
  tiles_fixed_structure_flag := h.tiles_fixed_structure_flag
  motion_vectors_over_pic_boundaries_flag := h.motion_vectors_over_pic_boundaries_flag
  restricted_ref_pic_lists_flag := h.restricted_ref_pic_lists_flag
  min_spatial_segmentation_idc := ⟨fun c => by have := h.min_spatial_segmentation_idc.present c; omega, h.min_spatial_segmentation_idc.absent⟩
  max_bytes_per_pic_denom := ⟨fun c => by have := h.max_bytes_per_pic_denom.present c; omega, h.max_bytes_per_pic_denom.absent⟩
  max_bits_per_min_cu_denom := ⟨fun c => by have := h.max_bits_per_min_cu_denom.present c; omega, h.max_bits_per_min_cu_denom.absent⟩
  log2_max_mv_length_horizontal := ⟨fun c => by have := h.log2_max_mv_length_horizontal.present c; omega, h.log2_max_mv_length_horizontal.absent⟩
  log2_max_mv_length_vertical := ⟨fun c => by have := h.log2_max_mv_length_vertical.present c; omega, h.log2_max_mv_length_vertical.absent⟩

theorem ConformsSps3dExtension.valid {s : Sps3dExtension} (h : ConformsSps3dExtension s) : ValidSps3dExtension s where
  iv_di_mc_enabled_flag_0 := h.iv_di_mc_enabled_flag_0
  iv_mv_scal_enabled_flag_0 := h.iv_mv_scal_enabled_flag_0
  log2_ivmc_sub_pb_size_minus3 := by have := h.log2_ivmc_sub_pb_size_minus3; omega
  iv_res_pred_enabled_flag := h.iv_res_pred_enabled_flag
  depth_ref_enabled_flag := h.depth_ref_enabled_flag
  vsp_mc_enabled_flag := h.vsp_mc_enabled_flag
  dbbp_enabled_flag := h.dbbp_enabled_flag
  iv_di_mc_enabled_flag_1 := h.iv_di_mc_enabled_flag_1
  iv_mv_scal_enabled_flag_1 := h.iv_mv_scal_enabled_flag_1
  tex_mc_enabled_flag := h.tex_mc_enabled_flag
  log2_texmc_sub_pb_size_minus3 := by have := h.log2_texmc_sub_pb_size_minus3; omega
  intra_contour_enabled_flag := h.intra_contour_enabled_flag
  intra_dc_only_wedge_enabled_flag := h.intra_dc_only_wedge_enabled_flag
  cqt_cu_part_pred_enabled_flag := h.cqt_cu_part_pred_enabled_flag
  inter_dc_only_enabled_flag := h.inter_dc_only_enabled_flag
  skip_intra_enabled_flag := h.skip_intra_enabled_flag

theorem ConformsSpsSccExtension.valid {chroma_format_idc bit_depth_luma_minus8 bit_depth_chroma_minus8 : Nat} {s : SpsSccExtension} (h : ConformsSpsSccExtension chroma_format_idc bit_depth_luma_minus8 bit_depth_chroma_minus8 s) : ValidSpsSccExtension chroma_format_idc bit_depth_luma_minus8 bit_depth_chroma_minus8 s where
  sps_curr_pic_ref_enabled_flag := h.sps_curr_pic_ref_enabled_flag
  palette_mode_enabled_flag := h.palette_mode_enabled_flag
  palette_max_size := ⟨fun c => by have := h.palette_max_size.present c; omega, h.palette_max_size.absent⟩
  delta_palette_max_predictor_size := ⟨fun c => by have := h.delta_palette_max_predictor_size.present c; omega, h.delta_palette_max_predictor_size.absent⟩
  sps_palette_predictor_initializers_present_flag := h.sps_palette_predictor_initializers_present_flag
  sps_num_palette_predictor_initializers_minus1 := ⟨fun c => by
    have hp : s.palette_mode_enabled_flag ≠ 0 := fun h0 => c (h.sps_palette_predictor_initializers_present_flag.absent (by omega))
    have := h.delta_palette_max_predictor_size.present hp
    have := h.sps_num_palette_predictor_initializers_minus1.present c
    omega, h.sps_num_palette_predictor_initializers_minus1.absent⟩
  sps_palette_predictor_initializers := h.sps_palette_predictor_initializers
  motion_vector_resolution_control_idc := by have := h.motion_vector_resolution_control_idc; omega
  intra_boundary_filtering_disabled_flag := h.intra_boundary_filtering_disabled_flag

theorem ConformsSpsBody.valid {ptl : StdPtl} {s : SpsBody} (h : ConformsSpsBody ptl s) (hs : SupportedSps ptl s) : ValidSpsBody s where
  sps_video_parameter_set_id := h.sps_video_parameter_set_id
  sps_max_sub_layers_minus1 := by have := h.sps_max_sub_layers_minus1; omega
  sps_temporal_id_nesting_flag := h.sps_temporal_id_nesting_flag
  profile_tier_level := by rw [h.profile_tier_level.2]; exact h.profile_tier_level.1.valid hs.ptl
  sps_seq_parameter_set_id := by have := h.sps_seq_parameter_set_id; omega
  chroma_format_idc := by have := h.chroma_format_idc; omega
  separate_colour_plane_flag := h.separate_colour_plane_flag
  pic_width_in_luma_samples := h.pic_width_in_luma_samples
  pic_width_multiple := mul8_of h.pic_width_multiple
  pic_height_in_luma_samples := h.pic_height_in_luma_samples
  pic_height_multiple := mul8_of h.pic_height_multiple
  conformance_window_flag := h.conformance_window_flag
  conf_win_left_offset := ⟨fun c => ⟨Nat.zero_le _, le_of_sub (h.conf_win_left_offset.present c) (subWidthC_pos s) (Nat.le_add_right _ _)⟩, h.conf_win_left_offset.absent⟩
  conf_win_right_offset := ⟨fun c => ⟨Nat.zero_le _, le_of_sub (h.conf_win_right_offset.present c) (subWidthC_pos s) (Nat.le_add_left _ _)⟩, h.conf_win_right_offset.absent⟩
  conf_win_top_offset := ⟨fun c => ⟨Nat.zero_le _, le_of_sub (h.conf_win_top_offset.present c) (subHeightC_pos s) (Nat.le_add_right _ _)⟩, h.conf_win_top_offset.absent⟩
  conf_win_bottom_offset := ⟨fun c => ⟨Nat.zero_le _, le_of_sub (h.conf_win_bottom_offset.present c) (subHeightC_pos s) (Nat.le_add_left _ _)⟩, h.conf_win_bottom_offset.absent⟩
  bit_depth_luma_minus8 := by have := h.bit_depth_luma_minus8; omega
  bit_depth_chroma_minus8 := by have := h.bit_depth_chroma_minus8; omega
  log2_max_pic_order_cnt_lsb_minus4 := by have := h.log2_max_pic_order_cnt_lsb_minus4; omega
  sps_sub_layer_ordering_info_present_flag := h.sps_sub_layer_ordering_info_present_flag
  sub_layer_ordering := ⟨h.sub_layer_ordering.length, fun x hx => (h.sub_layer_ordering.valid x hx).valid⟩
  log2_min_luma_coding_block_size_minus3 := by have := h.log2_diff_max_min_luma_coding_block_size; unfold ctbLog2SizeY at this; omega
  log2_diff_max_min_luma_coding_block_size := by have := h.log2_diff_max_min_luma_coding_block_size; unfold ctbLog2SizeY at this; omega
  log2_min_luma_transform_block_size_minus2 := by have := h.log2_diff_max_min_luma_transform_block_size; omega
  log2_diff_max_min_luma_transform_block_size := by have := h.log2_diff_max_min_luma_transform_block_size; omega
  max_transform_hierarchy_depth_inter := by have := h.max_transform_hierarchy_depth_inter; have := h.log2_diff_max_min_luma_coding_block_size; omega
  max_transform_hierarchy_depth_intra := by have := h.max_transform_hierarchy_depth_intra; have := h.log2_diff_max_min_luma_coding_block_size; omega
  scaling_list_enabled_flag := h.scaling_list_enabled_flag
  sps_scaling_list_data_present_flag := h.sps_scaling_list_data_present_flag
  scaling_list_data := ⟨h.scaling_list_data.present, fun x hx => (scaling_valid (h.scaling_list_data.valid x hx))⟩
  amp_enabled_flag := h.amp_enabled_flag
  sample_adaptive_offset_enabled_flag := h.sample_adaptive_offset_enabled_flag
  pcm_enabled_flag := h.pcm_enabled_flag
  pcm_sample_bit_depth_luma_minus1 := h.pcm_sample_bit_depth_luma_minus1
  pcm_sample_bit_depth_chroma_minus1 := h.pcm_sample_bit_depth_chroma_minus1
  log2_min_pcm_luma_coding_block_size_minus3 := ⟨fun c => by have := h.log2_min_pcm_luma_coding_block_size_minus3.present c; omega, h.log2_min_pcm_luma_coding_block_size_minus3.absent⟩
  log2_diff_max_min_pcm_luma_coding_block_size := ⟨fun c => by have := h.log2_diff_max_min_pcm_luma_coding_block_size.present c; omega, h.log2_diff_max_min_pcm_luma_coding_block_size.absent⟩
  pcm_loop_filter_disabled_flag := h.pcm_loop_filter_disabled_flag
  num_short_term_ref_pic_sets := by have := h.num_short_term_ref_pic_sets; omega
  st_ref_pic_set := rps_valid h.num_short_term_ref_pic_sets h.st_ref_pic_set
  long_term_ref_pics_present_flag := h.long_term_ref_pics_present_flag
  num_long_term_ref_pics_sps := ⟨fun c => by have := h.num_long_term_ref_pics_sps.present c; omega, h.num_long_term_ref_pics_sps.absent⟩
  lt_ref_pics := h.lt_ref_pics
  sps_temporal_mvp_enabled_flag := h.sps_temporal_mvp_enabled_flag
  strong_intra_smoothing_enabled_flag := h.strong_intra_smoothing_enabled_flag
  vui_parameters_present_flag := h.vui_parameters_present_flag
  vui_parameters := ⟨h.vui_parameters.present, fun x hx => (h.vui_parameters.valid x hx).valid (hs.vui x hx)⟩
  sps_extension_present_flag := h.sps_extension_present_flag
  sps_range_extension_flag := h.sps_range_extension_flag
  sps_multilayer_extension_flag := h.sps_multilayer_extension_flag
  sps_3d_extension_flag := h.sps_3d_extension_flag
  sps_scc_extension_flag := h.sps_scc_extension_flag
  sps_extension_4bits := h.sps_extension_4bits
  sps_range_extension := h.sps_range_extension
  sps_multilayer_extension := h.sps_multilayer_extension
  sps_3d_extension := ⟨h.sps_3d_extension.present, fun x hx => (h.sps_3d_extension.valid x hx).valid⟩
  sps_scc_extension := ⟨h.sps_scc_extension.present, fun x hx => (h.sps_scc_extension.valid x hx).valid⟩

theorem ConformsPpsSccExtension.valid {s : PpsSccExtension} (h : ConformsPpsSccExtension s) (hs : s.pps_num_palette_predictor_initializer = 0) : ValidPpsSccExtension s where
  pps_curr_pic_ref_enabled_flag := h.pps_curr_pic_ref_enabled_flag
  residual_adaptive_colour_transform_enabled_flag := h.residual_adaptive_colour_transform_enabled_flag
  pps_slice_act_qp_offsets_present_flag := h.pps_slice_act_qp_offsets_present_flag
  pps_act_y_qp_offset_plus5 := ⟨fun c => by have := h.pps_act_y_qp_offset_plus5.present c; omega, h.pps_act_y_qp_offset_plus5.absent⟩
  pps_act_cb_qp_offset_plus5 := ⟨fun c => by have := h.pps_act_cb_qp_offset_plus5.present c; omega, h.pps_act_cb_qp_offset_plus5.absent⟩
  pps_act_cr_qp_offset_plus3 := ⟨fun c => by have := h.pps_act_cr_qp_offset_plus3.present c; omega, h.pps_act_cr_qp_offset_plus3.absent⟩
  pps_palette_predictor_initializer_present_flag := h.pps_palette_predictor_initializer_present_flag
  pps_num_palette_predictor_initializer := ⟨fun c => by have := h.pps_num_palette_predictor_initializer.present c; omega, h.pps_num_palette_predictor_initializer.absent⟩
  monochrome_palette_flag := h.monochrome_palette_flag
  luma_bit_depth_entry_minus8 := ⟨fun c => by have := h.luma_bit_depth_entry_minus8.present c; omega, h.luma_bit_depth_entry_minus8.absent⟩
  chroma_bit_depth_entry_minus8 := ⟨fun c => absurd (h.monochrome_palette_flag.absent (by omega)) c, fun _ => h.chroma_bit_depth_entry_minus8.absent (by omega)⟩
  pps_palette_predictor_initializers := ⟨fun c => absurd c (by omega), h.pps_palette_predictor_initializers.absent⟩

theorem ConformsPpsHead.valid {s : PpsHead} (h : ConformsPpsHead s) (hs : s.pps_range_extension_flag = 0) : ValidPpsHead s where
  pps_pic_parameter_set_id := by have := h.pps_pic_parameter_set_id; omega
  pps_seq_parameter_set_id := by have := h.pps_seq_parameter_set_id; omega
  dependent_slice_segments_enabled_flag := h.dependent_slice_segments_enabled_flag
  output_flag_present_flag := h.output_flag_present_flag
  num_extra_slice_header_bits := h.num_extra_slice_header_bits
  sign_data_hiding_enabled_flag := h.sign_data_hiding_enabled_flag
  cabac_init_present_flag := h.cabac_init_present_flag
  num_ref_idx_l0_default_active_minus1 := by have := h.num_ref_idx_l0_default_active_minus1; omega
  num_ref_idx_l1_default_active_minus1 := by have := h.num_ref_idx_l1_default_active_minus1; omega
  init_qp_minus26 := by have := h.init_qp_minus26; omega
  constrained_intra_pred_flag := h.constrained_intra_pred_flag
  transform_skip_enabled_flag := h.transform_skip_enabled_flag
  cu_qp_delta_enabled_flag := h.cu_qp_delta_enabled_flag
  diff_cu_qp_delta_depth := ⟨fun c => by have := h.diff_cu_qp_delta_depth.present c; omega, h.diff_cu_qp_delta_depth.absent⟩
  pps_cb_qp_offset := by have := h.pps_cb_qp_offset; omega
  pps_cr_qp_offset := by have := h.pps_cr_qp_offset; omega
  pps_slice_chroma_qp_offsets_present_flag := h.pps_slice_chroma_qp_offsets_present_flag
  weighted_pred_flag := h.weighted_pred_flag
  weighted_bipred_flag := h.weighted_bipred_flag
  transquant_bypass_enabled_flag := h.transquant_bypass_enabled_flag
  tiles_enabled_flag := h.tiles_enabled_flag
  entropy_coding_sync_enabled_flag := h.entropy_coding_sync_enabled_flag
  num_tile_columns_minus1 := ⟨fun c => by have := h.num_tile_columns_minus1.present c; omega, h.num_tile_columns_minus1.absent⟩
  num_tile_rows_minus1 := ⟨fun c => by have := h.num_tile_rows_minus1.present c; omega, h.num_tile_rows_minus1.absent⟩
  uniform_spacing_flag := h.uniform_spacing_flag
  column_width_minus1 := ⟨fun c => ⟨(h.column_width_minus1.present c).length, fun x hx => by have := (h.column_width_minus1.present c).valid x hx; omega⟩, h.column_width_minus1.absent⟩
  row_height_minus1 := ⟨fun c => ⟨(h.row_height_minus1.present c).length, fun x hx => by have := (h.row_height_minus1.present c).valid x hx; omega⟩, h.row_height_minus1.absent⟩
  loop_filter_across_tiles_enabled_flag := h.loop_filter_across_tiles_enabled_flag
  pps_loop_filter_across_slices_enabled_flag := h.pps_loop_filter_across_slices_enabled_flag
  deblocking_filter_control_present_flag := h.deblocking_filter_control_present_flag
  deblocking_filter_override_enabled_flag := h.deblocking_filter_override_enabled_flag
  pps_deblocking_filter_disabled_flag := h.pps_deblocking_filter_disabled_flag
  pps_beta_offset_div2 := ⟨fun c => by have := h.pps_beta_offset_div2.present c; omega, h.pps_beta_offset_div2.absent⟩
  pps_tc_offset_div2 := ⟨fun c => by have := h.pps_tc_offset_div2.present c; omega, h.pps_tc_offset_div2.absent⟩
  pps_scaling_list_data_present_flag := h.pps_scaling_list_data_present_flag
  scaling_list_data := ⟨h.scaling_list_data.present, fun x hx => (scaling_valid (h.scaling_list_data.valid x hx))⟩
  lists_modification_present_flag := h.lists_modification_present_flag
  log2_parallel_merge_level_minus2 := by have := h.log2_parallel_merge_level_minus2; omega
  slice_segment_header_extension_present_flag := h.slice_segment_header_extension_present_flag
  pps_extension_present_flag := h.pps_extension_present_flag
  pps_range_extension_flag := h.pps_range_extension_flag
  pps_multilayer_extension_flag := h.pps_multilayer_extension_flag
  pps_3d_extension_flag := h.pps_3d_extension_flag
  pps_scc_extension_flag := h.pps_scc_extension_flag
  pps_extension_4bits := h.pps_extension_4bits
  pps_range_extension_unsupported := hs

theorem ConformsRefLocOffset.valid {s : RefLocOffset} (h : ConformsRefLocOffset s) : ValidRefLocOffset s where
  ref_loc_offset_layer_id := h.ref_loc_offset_layer_id
  scaled_ref_layer_offset_present_flag := h.scaled_ref_layer_offset_present_flag
  scaled_ref_layer_offset := ⟨h.scaled_ref_layer_offset.present, fun x hx => by
    obtain ⟨h1, h2, h3, h4⟩ := h.scaled_ref_layer_offset.valid x hx
    constructor <;> omega⟩
  ref_region_offset_present_flag := h.ref_region_offset_present_flag
  ref_region_offset := ⟨h.ref_region_offset.present, fun x hx => by
    obtain ⟨h1, h2, h3, h4⟩ := h.ref_region_offset.valid x hx
    constructor <;> omega⟩
  resample_phase_set_present_flag := h.resample_phase_set_present_flag
  resample_phase_set := ⟨h.resample_phase_set.present, fun x hx => by
    obtain ⟨h1, h2, h3, h4⟩ := h.resample_phase_set.valid x hx
    constructor <;> omega⟩

theorem ConformsPpsMultilayerExtension.valid {s : PpsMultilayerExtension} (h : ConformsPpsMultilayerExtension s) (hs : SupportedPpsMultilayer s) :
    ValidPpsMultilayerExtension s where
  poc_reset_info_present_flag := h.poc_reset_info_present_flag
  pps_infer_scaling_list_flag := h.pps_infer_scaling_list_flag
  pps_scaling_list_ref_layer_id := h.pps_scaling_list_ref_layer_id
  num_ref_loc_offsets := by have := h.num_ref_loc_offsets; omega
  ref_loc_offset := ⟨h.ref_loc_offset.length, fun x hx => (h.ref_loc_offset.valid x hx).valid⟩
  colour_mapping_enabled_flag := h.colour_mapping_enabled_flag
  colour_mapping_unsupported := hs.colour_mapping

theorem ConformsPpsBody.valid {s : PpsBody} (h : ConformsPpsBody s) (hs : SupportedPps s) : ValidPpsBody s where
  head := h.head.valid hs.range
  pps_multilayer_extension := ⟨h.pps_multilayer_extension.present, fun x hx => (h.pps_multilayer_extension.valid x hx).valid (hs.multilayer x hx)⟩
  pps_3d_extension_unsupported := hs.ext3d
  pps_scc_extension := ⟨h.pps_scc_extension.present, fun x hx => (h.pps_scc_extension.valid x hx).valid (hs.palette x hx)⟩

/-! ### consequences for the slice segment header -/

theorem picHeight_bounds {ptl : StdPtl} {S : SpsBody} (h : ConformsSpsBody ptl S) : 1 ≤ picHeightInCtbsY S ∧ picHeightInCtbsY S ≤ 1057 := by
  have h1 := h.pic_height_in_luma_samples
  have h4 : 16 ≤ ctbSizeY S := Nat.le_trans (by decide : 16 ≤ 2 ^ 4) (Nat.pow_le_pow_right (by decide) h.log2_min_luma_coding_block_size_minus3)
  unfold picHeightInCtbsY ceilDivide
  generalize ctbSizeY S = c at h4
  constructor
  · exact Nat.div_pos (by omega) (by omega)
  · refine Nat.div_le_of_le_mul ?_
    have : 16 * 1056 ≤ c * 1056 := Nat.mul_le_mul_right _ h4
    omega

theorem picSize_le {ptl : StdPtl} {S : SpsBody} (h : ConformsSpsBody ptl S) : picSizeInCtbsY S ≤ 2 ^ 20 := by
  have hw := h.pic_width_in_luma_samples
  have hh := h.pic_height_in_luma_samples
  have hm := h.max_luma_ps
  have h4 : 16 ≤ ctbSizeY S := Nat.le_trans (by decide : 16 ≤ 2 ^ 4) (Nat.pow_le_pow_right (by decide) h.log2_min_luma_coding_block_size_minus3)
  have hwm := h.pic_width_multiple
  have hhm := h.pic_height_multiple
  unfold picSizeInCtbsY picWidthInCtbsY picHeightInCtbsY ceilDivide
  generalize ctbSizeY S = c at h4
  generalize S.pic_width_in_luma_samples = w at *
  generalize S.pic_height_in_luma_samples = v at *
  -- ceil(w/c) ≤ w/16 + 1
  have key : ∀ x, (x + c - 1) / c ≤ x / 16 + 1 := by
    intro x
    have h1 : (x + c - 1) / c ≤ x / c + 1 := by
      calc (x + c - 1) / c ≤ (x + c) / c := Nat.div_le_div_right (by omega)
        _ = x / c + 1 := Nat.add_div_right _ (by omega)
    have h2 : x / c ≤ x / 16 := Nat.div_le_div_left h4 (by decide)
    omega
  refine Nat.le_trans (Nat.mul_le_mul (key w) (key v)) ?_
  have e1 : 16 * (w / 16) ≤ w := Nat.mul_div_le _ _
  have e2 : 16 * (v / 16) ≤ v := Nat.mul_div_le _ _
  have e3 : (16 * (w / 16)) * (16 * (v / 16)) ≤ 35651584 := Nat.le_trans (Nat.mul_le_mul e1 e2) hm
  have e4 : (w / 16) * (v / 16) ≤ 139264 := by
    have : (16 * (w / 16)) * (16 * (v / 16)) = 256 * ((w / 16) * (v / 16)) := by
      rw [Nat.mul_mul_mul_comm]
    omega
  have e5 : (w / 16 + 1) * (v / 16 + 1) = (w / 16) * (v / 16) + w / 16 + v / 16 + 1 := by
    rw [Nat.add_mul, Nat.mul_add]; omega
  have e6 : w / 16 ≤ 1056 := by omega
  have e7 : v / 16 ≤ 1056 := by omega
  omega

theorem numLt_le {ptl : StdPtl} {S : SpsBody} (h : ConformsSpsBody ptl S) : S.num_long_term_ref_pics_sps ≤ 32 := by
  by_cases hc : S.long_term_ref_pics_present_flag ≠ 0
  · exact h.num_long_term_ref_pics_sps.present hc
  · rw [h.num_long_term_ref_pics_sps.absent hc]; decide

theorem sliceRps_valid {ptl : StdPtl} {S : SpsBody} (hS : ConformsSpsBody ptl S) {s : StRefPicSet}
    (h : ConformsStRefPicSet S.num_short_term_ref_pic_sets S.num_short_term_ref_pic_sets S.st_ref_pic_set s) :
    ValidStRefPicSet S.num_short_term_ref_pic_sets S.num_short_term_ref_pic_sets S.st_ref_pic_set 15 s :=
  (rps_step hS.num_short_term_ref_pic_sets (Nat.le_refl _) hS.st_ref_pic_set.length h fun j r hr =>
    (rps_good hS.num_short_term_ref_pic_sets hS.st_ref_pic_set j r hr).1).2

theorem tiles_bounds {P : PpsBody} (h : ConformsPpsBody P) : P.head.num_tile_columns_minus1 ≤ 19 ∧ P.head.num_tile_rows_minus1 ≤ 21 := by
  by_cases hc : P.head.tiles_enabled_flag ≠ 0
  · exact ⟨h.head.num_tile_columns_minus1.present hc, h.head.num_tile_rows_minus1.present hc⟩
  · rw [h.head.num_tile_columns_minus1.absent hc, h.head.num_tile_rows_minus1.absent hc]; decide

/-- the bound on num_entry_point_offsets of clause 7.4.7.1 -/
def EntryBound (P : PpsBody) (S : SpsBody) (n : Nat) : Prop :=
  (P.head.tiles_enabled_flag = 0 → n ≤ picHeightInCtbsY S - 1) ∧
  (P.head.tiles_enabled_flag ≠ 0 → P.head.entropy_coding_sync_enabled_flag = 0 →
    n ≤ (P.head.num_tile_columns_minus1 + 1) * (P.head.num_tile_rows_minus1 + 1) - 1) ∧
  (P.head.tiles_enabled_flag ≠ 0 → P.head.entropy_coding_sync_enabled_flag ≠ 0 →
    n ≤ (P.head.num_tile_columns_minus1 + 1) * picHeightInCtbsY S - 1)

theorem entry_lt {ptl : StdPtl} {P : PpsBody} {S : SpsBody} {n : Nat} (hP : ConformsPpsBody P) (hS : ConformsSpsBody ptl S) (h : EntryBound P S n) : n < 2 ^ 32 - 1 := by
  have hb := picHeight_bounds hS
  obtain ⟨hc, hr⟩ := tiles_bounds hP
  have m1 : (P.head.num_tile_columns_minus1 + 1) * (P.head.num_tile_rows_minus1 + 1) ≤ 20 * 22 := Nat.mul_le_mul (by omega) (by omega)
  have m2 : (P.head.num_tile_columns_minus1 + 1) * picHeightInCtbsY S ≤ 20 * 1057 := Nat.mul_le_mul (by omega) (by omega)
  by_cases h1 : P.head.tiles_enabled_flag = 0
  · have := h.1 h1; omega
  · by_cases h2 : P.head.entropy_coding_sync_enabled_flag = 0
    · have := h.2.1 h1 h2; omega
    · have := h.2.2 h1 h2; omega

theorem entry_valid {nal : Nat} {ptl : StdPtl} {P : PpsBody} {S : SpsBody} {s : SliceBody} (hP : ConformsPpsBody P) (hS : ConformsSpsBody ptl S) (hS' : ValidSpsBody S)
    (h : Opt (P.head.tiles_enabled_flag ≠ 0 ∨ P.head.entropy_coding_sync_enabled_flag ≠ 0) (EntryBound P S s.num_entry_point_offsets) (s.num_entry_point_offsets = 0))
    (hs : SupportedSlice nal P S s) : isValidNumEntryPointOffsets S P s.num_entry_point_offsets := by
  have hb := picHeight_bounds hS
  obtain ⟨hc, hr⟩ := tiles_bounds hP
  have f1 := hP.head.tiles_enabled_flag
  have f2 := hP.head.entropy_coding_sync_enabled_flag
  have m1 : (P.head.num_tile_columns_minus1 + 1) * (P.head.num_tile_rows_minus1 + 1) ≤ 20 * 22 := Nat.mul_le_mul (by omega) (by omega)
  have m0 : 1 * 1 ≤ (P.head.num_tile_columns_minus1 + 1) * (P.head.num_tile_rows_minus1 + 1) := Nat.mul_le_mul (by omega) (by omega)
  have m2 : (P.head.num_tile_columns_minus1 + 1) * (picHeightInCtbsY S - 1) ≤ 20 * 1057 := Nat.mul_le_mul (by omega) (by omega)
  unfold isValidNumEntryPointOffsets
  rw [picHeightInCtbsY_eq hS']
  have w : w32 (picHeightInCtbsY S + 2 ^ 32 - 1) = picHeightInCtbsY S - 1 := by unfold w32; omega
  rw [w]
  by_cases h1 : P.head.tiles_enabled_flag = 0
  · by_cases h2 : P.head.entropy_coding_sync_enabled_flag = 0
    · rw [if_neg (by omega), if_neg (by omega), if_neg (by omega)]
      exact h.absent (by omega)
    · rw [if_pos (by omega)]
      exact (h.present (by omega)).1 h1
  · by_cases h2 : P.head.entropy_coding_sync_enabled_flag = 0
    · rw [if_neg (by omega), if_pos (by omega)]
      have := (h.present (by omega)).2.1 h1 h2
      generalize (P.head.num_tile_columns_minus1 + 1) * (P.head.num_tile_rows_minus1 + 1) = k at *
      unfold w32; omega
    · rw [if_neg (by omega), if_neg (by omega), if_pos (by omega)]
      have := hs.entry_points h1 h2
      generalize (P.head.num_tile_columns_minus1 + 1) * (picHeightInCtbsY S - 1) = k at *
      unfold w32; omega

theorem numRefIdx_le {nal first : Nat} {P : PpsBody} {S : SpsBody} {s : SliceBody} (hP : ConformsPpsBody P) (h : ConformsSliceBody nal P S first s) :
    numRefIdxL0 P s ≤ 14 ∧ numRefIdxL1 P s ≤ 14 := by
  have h0 := hP.head.num_ref_idx_l0_default_active_minus1
  have h1 := hP.head.num_ref_idx_l1_default_active_minus1
  have k0 : s.num_ref_idx_l0_active_minus1 ≤ 14 := by
    rcases opt_cases h.num_ref_idx_l0_active_minus1 with h | h <;> omega
  have k1 : s.num_ref_idx_l1_active_minus1 ≤ 14 := by
    rcases opt_cases h.num_ref_idx_l1_active_minus1 with h | h <;> omega
  unfold numRefIdxL0 numRefIdxL1
  constructor <;> split <;> assumption


theorem ConformsLtRefPicHead.valid {numSps numLtSps pocLen i : Nat} {s : LtRefPicHead} (h : ConformsLtRefPicHead numSps numLtSps pocLen i s) (hn : numLtSps ≤ 32) : ValidLtRefPicHead numSps numLtSps pocLen i s where
  lt_idx_sps := ⟨fun c => by rw [ceilLog2f_eq (by omega)]; exact Nat.lt_of_lt_of_le (h.lt_idx_sps.present c) (ceilLog2_le _), h.lt_idx_sps.absent⟩
  poc_lsb_lt := h.poc_lsb_lt
  used_by_curr_pic_lt_flag := h.used_by_curr_pic_lt_flag
  delta_poc_msb_present_flag := h.delta_poc_msb_present_flag

theorem ConformsLtRefPic.valid {numSps numLtSps pocLen i : Nat} {s : LtRefPic} (h : ConformsLtRefPic numSps numLtSps pocLen i s) (hn : numLtSps ≤ 32) (hp : 4 ≤ pocLen) : ValidLtRefPic numSps numLtSps pocLen i s where
  head := h.head.valid hn
  delta_poc_msb_cycle_lt := ⟨fun c => by
    have h1 := h.delta_poc_msb_cycle_lt.present c
    have h2 : 2 ^ (32 - pocLen) ≤ 2 ^ 28 := Nat.pow_le_pow_right (by decide) (by omega)
    omega, h.delta_poc_msb_cycle_lt.absent⟩

theorem ConformsLumaWeight.valid {s : LumaWeight} (h : ConformsLumaWeight s) : ValidLumaWeight s where
  delta_luma_weight_l0 := by have := h.delta_luma_weight_l0; omega
  luma_offset_l0 := by have := h.luma_offset_l0; omega

theorem ConformsChromaWeight.valid {s : ChromaWeight} (h : ConformsChromaWeight s) : ValidChromaWeight s where
  delta_chroma_weight_l0_0 := by have := h.delta_chroma_weight_l0_0; omega
  delta_chroma_offset_l0_0 := by have := h.delta_chroma_offset_l0_0; omega
  delta_chroma_weight_l0_1 := by have := h.delta_chroma_weight_l0_1; omega
  delta_chroma_offset_l0_1 := by have := h.delta_chroma_offset_l0_1; omega

theorem ConformsPredWeight.valid {luma_flag chroma_flag : Nat} {s : PredWeight} (h : ConformsPredWeight luma_flag chroma_flag s) : ValidPredWeight luma_flag chroma_flag s where
  luma := ⟨h.luma.present, fun x hx => (h.luma.valid x hx).valid⟩
  chroma := ⟨h.chroma.present, fun x hx => (h.chroma.valid x hx).valid⟩

theorem ConformsPredWeightTable.valid {ChromaArrayType num_ref_idx_l0_active_minus1 : Nat} {s : PredWeightTable} (h : ConformsPredWeightTable ChromaArrayType num_ref_idx_l0_active_minus1 s) : ValidPredWeightTable ChromaArrayType num_ref_idx_l0_active_minus1 s where
  luma_log2_weight_denom := by have := h.luma_log2_weight_denom; omega
  delta_chroma_log2_weight_denom := ⟨fun c => by have := h.delta_chroma_log2_weight_denom.present c; have := h.luma_log2_weight_denom; omega, h.delta_chroma_log2_weight_denom.absent⟩
  luma_weight_l0_flag := h.luma_weight_l0_flag
  chroma_weight_l0_flag := h.chroma_weight_l0_flag
  weights := ⟨h.weights.length, fun i x hx => (h.weights.valid i x hx).valid⟩

theorem ConformsSliceHead.valid {nal_unit_type : Nat} {s : SliceHead} (h : ConformsSliceHead nal_unit_type s) : ValidSliceHead nal_unit_type s where
  first_slice_segment_in_pic_flag := h.first_slice_segment_in_pic_flag
  no_output_of_prior_pics_flag := h.no_output_of_prior_pics_flag
  slice_pic_parameter_set_id := by have := h.slice_pic_parameter_set_id; omega

theorem ConformsSliceBody.valid {nal_unit_type : Nat} {pps : PpsBody} {sps : SpsBody} {first : Nat} {s : SliceBody} (h : ConformsSliceBody nal_unit_type pps sps first s)
    {ptl : StdPtl} (hP : ConformsPpsBody pps) (hP' : ValidPpsBody pps) (hS : ConformsSpsBody ptl sps) (hS' : ValidSpsBody sps) (hs : SupportedSlice nal_unit_type pps sps s) : ValidSliceBody nal_unit_type pps sps first s where
  dependent_slice_segment_flag := h.dependent_slice_segment_flag
  slice_segment_address := ⟨fun c => by
    have h1 := h.slice_segment_address.present c
    have h2 := picSize_le hS
    rw [picSizeInCtbsY_eq hS' h2, ceilLog2f_eq h2]
    refine ⟨?_, ?_, Nat.lt_of_lt_of_le h1.2 (ceilLog2_le _)⟩
    · unfold ceilLog2; rw [if_neg (by omega)]; omega
    · exact Nat.le_trans (ceilLog2_le_of_le h2) (by decide), h.slice_segment_address.absent⟩
  slice_reserved_flag := h.slice_reserved_flag
  slice_type := ⟨fun c => by have := h.slice_type.present c; omega, h.slice_type.absent⟩
  pic_output_flag := h.pic_output_flag
  colour_plane_id := h.colour_plane_id
  slice_pic_order_cnt_lsb := h.slice_pic_order_cnt_lsb
  short_term_ref_pic_set_sps_flag := h.short_term_ref_pic_set_sps_flag
  st_ref_pic_set := ⟨h.st_ref_pic_set.present, fun x hx => sliceRps_valid hS (h.st_ref_pic_set.valid x hx)⟩
  short_term_ref_pic_set_idx := ⟨fun c => by
    have := hS.num_short_term_ref_pic_sets
    rw [ceilLog2f_eq (by omega)]
    exact Nat.lt_of_lt_of_le (h.short_term_ref_pic_set_idx.present c) (ceilLog2_le _), h.short_term_ref_pic_set_idx.absent⟩
  num_long_term_sps := ⟨fun c => by have := h.num_long_term_sps.present c; have := numLt_le hS; omega, h.num_long_term_sps.absent⟩
  num_long_term_pics := ⟨fun c => by have := h.num_long_term_pics.present c; omega, h.num_long_term_pics.absent⟩
  lt_ref_pics := ⟨fun c => ⟨by have := h.num_long_term_pics.present c; omega, (h.lt_ref_pics.present c).length, fun i x hx =>
    ((h.lt_ref_pics.present c).valid i x hx).valid (numLt_le hS) (by omega)⟩, h.lt_ref_pics.absent⟩
  slice_temporal_mvp_enabled_flag := h.slice_temporal_mvp_enabled_flag
  slice_sao_luma_flag := h.slice_sao_luma_flag
  slice_sao_chroma_flag := by
    have := h.slice_sao_chroma_flag
    by_cases hc : sps.sample_adaptive_offset_enabled_flag ≠ 0
    · rw [chromaArrayType_eq hS' hc]; exact this
    · exact ⟨fun c => absurd c.2.1 hc, fun _ => this.absent fun c => hc c.2.1⟩
  num_ref_idx_active_override_flag := h.num_ref_idx_active_override_flag
  num_ref_idx_l0_active_minus1 := ⟨fun c => by have := h.num_ref_idx_l0_active_minus1.present c; omega, h.num_ref_idx_l0_active_minus1.absent⟩
  num_ref_idx_l1_active_minus1 := ⟨fun c => by have := h.num_ref_idx_l1_active_minus1.present c; omega, h.num_ref_idx_l1_active_minus1.absent⟩
  mvd_l1_zero_flag := h.mvd_l1_zero_flag
  cabac_init_flag := h.cabac_init_flag
  collocated_from_l0_flag := h.collocated_from_l0_flag
  collocated_ref_idx := by
    have hr := h.collocated_ref_idx
    have hb : (if collocatedFromL0 s ≠ 0 then numRefIdxL0 pps s else numRefIdxL1 pps s) ≤ 14 := by
      have h0 := numRefIdx_le hP h
      split
      · exact h0.1
      · exact h0.2
    have hi := collocated_iff (P := pps) h.num_ref_idx_l0_active_minus1.absent h.num_ref_idx_l1_active_minus1.absent h.collocated_from_l0_flag.absent hs
    exact ⟨fun c => by have := hr.present (hi.mpr c); omega, fun c => hr.absent fun c' => c (hi.mp c')⟩
  pred_weight_table := ⟨h.pred_weight_table.present, fun x hx => by
    have hc := h.pred_weight_table.present.mp (by rw [hx]; rfl)
    have h1 := (h.pred_weight_table.valid x hx).valid
    obtain ⟨w1, w2⟩ := hs.weights (by rw [hx]; simp)
    have e1 : sliceChromaArrayType sps = chromaArrayType sps := by
      by_cases hc : sps.sample_adaptive_offset_enabled_flag ≠ 0
      · exact chromaArrayType_eq hS' hc
      · rw [(w2.resolve_left hc)]; unfold sliceChromaArrayType; rw [if_neg hc]
    have e2 : s.num_ref_idx_l0_active_minus1 = numRefIdxL0 pps s := by
      unfold numRefIdxL0
      split
      · rfl
      · next ho =>
        have := hs.num_ref_idx hc.1 (by omega) (.inr (by rw [hx]; simp))
        have h0 := h.num_ref_idx_l0_active_minus1.absent (by omega)
        omega
    rw [e1, e2]; exact h1⟩
  five_minus_max_num_merge_cand := ⟨fun c => by have := h.five_minus_max_num_merge_cand.present c; omega, h.five_minus_max_num_merge_cand.absent⟩
  use_integer_mv_flag := by rw [mvResolution_eq hS']; exact h.use_integer_mv_flag
  slice_qp_delta := ⟨fun c => by have := h.slice_qp_delta.present c; have := hP.head.init_qp_minus26; have := hS.bit_depth_luma_minus8; omega, h.slice_qp_delta.absent⟩
  slice_cb_qp_offset := ⟨fun c => by have := h.slice_cb_qp_offset.present c; omega, h.slice_cb_qp_offset.absent⟩
  slice_cr_qp_offset := ⟨fun c => by have := h.slice_cr_qp_offset.present c; omega, h.slice_cr_qp_offset.absent⟩
  act_qp_offsets_present := ⟨fun c => by rw [slicePpsActFlag_eq hP']; exact h.act_qp_offsets_present.present c, h.act_qp_offsets_present.absent⟩
  slice_act_y_qp_offset := ⟨fun c => by have := h.slice_act_y_qp_offset.present c; omega, h.slice_act_y_qp_offset.absent⟩
  slice_act_cb_qp_offset := ⟨fun c => by have := h.slice_act_cb_qp_offset.present c; omega, h.slice_act_cb_qp_offset.absent⟩
  slice_act_cr_qp_offset := ⟨fun c => by have := h.slice_act_cr_qp_offset.present c; omega, h.slice_act_cr_qp_offset.absent⟩
  deblocking_filter_override_flag := h.deblocking_filter_override_flag
  slice_deblocking_filter_disabled_flag := h.slice_deblocking_filter_disabled_flag
  slice_beta_offset_div2 := ⟨fun c => by have := h.slice_beta_offset_div2.present c; omega, h.slice_beta_offset_div2.absent⟩
  slice_tc_offset_div2 := ⟨fun c => by have := h.slice_tc_offset_div2.present c; omega, h.slice_tc_offset_div2.absent⟩
  slice_loop_filter_across_slices_enabled_flag := by
    have hi := loopFilter_iff (P := pps) h.slice_deblocking_filter_disabled_flag.absent hs
    exact ⟨fun c => h.slice_loop_filter_across_slices_enabled_flag.present (hi.mpr c), fun c => h.slice_loop_filter_across_slices_enabled_flag.absent fun c' => c (hi.mp c')⟩
  num_entry_point_offsets := ⟨fun c => entry_lt hP hS (h.num_entry_point_offsets.present c), h.num_entry_point_offsets.absent⟩
  num_entry_point_offsets_valid := entry_valid hP hS hS' h.num_entry_point_offsets hs
  offset_len_minus1 := ⟨fun c => by have := h.offset_len_minus1.present c; omega, h.offset_len_minus1.absent⟩
  entry_point_offset_minus1 := h.entry_point_offset_minus1
  slice_segment_header_extension_length := ⟨fun c => by have := h.slice_segment_header_extension_length.present c; omega, h.slice_segment_header_extension_length.absent⟩
  slice_segment_header_extension_data_byte := h.slice_segment_header_extension_data_byte

end H265.Std
