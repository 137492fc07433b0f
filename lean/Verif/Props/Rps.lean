/- C33: short-term reference picture sets. -/
import Verif.Proof.Rps
import Verif.Proof.Lossless

namespace H265
open Spec

/-- C33: st_ref_pic_set( idx ) is parsed losslessly, for every list of previous sets of which at least `idx` are present and
whose counts are their list lengths (in the SPS the list has `idx` elements, in a slice header `idx = num` elements).  No index is
out of range: the only undefined behaviour is signed overflow in the derivation. -/
theorem C33_set_inverts (idx num maxNum : Nat) (prev : List StRefPicSet) (hlen : idx ≤ prev.length)
    (hw : ∀ p ∈ prev, p.num_negative_pics = p.s0.length ∧ p.num_positive_pics = p.s1.length ∧ ∀ e ∈ p.s0 ++ p.s1, e.delta_poc_minus1 < 2 ^ 32)
    (hm : maxNum < 2 ^ 32 - 1) :
    InvertsOvf (parseStRefPicSet idx num prev maxNum) (Spec.stRefPicSet idx num) (ValidStRefPicSet idx num prev maxNum) :=
  (parseStRefPicSet_codec hlen (fun p hp => ⟨(hw p hp).1, (hw p hp).2.1, (hw p hp).2.2⟩) hm).invertsOvf

/-- C33: the loop over the sets of an SPS inverts the sequence of sets; no index is out of range. -/
theorem C33_sets_inverts (num maxNum : Nat) (hm : maxNum < 2 ^ 32 - 1) :
    InvertsOvf (parseStRefPicSets num maxNum num []) (Spec.stRefPicSets num) (ValidStRefPicSets num maxNum) :=
  (parseStRefPicSets_codec hm).invertsOvf

/-- what `ValidStRefPicSet` implies about sizes -/
theorem ValidStRefPicSet.sizes {idx num maxNum : Nat} {prev : List StRefPicSet} {s : StRefPicSet} (h : ValidStRefPicSet idx num prev maxNum s) :
    s.num_negative_pics = s.s0.length ∧ s.num_positive_pics = s.s1.length ∧ s.s0.length + s.s1.length ≤ max 16 maxNum ∧ s.flags.length ≤ 16 := by
  obtain ⟨_, h | ⟨_, h⟩⟩ := h
  · have h0 := h.s0.length
    have h1 := h.s1.length
    have h2 := h.num_negative_pics
    have h3 := h.num_positive_pics
    have h4 := h.flags
    exact ⟨h0.symm, h1.symm, by omega, by simp [h4]⟩
  · have e0 := congrArg List.length h.derived.s0
    have e1 := congrArg List.length h.derived.s1
    rw [differences_length] at e0 e1
    have hl := derived_lengths (ref := prev.getD (idx - (s.delta_idx_minus1 + 1)) default) (s := s)
    have := h.ref_size
    have hf := h.flags.length
    exact ⟨h.num_negative_pics, h.num_positive_pics, by omega, by omega⟩

/-- C33: every set returned by the parser has list lengths equal to its counts and at most 16 entries in both directions
together (with `maxNum` ≤ 16, as in all calls), so that the fixed-size tables of 16 entries are never exceeded. -/
theorem C33_set_sizes {num maxNum : Nat} (hm : maxNum ≤ 16) {bb bb' : BB} {l : List StRefPicSet} (h : bb.WF)
    (hr : (parseStRefPicSets num maxNum num []).run bb = .ok l bb') :
    l.length = num ∧ ∀ s ∈ l, s.num_negative_pics = s.s0.length ∧ s.num_positive_pics = s.s1.length ∧
      s.num_negative_pics + s.num_positive_pics ≤ 16 ∧ s.flags.length ≤ 16 := by
  obtain ⟨hv, _⟩ := (C33_sets_inverts num maxNum (by omega)).sound bb bb' l h hr
  refine ⟨hv.length, fun s hs => ?_⟩
  obtain ⟨i, hi⟩ := List.mem_iff_getElem?.mp hs
  obtain ⟨h1, h2, h3, h4⟩ := ValidStRefPicSet.sizes (hv.valid i s hi)
  exact ⟨h1, h2, by omega, h4⟩

/-- C33: an inter-predicted set names an earlier set, and its picture order count differences are the ones that equations 7-61
and 7-62 derive from that set. -/
theorem C33_derived_sets {num maxNum : Nat} (hm : maxNum ≤ 16) {bb bb' : BB} {l : List StRefPicSet} (h : bb.WF)
    (hr : (parseStRefPicSets num maxNum num []).run bb = .ok l bb') (i : Nat) (s : StRefPicSet) (hi : l[i]? = some s)
    (hp : s.inter_ref_pic_set_prediction_flag = 1) :
    ∃ j ref, j < i ∧ l[j]? = some ref ∧
      deltaPocs (-1) 0 s.s0 = (derivedS0 ref s).map (·.1) ∧ deltaPocs 1 0 s.s1 = (derivedS1 ref s).map (·.1) ∧
      s.s0.map (·.used_by_curr_pic) = (derivedS0 ref s).map (·.2) ∧ s.s1.map (·.used_by_curr_pic) = (derivedS1 ref s).map (·.2) := by
  obtain ⟨hv, _⟩ := (C33_sets_inverts num maxNum (by omega)).sound bb bb' l h hr
  have hlt : i < l.length := by
    rcases Nat.lt_or_ge i l.length with h | h
    · exact h
    · rw [List.getElem?_eq_none h] at hi; cases hi
  obtain ⟨_, hx | ⟨h0, hx⟩⟩ := hv.valid i s hi
  · have := hx.inter_ref_pic_set_prediction_flag; omega
  · have hr := hx.delta_idx_range
    have hj : (l.take i).getD (i - (s.delta_idx_minus1 + 1)) default = l[i - (s.delta_idx_minus1 + 1)]'(by omega) := by
      rw [List.getD_eq_getElem?_getD, List.getElem?_take_of_lt (by omega), List.getElem?_eq_getElem (by omega)]
      rfl
    have hd := hx.derived
    rw [hj] at hd
    obtain ⟨hp0, hp1⟩ := derived_pocs hd hx.delta_rps_sign hx.abs_delta_rps_minus1
    have hu : ∀ (sgn : Int) (l : List (Int × Nat)) (p : Int), (differences sgn p l).map (·.used_by_curr_pic) = l.map (·.2) := by
      intro sgn l
      induction l with
      | nil => intro p; rfl
      | cons x l ih => obtain ⟨d, f⟩ := x; intro p; simp [differences, ih]
    refine ⟨_, _, by omega, List.getElem?_eq_getElem (by omega), hp0, hp1, ?_, ?_⟩
    · conv => lhs; rw [hd.s0]
      exact hu _ _ _
    · conv => lhs; rw [hd.s1]
      exact hu _ _ _

/-- C33: no overflow if the differences of the reference set are below 2^30 in absolute value (the standard allows 2^15). -/
theorem C33_derivation_fits {ref s : StRefPicSet} (hs : s.delta_rps_sign < 2) (ha : s.abs_delta_rps_minus1 ≤ 32767)
    (he : ∀ e ∈ ref.s0 ++ ref.s1, e.delta_poc_minus1 < 2 ^ 31 - 1)
    (hd : ∀ d ∈ deltaPocs (-1) 0 ref.s0 ++ deltaPocs 1 0 ref.s1, -(2 ^ 30) ≤ d ∧ d ≤ 2 ^ 30) : DeriveFits ref s where
  entries := fun e h => by have := he e h; omega
  pocs := fun d h => by
    have := hd d h
    have := deltaRps_I32 hs ha
    unfold I32
    omega
  first := by
    intro x hx
    have hx := List.mem_of_mem_head? hx
    unfold derivedS0 at hx
    rw [List.mem_map] at hx
    obtain ⟨c, hc, rfl⟩ := hx
    have hc := (List.mem_filter.mp hc).1
    have := deltaRps_I32 hs ha
    have hb : -(2 ^ 30) ≤ c.1 ∧ c.1 ≤ 2 ^ 30 := by
      unfold candS0 at hc
      simp only [List.mem_append, List.mem_reverse, List.mem_cons] at hc
      rcases hc with hc | hc | hc
      · exact hd _ (List.mem_append_right _ (List.of_mem_zip hc).1)
      · subst hc; simp
      · exact hd _ (List.mem_append_left _ (List.of_mem_zip hc).1)
    simp only
    omega

/-- C33, limit: without that bound the derivation overflows: a first set with delta_poc_s0_minus1 = 2^31 - 1 is accepted, and an
inter-predicted second set then computes `2^31 - 1 + 1` in `int32_t`. -/
theorem C33_overflow_counterexample :
    (parseStRefPicSets 2 15 2 []).denote (Spec.stRefPicSet 0 2 ⟨0, 0, 0, 0, [], 1, 0, [⟨2 ^ 31 - 1, 1⟩], []⟩ ++
      [true, false] ++ ue 0 ++ [true, true]) = .bad .signedOverflow := by decide +kernel

/-- hypotheses met: test/h265_st_ref_pic_set_parser_unittest.cc:22-42 -/
example : ((parseStRefPicSet 0 1 [] 1).parseEscaped [0x5d]).val? = some ⟨0, 0, 0, 0, [], 1, 0, [⟨0, 1⟩], []⟩ := by decide +kernel

/-- hypotheses met: a set derived from `{-1, +2}` with delta_rps = -1 is `{-1, -2, +1}` (0 + -1, -1 + -1, 2 + -1) -/
example : (parseStRefPicSets 2 15 2 []).denote (Spec.stRefPicSet 0 2 ⟨0, 0, 0, 0, [], 1, 1, [⟨0, 1⟩], [⟨1, 1⟩]⟩ ++
      [true, true] ++ ue 0 ++ [true, true, false, true]) =
    .ok [⟨0, 0, 0, 0, [], 1, 1, [⟨0, 1⟩], [⟨1, 1⟩]⟩,
      ⟨1, 0, 1, 0, [⟨1, 1⟩, ⟨1, 1⟩, ⟨0, 1⟩], 2, 1, [⟨0, 0⟩, ⟨0, 1⟩], [⟨0, 1⟩]⟩] [] := by decide +kernel

end H265
