/-
The table of the command line tool.
-/
import Verif.Model.Tool
import Verif.Proof.DumpWords
import Verif.Spec.Tool

set_option autoImplicit false

namespace H265
open Spec

/-- induction from the right -/
theorem snoc_induction {α : Type} {P : List α → Prop} (nil : P []) (append_singleton : ∀ p u, P p → P (p ++ [u])) (l : List α) : P l := by
  have : ∀ (r : List α), P r.reverse := by
    intro r
    induction r with
    | nil => exact nil
    | cons a r ih => rw [List.reverse_cons]; exact append_singleton _ _ ih
  have h := this l.reverse
  rwa [List.reverse_reverse] at h

/-! ### Frames -/

theorem frameNumber_snoc (p : List CsvUnit) (u : CsvUnit) :
    frameNumber (p ++ [u]) = frameNumber p + if u.isFirst && p.any CsvUnit.isSlice then 1 else 0 := by
  unfold frameNumber
  have hf : u.isFirst = true → u.isSlice = true := by
    unfold CsvUnit.isFirst CsvUnit.isSlice; cases u.slice <;> simp
  rw [List.filter_append]
  by_cases hs : u.isSlice = true
  · have e : [u].filter CsvUnit.isSlice = [u] := by simp [hs]
    rw [e]
    by_cases ha : p.any CsvUnit.isSlice = true
    · have hl : 1 ≤ (p.filter CsvUnit.isSlice).length := by
        obtain ⟨x, hx, h⟩ := List.any_eq_true.1 ha
        exact List.length_pos_of_mem (List.mem_filter.2 ⟨hx, h⟩)
      rw [List.drop_append_of_le_length hl, List.countP_append, ha]
      simp
    · have hn : p.filter CsvUnit.isSlice = [] := by
        rw [List.filter_eq_nil_iff]
        intro x hx h
        exact ha (List.any_eq_true.2 ⟨x, hx, h⟩)
      rw [hn]; simp [ha]
  · have e : [u].filter CsvUnit.isSlice = [] := by simp [hs]
    have h2 : u.isFirst = false := by
      cases h : u.isFirst with
      | false => rfl
      | true => exact absurd (hf h) hs
    rw [e, h2]; simp

theorem frameNumber_mono (p q : List CsvUnit) : frameNumber p ≤ frameNumber (p ++ q) := by
  induction q generalizing p with
  | nil => simp
  | cons u q ih =>
    have h1 := ih (p ++ [u])
    rw [List.append_assoc] at h1
    have h2 := frameNumber_snoc p u
    simp only [List.cons_append, List.nil_append] at h1
    omega

theorem frameSlices_snoc (p : List CsvUnit) (u : CsvUnit) (f : Nat) :
    frameSlices (p ++ [u]) f = frameSlices p f ++ if u.isSlice && frameNumber (p ++ [u]) == f then [u] else [] := by
  unfold frameSlices
  rw [List.mapIdx_concat, List.filter_append, List.map_append]
  congr 1
  · congr 2
    refine List.ext_getElem (by simp) (fun k hk hk' => ?_)
    simp only [List.getElem_mapIdx]
    have hk2 : k < p.length := by simpa using hk
    rw [List.take_append_of_le_length (by omega)]
  · have e : (p ++ [u]).take (p.length + 1) = p ++ [u] := by rw [List.take_of_length_le (by simp)]
    rw [e]
    by_cases h : (u.isSlice && frameNumber (p ++ [u]) == f) = true
    · simp [h]
    · simp [h]

/-- a frame is complete when the next one has begun -/
theorem frameSlices_later (p q : List CsvUnit) (f : Nat) (h : f < frameNumber p) : frameSlices (p ++ q) f = frameSlices p f := by
  induction q generalizing p with
  | nil => simp
  | cons u q ih =>
    have e : p ++ u :: q = (p ++ [u]) ++ q := by simp
    have hm := frameNumber_snoc p u
    rw [e, ih (p ++ [u]) (by omega), frameSlices_snoc]
    have : ¬ (u.isSlice && frameNumber (p ++ [u]) == f) = true := by
      simp only [Bool.and_eq_true, beq_iff_eq, not_and]
      omega
    simp [this]

/-- the current frame -/
def current (p : List CsvUnit) : List CsvUnit := frameSlices p (frameNumber p)

/-- frames above the current one are empty -/
theorem frameSlices_above (p : List CsvUnit) : ∀ f, frameNumber p < f → frameSlices p f = [] := by
  induction p using snoc_induction with
  | nil => intro f _; rfl
  | append_singleton p u ih =>
    intro f hf
    have hm := frameNumber_snoc p u
    rw [frameSlices_snoc, ih f (by omega)]
    have : ¬ (u.isSlice && frameNumber (p ++ [u]) == f) = true := by
      simp only [Bool.and_eq_true, beq_iff_eq, not_and]
      omega
    simp [this]

theorem current_snoc (p : List CsvUnit) (u : CsvUnit) :
    current (p ++ [u]) = (if u.isFirst && p.any CsvUnit.isSlice then [] else current p) ++ if u.isSlice then [u] else [] := by
  unfold current
  rw [frameSlices_snoc]
  have hm := frameNumber_snoc p u
  congr 1
  · by_cases h : (u.isFirst && p.any CsvUnit.isSlice) = true
    · rw [if_pos h] at hm ⊢
      exact frameSlices_above p _ (by omega)
    · rw [if_neg h] at hm ⊢
      rw [hm]; simp
  · simp

theorem current_ne (p : List CsvUnit) : current p ≠ [] ↔ p.any CsvUnit.isSlice = true := by
  induction p using snoc_induction with
  | nil => simp [current, frameSlices]
  | append_singleton p u ih =>
    rw [current_snoc]
    have hf : u.isFirst = true → u.isSlice = true := by
      unfold CsvUnit.isFirst CsvUnit.isSlice; cases u.slice <;> simp
    by_cases hs : u.isSlice = true
    · simp [hs]
    · have h2 : u.isFirst = false := by
        cases h : u.isFirst with
        | false => rfl
        | true => exact absurd (hf h) hs
      simp [hs, h2, ih]

/-- every slice segment is in exactly one frame -/
theorem frame_total (us : List CsvUnit) :
    ((List.range (frameNumber us + 1)).map (frameBytes us)).sum = ((us.filter CsvUnit.isSlice).map (·.length)).sum := by
  have key : ∀ (p : List CsvUnit) (m : Nat), frameNumber p ≤ m → ((List.range (m + 1)).map (frameBytes p)).sum = ((p.filter CsvUnit.isSlice).map (·.length)).sum := by
    intro p
    induction p using snoc_induction with
    | nil =>
      intro m _
      have : ∀ f, frameBytes [] f = 0 := fun _ => rfl
      have h2 : ((List.range (m + 1)).map (frameBytes [])) = List.replicate (m + 1) 0 := by
        rw [List.eq_replicate_iff]
        exact ⟨by simp, fun b hb => by obtain ⟨f, _, rfl⟩ := List.mem_map.1 hb; exact this f⟩
      rw [h2]; simp
    | append_singleton p u ih =>
      intro m hm
      have hle := frameNumber_mono p [u]
      have hb : ∀ f, frameBytes (p ++ [u]) f = frameBytes p f + if f = frameNumber (p ++ [u]) then (if u.isSlice then u.length else 0) else 0 := by
        intro f
        unfold frameBytes
        rw [frameSlices_snoc]
        by_cases hs : u.isSlice = true
        · by_cases hf : frameNumber (p ++ [u]) = f
          · simp [hs, hf]
          · have : ¬ f = frameNumber (p ++ [u]) := fun h => hf h.symm
            simp [hs, hf, this]
        · simp [hs]
      have hsum : ∀ (l : List Nat) (a : Nat) (c : Nat), l.Nodup → a ∈ l →
          (l.map fun f => frameBytes p f + if f = a then c else 0).sum = (l.map (frameBytes p)).sum + c := by
        intro l a c hn ha
        induction l with
        | nil => cases ha
        | cons x l ihl =>
          obtain ⟨hx, hn⟩ := List.nodup_cons.1 hn
          simp only [List.map_cons, List.sum_cons]
          by_cases hxa : x = a
          · subst hxa
            have : (l.map fun f => frameBytes p f + if f = x then c else 0) = l.map (frameBytes p) := by
              refine List.map_congr_left (fun f hf => ?_)
              have : f ≠ x := fun h => hx (h ▸ hf)
              simp [this]
            rw [this, if_pos rfl]; omega
          · rw [if_neg hxa, ihl hn (by
              rcases List.mem_cons.1 ha with h | h
              · exact absurd h.symm hxa
              · exact h)]
            omega
      have e : (List.range (m + 1)).map (frameBytes (p ++ [u])) =
          (List.range (m + 1)).map fun f => frameBytes p f + if f = frameNumber (p ++ [u]) then (if u.isSlice then u.length else 0) else 0 :=
        List.map_congr_left (fun f _ => hb f)
      rw [e, hsum _ _ _ List.nodup_range (List.mem_range.2 (by omega)), ih m (by omega)]
      rw [List.filter_append]
      by_cases hs : u.isSlice = true
      · simp [hs]
      · simp [hs]
  exact key us _ (Nat.le_refl _)

/-! ### Lines -/

theorem nalTypeName_eq (t : Nat) : nalUnitTypeToString t = nalTypeNames.getD t "unknown" := by
  by_cases h : t < 64
  · have : ∀ t, t < 64 → nalUnitTypeToString t = nalTypeNames.getD t "unknown" := by decide
    exact this t h
  · have e : nalTypeNames.getD t "unknown" = "unknown" := by
      rw [List.getD_eq_getElem?_getD, List.getElem?_eq_none (by simp [nalTypeNames]; omega)]; rfl
    rw [e]
    unfold nalUnitTypeToString
    split <;> first | omega | rfl

theorem csv9 (a b c d e f g h i : List Char) :
    csv [a, b, c, d, e, f, g, h, i] = a ++ ',' :: (b ++ ',' :: (c ++ ',' :: (d ++ ',' :: (e ++ ',' :: (f ++ ',' :: (g ++ ',' :: (h ++ ',' :: i))))))) := by
  simp [csv, List.intercalate, List.intersperse]

/-- the variables of the loop after the units `pre` -/
structure LoopAt (pre : List CsvUnit) (v : LengthState) : Prop where
  nal_num : v.nal_num = pre.length
  frame_num : v.frame_num = frameNumber pre
  total_bytes : v.total_bytes = ((current pre).map (·.length)).sum
  last : current pre ≠ [] → v.last_slice_nal_unit_type = ((current pre).getLast?.map (·.nal_unit_type)).getD 0

theorem frameLine_eq {us pre rest : List CsvUnit} {v : LengthState} {fps : Nat} (h : LoopAt pre v) (hne : current pre ≠ []) (_hus : us = pre ++ rest)
    (hlater : frameSlices us (frameNumber pre) = current pre) (hfit : ((us.filter CsvUnit.isSlice).map (·.length)).sum * 8 * fps < 2 ^ 64)
    (hsum : ((current pre).map (·.length)).sum ≤ ((us.filter CsvUnit.isSlice).map (·.length)).sum) :
    toolFrameLine fps v = csvFrame fps us (frameNumber pre) ++ ['\n'] := by
  have hb : frameBytes us (frameNumber pre) = v.total_bytes := by unfold frameBytes; rw [hlater, h.total_bytes]
  have ht : frameType us (frameNumber pre) = v.last_slice_nal_unit_type := by unfold frameType; rw [hlater, h.last hne]
  have hm : v.total_bytes * 8 % 2 ^ 64 * fps % 2 ^ 64 = v.total_bytes * 8 * fps := by
    rw [Nat.mod_mul_mod]
    refine Nat.mod_eq_of_lt (Nat.lt_of_le_of_lt ?_ hfit)
    rw [h.total_bytes]
    exact Nat.mul_le_mul_right _ (Nat.mul_le_mul_right _ hsum)
  unfold toolFrameLine csvFrame
  rw [csv9, hb, ht, hm, h.frame_num, putU_decimal, putU_decimal, putU_decimal]
  simp

theorem nalLine_eq {us pre : List CsvUnit} {u : CsvUnit} {v : LengthState} (hn : v.nal_num = pre.length) (hf : v.frame_num = frameNumber (pre ++ [u]))
    (hus : us.take (pre.length + 1) = pre ++ [u]) {first addr poc : Nat} {b : Bool} (hs : u.slice = if b then some ⟨first, addr, poc⟩ else none) :
    toolNalLine v u.nal_unit_type u.length first addr poc b = csvLine us pre.length u ++ ['\n'] := by
  unfold toolNalLine csvLine
  rw [csv9, hn, hf, hus, nalTypeName_eq, hs]
  simp only [putU_decimal, optValue, putI_decimal]
  cases b <;> simp

theorem current_le (us : List CsvUnit) : ∀ (pre rest : List CsvUnit), us = pre ++ rest →
    ((current pre).map (·.length)).sum ≤ ((us.filter CsvUnit.isSlice).map (·.length)).sum := by
  have key : ∀ pre : List CsvUnit, ((current pre).map (·.length)).sum ≤ ((pre.filter CsvUnit.isSlice).map (·.length)).sum := by
    intro pre
    induction pre using snoc_induction with
    | nil => simp [current, frameSlices]
    | append_singleton p u ih =>
      rw [current_snoc, List.filter_append]
      simp only [List.map_append, List.sum_append]
      by_cases hs : u.isSlice = true
      · simp only [hs, if_true]
        by_cases hc : (u.isFirst && p.any CsvUnit.isSlice) = true
        · simp [hc, hs]
        · simp only [hc]; simp [hs]; exact ih
      · simp only [hs]
        by_cases hc : (u.isFirst && p.any CsvUnit.isSlice) = true
        · simp [hc]
        · simp only [hc]; simp; omega
  intro pre rest h
  subst h
  rw [List.filter_append, List.map_append, List.sum_append]
  have := key pre
  omega

theorem le_sum_of_mem {x : Nat} : ∀ {l : List Nat}, x ∈ l → x ≤ l.sum
  | a :: l, h => by
    rw [List.sum_cons]
    rcases List.mem_cons.1 h with h | h
    · omega
    · have := le_sum_of_mem h; omega

theorem mem_current {pre : List CsvUnit} {x : CsvUnit} (hx : x ∈ current pre) : x ∈ pre ∧ x.isSlice = true := by
  unfold current frameSlices at hx
  obtain ⟨y, hy, rfl⟩ := List.mem_map.1 hx
  obtain ⟨hy1, hy2⟩ := List.mem_filter.1 hy
  obtain ⟨i, hi, rfl⟩ := List.mem_mapIdx.1 hy1
  simp only [Bool.and_eq_true] at hy2
  exact ⟨List.getElem_mem hi, hy2.1⟩

theorem total_pos {pre : List CsvUnit} {v : LengthState} (hv : LoopAt pre v) (hpos : ∀ u ∈ pre, u.isSlice = true → 0 < u.length) :
    v.total_bytes > 0 ↔ pre.any CsvUnit.isSlice = true := by
  rw [← current_ne, hv.total_bytes]
  constructor
  · intro h hn
    rw [hn] at h; simp at h
  · intro hne
    obtain ⟨x, hx⟩ := List.exists_mem_of_ne_nil _ hne
    obtain ⟨h1, h2⟩ := mem_current hx
    have h3 := le_sum_of_mem (List.mem_map.2 ⟨x, hx, rfl⟩ : x.length ∈ (current pre).map (·.length))
    have h4 := hpos x h1 h2
    omega

/-- the line of the frame before this unit and the line of this unit -/
def rowOf (fps : Nat) (us : List CsvUnit) (k : Nat) (u : CsvUnit) : List (List Char) :=
  (if frameNumber (us.take (k + 1)) = frameNumber (us.take k) then [] else [csvFrame fps us (frameNumber (us.take k))]) ++ [csvLine us k u]

theorem lengthUnit_eq {fps : Nat} {us pre rest : List CsvUnit} {v : LengthState} {n : NalUnit}
    (hpos : ∀ u ∈ us, u.isSlice = true → 0 < u.length)
    (hsz : ((us.filter CsvUnit.isSlice).map (·.length)).sum < 2 ^ 64) (hfit : ((us.filter CsvUnit.isSlice).map (·.length)).sum * 8 * fps < 2 ^ 64)
    (hus : us = pre ++ csvUnit n :: rest) (hv : LoopAt pre v)
    (hsl : isSliceSegment n.nal_unit_header.nal_unit_type = n.nal_unit_payload.slice_segment_layer.isSome) :
    ∃ v', toolLengthUnit fps v n = .ok ((rowOf fps us pre.length (csvUnit n)).flatMap (· ++ ['\n']), v') ∧ LoopAt (pre ++ [csvUnit n]) v' := by
  have htk : us.take pre.length = pre := by rw [hus]; simp
  have htk1 : us.take (pre.length + 1) = pre ++ [csvUnit n] := by
    have e : us = (pre ++ [csvUnit n]) ++ rest := by rw [hus]; simp
    rw [e, List.take_left' (by simp)]
  have htp := total_pos hv (fun u hu => hpos u (by rw [hus]; exact List.mem_append_left _ hu))
  have hfn := frameNumber_snoc pre (csvUnit n)
  have hcs := current_snoc pre (csvUnit n)
  cases hS : n.nal_unit_payload.slice_segment_layer with
  | none =>
    rw [hS] at hsl
    have hslice : (csvUnit n).slice = none := by simp [csvUnit, hS]
    have hF : (csvUnit n).isFirst = false := by simp [CsvUnit.isFirst, hslice]
    have hI : (csvUnit n).isSlice = false := by simp [CsvUnit.isSlice, hslice]
    rw [hF] at hfn hcs
    rw [hI] at hcs
    simp only [Bool.false_and, Bool.false_eq_true, if_false, Nat.add_zero, List.append_nil] at hfn hcs
    refine ⟨{ v with nal_num := v.nal_num + 1 }, ?_, ?_⟩
    · unfold toolLengthUnit rowOf
      simp only [hsl, Option.isSome_none, Bool.false_eq_true, if_false]
      rw [htk, htk1, if_pos hfn]
      have := nalLine_eq (us := us) (pre := pre) (u := csvUnit n) (v := v) (first := 0) (addr := 0) (poc := 0) (b := false) hv.nal_num
        (by rw [hfn]; exact hv.frame_num) htk1 (by rw [hslice]; rfl)
      simp only [csvUnit] at this
      rw [this]
      simp [csvUnit]
    · refine ⟨by simp [hv.nal_num], by rw [hfn]; exact hv.frame_num, by rw [hcs]; exact hv.total_bytes, ?_⟩
      rw [hcs]; exact hv.last
  | some h =>
    rw [hS] at hsl
    have hslice : (csvUnit n).slice = some ⟨h.head.first_slice_segment_in_pic_flag, h.body.slice_segment_address, h.body.slice_pic_order_cnt_lsb⟩ := by
      simp [csvUnit, hS]
    have hI : (csvUnit n).isSlice = true := by simp [CsvUnit.isSlice, hslice]
    have hF : ((csvUnit n).isFirst && pre.any CsvUnit.isSlice) = true ↔ (h.head.first_slice_segment_in_pic_flag = 1 ∧ v.total_bytes > 0) := by
      rw [Bool.and_eq_true, htp]
      simp [CsvUnit.isFirst, hslice]
    rw [hI] at hcs
    simp only [if_true] at hcs
    have hlen : (csvUnit n).length = n.length := rfl
    have htyp : (csvUnit n).nal_unit_type = n.nal_unit_header.nal_unit_type := rfl
    -- what the current frame weighs
    have hle := current_le us (pre ++ [csvUnit n]) rest (by rw [hus]; simp)
    have hle0 := current_le us pre (csvUnit n :: rest) hus
    by_cases hnew : h.head.first_slice_segment_in_pic_flag = 1 ∧ v.total_bytes > 0
    · have hb := hF.2 hnew
      rw [if_pos hb] at hfn hcs
      rw [List.nil_append] at hcs
      have hne : current pre ≠ [] := (current_ne pre).2 (htp.1 hnew.2)
      have hl : n.length < 2 ^ 64 := by
        rw [hcs] at hle; simp [hlen] at hle; omega
      have hlater : frameSlices us (frameNumber pre) = current pre := by
        have e : us = (pre ++ [csvUnit n]) ++ rest := by rw [hus]; simp
        rw [e, frameSlices_later _ _ _ (by omega), frameSlices_snoc]
        have : ¬ ((csvUnit n).isSlice && frameNumber (pre ++ [csvUnit n]) == frameNumber pre) = true := by
          simp only [Bool.and_eq_true, beq_iff_eq, not_and]; omega
        simp [this, current]
      have hfl := frameLine_eq hv hne hus hlater hfit hle0
      refine ⟨{ v with frame_num := v.frame_num + 1, last_slice_nal_unit_type := n.nal_unit_header.nal_unit_type, total_bytes := (0 + n.length) % 2 ^ 64, nal_num := v.nal_num + 1 }, ?_, ?_⟩
      · unfold toolLengthUnit rowOf
        simp only [hsl, Option.isSome_some, if_true, hS, if_pos hnew]
        rw [htk, htk1, if_neg (by omega), hfl]
        have hnl := fun v2 h1 h2 => nalLine_eq (us := us) (pre := pre) (u := csvUnit n) (v := v2) (first := h.head.first_slice_segment_in_pic_flag)
          (addr := h.body.slice_segment_address) (poc := h.body.slice_pic_order_cnt_lsb) (b := true) h1 h2 htk1 (by rw [hslice]; rfl)
        rw [hlen, htyp] at hnl
        rw [hnl { v with frame_num := v.frame_num + 1, last_slice_nal_unit_type := n.nal_unit_header.nal_unit_type, total_bytes := (0 + n.length) % 2 ^ 64 } hv.nal_num
          (by rw [hfn]; simp [hv.frame_num])]
        simp
      · refine ⟨by simp [hv.nal_num], by rw [hfn]; simp [hv.frame_num], ?_, ?_⟩
        · rw [hcs]; simp [hlen]; exact hl
        · intro _; rw [hcs]; simp [htyp]
    · have hb := mt hF.1 hnew
      rw [if_neg hb] at hfn hcs
      have hl : v.total_bytes + n.length < 2 ^ 64 := by
        rw [hcs] at hle; simp [hlen] at hle; rw [hv.total_bytes]; omega
      refine ⟨{ v with last_slice_nal_unit_type := n.nal_unit_header.nal_unit_type, total_bytes := (v.total_bytes + n.length) % 2 ^ 64, nal_num := v.nal_num + 1 }, ?_, ?_⟩
      · unfold toolLengthUnit rowOf
        simp only [hsl, Option.isSome_some, if_true, hS, if_neg hnew]
        rw [htk, htk1, if_pos (by omega)]
        have hnl := fun v2 h1 h2 => nalLine_eq (us := us) (pre := pre) (u := csvUnit n) (v := v2) (first := h.head.first_slice_segment_in_pic_flag)
          (addr := h.body.slice_segment_address) (poc := h.body.slice_pic_order_cnt_lsb) (b := true) h1 h2 htk1 (by rw [hslice]; rfl)
        rw [hlen, htyp] at hnl
        rw [hnl { v with last_slice_nal_unit_type := n.nal_unit_header.nal_unit_type, total_bytes := (v.total_bytes + n.length) % 2 ^ 64 } hv.nal_num
          (by rw [hfn]; simp [hv.frame_num])]
        simp
      · refine ⟨by simp [hv.nal_num], by rw [hfn]; simp [hv.frame_num], ?_, ?_⟩
        · rw [hcs]; simp [hlen]; rw [← hv.total_bytes]; exact Nat.mod_eq_of_lt hl
        · intro _; rw [hcs]; simp [htyp]

theorem lengthLoop_eq {fps : Nat} {us : List CsvUnit} (hpos : ∀ u ∈ us, u.isSlice = true → 0 < u.length)
    (hsz : ((us.filter CsvUnit.isSlice).map (·.length)).sum < 2 ^ 64) (hfit : ((us.filter CsvUnit.isSlice).map (·.length)).sum * 8 * fps < 2 ^ 64) :
    ∀ (l : List NalUnit) (pre : List CsvUnit) (v : LengthState), us = pre ++ l.map csvUnit → LoopAt pre v →
      (∀ n ∈ l, isSliceSegment n.nal_unit_header.nal_unit_type = n.nal_unit_payload.slice_segment_layer.isSome) →
      toolLengthLoop fps v l = .ok (((us.mapIdx (rowOf fps us)).drop pre.length).flatten ++
          (if us.any CsvUnit.isSlice then [csvFrame fps us (frameNumber us)] else []) |>.flatMap (· ++ ['\n']))
  | [], pre, v, hus, hv, _ => by
    have hus' : us = pre := by simpa using hus
    subst hus'
    rw [List.drop_of_length_le (by simp)]
    unfold toolLengthLoop
    have hany := total_pos hv hpos
    by_cases ha : us.any CsvUnit.isSlice = true
    · rw [if_pos (hany.2 ha), if_pos ha, frameLine_eq hv ((current_ne us).2 ha) (List.append_nil us).symm rfl hfit (current_le us us [] (by simp))]
      simp
    · rw [if_neg (mt hany.1 ha), if_neg ha]; simp
  | n :: l, pre, v, hus, hv, hsl => by
    obtain ⟨v', h1, h2⟩ := lengthUnit_eq hpos hsz hfit (rest := l.map csvUnit) hus hv (hsl n (by simp))
    have ih := lengthLoop_eq hpos hsz hfit l (pre ++ [csvUnit n]) v' (by rw [hus]; simp) h2 (fun m hm => hsl m (List.mem_cons_of_mem _ hm))
    unfold toolLengthLoop
    rw [h1]
    dsimp only
    rw [ih]
    dsimp only
    have hlt : pre.length < (us.mapIdx (rowOf fps us)).length := by rw [hus]; simp
    have hel : us[pre.length]'(by simpa using hlt) = csvUnit n := by
      have : us[pre.length]? = some (csvUnit n) := by rw [hus]; simp
      exact (List.getElem?_eq_some_iff.1 this).2
    rw [List.drop_eq_getElem_cons hlt, List.getElem_mapIdx, hel]
    simp

end H265
