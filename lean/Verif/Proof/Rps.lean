import Verif.Model.Rps
import Verif.Proof.Tactic

namespace H265
open Spec

theorem Prog.ret_bind {α β : Type} (a : α) (f : α → Prog β) : (Prog.ret a).bind f = f a := rfl
theorem Prog.bad_bind {α β : Type} (k : Bad) (f : α → Prog β) : (Prog.bad k : Prog α).bind f = Prog.bad k := rfl
theorem Prog.bind_def {α β : Type} (p : Prog α) (f : α → Prog β) : (p >>= f) = p.bind f := rfl

theorem int32_eq (x : Int) : Prog.int32 x = if I32 x then Prog.ret x else Prog.bad .signedOverflow := rfl

theorem at_eq {α : Type} {l : List α} {i : Nat} (h : i < l.length) : Prog.at' l i = Prog.ret l[i] := by
  unfold Prog.at'; rw [List.getElem?_eq_getElem h]

theorem castI32_toInt32 (x : Nat) : castI32 x = toInt32 x := rfl

theorem castI32_add (x : Nat) (h : x < 2 ^ 32) : I32 (castI32 x + 1) ↔ x ≠ 2 ^ 31 - 1 := by
  unfold castI32 I32
  split <;> omega

theorem refDeltas_eq {sgn : Int} {v : List RpsEntry} (hv : v.length ≤ 16) (he : ∀ e ∈ v, e.delta_poc_minus1 < 2 ^ 32) :
    ∀ (n i : Nat) (d : Int), i + n = v.length →
    refDeltas sgn v n i d = if (∀ e ∈ v.drop i, e.delta_poc_minus1 ≠ 2 ^ 31 - 1) ∧ (∀ x ∈ deltaPocs sgn d (v.drop i), I32 x)
      then Prog.ret (deltaPocs sgn d (v.drop i)) else Prog.bad .signedOverflow := by
  intro n
  induction n with
  | zero =>
    intro i d h
    have : v.drop i = [] := List.drop_of_length_le (by omega)
    rw [this]; simp [refDeltas, deltaPocs]
  | succ n ih =>
    intro i d h
    have hi : i < v.length := by omega
    rw [refDeltas, if_neg (by omega), at_eq hi, Prog.ret_bind, List.drop_eq_getElem_cons hi, int32_eq]
    have hb := castI32_add v[i].delta_poc_minus1 (he _ (List.getElem_mem hi))
    by_cases h1 : v[i].delta_poc_minus1 ≠ 2 ^ 31 - 1
    · rw [if_pos (hb.mpr h1), Prog.ret_bind, int32_eq, castI32_toInt32]
      by_cases h2 : I32 (d + sgn * (toInt32 v[i].delta_poc_minus1 + 1))
      · rw [if_pos h2, Prog.ret_bind, ih _ _ (by omega)]
        by_cases h3 : (∀ e ∈ v.drop (i + 1), e.delta_poc_minus1 ≠ 2 ^ 31 - 1) ∧
            (∀ x ∈ deltaPocs sgn (d + sgn * (toInt32 v[i].delta_poc_minus1 + 1)) (v.drop (i + 1)), I32 x)
        · rw [if_pos h3, Prog.ret_bind, if_pos]
          · rfl
          · refine ⟨?_, ?_⟩
            · intro e hm
              cases hm with
              | head => exact h1
              | tail _ hm => exact h3.1 e hm
            · intro x hm
              rw [deltaPocs] at hm
              cases hm with
              | head => exact h2
              | tail _ hm => exact h3.2 x hm
        · rw [if_neg h3, Prog.bad_bind, if_neg]
          rintro ⟨ha, hb⟩
          exact h3 ⟨fun e hm => ha e (List.mem_cons_of_mem _ hm), fun x hm => hb x (by rw [deltaPocs]; exact List.mem_cons_of_mem _ hm)⟩
      · rw [if_neg h2, Prog.bad_bind, if_neg]
        rintro ⟨_, hb⟩
        exact h2 (hb _ (by rw [deltaPocs]; exact List.mem_cons_self))
    · rw [if_neg (fun hh => h1 (hb.mp hh)), Prog.bad_bind, if_neg]
      rintro ⟨ha, _⟩
      exact h1 (ha _ List.mem_cons_self)

/-- the selected candidates -/
def sel (neg : Bool) (rps : Int) (l : List (Int × RpsFlags)) : List (Int × Nat) :=
  (l.filter fun c => (if neg then decide (c.1 + rps < 0) else decide (c.1 + rps > 0)) && decide (c.2.use_delta_flag ≠ 0)).map
    fun c => (c.1 + rps, c.2.used_by_curr_pic_flag)

theorem sel_length (neg : Bool) (rps : Int) (l : List (Int × RpsFlags)) : (sel neg rps l).length ≤ l.length := by
  unfold sel; rw [List.length_map]; exact List.length_filter_le _ _

theorem sel_append (neg : Bool) (rps : Int) (l m : List (Int × RpsFlags)) : sel neg rps (l ++ m) = sel neg rps l ++ sel neg rps m := by
  unfold sel; rw [List.filter_append, List.map_append]

theorem pushPoc_eq {neg : Bool} {flags : List RpsFlags} {rps d : Int} {k : Nat} {acc : List (Int × Nat)}
    (hk : k < flags.length) (ha : acc.length < 16) :
    pushPoc neg flags (d + rps) k acc = Prog.ret (acc ++ sel neg rps [(d, flags[k])]) := by
  unfold pushPoc sel
  rw [at_eq hk]
  by_cases h1 : (if neg = true then d + rps < 0 else d + rps > 0)
  · rw [if_pos h1, Prog.ret_bind]
    have h1' : (if neg then decide (d + rps < 0) else decide (d + rps > 0)) = true := by
      cases neg <;> simpa using h1
    by_cases h2 : flags[k].use_delta_flag ≠ 0
    · rw [if_pos h2, if_neg (by omega)]
      simp [h1', h2]
    · rw [if_neg h2]; simp [h2]
  · rw [if_neg h1]
    have h1' : (if neg then decide (d + rps < 0) else decide (d + rps > 0)) = false := by
      cases neg <;> simpa using h1
    simp [h1']

theorem pocsDown_eq {neg : Bool} {flags : List RpsFlags} {rps : Int} {ds : List Int} {base : Nat} :
    ∀ (n : Nat) (acc : List (Int × Nat)), n ≤ ds.length → base + n ≤ flags.length → acc.length + n ≤ 16 →
    pocsDown neg flags rps ds base n acc = if ∀ d ∈ ds.take n, I32 (d + rps)
      then Prog.ret (acc ++ sel neg rps ((ds.take n).zip (flags.drop base)).reverse) else Prog.bad .signedOverflow := by
  intro n
  induction n with
  | zero => intro acc _ _ _; simp [pocsDown, sel]
  | succ n ih =>
    intro acc h1 h2 h3
    have hn : n < ds.length := by omega
    rw [pocsDown, at_eq hn, Prog.ret_bind, int32_eq]
    have ht : ds.take (n + 1) = ds.take n ++ [ds[n]] := by rw [List.take_add_one, List.getElem?_eq_getElem hn]; rfl
    have hz : ((ds.take (n + 1)).zip (flags.drop base)).reverse = (ds[n], flags[base + n]) :: ((ds.take n).zip (flags.drop base)).reverse := by
      have hsplit : flags.drop base = (flags.drop base).take n ++ flags[base + n] :: flags.drop (base + n + 1) := by
        have hd : flags.drop (base + n) = flags[base + n] :: flags.drop (base + n + 1) := List.drop_eq_getElem_cons (by omega)
        rw [← hd, ← List.drop_drop, List.take_append_drop]
      have hl : (ds.take n).length = ((flags.drop base).take n).length := by simp; omega
      have e1 : (ds.take (n + 1)).zip (flags.drop base) = (ds.take n).zip ((flags.drop base).take n) ++ [(ds[n], flags[base + n])] := by
        conv => lhs; rw [ht, hsplit]
        rw [List.zip_append hl]; rfl
      have e2 : (ds.take n).zip (flags.drop base) = (ds.take n).zip ((flags.drop base).take n) := by
        conv => lhs; rw [hsplit]
        conv => lhs; rw [← List.append_nil (ds.take n)]
        rw [List.zip_append hl]; simp
      rw [e1, e2, List.reverse_append]; rfl
    by_cases hx : I32 (ds[n] + rps)
    · rw [if_pos hx, Prog.ret_bind, pushPoc_eq (by omega) (by omega), Prog.ret_bind]
      have hsl := sel_length neg rps [(ds[n], flags[base + n])]
      rw [ih _ (by omega) (by omega) (by rw [List.length_append]; simp at hsl; omega)]
      have hiff : (∀ d ∈ ds.take (n + 1), I32 (d + rps)) ↔ ∀ d ∈ ds.take n, I32 (d + rps) := by
        rw [ht]; simp only [List.mem_append, List.mem_singleton]
        exact ⟨fun h d hd => h d (Or.inl hd), fun h d hd => hd.elim (h d) (fun e => e ▸ hx)⟩
      simp only [hiff]
      rw [hz, List.append_assoc, ← sel_append]
      rfl
    · rw [if_neg hx, Prog.bad_bind, if_neg]
      intro h; exact hx (h ds[n] (by rw [ht]; exact List.mem_append_right _ (List.mem_singleton.mpr rfl)))

theorem pocsUp_eq {neg : Bool} {flags : List RpsFlags} {rps : Int} {ds : List Int} {base : Nat} :
    ∀ (n j : Nat) (acc : List (Int × Nat)), j + n = ds.length → base + ds.length ≤ flags.length → acc.length + n ≤ 16 →
    pocsUp neg flags rps ds base n j acc = if ∀ d ∈ ds.drop j, I32 (d + rps)
      then Prog.ret (acc ++ sel neg rps ((ds.drop j).zip (flags.drop (base + j)))) else Prog.bad .signedOverflow := by
  intro n
  induction n with
  | zero =>
    intro j acc h1 _ _
    have : ds.drop j = [] := List.drop_of_length_le (by omega)
    simp [pocsUp, sel, this]
  | succ n ih =>
    intro j acc h1 h2 h3
    have hn : j < ds.length := by omega
    have hf : base + j < flags.length := by omega
    rw [pocsUp, at_eq hn, Prog.ret_bind, int32_eq, List.drop_eq_getElem_cons hn, List.drop_eq_getElem_cons hf]
    by_cases hx : I32 (ds[j] + rps)
    · rw [if_pos hx, Prog.ret_bind, pushPoc_eq (by omega) (by omega), Prog.ret_bind]
      have hsl := sel_length neg rps [(ds[j], flags[base + j])]
      rw [ih _ _ (by omega) (by omega) (by rw [List.length_append]; simp at hsl; omega)]
      have hiff : (∀ d ∈ ds[j] :: ds.drop (j + 1), I32 (d + rps)) ↔ ∀ d ∈ ds.drop (j + 1), I32 (d + rps) := by
        simp only [List.mem_cons]
        exact ⟨fun h d hd => h d (Or.inr hd), fun h d hd => hd.elim (fun e => e ▸ hx) (h d)⟩
      simp only [hiff]
      rw [List.append_assoc, ← sel_append]
      rfl
    · rw [if_neg hx, Prog.bad_bind, if_neg]
      intro h; exact hx (h _ List.mem_cons_self)

theorem outS0_neg : ∀ (l : List (Int × Nat)) (p : Int), p < 0 → I32 p → (∀ x ∈ l, x.1 < 0 ∧ I32 x.1) →
    outS0 p l = Prog.ret (differences (-1) p l) := by
  intro l
  induction l with
  | nil => intros; rfl
  | cons x l ih =>
    obtain ⟨d, f⟩ := x
    intro p hp hp2 hl
    have hd := hl (d, f) List.mem_cons_self
    simp only at hd
    unfold I32 at hd hp2
    rw [outS0, int32_eq, if_pos (by unfold I32; omega), Prog.ret_bind, int32_eq, if_pos (by unfold I32; omega), Prog.ret_bind,
      int32_eq, if_pos (by unfold I32; omega), Prog.ret_bind, ih d hd.1 (by unfold I32; omega) (fun x hx => hl x (List.mem_cons_of_mem _ hx)), Prog.ret_bind,
      differences]
    rw [show (-1 : Int) * (d - p) = -(d - p) by omega]

theorem outS0_eq (l : List (Int × Nat)) (hl : ∀ x ∈ l, x.1 < 0 ∧ I32 x.1) :
    outS0 0 l = if ∀ x, l.head? = some x → x.1 ≠ -(2 ^ 31) then Prog.ret (differences (-1) 0 l) else Prog.bad .signedOverflow := by
  cases l with
  | nil => rfl
  | cons x l =>
    obtain ⟨d, f⟩ := x
    have hd := hl (d, f) List.mem_cons_self
    simp only at hd
    have hI := hd.2
    unfold I32 at hI
    rw [outS0, int32_eq, if_pos (by unfold I32; omega), Prog.ret_bind, int32_eq]
    by_cases h : d = -(2 ^ 31)
    · rw [if_neg (by unfold I32; omega), Prog.bad_bind, if_neg]
      intro hh; exact hh _ rfl h
    · rw [if_pos (by unfold I32; omega), Prog.ret_bind,
        int32_eq, if_pos (by unfold I32; omega), Prog.ret_bind, outS0_neg l d hd.1 hd.2 (fun x hx => hl x (List.mem_cons_of_mem _ hx)), Prog.ret_bind,
        if_pos (by rintro x ⟨⟩; exact h), differences]
      rw [show (-1 : Int) * (d - 0) = -(d - 0) by omega]

theorem outS1_eq : ∀ (l : List (Int × Nat)) (p : Int), 0 ≤ p → I32 p → (∀ x ∈ l, 0 < x.1 ∧ I32 x.1) →
    outS1 p l = Prog.ret (differences 1 p l) := by
  intro l
  induction l with
  | nil => intros; rfl
  | cons x l ih =>
    obtain ⟨d, f⟩ := x
    intro p hp hp2 hl
    have hd := hl (d, f) List.mem_cons_self
    simp only at hd
    unfold I32 at hd hp2
    rw [outS1, int32_eq, if_pos (by unfold I32; omega), Prog.ret_bind, int32_eq, if_pos (by unfold I32; omega), Prog.ret_bind,
      ih d (by omega) (by unfold I32; omega) (fun x hx => hl x (List.mem_cons_of_mem _ hx)), Prog.ret_bind,
      differences]
    rw [show (1 : Int) * (d - p) = (d - p) by omega]

theorem deltaPocs_length (sgn : Int) : ∀ (l : List RpsEntry) (d : Int), (deltaPocs sgn d l).length = l.length := by
  intro l
  induction l with
  | nil => intro d; rfl
  | cons e l ih => intro d; simp [deltaPocs, ih]

/-- well-formed set: the counts are the list lengths, the entries are 32-bit words -/
structure RpsWF (s : StRefPicSet) : Prop where
  num_negative_pics : s.num_negative_pics = s.s0.length
  num_positive_pics : s.num_positive_pics = s.s1.length
  entries : ∀ e ∈ s.s0 ++ s.s1, e.delta_poc_minus1 < 2 ^ 32

theorem sel_mem {neg : Bool} {rps : Int} {l : List (Int × RpsFlags)} {x : Int × Nat} (h : x ∈ sel neg rps l) :
    (if neg then x.1 < 0 else x.1 > 0) ∧ ∃ c ∈ l, x.1 = c.1 + rps := by
  unfold sel at h
  rw [List.mem_map] at h
  obtain ⟨c, hc, rfl⟩ := h
  rw [List.mem_filter] at hc
  refine ⟨?_, c, hc.1, rfl⟩
  have := hc.2
  cases neg <;> simp at this ⊢ <;> omega

theorem deriveValues_eq {ref s : StRefPicSet} (hw : RpsWF ref) (hn : ref.s0.length + ref.s1.length < 16)
    (hf : s.flags.length = ref.s0.length + ref.s1.length + 1) (hs : s.delta_rps_sign < 2) (ha : s.abs_delta_rps_minus1 ≤ 32767) :
    (DeriveFits ref s → deriveValues ref s.delta_rps_sign s.abs_delta_rps_minus1 s.flags =
      Prog.ret (differences (-1) 0 (derivedS0 ref s), differences 1 0 (derivedS1 ref s))) ∧
    (¬ DeriveFits ref s → deriveValues ref s.delta_rps_sign s.abs_delta_rps_minus1 s.flags = Prog.bad .signedOverflow) := by
  have hrps : I32 (deltaRps s) := by
    unfold I32 deltaRps
    generalize s.abs_delta_rps_minus1 = a at ha
    rcases (by omega : s.delta_rps_sign = 0 ∨ s.delta_rps_sign = 1) with h | h <;> rw [h] <;> constructor <;> omega
  have hl0 := deltaPocs_length (-1) ref.s0 0
  have hl1 := deltaPocs_length 1 ref.s1 0
  have hS0 : derivedS0 ref s = sel true (deltaRps s) (((deltaPocs 1 0 ref.s1).zip (s.flags.drop ref.s0.length)).reverse)
      ++ sel true (deltaRps s) [(0, s.flags[ref.s0.length + ref.s1.length])] ++ sel true (deltaRps s) ((deltaPocs (-1) 0 ref.s0).zip s.flags) := by
    rw [← sel_append, ← sel_append]
    unfold derivedS0 candS0 sel
    rw [List.getD_eq_getElem?_getD, List.getElem?_eq_getElem (by omega)]
    simp
  have hS1 : derivedS1 ref s = sel false (deltaRps s) (((deltaPocs (-1) 0 ref.s0).zip s.flags).reverse)
      ++ sel false (deltaRps s) [(0, s.flags[ref.s0.length + ref.s1.length])] ++ sel false (deltaRps s) ((deltaPocs 1 0 ref.s1).zip (s.flags.drop ref.s0.length)) := by
    rw [← sel_append, ← sel_append]
    unfold derivedS1 candS1 sel
    rw [List.getD_eq_getElem?_getD, List.getElem?_eq_getElem (by omega)]
    simp
  have hrw : (1 - 2 * (s.delta_rps_sign : Int)) * ((s.abs_delta_rps_minus1 : Int) + 1) = 0 + deltaRps s := by
    unfold deltaRps; omega
  -- lengths of the accumulators
  have len1 : ∀ neg, (sel neg (deltaRps s) (((deltaPocs 1 0 ref.s1).zip (s.flags.drop ref.s0.length)).reverse)).length ≤ ref.s1.length := by
    intro neg
    refine Nat.le_trans (sel_length _ _ _) ?_
    rw [List.length_reverse, List.length_zip]; omega
  have len0 : ∀ neg, (sel neg (deltaRps s) (((deltaPocs (-1) 0 ref.s0).zip s.flags).reverse)).length ≤ ref.s0.length := by
    intro neg
    refine Nat.le_trans (sel_length _ _ _) ?_
    rw [List.length_reverse, List.length_zip]; omega
  have lenm : ∀ neg, (sel neg (deltaRps s) [(0, s.flags[ref.s0.length + ref.s1.length])]).length ≤ 1 := fun neg => sel_length _ _ _
  have hall : (∀ d ∈ deltaPocs (-1) 0 ref.s0, I32 (d + deltaRps s)) → (∀ d ∈ deltaPocs 1 0 ref.s1, I32 (d + deltaRps s)) →
      ∀ x ∈ derivedS0 ref s, x.1 < 0 ∧ I32 x.1 := by
    intro h0 h1 x hx
    rw [hS0, ← sel_append, ← sel_append] at hx
    obtain ⟨ha, c, hc, he⟩ := sel_mem hx
    refine ⟨by simpa using ha, ?_⟩
    rw [he]
    simp only [List.mem_append, List.mem_reverse, List.mem_singleton] at hc
    rcases hc with (hc | hc) | hc
    · exact h1 _ (List.of_mem_zip hc).1
    · subst hc; simpa using hrps
    · exact h0 _ (List.of_mem_zip hc).1
  have hall1 : (∀ d ∈ deltaPocs (-1) 0 ref.s0, I32 (d + deltaRps s)) → (∀ d ∈ deltaPocs 1 0 ref.s1, I32 (d + deltaRps s)) →
      ∀ x ∈ derivedS1 ref s, 0 < x.1 ∧ I32 x.1 := by
    intro h0 h1 x hx
    rw [hS1, ← sel_append, ← sel_append] at hx
    obtain ⟨ha, c, hc, he⟩ := sel_mem hx
    refine ⟨by simpa using ha, ?_⟩
    rw [he]
    simp only [List.mem_append, List.mem_reverse, List.mem_singleton] at hc
    rcases hc with (hc | hc) | hc
    · exact h0 _ (List.of_mem_zip hc).1
    · subst hc; simpa using hrps
    · exact h1 _ (List.of_mem_zip hc).1
  have m0 : ∀ e ∈ ref.s0, e.delta_poc_minus1 < 2 ^ 32 := fun e he => hw.entries e (List.mem_append_left _ he)
  have m1 : ∀ e ∈ ref.s1, e.delta_poc_minus1 < 2 ^ 32 := fun e he => hw.entries e (List.mem_append_right _ he)
  unfold deriveValues
  simp only [Prog.bind_def, hrw, hw.num_negative_pics, hw.num_positive_pics]
  rw [refDeltas_eq (by omega) m0 _ _ _ (by omega), refDeltas_eq (by omega) m1 _ _ _ (by omega), List.drop_zero, List.drop_zero]
  by_cases c0 : (∀ e ∈ ref.s0, e.delta_poc_minus1 ≠ 2 ^ 31 - 1) ∧ (∀ x ∈ deltaPocs (-1) 0 ref.s0, I32 x)
  rotate_left
  · rw [if_neg c0]
    refine ⟨fun hd => absurd ⟨fun e he => hd.entries e (List.mem_append_left _ he), fun x hx => (hd.pocs x (List.mem_append_left _ hx)).1⟩ c0, fun _ => rfl⟩
  rw [if_pos c0, Prog.ret_bind]
  by_cases c1 : (∀ e ∈ ref.s1, e.delta_poc_minus1 ≠ 2 ^ 31 - 1) ∧ (∀ x ∈ deltaPocs 1 0 ref.s1, I32 x)
  rotate_left
  · rw [if_neg c1]
    refine ⟨fun hd => absurd ⟨fun e he => hd.entries e (List.mem_append_right _ he), fun x hx => (hd.pocs x (List.mem_append_right _ hx)).1⟩ c1, fun _ => rfl⟩
  rw [if_pos c1, Prog.ret_bind, Int.zero_add, pocsDown_eq _ _ (by omega) (by omega) (by simp; omega), List.take_of_length_le (by omega)]
  by_cases d1 : ∀ d ∈ deltaPocs 1 0 ref.s1, I32 (d + deltaRps s)
  rotate_left
  · rw [if_neg d1]
    refine ⟨fun hd => absurd (fun x hx => (hd.pocs x (List.mem_append_right _ hx)).2) d1, fun _ => rfl⟩
  rw [if_pos d1, Prog.ret_bind]
  have hz : deltaRps s = 0 + deltaRps s := by omega
  have p1 := len1 true
  have p2 := lenm true
  rw [show pushPoc true s.flags (deltaRps s) = pushPoc true s.flags (0 + deltaRps s) by rw [← hz],
    pushPoc_eq (rps := deltaRps s) (by omega) (by simp only [List.nil_append]; omega), Prog.ret_bind, List.nil_append,
    pocsUp_eq _ _ _ (by omega) (by omega) (by rw [List.length_append]; omega), List.drop_zero, List.drop_zero]
  by_cases d0 : ∀ d ∈ deltaPocs (-1) 0 ref.s0, I32 (d + deltaRps s)
  rotate_left
  · rw [if_neg d0]
    refine ⟨fun hd => absurd (fun x hx => (hd.pocs x (List.mem_append_left _ hx)).2) d0, fun _ => rfl⟩
  rw [if_pos d0, Prog.ret_bind, ← hS0, outS0_eq _ (hall d0 d1)]
  by_cases e0 : ∀ x, (derivedS0 ref s).head? = some x → x.1 ≠ -(2 ^ 31)
  rotate_left
  · rw [if_neg e0]
    exact ⟨fun hd => absurd hd.first e0, fun _ => rfl⟩
  have q1 := len0 false
  have q2 := lenm false
  rw [if_pos e0, Prog.ret_bind, pocsDown_eq _ _ (by omega) (by omega) (by simp; omega), List.take_of_length_le (by omega), if_pos d0, Prog.ret_bind, List.drop_zero,
    show pushPoc false s.flags (deltaRps s) = pushPoc false s.flags (0 + deltaRps s) by rw [← hz],
    pushPoc_eq (rps := deltaRps s) (by omega) (by simp only [List.nil_append]; omega), Prog.ret_bind, List.nil_append,
    pocsUp_eq _ _ _ (by omega) (by omega) (by rw [List.length_append]; omega), List.drop_zero, if_pos d1, Prog.ret_bind, Nat.add_zero, ← hS1,
    outS1_eq _ 0 (by omega) (by decide) (hall1 d0 d1), Prog.ret_bind]
  refine ⟨fun _ => rfl, fun hn => absurd ⟨?_, ?_, e0⟩ hn⟩
  · intro e he
    rw [List.mem_append] at he
    exact he.elim (c0.1 e) (c1.1 e)
  · intro d hd
    rw [List.mem_append] at hd
    exact hd.elim (fun h => ⟨c0.2 d h, d0 d h⟩) (fun h => ⟨c1.2 d h, d1 d h⟩)

codec_opaque

variable {H : Cond} {A : Bad → Prop}

theorem parseRpsEntry_codec [CondOk H] : Codec H A parseRpsEntry Spec.rpsEntry ValidRpsEntry where
  sound := by
    unfold parseRpsEntry; snd_all
    refine Snd.pure ⟨?_, ?_⟩
    · simp [Spec.rpsEntry, Spec.seq]
    · constructor <;> assumption
  complete := by
    rintro ⟨⟩ ⟨⟩
    simp only at *
    unfold parseRpsEntry
    simp only [Spec.rpsEntry, Spec.seq, List.flatten_cons, List.flatten_nil]
    cmp_all
    exact Cmp.pure
macro_rules | `(tactic| codec) => `(tactic| exact parseRpsEntry_codec)

theorem parseRpsFlags_codec [CondOk H] : Codec H A parseRpsFlags Spec.rpsFlags ValidRpsFlags where
  sound := by
    unfold parseRpsFlags; snd_all
    refine Snd.pure ⟨?_, ?_⟩
    · simp [Spec.rpsFlags, Spec.seq]
    · constructor <;> assumption
  complete := by
    rintro ⟨⟩ ⟨⟩
    simp only at *
    unfold parseRpsFlags
    simp only [Spec.rpsFlags, Spec.seq, List.flatten_cons, List.flatten_nil]
    cmp_all
    exact Cmp.pure
macro_rules | `(tactic| codec) => `(tactic| exact parseRpsFlags_codec)

/-- the bits of an explicitly coded set, without the prediction flag -/
def explicitBits (s : StRefPicSet) : List Bool :=
  seq [ue s.num_negative_pics, ue s.num_positive_pics, list rpsEntry s.s0, list rpsEntry s.s1]

/-- the bits of an inter-predicted set, without the prediction flag -/
def interBits (idx num : Nat) (s : StRefPicSet) : List Bool :=
  seq [cond (idx = num) (ue s.delta_idx_minus1), u 1 s.delta_rps_sign, ue s.abs_delta_rps_minus1, list rpsFlags s.flags]

theorem parseExplicitRps_codec [CondOk H] {maxNum : Nat} (hm : maxNum < 2 ^ 32 - 1) :
    Codec H A (parseExplicitRps maxNum) explicitBits (ValidExplicitRps maxNum) where
  sound := by
    unfold parseExplicitRps; snd_all
    refine Snd.pure ⟨?_, ?_⟩
    · simp [explicitBits, Spec.seq]
    · rename_i h1 _ h2 _ h3 _ h4
      exact ⟨rfl, rfl, rfl, rfl, rfl, h1.2, h2.2, h3, h4⟩
  complete := by
    rintro ⟨⟩ ⟨h1, h2, h3, h4, h5, h6, h7, h8, h9⟩
    simp only at *
    subst h1 h2 h3 h4 h5
    unfold parseExplicitRps
    simp only [explicitBits, Spec.seq, List.flatten_cons, List.flatten_nil]
    refine Codec.cmp_bind (ueRange_codec hm) rfl ⟨Nat.zero_le _, h6⟩ ?_
    refine Codec.cmp_bind (ueRange_codec (by omega)) rfl ⟨Nat.zero_le _, h7⟩ ?_
    cmp_all
    exact Cmp.pure

theorem parseInterRps_codec [CondOk H] [OvfOk A] {idx num : Nat} {prev : List StRefPicSet} (hidx : idx ≠ 0) (hlen : idx ≤ prev.length)
    (hw : ∀ p ∈ prev, RpsWF p) :
    Codec H A (parseInterRps idx num prev) (interBits idx num) (ValidInterRps idx num prev) where
  sound := by
    unfold parseInterRps
    snd_step; snd_step; snd_step; snd_step
    rename_i di h1 h2 sg h3 ab h4
    rw [at_bind (show idx - (di + 1) < prev.length by omega) default]
    have hmem : prev.getD (idx - (di + 1)) default ∈ prev := by
      rw [List.getD_eq_getElem?_getD, List.getElem?_eq_getElem (by omega)]
      exact List.getElem_mem _
    have hr := hw _ hmem
    generalize hg : prev.getD (idx - (di + 1)) default = ref at *
    snd_step; snd_step
    rename_i h5 fl h6
    rw [hr.num_negative_pics, hr.num_positive_pics] at h5 h6
    have hd := deriveValues_eq (s := ⟨1, di, sg, ab, fl, 0, 0, [], []⟩) hr h5 h6.length (by simpa using h3) h4.2
    by_cases hf : DeriveFits ref ⟨1, di, sg, ab, fl, 0, 0, [], []⟩
    · have := hd.1 hf
      simp only at this
      rw [this]
      refine Snd.pure ⟨?_, ?_⟩
      · simp [interBits, Spec.seq]
      · refine ⟨rfl, h1, by simp only; omega, by simpa using h3, h4.2, ?_, ?_, ?_, rfl, rfl⟩
        · simp only [hg]; exact h5
        · simp only [hg]; exact h6
        · simp only [hg]; exact ⟨⟨hf.entries, hf.pocs, hf.first⟩, rfl, rfl⟩
    · have := hd.2 hf
      simp only at this
      rw [this]
      exact Snd.bad OvfOk.ovf
  complete := by
    rintro ⟨it, di, sg, ab, fl, nn, np, s0, s1⟩ ⟨h1, h2, h3, h4, h5, h6, h7, h8, h9, h10⟩
    simp only at *
    subst h1 h9 h10
    unfold parseInterRps
    simp only [interBits, Spec.seq, List.flatten_cons, List.flatten_nil]
    have hmem : prev.getD (idx - (di + 1)) default ∈ prev := by
      rw [List.getD_eq_getElem?_getD, List.getElem?_eq_getElem (by omega)]
      exact List.getElem_mem _
    have hr := hw _ hmem
    cmp_step
    refine Cmp.check_bind (by omega) ?_
    refine Codec.cmp_bind (u_codec (by decide) (by decide)) rfl (by simpa using h4) ?_
    refine Codec.cmp_bind (ueRange_codec (by decide)) rfl ⟨Nat.zero_le _, h5⟩ ?_
    rw [at_bind (show idx - (di + 1) < prev.length by omega) default]
    generalize hg : prev.getD (idx - (di + 1)) default = ref at *
    rw [hr.num_negative_pics, hr.num_positive_pics]
    refine Cmp.check_bind h6 ?_
    cmp_step
    have hd := deriveValues_eq (s := ⟨1, di, sg, ab, fl, s0.length, s1.length, s0, s1⟩) hr h6 h7.length h4 h5
    have := hd.1 h8.fits
    simp only at this
    rw [this, ← h8.s0, ← h8.s1]
    exact Cmp.pure

theorem parseStRefPicSet_codec [CondOk H] [OvfOk A] {idx num : Nat} {prev : List StRefPicSet} {maxNum : Nat} (hlen : idx ≤ prev.length)
    (hw : ∀ p ∈ prev, RpsWF p) (hm : maxNum < 2 ^ 32 - 1) :
    Codec H A (parseStRefPicSet idx num prev maxNum) (Spec.stRefPicSet idx num) (ValidStRefPicSet idx num prev maxNum) where
  sound := by
    unfold parseStRefPicSet
    snd_step; snd_step
    rename_i h1 it h2
    refine Snd.ite (fun hi => ?_) (fun hi => ?_)
    · have hidx : idx ≠ 0 := by
        intro h0; exact hi (h2.absent (by omega))
      have h1' := h2.present hidx
      refine Snd.conseq (parseInterRps_codec hidx hlen hw).sound ?_
      rintro s w ⟨rfl, hv⟩
      refine ⟨?_, h1, Or.inr ⟨hidx, hv⟩⟩
      have : it = 1 := by simp at h1'; omega
      simp [Spec.stRefPicSet, interBits, Spec.seq, hv.inter_ref_pic_set_prediction_flag, this]
    · refine Snd.conseq (parseExplicitRps_codec hm).sound ?_
      rintro s w ⟨rfl, hv⟩
      refine ⟨?_, h1, Or.inl hv⟩
      have : it = 0 := by omega
      simp [Spec.stRefPicSet, explicitBits, Spec.seq, hv.inter_ref_pic_set_prediction_flag, this]
  complete := by
    rintro s ⟨h1, hv⟩
    unfold parseStRefPicSet
    refine Cmp.check_bind h1 ?_
    rcases hv with hv | ⟨hidx, hv⟩
    · have he : Spec.stRefPicSet idx num s = Spec.cond (idx ≠ 0) (Spec.u 1 0) ++ explicitBits s := by
        simp [Spec.stRefPicSet, explicitBits, Spec.seq, hv.inter_ref_pic_set_prediction_flag]
      rw [he]
      refine Codec.cmp_bind (a := 0) (W := fun v => Spec.cond (idx ≠ 0) (Spec.u 1 v)) (V := fun v => Opt (idx ≠ 0) (v < 2 ^ 1) (v = 0)) (by codec) rfl ⟨fun _ => by decide, fun _ => rfl⟩ ?_
      exact Cmp.ite_neg (by decide) ((parseExplicitRps_codec (H := H) (A := A) hm).complete s hv)
    · have he : Spec.stRefPicSet idx num s = Spec.cond (idx ≠ 0) (Spec.u 1 1) ++ interBits idx num s := by
        simp [Spec.stRefPicSet, interBits, Spec.seq, hv.inter_ref_pic_set_prediction_flag]
      rw [he]
      refine Codec.cmp_bind (a := 1) (W := fun v => Spec.cond (idx ≠ 0) (Spec.u 1 v)) (V := fun v => Opt (idx ≠ 0) (v < 2 ^ 1) (v = 0)) (by codec) rfl ⟨fun _ => by decide, fun h => absurd hidx h⟩ ?_
      exact Cmp.ite_pos (by decide) ((parseInterRps_codec (H := H) (A := A) hidx hlen hw).complete s hv)

theorem differences_lt (sgn : Int) : ∀ (l : List (Int × Nat)) (p : Int), ∀ e ∈ differences sgn p l, e.delta_poc_minus1 < 2 ^ 32 := by
  intro l
  induction l with
  | nil => intro p e he; cases he
  | cons x l ih =>
    obtain ⟨d, f⟩ := x
    intro p e he
    rw [differences] at he
    cases he with
    | head => simp only; omega
    | tail _ he => exact ih d e he

theorem ValidStRefPicSet.wf {idx num : Nat} {prev : List StRefPicSet} {maxNum : Nat} {s : StRefPicSet}
    (h : ValidStRefPicSet idx num prev maxNum s) : RpsWF s := by
  rcases h.2 with hv | ⟨_, hv⟩
  · refine ⟨hv.s0.length.symm, hv.s1.length.symm, fun e he => ?_⟩
    rw [List.mem_append] at he
    rcases he with he | he
    · have := (hv.s0.valid e he).delta_poc_minus1; omega
    · have := (hv.s1.valid e he).delta_poc_minus1; omega
  · refine ⟨hv.num_negative_pics, hv.num_positive_pics, fun e he => ?_⟩
    rw [List.mem_append, hv.derived.s0, hv.derived.s1] at he
    rcases he with he | he
    · exact differences_lt _ _ _ e he
    · exact differences_lt _ _ _ e he

theorem parseStRefPicSets_sound [CondOk H] [OvfOk A] {num maxNum : Nat} (hm : maxNum < 2 ^ 32 - 1) : ∀ (n : Nat) (acc : List StRefPicSet),
    (∀ i s, acc[i]? = some s → ValidStRefPicSet i num (acc.take i) maxNum s) →
    Snd H A (parseStRefPicSets num maxNum n acc) (fun l w => ∃ new, l = acc ++ new ∧ new.length = n ∧
      w = listI (fun i => stRefPicSet i num) acc.length new ∧ ∀ i s, l[i]? = some s → ValidStRefPicSet i num (l.take i) maxNum s) := by
  intro n
  induction n with
  | zero =>
    intro acc hacc
    exact Snd.ret ⟨[], by simp, rfl, by rw [Spec.listI], hacc⟩
  | succ n ih =>
    intro acc hacc
    unfold parseStRefPicSets
    have hwf : ∀ p ∈ acc, RpsWF p := by
      intro p hp
      obtain ⟨i, hi⟩ := List.mem_iff_getElem?.mp hp
      exact ValidStRefPicSet.wf (hacc i p hi)
    refine Codec.snd_bind (parseStRefPicSet_codec (Nat.le_refl _) hwf hm) (fun s hs => ?_)
    have hacc' : ∀ i x, (acc ++ [s])[i]? = some x → ValidStRefPicSet i num ((acc ++ [s]).take i) maxNum x := by
      intro i x hx
      by_cases hi : i < acc.length
      · rw [List.getElem?_append_left hi] at hx
        rw [List.take_append_of_le_length (by omega)]
        exact hacc i x hx
      · have hlt : i < (acc ++ [s]).length := by
          rcases Nat.lt_or_ge i (acc ++ [s]).length with h | h
          · exact h
          · rw [List.getElem?_eq_none h] at hx; cases hx
        rw [List.length_append, List.length_singleton] at hlt
        have he : i = acc.length := by omega
        subst he
        rw [List.getElem?_append_right (Nat.le_refl _), Nat.sub_self] at hx
        simp only [List.getElem?_cons_zero, Option.some.injEq] at hx
        subst hx
        rw [List.take_append_of_le_length (Nat.le_refl _), List.take_of_length_le (Nat.le_refl _)]
        exact hs
    refine Snd.conseq (ih (acc ++ [s]) hacc') ?_
    rintro l w ⟨new, rfl, hl, rfl, hv⟩
    refine ⟨s :: new, by simp, by simp [hl], ?_, hv⟩
    rw [Spec.listI, List.length_append, List.length_singleton]

theorem parseStRefPicSets_complete {num maxNum : Nat} (hm : maxNum < 2 ^ 32 - 1) : ∀ (new acc : List StRefPicSet),
    (∀ i s, (acc ++ new)[i]? = some s → ValidStRefPicSet i num ((acc ++ new).take i) maxNum s) →
    Cmp (parseStRefPicSets num maxNum new.length acc) (acc ++ new) (listI (fun i => stRefPicSet i num) acc.length new) := by
  intro new
  induction new with
  | nil => intro acc _; rw [List.append_nil, Spec.listI]; exact fun r => rfl
  | cons s new ih =>
    intro acc hv
    have hs : ValidStRefPicSet acc.length num acc maxNum s := by
      have := hv acc.length s (by simp)
      rwa [List.take_append_of_le_length (Nat.le_refl _), List.take_of_length_le (Nat.le_refl _)] at this
    have hwf : ∀ p ∈ acc, RpsWF p := by
      intro p hp
      obtain ⟨i, hi⟩ := List.mem_iff_getElem?.mp hp
      have hlt : i < acc.length := by
        rcases Nat.lt_or_ge i acc.length with h | h
        · exact h
        · rw [List.getElem?_eq_none h] at hi; cases hi
      exact ValidStRefPicSet.wf (hv i p (by rw [List.getElem?_append_left hlt]; exact hi))
    rw [Spec.listI]
    refine Codec.cmp_bind (parseStRefPicSet_codec (Nat.le_refl _) hwf hm) rfl hs ?_
    have := ih (acc ++ [s]) (by simpa using hv)
    rw [List.length_append, List.length_singleton, List.append_assoc] at this
    exact this

theorem parseStRefPicSets_codec [CondOk H] [OvfOk A] {num maxNum : Nat} (hm : maxNum < 2 ^ 32 - 1) :
    Codec H A (parseStRefPicSets num maxNum num []) (Spec.stRefPicSets num) (ValidStRefPicSets num maxNum) where
  sound := Snd.conseq (parseStRefPicSets_sound hm num [] (by intro i s h; simp at h)) (by
    rintro l w ⟨new, rfl, hl, rfl, hv⟩
    exact ⟨rfl, hl, hv⟩)
  complete := by
    rintro l ⟨hl, hv⟩
    have := parseStRefPicSets_complete hm l [] (by simpa using hv)
    rw [hl] at this
    exact this
macro_rules | `(tactic| codec) => `(tactic| exact parseStRefPicSets_codec (by omega))
macro_rules | `(tactic| codec) => `(tactic| exact parseStRefPicSets_codec (by decide))

/-! ### meaning of a derived set -/

theorem deltaPocs_differences (sgn : Int) (hs : sgn = 1 ∨ sgn = -1) : ∀ (l : List (Int × Nat)) (p : Int),
    (∀ x ∈ l, 0 < sgn * x.1 ∧ I32 x.1) → 0 ≤ sgn * p → I32 p → (p = 0 → ∀ x, l.head? = some x → x.1 ≠ -(2 ^ 31)) →
    deltaPocs sgn p (differences sgn p l) = l.map (·.1) := by
  intro l
  induction l with
  | nil => intros; rfl
  | cons x l ih =>
    obtain ⟨d, f⟩ := x
    intro p hl hp hp2 h0
    have hd := hl (d, f) List.mem_cons_self
    simp only at hd
    have h0' : p = 0 → d ≠ -(2 ^ 31) := fun h => h0 h (d, f) rfl
    have aux : ∀ y : Int, -(2 ^ 31) ≤ y ∧ y ≤ 2 ^ 31 - 1 → toInt32 ((y % 2 ^ 32).toNat) = y := by
      intro y hy
      unfold toInt32
      split <;> omega
    have key : toInt32 (((sgn * (d - p) - 1) % 2 ^ 32).toNat) + 1 = sgn * (d - p) := by
      unfold I32 at hd hp2
      rw [aux, Int.sub_add_cancel]
      rcases hs with rfl | rfl
      · omega
      · by_cases hpz : p = 0
        · have := h0' hpz; omega
        · omega
    have hsq : p + sgn * (sgn * (d - p)) = d := by
      rcases hs with rfl | rfl <;> omega
    simp only [differences, deltaPocs, List.map_cons]
    rw [key, hsq, ih d (fun x hx => hl x (List.mem_cons_of_mem _ hx)) (Int.le_of_lt hd.1) hd.2 (by intro hz; subst hz; omega)]

theorem derived_bounds {ref s : StRefPicSet} (hf : DeriveFits ref s)
    (hrps : I32 (deltaRps s)) :
    (∀ x ∈ derivedS0 ref s, 0 < -1 * x.1 ∧ I32 x.1) ∧ (∀ x ∈ derivedS1 ref s, 0 < 1 * x.1 ∧ I32 x.1) := by
  constructor
  · intro x hx
    unfold derivedS0 at hx
    rw [List.mem_map] at hx
    obtain ⟨c, hc, rfl⟩ := hx
    rw [List.mem_filter] at hc
    have h1 : c.1 + deltaRps s < 0 := by simp at hc; omega
    refine ⟨by simp only; omega, ?_⟩
    have hc := hc.1
    unfold candS0 at hc
    simp only [List.mem_append, List.mem_reverse, List.mem_cons] at hc
    rcases hc with hc | hc | hc
    · exact (hf.pocs _ (List.mem_append_right _ (List.of_mem_zip hc).1)).2
    · subst hc; simpa using hrps
    · exact (hf.pocs _ (List.mem_append_left _ (List.of_mem_zip hc).1)).2
  · intro x hx
    unfold derivedS1 at hx
    rw [List.mem_map] at hx
    obtain ⟨c, hc, rfl⟩ := hx
    rw [List.mem_filter] at hc
    have h1 : c.1 + deltaRps s > 0 := by simp at hc; omega
    refine ⟨by simp only; omega, ?_⟩
    have hc := hc.1
    unfold candS1 at hc
    simp only [List.mem_append, List.mem_reverse, List.mem_cons] at hc
    rcases hc with hc | hc | hc
    · exact (hf.pocs _ (List.mem_append_left _ (List.of_mem_zip hc).1)).2
    · subst hc; simpa using hrps
    · exact (hf.pocs _ (List.mem_append_right _ (List.of_mem_zip hc).1)).2

theorem deltaRps_I32 {s : StRefPicSet} (hs : s.delta_rps_sign < 2) (ha : s.abs_delta_rps_minus1 ≤ 32767) : -32768 ≤ deltaRps s ∧ deltaRps s ≤ 32768 := by
  unfold deltaRps
  generalize s.abs_delta_rps_minus1 = a at ha
  rcases (by omega : s.delta_rps_sign = 0 ∨ s.delta_rps_sign = 1) with h | h <;> rw [h] <;> constructor <;> omega

/-- The POC differences of a derived set are those of equations 7-61 and 7-62. -/
theorem derived_pocs {ref s : StRefPicSet} (hd : DerivedFrom ref s)
    (hs : s.delta_rps_sign < 2) (ha : s.abs_delta_rps_minus1 ≤ 32767) :
    deltaPocs (-1) 0 s.s0 = (derivedS0 ref s).map (·.1) ∧ deltaPocs 1 0 s.s1 = (derivedS1 ref s).map (·.1) := by
  have hr := deltaRps_I32 hs ha
  obtain ⟨b0, b1⟩ := derived_bounds hd.fits (by unfold I32; omega)
  rw [hd.s0, hd.s1]
  refine ⟨deltaPocs_differences (-1) (Or.inr rfl) _ 0 b0 (by decide) (by decide) (fun _ => hd.fits.first), ?_⟩
  refine deltaPocs_differences 1 (Or.inl rfl) _ 0 b1 (by decide) (by decide) (fun _ x hx => ?_)
  have := b1 x (List.mem_of_mem_head? hx)
  omega

theorem differences_length (sgn : Int) : ∀ (l : List (Int × Nat)) (p : Int), (differences sgn p l).length = l.length := by
  intro l
  induction l with
  | nil => intro p; rfl
  | cons x l ih => obtain ⟨d, f⟩ := x; intro p; simp [differences, ih]

theorem derived_lengths {ref s : StRefPicSet} :
    (derivedS0 ref s).length + (derivedS1 ref s).length ≤ ref.s0.length + ref.s1.length + 1 := by
  have h : ∀ (l : List (Int × RpsFlags)), (l.filter fun c => decide (c.1 + deltaRps s < 0) && decide (c.2.use_delta_flag ≠ 0)).length +
      (l.filter fun c => decide (c.1 + deltaRps s > 0) && decide (c.2.use_delta_flag ≠ 0)).length ≤ l.length := by
    intro l
    induction l with
    | nil => simp
    | cons c l ih =>
      rw [List.filter_cons, List.filter_cons]
      by_cases h1 : c.1 + deltaRps s < 0
      · have h2 : ¬ c.1 + deltaRps s > 0 := by omega
        simp only [h1, h2, decide_true, decide_false, Bool.true_and, Bool.false_and, Bool.false_eq_true, if_false]
        split <;> simp only [List.length_cons] <;> omega
      · simp only [h1, decide_false, Bool.false_and, Bool.false_eq_true, if_false]
        split <;> simp only [List.length_cons] <;> omega
  have hp : (candS1 ref s.flags).Perm (candS0 ref s.flags) := by
    unfold candS0 candS1
    refine List.perm_append_comm.trans ?_
    rw [List.cons_append]
    refine List.Perm.trans ?_ (List.perm_middle).symm
    refine List.Perm.cons _ ?_
    exact List.Perm.append (List.reverse_perm _).symm (List.reverse_perm _)
  have hl : (candS0 ref s.flags).length ≤ ref.s0.length + ref.s1.length + 1 := by
    unfold candS0
    simp only [List.length_append, List.length_reverse, List.length_zip, List.length_cons, deltaPocs_length]
    omega
  have := h (candS0 ref s.flags)
  unfold derivedS0 derivedS1
  rw [List.length_map, List.length_map, (hp.filter _).length_eq]
  omega

end H265
