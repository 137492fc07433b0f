import Verif.Model.Scaling
import Verif.Proof.Tactic
import Verif.Proof.Rps

namespace H265
open Spec
codec_opaque

variable {H : Cond} {A : Bad → Prop}

theorem int32_ok {x : Int} (h1 : -(2 ^ 31) ≤ x) (h2 : x ≤ 2 ^ 31 - 1) : Prog.int32 x = Prog.ret x := by
  rw [int32_eq, if_pos ⟨h1, h2⟩]

theorem parseScalingCoefs_codec [CondOk H] [SeOk H] [OvfOk A] : ∀ {n : Nat} {next : Int}, -(2 ^ 31) < next → next < 2 ^ 30 + 9 →
    Codec H A (parseScalingCoefs n next) (list fun c => se c.delta) (fun l => l.length = n ∧ CoefsFrom next l) := by
  intro n
  induction n with
  | zero =>
    intro next _ _
    refine ⟨Snd.ret ⟨?_, rfl, trivial⟩, ?_⟩
    · simp [Spec.list]
    · rintro l ⟨hl, _⟩
      rw [List.length_eq_zero_iff] at hl
      subst hl
      intro r; simp [Spec.list, parseScalingCoefs]
  | succ n ih =>
    intro next hn1 hn2
    constructor
    · unfold parseScalingCoefs
      refine Codec.snd_bind sev_codec' (fun d hd => ?_)
      by_cases hf : -(2 ^ 31) ≤ next + d ∧ next + d + 256 ≤ 2 ^ 31 - 1
      · rw [int32_ok (by omega) (by omega), Prog.bind_def, Prog.ret_bind, int32_ok (by omega) (by omega), Prog.bind_def, Prog.ret_bind]
        have hc : (((next + d + 256) % 256).toNat : Int) = (next + d + 256) % 256 := by omega
        refine Codec.snd_bind (ih (by omega) (by omega)) (fun l hl => ?_)
        refine Snd.pure ⟨?_, ?_, hd, hf, hc, hl.2⟩
        · simp [Spec.list]
        · simp [hl.1]
      · rw [int32_eq]
        by_cases hf1 : I32 (next + d)
        · rw [if_pos hf1, Prog.bind_def, Prog.ret_bind, int32_eq, if_neg (by unfold I32 at *; omega), Prog.bind_def, Prog.bad_bind]
          exact Snd.bad OvfOk.ovf
        · rw [if_neg hf1, Prog.bind_def, Prog.bad_bind]
          exact Snd.bad OvfOk.ovf
    · rintro l ⟨hl, hv⟩
      cases l with
      | nil => simp at hl
      | cons c l =>
        obtain ⟨hd, hf, hc, hl2⟩ := hv
        have hl' : l.length = n := by simpa using hl
        unfold parseScalingCoefs
        refine Codec.cmp_bind sev_codec' (a := c.delta) (w' := list (fun c => se c.delta) l ++ []) (by simp [Spec.list]) hd ?_
        rw [int32_ok (by omega) (by omega), Prog.bind_def, Prog.ret_bind, int32_ok (by omega) (by omega), Prog.bind_def, Prog.ret_bind]
        have hcc : ((next + c.delta + 256) % 256).toNat = c.coef := by omega
        rw [hcc]
        refine Cmp.bind ((ih (by omega) (by omega)).complete l ⟨hl', hl2⟩) ?_
        exact Cmp.pure

theorem parseScalingMatrix_codec [CondOk H] [SeOk H] [OvfOk A] {sizeId : Nat} :
    Codec H A (parseScalingMatrix sizeId) (Spec.scalingMatrix sizeId) (ValidScalingMatrix sizeId) := by
  have hstart : ∀ dc : Int, -(2 ^ 31) < dc → dc < 2 ^ 30 →
      startCoef sizeId dc = Prog.ret (if sizeId > 1 then dc + 8 else 8) := by
    intro dc h1 h2
    unfold startCoef
    split
    · exact int32_ok (by omega) (by omega)
    · rfl
  have hopt : ∀ (c : Prop) (dc : Int), Opt c (-(2 ^ 31) < dc ∧ dc < 2 ^ 30) (dc = 0) → -(2 ^ 31) < dc ∧ dc < 2 ^ 30 := by
    intro c dc h
    by_cases hc : c
    · exact h.present hc
    · have := h.absent hc; omega
  constructor
  · unfold parseScalingMatrix
    snd_step; snd_step; snd_step
    rename_i fl h1 md h2 dc h3
    have hb := hopt _ _ h3
    rw [hstart dc hb.1 hb.2, Prog.bind_def, Prog.ret_bind]
    refine Codec.snd_bind (parseScalingCoefs_codec (by split <;> omega) (by split <;> omega)) (fun l hl => ?_)
    refine Snd.pure ⟨?_, ?_⟩
    · simp [Spec.scalingMatrix, Spec.seq]
    · exact ⟨h1, h2, h3, hl.1, hl.2⟩
  · rintro ⟨fl, md, dc, l⟩ ⟨h1, h2, h3, h4, h5⟩
    simp only at *
    unfold parseScalingMatrix
    simp only [Spec.scalingMatrix, Spec.seq, List.flatten_cons, List.flatten_nil]
    cmp_step; cmp_step; cmp_step
    have hb := hopt _ _ h3
    rw [hstart dc hb.1 hb.2, Prog.bind_def, Prog.ret_bind]
    refine Codec.cmp_bind (a := l) (parseScalingCoefs_codec (by split <;> omega) (by split <;> omega)) rfl ⟨h4, h5⟩ ?_
    exact Cmp.pure
macro_rules | `(tactic| codec) => `(tactic| exact parseScalingMatrix_codec)

theorem parseScalingListData_codec [CondOk H] [SeOk H] [OvfOk A] :
    Codec H A parseScalingListData Spec.scalingListData ValidScalingListData where
  sound := by
    unfold parseScalingListData
    refine Codec.snd_bind (W := listI (fun sizeId => list (scalingMatrix sizeId)) 0)
      (V := EachI 4 (fun sizeId => Each (if sizeId = 3 then 2 else 6) (ValidScalingMatrix sizeId))) (by codec) (fun l hl => ?_)
    refine Snd.pure ⟨?_, hl⟩
    simp [Spec.scalingListData]
  complete := by
    rintro ⟨l⟩ hl
    unfold parseScalingListData
    refine Codec.cmp_bind (W := listI (fun sizeId => list (scalingMatrix sizeId)) 0)
      (V := EachI 4 (fun sizeId => Each (if sizeId = 3 then 2 else 6) (ValidScalingMatrix sizeId))) (a := l) (w' := []) (by codec) ?_ hl ?_
    · simp [Spec.scalingListData]
    · exact Cmp.pure
macro_rules | `(tactic| codec) => `(tactic| exact parseScalingListData_codec)

end H265
