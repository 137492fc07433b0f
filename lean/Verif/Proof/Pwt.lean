import Verif.Model.Pwt
import Verif.Proof.Tactic

namespace H265
open Spec
codec_opaque

variable {H : Cond} {A : Bad → Prop}

theorem parseLumaWeight_codec [CondOk H] [SeOk H] [OvfOk A] :
    Codec H A parseLumaWeight Spec.lumaWeight ValidLumaWeight where
  sound := by
    unfold parseLumaWeight; snd_all
    refine Snd.pure ⟨?_, ?_⟩
    · simp [Spec.lumaWeight, Spec.seq]
    · constructor <;> assumption
  complete := by
    rintro ⟨⟩ ⟨⟩
    simp only at *
    unfold parseLumaWeight
    simp only [Spec.lumaWeight, Spec.seq, List.flatten_cons, List.flatten_nil]
    cmp_all
    exact Cmp.pure

macro_rules | `(tactic| codec) => `(tactic| exact parseLumaWeight_codec)

theorem parseChromaWeight_codec [CondOk H] [SeOk H] [OvfOk A] :
    Codec H A parseChromaWeight Spec.chromaWeight ValidChromaWeight where
  sound := by
    unfold parseChromaWeight; snd_all
    refine Snd.pure ⟨?_, ?_⟩
    · simp [Spec.chromaWeight, Spec.seq]
    · constructor <;> assumption
  complete := by
    rintro ⟨⟩ ⟨⟩
    simp only at *
    unfold parseChromaWeight
    simp only [Spec.chromaWeight, Spec.seq, List.flatten_cons, List.flatten_nil]
    cmp_all
    exact Cmp.pure

macro_rules | `(tactic| codec) => `(tactic| exact parseChromaWeight_codec)

theorem parsePredWeight_codec [CondOk H] [SeOk H] [OvfOk A] {luma_flag chroma_flag : Nat} :
    Codec H A (parsePredWeight luma_flag chroma_flag) Spec.predWeight (ValidPredWeight luma_flag chroma_flag) where
  sound := by
    unfold parsePredWeight; snd_all
    refine Snd.pure ⟨?_, ?_⟩
    · simp [Spec.predWeight, Spec.seq]
    · constructor <;> assumption
  complete := by
    rintro ⟨⟩ ⟨⟩
    simp only at *
    unfold parsePredWeight
    simp only [Spec.predWeight, Spec.seq, List.flatten_cons, List.flatten_nil]
    cmp_all
    exact Cmp.pure

macro_rules | `(tactic| codec) => `(tactic| exact parsePredWeight_codec)

theorem parsePredWeightAt_codec [CondOk H] [SeOk H] [OvfOk A] {cat : Nat} {luma chroma : List Nat} {i n : Nat} (hi : i < n)
    (hl : luma.length = n) (hc : Opt (cat ≠ 0) (Each n (· < 2 ^ 1) chroma) (chroma = [])) :
    Codec H A (parsePredWeightAt cat luma chroma i) Spec.predWeight (ValidPredWeight (luma.getD i 0) (chroma.getD i 0)) := by
  unfold parsePredWeightAt
  have e1 : ∀ f : Nat → Prog PredWeight, (Prog.at' luma i).bind f = f (luma.getD i 0) := fun f => at_bind (by omega) 0 f
  rw [e1]
  by_cases h : cat ≠ 0
  · rw [if_pos h]
    have hl := (hc.present h).length
    have e2 : ∀ f : Nat → Prog PredWeight, (Prog.at' chroma i).bind f = f (chroma.getD i 0) := fun f => at_bind (by omega) 0 f
    rw [e2]; exact parsePredWeight_codec
  · rw [if_neg h, hc.absent h]; exact parsePredWeight_codec

theorem parsePredWeightTable_codec [CondOk H] [SeOk H] [OvfOk A] {cat n : Nat} :
    Codec H A (parsePredWeightTable cat n) (Spec.predWeightTable cat) (ValidPredWeightTable cat n) where
  sound := by
    unfold parsePredWeightTable
    snd_step; snd_step; snd_step; snd_step
    rename_i lf hlf cf hcf
    refine Codec.snd_bind (repI0_codec' fun i hi => parsePredWeightAt_codec hi hlf.length hcf) (fun w hw => ?_)
    refine Snd.pure ⟨?_, ?_⟩
    · simp [Spec.predWeightTable, Spec.seq]
    · constructor <;> assumption
  complete := by
    rintro ⟨⟩ ⟨⟩
    rename_i hlf hcf hw
    simp only at *
    unfold parsePredWeightTable
    simp only [Spec.predWeightTable, Spec.seq, List.flatten_cons, List.flatten_nil]
    cmp_step; cmp_step; cmp_step; cmp_step
    refine Codec.cmp_bind (repI0_codec' fun i hi => parsePredWeightAt_codec hi hlf.length hcf) rfl hw ?_
    exact Cmp.pure

macro_rules | `(tactic| codec) => `(tactic| exact parsePredWeightTable_codec)

end H265
