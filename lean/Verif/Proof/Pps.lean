import Verif.Model.Pps
import Verif.Proof.Scaling

namespace H265
open Spec
codec_opaque

variable {H : Cond} {A : Bad → Prop}

theorem parseRefLayerOffsets_codec [CondOk H] [SeOk H] [OvfOk A] :
    Codec H A parseRefLayerOffsets Spec.refLayerOffsets ValidRefLayerOffsets where
  sound := by
    unfold parseRefLayerOffsets; snd_all
    refine Snd.pure ⟨?_, ?_⟩
    · simp [Spec.refLayerOffsets, Spec.seq]
    · constructor <;> assumption
  complete := by
    rintro ⟨⟩ ⟨⟩
    simp only at *
    unfold parseRefLayerOffsets
    simp only [Spec.refLayerOffsets, Spec.seq, List.flatten_cons, List.flatten_nil]
    cmp_all
    exact Cmp.pure

macro_rules | `(tactic| codec) => `(tactic| exact parseRefLayerOffsets_codec)

theorem parseRefRegionOffsets_codec [CondOk H] [SeOk H] [OvfOk A] :
    Codec H A parseRefRegionOffsets Spec.refRegionOffsets ValidRefRegionOffsets where
  sound := by
    unfold parseRefRegionOffsets; snd_all
    refine Snd.pure ⟨?_, ?_⟩
    · simp [Spec.refRegionOffsets, Spec.seq]
    · constructor <;> assumption
  complete := by
    rintro ⟨⟩ ⟨⟩
    simp only at *
    unfold parseRefRegionOffsets
    simp only [Spec.refRegionOffsets, Spec.seq, List.flatten_cons, List.flatten_nil]
    cmp_all
    exact Cmp.pure

macro_rules | `(tactic| codec) => `(tactic| exact parseRefRegionOffsets_codec)

theorem parseResamplePhase_codec [CondOk H] [SeOk H] [OvfOk A] :
    Codec H A parseResamplePhase Spec.resamplePhase ValidResamplePhase where
  sound := by
    unfold parseResamplePhase; snd_all
    refine Snd.pure ⟨?_, ?_⟩
    · simp [Spec.resamplePhase, Spec.seq]
    · constructor <;> assumption
  complete := by
    rintro ⟨⟩ ⟨⟩
    simp only at *
    unfold parseResamplePhase
    simp only [Spec.resamplePhase, Spec.seq, List.flatten_cons, List.flatten_nil]
    cmp_all
    exact Cmp.pure

macro_rules | `(tactic| codec) => `(tactic| exact parseResamplePhase_codec)

theorem parseRefLocOffset_codec [CondOk H] [SeOk H] [OvfOk A] :
    Codec H A parseRefLocOffset Spec.refLocOffset ValidRefLocOffset where
  sound := by
    unfold parseRefLocOffset; snd_all
    refine Snd.pure ⟨?_, ?_⟩
    · simp [Spec.refLocOffset, Spec.seq]
    · constructor <;> assumption
  complete := by
    rintro ⟨⟩ ⟨⟩
    simp only at *
    unfold parseRefLocOffset
    simp only [Spec.refLocOffset, Spec.seq, List.flatten_cons, List.flatten_nil]
    cmp_all
    exact Cmp.pure

macro_rules | `(tactic| codec) => `(tactic| exact parseRefLocOffset_codec)

theorem parsePpsMultilayerExtension_codec [CondOk H] [SeOk H] [OvfOk A] :
    Codec H A parsePpsMultilayerExtension Spec.ppsMultilayerExtension ValidPpsMultilayerExtension where
  sound := by
    unfold parsePpsMultilayerExtension; snd_all
    refine Snd.pure ⟨?_, ?_⟩
    · simp [Spec.ppsMultilayerExtension, Spec.seq]
    · constructor <;> assumption
  complete := by
    rintro ⟨⟩ ⟨⟩
    simp only at *
    unfold parsePpsMultilayerExtension
    simp only [Spec.ppsMultilayerExtension, Spec.seq, List.flatten_cons, List.flatten_nil]
    cmp_all
    exact Cmp.pure

macro_rules | `(tactic| codec) => `(tactic| exact parsePpsMultilayerExtension_codec)

theorem uVar_codec {n : Nat} : Codec H A (uVar n) (Spec.u n) (ValidUVar n) where
  sound := by
    unfold uVar
    refine Snd.check_bind fun h0 => ?_
    by_cases h : n ≤ 32
    · refine Snd.conseq (u_codec (by omega) h).sound ?_
      rintro a w ⟨h1, h2⟩; exact ⟨h1, by omega, h, h2⟩
    · intro r
      rw [Prog.denote_u (by omega), if_neg (by omega)]; trivial
  complete := by
    intro v hv
    unfold uVar
    exact Cmp.check_bind (by have := hv.pos; omega) ((u_codec (H := Cond.any) (A := fun _ => False) hv.pos hv.le).complete v hv.lt)
macro_rules | `(tactic| codec) => `(tactic| exact uVar_codec)

theorem parsePpsSccExtension_codec [CondOk H] [SeOk H] [OvfOk A] :
    Codec H A parsePpsSccExtension Spec.ppsSccExtension ValidPpsSccExtension where
  sound := by
    unfold parsePpsSccExtension; snd_all
    refine Snd.pure ⟨?_, ?_⟩
    · simp [Spec.ppsSccExtension, Spec.seq]
    · constructor <;> assumption
  complete := by
    rintro ⟨⟩ ⟨⟩
    simp only at *
    unfold parsePpsSccExtension
    simp only [Spec.ppsSccExtension, Spec.seq, List.flatten_cons, List.flatten_nil]
    cmp_all
    exact Cmp.pure

macro_rules | `(tactic| codec) => `(tactic| exact parsePpsSccExtension_codec)

theorem parsePpsHead_codec [CondOk H] [SeOk H] [OvfOk A] :
    Codec H A parsePpsHead Spec.ppsHead ValidPpsHead where
  sound := by
    unfold parsePpsHead; snd_all
    refine Snd.pure ⟨?_, ?_⟩
    · simp [Spec.ppsHead, Spec.seq]
    · constructor <;> assumption
  complete := by
    rintro ⟨⟩ ⟨⟩
    simp only at *
    unfold parsePpsHead
    simp only [Spec.ppsHead, Spec.seq, List.flatten_cons, List.flatten_nil]
    cmp_all
    exact Cmp.pure

macro_rules | `(tactic| codec) => `(tactic| exact parsePpsHead_codec)

end H265
