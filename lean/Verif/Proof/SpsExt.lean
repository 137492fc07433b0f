import Verif.Model.SpsExt
import Verif.Proof.Tactic

namespace H265
open Spec
codec_opaque

variable {H : Cond} {A : Bad → Prop}

macro_rules | `(tactic| codec) => `(tactic| exact u_codec (by split <;> omega) (by split <;> omega))

theorem parseSpsRangeExtension_codec [CondOk H] :
    Codec H A parseSpsRangeExtension Spec.spsRangeExtension ValidSpsRangeExtension where
  sound := by
    unfold parseSpsRangeExtension; snd_all
    refine Snd.pure ⟨?_, ?_⟩
    · simp [Spec.spsRangeExtension, Spec.seq]
    · constructor <;> assumption
  complete := by
    rintro ⟨⟩ ⟨⟩
    simp only at *
    unfold parseSpsRangeExtension
    simp only [Spec.spsRangeExtension, Spec.seq, List.flatten_cons, List.flatten_nil]
    cmp_all
    exact Cmp.pure

macro_rules | `(tactic| codec) => `(tactic| exact parseSpsRangeExtension_codec)

theorem parseSpsMultilayerExtension_codec [CondOk H] :
    Codec H A parseSpsMultilayerExtension Spec.spsMultilayerExtension ValidSpsMultilayerExtension where
  sound := by
    unfold parseSpsMultilayerExtension; snd_all
    refine Snd.pure ⟨?_, ?_⟩
    · simp [Spec.spsMultilayerExtension, Spec.seq]
    · constructor <;> assumption
  complete := by
    rintro ⟨⟩ ⟨⟩
    simp only at *
    unfold parseSpsMultilayerExtension
    simp only [Spec.spsMultilayerExtension, Spec.seq, List.flatten_cons, List.flatten_nil]
    cmp_all
    exact Cmp.pure

macro_rules | `(tactic| codec) => `(tactic| exact parseSpsMultilayerExtension_codec)

theorem parseSps3dExtension_codec [CondOk H] :
    Codec H A parseSps3dExtension Spec.sps3dExtension ValidSps3dExtension where
  sound := by
    unfold parseSps3dExtension; snd_all
    refine Snd.pure ⟨?_, ?_⟩
    · simp [Spec.sps3dExtension, Spec.seq]
    · constructor <;> assumption
  complete := by
    rintro ⟨⟩ ⟨⟩
    simp only at *
    unfold parseSps3dExtension
    simp only [Spec.sps3dExtension, Spec.seq, List.flatten_cons, List.flatten_nil]
    cmp_all
    exact Cmp.pure

macro_rules | `(tactic| codec) => `(tactic| exact parseSps3dExtension_codec)

theorem parseSpsSccExtension_codec [CondOk H] {chroma_format_idc bit_depth_luma_minus8 bit_depth_chroma_minus8 : Nat} (hl : bit_depth_luma_minus8 ≤ 24) (hc : bit_depth_chroma_minus8 ≤ 24) :
    Codec H A (parseSpsSccExtension chroma_format_idc bit_depth_luma_minus8 bit_depth_chroma_minus8) (Spec.spsSccExtension bit_depth_luma_minus8 bit_depth_chroma_minus8) (ValidSpsSccExtension chroma_format_idc bit_depth_luma_minus8 bit_depth_chroma_minus8) where
  sound := by
    unfold parseSpsSccExtension; snd_all
    refine Snd.pure ⟨?_, ?_⟩
    · simp [Spec.spsSccExtension, Spec.seq]
    · constructor <;> assumption
  complete := by
    rintro ⟨⟩ ⟨⟩
    simp only at *
    unfold parseSpsSccExtension
    simp only [Spec.spsSccExtension, Spec.seq, List.flatten_cons, List.flatten_nil]
    cmp_all
    exact Cmp.pure

macro_rules | `(tactic| codec) => `(tactic| exact parseSpsSccExtension_codec (by omega) (by omega))

end H265
