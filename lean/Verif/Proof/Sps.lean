import Verif.Model.Sps
import Verif.Proof.Vui
import Verif.Proof.Headers
import Verif.Proof.SpsExt
import Verif.Proof.Scaling
import Verif.Proof.Rps

namespace H265
open Spec
codec_opaque

variable {H : Cond} {A : Bad → Prop}

theorem parseSpsSubLayerOrdering_codec [CondOk H] :
    Codec H A parseSpsSubLayerOrdering Spec.spsSubLayerOrdering ValidSpsSubLayerOrdering where
  sound := by
    unfold parseSpsSubLayerOrdering; snd_all
    refine Snd.pure ⟨?_, ?_⟩
    · simp [Spec.spsSubLayerOrdering, Spec.seq]
    · constructor <;> assumption
  complete := by
    rintro ⟨⟩ ⟨⟩
    simp only at *
    unfold parseSpsSubLayerOrdering
    simp only [Spec.spsSubLayerOrdering, Spec.seq, List.flatten_cons, List.flatten_nil]
    cmp_all
    exact Cmp.pure

macro_rules | `(tactic| codec) => `(tactic| exact parseSpsSubLayerOrdering_codec)

theorem parseLtRefPicSps_codec [CondOk H] {len : Nat} (h : 0 < len ∧ len ≤ 32) :
    Codec H A (parseLtRefPicSps len) (Spec.ltRefPicSps len) (ValidLtRefPicSps len) where
  sound := by
    unfold parseLtRefPicSps; snd_all
    refine Snd.pure ⟨?_, ?_⟩
    · simp [Spec.ltRefPicSps, Spec.seq]
    · constructor <;> assumption
  complete := by
    rintro ⟨⟩ ⟨⟩
    simp only at *
    unfold parseLtRefPicSps
    simp only [Spec.ltRefPicSps, Spec.seq, List.flatten_cons, List.flatten_nil]
    cmp_all
    exact Cmp.pure

macro_rules | `(tactic| codec) => `(tactic| exact parseLtRefPicSps_codec (by omega))

theorem parseSpsBody_codec [CondOk H] [SeOk H] [OvfOk A] :
    Codec H A parseSpsBody Spec.spsBody ValidSpsBody where
  sound := by
    unfold parseSpsBody; snd_all
    refine Snd.pure ⟨?_, ?_⟩
    · simp [Spec.spsBody, Spec.seq]
    · constructor <;> assumption
  complete := by
    rintro ⟨⟩ ⟨⟩
    simp only at *
    unfold parseSpsBody
    simp only [Spec.spsBody, Spec.seq, List.flatten_cons, List.flatten_nil]
    cmp_all
    exact Cmp.pure

macro_rules | `(tactic| codec) => `(tactic| exact parseSpsBody_codec)

end H265
