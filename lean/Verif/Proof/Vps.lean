import Verif.Model.Vps
import Verif.Proof.Hrd
import Verif.Proof.Headers

namespace H265
open Spec
codec_opaque

variable {H : Cond} {A : Bad → Prop}

theorem parseSubLayerOrdering_codec [CondOk H] :
    Codec H A parseSubLayerOrdering Spec.subLayerOrdering ValidSubLayerOrdering where
  sound := by
    unfold parseSubLayerOrdering; snd_all
    refine Snd.pure ⟨?_, ?_⟩
    · simp [Spec.subLayerOrdering, Spec.seq]
    · constructor <;> assumption
  complete := by
    rintro ⟨⟩ ⟨⟩
    simp only at *
    unfold parseSubLayerOrdering
    simp only [Spec.subLayerOrdering, Spec.seq, List.flatten_cons, List.flatten_nil]
    cmp_all
    exact Cmp.pure

macro_rules | `(tactic| codec) => `(tactic| exact parseSubLayerOrdering_codec)

theorem parseVpsHrd_codec [CondOk H] {i max_sub : Nat} :
    Codec H A (parseVpsHrd i max_sub) (Spec.vpsHrd i) (ValidVpsHrd i max_sub) where
  sound := by
    unfold parseVpsHrd; snd_all
    refine Snd.pure ⟨?_, ?_⟩
    · simp [Spec.vpsHrd, Spec.seq]
    · constructor <;> assumption
  complete := by
    rintro ⟨⟩ ⟨⟩
    simp only at *
    unfold parseVpsHrd
    simp only [Spec.vpsHrd, Spec.seq, List.flatten_cons, List.flatten_nil]
    cmp_all
    exact Cmp.pure

macro_rules | `(tactic| codec) => `(tactic| exact parseVpsHrd_codec)

theorem parseVpsBody_codec [CondOk H] :
    Codec H A parseVpsBody Spec.vpsBody ValidVpsBody where
  sound := by
    unfold parseVpsBody; snd_all
    refine Snd.pure ⟨?_, ?_⟩
    · simp [Spec.vpsBody, Spec.seq]
    · constructor <;> assumption
  complete := by
    rintro ⟨⟩ ⟨⟩
    simp only at *
    unfold parseVpsBody
    simp only [Spec.vpsBody, Spec.seq, List.flatten_cons, List.flatten_nil]
    cmp_all
    exact Cmp.pure

macro_rules | `(tactic| codec) => `(tactic| exact parseVpsBody_codec)

end H265
