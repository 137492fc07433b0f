import Verif.Model.Hrd
import Verif.Proof.Tactic

namespace H265
open Spec
codec_opaque

variable {H : Cond} {A : Bad → Prop}

theorem parseSubLayerHrdEntry_codec [CondOk H] {sub_pic : Nat} :
    Codec H A (parseSubLayerHrdEntry sub_pic) (Spec.subLayerHrdEntry sub_pic) (ValidSubLayerHrdEntry sub_pic) where
  sound := by
    unfold parseSubLayerHrdEntry; snd_all
    refine Snd.pure ⟨?_, ?_⟩
    · simp [Spec.subLayerHrdEntry, Spec.seq]
    · constructor <;> assumption
  complete := by
    rintro ⟨⟩ ⟨⟩
    simp only at *
    unfold parseSubLayerHrdEntry
    simp only [Spec.subLayerHrdEntry, Spec.seq, List.flatten_cons, List.flatten_nil]
    cmp_all
    exact Cmp.pure

macro_rules | `(tactic| codec) => `(tactic| exact parseSubLayerHrdEntry_codec)

theorem parseHrdSubLayer_codec [CondOk H] {nal vcl sub_pic : Nat} :
    Codec H A (parseHrdSubLayer nal vcl sub_pic) (Spec.hrdSubLayer sub_pic) (ValidHrdSubLayer nal vcl sub_pic) where
  sound := by
    unfold parseHrdSubLayer; snd_all
    refine Snd.pure ⟨?_, ?_⟩
    · simp [Spec.hrdSubLayer, Spec.seq]
    · constructor <;> assumption
  complete := by
    rintro ⟨⟩ ⟨⟩
    simp only at *
    unfold parseHrdSubLayer
    simp only [Spec.hrdSubLayer, Spec.seq, List.flatten_cons, List.flatten_nil]
    cmp_all
    exact Cmp.pure

macro_rules | `(tactic| codec) => `(tactic| exact parseHrdSubLayer_codec)

theorem parseHrdParameters_codec [CondOk H] {common max_sub : Nat} :
    Codec H A (parseHrdParameters common max_sub) (Spec.hrdParameters common) (ValidHrdParameters common max_sub) where
  sound := by
    unfold parseHrdParameters; snd_all
    refine Snd.pure ⟨?_, ?_⟩
    · simp [Spec.hrdParameters, Spec.seq]
    · constructor <;> assumption
  complete := by
    rintro ⟨⟩ ⟨⟩
    simp only at *
    unfold parseHrdParameters
    simp only [Spec.hrdParameters, Spec.seq, List.flatten_cons, List.flatten_nil]
    cmp_all
    exact Cmp.pure

macro_rules | `(tactic| codec) => `(tactic| exact parseHrdParameters_codec)

end H265
