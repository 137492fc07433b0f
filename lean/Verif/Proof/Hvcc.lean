import Verif.Model.Hvcc
import Verif.Proof.Headers

namespace H265
open Spec
codec_opaque

variable {H : Cond} {A : Bad → Prop}

theorem parseHvccHeader_codec [CondOk H] :
    Codec H A parseHvccHeader Spec.hvccHeader ValidHvccHeader where
  sound := by
    unfold parseHvccHeader; snd_all
    refine Snd.pure ⟨?_, ?_⟩
    · simp [Spec.hvccHeader, Spec.seq]
    · constructor <;> assumption
  complete := by
    rintro ⟨⟩ ⟨⟩
    simp only at *
    unfold parseHvccHeader
    simp only [Spec.hvccHeader, Spec.seq, List.flatten_cons, List.flatten_nil]
    cmp_all
    exact Cmp.pure

macro_rules | `(tactic| codec) => `(tactic| exact parseHvccHeader_codec)

theorem parseHvccArrayHead_codec [CondOk H] :
    Codec H A parseHvccArrayHead Spec.hvccArrayHead ValidHvccArrayHead where
  sound := by
    unfold parseHvccArrayHead; snd_all
    refine Snd.pure ⟨?_, ?_⟩
    · simp [Spec.hvccArrayHead, Spec.seq]
    · constructor <;> assumption
  complete := by
    rintro ⟨⟩ ⟨⟩
    simp only at *
    unfold parseHvccArrayHead
    simp only [Spec.hvccArrayHead, Spec.seq, List.flatten_cons, List.flatten_nil]
    cmp_all
    exact Cmp.pure

macro_rules | `(tactic| codec) => `(tactic| exact parseHvccArrayHead_codec)

end H265
