import Verif.Model.Vui
import Verif.Proof.Hrd

namespace H265
open Spec
codec_opaque

variable {H : Cond} {A : Bad → Prop}

theorem parseVuiParameters_codec [CondOk H] {max_sub : Nat} :
    Codec H A (parseVuiParameters max_sub) Spec.vuiParameters (ValidVuiParameters max_sub) where
  sound := by
    unfold parseVuiParameters; snd_all
    refine Snd.pure ⟨?_, ?_⟩
    · simp [Spec.vuiParameters, Spec.seq]
    · constructor <;> assumption
  complete := by
    rintro ⟨⟩ ⟨⟩
    simp only at *
    unfold parseVuiParameters
    simp only [Spec.vuiParameters, Spec.seq, List.flatten_cons, List.flatten_nil]
    cmp_all
    exact Cmp.pure

macro_rules | `(tactic| codec) => `(tactic| exact parseVuiParameters_codec)

end H265
