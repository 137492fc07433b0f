import Verif.Model.Sei
import Verif.Proof.Pps

namespace H265
open Spec
codec_opaque

variable {H : Cond} {A : Bad → Prop}

/-- fields of a width that may exceed 32 bits, in which case the reader fails -/
theorem uAny_codec {n : Nat} (h0 : 0 < n) : Codec H A (Prog.uAny n) (Spec.u n) (ValidUVar n) where
  sound := by
    unfold Prog.uAny
    by_cases h : n ≤ 32
    · exact Snd.conseq (u_codec h0 h).sound (fun v w hv => ⟨hv.1, h0, h, hv.2⟩)
    · exact Snd.u_big (by omega)
  complete := fun v hv => (u_codec (H := Cond.any) (A := fun _ => False) hv.pos hv.le).complete v hv.lt
macro_rules | `(tactic| codec) => `(tactic| exact uAny_codec (by omega))

theorem u32x2_codec [CondOk H] : Codec H A Prog.u32x2 (Spec.u 64) (fun v => v < 2 ^ 64) where
  sound := by
    unfold Prog.u32x2
    refine Codec.snd_bind (u_codec (n := 32) (by decide) (by decide)) (fun a ha => ?_)
    refine Codec.snd_bind (u_codec (n := 32) (by decide) (by decide)) (fun b hb => Snd.ret ⟨?_, ?_⟩)
    · rw [show (64 : Nat) = 32 + 32 from rfl, u_append, List.append_nil, ← u_mod 32 (a * 2 ^ 32 + b) 32 (by decide)]
      congr 2 <;> omega
    · omega
  complete := by
    intro v hv
    unfold Prog.u32x2
    rw [show (64 : Nat) = 32 + 32 from rfl, u_append, ← u_mod 32 v 32 (by decide)]
    refine Codec.cmp_bind (u_codec (n := 32) (by decide) (by decide)) rfl (by omega) ?_
    refine Codec.cmp_bind (u_codec (n := 32) (by decide) (by decide)) (List.append_nil _).symm (by omega) ?_
    have : v / 2 ^ 32 * 2 ^ 32 + v % 2 ^ 32 = v := by omega
    rw [this]; exact Cmp.pure
macro_rules | `(tactic| codec) => `(tactic| exact u32x2_codec)

theorem i32v_codec [CondOk H] : Codec H A Prog.i32v Spec.i32 Spec.ValidI32 where
  sound := by
    unfold Prog.i32v
    refine Codec.snd_bind (u_codec (n := 32) (by decide) (by decide)) (fun a ha => Snd.ret ⟨?_, ?_⟩)
    · rw [List.append_nil, Spec.i32]
      congr 1
      split <;> omega
    · unfold Spec.ValidI32; split <;> omega
  complete := by
    rintro v ⟨h1, h2⟩
    unfold Prog.i32v Spec.i32
    refine Codec.cmp_bind (u_codec (n := 32) (by decide) (by decide)) (List.append_nil _).symm (by omega) ?_
    have : (if (v % 2 ^ 32).toNat < 2 ^ 31 then (((v % 2 ^ 32).toNat : Nat) : Int) else (((v % 2 ^ 32).toNat : Nat) : Int) - 2 ^ 32) = v := by
      split <;> omega
    rw [this]; exact Cmp.pure
macro_rules | `(tactic| codec) => `(tactic| exact i32v_codec)

theorem alphaWidth {c : Prop} {x : Nat} (h : Opt c (x < 2 ^ 3) (x = 0)) : x + 9 ≤ 32 := by
  by_cases hc : c
  · have := h.present hc; omega
  · have := h.absent hc; omega
macro_rules | `(tactic| codec) => `(tactic| (apply opt_codec; intro _; exact u_codec (by omega) (alphaWidth (by assumption))))
attribute [local irreducible] Prog.uAny Prog.u32x2 Prog.i32v Spec.i32


theorem parseSeiUserDataRegistered_codec [CondOk H] {payload_size : Nat} :
    Codec H A (parseSeiUserDataRegistered payload_size) Spec.seiUserDataRegistered (ValidSeiUserDataRegistered payload_size) where
  sound := by
    unfold parseSeiUserDataRegistered; snd_all
    refine Snd.pure ⟨?_, ?_⟩
    · simp [Spec.seiUserDataRegistered, Spec.seq]
    · constructor <;> assumption
  complete := by
    rintro ⟨⟩ ⟨⟩
    simp only at *
    unfold parseSeiUserDataRegistered
    simp only [Spec.seiUserDataRegistered, Spec.seq, List.flatten_cons, List.flatten_nil]
    cmp_all
    exact Cmp.pure

macro_rules | `(tactic| codec) => `(tactic| exact parseSeiUserDataRegistered_codec)

theorem parseSeiUserDataUnregistered_codec [CondOk H] {payload_size : Nat} :
    Codec H A (parseSeiUserDataUnregistered payload_size) Spec.seiUserDataUnregistered (ValidSeiUserDataUnregistered payload_size) where
  sound := by
    unfold parseSeiUserDataUnregistered; snd_all
    refine Snd.pure ⟨?_, ?_⟩
    · simp [Spec.seiUserDataUnregistered, Spec.seq]
    · constructor <;> assumption
  complete := by
    rintro ⟨⟩ ⟨⟩
    simp only at *
    unfold parseSeiUserDataUnregistered
    simp only [Spec.seiUserDataUnregistered, Spec.seq, List.flatten_cons, List.flatten_nil]
    cmp_all
    exact Cmp.pure

macro_rules | `(tactic| codec) => `(tactic| exact parseSeiUserDataUnregistered_codec)

theorem parseSeiAlphaChannelInfo_codec [CondOk H] :
    Codec H A parseSeiAlphaChannelInfo Spec.seiAlphaChannelInfo ValidSeiAlphaChannelInfo where
  sound := by
    unfold parseSeiAlphaChannelInfo; snd_all
    refine Snd.pure ⟨?_, ?_⟩
    · simp [Spec.seiAlphaChannelInfo, Spec.seq]
    · constructor <;> assumption
  complete := by
    rintro ⟨⟩ ⟨⟩
    simp only at *
    unfold parseSeiAlphaChannelInfo
    simp only [Spec.seiAlphaChannelInfo, Spec.seq, List.flatten_cons, List.flatten_nil]
    cmp_all
    exact Cmp.pure

macro_rules | `(tactic| codec) => `(tactic| exact parseSeiAlphaChannelInfo_codec)

theorem parseSeiPrimaries_codec [CondOk H] :
    Codec H A parseSeiPrimaries Spec.seiPrimaries ValidSeiPrimaries where
  sound := by
    unfold parseSeiPrimaries; snd_all
    refine Snd.pure ⟨?_, ?_⟩
    · simp [Spec.seiPrimaries, Spec.seq]
    · constructor <;> assumption
  complete := by
    rintro ⟨⟩ ⟨⟩
    simp only at *
    unfold parseSeiPrimaries
    simp only [Spec.seiPrimaries, Spec.seq, List.flatten_cons, List.flatten_nil]
    cmp_all
    exact Cmp.pure

macro_rules | `(tactic| codec) => `(tactic| exact parseSeiPrimaries_codec)

theorem parseSeiMasteringDisplay_codec [CondOk H] :
    Codec H A parseSeiMasteringDisplay Spec.seiMasteringDisplay ValidSeiMasteringDisplay where
  sound := by
    unfold parseSeiMasteringDisplay; snd_all
    refine Snd.pure ⟨?_, ?_⟩
    · simp [Spec.seiMasteringDisplay, Spec.seq]
    · constructor <;> assumption
  complete := by
    rintro ⟨⟩ ⟨⟩
    simp only at *
    unfold parseSeiMasteringDisplay
    simp only [Spec.seiMasteringDisplay, Spec.seq, List.flatten_cons, List.flatten_nil]
    cmp_all
    exact Cmp.pure

macro_rules | `(tactic| codec) => `(tactic| exact parseSeiMasteringDisplay_codec)

theorem parseSeiContentLightLevel_codec [CondOk H] :
    Codec H A parseSeiContentLightLevel Spec.seiContentLightLevel ValidSeiContentLightLevel where
  sound := by
    unfold parseSeiContentLightLevel; snd_all
    refine Snd.pure ⟨?_, ?_⟩
    · simp [Spec.seiContentLightLevel, Spec.seq]
    · constructor <;> assumption
  complete := by
    rintro ⟨⟩ ⟨⟩
    simp only at *
    unfold parseSeiContentLightLevel
    simp only [Spec.seiContentLightLevel, Spec.seq, List.flatten_cons, List.flatten_nil]
    cmp_all
    exact Cmp.pure

macro_rules | `(tactic| codec) => `(tactic| exact parseSeiContentLightLevel_codec)

theorem parseSeiKneePoint_codec [CondOk H] :
    Codec H A parseSeiKneePoint Spec.seiKneePoint ValidSeiKneePoint where
  sound := by
    unfold parseSeiKneePoint; snd_all
    refine Snd.pure ⟨?_, ?_⟩
    · simp [Spec.seiKneePoint, Spec.seq]
    · constructor <;> assumption
  complete := by
    rintro ⟨⟩ ⟨⟩
    simp only at *
    unfold parseSeiKneePoint
    simp only [Spec.seiKneePoint, Spec.seq, List.flatten_cons, List.flatten_nil]
    cmp_all
    exact Cmp.pure

macro_rules | `(tactic| codec) => `(tactic| exact parseSeiKneePoint_codec)

theorem parseSeiKneeFunction_codec [CondOk H] :
    Codec H A parseSeiKneeFunction Spec.seiKneeFunction ValidSeiKneeFunction where
  sound := by
    unfold parseSeiKneeFunction; snd_all
    refine Snd.pure ⟨?_, ?_⟩
    · simp [Spec.seiKneeFunction, Spec.seq]
    · constructor <;> assumption
  complete := by
    rintro ⟨⟩ ⟨⟩
    simp only at *
    unfold parseSeiKneeFunction
    simp only [Spec.seiKneeFunction, Spec.seq, List.flatten_cons, List.flatten_nil]
    cmp_all
    exact Cmp.pure

macro_rules | `(tactic| codec) => `(tactic| exact parseSeiKneeFunction_codec)

theorem parseSeiLutEntry_codec [CondOk H] {bits : Nat} (hb : 0 < bits) :
    Codec H A (parseSeiLutEntry bits) (Spec.seiLutEntry bits) (ValidSeiLutEntry bits) where
  sound := by
    unfold parseSeiLutEntry; snd_all
    refine Snd.pure ⟨?_, ?_⟩
    · simp [Spec.seiLutEntry, Spec.seq]
    · constructor <;> assumption
  complete := by
    rintro ⟨⟩ ⟨⟩
    simp only at *
    unfold parseSeiLutEntry
    simp only [Spec.seiLutEntry, Spec.seq, List.flatten_cons, List.flatten_nil]
    cmp_all
    exact Cmp.pure

macro_rules | `(tactic| codec) => `(tactic| exact parseSeiLutEntry_codec (by omega))

theorem parseSeiLut_codec [CondOk H] {bits : Nat} (hb : 0 < bits) :
    Codec H A (parseSeiLut bits) (Spec.seiLut bits) (ValidSeiLut bits) where
  sound := by
    unfold parseSeiLut; snd_all
    refine Snd.pure ⟨?_, ?_⟩
    · simp [Spec.seiLut, Spec.seq]
    · constructor <;> assumption
  complete := by
    rintro ⟨⟩ ⟨⟩
    simp only at *
    unfold parseSeiLut
    simp only [Spec.seiLut, Spec.seq, List.flatten_cons, List.flatten_nil]
    cmp_all
    exact Cmp.pure

macro_rules | `(tactic| codec) => `(tactic| exact parseSeiLut_codec (by omega))

theorem parseSeiColourRemapping_codec [CondOk H] [SeOk H] [OvfOk A] :
    Codec H A parseSeiColourRemapping Spec.seiColourRemapping ValidSeiColourRemapping where
  sound := by
    unfold parseSeiColourRemapping; snd_all
    refine Snd.pure ⟨?_, ?_⟩
    · simp [Spec.seiColourRemapping, Spec.seq]
    · constructor <;> assumption
  complete := by
    rintro ⟨⟩ ⟨⟩
    simp only at *
    unfold parseSeiColourRemapping
    simp only [Spec.seiColourRemapping, Spec.seq, List.flatten_cons, List.flatten_nil]
    cmp_all
    exact Cmp.pure

macro_rules | `(tactic| codec) => `(tactic| exact parseSeiColourRemapping_codec)

theorem parseSeiCcvPrimaries_codec [CondOk H] :
    Codec H A parseSeiCcvPrimaries Spec.seiCcvPrimaries ValidSeiCcvPrimaries where
  sound := by
    unfold parseSeiCcvPrimaries; snd_all
    refine Snd.pure ⟨?_, ?_⟩
    · simp [Spec.seiCcvPrimaries, Spec.seq]
    · constructor <;> assumption
  complete := by
    rintro ⟨⟩ ⟨⟩
    simp only at *
    unfold parseSeiCcvPrimaries
    simp only [Spec.seiCcvPrimaries, Spec.seq, List.flatten_cons, List.flatten_nil]
    cmp_all
    exact Cmp.pure

macro_rules | `(tactic| codec) => `(tactic| exact parseSeiCcvPrimaries_codec)

theorem parseSeiContentColourVolume_codec [CondOk H] :
    Codec H A parseSeiContentColourVolume Spec.seiContentColourVolume ValidSeiContentColourVolume where
  sound := by
    unfold parseSeiContentColourVolume; snd_all
    refine Snd.pure ⟨?_, ?_⟩
    · simp [Spec.seiContentColourVolume, Spec.seq]
    · constructor <;> assumption
  complete := by
    rintro ⟨⟩ ⟨⟩
    simp only at *
    unfold parseSeiContentColourVolume
    simp only [Spec.seiContentColourVolume, Spec.seq, List.flatten_cons, List.flatten_nil]
    cmp_all
    exact Cmp.pure

macro_rules | `(tactic| codec) => `(tactic| exact parseSeiContentColourVolume_codec)

theorem parseSeiAlternativeTransfer_codec [CondOk H] :
    Codec H A parseSeiAlternativeTransfer Spec.seiAlternativeTransfer ValidSeiAlternativeTransfer where
  sound := by
    unfold parseSeiAlternativeTransfer; snd_all
    refine Snd.pure ⟨?_, ?_⟩
    · simp [Spec.seiAlternativeTransfer, Spec.seq]
    · constructor <;> assumption
  complete := by
    rintro ⟨⟩ ⟨⟩
    simp only at *
    unfold parseSeiAlternativeTransfer
    simp only [Spec.seiAlternativeTransfer, Spec.seq, List.flatten_cons, List.flatten_nil]
    cmp_all
    exact Cmp.pure

macro_rules | `(tactic| codec) => `(tactic| exact parseSeiAlternativeTransfer_codec)

theorem parseSeiAmbientViewing_codec [CondOk H] :
    Codec H A parseSeiAmbientViewing Spec.seiAmbientViewing ValidSeiAmbientViewing where
  sound := by
    unfold parseSeiAmbientViewing; snd_all
    refine Snd.pure ⟨?_, ?_⟩
    · simp [Spec.seiAmbientViewing, Spec.seq]
    · constructor <;> assumption
  complete := by
    rintro ⟨⟩ ⟨⟩
    simp only at *
    unfold parseSeiAmbientViewing
    simp only [Spec.seiAmbientViewing, Spec.seq, List.flatten_cons, List.flatten_nil]
    cmp_all
    exact Cmp.pure

macro_rules | `(tactic| codec) => `(tactic| exact parseSeiAmbientViewing_codec)

theorem parseSeiUnknown_codec [CondOk H] {payload_size : Nat} :
    Codec H A (parseSeiUnknown payload_size) Spec.seiUnknown (ValidSeiUnknown payload_size) where
  sound := by
    unfold parseSeiUnknown; snd_all
    refine Snd.pure ⟨?_, ?_⟩
    · simp [Spec.seiUnknown, Spec.seq]
    · constructor <;> assumption
  complete := by
    rintro ⟨⟩ ⟨⟩
    simp only at *
    unfold parseSeiUnknown
    simp only [Spec.seiUnknown, Spec.seq, List.flatten_cons, List.flatten_nil]
    cmp_all
    exact Cmp.pure

macro_rules | `(tactic| codec) => `(tactic| exact parseSeiUnknown_codec)


theorem userDataRegistered_codec [CondOk H] {ty sz : Nat} (h : ty = 4) :
    Codec H A ((parseSeiUserDataRegistered sz).bind fun s => Prog.ret (SeiPayload.userDataRegistered s)) Spec.seiPayload (fun p => (∃ s, p = .userDataRegistered s) ∧ ValidSeiPayload ty sz p) where
  sound := by
    refine Codec.snd_bind parseSeiUserDataRegistered_codec (fun a ha => Snd.ret ⟨?_, ⟨a, rfl⟩, ?_⟩)
    · simp [Spec.seiPayload]
    · exact ⟨h, ha⟩
  complete := by
    rintro _ ⟨⟨s, rfl⟩, _, hv⟩
    exact Codec.cmp_bind parseSeiUserDataRegistered_codec (by simp [Spec.seiPayload]) hv Cmp.pure

theorem userDataUnregistered_codec [CondOk H] {ty sz : Nat} (h : ty = 5) :
    Codec H A ((parseSeiUserDataUnregistered sz).bind fun s => Prog.ret (SeiPayload.userDataUnregistered s)) Spec.seiPayload (fun p => (∃ s, p = .userDataUnregistered s) ∧ ValidSeiPayload ty sz p) where
  sound := by
    refine Codec.snd_bind parseSeiUserDataUnregistered_codec (fun a ha => Snd.ret ⟨?_, ⟨a, rfl⟩, ?_⟩)
    · simp [Spec.seiPayload]
    · exact ⟨h, ha⟩
  complete := by
    rintro _ ⟨⟨s, rfl⟩, _, hv⟩
    exact Codec.cmp_bind parseSeiUserDataUnregistered_codec (by simp [Spec.seiPayload]) hv Cmp.pure

theorem masteringDisplay_codec [CondOk H] {ty sz : Nat} (h : ty = 137) :
    Codec H A ((parseSeiMasteringDisplay).bind fun s => Prog.ret (SeiPayload.masteringDisplay s)) Spec.seiPayload (fun p => (∃ s, p = .masteringDisplay s) ∧ ValidSeiPayload ty sz p) where
  sound := by
    refine Codec.snd_bind parseSeiMasteringDisplay_codec (fun a ha => Snd.ret ⟨?_, ⟨a, rfl⟩, ?_⟩)
    · simp [Spec.seiPayload]
    · exact ⟨h, ha⟩
  complete := by
    rintro _ ⟨⟨s, rfl⟩, _, hv⟩
    exact Codec.cmp_bind parseSeiMasteringDisplay_codec (by simp [Spec.seiPayload]) hv Cmp.pure

theorem contentLightLevel_codec [CondOk H] {ty sz : Nat} (h : ty = 144) :
    Codec H A ((parseSeiContentLightLevel).bind fun s => Prog.ret (SeiPayload.contentLightLevel s)) Spec.seiPayload (fun p => (∃ s, p = .contentLightLevel s) ∧ ValidSeiPayload ty sz p) where
  sound := by
    refine Codec.snd_bind parseSeiContentLightLevel_codec (fun a ha => Snd.ret ⟨?_, ⟨a, rfl⟩, ?_⟩)
    · simp [Spec.seiPayload]
    · exact ⟨h, ha⟩
  complete := by
    rintro _ ⟨⟨s, rfl⟩, _, hv⟩
    exact Codec.cmp_bind parseSeiContentLightLevel_codec (by simp [Spec.seiPayload]) hv Cmp.pure

theorem kneeFunction_codec [CondOk H] {ty sz : Nat} (h : ty = 141) :
    Codec H A ((parseSeiKneeFunction).bind fun s => Prog.ret (SeiPayload.kneeFunction s)) Spec.seiPayload (fun p => (∃ s, p = .kneeFunction s) ∧ ValidSeiPayload ty sz p) where
  sound := by
    refine Codec.snd_bind parseSeiKneeFunction_codec (fun a ha => Snd.ret ⟨?_, ⟨a, rfl⟩, ?_⟩)
    · simp [Spec.seiPayload]
    · exact ⟨h, ha⟩
  complete := by
    rintro _ ⟨⟨s, rfl⟩, _, hv⟩
    exact Codec.cmp_bind parseSeiKneeFunction_codec (by simp [Spec.seiPayload]) hv Cmp.pure

theorem colourRemapping_codec [CondOk H] [SeOk H] [OvfOk A] {ty sz : Nat} (h : ty = 142) :
    Codec H A ((parseSeiColourRemapping).bind fun s => Prog.ret (SeiPayload.colourRemapping s)) Spec.seiPayload (fun p => (∃ s, p = .colourRemapping s) ∧ ValidSeiPayload ty sz p) where
  sound := by
    refine Codec.snd_bind parseSeiColourRemapping_codec (fun a ha => Snd.ret ⟨?_, ⟨a, rfl⟩, ?_⟩)
    · simp [Spec.seiPayload]
    · exact ⟨h, ha⟩
  complete := by
    rintro _ ⟨⟨s, rfl⟩, _, hv⟩
    exact Codec.cmp_bind parseSeiColourRemapping_codec (by simp [Spec.seiPayload]) hv Cmp.pure

theorem contentColourVolume_codec [CondOk H] {ty sz : Nat} (h : ty = 149) :
    Codec H A ((parseSeiContentColourVolume).bind fun s => Prog.ret (SeiPayload.contentColourVolume s)) Spec.seiPayload (fun p => (∃ s, p = .contentColourVolume s) ∧ ValidSeiPayload ty sz p) where
  sound := by
    refine Codec.snd_bind parseSeiContentColourVolume_codec (fun a ha => Snd.ret ⟨?_, ⟨a, rfl⟩, ?_⟩)
    · simp [Spec.seiPayload]
    · exact ⟨h, ha⟩
  complete := by
    rintro _ ⟨⟨s, rfl⟩, _, hv⟩
    exact Codec.cmp_bind parseSeiContentColourVolume_codec (by simp [Spec.seiPayload]) hv Cmp.pure

theorem alternativeTransfer_codec [CondOk H] {ty sz : Nat} (h : ty = 147) :
    Codec H A ((parseSeiAlternativeTransfer).bind fun s => Prog.ret (SeiPayload.alternativeTransfer s)) Spec.seiPayload (fun p => (∃ s, p = .alternativeTransfer s) ∧ ValidSeiPayload ty sz p) where
  sound := by
    refine Codec.snd_bind parseSeiAlternativeTransfer_codec (fun a ha => Snd.ret ⟨?_, ⟨a, rfl⟩, ?_⟩)
    · simp [Spec.seiPayload]
    · exact ⟨h, ha⟩
  complete := by
    rintro _ ⟨⟨s, rfl⟩, _, hv⟩
    exact Codec.cmp_bind parseSeiAlternativeTransfer_codec (by simp [Spec.seiPayload]) hv Cmp.pure

theorem ambientViewing_codec [CondOk H] {ty sz : Nat} (h : ty = 148) :
    Codec H A ((parseSeiAmbientViewing).bind fun s => Prog.ret (SeiPayload.ambientViewing s)) Spec.seiPayload (fun p => (∃ s, p = .ambientViewing s) ∧ ValidSeiPayload ty sz p) where
  sound := by
    refine Codec.snd_bind parseSeiAmbientViewing_codec (fun a ha => Snd.ret ⟨?_, ⟨a, rfl⟩, ?_⟩)
    · simp [Spec.seiPayload]
    · exact ⟨h, ha⟩
  complete := by
    rintro _ ⟨⟨s, rfl⟩, _, hv⟩
    exact Codec.cmp_bind parseSeiAmbientViewing_codec (by simp [Spec.seiPayload]) hv Cmp.pure

theorem alphaChannelInfo_codec [CondOk H] {ty sz : Nat} (h : ty = 165) :
    Codec H A ((parseSeiAlphaChannelInfo).bind fun s => Prog.ret (SeiPayload.alphaChannelInfo s)) Spec.seiPayload (fun p => (∃ s, p = .alphaChannelInfo s) ∧ ValidSeiPayload ty sz p) where
  sound := by
    refine Codec.snd_bind parseSeiAlphaChannelInfo_codec (fun a ha => Snd.ret ⟨?_, ⟨a, rfl⟩, ?_⟩)
    · simp [Spec.seiPayload]
    · exact ⟨h, ha⟩
  complete := by
    rintro _ ⟨⟨s, rfl⟩, _, hv⟩
    exact Codec.cmp_bind parseSeiAlphaChannelInfo_codec (by simp [Spec.seiPayload]) hv Cmp.pure

theorem unknown_codec [CondOk H] {ty sz : Nat} (h : ty ∉ [4, 5, 137, 144, 141, 142, 149, 147, 148, 165]) :
    Codec H A ((parseSeiUnknown sz).bind fun s => Prog.ret (SeiPayload.unknown s)) Spec.seiPayload (fun p => (∃ s, p = .unknown s) ∧ ValidSeiPayload ty sz p) where
  sound := by
    refine Codec.snd_bind parseSeiUnknown_codec (fun a ha => Snd.ret ⟨?_, ⟨a, rfl⟩, ?_⟩)
    · simp [Spec.seiPayload]
    · exact ⟨h, ha⟩
  complete := by
    rintro _ ⟨⟨s, rfl⟩, _, hv⟩
    exact Codec.cmp_bind parseSeiUnknown_codec (by simp [Spec.seiPayload]) hv Cmp.pure

/-- the payload parser inverts the payload syntax -/
theorem parseSeiPayload_codec [CondOk H] {ty sz : Nat} (hs : ty = 142 → SeOk H ∧ OvfOk A) :
    Codec H A (parseSeiPayload ty sz) Spec.seiPayload (ValidSeiPayload ty sz) := by
  unfold parseSeiPayload
  by_cases h4 : ty = 4
  · rw [if_pos h4]
    refine Codec.congr (userDataRegistered_codec (sz := sz) h4) (fun p => ⟨fun h => h.2, fun h => ⟨?_, h⟩⟩) (fun _ _ => rfl)
    cases p <;> first | exact ⟨_, rfl⟩ | (exfalso; have h1 := h.1; first | omega | exact h1 (by rw [h4]; decide))
  rw [if_neg h4]
  by_cases h5 : ty = 5
  · rw [if_pos h5]
    refine Codec.congr (userDataUnregistered_codec (sz := sz) h5) (fun p => ⟨fun h => h.2, fun h => ⟨?_, h⟩⟩) (fun _ _ => rfl)
    cases p <;> first | exact ⟨_, rfl⟩ | (exfalso; have h1 := h.1; first | omega | exact h1 (by rw [h5]; decide))
  rw [if_neg h5]
  by_cases h137 : ty = 137
  · rw [if_pos h137]
    refine Codec.congr (masteringDisplay_codec (sz := sz) h137) (fun p => ⟨fun h => h.2, fun h => ⟨?_, h⟩⟩) (fun _ _ => rfl)
    cases p <;> first | exact ⟨_, rfl⟩ | (exfalso; have h1 := h.1; first | omega | exact h1 (by rw [h137]; decide))
  rw [if_neg h137]
  by_cases h144 : ty = 144
  · rw [if_pos h144]
    refine Codec.congr (contentLightLevel_codec (sz := sz) h144) (fun p => ⟨fun h => h.2, fun h => ⟨?_, h⟩⟩) (fun _ _ => rfl)
    cases p <;> first | exact ⟨_, rfl⟩ | (exfalso; have h1 := h.1; first | omega | exact h1 (by rw [h144]; decide))
  rw [if_neg h144]
  by_cases h141 : ty = 141
  · rw [if_pos h141]
    refine Codec.congr (kneeFunction_codec (sz := sz) h141) (fun p => ⟨fun h => h.2, fun h => ⟨?_, h⟩⟩) (fun _ _ => rfl)
    cases p <;> first | exact ⟨_, rfl⟩ | (exfalso; have h1 := h.1; first | omega | exact h1 (by rw [h141]; decide))
  rw [if_neg h141]
  by_cases h142 : ty = 142
  · rw [if_pos h142]
    haveI := (hs h142).1
    haveI := (hs h142).2
    refine Codec.congr (colourRemapping_codec (sz := sz) h142) (fun p => ⟨fun h => h.2, fun h => ⟨?_, h⟩⟩) (fun _ _ => rfl)
    cases p <;> first | exact ⟨_, rfl⟩ | (exfalso; have h1 := h.1; first | omega | exact h1 (by rw [h142]; decide))
  rw [if_neg h142]
  by_cases h149 : ty = 149
  · rw [if_pos h149]
    refine Codec.congr (contentColourVolume_codec (sz := sz) h149) (fun p => ⟨fun h => h.2, fun h => ⟨?_, h⟩⟩) (fun _ _ => rfl)
    cases p <;> first | exact ⟨_, rfl⟩ | (exfalso; have h1 := h.1; first | omega | exact h1 (by rw [h149]; decide))
  rw [if_neg h149]
  by_cases h147 : ty = 147
  · rw [if_pos h147]
    refine Codec.congr (alternativeTransfer_codec (sz := sz) h147) (fun p => ⟨fun h => h.2, fun h => ⟨?_, h⟩⟩) (fun _ _ => rfl)
    cases p <;> first | exact ⟨_, rfl⟩ | (exfalso; have h1 := h.1; first | omega | exact h1 (by rw [h147]; decide))
  rw [if_neg h147]
  by_cases h148 : ty = 148
  · rw [if_pos h148]
    refine Codec.congr (ambientViewing_codec (sz := sz) h148) (fun p => ⟨fun h => h.2, fun h => ⟨?_, h⟩⟩) (fun _ _ => rfl)
    cases p <;> first | exact ⟨_, rfl⟩ | (exfalso; have h1 := h.1; first | omega | exact h1 (by rw [h148]; decide))
  rw [if_neg h148]
  by_cases h165 : ty = 165
  · rw [if_pos h165]
    refine Codec.congr (alphaChannelInfo_codec (sz := sz) h165) (fun p => ⟨fun h => h.2, fun h => ⟨?_, h⟩⟩) (fun _ _ => rfl)
    cases p <;> first | exact ⟨_, rfl⟩ | (exfalso; have h1 := h.1; first | omega | exact h1 (by rw [h165]; decide))
  rw [if_neg h165]
  refine Codec.congr (unknown_codec (sz := sz) (by simp; omega)) (fun p => ⟨fun h => h.2, fun h => ⟨?_, h⟩⟩) (fun _ _ => rfl)
  cases p <;> first | exact ⟨_, rfl⟩ | (exfalso; have h1 := h.1; omega)

theorem ffRun_append (k : Nat) (b : List Bool) (h : b = Spec.u 8 255) : b ++ (List.replicate k (Spec.u 8 255)).flatten = (List.replicate (k + 1) (Spec.u 8 255)).flatten := by
  rw [h, List.replicate_succ, List.flatten_cons]

theorem ffLoop_sound : ∀ (fuel acc : Nat) (r : List Bool), r.length < fuel →
    match (ffLoop fuel acc).denote r with
    | .ok n r' => ∃ k b, b < 255 ∧ n = acc + 255 * k + b ∧ n < 2 ^ 32 ∧ r = (List.replicate k (Spec.u 8 255)).flatten ++ Spec.u 8 b ++ r'
    | .fail _ => True
    | .bad _ => False := by
  intro fuel
  induction fuel with
  | zero => intro acc r h; omega
  | succ fuel ih =>
    intro acc r hr
    unfold ffLoop
    rw [← Prog.bind_def, Prog.denote_bind]
    have hs := (u_codec (H := Cond.any) (A := fun _ => False) (n := 8) (by decide) (by decide)).sound r
    revert hs
    cases (Prog.u 8).denote r with
    | fail r' => intros; trivial
    | bad k => exact fun h => h
    | ok b r1 =>
      rintro ⟨w, hw, _, rfl, hb⟩
      have hw := hw trivial
      rw [ARes.ok_bind]
      have hlen : r.length = 8 + r1.length := by rw [hw]; simp
      by_cases hov : acc > 2 ^ 32 - 1 - b
      · rw [if_pos hov]; trivial
      · rw [if_neg hov]
        by_cases hff : b = 255
        · rw [if_pos hff]
          have := ih (acc + b) r1 (by omega)
          revert this
          cases (ffLoop fuel (acc + b)).denote r1 with
          | fail r' => intros; trivial
          | bad k => exact fun h => h
          | ok n r' =>
            rintro ⟨k, b', h1, h2, h3, h4⟩
            refine ⟨k + 1, b', h1, by omega, h3, ?_⟩
            rw [hw, h4, hff, List.replicate_succ, List.flatten_cons]; simp
        · rw [if_neg hff]
          exact ⟨0, b, by omega, by omega, by omega, by simp [hw]⟩

theorem ffLoop_complete : ∀ (k fuel acc b : Nat) (r : List Bool), k < fuel → b < 255 → acc + 255 * k + b < 2 ^ 32 →
    (ffLoop fuel acc).denote ((List.replicate k (Spec.u 8 255)).flatten ++ (Spec.u 8 b ++ r)) = .ok (acc + 255 * k + b) r := by
  intro k
  induction k with
  | zero =>
    intro fuel acc b r hf hb hn
    obtain ⟨f, rfl⟩ : ∃ f, fuel = f + 1 := ⟨fuel - 1, by omega⟩
    unfold ffLoop
    rw [← Prog.bind_def, Prog.denote_bind, List.replicate_zero, List.flatten_nil, List.nil_append,
      (u_codec (H := Cond.any) (A := fun _ => False) (n := 8) (by decide) (by decide)).complete b (by omega) r, ARes.ok_bind,
      if_neg (by omega), if_neg (by omega)]
    rfl
  | succ k ih =>
    intro fuel acc b r hf hb hn
    obtain ⟨f, rfl⟩ : ∃ f, fuel = f + 1 := ⟨fuel - 1, by omega⟩
    unfold ffLoop
    rw [← Prog.bind_def, Prog.denote_bind, List.replicate_succ, List.flatten_cons, List.append_assoc,
      (u_codec (H := Cond.any) (A := fun _ => False) (n := 8) (by decide) (by decide)).complete 255 (by omega) _, ARes.ok_bind,
      if_neg (by omega), if_pos rfl, ih f (acc + 255) b r (by omega) hb (by omega)]
    congr 1; omega

theorem ffCodedNumber_codec : Codec H A ffCodedNumber Spec.ffCoded (fun n => n < 2 ^ 32) where
  sound := by
    intro r
    rw [show ffCodedNumber.denote r = (ffLoop (r.length + 1) 0).denote r from rfl]
    have := ffLoop_sound (r.length + 1) 0 r (by omega)
    revert this
    cases (ffLoop (r.length + 1) 0).denote r with
    | fail r' => intros; trivial
    | bad k => exact fun h => h.elim
    | ok n r' =>
      rintro ⟨k, b, h1, h2, h3, h4⟩
      refine ⟨_, fun _ => h4, by rw [h4]; simp only [List.length_append]; omega, ?_, h3⟩
      have e1 : n / 255 = k := by omega
      have e2 : n % 255 = b := by omega
      rw [Spec.ffCoded, e1, e2]
  complete := by
    intro n hn r
    show (ffLoop ((Spec.ffCoded n ++ r).length + 1) 0).denote (Spec.ffCoded n ++ r) = _
    have hl : n / 255 ≤ (Spec.ffCoded n ++ r).length := by
      simp [Spec.ffCoded]; omega
    generalize hg : (Spec.ffCoded n ++ r).length = m at hl
    rw [Spec.ffCoded, List.append_assoc, ffLoop_complete (n / 255) (m + 1) 0 (n % 255) r (by omega) (by omega) (by omega)]
    congr 1; omega
macro_rules | `(tactic| codec) => `(tactic| exact ffCodedNumber_codec)

end H265
