/- Small tactics for codec proofs. -/
import Verif.Proof.Codec

namespace H265

/-- allowed undefined outcomes include signed overflow -/
class OvfOk (A : Bad → Prop) : Prop where
  ovf : A .signedOverflow
/-- the runs considered are free of aliased signed code words -/
class SeOk (H : Cond) : Prop where
  canon : ∀ r k r', H Int Prog.sev r → ueSplit r = some (k, r') → k % 2 = 1 → k < 2 ^ 31

instance : OvfOk (fun k => k = Bad.signedOverflow) := ⟨rfl⟩
instance : SeOk Cond.canon := ⟨fun r k r' h hs => by
  have h : (Prog.se _).NoAlias r := h
  simp only [Prog.NoAlias, hs] at h
  exact h.1⟩

theorem sev_codec' {H : Cond} {A : Bad → Prop} [OvfOk A] [SeOk H] :
    Codec H A Prog.sev Spec.se (fun v => -(2 ^ 31) < v ∧ v < 2 ^ 30) :=
  sev_codec OvfOk.ovf SeOk.canon

/-- the codec of a program; extended with a rule for every parser -/
syntax "codec" : tactic
macro_rules | `(tactic| codec) => `(tactic| (apply opt_codec; intro _; codec))
macro_rules | `(tactic| codec) => `(tactic| (apply rep_codec; codec))
macro_rules | `(tactic| codec) => `(tactic| (apply repI_codec; intro _ _ _; codec))
macro_rules | `(tactic| codec) => `(tactic| (apply repI0_codec; intro _ _; codec))
macro_rules | `(tactic| codec) => `(tactic| (apply repI0_codec'; intro _ _; codec))
macro_rules | `(tactic| codec) => `(tactic| (apply maybe_codec; intro _; codec))
macro_rules | `(tactic| codec) => `(tactic| exact u_codec (by omega) (by omega))
macro_rules | `(tactic| codec) => `(tactic| exact u_codec (by decide) (by decide))
macro_rules | `(tactic| codec) => `(tactic| exact u64_codec (by decide) (by decide))
macro_rules | `(tactic| codec) => `(tactic| exact uev_codec)
macro_rules | `(tactic| codec) => `(tactic| exact sev_codec')
macro_rules | `(tactic| codec) => `(tactic| exact ueRange_codec (by omega))
macro_rules | `(tactic| codec) => `(tactic| exact ueRange_codec (by decide))

theorem Codec.snd_bind {α β : Type} {H : Cond} {A : Bad → Prop} [CondOk H] {p : Prog α} {W : α → List Bool}
    {V : α → Prop} {f : α → Prog β} {Q : β → List Bool → Prop} (hc : Codec H A p W V)
    (hf : ∀ a, V a → Snd H A (f a) (fun b w' => Q b (W a ++ w'))) : Snd H A (p >>= f) Q :=
  Snd.bind hc.sound (by rintro a w ⟨rfl, hv⟩; exact hf a hv)

/-- one step of a soundness proof -/
macro "snd_step" : tactic => `(tactic| first
  | refine Snd.check_bind (fun _ => ?_)
  | refine Codec.snd_bind (by codec) (fun _ _ => ?_))

/-- soundness of straight-line code -/
macro "snd_all" : tactic => `(tactic| (repeat snd_step))

theorem Codec.cmp_bind {α β : Type} {p : Prog α} {W : α → List Bool} {V : α → Prop} {f : α → Prog β} {b : β} {a : α} {w w' : List Bool}
    (hc : Codec Cond.canon (fun k => k = Bad.signedOverflow) p W V) (hw : w = W a ++ w') (hv : V a) (hf : Cmp (f a) b w') :
    Cmp (p >>= f) b w := by
  subst hw; exact Cmp.bind (hc.complete a hv) hf

/-- one step of a completeness proof -/
macro "cmp_step" : tactic => `(tactic| first
  | refine Cmp.check_bind (by assumption) ?_
  | (refine Codec.cmp_bind (by codec) (by with_reducible rfl) ?_ ?_; assumption))

macro "cmp_all" : tactic => `(tactic| (repeat cmp_step))

/-- keep the unifier from unfolding the building blocks -/
macro "codec_opaque" : command => `(command| attribute [local irreducible] Prog.u Prog.u64 Prog.uev Prog.ueRange Prog.sev Prog.check Prog.opt
  Prog.rep Prog.repI Prog.at' Prog.int32 Prog.attempt Prog.maybe Spec.u Spec.ue Spec.se Spec.list Spec.listI Spec.cond
  Spec.optional)

end H265
