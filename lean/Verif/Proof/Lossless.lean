/-
The two directions of "parsing inverts the syntax", in terms of the reader only.
-/
import Verif.Proof.Tactic

namespace H265
open Spec

/-- The parse function `p` inverts the serialisation `enc` of the values satisfying `Valid`, on
any reader at any valid position:
* whatever it returns is valid, and the bits it consumed are exactly the serialisation of the result;
* whenever the next bits are the serialisation of a valid value, it returns that value and
  consumes exactly these bits;
* it never reaches undefined behaviour. -/
structure Inverts {α : Type} (p : Prog α) (enc : α → List Bool) (Valid : α → Prop) : Prop where
  sound : ∀ (bb bb' : BB) (a : α), bb.WF → p.run bb = .ok a bb' →
    Valid a ∧ bb'.WF ∧ bb'.bytes = bb.bytes ∧ bb.rem = enc a ++ bb'.rem
  complete : ∀ (bb : BB) (a : α) (rest : List Bool), bb.WF → Valid a → bb.rem = enc a ++ rest →
    ∃ bb', p.run bb = .ok a bb' ∧ bb'.WF ∧ bb'.bytes = bb.bytes ∧ bb'.rem = rest
  safe : ∀ (bb : BB) (k : Bad), bb.WF → p.run bb ≠ .bad k

/-- The same for syntax with se(v) elements.  The signed reader overflows on code number 2^31-1 and
maps larger odd code numbers to negative values (C06), so that losslessness holds for runs in which no such
code word is read (`Prog.NoAlias`) and signed overflow is the only undefined behaviour. -/
structure InvertsSigned {α : Type} (p : Prog α) (enc : α → List Bool) (Valid : α → Prop) : Prop where
  sound : ∀ (bb bb' : BB) (a : α), bb.WF → p.run bb = .ok a bb' →
    Valid a ∧ bb'.WF ∧ bb'.bytes = bb.bytes ∧ (p.NoAlias bb.rem → bb.rem = enc a ++ bb'.rem)
  complete : ∀ (bb : BB) (a : α) (rest : List Bool), bb.WF → Valid a → bb.rem = enc a ++ rest →
    ∃ bb', p.run bb = .ok a bb' ∧ bb'.WF ∧ bb'.bytes = bb.bytes ∧ bb'.rem = rest
  safe : ∀ (bb : BB) (k : Bad), bb.WF → p.run bb = .bad k → k = .signedOverflow

/-- Losslessness in both directions, for code whose arithmetic on the values read may overflow: signed overflow is the only
undefined behaviour. -/
structure InvertsOvf {α : Type} (p : Prog α) (enc : α → List Bool) (Valid : α → Prop) : Prop where
  sound : ∀ (bb bb' : BB) (a : α), bb.WF → p.run bb = .ok a bb' →
    Valid a ∧ bb'.WF ∧ bb'.bytes = bb.bytes ∧ bb.rem = enc a ++ bb'.rem
  complete : ∀ (bb : BB) (a : α) (rest : List Bool), bb.WF → Valid a → bb.rem = enc a ++ rest →
    ∃ bb', p.run bb = .ok a bb' ∧ bb'.WF ∧ bb'.bytes = bb.bytes ∧ bb'.rem = rest
  safe : ∀ (bb : BB) (k : Bad), bb.WF → p.run bb = .bad k → k = .signedOverflow

variable {α : Type} {p : Prog α} {enc : α → List Bool} {Valid : α → Prop}

theorem Codec.inverts (h : Codec Cond.any (fun _ => False) p enc Valid) : Inverts p enc Valid where
  sound := fun bb bb' a hwf hr => by
    obtain ⟨h1, h2, h3, h4⟩ := h.run_ok hwf hr
    exact ⟨h4, h1, h2, h3 trivial⟩
  complete := fun bb a rest hwf hv hr => h.run_complete hwf hv hr
  safe := fun bb k hwf hr => h.run_bad hwf hr

theorem Codec.invertsSigned (h : Codec Cond.canon (fun k => k = Bad.signedOverflow) p enc Valid) : InvertsSigned p enc Valid where
  sound := fun bb bb' a hwf hr => by
    obtain ⟨h1, h2, h3, h4⟩ := h.run_ok hwf hr
    exact ⟨h4, h1, h2, h3⟩
  complete := fun bb a rest hwf hv hr => h.run_complete hwf hv hr
  safe := fun bb k hwf hr => h.run_bad hwf hr

theorem Codec.invertsOvf (h : Codec Cond.any (fun k => k = Bad.signedOverflow) p enc Valid) : InvertsOvf p enc Valid where
  sound := fun bb bb' a hwf hr => by
    obtain ⟨h1, h2, h3, h4⟩ := h.run_ok hwf hr
    exact ⟨h4, h1, h2, h3 trivial⟩
  complete := fun bb a rest hwf hv hr => h.run_complete hwf hv hr
  safe := fun bb k hwf hr => h.run_bad hwf hr

/-- Serialisation is injective and prefix free on valid values. -/
theorem Codec.prefix_free {H : Cond} {A : Bad → Prop} (h : Codec H A p enc Valid) {a b : α} {r s : List Bool}
    (ha : Valid a) (hb : Valid b) (he : enc a ++ r = enc b ++ s) : a = b ∧ r = s := by
  have h1 := h.complete a ha r
  have h2 := h.complete b hb s
  rw [he, h2] at h1
  injection h1 with h3 h4
  exact ⟨h3.symm, h4.symm⟩

end H265
