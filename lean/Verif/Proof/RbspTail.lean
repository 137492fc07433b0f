/-
The end of the parameter set parsers: extension data bits and trailing bits.
-/
import Verif.Proof.Lossless
import Verif.Props.Headers
import Verif.Props.ByteStream

namespace H265
open Spec

theorem extLoop_total (fuel : Nat) : ∀ (x : Nat) (r : List Bool), r.length < fuel →
    ∃ d r', (Prog.extLoop fuel x).denote r = .ok d r' := by
  induction fuel with
  | zero => intro x r h; omega
  | succ fuel ih =>
    intro x r h
    rw [Prog.extLoop, show ∀ f : Bool → Prog Nat, Prog.moreRbspData.bind f = (Prog.moreRbspData >>= f) from fun _ => rfl,
      Prog.denote_bind, moreRbspData_denote, ARes.ok_bind]
    by_cases hm : moreData r = true
    · rw [if_pos hm, Prog.denote, if_neg (by omega)]
      have hne : 1 ≤ r.length := by
        unfold moreData at hm
        have := (of_decide_eq_true hm).1
        cases r with
        | nil => exact absurd rfl this
        | cons => simp
      rw [if_pos ⟨by omega, hne⟩]
      exact ih _ _ (by rw [List.length_drop]; omega)
    · rw [if_neg hm]; exact ⟨x, r, rfl⟩

theorem extLoop_exact (fuel : Nat) {k : Nat} (hk : k ≤ 7) : ∀ (x : Nat) (w : List Bool), w.length + k + 1 < fuel →
    (Prog.extLoop fuel x).denote (w ++ true :: List.replicate k false) =
      .ok ((w.getLast?.map Bool.toNat).getD x) (true :: List.replicate k false) := by
  induction fuel with
  | zero => intro x w h; omega
  | succ fuel ih =>
    intro x w h
    rw [Prog.extLoop, show ∀ f : Bool → Prog Nat, Prog.moreRbspData.bind f = (Prog.moreRbspData >>= f) from fun _ => rfl,
      Prog.denote_bind, moreRbspData_denote, ARes.ok_bind]
    have hm : moreData (w ++ true :: List.replicate k false) = decide (w ≠ []) := by
      unfold moreData
      cases w with
      | nil => simp; omega
      | cons c w =>
        have : (c :: w) ++ true :: List.replicate k false ≠
            true :: List.replicate (((c :: w) ++ true :: List.replicate k false).length - 1) false := by
          intro he
          simp only [List.cons_append, List.cons.injEq] at he
          have hm : true ∈ w ++ true :: List.replicate k false := by simp
          rw [he.2, List.mem_replicate] at hm
          exact absurd hm.2 (by decide)
        rw [decide_eq_true (⟨by simp, Or.inr this⟩ : _ ∧ _), decide_eq_true (by simp)]
    rw [hm]
    cases w with
    | nil => simp
    | cons c w =>
      rw [decide_eq_true (by simp), if_pos rfl, Prog.denote, if_neg (by omega), if_pos ⟨by omega, by simp⟩]
      simp only [List.cons_append, List.take_succ_cons, List.take_zero, List.drop_succ_cons, List.drop_zero]
      rw [ih _ w (by simp at h; omega)]
      congr 1
      have hv : val [c] = c.toNat := by cases c <;> rfl
      rw [hv]
      cases w with
      | nil => rfl
      | cons d w => rw [List.getLast?_cons_cons, List.getLast?_eq_some_getLast (by simp : d :: w ≠ [])]; rfl

theorem rbspTail_total (ext : Nat) (r : List Bool) : ∃ d r', (Prog.rbspTail ext).denote r = .ok d r' := by
  unfold Prog.rbspTail
  rw [show ∀ (p : Prog Nat) (f : Nat → Prog Nat), p.bind f = (p >>= f) from fun _ _ => rfl, Prog.denote_bind]
  have h1 : ∃ d r', (Prog.opt (ext ≠ 0) (Prog.remaining fun n => Prog.extLoop (n + 1) 0) 0).denote r = .ok d r' := by
    unfold Prog.opt
    by_cases h : ext ≠ 0
    · rw [if_pos h, Prog.denote]; exact extLoop_total _ _ _ (by omega)
    · rw [if_neg h]; exact ⟨0, r, rfl⟩
  obtain ⟨d, r1, h1⟩ := h1
  rw [h1, ARes.ok_bind, show ∀ (p : Prog Bool) (f : Bool → Prog Nat), p.bind f = (p >>= f) from fun _ _ => rfl, Prog.denote_bind]
  obtain ⟨b, r2, h2⟩ := trailing_total r1
  rw [h2]; exact ⟨d, r2, rfl⟩

theorem rbspTail_exact (ext : Nat) {k : Nat} (hk : k ≤ 7) (w : List Bool) (hw : ext = 0 → w = []) :
    (Prog.rbspTail ext).denote (w ++ true :: List.replicate k false) = .ok ((w.getLast?.map Bool.toNat).getD 0) [] := by
  unfold Prog.rbspTail
  rw [show ∀ (p : Prog Nat) (f : Nat → Prog Nat), p.bind f = (p >>= f) from fun _ _ => rfl, Prog.denote_bind]
  have h1 : (Prog.opt (ext ≠ 0) (Prog.remaining fun n => Prog.extLoop (n + 1) 0) 0).denote (w ++ true :: List.replicate k false)
      = .ok ((w.getLast?.map Bool.toNat).getD 0) (true :: List.replicate k false) := by
    unfold Prog.opt
    by_cases h : ext ≠ 0
    · rw [if_pos h, Prog.denote]; exact extLoop_exact _ hk _ _ (by simp only [List.length_append, List.length_cons, List.length_replicate]; omega)
    · rw [if_neg h, hw (by omega)]; rfl
  rw [h1, ARes.ok_bind, show ∀ (p : Prog Bool) (f : Bool → Prog Nat), p.bind f = (p >>= f) from fun _ _ => rfl, Prog.denote_bind,
    (trailingBits_denote _).1 k [] hk rfl (by simp)]
  rfl

/-- without extension data, the trailing bits are consumed and what follows is left -/
theorem rbspTail_delim {k : Nat} (hk : k ≤ 7) (rest : List Bool) (hm : rest.length % 8 = 0) :
    (Prog.rbspTail 0).denote (true :: List.replicate k false ++ rest) = .ok 0 rest := by
  unfold Prog.rbspTail
  rw [show ∀ (p : Prog Nat) (f : Nat → Prog Nat), p.bind f = (p >>= f) from fun _ _ => rfl, Prog.denote_bind]
  have h1 : (Prog.opt ((0 : Nat) ≠ 0) (Prog.remaining fun n => Prog.extLoop (n + 1) 0) 0).denote (true :: List.replicate k false ++ rest)
      = .ok 0 (true :: List.replicate k false ++ rest) := rfl
  rw [h1, ARes.ok_bind, show ∀ (p : Prog Bool) (f : Bool → Prog Nat), p.bind f = (p >>= f) from fun _ _ => rfl, Prog.denote_bind,
    (trailingBits_denote _).1 k rest hk hm rfl]
  rfl

/-- What is guaranteed of a parameter set parser `p` whose result consists of a body with serialisation `enc`, read
first, followed by extension data bits (if `ext` of the body is not 0) and trailing bits:
* (sound) a returned object has a valid body and the input starts with its serialisation;
* (accepts) it accepts every input that starts with the serialisation of a valid body, whatever follows;
* (exact) on a well-formed RBSP, i.e. body, extension data (if announced), stop bit and at most 7 zero bits, the
  last extension data flag is reported and the input is consumed to its end;
* (delimited) body and trailing bits without extension data are consumed to the last trailing bit, whatever bytes follow;
* (safe) no undefined behaviour outside `A`.
`H` is a side condition on the run (`Cond.any` = none, or `Cond.canon` = no aliased signed code word is read). -/
structure InvertsRbsp {α β : Type} (H : Cond) (A : Bad → Prop) (p : Prog α) (enc : β → List Bool) (Valid : β → Prop) (ext : β → Nat)
    (body : α → β) (data : α → Nat) : Prop where
  sound : ∀ (bb bb' : BB) (a : α), bb.WF → p.run bb = .ok a bb' →
    Valid (body a) ∧ bb'.WF ∧ bb'.bytes = bb.bytes ∧ (H α p bb.rem → enc (body a) <+: bb.rem)
  accepts : ∀ (bb : BB) (b : β) (rest : List Bool), bb.WF → Valid b → bb.rem = enc b ++ rest →
    ∃ a bb', p.run bb = .ok a bb' ∧ body a = b
  exact : ∀ (bb : BB) (b : β) (w : List Bool) (k : Nat), bb.WF → Valid b → k ≤ 7 → (ext b = 0 → w = []) →
    bb.rem = enc b ++ (w ++ true :: List.replicate k false) →
    ∃ a bb', p.run bb = .ok a bb' ∧ body a = b ∧ data a = (w.getLast?.map Bool.toNat).getD 0 ∧ bb'.rem = []
  delimited : ∀ (bb : BB) (b : β) (k : Nat) (rest : List Bool), bb.WF → Valid b → k ≤ 7 → ext b = 0 → rest.length % 8 = 0 →
    bb.rem = enc b ++ (true :: List.replicate k false ++ rest) → ∃ a bb', p.run bb = .ok a bb' ∧ body a = b ∧ data a = 0 ∧ bb'.rem = rest
  safe : ∀ (bb : BB) (k : Bad), bb.WF → p.run bb = .bad k → A k

theorem Codec.invertsRbsp {α β : Type} {H : Cond} [CondOk H] {A : Bad → Prop} {pb : Prog β} {enc : β → List Bool}
    {Valid : β → Prop} (h : Codec H A pb enc Valid) {ext : β → Nat} {body : α → β} {data : α → Nat} {f : β → Nat → α} {p : Prog α}
    (hp : p = pb >>= fun b => Prog.rbspTail (ext b) >>= fun x => pure (f b x))
    (hb : ∀ b x, body (f b x) = b) (hd : ∀ b x, data (f b x) = x) : InvertsRbsp H A p enc Valid ext body data where
  sound := by
    intro bb bb' a hwf hr
    have hag := Prog.run_agrees p bb hwf
    rw [hr] at hag
    have hs := h.sound bb.rem
    have hH : H α p bb.rem → H β pb bb.rem := fun hh => by rw [hp] at hh; exact (CondOk.bind hh).1
    rw [hp, Prog.denote_bind] at hag
    revert hs hag
    cases pb.denote bb.rem with
    | fail r => intro h; exact h.elim
    | bad k => intro h; exact h.elim
    | ok b r =>
      rintro hag ⟨w, hw, _, rfl, hv⟩
      rw [ARes.ok_bind, Prog.denote_bind] at hag
      obtain ⟨d, r', ht⟩ := rbspTail_total (ext b) r
      rw [ht] at hag
      obtain ⟨rfl, h1, h2, h3⟩ := hag
      rw [hb]
      exact ⟨hv, h1, h2, fun hh => ⟨r, (hw (hH hh)).symm⟩⟩
  accepts := by
    intro bb b rest hwf hv hr
    obtain ⟨d, r', ht⟩ := rbspTail_total (ext b) rest
    have hd : p.denote bb.rem = .ok (f b d) r' := by
      rw [hp, hr, Prog.denote_bind, h.complete b hv, ARes.ok_bind, Prog.denote_bind, ht]; rfl
    obtain ⟨bb', h1, _⟩ := run_of_denote_ok hwf hd
    exact ⟨_, bb', h1, hb _ _⟩
  exact := by
    intro bb b w k hwf hv hk hw hr
    have hdd : p.denote bb.rem = .ok (f b ((w.getLast?.map Bool.toNat).getD 0)) [] := by
      rw [hp, hr, Prog.denote_bind, h.complete b hv, ARes.ok_bind, Prog.denote_bind, rbspTail_exact _ hk w hw]; rfl
    obtain ⟨bb', h1, _, _, h4⟩ := run_of_denote_ok hwf hdd
    exact ⟨_, bb', h1, hb _ _, hd _ _, h4⟩
  delimited := by
    intro bb b k rest hwf hv hk he hm hr
    have hdd : p.denote bb.rem = .ok (f b 0) rest := by
      rw [hp, hr, Prog.denote_bind, h.complete b hv, ARes.ok_bind, he, Prog.denote_bind, rbspTail_delim hk rest hm]; rfl
    obtain ⟨bb', h1, _, _, h4⟩ := run_of_denote_ok hwf hdd
    exact ⟨_, bb', h1, hb _ _, hd _ _, h4⟩
  safe := by
    intro bb k hwf hr
    have hag := Prog.run_agrees p bb hwf
    rw [hr, hp, Prog.denote_bind] at hag
    have hs := h.sound bb.rem
    revert hag hs
    cases pb.denote bb.rem with
    | fail r => intro h; exact h.elim
    | bad k => rintro rfl h; exact h
    | ok b r =>
      intro hag _
      rw [ARes.ok_bind, Prog.denote_bind] at hag
      obtain ⟨d, r', ht⟩ := rbspTail_total (ext b) r
      rw [ht] at hag
      exact hag.elim

/-- The `(data, length)` entry point on the escaped form of a well-formed RBSP: the whole encoding chain (serialise, append
trailing bits, escape) is undone. -/
theorem InvertsRbsp.escaped {α β : Type} {H : Cond} {A : Bad → Prop} {p : Prog α} {enc : β → List Bool} {Valid : β → Prop}
    {ext : β → Nat} {body : α → β} {data : α → Nat} (h : InvertsRbsp H A p enc Valid ext body data)
    (b : β) (w : List Bool) (k : Nat) (rbsp : List UInt8) (hv : Valid b) (hk : k ≤ 7) (hw : ext b = 0 → w = []) (hlen : rbsp.length < 2 ^ 32)
    (hr : bitsOf rbsp = enc b ++ (w ++ true :: List.replicate k false)) :
    ∃ a bb', p.parseEscaped (escape rbsp) = .ok a bb' ∧ body a = b ∧ data a = (w.getLast?.map Bool.toNat).getD 0 ∧ bb'.rem = [] := by
  unfold Prog.parseEscaped
  rw [C10_unescape_escape]
  simp only
  unfold Prog.runBytes
  rw [if_pos (by omega)]
  exact h.exact _ b w k (BB.WF.init rbsp) hv hk hw (by rw [BB.rem_init]; exact hr)

end H265
