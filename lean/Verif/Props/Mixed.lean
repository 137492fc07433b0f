/-
C78: NAL units the library does not support do not disturb those it does.
-/
import Verif.Spec.Mixed
import Verif.Props.RtpSendAp
import Verif.Props.History

set_option autoImplicit false

namespace H265.Std
open Spec

theorem Mixed.nal_bytes {d d' : StdParams} {l : List Item} (h : Mixed d l d') : ∀ x ∈ l, NalBytes x.bytes := by
  induction h with
  | nil => intro x hx; simp at hx
  | known h1 _ ih =>
    intro x hx
    simp only [List.mem_cons] at hx
    rcases hx with rfl | hx
    · exact h1.nal_bytes
    · exact ih x hx
  | unknown h1 _ _ _ ih =>
    intro x hx
    simp only [List.mem_cons] at hx
    rcases hx with rfl | hx
    · exact h1
    · exact ih x hx

/-- what a NAL unit with a header that is not a parameter set does -/
theorem unknown_nal {cs : Bool} {st : ParserState} {b : List UInt8} {h : NalUnitHeader} (hh : rawHeader b = some h) (ht : h.nal_unit_type ∉ [32, 33, 34])
    (hlen : b.length < 2 ^ 32) : (∃ n c, parseNalUnit cs st b = .ok (n, st) c ∧ n.nal_unit_header = h) ∨ ∃ k, parseNalUnit cs st b = .bad k := by
  obtain ⟨rbsp, hu, _⟩ := C11_unescape_bounds b
  have hle := unesc_le hu
  cases hr : parseNalUnit cs st b with
  | bad k => exact .inr ⟨k, rfl⟩
  | fail c =>
    exfalso
    have := (C22_dropped_iff (cs := cs) (st := st) hu).1 ⟨c, hr⟩
    match b, hh with
    | b0 :: b1 :: rest, _ =>
      obtain ⟨r, e⟩ := unesc_two b0 b1 rest
      rw [unescapeRbsp_eq, e] at hu
      cases hu
      simp only [List.length_cons] at this
      omega
  | ok x c =>
    obtain ⟨n, st'⟩ := x
    have hn : n.nal_unit_header = h := by
      have := header_of_parsed hr
      rw [hh] at this; cases this; rfl
    have := (C22_nal_unit hr).2 (by rw [hn]; exact ht)
    subst this
    exact .inl ⟨n, c, rfl, hn⟩

/-- what is claimed for one NAL unit of the stream and the one reported for it -/
def Item.Reported : Item → NalUnit → Prop
  | .known x, n => Reports x n
  | .unknown b, n => rawHeader b = some n.nal_unit_header

theorem mixed_all {cs : Bool} : ∀ {l : List Item} {d d' : StdParams} {st st' : ParserState} {ns : List NalUnit} (places : List (Nat × Nat × List UInt8)),
    GoodParams d → Holds d st → Reach st → Mixed d l d' → (∀ x ∈ l, x.bytes.length < 2 ^ 32) → places.map (·.2.2) = l.map Item.bytes →
    parseAll cs places st = .ok (ns, st') →
    ns.length = l.length ∧ (∀ x ∈ l.zip ns, x.1.Reported x.2) ∧ ns.map (fun n => (n.offset, n.length)) = places.map (fun x => (x.1, x.2.1)) ∧ Holds d' st'
  | [], d, d', st, st', ns, places, hg, hh, hr, hs, hl, hp, h => by
    cases hs
    have : places = [] := by simpa using hp
    subst this
    cases h
    exact ⟨rfl, fun x hx => by simp at hx, rfl, hh⟩
  | x :: l, d, d', st, st', ns, places, hg, hh, hr, hs, hl, hp, h => by
    cases places with
    | nil => simp at hp
    | cons p places =>
      obtain ⟨off, len, nal⟩ := p
      simp only [List.map_cons, List.cons.injEq] at hp
      obtain ⟨rfl, hp⟩ := hp
      have go : ∀ (n : NalUnit) (st1 : ParserState) (b : BB) (d1 : StdParams), parseNalUnit cs st x.bytes = .ok (n, st1) b → GoodParams d1 → Holds d1 st1 →
          Mixed d1 l d' → (∀ n' : NalUnit, n'.nal_unit_header = n.nal_unit_header → n'.nal_unit_payload = n.nal_unit_payload → x.Reported n') →
          ns.length = (x :: l).length ∧ (∀ y ∈ (x :: l).zip ns, y.1.Reported y.2) ∧
            ns.map (fun n => (n.offset, n.length)) = ((off, len, x.bytes) :: places).map (fun x => (x.1, x.2.1)) ∧ Holds d' st' := by
        intro n st1 b d1 e1 e2 e3 e4 e5
        simp only [parseAll, e1] at h
        cases hrest : parseAll cs places st1 with
        | error k => rw [hrest] at h; cases h
        | ok y =>
          obtain ⟨ns1, st2⟩ := y
          rw [hrest] at h
          cases h
          obtain ⟨f1, f2, f3, f4⟩ := mixed_all (cs := cs) places e2 e3 (hr.step (parseNalUnit_steps e1)) e4 (fun y hy => hl y (by simp [hy])) hp hrest
          refine ⟨by simp [f1], ?_, by simp [f3], f4⟩
          intro y hy
          simp only [List.zip_cons_cons, List.mem_cons] at hy
          rcases hy with rfl | hy
          · exact e5 _ rfl rfl
          · exact f2 y hy
      cases hs with
      | @known _ _ x _ h1 h2 =>
        have hsm : x.rbsp.length < 2 ^ 32 := by
          have h3 := hl (.known x) (by simp)
          have h4 := length_le_escape x.rbsp
          simp only [Item.bytes] at h3
          omega
        obtain ⟨w, hw, _⟩ := h1.contents
        obtain ⟨n, st1, b, e1, ⟨e2, e2'⟩, e3, e4⟩ := C48_nal_unit (cs := cs) hg hh hr h1 hsm
        exact go n st1 b _ e1 (hg.after hw) e3 h2 (fun n' q1 q2 => ⟨q1.trans e2, by rw [q2]; exact e2'⟩)
      | @unknown _ _ b hd _ h1 h2 h3 h4 =>
        rcases unknown_nal (cs := cs) (st := st) h2 h3 (hl (.unknown b) (by simp)) with ⟨n, c, e1, e2⟩ | ⟨k, e1⟩
        · exact go n st c d e1 hg hh h4 (fun n' q1 _ => by show rawHeader b = _; rw [h2, q1, e2])
        · exfalso
          have e1' : parseNalUnit cs st (Item.unknown b).bytes = .bad k := e1
          simp only [parseAll, e1'] at h
          cases h

/-- C78: an Annex B byte stream in which NAL units written after the standard and supported by the library stand among any others that are not parameter sets: if it is
parsed without undefined behaviour (the only one possible is a signed overflow, C44), there is one NAL unit reported for each, in order and at its place; those of the
supported ones have the header and contents that were sent, and the parser state holds the parameter sets sent. -/
theorem C78_annexB (cs : Bool) (st st' : ParserState) (start : List Bool) (l : List Item) (d' : StdParams) (ns : List NalUnit) (hr : Reach st)
    (hs : Mixed .none l d') (hn : start.length = l.length) (hlen : (annexB (start.zip (l.map Item.bytes))).length < 2 ^ 32)
    (h : parseBitstream cs st (annexB (start.zip (l.map Item.bytes))) = .ok (ns, st')) :
    ns.length = l.length ∧ (∀ x ∈ l.zip ns, x.1.Reported x.2) ∧
      ns.map (fun n => (n.offset, n.length)) = (nalPlaces 0 (start.zip (l.map Item.bytes))).map (fun x => (x.1, x.2.1)) ∧ Holds d' st' := by
  have hb := hs.nal_bytes
  have hmem : ∀ x ∈ l, ∃ b, (b, x.bytes) ∈ start.zip (l.map Item.bytes) := by
    intro x hx
    obtain ⟨i, hi, rfl⟩ := List.mem_iff_getElem.mp hx
    refine ⟨start[i]'(by omega), List.mem_iff_getElem.mpr ⟨i, by simp; omega, by simp⟩⟩
  have hp : (nalPlaces 0 (start.zip (l.map Item.bytes))).map (·.2.2) = l.map Item.bytes := by
    rw [nalPlaces_nal]
    exact List.map_snd_zip (by simp [hn])
  have hsm : ∀ x ∈ l, x.bytes.length < 2 ^ 32 := by
    intro x hx
    obtain ⟨b, hm⟩ := hmem x hx
    have h1 := length_le_annexB _ _ hm
    simp only at h1; omega
  rw [C25_annexB cs st _ ?_ (by omega)] at h
  · exact mixed_all _ GoodParams.none (Holds.none st) hr hs hsm hp h
  · intro x hx
    have := (List.of_mem_zip hx).2
    simp only [List.mem_map] at this
    obtain ⟨y, hy, he⟩ := this
    rw [← he]; exact hb y hy

/-- C78: the same for NAL units behind length fields of 1 to 7 bytes -/
theorem C78_length_prefixed (cs : Bool) (k : Nat) (st st' : ParserState) (l : List Item) (d' : StdParams) (ns : List NalUnit) (hr : Reach st) (hk0 : 0 < k)
    (hk : k ≤ 7) (hs : Mixed .none l d') (hl : ∀ x ∈ l, x.bytes.length < 256 ^ k ∧ x.bytes.length < 2 ^ 32)
    (hlen : (lengthPrefixed k (l.map Item.bytes)).length < 2 ^ 63) (h : parseBitstreamNaluLength cs k st (lengthPrefixed k (l.map Item.bytes)) = .ok (ns, st')) :
    ns.length = l.length ∧ (∀ x ∈ l.zip ns, x.1.Reported x.2) ∧ Holds d' st' := by
  have hb := hs.nal_bytes
  rw [lengthStream_eq cs k st _ hk0 hk ?_ hlen] at h
  · obtain ⟨h1, h2, _, h3⟩ := mixed_all _ GoodParams.none (Holds.none st) hr hs (fun x hx => (hl x hx).2) (lengthPlaces_nal k (l.map Item.bytes) 0) h
    exact ⟨h1, h2, h3⟩
  · intro x hx
    simp only [List.mem_map] at hx
    obtain ⟨y, hy, rfl⟩ := hx
    exact ⟨(hb y hy).nonempty, (hl y hy).1⟩

/-- C78 for RTP: the packets of a conforming sequence of NAL units (marked `true`) arrive among others that carry no parameter sets, as far as their first three bytes
tell: if they are parsed without undefined behaviour, the packets of the sequence are reported as if they were alone. -/
theorem C78_rtp (st st' : ParserState) (packets : List (List UInt8 × Bool)) (l : List StdNal) (d' : StdParams) (rs : List (Option Rtp)) (hr : Reach st)
    (hs : SentRtp .none l ((packets.filter (·.2)).map (·.1)) d') (hlen : ∀ x ∈ packets, x.1.length < 2 ^ 32)
    (hc : ∀ x ∈ packets, x.2 = false → carriesNoParameterSet x.1 = true) (h : rtpResults (packets.map (·.1)) st = .ok (rs, st')) :
    ∃ qs : List Rtp, ((packets.zip rs).filter (·.1.2)).map (·.2) = qs.map some ∧ AllReported l (qs.flatMap rtpUnits) ∧ Holds d' st' := by
  have h1 := C72_loss_by_header packets st st' rs hlen hc h
  obtain ⟨qs, st2, h2, h3, h4⟩ := C77_session st l _ d' hr hs (fun p hp => by
    simp only [List.mem_map] at hp
    obtain ⟨x, hx, rfl⟩ := hp
    exact hlen x (List.mem_filter.1 hx).1)
  rw [h1] at h2
  injection h2 with h2
  injection h2 with h5 h6
  exact ⟨qs, h5, h3, h6 ▸ h4⟩

/-! ### hypotheses met -/

/-- an SEI message with a structure cut off, and a slice header that makes no sense, among the NAL units of the unit test -/
def exItems : List Item :=
  [.known (exNals[0]'(by decide)), .unknown [0x4e, 0x01, 0x89, 0x18, 0x33], .known (exNals[1]'(by decide)), .known (exNals[2]'(by decide)),
   .unknown [0x02, 0x01, 0xff, 0x11, 0x22], .known (exNals[3]'(by decide)), .unknown [0x7e, 0x01, 0x05], .known (exNals[4]'(by decide))]

theorem exItems_mixed : ∃ d, Mixed .none exItems d := by
  obtain ⟨d, h⟩ := exNals_sent
  cases h with | cons v h =>
  cases h with | cons s h =>
  cases h with | cons p h =>
  cases h with | cons i h =>
  cases h with | cons q h =>
  cases h
  have nb : ∀ b : List UInt8, b ∈ [[0x4e, 0x01, 0x89, 0x18, 0x33], [0x02, 0x01, 0xff, 0x11, 0x22], [0x7e, 0x01, 0x05]] → NalBytes b := by
    intro b hb
    simp only [List.mem_cons, List.not_mem_nil, or_false] at hb
    rcases hb with rfl | rfl | rfl <;> exact nalBytes_of _ (by decide) (by decide) (by decide)
  exact ⟨_, .known v <| .unknown (h := ⟨0, 39, 0, 1⟩) (nb _ (by decide)) (by decide) (by decide) <| .known s <| .known p <|
    .unknown (h := ⟨0, 1, 0, 1⟩) (nb _ (by decide)) (by decide) (by decide) <| .known i <| .unknown (h := ⟨0, 63, 0, 1⟩) (nb _ (by decide)) (by decide) (by decide) <|
    .known q <| .nil _⟩

/-- … and it is parsed without undefined behaviour: eight NAL units -/
example : (parseBitstream false .empty (annexB ((List.replicate 8 true).zip (exItems.map Item.bytes)))).toOption.map (fun x => x.1.length) = some 8 := by
  decide +kernel

end H265.Std
