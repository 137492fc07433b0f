/-
C69 for RTP payloads and configuration boxes.
-/
import Verif.Proof.DumpDet7
import Verif.Proof.DumpRtp

set_option autoImplicit false

namespace H265
open Spec

/-! ### RTP payloads -/

/-- what the parser guarantees about an RTP payload that can be dumped -/
structure RtpIn (st : ParserState) (r : Rtp) : Prop where
  header : ValidNalUnitHeader r.nal_unit_header
  single : r.nal_unit_header.nal_unit_type ≤ 47 → ∃ x, r = { nal_unit_header := r.nal_unit_header, rtp_single := some x } ∧ ValidNalUnitHeader x.nal_unit_header ∧
    PayloadIn st x.nal_unit_header.nal_unit_type x.nal_unit_payload
  ap : r.nal_unit_header.nal_unit_type = 48 → ∃ x, r = { nal_unit_header := r.nal_unit_header, rtp_ap := some x } ∧ ValidNalUnitHeader x.header ∧
    ∀ y ∈ withStates (fun u => some u.nal_unit_payload) st x.units, ValidNalUnitHeader y.2.nal_unit_header ∧ PayloadIn y.1 y.2.nal_unit_header.nal_unit_type y.2.nal_unit_payload
  fu : r.nal_unit_header.nal_unit_type = 49 → ∃ x, r = { nal_unit_header := r.nal_unit_header, rtp_fu := some x } ∧ ValidNalUnitHeader x.header ∧
    x.s_bit < 2 ∧ x.e_bit < 2 ∧ x.fu_type < 64 ∧ (x.s_bit = 1 → ∃ p, x.nal_unit_payload = some p ∧ PayloadIn st x.fu_type p) ∧ (x.s_bit ≠ 1 → x.nal_unit_payload = none)
  rest : 50 ≤ r.nal_unit_header.nal_unit_type → r = { nal_unit_header := r.nal_unit_header }

theorem mem_withStates_snd {α : Type} {pay : α → Option NalUnitPayload} {st : ParserState} {l : List α} {y : ParserState × α} (h : y ∈ withStates pay st l) : y.2 ∈ l := by
  obtain ⟨a, ha, e⟩ := (mem_withStates (P := fun a => a = y.2)).1 ⟨y, h, rfl⟩
  exact e ▸ ha

theorem RtpOk.rtpIn {st : ParserState} {r : Rtp} (h : RtpOk st r) (hn : ¬ NoRtpText r) : RtpIn st r := by
  obtain ⟨hd, xs, xa, xf⟩ := r
  refine ⟨h.header, fun hc => ?_, fun hc => ?_, fun hc => ?_, fun hc => ?_⟩
  · obtain ⟨x, e1, e2, e3, e4⟩ := h.single hc
    dsimp only at e1 e3 e4; subst e1 e3 e4
    exact ⟨x, rfl, h.singleHead x rfl, e2.payloadIn h.reach (fun k => hn (.inl ⟨x, rfl, k⟩))⟩
  · obtain ⟨x, e1, e2, e3, e4⟩ := h.ap hc
    dsimp only at e1 e2 e3; subst e1 e2 e3
    refine ⟨x, rfl, (h.apHead x rfl).1, fun y hy => ⟨(h.apHead x rfl).2 _ (mem_withStates_snd hy), (e4 y hy).2.payloadIn (e4 y hy).1 (fun k => hn ?_)⟩⟩
    exact .inr (.inl ⟨x, rfl, _, mem_withStates_snd hy, k⟩)
  · obtain ⟨x, e1, e2, e3, e4, e5⟩ := h.fu hc
    dsimp only at e1 e2 e3; subst e1 e2 e3
    obtain ⟨f1, f2, f3, f4⟩ := h.fuHead x rfl
    refine ⟨x, rfl, f1, f2, f3, f4, fun hs => ?_, e5⟩
    obtain ⟨p, k1, k2⟩ := e4 hs
    exact ⟨p, k1, k2.payloadIn h.reach (fun k => hn (.inr (.inr ⟨x, rfl, p, k1, k⟩)))⟩
  · obtain ⟨e1, e2, e3⟩ := h.rest hc
    dsimp only at e1 e2 e3; subst e1 e2 e3
    rfl

/-- the words of a NAL unit header without the last brace -/
def headWords (h : NalUnitHeader) : Text := (textNalUnitHeader h).dropLast

theorem headWords_eq (h : NalUnitHeader) : textNalUnitHeader h = headWords h ++ ["}".toList] := by
  unfold headWords textNalUnitHeader Spec.block braces
  rw [← List.append_assoc, List.dropLast_concat]

theorem headWords_length (h : NalUnitHeader) : (headWords h).length = 10 := by
  unfold headWords textNalUnitHeader
  rw [List.length_dropLast]
  rfl

theorem det_headWords {h h' : NalUnitHeader} (ha : ValidNalUnitHeader h) (hb : ValidNalUnitHeader h') : Det (headWords h) (headWords h') (h = h') := by
  intro r t e
  obtain ⟨e1, e2⟩ := List.append_inj e ((headWords_length h).trans (headWords_length h').symm)
  exact ⟨(det_NalUnitHeader ha hb).eq (by rw [headWords_eq, headWords_eq, e1]), e2⟩

theorem glued_eq (h : NalUnitHeader) (w : List Char) (ws : Text) : glued (textNalUnitHeader h) (w :: ws) = headWords h ++ ((("}".toList ++ w) :: ws)) := by
  rw [headWords_eq]
  unfold Spec.glued
  simp

theorem det_tail {w : List Char} {f g : Text} {P : Prop} (h : Det (w :: f) (w :: g) P) : Det f g P :=
  fun r t e => h r t (by rw [List.cons_append, List.cons_append, e])

/-- after the name of a block -/
theorem block_cons {name : String} (h : words name.toList = [name.toList]) (ts : List Text) : block name ts = name.toList :: braces ts.flatten := by
  unfold Spec.block; rw [h]; rfl

theorem det_RtpSingle {o : ParsingOptions} {st : ParserState} {x x' : RtpSingle} (a1 : ValidNalUnitHeader x.nal_unit_header)
    (a2 : PayloadIn st x.nal_unit_header.nal_unit_type x.nal_unit_payload) (b1 : ValidNalUnitHeader x'.nal_unit_header)
    (b2 : PayloadIn st x'.nal_unit_header.nal_unit_type x'.nal_unit_payload) : Det (textRtpSingle o st x) (textRtpSingle o st x') (x.shown = x'.shown) := by
  unfold textRtpSingle
  refine det_block (fun r t h => ?_)
  obtain ⟨e1, h⟩ := step (det_NalUnitHeader a1 b1) h
  obtain ⟨e2, h⟩ := step (det_Payload (.refl st) a2 (e1 ▸ b2)) h
  refine ⟨?_, steps_nil h⟩
  unfold RtpSingle.shown
  rw [e1, e2]

theorem textRtpSingle_alike {o : ParsingOptions} {st : ParserState} {x x' : RtpSingle} 
    (a2 : PayloadIn st x.nal_unit_header.nal_unit_type x.nal_unit_payload) 
    (b2 : PayloadIn st x'.nal_unit_header.nal_unit_type x'.nal_unit_payload) (h : x.shown = x'.shown) : textRtpSingle o st x = textRtpSingle o st x' := by
  have e1 : x.nal_unit_header = x'.nal_unit_header := (congrArg RtpSingle.nal_unit_header h :)
  have e2 : x.nal_unit_payload.shown = x'.nal_unit_payload.shown := (congrArg RtpSingle.nal_unit_payload h :)
  unfold textRtpSingle
  rw [e1, textPayload_alike (.refl st) a2 (e1 ▸ b2) e2]

theorem det_RtpFu {o : ParsingOptions} {st : ParserState} {x x' : RtpFu}
    (a1 : ValidNalUnitHeader x.header) (a2 : x.s_bit < 2) (a3 : x.e_bit < 2) (a4 : x.fu_type < 64)
    (a5 : x.s_bit = 1 → ∃ p, x.nal_unit_payload = some p ∧ PayloadIn st x.fu_type p) (a6 : x.s_bit ≠ 1 → x.nal_unit_payload = none)
    (b1 : ValidNalUnitHeader x'.header) (b2 : x'.s_bit < 2) (b3 : x'.e_bit < 2) (b4 : x'.fu_type < 64)
    (b5 : x'.s_bit = 1 → ∃ p, x'.nal_unit_payload = some p ∧ PayloadIn st x'.fu_type p) (b6 : x'.s_bit ≠ 1 → x'.nal_unit_payload = none) :
    Det (textRtpFu o st x) (textRtpFu o st x') (x.shown = x'.shown) := by
  unfold textRtpFu
  refine det_block (fun r t h => ?_)
  obtain ⟨e1, h⟩ := step (det_NalUnitHeader a1 b1) h
  obtain ⟨e2, h⟩ := step (det_u32 (by omega) (by omega)) h
  obtain ⟨e3, h⟩ := step (det_u32 (by omega) (by omega)) h
  obtain ⟨e4, h⟩ := step (det_u32 (by omega) (by omega)) h
  by_cases hs : x.s_bit = 1
  · obtain ⟨p, k1, k2⟩ := a5 hs
    obtain ⟨p', k3, k4⟩ := b5 (by omega)
    rw [k1, k3, some?_some, some?_some] at h
    obtain ⟨e5, h⟩ := step (det_Payload (.refl st) k2 (e4 ▸ k4)) h
    refine ⟨?_, steps_nil h⟩
    unfold RtpFu.shown
    rw [e1, e2, e3, e4, k1, k3, Option.map_some, Option.map_some, e5]
  · have k1 := a6 hs
    have k3 := b6 (by omega)
    rw [k1, k3, some?_none] at h
    refine ⟨?_, steps_nil h⟩
    unfold RtpFu.shown
    rw [e1, e2, e3, e4, k1, k3]

theorem textRtpFu_alike {o : ParsingOptions} {st : ParserState} {x x' : RtpFu}
    (a5 : x.s_bit = 1 → ∃ p, x.nal_unit_payload = some p ∧ PayloadIn st x.fu_type p) (a6 : x.s_bit ≠ 1 → x.nal_unit_payload = none)
    (b5 : x'.s_bit = 1 → ∃ p, x'.nal_unit_payload = some p ∧ PayloadIn st x'.fu_type p) (h : x.shown = x'.shown) : textRtpFu o st x = textRtpFu o st x' := by
  have e1 : x.header = x'.header := (congrArg RtpFu.header h :)
  have e2 : x.s_bit = x'.s_bit := (congrArg RtpFu.s_bit h :)
  have e3 : x.e_bit = x'.e_bit := (congrArg RtpFu.e_bit h :)
  have e4 : x.fu_type = x'.fu_type := (congrArg RtpFu.fu_type h :)
  have e5 : x.nal_unit_payload.map NalUnitPayload.shown = x'.nal_unit_payload.map NalUnitPayload.shown := (congrArg RtpFu.nal_unit_payload h :)
  unfold textRtpFu
  rw [e1, e2, e3, e4]
  by_cases hs : x.s_bit = 1
  · obtain ⟨p, k1, k2⟩ := a5 hs
    obtain ⟨p', k3, k4⟩ := b5 (by omega)
    rw [k1, k3] at e5
    rw [k1, k3, some?_some, some?_some, textPayload_alike (.refl st) k2 (e4 ▸ k4) (Option.some.inj e5)]
  · rw [a6 hs] at e5
    cases hp : x'.nal_unit_payload with
    | none => rw [a6 hs]
    | some p => rw [hp] at e5; cases e5

/-- the units of an aggregation packet, with the state before each -/
abbrev apFrom (st : ParserState) (us : List RtpApUnit) : List (ParserState × RtpApUnit) := withStates (fun u => some u.nal_unit_payload) st us

/-- the text of one of them -/
abbrev apText (o : ParsingOptions) (y : ParserState × RtpApUnit) : Text :=
  List.flatten [num "nal_unit_size" y.2.nal_unit_size, textNalUnitHeader y.2.nal_unit_header, textNalUnitPayload o y.1 y.2.nal_unit_payload]

/-- what is known of it -/
abbrev ApIn (y : ParserState × RtpApUnit) : Prop := ValidNalUnitHeader y.2.nal_unit_header ∧ PayloadIn y.1 y.2.nal_unit_header.nal_unit_type y.2.nal_unit_payload

theorem textRtpAp_from (o : ParsingOptions) (st : ParserState) (x : RtpAp) :
    textRtpAp o st x = block "rtp_ap" [textNalUnitHeader x.header, (apFrom st x.units).flatMap (apText o)] := by
  unfold textRtpAp apFrom
  rw [withStates_eq, mapIdx_flatMap]
  simp only [List.filterMap_eq_map', apText]

theorem opens_ap (o : ParsingOptions) (y : ParserState × RtpApUnit) (r : Text) : ∃ w, apText o y ++ r = "nal_unit_size:".toList :: w := ⟨_, rfl⟩

theorem ap_det {o : ParsingOptions} : ∀ {us us' : List RtpApUnit} {st st' : ParserState}, Alike st st' → (∀ y ∈ apFrom st us, ApIn y) → (∀ y ∈ apFrom st' us', ApIn y) →
    ∀ {r t : Text}, (apFrom st us).flatMap (apText o) ++ "}".toList :: r = (apFrom st' us').flatMap (apText o) ++ "}".toList :: t →
    us.map RtpApUnit.shown = us'.map RtpApUnit.shown ∧ r = t
  | [], [], _, _, _, _, _, r, t, h => ⟨rfl, (List.cons.inj h).2⟩
  | [], u :: us', st, st', _, _, _, r, t, h => by
    have h2 : "}".toList :: r = (apText o (st', u) ++ _) ++ _ := h
    rw [List.append_assoc] at h2
    obtain ⟨w, e⟩ := opens_ap o (st', u) _
    rw [e] at h2
    exact absurd (List.cons.inj h2).1 (by decide)
  | u :: us, [], st, st', _, _, _, r, t, h => by
    have h2 : "}".toList :: t = (apText o (st, u) ++ _) ++ _ := h.symm
    rw [List.append_assoc] at h2
    obtain ⟨w, e⟩ := opens_ap o (st, u) _
    rw [e] at h2
    exact absurd (List.cons.inj h2).1 (by decide)
  | u :: us, u' :: us', st, st', hs, ha, hb, r, t, h => by
    have h2 : (apText o (st, u) ++ _) ++ _ = (apText o (st', u') ++ _) ++ _ := h
    rw [List.append_assoc, List.append_assoc] at h2
    obtain ⟨a1, a2⟩ := ha _ List.mem_cons_self
    obtain ⟨b1, b2⟩ := hb _ List.mem_cons_self
    obtain ⟨e1, h2⟩ := step det_numNat h2
    obtain ⟨e2, h2⟩ := step (det_NalUnitHeader a1 b1) h2
    dsimp only at e2 a2 b2
    obtain ⟨e3, h2⟩ := step (det_Payload hs a2 (e2 ▸ b2)) h2
    obtain ⟨e4, e5⟩ := ap_det (stored_alike hs e3) (fun x hx => ha x (List.mem_cons_of_mem _ hx)) (fun x hx => hb x (List.mem_cons_of_mem _ hx)) (steps_nil h2)
    refine ⟨?_, e5⟩
    rw [List.map_cons, List.map_cons, e4]
    congr 1
    unfold RtpApUnit.shown
    dsimp only at e1
    rw [e1, e2, e3]

theorem ap_alike {o : ParsingOptions} : ∀ {us us' : List RtpApUnit} {st st' : ParserState}, Alike st st' → (∀ y ∈ apFrom st us, ApIn y) → (∀ y ∈ apFrom st' us', ApIn y) →
    us.map RtpApUnit.shown = us'.map RtpApUnit.shown → (apFrom st us).flatMap (apText o) = (apFrom st' us').flatMap (apText o)
  | [], [], _, _, _, _, _, _ => rfl
  | [], u :: us', st, st', _, _, _, h => by cases h
  | u :: us, [], st, st', _, _, _, h => by cases h
  | u :: us, u' :: us', st, st', hs, ha, hb, h => by
    obtain ⟨e, h⟩ := List.cons.inj h
    obtain ⟨a1, a2⟩ := ha _ List.mem_cons_self
    obtain ⟨b1, b2⟩ := hb _ List.mem_cons_self
    have e1 : u.nal_unit_size = u'.nal_unit_size := (congrArg RtpApUnit.nal_unit_size e :)
    have e2 : u.nal_unit_header = u'.nal_unit_header := (congrArg RtpApUnit.nal_unit_header e :)
    have e3 : u.nal_unit_payload.shown = u'.nal_unit_payload.shown := (congrArg RtpApUnit.nal_unit_payload e :)
    dsimp only at a2 b2
    show apText o (st, u) ++ _ = apText o (st', u') ++ _
    have k : apText o (st, u) = apText o (st', u') := by
      unfold apText
      dsimp only
      rw [e1, e2, textPayload_alike hs a2 (e2 ▸ b2) e3]
    rw [k]
    congr 1
    exact ap_alike (stored_alike hs e3) (fun x hx => ha x (List.mem_cons_of_mem _ hx)) (fun x hx => hb x (List.mem_cons_of_mem _ hx)) h

theorem det_RtpAp {o : ParsingOptions} {st : ParserState} {x x' : RtpAp} (a1 : ValidNalUnitHeader x.header) (a2 : ∀ y ∈ apFrom st x.units, ApIn y)
    (b1 : ValidNalUnitHeader x'.header) (b2 : ∀ y ∈ apFrom st x'.units, ApIn y) : Det (textRtpAp o st x) (textRtpAp o st x') (x.shown = x'.shown) := by
  intro r t h
  rw [textRtpAp_from, textRtpAp_from] at h
  rw [block_cons (by decide), block_cons (by decide)] at h
  have h2 := (List.cons.inj h).2
  unfold braces at h2
  simp only [List.flatten_cons, List.flatten_nil, List.append_nil, List.cons_append, List.append_assoc, List.nil_append] at h2
  have h3 := (List.cons.inj h2).2
  obtain ⟨e1, h3⟩ := det_NalUnitHeader a1 b1 _ _ h3
  have h4 : (apFrom st x.units).flatMap (apText o) ++ "}".toList :: r = (apFrom st x'.units).flatMap (apText o) ++ "}".toList :: t := by
    have h5 : ((apFrom st x.units).flatMap (apText o) ++ ["}".toList]) ++ r = ((apFrom st x'.units).flatMap (apText o) ++ ["}".toList]) ++ t := h3
    simpa only [List.append_assoc, List.singleton_append] using h5
  obtain ⟨e2, h3⟩ := ap_det (.refl st) a2 b2 h4
  refine ⟨?_, h3⟩
  unfold RtpAp.shown
  rw [e1, e2]

/-- an RTP payload, from the first brace on -/
def rtpInner (o : ParsingOptions) (st : ParserState) (r : Rtp) : Text :=
  if r.nal_unit_header.nal_unit_type ≤ 47 then match r.rtp_single with
    | some x => ("}".toList ++ "rtp_single".toList) :: (textRtpSingle o st x).tail
    | none => []
  else if r.nal_unit_header.nal_unit_type = 48 then match r.rtp_ap with
    | some x => ("}".toList ++ "rtp_ap".toList) :: (textRtpAp o st x).tail
    | none => []
  else if r.nal_unit_header.nal_unit_type = 49 then match r.rtp_fu with
    | some x => ("}".toList ++ "rtp_fu".toList) :: (textRtpFu o st x).tail
    | none => []
  else ["}".toList]

theorem textRtp_eq {o : ParsingOptions} {st : ParserState} {r : Rtp} (h : RtpIn st r) :
    textRtp o st r = "rtp".toList :: "{".toList :: (headWords r.nal_unit_header ++ (rtpInner o st r ++ ["}".toList])) := by
  have hb : ∀ t : Text, block "rtp" [t] = "rtp".toList :: "{".toList :: (t ++ ["}".toList]) := by
    intro t; rw [block_cons (by decide)]; unfold braces; simp
  obtain ⟨hd, xs, xa, xf⟩ := r
  unfold textRtp rtpInner
  rw [hb]
  by_cases h1 : hd.nal_unit_type ≤ 47
  · obtain ⟨x, e, -⟩ := h.single h1
    cases e
    dsimp only
    rw [if_pos h1, textRtpSingle, block_cons (by decide), glued_eq, List.tail_cons, List.append_assoc]
  by_cases h2 : hd.nal_unit_type = 48
  · obtain ⟨x, e, -⟩ := h.ap h2
    cases e
    dsimp only
    rw [if_neg h1, if_pos h2, textRtpAp, block_cons (by decide), glued_eq, List.tail_cons, List.append_assoc]
  by_cases h3 : hd.nal_unit_type = 49
  · obtain ⟨x, e, -⟩ := h.fu h3
    cases e
    dsimp only
    rw [if_neg h1, if_neg h2, if_pos h3, textRtpFu, block_cons (by decide), glued_eq, List.tail_cons, List.append_assoc]
  have e := h.rest (show 50 ≤ hd.nal_unit_type by omega)
  cases e
  dsimp only
  rw [if_neg h1, if_neg h2, if_neg h3, headWords_eq, List.append_assoc]

theorem det_ofTail {w : List Char} {f g : Text} {P : Prop} (h : Det f g P) (hf : ∃ t, f = w :: t) (hg : ∃ t, g = w :: t) : Det f.tail g.tail P := by
  obtain ⟨a, rfl⟩ := hf
  obtain ⟨b, rfl⟩ := hg
  exact det_tail h

theorem rtp_det {o : ParsingOptions} {st : ParserState} {r r' : Rtp} (ha : RtpIn st r) (hb : RtpIn st r') (h : textRtp o st r = textRtp o st r') : r.shown = r'.shown := by
  rw [textRtp_eq ha, textRtp_eq hb] at h
  replace h := (List.cons.inj (List.cons.inj h).2).2
  obtain ⟨e, h⟩ := det_headWords ha.header hb.header _ _ h
  obtain ⟨hd, xs, xa, xf⟩ := r
  obtain ⟨hd', xs', xa', xf'⟩ := r'
  dsimp only at e
  subst e
  unfold rtpInner at h
  dsimp only at h
  by_cases h1 : hd.nal_unit_type ≤ 47
  · obtain ⟨x, e, a1, a2⟩ := ha.single h1
    obtain ⟨x', e', b1, b2⟩ := hb.single h1
    cases e; cases e'
    dsimp only at h
    rw [if_pos h1, if_pos h1] at h
    have := (det_ofTail (w := "rtp_single".toList) (det_RtpSingle (o := o) a1 a2 b1 b2) ⟨_, block_cons (by decide) _⟩ ⟨_, block_cons (by decide) _⟩ _ _ (List.cons.inj h).2).1
    unfold Rtp.shown
    simp only [Option.map_some, Option.map_none, this]
  by_cases h2 : hd.nal_unit_type = 48
  · obtain ⟨x, e, a1, a2⟩ := ha.ap h2
    obtain ⟨x', e', b1, b2⟩ := hb.ap h2
    cases e; cases e'
    dsimp only at h
    rw [if_neg h1, if_neg h1, if_pos h2, if_pos h2] at h
    have := (det_ofTail (w := "rtp_ap".toList) (det_RtpAp (o := o) a1 a2 b1 b2) ⟨_, block_cons (by decide) _⟩ ⟨_, block_cons (by decide) _⟩ _ _ (List.cons.inj h).2).1
    unfold Rtp.shown
    simp only [Option.map_some, Option.map_none, this]
  by_cases h3 : hd.nal_unit_type = 49
  · obtain ⟨x, e, a1, a2, a3, a4, a5, a6⟩ := ha.fu h3
    obtain ⟨x', e', b1, b2, b3, b4, b5, b6⟩ := hb.fu h3
    cases e; cases e'
    dsimp only at h
    rw [if_neg h1, if_neg h1, if_neg h2, if_neg h2, if_pos h3, if_pos h3] at h
    have := (det_ofTail (w := "rtp_fu".toList) (det_RtpFu (o := o) a1 a2 a3 a4 a5 a6 b1 b2 b3 b4 b5 b6) ⟨_, block_cons (by decide) _⟩ ⟨_, block_cons (by decide) _⟩ _ _
      (List.cons.inj h).2).1
    unfold Rtp.shown
    simp only [Option.map_some, Option.map_none, this]
  have e := ha.rest (show 50 ≤ hd.nal_unit_type by omega)
  have e' := hb.rest (show 50 ≤ hd.nal_unit_type by omega)
  cases e; cases e'
  rfl

theorem rtp_alike {o : ParsingOptions} {st : ParserState} {r r' : Rtp} (ha : RtpIn st r) (hb : RtpIn st r') (h : r.shown = r'.shown) : textRtp o st r = textRtp o st r' := by
  obtain ⟨hd, xs, xa, xf⟩ := r
  obtain ⟨hd', xs', xa', xf'⟩ := r'
  have e : hd = hd' := (congrArg Rtp.nal_unit_header h :)
  have es : xs.map RtpSingle.shown = xs'.map RtpSingle.shown := (congrArg Rtp.rtp_single h :)
  have ea : xa.map RtpAp.shown = xa'.map RtpAp.shown := (congrArg Rtp.rtp_ap h :)
  have ef : xf.map RtpFu.shown = xf'.map RtpFu.shown := (congrArg Rtp.rtp_fu h :)
  subst e
  unfold textRtp
  dsimp only
  by_cases h1 : hd.nal_unit_type ≤ 47
  · obtain ⟨x, e, a1, a2⟩ := ha.single h1
    obtain ⟨x', e', b1, b2⟩ := hb.single h1
    cases e; cases e'
    dsimp only
    rw [textRtpSingle_alike a2 b2 (Option.some.inj es)]
  by_cases h2 : hd.nal_unit_type = 48
  · obtain ⟨x, e, a1, a2⟩ := ha.ap h2
    obtain ⟨x', e', b1, b2⟩ := hb.ap h2
    cases e; cases e'
    dsimp only
    have k := Option.some.inj ea
    have k1 : x.header = x'.header := (congrArg RtpAp.header k :)
    have k2 : x.units.map RtpApUnit.shown = x'.units.map RtpApUnit.shown := (congrArg RtpAp.units k :)
    rw [textRtpAp_from, textRtpAp_from, k1, ap_alike (.refl st) a2 b2 k2]
  by_cases h3 : hd.nal_unit_type = 49
  · obtain ⟨x, e, a1, a2, a3, a4, a5, a6⟩ := ha.fu h3
    obtain ⟨x', e', b1, b2, b3, b4, b5, b6⟩ := hb.fu h3
    cases e; cases e'
    dsimp only
    rw [textRtpFu_alike a5 a6 b5 (Option.some.inj ef)]
  have e := ha.rest (show 50 ≤ hd.nal_unit_type by omega)
  have e' := hb.rest (show 50 ≤ hd.nal_unit_type by omega)
  cases e; cases e'
  rfl

end H265
