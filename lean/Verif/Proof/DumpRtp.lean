/-
The text of RTP payloads: when there is none, and its words.
-/
import Verif.Proof.DumpStream
import Verif.Props.Rtp

set_option autoImplicit false

namespace H265
open Spec

/-! ### What the parser returns -/

/-- what is known of a parsed RTP payload -/
structure RtpOk (st : ParserState) (r : Rtp) : Prop where
  reach : Reach st
  single : r.nal_unit_header.nal_unit_type ≤ 47 → ∃ x, r.rtp_single = some x ∧ ParsedIn st x.nal_unit_header.nal_unit_type x.nal_unit_payload ∧
    r.rtp_ap = none ∧ r.rtp_fu = none
  ap : r.nal_unit_header.nal_unit_type = 48 → ∃ x, r.rtp_ap = some x ∧ r.rtp_single = none ∧ r.rtp_fu = none ∧
    ∀ y ∈ withStates (fun u => some u.nal_unit_payload) st x.units, Reach y.1 ∧ ParsedIn y.1 y.2.nal_unit_header.nal_unit_type y.2.nal_unit_payload
  fu : r.nal_unit_header.nal_unit_type = 49 → ∃ x, r.rtp_fu = some x ∧ r.rtp_single = none ∧ r.rtp_ap = none ∧
    (x.s_bit = 1 → ∃ p, x.nal_unit_payload = some p ∧ ParsedIn st x.fu_type p) ∧ (x.s_bit ≠ 1 → x.nal_unit_payload = none)
  rest : 50 ≤ r.nal_unit_header.nal_unit_type → r.rtp_single = none ∧ r.rtp_ap = none ∧ r.rtp_fu = none
  header : ValidNalUnitHeader r.nal_unit_header
  singleHead : ∀ x, r.rtp_single = some x → ValidNalUnitHeader x.nal_unit_header
  apHead : ∀ x, r.rtp_ap = some x → ValidNalUnitHeader x.header ∧ ∀ u ∈ x.units, ValidNalUnitHeader u.nal_unit_header
  fuHead : ∀ x, r.rtp_fu = some x → ValidNalUnitHeader x.header ∧ x.s_bit < 2 ∧ x.e_bit < 2 ∧ x.fu_type < 64

theorem apUnits_headers {st st' : ParserState} {r : List Bool} {us : List RtpApUnit} (h : ApUnits st r us st') : ∀ u ∈ us, ValidNalUnitHeader u.nal_unit_header := by
  induction h with
  | nil st => intro u hu; cases hu
  | cons _ hv _ _ _ ih =>
    intro u hu
    rcases List.mem_cons.1 hu with rfl | hu
    · exact hv
    · exact ih u hu

theorem rtp_ok {st st' : ParserState} {data : List UInt8} {r : Rtp} (hs : Reach st) (hlen : data.length < 2 ^ 32)
    (h : parseRtp st data = .ok (some r, st')) : RtpOk st r := by
  obtain ⟨rbsp, hu, _⟩ := C11_unescape_bounds data
  have hle := unesc_le hu
  match rbsp, hu, hle with
  | [], hu, _ => rw [C37_short hu (by simp)] at h; cases h
  | [x], hu, _ => rw [C37_short hu (by simp)] at h; cases h
  | b0 :: b1 :: rest, hu, hle =>
    rw [parseRtp_eq hu (by omega), parseRtpBB_eq] at h
    have hw := BB.WF.init (b0 :: b1 :: rest)
    by_cases h1 : (headerOf b0 b1).nal_unit_type ≤ 47
    · rw [if_pos h1] at h
      unfold rtpOut at h
      split at h
      · rename_i x s b hx
        cases h
        unfold parseRtpSingle at hx
        obtain ⟨a, c, ha, hx⟩ := Prog.bind_ok hx
        obtain ⟨⟨p, s1⟩, c2, hp, hx⟩ := Prog.bind_ok hx
        cases hx
        refine ⟨hs, fun _ => ⟨_, rfl, ⟨c, _, _, (run_ok_wf hw ha).1, hp⟩, rfl, rfl⟩, fun h => ?_, fun h => ?_, fun h => ?_, validHeaderOf _ _,
          fun x hx => ?_, fun x hx => (by cases hx), fun x hx => (by cases hx)⟩
        rotate_right
        · cases hx; exact (C19_header_inverts.sound _ _ _ hw ha).1
        all_goals (simp only at h; omega)
      · cases h
      · cases h
    rw [if_neg h1] at h
    by_cases h2 : (headerOf b0 b1).nal_unit_type = 48
    · rw [if_pos h2] at h
      unfold rtpApOut at h
      split at h
      · rename_i o s b hx
        cases o with
        | none => cases h
        | some x =>
          cases h
          obtain ⟨_, _, hvh, hau⟩ := C38_sound hw hx
          refine ⟨hs, fun h => ?_, fun _ => ⟨x, rfl, rfl, rfl, apUnits_units hs hau⟩, fun h => ?_, fun h => ?_, validHeaderOf _ _, fun y hy => (by cases hy),
            fun y hy => (by cases hy; exact ⟨hvh, apUnits_headers hau⟩), fun y hy => (by cases hy)⟩ <;> (simp only at h; omega)
      · cases h
      · cases h
    rw [if_neg h2] at h
    by_cases h3 : (headerOf b0 b1).nal_unit_type = 49
    · rw [if_pos h3] at h
      unfold rtpOut at h
      split at h
      · rename_i x s b hx
        cases h
        obtain ⟨_, _, hvh, hb, hb2, hb3, h0, hp⟩ := C39_sound hw hx
        refine ⟨hs, fun h => ?_, fun h => ?_, fun _ => ⟨x, rfl, rfl, rfl, fun h => ?_, fun h => (h0 (by omega)).1⟩, fun h => ?_, validHeaderOf _ _, fun y hy => (by cases hy),
          fun y hy => (by cases hy), fun y hy => (by cases hy; exact ⟨hvh, hb, hb2, hb3⟩)⟩
        · simp only at h; omega
        · simp only at h; omega
        · obtain ⟨p, h4, h5⟩ := hp h
          exact ⟨p, h4, h5.parsed.1⟩
        · simp only at h; omega
      · cases h
      · cases h
    rw [if_neg h3] at h
    cases h
    refine ⟨hs, fun h => ?_, fun h => ?_, fun h => ?_, fun h => ⟨rfl, rfl, rfl⟩, validHeaderOf _ _, fun y hy => (by cases hy), fun y hy => (by cases hy),
      fun y hy => (by cases hy)⟩ <;> (simp only at h; omega)

/-! ### When there is no text -/

theorem okd_header (h : NalUnitHeader) : OkD (Dump.on (dumpNalUnitHeader h)) := by
  refine ⟨_, rfl⟩

theorem null_dumpRtp {o : ParsingOptions} {st : ParserState} {r : Rtp} (h : RtpOk st r) : Null (dumpRtp o st r) (Spec.NoRtpText r) := by
  unfold dumpRtp
  refine Null.blk (Null.okCons (okd_header _) (Null.one ?_))
  by_cases h1 : r.nal_unit_header.nal_unit_type ≤ 47
  · rw [if_pos h1]
    obtain ⟨x, e, hp, e2, e3⟩ := h.single h1
    rw [e]
    refine Null.congr (B := Spec.NoPayload x.nal_unit_header.nal_unit_type x.nal_unit_payload) ?_ (by simp [Spec.NoRtpText, e, e2, e3])
    show Null (dumpRtpSingle o st x) _
    unfold dumpRtpSingle
    exact Null.blk (Null.okCons (okd_header _) (Null.one (Null.on (null_dumpNalUnitPayload h.reach hp))))
  rw [if_neg h1]
  by_cases h2 : r.nal_unit_header.nal_unit_type = 48
  · rw [if_pos h2]
    obtain ⟨x, e, e2, e3, hp⟩ := h.ap h2
    rw [e]
    refine Null.congr (B := ∃ u ∈ x.units, Spec.NoPayload u.nal_unit_header.nal_unit_type u.nal_unit_payload) ?_ (by simp [Spec.NoRtpText, e, e2, e3])
    show Null (dumpRtpAp o st x) _
    unfold dumpRtpAp
    refine Null.blk (Null.okCons (okd_header _) (Null.one ?_))
    refine (Null.each (B := fun y : ParserState × RtpApUnit => Spec.NoPayload y.2.nal_unit_header.nal_unit_type y.2.nal_unit_payload) (fun y hy => ?_)).congr
      (mem_withStates (P := fun u : RtpApUnit => Spec.NoPayload u.nal_unit_header.nal_unit_type u.nal_unit_payload))
    unfold dumpRtpApUnit
    exact Null.okCons (OkD.fld _ _) (Null.okCons (okd_header _) (Null.one (Null.on (null_dumpNalUnitPayload (hp y hy).1 (hp y hy).2))))
  rw [if_neg h2]
  by_cases h3 : r.nal_unit_header.nal_unit_type = 49
  · rw [if_pos h3]
    obtain ⟨x, e, e2, e3, hp, hn⟩ := h.fu h3
    rw [e]
    refine Null.congr (B := x.s_bit = 1 ∧ ∀ p, x.nal_unit_payload = some p → Spec.NoPayload x.fu_type p) ?_ ?_
    · show Null (dumpRtpFu o st x) _
      unfold dumpRtpFu
      refine Null.blk (Null.okCons (okd_header _) (Null.okCons (OkD.fld _ _) (Null.okCons (OkD.fld _ _) (Null.okCons (OkD.fld _ _) (Null.one ?_)))))
      refine Null.cond (fun hs => Null.one (Null.on ?_))
      obtain ⟨p, e4, hp⟩ := hp hs
      rw [e4]
      refine Null.congr (null_dumpNalUnitPayload h.reach hp) (by simp)
    · by_cases hs : x.s_bit = 1
      · obtain ⟨p, e4, _⟩ := hp hs
        simp [Spec.NoRtpText, e, e2, e3, e4, hs]
      · simp [Spec.NoRtpText, e, e2, e3, hn hs, hs]
  rw [if_neg h3]
  obtain ⟨e1, e2, e3⟩ := h.rest (by omega)
  exact (Null.ok ⟨_, rfl⟩).congr (by simp [Spec.NoRtpText, e1, e2, e3])

/-! ### The words -/

theorem says_dumpRtpSingle {o : ParsingOptions} {st : ParserState} {x : RtpSingle} (h : ParsedIn st x.nal_unit_header.nal_unit_type x.nal_unit_payload) :
    Says (dumpRtpSingle o st x) (textRtpSingle o st x) := by
  unfold dumpRtpSingle textRtpSingle
  exact Says.blk (Lists.cons (Line.on (says_dumpNalUnitHeader _)) (Lists.cons (Line.on (says_dumpNalUnitPayload h)) Lists.nil))

theorem says_dumpRtpAp {o : ParsingOptions} {st : ParserState} {x : RtpAp}
    (h : ∀ y ∈ withStates (fun u => some u.nal_unit_payload) st x.units, Reach y.1 ∧ ParsedIn y.1 y.2.nal_unit_header.nal_unit_type y.2.nal_unit_payload) :
    Says (dumpRtpAp o st x) (textRtpAp o st x) := by
  unfold dumpRtpAp textRtpAp
  refine Says.blk (Lists.cons (Line.on (says_dumpNalUnitHeader _)) (Lists.cons ?_ Lists.nil))
  have hl : Line (Dump.each (withStates (fun u => some u.nal_unit_payload) st x.units) (dumpRtpApUnit o))
      ((withStates (fun u : RtpApUnit => some u.nal_unit_payload) st x.units).flatMap fun y => List.flatten [
        num "nal_unit_size" y.2.nal_unit_size, textNalUnitHeader y.2.nal_unit_header, textNalUnitPayload o y.1 y.2.nal_unit_payload]) := by
    refine Line.eachMem (fun y hy => ?_)
    unfold dumpRtpApUnit
    exact Line.seq (Lists.cons (Line.fldU (NameSolid.lit _ rfl rfl)) (Lists.cons (Line.on (says_dumpNalUnitHeader _))
      (Lists.cons (Line.on (says_dumpNalUnitPayload (h y hy).2)) Lists.nil)))
  rw [withStates_eq, mapIdx_flatMap] at hl
  rw [withStates_eq]
  simpa using hl

theorem says_dumpRtpFu {o : ParsingOptions} {st : ParserState} {x : RtpFu} (hp : x.s_bit = 1 → ∃ p, x.nal_unit_payload = some p ∧ ParsedIn st x.fu_type p)
    (hn : x.s_bit ≠ 1 → x.nal_unit_payload = none) : Says (dumpRtpFu o st x) (textRtpFu o st x) := by
  unfold dumpRtpFu textRtpFu
  refine Says.blk (Lists.cons (Line.on (says_dumpNalUnitHeader _)) (Lists.cons (Line.fldI (NameSolid.lit _ rfl rfl))
    (Lists.cons (Line.fldI (NameSolid.lit _ rfl rfl)) (Lists.cons (Line.fldI (NameSolid.lit _ rfl rfl)) (Lists.cons ?_ Lists.nil)))))
  by_cases hs : x.s_bit = 1
  · obtain ⟨p, e, hp⟩ := hp hs
    have := Line.cond (c := x.s_bit = 1) (Lists.cons (Line.on (says_dumpNalUnitPayload (o := o) hp)) Lists.nil)
    rw [e]
    simpa [opt, some?, hs, Dump.deref] using this
  · rw [hn hs]
    have := Line.cond (c := x.s_bit = 1) Lists.nil
    unfold Dump.cond at this ⊢
    rw [if_neg hs] at this ⊢
    simpa [opt, some?, hs] using this

/-- a block at level -1 -/
theorem blk_flat {name : String} {body : List Dump} {d : Doc} (h : Dump.blk name body = .ok d) :
    ∃ b, d.render (-1) = name.toList ++ (' ' :: ('{' :: (b ++ [' ', '}']))) ∧ ∃ e, Dump.seq body = .ok e ∧ e.render (-1) = b := by
  unfold Dump.blk at h
  cases hb : Dump.seq body with
  | error k => simp [hb] at h
  | ok b =>
    simp only [hb, Except.ok.injEq] at h; subst h
    exact ⟨b.render (-1), by simp [Doc.render, indentIncr, indentText], b, rfl, rfl⟩

theorem words_glue {a w t : List Char} (hw : Solid w) : words ((a ++ [' ', '}']) ++ (w ++ ' ' :: t)) = glued (words (a ++ [' ', '}'])) (words (w ++ ' ' :: t)) := by
  have e1 : (a ++ [' ', '}']) ++ (w ++ ' ' :: t) = a ++ (' ' :: (('}' :: w) ++ (' ' :: t))) := by simp
  have hb : Solid ('}' :: w) := ⟨by simp, fun c hc => by
    rcases List.mem_cons.1 hc with rfl | hc
    · rfl
    · exact hw.2 c hc⟩
  have h2 : words ['}'] = [['}']] := by decide
  rw [e1, words_sep _ (Sep.space _), words_space, words_sep _ (Sep.space _), words_space, words_solid hb, words_sep a (Sep.space _), words_space, h2,
    words_sep w (Sep.space _), words_solid hw, words_space]
  simp [glued]

theorem blk_glue {n1 n2 : String} {b1 b2 : List Dump} {x y : Doc} {t1 t2 : Text} (h2 : NameSolid n2)
    (hx : Dump.blk n1 b1 = .ok x) (hy : Dump.blk n2 b2 = .ok y) (s1 : Says (Dump.blk n1 b1) t1) (s2 : Says (Dump.blk n2 b2) t2) :
    words (x.render (-1) ++ y.render (-1)) = glued t1 t2 := by
  rw [← s1 x hx, ← s2 y hy]
  obtain ⟨bx, ex, _⟩ := blk_flat hx
  obtain ⟨bY, ey, _⟩ := blk_flat hy
  have e : x.render (-1) = (n1.toList ++ (' ' :: ('{' :: bx))) ++ [' ', '}'] := by rw [ex]; simp
  rw [e, ey]
  exact words_glue h2.solid

theorem Says.blkBody {name : String} {body : List Dump} {ts : List Text} (h : ∀ d, Dump.seq body = .ok d → words (d.render (-1)) = ts.flatten)
    (hsp : ∀ d, Dump.seq body = .ok d → Sep (d.render (-1) ++ [' ', '}'])) : Says (Dump.blk name body) (block name ts) := by
  intro d hd
  obtain ⟨b, e, f, hf, rfl⟩ := blk_flat hd
  have e' : d.render (-1) = name.toList ++ (' ' :: (['{'] ++ (f.render (-1) ++ [' ', '}']))) := by rw [e]; simp
  rw [e', words_sep _ (Sep.space _), words_space, words_sep _ (hsp f hf), words_sep _ (Sep.space _), h f hf]
  have h1 : words ['{'] = ["{".toList] := by decide
  have h2 : words [' ', '}'] = ["}".toList] := by decide
  rw [h1, h2]; simp [block, braces]

theorem says_glued {name n2 : String} {h : NalUnitHeader} {b2 : List Dump} {t2 : Text} (hn : NameSolid n2) (s2 : Says (Dump.blk n2 b2) t2) :
    Says (Dump.blk name [.on (dumpNalUnitHeader h), Dump.blk n2 b2]) (block name [glued (textNalUnitHeader h) t2]) := by
  have key : ∀ d, Dump.seq [.on (dumpNalUnitHeader h), Dump.blk n2 b2] = .ok d → ∃ x y, dumpNalUnitHeader h = .ok x ∧ Dump.blk n2 b2 = .ok y ∧
      d.render (-1) = ' ' :: (x.render (-1) ++ y.render (-1)) := by
    intro d hd
    obtain ⟨a, b, ha, hb, rfl⟩ := seq_cons_ok hd
    obtain ⟨y, z, hy, hz, rfl⟩ := seq_cons_ok hb
    cases hz
    unfold Dump.on at ha
    obtain ⟨i, c, hi, hc, rfl⟩ := seq_cons_ok ha
    obtain ⟨x, e, hx, he, rfl⟩ := seq_cons_ok hc
    cases hi; cases he
    exact ⟨x, y, hx, hy, by simp [Doc.render, indentText]⟩
  refine Says.blkBody (fun d hd => ?_) (fun d hd => ?_)
  · obtain ⟨x, y, hx, hy, e⟩ := key d hd
    rw [e, words_space]
    have := blk_glue (n1 := "nal_unit_header") (t1 := textNalUnitHeader h) hn hx hy (says_dumpNalUnitHeader h) s2
    simpa using this
  · obtain ⟨x, y, hx, hy, e⟩ := key d hd
    rw [e]
    exact Sep.space _

theorem says_dumpRtp {o : ParsingOptions} {st : ParserState} {r : Rtp} (h : RtpOk st r) : Says (dumpRtp o st r) (textRtp o st r) := by
  unfold dumpRtp textRtp
  by_cases h1 : r.nal_unit_header.nal_unit_type ≤ 47
  · obtain ⟨x, e, hp, e2, e3⟩ := h.single h1
    rw [if_pos h1, e]
    exact says_glued (NameSolid.lit _ rfl rfl) (says_dumpRtpSingle hp)
  rw [if_neg h1]
  by_cases h2 : r.nal_unit_header.nal_unit_type = 48
  · obtain ⟨x, e, e2, e3, hp⟩ := h.ap h2
    rw [if_pos h2, e, e2]
    exact says_glued (NameSolid.lit _ rfl rfl) (says_dumpRtpAp hp)
  rw [if_neg h2]
  by_cases h3 : r.nal_unit_header.nal_unit_type = 49
  · obtain ⟨x, e, e2, e3, hp, hn⟩ := h.fu h3
    rw [if_pos h3, e, e2, e3]
    exact says_glued (NameSolid.lit _ rfl rfl) (says_dumpRtpFu hp hn)
  rw [if_neg h3]
  obtain ⟨e1, e2, e3⟩ := h.rest (by omega)
  rw [e1, e2, e3]
  have := Says.blk (name := "rtp") (Lists.cons (Line.on (says_dumpNalUnitHeader r.nal_unit_header)) (Lists.cons Line.nil Lists.nil))
  simpa [block] using this

end H265
