/-
C77: a conforming sequence of NAL units sent over RTP is reported NAL unit by NAL unit.
-/
import Verif.Spec.RtpSend
import Verif.Props.Std
import Verif.Props.Loss
import Verif.Props.SliceData
import Verif.Props.Work

set_option autoImplicit false

namespace H265.Std
open Spec

/-! ### bytes -/

/-- the bytes of a NAL unit, or of a packet, begin with the two bytes of its header -/
theorem header_bytes {bytes : List UInt8} {h : NalUnitHeader} {w : List Bool} (hv : ValidNalUnitHeader h) (hb : bitsOf bytes = Spec.nalUnitHeader h ++ w) :
    ∃ b0 b1 rest, bytes = b0 :: b1 :: rest ∧ headerOf b0 b1 = h ∧ bitsOf rest = w := by
  match bytes, hb with
  | [], hb => have := congrArg List.length hb; rw [List.length_append, nalUnitHeader_length] at this; simp [bitsOf] at this; omega
  | [x], hb => have := congrArg List.length hb; rw [List.length_append, nalUnitHeader_length, bitsOf_length] at this; simp at this; omega
  | b0 :: b1 :: rest, hb =>
    refine ⟨b0, b1, rest, rfl, ?_, ?_⟩
    · obtain ⟨c, h1, _⟩ := header_run b0 b1 rest
      obtain ⟨c', h2, _⟩ := C19_header_inverts.complete (BB.init (b0 :: b1 :: rest)) h w (BB.WF.init _) hv (by rw [BB.rem_init, hb])
      rw [h1] at h2
      cases h2; rfl
    · rw [bitsOf_cons, bitsOf_cons, ← List.append_assoc] at hb
      exact (List.append_inj hb (by rw [nalUnitHeader_length]; simp)).2

theorem headerOf_tid {b0 b1 : UInt8} (h : (headerOf b0 b1).nuh_temporal_id_plus1 ≠ 0) : b1 ≠ 0 := by
  intro h1; subst h1; exact h (by simp [headerOf])

/-- removal of emulation prevention bytes is local where a byte other than 0 ends the first part -/
theorem unesc_append_nz : ∀ (a b : List UInt8), a.getLast? ≠ some 0 → unesc (a ++ b) = unesc a ++ unesc b
  | [], b, _ => rfl
  | [x], b, h => by
    have hx : x ≠ 0 := fun e => h (by simp [e])
    rw [List.singleton_append, unesc_nz hx]; rfl
  | [x, y], b, h => by
    have hy : y ≠ 0 := fun e => h (by simp [e])
    have e1 : unesc (x :: y :: b) = x :: y :: unesc b := by
      by_cases hx : x = 0
      · subst hx; exact unesc_0nz hy b
      · rw [unesc_nz hx, unesc_nz hy]
    exact e1
  | x :: y :: z :: a, b, h => by
    have hl : ∀ (p : UInt8) (l : List UInt8), (p :: l).getLast? ≠ some 0 → l ≠ [] → l.getLast? ≠ some 0 := by
      intro p l h1 h2 h3
      rw [List.getLast?_cons] at h1
      exact h1 (by rw [h3]; rfl)
    show unesc (x :: y :: z :: (a ++ b)) = unesc (x :: y :: z :: a) ++ unesc b
    by_cases hc : x = 0 ∧ y = 0 ∧ z = 3
    · obtain ⟨rfl, rfl, rfl⟩ := hc
      rw [unesc_emu, unesc_emu]
      by_cases ha : a = []
      · subst ha; rfl
      · have h3 := hl _ _ (hl _ _ (hl _ _ h (by simp)) (by simp)) ha
        rw [unesc_append_nz a b h3]; rfl
    · have e1 : unesc (x :: y :: z :: (a ++ b)) = x :: unesc (y :: z :: (a ++ b)) := by
        apply unesc_cons; rintro ⟨r, hr⟩; simp at hr; exact hc ⟨hr.1, hr.2.1, hr.2.2.1⟩
      have e2 : unesc (x :: y :: z :: a) = x :: unesc (y :: z :: a) := by
        apply unesc_cons; rintro ⟨r, hr⟩; simp at hr; exact hc ⟨hr.1, hr.2.1, hr.2.2.1⟩
      have h3 : unesc (y :: z :: a ++ b) = unesc (y :: z :: a) ++ unesc b := unesc_append_nz (y :: z :: a) b (hl _ _ h (by simp))
      rw [e1, e2]
      exact congrArg (x :: ·) h3

theorem unesc_escape (l : List UInt8) : unesc (escape l) = l := by
  have := C10_unescape_escape l
  rw [unescapeRbsp_eq] at this
  injection this

/-! ### single NAL unit packets -/

/-- C77: a NAL unit in a packet of its own -/
theorem C77_single {d : StdParams} {st : ParserState} {x : StdNal} (hg : GoodParams d) (hh : Holds d st) (hr : Reach st) (hx : SentNal d x)
    (ht : x.header.nal_unit_type ≤ 47) (hlen : (escape x.rbsp).length < 2 ^ 32) :
    ∃ r st', parseRtp st (escape x.rbsp) = .ok (some r, st') ∧ (∃ p, rtpUnits r = [(x.header, p)] ∧ ReportsPayload x p) ∧ Holds (d.after x.unit) st' ∧ Reach st' := by
  have hle := length_le_escape x.rbsp
  obtain ⟨n, st', b, h1, ⟨h2, h3⟩, h4, h5⟩ := C48_nal_unit (cs := false) hg hh hr hx (by omega)
  obtain ⟨w, _, hb⟩ := hx.contents
  obtain ⟨b0, b1, rest, e1, e2, e3⟩ := header_bytes hx.header hb
  have hu := C10_unescape_escape x.rbsp
  rw [e1] at hu
  have hty : b0.toNat / 2 % 64 ≤ 47 := by
    have : (headerOf b0 b1).nal_unit_type ≤ 47 := by rw [e2]; exact ht
    exact this
  have hp := C37_single (data := escape x.rbsp) (by rw [e1]; exact hu) hlen hty st
  rw [h1] at hp
  exact ⟨_, st', hp, ⟨n.nal_unit_payload, by simp only [rtpUnits, List.append_nil]; rw [h2], h3⟩, h4, h5⟩

/-! ### fragmentation units -/

theorem fu_bytes {h : NalUnitHeader} {s e : Nat} {data packet : List UInt8} (hv : ValidNalUnitHeader h) (hs : s < 2) (he : e < 2)
    (hp : FuPacket h s e data packet) :
    ∃ b0 b1 b2, packet = b0 :: b1 :: b2 :: data ∧ headerOf b0 b1 = { h with nal_unit_type := 49 } ∧ b2.toNat / 128 = s ∧ b2.toNat / 64 % 2 = e ∧
      b2.toNat % 64 = h.nal_unit_type := by
  obtain ⟨head, rfl, hb⟩ := hp
  have hv' : ValidNalUnitHeader { h with nal_unit_type := 49 } := ⟨hv.forbidden_zero_bit, (by decide : 49 < 64), hv.nuh_layer_id, hv.nuh_temporal_id_plus1⟩
  obtain ⟨b0, b1, rest, rfl, h1, h2⟩ := header_bytes hv' hb
  have h3 : rest.length = 1 := by
    have := congrArg List.length h2
    rw [bitsOf_length] at this
    simp only [List.length_append, u_length] at this
    omega
  match rest, h2, h3 with
  | [b2], h2, _ =>
    have h2' : byteBits b2 = u 1 s ++ (u 1 e ++ u 6 h.nal_unit_type) := by
      rw [← h2, bitsOf_cons]; simp [bitsOf]
    rw [fu_bits] at h2'
    have hb2 : b2.toNat < 256 := UInt8.toNat_lt b2
    have g1 := List.append_inj h2' (by simp)
    have g2 := List.append_inj g1.2 (by simp)
    have v1 := congrArg val g1.1
    have v2 := congrArg val g2.1
    have v3 := congrArg val g2.2
    have ht := hv.nal_unit_type
    rw [val_u_of_lt (by omega), val_u_of_lt (by omega)] at v1 v2
    rw [val_u_of_lt (by omega), val_u_of_lt (by omega)] at v3
    exact ⟨b0, b1, b2, rfl, h1, v1, v2, v3⟩

theorem fu_type {b0 b1 : UInt8} {h : NalUnitHeader} (hb : headerOf b0 b1 = { h with nal_unit_type := 49 }) : b0.toNat / 2 % 64 = 49 := by
  have := congrArg (·.nal_unit_type) hb
  exact this

theorem fu_tid {b0 b1 : UInt8} {h : NalUnitHeader} (hb : headerOf b0 b1 = { h with nal_unit_type := 49 }) (ht : h.nuh_temporal_id_plus1 ≠ 0) : b1 ≠ 0 := by
  apply headerOf_tid (b0 := b0); rw [hb]; exact ht

/-- a fragment that is not the first one -/
theorem later_fragment {h : NalUnitHeader} (hv : ValidNalUnitHeader h) (ht : h.nuh_temporal_id_plus1 ≠ 0) (st : ParserState) {e : Nat} {data packet : List UInt8} (he : e < 2)
    (hp : FuPacket h 0 e data packet) (hl : packet.length < 2 ^ 32) : ∃ r : Rtp, parseRtp st packet = .ok (some r, st) ∧ rtpUnits r = [] ∧ r.rtp_ap = none := by
  obtain ⟨b0, b1, b2, rfl, h1, h2, h3, h4⟩ := fu_bytes hv (by omega) he hp
  have hb1 := fu_tid h1 ht
  have hb2 : b2.toNat < 128 := by omega
  obtain ⟨t, htl⟩ := unesc_first (b0 := b2) (tail := data) (unescapeRbsp_eq _)
  have hu : unescapeRbsp (b0 :: b1 :: b2 :: data) = .ok (b0 :: b1 :: b2 :: t) := by
    rw [unescapeRbsp_eq, unesc_cons b0 _ (by rintro ⟨r, h⟩; simp at h; exact hb1 h.2.1), unesc_nz hb1, htl]
  exact ⟨_, C39_not_start hu hl (fu_type h1) hb2 st, rfl, rfl⟩

/-- C77: the fragments behind the first one are reported without a payload and have no effect -/
theorem C77_later_fragments {h : NalUnitHeader} (hv : ValidNalUnitHeader h) (ht : h.nuh_temporal_id_plus1 ≠ 0) (st : ParserState) :
    ∀ {datas packets : List (List UInt8)}, FuRest h datas packets → (∀ p ∈ packets, p.length < 2 ^ 32) →
      ∃ rs : List Rtp, rtpResults packets st = .ok (rs.map some, st) ∧ rs.flatMap rtpUnits = [] := by
  intro datas packets hr
  induction hr with
  | last hp =>
    intro hl
    obtain ⟨r, h1, h2, _⟩ := later_fragment hv ht st (by omega) hp (hl _ (by simp))
    exact ⟨[r], by simp only [rtpResults, h1]; rfl, by simp [h2]⟩
  | more hp _ ih =>
    intro hl
    obtain ⟨r, h1, h2, _⟩ := later_fragment hv ht st (by omega) hp (hl _ (by simp))
    obtain ⟨rs, h3, h4⟩ := ih (fun p hp => hl p (by simp [hp]))
    exact ⟨r :: rs, by simp only [rtpResults, h1, h3]; rfl, by rw [List.flatMap_cons, h2, h4]; rfl⟩

theorem Sent.extend {d : StdParams} {t : Nat} {tail w : List Bool} {un : StdUnit} (h : Sent d t tail un w) (m : List Bool) : Sent d t (tail ++ m) un (w ++ m) := by
  cases h with
  | vps ptl s h1 h2 h3 h4 => rw [List.append_assoc]; exact .vps ptl s h1 h2 h3 h4
  | sps ptl s h1 h2 h3 => rw [List.append_assoc]; exact .sps ptl s h1 h2 h3
  | pps s h1 h2 h3 => rw [List.append_assoc]; exact .pps s h1 h2 h3
  | slice hd s x P ptl S h1 h2 h3 h4 h5 h6 => rw [List.append_assoc]; exact .slice hd s x P ptl S h1 h2 h3 h4 h5 h6
  | aud a h1 h2 => rw [List.append_assoc]; exact .aud a h1 h2
  | sei t' size p h1 h2 h3 h4 => rw [List.append_assoc]; exact .sei t' size p h1 h2 h3 h4
  | other h1 h2 h3 h4 h5 => exact .other h1 h2 h3 h4 h5

/-- C77: the first fragment is reported with the payload of the NAL unit -/
theorem C77_first_fragment {d : StdParams} {st : ParserState} {x : StdNal} {head first packet : List UInt8} (hg : GoodParams d) (hh : Holds d st) (hr : Reach st)
    (hx : SentNal d x) (ht : x.header.nuh_temporal_id_plus1 ≠ 0) (hn : (head ++ first) <+: escape x.rbsp) (hl : head.length = 2)
    (hs : StartHolds d x (head ++ first)) (hp : FuPacket x.header 1 0 first packet) (hlen : packet.length < 2 ^ 32) :
    ∃ r st', parseRtp st packet = .ok (some r, st') ∧ (∃ p, rtpUnits r = [(x.header, p)] ∧ ReportsPayload x p) ∧ Holds (d.after x.unit) st' ∧ Reach st' := by
  obtain ⟨c0, c1, c2, rfl, h1, h2, h3, h4⟩ := fu_bytes hx.header (by omega) (by omega) hp
  have hb1 := fu_tid h1 ht
  match head, hl with
  | [b0, b1], _ =>
  have hn' : [b0, b1] <+: unesc (escape x.rbsp) := by
    have e1 := unesc_two b0 b1 first
    obtain ⟨r, e1⟩ := e1
    obtain ⟨m, hm⟩ := hn
    obtain ⟨m2, e2⟩ := unesc_prefix (b0 :: b1 :: first) m
    rw [← hm]
    refine ⟨r ++ m2, ?_⟩
    show _ = unesc (b0 :: b1 :: first ++ m)
    rw [← e2, e1]; rfl
  rw [unesc_escape] at hn'
  obtain ⟨w, _, hb⟩ := hx.contents
  obtain ⟨a0, a1, rest, g1, g2, _⟩ := header_bytes hx.header hb
  rw [g1] at hn'
  obtain ⟨m, hm⟩ := hn'
  simp only [List.cons_append, List.nil_append, List.cons.injEq] at hm
  obtain ⟨rfl, rfl, _⟩ := hm
  -- the two bytes of the NAL unit header are those the library makes up
  have k1 : b1 = c1 ∧ nalByte0 c0 c2 = b0 := by
    have q0 : b0.toNat < 256 := UInt8.toNat_lt b0
    have q1 : b1.toNat < 256 := UInt8.toNat_lt b1
    have q2 : c0.toNat < 256 := UInt8.toNat_lt c0
    have q3 : c1.toNat < 256 := UInt8.toNat_lt c1
    rw [← g2] at h1 h4
    simp only [headerOf, NalUnitHeader.mk.injEq] at h1 h4
    refine ⟨UInt8.toNat_inj.mp (by omega), UInt8.toNat_inj.mp ?_⟩
    rw [nalByte0_toNat]; omega
  obtain ⟨rfl, k2⟩ := k1
  rw [C39_start (by simp only [List.length_cons] at hlen; omega) (fu_type h1) hb1 (by omega) st, k2]
  -- what `ParseNalUnit` does with these bytes
  obtain ⟨part, tail, w0, ⟨m, hm⟩, hsent, hbits⟩ := hs
  obtain ⟨m2, e2⟩ := unesc_prefix (escape part) m
  rw [hm, unesc_escape] at e2
  have hlu : (unesc (b0 :: b1 :: first)).length ≤ (b0 :: b1 :: first).length := unesc_le (unescapeRbsp_eq _)
  have hb' : bitsOf (unesc (b0 :: b1 :: first)) = Spec.nalUnitHeader x.header ++ (w0 ++ bitsOf m2) := by
    show bitsOf (unesc ([b0, b1] ++ first)) = _
    rw [← e2, bitsOf_append, hbits, List.append_assoc]
  obtain ⟨c, f1, f2, f3, f4⟩ := C19_header_inverts.complete (BB.init (unesc (b0 :: b1 :: first))) x.header _ (BB.WF.init _) hx.header (by rw [BB.rem_init]; exact hb')
  obtain ⟨p, st', c', f5, f6, f7⟩ := payload_sent hg hh hr (hsent.extend (bitsOf m2)) f2 f4
  have hnal : ∃ n b, parseNalUnit false st (b0 :: b1 :: first) = .ok (n, st') b ∧ n.nal_unit_payload = p := by
    rw [parseNalUnit_eq false st (b0 :: b1 :: first) _ (unescapeRbsp_eq _) (by simp only [List.length_cons] at hlen hlu; omega)]
    unfold parseNalUnitParts
    rw [Prog.run_seq, f1]
    simp only [Res.andThen]
    rw [Prog.run_seq, f5]
    exact ⟨_, _, rfl, rfl⟩
  obtain ⟨n, b, f8, f9⟩ := hnal
  rw [f8]
  refine ⟨_, st', rfl, ⟨p, ?_, f6⟩, f7, hr.step (parseNalUnit_steps f8)⟩
  simp only [rtpUnits, List.nil_append]
  rw [f9, h1, h4]

end H265.Std
