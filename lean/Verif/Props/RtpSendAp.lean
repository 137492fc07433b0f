/-
C77: aggregation packets, and whole sessions.
-/
import Verif.Props.RtpSend
import Verif.Props.StdExample

set_option autoImplicit false

namespace H265.Std
open Spec

/-! ### aggregation packets -/

/-- the payload parser stops where a closed NAL unit ends -/
theorem payload_closed {d : StdParams} {st : ParserState} {l : StdNal} {w : List Bool} {body : List UInt8} (hh : Holds d st)
    (hs : Sent d l.header.nal_unit_type l.tail l.unit w) (hc : Closed l) (hb : bitsOf body = w) :
    ∃ p st', (∀ more : List UInt8, PayloadOn l.header.nal_unit_type st (bitsOf body ++ bitsOf more) p st' (bitsOf more)) ∧ ReportsPayload l p ∧
      Holds (d.after l.unit) st' := by
  obtain ⟨hdr, un, tail, rbsp⟩ := l
  simp only at hs
  cases hs with
  | vps ptl s h1 h2 h3 h4 =>
    obtain ⟨c1, k, c2, c3⟩ := hc
    simp only at c3
    subst c3
    obtain ⟨v, rfl, e2⟩ := C38_vps_delimited st body s k (h2.valid h3 h4) c2 c1 (by rw [hb, vps_eq h3 h4 h2.profile_tier_level.2])
    refine ⟨_, { st with vps := mapSet st.vps v.body.vps_video_parameter_set_id v }, fun more => by rw [h1]; exact e2 more, ⟨v, rfl, rfl⟩, ⟨?_, hh.sps, hh.pps⟩⟩
    intro i q y hy
    simp only [StdParams.after] at hy
    split at hy
    · next he => cases hy; rw [he]; exact ⟨v, mapSet_same _ _ _, rfl⟩
    · next hne => obtain ⟨z, z1, z2⟩ := hh.vps i q y hy; exact ⟨z, (mapSet_other _ _ hne).trans z1, z2⟩
  | sps ptl s h1 h2 h3 =>
    obtain ⟨c1, k, c2, c3⟩ := hc
    simp only at c3
    subst c3
    obtain ⟨v, rfl, e2⟩ := C38_sps_delimited st body s k (h2.valid h3) c2 c1 (by rw [hb, sps_eq (h2.valid h3) h2.profile_tier_level.2 h3])
    refine ⟨_, { st with sps := mapSet st.sps v.body.sps_seq_parameter_set_id v }, fun more => by rw [h1]; exact e2 more, ⟨v, rfl, rfl⟩, ⟨hh.vps, ?_, hh.pps⟩⟩
    intro i q y hy
    simp only [StdParams.after] at hy
    split at hy
    · next he => cases hy; rw [he]; exact ⟨v, mapSet_same _ _ _, rfl⟩
    · next hne => obtain ⟨z, z1, z2⟩ := hh.sps i q y hy; exact ⟨z, (mapSet_other _ _ hne).trans z1, z2⟩
  | pps s h1 h2 h3 =>
    obtain ⟨c1, k, c2, c3⟩ := hc
    simp only at c3
    subst c3
    obtain ⟨v, rfl, e2⟩ := C38_pps_delimited st body s k (h2.valid h3) c2 c1 (by rw [hb, pps_eq (h2.valid h3) h2 h3])
    refine ⟨_, { st with pps := mapSet st.pps v.body.head.pps_pic_parameter_set_id v }, fun more => by rw [h1]; exact e2 more, ⟨v, rfl, rfl⟩, ⟨hh.vps, hh.sps, ?_⟩⟩
    intro i y hy
    simp only [StdParams.after] at hy
    split at hy
    · next he => cases hy; rw [he]; exact ⟨v, mapSet_same _ _ _, rfl⟩
    · next hne => obtain ⟨z, z1, z2⟩ := hh.pps i y hy; exact ⟨z, (mapSet_other _ _ hne).trans z1, z2⟩
  | slice hd s x P ptl S h1 h2 h3 h4 h5 h6 => exact hc.elim
  | aud a h1 h2 =>
    obtain ⟨k, c2, c3⟩ := hc
    simp only at c3
    subst c3
    refine ⟨{ aud := some a }, st, fun more => ?_, rfl, hh⟩
    have hw : (BB.init (body ++ more)).WF := BB.WF.init _
    have hr : (BB.init (body ++ more)).rem = bitsOf body ++ bitsOf more := by rw [BB.rem_init, bitsOf_append]
    have hr2 : (BB.init (body ++ more)).rem = Spec.u 3 a.pic_type ++ (true :: List.replicate k false ++ bitsOf more) := by
      rw [hr, hb]; unfold Spec.aud; simp only [seq_cons, seq_nil, List.append_nil, List.append_assoc]
    have hd : parseAud.denote (BB.init (body ++ more)).rem = .ok a (bitsOf more) := by
      unfold parseAud
      rw [hr2, Prog.denote_bind, (u_codec (H := Cond.any) (A := fun _ => False) (n := 3) (by omega) (by omega)).complete a.pic_type (show a.pic_type < 2 ^ 3 by omega),
        ARes.ok_bind, Prog.denote_bind, (trailingBits_denote _).1 k (bitsOf more) c2 (by rw [bitsOf_length]; omega) rfl]
      rfl
    obtain ⟨b2, g1, _, _, g4⟩ := run_of_denote_ok hw hd
    refine ⟨_, b2, hw, hr, g4, ?_⟩
    rw [h1, parseNalUnitPayload_eq, if_neg (by unfold sliceType; omega), if_neg (by decide), if_neg (by decide), if_neg (by decide), if_pos rfl, Prog.run_bind,
      Prog.run_attempt, g1]; rfl
  | sei t size p h1 h2 h3 h4 => exact hc.elim
  | other h1 h2 h3 h4 h5 =>
    refine ⟨{}, st, fun more => ?_, rfl, hh⟩
    have ht : bitsOf body = [] := hb.trans hc
    rw [ht]
    refine ⟨BB.init more, BB.init more, BB.WF.init _, ?_, ?_, ?_⟩
    · rw [BB.rem_init]; rfl
    · rw [BB.rem_init]
    · dsimp only; rw [parseNalUnitPayload_eq, if_neg (by unfold sliceType; omega), if_neg (by omega), if_neg (by omega), if_neg (by omega), if_neg (by omega), if_neg (by omega)]; rfl

/-- the bytes behind the header of an aggregation packet, without emulation prevention: the sizes are still those with it -/
def apBytes : List StdNal → List UInt8
  | [] => []
  | x :: xs => beBytes 2 (escape x.rbsp).length ++ (x.rbsp ++ apBytes xs)

theorem apBytes_length : ∀ xs : List StdNal, (apBytes xs).length = (xs.map fun y => 2 + y.rbsp.length).sum
  | [] => rfl
  | x :: xs => by simp only [apBytes, List.length_append, beBytes_length, apBytes_length xs, List.map_cons, List.sum_cons]; omega

theorem closed_first {d : StdParams} {x : StdNal} (hx : SentNal d x) (hc : Closed x) : ∃ b0 rest, x.rbsp = b0 :: rest ∧ b0 ≠ 0 := by
  obtain ⟨w, hs, hb⟩ := hx.contents
  obtain ⟨b0, b1, rest, e1, e2, _⟩ := header_bytes hx.header hb
  refine ⟨b0, b1 :: rest, e1, ?_⟩
  rintro rfl
  have ht : x.header.nal_unit_type = 0 := by rw [← e2]; rfl
  have hsl : ∀ hd s y, x.unit ≠ .slice hd s y := by
    intro hd s y he
    unfold Closed at hc
    rw [he] at hc
    exact hc
  rw [ht] at hs
  generalize x.unit = un at hs hsl
  cases hs with
  | slice hd s y P ptl S h1 h2 h3 h4 h5 h6 => exact hsl _ _ _ rfl
  | _ => omega

theorem escape_first {b : UInt8} {l rest : List UInt8} (h : l = b :: rest) : ∃ t, escape l = b :: t := by
  cases he : escape l with
  | nil =>
    have := unesc_escape l
    rw [he, h] at this
    cases this
  | cons a t =>
    have h1 := unesc_escape l
    obtain ⟨t', h2⟩ := unesc_first (b0 := a) (tail := t) (unescapeRbsp_eq _)
    rw [he, h2, h] at h1
    injection h1 with h1 _
    exact ⟨t, by rw [h1]⟩

theorem unesc_ap {d d' : StdParams} {xs : List StdNal} (hs : SentAll d xs d') : (∀ x ∈ xs, Closed x ∧ (escape x.rbsp).length < 2 ^ 16) →
    unesc (lengthPrefixed 2 (xs.map fun x => escape x.rbsp)) = apBytes xs := by
  induction hs with
  | nil => intro _; rfl
  | @cons d d' x xs hx _ ih =>
    intro hc
    obtain ⟨hcx, hl⟩ := hc x (by simp)
    have hi := ih (fun y hy => hc y (by simp [hy]))
    obtain ⟨b0, rest, hr, hb0⟩ := closed_first hx hcx
    obtain ⟨t, he⟩ := escape_first hr
    have hpos : 0 < (escape x.rbsp).length := by rw [he]; simp
    generalize hL : lengthPrefixed 2 (xs.map fun x => escape x.rbsp) = L at hi
    have e0 : lengthPrefixed 2 ((x :: xs).map fun x => escape x.rbsp) = beBytes 2 (escape x.rbsp).length ++ (escape x.rbsp ++ L) := by
      rw [← hL]; simp only [lengthPrefixed, List.map_cons, List.flatten_cons, List.append_assoc]
    rw [e0]
    show _ = beBytes 2 (escape x.rbsp).length ++ (x.rbsp ++ apBytes xs)
    have h2 : unesc (escape x.rbsp ++ L) = x.rbsp ++ apBytes xs := by
      rw [unesc_append_nz _ _ hx.last, unesc_escape, hi]
    generalize hn : (escape x.rbsp).length = n at hpos hl
    have hb : ∃ s1 s0, beBytes 2 n = [s1, s0] ∧ ¬ (s1 = 0 ∧ s0 = 0) := by
      refine ⟨UInt8.ofNat (n / 256 ^ 1), UInt8.ofNat (n / 256 ^ 0), rfl, ?_⟩
      rintro ⟨z1, z0⟩
      have y1 := congrArg UInt8.toNat z1
      have y0 := congrArg UInt8.toNat z0
      simp only [UInt8.toNat_ofNat'] at y1 y0
      simp at y1 y0
      omega
    obtain ⟨s1, s0, hb, hz⟩ := hb
    rw [hb]
    show unesc (s1 :: s0 :: (escape x.rbsp ++ L)) = s1 :: s0 :: (x.rbsp ++ apBytes xs)
    rw [unesc_cons s1 _ (by rintro ⟨r, h⟩; simp at h; exact hz ⟨h.1, h.2.1⟩),
      unesc_cons s0 _ (by rw [he]; rintro ⟨r, h⟩; simp at h; exact hb0 h.2.1), h2]

/-- the bits of one NAL unit in an aggregation packet -/
theorem apBytes_bits {x : StdNal} {xs : List StdNal} {b0 b1 : UInt8} {body : List UInt8} (hl : (escape x.rbsp).length < 2 ^ 16) (he : x.rbsp = b0 :: b1 :: body)
    (hh : headerOf b0 b1 = x.header) :
    bitsOf (apBytes (x :: xs)) = u 16 (escape x.rbsp).length ++ (Spec.nalUnitHeader x.header ++ (bitsOf body ++ bitsOf (apBytes xs))) := by
  have e0 : apBytes (x :: xs) = beBytes 2 (escape x.rbsp).length ++ (x.rbsp ++ apBytes xs) := rfl
  rw [e0, bitsOf_append, bits_be16 _ hl, bitsOf_append]
  have e1 : bitsOf x.rbsp = Spec.nalUnitHeader x.header ++ bitsOf body := by
    rw [he, bitsOf_cons, bitsOf_cons, ← List.append_assoc, header_bits, ← headerOf, hh]
  rw [e1, List.append_assoc]

theorem ap_units {d d' : StdParams} {xs : List StdNal} (hs : SentAll d xs d') : ∀ {st : ParserState}, GoodParams d → Holds d st → Fits xs →
    (∀ x ∈ xs, Closed x ∧ (escape x.rbsp).length < 2 ^ 16) →
    ∃ us st', ApUnits st (bitsOf (apBytes xs)) us st' ∧ us.length = xs.length ∧
      (∀ y ∈ xs.zip us, y.2.nal_unit_size = (escape y.1.rbsp).length ∧ y.2.nal_unit_header = y.1.header ∧ ReportsPayload y.1 y.2.nal_unit_payload) ∧
      GoodParams d' ∧ Holds d' st' := by
  induction hs with
  | nil => intro st hg hh _ _; exact ⟨[], st, .nil st, rfl, fun y hy => by simp at hy, hg, hh⟩
  | @cons d d' x xs hx _ ih =>
    intro st hg hh hf hc
    obtain ⟨hcx, hl⟩ := hc x (by simp)
    obtain ⟨w, hs, hb⟩ := hx.contents
    obtain ⟨b0, b1, body, e1, e2, e3⟩ := header_bytes hx.header hb
    obtain ⟨p, st1, h1, h2, h3⟩ := payload_closed hh hs hcx e3
    obtain ⟨us, st', h4, h5, h6, h7, h8⟩ := ih (hg.after hs) h3 hf.2 (fun y hy => hc y (by simp [hy]))
    refine ⟨⟨(escape x.rbsp).length, x.header, p⟩ :: us, st', ?_, by simp [h5], ?_, h7, h8⟩
    · rw [apBytes_bits hl e1 e2]
      refine .cons hl hx.header ?_ (h1 _) h4
      have hf1 := hf.1
      rw [List.length_append, bitsOf_length, bitsOf_length, apBytes_length]
      rw [e1] at hf1 ⊢
      simp only [List.length_cons] at hf1
      omega
    · intro y hy
      simp only [List.zip_cons_cons, List.mem_cons] at hy
      rcases hy with rfl | hy
      · exact ⟨rfl, rfl, h2⟩
      · exact h6 y hy

theorem ap_head {h : NalUnitHeader} {xs : List StdNal} {packet : List UInt8} (hp : ApPacket h xs packet) :
    ∃ b0 b1, packet = b0 :: b1 :: lengthPrefixed 2 (xs.map fun x => escape x.rbsp) ∧ headerOf b0 b1 = h ∧ b0.toNat / 2 % 64 = 48 ∧ b1 ≠ 0 := by
  obtain ⟨head, rfl, hb, ht, hv, htid, _⟩ := hp
  obtain ⟨b0, b1, rest, rfl, h1, h2⟩ := header_bytes hv (w := []) (by rw [hb, List.append_nil])
  have hr : rest = [] := by
    have := congrArg List.length h2
    rw [bitsOf_length] at this
    exact List.length_eq_zero_iff.mp (by simp at this; omega)
  subst hr
  refine ⟨b0, b1, rfl, h1, ?_, headerOf_tid (b0 := b0) (by rw [h1]; exact htid)⟩
  have : (headerOf b0 b1).nal_unit_type = 48 := by rw [h1]; exact ht
  exact this

theorem ap_unesc {d d' : StdParams} {xs : List StdNal} {b0 b1 : UInt8} (hs : SentAll d xs d')
    (hc : ∀ x ∈ xs, Closed x ∧ (escape x.rbsp).length < 2 ^ 16) (h1 : b1 ≠ 0) :
    unescapeRbsp (b0 :: b1 :: lengthPrefixed 2 (xs.map fun x => escape x.rbsp)) = .ok (b0 :: b1 :: apBytes xs) := by
  rw [unescapeRbsp_eq, unesc_cons b0 _ (by rintro ⟨r, h⟩; simp at h; exact h1 h.2.1), unesc_nz h1, unesc_ap hs hc]

/-- C77: an aggregation packet of closed NAL units is reported with all of them -/
theorem C77_aggregate {d d' : StdParams} {st : ParserState} {h : NalUnitHeader} {xs : List StdNal} {packet : List UInt8} (hg : GoodParams d) (hh : Holds d st)
    (hs : SentAll d xs d') (hc : ∀ x ∈ xs, Closed x) (hf : Fits xs) (hp : ApPacket h xs packet) (hlen : packet.length < 2 ^ 32) :
    ∃ us st', parseRtp st packet = .ok (some { nal_unit_header := h, rtp_ap := some ⟨h, us⟩ }, st') ∧ us.length = xs.length ∧
      (∀ y ∈ xs.zip us, y.2.nal_unit_size = (escape y.1.rbsp).length ∧ y.2.nal_unit_header = y.1.header ∧ ReportsPayload y.1 y.2.nal_unit_payload) ∧
      GoodParams d' ∧ Holds d' st' := by
  obtain ⟨b0, b1, rfl, h1, h2, h3⟩ := ap_head hp
  obtain ⟨_, _, _, _, _, _, hl⟩ := hp
  have hcl : ∀ x ∈ xs, Closed x ∧ (escape x.rbsp).length < 2 ^ 16 := fun x hx => ⟨hc x hx, hl x hx⟩
  obtain ⟨us, st', g1, g2, g3, g4, g5⟩ := ap_units hs hg hh hf hcl
  refine ⟨us, st', ?_, g2, g3, g4, g5⟩
  rw [C38_packet_complete (ap_unesc hs hcl h3) hlen h2 g1, h1]

theorem apLoop_null {d d' : StdParams} {xs : List StdNal} (hs : SentAll d xs d') : ∀ {st : ParserState} {fuel : Nat} {bb : BB}, GoodParams d → Holds d st →
    (∀ x ∈ xs, Closed x ∧ (escape x.rbsp).length < 2 ^ 16) → ¬ Fits xs → bb.WF → bb.rem = bitsOf (apBytes xs) → bb.rem.length < fuel →
    ∃ st' bb', (apLoop fuel st).run bb = .ok (none, st') bb' := by
  induction hs with
  | nil => intro _ _ _ _ _ _ hf _ _ _; exact absurd trivial hf
  | @cons d d' x xs hx _ ih =>
    intro st fuel bb hg hh hc hf hw hrem hfuel
    obtain ⟨hcx, hl⟩ := hc x (by simp)
    obtain ⟨w, hs, hb⟩ := hx.contents
    obtain ⟨b0, b1, body, e1, e2, e3⟩ := header_bytes hx.header hb
    obtain ⟨p, st1, h1, h2, h3⟩ := payload_closed hh hs hcx e3
    rw [apBytes_bits hl e1 e2] at hrem
    have hlen := congrArg List.length hrem
    rw [List.length_append, List.length_append, nalUnitHeader_length, u_length] at hlen
    match fuel, hfuel with
    | fuel + 1, hfuel =>
    simp only [apLoop, Prog.run]
    rw [if_neg (by rw [BB.remaining_eq hw]; omega)]
    by_cases hfit : (escape x.rbsp).length - x.rbsp.length ≤ (xs.map fun y => 2 + y.rbsp.length).sum
    · have hle : 8 * (escape x.rbsp).length ≤ 16 + (bitsOf body ++ bitsOf (apBytes xs)).length := by
        rw [List.length_append, bitsOf_length, bitsOf_length, apBytes_length]
        rw [e1] at hfit ⊢
        simp only [List.length_cons] at hfit
        omega
      obtain ⟨c1, k1, k2, k3⟩ := apHead_complete hw hl hx.header hrem hle
      obtain ⟨c2, k4, k5⟩ := (h1 (apBytes xs)).run k2 k3
      have hfw := Prog.run_forward k2 k4
      rw [k3] at hfw
      obtain ⟨st', c3, k6⟩ := ih (fuel := fuel) (hg.after hs) h3 (fun y hy => hc y (by simp [hy])) (fun h => hf ⟨hfit, h⟩) (run_ok_wf k2 k4).1 k5 (by omega)
      refine ⟨st', c3, ?_⟩
      have ha : parseApHead.attempt.run bb = .ok (some ((escape x.rbsp).length, x.header)) c1 := by rw [Prog.run_attempt, k1]
      rw [Prog.bind_of_ok ha]
      simp only
      rw [Prog.bind_of_ok k4]
      simp only
      rw [Prog.bind_of_ok k6]
      rfl
    · have ha : ∃ c, parseApHead.attempt.run bb = .ok none c := by
        rw [Prog.run_attempt]
        cases hr : parseApHead.run bb with
        | bad k => exact absurd hr (apHead_safe hw)
        | fail c => exact ⟨c, rfl⟩
        | ok y c =>
          exfalso
          obtain ⟨size, hd⟩ := y
          obtain ⟨g1, g2, g3, g4, g5, g6⟩ := apHead_ok hw hr
          rw [hrem] at g5
          obtain ⟨m1, m2⟩ := List.append_inj g5 (by simp)
          obtain ⟨_, m3⟩ := List.append_inj m2 (by rw [nalUnitHeader_length, nalUnitHeader_length])
          have m4 := congrArg val m1
          rw [val_u_of_lt hl, val_u_of_lt g1] at m4
          rw [← m3, List.length_append, bitsOf_length, bitsOf_length, apBytes_length, ← m4] at g6
          rw [e1] at g6 hfit
          simp only [List.length_cons] at hfit
          omega
      obtain ⟨c, ha⟩ := ha
      refine ⟨st, c, ?_⟩
      rw [Prog.bind_of_ok ha]
      rfl

/-- C77, the limit: where the emulation prevention bytes of a NAL unit are more than the bytes behind it (one is enough in the last NAL unit), the result for the
aggregation packet is null. -/
theorem C77_aggregate_null {d d' : StdParams} {st : ParserState} {h : NalUnitHeader} {xs : List StdNal} {packet : List UInt8} (hg : GoodParams d)
    (hh : Holds d st) (hs : SentAll d xs d') (hc : ∀ x ∈ xs, Closed x) (hf : ¬ Fits xs) (hp : ApPacket h xs packet) (hlen : packet.length < 2 ^ 32) :
    ∃ st', parseRtp st packet = .ok (none, st') := by
  obtain ⟨b0, b1, rfl, h1, h2, h3⟩ := ap_head hp
  obtain ⟨_, _, _, _, _, _, hl⟩ := hp
  have hcl : ∀ x ∈ xs, Closed x ∧ (escape x.rbsp).length < 2 ^ 16 := fun x hx => ⟨hc x hx, hl x hx⟩
  have hu := ap_unesc (b0 := b0) hs hcl h3
  have hle := unesc_le hu
  have hty : (headerOf b0 b1).nal_unit_type = b0.toNat / 2 % 64 := rfl
  rw [parseRtp_eq hu (by omega), parseRtpBB_eq, hty, if_neg (by omega), if_pos h2]
  obtain ⟨c, k1, k2, k3⟩ := header_run b0 b1 (apBytes xs)
  obtain ⟨st', c', k4⟩ := apLoop_null hs (fuel := c.remaining + 1) hg hh hcl hf k2 k3.2 (by rw [BB.remaining_eq k2]; omega)
  refine ⟨st', ?_⟩
  unfold parseRtpAp
  have ha : parseNalUnitHeader.attempt.run (BB.init (b0 :: b1 :: apBytes xs)) = .ok (some (headerOf b0 b1)) c := by rw [Prog.run_attempt, k1]
  rw [Prog.bind_of_ok ha]
  simp only [Prog.run]
  rw [Prog.bind_of_ok k4]
  rfl

/-- C77: one emulation prevention byte in the last NAL unit is enough -/
theorem C77_last_escaped (xs : List StdNal) (x : StdNal) (h : x.rbsp.length < (escape x.rbsp).length) : ¬ Fits (xs ++ [x]) := by
  induction xs with
  | nil => intro hf; have := hf.1; simp at this; omega
  | cons y ys ih => exact fun hf => ih hf.2

/-! ### sessions -/

theorem rtpResults_append : ∀ (as bs : List (List UInt8)) (st : ParserState) (rs : List (Option Rtp)) (st1 : ParserState), rtpResults as st = .ok (rs, st1) →
    rtpResults (as ++ bs) st = match rtpResults bs st1 with | .error k => .error k | .ok (qs, st2) => .ok (rs ++ qs, st2)
  | [], bs, st, rs, st1, h => by
    cases h
    rw [List.nil_append]
    cases rtpResults bs st <;> rfl
  | a :: as, bs, st, rs, st1, h => by
    simp only [rtpResults] at h
    rw [List.cons_append]
    simp only [rtpResults]
    cases h1 : parseRtp st a with
    | error k => rw [h1] at h; cases h
    | ok x =>
      obtain ⟨o, s⟩ := x
      rw [h1] at h
      dsimp only at h ⊢
      cases h2 : rtpResults as s with
      | error k => rw [h2] at h; cases h
      | ok y =>
        obtain ⟨qs, s2⟩ := y
        rw [h2] at h
        cases h
        rw [rtpResults_append as bs s qs st1 h2]
        cases rtpResults bs st1 <;> rfl

/-- the units of `l`, in order, as reported in `us` -/
def AllReported (l : List StdNal) (us : List (NalUnitHeader × NalUnitPayload)) : Prop :=
  us.length = l.length ∧ ∀ x ∈ l.zip us, x.2.1 = x.1.header ∧ ReportsPayload x.1 x.2.2

theorem AllReported.append {l m : List StdNal} {us vs : List (NalUnitHeader × NalUnitPayload)} (h1 : AllReported l us) (h2 : AllReported m vs) :
    AllReported (l ++ m) (us ++ vs) := by
  refine ⟨by simp [h1.1, h2.1], fun x hx => ?_⟩
  rw [List.zip_append h1.1.symm, List.mem_append] at hx
  rcases hx with hx | hx
  · exact h1.2 x hx
  · exact h2.2 x hx

theorem AllReported.one {x : StdNal} {p : NalUnitPayload} (h : ReportsPayload x p) : AllReported [x] [(x.header, p)] := by
  refine ⟨rfl, fun y hy => ?_⟩
  simp only [List.zip_cons_cons, List.zip_nil_right, List.mem_singleton] at hy
  subst hy
  exact ⟨rfl, h⟩

theorem session {d d' : StdParams} {l : List StdNal} {ps : List (List UInt8)} (h : SentRtp d l ps d') : ∀ {st : ParserState}, GoodParams d → Holds d st → Reach st →
    (∀ p ∈ ps, p.length < 2 ^ 32) →
    ∃ (rs : List Rtp) (st' : ParserState), rtpResults ps st = .ok (rs.map some, st') ∧ AllReported l (rs.flatMap rtpUnits) ∧ Holds d' st' ∧ Reach st' := by
  induction h with
  | nil => intro st _ hh hr _; exact ⟨[], st, rfl, ⟨rfl, fun x hx => by simp at hx⟩, hh, hr⟩
  | @single d d' x xs ps hx ht _ ih =>
    intro st hg hh hr hl
    obtain ⟨w, hw, _⟩ := hx.contents
    obtain ⟨r, st1, h1, ⟨p, h2, h3⟩, h4, h5⟩ := C77_single hg hh hr hx ht (hl _ (by simp))
    obtain ⟨rs, st', g1, g2, g3, g4⟩ := ih (hg.after hw) h4 h5 (fun p hp => hl p (by simp [hp]))
    refine ⟨r :: rs, st', ?_, ?_, g3, g4⟩
    · simp only [rtpResults, h1, g1]; rfl
    · rw [List.flatMap_cons, h2]
      exact (AllReported.one h3).append g2
  | @fragments d d' x xs head first p datas qs ps hx ht he hh2 hsh hp hq _ ih =>
    intro st hg hh hr hl
    obtain ⟨w, hw, _⟩ := hx.contents
    obtain ⟨r, st1, h1, ⟨q, h2, h3⟩, h4, h5⟩ := C77_first_fragment hg hh hr hx ht ⟨datas.flatten, by rw [he, List.append_assoc]⟩ hh2 hsh hp (hl _ (by simp))
    obtain ⟨rs1, k1, k2⟩ := C77_later_fragments hx.header ht st1 hq (fun y hy => hl y (by simp [hy]))
    obtain ⟨rs, st', g1, g2, g3, g4⟩ := ih (hg.after hw) h4 h5 (fun y hy => hl y (by simp [hy]))
    refine ⟨r :: (rs1 ++ rs), st', ?_, ?_, g3, g4⟩
    · simp only [rtpResults, h1, rtpResults_append _ _ _ _ _ k1, g1, List.map_cons, List.map_append]
    · rw [List.flatMap_cons, h2, List.flatMap_append, k2]
      exact (AllReported.one h3).append g2
  | @aggregate d d1 d' hd as xs p ps hs _ hc hf hp _ ih =>
    intro st hg hh hr hl
    obtain ⟨us, st1, h1, h2, h3, h4, h5⟩ := C77_aggregate hg hh hs hc hf hp (hl _ (by simp))
    obtain ⟨rs, st', g1, g2, g3, g4⟩ := ih h4 h5 (hr.step (C37_steps (hl _ (by simp)) h1).choose_spec) (fun p hp => hl p (by simp [hp]))
    refine ⟨{ nal_unit_header := hd, rtp_ap := some ⟨hd, us⟩ } :: rs, st', ?_, ?_, g3, g4⟩
    · simp only [rtpResults, h1, g1]; rfl
    · rw [List.flatMap_cons]
      refine AllReported.append ⟨?_, ?_⟩ g2
      · simp [rtpUnits, h2]
      · intro x hx
        simp only [rtpUnits, List.nil_append, List.append_nil] at hx
        rw [List.zip_map_right, List.mem_map] at hx
        obtain ⟨⟨a, b⟩, hy, rfl⟩ := hx
        exact (h3 _ hy).2

/-- C77: a conforming sequence of NAL units sent over RTP, each alone, in fragments or aggregated, is reported completely: no packet gives null, and the NAL units
reported are those sent, in order, with their headers and contents; afterwards the parser state holds the parameter sets sent. -/
theorem C77_session (st : ParserState) (l : List StdNal) (ps : List (List UInt8)) (d' : StdParams) (hr : Reach st) (hs : SentRtp .none l ps d')
    (hlen : ∀ p ∈ ps, p.length < 2 ^ 32) :
    ∃ (rs : List Rtp) (st' : ParserState), rtpResults ps st = .ok (rs.map some, st') ∧ AllReported l (rs.flatMap rtpUnits) ∧ Holds d' st' := by
  obtain ⟨rs, st', h1, h2, h3, _⟩ := session hs GoodParams.none (Holds.none st) hr hlen
  exact ⟨rs, st', h1, h2, h3⟩

/-! ### hypotheses met -/

/-- the parameter sets of the unit test in one packet, its slice in three fragments, and a P slice -/
def exPackets : List (List UInt8) :=
  let n := exNals.map fun x => escape x.rbsp
  ([0x60, 0x01] ++ lengthPrefixed 2 (n.take 3)) ::
    (([0x62, 0x01, 0x93] ++ ((n.getD 3 []).drop 2).take 8) ::
      ([[0x62, 0x01, 0x13] ++ ((n.getD 3 []).drop 10).take 5, [0x62, 0x01, 0x53] ++ (n.getD 3 []).drop 15] ++
        [n.getD 4 []]))

theorem exPackets_sent : ∃ d, SentRtp .none exNals exPackets d := by
  obtain ⟨d, h⟩ := exNals_sent
  cases h with | cons v h =>
  cases h with | cons s h =>
  cases h with | cons p h =>
  cases h with | cons i h =>
  cases h with | cons q h =>
  cases h
  refine ⟨_, .aggregate (h := ⟨0, 48, 0, 1⟩) (as := exNals.take 3) (.cons v (.cons s (.cons p (.nil _)))) (by decide +kernel) ?_ ?_ ?_ <|
    .fragments (head := (escape (exBytes.getD 3 [])).take 2) (first := ((escape (exBytes.getD 3 [])).drop 2).take 8)
      (datas := [((escape (exBytes.getD 3 [])).drop 10).take 5, (escape (exBytes.getD 3 [])).drop 15]) i (by decide) (by decide +kernel) (by decide +kernel) ?_ ?_
      (.more ?_ (.last ?_)) <| .single q (by decide) (.nil _)⟩
  · intro x hx
    simp only [exNals, List.take_succ_cons, List.take_zero, List.mem_cons, List.not_mem_nil, or_false] at hx
    rcases hx with rfl | rfl | rfl
    · exact ⟨rfl, 0, by decide, by decide +kernel⟩
    · exact ⟨rfl, 6, by decide, by decide +kernel⟩
    · exact ⟨rfl, 4, by decide, by decide +kernel⟩
  · refine ⟨?_, ?_, ?_, trivial⟩ <;> decide +kernel
  · exact ⟨[0x60, 0x01], rfl, by decide +kernel, rfl, by constructor <;> decide, by decide, by decide +kernel⟩
  · refine ⟨(exBytes.getD 3 []).take 6, (bitsOf ((exBytes.getD 3 []).take 6)).drop (16 + (Std.sliceSegmentHeader 19 exPps exSps exHead exSlice default).length), _, ?_,
      .slice exHead exSlice default exPps exPtl exSps (by decide) rfl rfl exHead_conforms exSlice_conforms exSupportedSlice, ?_⟩
    · exact List.isPrefixOf_iff_prefix.mp (by decide +kernel)
    · decide +kernel
  · exact ⟨[0x62, 0x01, 0x93], by decide +kernel, by decide +kernel⟩
  · exact ⟨[0x62, 0x01, 0x13], by decide +kernel, by decide +kernel⟩
  · exact ⟨[0x62, 0x01, 0x53], by decide +kernel, by decide +kernel⟩

/-- the SPS last in a packet is rejected: it has emulation prevention bytes -/
example : ¬ Fits (exNals.take 2) := C77_last_escaped (exNals.take 1) (exNals[1]'(by decide)) (by decide +kernel)

end H265.Std
