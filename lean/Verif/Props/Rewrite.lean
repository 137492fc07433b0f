/- C70: what was parsed can be written and parsed again. -/
import Verif.Spec.Rewrite
import Verif.Props.History
import Verif.Props.Std
import Verif.Proof.DumpDet7

set_option autoImplicit false

namespace H265
open Spec

/-! ### bits into bytes -/

theorem byteBits_ofNat_val (b7 b6 b5 b4 b3 b2 b1 b0 : Bool) :
    byteBits (UInt8.ofNat (val [b7, b6, b5, b4, b3, b2, b1, b0])) = [b7, b6, b5, b4, b3, b2, b1, b0] := by
  revert b7 b6 b5 b4 b3 b2 b1 b0; decide +kernel

theorem bitsOf_packBytes : ∀ (n : Nat) (w : List Bool), w.length = 8 * n → bitsOf (packBytes w) = w
  | 0, w, h => by
    have : w = [] := List.length_eq_zero_iff.mp (by omega)
    subst this; rfl
  | n + 1, w, h => by
    match w, h with
    | b7 :: b6 :: b5 :: b4 :: b3 :: b2 :: b1 :: b0 :: r, h =>
      simp only [packBytes, bitsOf, byteBits_ofNat_val]
      rw [bitsOf_packBytes n r (by simp only [List.length_cons] at h; omega)]
      rfl
    | [], h => simp at h
    | [_], h => simp only [List.length_cons, List.length_nil] at h; omega
    | [_, _], h => simp only [List.length_cons, List.length_nil] at h; omega
    | [_, _, _], h => simp only [List.length_cons, List.length_nil] at h; omega
    | [_, _, _, _], h => simp only [List.length_cons, List.length_nil] at h; omega
    | [_, _, _, _, _], h => simp only [List.length_cons, List.length_nil] at h; omega
    | [_, _, _, _, _, _], h => simp only [List.length_cons, List.length_nil] at h; omega
    | [_, _, _, _, _, _, _], h => simp only [List.length_cons, List.length_nil] at h; omega

theorem bitsOf_trailing (w : List Bool) : bitsOf (packBytes (withTrailingBits w)) = withTrailingBits w := by
  refine bitsOf_packBytes (w.length / 8 + 1) _ ?_
  unfold withTrailingBits
  simp only [List.length_append, List.length_cons, List.length_replicate]
  omega

/-- emulation prevention leaves the last byte as it is, if it is not 0 -/
theorem escapeFrom_last : ∀ (l : List UInt8) (z : Nat) (x : UInt8), l.getLast? = some x → x ≠ 0 → (escapeFrom z l).getLast? = some x
  | [], z, x, h, _ => by cases h
  | [b], z, x, h, hx => by
    simp only [List.getLast?_singleton, Option.some.injEq] at h
    subst h
    unfold escapeFrom
    split <;> simp only [escapeFrom, if_neg hx] <;> simp
  | b :: c :: l, z, x, h, hx => by
    have hl : (c :: l).getLast? = some x := by rw [List.getLast?_cons_cons] at h; exact h
    have key : ∀ z, (escapeFrom z (c :: l)).getLast? = some x := fun z => escapeFrom_last (c :: l) z x hl hx
    have cons : ∀ (y : UInt8) (m : List UInt8), m.getLast? = some x → (y :: m).getLast? = some x := by
      intro y m hm
      cases m with
      | nil => cases hm
      | cons a m => rw [List.getLast?_cons_cons]; exact hm
    rw [escapeFrom]
    split
    · exact cons _ _ (cons _ _ (key _))
    · exact cons _ _ (key _)

theorem bitsOf_last_zero (l : List UInt8) (h : l.getLast? = some 0) : ∃ w, bitsOf l = w ++ List.replicate 8 false := by
  obtain ⟨m, rfl⟩ := List.getLast?_eq_some_iff.mp h
  exact ⟨bitsOf m, by rw [bitsOf_append]; rfl⟩

theorem trailing_last (w : List Bool) : (escape (packBytes (withTrailingBits w))).getLast? ≠ some 0 := by
  have hb := bitsOf_trailing w
  cases hl : (packBytes (withTrailingBits w)).getLast? with
  | none =>
    rw [List.getLast?_eq_none_iff.mp hl] at hb
    have := congrArg List.length hb
    unfold withTrailingBits at this
    simp at this
  | some x =>
    by_cases hx : x = 0
    · exfalso
      subst hx
      obtain ⟨v, hv⟩ := bitsOf_last_zero _ hl
      rw [hb] at hv
      unfold withTrailingBits at hv
      have hk : 7 - w.length % 8 < 8 := by omega
      have h1 : List.replicate 8 false = List.replicate (7 - (7 - w.length % 8)) false ++ false :: List.replicate (7 - w.length % 8) false := by
        rw [← List.replicate_succ, List.replicate_append_replicate]
        congr 1; omega
      rw [h1, ← List.append_assoc] at hv
      have := (List.append_inj' hv (by simp)).2
      simp at this
    · unfold escape
      rw [escapeFrom_last _ _ _ hl hx]
      intro h; cases h; exact hx rfl

theorem trailing_nal (w : List Bool) : NalBytes (escape (packBytes (withTrailingBits w))) where
  nonempty := by
    intro he
    have hu := C10_unescape_escape (packBytes (withTrailingBits w))
    rw [he] at hu
    have h0 : unescapeRbsp [] = .ok [] := by rfl
    rw [h0] at hu
    have h1 : packBytes (withTrailingBits w) = [] := by injection hu with hu; exact hu.symm
    have hb := congrArg List.length (bitsOf_trailing w)
    rw [h1] at hb
    unfold withTrailingBits at hb
    simp at hb
  no_start_code := fun hi => absurd (C10_escape_safe _ _ hi) (by decide)
  last_nonzero := trailing_last w

/-! ### one payload -/

theorem rbspTail_noExt {d : Nat} {r r' : List Bool} (h : (Prog.rbspTail 0).denote r = .ok d r') : d = 0 := by
  unfold Prog.rbspTail at h
  rw [← Prog.bind_def, Prog.denote_bind, show (Prog.opt ((0 : Nat) ≠ 0) (Prog.remaining fun n => Prog.extLoop (n + 1) 0) 0).denote r = .ok 0 r from rfl,
    ARes.ok_bind, ← Prog.bind_def, Prog.denote_bind] at h
  obtain ⟨b, r2, h2⟩ := trailing_total r
  rw [h2] at h
  cases h; rfl

/-- the extension data flag of a returned parameter set is a bit, and 0 without extension -/
theorem tail_flag {β : Type} {pb : Prog β} {ext : β → Nat} {α : Type} {f : β → Nat → α} {bb bb' : BB} {s : α} (h : bb.WF)
    (hr : (pb >>= fun b => Prog.rbspTail (ext b) >>= fun x => pure (f b x)).run bb = .ok s bb') :
    ∃ b d, s = f b d ∧ d ≤ 1 ∧ (ext b = 0 → d = 0) := by
  have hd := denote_of_run_ok h hr
  rw [Prog.denote_bind] at hd
  cases h1 : pb.denote bb.rem with
  | fail r1 => rw [h1] at hd; cases hd
  | bad k => rw [h1] at hd; cases hd
  | ok b r1 =>
    rw [h1, ARes.ok_bind, Prog.denote_bind] at hd
    cases h2 : (Prog.rbspTail (ext b)).denote r1 with
    | fail r1 => rw [h2] at hd; cases hd
    | bad k => rw [h2] at hd; cases hd
    | ok x r2 =>
      rw [h2] at hd; cases hd
      exact ⟨b, x, rfl, rbspTail_bit h2, fun he => by rw [he] at h2; exact rbspTail_noExt h2⟩

theorem flag_data {d : Nat} (h : d ≤ 1) : (((if d = 1 then [true] else []) : List Bool).getLast?.map Bool.toNat).getD 0 = d := by
  have : d = 0 ∨ d = 1 := by omega
  rcases this with rfl | rfl <;> rfl

theorem payload_rewrite {t : Nat} {st st' : ParserState} {bb bb' : BB} {p : NalUnitPayload} {w : List Bool} (hst : Reach st) (hw : bb.WF)
    (h : (parseNalUnitPayload t st).run bb = .ok (p, st') bb') (hs : payloadSyntax st t p = some w) {c : BB} {k : Nat} (hc : c.WF) (hk : k ≤ 7)
    (hr : c.rem = w ++ (extensionData p ++ true :: List.replicate k false)) :
    ∃ c', (parseNalUnitPayload t st).run c = .ok (p, st') c' := by
  have hsl : ∀ t, t ∈ [32, 33, 34, 35, 39, 40] → ¬ sliceType t := by
    intro t ht
    simp only [List.mem_cons, List.not_mem_nil, or_false] at ht
    unfold sliceType; omega
  have hso := C21_reachable_states hst
  cases payload_cases h with
  | vps o h1 h2 =>
    unfold payloadSyntax at hs
    rw [if_pos h1] at hs
    cases o with
    | none => cases hs
    | some x =>
      cases hs
      have h2 : parseVps.run bb = .ok x bb' := h2
      obtain ⟨b, d, e1, e2, e3⟩ := tail_flag (f := fun b x => (⟨b, x⟩ : Vps)) hw h2
      subst e1
      have hv := (C28_vps_inverts.sound _ _ _ hw h2).1
      have hx : extensionData (vpsOut st (some ⟨b, d⟩)).1 = if d = 1 then [true] else [] := by
        simp [extensionData, vpsOut]
      rw [hx] at hr
      obtain ⟨a, c', g1, g2, g3, _⟩ := C28_vps_inverts.exact c b _ k hc hv hk (fun h => by rw [e3 h]; rfl) hr
      rw [flag_data e2] at g3
      refine ⟨c', ?_⟩
      rw [parseNalUnitPayload_eq, h1, if_neg (hsl 32 (by decide)), if_pos rfl, Prog.run_bind, Prog.run_attempt, g1,
        show a = ⟨b, d⟩ from by cases a; simp only at g2 g3; subst g2 g3; rfl]
      rfl
  | sps o h1 h2 =>
    unfold payloadSyntax at hs
    rw [if_neg (by omega), if_pos h1] at hs
    cases o with
    | none => cases hs
    | some x =>
      cases hs
      have h2 : parseSps.run bb = .ok x bb' := h2
      obtain ⟨b, d, e1, e2, e3⟩ := tail_flag (f := fun b x => (⟨b, x⟩ : Sps)) hw h2
      subst e1
      have hv := (C27_sps_inverts.sound _ _ _ hw h2).1
      have hx : extensionData (spsOut st (some ⟨b, d⟩)).1 = if d = 1 then [true] else [] := by
        simp [extensionData, spsOut]
      rw [hx] at hr
      obtain ⟨a, c', g1, g2, g3, _⟩ := C27_sps_inverts.exact c b _ k hc hv hk (fun h => by rw [e3 h]; rfl) hr
      rw [flag_data e2] at g3
      refine ⟨c', ?_⟩
      rw [parseNalUnitPayload_eq, h1, if_neg (hsl 33 (by decide)), if_neg (by decide), if_pos rfl, Prog.run_bind, Prog.run_attempt, g1,
        show a = ⟨b, d⟩ from by cases a; simp only at g2 g3; subst g2 g3; rfl]
      rfl
  | pps o h1 h2 =>
    unfold payloadSyntax at hs
    rw [if_neg (by omega), if_neg (by omega), if_pos h1] at hs
    cases o with
    | none => cases hs
    | some x =>
      rw [show (ppsOut st (some x)).1.pps = some x from rfl, Option.bind_some] at hs
      split at hs
      · cases hs
      · next hl =>
        cases hs
        have h2 : parsePps.run bb = .ok x bb' := h2
        obtain ⟨b, d, e1, e2, e3⟩ := tail_flag (f := fun b x => (⟨b, x⟩ : Pps)) hw h2
        subst e1
        have hv := (C29_pps_sound hw h2 (fun hm => hl ⟨hm.1, by rw [hm.2]; rfl⟩)).1
        have hx : extensionData (ppsOut st (some ⟨b, d⟩)).1 = if d = 1 then [true] else [] := by
          simp [extensionData, ppsOut]
        rw [hx] at hr
        obtain ⟨c', g1, _⟩ := C29_pps_exact c b _ k hc hv hk (fun h => by rw [e3 h]; rfl) hr
        rw [flag_data e2] at g1
        refine ⟨c', ?_⟩
        rw [parseNalUnitPayload_eq, h1, if_neg (hsl 34 (by decide)), if_neg (by decide), if_neg (by decide), if_pos rfl, Prog.run_bind,
          Prog.run_attempt, g1]
        rfl
  | aud o h1 h2 =>
    unfold payloadSyntax at hs
    rw [if_neg (by omega), if_neg (by omega), if_neg (by omega), if_pos h1] at hs
    cases o with
    | none => cases hs
    | some a =>
      cases hs
      have h2 : parseAud.run bb = .ok a bb' := h2
      have ha : a.pic_type < 2 ^ 3 := by
        rcases C19_aud hw with ⟨b, e, h3⟩ | ⟨b, e, _⟩
        · rw [e] at h2; cases h2
          have := val_lt (bb.rem.take 3)
          rw [List.length_take] at this
          have h2 : 2 ^ min 3 bb.rem.length ≤ 2 ^ 3 := Nat.pow_le_pow_right (by decide) (Nat.min_le_left _ _)
          show val _ < _
          omega
        · rw [e] at h2; cases h2
      rcases C19_aud hc with ⟨b2, e1, _⟩ | ⟨b2, e1, e2⟩
      · refine ⟨b2, ?_⟩
        rw [parseNalUnitPayload_eq, h1, if_neg (hsl 35 (by decide)), if_neg (by decide), if_neg (by decide), if_neg (by decide), if_pos rfl,
          Prog.run_bind, Prog.run_attempt, e1]
        have hv : val (c.rem.take 3) = a.pic_type := by
          rw [hr]
          unfold Spec.aud
          simp only [Std.seq_cons, Std.seq_nil, List.append_nil]
          rw [List.take_append_of_le_length (by rw [u_length]; omega), List.take_of_length_le (by rw [u_length]; omega)]
          exact val_u_of_lt (by omega)
        rw [hv]; rfl
      · exfalso
        rw [hr] at e2
        unfold Spec.aud at e2
        simp only [Std.seq_cons, Std.seq_nil, List.append_nil, List.length_append, u_length] at e2
        omega
  | sei o h1 h2 =>
    unfold payloadSyntax at hs
    rw [if_neg (by omega), if_neg (by omega), if_neg (by omega), if_neg (by omega), if_pos h1] at hs
    cases o with
    | none => cases hs
    | some m =>
      obtain ⟨ty, sz, q⟩ := m
      cases q with
      | none => cases hs
      | some q =>
        cases hs
        have h2 : parseSei.run bb = .ok ⟨ty, sz, some q⟩ bb' := h2
        obtain ⟨k1, k2, _, _, rest, _, k3⟩ := C40_sei_sound hw h2
        obtain ⟨c', g1, _⟩ := C40_sei_accepts hc k1 k2 k3.1 hr
        refine ⟨c', ?_⟩
        rw [parseNalUnitPayload_eq, if_neg (by unfold sliceType; omega), if_neg (by omega), if_neg (by omega), if_neg (by omega), if_neg (by omega), if_pos h1,
          Prog.run_bind, Prog.run_attempt, g1]
        rfl
  | slice o h1 h2 =>
    have h1' := h1
    unfold sliceType at h1'
    unfold payloadSyntax at hs
    rw [if_neg (by omega), if_neg (by omega), if_neg (by omega), if_neg (by omega), if_neg (by omega), if_pos h1'] at hs
    cases o with
    | none => cases hs
    | some x =>
      have h2 : (parseSliceSegmentHeader t st.pps st.sps).run bb = .ok x bb' := h2
      obtain ⟨P, S, n1, n2, _⟩ := C36_slice_sound (fun i P h => (hso.pps i P h).1) (fun i S h => (hso.sps i S h).1) hw h2
      simp only [Option.bind_some, n1.1, n1.2, Option.map_some, Option.some.injEq] at hs
      subst hs
      obtain ⟨c', g1, _⟩ := C36_slice_accepts (fun i P h => (hso.pps i P h).1) (fun i S h => (hso.sps i S h).1) c x _ P S hc n1 n2 hr
      refine ⟨c', ?_⟩
      rw [parseNalUnitPayload_eq, if_pos h1, Prog.run_bind, Prog.run_attempt]
      rw [show (parseSliceSegmentLayer t st.pps st.sps).run c = .ok x c' from g1]
      rfl
  | other h1 h2 h3 =>
    refine ⟨c, ?_⟩
    simp only [List.mem_cons, List.not_mem_nil, or_false, not_or] at h2
    rw [parseNalUnitPayload_eq, if_neg h1, if_neg (by omega), if_neg (by omega), if_neg (by omega), if_neg (by omega), if_neg (by omega)]; rfl

/-! ### one NAL unit -/

theorem received_eq (st : ParserState) (p : NalUnitPayload) : received st p = effect st p := by
  unfold received effect
  congr 1
  · funext i; cases p.vps <;> rfl
  · funext i; cases p.sps <;> rfl
  · funext i; cases p.pps <;> rfl

theorem rewriteUnit_some {st : ParserState} {n : NalUnit} {u : List UInt8} (h : rewriteUnit st n = some u) :
    ∃ w, payloadSyntax st n.nal_unit_header.nal_unit_type n.nal_unit_payload = some w ∧
      u = escape (packBytes (withTrailingBits (nalUnitHeader n.nal_unit_header ++ w ++ extensionData n.nal_unit_payload))) := by
  unfold rewriteUnit at h
  cases hs : payloadSyntax st n.nal_unit_header.nal_unit_type n.nal_unit_payload with
  | none => rw [hs] at h; cases h
  | some w => rw [hs] at h; cases h; exact ⟨w, rfl, rfl⟩

/-- C70: a NAL unit written from what the parser reported is parsed to the same header, the same contents and the same parameter sets,
with the state the first one was parsed with.  (This holds also where the original was not the canonical encoding of its contents.) -/
theorem C70_unit {cs cs' : Bool} {st st' : ParserState} {data u : List UInt8} {n : NalUnit} {b : BB} (hst : Reach st)
    (h : parseNalUnit cs st data = .ok (n, st') b) (hu : rewriteUnit st n = some u) (hlen : u.length < 2 ^ 32) :
    ∃ n' b', parseNalUnit cs' st u = .ok (n', st') b' ∧ told n' = told n := by
  obtain ⟨w, hw, rfl⟩ := rewriteUnit_some hu
  obtain ⟨rbsp, _, hp⟩ := parseNalUnit_ok h
  obtain ⟨b1, b2, h1, h2, _⟩ := hp.parts
  obtain ⟨hv, hw1, _⟩ := C19_header_inverts.sound _ _ _ (BB.WF.init rbsp) h1
  generalize hrb : packBytes (withTrailingBits (nalUnitHeader n.nal_unit_header ++ w ++ extensionData n.nal_unit_payload)) = out at *
  have hl := Std.length_le_escape out
  have hb : bitsOf out = nalUnitHeader n.nal_unit_header ++ (w ++ (extensionData n.nal_unit_payload ++
      true :: List.replicate (7 - (nalUnitHeader n.nal_unit_header ++ w ++ extensionData n.nal_unit_payload).length % 8) false)) := by
    rw [← hrb, bitsOf_trailing]
    unfold withTrailingBits
    simp only [List.append_assoc]
  obtain ⟨c, hc, hcr, hn⟩ := nal_of_bits (cs := cs') (st := st) hv hb (by omega)
  obtain ⟨c', hc'⟩ := payload_rewrite hst hw1 h2 hw hc (by omega) hcr
  obtain ⟨n', b', e1, e2, e3⟩ := hn _ _ _ hc'
  exact ⟨n', b', e1, by unfold told; rw [e2, e3]⟩

/-- C70: a written NAL unit can be put into a byte stream: it is not empty, holds no start code and does not end with a zero byte. -/
theorem C70_unit_bytes {st : ParserState} {n : NalUnit} {u : List UInt8} (hu : rewriteUnit st n = some u) : NalBytes u := by
  obtain ⟨w, _, rfl⟩ := rewriteUnit_some hu
  exact trailing_nal _

/-- C70: writing is stable: what is parsed from a written unit is written as the same bytes. -/
theorem C70_stable {cs cs' : Bool} {st st' st2 : ParserState} {data u : List UInt8} {n n' : NalUnit} {b b' : BB} (hst : Reach st)
    (h : parseNalUnit cs st data = .ok (n, st') b) (hu : rewriteUnit st n = some u) (hlen : u.length < 2 ^ 32)
    (h' : parseNalUnit cs' st u = .ok (n', st2) b') : rewriteUnit st n' = some u ∧ st2 = st' := by
  obtain ⟨m, c, e1, e2⟩ := C70_unit (cs' := cs') hst h hu hlen
  rw [e1] at h'
  cases h'
  unfold told at e2
  simp only [Prod.mk.injEq] at e2
  refine ⟨?_, rfl⟩
  rw [← hu]
  unfold rewriteUnit
  rw [e2.1, e2.2]

/-! ### the bits of the original -/

theorem parts_noAlias {st : ParserState} {r : List Bool} {h : NalUnitHeader} {r1 : List Bool} (hn : (parseNalUnitParts st).NoAlias r)
    (hd : parseNalUnitHeader.denote r = .ok h r1) : (parseNalUnitPayload h.nal_unit_type st).NoAlias r1 := by
  unfold parseNalUnitParts at hn
  exact (Prog.NoAlias.of_bind ((Prog.NoAlias.of_bind hn).2 _ _ hd)).1

theorem sei_noAlias {t s : Nat} {rest : List Bool} (ht : t < 2 ^ 32) (hs : s < 2 ^ 32) (h : parseSei.NoAlias (ffCoded t ++ ffCoded s ++ rest)) :
    (parseSeiPayload t s).NoAlias rest := by
  unfold parseSei at h
  rw [List.append_assoc] at h
  have h1 := (Prog.NoAlias.of_bind h).2 _ _ ((ffCodedNumber_codec (H := Cond.any) (A := fun _ => False)).complete t ht _)
  have h2 := (Prog.NoAlias.of_bind h1).2 _ _ ((ffCodedNumber_codec (H := Cond.any) (A := fun _ => False)).complete s hs _)
  exact (Prog.NoAlias.of_bind h2).1.of_attempt

theorem payload_prefix {t : Nat} {st st' : ParserState} {bb bb' : BB} {p : NalUnitPayload} {w : List Bool} (hst : Reach st) (hw : bb.WF)
    (h : (parseNalUnitPayload t st).run bb = .ok (p, st') bb') (hs : payloadSyntax st t p = some w)
    (hna : (parseNalUnitPayload t st).NoAlias bb.rem) : w <+: bb.rem := by
  have hsl : ∀ t, t ∈ [32, 33, 34, 35, 39, 40] → ¬ sliceType t := by
    intro t ht
    simp only [List.mem_cons, List.not_mem_nil, or_false] at ht
    unfold sliceType; omega
  have hso := C21_reachable_states hst
  rw [parseNalUnitPayload_eq] at hna
  cases payload_cases h with
  | vps o h1 h2 =>
    unfold payloadSyntax at hs
    rw [if_pos h1] at hs
    cases o with
    | none => cases hs
    | some x =>
      cases hs
      have h2 : parseVps.run bb = .ok x bb' := h2
      exact (C28_vps_inverts.sound _ _ _ hw h2).2.2.2 trivial
  | sps o h1 h2 =>
    unfold payloadSyntax at hs
    rw [if_neg (by omega), if_pos h1] at hs
    cases o with
    | none => cases hs
    | some x =>
      cases hs
      have h2 : parseSps.run bb = .ok x bb' := h2
      rw [h1, if_neg (hsl 33 (by decide)), if_neg (by decide), if_pos rfl] at hna
      exact (C27_sps_inverts.sound _ _ _ hw h2).2.2.2 (Prog.NoAlias.of_bind hna).1.of_attempt
  | pps o h1 h2 =>
    unfold payloadSyntax at hs
    rw [if_neg (by omega), if_neg (by omega), if_pos h1] at hs
    cases o with
    | none => cases hs
    | some x =>
      rw [show (ppsOut st (some x)).1.pps = some x from rfl, Option.bind_some] at hs
      split at hs
      · cases hs
      · next hl =>
        cases hs
        have h2 : parsePps.run bb = .ok x bb' := h2
        rw [h1, if_neg (hsl 34 (by decide)), if_neg (by decide), if_neg (by decide), if_pos rfl] at hna
        exact (C29_pps_sound hw h2 (fun hm => hl ⟨hm.1, by rw [hm.2]; rfl⟩)).2.2.2 (Prog.NoAlias.of_bind hna).1.of_attempt
  | aud o h1 h2 =>
    unfold payloadSyntax at hs
    rw [if_neg (by omega), if_neg (by omega), if_neg (by omega), if_pos h1] at hs
    cases o with
    | none => cases hs
    | some a =>
      cases hs
      have h2 : parseAud.run bb = .ok a bb' := h2
      rcases C19_aud hw with ⟨b, e, h3⟩ | ⟨b, e, _⟩
      · rw [e] at h2; cases h2
        have hl : (bb.rem.take 3).length = 3 := by rw [List.length_take]; omega
        have := u_val (bb.rem.take 3)
        rw [hl] at this
        show Spec.seq [Spec.u 3 _] <+: _
        simp only [Std.seq_cons, Std.seq_nil, List.append_nil]
        rw [this]
        exact List.take_prefix _ _
      · rw [e] at h2; cases h2
  | sei o h1 h2 =>
    unfold payloadSyntax at hs
    rw [if_neg (by omega), if_neg (by omega), if_neg (by omega), if_neg (by omega), if_pos h1] at hs
    cases o with
    | none => cases hs
    | some m =>
      obtain ⟨ty, sz, q⟩ := m
      cases q with
      | none => cases hs
      | some q =>
        cases hs
        have h2 : parseSei.run bb = .ok ⟨ty, sz, some q⟩ bb' := h2
        obtain ⟨k1, k2, _, _, rest, k4, k3⟩ := C40_sei_sound hw h2
        rw [if_neg (by unfold sliceType; omega), if_neg (by omega), if_neg (by omega), if_neg (by omega), if_neg (by omega), if_pos h1] at hna
        refine ⟨bb'.rem, ?_⟩
        show ffCoded ty ++ ffCoded sz ++ seiPayload q ++ bb'.rem = _
        rw [k4, k3.2 fun _ => ?_, List.append_assoc]
        have hna := (Prog.NoAlias.of_bind hna).1.of_attempt
        rw [k4] at hna
        exact sei_noAlias k1 k2 hna
  | slice o h1 h2 =>
    have h1' := h1
    unfold sliceType at h1'
    unfold payloadSyntax at hs
    rw [if_neg (by omega), if_neg (by omega), if_neg (by omega), if_neg (by omega), if_neg (by omega), if_pos h1'] at hs
    cases o with
    | none => cases hs
    | some x =>
      have h2 : (parseSliceSegmentHeader t st.pps st.sps).run bb = .ok x bb' := h2
      obtain ⟨P, S, n1, n2, _, _, n5⟩ := C36_slice_sound (fun i P h => (hso.pps i P h).1) (fun i S h => (hso.sps i S h).1) hw h2
      simp only [Option.bind_some, n1.1, n1.2, Option.map_some, Option.some.injEq] at hs
      subst hs
      rw [if_pos h1] at hna
      exact ⟨bb'.rem, (n5 (Prog.NoAlias.of_bind hna).1.of_attempt).symm⟩
  | other h1 h2 h3 =>
    simp only [List.mem_cons, List.not_mem_nil, or_false, not_or] at h2
    unfold sliceType at h1
    unfold payloadSyntax at hs
    rw [if_neg (by omega), if_neg (by omega), if_neg (by omega), if_neg (by omega), if_neg (by omega), if_neg h1] at hs
    cases hs
    exact List.nil_prefix

/-- C70: nothing the parser read is lost: if no signed Exp-Golomb code word in the unit is an alias (`C06`), the unescaped bytes start with the header
and the syntax structure as they are written from the reported values. -/
theorem C70_bits {cs : Bool} {st st' : ParserState} {data rbsp : List UInt8} {n : NalUnit} {b : BB} {w : List Bool} (hst : Reach st)
    (hu : unescapeRbsp data = .ok rbsp) (h : parseNalUnit cs st data = .ok (n, st') b)
    (hw : payloadSyntax st n.nal_unit_header.nal_unit_type n.nal_unit_payload = some w) (hna : (parseNalUnitParts st).NoAlias (bitsOf rbsp)) :
    nalUnitHeader n.nal_unit_header ++ w <+: bitsOf rbsp := by
  obtain ⟨rbsp', hu', hp⟩ := parseNalUnit_ok h
  rw [hu] at hu'
  cases hu'
  obtain ⟨b1, b2, h1, h2, _⟩ := hp.parts
  obtain ⟨hv, hw1, _, hb⟩ := C19_header_inverts.sound _ _ _ (BB.WF.init rbsp) h1
  have hd := denote_of_run_ok (BB.WF.init rbsp) h1
  rw [BB.rem_init] at hd hb
  obtain ⟨x, hx⟩ := payload_prefix hst hw1 h2 hw (parts_noAlias hna hd)
  exact ⟨x, by rw [List.append_assoc, hx, ← hb]⟩

/-- C70: so two NAL units that are reported alike have the same bits, up to the end of the syntax structure. -/
theorem C70_same_bits {cs cs' : Bool} {st st1 st2 : ParserState} {data1 data2 rbsp1 rbsp2 : List UInt8} {n1 n2 : NalUnit} {b1 b2 : BB} {w : List Bool}
    (hst : Reach st) (hu1 : unescapeRbsp data1 = .ok rbsp1) (hu2 : unescapeRbsp data2 = .ok rbsp2)
    (h1 : parseNalUnit cs st data1 = .ok (n1, st1) b1) (h2 : parseNalUnit cs' st data2 = .ok (n2, st2) b2) (he : told n1 = told n2)
    (hw : payloadSyntax st n1.nal_unit_header.nal_unit_type n1.nal_unit_payload = some w)
    (ha1 : (parseNalUnitParts st).NoAlias (bitsOf rbsp1)) (ha2 : (parseNalUnitParts st).NoAlias (bitsOf rbsp2)) :
    ∃ r1 r2, bitsOf rbsp1 = nalUnitHeader n1.nal_unit_header ++ w ++ r1 ∧ bitsOf rbsp2 = nalUnitHeader n1.nal_unit_header ++ w ++ r2 := by
  unfold told at he
  simp only [Prod.mk.injEq] at he
  obtain ⟨r1, e1⟩ := C70_bits hst hu1 h1 hw ha1
  obtain ⟨r2, e2⟩ := C70_bits hst hu2 h2 (by rw [← he.1, ← he.2]; exact hw) ha2
  exact ⟨r1, r2, e1.symm, by rw [he.1]; exact e2.symm⟩

/-- C70: a unit whose syntax structure is directly followed by trailing bits is written back byte for byte. -/
theorem C70_same_bytes {cs : Bool} {st st' : ParserState} {rbsp : List UInt8} {n : NalUnit} {b : BB} {w : List Bool} (hst : Reach st)
    (h : parseNalUnit cs st (escape rbsp) = .ok (n, st') b) (hw : payloadSyntax st n.nal_unit_header.nal_unit_type n.nal_unit_payload = some w)
    (hna : (parseNalUnitParts st).NoAlias (bitsOf rbsp)) (hx : extensionData n.nal_unit_payload = []) {v : List Bool}
    (ht : bitsOf rbsp = withTrailingBits v) (hl : v.length = (nalUnitHeader n.nal_unit_header ++ w).length) :
    rewriteUnit st n = some (escape rbsp) := by
  obtain ⟨r, hr⟩ := C70_bits hst (C10_unescape_escape rbsp) h hw hna
  rw [ht] at hr
  have hv : nalUnitHeader n.nal_unit_header ++ w = v := (List.append_inj hr (by omega)).1
  unfold rewriteUnit
  rw [hw, hx]
  simp only [Option.map_some, Option.some.injEq, List.append_nil]
  rw [hv]
  have : packBytes (withTrailingBits v) = rbsp := bitsOf_inj (by rw [bitsOf_trailing, ht])
  rw [this]

/-! ### streams -/

theorem rewriteAll_cons {st : ParserState} {n : NalUnit} {ns : List NalUnit} {us : List (List UInt8)} (h : rewriteAll st (n :: ns) = some us) :
    ∃ u us', us = u :: us' ∧ rewriteUnit st n = some u ∧ rewriteAll (received st n.nal_unit_payload) ns = some us' := by
  unfold rewriteAll at h
  cases h1 : rewriteUnit st n with
  | none => rw [h1] at h; cases h
  | some u =>
    rw [h1, Option.bind_some] at h
    cases h2 : rewriteAll (received st n.nal_unit_payload) ns with
    | none => rw [h2] at h; cases h
    | some us' => rw [h2] at h; cases h; exact ⟨u, us', rfl, rfl, rfl⟩

theorem rewriteAll_bytes : ∀ {ns : List NalUnit} {st : ParserState} {us : List (List UInt8)}, rewriteAll st ns = some us → ∀ u ∈ us, NalBytes u
  | [], st, us, h => by cases h; intro u hu; cases hu
  | n :: ns, st, us, h => by
    obtain ⟨u, us', rfl, h1, h2⟩ := rewriteAll_cons h
    intro x hx
    rcases List.mem_cons.mp hx with rfl | hx
    · exact C70_unit_bytes h1
    · exact rewriteAll_bytes h2 x hx

theorem parseNalUnit_received {cs : Bool} {st st' : ParserState} {data : List UInt8} {n : NalUnit} {b : BB} (h : parseNalUnit cs st data = .ok (n, st') b) :
    st' = received st n.nal_unit_payload := by
  obtain ⟨rbsp, _, hp⟩ := parseNalUnit_ok h
  obtain ⟨b1, b2, _, h2, _⟩ := hp.parts
  rw [received_eq]
  exact payload_effect_eq h2

theorem rewriteUnit_place (st : ParserState) (n : NalUnit) (off len : Nat) : rewriteUnit st { n with offset := off, length := len } = rewriteUnit st n := rfl

theorem parseAll_rewrite {cs cs' : Bool} : ∀ {l : List (Nat × Nat × List UInt8)} {st st' : ParserState} {ns : List NalUnit} {us : List (List UInt8)}
    (places : List (Nat × Nat × List UInt8)), Reach st → parseAll cs l st = .ok (ns, st') → rewriteAll st ns = some us → (∀ u ∈ us, u.length < 2 ^ 32) →
    places.map (·.2.2) = us → ∃ ns', parseAll cs' places st = .ok (ns', st') ∧ ns'.map told = ns.map told ∧
      ns'.map (fun n => (n.offset, n.length)) = places.map (fun x => (x.1, x.2.1))
  | [], st, st', ns, us, places, hr, h, hu, hl, hp => by
    cases h
    cases hu
    have : places = [] := by simpa using hp
    subst this
    exact ⟨[], rfl, rfl, rfl⟩
  | (off, len, nal) :: rest, st, st', ns, us, places, hr, h, hu, hl, hp => by
    simp only [parseAll] at h
    cases hq : parseNalUnit cs st nal with
    | bad k => rw [hq] at h; cases h
    | fail b => rw [hq] at h; exact parseAll_rewrite places hr h hu hl hp
    | ok x b =>
      obtain ⟨n, st1⟩ := x
      rw [hq] at h
      dsimp only at h
      cases hq2 : parseAll cs rest st1 with
      | error k => rw [hq2] at h; cases h
      | ok y =>
        obtain ⟨ns1, st2⟩ := y
        rw [hq2] at h
        cases h
        obtain ⟨u, us', rfl, h1, h2⟩ := rewriteAll_cons hu
        rw [rewriteUnit_place] at h1
        cases places with
        | nil => simp at hp
        | cons pl places =>
          obtain ⟨po, pn, pd⟩ := pl
          simp only [List.map_cons, List.cons.injEq] at hp
          obtain ⟨rfl, hp⟩ := hp
          obtain ⟨n', b', e1, e2⟩ := C70_unit (cs' := cs') hr hq h1 (hl _ (by simp))
          have hs1 := parseNalUnit_received hq
          rw [← hs1] at h2
          obtain ⟨ns', f1, f2, f3⟩ := parseAll_rewrite (cs' := cs') places (hr.step (parseNalUnit_steps hq)) hq2 h2 (fun y hy => hl y (by simp [hy])) hp
          refine ⟨{ n' with offset := po, length := pn } :: ns', ?_, ?_, ?_⟩
          · simp only [parseAll, e1, f1]
          · simp only [List.map_cons, f2, List.cons.injEq, and_true]
            exact e2
          · simp only [List.map_cons, f3]

/-- C70: a whole stream.  If every unit reported for a byte stream can be written, the byte stream made of the written units (with start codes of
either length) is parsed to the same headers and contents in the same order, at the places where they were written, and leaves the same parser state. -/
theorem C70_annexB {cs cs' : Bool} {st st' : ParserState} {data : List UInt8} {ns : List NalUnit} {us : List (List UInt8)} (start : List Bool) (hst : Reach st)
    (hlen : data.length < 2 ^ 64) (h : parseBitstream cs st data = .ok (ns, st')) (hu : rewriteAll st ns = some us) (hn : start.length = us.length)
    (hlen' : (annexB (start.zip us)).length < 2 ^ 32) :
    ∃ ns', parseBitstream cs' st (annexB (start.zip us)) = .ok (ns', st') ∧ ns'.map told = ns.map told ∧
      ns'.map (fun n => (n.offset, n.length)) = (nalPlaces 0 (start.zip us)).map (fun x => (x.1, x.2.1)) := by
  rw [parseBitstream_eq cs st data hlen] at h
  have hb := rewriteAll_bytes hu
  have hp : (nalPlaces 0 (start.zip us)).map (·.2.2) = us := by
    rw [Std.nalPlaces_nal]
    exact List.map_snd_zip (by omega)
  have hsm : ∀ u ∈ us, u.length < 2 ^ 32 := by
    intro u hx
    obtain ⟨i, hi, rfl⟩ := List.mem_iff_getElem.mp hx
    have hm : (start[i]'(by omega), us[i]) ∈ start.zip us := List.mem_iff_getElem.mpr ⟨i, by simp; omega, by simp⟩
    have := Std.length_le_annexB _ _ hm
    simp only at this
    omega
  obtain ⟨ns', e1, e2, e3⟩ := parseAll_rewrite (cs' := cs') _ hst h hu hsm hp
  refine ⟨ns', ?_, e2, e3⟩
  rw [C25_annexB cs' st _ ?_ (by omega), e1]
  intro x hx
  exact hb _ (List.of_mem_zip hx).2

/-- C70: the same into length fields of 1 to 7 bytes. -/
theorem C70_length_prefixed {cs cs' : Bool} {k : Nat} {st st' : ParserState} {data : List UInt8} {ns : List NalUnit} {us : List (List UInt8)} (hst : Reach st)
    (hlen : data.length < 2 ^ 64) (h : parseBitstream cs st data = .ok (ns, st')) (hu : rewriteAll st ns = some us) (hk0 : 0 < k) (hk : k ≤ 7)
    (hl : ∀ u ∈ us, u.length < 256 ^ k ∧ u.length < 2 ^ 32) (hlen' : (lengthPrefixed k us).length < 2 ^ 63) :
    ∃ ns', parseBitstreamNaluLength cs' k st (lengthPrefixed k us) = .ok (ns', st') ∧ ns'.map told = ns.map told := by
  rw [parseBitstream_eq cs st data hlen] at h
  obtain ⟨ns', e1, e2, _⟩ := parseAll_rewrite (cs' := cs') (lengthPlaces k 0 us) hst h hu (fun u hx => (hl u hx).2) (Std.lengthPlaces_nal k us 0)
  refine ⟨ns', ?_, e2⟩
  rw [lengthStream_eq cs' k st us hk0 hk (fun u hx => ⟨(rewriteAll_bytes hu u hx).nonempty, (hl u hx).1⟩) hlen', e1]

/-! ### hypotheses met -/

/-- the units of a byte stream, as they are written from what a new parser reports of it -/
def rewritten (data : List UInt8) : Option (List (List UInt8)) :=
  match parseBitstream false .empty data with
  | .ok (ns, _) => rewriteAll .empty ns
  | .error _ => none

/-- hypotheses met: the stream of h265_bitstream_parser_unittest.cc:25-52.  All four units can be written; the three parameter sets come out
as they were, and the slice header without the slice data behind it. -/
example : ((rewritten testStream).map fun us => (us.length, us.take 3 == (testUnits.map (·.2)).take 3, us.drop 3)) =
    some (4, true, [[0x26, 0x01, 0xaf, 0x09, 0x40]]) := by decide +kernel

/-- `Prog.NoAlias` as a computation -/
def Prog.aliasFree {α : Type} : Prog α → List Bool → Bool
  | ret _, _ => true
  | fail, _ => true
  | bad _, _ => true
  | read w n k, r => if n ≤ w ∧ n ≤ r.length then aliasFree (k (some (val (r.take n)))) (r.drop n) else aliasFree (k none) r
  | ue k, r =>
    match ueSplit r with
    | some (v, r') => aliasFree (k (some v)) r'
    | none => aliasFree (k none) r
  | se k, r =>
    match ueSplit r with
    | some (c, r') => (c % 2 == 0 || c < 2 ^ 31) &&
      match seOfUe c with
      | some v => aliasFree (k (some v)) r'
      | none => true
    | none => aliasFree (k none) r
  | peek n k, r => if n ≤ 32 ∧ n ≤ r.length then aliasFree (k (some (val (r.take n)))) r else aliasFree (k none) r
  | remaining k, r => aliasFree (k r.length) r
  | aligned k, r => aliasFree (k (r.length % 8 == 0)) r

theorem Prog.noAlias_of {α : Type} {p : Prog α} {r : List Bool} (h : p.aliasFree r = true) : p.NoAlias r := by
  induction p generalizing r with
  | ret a => trivial
  | fail => trivial
  | bad k => trivial
  | read w n k ih =>
    simp only [aliasFree, NoAlias] at h ⊢
    split
    · rename_i hc; rw [if_pos hc] at h; exact ih _ h
    · rename_i hc; rw [if_neg hc] at h; exact ih _ h
  | ue k ih =>
    simp only [aliasFree, NoAlias] at h ⊢
    cases hu : ueSplit r with
    | none => simp only [hu] at h ⊢; exact ih _ h
    | some vr => simp only [hu] at h ⊢; exact ih _ h
  | se k ih =>
    simp only [aliasFree, NoAlias] at h ⊢
    cases hu : ueSplit r with
    | none => simp only [hu] at h ⊢; exact ih _ h
    | some vr =>
      obtain ⟨c, r'⟩ := vr
      simp only [hu, Bool.and_eq_true, Bool.or_eq_true, beq_iff_eq, decide_eq_true_eq] at h ⊢
      refine ⟨fun hc => ?_, ?_⟩
      · rcases h.1 with h1 | h1
        · rw [h1] at hc; cases hc
        · exact h1
      · cases hs : seOfUe c with
        | none => trivial
        | some v => rw [hs] at h; exact ih _ h.2
  | peek n k ih =>
    simp only [aliasFree, NoAlias] at h ⊢
    split
    · rename_i hc; rw [if_pos hc] at h; exact ih _ h
    · rename_i hc; rw [if_neg hc] at h; exact ih _ h
  | remaining k ih => exact ih _ h
  | aligned k ih => exact ih _ h

/-- hypotheses of `C70_bits` met: the PPS of that stream -/
example : (parseNalUnitParts .empty).NoAlias (bitsOf [0x44, 0x01, 0xc0, 0xf3, 0xc0, 0x02, 0x10]) := Prog.noAlias_of (by decide +kernel)

/-- C70 cannot hold for a NAL unit whose contents were not reported: an SPS that ends too early leaves only its header. -/
example : (parseNalUnit false .empty [0x42, 0x01, 0x01, 0x01]).val?.map (fun x => (told x.1, rewriteUnit .empty x.1)) =
    some ((⟨0, 33, 0, 1⟩, {}), none) := by decide +kernel

end H265
