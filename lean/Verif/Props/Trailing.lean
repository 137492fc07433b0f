/-
C66: bytes behind the end of the syntax of a NAL unit (cabac_zero_words, trailing zero bytes) do not change what is parsed.
-/
import Verif.Props.SliceData
import Verif.Proof.StreamingAll

set_option autoImplicit false

namespace H265
open Spec Prog

/-- the payload of this NAL unit type was parsed up to its end, and announces no extension data of unknown meaning behind it -/
structure Whole (t : Nat) (p : NalUnitPayload) : Prop where
  slice : sliceType t → p.slice_segment_layer ≠ none
  vps : t = 32 → ∃ x, p.vps = some x ∧ x.body.vps_extension_flag = 0
  sps : t = 33 → ∃ x, p.sps = some x ∧ x.body.sps_extension_4bits = 0
  pps : t = 34 → ∃ x, p.pps = some x ∧ x.body.head.pps_extension_4bits = 0 ∧ (x.body.head.pps_multilayer_extension_flag ≠ 0 → x.body.pps_multilayer_extension ≠ none)
  aud : t = 35 → p.aud ≠ none
  sei : t = 39 ∨ t = 40 → ∃ x, p.sei = some x ∧ x.payload_state ≠ none

theorem tail_stable {α β : Type} {p : Prog α} {f : α → Nat → β} {ext : α → Nat} (hp : p.Streaming) {r rest : List Bool} {b : β}
    (h : (p >>= fun a => rbspTail (ext a) >>= fun x => Pure.pure (f a x)).denote r = .ok b rest) (h0 : ∀ a x, b = f a x → ext a = 0) :
    (p >>= fun a => rbspTail (ext a) >>= fun x => Pure.pure (f a x)).Stable r b := by
  refine hp.bind_stable h fun a r1 h1 h2 => ?_
  have hb : ext a = 0 ∧ b = f a 0 := by
    rw [denote_bind] at h2
    cases h3 : (rbspTail (ext a)).denote r1 with
    | fail x => rw [h3] at h2; cases h2
    | bad k => rw [h3] at h2; cases h2
    | ok x r2 =>
      rw [h3] at h2
      cases h2
      have e := h0 a x rfl
      refine ⟨e, ?_⟩
      rw [e] at h3
      obtain ⟨r', hr⟩ := rbspTail_zero r1
      rw [hr] at h3
      cases h3; rfl
  intro m
  obtain ⟨r', hr⟩ := rbspTail_zero (r1 ++ m)
  refine ⟨r', ?_⟩
  rw [hb.1, denote_bind, hr, hb.2]; rfl

theorem parseVps_stable {r rest : List Bool} {v : Vps} (h : parseVps.denote r = .ok v rest) (h0 : v.body.vps_extension_flag = 0) : parseVps.Stable r v :=
  tail_stable (f := fun b x => (⟨b, x⟩ : Vps)) (ext := fun b : VpsBody => b.vps_extension_flag) parseVpsBody_streaming h (fun a x e => by subst e; exact h0)

theorem parseSps_stable {r rest : List Bool} {v : Sps} (h : parseSps.denote r = .ok v rest) (h0 : v.body.sps_extension_4bits = 0) : parseSps.Stable r v :=
  tail_stable (f := fun b x => (⟨b, x⟩ : Sps)) (ext := fun b : SpsBody => b.sps_extension_4bits) parseSpsBody_streaming h (fun a x e => by subst e; exact h0)

theorem parseAud_stable {r rest : List Bool} {v : Aud} (h : parseAud.denote r = .ok v rest) : parseAud.Stable r v := by
  unfold parseAud at h ⊢
  refine (Streaming.u 3).bind_stable h fun a r1 _ h2 => ?_
  have hv : v = ⟨a⟩ := by
    obtain ⟨b, r', hr⟩ := rbspTrailingBits_ok r1
    rw [denote_bind, hr] at h2
    cases h2; rfl
  intro m
  obtain ⟨b, r', hr⟩ := rbspTrailingBits_ok (r1 ++ m)
  exact ⟨r', by rw [denote_bind, hr, hv]; rfl⟩

theorem parseSei_stable {r rest : List Bool} {v : SeiMessage} (h : parseSei.denote r = .ok v rest) (h0 : v.payload_state ≠ none) : parseSei.Stable r v := by
  unfold parseSei at h ⊢
  refine ffCodedNumber_streaming.bind_stable h fun a r1 _ h2 => ?_
  refine ffCodedNumber_streaming.bind_stable h2 fun b r2 _ h3 => ?_
  rcases attempt_cases (f := fun o => (⟨a, b, o⟩ : SeiMessage)) h3 with ⟨x, hx, rfl⟩ | ⟨_, rfl⟩
  · exact Stable.attempt (f := fun o => (⟨a, b, o⟩ : SeiMessage)) ((parseSeiPayload_streaming a b).stable hx)
  · exact absurd rfl h0

theorem parsePps_stable {r rest : List Bool} {v : Pps} (h : parsePps.denote r = .ok v rest) (h0 : v.body.head.pps_extension_4bits = 0)
    (h1 : v.body.head.pps_multilayer_extension_flag ≠ 0 → v.body.pps_multilayer_extension ≠ none) : parsePps.Stable r v := by
  -- the unchecked sub-parser, when it succeeds
  let body (checked : Bool) : Prog PpsBody := parsePpsHead >>= fun head =>
    (if checked then Prog.maybe (head.pps_multilayer_extension_flag ≠ 0) parsePpsMultilayerExtension else parsePpsMultilayerUnchecked head.pps_multilayer_extension_flag) >>= fun ml =>
    check (head.pps_3d_extension_flag = 0) >>= fun _ => Prog.maybe (head.pps_scc_extension_flag ≠ 0) parsePpsSccExtension >>= fun scc => Pure.pure ⟨head, ml, scc⟩
  have hbody : ∀ r b rest, (body true).denote r = .ok b rest → (body false).denote r = .ok b rest := by
    intro r b rest hb
    simp only [body] at hb ⊢
    rw [denote_bind] at hb ⊢
    cases hh : parsePpsHead.denote r with
    | fail x => rw [hh] at hb; cases hb
    | bad k => rw [hh] at hb; cases hb
    | ok head r1 =>
      rw [hh, ARes.ok_bind] at hb; rw [ARes.ok_bind]
      simp only [if_true, Bool.false_eq_true, if_false] at hb ⊢
      rw [denote_bind] at hb ⊢
      unfold Prog.maybe at hb
      unfold parsePpsMultilayerUnchecked
      by_cases hf : head.pps_multilayer_extension_flag ≠ 0
      · rw [if_pos hf] at hb ⊢
        rw [← Prog.bind_def, denote_bind] at hb
        rw [denote_attempt]
        cases hm : parsePpsMultilayerExtension.denote r1 with
        | fail x => rw [hm] at hb; cases hb
        | bad k => rw [hm] at hb; cases hb
        | ok ml r2 => rw [hm] at hb; exact hb
      · rw [if_neg hf] at hb ⊢
        exact hb
  have hstr : (body true).Streaming := by
    simp only [body]
    refine Streaming.bind parsePpsHead_streaming fun _ => ?_
    refine Streaming.bind (Streaming.maybe parsePpsMultilayerExtension_streaming) fun _ => ?_
    refine Streaming.bind (Streaming.check _) fun _ => ?_
    exact Streaming.bind (Streaming.maybe parsePpsSccExtension_streaming) fun _ => Streaming.pure _
  -- conversely
  have hback : ∀ r b rest, (body false).denote r = .ok b rest → (b.head.pps_multilayer_extension_flag ≠ 0 → b.pps_multilayer_extension ≠ none) →
      (body true).denote r = .ok b rest := by
    intro r b rest hb hne
    simp only [body] at hb ⊢
    rw [denote_bind] at hb ⊢
    cases hh : parsePpsHead.denote r with
    | fail x => rw [hh] at hb; cases hb
    | bad k => rw [hh] at hb; cases hb
    | ok head r1 =>
      rw [hh, ARes.ok_bind] at hb; rw [ARes.ok_bind]
      simp only [if_true, Bool.false_eq_true, if_false] at hb ⊢
      rw [denote_bind] at hb ⊢
      unfold parsePpsMultilayerUnchecked at hb
      unfold Prog.maybe
      -- what the rest returns
      have hrest : ∀ ml r2, (check (head.pps_3d_extension_flag = 0) >>= fun _ => Prog.maybe (head.pps_scc_extension_flag ≠ 0) parsePpsSccExtension >>= fun scc =>
          Pure.pure (⟨head, ml, scc⟩ : PpsBody)).denote r2 = .ok b rest → b.head = head ∧ b.pps_multilayer_extension = ml := by
        intro ml r2 hr
        rw [denote_bind] at hr
        cases hc : (check (head.pps_3d_extension_flag = 0)).denote r2 with
        | fail x => rw [hc] at hr; cases hr
        | bad k => rw [hc] at hr; cases hr
        | ok _ r3 =>
          rw [hc, ARes.ok_bind, denote_bind] at hr
          cases hs : (Prog.maybe (head.pps_scc_extension_flag ≠ 0) parsePpsSccExtension).denote r3 with
          | fail x => rw [hs] at hr; cases hr
          | bad k => rw [hs] at hr; cases hr
          | ok scc r4 => rw [hs] at hr; cases hr; exact ⟨rfl, rfl⟩
      by_cases hf : head.pps_multilayer_extension_flag ≠ 0
      · rw [if_pos hf] at hb ⊢
        rw [denote_attempt] at hb
        rw [← Prog.bind_def, denote_bind]
        cases hm : parsePpsMultilayerExtension.denote r1 with
        | fail x =>
          rw [hm] at hb
          obtain ⟨e1, e2⟩ := hrest _ _ hb
          rw [e1] at hne
          exact absurd e2 (hne hf)
        | bad k => rw [hm] at hb; cases hb
        | ok ml r2 => rw [hm] at hb; exact hb
      · rw [if_neg hf] at hb ⊢
        exact hb
  have hp : ∀ r v rest, parsePps.denote r = .ok v rest ↔
      (body false >>= fun b => rbspTail b.head.pps_extension_4bits >>= fun x => Pure.pure (⟨b, x⟩ : Pps)).denote r = .ok v rest := fun r v rest => Iff.rfl
  have hlift : ∀ r rest, (body true >>= fun b => rbspTail b.head.pps_extension_4bits >>= fun x => Pure.pure (⟨b, x⟩ : Pps)).denote r = .ok v rest →
      parsePps.denote r = .ok v rest := by
    intro r rest hr
    rw [hp, denote_bind]
    rw [denote_bind] at hr
    cases hb : (body true).denote r with
    | fail x => rw [hb] at hr; cases hr
    | bad k => rw [hb] at hr; cases hr
    | ok b r1 => rw [hb] at hr; rw [hbody _ _ _ hb]; exact hr
  have h' : (body true >>= fun b => rbspTail b.head.pps_extension_4bits >>= fun x => Pure.pure (⟨b, x⟩ : Pps)).denote r = .ok v rest := by
    rw [hp, denote_bind] at h
    rw [denote_bind]
    cases hb : (body false).denote r with
    | fail x => rw [hb] at h; cases h
    | bad k => rw [hb] at h; cases h
    | ok b r1 =>
      rw [hb, ARes.ok_bind] at h
      have hv : v.body = b := by
        rw [denote_bind] at h
        cases ht : (rbspTail b.head.pps_extension_4bits).denote r1 with
        | fail x => rw [ht] at h; cases h
        | bad k => rw [ht] at h; cases h
        | ok x r2 => rw [ht] at h; cases h; rfl
      rw [hback _ _ _ hb (by rw [← hv]; exact h1)]
      exact h
  intro m
  obtain ⟨r', hr⟩ := tail_stable (f := fun b x => (⟨b, x⟩ : Pps)) (ext := fun b : PpsBody => b.head.pps_extension_4bits) hstr h' (fun a x e => by subst e; exact h0) m
  exact ⟨r', hlift _ _ hr⟩

theorem payload_stable {t : Nat} {st st' : ParserState} {p : NalUnitPayload} {r rest : List Bool} (h : (parseNalUnitPayload t st).denote r = .ok (p, st') rest)
    (hw : Whole t p) : (parseNalUnitPayload t st).Stable r (p, st') := by
  rw [parseNalUnitPayload_eq] at h ⊢
  by_cases h1 : sliceType t
  · rw [if_pos h1] at h ⊢
    rcases attempt_cases h with ⟨x, hx, e⟩ | ⟨_, e⟩
    · rw [e]
      exact Stable.attempt (f := fun o => (({ slice_segment_layer := o } : NalUnitPayload), st)) ((parseSliceSegmentHeader_streaming _ _ _).stable hx)
    · have := hw.slice h1
      cases e
      exact absurd rfl this
  rw [if_neg h1] at h ⊢
  by_cases h2 : t = 32
  · rw [if_pos h2] at h ⊢
    obtain ⟨x, hx, h0⟩ := hw.vps h2
    rcases attempt_cases h with ⟨y, hy, e⟩ | ⟨_, e⟩
    · have : y = x := by
        have := congrArg (fun q : NalUnitPayload × ParserState => q.1.vps) e
        dsimp only [vpsOut] at this
        rw [hx] at this; cases this; rfl
      subst this
      rw [e]
      exact Stable.attempt (f := fun o => vpsOut st o) (parseVps_stable hy h0)
    · have := congrArg (fun q : NalUnitPayload × ParserState => q.1.vps) e
      dsimp only [vpsOut] at this
      rw [hx] at this; cases this
  rw [if_neg h2] at h ⊢
  by_cases h3 : t = 33
  · rw [if_pos h3] at h ⊢
    obtain ⟨x, hx, h0⟩ := hw.sps h3
    rcases attempt_cases h with ⟨y, hy, e⟩ | ⟨_, e⟩
    · have : y = x := by
        have := congrArg (fun q : NalUnitPayload × ParserState => q.1.sps) e
        dsimp only [spsOut] at this
        rw [hx] at this; cases this; rfl
      subst this
      rw [e]
      exact Stable.attempt (f := fun o => spsOut st o) (parseSps_stable hy h0)
    · have := congrArg (fun q : NalUnitPayload × ParserState => q.1.sps) e
      dsimp only [spsOut] at this
      rw [hx] at this; cases this
  rw [if_neg h3] at h ⊢
  by_cases h4 : t = 34
  · rw [if_pos h4] at h ⊢
    obtain ⟨x, hx, h0, h1⟩ := hw.pps h4
    rcases attempt_cases h with ⟨y, hy, e⟩ | ⟨_, e⟩
    · have : y = x := by
        have := congrArg (fun q : NalUnitPayload × ParserState => q.1.pps) e
        dsimp only [ppsOut] at this
        rw [hx] at this; cases this; rfl
      subst this
      rw [e]
      exact Stable.attempt (f := fun o => ppsOut st o) (parsePps_stable hy h0 h1)
    · have := congrArg (fun q : NalUnitPayload × ParserState => q.1.pps) e
      dsimp only [ppsOut] at this
      rw [hx] at this; cases this
  rw [if_neg h4] at h ⊢
  by_cases h5 : t = 35
  · rw [if_pos h5] at h ⊢
    rcases attempt_cases h with ⟨x, hx, e⟩ | ⟨_, e⟩
    · rw [e]
      exact Stable.attempt (f := fun o => (({ aud := o } : NalUnitPayload), st)) (parseAud_stable hx)
    · have := hw.aud h5
      cases e
      exact absurd rfl this
  rw [if_neg h5] at h ⊢
  by_cases h6 : t = 39 ∨ t = 40
  · rw [if_pos h6] at h ⊢
    obtain ⟨x, hx, h0⟩ := hw.sei h6
    rcases attempt_cases h with ⟨y, hy, e⟩ | ⟨_, e⟩
    · have : y = x := by cases e; cases hx; rfl
      subst this
      rw [e]
      exact Stable.attempt (f := fun o => (({ sei := o } : NalUnitPayload), st)) (parseSei_stable hy h0)
    · cases e; cases hx
  rw [if_neg h6] at h ⊢
  cases h
  exact fun m => ⟨_, rfl⟩

/-- C66: if the payload of a NAL unit was parsed up to its end and has no extension data of unknown meaning, then a NAL unit that begins with the same bytes gives
the same header and payload, and leaves the same state, whatever follows. -/
theorem C66_more_bytes {cs cs' : Bool} {st st' : ParserState} {data z : List UInt8} {n : NalUnit} {e : BB} (h : parseNalUnit cs st data = .ok (n, st') e)
    (hw : Whole n.nal_unit_header.nal_unit_type n.nal_unit_payload) (hlen : (data ++ z).length < 2 ^ 32) :
    ∃ n' e', parseNalUnit cs' st (data ++ z) = .ok (n', st') e' ∧ n'.nal_unit_header = n.nal_unit_header ∧ n'.nal_unit_payload = n.nal_unit_payload := by
  obtain ⟨rbsp, hu, hparts⟩ := parseNalUnit_ok h
  rw [unescapeRbsp_eq] at hu
  cases hu
  obtain ⟨t, ht⟩ := unesc_prefix data z
  have hle := unesc_le (unescapeRbsp_eq (data ++ z))
  obtain ⟨b1, b2, h1, h2, h3⟩ := hparts.parts
  rw [parseNalUnit_eq cs' st _ _ (unescapeRbsp_eq _) (by omega), ← ht]
  match unesc data, h1, h3 with
  | [], h1, _ => obtain ⟨e, he⟩ := header_run_short [] (by decide); rw [he] at h1; cases h1
  | [x], h1, _ => obtain ⟨e, he⟩ := header_run_short [x] (by simp); rw [he] at h1; cases h1
  | x0 :: x1 :: rest, h1, h3 =>
    obtain ⟨bb, g1, g2, _, g4⟩ := header_run x0 x1 rest
    rw [g1] at h1
    simp only [Res.ok.injEq] at h1
    obtain ⟨e1, rfl⟩ := h1
    obtain ⟨bc, k1, k2, _, k4⟩ := header_run x0 x1 (rest ++ t)
    have hd := denote_of_run_ok g2 h2
    rw [g4] at hd
    obtain ⟨r', hr⟩ := payload_stable hd hw (bitsOf t)
    rw [← bitsOf_append, ← k4] at hr
    obtain ⟨bd, m1, _, _⟩ := run_of_denote_ok k2 hr
    simp only [List.cons_append]
    unfold parseNalUnitParts
    rw [Prog.run_seq, k1]
    simp only [Res.andThen]
    rw [e1, Prog.run_seq, m1]
    exact ⟨_, bd, rfl, rfl, rfl⟩

/-! ### streams with zero bytes between the NAL units -/

namespace Spec

/-- an Annex B byte stream with its optional zero bytes: leading_zero_8bits in front, trailing_zero_8bits behind each NAL unit (start code long or short, NAL unit,
number of zero bytes) -/
def paddedAnnexB (lead : Nat) (units : List (Bool × List UInt8 × Nat)) : List UInt8 :=
  List.replicate lead 0 ++ (units.map fun x => annexBUnit x.1 x.2.1 ++ List.replicate x.2.2 0).flatten

end Spec

/-- the NAL units as the parser sees them: the zero bytes belong to the NAL unit in front, but one of them to a short start code behind -/
def seen : List (Bool × List UInt8 × Nat) → List (Bool × List UInt8)
  | [] => []
  | (l, n, k) :: us =>
    match seen us with
    | [] => [(l, n ++ List.replicate k 0)]
    | (true, m) :: r => (l, n ++ List.replicate k 0) :: (true, m) :: r
    | (false, m) :: r => (l, n ++ List.replicate (k - 1) 0) :: (decide (0 < k), m) :: r

theorem annexBUnit_true (m : List UInt8) : annexBUnit true m = 0 :: annexBUnit false m := rfl

theorem annexB_cons (x : Bool × List UInt8) (us : List (Bool × List UInt8)) : annexB (x :: us) = annexBUnit x.1 x.2 ++ annexB us := rfl

theorem annexBUnit_append (l : Bool) (a b : List UInt8) : annexBUnit l (a ++ b) = annexBUnit l a ++ b := by
  unfold annexBUnit; rw [List.append_assoc]

theorem zeros_short (k : Nat) (m : List UInt8) : List.replicate (k - 1) 0 ++ annexBUnit (decide (0 < k)) m = List.replicate k 0 ++ annexBUnit false m := by
  cases k with
  | zero => rfl
  | succ k =>
    rw [show decide (0 < k + 1) = true by simp, annexBUnit_true, Nat.add_sub_cancel, List.replicate_succ', List.append_assoc]; rfl

theorem seen_bytes : ∀ us, annexB (seen us) = (us.map fun x => annexBUnit x.1 x.2.1 ++ List.replicate x.2.2 0).flatten
  | [] => rfl
  | (l, n, k) :: us => by
    have ih := seen_bytes us
    rw [List.map_cons, List.flatten_cons, ← ih, seen]
    cases hs : seen us with
    | nil => simp only [annexB, List.map_cons, List.map_nil, List.flatten_cons, List.flatten_nil, List.append_nil, annexBUnit_append]
    | cons y r =>
      obtain ⟨l2, m⟩ := y
      cases l2 with
      | true => rw [annexB_cons, annexBUnit_append]
      | false =>
        rw [annexB_cons, annexB_cons, annexB_cons, annexBUnit_append]
        simp only [List.append_assoc]
        rw [← List.append_assoc (List.replicate (k - 1) 0), zeros_short, List.append_assoc]

/-- units that may follow each other in a stream: a NAL unit that ends with a zero byte is followed by a long start code -/
def Chain : List (Bool × List UInt8) → Prop
  | [] => True
  | (_, n) :: us => n ≠ [] ∧ ¬ [0, 0, 1] <:+: n ∧ (n.getLast? = some 0 → ∀ y, us.head? = some y → y.1 = true) ∧ Chain us

theorem chain_no_start {n : List UInt8} {us : List (Bool × List UInt8)} (h1 : ¬ [0, 0, 1] <:+: n) (h2 : n.getLast? = some 0 → ∀ y, us.head? = some y → y.1 = true)
    (a : UInt8) (s : List UInt8) (hs : (a :: s) <:+ n) : ¬ startCodeAt (a :: s ++ annexB us) 0 := by
  rintro ⟨g0, g1, g2, g3⟩
  have hlast : (a :: s).getLast? = n.getLast? := by
    obtain ⟨p, hp⟩ := hs
    rw [← hp, List.getLast?_append, List.getLast?_cons]
    rfl
  -- the next start code is long
  have key : n.getLast? = some 0 → ∀ i, i < 2 → (annexB us)[i]? ≠ some 1 := by
    intro hz i hi
    match us, h2 hz with
    | [], _ => simp [annexB]
    | (l, m) :: us, h2 =>
      have : l = true := h2 (l, m) rfl
      subst this
      rw [annexB_cons]
      match i, hi with
      | 0, _ => simp [annexBUnit]
      | 1, _ => simp [annexBUnit]
  match s with
  | [] =>
    simp at g0 g2
    exact key (by rw [← hlast]; simp [g0]) 1 (by omega) g2
  | [b] =>
    simp at g0 g1 g2
    exact key (by rw [← hlast]; simp [g1]) 0 (by omega) (by rw [← g2])
  | b :: c :: s =>
    simp at g0 g1 g2
    apply h1
    subst g0 g1 g2
    exact List.IsInfix.trans ⟨[], s, rfl⟩ hs.isInfix

theorem startsAt_chain {off : Nat} (long : Bool) {n : List UInt8} {us : List (Bool × List UInt8)} (h0 : n ≠ []) (h1 : ¬ [0, 0, 1] <:+: n)
    (h2 : n.getLast? = some 0 → ∀ y, us.head? = some y → y.1 = true) :
    startsAt off (annexBUnit long n ++ annexB us) = (off + (if long then 1 else 0)) :: startsAt (off + (annexBUnit long n).length) (annexB us) := by
  have key : ∀ off', startsAt off' ([0, 0, 1] ++ n ++ annexB us) = off' :: startsAt (off' + 3 + n.length) (annexB us) := by
    intro off'
    have hpos : startCodeAt ([0, 0, 1] ++ n ++ annexB us) 0 := by
      refine ⟨rfl, rfl, rfl, ?_⟩
      have : n.length ≠ 0 := fun h => h0 (List.length_eq_zero_iff.mp h)
      simp; omega
    have e : [0, 0, 1] ++ n ++ annexB us = (0 : UInt8) :: 0 :: 1 :: (n ++ annexB us) := rfl
    rw [e] at hpos ⊢
    rw [startsAt, if_pos hpos, startsAt, startsAt]
    rw [if_neg (by rintro ⟨_, h, _⟩; simp at h), if_neg (by rintro ⟨h, _⟩; simp at h)]
    simp only [List.nil_append, List.cons_append, List.cons.injEq, true_and]
    rw [startsAt_append n (annexB us) (fun a s hs => chain_no_start h1 h2 a s hs)]
  cases long with
  | false =>
    have := key off
    unfold annexBUnit
    simp only [Bool.false_eq_true, if_false, Nat.add_zero]
    rw [this]
    congr 2
    simp; omega
  | true =>
    have := key (off + 1)
    unfold annexBUnit
    simp only [if_true]
    have e : ([0, 0, 0, 1] ++ n ++ annexB us : List UInt8) = 0 :: ([0, 0, 1] ++ n ++ annexB us) := rfl
    rw [e, startsAt, if_neg, List.nil_append, this]
    · congr 2
      simp; omega
    · rintro ⟨_, _, h, _⟩; simp at h

theorem begin_chain (pre : List UInt8) (long : Bool) (n rest : List UInt8) (hpre : pre.getLast? = some 0 → long = true) :
    startCodeBegin (pre ++ (annexBUnit long n ++ rest)) (pre.length + (if long then 1 else 0)) = pre.length := by
  unfold startCodeBegin
  cases long with
  | true =>
    simp only [if_true]
    rw [if_pos]
    · omega
    · refine ⟨by omega, ?_⟩
      rw [show pre.length + 1 - 1 = pre.length + 0 by omega, List.getElem?_append_right (by omega)]
      simp [annexBUnit]
  | false =>
    simp only [Bool.false_eq_true, if_false, Nat.add_zero]
    rw [if_neg]
    rintro ⟨hp, hz⟩
    rw [List.getElem?_append_left (by omega)] at hz
    have := hpre (by rw [List.getLast?_eq_getElem?]; exact hz)
    cases this

theorem entries_chain : ∀ (us : List (Bool × List UInt8)) (pre : List UInt8), Chain us → (pre.getLast? = some 0 → ∀ y, us.head? = some y → y.1 = true) →
    entries (pre ++ annexB us) (pre ++ annexB us).length (startsAt pre.length (annexB us)) = nalSpans pre.length us
  | [], pre, _, _ => rfl
  | (long, n) :: us, pre, ⟨c0, c1, c2, c3⟩, hpre => by
    have hnl : n.length ≠ 0 := fun h => c0 (List.length_eq_zero_iff.mp h)
    have hlast : (pre ++ annexBUnit long n).getLast? = n.getLast? := by
      have hne : n.getLast? ≠ none := fun h => c0 (List.getLast?_eq_none_iff.mp h)
      unfold annexBUnit
      rw [← List.append_assoc, List.getLast?_append]
      cases hl : n.getLast? with
      | none => exact absurd hl hne
      | some v => rfl
    have hih := entries_chain us (pre ++ annexBUnit long n) c3 (by rw [hlast]; exact c2)
    rw [List.length_append (as := pre), List.append_assoc] at hih
    rw [annexB_cons, startsAt_chain long c0 c1 c2, nalSpans, ← hih]
    have hbegin := begin_chain pre long n (annexB us) (fun h => hpre h (long, n) rfl)
    have hulen : (annexBUnit long n).length = (if long then 4 else 3) + n.length := by
      unfold annexBUnit; cases long <;> simp <;> omega
    match us, c2, c3, hbegin, hih with
    | [], _, _, hbegin, _ =>
      rw [show annexB [] = [] from rfl] at hbegin ⊢
      simp only [startsAt, entries, hbegin]
      simp only [List.append_nil, List.length_append, hulen, List.cons.injEq, NaluIndex.mk.injEq, and_true, true_and]
      cases long <;> simp <;> omega
    | (long', n') :: us', c2, ⟨d0, d1, d2, d3⟩, hbegin, _ =>
      have hbegin' : startCodeBegin (pre ++ (annexBUnit long n ++ (annexBUnit long' n' ++ annexB us')))
          (pre.length + (annexBUnit long n).length + (if long' then 1 else 0)) = pre.length + (annexBUnit long n).length := by
        have := begin_chain (pre ++ annexBUnit long n) long' n' (annexB us') (by rw [hlast]; exact fun h => c2 h (long', n') rfl)
        rwa [List.append_assoc, List.length_append] at this
      rw [annexB_cons] at hbegin ⊢
      rw [startsAt_chain long' d0 d1 d2, entries]
      dsimp only at hbegin ⊢
      rw [hbegin, hbegin', hulen]
      congr 2
      · cases long <;> simp
      · cases long <;> simp <;> omega

theorem no_start_zeros {n : List UInt8} (k : Nat) (h : ¬ [0, 0, 1] <:+: n) : ¬ [0, 0, 1] <:+: n ++ List.replicate k (0 : UInt8) := by
  rintro ⟨a, b, hab⟩
  rcases List.append_eq_append_iff.1 hab with ⟨y, hy, hb⟩ | ⟨y, hy, hb⟩
  · exact h ⟨a, y, hy.symm⟩
  · -- the 1 is among the zeros, or the prefix is inside n
    have hb' : (b : List UInt8) = b := rfl
    by_cases hy0 : y = []
    · subst hy0
      rw [List.append_nil] at hy
      exact h ⟨a, [], by rw [List.append_nil]; exact hy⟩
    · have h1 : (1 : UInt8) ∈ y := by
        have : (a ++ [0, 0, 1]).getLast? = y.getLast? := by
          rw [hy, List.getLast?_append]
          cases hl : y.getLast? with
          | none => exact absurd (List.getLast?_eq_none_iff.mp hl) hy0
          | some v => rfl
        rw [List.getLast?_append] at this
        exact List.mem_of_getLast? this.symm
      have h2 : (1 : UInt8) ∈ List.replicate k (0 : UInt8) := by rw [hb]; exact List.mem_append_left _ h1
      have := List.eq_of_mem_replicate h2
      cases this

theorem last_zeros {n : List UInt8} {k : Nat} (h : (n ++ List.replicate k (0 : UInt8)).getLast? = some 0) (hn : n.getLast? ≠ some 0) : 0 < k := by
  cases k with
  | zero => rw [List.replicate_zero, List.append_nil] at h; exact absurd h hn
  | succ k => omega

theorem seen_chain : ∀ us : List (Bool × List UInt8 × Nat), (∀ x ∈ us, NalBytes x.2.1) → Chain (seen us)
  | [], _ => trivial
  | (l, n, k) :: us, h => by
    have hn := h (l, n, k) (by simp)
    have ih := seen_chain us fun x hx => h x (List.mem_cons_of_mem _ hx)
    have hne : ∀ j, n ++ List.replicate j (0 : UInt8) ≠ [] := fun j hj => hn.nonempty (List.append_eq_nil_iff.1 hj).1
    rw [seen]
    cases hs : seen us with
    | nil =>
      refine ⟨hne _, no_start_zeros _ hn.no_start_code, ?_, trivial⟩
      intro _ y hy; cases hy
    | cons y r =>
      rw [hs] at ih
      obtain ⟨l2, m⟩ := y
      cases l2 with
      | true =>
        refine ⟨hne _, no_start_zeros _ hn.no_start_code, ?_, ih⟩
        intro _ y hy; cases hy; rfl
      | false =>
        obtain ⟨i0, i1, i2, i3⟩ := ih
        refine ⟨hne _, no_start_zeros _ hn.no_start_code, ?_, i0, i1, i2, i3⟩
        intro hz y hy
        cases hy
        have := last_zeros hz hn.last_nonzero
        simp; omega

theorem seen_padding : ∀ us : List (Bool × List UInt8 × Nat), ∃ zs : List Nat, zs.length = us.length ∧
    (seen us).map (·.2) = List.zipWith (fun (x : Bool × List UInt8 × Nat) z => x.2.1 ++ List.replicate z (0 : UInt8)) us zs
  | [] => ⟨[], rfl, rfl⟩
  | (l, n, k) :: us => by
    obtain ⟨zs, h1, h2⟩ := seen_padding us
    rw [seen]
    cases hs : seen us with
    | nil =>
      rw [hs] at h2
      exact ⟨k :: zs, by simp [h1], by rw [List.zipWith_cons_cons, ← h2]; rfl⟩
    | cons y r =>
      obtain ⟨l2, m⟩ := y
      rw [hs] at h2
      cases l2 with
      | true => exact ⟨k :: zs, by simp [h1], by rw [List.zipWith_cons_cons, ← h2]; rfl⟩
      | false => exact ⟨(k - 1) :: zs, by simp [h1], by rw [List.zipWith_cons_cons, ← h2]; rfl⟩

theorem nalSpans_places' (us : List (Bool × List UInt8)) (pre : List UInt8) : ((nalSpans pre.length us).map (spanOf (pre ++ annexB us))).map (·.2.2) = us.map (·.2) := by
  rw [List.map_map]
  exact nalSpans_slices us pre

/-- leading zero bytes: one of them belongs to a short start code -/
theorem lead_zeros : ∀ (lead : Nat) (us : List (Bool × List UInt8)), Chain us → ∃ lead' us', List.replicate lead 0 ++ annexB us = List.replicate lead' 0 ++ annexB us' ∧
    Chain us' ∧ us'.map (·.2) = us.map (·.2) ∧ (0 < lead' → ∀ y, us'.head? = some y → y.1 = true)
  | lead, [], _ => ⟨lead, [], rfl, trivial, rfl, fun _ y h => by cases h⟩
  | lead, (true, n) :: us, h => ⟨lead, _, rfl, h, rfl, fun _ y h => by cases h; rfl⟩
  | lead, (false, n) :: us, h => by
    refine ⟨lead - 1, (decide (0 < lead), n) :: us, ?_, h, rfl, ?_⟩
    · rw [annexB_cons, annexB_cons, ← List.append_assoc, ← List.append_assoc, zeros_short]
    · intro hl y hy
      cases hy
      simp; omega

theorem parse_chain (cs : Bool) (st : ParserState) (lead : Nat) (us : List (Bool × List UInt8)) (h : Chain us) (hl : (List.replicate lead (0 : UInt8) ++ annexB us).length < 2 ^ 64) :
    ∃ l, parseBitstream cs st (List.replicate lead 0 ++ annexB us) = parseAll cs l st ∧ l.map (·.2.2) = us.map (·.2) := by
  obtain ⟨lead', us', h1, h2, h3, h4⟩ := lead_zeros lead us h
  rw [h1] at hl ⊢
  have hz : (List.replicate lead' (0 : UInt8)).getLast? = some 0 → ∀ y, us'.head? = some y → y.1 = true := by
    intro hz
    apply h4
    cases lead' with
    | zero => cases hz
    | succ k => omega
  refine ⟨(nalSpans (List.replicate lead' (0 : UInt8)).length us').map (spanOf (List.replicate lead' 0 ++ annexB us')), ?_, ?_⟩
  · rw [parseBitstream_eq cs st _ hl, starts_eq_startsAt, startsAt_append]
    · rw [Nat.zero_add, entries_chain us' _ h2 hz]
    · intro a s hs
      refine chain_no_start ?_ hz a s hs
      rintro ⟨x, y, hxy⟩
      have h1 : (1 : UInt8) ∈ List.replicate lead' (0 : UInt8) := by rw [← hxy]; simp
      cases List.eq_of_mem_replicate h1
  · rw [nalSpans_places', h3]

/-- one list of NAL units continues the other: each NAL unit with some bytes behind -/
inductive Longer : List (Nat × Nat × List UInt8) → List (Nat × Nat × List UInt8) → Prop
  | nil : Longer [] []
  | cons {o o' k k' : Nat} {nal z : List UInt8} {l l' : List (Nat × Nat × List UInt8)} : 2 ≤ nal.length → (nal ++ z).length < 2 ^ 32 → Longer l l' →
      Longer ((o, k, nal) :: l) ((o', k', nal ++ z) :: l')

theorem parseAll_longer {cs : Bool} : ∀ {l l' : List (Nat × Nat × List UInt8)}, Longer l l' → ∀ {st st' : ParserState} {ns : List NalUnit},
    parseAll cs l st = .ok (ns, st') → (∀ n ∈ ns, Whole n.nal_unit_header.nal_unit_type n.nal_unit_payload) →
    ∃ ns', parseAll cs l' st = .ok (ns', st') ∧ ns'.map (fun n => (n.nal_unit_header, n.nal_unit_payload)) = ns.map (fun n => (n.nal_unit_header, n.nal_unit_payload)) := by
  intro l l' hl
  induction hl with
  | nil => intro st st' ns h _; cases h; exact ⟨[], rfl, rfl⟩
  | @cons o o' k k' nal z l l' h2 hlen hl ih =>
    intro st st' ns h hw
    simp only [parseAll] at h ⊢
    cases hp : parseNalUnit cs st nal with
    | bad k => rw [hp] at h; cases h
    | fail b =>
      exfalso
      have := (C22_dropped_iff (unescapeRbsp_eq nal)).mp ⟨b, hp⟩
      match nal, h2, this with
      | b0 :: b1 :: r, _, this =>
        obtain ⟨r', hr⟩ := unesc_two b0 b1 r
        rw [hr] at this
        simp only [List.length_cons] at this
        omega
    | ok x b =>
      obtain ⟨n, s1⟩ := x
      rw [hp] at h
      dsimp only at h
      cases hr : parseAll cs l s1 with
      | error k => rw [hr] at h; cases h
      | ok y =>
        obtain ⟨ms, s2⟩ := y
        rw [hr] at h
        cases h
        have hwn := hw _ (List.mem_cons_self ..)
        obtain ⟨n', e', q1, q2, q3⟩ := C66_more_bytes (cs' := cs) (z := z) hp hwn hlen
        obtain ⟨ms', r1, r2⟩ := ih hr fun m hm => hw m (List.mem_cons_of_mem _ hm)
        rw [q1]
        dsimp only
        rw [r1]
        exact ⟨_, rfl, by rw [List.map_cons, List.map_cons, r2]; simp only [q2, q3]⟩

theorem longer_of : ∀ (us : List (Bool × List UInt8 × Nat)) (zs : List Nat) (l l' : List (Nat × Nat × List UInt8)), zs.length = us.length →
    l.map (·.2.2) = us.map (·.2.1) → l'.map (·.2.2) = List.zipWith (fun (x : Bool × List UInt8 × Nat) z => x.2.1 ++ List.replicate z (0 : UInt8)) us zs →
    (∀ x ∈ us, 2 ≤ x.2.1.length) → (∀ x ∈ l', x.2.2.length < 2 ^ 32) → Longer l l'
  | [], zs, l, l', _, h1, h2, _, _ => by
    rw [List.map_nil, List.map_eq_nil_iff] at h1
    rw [List.zipWith_nil_left, List.map_eq_nil_iff] at h2
    subst h1 h2
    exact .nil
  | x :: us, [], l, l', h, _, _, _, _ => by simp at h
  | (b, n, k) :: us, z :: zs, l, l', h, h1, h2, h3, h4 => by
    match l, l', h1, h2, h4 with
    | [], _, h1, _, _ => cases h1
    | _ :: _, [], _, h2, _ => cases h2
    | (o, j, m) :: l, (o', j', m') :: l', h1, h2, h4 =>
      rw [List.map_cons, List.map_cons] at h1
      rw [List.map_cons, List.zipWith_cons_cons] at h2
      obtain ⟨e1, h1'⟩ := List.cons.inj h1
      obtain ⟨e2, h2'⟩ := List.cons.inj h2
      dsimp only at e1 e2
      subst e1 e2
      have hm := h4 _ (List.mem_cons_self ..)
      exact .cons (h3 _ (List.mem_cons_self ..)) hm (longer_of us zs l l' (by simpa using h) h1' h2' (fun x hx => h3 x (List.mem_cons_of_mem _ hx))
        fun x hx => h4 x (List.mem_cons_of_mem _ hx))

theorem mem_annexB_length : ∀ (us : List (Bool × List UInt8)), ∀ x ∈ us.map (·.2), x.length ≤ (annexB us).length
  | [], x, h => by cases h
  | (l, n) :: us, x, h => by
    rw [annexB_cons, List.length_append]
    rw [List.map_cons, List.mem_cons] at h
    rcases h with rfl | h
    · dsimp only; unfold annexBUnit; rw [List.length_append]; omega
    · have := mem_annexB_length us x h; omega

/-- C66, on streams: zero bytes in front of the first start code and behind the NAL units do not change what is parsed. -/
theorem C66_zero_bytes (cs : Bool) {st st' : ParserState} (lead : Nat) (us : List (Bool × List UInt8 × Nat)) {ns : List NalUnit}
    (hn : ∀ x ∈ us, NalBytes x.2.1 ∧ 2 ≤ x.2.1.length) (hlen : (paddedAnnexB lead us).length < 2 ^ 32)
    (h : parseBitstream cs st (annexB (us.map fun x => (x.1, x.2.1))) = .ok (ns, st')) (hw : ∀ n ∈ ns, Whole n.nal_unit_header.nal_unit_type n.nal_unit_payload) :
    ∃ ns', parseBitstream cs st (paddedAnnexB lead us) = .ok (ns', st') ∧
      ns'.map (fun n => (n.nal_unit_header, n.nal_unit_payload)) = ns.map (fun n => (n.nal_unit_header, n.nal_unit_payload)) := by
  have hp : paddedAnnexB lead us = List.replicate lead 0 ++ annexB (seen us) := by rw [seen_bytes]; rfl
  have hlen0 : (annexB (us.map fun x => (x.1, x.2.1))).length ≤ (paddedAnnexB lead us).length := by
    unfold paddedAnnexB annexB
    rw [List.length_append, List.map_map]
    have : ∀ us : List (Bool × List UInt8 × Nat), ((us.map ((fun x => annexBUnit x.1 x.2) ∘ fun x => (x.1, x.2.1))).flatten).length ≤
        ((us.map fun x => annexBUnit x.1 x.2.1 ++ List.replicate x.2.2 (0 : UInt8)).flatten).length := by
      intro us
      induction us with
      | nil => simp
      | cons x us ih =>
        simp only [List.map_cons, List.flatten_cons, List.length_append, Function.comp] at ih ⊢
        omega
    have := this us
    omega
  have h264 : (2 : Nat) ^ 32 < 2 ^ 64 := by decide
  rw [C25_annexB cs st _ (by
    intro x hx
    obtain ⟨y, hy, rfl⟩ := List.mem_map.1 hx
    exact (hn y hy).1) (by omega)] at h
  have hpl : (nalPlaces 0 (us.map fun x => (x.1, x.2.1))).map (·.2.2) = us.map (·.2.1) := by
    have := nalSpans_places' (us.map fun x => (x.1, x.2.1)) []
    rw [nalSpans_places, List.length_nil, List.map_map] at this
    rw [this]; rfl
  obtain ⟨l', q1, q2⟩ := parse_chain cs st lead (seen us) (seen_chain us fun x hx => (hn x hx).1) (by rw [← hp]; omega)
  obtain ⟨zs, z1, z2⟩ := seen_padding us
  rw [hp, q1]
  refine parseAll_longer (longer_of us zs _ l' z1 hpl (by rw [q2, z2]) (fun x hx => (hn x hx).2) ?_) h hw
  intro x hx
  have := mem_annexB_length (seen us) x.2.2 (by rw [← q2]; exact List.mem_map.2 ⟨x, hx, rfl⟩)
  rw [hp, List.length_append] at hlen
  omega

/-- decidable form of `Whole` -/
theorem whole_of {t : Nat} {p : NalUnitPayload} (h1 : sliceType t → p.slice_segment_layer.isSome = true)
    (h2 : t = 32 → (p.vps.map (·.body.vps_extension_flag)) = some 0) (h3 : t = 33 → (p.sps.map (·.body.sps_extension_4bits)) = some 0)
    (h4 : t = 34 → (p.pps.map fun x => (x.body.head.pps_extension_4bits, x.body.head.pps_multilayer_extension_flag)) = some (0, 0))
    (h5 : t = 35 → p.aud.isSome = true) (h6 : t = 39 ∨ t = 40 → (p.sei.map (·.payload_state.isSome)) = some true) : Whole t p where
  slice h e := by have := h1 h; rw [e] at this; cases this
  vps h := by
    have := h2 h
    cases hv : p.vps with
    | none => rw [hv] at this; cases this
    | some x => rw [hv] at this; exact ⟨x, rfl, Option.some.inj this⟩
  sps h := by
    have := h3 h
    cases hv : p.sps with
    | none => rw [hv] at this; cases this
    | some x => rw [hv] at this; exact ⟨x, rfl, Option.some.inj this⟩
  pps h := by
    have := h4 h
    cases hv : p.pps with
    | none => rw [hv] at this; cases this
    | some x =>
      rw [hv] at this
      have := Option.some.inj this
      exact ⟨x, rfl, congrArg Prod.fst this, fun hne => absurd (congrArg Prod.snd this) hne⟩
  aud h e := by have := h5 h; rw [e] at this; cases this
  sei h := by
    have := h6 h
    cases hv : p.sei with
    | none => rw [hv] at this; cases this
    | some x =>
      rw [hv] at this
      have := Option.some.inj this
      exact ⟨x, rfl, fun e => by dsimp only at this; rw [e] at this; cases this⟩

/-- hypotheses met: all NAL units of the test stream (VPS, SPS, PPS, slice) are parsed to their ends -/
example : (parseBitstream false .empty (annexB testUnits)).toOption.map (fun x => x.1.map fun n => [some n.nal_unit_header.nal_unit_type,
      n.nal_unit_payload.vps.map (·.body.vps_extension_flag), n.nal_unit_payload.sps.map (·.body.sps_extension_4bits),
      n.nal_unit_payload.pps.map (fun x => x.body.head.pps_extension_4bits), n.nal_unit_payload.pps.map (fun x => x.body.head.pps_multilayer_extension_flag),
      n.nal_unit_payload.slice_segment_layer.map fun _ => 0]) =
    some [[some 32, some 0, none, none, none, none], [some 33, none, some 0, none, none, none], [some 34, none, none, some 0, some 0, none],
      [some 19, none, none, none, none, some 0]] := by decide +kernel

/-- and with zero bytes everywhere, short and long start codes, the result is the same -/
example : (parseBitstream false .empty (paddedAnnexB 5 [(false, testUnits[0].2, 3), (false, testUnits[1].2, 1), (true, testUnits[2].2, 4), (false, testUnits[3].2, 2)])).toOption.map
      (fun x => x.1.map fun n => (n.nal_unit_header, n.nal_unit_payload)) =
    (parseBitstream false .empty (annexB testUnits)).toOption.map (fun x => x.1.map fun n => (n.nal_unit_header, n.nal_unit_payload)) := by decide +kernel

/-- C66: with extension data the claim does not hold: the bytes behind are taken for more extension data. -/
theorem C66_extension_data :
    ([[], [0]].map fun z => match parseNalUnit false .empty (apVps.dropLast ++ [0x0b, 0x80] ++ z) with
      | .ok (n, _) _ => n.nal_unit_payload.vps.map fun x => (x.body.vps_extension_flag, x.vps_extension_data_flag)
      | _ => none) = [some (1, 1), some (1, 0)] := by decide +kernel

end H265
