/-
C67: a truncated parameter set is not taken for a parameter set.
-/
import Verif.Props.Trailing

set_option autoImplicit false

namespace H265
open Spec Prog

theorem trailLoop_left : ∀ fuel (r : List Bool) b r', (trailLoop fuel).denote r = .ok b r' → 8 * (r.length / 8) ≤ r'.length
  | 0, r, b, r', h => by cases h
  | fuel + 1, r, b, r', h => by
    simp only [trailLoop, denote] at h
    by_cases ha : (r.length % 8 == 0) = true
    · rw [if_pos ha] at h; cases h; omega
    · rw [if_neg ha] at h
      simp only [denote] at h
      rw [if_neg (by decide)] at h
      have hne : r.length % 8 ≠ 0 := by simpa using ha
      by_cases h1 : 1 ≤ 32 ∧ 1 ≤ r.length
      · rw [if_pos h1] at h
        have hd : (r.drop 1).length = r.length - 1 := List.length_drop
        by_cases h0 : val (r.take 1) ≠ 0
        · rw [if_pos h0] at h
          cases h
          omega
        · rw [if_neg h0] at h
          have := trailLoop_left fuel _ _ _ h
          omega
      · exact absurd ⟨by decide, by omega⟩ h1

/-- reading the trailing bits does not go beyond the byte boundary behind the next bit -/
theorem rbspTrailingBits_left {r r' : List Bool} {b : Bool} (h : rbspTrailingBits.denote r = .ok b r') : 8 * ((r.length - 1) / 8) ≤ r'.length := by
  unfold rbspTrailingBits at h
  simp only [denote] at h
  rw [if_neg (by decide)] at h
  by_cases h1 : 1 ≤ 32 ∧ 1 ≤ r.length
  · rw [if_pos h1] at h
    have hd : (r.drop 1).length = r.length - 1 := List.length_drop
    by_cases h0 : val (r.take 1) ≠ 1
    · rw [if_pos h0] at h; cases h; omega
    · rw [if_neg h0] at h
      have := trailLoop_left _ _ _ _ h
      omega
  · rw [if_neg h1] at h
    cases h
    omega

theorem rbspTail_left {r r' : List Bool} {x : Nat} (h : (rbspTail 0).denote r = .ok x r') : 8 * ((r.length - 1) / 8) ≤ r'.length := by
  unfold rbspTail at h
  rw [← Prog.bind_def, denote_bind] at h
  have h : ((rbspTrailingBits.bind fun _ => Prog.ret 0).denote r) = .ok x r' := h
  rw [← Prog.bind_def, denote_bind] at h
  cases ht : rbspTrailingBits.denote r with
  | fail y => rw [ht] at h; cases h
  | bad k => rw [ht] at h; cases h
  | ok b r1 => rw [ht] at h; cases h; exact rbspTrailingBits_left ht

/-- the program needs the bits `c` (it fails on every proper start of them), and reads at most up to the byte boundary behind the next bit -/
def Needs {α : Type} (p : Prog α) (r rest : List Bool) : Prop :=
  ∃ c m, r = c ++ m ∧ 8 * ((m.length - 1) / 8) ≤ rest.length ∧ rest.length ≤ m.length ∧ ∀ a b, c = a ++ b → b ≠ [] → ∃ r', p.denote a = .fail r'

theorem tail_needs {α β : Type} {p : Prog α} {f : α → Nat → β} {ext : α → Nat} (hp : p.Streaming) {r rest : List Bool} {b : β}
    (h : (p >>= fun a => rbspTail (ext a) >>= fun x => Pure.pure (f a x)).denote r = .ok b rest) (h0 : ∀ a x, b = f a x → ext a = 0) :
    Needs (p >>= fun a => rbspTail (ext a) >>= fun x => Pure.pure (f a x)) r rest := by
  rw [denote_bind] at h
  cases h1 : p.denote r with
  | fail x => rw [h1] at h; cases h
  | bad k => rw [h1] at h; cases h
  | ok a r1 =>
    rw [h1, ARes.ok_bind, denote_bind] at h
    obtain ⟨c, e, g⟩ := hp _ _ _ h1
    cases h3 : (rbspTail (ext a)).denote r1 with
    | fail x => rw [h3] at h; cases h
    | bad k => rw [h3] at h; cases h
    | ok x r2 =>
      rw [h3] at h
      cases h
      have hf := Prog.denote_forward (rbspTail (ext a)) r1
      rw [h3] at hf
      rw [h0 a x rfl] at h3
      refine ⟨c, r1, e, rbspTail_left h3, List.IsSuffix.length_le hf, ?_⟩
      intro a' b' hab hb
      obtain ⟨r', hr⟩ := g.part a' b' hab hb
      exact ⟨r', by rw [denote_bind, hr]; rfl⟩

theorem parsePps_needs {r rest : List Bool} {v : Pps} (h : parsePps.denote r = .ok v rest) (h0 : v.body.head.pps_extension_4bits = 0)
    (h1 : v.body.head.pps_multilayer_extension_flag = 0) : Needs parsePps r rest := by
  -- the body without the unchecked extension
  let strict : Prog PpsBody := parsePpsHead >>= fun head => check (head.pps_multilayer_extension_flag = 0) >>= fun _ =>
    check (head.pps_3d_extension_flag = 0) >>= fun _ => Prog.maybe (head.pps_scc_extension_flag ≠ 0) parsePpsSccExtension >>= fun scc => Pure.pure ⟨head, none, scc⟩
  have hstr : strict.Streaming := Streaming.bind parsePpsHead_streaming fun _ => .bind (.check _) fun _ => .bind (.check _) fun _ =>
    .bind (.maybe parsePpsSccExtension_streaming) fun _ => .pure _
  -- parsing the body, by cases of the flag
  have hcase : ∀ r head r1, parsePpsHead.denote r = .ok head r1 → head.pps_multilayer_extension_flag = 0 → parsePpsBody.denote r = strict.denote r := by
    intro r head r1 hh hf
    show (parsePpsHead >>= fun head => parsePpsMultilayerUnchecked head.pps_multilayer_extension_flag >>= fun ml => check (head.pps_3d_extension_flag = 0) >>= fun _ =>
      Prog.maybe (head.pps_scc_extension_flag ≠ 0) parsePpsSccExtension >>= fun scc => Pure.pure (⟨head, ml, scc⟩ : PpsBody)).denote r = strict.denote r
    simp only [strict]
    rw [denote_bind, denote_bind parsePpsHead, hh]
    simp only [ARes.ok_bind]
    rw [denote_bind, denote_bind (check (head.pps_multilayer_extension_flag = 0))]
    unfold parsePpsMultilayerUnchecked Prog.check
    rw [if_neg (by simpa using hf), if_pos hf]
    rfl
  have hflag : ∀ b r r1, parsePpsBody.denote r = .ok b r1 → ∃ r0, parsePpsHead.denote r = .ok b.head r0 := by
    intro b r r1 hb
    have hb : (parsePpsHead >>= fun head => parsePpsMultilayerUnchecked head.pps_multilayer_extension_flag >>= fun ml => check (head.pps_3d_extension_flag = 0) >>= fun _ =>
      Prog.maybe (head.pps_scc_extension_flag ≠ 0) parsePpsSccExtension >>= fun scc => Pure.pure (⟨head, ml, scc⟩ : PpsBody)).denote r = .ok b r1 := hb
    rw [denote_bind] at hb
    cases hh : parsePpsHead.denote r with
    | fail x => rw [hh] at hb; cases hb
    | bad k => rw [hh] at hb; cases hb
    | ok head r2 =>
      rw [hh, ARes.ok_bind, denote_bind] at hb
      cases hm : (parsePpsMultilayerUnchecked head.pps_multilayer_extension_flag).denote r2 with
      | fail x => rw [hm] at hb; cases hb
      | bad k => rw [hm] at hb; cases hb
      | ok ml r3 =>
        rw [hm, ARes.ok_bind, denote_bind] at hb
        cases hc : (check (head.pps_3d_extension_flag = 0)).denote r3 with
        | fail x => rw [hc] at hb; cases hb
        | bad k => rw [hc] at hb; cases hb
        | ok _ r4 =>
          rw [hc, ARes.ok_bind, denote_bind] at hb
          cases hs : (Prog.maybe (head.pps_scc_extension_flag ≠ 0) parsePpsSccExtension).denote r4 with
          | fail x => rw [hs] at hb; cases hb
          | bad k => rw [hs] at hb; cases hb
          | ok scc r5 => rw [hs] at hb; cases hb; exact ⟨r2, rfl⟩
  have h : (parsePpsBody >>= fun b => rbspTail b.head.pps_extension_4bits >>= fun x => Pure.pure (⟨b, x⟩ : Pps)).denote r = .ok v rest := h
  rw [denote_bind] at h
  cases hb : parsePpsBody.denote r with
  | fail x => rw [hb] at h; cases h
  | bad k => rw [hb] at h; cases h
  | ok b r1 =>
    rw [hb, ARes.ok_bind, denote_bind] at h
    cases h3 : (rbspTail b.head.pps_extension_4bits).denote r1 with
    | fail x => rw [h3] at h; cases h
    | bad k => rw [h3] at h; cases h
    | ok x r2 =>
      rw [h3] at h
      cases h
      have hf := Prog.denote_forward (rbspTail b.head.pps_extension_4bits) r1
      rw [h3] at hf
      obtain ⟨r0, hhead⟩ := hflag _ _ _ hb
      dsimp only at h0 h1
      obtain ⟨ch, eh, gh⟩ := parsePpsHead_streaming _ _ _ hhead
      rw [hcase r _ _ hhead h1] at hb
      obtain ⟨c, e, g⟩ := hstr _ _ _ hb
      rw [h0] at h3
      refine ⟨c, r1, e, rbspTail_left h3, List.IsSuffix.length_le hf, ?_⟩
      intro a' b' hab hb'
      -- a proper start: it ends within the head, or behind it
      have hfail : ∃ r', parsePpsBody.denote a' = .fail r' := by
        obtain ⟨r', hr⟩ := g.part a' b' hab hb'
        by_cases hlen : ch.length ≤ a'.length
        · have hpre : ∃ m, a' = ch ++ m := by
            have e1 : a' ++ (b' ++ r1) = ch ++ r0 := by rw [← eh, e, hab, List.append_assoc]
            rcases List.append_eq_append_iff.1 e1 with ⟨y, hy, _⟩ | ⟨y, hy, _⟩
            · have := congrArg List.length hy
              rw [List.length_append] at this
              have hy0 : y = [] := List.length_eq_zero_iff.mp (by omega)
              subst hy0
              exact ⟨[], by rw [List.append_nil] at hy ⊢; exact hy.symm⟩
            · exact ⟨y, hy⟩
          obtain ⟨m, rfl⟩ := hpre
          exact ⟨r', by rw [hcase _ _ _ (gh.whole m) h1]; exact hr⟩
        · have hpre : ∃ y, ch = a' ++ y ∧ y ≠ [] := by
            have e1 : a' ++ (b' ++ r1) = ch ++ r0 := by rw [← eh, e, hab, List.append_assoc]
            rcases List.append_eq_append_iff.1 e1 with ⟨y, hy, _⟩ | ⟨y, hy, _⟩
            · refine ⟨y, hy, ?_⟩
              rintro rfl
              rw [List.append_nil] at hy
              rw [hy] at hlen
              omega
            · have := congrArg List.length hy
              rw [List.length_append] at this
              omega
          obtain ⟨y, hy, hy0⟩ := hpre
          obtain ⟨r'', hr''⟩ := gh.part a' y hy hy0
          refine ⟨r'', ?_⟩
          show (parsePpsHead >>= _).denote a' = _
          rw [denote_bind, hr'']; rfl
      obtain ⟨r', hr⟩ := hfail
      refine ⟨r', ?_⟩
      show (parsePpsBody >>= _).denote a' = _
      rw [denote_bind, hr]; rfl

theorem needs_cut {α : Type} {p : Prog α} {rest : List Bool} {x x0 : List UInt8} (h : Needs p (bitsOf x) rest) (hpre : x0 <+: x)
    (hlen : x0.length + 3 < (8 * (x.length + 2) - rest.length + 7) / 8) : ∃ r', p.denote (bitsOf x0) = .fail r' := by
  obtain ⟨c, m, e, h1, h2, h3⟩ := h
  obtain ⟨y, rfl⟩ := hpre
  have hl := congrArg List.length e
  rw [bitsOf_length, List.length_append, List.length_append] at hl
  rw [List.length_append] at hlen
  have hlt : 8 * x0.length < c.length := by omega
  rw [bitsOf_append] at e
  rcases List.append_eq_append_iff.1 e with ⟨z, hz, _⟩ | ⟨z, hz, _⟩
  · refine h3 _ _ hz ?_
    rintro rfl
    rw [hz, List.append_nil, bitsOf_length] at hlt
    omega
  · exfalso
    have := congrArg List.length hz
    rw [bitsOf_length, List.length_append] at this
    omega

theorem ps_needs {t : Nat} {st st' : ParserState} {p : NalUnitPayload} {r rest : List Bool} (ht : t ∈ [32, 33, 34])
    (h : (parseNalUnitPayload t st).denote r = .ok (p, st') rest) (hw : Whole t p) (hm : ∀ x, p.pps = some x → x.body.head.pps_multilayer_extension_flag = 0) :
    ∃ c m, r = c ++ m ∧ 8 * ((m.length - 1) / 8) ≤ rest.length ∧ rest.length ≤ m.length ∧ ∀ a b, c = a ++ b → b ≠ [] →
      ∃ r', (parseNalUnitPayload t st).denote a = .ok ({}, st) r' := by
  have hs : ¬ sliceType t := by
    unfold sliceType
    simp only [List.mem_cons, List.not_mem_nil, or_false] at ht
    omega
  have done : ∀ {α : Type} {q : Prog α} {f : Option α → NalUnitPayload × ParserState}, f none = ({}, st) → Needs q r rest →
      ∃ c m, r = c ++ m ∧ 8 * ((m.length - 1) / 8) ≤ rest.length ∧ rest.length ≤ m.length ∧ ∀ a b, c = a ++ b → b ≠ [] →
      ∃ r', (q.attempt.bind fun o => Prog.ret (f o)).denote a = .ok ({}, st) r' := by
    rintro α q f hf ⟨c, m, e, h1, h2, h3⟩
    refine ⟨c, m, e, h1, h2, fun a b hab hb => ?_⟩
    obtain ⟨r', hr⟩ := h3 a b hab hb
    exact ⟨r', by rw [← Prog.bind_def, denote_bind, denote_attempt, hr, ← hf]; rfl⟩
  rw [parseNalUnitPayload_eq, if_neg hs] at h
  simp only [parseNalUnitPayload_eq, if_neg hs]
  simp only [List.mem_cons, List.not_mem_nil, or_false] at ht
  rcases ht with rfl | rfl | rfl
  · rw [if_pos rfl] at h
    simp only [if_true]
    obtain ⟨x, hx, h0⟩ := hw.vps rfl
    rcases attempt_cases h with ⟨y, hy, e⟩ | ⟨_, e⟩
    · have : y = x := by
        have := congrArg (fun q : NalUnitPayload × ParserState => q.1.vps) e
        dsimp only [vpsOut] at this
        rw [hx] at this; cases this; rfl
      subst this
      exact done (f := fun o => vpsOut st o) rfl
        (tail_needs (f := fun b x => (⟨b, x⟩ : Vps)) (ext := fun b : VpsBody => b.vps_extension_flag) parseVpsBody_streaming hy (fun a x e => by subst e; exact h0))
    · have := congrArg (fun q : NalUnitPayload × ParserState => q.1.vps) e
      dsimp only [vpsOut] at this
      rw [hx] at this; cases this
  · rw [if_neg (by decide), if_pos rfl] at h
    simp only [if_neg (show ¬ (33 : Nat) = 32 by decide), if_true]
    obtain ⟨x, hx, h0⟩ := hw.sps rfl
    rcases attempt_cases h with ⟨y, hy, e⟩ | ⟨_, e⟩
    · have : y = x := by
        have := congrArg (fun q : NalUnitPayload × ParserState => q.1.sps) e
        dsimp only [spsOut] at this
        rw [hx] at this; cases this; rfl
      subst this
      exact done (f := fun o => spsOut st o) rfl
        (tail_needs (f := fun b x => (⟨b, x⟩ : Sps)) (ext := fun b : SpsBody => b.sps_extension_4bits) parseSpsBody_streaming hy (fun a x e => by subst e; exact h0))
    · have := congrArg (fun q : NalUnitPayload × ParserState => q.1.sps) e
      dsimp only [spsOut] at this
      rw [hx] at this; cases this
  · rw [if_neg (by decide), if_neg (by decide), if_pos rfl] at h
    simp only [if_neg (show ¬ (34 : Nat) = 32 by decide), if_neg (show ¬ (34 : Nat) = 33 by decide), if_true]
    obtain ⟨x, hx, h0, _⟩ := hw.pps rfl
    rcases attempt_cases h with ⟨y, hy, e⟩ | ⟨_, e⟩
    · have : y = x := by
        have := congrArg (fun q : NalUnitPayload × ParserState => q.1.pps) e
        dsimp only [ppsOut] at this
        rw [hx] at this; cases this; rfl
      subst this
      exact done (f := fun o => ppsOut st o) rfl (parsePps_needs hy h0 (hm _ hx))
    · have := congrArg (fun q : NalUnitPayload × ParserState => q.1.pps) e
      dsimp only [ppsOut] at this
      rw [hx] at this; cases this

/-- C67: let a parameter set NAL unit be parsed (without extension data of unknown meaning, and for a PPS without multilayer extension), and cut it anywhere so that more
than one of the bytes it was parsed from is missing: then parsing gives no payload, leaves the state as it was, and is no undefined behaviour. -/
theorem C67_truncated {cs cs' : Bool} {st st' : ParserState} {a b rbsp : List UInt8} {n : NalUnit} {e : BB} (h : parseNalUnit cs st (a ++ b) = .ok (n, st') e)
    (ht : n.nal_unit_header.nal_unit_type ∈ [32, 33, 34]) (hw : Whole n.nal_unit_header.nal_unit_type n.nal_unit_payload)
    (hm : ∀ x, n.nal_unit_payload.pps = some x → x.body.head.pps_multilayer_extension_flag = 0) (hu : unescapeRbsp a = .ok rbsp) (h2 : 2 ≤ rbsp.length)
    (hlen : rbsp.length < 2 ^ 32) (hcut : rbsp.length + 1 < n.parsed_length) :
    ∃ n' e', parseNalUnit cs' st a = .ok (n', st) e' ∧ n'.nal_unit_header = n.nal_unit_header ∧ n'.nal_unit_payload = {} := by
  obtain ⟨rb, hu', hparts⟩ := parseNalUnit_ok h
  rw [unescapeRbsp_eq] at hu'
  cases hu'
  have hpre : rbsp <+: unesc (a ++ b) := by
    have hu' := hu
    rw [unescapeRbsp_eq] at hu'
    cases hu'
    exact unesc_prefix a b
  obtain ⟨b1, b2, p1, p2, p3⟩ := hparts.parts
  rw [parseNalUnit_eq cs' st _ _ hu hlen]
  obtain ⟨more, hmore⟩ := hpre
  rw [← hmore] at p1 p3
  match rbsp, h2, hcut, p1, p3 with
  | x0 :: x1 :: rest, _, hcut, p1, p3 =>
    obtain ⟨bb, g1, g2, _, g4⟩ := header_run x0 x1 (rest ++ more)
    simp only [List.cons_append] at p1 p3
    rw [g1] at p1
    simp only [Res.ok.injEq] at p1
    obtain ⟨e1, rfl⟩ := p1
    have hd := denote_of_run_ok g2 p2
    rw [g4] at hd
    obtain ⟨c, m, q1, q2, q3, q4⟩ := ps_needs ht hd hw hm
    obtain ⟨bc, k1, k2, _, k4⟩ := header_run x0 x1 rest
    have hpart : ∃ y, c = bitsOf rest ++ y ∧ y ≠ [] := by
      have hl := congrArg List.length q1
      rw [bitsOf_length, List.length_append, List.length_append] at hl
      simp only [List.length_cons] at hcut p3
      rw [List.length_append] at p3
      have hlt : 8 * rest.length < c.length := by omega
      rw [bitsOf_append] at q1
      rcases List.append_eq_append_iff.1 q1 with ⟨y, hy, _⟩ | ⟨y, hy, _⟩
      · refine ⟨y, hy, ?_⟩
        rintro rfl
        rw [hy, List.append_nil, bitsOf_length] at hlt
        omega
      · exfalso
        have := congrArg List.length hy
        rw [bitsOf_length, List.length_append] at this
        omega
    obtain ⟨y, hy, hy0⟩ := hpart
    obtain ⟨r', hr⟩ := q4 _ _ hy hy0
    rw [← k4] at hr
    obtain ⟨bd, m1, _, _⟩ := run_of_denote_ok k2 hr
    unfold parseNalUnitParts
    rw [Prog.run_seq, k1]
    simp only [Res.andThen]
    rw [e1, Prog.run_seq, m1]
    exact ⟨_, bd, rfl, rfl, rfl⟩

/-- hypotheses met: the parameter sets of the test stream are parsed from all of their unescaped bytes, and the starts with one byte less than needed give nothing -/
example : [0, 1, 2].map (fun i => match parseNalUnit false .empty (testUnits.getD i (true, [])).2 with
      | .ok (n, _) _ => (n.nal_unit_header.nal_unit_type, n.parsed_length, (unesc (testUnits.getD i (true, [])).2).length)
      | _ => (0, 0, 0)) = [(32, 20, 20), (33, 36, 36), (34, 7, 7)] ∧
    [(0, 21), (1, 37), (2, 5)].map (fun (i, k) => match parseNalUnit false .empty ((testUnits.getD i (true, [])).2.take k) with
      | .ok (n, _) _ => [n.nal_unit_payload.vps.isSome, n.nal_unit_payload.sps.isSome, n.nal_unit_payload.pps.isSome]
      | _ => []) = [[false, false, false], [false, false, false], [false, false, false]] := by decide +kernel

/-- a PPS with a multilayer extension -/
def multilayerPps : List UInt8 := [0x44, 0x01, 0xc0, 0xf3, 0xc0, 0x02, 0x28, 0x02, 0x00, 0x20]

/-- C67: a PPS that is cut off in its multilayer extension is taken for a complete PPS (without the extension), and replaces the one stored before: the result of the
parser of that extension is not checked. -/
theorem C67_pps_multilayer :
    ([10, 8].map fun k => match parseNalUnit false .empty (multilayerPps.take k) with
      | .ok (n, st) _ => n.nal_unit_payload.pps.map fun x => (n.parsed_length, x.body.head.pps_multilayer_extension_flag, x.body.pps_multilayer_extension.isSome, (st.pps 0).isSome)
      | _ => none) = [some (10, 1, true, true), some (8, 1, false, true)] := by decide +kernel

/-! ### SEI messages -/

/-- a message that is parsed with its contents, and what is parsed of its starts -/
theorem sei_needs {r rest : List Bool} {v : SeiMessage} (h : parseSei.denote r = .ok v rest) (hp : v.payload_state ≠ none) :
    ∃ c, r = c ++ rest ∧ ∀ a b, c = a ++ b → b ≠ [] →
      (∃ r', parseSei.denote a = .fail r') ∨ ∃ r', parseSei.denote a = .ok { v with payload_state := none } r' := by
  unfold parseSei at h
  rw [denote_bind] at h
  cases h1 : ffCodedNumber.denote r with
  | fail _ => rw [h1] at h; cases h
  | bad k => rw [h1] at h; cases h
  | ok t r1 =>
    rw [h1] at h
    simp only [ARes.bind] at h
    rw [denote_bind] at h
    cases h2 : ffCodedNumber.denote r1 with
    | fail _ => rw [h2] at h; cases h
    | bad k => rw [h2] at h; cases h
    | ok n r2 =>
      rw [h2] at h
      simp only [ARes.bind] at h
      rw [denote_bind, denote_attempt] at h
      cases h3 : (parseSeiPayload t n).denote r2 with
      | bad k => rw [h3] at h; cases h
      | fail r3 => rw [h3] at h; cases h; exact absurd rfl hp
      | ok x r3 =>
        rw [h3] at h
        cases h
        obtain ⟨c1, e1, R1⟩ := ffCodedNumber_streaming _ _ _ h1
        obtain ⟨c2, e2, R2⟩ := ffCodedNumber_streaming _ _ _ h2
        obtain ⟨c3, e3, R3⟩ := parseSeiPayload_streaming t n _ _ _ h3
        refine ⟨c1 ++ (c2 ++ c3), by rw [e1, e2, e3]; simp, fun a b hab hb => ?_⟩
        unfold parseSei
        rw [denote_bind]
        rcases List.append_eq_append_iff.1 hab.symm with ⟨y, hy, hy2⟩ | ⟨y, hy, hy2⟩
        · by_cases hy0 : y = []
          · -- the cut is right behind the type
            subst hy0
            rw [List.append_nil] at hy
            subst hy
            have := R1.whole []
            rw [List.append_nil] at this
            rw [this]
            simp only [ARes.bind]
            rw [denote_bind]
            by_cases hc2 : c2 = []
            · exfalso
              subst hc2
              have h4 := R2.whole []
              simp only [List.append_nil] at h4
              have : ffCodedNumber.denote [] = ffCodedNumber.denote [] := rfl
              revert h4
              have e : ∃ r', ffCodedNumber.denote [] = .fail r' := by
                unfold ffCodedNumber
                exact ⟨[], rfl⟩
              obtain ⟨r', e⟩ := e
              rw [e]
              intro h4; cases h4
            · obtain ⟨r', hr⟩ := R2.part [] c2 rfl hc2
              rw [hr]
              exact .inl ⟨r', rfl⟩
          · obtain ⟨r', hr⟩ := R1.part a y hy hy0
            rw [hr]
            exact .inl ⟨r', rfl⟩
        · subst hy
          rw [R1.whole]
          simp only [ARes.bind]
          rw [denote_bind]
          rcases List.append_eq_append_iff.1 hy2.symm with ⟨z, hz, hz2⟩ | ⟨z, hz, hz2⟩
          · by_cases hz0 : z = []
            · subst hz0
              rw [List.append_nil] at hz
              subst hz
              have := R2.whole []
              rw [List.append_nil] at this
              rw [this]
              simp only [ARes.bind]
              rw [denote_bind, denote_attempt]
              obtain ⟨r', hr⟩ := R3.part [] c3 rfl (by rintro rfl; exact hb (by simpa using hz2))
              rw [hr]
              exact .inr ⟨_, rfl⟩
            · obtain ⟨r', hr⟩ := R2.part y z hz hz0
              rw [hr]
              exact .inl ⟨r', rfl⟩
          · subst hz
            rw [R2.whole]
            simp only [ARes.bind]
            rw [denote_bind, denote_attempt]
            obtain ⟨r', hr⟩ := R3.part z b hz2 hb
            rw [hr]
            exact .inr ⟨_, rfl⟩

/-- C67 for SEI messages: cut off before the byte in which its contents end, an SEI NAL unit gives a NAL unit with the same header, and either no message or one with the
same type and size and without contents. -/
theorem C67_sei {cs cs' : Bool} {st st' : ParserState} {a b rbsp : List UInt8} {n : NalUnit} {v : SeiMessage} {e : BB} (h : parseNalUnit cs st (a ++ b) = .ok (n, st') e)
    (hv : n.nal_unit_payload.sei = some v) (hp : v.payload_state ≠ none) (hu : unescapeRbsp a = .ok rbsp) (h2 : 2 ≤ rbsp.length) (hlen : rbsp.length < 2 ^ 32)
    (hcut : rbsp.length < n.parsed_length) :
    ∃ n' e', parseNalUnit cs' st a = .ok (n', st) e' ∧ n'.nal_unit_header = n.nal_unit_header ∧
      (n'.nal_unit_payload = {} ∨ n'.nal_unit_payload = { sei := some { v with payload_state := none } }) := by
  obtain ⟨rb, hu', hparts⟩ := parseNalUnit_ok h
  rw [unescapeRbsp_eq] at hu'
  cases hu'
  have hpre : rbsp <+: unesc (a ++ b) := by
    have hu' := hu
    rw [unescapeRbsp_eq] at hu'
    cases hu'
    exact unesc_prefix a b
  obtain ⟨b1, b2, p1, p2, p3⟩ := hparts.parts
  rw [parseNalUnit_eq cs' st _ _ hu hlen]
  obtain ⟨more, hmore⟩ := hpre
  rw [← hmore] at p1 p3
  match rbsp, h2, hcut, p1, p3 with
  | x0 :: x1 :: rest, _, hcut, p1, p3 =>
    obtain ⟨bb, g1, g2, _, g4⟩ := header_run x0 x1 (rest ++ more)
    simp only [List.cons_append] at p1 p3
    rw [g1] at p1
    simp only [Res.ok.injEq] at p1
    obtain ⟨e1, rfl⟩ := p1
    obtain ⟨ht, hr⟩ := (C21_payload p2).2.2.2.2.2 v hv
    have hd := denote_of_run_ok g2 hr
    rw [g4] at hd
    obtain ⟨c, q1, q4⟩ := sei_needs hd hp
    obtain ⟨bc, k1, k2, _, k4⟩ := header_run x0 x1 rest
    have hpart : ∃ y, c = bitsOf rest ++ y ∧ y ≠ [] := by
      have hl := congrArg List.length q1
      rw [bitsOf_length, List.length_append, List.length_append] at hl
      simp only [List.length_cons] at hcut p3
      rw [List.length_append] at p3
      have hlt : 8 * rest.length < c.length := by omega
      rw [bitsOf_append] at q1
      rcases List.append_eq_append_iff.1 q1 with ⟨y, hy, _⟩ | ⟨y, hy, _⟩
      · refine ⟨y, hy, ?_⟩
        rintro rfl
        rw [hy, List.append_nil, bitsOf_length] at hlt
        omega
      · exfalso
        have := congrArg List.length hy
        rw [bitsOf_length, List.length_append] at this
        omega
    obtain ⟨y, hy, hy0⟩ := hpart
    have hpay : parseNalUnitPayload n.nal_unit_header.nal_unit_type st = parseSei.attempt.bind fun o => Prog.ret ({ sei := o }, st) := by
      rw [parseNalUnitPayload_eq, if_neg (by unfold sliceType; omega), if_neg (by omega), if_neg (by omega), if_neg (by omega), if_neg (by omega), if_pos ht]
    have hrun : ∃ o bd, (parseNalUnitPayload n.nal_unit_header.nal_unit_type st).run bc = .ok ({ sei := o }, st) bd ∧
        (o = none ∨ o = some { v with payload_state := none }) := by
      rcases q4 _ _ hy hy0 with ⟨r', hr⟩ | ⟨r', hr⟩
      · have : (parseSei.attempt.bind fun o => Prog.ret (({ sei := o } : NalUnitPayload), st)).denote (bitsOf rest) = .ok ({ sei := none }, st) r' := by
          rw [← Prog.bind_def, denote_bind, denote_attempt, hr]; rfl
        rw [← k4] at this
        obtain ⟨bd, m1, _, _⟩ := run_of_denote_ok k2 this
        exact ⟨none, bd, by rw [hpay]; exact m1, .inl rfl⟩
      · have : (parseSei.attempt.bind fun o => Prog.ret (({ sei := o } : NalUnitPayload), st)).denote (bitsOf rest) =
            .ok ({ sei := some { v with payload_state := none } }, st) r' := by
          rw [← Prog.bind_def, denote_bind, denote_attempt, hr]; rfl
        rw [← k4] at this
        obtain ⟨bd, m1, _, _⟩ := run_of_denote_ok k2 this
        exact ⟨_, bd, by rw [hpay]; exact m1, .inr rfl⟩
    obtain ⟨o, bd, m1, ho⟩ := hrun
    unfold parseNalUnitParts
    rw [Prog.run_seq, k1]
    simp only [Res.andThen]
    rw [e1, Prog.run_seq, m1]
    refine ⟨_, bd, rfl, rfl, ?_⟩
    rcases ho with rfl | rfl
    · exact .inl rfl
    · exact .inr rfl

/-- hypotheses met: a content light level message (type 144, size 4), cut behind the size and inside the size field -/
example : [8, 6, 4, 3].map (fun k => match parseNalUnit false .empty ([0x4e, 0x01, 0x90, 0x04, 0x03, 0xe8, 0x01, 0x90, 0x80].take k) with
      | .ok (n, _) _ => (n.parsed_length, n.nal_unit_payload.sei.map fun v => (v.payload_type, v.payload_size, v.payload_state.isSome))
      | _ => (0, none)) = [(8, some (144, 4, true)), (6, some (144, 4, false)), (4, some (144, 4, false)), (3, none)] := by decide +kernel

end H265
