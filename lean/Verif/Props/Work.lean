/-
C68: the number of steps a parse takes.
-/
import Verif.Proof.WorkAll
import Verif.Props.Rtp
import Verif.Props.ConfigBox
import Verif.Props.ByteStream

set_option autoImplicit false

namespace H265
open Spec Prog

theorem bits_length (bytes : List UInt8) : (BB.init bytes).rem.length = 8 * bytes.length := by rw [BB.rem_init, bitsOf_length]

/-- C68: parsing one NAL unit takes a number of steps that is linear in its size, whatever the bytes and whatever the parameter sets received before say: no loop
bound that is read from the bitstream can make the parser work for longer than the bytes allow. -/
theorem C68_nal_unit (st : ParserState) (data : List UInt8) : nalUnitSteps st data ≤ 14 + 96 * data.length := by
  unfold nalUnitSteps
  cases hu : unescapeRbsp data with
  | error k => exact Nat.zero_le _
  | ok bytes =>
    have h1 := unesc_le hu
    have h2 := parseNalUnitParts_within st (BB.init bytes).rem
    rw [bits_length] at h2
    dsimp only
    split
    · rw [steps_eq _ _ (BB.WF.init _)]; omega
    · exact Nat.zero_le _

/-- the units found, each with a start code, fit into the data -/
theorem unitsSteps_le (cs : Bool) (data : List UInt8) (e : Nat) : ∀ (l : List Nat) (st : ParserState), (∀ p ∈ l, p + 3 ≤ e) → l.Pairwise (fun p q => p + 3 ≤ q) →
    unitsSteps cs data (entries data e l) st ≤ 96 * (e - l.headD e)
  | [], st, _, _ => by simp [entries, unitsSteps]
  | [p], st, h, _ => by
    have hp := h p (by simp)
    simp only [entries, unitsSteps, List.headD]
    cases hs : sliceOf data (p + 3) (e - (p + 3)) with
    | error k => exact Nat.zero_le _
    | ok bytes =>
      have hb : bytes.length ≤ e - (p + 3) := by
        unfold sliceOf at hs
        split at hs
        · cases hs; rw [List.length_take]; exact Nat.min_le_left _ _
        · cases hs
      have := C68_nal_unit st bytes
      simp only
      split <;> omega
  | p :: q :: r, st, h, hl => by
    have hpq : p + 3 ≤ q := (List.pairwise_cons.1 hl).1 q (by simp)
    have hq := h q (by simp)
    have ih := fun st' => unitsSteps_le cs data e (q :: r) st' (fun x hx => h x (List.mem_cons_of_mem _ hx)) (List.pairwise_cons.1 hl).2
    have hbq := startCodeBegin_le data q
    simp only [entries, unitsSteps, List.headD] at ih ⊢
    cases hs : sliceOf data (p + 3) (startCodeBegin data q - (p + 3)) with
    | error k => exact Nat.zero_le _
    | ok bytes =>
      have hb : bytes.length ≤ q - (p + 3) := by
        unfold sliceOf at hs
        split at hs
        · cases hs; rw [List.length_take]; exact Nat.le_trans (Nat.min_le_left _ _) (by omega)
        · cases hs
      have := C68_nal_unit st bytes
      simp only
      split
      · omega
      · have := ih (by assumption)
        omega

/-- C68: parsing a byte stream takes at most 96 steps per byte, whatever the bytes. -/
theorem C68_bitstream (cs : Bool) (st : ParserState) (data : List UInt8) (hlen : data.length < 2 ^ 64) : bitstreamSteps cs st data ≤ 96 * data.length := by
  unfold bitstreamSteps
  rw [findNaluIndices_eq data hlen]
  have hmem : ∀ p ∈ starts data, startCodeAt data p := fun p h => (mem_startsBelow.mp h).2
  have h1 := unitsSteps_le cs data data.length (starts data) st (fun p hp => Nat.le_of_lt (hmem p hp).2.2.2) (by
    refine List.Pairwise.imp_of_mem ?_ (starts_sorted data data.length)
    intro p q hp hq h
    exact startCode_apart (hmem p hp) (hmem q hq) h)
  dsimp only
  omega

/-! ### NAL units with lengths -/

theorem sliceOf_length {data bytes : List UInt8} {a n : Nat} (h : sliceOf data a n = .ok bytes) : bytes.length ≤ n ∧ a + n ≤ data.length := by
  unfold sliceOf at h
  split at h
  · cases h; exact ⟨by rw [List.length_take]; exact Nat.min_le_left _ _, by assumption⟩
  · cases h

theorem nalLengthSteps_le (cs : Bool) (data : List UInt8) (n : Nat) (hn : 0 < n) (hlen : data.length < 2 ^ 64) : ∀ fuel i st, nalLengthSteps cs data n fuel i st ≤ 96 * (data.length - i)
  | 0, _, _ => Nat.zero_le _
  | fuel + 1, i, st => by
    rw [nalLengthSteps, if_pos hn]
    split
    · split
      · exact Nat.zero_le _
      · exact Nat.zero_le _
      · rename_i len _
        split
        · exact Nat.zero_le _
        · split
          · exact Nat.zero_le _
          · rename_i bytes hs
            obtain ⟨h1, h2⟩ := sliceOf_length hs
            have h3 := C68_nal_unit st bytes
            split
            · omega
            · rename_i st1 _
              have ih := nalLengthSteps_le cs data n hn hlen fuel ((i + n + len) % 2 ^ 64) st1
              rw [Nat.mod_eq_of_lt (by omega)] at ih ⊢
              omega
    · exact Nat.zero_le _

/-- C68: parsing a buffer of NAL units with lengths takes at most 96 steps per byte (and 14 more without lengths), whatever the bytes. -/
theorem C68_nalu_length (cs : Bool) (n : Nat) (st : ParserState) (data : List UInt8) (hlen : data.length < 2 ^ 64) :
    bitstreamNaluLengthSteps cs n st data ≤ 14 + 96 * data.length := by
  unfold bitstreamNaluLengthSteps
  by_cases hn : 0 < n
  · have := nalLengthSteps_le cs data n hn hlen (data.length + 1) 0 st
    omega
  · rw [nalLengthSteps, if_neg hn]
    split
    · split
      · exact Nat.zero_le _
      · rename_i bytes hs
        obtain ⟨h1, h2⟩ := sliceOf_length hs
        have h3 := C68_nal_unit st bytes
        split
        · omega
        · rename_i st1 _
          have : nalLengthSteps cs data n data.length ((0 + data.length) % 2 ^ 64) st1 = 0 := by
            rw [Nat.mod_eq_of_lt (by omega)]
            have : ∀ fuel, nalLengthSteps cs data n fuel (0 + data.length) st1 = 0 := by
              intro fuel
              cases fuel with
              | zero => rfl
              | succ k => rw [nalLengthSteps, if_neg (by omega)]
            exact this _
          omega
    · exact Nat.zero_le _

/-! ### configuration box -/

theorem parseHvccBytes_frugal : parseHvccBytes.Frugal := by unfold parseHvccBytes; frugal
theorem parseHvccArrayHead_frugal : parseHvccArrayHead.Frugal := by unfold parseHvccArrayHead; frugal
theorem parseHvccHeader_frugal : parseHvccHeader.Frugal := by unfold parseHvccHeader; frugal

/-- the bytes of one NAL unit pay for reading and for parsing them -/
theorem hvccBytes_work {bb b1 : BB} {data : List UInt8} (st : ParserState) (hw : bb.WF) (h : parseHvccBytes.run bb = .ok data b1) :
    b1.WF ∧ parseHvccBytes.steps bb + nalUnitSteps st data + 16 * b1.rem.length ≤ 16 * bb.rem.length := by
  obtain ⟨hl, w1, _, r1⟩ := (hvccBytes_codec (H := Cond.any) (A := fun _ => False)).inverts.sound _ _ _ hw h
  have h1 := parseHvccBytes_frugal.ok (denote_of_run_ok hw h)
  have h2 := C68_nal_unit st data
  have h3 := congrArg List.length r1
  rw [List.length_append, hvccUnitBits, List.length_append, Spec.u_length, bitsOf_length] at h3
  rw [steps_eq _ _ hw]
  exact ⟨w1, by omega⟩

theorem hvccUnitsSteps_le (cs : Bool) : ∀ (n : Nat) (st : ParserState) (bb : BB), bb.WF → hvccUnitsSteps cs n st bb ≤ 1 + 16 * bb.rem.length
  | 0, _, _, _ => Nat.zero_le _
  | n + 1, st, bb, hw => by
    rw [hvccUnitsSteps]
    have h1 := parseHvccBytes_frugal.all bb.rem
    split
    · rename_i data b1 hr
      obtain ⟨w1, h2⟩ := hvccBytes_work st hw hr
      rw [← Nat.add_assoc]
      split
      · have := hvccUnitsSteps_le cs n (by assumption) b1 w1; omega
      · have := hvccUnitsSteps_le cs n st b1 w1; omega
      · omega
    · rw [steps_eq _ _ hw]; omega

theorem hvccUnitsSteps_ok (cs : Bool) : ∀ (n : Nat) (st st' : ParserState) (bb bb' : BB) (us : List HvccUnit), bb.WF → (hvccUnits cs n st).run bb = .ok (some us, st') bb' →
    hvccUnitsSteps cs n st bb + 16 * bb'.rem.length ≤ 16 * bb.rem.length
  | 0, st, st', bb, bb', us, hw, h => by
    cases h
    rw [hvccUnitsSteps]; omega
  | n + 1, st, st', bb, bb', us, hw, h => by
    simp only [hvccUnits] at h
    obtain ⟨o, c1, h1, h⟩ := Prog.bind_ok h
    rw [Prog.run_attempt] at h1
    split at h1
    · rename_i nal c hx
      cases h1
      obtain ⟨w1, hb⟩ := hvccBytes_work st hw hx
      obtain ⟨⟨o, st1⟩, c2, h2, h⟩ := Prog.bind_ok h
      obtain ⟨⟨o2, st2⟩, c3, h3, h⟩ := Prog.bind_ok h
      cases o2 with
      | none => cases h
      | some us' =>
        cases h
        unfold hvccNal at h2
        rw [hvccUnitsSteps, hx]
        dsimp only
        split at h2
        · rename_i x s b hp
          cases h2
          have := hvccUnitsSteps_ok cs n _ _ _ _ _ w1 h3
          rw [hp, ← Nat.add_assoc]
          dsimp only at this ⊢
          omega
        · rename_i b hp
          cases h2
          have := hvccUnitsSteps_ok cs n _ _ _ _ _ w1 h3
          rw [hp, ← Nat.add_assoc]
          dsimp only at this ⊢
          omega
        · cases h2
    · cases h1; cases h
    · cases h1

theorem hvccArraysSteps_le (cs : Bool) : ∀ (n : Nat) (st : ParserState) (bb : BB), bb.WF → hvccArraysSteps cs n st bb ≤ 1 + 16 * bb.rem.length
  | 0, _, _, _ => Nat.zero_le _
  | n + 1, st, bb, hw => by
    rw [hvccArraysSteps]
    have h1 := parseHvccArrayHead_frugal.all bb.rem
    rw [steps_eq _ _ hw]
    split
    · rename_i head b1 hr
      have h2 := parseHvccArrayHead_frugal.ok (denote_of_run_ok hw hr)
      have hl := denote_length (denote_of_run_ok hw hr)
      have w1 := (parseHvccArrayHead_codec (H := Cond.any) (A := fun _ => False)).inverts.sound _ _ _ hw hr |>.2.1
      rw [← Nat.add_assoc]
      split
      · rename_i us st1 b2 hu
        have h3 := hvccUnitsSteps_ok cs _ _ _ _ _ _ w1 hu
        obtain ⟨_, _, _, _, w2, _⟩ := hvccUnits_sound cs _ _ _ _ _ _ w1 hu
        have := hvccArraysSteps_le cs n st1 b2 w2
        omega
      · have := hvccUnitsSteps_le cs head.numNalus st b1 w1
        omega
    · omega

/-- C68: parsing a configuration box takes at most 128 steps per byte, whatever the bytes. -/
theorem C68_configuration_box (cs : Bool) (st : ParserState) (data : List UInt8) : configurationBoxSteps cs st data ≤ 1 + 128 * data.length := by
  unfold configurationBoxSteps
  split
  · have h1 := parseHvccHeader_frugal.all (BB.init data).rem
    have hw := BB.WF.init data
    rw [steps_eq _ _ hw]
    have hb := bits_length data
    split
    · rename_i head b1 hr
      have h2 := parseHvccHeader_frugal.ok (denote_of_run_ok hw hr)
      have hl := denote_length (denote_of_run_ok hw hr)
      have w1 := (parseHvccHeader_codec (H := Cond.any) (A := fun _ => False)).inverts.sound _ _ _ hw hr |>.2.1
      have := hvccArraysSteps_le cs head.numOfArrays st b1 w1
      omega
    · omega
  · exact Nat.zero_le _

/-! ### RTP -/

theorem parseRtpSingle_within (st : ParserState) : (parseRtpSingle st).Within 14 12 :=
  ((Frugal.then (m := 8) parseNalUnitHeader_frugal) fun h => Within.bind (m2 := 0) (c2 := 0) (parseNalUnitPayload_within h.nal_unit_type st) fun _ => .pure _).mono
    (by omega) (by omega)

theorem parseRtpFu_within (st : ParserState) : (parseRtpFu st).Within 17 12 := by
  unfold parseRtpFu
  refine (Frugal.then (m := 8) parseNalUnitHeader_frugal fun _ => Frugal.then (m := 8) (.u 1) fun _ => Frugal.then (m := 8) (.u 1) fun _ =>
    Frugal.then (m := 8) (c := 13) (.u 6) fun t => ?_).mono (by omega) (by omega)
  split
  · exact .pure _
  · exact (Within.bind (m2 := 0) (c2 := 0) (parseNalUnitPayload_within t st) fun _ => .pure _).mono (by omega) (by omega)

theorem work_bind_ret {α β : Type} (p : Prog α) (f : α → β) (r : List Bool) : (p.bind fun a => Prog.ret (f a)).work r = p.work r := by
  rw [← Prog.bind_def, work_bind]
  cases p.denote r <;> simp [work]

theorem apLoop_work : ∀ fuel st r, (apLoop fuel st).work r ≤ (r.length + 1) * (14 + 16 * r.length)
  | 0, st, r => by simp [apLoop, work]
  | fuel + 1, st, r => by
    unfold apLoop
    rw [work]
    by_cases h0 : r.length = 0
    · rw [if_pos h0]; exact Nat.zero_le _
    rw [if_neg h0, ← Prog.bind_def, work_bind, work_attempt, denote_attempt]
    have hf : parseApHead.Frugal := by
      unfold parseApHead
      refine .bind (.u 16) fun _ => .bind (.remaining fun _ => .check _) fun _ => .bind parseNalUnitHeader_frugal fun _ => .pure _
    have hw := hf.all r
    have hbig : 14 + 16 * r.length ≤ (r.length + 1) * (14 + 16 * r.length) := Nat.le_mul_of_pos_left _ (by omega)
    cases h : parseApHead.denote r with
    | fail r' => simp only [work]; omega
    | bad k => simp only; omega
    | ok a r' =>
      obtain ⟨sz, hd⟩ := a
      have hok := hf.ok h
      have h1 : 1 ≤ parseApHead.work r := by
        unfold parseApHead
        rw [work_bind]
        have : 1 ≤ (Prog.u 16).work r := by
          unfold Prog.u
          rw [work]
          split
          · omega
          · split <;> omega
        omega
      have hp := parseNalUnitPayload_within hd.nal_unit_type st r'
      simp only
      rw [← Prog.bind_def, work_bind]
      have hfinal : (14 + 16 * r.length) + r.length * (14 + 16 * r.length) = (r.length + 1) * (14 + 16 * r.length) := by
        rw [Nat.add_mul, Nat.one_mul, Nat.add_comm]
      cases h2 : (parseNalUnitPayload hd.nal_unit_type st).denote r' with
      | fail r2 => simp only; omega
      | bad k => simp only; omega
      | ok b r2 =>
        have ih := apLoop_work fuel b.2 r2
        have hl := denote_length h2
        have hm : (r2.length + 1) * (14 + 16 * r2.length) ≤ r.length * (14 + 16 * r.length) := Nat.mul_le_mul (by omega) (by omega)
        simp only
        rw [work_bind_ret]
        omega

theorem parseRtpAp_work (st : ParserState) (r : List Bool) : (parseRtpAp st).work r ≤ (r.length + 2) * (14 + 16 * r.length) := by
  unfold parseRtpAp
  rw [← Prog.bind_def, work_bind, work_attempt, denote_attempt]
  have hw := parseNalUnitHeader_frugal.all r
  have hfinal : (14 + 16 * r.length) + (r.length + 1) * (14 + 16 * r.length) = (r.length + 2) * (14 + 16 * r.length) := by
    rw [show r.length + 2 = 1 + (r.length + 1) by omega, Nat.add_mul 1, Nat.one_mul]
  cases h : parseNalUnitHeader.denote r with
  | fail r' => simp only [work]; omega
  | bad k => simp only; omega
  | ok a r' =>
    have hl := denote_length h
    have ih := apLoop_work (r'.length + 1) st r'
    have hm : (r'.length + 1) * (14 + 16 * r'.length) ≤ (r.length + 1) * (14 + 16 * r.length) := Nat.mul_le_mul (by omega) (by omega)
    simp only
    rw [work, work_bind_ret]
    omega

theorem rtpStepsBB_eq (st : ParserState) (b0 b1 : UInt8) (rest : List UInt8) :
    rtpStepsBB st (BB.init (b0 :: b1 :: rest)) = parseNalUnitHeader.work (bitsOf (b0 :: b1 :: rest)) +
      if (headerOf b0 b1).nal_unit_type ≤ 47 then (parseRtpSingle st).work (bitsOf (b0 :: b1 :: rest))
      else if (headerOf b0 b1).nal_unit_type = 48 then (parseRtpAp st).work (bitsOf (b0 :: b1 :: rest))
      else if (headerOf b0 b1).nal_unit_type = 49 then (parseRtpFu st).work (bitsOf (b0 :: b1 :: rest))
      else 0 := by
  obtain ⟨bb', hr, _, hb, _⟩ := header_run b0 b1 rest
  unfold rtpStepsBB
  rw [hr]
  dsimp only
  have : ({ bb' with byteOff := 0, bitOff := 0 } : BB) = BB.init (b0 :: b1 :: rest) := by cases bb'; simp only at hb; subst hb; rfl
  rw [this, steps_eq _ _ (BB.WF.init _), steps_eq _ _ (BB.WF.init _), steps_eq _ _ (BB.WF.init _), steps_eq _ _ (BB.WF.init _), BB.rem_init]

theorem header_short_work (rbsp : List UInt8) (st : ParserState) (h2 : rbsp.length < 2) : rtpStepsBB st (BB.init rbsp) ≤ 1 + 32 * rbsp.length := by
  obtain ⟨b, hb⟩ := header_run_short rbsp h2
  unfold rtpStepsBB
  rw [hb, steps_eq _ _ (BB.WF.init _)]
  have := parseNalUnitHeader_frugal.all (BB.init rbsp).rem
  rw [bits_length] at this
  simp only
  omega

theorem unesc_first {b0 : UInt8} {tail : List UInt8} {rbsp : List UInt8} (h : unescapeRbsp (b0 :: tail) = .ok rbsp) : ∃ t, rbsp = b0 :: t := by
  rw [unescapeRbsp_eq] at h
  cases h
  match tail with
  | [] => exact ⟨[], rfl⟩
  | [b] => exact ⟨[b], rfl⟩
  | b :: c :: rest =>
    rw [unesc]
    split
    · exact ⟨_, rfl⟩
    · exact ⟨_, rfl⟩

/-- C68: an RTP packet that is not an aggregation packet (the type is in the first byte) takes a number of steps that is linear in its size. -/
theorem C68_rtp (st : ParserState) (b0 : UInt8) (tail : List UInt8) (h : b0.toNat / 2 % 64 ≠ 48) : rtpSteps st (b0 :: tail) ≤ 18 + 128 * (tail.length + 1) := by
  unfold rtpSteps
  cases hu : unescapeRbsp (b0 :: tail) with
  | error k => exact Nat.zero_le _
  | ok rbsp =>
    have hle := unesc_le hu
    obtain ⟨t, rfl⟩ := unesc_first hu
    rw [List.length_cons] at hle
    dsimp only
    split
    · cases t with
      | nil =>
        have := header_short_work [b0] st (by simp)
        simp only [List.length_cons, List.length_nil] at this
        omega
      | cons b1 rest =>
        rw [rtpStepsBB_eq]
        have h1 := parseNalUnitHeader_frugal.all (bitsOf (b0 :: b1 :: rest))
        have h2 := parseRtpSingle_within st (bitsOf (b0 :: b1 :: rest))
        have h3 := parseRtpFu_within st (bitsOf (b0 :: b1 :: rest))
        rw [bitsOf_length] at h1 h2 h3
        simp only [List.length_cons] at *
        split
        · omega
        · rw [if_neg (by simpa [headerOf] using h)]
          split <;> omega
    · exact Nat.zero_le _

/-- C68: any RTP packet takes a number of steps that is at most quadratic in its size. -/
theorem C68_rtp_any (st : ParserState) (data : List UInt8) : rtpSteps st data ≤ 16 * (8 * data.length + 3) * (8 * data.length + 3) := by
  unfold rtpSteps
  cases hu : unescapeRbsp data with
  | error k => exact Nat.zero_le _
  | ok rbsp =>
    have hle := unesc_le hu
    dsimp only
    split
    · have hm : 16 * (8 * rbsp.length + 3) * (8 * rbsp.length + 3) ≤ 16 * (8 * data.length + 3) * (8 * data.length + 3) := Nat.mul_le_mul (by omega) (by omega)
      refine Nat.le_trans ?_ hm
      match rbsp with
      | [] => have := header_short_work [] st (by simp); simp only [List.length_nil] at *; omega
      | [b0] => have := header_short_work [b0] st (by simp); simp only [List.length_cons, List.length_nil] at *; omega
      | b0 :: b1 :: rest =>
        rw [rtpStepsBB_eq]
        have h1 := parseNalUnitHeader_frugal.all (bitsOf (b0 :: b1 :: rest))
        have h2 := parseRtpSingle_within st (bitsOf (b0 :: b1 :: rest))
        have h3 := parseRtpFu_within st (bitsOf (b0 :: b1 :: rest))
        have h4 := parseRtpAp_work st (bitsOf (b0 :: b1 :: rest))
        rw [bitsOf_length] at h1 h2 h3 h4
        generalize 8 * (b0 :: b1 :: rest).length = L at *
        have h5 : (L + 2) * (14 + 16 * L) ≤ (L + 2) * (16 * (L + 3)) := Nat.mul_le_mul_left _ (by omega)
        have h6 : 16 * (L + 3) * (L + 3) = (L + 2) * (16 * (L + 3)) + 16 * (L + 3) := by
          rw [Nat.mul_comm (L + 2), ← Nat.mul_succ]
        have h7 : 2 * (16 * (L + 3)) ≤ 16 * (L + 3) * (L + 3) := by rw [Nat.mul_comm 2]; exact Nat.mul_le_mul_left _ (by omega)
        split
        · omega
        · split
          · omega
          · split <;> omega
    · exact Nat.zero_le _

/-! ### an aggregation packet of zeros -/

theorem val_zeros (n : Nat) : val (List.replicate n false) = 0 := by
  induction n with
  | zero => rfl
  | succ n ih => rw [List.replicate_succ, val_cons, ih]; simp

theorem u_zeros (n m : Nat) (h0 : 0 < n) (h32 : n ≤ 32) : (Prog.u n).denote (List.replicate (n + m) false) = .ok 0 (List.replicate m false) := by
  unfold Prog.u
  rw [denote, if_neg (by omega), if_pos ⟨h32, by rw [List.length_replicate]; omega⟩, List.take_replicate, List.drop_replicate,
    show min n (n + m) = n by omega, val_zeros, show n + m - n = m by omega]
  rfl

theorem lz_zeros (n : Nat) : lz (List.replicate n false) = n := by
  induction n with
  | zero => rfl
  | succ n ih => rw [List.replicate_succ, lz, ih]

theorem uev_zeros (n : Nat) : Prog.uev.denote (List.replicate n false) = .fail (List.replicate n false) ∧ n ≤ Prog.uev.work (List.replicate n false) := by
  have : ueSplit (List.replicate n false) = none := by
    unfold ueSplit
    rw [if_neg (by rw [lz_zeros, List.length_replicate]; omega)]
  unfold Prog.uev
  rw [denote, work, this, lz_zeros]
  exact ⟨rfl, by simp only [work]; omega⟩

theorem header_zeros (m : Nat) : parseNalUnitHeader.denote (List.replicate (16 + m) false) = .ok ⟨0, 0, 0, 0⟩ (List.replicate m false) := by
  unfold parseNalUnitHeader
  rw [denote_bind, show 16 + m = 1 + (6 + (6 + (3 + m))) by omega, u_zeros _ _ (by omega) (by omega), ARes.ok_bind, denote_bind, u_zeros _ _ (by omega) (by omega),
    ARes.ok_bind, denote_bind, u_zeros _ _ (by omega) (by omega), ARes.ok_bind, denote_bind, u_zeros _ _ (by omega) (by omega), ARes.ok_bind]
  rfl

theorem apHead_zeros (m : Nat) : parseApHead.denote (List.replicate (32 + m) false) = .ok (0, ⟨0, 0, 0, 0⟩) (List.replicate m false) := by
  unfold parseApHead
  rw [denote_bind, show 32 + m = 16 + (16 + m) by omega, u_zeros _ _ (by omega) (by omega), ARes.ok_bind, denote_bind]
  show ARes.bind ((Prog.check (0 * 8 ≤ (List.replicate (16 + m) false).length)).denote _) _ = _
  rw [Prog.check, if_pos (by omega), denote, ARes.ok_bind, denote_bind, header_zeros, ARes.ok_bind]
  rfl

theorem sliceHead_zeros (m : Nat) : (parseSliceHead 0).denote (List.replicate (1 + m) false) = .fail (List.replicate m false) ∧
    m ≤ (parseSliceHead 0).work (List.replicate (1 + m) false) := by
  obtain ⟨h1, h2⟩ := uev_zeros m
  unfold parseSliceHead
  have ho : (Prog.opt (16 ≤ 0 ∧ 0 ≤ 23) (Prog.u 1) 0) = Prog.ret 0 := rfl
  refine ⟨?_, ?_⟩
  · rw [denote_bind, u_zeros _ _ (by omega) (by omega), ARes.ok_bind, denote_bind, ho, denote, ARes.ok_bind, denote_bind, h1]
    rfl
  · rw [work_bind, u_zeros _ _ (by omega) (by omega)]
    simp only
    rw [work_bind, ho]
    simp only [denote]
    rw [work_bind, h1]
    simp only
    omega

theorem payload_zeros (st : ParserState) (m : Nat) : (parseNalUnitPayload 0 st).denote (List.replicate (1 + m) false) = .ok ({}, st) (List.replicate m false) ∧
    m ≤ (parseNalUnitPayload 0 st).work (List.replicate (1 + m) false) := by
  obtain ⟨h1, h2⟩ := sliceHead_zeros m
  have h3 : (parseSliceSegmentLayer 0 st.pps st.sps).denote (List.replicate (1 + m) false) = .fail (List.replicate m false) := by
    unfold parseSliceSegmentLayer parseSliceSegmentHeader
    rw [denote_bind, h1]
    rfl
  have h4 : m ≤ (parseSliceSegmentLayer 0 st.pps st.sps).work (List.replicate (1 + m) false) := by
    unfold parseSliceSegmentLayer parseSliceSegmentHeader
    rw [work_bind, h1]
    simp only
    omega
  unfold parseNalUnitPayload
  rw [if_pos (by omega)]
  refine ⟨?_, ?_⟩
  · rw [← Prog.bind_def, denote_bind, denote_attempt, h3]
    rfl
  · rw [work_bind_ret, work_attempt]
    exact h4

theorem apLoop_zeros (st : ParserState) : ∀ fuel n, n < fuel → n * n ≤ 66 * (apLoop fuel st).work (List.replicate n false) + 33 * n
  | 0, _, h => absurd h (by omega)
  | fuel + 1, n, h => by
    by_cases hn : n < 33
    · have := Nat.mul_le_mul_right n (show n ≤ 33 by omega)
      omega
    · obtain ⟨m, rfl⟩ : ∃ m, n = 33 + m := ⟨n - 33, by omega⟩
      have ih := apLoop_zeros st fuel m (by omega)
      obtain ⟨h1, h2⟩ := payload_zeros st m
      have hstep : m + (apLoop fuel st).work (List.replicate m false) ≤ (apLoop (fuel + 1) st).work (List.replicate (33 + m) false) := by
        rw [apLoop, work, List.length_replicate, if_neg (by omega), ← Prog.bind_def, work_bind, denote_attempt, show 33 + m = 32 + (1 + m) by omega, apHead_zeros]
        simp only
        rw [← Prog.bind_def, work_bind, h1]
        simp only
        rw [work_bind_ret]
        omega
      have e : (33 + m) * (33 + m) = m * m + 66 * m + 1089 := by
        rw [Nat.add_mul, Nat.mul_add, Nat.mul_add]; omega
      omega

/-- C68: the bound for aggregation packets is not linear: a packet of the two header bytes of an aggregation packet and `n` zero bytes takes about `n * n` steps.
Every four zero bytes and a bit are taken for an empty NAL unit with a slice segment, whose PPS id is sought for to the end of the packet. -/
theorem C68_aggregation_packet_is_quadratic (st : ParserState) (n : Nat) (h9 : 9 ≤ n) (hn : n + 2 < 2 ^ 32) :
    n * n ≤ 2 * rtpSteps st ([0x60, 0x01] ++ List.replicate n 0) := by
  have hz : ∀ k, unesc (List.replicate k 0) = List.replicate k 0 := by
    intro k
    induction k with
    | zero => rfl
    | succ k ih =>
      rw [List.replicate_succ, unesc_cons, ih]
      rintro ⟨rest, hr⟩
      rw [← List.replicate_succ] at hr
      have : (3 : UInt8) ∈ List.replicate (k + 1) 0 := by rw [hr]; simp
      exact absurd (List.eq_of_mem_replicate this) (by decide)
  have hu : unescapeRbsp ([0x60, 0x01] ++ List.replicate n 0) = .ok (0x60 :: 0x01 :: List.replicate n 0) := by
    rw [unescapeRbsp_eq, List.cons_append, List.cons_append, List.nil_append, unesc_nz (by decide), unesc_nz (by decide), hz]
  unfold rtpSteps
  rw [hu]
  dsimp only
  rw [if_pos (by simp only [List.length_cons, List.length_replicate]; omega), rtpStepsBB_eq, if_neg (by decide), if_pos (by decide)]
  have hbits : bitsOf (List.replicate n (0 : UInt8)) = List.replicate (8 * n) false := by
    clear h9 hn hu
    induction n with
    | zero => rfl
    | succ k ih =>
      rw [List.replicate_succ, bitsOf_cons, ih, show byteBits 0 = List.replicate 8 false by decide, List.replicate_append_replicate, Nat.mul_succ, Nat.add_comm]
  have hd : parseNalUnitHeader.denote (bitsOf (0x60 :: 0x01 :: List.replicate n 0)) = .ok (headerOf 0x60 0x01) (List.replicate (8 * n) false) := by
    obtain ⟨bb', h1, h2, _, h4⟩ := header_run 0x60 0x01 (List.replicate n 0)
    have := denote_of_run_ok (BB.WF.init _) h1
    rw [BB.rem_init, h4, hbits] at this
    exact this
  have hap : (apLoop (8 * n + 1) st).work (List.replicate (8 * n) false) ≤ (parseRtpAp st).work (bitsOf (0x60 :: 0x01 :: List.replicate n 0)) := by
    unfold parseRtpAp
    rw [← Prog.bind_def, work_bind, denote_attempt, hd]
    simp only
    rw [work, List.length_replicate, work_bind_ret]
    omega
  have hq := apLoop_zeros st (8 * n + 1) (8 * n) (by omega)
  have e : 8 * n * (8 * n) = 64 * (n * n) := by rw [Nat.mul_assoc, Nat.mul_left_comm n, ← Nat.mul_assoc]
  have h9' : 9 * n ≤ n * n := Nat.mul_le_mul_right n h9
  omega

/-- the bound is met by a packet that can be sent: the largest UDP payload takes more than two billion steps -/
theorem C68_ap_example (st : ParserState) : 2 * 10 ^ 9 ≤ rtpSteps st ([0x60, 0x01] ++ List.replicate 65000 0) := by
  have := C68_aggregation_packet_is_quadratic st 65000 (by omega) (by omega)
  omega

/-- the steps of a VPS of 23 bytes and an SPS of 39 bytes, alone, in a byte stream and in an RTP packet, and of an aggregation packet with 100 zero bytes -/
example : nalUnitSteps .empty apVps = 66 ∧ nalUnitSteps .empty apSps = 158 ∧ bitstreamSteps false .empty ([0, 0, 1] ++ apVps ++ [0, 0, 1] ++ apSps) = 66 + 158 ∧
    bitstreamNaluLengthSteps false 2 .empty (lengthPrefixed 2 [apVps, apSps]) = 66 + 158 ∧ rtpSteps .empty apVps = 4 + 66 ∧
    rtpSteps .empty ([0x60, 0x01] ++ List.replicate 100 0) = 9477 := by decide +kernel

end H265
