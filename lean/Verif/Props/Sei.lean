/- C40: SEI messages. -/
import Verif.Proof.Sei
import Verif.Proof.Run
import Verif.Proof.Lossless
import Verif.Props.Rbsp

namespace H265
open Spec

/-- A decomposition of the input into the two ff-coded numbers and the rest is unique, and the SEI parser is the payload parser on the rest. -/
theorem parseSei_denote {t s : Nat} (ht : t < 2 ^ 32) (hs : s < 2 ^ 32) (rest : List Bool) :
    parseSei.denote (ffCoded t ++ (ffCoded s ++ rest)) = ((parseSeiPayload t s).attempt.denote rest).bind fun p r => .ok ⟨t, s, p⟩ r := by
  unfold parseSei
  rw [Prog.denote_bind, (ffCodedNumber_codec (H := Cond.any) (A := fun _ => False)).complete t ht, ARes.ok_bind,
    Prog.denote_bind, (ffCodedNumber_codec (H := Cond.any) (A := fun _ => False)).complete s hs, ARes.ok_bind, Prog.denote_bind]
  rfl

theorem parseSei_split (r : List Bool) :
    (∃ t s rest, t < 2 ^ 32 ∧ s < 2 ^ 32 ∧ r = ffCoded t ++ (ffCoded s ++ rest)) ∨ ∃ r', parseSei.denote r = .fail r' := by
  have h1 := (ffCodedNumber_codec (H := Cond.any) (A := fun _ => False)).sound r
  unfold parseSei
  rw [Prog.denote_bind]
  revert h1
  cases ffCodedNumber.denote r with
  | fail r' => intro _; exact .inr ⟨r', rfl⟩
  | bad k => intro h; exact h.elim
  | ok t r1 =>
    rintro ⟨w, hw, _, rfl, ht⟩
    have hw := hw trivial
    have h2 := (ffCodedNumber_codec (H := Cond.any) (A := fun _ => False)).sound r1
    rw [ARes.ok_bind, Prog.denote_bind]
    revert h2
    cases ffCodedNumber.denote r1 with
    | fail r' => intro _; exact .inr ⟨r', rfl⟩
    | bad k => intro h; exact h.elim
    | ok s r2 =>
      rintro ⟨w, hw2, _, rfl, hs⟩
      exact .inl ⟨t, s, r2, ht, hs, by rw [hw, hw2 trivial]⟩

/-- C40 (framing): the message is rejected exactly when payload_type and payload_size cannot be read as ff-coded 32-bit numbers. -/
theorem C40_sei_rejects {bb : BB} (hwf : bb.WF) :
    (∃ bb', parseSei.run bb = .fail bb') ↔ ¬ ∃ t s rest, t < 2 ^ 32 ∧ s < 2 ^ 32 ∧ bb.rem = ffCoded t ++ ffCoded s ++ rest := by
  have hag := Prog.run_agrees parseSei bb hwf
  constructor
  · rintro ⟨bb', hr⟩ ⟨t, s, rest, ht, hs, hb⟩
    rw [hr, hb, List.append_assoc, parseSei_denote ht hs, Prog.denote_attempt] at hag
    revert hag
    cases (parseSeiPayload t s).denote rest <;> exact fun h => h
  · intro hn
    rcases parseSei_split bb.rem with ⟨t, s, rest, ht, hs, hb⟩ | ⟨r', hd⟩
    · exact absurd ⟨t, s, rest, ht, hs, by rw [hb, List.append_assoc]⟩ hn
    · rw [hd] at hag
      revert hag
      cases parseSei.run bb with
      | ok a b => exact fun h => h.elim
      | fail b => exact fun _ => ⟨b, rfl⟩
      | bad k => exact fun h => h.elim

/-- C40 (meaning of a result): the input starts with the ff-coded payload_type and payload_size that are reported.  If a payload is reported, it is
of the kind that belongs to payload_type, is well formed, and is what the following bits say.  If none is reported, the following
bits do not start with any well-formed payload of that type and size. -/
theorem C40_sei_sound {bb bb' : BB} {m : SeiMessage} (hwf : bb.WF) (hr : parseSei.run bb = .ok m bb') :
    m.payload_type < 2 ^ 32 ∧ m.payload_size < 2 ^ 32 ∧ bb'.WF ∧ bb'.bytes = bb.bytes ∧
    ∃ rest, bb.rem = ffCoded m.payload_type ++ ffCoded m.payload_size ++ rest ∧
      match m.payload_state with
      | some p => ValidSeiPayload m.payload_type m.payload_size p ∧
          ((m.payload_type = 142 → (parseSeiPayload m.payload_type m.payload_size).NoAlias rest) → rest = seiPayload p ++ bb'.rem)
      | none => bb'.rem <:+ rest ∧ ∀ p, ValidSeiPayload m.payload_type m.payload_size p → ¬ seiPayload p <+: rest := by
  have hag := Prog.run_agrees parseSei bb hwf
  have hd := denote_of_run_ok hwf hr
  rcases parseSei_split bb.rem with ⟨t, s, rest, ht, hs, hb⟩ | ⟨r', hd'⟩
  · rw [hr, hb, parseSei_denote ht hs, Prog.denote_attempt] at hag
    rw [hb, parseSei_denote ht hs, Prog.denote_attempt] at hd
    cases hp : (parseSeiPayload t s).denote rest with
    | bad k => rw [hp] at hd; cases hd
    | ok p r' =>
      rw [hp] at hd hag
      simp only [ARes.ok_bind] at hd hag
      obtain ⟨rfl, hw', hbytes, hrem⟩ := hag
      refine ⟨ht, hs, hw', hbytes, rest, by rw [hb, List.append_assoc], ?_⟩
      have hval : ∀ {H : Cond} [CondOk H], (t = 142 → SeOk H) → ValidSeiPayload t s p ∧ (H _ (parseSeiPayload t s) rest → rest = seiPayload p ++ bb'.rem) := by
        intro H _ hH
        have := (parseSeiPayload_codec (H := H) (A := fun k => k = .signedOverflow) (ty := t) (sz := s) (fun h => ⟨hH h, inferInstance⟩)).sound rest
        rw [hp] at this
        obtain ⟨w, h1, _, h2, h3⟩ := this
        exact ⟨h3, fun h => by rw [← h2, hrem]; exact h1 h⟩
      by_cases h142 : t = 142
      · obtain ⟨h1, h2⟩ := hval (H := Cond.canon) (fun _ => inferInstance)
        exact ⟨h1, fun h => h2 (h h142)⟩
      · obtain ⟨h1, h2⟩ := hval (H := Cond.any) (fun h => absurd h h142)
        exact ⟨h1, fun _ => h2 trivial⟩
    | fail r' =>
      rw [hp] at hd hag
      simp only [ARes.ok_bind] at hd hag
      obtain ⟨rfl, hw', hbytes, hrem⟩ := hag
      refine ⟨ht, hs, hw', hbytes, rest, by rw [hb, List.append_assoc], ?_, ?_⟩
      · have := Prog.denote_forward (parseSeiPayload t s) rest
        rw [hp] at this
        rw [hrem]; exact this
      · rintro p hv ⟨x, hx⟩
        have := (parseSeiPayload_codec (H := Cond.canon) (A := fun k => k = .signedOverflow) (ty := t) (sz := s) (fun _ => ⟨inferInstance, inferInstance⟩)).complete p hv x
        rw [hx, hp] at this
        cases this
  · rw [hd] at hd'; cases hd'

/-- C40 (completeness): every well-formed message is returned as it was sent. -/
theorem C40_sei_accepts {bb : BB} {t s : Nat} {p : SeiPayload} {rest : List Bool} (hwf : bb.WF) (ht : t < 2 ^ 32) (hs : s < 2 ^ 32)
    (hv : ValidSeiPayload t s p) (hb : bb.rem = ffCoded t ++ ffCoded s ++ seiPayload p ++ rest) :
    ∃ bb', parseSei.run bb = .ok ⟨t, s, some p⟩ bb' ∧ bb'.WF ∧ bb'.bytes = bb.bytes ∧ bb'.rem = rest := by
  refine run_of_denote_ok hwf ?_
  rw [hb, List.append_assoc, List.append_assoc, parseSei_denote ht hs, Prog.denote_attempt,
    (parseSeiPayload_codec (H := Cond.canon) (A := fun k => k = .signedOverflow) (ty := t) (sz := s) (fun _ => ⟨inferInstance, inferInstance⟩)).complete p hv rest]
  rfl

/-- C40 (safety): the only undefined behaviour reachable is the signed overflow of se(v), and only in a colour_remapping_info message. -/
theorem C40_sei_safe {bb : BB} {k : Bad} (hwf : bb.WF) (hr : parseSei.run bb = .bad k) :
    k = .signedOverflow ∧ ∃ s rest, bb.rem = ffCoded 142 ++ ffCoded s ++ rest := by
  have hag := Prog.run_agrees parseSei bb hwf
  rw [hr] at hag
  rcases parseSei_split bb.rem with ⟨t, s, rest, ht, hs, hb⟩ | ⟨r', hd'⟩
  · rw [hb, parseSei_denote ht hs, Prog.denote_attempt] at hag
    by_cases h142 : t = 142
    · have := (parseSeiPayload_codec (H := Cond.canon) (A := fun k => k = .signedOverflow) (ty := t) (sz := s) (fun _ => ⟨inferInstance, inferInstance⟩)).sound rest
      revert hag this
      cases (parseSeiPayload t s).denote rest with
      | ok a r => exact fun h => h.elim
      | fail r => exact fun h => h.elim
      | bad k' =>
        intro h hk
        simp only [ARes.bind, Prog.Agrees] at h
        exact ⟨by rw [← h]; exact hk, s, rest, by rw [hb, h142, List.append_assoc]⟩
    · have := (parseSeiPayload_codec (H := Cond.any) (A := fun _ => False) (ty := t) (sz := s) (fun h => absurd h h142)).sound rest
      revert hag this
      cases (parseSeiPayload t s).denote rest with
      | ok a r => exact fun h => h.elim
      | fail r => exact fun h => h.elim
      | bad k' => exact fun _ h => h.elim
  · rw [hd'] at hag; exact hag.elim

theorem ffCoded_length (n : Nat) : (ffCoded n).length = 8 * (n / 255 + 1) := by
  simp [ffCoded]; omega

/-- C40 (memory): the announced payload size, which bounds what is allocated before the payload is read, is at most 255 times the number of bytes
the size itself takes in the input. -/
theorem C40_sei_alloc {bb bb' : BB} {m : SeiMessage} (hwf : bb.WF) (hr : parseSei.run bb = .ok m bb') :
    m.payload_size < 255 * bb.bytes.length := by
  obtain ⟨_, _, _, _, rest, hb, _⟩ := C40_sei_sound hwf hr
  have h1 : bb.rem.length ≤ 8 * bb.bytes.length := by
    simp [BB.rem]
  rw [hb] at h1
  simp only [List.length_append, ffCoded_length] at h1
  omega

/-- the payload size agrees with the number of bytes of a payload that is kept as bytes (plus its identification), and the kind of payload
is that of the payload type -/
def SizeMatches (t s : Nat) : SeiPayload → Prop
  | .userDataRegistered d => t = 4 ∧ s = (if d.itu_t_t35_country_code = 255 then 2 else 1) + d.payload.length
  | .userDataUnregistered d => t = 5 ∧ s = 16 + d.payload.length
  | .unknown d => t ∉ [4, 5, 137, 144, 141, 142, 149, 147, 148, 165] ∧ s = d.payload.length
  | _ => t ∈ [137, 144, 141, 142, 149, 147, 148, 165]

/-- C40 (raw payloads): a payload kept as bytes has exactly payload_size bytes, counting the identification in front of it. -/
theorem C40_sei_raw_size {bb bb' : BB} {t s : Nat} {p : SeiPayload} (hwf : bb.WF) (hr : parseSei.run bb = .ok ⟨t, s, some p⟩ bb') :
    SizeMatches t s p := by
  obtain ⟨_, _, _, _, rest, _, hv, _⟩ := C40_sei_sound hwf hr
  cases p with
  | userDataRegistered d =>
    refine ⟨hv.1, ?_⟩
    have h1 := hv.2.payload.length
    have h2 := hv.2.size_nonzero
    have h3 := hv.2.size_extension
    simp only at *
    rw [h1]
    split
    · have := h3 (by assumption); omega
    · omega
  | userDataUnregistered d =>
    refine ⟨hv.1, ?_⟩
    have h1 := hv.2.payload.length
    have h2 := hv.2.size_uuid
    simp only at *
    omega
  | unknown d => exact ⟨hv.1, hv.2.payload.length.symm⟩
  | _ => have hv := hv.1; simp only at hv; rw [hv]; simp [SizeMatches]

/-- the bytes of an ff-coded number -/
def ffBytes (n : Nat) : List UInt8 := List.replicate (n / 255) 0xff ++ [UInt8.ofNat (n % 255)]

theorem bitsOf_replicate (k : Nat) (b : UInt8) : bitsOf (List.replicate k b) = (List.replicate k (byteBits b)).flatten := by
  induction k with
  | zero => rfl
  | succ k ih => rw [List.replicate_succ, bitsOf_cons, ih, List.replicate_succ, List.flatten_cons]

theorem bitsOf_ffBytes (n : Nat) : bitsOf (ffBytes n) = ffCoded n := by
  rw [ffBytes, bitsOf_append, bitsOf_replicate, ffCoded, bitsOf_cons, bitsOf_nil, List.append_nil]
  have h : (UInt8.ofNat (n % 255)).toNat = n % 255 := by
    rw [UInt8.toNat_ofNat']; omega
  unfold byteBits
  rw [h]; rfl

theorem list_u8 (bs : List UInt8) : Spec.list (u 8) (bs.map UInt8.toNat) = bitsOf bs := by
  induction bs with
  | nil => rfl
  | cons b bs ih => rw [List.map_cons, bitsOf_cons, ← ih]; rfl

/-- C40: a message of a kind without its own parser returns exactly its payload bytes and leaves what follows. -/
theorem C40_sei_unknown_bytes {t : Nat} {payload rest : List UInt8} (ht : t < 2 ^ 32) (hs : payload.length < 2 ^ 32) (h0 : payload ≠ [])
    (hk : t ∉ [4, 5, 137, 144, 141, 142, 149, 147, 148, 165])
    (hlen : (ffBytes t ++ ffBytes payload.length ++ payload ++ rest).length ≤ 2 ^ 32 - 1) :
    ∃ bb', parseSei.runBytes (ffBytes t ++ ffBytes payload.length ++ payload ++ rest) =
      .ok ⟨t, payload.length, some (.unknown ⟨payload.map UInt8.toNat⟩)⟩ bb' ∧ bb'.rem = bitsOf rest := by
  unfold Prog.runBytes
  rw [if_pos hlen]
  have hv : ValidSeiPayload t payload.length (.unknown ⟨payload.map UInt8.toNat⟩) := by
    refine ⟨hk, ?_, ?_⟩
    · intro h; exact h0 (List.length_eq_zero_iff.mp h)
    · refine ⟨by simp, ?_⟩
      intro x hx
      obtain ⟨b, _, rfl⟩ := List.mem_map.mp hx
      exact UInt8.toNat_lt b
  obtain ⟨bb', h1, _, _, h4⟩ := C40_sei_accepts (bb := BB.init (ffBytes t ++ ffBytes payload.length ++ payload ++ rest)) (rest := bitsOf rest) (BB.WF.init _) ht hs hv
    (by simp [bitsOf_ffBytes, seiPayload, seiUnknown, list_u8, Spec.seq])
  exact ⟨bb', h1, h4⟩

/-- the test message of h265_sei_parser_unittest.cc:52-58 (user_data_unregistered) -/
def testSei : List UInt8 := [0x05, 0x38, 0x2c, 0xa2, 0xde, 0x09, 0xb5, 0x17, 0x47, 0xdb, 0xbb, 0x55, 0xa4, 0xfe, 0x7f, 0xc2, 0xfc, 0x4e,
  0x78, 0x32, 0x36, 0x35, 0x20, 0x28, 0x62, 0x75, 0x69, 0x6c, 0x64, 0x20, 0x33, 0x31, 0x29, 0x20, 0x2d, 0x20, 0x31, 0x2e, 0x33, 0x2b, 0x32,
  0x30, 0x2d, 0x36, 0x65, 0x36, 0x37, 0x35, 0x36, 0x66, 0x39, 0x34, 0x62, 0x32, 0x37, 0x3a, 0x5b, 0x57, 0x69]

/-- hypotheses met: the values of the unit test -/
example : ((parseSei.parseEscaped testSei).val?.map fun m => (m.payload_type, m.payload_size, match m.payload_state with
    | some (.userDataUnregistered d) => (d.uuid_iso_iec_11578_1, d.uuid_iso_iec_11578_2, d.payload.length) | _ => (0, 0, 0))) =
    some (5, 56, 0x2ca2de09b51747db, 0xbb55a4fe7fc2fc4e, 40) := by decide +kernel

/-- an alpha_channel_info message, h265_sei_parser_unittest.cc:78 -/
example : ((parseSei.parseEscaped [0xa5, 0x04, 0x00, 0x00, 0x7f, 0x90, 0x80]).val?.map fun m => match m.payload_state with
    | some (.alphaChannelInfo d) => (d.alpha_channel_cancel_flag, d.alpha_transparent_value, d.alpha_opaque_value, d.alpha_channel_incr_flag) | _ => (9, 9, 9, 9)) =
    some (0, 0, 255, 0) := by decide +kernel

/-- a payload that cannot be parsed leaves the payload null -/
example : (parseSei.runBytes [0x05, 0x02, 0x00, 0x00]).val?.map (·.payload_state) = some none := by decide +kernel

/-- a payload_type of more than 254 -/
example : (parseSei.runBytes [0xff, 0x01, 0x02, 0xaa, 0xbb, 0x80]).val? = some ⟨256, 2, some (.unknown ⟨[0xaa, 0xbb]⟩)⟩ := by decide +kernel

end H265
