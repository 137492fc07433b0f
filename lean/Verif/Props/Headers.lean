/-
C19 (NAL unit header), AUD, C32 (profile_tier_level).
-/
import Verif.Proof.Headers
import Verif.Proof.FixedLen
import Verif.Proof.Lossless
import Verif.Props.Rbsp

namespace H265
open Spec

/-! ### C19 -/

/-- C19: header decoding inverts the syntax f(1) u(6) u(6) u(3) and never misbehaves. -/
theorem C19_header_inverts : Inverts parseNalUnitHeader Spec.nalUnitHeader ValidNalUnitHeader :=
  parseNalUnitHeader_codec.inverts

/-- C19: it succeeds exactly when 16 bits are left, and consumes exactly these. -/
theorem C19_header_total {bb : BB} (h : bb.WF) :
    (∃ x bb', parseNalUnitHeader.run bb = .ok x bb' ∧ bb'.remaining + 16 = bb.remaining) ↔ 16 ≤ bb.remaining := by
  have hi := C19_header_inverts
  constructor
  · rintro ⟨x, bb', hr, h2⟩; omega
  · intro hlen
    rw [BB.remaining_eq h] at hlen
    -- the fields of the next 16 bits
    let r := bb.rem
    have e : r = Spec.u 1 (val (r.take 1)) ++ (Spec.u 6 (val ((r.drop 1).take 6)) ++ (Spec.u 6 (val ((r.drop 7).take 6)) ++
        (Spec.u 3 (val ((r.drop 13).take 3)) ++ r.drop 16))) := by
      have tk : ∀ k n, k + n ≤ r.length → r.drop k = Spec.u n (val ((r.drop k).take n)) ++ r.drop (k + n) := by
        intro k n hkn
        have hl : ((r.drop k).take n).length = n := by rw [List.length_take, List.length_drop]; omega
        have := u_val ((r.drop k).take n)
        rw [hl] at this
        rw [this]
        rw [← List.drop_drop]; exact (List.take_append_drop n (r.drop k)).symm
      have h16 : 16 ≤ r.length := hlen
      have t0 := tk 0 1 (by omega)
      have t1 := tk 1 6 (by omega)
      have t2 := tk 7 6 (by omega)
      have t3 := tk 13 3 (by omega)
      simp only [List.drop_zero] at t0
      simp only [Nat.reduceAdd] at t0 t1 t2 t3
      rw [← t3, ← t2, ← t1]; exact t0
    have vlt : ∀ k n, val ((r.drop k).take n) < 2 ^ n := by
      intro k n
      refine Nat.lt_of_lt_of_le (val_lt _) (Nat.pow_le_pow_right (by decide) ?_)
      exact List.length_take_le _ _
    obtain ⟨bb', h1, h2, h3, h4⟩ := hi.complete bb ⟨val (r.take 1), val ((r.drop 1).take 6), val ((r.drop 7).take 6), val ((r.drop 13).take 3)⟩
      (r.drop 16) h ⟨vlt 0 1, vlt 1 6, vlt 7 6, vlt 13 3⟩ (by simpa [Spec.nalUnitHeader, Spec.seq] using e)
    refine ⟨_, bb', h1, ?_⟩
    rw [BB.remaining_eq h, BB.remaining_eq h2, h4, List.length_drop]
    have : 16 ≤ r.length := hlen
    show r.length - 16 + 16 = r.length
    omega

/-- the bits of the first two bytes -/
theorem header_bits (b0 b1 : UInt8) : byteBits b0 ++ byteBits b1 = Spec.nalUnitHeader ⟨b0.toNat / 128, b0.toNat / 2 % 64, b0.toNat % 2 * 32 + b1.toNat / 8, b1.toNat % 8⟩ := by
  have h0 : b0.toNat < 256 := UInt8.toNat_lt b0
  have h1 : b1.toNat < 256 := UInt8.toNat_lt b1
  simp only [byteBits_eq_u, Spec.nalUnitHeader, Spec.seq, List.flatten_cons, List.flatten_nil, List.append_nil]
  apply val_inj
  · simp
  · simp only [val_append, val_u, u_length, List.length_append]
    have e1 : b0.toNat / 128 % 2 ^ 1 = b0.toNat / 128 := Nat.mod_eq_of_lt (by omega)
    omega

/-- C19: the header of a buffer, byte by byte (Table in clause 7.3.1.2), and `GetNalUnitType` agrees. -/
theorem C19_header_bytes (b0 b1 : UInt8) (rest : List UInt8) (hlen : rest.length + 2 ≤ 2 ^ 32 - 1) :
    (∃ bb', parseNalUnitHeader.runBytes (b0 :: b1 :: rest) =
      .ok ⟨b0.toNat / 128, b0.toNat / 2 % 64, b0.toNat % 2 * 32 + b1.toNat / 8, b1.toNat % 8⟩ bb') ∧
    getNalUnitType (b0 :: b1 :: rest) = .ok (some (b0.toNat / 2 % 64)) := by
  have hb := header_bits
  have h0 : b0.toNat < 256 := UInt8.toNat_lt b0
  have h1 : b1.toNat < 256 := UInt8.toNat_lt b1
  obtain ⟨bb', hr, _⟩ := C19_header_inverts.complete (BB.init (b0 :: b1 :: rest))
    ⟨b0.toNat / 128, b0.toNat / 2 % 64, b0.toNat % 2 * 32 + b1.toNat / 8, b1.toNat % 8⟩ (bitsOf rest) (BB.WF.init _)
    ⟨by simp only; omega, by simp only; omega, by simp only; omega, by simp only; omega⟩
    (by rw [BB.rem_init, bitsOf_cons, bitsOf_cons, ← List.append_assoc, hb])
  have hrb : parseNalUnitHeader.runBytes (b0 :: b1 :: rest) = parseNalUnitHeader.run (BB.init (b0 :: b1 :: rest)) := by
    unfold Prog.runBytes; rw [if_pos (by simpa using hlen)]
  refine ⟨⟨bb', by rw [hrb, hr]⟩, ?_⟩
  unfold getNalUnitType
  rw [hrb, hr]

/-- C19: a buffer of fewer than two bytes has no header. -/
theorem C19_header_short (data : List UInt8) (h : data.length < 2) : getNalUnitType data = .ok none := by
  have hrb : parseNalUnitHeader.runBytes data = parseNalUnitHeader.run (BB.init data) := by
    unfold Prog.runBytes; rw [if_pos (by omega)]
  unfold getNalUnitType
  rw [hrb]
  cases hr : parseNalUnitHeader.run (BB.init data) with
  | bad k => exact absurd hr (C19_header_inverts.safe _ _ (BB.WF.init _))
  | fail b => rfl
  | ok x bb' =>
    exfalso
    obtain ⟨_, _, _, h4⟩ := C19_header_inverts.sound _ _ _ (BB.WF.init _) hr
    have := congrArg List.length h4
    simp [Spec.nalUnitHeader, Spec.seq] at this
    omega

-- an SPS header `42 01`
example : parseNalUnitHeader.runBytes [0x42, 0x01, 0x01] = .ok ⟨0, 33, 0, 1⟩ ⟨[0x42, 0x01, 0x01], 2, 0⟩ := by decide +kernel
example : ValidNalUnitHeader ⟨0, 33, 0, 1⟩ := by constructor <;> decide

/-! ### access unit delimiter -/

theorem trailing_total (r : List Bool) : ∃ b r', Prog.rbspTrailingBits.denote r = .ok b r' := by
  obtain ⟨h1, h2⟩ := trailingBits_denote r
  by_cases h : ∃ k rest, k ≤ 7 ∧ rest.length % 8 = 0 ∧ r = true :: List.replicate k false ++ rest
  · obtain ⟨k, rest, a, b, c⟩ := h
    exact ⟨true, rest, h1 k rest a b c⟩
  · obtain ⟨r', h⟩ := h2 h; exact ⟨false, r', h⟩

/-- The AUD parser returns pic_type for every input of at least 3 bits and never misbehaves,
whatever the trailing bits are. -/
theorem C19_aud {bb : BB} (h : bb.WF) :
    (∃ bb', parseAud.run bb = .ok ⟨val (bb.rem.take 3)⟩ bb' ∧ 3 ≤ bb.rem.length) ∨
    (∃ bb', parseAud.run bb = .fail bb' ∧ bb.rem.length < 3) := by
  have hag := Prog.run_agrees parseAud bb h
  by_cases h3 : 3 ≤ bb.rem.length
  · left
    obtain ⟨b, r', ht⟩ := trailing_total (bb.rem.drop 3)
    have hd : parseAud.denote bb.rem = .ok ⟨val (bb.rem.take 3)⟩ r' := by
      unfold parseAud
      rw [Prog.denote_bind, Prog.denote_u (by decide), if_pos ⟨by decide, h3⟩, ARes.ok_bind, Prog.denote_bind, ht]; rfl
    obtain ⟨bb', h1, _⟩ := run_of_denote_ok h hd
    exact ⟨bb', h1, h3⟩
  · right
    have hd : parseAud.denote bb.rem = .fail bb.rem := by
      unfold parseAud
      rw [Prog.denote_bind, Prog.denote_u (by decide), if_neg (by omega)]; rfl
    rw [hd] at hag
    cases hr : parseAud.run bb with
    | ok a bb' => rw [hr] at hag; exact hag.elim
    | fail b => exact ⟨b, rfl, by omega⟩
    | bad k => rw [hr] at hag; exact hag.elim

example : parseAud.runBytes [0x50] = .ok ⟨2⟩ ⟨[0x50], 1, 0⟩ := by decide +kernel

/-! ### C32 -/

/-- C32: profile information is parsed losslessly; the reported profile type is the one of the
Annex A tables (`ValidProfileInfo.profile_type`). -/
theorem C32_profile_info_inverts : Inverts parseProfileInfo Spec.profileInfo ValidProfileInfo :=
  parseProfileInfo_codec.inverts

theorem profileInfo_length {p : ProfileInfo} (h : ValidProfileInfo p) : (Spec.profileInfo p).length = 88 := by
  have hl : (list (u 1) p.profile_compatibility_flag).length = 32 := by
    have : ∀ l : List Nat, (list (u 1) l).length = l.length := by
      intro l
      induction l with
      | nil => rfl
      | cons a l ih => simp [Spec.list] at *; omega
    rw [this, h.profile_compatibility_flag.length]
  have hc : (profileConstraints p.profile_idc p.profile_compatibility_flag p.constraints).length = 43 := by
    unfold profileConstraints
    split
    · by_cases h5 : compatAny p.profile_idc p.profile_compatibility_flag [5, 9, 10, 11] <;>
        simp [Spec.seq, Spec.cond, h5]
    · split <;> simp [Spec.seq]
  by_cases h1 : compatAny p.profile_idc p.profile_compatibility_flag [1, 2, 3, 4, 5, 9, 11] <;>
    simp [Spec.profileInfo, Spec.seq, hl, hc, Spec.cond, h1]

/-- C32: whatever the profile, exactly 88 bits are consumed. -/
theorem C32_profile_info_88_bits {bb bb' : BB} {p : ProfileInfo} (h : bb.WF) (hr : parseProfileInfo.run bb = .ok p bb') :
    bb'.remaining + 88 = bb.remaining := by
  obtain ⟨hv, h1, h2, h3⟩ := C32_profile_info_inverts.sound bb bb' p h hr
  rw [BB.remaining_eq h, BB.remaining_eq h1, h3, List.length_append, profileInfo_length hv]; omega

/-- C32: every 88 bits are a profile; fewer are rejected. -/
theorem C32_profile_info_total {bb : BB} (h : bb.WF) :
    (∃ p bb', parseProfileInfo.run bb = .ok p bb') ↔ 88 ≤ bb.remaining := by
  constructor
  · rintro ⟨p, bb', hr⟩
    have := C32_profile_info_88_bits h hr
    omega
  · intro hl
    rw [BB.remaining_eq h] at hl
    obtain ⟨a, r', hd, _⟩ := parseProfileInfo_fixed bb.rem hl
    obtain ⟨bb', h1, _⟩ := run_of_denote_ok h hd
    exact ⟨a, bb', h1⟩

/-- C32: the profile type reported is the Annex A one; a non-zero profile space is UNSPECIFIED. -/
theorem C32_profile_type {bb bb' : BB} {p : ProfileInfo} (h : bb.WF) (hr : parseProfileInfo.run bb = .ok p bb') :
    p.profile_type = Spec.profileType p.profile_space p.profile_idc p.constraints ∧
    (p.profile_space ≠ 0 → p.profile_type = .UNSPECIFIED) := by
  obtain ⟨hv, _⟩ := C32_profile_info_inverts.sound bb bb' p h hr
  refine ⟨hv.profile_type, fun hs => ?_⟩
  rw [hv.profile_type]; unfold Spec.profileType; rw [if_pos hs]

/-- C32: profile_tier_level() is parsed losslessly for every argument combination (with the
deviation in the presence condition of sub_layer_level_idc stated at `Spec.profileTierLevel`). -/
theorem C32_profile_tier_level_inverts (present : Bool) (maxSub : Nat) :
    Inverts (parseProfileTierLevel present maxSub) Spec.profileTierLevel (ValidProfileTierLevel present maxSub) :=
  parseProfileTierLevel_codec.inverts

/-- Main profile, level 3.1, as found in ordinary streams. -/
example : (parseProfileInfo.runBytes [0x01, 0x60, 0x00, 0x00, 0x00, 0x90, 0x00, 0x00, 0x00, 0x00, 0x00]).val? =
    some ⟨0, 0, 1, [0, 1, 1] ++ List.replicate 29 0, 1, 0, 0, 1, ⟨0, 0, 0, 0, 0, 0, 0, 0, 0, 0, 0, 0, 0, 0, 0⟩, .MAIN, 0, 0⟩ := by
  decide +kernel

end H265
