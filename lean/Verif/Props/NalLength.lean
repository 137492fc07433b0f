/- C15: bitstreams with length fields. -/
import Verif.Props.Stream

namespace H265
open Spec

theorem foldl_be (bs : List UInt8) : ∀ acc, acc * 256 ^ bs.length + 256 ^ bs.length ≤ 2 ^ 64 →
    bs.foldl (fun acc b => (acc * 256 % 2 ^ 64 + b.toNat) % 2 ^ 64) acc = acc * 256 ^ bs.length + val (bitsOf bs) := by
  induction bs with
  | nil => intro acc h; simp [bitsOf, val]
  | cons b bs ih =>
    intro acc h
    have hb := b.toNat_lt
    have hv : val (bitsOf (b :: bs)) = b.toNat * 256 ^ bs.length + val (bitsOf bs) := by
      rw [bitsOf_cons, val_append, byteBits_eq_u, val_u_of_lt hb, bitsOf_length, Nat.pow_mul]
    rw [List.length_cons, Nat.pow_succ] at h
    generalize hP : 256 ^ bs.length = P at *
    have hP1 : 1 ≤ P := by rw [← hP]; exact Nat.one_le_pow _ _ (by decide)
    have hmul : (acc * 256 + b.toNat) * P + P ≤ acc * (P * 256) + P * 256 := by
      have : (acc * 256 + b.toNat) * P + P = (acc * 256 + b.toNat + 1) * P := (Nat.succ_mul _ _).symm
      rw [this]
      have h2 : acc * (P * 256) + P * 256 = (acc * 256 + 256) * P := by
        rw [Nat.add_mul, Nat.mul_assoc, Nat.mul_comm P 256]
      rw [h2]
      exact Nat.mul_le_mul_right _ (by omega)
    have hlt : acc * 256 + b.toNat < 2 ^ 64 := by
      have : (acc * 256 + b.toNat) * 1 ≤ (acc * 256 + b.toNat) * P := Nat.mul_le_mul_left _ hP1
      omega
    have hl2 : acc * 256 < 2 ^ 64 := Nat.lt_of_le_of_lt (Nat.le_add_right _ _) hlt
    have e1 : acc * 256 % 2 ^ 64 = acc * 256 := Nat.mod_eq_of_lt hl2
    have e2 : (acc * 256 + b.toNat) % 2 ^ 64 = acc * 256 + b.toNat := Nat.mod_eq_of_lt hlt
    have e3 : (256 : Nat) ^ (bs.length + 1) = P * 256 := by rw [Nat.pow_succ, hP]
    rw [List.foldl_cons, e1, e2, ih _ (by omega), List.length_cons, e3, hv,
      Nat.add_mul, Nat.mul_assoc, Nat.mul_comm 256 P, Nat.add_assoc]

theorem beAt_lt (n : Nat) (data : List UInt8) (off : Nat) : beAt n data off < 256 ^ n := by
  unfold beAt
  have h := val_lt (bitsOf ((data.drop off).take n))
  rw [bitsOf_length, List.length_take, Nat.pow_mul] at h
  exact Nat.lt_of_lt_of_le h (Nat.pow_le_pow_right (by decide) (by omega))

theorem readNaluLength_eq {data : List UInt8} {i n : Nat} (hn : n ≤ 8) (hi : i + n ≤ data.length) :
    readNaluLength data i n = .ok (some (beAt n data i)) := by
  unfold readNaluLength sliceOf
  rw [if_neg (by omega), if_pos hi]
  simp only
  rw [foldl_be]
  · simp [beAt]
  · rw [List.length_take, List.length_drop, show min n (data.length - i) = n by omega, Nat.zero_mul, Nat.zero_add]
    exact Nat.le_trans (Nat.pow_le_pow_right (by decide) hn) (by decide)

theorem nalLengthLoop_eq (cs : Bool) (data : List UInt8) (n : Nat) (hn0 : 0 < n) (hn : n ≤ 7) (hlen : data.length < 2 ^ 63) :
    ∀ fuel i st, data.length < i + fuel → i ≤ data.length →
    ∃ l, FramedBy n data i l ∧ nalLengthLoop cs data n fuel i st =
      parseAll cs (l.map fun x => (x.1, n, (data.drop x.1).take x.2)) st := by
  intro fuel
  induction fuel with
  | zero => intro i st h1 h2; omega
  | succ fuel ih =>
    intro i st h1 h2
    rw [nalLengthLoop]
    by_cases hi : i < data.length
    · rw [if_pos hi, if_pos hn0]
      by_cases hc : i + n ≤ data.length
      · rw [readNaluLength_eq (by omega) hc]
        have hbe := beAt_lt n data i
        have hp : 256 ^ n ≤ 256 ^ 7 := Nat.pow_le_pow_right (by decide) hn
        have hbe' : beAt n data i < 2 ^ 56 := Nat.lt_of_lt_of_le hbe hp
        dsimp only
        rw [Nat.mod_eq_of_lt (by omega)]
        by_cases hz : beAt n data i = 0 ∨ i + n + beAt n data i > data.length
        · rw [if_pos hz]
          exact ⟨[], .stop (by rcases hz with h | h; exact Or.inr (Or.inl h); exact Or.inr (Or.inr (by omega))), rfl⟩
        · rw [if_neg hz]
          have hz0 : beAt n data i ≠ 0 := fun h => hz (Or.inl h)
          have hz1 : i + n + beAt n data i ≤ data.length := by
            apply Classical.byContradiction; intro h; exact hz (Or.inr (by omega))
          have hrec : ∀ st, ∃ l, FramedBy n data (i + n + beAt n data i) l ∧ nalLengthLoop cs data n fuel (i + n + beAt n data i) st =
              parseAll cs (l.map fun x => (x.1, n, (data.drop x.1).take x.2)) st := fun st => ih _ st (by omega) hz1
          unfold parseUnitAt sliceOf
          rw [if_pos hz1]
          dsimp only
          cases hp : parseNalUnit cs st ((data.drop (i + n)).take (beAt n data i)) with
          | bad k =>
            obtain ⟨l, hl, _⟩ := hrec st
            exact ⟨_, .unit hz0 hz1 hl, by simp only [List.map_cons, parseAll, hp]⟩
          | fail b =>
            obtain ⟨l, hl, he⟩ := hrec st
            refine ⟨_, .unit hz0 hz1 hl, ?_⟩
            simp only [List.map_cons, parseAll, hp, he]
            cases parseAll cs (l.map fun x => (x.1, n, (data.drop x.1).take x.2)) st <;> rfl
          | ok x b =>
            obtain ⟨u, st1⟩ := x
            obtain ⟨l, hl, he⟩ := hrec st1
            refine ⟨_, .unit hz0 hz1 hl, ?_⟩
            simp only [List.map_cons, parseAll, hp, he]
            cases parseAll cs (l.map fun x => (x.1, n, (data.drop x.1).take x.2)) st1 <;> rfl
      · unfold readNaluLength
        rw [if_pos (by omega)]
        exact ⟨[], .stop (Or.inl (by omega)), rfl⟩
    · rw [if_neg hi]
      exact ⟨[], .stop (Or.inl (by omega)), rfl⟩

/-- C15: with length fields of 1 to 7 bytes, the NAL units parsed are, in order, exactly those of the framing, up to the first zero, truncated or oversized
length; each is recorded with its offset (and with the width of the length field as its length). -/
theorem C15_length_framing (cs : Bool) (n : Nat) (st : ParserState) (data : List UInt8) (hn0 : 0 < n) (hn : n ≤ 7) (hlen : data.length < 2 ^ 63) :
    ∃ l, FramedBy n data 0 l ∧ parseBitstreamNaluLength cs n st data = parseAll cs (l.map fun x => (x.1, n, (data.drop x.1).take x.2)) st :=
  nalLengthLoop_eq cs data n hn0 hn hlen _ 0 st (by omega) (by omega)

theorem FramedBy.unique {n : Nat} {data : List UInt8} {off : Nat} {l l' : List (Nat × Nat)} (h : FramedBy n data off l) (h' : FramedBy n data off l') :
    l = l' := by
  induction h generalizing l' with
  | stop hs =>
    cases h' with
    | stop => rfl
    | unit h1 h2 _ => rcases hs with h | h | h <;> omega
  | unit h1 h2 _ ih =>
    cases h' with
    | stop hs => rcases hs with h | h | h <;> omega
    | unit _ _ h3 => rw [ih h3]

theorem FramedBy.inside {n : Nat} {data : List UInt8} {off : Nat} {l : List (Nat × Nat)} (h : FramedBy n data off l) :
    ∀ x ∈ l, x.1 + x.2 ≤ data.length := by
  induction h with
  | stop => intro x hx; cases hx
  | unit h1 h2 _ ih =>
    intro x hx
    rcases List.mem_cons.mp hx with rfl | hx
    · exact h2
    · exact ih x hx

theorem beBytes_length (n v : Nat) : (beBytes n v).length = n := by
  induction n with
  | zero => rfl
  | succ n ih => simp [beBytes, ih]

theorem val_beBytes : ∀ (n v : Nat), val (bitsOf (beBytes n v)) = v % 256 ^ n
  | 0, v => by simp [beBytes, val, Nat.mod_one]
  | n + 1, v => by
    have hb : (UInt8.ofNat (v / 256 ^ n)).toNat = v / 256 ^ n % 256 := by simp
    rw [beBytes, bitsOf_cons, val_append, byteBits_eq_u, val_u_of_lt (UInt8.toNat_lt _), bitsOf_length, beBytes_length, val_beBytes n v, Nat.pow_mul, hb,
      show (256 : Nat) ^ (n + 1) = 256 ^ n * 256 from Nat.pow_succ _ _, Nat.mod_mul, show (2 : Nat) ^ 8 = 256 from rfl]
    rw [Nat.mul_comm]
    exact Nat.add_comm _ _

/-- offsets of the NAL units of a stream with length fields -/
def lengthPlaces (n : Nat) : Nat → List (List UInt8) → List (Nat × Nat × List UInt8)
  | _, [] => []
  | off, nal :: us => (off + n, n, nal) :: lengthPlaces n (off + n + nal.length) us

theorem framedBy_units (n : Nat) (tail : List UInt8) (units : List (List UInt8)) (pre : List UInt8) (hu : ∀ x ∈ units, x ≠ [] ∧ x.length < 256 ^ n)
    (ht : FramedBy n (pre ++ (lengthPrefixed n units ++ tail)) (pre ++ lengthPrefixed n units).length []) :
    ∃ l, FramedBy n (pre ++ (lengthPrefixed n units ++ tail)) pre.length l ∧
      l.map (fun x => (x.1, n, ((pre ++ (lengthPrefixed n units ++ tail)).drop x.1).take x.2)) = lengthPlaces n pre.length units := by
  induction units generalizing pre with
  | nil => exact ⟨[], by simpa [lengthPrefixed] using ht, rfl⟩
  | cons x us ih =>
    have hb : lengthPrefixed n (x :: us) = (beBytes n x.length ++ x) ++ lengthPrefixed n us := rfl
    have hx := hu x (by simp)
    have hx0 : x.length ≠ 0 := fun h => hx.1 (List.length_eq_zero_iff.mp h)
    have e : pre ++ (lengthPrefixed n (x :: us) ++ tail) = (pre ++ (beBytes n x.length ++ x)) ++ (lengthPrefixed n us ++ tail) := by rw [hb]; simp
    have e2 : pre ++ lengthPrefixed n (x :: us) = (pre ++ (beBytes n x.length ++ x)) ++ lengthPrefixed n us := by rw [hb]; simp
    rw [e, e2] at ht
    obtain ⟨l, hl, hm⟩ := ih (pre ++ (beBytes n x.length ++ x)) (fun y hy => hu y (by simp [hy])) ht
    rw [← e] at hl hm
    have hlen : (pre ++ (beBytes n x.length ++ x)).length = pre.length + n + x.length := by simp [beBytes_length]; omega
    rw [hlen] at hl hm
    have hv : beAt n (pre ++ (lengthPrefixed n (x :: us) ++ tail)) pre.length = x.length := by
      unfold beAt
      rw [e, List.append_assoc, List.append_assoc, List.drop_left, List.take_left' (beBytes_length _ _), val_beBytes, Nat.mod_eq_of_lt hx.2]
    have hin : pre.length + n + x.length ≤ (pre ++ (lengthPrefixed n (x :: us) ++ tail)).length := by
      rw [e]; simp [beBytes_length]; omega
    have hU : FramedBy n (pre ++ (lengthPrefixed n (x :: us) ++ tail)) pre.length
        ((pre.length + n, beAt n (pre ++ (lengthPrefixed n (x :: us) ++ tail)) pre.length) :: l) :=
      .unit (by rw [hv]; exact hx0) (by rw [hv]; exact hin) (by rw [hv]; exact hl)
    rw [hv] at hU
    refine ⟨_, hU, ?_⟩
    rw [List.map_cons, hm, lengthPlaces]
    congr 3
    have e3 : pre ++ (lengthPrefixed n (x :: us) ++ tail) = (pre ++ beBytes n x.length) ++ (x ++ (lengthPrefixed n us ++ tail)) := by rw [hb]; simp
    rw [e3, List.drop_left' (by simp [beBytes_length]), List.take_left]

/-- C15: a stream made of NAL units with length fields gives exactly these NAL units, in order.  What follows the last one is ignored if it is too short to be a
length field, begins with a zero length, or with a length that exceeds what is left (`FramedBy` with no units). -/
theorem C15_units (cs : Bool) (n : Nat) (st : ParserState) (units : List (List UInt8)) (tail : List UInt8) (hn0 : 0 < n) (hn : n ≤ 7)
    (hu : ∀ x ∈ units, x ≠ [] ∧ x.length < 256 ^ n) (ht : FramedBy n tail 0 []) (hlen : (lengthPrefixed n units ++ tail).length < 2 ^ 63) :
    parseBitstreamNaluLength cs n st (lengthPrefixed n units ++ tail) = parseAll cs (lengthPlaces n 0 units) st := by
  obtain ⟨l, h1, h2⟩ := C15_length_framing cs n st _ hn0 hn hlen
  have ht' : FramedBy n ([] ++ (lengthPrefixed n units ++ tail)) ([] ++ lengthPrefixed n units).length [] := by
    cases ht with
    | stop hs =>
      refine .stop ?_
      have hb : beAt n ([] ++ (lengthPrefixed n units ++ tail)) ([] ++ lengthPrefixed n units).length = beAt n tail 0 := by
        unfold beAt; simp
      rw [hb]
      simp only [List.nil_append, List.length_append]
      rcases hs with h | h | h
      · left; omega
      · right; left; exact h
      · right; right; omega
  obtain ⟨l', h3, h4⟩ := framedBy_units n tail units [] hu ht'
  simp only [List.nil_append, List.length_nil] at h3 h4
  rw [h2, FramedBy.unique h1 h3, h4]

/-- C15: no length bytes means one NAL unit, the whole buffer. -/
theorem C15_no_length (cs : Bool) (st : ParserState) (data : List UInt8) (h : data ≠ []) (hlen : data.length < 2 ^ 64) :
    parseBitstreamNaluLength cs 0 st data = parseAll cs [(0, 0, data)] st := by
  have hl : 0 < data.length := List.length_pos_iff.mpr h
  unfold parseBitstreamNaluLength
  obtain ⟨m, hm⟩ : ∃ m, data.length = m + 1 := ⟨data.length - 1, by omega⟩
  rw [show data.length + 1 = (m + 1) + 1 by omega, nalLengthLoop, if_pos hl, if_neg (by omega)]
  unfold parseUnitAt sliceOf
  rw [if_pos (by omega), Nat.zero_add, Nat.mod_eq_of_lt hlen]
  have hend : ∀ st, nalLengthLoop cs data 0 (m + 1) data.length st = .ok ([], st) := by
    intro st; rw [nalLengthLoop, if_neg (by omega)]
  dsimp only
  rw [List.drop_zero, List.take_length]
  simp only [parseAll]
  cases parseNalUnit cs st data with
  | bad k => rfl
  | fail b => dsimp only; rw [hend st]; rfl
  | ok x b => obtain ⟨u, st1⟩ := x; dsimp only; rw [hend st1]; rfl

theorem naluLength_safe_for {A : Bad → Prop} {cs : Bool} {n : Nat} {st : ParserState} {data : List UInt8} {k : Bad} (hs : UsableFor A st) (hn : n ≤ 7) (hlen : data.length < 2 ^ 32)
    (h : parseBitstreamNaluLength cs n st data = .error k) : A k := by
  by_cases h0 : n = 0
  · subst h0
    by_cases hd : data = []
    · subst hd; cases h
    · rw [C15_no_length cs st data hd (by omega)] at h
      exact parseAll_safe_for hs (by simpa using hlen) h
  · obtain ⟨l, hl, he⟩ := C15_length_framing cs n st data (by omega) hn (by omega)
    rw [he] at h
    refine parseAll_safe_for hs ?_ h
    intro x hx
    rw [List.mem_map] at hx
    obtain ⟨y, _, rfl⟩ := hx
    simp only [List.length_take, List.length_drop]
    omega

/-- C44 / C15: parsing any buffer with length fields of up to 7 bytes, after any history, reads nothing outside the buffer and does nothing undefined except possibly a
signed 32-bit overflow. -/
theorem C15_safe {cs : Bool} {n : Nat} {st : ParserState} {data : List UInt8} {k : Bad} (hs : Reach st) (hn : n ≤ 7) (hlen : data.length < 2 ^ 32)
    (h : parseBitstreamNaluLength cs n st data = .error k) : k = .signedOverflow :=
  naluLength_safe_for (A := fun k => k = .signedOverflow) hs.usable hn hlen h

/-- C21 for streams with length fields. -/
theorem C21_length_stream {cs : Bool} {n : Nat} {st st' : ParserState} {data : List UInt8} {ns : List NalUnit} (hn : n ≤ 7) (hlen : data.length < 2 ^ 63)
    (h : parseBitstreamNaluLength cs n st data = .ok (ns, st')) (i : Nat) :
    st'.vps i = (latest (·.nal_unit_payload.vps) (·.body.vps_video_parameter_set_id) i ns).or (st.vps i) ∧
    st'.sps i = (latest (·.nal_unit_payload.sps) (·.body.sps_seq_parameter_set_id) i ns).or (st.sps i) ∧
    st'.pps i = (latest (·.nal_unit_payload.pps) (·.body.head.pps_pic_parameter_set_id) i ns).or (st.pps i) := by
  have hst : Steps st (ns.map (·.nal_unit_payload)) st' := by
    by_cases h0 : n = 0
    · subst h0
      by_cases hd : data = []
      · subst hd; cases h; exact .nil _
      · rw [C15_no_length cs st data hd (by omega)] at h
        exact parseAll_steps h
    · obtain ⟨l, hl, he⟩ := C15_length_framing cs n st data (by omega) hn hlen
      rw [he] at h
      exact parseAll_steps h
  have := C21_latest hst i
  rw [latest_map, latest_map, latest_map] at this
  exact this

/-- C15: the recorded length is the width of the length field, not the length of the NAL unit. -/
theorem C15_stored_length_is_field_width :
    ((parseBitstreamNaluLength false 2 .empty [0x00, 0x03, 0x46, 0x01, 0x50]).toOption.map fun x => x.1.map fun n => (n.offset, n.length)) =
      some [(2, 2)] := by decide +kernel

/-- C15 fails with 8-byte length fields: the sum of offset and length wraps around, and a length close to 2^64 passes the check. -/
theorem C15_eight_bytes_unsafe (cs : Bool) (st : ParserState) :
    parseBitstreamNaluLength cs 8 st [0xff, 0xff, 0xff, 0xff, 0xff, 0xff, 0xff, 0xf8, 0x46, 0x01, 0x50] = .error .oob := by
  have hb : beAt 8 [0xff, 0xff, 0xff, 0xff, 0xff, 0xff, 0xff, 0xf8, 0x46, 0x01, 0x50] 0 = 2 ^ 64 - 8 := by decide +kernel
  unfold parseBitstreamNaluLength
  rw [nalLengthLoop, if_pos (by decide), if_pos (by decide), readNaluLength_eq (by decide) (by decide), hb]
  dsimp only
  rw [if_neg (by decide)]
  unfold parseUnitAt sliceOf
  rw [if_neg (by decide)]

example : FramedBy 2 [0x00, 0x00, 0x46] 0 [] := .stop (Or.inr (Or.inl (by decide)))
example : FramedBy 2 [0x00, 0x07, 0x46] 0 [] := .stop (Or.inr (Or.inr (by decide)))
example : lengthPrefixed 2 [[0x46, 0x01, 0x50]] ++ [0x00] = [0x00, 0x03, 0x46, 0x01, 0x50, 0x00] := by decide

/-- C21: the overload without a parser state parses length-prefixed units as one with a state that holds nothing, so that every slice header
returned uses parameter sets that stand before it in the same buffer. -/
theorem C21_length_fresh_state (cs : Bool) (n : Nat) (data : List UInt8) (ns : List NalUnit) :
    parseBitstreamNaluLengthFresh cs n data = .ok ns ↔ ∃ st', parseBitstreamNaluLength cs n .empty data = .ok (ns, st') := by
  unfold parseBitstreamNaluLengthFresh
  split
  · next h => rw [h]; simp
  · next h => rw [h]; simp

/-- C44: as safe as the overload with a state -/
theorem C21_length_fresh_safe (cs : Bool) (n : Nat) (data : List UInt8) (k : Bad) :
    parseBitstreamNaluLengthFresh cs n data = .error k ↔ parseBitstreamNaluLength cs n .empty data = .error k := by
  unfold parseBitstreamNaluLengthFresh
  split
  · next h => rw [h]; simp
  · next h => rw [h]; simp

end H265
