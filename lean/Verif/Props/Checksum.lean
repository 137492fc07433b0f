/-
C64: what the checksum of a NAL unit detects.
-/
import Verif.Props.History

set_option autoImplicit false

namespace H265
open Spec

/-- changing one byte changes the sum of the words by a multiple of a power of 256 -/
theorem words32_set : ∀ (l : List UInt8) (i : Nat) (hi : i < l.length) (v : UInt8),
    ∃ k, k < 4 ∧ (words32 (l.set i v)).sum + l[i].toNat * 256 ^ k = (words32 l).sum + v.toNat * 256 ^ k
  | [], i, hi, _ => absurd hi (by simp)
  | [a], 0, _, v => ⟨3, by omega, by simp only [List.set, words32, List.sum_cons, List.sum_nil, List.getElem_cons_zero]; omega⟩
  | [a], i + 1, hi, v => absurd hi (by simp)
  | [a, b], 0, _, v => ⟨3, by omega, by simp only [List.set, words32, List.sum_cons, List.sum_nil, List.getElem_cons_zero]; omega⟩
  | [a, b], 1, _, v => ⟨2, by omega, by simp only [List.set, words32, List.sum_cons, List.sum_nil, List.getElem_cons_zero, List.getElem_cons_succ]; omega⟩
  | [a, b], i + 2, hi, v => absurd hi (by simp)
  | [a, b, c], 0, _, v => ⟨3, by omega, by simp only [List.set, words32, List.sum_cons, List.sum_nil, List.getElem_cons_zero]; omega⟩
  | [a, b, c], 1, _, v => ⟨2, by omega, by simp only [List.set, words32, List.sum_cons, List.sum_nil, List.getElem_cons_zero, List.getElem_cons_succ]; omega⟩
  | [a, b, c], 2, _, v => ⟨1, by omega, by simp only [List.set, words32, List.sum_cons, List.sum_nil, List.getElem_cons_zero, List.getElem_cons_succ]; omega⟩
  | [a, b, c], i + 3, hi, v => absurd hi (by simp)
  | a :: b :: c :: d :: l, 0, _, v => ⟨3, by omega, by simp only [List.set, words32, List.sum_cons, List.getElem_cons_zero]; omega⟩
  | a :: b :: c :: d :: l, 1, _, v => ⟨2, by omega, by simp only [List.set, words32, List.sum_cons, List.getElem_cons_zero, List.getElem_cons_succ]; omega⟩
  | a :: b :: c :: d :: l, 2, _, v => ⟨1, by omega, by simp only [List.set, words32, List.sum_cons, List.getElem_cons_zero, List.getElem_cons_succ]; omega⟩
  | a :: b :: c :: d :: l, 3, _, v => ⟨0, by omega, by simp only [List.set, words32, List.sum_cons, List.getElem_cons_zero, List.getElem_cons_succ]; omega⟩
  | a :: b :: c :: d :: l, i + 4, hi, v => by
    obtain ⟨k, hk, h⟩ := words32_set l i (by simpa using hi) v
    refine ⟨k, hk, ?_⟩
    simp only [List.set, words32, List.sum_cons, List.getElem_cons_succ]
    omega

/-- equal checksums: the sums of the words agree modulo 2^32 - 1 -/
theorem checksum_sum {a b : List UInt8} (h : checksum32 a = checksum32 b) : (words32 a).sum % (2 ^ 32 - 1) = (words32 b).sum % (2 ^ 32 - 1) := by
  obtain ⟨a1, a2, _⟩ := onesFold (words32 a) 0 (by omega) (words32_lt a)
  obtain ⟨b1, b2, _⟩ := onesFold (words32 b) 0 (by omega) (words32_lt b)
  rw [Nat.zero_add] at a2 b2
  unfold checksum32 at h
  have : (words32 a).foldl onesAdd 0 = (words32 b).foldl onesAdd 0 := by omega
  rw [← a2, ← b2, this]

/-- C64: two byte strings have the same checksum exactly if the sums of their 32-bit words are the same modulo 2^32 - 1, and none or both are all zero. -/
theorem C64_equal_iff (a b : List UInt8) : checksum32 a = checksum32 b ↔
    (words32 a).sum % (2 ^ 32 - 1) = (words32 b).sum % (2 ^ 32 - 1) ∧ ((words32 a).sum = 0 ↔ (words32 b).sum = 0) := by
  obtain ⟨a1, a2, a3⟩ := onesFold (words32 a) 0 (by omega) (words32_lt a)
  obtain ⟨b1, b2, b3⟩ := onesFold (words32 b) 0 (by omega) (words32_lt b)
  rw [Nat.zero_add] at a2 b2 a3 b3
  constructor
  · intro h
    refine ⟨checksum_sum h, ?_⟩
    unfold checksum32 at h
    rw [← a3, ← b3, show (words32 a).foldl onesAdd 0 = (words32 b).foldl onesAdd 0 by omega]
  · rintro ⟨h1, h2⟩
    unfold checksum32
    rw [ones_unique a1 b1 (a2.trans (h1.trans b2.symm)) (a3.trans (h2.trans b3.symm))]

theorem checksum_lt (a : List UInt8) : checksum32 a < 2 ^ 32 := by unfold checksum32; omega

/-- C64: changing any one byte (so in particular any one bit) of the unescaped NAL unit changes the checksum. -/
theorem C64_one_byte (data : List UInt8) (i : Nat) (hi : i < data.length) (v : UInt8) (hv : v ≠ data[i]) : checksum32 (data.set i v) ≠ checksum32 data := by
  intro h
  have h1 := checksum_sum h
  obtain ⟨k, hk, h2⟩ := words32_set data i hi v
  have h3 : v.toNat ≠ data[i].toNat := fun he => hv (UInt8.toNat_inj.mp he)
  have h4 := v.toNat_lt
  have h5 := data[i].toNat_lt
  generalize (words32 (data.set i v)).sum = s at *
  generalize (words32 data).sum = t at *
  generalize data[i].toNat = x at *
  generalize v.toNat = y at *
  rcases (by omega : k = 0 ∨ k = 1 ∨ k = 2 ∨ k = 3) with rfl | rfl | rfl | rfl <;> omega

/-- C64: changing one of the aligned 32-bit words changes the checksum, unless all its bits are inverted from all zeros to all ones or back. -/
theorem C64_one_word (p q : List UInt8) (w w' : List UInt8) (hp : p.length % 4 = 0) (hw : w.length = 4) (hw' : w'.length = 4) (hne : w ≠ w')
    (hx : ¬ (w = [0, 0, 0, 0] ∧ w' = [255, 255, 255, 255]) ∧ ¬ (w' = [0, 0, 0, 0] ∧ w = [255, 255, 255, 255])) :
    checksum32 (p ++ w ++ q) ≠ checksum32 (p ++ w' ++ q) := by
  intro h
  have h1 := checksum_sum h
  match w, w', hw, hw' with
  | [a, b, c, d], [a', b', c', d'], _, _ =>
    rw [List.append_assoc, List.append_assoc, words32_append _ _ hp, words32_append _ _ hp] at h1
    simp only [List.cons_append, List.nil_append, words32, List.sum_append, List.sum_cons] at h1
    have ha := a.toNat_lt; have hb := b.toNat_lt; have hc := c.toNat_lt; have hd := d.toNat_lt
    have ha' := a'.toNat_lt; have hb' := b'.toNat_lt; have hc' := c'.toNat_lt; have hd' := d'.toNat_lt
    generalize hS : (words32 p).sum = S at h1
    generalize hT : (words32 q).sum = T at h1
    have word : ∀ W W' : Nat, W < 2 ^ 32 → W' < 2 ^ 32 → (S + (W + T)) % (2 ^ 32 - 1) = (S + (W' + T)) % (2 ^ 32 - 1) →
        W = W' ∨ (W = 0 ∧ W' = 2 ^ 32 - 1) ∨ (W' = 0 ∧ W = 2 ^ 32 - 1) := by
      intro W W' h1 h2 h3
      omega
    have key : (a.toNat = a'.toNat ∧ b.toNat = b'.toNat ∧ c.toNat = c'.toNat ∧ d.toNat = d'.toNat) ∨
        (a.toNat = 0 ∧ b.toNat = 0 ∧ c.toNat = 0 ∧ d.toNat = 0 ∧ a'.toNat = 255 ∧ b'.toNat = 255 ∧ c'.toNat = 255 ∧ d'.toNat = 255) ∨
        (a'.toNat = 0 ∧ b'.toNat = 0 ∧ c'.toNat = 0 ∧ d'.toNat = 0 ∧ a.toNat = 255 ∧ b.toNat = 255 ∧ c.toNat = 255 ∧ d.toNat = 255) := by
      clear hx hne hS hT h
      generalize a.toNat = a at *; generalize b.toNat = b at *; generalize c.toNat = c at *; generalize d.toNat = d at *
      generalize a'.toNat = a' at *; generalize b'.toNat = b' at *; generalize c'.toNat = c' at *; generalize d'.toNat = d' at *
      rcases word _ _ (by omega) (by omega) h1 with h | ⟨h, h'⟩ | ⟨h, h'⟩
      · left; clear h1 word; omega
      · right; left; clear h1 word; omega
      · right; right; clear h1 word; omega
    have inj : ∀ {x y : UInt8}, x.toNat = y.toNat → x = y := fun h => UInt8.toNat_inj.mp h
    rcases key with ⟨e1, e2, e3, e4⟩ | ⟨e1, e2, e3, e4, f1, f2, f3, f4⟩ | ⟨e1, e2, e3, e4, f1, f2, f3, f4⟩
    · exact hne (by rw [inj e1, inj e2, inj e3, inj e4])
    · exact hx.1 ⟨by rw [inj (y := 0) e1, inj (y := 0) e2, inj (y := 0) e3, inj (y := 0) e4],
        by rw [inj (y := 255) f1, inj (y := 255) f2, inj (y := 255) f3, inj (y := 255) f4]⟩
    · exact hx.2 ⟨by rw [inj (y := 0) e1, inj (y := 0) e2, inj (y := 0) e3, inj (y := 0) e4],
        by rw [inj (y := 255) f1, inj (y := 255) f2, inj (y := 255) f3, inj (y := 255) f4]⟩

/-- C64, the limit: the order of the words does not matter -/
theorem C64_order_not_detected {a b : List UInt8} (h : (words32 a).Perm (words32 b)) : checksum32 a = checksum32 b := by
  have hs : ∀ {l m : List Nat}, l.Perm m → l.sum = m.sum := by
    intro l m h
    induction h with
    | nil => rfl
    | cons x _ ih => simp only [List.sum_cons, ih]
    | swap x y l => simp only [List.sum_cons]; omega
    | trans _ _ ih1 ih2 => exact ih1.trans ih2
  rw [C64_equal_iff, hs h]
  exact ⟨rfl, Iff.rfl⟩

/-- C64: NAL units parsed with checksums, in whatever states: if the unescaped bytes of the second are those of the first with one byte changed, the checksums
differ. -/
theorem C64_nal_unit {st st1 st' st2 : ParserState} {data data' rbsp : List UInt8} {n n' : NalUnit} {e e' : BB} (hu : unescapeRbsp data = .ok rbsp)
    (i : Nat) (hi : i < rbsp.length) (v : UInt8) (hv : v ≠ rbsp[i]) (hu' : unescapeRbsp data' = .ok (rbsp.set i v))
    (h : parseNalUnit true st data = .ok (n, st1) e) (h' : parseNalUnit true st' data' = .ok (n', st2) e') : n.checksum ≠ n'.checksum := by
  obtain ⟨r, h1, h2⟩ := parseNalUnit_ok h
  obtain ⟨r', h1', h2'⟩ := parseNalUnit_ok h'
  rw [hu] at h1; cases h1
  rw [hu'] at h1'; cases h1'
  rw [h2.checksum, h2'.checksum]
  simp only [if_true, ne_eq, Option.some.injEq]
  intro he
  have hval : ∀ x y : Nat, x < 2 ^ 32 → y < 2 ^ 32 → beBytes 4 x = beBytes 4 y → x = y := by
    intro x y hx hy h
    simp only [beBytes, List.cons.injEq, and_true] at h
    obtain ⟨g1, g2, g3, g4⟩ := h
    have k1 := congrArg UInt8.toNat g1
    have k2 := congrArg UInt8.toNat g2
    have k3 := congrArg UInt8.toNat g3
    have k4 := congrArg UInt8.toNat g4
    simp only [UInt8.toNat_ofNat'] at k1 k2 k3 k4
    omega
  exact C64_one_byte rbsp i hi v hv (hval _ _ (checksum_lt _) (checksum_lt _) he.symm)

/-- hypotheses met: the SPS of the test stream and the same with another level (general_level_idc 123 for 93), both parsed -/
example : ∃ (data' : List UInt8) (rbsp : List UInt8), unescapeRbsp (0x42 :: 0x01 :: testSps) = .ok rbsp ∧ unescapeRbsp data' = .ok (rbsp.set 14 0x7b) ∧
    14 < rbsp.length ∧ rbsp[14]? ≠ some 0x7b ∧
    (match parseNalUnit true .empty (0x42 :: 0x01 :: testSps), parseNalUnit true .empty data' with
      | .ok (n, _) _, .ok (n', _) _ => n.nal_unit_payload.sps.isSome && n'.nal_unit_payload.sps.isSome && n.checksum != n'.checksum
      | _, _ => false) = true :=
  ⟨escape ((unesc (0x42 :: 0x01 :: testSps)).set 14 0x7b), unesc (0x42 :: 0x01 :: testSps), by decide +kernel, by decide +kernel, by decide +kernel, by decide +kernel,
    by decide +kernel⟩

/-- not trivial: two strings with exchanged words, which have the same checksum; and with an inverted word -/
example : checksum32 [1, 2, 3, 4, 5, 6, 7, 8] = checksum32 [5, 6, 7, 8, 1, 2, 3, 4] ∧ checksum32 [1, 2, 3, 4, 0, 0, 0, 0] = checksum32 [1, 2, 3, 4, 255, 255, 255, 255] ∧
    checksum32 [1, 2, 3, 4, 5, 6] ≠ checksum32 [1, 2, 3, 4, 5, 7] := by decide +kernel

end H265
