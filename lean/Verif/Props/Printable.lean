/- C57: the checksum as text. -/
import Verif.Model.Printable
import Verif.Spec.Printable
import Verif.Props.Nal

set_option autoImplicit false

namespace H265
open Spec

/-! ### The digits -/

theorem hex2 (b : UInt8) : IsHex 2 b.toNat (putX0 2 b.toNat) := by
  have h : ∀ n : Fin 256, (putX0 2 n.val).length = 2 ∧ (∀ c ∈ putX0 2 n.val, c ∈ hexDigits) ∧
      (putX0 2 n.val).foldl (fun a c => 16 * a + hexDigits.idxOf c) 0 = n.val := by decide +kernel
  exact h ⟨b.toNat, b.toNat_lt⟩

theorem hexBytes (l : List UInt8) : IsHexBytes l (l.flatMap fun b => putX0 2 b.toNat) := by
  induction l with
  | nil => exact .nil
  | cons b l ih => exact .cons (hex2 b) ih

theorem Spec.IsHexBytes.unique {l : List UInt8} {s : List Char} (h : IsHexBytes l s) {l' : List UInt8} (h' : IsHexBytes l' s) : l = l' := by
  induction h generalizing l' with
  | nil =>
    generalize hs : ([] : List Char) = t at h'
    cases h' with
    | nil => rfl
    | @cons b l x s hx _ =>
      have := hx.1
      have := congrArg List.length hs
      rw [List.length_append] at this
      simp only [List.length_nil] at this
      omega
  | @cons b l x s hx _ ih =>
    generalize hs : x ++ s = t at h'
    cases h' with
    | nil =>
      have := hx.1
      have := congrArg List.length hs
      rw [List.length_append] at this
      simp only [List.length_nil] at this
      omega
    | @cons b' l' x' s' hx' h' =>
      obtain ⟨rfl, rfl⟩ := List.append_inj hs (by rw [hx.1, hx'.1])
      have hb : b = b' := UInt8.toNat_inj.1 (hx.2.2.symm.trans hx'.2.2)
      rw [hb, ih h']

/-- a character of the sixteen is determined by its index -/
theorem hexDigits_inj : ∀ c ∈ hexDigits, ∀ d ∈ hexDigits, hexDigits.idxOf c = hexDigits.idxOf d → c = d := by decide

theorem Spec.IsHex.text {v : Nat} {s s' : List Char} (h : IsHex 2 v s) (h' : IsHex 2 v s') : s = s' := by
  obtain ⟨h1, h2, h3⟩ := h
  obtain ⟨h1', h2', h3'⟩ := h'
  match s, h1, s', h1' with
  | [a, b], _, [c, d], _ =>
    simp only [List.foldl_cons, List.foldl_nil] at h3 h3'
    have lt : ∀ c ∈ hexDigits, hexDigits.idxOf c < 16 := by decide
    have hb := lt b (h2 b (by simp))
    have hd := lt d (h2' d (by simp))
    rw [hexDigits_inj a (h2 a (by simp)) c (h2' c (by simp)) (by omega), hexDigits_inj b (h2 b (by simp)) d (h2' d (by simp)) (by omega)]

theorem Spec.IsHexBytes.text {l : List UInt8} {s : List Char} (h : IsHexBytes l s) {s' : List Char} (h' : IsHexBytes l s') : s = s' := by
  induction h generalizing s' with
  | nil => cases h'; rfl
  | cons hx _ ih =>
    cases h' with
    | cons hx' h' => rw [hx.text hx', ih h']

/-! ### Writing into the array -/

theorem CharBuf.put_mid (p q : CharBuf) (x : Option Char) (c : Char) (i : Int) (hi : i = p.length) :
    CharBuf.put (p ++ x :: q) i c = .ok (p ++ some c :: q) := by
  subst hi
  unfold CharBuf.put
  rw [if_pos (by simp; omega)]
  simp

theorem CharBuf.puts_mid (s : List Char) (p m q : CharBuf) (i : Int) (hi : i = p.length) (hm : m.length = s.length) :
    CharBuf.puts (p ++ (m ++ q)) i s = .ok (p ++ (s.map some ++ q)) := by
  induction s generalizing p m i with
  | nil =>
    obtain rfl : m = [] := List.eq_nil_of_length_eq_zero hm
    rfl
  | cons c s ih =>
    match m, hm with
    | x :: m, hm =>
      unfold CharBuf.puts
      rw [List.cons_append, put_mid p (m ++ q) x c i hi]
      have := ih (p ++ [some c]) m (i + 1) (by subst hi; simp) (by simpa using hm)
      rw [List.append_assoc] at this
      simpa [Except.bind] using this

/-- two digits and the null character, where three characters are left -/
theorem CharBuf.snprintf_mid (s : List Char) (p q : CharBuf) (i : Int) (n : Nat) (hi : i = p.length) (hs : s.length = 2)
    (hn : 3 ≤ n) (hq : 3 ≤ q.length) :
    CharBuf.snprintf (p ++ q) i n s = .ok (p ++ (s.map some ++ some '\x00' :: q.drop 3)) := by
  unfold CharBuf.snprintf
  rw [if_neg (by omega), List.take_of_length_le (by omega)]
  have := puts_mid (s ++ ['\x00']) p (q.take 3) (q.drop 3) i hi (by simp; omega)
  rw [List.take_append_drop] at this
  rw [this]
  simp

theorem zeroless (l : List UInt8) : ∀ c ∈ l.flatMap (fun b => putX0 2 b.toNat), c ≠ '\x00' := by
  intro c hc
  obtain ⟨b, _, hb⟩ := List.mem_flatMap.1 hc
  have h0 : ∀ c ∈ hexDigits, c ≠ '\x00' := by decide
  exact h0 c ((hex2 b).2.1 c hb)

/-- The loop of `fdump` once the first character is written. -/
theorem checksumFdumpLoop_eq (len : Nat) (l : List UInt8) (d : List Char) (q : CharBuf) (hd : d.length + 1 ≤ len)
    (hq : len ≤ d.length + 1 + q.length) :
    ∃ q', checksumFdumpLoop len l d.length (d.map some ++ some '\x00' :: q) =
        .ok ((d ++ (l.take ((len - 1 - d.length) / 2)).flatMap fun b => putX0 2 b.toNat).map some ++ some '\x00' :: q') ∧
      (d ++ (l.take ((len - 1 - d.length) / 2)).flatMap fun b => putX0 2 b.toNat).length + q'.length = d.length + q.length ∧
      ((d ++ (l.take ((len - 1 - d.length) / 2)).flatMap fun b => putX0 2 b.toNat).map some ++ some '\x00' :: q').drop len =
        (d.map some ++ some '\x00' :: q).drop len := by
  induction l generalizing d q with
  | nil => exact ⟨q, by simp [checksumFdumpLoop]⟩
  | cons c l ih =>
    unfold checksumFdumpLoop
    by_cases h : (d.length : Int) + 2 ≥ len
    · rw [if_pos h, show (len - 1 - d.length) / 2 = 0 by omega]
      simp only [List.take_zero, List.flatMap_nil, List.append_nil]
      by_cases h1 : len = d.length + 1
      · subst h1
        rw [CharBuf.put_mid _ _ _ _ _ (by simp)]
        exact ⟨q, rfl, rfl, rfl⟩
      · have h2 : len = d.length + 2 := by omega
        subst h2
        match q, hq with
        | [], hq => simp at hq
        | x :: q, _ =>
          have := CharBuf.put_mid (d.map some ++ [some '\x00']) q x '\x00' ((d.length + 2 : Nat) - 1 : Int) (by simp; omega)
          simp only [List.append_assoc, List.cons_append, List.nil_append] at this
          rw [this]
          refine ⟨some '\x00' :: q, rfl, by simp, ?_⟩
          rw [List.drop_append, List.drop_append]
          simp
    · rw [if_neg h]
      have hs := (hex2 c).1
      have hL : (d ++ putX0 2 c.toNat).length = d.length + 2 := by rw [List.length_append, hs]
      dsimp only
      rw [CharBuf.snprintf_mid _ (d.map some) (some '\x00' :: q) _ _ (by simp) hs (by omega) (by simp; omega)]
      simp only [Except.bind]
      obtain ⟨q', h1, h2, h3⟩ := ih (d ++ putX0 2 c.toNat) ((some '\x00' :: q).drop 3) (by simp [hs]; omega) (by simp [hs]; omega)
      have he : (len - 1 - d.length) / 2 = (len - 1 - (d ++ putX0 2 c.toNat).length) / 2 + 1 := by rw [hL]; omega
      rw [he]
      simp only [List.take_succ_cons, List.flatMap_cons]
      refine ⟨q', ?_, ?_, ?_⟩
      · rw [← List.append_assoc d, ← h1]
        simp [hs]
      · rw [← List.append_assoc d, h2, hL, List.length_drop, List.length_cons]; omega
      · rw [← List.append_assoc d, h3]
        rw [List.drop_append, List.drop_append]
        simp only [List.length_map, List.length_append, hs]
        have hl : len - (d.length + 2) = (len - d.length - 3) + 1 := by omega
        have hl2 : len - d.length = (len - d.length - 3) + 1 + 2 := by omega
        rw [hl, hl2]
        have e1 : (List.map some (d ++ putX0 2 c.toNat)).drop len = [] := List.drop_eq_nil_of_le (by rw [List.length_map, hL]; omega)
        have e2 : (d.map some).drop len = [] := List.drop_eq_nil_of_le (by rw [List.length_map]; omega)
        rw [e1, e2]
        simp only [List.drop_succ_cons, List.drop_drop, List.nil_append]
        congr 1
        omega

/-! ### C57 -/

/-- C57: `fdump(output, n)` into an array of at least `n` characters, `n = 1` or `n ≥ 3`: the array then holds a C string, two digits per byte of the
checksum for as many bytes as fit in `n - 1` characters, and nothing from `output[n]` on is touched. -/
theorem C57_fdump (l : List UInt8) (hl : l ≠ []) (output : CharBuf) (n : Nat) (hn : n = 1 ∨ 3 ≤ n) (hlen : n ≤ output.length) :
    ∃ out s, checksumFdump l output n = .ok out ∧ out.length = output.length ∧ out.drop n = output.drop n ∧
      HoldsString out s ∧ IsHexBytes (l.take ((n - 1) / 2)) s := by
  match l, hl with
  | c :: l, _ =>
    unfold checksumFdump checksumFdumpLoop
    rcases hn with rfl | hn
    · match output, hlen with
      | x :: output, _ =>
        refine ⟨some '\x00' :: output, [], ?_, rfl, rfl, ⟨?_, output, rfl⟩, .nil⟩
        · rw [if_pos (by omega)]
          exact CharBuf.put_mid [] output x '\x00' _ rfl
        intro c hc
        cases hc
    · rw [if_neg (by omega)]
      dsimp only
      have hs := (hex2 c).1
      have := CharBuf.snprintf_mid (putX0 2 c.toNat) [] output 0 ((n : Int) - 0).toNat rfl hs (by omega) (by omega)
      simp only [List.nil_append] at this
      rw [this]
      simp only [Except.bind, Int.zero_add]
      obtain ⟨q', h1, h2, h3⟩ := checksumFdumpLoop_eq n l (putX0 2 c.toNat) (output.drop 3) (by rw [hs]; omega)
        (by rw [hs, List.length_drop]; omega)
      have he : ((c :: l).take ((n - 1) / 2)).flatMap (fun b => putX0 2 b.toNat) =
          putX0 2 c.toNat ++ (l.take ((n - 1 - (putX0 2 c.toNat).length) / 2)).flatMap fun b => putX0 2 b.toNat := by
        rw [show (n - 1) / 2 = (n - 1 - (putX0 2 c.toNat).length) / 2 + 1 by rw [hs]; omega]
        simp only [List.take_succ_cons, List.flatMap_cons]
      rw [← he] at h1 h2 h3
      refine ⟨_, _, h1, ?_, ?_, ⟨zeroless _, q', rfl⟩, hexBytes _⟩
      · rw [List.length_append, List.length_map, List.length_cons, ← Nat.add_assoc, h2, hs, List.length_drop]
        omega
      · rw [h3, List.drop_append, List.length_map, hs, List.drop_eq_nil_of_le (by rw [List.length_map, hs]; omega), List.nil_append,
          show n - 2 = n - 3 + 1 by omega, List.drop_succ_cons, List.drop_drop]
        congr 1
        omega

/-- C57: with room for all digits and the null character, all digits are written. -/
theorem C57_fdump_all (l : List UInt8) (hl : l ≠ []) (output : CharBuf) (n : Nat) (hn : 2 * l.length + 1 ≤ n) (hlen : n ≤ output.length) :
    ∃ out s, checksumFdump l output n = .ok out ∧ out.length = output.length ∧ out.drop n = output.drop n ∧
      HoldsString out s ∧ IsHexBytes l s := by
  have : 0 < l.length := List.length_pos_iff.2 hl
  obtain ⟨out, s, h⟩ := C57_fdump l hl output n (.inr (by omega)) hlen
  rw [List.take_of_length_le (by omega)] at h
  exact ⟨out, s, h⟩

/-- C57, the length left out: with `n = 2` only `output[1]` is written, so what `output` holds depends on what was in `output[0]`. -/
theorem C57_fdump_two (l : List UInt8) (hl : l ≠ []) (output : CharBuf) (hlen : 2 ≤ output.length) :
    checksumFdump l output 2 = .ok (output.set 1 (some '\x00')) ∧
      (output[0]? = some none → ∀ s, ¬ HoldsString (output.set 1 (some '\x00')) s) := by
  match l, hl, output, hlen with
  | c :: l, _, x :: y :: output, _ =>
    refine ⟨?_, ?_⟩
    · unfold checksumFdump checksumFdumpLoop
      rw [if_pos (by omega)]
      exact CharBuf.put_mid [x] output y '\x00' (2 - 1) rfl
    · intro hx s ⟨_, rest, hr⟩
      obtain rfl : x = none := by simpa using hx
      cases s <;> cases hr

/-- C57: with `n ≤ 0` the first write is outside of the array, whatever the array. -/
theorem C57_fdump_nothing (l : List UInt8) (hl : l ≠ []) (output : CharBuf) (n : Int) (hn : n ≤ 0) :
    checksumFdump l output n = .error .oob := by
  match l, hl with
  | c :: l, _ =>
    unfold checksumFdump checksumFdumpLoop
    rw [if_pos (by omega)]
    unfold CharBuf.put
    rw [if_neg (by omega)]

theorem toStdString_holds (s : List Char) (hs : ∀ c ∈ s, c ≠ '\x00') (rest : CharBuf) :
    CharBuf.toStdString (s.map some ++ some '\x00' :: rest) = .ok s := by
  induction s with
  | nil => rfl
  | cons c s ih =>
    simp only [List.map_cons, List.cons_append]
    unfold CharBuf.toStdString
    rw [if_neg (hs c (by simp)), ih (fun x hx => hs x (by simp [hx]))]
    rfl

theorem printableLoop_eq (l : List UInt8) (d : List Char) (q : CharBuf) (hq : d.length + q.length = 65) (hl : d.length + 2 * l.length ≤ 64) :
    ∃ x q', printableLoop 65 l d.length (d.map some ++ q) =
      .ok ((d ++ l.flatMap fun b => putX0 2 b.toNat).map some ++ x :: q', (d ++ l.flatMap fun b => putX0 2 b.toNat).length) := by
  induction l generalizing d q with
  | nil =>
    match q, hq with
    | [], hq => simp only [List.length_nil] at hq hl; omega
    | x :: q, _ => exact ⟨x, q, by simp [printableLoop]⟩
  | cons c l ih =>
    unfold printableLoop
    have hs := (hex2 c).1
    simp only [List.length_cons] at hl
    dsimp only
    rw [CharBuf.snprintf_mid (putX0 2 c.toNat) (d.map some) q d.length _ (by simp) hs (by omega) (by omega)]
    simp only [Except.bind]
    have hL : (d ++ putX0 2 c.toNat).length = d.length + 2 := by rw [List.length_append, hs]
    obtain ⟨x, q', h⟩ := ih (d ++ putX0 2 c.toNat) (some '\x00' :: q.drop 3) (by rw [hL, List.length_cons, List.length_drop]; omega) (by omega)
    refine ⟨x, q', ?_⟩
    rw [List.flatMap_cons, ← List.append_assoc d, ← h]
    simp [hs]

/-- C57: `GetPrintableChecksum` of a checksum of up to `kMaxLength` bytes is its bytes with two digits each. -/
theorem C57_printable (l : List UInt8) (hl : l.length ≤ 32) : ∃ s, getPrintableChecksum l = .ok s ∧ IsHexBytes l s := by
  obtain ⟨x, q, h⟩ := printableLoop_eq l [] (List.replicate 65 none) (by simp) (by simp; omega)
  refine ⟨_, ?_, hexBytes l⟩
  unfold getPrintableChecksum
  simp only [List.map_nil, List.nil_append, List.length_nil] at h
  rw [h]
  simp only [Except.bind]
  rw [CharBuf.put_mid _ _ _ _ _ (by simp)]
  exact toStdString_holds _ (zeroless l) q

theorem Spec.IsHexBytes.value {l : List UInt8} {s : List Char} (h : IsHexBytes l s) (a : Nat) :
    s.foldl (fun a c => 16 * a + hexDigits.idxOf c) a = l.foldl (fun a b => 256 * a + b.toNat) a := by
  induction h generalizing a with
  | nil => rfl
  | @cons b l x s hx _ ih =>
    rw [List.foldl_append, List.foldl_cons, ih]
    congr 1
    obtain ⟨h2, _, hv⟩ := hx
    match x, h2 with
    | [c, d], _ =>
      simp only [List.foldl_cons, List.foldl_nil] at hv ⊢
      omega

theorem Spec.IsHexBytes.digits {l : List UInt8} {s : List Char} (h : IsHexBytes l s) : s.length = 2 * l.length ∧ ∀ c ∈ s, c ∈ hexDigits := by
  induction h with
  | nil => exact ⟨rfl, by simp⟩
  | cons hx _ ih =>
    refine ⟨?_, ?_⟩
    · rw [List.length_append, hx.1, ih.1, List.length_cons]; omega
    · intro c hc
      rcases List.mem_append.1 hc with hc | hc
      · exact hx.2.1 c hc
      · exact ih.2 c hc

/-- the bytes of a big-endian 32 bit number, with two digits each, are the number with eight digits -/
theorem isHex_beBytes {v : Nat} (hv : v < 2 ^ 32) {s : List Char} (h : IsHexBytes (beBytes 4 v) s) : IsHex 8 v s := by
  refine ⟨h.digits.1, h.digits.2, ?_⟩
  rw [h.value 0]
  simp only [beBytes, List.foldl_cons, List.foldl_nil, UInt8.toNat_ofNat']
  omega

/-- C57: of a NAL unit parsed with checksums, `GetPrintableChecksum` is the checksum of the unescaped bytes (`checksum32`, C16) as a number
with eight hexadecimal digits, and `fdump` into an array of nine characters or more holds the same. -/
theorem C57_nal {st st' : ParserState} {data : List UInt8} {n : NalUnit} {b : BB} (h : parseNalUnit true st data = .ok (n, st') b) :
    ∃ rbsp c s, unescapeRbsp data = .ok rbsp ∧ n.checksum = some c ∧ getPrintableChecksum c = .ok s ∧ IsHex 8 (checksum32 rbsp) s ∧
      ∀ (output : CharBuf) (k : Nat), 9 ≤ k → k ≤ output.length →
        ∃ out, checksumFdump c output k = .ok out ∧ out.length = output.length ∧ out.drop k = output.drop k ∧ HoldsString out s := by
  obtain ⟨rbsp, hu, hp⟩ := parseNalUnit_ok h
  have hv : checksum32 rbsp < 2 ^ 32 := by unfold checksum32; omega
  obtain ⟨s, h1, h2⟩ := C57_printable (beBytes 4 (checksum32 rbsp)) (by simp [beBytes])
  refine ⟨rbsp, _, s, hu, hp.checksum, h1, isHex_beBytes hv h2, ?_⟩
  intro output k hk hlen
  obtain ⟨out, s', h3, h4, h5, h6, h7⟩ := C57_fdump_all (beBytes 4 (checksum32 rbsp)) (by simp [beBytes]) output k (by simp [beBytes]; omega) hlen
  refine ⟨out, h3, h4, h5, ?_⟩
  rw [h2.text h7]
  exact h6

/-- C57: the checksum can be read back from the text. -/
theorem C57_read_back {l l' : List UInt8} {s : List Char} (h : getPrintableChecksum l = .ok s) (h' : getPrintableChecksum l' = .ok s)
    (hl : l.length ≤ 32) (hl' : l'.length ≤ 32) : l = l' := by
  obtain ⟨_, e, hx⟩ := C57_printable l hl
  obtain ⟨_, e', hx'⟩ := C57_printable l' hl'
  rw [h] at e; rw [h'] at e'
  cases e; cases e'
  exact hx.unique hx'

/-- C57: the text in a dump of a NAL unit (`dumpChecksum`) is what `fdump` leaves in the array of 64 characters of `NalUnitState::fdump`
(src/h265_nal_unit_parser.cc:113-114). -/
theorem C57_in_dump (l : List UInt8) (hl : l ≠ []) :
    ∃ out, checksumFdump l (List.replicate 64 none) 64 = .ok out ∧ HoldsString out (dumpChecksum l) := by
  obtain ⟨out, s, h1, _, _, h2, h3⟩ := C57_fdump l hl (List.replicate 64 none) 64 (by omega) (by simp)
  refine ⟨out, h1, ?_⟩
  have h4 : IsHexBytes (l.take 31) (dumpChecksum l) := hexBytes (l.take 31)
  rw [h4.text h3]
  exact h2

/-! ### Examples -/

/-- an access unit delimiter: the hypothesis of `C57_nal` is met -/
example : (match parseNalUnit true .empty [0x46, 0x01, 0x50] with | .ok _ _ => true | _ => false) = true := by decide +kernel

example : getPrintableChecksum [0xbf, 0xa2, 0x45, 0x94] = .ok "bfa24594".toList := by decide +kernel
example : checksumFdump [0xbf, 0xa2, 0x45, 0x94] (List.replicate 6 none) 4 =
    .ok [some 'b', some 'f', some '\x00', some '\x00', none, none] := by decide +kernel
example : checksumFdump [0xbf, 0xa2, 0x45, 0x94] (List.replicate 3 none) 2 = .ok [none, some '\x00', none] := by decide +kernel

end H265
