/- C10-C14: emulation prevention, start-code scanning, explicit framing. -/
import Verif.Proof.Unescape
import Verif.Proof.Scan2
import Verif.Props.Reader

namespace H265
open Spec

/-! ### C10 -/

/-- C10: `UnescapeRbsp` undoes the emulation prevention of clause 7.3.1.1. -/
theorem C10_unescape_escape (rbsp : List UInt8) : unescapeRbsp (escape rbsp) = .ok rbsp := by
  rw [unescapeRbsp_eq]
  exact congrArg _ ((unesc_escapeFrom rbsp).1)

/-- C10: the escaped form has no `00 00 00`, `00 00 01`, `00 00 02`. -/
theorem C10_escape_safe (rbsp : List UInt8) (c : UInt8) (h : [0, 0, c] <:+: escape rbsp) : 3 ≤ c :=
  noEmu_infix (noEmu_escapeFrom rbsp).1 h

example : [0, 0, 3] <:+: escape [7, 0, 0, 0, 0, 1] ∧ escape [7, 0, 0, 0, 0, 1] = [7, 0, 0, 3, 0, 0, 3, 1] := by
  refine ⟨⟨[7], [0, 0, 3, 1], by decide⟩, by decide⟩

/-! ### C11 -/

/-- C11: the input is `c₁ 00 00 03 c₂ 00 00 03 ... last`, where no `00 00 03` occurs earlier in any
piece, and the output is the same without these `03` bytes. -/
theorem C11_unescape_decomposition (data : List UInt8) :
    ∃ (chunks : List (List UInt8)) (last : List UInt8),
      data = (chunks.map (· ++ [0, 0, 3])).flatten ++ last ∧
      unescapeRbsp data = .ok ((chunks.map (· ++ [0, 0])).flatten ++ last) ∧
      (∀ c ∈ chunks, ¬ [0, 0, 3] <:+: c ++ [0, 0]) ∧ ¬ [0, 0, 3] <:+: last := by
  obtain ⟨ch, la, h1, h2, h3, h4⟩ := unesc_decomp data.length data (Nat.le_refl _)
  exact ⟨ch, la, h1, by rw [unescapeRbsp_eq, h2], h3, h4⟩

theorem chunks_facts (chunks : List (List UInt8)) :
    ((chunks.map (· ++ [0, 0])).flatten).Sublist ((chunks.map (· ++ [0, 0, 3])).flatten) ∧
    2 * ((chunks.map (· ++ [0, 0, 3])).flatten).length ≤ 3 * ((chunks.map (· ++ [0, 0])).flatten).length ∧
    ((chunks.map (· ++ [0, 0, 3])).flatten).length = ((chunks.map (· ++ [0, 0])).flatten).length + chunks.length := by
  induction chunks with
  | nil => simp
  | cons c cs ih =>
    obtain ⟨h1, h2, h3⟩ := ih
    refine ⟨?_, ?_, ?_⟩
    · simp only [List.map_cons, List.flatten_cons]
      refine List.Sublist.append (List.Sublist.append (List.Sublist.refl _) ?_) h1
      exact List.Sublist.cons_cons _ (List.Sublist.cons_cons _ (List.nil_sublist _))
    · simp only [List.map_cons, List.flatten_cons, List.length_append, List.length_cons, List.length_nil] at *
      omega
    · simp only [List.map_cons, List.flatten_cons, List.length_append, List.length_cons, List.length_nil] at *
      omega

/-- C11: the output is a subsequence of the input, at most one third shorter, and equal to the input
exactly when the input has no `00 00 03`. -/
theorem C11_unescape_bounds (data : List UInt8) : ∃ out, unescapeRbsp data = .ok out ∧
    out.Sublist data ∧ out.length ≤ data.length ∧ 2 * data.length ≤ 3 * out.length ∧
    (out = data ↔ ¬ [0, 0, 3] <:+: data) := by
  obtain ⟨ch, la, h1, h2, h3, h4⟩ := C11_unescape_decomposition data
  obtain ⟨f1, f2, f3⟩ := chunks_facts ch
  refine ⟨_, h2, ?_, ?_, ?_, ?_⟩
  · conv => rhs; rw [h1]
    exact List.Sublist.append f1 (List.Sublist.refl _)
  · conv => rhs; rw [h1]
    simp only [List.length_append]; omega
  · rw [h1]; simp only [List.length_append]; omega
  · constructor
    · intro he
      have hl := congrArg List.length he
      rw [h1] at hl
      simp only [List.length_append] at hl
      have : ch = [] := List.length_eq_zero_iff.mp (by omega)
      subst this
      rw [h1]; simpa using h4
    · intro hn
      cases ch with
      | nil => simpa using h1.symm
      | cons c cs =>
        exfalso; apply hn
        rw [h1]
        exact ⟨c, (cs.map (· ++ [0, 0, 3])).flatten ++ la, by simp⟩

example : unescapeRbsp [0, 0, 3, 0, 0, 3] = .ok [0, 0, 0, 0] := by rfl

/-! ### C12 -/

/-- C12: every reported NAL unit is preceded by a start code, lies inside the buffer, ends where
the next reported start code begins (or at the end of the buffer), and contains no start code
that is followed by a byte. -/
theorem C12_find_sound (data : List UInt8) (hlen : data.length < 2 ^ 64) :
    ∃ l, findNaluIndices data = .ok l ∧ ∀ (j : Nat) (e : NaluIndex), l[j]? = some e →
      3 ≤ e.payloadStartOffset ∧ startCodeAt data (e.payloadStartOffset - 3) ∧
      e.startOffset = startCodeBegin data (e.payloadStartOffset - 3) ∧
      e.payloadStartOffset + e.payloadSize ≤ data.length ∧
      (∀ e', l[j + 1]? = some e' →
        e.payloadStartOffset + e.payloadSize = e'.startOffset ∧ e.startOffset < e'.startOffset ∧
        e'.startOffset < e'.payloadStartOffset) ∧
      (l[j + 1]? = none → e.payloadStartOffset + e.payloadSize = data.length) ∧
      (∀ p, startCodeAt data p → ¬ (e.payloadStartOffset ≤ p ∧ p < e.payloadStartOffset + e.payloadSize)) := by
  refine ⟨_, findNaluIndices_eq data hlen, ?_⟩
  intro j e he
  rw [entries_getElem] at he
  have hsorted := starts_sorted data data.length
  change (starts data).Pairwise (· < ·) at hsorted
  have hmem : ∀ {k p}, (starts data)[k]? = some p → startCodeAt data p := fun h =>
    (mem_startsBelow.mp (List.mem_of_getElem? h)).2
  cases hp : (starts data)[j]? with
  | none => rw [hp] at he; simp at he
  | some p =>
    rw [hp] at he
    simp only [Option.map_some, Option.some.injEq] at he
    have hsp := hmem hp
    have hb := startCodeBegin_le data p
    cases hq : (starts data)[j + 1]? with
    | none =>
      rw [hq] at he
      simp only at he
      subst he
      have := hsp.2.2.2
      refine ⟨by simp, by simpa using hsp, by simp, by simp only; omega, ?_, by intro _; simp only; omega, ?_⟩
      · intro e' he'
        rw [entries_getElem, hq] at he'; simp at he'
      · rintro p' hp' ⟨h1, h2⟩
        simp only at h1 h2
        have hm : p' ∈ starts data := mem_startsBelow.mpr ⟨by have := hp'.2.2.2; omega, hp'⟩
        obtain ⟨k, hk⟩ := List.getElem?_of_mem hm
        rw [List.getElem?_eq_none_iff] at hq
        have hkl := (List.getElem?_eq_some_iff.mp hk).1
        have hjl := (List.getElem?_eq_some_iff.mp hp).1
        rcases Nat.lt_trichotomy k j with h | h | h
        · have := sorted_getElem hsorted hk hp h; omega
        · subst h; rw [hp] at hk; cases hk; omega
        · omega
    | some q =>
      rw [hq] at he
      simp only at he
      subst he
      have hsq := hmem hq
      have hlt : p < q := sorted_getElem hsorted hp hq (by omega)
      have hap := startCodeBegin_apart hsp hsq hlt
      have hbq := startCodeBegin_le data q
      have := hsq.2.2.2
      refine ⟨by simp, by simpa using hsp, by simp, by simp only; omega, ?_, ?_, ?_⟩
      · intro e' he'
        rw [entries_getElem, hq] at he'
        simp only [Option.map_some, Option.some.injEq] at he'
        subst he'
        simp only
        omega
      · rw [entries_getElem, hq]; simp
      · rintro p' hp' ⟨h1, h2⟩
        simp only at h1 h2
        have hm : p' ∈ starts data := mem_startsBelow.mpr ⟨by have := hp'.2.2.2; omega, hp'⟩
        obtain ⟨k, hk⟩ := List.getElem?_of_mem hm
        rcases Nat.lt_trichotomy k j with h | h | h
        · have := sorted_getElem hsorted hk hp h; omega
        · subst h; rw [hp] at hk; cases hk; omega
        · rcases Nat.lt_trichotomy k (j + 1) with h' | h' | h'
          · omega
          · subst h'; rw [hq] at hk; cases hk; omega
          · have := sorted_getElem hsorted hq hk h'; omega

example : findNaluIndices [9, 0, 0, 1, 5, 0, 0, 0, 1, 6, 7] = .ok [⟨1, 4, 1⟩, ⟨5, 9, 2⟩] := by decide +kernel

/-! ### C13 -/

/-- C13: a NAL unit is reported behind every start code that is followed by at least one byte. -/
theorem C13_find_complete (data : List UInt8) (hlen : data.length < 2 ^ 64) :
    ∃ l, findNaluIndices data = .ok l ∧
      ∀ p, startCodeAt data p ↔ ∃ e ∈ l, e.payloadStartOffset = p + 3 := by
  refine ⟨_, findNaluIndices_eq data hlen, ?_⟩
  intro p
  constructor
  · intro hp
    have hm : p ∈ starts data := mem_startsBelow.mpr ⟨by have := hp.2.2.2; omega, hp⟩
    obtain ⟨k, hk⟩ := List.getElem?_of_mem hm
    have he := entries_getElem data data.length (starts data) k
    rw [hk] at he
    exact ⟨_, List.mem_of_getElem? he, rfl⟩
  · rintro ⟨e, he, hpe⟩
    obtain ⟨k, hk⟩ := List.getElem?_of_mem he
    rw [entries_getElem] at hk
    cases hp : (starts data)[k]? with
    | none => rw [hp] at hk; simp at hk
    | some q =>
      rw [hp] at hk
      simp only [Option.map_some, Option.some.injEq] at hk
      subst hk
      simp only at hpe
      have : q = p := by omega
      subst this
      exact (mem_startsBelow.mp (List.mem_of_getElem? hp)).2

/-- C13: splitting an Annex B byte stream returns exactly the NAL units it was made of. -/
theorem C13_split_annexB (units : List (Bool × List UInt8)) (hu : ∀ x ∈ units, NalBytes x.2)
    (hlen : (annexB units).length < 2 ^ 64) :
    ∃ l, findNaluIndices (annexB units) = .ok l ∧
      l.map (fun e => ((annexB units).drop e.payloadStartOffset).take e.payloadSize) = units.map (·.2) ∧
      l.map (fun e => e.payloadStartOffset - e.startOffset) = units.map (fun x => if x.1 then 4 else 3) := by
  refine ⟨_, findNaluIndices_eq _ hlen, ?_⟩
  rw [starts_eq_startsAt]
  have h1 := entries_annexB [] units hu (by simp)
  have h2 := nalSpans_slices units []
  simp only [List.nil_append, List.length_nil] at h1 h2
  rw [h1]
  refine ⟨h2, ?_⟩
  have : ∀ off, (nalSpans off units).map (fun e => e.payloadStartOffset - e.startOffset)
      = units.map (fun x => if x.1 then 4 else 3) := by
    clear h1 h2 hu hlen
    induction units with
    | nil => intro off; rfl
    | cons x us ih =>
      intro off
      obtain ⟨b, n⟩ := x
      rw [nalSpans, List.map_cons, List.map_cons, ih]
      congr 1
      cases b <;> simp
  exact this 0

example : ∀ x ∈ [(true, [0x40, 1, 0x0c]), (false, [0x42, 0, 0, 3, 1])], NalBytes x.2 := by
  intro x hx
  simp only [List.mem_cons, List.not_mem_nil, or_false] at hx
  have key : ∀ n : List UInt8, n ≠ [] → (∀ p ∈ List.range n.length, ((n.drop p).take 3) ≠ [0, 0, 1]) → n.getLast? ≠ some 0 → NalBytes n := by
    intro n h1 h2 h3
    refine ⟨h1, ?_, h3⟩
    rintro ⟨a, b, hab⟩
    refine h2 a.length ?_ ?_
    · rw [List.mem_range, ← hab]; simp only [List.length_append, List.length_cons]; omega
    · rw [← hab]; simp
  rcases hx with rfl | rfl <;> exact key _ (by decide) (by decide) (by decide)

/-- C13: a start code that ends the buffer is not reported (its NAL unit would be empty). -/
theorem C13_final_start_code_ignored : findNaluIndices [0x40, 1, 0, 0, 1] = .ok [] := by decide +kernel

/-! ### C14 -/

theorem be32_eq {data : List UInt8} {i : Nat} (h : i + 4 ≤ data.length) : be32 data i = be32At data i := by
  have hd : ∀ k, k < data.length → data.drop k = data.getD k 0 :: data.drop (k + 1) := by
    intro k hk
    rw [List.getD_eq_getElem?_getD, List.getElem?_eq_getElem hk]; exact (List.getElem_cons_drop (h := hk)).symm
  unfold be32
  rw [hd i (by omega), hd (i + 1) (by omega), hd (i + 1 + 1) (by omega), hd (i + 1 + 1 + 1) (by omega)]
  simp only [List.take_succ_cons, List.take_zero, bitsOf_cons, bitsOf_nil, List.append_nil]
  rw [val_append, val_append, val_append]
  simp only [List.length_append, byteBits_eq_u, u_length]
  have hv : ∀ b : UInt8, val (u 8 b.toNat) = b.toNat := fun b => val_u_of_lt b.toNat_lt
  rw [hv, hv, hv, hv]
  unfold be32At
  rw [show i + 1 + 1 = i + 2 by rfl, show i + 2 + 1 = i + 3 by rfl]
  omega

theorem explicitLoop_framed (data : List UInt8) (hlen : data.length < 2 ^ 32) : ∀ fuel i, data.length - i < fuel →
    ∃ l, explicitLoop data fuel i = .ok l ∧ Framed data i (l.map fun e => (e.startOffset, e.payloadSize)) ∧
      ∀ e ∈ l, e.payloadStartOffset = e.startOffset + 4 := by
  intro fuel
  induction fuel with
  | zero => intro i h; omega
  | succ fuel ih =>
    intro i h
    by_cases h4 : i + 4 ≤ data.length
    · rw [explicitLoop_step data fuel i h4]
      by_cases hs : be32At data i > data.length - i - 4
      · rw [if_pos hs]
        refine ⟨[], rfl, .stop (Or.inr ?_), by simp⟩
        rw [be32_eq h4]; omega
      · rw [if_neg hs]
        have hadd : addU32 4 (be32At data i) = 4 + be32At data i := by
          unfold addU32; rw [Nat.mod_eq_of_lt]; omega
        rw [hadd]
        obtain ⟨l, hl, hf, hp⟩ := ih (i + (4 + be32At data i)) (by omega)
        rw [hl]
        refine ⟨_, rfl, ?_, ?_⟩
        · simp only [List.map_cons]
          rw [← be32_eq h4] at hf hs ⊢
          refine .unit (by omega) ?_
          rw [Nat.add_assoc]; exact hf
        · intro e he
          cases he with
          | head => rfl
          | tail _ he => exact hp e he
    · rw [explicitLoop_stop data fuel i h4]
      exact ⟨[], rfl, .stop (Or.inl (by omega)), by simp⟩

/-- C14: on any buffer below 4 GiB, `FindNaluIndicesExplicitFraming` returns exactly the complete
length-prefixed units from offset 0 on, up to the first truncated one. -/
theorem C14_explicit_framing (data : List UInt8) (hlen : data.length < 2 ^ 32) :
    ∃ l, findNaluIndicesExplicitFraming data = .ok l ∧
      Framed data 0 (l.map fun e => (e.startOffset, e.payloadSize)) ∧
      ∀ e ∈ l, e.payloadStartOffset = e.startOffset + 4 :=
  explicitLoop_framed data hlen (data.length + 1) 0 (by omega)

/-- `Framed` determines the units, and they are in range. -/
theorem Framed.unique {data : List UInt8} {off : Nat} {l l' : List (Nat × Nat)} (h : Framed data off l) (h' : Framed data off l') :
    l = l' := by
  induction h generalizing l' with
  | stop hs => cases h' with
    | stop => rfl
    | unit h1 h2 => omega
  | unit h1 h2 ih => cases h' with
    | stop hs => omega
    | unit h1' h2' => rw [ih h2']

theorem beBytes4 (v : Nat) (h : v < 2 ^ 32) : ∃ a b c d : UInt8, beBytes 4 v = [a, b, c, d] ∧
    v = a.toNat * 2 ^ 24 + b.toNat * 2 ^ 16 + c.toNat * 2 ^ 8 + d.toNat := by
  refine ⟨_, _, _, _, rfl, ?_⟩
  simp only [UInt8.toNat_ofNat']
  omega

theorem framed_lengthPrefixed (units : List (List UInt8)) (pre : List UInt8) (hu : ∀ x ∈ units, x.length < 2 ^ 32) :
    ∃ l, Framed (pre ++ lengthPrefixed 4 units) pre.length l ∧
      l.map (fun e => ((pre ++ lengthPrefixed 4 units).drop (e.1 + 4)).take e.2) = units := by
  induction units generalizing pre with
  | nil => exact ⟨[], .stop (Or.inl (by simp [lengthPrefixed])), rfl⟩
  | cons x us ih =>
    have hb : lengthPrefixed 4 (x :: us) = (beBytes 4 x.length ++ x) ++ lengthPrefixed 4 us := rfl
    obtain ⟨l, hl, hm⟩ := ih (pre ++ (beBytes 4 x.length ++ x)) (fun y hy => hu y (by simp [hy]))
    rw [hb]
    rw [List.append_assoc] at hl hm
    obtain ⟨a, b, c, d, he, hv⟩ := beBytes4 x.length (hu x (by simp))
    have hsz : be32 (pre ++ ((beBytes 4 x.length ++ x) ++ lengthPrefixed 4 us)) pre.length = x.length := by
      rw [be32_eq (by rw [he]; simp only [List.length_append, List.length_cons]; omega)]
      unfold be32At
      have hg : ∀ k, (pre ++ ((beBytes 4 x.length ++ x) ++ lengthPrefixed 4 us)).getD (pre.length + k) 0
          = ((beBytes 4 x.length ++ x) ++ lengthPrefixed 4 us).getD k 0 := by
        intro k
        rw [List.getD_eq_getElem?_getD, List.getD_eq_getElem?_getD, List.getElem?_append_right (by omega)]; simp
      rw [hg 1, hg 2, hg 3, show pre.length = pre.length + 0 by rfl, hg 0, he]
      simpa using hv.symm
    refine ⟨(pre.length, x.length) :: l, ?_, ?_⟩
    · have : Framed (pre ++ ((beBytes 4 x.length ++ x) ++ lengthPrefixed 4 us)) pre.length
          ((pre.length, be32 (pre ++ ((beBytes 4 x.length ++ x) ++ lengthPrefixed 4 us)) pre.length) :: l) := by
        refine .unit ?_ ?_
        · rw [hsz, he]; simp; omega
        · rw [hsz]
          have e : (pre ++ (beBytes 4 x.length ++ x)).length = pre.length + 4 + x.length := by
            rw [he]; simp; omega
          rw [e] at hl; exact hl
      rw [hsz] at this
      exact this
    · rw [List.map_cons, hm]
      congr 1
      have e : pre ++ ((beBytes 4 x.length ++ x) ++ lengthPrefixed 4 us) = (pre ++ beBytes 4 x.length) ++ (x ++ lengthPrefixed 4 us) := by simp
      rw [e]
      simp only
      rw [List.drop_append, List.drop_of_length_le (by rw [he]; simp), show pre.length + 4 - (pre ++ beBytes 4 x.length).length = 0 by rw [he]; simp]
      simp

theorem length_le_lengthPrefixed (units : List (List UInt8)) (n : Nat) : ∀ x ∈ units, x.length ≤ (lengthPrefixed n units).length := by
  induction units with
  | nil => intro x hx; cases hx
  | cons y ys ih =>
    intro x hx
    have e : (lengthPrefixed n (y :: ys)).length = (beBytes n y.length).length + y.length + (lengthPrefixed n ys).length := by
      simp [lengthPrefixed, Nat.add_assoc]
    cases hx with
    | head => omega
    | tail _ hx => have := ih x hx; omega

/-- C14: splitting a stream of length-prefixed NAL units returns exactly these NAL units. -/
theorem C14_split (units : List (List UInt8)) (hlen : (lengthPrefixed 4 units).length < 2 ^ 32) :
    ∃ l, findNaluIndicesExplicitFraming (lengthPrefixed 4 units) = .ok l ∧
      l.map (fun e => ((lengthPrefixed 4 units).drop e.payloadStartOffset).take e.payloadSize) = units := by
  obtain ⟨l, h1, h2, h3⟩ := C14_explicit_framing _ hlen
  obtain ⟨l', h4, h5⟩ := framed_lengthPrefixed units [] (fun x hx =>
    Nat.lt_of_le_of_lt (length_le_lengthPrefixed units 4 x hx) hlen)
  simp only [List.nil_append, List.length_nil] at h4 h5
  refine ⟨l, h1, ?_⟩
  conv => rhs; rw [← h5]
  rw [← Framed.unique h2 h4, List.map_map]
  apply List.map_congr_left
  intro e he
  simp [h3 e he]

example : lengthPrefixed 4 [[0x40, 1], [], [0x42]] = [0, 0, 0, 2, 0x40, 1, 0, 0, 0, 0, 0, 0, 0, 1, 0x42] := by decide

/-- C14 fails at 4 GiB: `4 + nal_unit_size` is a 32-bit sum, so a size field `FF FF FF FC` followed by
that many bytes moves the scan by 0: the loop never ends (and appends an entry every round). -/
theorem C14_wrap_hangs (payload : List UInt8) (h : payload.length = 0xFFFFFFFC) :
    findNaluIndicesExplicitFraming ([0xFF, 0xFF, 0xFF, 0xFC] ++ payload) = .error .hang ∧
    ∀ fuel, explicitLoop ([0xFF, 0xFF, 0xFF, 0xFC] ++ payload) fuel 0 = .error .hang := by
  have key : ∀ fuel, explicitLoop ([0xFF, 0xFF, 0xFF, 0xFC] ++ payload) fuel 0 = .error .hang := by
    intro fuel
    induction fuel with
    | zero => rfl
    | succ fuel ih =>
      rw [explicitLoop_step _ _ _ (by simp)]
      have hb : be32At ([0xFF, 0xFF, 0xFF, 0xFC] ++ payload) 0 = 0xFFFFFFFC := by simp [be32At]
      rw [hb, if_neg (by simp only [List.length_append, List.length_cons, List.length_nil]; omega)]
      have ha : addU32 4 0xFFFFFFFC = 0 := by decide
      rw [ha, Nat.zero_add, ih]
  exact ⟨key _, key⟩

end H265
