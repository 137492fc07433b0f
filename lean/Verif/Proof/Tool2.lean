/-
The command line tool on parsed streams.
-/
import Verif.Proof.Tool
import Verif.Props.Dump
import Verif.Props.Utils
import Verif.Props.Size

set_option autoImplicit false

namespace H265
open Spec

/-! ### The table -/

theorem lengthLoop_null {fps : Nat} : ∀ {l : List NalUnit} {v : LengthState},
    (∃ n ∈ l, isSliceSegment n.nal_unit_header.nal_unit_type = true ∧ n.nal_unit_payload.slice_segment_layer = none) →
      toolLengthLoop fps v l = .error .nullDeref
  | [], v, h => by obtain ⟨n, hn, _⟩ := h; cases hn
  | m :: l, v, h => by
    unfold toolLengthLoop
    cases hu : toolLengthUnit fps v m with
    | error k =>
      unfold toolLengthUnit at hu
      simp only at hu
      split at hu
      · split at hu
        · cases hu; rfl
        · cases hu
      · cases hu
    | ok x =>
      obtain ⟨t, v'⟩ := x
      dsimp only
      have : ∃ n ∈ l, isSliceSegment n.nal_unit_header.nal_unit_type = true ∧ n.nal_unit_payload.slice_segment_layer = none := by
        obtain ⟨n, hn, h1, h2⟩ := h
        rcases List.mem_cons.1 hn with rfl | hn
        · unfold toolLengthUnit at hu
          simp only [h1, h2, if_true] at hu
          cases hu
        · exact ⟨n, hn, h1, h2⟩
      rw [lengthLoop_null this]

/-! ### Offsets and lengths -/

theorem parseAll_places {cs : Bool} : ∀ {l : List (Nat × Nat × List UInt8)} {st st' : ParserState} {ns : List NalUnit}, parseAll cs l st = .ok (ns, st') →
    ∃ l', List.Sublist l' l ∧ ns.map (fun n => (n.offset, n.length)) = l'.map (fun x => (x.1, x.2.1)) ∧ ∀ x ∈ l', x.2.2 ≠ []
  | [], st, st', ns, h => by cases h; exact ⟨[], .slnil, rfl, by simp⟩
  | (off, len, nal) :: rest, st, st', ns, h => by
    by_cases hnil : nal = []
    · subst hnil
      rw [parseAll_nil] at h
      obtain ⟨l', h1, h2, h3⟩ := parseAll_places h
      exact ⟨l', h1.cons _, h2, h3⟩
    · simp only [parseAll] at h
      cases hp : parseNalUnit cs st nal with
      | bad k => rw [hp] at h; cases h
      | fail b =>
        rw [hp] at h
        obtain ⟨l', h1, h2, h3⟩ := parseAll_places h
        exact ⟨l', h1.cons _, h2, h3⟩
      | ok x b =>
        obtain ⟨n, st1⟩ := x
        rw [hp] at h
        simp only at h
        cases hr : parseAll cs rest st1 with
        | error k => rw [hr] at h; cases h
        | ok y =>
          obtain ⟨ms, st2⟩ := y
          rw [hr] at h
          cases h
          obtain ⟨l', h1, h2, h3⟩ := parseAll_places hr
          refine ⟨(off, len, nal) :: l', h1.cons_cons _, by simp [h2], ?_⟩
          intro x hx
          rcases List.mem_cons.1 hx with rfl | hx
          · exact hnil
          · exact h3 x hx

theorem sublist_sum {l l' : List Nat} (h : List.Sublist l l') : l.sum ≤ l'.sum := by
  induction h with
  | slnil => exact Nat.le_refl _
  | cons a h ih => rw [List.sum_cons]; omega
  | cons_cons a h ih => rw [List.sum_cons, List.sum_cons]; omega

/-- slice segments of a stream are of a slice type -/
theorem parseAll_slice {cs : Bool} {l : List (Nat × Nat × List UInt8)} {st st' : ParserState} {ns : List NalUnit} (h : parseAll cs l st = .ok (ns, st')) :
    ∀ n ∈ ns, n.nal_unit_payload.slice_segment_layer.isSome = true → isSliceSegment n.nal_unit_header.nal_unit_type = true := by
  intro n hn hs
  obtain ⟨a, b, rfl⟩ := List.append_of_mem hn
  obtain ⟨_, _, _, _, _, h5⟩ := parseAll_split h
  obtain ⟨s, hs⟩ := Option.isSome_iff_exists.1 hs
  exact (h5 s hs).1

theorem entries_sum (data : List UInt8) : ((entries data data.length (starts data)).map (·.payloadSize)).sum ≤ data.length := by
  have h2 := starts_sorted data data.length
  have h3 : ∀ q ∈ starts data, q ≤ data.length := by
    intro q hq
    unfold starts startsBelow at hq
    rw [List.mem_filter, List.mem_range] at hq
    omega
  unfold starts at h3 ⊢
  cases hl : startsBelow data data.length with
  | nil => exact Nat.zero_le _
  | cons p l => rw [hl] at h2 h3; exact Nat.le_trans (entries_total data p l h2 h3) (Nat.sub_le _ _)

/-- offsets and lengths of the units of an Annex B stream -/
theorem bitstream_places {cs : Bool} {st st' : ParserState} {data : List UInt8} {ns : List NalUnit} (hlen : data.length < 2 ^ 64)
    (h : parseBitstream cs st data = .ok (ns, st')) :
    (∀ n ∈ ns, 0 < n.length ∧ n.offset + n.length ≤ data.length) ∧ (ns.map (·.length)).sum ≤ data.length := by
  rw [parseBitstream_eq _ _ _ hlen] at h
  obtain ⟨l', h1, h2, h3⟩ := parseAll_places h
  have hmem : ∀ n ∈ ns, ∃ x ∈ l', n.offset = x.1 ∧ n.length = x.2.1 := by
    intro n hn
    have : (n.offset, n.length) ∈ l'.map (fun x => (x.1, x.2.1)) := by rw [← h2]; exact List.mem_map.2 ⟨n, hn, rfl⟩
    obtain ⟨x, hx, he⟩ := List.mem_map.1 this
    simp only [Prod.mk.injEq] at he
    exact ⟨x, hx, he.1.symm, he.2.symm⟩
  refine ⟨?_, ?_⟩
  · intro n hn
    obtain ⟨x, hx, ho, hl⟩ := hmem n hn
    obtain ⟨e, he, rfl⟩ := List.mem_map.1 (h1.subset hx)
    have h4 := h3 _ hx
    have h5 := entries_inside hlen e he
    simp only [spanOf] at ho hl h4
    have h6 : 0 < ((data.drop e.payloadStartOffset).take e.payloadSize).length := List.length_pos_iff.2 h4
    rw [List.length_take] at h6
    omega
  · have e1 : ns.map (·.length) = l'.map (·.2.1) := by
      have := congrArg (List.map Prod.snd) h2
      simp only [List.map_map] at this
      exact this
    rw [e1]
    refine Nat.le_trans (sublist_sum (h1.map _)) ?_
    rw [List.map_map]
    exact entries_sum data

theorem framed_count {w : Nat} {data : List UInt8} {off : Nat} {l : List (Nat × Nat)} (h : FramedBy w data off l) :
    w * l.length ≤ data.length - off := by
  induction h with
  | stop => simp
  | unit h1 h2 _ ih => rw [List.length_cons, Nat.mul_add, Nat.mul_one]; omega

/-- the units of a stream with length fields of `w` bytes: the length that is stored is `w` -/
theorem length_places {cs : Bool} {w : Nat} {st st' : ParserState} {data : List UInt8} {ns : List NalUnit} (hw0 : 0 < w) (hw : w ≤ 7) (hlen : data.length < 2 ^ 63)
    (h : parseBitstreamNaluLength cs w st data = .ok (ns, st')) : (∀ n ∈ ns, n.length = w) ∧ w * ns.length ≤ data.length := by
  obtain ⟨l, h1, h2⟩ := C15_length_framing cs w st data hw0 hw hlen
  rw [h2] at h
  obtain ⟨l', h3, h4, _⟩ := parseAll_places h
  have hall : ∀ x ∈ l', x.2.1 = w := by
    intro x hx
    obtain ⟨y, _, rfl⟩ := List.mem_map.1 (h3.subset hx)
    rfl
  refine ⟨?_, ?_⟩
  · intro n hn
    have : (n.offset, n.length) ∈ l'.map (fun x => (x.1, x.2.1)) := by rw [← h4]; exact List.mem_map.2 ⟨n, hn, rfl⟩
    obtain ⟨x, hx, he⟩ := List.mem_map.1 this
    simp only [Prod.mk.injEq] at he
    rw [← he.2]; exact hall x hx
  · have e1 : ns.length = l'.length := by
      have := congrArg List.length h4
      simpa using this
    have h5 := h3.length_le
    rw [List.length_map] at h5
    have h6 := framed_count h1
    have h7 : w * ns.length ≤ w * l.length := Nat.mul_le_mul_left _ (by omega)
    omega

/-! ### Contents -/

theorem contentsLoop_words (data : List UInt8) (off len : Nat) : ∀ (fuel i : Nat), len ≤ fuel + i →
    (∃ t, contentsLoop data off len fuel i = ' ' :: t ∨ contentsLoop data off len fuel i = []) ∧
    '\n' ∉ contentsLoop data off len fuel i ∧
    words (contentsLoop data off len fuel i) = ((data.drop (off + i)).take (len - i)).map fun b => hexadecimal 2 b.toNat
  | 0, i, h => by
    have : len - i = 0 := by omega
    simp [contentsLoop, this, words_nil]
  | fuel + 1, i, h => by
    obtain ⟨ih1, ih2, ih3⟩ := contentsLoop_words data off len fuel (i + 1) (by omega)
    unfold contentsLoop
    by_cases hi : i < len
    · rw [if_pos hi]
      cases hb : data[off + i]? with
      | none =>
        have : data.drop (off + i) = [] := by
          rw [List.drop_eq_nil_iff]; exact List.getElem?_eq_none_iff.1 hb
        simp [this, words_nil]
      | some b =>
        dsimp only
        have hw := putX0_word 2 b.toNat
        have hlt := (List.getElem?_eq_some_iff.1 hb).1
        have he := (List.getElem?_eq_some_iff.1 hb).2
        have hd : data.drop (off + i) = b :: data.drop (off + (i + 1)) := by
          rw [List.drop_eq_getElem_cons hlt, he]; rfl
        have hlen : len - i = (len - (i + 1)) + 1 := by omega
        have hsep : ∀ (g : List Char), (g = [] ∨ g = [' ']) → Sep (g ++ contentsLoop data off len fuel (i + 1)) ∧
            words (g ++ contentsLoop data off len fuel (i + 1)) = words (contentsLoop data off len fuel (i + 1)) := by
          rintro g (rfl | rfl)
          · refine ⟨?_, rfl⟩
            obtain ⟨t, h | h⟩ := ih1
            · exact .inr (.inl ⟨t, by simpa using h⟩)
            · exact .inl (by simpa using h)
          · exact ⟨.inr (.inl ⟨_, rfl⟩), words_space _⟩
        refine ⟨⟨_, .inl rfl⟩, ?_, ?_⟩
        · intro hm
          simp only [List.cons_append, List.mem_cons, List.mem_append] at hm
          rcases hm with h | h | h | h
          · cases h
          · have := hw.solid.2 _ h
            simp [blank] at this
          · split at h <;> simp at h
          · exact ih2 h
        · obtain ⟨s1, s2⟩ := hsep (if (i + 1) % 16 = 0 then [' '] else []) (by split <;> simp)
          rw [List.cons_append, words_space, words_sep _ s1, s2, ih3, words_solid hw.solid, putX0_hex, hd, hlen, List.take_succ_cons]
          rfl
    · rw [if_neg hi]
      have : len - i = 0 := by omega
      simp [this, words_nil]

theorem toolContents_words (data : List UInt8) (n : NalUnit) : words (toolContents data n) = textContents data n.offset n.length ∧ '\n' ∉ toolContents data n := by
  obtain ⟨h1, h2, h3⟩ := contentsLoop_words data n.offset n.length n.length 0 (by omega)
  unfold toolContents textContents block braces
  constructor
  · have s2 : Sep (" }".toList) := .inr (.inl ⟨_, rfl⟩)
    have s1 : Sep (contentsLoop data n.offset n.length n.length 0 ++ " }".toList) := by
      obtain ⟨t, h | h⟩ := h1
      · rw [h]; exact .inr (.inl ⟨_, rfl⟩)
      · rw [h]; exact s2
    rw [words_sep _ s1, words_sep _ s2, h3]
    have e1 : words " contents {".toList = ["contents".toList, "{".toList] := by decide +kernel
    have e2 : words " }".toList = ["}".toList] := by decide +kernel
    have e3 : words "contents".toList = ["contents".toList] := by decide +kernel
    rw [e1, e2, e3]
    simp
  · intro hm
    rcases List.mem_append.1 hm with h | h
    · revert h; decide
    · rcases List.mem_append.1 h with h | h
      · exact h2 h
      · revert h; decide

/-! ### All units -/

theorem dumpAll_eq {o : ToolOptions} {data : List UInt8} : ∀ {l : List (ParserState × NalUnit)}, (∀ x ∈ l, Null (dumpNalUnit o.parsing x.1 x.2) (NoText o.parsing x.2)) →
    ((∃ x ∈ l, NoText o.parsing x.2) → toolDumpAll o data l = .error .nullDeref) ∧
    ((¬ ∃ x ∈ l, NoText o.parsing x.2) → ∃ ts : List (List Char), ts.length = l.length ∧
      toolDumpAll o data l = .ok ((ts.mapIdx fun k t => t ++ ((if o.add_contents then (l[k]?.map fun x => toolContents data x.2).getD [] else []) ++ ['\n'])).flatten) ∧
      ∀ k (hk : k < l.length) (hk' : k < ts.length), (dumpNalUnit o.parsing l[k].1 l[k].2).text o.level = .ok ts[k])
  | [], _ => ⟨(by rintro ⟨x, hx, _⟩; cases hx), fun _ => ⟨[], rfl, rfl, by simp⟩⟩
  | x :: l, h => by
    obtain ⟨ih1, ih2⟩ := dumpAll_eq (o := o) (data := data) (l := l) (fun y hy => h y (List.mem_cons_of_mem _ hy))
    obtain ⟨n1, n2⟩ := (h x (by simp)).outcome o.level
    by_cases hx : NoText o.parsing x.2
    · refine ⟨fun _ => ?_, fun hn => absurd ⟨x, by simp, hx⟩ hn⟩
      unfold toolDumpAll toolDumpUnit
      rw [n1 hx]
    · obtain ⟨t, ht⟩ := n2 hx
      constructor
      · intro he
        have : ∃ y ∈ l, NoText o.parsing y.2 := by
          obtain ⟨y, hy, hn⟩ := he
          rcases List.mem_cons.1 hy with rfl | hy
          · exact absurd hn hx
          · exact ⟨y, hy, hn⟩
        unfold toolDumpAll toolDumpUnit
        rw [ht, ih1 this]
      · intro hn
        obtain ⟨ts, e1, e2, e3⟩ := ih2 (fun ⟨y, hy, hy2⟩ => hn ⟨y, List.mem_cons_of_mem _ hy, hy2⟩)
        refine ⟨t :: ts, by simp [e1], ?_, ?_⟩
        · unfold toolDumpAll toolDumpUnit
          rw [ht, e2]
          simp [List.mapIdx_cons]
        · intro k hk hk'
          cases k with
          | zero => exact ht
          | succ k => exact e3 k (by simpa using hk) (by simpa using hk')

end H265
