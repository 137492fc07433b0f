/-
C76: a stream made after the standard, given to the program as a file.
-/
import Verif.Spec.Conforming
import Verif.Props.Std
import Verif.Props.StdExample
import Verif.Props.Program

set_option autoImplicit false

namespace H265.Std
open Spec

/-- no payload is missing -/
theorem reports_noPayload {d : StdParams} {x : StdNal} {n : NalUnit} (hs : SentNal d x) (h : Std.Reports x n) : ¬ NoPayload n.nal_unit_header.nal_unit_type n.nal_unit_payload := by
  obtain ⟨hh, hp⟩ := h
  obtain ⟨w, hw, _⟩ := hs.contents
  rw [hh]
  obtain ⟨hdr, u, tail, rbsp⟩ := x
  simp only at hp hw hh ⊢
  rintro (⟨h1, h2⟩ | ⟨s, h1, h2⟩)
  · cases hw with
    | aud a _ _ => rw [hp] at h2; cases h2
    | slice _ _ _ _ _ _ ht => rw [h1] at ht; omega
    | sei _ _ _ ht => rw [h1] at ht; omega
    | other _ _ ht => rw [h1] at ht; omega
    | vps _ _ ht => rw [h1] at ht; omega
    | sps _ _ ht => rw [h1] at ht; omega
    | pps _ ht => rw [h1] at ht; omega
  · cases hw with
    | pps b _ hc _ =>
      obtain ⟨v, e1, e2⟩ := hp
      rw [e1] at h1
      cases h1
      rw [e2] at h2
      have := hc.pps_multilayer_extension.present.mpr (by rw [h2.1]; decide)
      rw [h2.2] at this
      cases this
    | vps _ _ => obtain ⟨v, e1, _⟩ := hp; rw [e1] at h1; cases h1
    | sps _ _ => obtain ⟨v, e1, _⟩ := hp; rw [e1] at h1; cases h1
    | _ => rw [hp] at h1; cases h1

/-- the row of the table -/
theorem reports_row {size : StdNal → Nat} {x : StdNal} {n : NalUnit} (h : Std.Reports x n) (hl : n.length = size x) : csvUnit n = tableRow size x := by
  obtain ⟨hh, hp⟩ := h
  unfold csvUnit tableRow
  rw [hh, hl]
  obtain ⟨hdr, u, tail, rbsp⟩ := x
  cases u <;> simp only at hp ⊢
  all_goals first | (obtain ⟨v, e, _⟩ := hp; rw [e]; rfl) | (rw [hp]; rfl)

theorem reports_slice {d : StdParams} {x : StdNal} {n : NalUnit} (hs : SentNal d x) (h : Std.Reports x n)
    (ht : isSliceSegment n.nal_unit_header.nal_unit_type = true) : n.nal_unit_payload.slice_segment_layer ≠ none := by
  obtain ⟨hh, hp⟩ := h
  obtain ⟨w, hw, _⟩ := hs.contents
  rw [hh] at ht
  have ht : x.header.nal_unit_type ≤ 9 ∨ (16 ≤ x.header.nal_unit_type ∧ x.header.nal_unit_type ≤ 21) := by
    unfold isSliceSegment at ht
    simp at ht
    omega
  obtain ⟨hdr, u, tail, rbsp⟩ := x
  simp only at hp hw ht ⊢
  cases hw with
  | slice _ _ _ => rw [hp]; simp
  | vps _ _ h => omega
  | sps _ _ h => omega
  | pps _ h => omega
  | aud _ h => omega
  | sei _ _ _ h => omega
  | other h1 h2 => omega

theorem sentAll_mem : ∀ {l : List StdNal} {d d' : StdParams}, SentAll d l d' → ∀ x ∈ l, ∃ d, SentNal d x
  | [], _, _, _, x, hx => by cases hx
  | y :: l, d, d', h, x, hx => by
    cases h with
    | cons h1 h2 =>
      rcases List.mem_cons.1 hx with rfl | hx
      · exact ⟨d, h1⟩
      · exact sentAll_mem h2 x hx

theorem zip_right {α β : Type} {l : List α} {m : List β} (hl : m.length = l.length) {P : α → β → Prop} (h : ∀ x ∈ l.zip m, P x.1 x.2) :
    ∀ n ∈ m, ∃ x ∈ l, P x n := by
  intro n hn
  obtain ⟨i, hi, rfl⟩ := List.mem_iff_getElem.1 hn
  exact ⟨l[i]'(by omega), List.getElem_mem _, h (l[i]'(by omega), m[i]) (List.mem_iff_getElem.2 ⟨i, by simp; omega, by simp⟩)⟩

theorem sent_noPayloads {l : List StdNal} {d d' : StdParams} {ns : List NalUnit} (hs : SentAll d l d') (hl : ns.length = l.length)
    (h : ∀ x ∈ l.zip ns, Std.Reports x.1 x.2) : ¬ NoPayloads ns ∧ ¬ NoSlices ns := by
  constructor
  · rintro ⟨n, hn, hp⟩
    obtain ⟨x, hx, hr⟩ := zip_right hl h n hn
    obtain ⟨d, hd⟩ := sentAll_mem hs x hx
    exact reports_noPayload hd hr hp
  · rintro ⟨n, hn, h1, h2⟩
    obtain ⟨x, hx, hr⟩ := zip_right hl h n hn
    obtain ⟨d, hd⟩ := sentAll_mem hs x hx
    exact reports_slice hd hr h1 h2

theorem sent_rows {size : StdNal → Nat} {l : List StdNal} {ns : List NalUnit} (hl : ns.length = l.length) (h : ∀ x ∈ l.zip ns, Std.Reports x.1 x.2)
    (hsz : ns.map (·.length) = l.map size) : ns.map csvUnit = l.map (tableRow size) := by
  refine List.ext_getElem (by simp [hl]) (fun i h1 h2 => ?_)
  simp only [List.length_map] at h1 h2
  simp only [List.getElem_map]
  refine reports_row (h (l[i], ns[i]) (List.mem_iff_getElem.2 ⟨i, by simp; omega, by simp⟩)) ?_
  have := congrArg (fun m => m[i]?) hsz
  simp only [List.getElem?_map, List.getElem?_eq_getElem h1, List.getElem?_eq_getElem h2, Option.map_some, Option.some.injEq] at this
  exact this

theorem nalPlaces_length (l : List StdNal) (start : List Bool) (hn : start.length = l.length) :
    (nalPlaces 0 (start.zip (l.map fun x => escape x.rbsp))).map (·.2.1) = l.map nalSize := by
  have h : ∀ (u : List (Bool × List UInt8)) (off : Nat), (nalPlaces off u).map (·.2.1) = u.map (·.2.length) := by
    intro u
    induction u with
    | nil => intro off; rfl
    | cons a u ih => obtain ⟨b, n⟩ := a; intro off; simp only [nalPlaces, List.map_cons, ih]
  rw [h]
  have : (start.zip (l.map fun x => escape x.rbsp)).map (·.2) = l.map fun x => escape x.rbsp := List.map_snd_zip (by simp [hn])
  have h2 := congrArg (List.map List.length) this
  simp only [List.map_map] at h2
  exact h2

/-! ### Any command line that reads such a file -/

/-- the program succeeds and writes the text of the stream -/
theorem program_writes {v : List Char} {args : List (List Char)} {s : Settings} {w : World} {file : List Char} {data : List UInt8} {t : List Char}
    (hs : parseArgs v args = .go s) (hb : s.hvcc_file = none) (hi : s.infile = some file) (hf : input w (some file) = .bytes data)
    (ho : s.outfile = none ∨ s.outfile = some ['-'] ∨ ∃ name, s.outfile = some name ∧ w.writable name = true) (ht : toolStream s.opts.effective .empty data = .ok t) :
    ∃ w', toolProgram v w args = .ok (0, w') ∧ Written (afterReading (started w s) s.infile) s.outfile t w' := by
  have e : toolMain s.opts (input w s.hvcc_file) (input (afterReading w s.hvcc_file) s.infile) = .ok (some t) := by
    have e1 : input w s.hvcc_file = .absent := by rw [hb]; rfl
    have e2 : afterReading w s.hvcc_file = w := by rw [hb]; rfl
    rw [e1, e2, hi, hf, C53_main_stream, ht]
    rfl
  have ho : canOpen (afterReading (started w s) s.infile) s.outfile = true := by
    unfold canOpen
    rw [(afterReading_files _ _).2.2]
    rcases ho with h | h | ⟨n, h, h2⟩ <;> rw [h]
    · rfl
    · change (n == ['-'] || w.writable n) = true
      rw [h2]; simp
  have hw := writeOutput_written (t := t) ho
  refine ⟨_, (C75_success hs w _).2 ⟨t, e, ?_⟩, hw⟩
  have e2 : afterReading (started w s) s.hvcc_file = started w s := by rw [hb]; rfl
  rw [e2]
  exact hw

/-- C76: the default mode.  A file with NAL units made after the standard, whatever is asked to be shown of them: the program ends with status 0 and writes a text
per NAL unit, in order; the words of the text are those of a NAL unit with the header and contents that were sent. -/
theorem C76_lines {v : List Char} {args : List (List Char)} {s : Settings} {w : World} {file : List Char} {start : List Bool} {l : List StdNal} {d' : StdParams}
    (hs : parseArgs v args = .go s) (hb : s.hvcc_file = none) (hi : s.infile = some file) (hm : s.opts.dump_length = false) (hw : s.opts.nalu_length_bytes < 0)
    (ho : s.outfile = none ∨ s.outfile = some ['-'] ∨ ∃ name, s.outfile = some name ∧ w.writable name = true)
    (hl : SentAll .none l d') (hn : start.length = l.length) (hlen : (fileOf start l).length < 2 ^ 32) (hf : input w (some file) = .bytes (fileOf start l)) :
    ∃ (w' : World) (ts : List (List Char)) (ns : List NalUnit), toolProgram v w args = .ok (0, w') ∧
      Written (afterReading (started w s) s.infile) s.outfile (lines ts) w' ∧
      ts.length = l.length ∧ ns.length = l.length ∧ (s.opts.as_one_line = true → ∀ t ∈ ts, OneLine t) ∧
      (∀ x ∈ l.zip ns, Std.Reports x.1 x.2) ∧ ns.map (·.length) = l.map nalSize ∧
      ∀ k (hk : k < ns.length) (hk' : k < ts.length),
        Spec.words ts[k] = textNalUnit s.opts.effective.parsing (known .empty ((ns.take k).map (·.nal_unit_payload))) ns[k] ++
          (if s.opts.add_contents then textContents (fileOf start l) ns[k].offset ns[k].length else []) := by
  obtain ⟨ns, st', h1, h2, h3, h4, h5⟩ := C48_annexB s.opts.add_checksum .empty start l d' Reach.empty hl hn hlen
  obtain ⟨hp, _⟩ := sent_noPayloads hl h2 h3
  have e := C54_effective s.opts
  obtain ⟨ts, t1, t2, t3, t4⟩ := (C53_stream (o := s.opts.effective) Reach.empty (by rw [e]; exact hm) (by rw [e]; exact hw)
    (data := fileOf start l) (Nat.lt_trans hlen (by decide)) (by rw [e]; exact h1)).2 hp
  obtain ⟨w', w1, w2⟩ := program_writes hs hb hi hf ho t2
  have e1 : s.opts.effective.as_one_line = s.opts.as_one_line := by rw [e]
  have e2 : s.opts.effective.add_contents = s.opts.add_contents := by rw [e]
  rw [e1] at t3
  rw [e2] at t4
  refine ⟨w', ts, ns, w1, w2, by omega, h2, t3, h3, ?_, t4⟩
  have := congrArg (List.map (·.2)) h5
  simp only [List.map_map] at this
  exact this.trans (nalPlaces_length l start hn)

/-- C76: `--dump-length`.  The table has a row per NAL unit with the type, the size and the slice values that were sent, and the bit rate of each frame. -/
theorem C76_table {v : List Char} {args : List (List Char)} {s : Settings} {w : World} {file : List Char} {start : List Bool} {l : List StdNal} {d' : StdParams}
    (hs : parseArgs v args = .go s) (hb : s.hvcc_file = none) (hi : s.infile = some file) (hm : s.opts.dump_length = true) (hw : s.opts.nalu_length_bytes < 0)
    (ho : s.outfile = none ∨ s.outfile = some ['-'] ∨ ∃ name, s.outfile = some name ∧ w.writable name = true)
    (hl : SentAll .none l d') (hn : start.length = l.length) (hlen : (fileOf start l).length < 2 ^ 32) (hf : input w (some file) = .bytes (fileOf start l))
    (hfit : (fileOf start l).length * 8 * s.opts.frames_per_second.toNat < 2 ^ 64) :
    ∃ w', toolProgram v w args = .ok (0, w') ∧
      Written (afterReading (started w s) s.infile) s.outfile (lines (csvHeader :: csvTable s.opts.frames_per_second.toNat (l.map (tableRow nalSize)))) w' := by
  obtain ⟨ns, st', h1, h2, h3, h4, h5⟩ := C48_annexB s.opts.add_checksum .empty start l d' Reach.empty hl hn hlen
  obtain ⟨_, hp⟩ := sent_noPayloads hl h2 h3
  have e := C54_effective s.opts
  have t := (C52_stream (o := s.opts.effective) (st := .empty) (by rw [e]; exact hm) (by rw [e]; exact hw)
    (data := fileOf start l) (Nat.lt_trans hlen (by decide)) (by rw [e]; exact hfit) (by rw [e]; exact h1)).2 hp
  have hsz := congrArg (List.map (·.2)) h5
  simp only [List.map_map] at hsz
  rw [sent_rows h2 h3 (hsz.trans (nalPlaces_length l start hn))] at t
  obtain ⟨w', w1, w2⟩ := program_writes hs hb hi hf ho t
  refine ⟨w', w1, ?_⟩
  have e1 : s.opts.effective.frames_per_second = s.opts.frames_per_second := by rw [e]
  rw [e1] at w2
  exact w2

/-- C76 for NAL units behind length fields: a text each -/
theorem C76_length_lines {v : List Char} {args : List (List Char)} {s : Settings} {w : World} {file : List Char} {k : Nat} {l : List StdNal} {d' : StdParams}
    (hs : parseArgs v args = .go s) (hb : s.hvcc_file = none) (hi : s.infile = some file) (hm : s.opts.dump_length = false) (hw : s.opts.nalu_length_bytes = k)
    (hk0 : 0 < k) (hk : k ≤ 7) (ho : s.outfile = none ∨ s.outfile = some ['-'] ∨ ∃ name, s.outfile = some name ∧ w.writable name = true)
    (hl : SentAll .none l d') (hlen : (lengthFileOf k l).length < 2 ^ 63) (hsz : ∀ x ∈ l, nalSize x < 256 ^ k ∧ nalSize x < 2 ^ 32)
    (hf : input w (some file) = .bytes (lengthFileOf k l)) :
    ∃ (w' : World) (ts : List (List Char)) (ns : List NalUnit), toolProgram v w args = .ok (0, w') ∧
      Written (afterReading (started w s) s.infile) s.outfile (lines ts) w' ∧
      ts.length = l.length ∧ ns.length = l.length ∧ (s.opts.as_one_line = true → ∀ t ∈ ts, OneLine t) ∧ (∀ x ∈ l.zip ns, Std.Reports x.1 x.2) ∧
      ∀ i (hi : i < ns.length) (hi' : i < ts.length),
        Spec.words ts[i] = textNalUnit s.opts.effective.parsing (known .empty ((ns.take i).map (·.nal_unit_payload))) ns[i] ++
          (if s.opts.add_contents then textContents (lengthFileOf k l) ns[i].offset ns[i].length else []) := by
  obtain ⟨ns, st', h1, h2, h3, h4⟩ := C48_length_prefixed s.opts.add_checksum k .empty l d' Reach.empty hk0 hk hl hsz hlen
  obtain ⟨hp, _⟩ := sent_noPayloads hl h2 h3
  have e := C54_effective s.opts
  obtain ⟨ts, t1, t2, t3, t4⟩ := (C53_length_stream (o := s.opts.effective) (w := k) Reach.empty (by rw [e]; exact hm) (by rw [e]; exact hw) hk
    (data := lengthFileOf k l) hlen (by rw [e]; exact h1)).2 hp
  obtain ⟨w', w1, w2⟩ := program_writes hs hb hi hf ho t2
  have e1 : s.opts.effective.as_one_line = s.opts.as_one_line := by rw [e]
  have e2 : s.opts.effective.add_contents = s.opts.add_contents := by rw [e]
  rw [e1] at t3
  rw [e2] at t4
  exact ⟨w', ts, ns, w1, w2, by omega, h2, t3, h3, t4⟩

/-- C76 for NAL units behind length fields: the table; the size it shows is that of the length field (finding of C52) -/
theorem C76_length_table {v : List Char} {args : List (List Char)} {s : Settings} {w : World} {file : List Char} {k : Nat} {l : List StdNal} {d' : StdParams}
    (hs : parseArgs v args = .go s) (hb : s.hvcc_file = none) (hi : s.infile = some file) (hm : s.opts.dump_length = true) (hw : s.opts.nalu_length_bytes = k)
    (hk0 : 0 < k) (hk : k ≤ 7) (ho : s.outfile = none ∨ s.outfile = some ['-'] ∨ ∃ name, s.outfile = some name ∧ w.writable name = true)
    (hl : SentAll .none l d') (hlen : (lengthFileOf k l).length < 2 ^ 63) (hsz : ∀ x ∈ l, nalSize x < 256 ^ k ∧ nalSize x < 2 ^ 32)
    (hf : input w (some file) = .bytes (lengthFileOf k l)) (hfit : (lengthFileOf k l).length * 8 * s.opts.frames_per_second.toNat < 2 ^ 64) :
    ∃ w', toolProgram v w args = .ok (0, w') ∧
      Written (afterReading (started w s) s.infile) s.outfile (lines (csvHeader :: csvTable s.opts.frames_per_second.toNat (l.map (tableRow fun _ => k)))) w' := by
  obtain ⟨ns, st', h1, h2, h3, h4⟩ := C48_length_prefixed s.opts.add_checksum k .empty l d' Reach.empty hk0 hk hl hsz hlen
  obtain ⟨_, hp⟩ := sent_noPayloads hl h2 h3
  have e := C54_effective s.opts
  obtain ⟨c1, _, c2⟩ := C52_length_stream (o := s.opts.effective) (w := k) (st := .empty) (by rw [e]; exact hm) (by rw [e]; exact hw) hk0 hk
    (data := lengthFileOf k l) hlen (by rw [e]; exact hfit) (by rw [e]; exact h1)
  have t := c2 hp
  have hsz2 : ns.map (·.length) = l.map (fun _ => k) := by
    refine List.ext_getElem (by simp [h2]) (fun i i1 i2 => ?_)
    simp only [List.getElem_map]
    exact c1 _ (List.getElem_mem _)
  rw [sent_rows h2 h3 hsz2] at t
  obtain ⟨w', w1, w2⟩ := program_writes hs hb hi hf ho t
  refine ⟨w', w1, ?_⟩
  have e1 : s.opts.effective.frames_per_second = s.opts.frames_per_second := by rw [e]
  rw [e1] at w2
  exact w2

/-! ### The commands as they are typed -/

/-- `h265nal -i FILE` -/
def showFile (file : List Char) : List (List Char) := ["-i".toList, file]
/-- `h265nal --dump-length -i FILE` -/
def showTable (file : List Char) : List (List Char) := ["--dump-length".toList, "-i".toList, file]

theorem showFile_args (v file : List Char) : parseArgs v (showFile file) = .go { infile := some file } := by
  have : getoptLong (showFile file) = [.opt .infile file] := rfl
  unfold parseArgs
  rw [this]; rfl

theorem showTable_args (v file : List Char) : parseArgs v (showTable file) = .go { infile := some file, opts := { dump_length := true } } := by
  have : getoptLong (showTable file) = [.opt .dumpLength [], .opt .infile file] := rfl
  unfold parseArgs
  rw [this]; rfl

theorem file_input {w : World} {file : List Char} {data : List UInt8} (hf : w.files file = some data) (hd : file ≠ ['-']) (hne : data ≠ []) : input w (some file) = .bytes data := by
  unfold input source
  dsimp only
  rw [if_neg hd, hf]
  cases data with
  | nil => exact absurd rfl hne
  | cons b l => rfl

theorem fileOf_ne {start : List Bool} {l : List StdNal} (hn : start.length = l.length) (hne : l ≠ []) : fileOf start l ≠ [] := by
  cases l with
  | nil => exact absurd rfl hne
  | cons x l =>
    cases start with
    | nil => cases hn
    | cons b start =>
      unfold fileOf annexB annexBUnit
      cases b <;> simp

/-- C76: `h265nal -i FILE` with a file made after the standard: status 0, and a line per NAL unit on standard output; nothing else changes. -/
theorem C76_show_file (v : List Char) {w : World} {file : List Char} {start : List Bool} {l : List StdNal} {d' : StdParams} (hd : file ≠ ['-'])
    (hl : SentAll .none l d') (hn : start.length = l.length) (hne : l ≠ []) (hlen : (fileOf start l).length < 2 ^ 32) (hf : w.files file = some (fileOf start l)) :
    ∃ (ts : List (List Char)) (ns : List NalUnit), toolProgram v w (showFile file) = .ok (0, { w with stdout := w.stdout ++ lines ts }) ∧
      ts.length = l.length ∧ ns.length = l.length ∧ (∀ t ∈ ts, OneLine t) ∧ (∀ x ∈ l.zip ns, Std.Reports x.1 x.2) ∧
      ∀ k (hk : k < ns.length) (hk' : k < ts.length),
        Spec.words ts[k] = textNalUnit ⟨false, false, false, false, false⟩ (known .empty ((ns.take k).map (·.nal_unit_payload))) ns[k] := by
  obtain ⟨w', ts, ns, h1, h2, h3, h4, h5, h6, _, h7⟩ := C76_lines (showFile_args v file) rfl rfl rfl (show (-1 : Int) < 0 by decide) (.inl rfl) hl hn hlen
    (file_input hf hd (fileOf_ne hn hne))
  refine ⟨ts, ns, ?_, h3, h4, h5 rfl, h6, fun k hk hk' => ?_⟩
  · have e : afterReading (started w { infile := some file }) (some file) = w := by
      unfold afterReading
      rw [if_neg (by simpa using hd)]
      have : ({ stdin := w.stdin, stdout := w.stdout ++ [], files := w.files, writable := w.writable } : World) = w := by rw [List.append_nil]
      exact this
    have hw : Written w none (lines ts) w' := by rw [← e]; exact h2
    have := written_unique hw (writeOutput_written (t := lines ts) (w := w) (outfile := none) rfl)
    rw [h1, this]; rfl
  · have := h7 k hk hk'
    rw [this]
    exact List.append_nil _

/-- C76: `h265nal --dump-length -i FILE` with a file made after the standard: status 0, and exactly the table of what was sent, at 30 frames per second, on standard
output; nothing else changes. -/
theorem C76_show_table (v : List Char) {w : World} {file : List Char} {start : List Bool} {l : List StdNal} {d' : StdParams} (hd : file ≠ ['-'])
    (hl : SentAll .none l d') (hn : start.length = l.length) (hne : l ≠ []) (hlen : (fileOf start l).length < 2 ^ 32) (hf : w.files file = some (fileOf start l)) :
    toolProgram v w (showTable file) = .ok (0, { w with stdout := w.stdout ++ lines (csvHeader :: csvTable 30 (l.map (tableRow nalSize))) }) := by
  obtain ⟨w', h1, h2⟩ := C76_table (showTable_args v file) rfl rfl rfl (show (-1 : Int) < 0 by decide) (.inl rfl) hl hn hlen
    (file_input hf hd (fileOf_ne hn hne)) (by show _ * 8 * 30 < _; omega)
  have e : afterReading (started w { infile := some file, opts := { dump_length := true } }) (some file) = w := by
    unfold afterReading
    rw [if_neg (by simpa using hd)]
    have : ({ stdin := w.stdin, stdout := w.stdout ++ [], files := w.files, writable := w.writable } : World) = w := by rw [List.append_nil]
    exact this
  have hw : Written w none (lines (csvHeader :: csvTable 30 (l.map (tableRow nalSize)))) w' := by rw [← e]; exact h2
  have := written_unique hw (writeOutput_written (t := lines (csvHeader :: csvTable 30 (l.map (tableRow nalSize)))) (w := w) (outfile := none) rfl)
  rw [h1, this]; rfl

/-- hypotheses met: the stream of the unit test, with a P slice added, as a file; and what the program writes -/
example : (fileOf (List.replicate 5 true) exNals).length < 2 ^ 32 ∧ (List.replicate 5 true).length = exNals.length ∧ exNals ≠ [] ∧ (∃ d, SentAll .none exNals d) ∧
    (csvTable 30 (exNals.map (tableRow nalSize))).map String.ofList = ["0,0,32,vps,23,,,,", "1,0,33,sps,39,,,,", "2,0,34,pps,7,,,,", "3,0,19,idr_w_radl,15,,1,0,0",
      ",0,19,frame,,3600,,,", "4,1,1,trail_r,8,,1,0,1", ",1,1,frame,,1920,,,"] :=
  ⟨by decide +kernel, by decide +kernel, by decide +kernel, exNals_sent, by decide +kernel⟩

end H265.Std
