/-
C75: the program as a whole: what it reads and what it writes.
-/
import Verif.Spec.Program
import Verif.Props.CommandLine
import Verif.Props.ConfigBox

set_option autoImplicit false

namespace H265
open Spec

/-! ### Reading -/

theorem readStdinLoop_eq : ∀ (fuel : Nat) (stdin buffer : List UInt8), stdin.length < fuel → readStdinLoop fuel stdin buffer = (buffer ++ stdin, [])
  | 0, _, _, h => by omega
  | fuel + 1, stdin, buffer, h => by
    unfold readStdinLoop
    dsimp only
    cases stdin with
    | nil => simp
    | cons b l =>
      rw [if_neg (by simp)]
      rw [readStdinLoop_eq fuel]
      · rw [List.append_assoc, List.take_append_drop]
      · rw [List.length_drop]; simp at h ⊢; omega

/-- C75: `ReadFile` returns all the bytes of a file that is not empty, or all the bytes on standard input, in however many chunks they are read; nothing else changes. -/
theorem C75_read (w : World) (name : List Char) : readFile w name = (source w name, afterReading w (some name)) := by
  unfold readFile source afterReading
  by_cases h : name = ['-']
  · rw [if_pos h, if_pos h, if_pos (by rw [h]), readStdinLoop_eq _ _ _ (Nat.lt_succ_self _)]
    rfl
  · rw [if_neg h, if_neg h, if_neg (by simpa using h)]
    cases w.files name with
    | none => rfl
    | some d =>
      cases d with
      | nil => rfl
      | cons b l => rfl

theorem readInput_eq (w : World) (name : Option (List Char)) : readInput w name = (input w name, afterReading w name) := by
  unfold readInput input
  cases name with
  | none => rfl
  | some n =>
    dsimp only
    rw [C75_read]
    cases source w n <;> rfl

theorem afterReading_files (w : World) (name : Option (List Char)) :
    (afterReading w name).files = w.files ∧ (afterReading w name).stdout = w.stdout ∧ (afterReading w name).writable = w.writable := by
  unfold afterReading; split <;> exact ⟨rfl, rfl, rfl⟩

theorem writeOutput_written {w : World} {outfile : Option (List Char)} {t : List Char} (h : canOpen w outfile = true) : Written w outfile t (writeOutput w outfile t) := by
  unfold writeOutput
  cases outfile with
  | none => exact ⟨rfl, by simp, by simp, by simp, rfl⟩
  | some n =>
    dsimp only
    by_cases hn : n = ['-']
    · rw [if_pos hn]
      exact ⟨rfl, by simp [hn], fun m h1 h2 => absurd (by cases h1; exact hn) h2, fun _ _ => rfl, rfl⟩
    · rw [if_neg hn]
      refine ⟨rfl, by simp [hn], ?_, ?_, rfl⟩
      · intro m hm hm2
        cases hm
        unfold canOpen at h
        simp [hn] at h
        exact ⟨h, by simp [textBytes]⟩
      · intro m hm
        have : m ≠ n := by
          rintro rfl
          rcases hm with hm | hm
          · exact hm rfl
          · exact hn hm
        simp [this]

theorem written_unique {w w1 w2 : World} {outfile : Option (List Char)} {t : List Char} (h1 : Written w outfile t w1) (h2 : Written w outfile t w2) : w1 = w2 := by
  have hf : w1.files = w2.files := by
    funext name
    by_cases ho : outfile ≠ some name ∨ name = ['-']
    · rw [h1.others name ho, h2.others name ho]
    · obtain ⟨ha, hb⟩ := not_or.1 ho
      have ha := Decidable.not_not.1 ha
      rw [(h1.file name ha hb).2, (h2.file name ha hb).2]
  cases w1; cases w2
  have a := h1.stdin.trans h2.stdin.symm
  have b := h1.stdout.trans h2.stdout.symm
  have c := h1.writable.trans h2.writable.symm
  dsimp only at *
  subst a; subst b; subst c; subst hf; rfl

theorem canOpen_of_written {w w' : World} {outfile : Option (List Char)} {t : List Char} (h : Written w outfile t w') : canOpen w outfile = true := by
  unfold canOpen
  cases outfile with
  | none => rfl
  | some n =>
    dsimp only
    by_cases hn : n = ['-']
    · simp [hn]
    · simp [(h.file n rfl hn).1]

/-! ### Running -/

/-- an undefined parse makes the whole of `main` undefined -/
theorem toolParses_error {s : Settings} {infile : ToolInput} {st : ParserState} {k : Bad}
    (h : toolParses s.opts.effective st infile = .error k) :
    ∃ data, infile = .bytes data ∧ toolStream s.opts.effective st data = .error k := by
  unfold toolParses at h
  cases infile with
  | absent => cases h
  | unreadable => cases h
  | bytes data =>
    refine ⟨data, rfl, ?_⟩
    dsimp only at h
    unfold toolStream
    generalize (if s.opts.effective.nalu_length_bytes < 0 then parseBitstreamObject s.opts.effective.parsing st data
      else parseNaluLengthObject s.opts.effective.parsing s.opts.effective.nalu_length_bytes.toNat st data) = r at h
    cases r with
    | error k' => cases h; rfl
    | ok x => cases h

/-- the state a configuration box leaves behind, as `main` goes on with it; `none`: it does not go on -/
def boxState (cs : Bool) : ToolInput → Option ParserState
  | .absent => some .empty
  | .unreadable => none
  | .bytes data =>
    match parseConfigurationBoxBytes cs .empty data with
    | .ok (some _, st) _ => some st
    | _ => none

theorem toolMain_unreadable {opts : ToolOptions} {hvcc : ToolInput} {st : ParserState} (hb : boxState opts.effective.add_checksum hvcc = some st) :
    toolMain opts hvcc .unreadable = .ok none := by
  unfold toolMain
  dsimp only
  cases hvcc with
  | absent => rfl
  | unreadable => rfl
  | bytes data =>
    unfold boxState at hb
    dsimp only at hb ⊢
    split at hb
    · rename_i h; rw [h]
    · cases hb

theorem toolMain_stream_error {opts : ToolOptions} {hvcc : ToolInput} {st : ParserState} {data : List UInt8} {k : Bad}
    (hb : boxState opts.effective.add_checksum hvcc = some st) (h : toolStream opts.effective st data = .error k) :
    toolMain opts hvcc (.bytes data) = .error k := by
  unfold toolMain
  dsimp only
  cases hvcc with
  | absent => cases hb; dsimp only; rw [h]
  | unreadable => cases hb
  | bytes box =>
    unfold boxState at hb
    dsimp only at hb ⊢
    split at hb
    · rename_i hp; cases hb; rw [hp]; dsimp only; rw [h]
    · cases hb

/-- everything after the configuration box, as one case distinction -/
theorem toolRest_eq {s : Settings} {w : World} {hvcc : ToolInput} {st : ParserState} (hb : boxState s.opts.effective.add_checksum hvcc = some st) :
    toolRest s w hvcc st = (match toolParses s.opts.effective st (input w s.infile) with
      | .error k => .error k
      | .ok () =>
        if canOpen w s.outfile then
          match toolMain s.opts hvcc (input w s.infile) with
          | .error k => .error k
          | .ok none => .ok (255, afterReading w s.infile)
          | .ok (some t) => .ok (0, writeOutput (afterReading w s.infile) s.outfile t)
        else .ok (255, afterReading w s.infile)) := by
  have hc : canOpen (afterReading w s.infile) s.outfile = canOpen w s.outfile := by
    unfold canOpen; rw [(afterReading_files w s.infile).2.2]
  unfold toolRest
  rw [readInput_eq]
  cases hi : input w s.infile with
  | unreadable =>
    dsimp only
    rw [toolMain_unreadable hb]
    unfold toolParses
    dsimp only
    split <;> rfl
  | absent => dsimp only; rw [hc]; rfl
  | bytes data => dsimp only; rw [hc]; rfl

/-- the world when the inputs are read: the debug messages are written -/
def started (w : World) (s : Settings) : World := { w with stdout := w.stdout ++ debugText s }

/-- C75: success.  The program ends with status 0 exactly if both inputs can be read, the box is one, and the output can be opened; then exactly the text
`toolMain` makes of the two inputs (C52, C53) is written to the output, no other file is changed, and nothing is left on standard input if it was read. -/
theorem C75_success {v : List Char} {args : List (List Char)} {s : Settings} (hs : parseArgs v args = .go s) (w w' : World) :
    toolProgram v w args = .ok (0, w') ↔
    ∃ t, toolMain s.opts (input w s.hvcc_file) (input (afterReading w s.hvcc_file) s.infile) = .ok (some t) ∧
      Written (afterReading (afterReading (started w s) s.hvcc_file) s.infile) s.outfile t w' := by
  have hin : ∀ n, input (started w s) n = input w n := fun n => by cases n <;> rfl
  have hin2 : input (afterReading (started w s) s.hvcc_file) s.infile = input (afterReading w s.hvcc_file) s.infile := by
    unfold afterReading
    by_cases h : s.hvcc_file = some ['-']
    · rw [if_pos h, if_pos h]; cases s.infile <;> rfl
    · rw [if_neg h, if_neg h]; exact hin _
  have rest : ∀ st, boxState s.opts.effective.add_checksum (input w s.hvcc_file) = some st →
      (toolRest s (afterReading (started w s) s.hvcc_file) (input w s.hvcc_file) st = .ok (0, w') ↔
      ∃ t, toolMain s.opts (input w s.hvcc_file) (input (afterReading w s.hvcc_file) s.infile) = .ok (some t) ∧
        Written (afterReading (afterReading (started w s) s.hvcc_file) s.infile) s.outfile t w') := by
    intro st hst
    rw [toolRest_eq hst, hin2]
    have hc : ∀ t, Written (afterReading (afterReading (started w s) s.hvcc_file) s.infile) s.outfile t w' → canOpen (afterReading (started w s) s.hvcc_file) s.outfile = true := by
      intro t ht
      have := canOpen_of_written ht
      unfold canOpen at this ⊢
      rw [(afterReading_files _ s.infile).2.2] at this
      exact this
    have hc' : canOpen (afterReading (started w s) s.hvcc_file) s.outfile = true → canOpen (afterReading (afterReading (started w s) s.hvcc_file) s.infile) s.outfile = true := by
      intro h
      unfold canOpen at h ⊢
      rw [(afterReading_files _ s.infile).2.2]
      exact h
    cases hp : toolParses s.opts.effective st (input (afterReading w s.hvcc_file) s.infile) with
    | error k =>
      dsimp only
      constructor
      · intro h; cases h
      · rintro ⟨t, h, _⟩
        obtain ⟨data, hd, he⟩ := toolParses_error hp
        rw [hd, toolMain_stream_error hst he] at h; cases h
    | ok u =>
      cases u
      dsimp only
      constructor
      · intro h
        split at h
        · rename_i hco
          split at h
          · cases h
          · cases h
          · rename_i t ht
            have : w' = writeOutput (afterReading (afterReading (started w s) s.hvcc_file) s.infile) s.outfile t := by
              injection h with h; exact (congrArg Prod.snd h).symm
            exact ⟨t, ht, by rw [this]; exact writeOutput_written (hc' hco)⟩
        · cases h
      · rintro ⟨t, h, hw⟩
        rw [if_pos (hc t hw), h]
        dsimp only
        rw [written_unique (writeOutput_written (hc' (hc t hw))) hw]
  unfold toolProgram
  rw [hs]
  dsimp only
  rw [readInput_eq]
  change (match (input (started w s) s.hvcc_file, afterReading (started w s) s.hvcc_file) with
    | (.absent, w') => toolRest s w' .absent .empty
    | (.unreadable, w') => .ok (255, w')
    | (.bytes data, w') => _) = _ ↔ _
  rw [hin]
  cases hh : input w s.hvcc_file with
  | absent =>
    dsimp only
    rw [hh] at rest
    exact rest .empty rfl
  | unreadable =>
    dsimp only
    constructor
    · intro h; cases h
    · rintro ⟨t, h, _⟩; cases h
  | bytes data =>
    dsimp only
    rw [hh] at rest
    cases hp : parseConfigurationBoxBytes s.opts.effective.add_checksum .empty data with
    | bad k =>
      constructor
      · intro h; cases h
      · rintro ⟨t, h, _⟩
        unfold toolMain at h
        dsimp only at h
        rw [hp] at h; cases h
    | fail b =>
      constructor
      · intro h; cases h
      · rintro ⟨t, h, _⟩
        unfold toolMain at h
        dsimp only at h
        rw [hp] at h; cases h
    | ok x b =>
      obtain ⟨o, st⟩ := x
      cases o with
      | none =>
        constructor
        · intro h; cases h
        · rintro ⟨t, h, _⟩
          unfold toolMain at h
          dsimp only at h
          rw [hp] at h; cases h
      | some box =>
        dsimp only
        refine rest st ?_
        unfold boxState
        dsimp only
        rw [hp]

/-- the input of the stream is found as if nothing had been written -/
theorem started_input (w : World) (s : Settings) :
    (∀ n, input (started w s) n = input w n) ∧ ∀ n, input (afterReading (started w s) s.hvcc_file) n = input (afterReading w s.hvcc_file) n := by
  have hin : ∀ n, input (started w s) n = input w n := fun n => by cases n <;> rfl
  refine ⟨hin, fun n => ?_⟩
  unfold afterReading
  by_cases h : s.hvcc_file = some ['-']
  · rw [if_pos h, if_pos h]; cases n <;> rfl
  · rw [if_neg h, if_neg h]; exact hin _

/-- C75: failure.  Whatever makes the program end with another status, the status is 255, no file is changed (an output file is not even emptied), and
nothing is written to standard output but the debug messages. -/
theorem C75_failure {v : List Char} {args : List (List Char)} {w w' : World} {c : Nat} (h : toolProgram v w args = .ok (c, w')) (hc : c ≠ 0) :
    c = 255 ∧ w'.files = w.files ∧ (w'.stdout = w.stdout ∨ ∃ s, parseArgs v args = .go s ∧ w'.stdout = w.stdout ++ debugText s) := by
  unfold toolProgram at h
  cases hs : parseArgs v args with
  | exit c' t =>
    rw [hs] at h
    cases h
    rcases C74_refused hs with ⟨rfl, rfl⟩ | ⟨h0, _⟩
    · exact ⟨rfl, rfl, .inl (by simp)⟩
    · exact absurd h0 hc
  | go s =>
    rw [hs] at h
    dsimp only at h
    have base : ∀ n, (afterReading (started w s) n).files = w.files ∧ (afterReading (started w s) n).stdout = w.stdout ++ debugText s := fun n =>
      ⟨(afterReading_files _ n).1, (afterReading_files _ n).2.1⟩
    have rest : ∀ {hvcc st}, boxState s.opts.effective.add_checksum hvcc = some st → toolRest s (afterReading (started w s) s.hvcc_file) hvcc st = .ok (c, w') →
        c = 255 ∧ w'.files = w.files ∧ w'.stdout = w.stdout ++ debugText s := by
      intro hvcc st hb h
      have b2 : (afterReading (afterReading (started w s) s.hvcc_file) s.infile).files = w.files ∧
          (afterReading (afterReading (started w s) s.hvcc_file) s.infile).stdout = w.stdout ++ debugText s :=
        ⟨(afterReading_files _ _).1.trans (base _).1, (afterReading_files _ _).2.1.trans (base _).2⟩
      rw [toolRest_eq hb] at h
      split at h
      · cases h
      · split at h
        · split at h
          · cases h
          · cases h; exact ⟨rfl, b2⟩
          · cases h; exact absurd rfl hc
        · cases h; exact ⟨rfl, b2⟩
    rw [readInput_eq] at h
    suffices hh : c = 255 ∧ w'.files = w.files ∧ w'.stdout = w.stdout ++ debugText s from ⟨hh.1, hh.2.1, .inr ⟨s, rfl, hh.2.2⟩⟩
    change (match (input (started w s) s.hvcc_file, afterReading (started w s) s.hvcc_file) with
      | (.absent, w') => toolRest s w' .absent .empty
      | (.unreadable, w') => .ok (255, w')
      | (.bytes data, w') => _) = _ at h
    cases hh : input (started w s) s.hvcc_file with
    | absent => rw [hh] at h; exact rest rfl h
    | unreadable => rw [hh] at h; cases h; exact ⟨rfl, base _⟩
    | bytes data =>
      rw [hh] at h
      dsimp only at h
      cases hp : parseConfigurationBoxBytes s.opts.effective.add_checksum .empty data with
      | bad k => rw [hp] at h; cases h
      | fail b => rw [hp] at h; cases h; exact ⟨rfl, base _⟩
      | ok x b =>
        obtain ⟨o, st⟩ := x
        rw [hp] at h
        cases o with
        | none => cases h; exact ⟨rfl, base _⟩
        | some box => exact rest (hvcc := .bytes data) (by unfold boxState; dsimp only; rw [hp]) h

/-- C75: the program does something undefined only where `toolMain` does (C52, C53). -/
theorem C75_undefined {v : List Char} {args : List (List Char)} {w : World} {k : Bad} (h : toolProgram v w args = .error k) :
    ∃ s, parseArgs v args = .go s ∧ toolMain s.opts (input w s.hvcc_file) (input (afterReading w s.hvcc_file) s.infile) = .error k := by
  unfold toolProgram at h
  cases hs : parseArgs v args with
  | exit c' t => rw [hs] at h; cases h
  | go s =>
    rw [hs] at h
    dsimp only at h
    refine ⟨s, rfl, ?_⟩
    obtain ⟨hin, hin2⟩ := started_input w s
    have rest : ∀ {hvcc st}, boxState s.opts.effective.add_checksum hvcc = some st → toolRest s (afterReading (started w s) s.hvcc_file) hvcc st = .error k →
        toolMain s.opts hvcc (input (afterReading w s.hvcc_file) s.infile) = .error k := by
      intro hvcc st hb h
      rw [toolRest_eq hb, hin2] at h
      split at h
      · rename_i k' hp
        cases h
        obtain ⟨data, hd, he⟩ := toolParses_error hp
        rw [hd]; exact toolMain_stream_error hb he
      · split at h
        · split at h
          · rename_i k' hm; cases h; exact hm
          · cases h
          · cases h
        · cases h
    rw [readInput_eq] at h
    change (match (input (started w s) s.hvcc_file, afterReading (started w s) s.hvcc_file) with
      | (.absent, w') => toolRest s w' .absent .empty
      | (.unreadable, w') => .ok (255, w')
      | (.bytes data, w') => _) = _ at h
    rw [hin] at h
    cases hh : input w s.hvcc_file with
    | absent => rw [hh] at h; exact rest rfl h
    | unreadable => rw [hh] at h; cases h
    | bytes data =>
      rw [hh] at h
      dsimp only at h
      cases hp : parseConfigurationBoxBytes s.opts.effective.add_checksum .empty data with
      | bad k' =>
        rw [hp] at h
        cases h
        unfold toolMain
        dsimp only
        rw [hp]
      | fail b => rw [hp] at h; cases h
      | ok x b =>
        obtain ⟨o, st⟩ := x
        rw [hp] at h
        cases o with
        | none => cases h
        | some box => exact rest (hvcc := .bytes data) (by unfold boxState; dsimp only; rw [hp]) h

theorem effective_naluLength (o : ToolOptions) : o.effective.nalu_length_bytes = o.nalu_length_bytes := by
  rw [C54_effective]

/-- C75: with inputs below 4 GiB and length fields of at most 7 bytes the program does nothing undefined, except: a null pointer dereferenced in the dump, and the
signed overflow of the parsers. -/
theorem C75_safe {v : List Char} {args : List (List Char)} {w : World} {k : Bad} (hin : w.stdin.length < 2 ^ 32)
    (hfiles : ∀ name data, w.files name = some data → data.length < 2 ^ 32)
    (hw : ∀ s, parseArgs v args = .go s → s.opts.nalu_length_bytes ≤ 7) (h : toolProgram v w args = .error k) : k = .nullDeref ∨ k = .signedOverflow := by
  obtain ⟨s, hs, hm⟩ := C75_undefined h
  have hlen : ∀ (w1 : World) (n : Option (List Char)) (data : List UInt8), w1.stdin.length < 2 ^ 32 → w1.files = w.files → input w1 n = .bytes data → data.length < 2 ^ 32 := by
    intro w1 n data h1 h2 h3
    unfold input at h3
    cases n with
    | none => cases h3
    | some name =>
      dsimp only at h3
      unfold source at h3
      split at h3
      · cases h3
      · rename_i d hd
        cases h3
        split at hd
        · cases hd; exact h1
        · split at hd
          · rename_i b bs hf
            cases hd
            exact hfiles name _ (by rw [← h2]; exact hf)
          · cases hd
  have hlen1 := fun data => hlen w s.hvcc_file data hin rfl
  have hlen2 := fun data => hlen (afterReading w s.hvcc_file) s.infile data (by unfold afterReading; split; exact Nat.two_pow_pos 32; exact hin) (afterReading_files _ _).1
  have hwe : s.opts.effective.nalu_length_bytes ≤ 7 := by rw [effective_naluLength]; exact hw s hs
  unfold toolMain at hm
  dsimp only at hm
  have stream : ∀ {st : ParserState} {box : Except Bad (List Char)}, Reach st → (∀ k', box = .error k' → k' = .nullDeref) →
      (match input (afterReading w s.hvcc_file) s.infile with
        | .unreadable => .ok none
        | .absent => match box with
          | .error k => .error k
          | .ok t => .ok (some t)
        | .bytes data => match toolStream s.opts.effective st data with
          | .error k => .error k
          | .ok s => match box with
            | .error k => .error k
            | .ok t => .ok (some (t ++ s)) : Except Bad (Option (List Char))) = .error k → k = .nullDeref ∨ k = .signedOverflow := by
    intro st box hst hbox h
    split at h
    · cases h
    · split at h
      · rename_i k' ; cases h; exact .inl (hbox _ rfl)
      · cases h
    · rename_i data hd
      split at h
      · rename_i k' hk; cases h; exact C53_safe hst hwe (hlen2 data hd) hk
      · split at h
        · cases h; exact .inl (hbox _ rfl)
        · cases h
  cases hh : input w s.hvcc_file with
  | unreadable => rw [hh] at hm; cases hm
  | absent =>
    rw [hh] at hm
    exact stream (box := .ok []) Reach.empty (fun _ h => by cases h) hm
  | bytes data =>
    rw [hh] at hm
    dsimp only at hm
    cases hp : parseConfigurationBoxBytes s.opts.effective.add_checksum .empty data with
    | bad k' => rw [hp] at hm; cases hm; exact .inr (C43_safe Reach.empty (hlen1 data hh) hp)
    | fail b => rw [hp] at hm; cases hm
    | ok x b =>
      obtain ⟨o, st⟩ := x
      rw [hp] at hm
      cases o with
      | none => cases hm
      | some box =>
        obtain ⟨ps, hps⟩ := C43_steps hp
        refine stream (Reach.empty.step hps) ?_ hm
        intro k' hk'
        have hd := C49_configuration_box Reach.empty hp s.opts.effective.parsing s.opts.effective.level
        cases ht : (dumpConfigurationBox s.opts.effective.parsing .empty box).text s.opts.effective.level with
        | ok t => rw [ht] at hk'; cases hk'
        | error k2 =>
          rw [ht] at hk' hd
          cases hk'
          by_cases hn : NoBoxText s.opts.effective.parsing box
          · have := hd.1 hn; cases this; rfl
          · obtain ⟨t, h⟩ := hd.2 hn; cases h

/-- C75: `-i -` with the bytes of a file on standard input makes the same of them as `-i file`: same status, same text, same files. -/
theorem C75_stdin {v : List Char} {args args' : List (List Char)} {s : Settings} {file : List Char} {data : List UInt8} {w : World}
    (hs : parseArgs v args = .go { s with infile := some file }) (hs' : parseArgs v args' = .go { s with infile := some ['-'] })
    (hd : s.debug ≤ 1) (hb : s.hvcc_file ≠ some ['-']) (hf : file ≠ ['-']) (hfile : w.files file = some data) (hne : data ≠ []) :
    outcome (toolProgram v { w with stdin := data } args') = outcome (toolProgram v w args) := by
  have hdbg : ∀ n, debugText { s with infile := n } = [] := fun n => by unfold debugText; rw [if_neg (by simpa using hd)]
  have hsrc : input w (some file) = .bytes data := by
    unfold input source
    dsimp only
    rw [if_neg hf, hfile]
    cases data with
    | nil => exact absurd rfl hne
    | cons b l => rfl
  have hi : input { w with stdin := data } s.hvcc_file = input w s.hvcc_file := by
    unfold input
    cases hh : s.hvcc_file with
    | none => rfl
    | some n =>
      have hn : n ≠ ['-'] := fun h => hb (by rw [hh, h])
      dsimp only
      unfold source
      rw [if_neg hn, if_neg hn]
  have ha : ∀ w1 : World, afterReading w1 s.hvcc_file = w1 := fun w1 => by unfold afterReading; rw [if_neg hb]
  have rest : ∀ {hvcc : ToolInput} {st : ParserState}, boxState s.opts.effective.add_checksum hvcc = some st →
      outcome (toolRest { s with infile := some ['-'] } { w with stdin := data } hvcc st) = outcome (toolRest { s with infile := some file } w hvcc st) := by
    intro hvcc st hb
    rw [toolRest_eq (s := { s with infile := some ['-'] }) hb, toolRest_eq (s := { s with infile := some file }) hb]
    dsimp only
    have e1 : input { w with stdin := data } (some ['-']) = .bytes data := rfl
    have e2 : afterReading { w with stdin := data } (some ['-']) = { w with stdin := [] } := rfl
    have e3 : afterReading w (some file) = w := by unfold afterReading; rw [if_neg (by simpa using hf)]
    have e4 : canOpen { w with stdin := data } s.outfile = canOpen w s.outfile := rfl
    rw [e1, e2, e3, e4, hsrc]
    cases toolParses s.opts.effective st (.bytes data) with
    | error k => rfl
    | ok u =>
      cases u
      dsimp only
      split
      · split
        · rfl
        · rfl
        · unfold outcome writeOutput
          split
          · rfl
          · split <;> rfl
      · rfl
  unfold toolProgram
  rw [hs, hs']
  dsimp only
  rw [hdbg, hdbg, readInput_eq, readInput_eq]
  simp only [List.append_nil]
  rw [ha, ha, hi]
  have hw : ({ stdin := w.stdin, stdout := w.stdout, files := w.files, writable := w.writable } : World) = w := rfl
  cases hh : input w s.hvcc_file with
  | absent => exact rest rfl
  | unreadable => rfl
  | bytes d =>
    dsimp only
    cases hp : parseConfigurationBoxBytes s.opts.effective.add_checksum .empty d with
    | bad k => rfl
    | fail b => rfl
    | ok x b =>
      obtain ⟨o, st⟩ := x
      cases o with
      | none => rfl
      | some box => exact rest (hvcc := .bytes d) (by unfold boxState; dsimp only; rw [hp])

/-- C75: with at most one `-d` the program writes no debug messages: standard output is only the text. -/
theorem C75_quiet {s : Settings} (h : s.debug ≤ 1) : debugText s = [] := by unfold debugText; rw [if_neg (by omega)]

/-- C75: with more `-d` it writes the settings first: the number of `-d`, and the names given with `-i` and `-o`. -/
theorem C75_debug {s : Settings} (h : 1 < s.debug) : ∃ version : List Char, debugText s = version ++
    "options.debug = ".toList ++ decimal s.debug ++ "\noptions.infile = ".toList ++ (match s.infile with | some name => name | none => "null".toList) ++
    "\noptions.outfile = ".toList ++ (match s.outfile with | some name => name | none => "null".toList) ++ "\n".toList := by
  refine ⟨"h265nal: original version\n".toList, ?_⟩
  unfold debugText
  rw [if_pos h, putU_decimal]
  cases s.infile <;> cases s.outfile <;> simp only [Option.getD, List.append_assoc] <;> rfl

/-! ### Examples -/

/-- a world with one file, and everything writable but `/` -/
def oneFile (stdin : List UInt8) (name : String) (data : List UInt8) : World where
  stdin := stdin
  stdout := []
  files n := if n = name.toList then some data else none
  writable n := n != ['/']

/-- what is left of a run, for a few names -/
def look (names : List String) (r : Except Bad (Nat × World)) : Option (Nat × String × List (Option (List UInt8))) :=
  match r with
  | .error _ => none
  | .ok (c, w) => some (c, String.ofList w.stdout, names.map fun n => w.files n.toList)

/-- C75: a file, standard input, and the output in place of the input -/
example : look [] (toolProgram [] (oneFile [] "a" [0, 0, 1, 0x46, 0x01, 0x50]) (words ["--dump-length", "-i", "a"])) = some (0,
    "nal_num,frame_num,nal_unit_type,nal_unit_type_str,nal_length_bytes,bitrate_bps,first_slice_segment_in_pic_flag,slice_segment_address,slice_pic_order_cnt_lsb\n" ++
    "0,0,35,aud,3,,,,\n", []) := by decide +kernel
example : look [] (toolProgram [] (oneFile [0, 0, 1, 0x46, 0x01, 0x50] "a" []) (words ["-i-"])) = some (0,
    "nal_unit { nal_unit_header { forbidden_zero_bit: 0 nal_unit_type: 35 nuh_layer_id: 0 nuh_temporal_id_plus1: 1 } nal_unit_payload { aud { pic_type: 2 } } }\n", []) := by
  decide +kernel
example : look ["a"] (toolProgram [] (oneFile [] "a" [0, 0, 1, 0x46, 0x01, 0x50]) (words ["-i", "a", "-oa"])) = some (0, "",
    [some (textBytes "nal_unit { nal_unit_header { forbidden_zero_bit: 0 nal_unit_type: 35 nuh_layer_id: 0 nuh_temporal_id_plus1: 1 } nal_unit_payload { aud { pic_type: 2 } } }\n".toList)]) := by
  decide +kernel

/-- C75: an empty file is an error, empty standard input is not; nor is standard input read a second time -/
theorem C75_empty : look [] (toolProgram [] (oneFile [] "a" []) (words ["-i", "a"])) = some (255, "", []) ∧
    look [] (toolProgram [] (oneFile [] "a" []) (words ["-i", "-"])) = some (0, "", []) := ⟨by decide +kernel, by decide +kernel⟩
example : look ["/", "b"] (toolProgram [] (oneFile [] "a" [0]) (words ["-i", "a", "-o", "/"])) = some (255, "", [none, none]) := by decide +kernel
example : look [] (toolProgram "1.0".toList (oneFile [] "a" []) (words ["-i", "b", "--version"])) = some (0, "version: 1.0\n", []) := by decide +kernel

end H265
