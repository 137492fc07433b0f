/-
Programs whose result only depends on the bits they read: whatever follows these bits, the result is the same, and if some of them are missing the program fails.
-/
import Verif.Model.Slice
import Verif.Proof.Rps

set_option autoImplicit false

namespace H265
open Spec

namespace Prog

/-- the program reads exactly the bits `c` and returns `v`, whatever follows; with less it fails -/
structure Reads {α : Type} (p : Prog α) (c : List Bool) (v : α) : Prop where
  whole : ∀ m, p.denote (c ++ m) = .ok v m
  part : ∀ a b, c = a ++ b → b ≠ [] → ∃ r, p.denote a = .fail r

/-- every successful run is of this kind -/
def Streaming {α : Type} (p : Prog α) : Prop := ∀ r v rest, p.denote r = .ok v rest → ∃ c, r = c ++ rest ∧ p.Reads c v

theorem Streaming.ret {α : Type} (a : α) : (Prog.ret a).Streaming := by
  intro r v rest h
  cases h
  exact ⟨[], rfl, fun m => rfl, fun a b h hb => absurd (by simpa using h.symm : a = [] ∧ b = []).2 hb⟩

theorem Streaming.pure {α : Type} (a : α) : (Pure.pure a : Prog α).Streaming := Streaming.ret a
theorem Streaming.fail {α : Type} : (Prog.fail : Prog α).Streaming := fun _ _ _ h => by cases h
theorem Streaming.bad {α : Type} (k : Bad) : (Prog.bad k : Prog α).Streaming := fun _ _ _ h => by cases h

theorem Reads.bind {α β : Type} {p : Prog α} {f : α → Prog β} {c1 c2 : List Bool} {v1 : α} {v2 : β} (h1 : p.Reads c1 v1) (h2 : (f v1).Reads c2 v2) :
    (p >>= f).Reads (c1 ++ c2) v2 := by
  constructor
  · intro m
    rw [denote_bind, List.append_assoc, h1.whole, ARes.ok_bind, h2.whole]
  · intro a b hab hb
    rw [denote_bind]
    rcases List.append_eq_append_iff.1 hab.symm with ⟨x, rfl, rfl⟩ | ⟨x, rfl, rfl⟩
    · by_cases hx : x = []
      · subst hx
        have := h1.whole []
        rw [List.append_nil] at this
        rw [List.append_nil] at this
        rw [this, ARes.ok_bind]
        exact h2.part [] _ rfl (by simpa using hb)
      · obtain ⟨r, hr⟩ := h1.part a x rfl hx
        exact ⟨r, by rw [hr]; rfl⟩
    · rw [h1.whole, ARes.ok_bind]
      exact h2.part x b rfl hb

theorem Streaming.bind {α β : Type} {p : Prog α} {f : α → Prog β} (hp : p.Streaming) (hf : ∀ a, (f a).Streaming) : (p >>= f).Streaming := by
  intro r v rest h
  rw [denote_bind] at h
  cases h1 : p.denote r with
  | fail r' => rw [h1] at h; cases h
  | bad k => rw [h1] at h; cases h
  | ok a r1 =>
    rw [h1] at h
    obtain ⟨c1, e1, g1⟩ := hp _ _ _ h1
    obtain ⟨c2, e2, g2⟩ := hf a _ _ _ h
    exact ⟨c1 ++ c2, by rw [e1, e2, List.append_assoc], g1.bind g2⟩

theorem Streaming.bind' {α β : Type} {p : Prog α} {f : α → Prog β} (hp : p.Streaming) (hf : ∀ a, (f a).Streaming) : (p.bind f).Streaming := Streaming.bind hp hf

theorem Streaming.readN (w n : Nat) : (Prog.read w n fun | some v => Prog.ret v | none => Prog.fail : Prog Nat).Streaming := by
  intro r v rest h
  simp only [denote] at h
  by_cases h0 : n = 0
  · rw [if_pos h0] at h; cases h
  rw [if_neg h0] at h
  by_cases hn : n ≤ w ∧ n ≤ r.length
  · rw [if_pos hn] at h
    cases h
    refine ⟨r.take n, (List.take_append_drop n r).symm, ?_, ?_⟩
    · intro m
      have hl : (r.take n).length = n := by rw [List.length_take]; omega
      simp only [denote]
      rw [if_neg h0, if_pos (by rw [List.length_append, hl]; omega), List.take_append_of_le_length (by omega), List.drop_append_of_le_length (by omega),
        List.drop_of_length_le (by omega), List.take_of_length_le (by omega)]
      rfl
    · intro a b hab hb
      have hl : (r.take n).length = n := by rw [List.length_take]; omega
      have : a.length < n := by
        have := congrArg List.length hab
        rw [hl, List.length_append] at this
        have := List.length_pos_iff.2 hb
        omega
      simp only [denote]
      rw [if_neg h0, if_neg (by omega)]
      exact ⟨_, rfl⟩
  · rw [if_neg hn] at h; cases h

theorem Streaming.u (n : Nat) : (Prog.u n).Streaming := Streaming.readN 32 n
theorem Streaming.u64 (n : Nat) : (Prog.u64 n).Streaming := Streaming.readN 64 n

theorem ueSplit_part {v : Nat} (hv : v < 2 ^ 32 - 1) {a b : List Bool} (h : Spec.ue v = a ++ b) (hb : b ≠ []) : ueSplit a = none := by
  cases hs : ueSplit a with
  | none => rfl
  | some x =>
    obtain ⟨v', r'⟩ := x
    obtain ⟨e, hv'⟩ := ueSplit_some hs
    have h1 := ueSplit_ue hv []
    rw [List.append_nil, h, e, List.append_assoc, ueSplit_ue hv'] at h1
    simp only [Option.some.injEq, Prod.mk.injEq, List.append_eq_nil_iff] at h1
    exact absurd h1.2.2 hb

theorem Streaming.uev : Prog.uev.Streaming := by
  intro r v rest h
  simp only [Prog.uev, denote] at h
  cases hs : ueSplit r with
  | none => rw [hs] at h; cases h
  | some x =>
    obtain ⟨v', r'⟩ := x
    rw [hs] at h
    cases h
    obtain ⟨e, hv⟩ := ueSplit_some hs
    refine ⟨_, e, ?_, ?_⟩
    · intro m
      simp only [Prog.uev, denote, ueSplit_ue hv]
    · intro a b hab hb
      simp only [Prog.uev, denote, ueSplit_part hv hab hb]
      exact ⟨_, rfl⟩

theorem Streaming.sev : Prog.sev.Streaming := by
  intro r v rest h
  simp only [Prog.sev, denote] at h
  cases hs : ueSplit r with
  | none => rw [hs] at h; cases h
  | some x =>
    obtain ⟨c, r'⟩ := x
    rw [hs] at h
    dsimp only at h
    cases hc : seOfUe c with
    | none => rw [hc] at h; cases h
    | some s =>
      rw [hc] at h
      cases h
      obtain ⟨e, hv⟩ := ueSplit_some hs
      refine ⟨_, e, ?_, ?_⟩
      · intro m
        simp only [Prog.sev, denote, ueSplit_ue hv, hc]
      · intro a b hab hb
        simp only [Prog.sev, denote, ueSplit_part hv hab hb]
        exact ⟨_, rfl⟩

theorem Streaming.ite {α : Type} {c : Prop} [Decidable c] {p q : Prog α} (hp : c → p.Streaming) (hq : ¬ c → q.Streaming) : (if c then p else q).Streaming := by
  split
  · exact hp ‹_›
  · exact hq ‹_›

theorem Streaming.check (c : Prop) [Decidable c] : (Prog.check c).Streaming := Streaming.ite (fun _ => .ret _) (fun _ => .fail)
theorem Streaming.opt {α : Type} {c : Prop} [Decidable c] {p : Prog α} {d : α} (hp : p.Streaming) : (Prog.opt c p d).Streaming := Streaming.ite (fun _ => hp) (fun _ => .ret _)
theorem Streaming.maybe {α : Type} {c : Prop} [Decidable c] {p : Prog α} (hp : p.Streaming) : (Prog.maybe c p).Streaming :=
  Streaming.ite (fun _ => .bind' hp fun _ => .ret _) (fun _ => .ret _)
theorem Streaming.ueRange (lo hi : Nat) : (Prog.ueRange lo hi).Streaming := .bind' .uev fun _ => .ite (fun _ => .ret _) (fun _ => .fail)

theorem Streaming.rep {α : Type} {p : Prog α} (hp : p.Streaming) : ∀ n, (Prog.rep n p).Streaming
  | 0 => .ret _
  | n + 1 => .bind hp fun _ => .bind (Streaming.rep hp n) fun _ => .pure _

theorem Streaming.repI {α : Type} {p : Nat → Prog α} (hp : ∀ i, (p i).Streaming) : ∀ n start, (Prog.repI start n p).Streaming
  | 0, _ => .ret _
  | n + 1, s => .bind (hp s) fun _ => .bind (Streaming.repI hp n (s + 1)) fun _ => .pure _

theorem Streaming.at' {α : Type} (l : List α) (i : Nat) : (Prog.at' l i).Streaming := by
  unfold Prog.at'
  split
  · exact .ret _
  · exact .bad _

theorem Streaming.int32 (x : Int) : (Prog.int32 x).Streaming := .ite (fun _ => .ret _) (fun _ => .bad _)

/-- use the rules, down to leaves -/
macro "streaming" : tactic => `(tactic| repeat' (first
  | exact Streaming.pure _ | exact Streaming.ret _ | exact Streaming.fail | exact Streaming.bad _ | exact Streaming.u _ | exact Streaming.u64 _ | exact Streaming.uev
  | exact Streaming.sev | exact Streaming.check _ | exact Streaming.ueRange _ _ | exact Streaming.at' _ _ | exact Streaming.int32 _ | assumption
  | with_reducible refine Streaming.bind ?_ fun _ => ?_ | with_reducible refine Streaming.bind' ?_ fun _ => ?_ | with_reducible refine Streaming.opt ?_
  | with_reducible refine Streaming.maybe ?_ | with_reducible refine Streaming.rep ?_ _ | with_reducible refine Streaming.repI (fun _ => ?_) _ _
  | with_reducible refine Streaming.ite (fun _ => ?_) (fun _ => ?_)))

end Prog
open Prog

theorem uVar_streaming (n : Nat) : (uVar n).Streaming := by unfold uVar; streaming

theorem refDeltas_streaming (sgn : Int) (v : List RpsEntry) : ∀ n i d, (refDeltas sgn v n i d).Streaming
  | 0, _, _ => .ret _
  | n + 1, i, d => by
    unfold refDeltas
    have := refDeltas_streaming sgn v n (i + 1)
    streaming
    apply this

theorem pushPoc_streaming (neg : Bool) (flags : List RpsFlags) (d : Int) (k : Nat) (acc : List (Int × Nat)) : (pushPoc neg flags d k acc).Streaming := by
  unfold pushPoc
  refine Streaming.ite (fun _ => ?_) (fun _ => ?_) <;> streaming

theorem pocsDown_streaming (neg : Bool) (flags : List RpsFlags) (rps : Int) (ds : List Int) (base : Nat) : ∀ n acc, (pocsDown neg flags rps ds base n acc).Streaming
  | 0, _ => .ret _
  | n + 1, acc => .bind' (.at' _ _) fun _ => .bind' (.int32 _) fun _ => .bind' (pushPoc_streaming _ _ _ _ _) fun _ => pocsDown_streaming neg flags rps ds base n _

theorem pocsUp_streaming (neg : Bool) (flags : List RpsFlags) (rps : Int) (ds : List Int) (base : Nat) : ∀ n j acc, (pocsUp neg flags rps ds base n j acc).Streaming
  | 0, _, _ => .ret _
  | n + 1, j, acc => .bind' (.at' _ _) fun _ => .bind' (.int32 _) fun _ => .bind' (pushPoc_streaming _ _ _ _ _) fun _ => pocsUp_streaming neg flags rps ds base n _ _

theorem outS0_streaming : ∀ p l, (outS0 p l).Streaming
  | _, [] => .ret _
  | p, (d, f) :: l => .bind' (.int32 _) fun _ => .bind' (.int32 _) fun _ => .bind' (.int32 _) fun _ => .bind' (outS0_streaming d l) fun _ => .ret _

theorem outS1_streaming : ∀ p l, (outS1 p l).Streaming
  | _, [] => .ret _
  | p, (d, f) :: l => .bind' (.int32 _) fun _ => .bind' (.int32 _) fun _ => .bind' (outS1_streaming d l) fun _ => .ret _

theorem deriveValues_streaming (ref : StRefPicSet) (sign absm1 : Nat) (flags : List RpsFlags) : (deriveValues ref sign absm1 flags).Streaming := by
  unfold deriveValues
  exact .bind (refDeltas_streaming _ _ _ _ _) fun _ => .bind (refDeltas_streaming _ _ _ _ _) fun _ => .bind (pocsDown_streaming _ _ _ _ _ _ _) fun _ =>
    .bind (pushPoc_streaming _ _ _ _ _) fun _ => .bind (pocsUp_streaming _ _ _ _ _ _ _ _) fun _ => .bind (outS0_streaming _ _) fun _ =>
    .bind (pocsDown_streaming _ _ _ _ _ _ _) fun _ => .bind (pushPoc_streaming _ _ _ _ _) fun _ => .bind (pocsUp_streaming _ _ _ _ _ _ _ _) fun _ =>
    .bind (outS1_streaming _ _) fun _ => .pure _

theorem parseRpsFlags_streaming : parseRpsFlags.Streaming := by unfold parseRpsFlags; streaming
theorem parseRpsEntry_streaming : parseRpsEntry.Streaming := by unfold parseRpsEntry; streaming

theorem parseInterRps_streaming (idx num : Nat) (prev : List StRefPicSet) : (parseInterRps idx num prev).Streaming := by
  unfold parseInterRps
  have h1 := parseRpsFlags_streaming
  have h2 := deriveValues_streaming
  streaming
  apply h2

theorem parseExplicitRps_streaming (maxNum : Nat) : (parseExplicitRps maxNum).Streaming := by
  unfold parseExplicitRps
  have h1 := parseRpsEntry_streaming
  streaming

theorem parseStRefPicSet_streaming (idx num : Nat) (prev : List StRefPicSet) (maxNum : Nat) : (parseStRefPicSet idx num prev maxNum).Streaming := by
  unfold parseStRefPicSet
  have h1 := parseInterRps_streaming idx num prev
  have h2 := parseExplicitRps_streaming maxNum
  streaming

theorem parsePredWeight_streaming (a b : Nat) : (parsePredWeight a b).Streaming := by
  unfold parsePredWeight parseLumaWeight parseChromaWeight; streaming

theorem parsePredWeightAt_streaming (c : Nat) (l m : List Nat) (i : Nat) : (parsePredWeightAt c l m i).Streaming := by
  unfold parsePredWeightAt
  have := parsePredWeight_streaming
  streaming
  apply this

theorem parsePredWeightTable_streaming (c n : Nat) : (parsePredWeightTable c n).Streaming := by
  unfold parsePredWeightTable
  have := parsePredWeightAt_streaming
  streaming
  apply this

theorem parseLtRefPicHead_streaming (a b c i : Nat) : (parseLtRefPicHead a b c i).Streaming := by unfold parseLtRefPicHead; streaming

/-- at least one bit is read -/
theorem parseLtRefPicHead_reads {a b c i : Nat} {bits : List Bool} {v : LtRefPicHead} (h : (parseLtRefPicHead a b c i).Reads bits v) : bits ≠ [] := by
  rintro rfl
  have h1 := h.whole []
  unfold parseLtRefPicHead at h1
  have key : ∀ {α : Type} (p : Prog α) (v : α) (r : List Bool), p.Streaming → p.denote [] = .ok v r → r = [] := by
    intro α p v r hp hr
    obtain ⟨c, hc, _⟩ := hp _ _ _ hr
    simp only [List.nil_eq, List.append_eq_nil_iff] at hc
    exact hc.2
  have step : ∀ {α β : Type} (p : Prog α) (f : α → Prog β) (v : β) (r : List Bool), p.Streaming → (p >>= f).denote [] = .ok v r → ∃ a, (f a).denote [] = .ok v r := by
    intro α β p f v r hp hr
    rw [denote_bind] at hr
    cases h : p.denote [] with
    | fail x => rw [h] at hr; cases hr
    | bad k => rw [h] at hr; cases hr
    | ok a x =>
      obtain rfl := key p a x hp h
      rw [h] at hr
      exact ⟨a, hr⟩
  obtain ⟨_, h1⟩ := step _ _ _ _ (by streaming) h1
  obtain ⟨_, h1⟩ := step _ _ _ _ (by streaming) h1
  obtain ⟨_, h1⟩ := step _ _ _ _ (by streaming) h1
  rw [denote_bind] at h1
  simp [Prog.u, denote] at h1

theorem ltLoop_streaming (numSps numPics numLtSps pocLen : Nat) : ∀ fuel i acc r l rest, (ltLoop numSps numPics numLtSps pocLen fuel i acc).denote r = .ok l rest →
    ∃ c, r = c ++ rest ∧ (∀ f m, c.length < f → (ltLoop numSps numPics numLtSps pocLen f i acc).denote (c ++ m) = .ok l m) ∧
      ∀ f a b, c = a ++ b → b ≠ [] → a.length < f → ∃ r', (ltLoop numSps numPics numLtSps pocLen f i acc).denote a = .fail r'
  | 0, _, _, _, _, _, h => by cases h
  | fuel + 1, i, acc, r, l, rest, h => by
    unfold ltLoop at h
    by_cases hi : i < numSps + numPics
    · rw [if_pos hi] at h
      let one : Prog LtRefPic := parseLtRefPicHead numSps numLtSps pocLen i >>= fun h =>
        at' (acc.map (·.head.delta_poc_msb_present_flag) ++ [h.delta_poc_msb_present_flag]) i >>= fun f => Prog.opt (f ≠ 0) Prog.uev 0 >>= fun c => Prog.ret ⟨h, c⟩
      have hone : one.Streaming := Streaming.bind (parseLtRefPicHead_streaming _ _ _ _) fun _ => .bind (.at' _ _) fun _ => .bind (.opt .uev) fun _ => .ret _
      have heq : ∀ f r, (ltLoop numSps numPics numLtSps pocLen (f + 1) i acc).denote r =
          (one.denote r).bind fun x r' => (ltLoop numSps numPics numLtSps pocLen f ((i + 1) % 2 ^ 32) (acc ++ [x])).denote r' := by
        intro f r
        rw [ltLoop, if_pos hi]
        simp only [one, ← Prog.bind_def, denote_bind]
        cases (parseLtRefPicHead numSps numLtSps pocLen i).denote r with
        | fail x => rfl
        | bad k => rfl
        | ok hd r1 =>
          simp only [ARes.ok_bind, denote_bind]
          cases (at' (acc.map (·.head.delta_poc_msb_present_flag) ++ [hd.delta_poc_msb_present_flag]) i).denote r1 with
          | fail x => rfl
          | bad k => rfl
          | ok fl r2 =>
            simp only [ARes.ok_bind, denote_bind]
            cases (Prog.opt (fl ≠ 0) Prog.uev 0).denote r2 with
            | fail x => rfl
            | bad k => rfl
            | ok c r3 => rfl
      have hne : ∀ c v, one.Reads c v → c ≠ [] := by
        rintro c v hr rfl
        have h1 := hr.whole []
        simp only [one] at h1
        rw [denote_bind] at h1
        cases hh : (parseLtRefPicHead numSps numLtSps pocLen i).denote ([] ++ []) with
        | fail x => rw [hh] at h1; cases h1
        | bad k => rw [hh] at h1; cases h1
        | ok hd r1 =>
          obtain ⟨c, hc, hr⟩ := parseLtRefPicHead_streaming _ _ _ _ _ _ _ hh
          have := parseLtRefPicHead_reads hr
          simp only [List.append_nil, List.nil_eq, List.append_eq_nil_iff] at hc
          exact this hc.1
      have h0 : (ltLoop numSps numPics numLtSps pocLen (fuel + 1) i acc).denote r = .ok l rest := by rw [ltLoop, if_pos hi]; exact h
      rw [heq] at h0
      cases h1 : one.denote r with
      | fail x => rw [h1] at h0; cases h0
      | bad k => rw [h1] at h0; cases h0
      | ok x r1 =>
        rw [h1] at h0
        obtain ⟨c1, e1, g1⟩ := hone _ _ _ h1
        obtain ⟨c2, e2, g2, g3⟩ := ltLoop_streaming numSps numPics numLtSps pocLen fuel _ _ _ _ _ h0
        have hpos := List.length_pos_iff.2 (hne _ _ g1)
        refine ⟨c1 ++ c2, by rw [e1, e2, List.append_assoc], ?_, ?_⟩
        · intro f m hf
          obtain ⟨f, rfl⟩ : ∃ g, f = g + 1 := ⟨f - 1, by omega⟩
          rw [heq, List.append_assoc, g1.whole, ARes.ok_bind]
          exact g2 f m (by rw [List.length_append] at hf; omega)
        · intro f a b hab hb hf
          obtain ⟨f, rfl⟩ : ∃ g, f = g + 1 := ⟨f - 1, by omega⟩
          rw [heq]
          rcases List.append_eq_append_iff.1 hab.symm with ⟨y, rfl, rfl⟩ | ⟨y, rfl, rfl⟩
          · by_cases hy : y = []
            · subst hy
              have hw := g1.whole []
              rw [List.append_nil, List.append_nil] at hw
              rw [hw, ARes.ok_bind]
              refine g3 f [] _ rfl (by simpa using hb) ?_
              rw [List.append_nil] at hpos
              simp only [List.length_nil]
              omega
            · obtain ⟨r', hr'⟩ := g1.part a y rfl hy
              exact ⟨r', by rw [hr']; rfl⟩
          · rw [g1.whole, ARes.ok_bind]
            exact g3 f y b rfl hb (by rw [List.length_append] at hf; omega)
    · rw [if_neg hi] at h
      cases h
      refine ⟨[], rfl, fun f m hf => ?_, fun f a b hab hb => absurd (by simpa using hab.symm : a = [] ∧ b = []).2 hb⟩
      obtain ⟨f, rfl⟩ : ∃ g, f = g + 1 := ⟨f - 1, by simp at hf; omega⟩
      rw [ltLoop, if_neg hi]; rfl

theorem parseLtRefPics_streaming (numSps numPics numLtSps pocLen : Nat) : (parseLtRefPics numSps numPics numLtSps pocLen).Streaming := by
  intro r l rest h
  obtain ⟨c, e, g1, g2⟩ := ltLoop_streaming _ _ _ _ _ _ _ _ _ _ (show (ltLoop numSps numPics numLtSps pocLen (r.length + 1) 0 []).denote r = _ from h)
  exact ⟨c, e, fun m => g1 _ m (by rw [List.length_append]; omega), fun a b hab hb => g2 _ a b hab hb (by omega)⟩

theorem parseSliceHead_streaming (t : Nat) : (parseSliceHead t).Streaming := by unfold parseSliceHead; streaming

theorem ppsActFlag_streaming (p : PpsBody) : (ppsActFlag p).Streaming := by
  unfold ppsActFlag
  refine Streaming.ite (fun _ => ?_) (fun _ => .ret _)
  split
  · exact .ret _
  · exact .bad _

theorem uAddress_streaming (n : Nat) : (uAddress n).Streaming := by
  unfold uAddress
  exact .ite (fun _ => .bad _) (fun _ => uVar_streaming _)

theorem parseSliceBody_streaming (t : Nat) (p : PpsBody) (s : SpsBody) (first : Nat) : (parseSliceBody t p s first).Streaming := by
  unfold parseSliceBody
  have h1 := uAddress_streaming
  have h2 := parseStRefPicSet_streaming
  have h3 := parseLtRefPics_streaming
  have h4 := parsePredWeightTable_streaming
  have h5 := ppsActFlag_streaming p
  streaming
  all_goals first | apply h1 | apply h2 | apply h3 | apply h4

theorem parseSliceSegmentHeader_streaming (t : Nat) (pps : Nat → Option Pps) (sps : Nat → Option Sps) : (parseSliceSegmentHeader t pps sps).Streaming := by
  unfold parseSliceSegmentHeader
  refine Streaming.bind (parseSliceHead_streaming t) fun head => ?_
  split
  · exact .fail
  · split
    · exact .fail
    · exact .bind (parseSliceBody_streaming _ _ _ _) fun _ => .pure _

end H265
