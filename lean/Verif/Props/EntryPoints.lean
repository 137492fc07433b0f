/-
C55: the byte entry points.  Every parser that takes `(data, length)` reads the escaped form of its syntax structure: what an encoder serialises and
escapes is returned, what is returned is what the unescaped bytes say, and undefined behaviour is at most the signed overflow of the bit level.
-/
import Verif.Model.EntryPoints
import Verif.Props.Utils
import Verif.Props.ConfigBox
import Verif.Props.Sei
import Verif.Props.Vps
import Verif.Props.Pps
import Verif.Props.Scaling
import Verif.Proof.RbspTail

set_option autoImplicit false

namespace H265
open Spec

/-- What is promised of a byte entry point for values with serialisation `enc`:
* (accepts) if the bits of `rbsp` start with the serialisation of a valid value then the entry point, given the escaped bytes, returns this value, with the
  bits after it left unread;
* (valid) whatever it returns, for any bytes, is valid;
* (says) and the unescaped bytes start with its serialisation, if `Plain` holds of their bits;
* (rejects) it returns nothing only if the unescaped bytes do not start with the serialisation of a valid value;
* (safe) undefined behaviour is limited to `allowed`. -/
structure Spec.ReadsBytes {α : Type} (entry : List UInt8 → Res α) (enc : α → List Bool) (Valid : α → Prop) (Plain : List Bool → Prop)
    (allowed : Bad → Prop) : Prop where
  accepts : ∀ (rbsp : List UInt8) (a : α) (rest : List Bool), rbsp.length < 2 ^ 32 → Valid a → bitsOf rbsp = enc a ++ rest →
    ∃ b, entry (escape rbsp) = .ok a b ∧ b.rem = rest
  valid : ∀ (data : List UInt8) (a : α) (b : BB), data.length < 2 ^ 32 → entry data = .ok a b → Valid a
  says : ∀ (data : List UInt8) (a : α) (b : BB), data.length < 2 ^ 32 → entry data = .ok a b →
    ∃ rbsp, unescapeRbsp data = .ok rbsp ∧ (Plain (bitsOf rbsp) → bitsOf rbsp = enc a ++ b.rem)
  rejects : ∀ (data : List UInt8) (b : BB), data.length < 2 ^ 32 → entry data = .fail b →
    ∃ rbsp, unescapeRbsp data = .ok rbsp ∧ ∀ a rest, Valid a → bitsOf rbsp ≠ enc a ++ rest
  safe : ∀ (data : List UInt8) (k : Bad), data.length < 2 ^ 32 → entry data = .bad k → allowed k

/-- A byte entry point is the bit level parser on a fresh reader of the unescaped bytes. -/
theorem C55_entry {α : Type} (p : Prog α) {data rbsp : List UInt8} (hu : unescapeRbsp data = .ok rbsp) (hlen : data.length < 2 ^ 32) :
    p.parseEscaped data = p.run (BB.init rbsp) := by
  have hle := unesc_le hu
  unfold Prog.parseEscaped
  rw [hu]
  simp only
  unfold Prog.runBytes
  rw [if_pos (by omega)]

/-- Escaping is invisible: the entry point on escaped bytes is the bit level parser on the bytes before escaping. -/
theorem C55_escaped {α : Type} (p : Prog α) {rbsp : List UInt8} (hlen : rbsp.length < 2 ^ 32) :
    p.parseEscaped (escape rbsp) = p.run (BB.init rbsp) := by
  unfold Prog.parseEscaped
  rw [C10_unescape_escape]
  simp only
  unfold Prog.runBytes
  rw [if_pos (by omega)]

/-- A buffer of 4 GiB or more after unescaping trips the assertion of the reader, in every entry point. -/
theorem C55_too_long {α : Type} (p : Prog α) {data rbsp : List UInt8} (hu : unescapeRbsp data = .ok rbsp) (hlen : 2 ^ 32 ≤ rbsp.length) :
    p.parseEscaped data = .bad .assertion := by
  unfold Prog.parseEscaped
  rw [hu]
  simp only
  unfold Prog.runBytes
  rw [if_neg (by omega)]

section
variable {α : Type} {p : Prog α} {enc : α → List Bool} {Valid : α → Prop}

theorem readsBytes {Plain : List Bool → Prop} {A : Bad → Prop}
    (complete : ∀ (bb : BB) (a : α) (rest : List Bool), bb.WF → Valid a → bb.rem = enc a ++ rest →
      ∃ bb', p.run bb = .ok a bb' ∧ bb'.WF ∧ bb'.bytes = bb.bytes ∧ bb'.rem = rest)
    (sound : ∀ (bb bb' : BB) (a : α), bb.WF → p.run bb = .ok a bb' →
      Valid a ∧ bb'.WF ∧ bb'.bytes = bb.bytes ∧ (Plain bb.rem → bb.rem = enc a ++ bb'.rem))
    (safe : ∀ (bb : BB) (k : Bad), bb.WF → p.run bb = .bad k → A k) :
    ReadsBytes p.parseEscaped enc Valid Plain A where
  accepts := by
    intro rbsp a rest hlen hv hb
    rw [C55_escaped p hlen]
    obtain ⟨b, h1, _, _, h2⟩ := complete (BB.init rbsp) a rest (BB.WF.init rbsp) hv (by rw [BB.rem_init]; exact hb)
    exact ⟨b, h1, h2⟩
  valid := by
    intro data a b hlen h
    obtain ⟨rbsp, hu, _⟩ := C11_unescape_bounds data
    rw [C55_entry p hu hlen] at h
    exact (sound _ _ _ (BB.WF.init rbsp) h).1
  says := by
    intro data a b hlen h
    obtain ⟨rbsp, hu, _⟩ := C11_unescape_bounds data
    rw [C55_entry p hu hlen] at h
    have := (sound _ _ _ (BB.WF.init rbsp) h).2.2.2
    rw [BB.rem_init] at this
    exact ⟨rbsp, hu, this⟩
  rejects := by
    intro data b hlen h
    obtain ⟨rbsp, hu, _⟩ := C11_unescape_bounds data
    rw [C55_entry p hu hlen] at h
    refine ⟨rbsp, hu, fun a rest hv hb => ?_⟩
    obtain ⟨b', h1, _⟩ := complete (BB.init rbsp) a rest (BB.WF.init rbsp) hv (by rw [BB.rem_init]; exact hb)
    rw [h] at h1
    cases h1
  safe := by
    intro data k hlen h
    obtain ⟨rbsp, hu, _⟩ := C11_unescape_bounds data
    rw [C55_entry p hu hlen] at h
    exact safe _ _ (BB.WF.init rbsp) h

theorem Codec.readsBytes (h : Codec Cond.any (fun _ => False) p enc Valid) : ReadsBytes p.parseEscaped enc Valid (fun _ => True) (fun _ => False) :=
  H265.readsBytes h.inverts.complete (fun bb bb' a hw hr => by
    obtain ⟨h1, h2, h3, h4⟩ := h.inverts.sound bb bb' a hw hr
    exact ⟨h1, h2, h3, fun _ => h4⟩) (fun bb k hw hr => h.inverts.safe bb k hw hr)

theorem Codec.readsBytesSigned (h : Codec Cond.canon (fun k => k = Bad.signedOverflow) p enc Valid) :
    ReadsBytes p.parseEscaped enc Valid p.NoAlias (fun k => k = .signedOverflow) :=
  H265.readsBytes h.invertsSigned.complete h.invertsSigned.sound h.invertsSigned.safe

theorem Codec.readsBytesOvf (h : Codec Cond.any (fun k => k = Bad.signedOverflow) p enc Valid) :
    ReadsBytes p.parseEscaped enc Valid (fun _ => True) (fun k => k = .signedOverflow) :=
  H265.readsBytes h.invertsOvf.complete (fun bb bb' a hw hr => by
    obtain ⟨h1, h2, h3, h4⟩ := h.invertsOvf.sound bb bb' a hw hr
    exact ⟨h1, h2, h3, fun _ => h4⟩) h.invertsOvf.safe

end

/-! ### structures without signed elements: no side condition, no undefined behaviour -/

theorem C55_nal_unit_header :
    ReadsBytes parseNalUnitHeaderBytes Spec.nalUnitHeader ValidNalUnitHeader (fun _ => True) (fun _ => False) :=
  parseNalUnitHeader_codec.readsBytes

theorem C55_profile_info : ReadsBytes parseProfileInfoBytes Spec.profileInfo ValidProfileInfo (fun _ => True) (fun _ => False) :=
  parseProfileInfo_codec.readsBytes

theorem C55_profile_tier_level (present : Bool) (maxSub : Nat) :
    ReadsBytes (fun d => parseProfileTierLevelBytes d present maxSub) Spec.profileTierLevel (ValidProfileTierLevel present maxSub)
      (fun _ => True) (fun _ => False) :=
  (parseProfileTierLevel_codec (present := present) (maxSub := maxSub)).readsBytes

theorem C55_hrd_parameters (common maxSub : Nat) :
    ReadsBytes (fun d => parseHrdParametersBytes d common maxSub) (Spec.hrdParameters common) (ValidHrdParameters common maxSub)
      (fun _ => True) (fun _ => False) :=
  (parseHrdParameters_codec (common := common) (max_sub := maxSub)).readsBytes

theorem C55_sub_layer_hrd_parameters (cpbCnt subPic : Nat) :
    ReadsBytes (fun d => parseSubLayerHrdParametersBytes d cpbCnt subPic) (Spec.list (Spec.subLayerHrdEntry subPic))
      (Each cpbCnt (ValidSubLayerHrdEntry subPic)) (fun _ => True) (fun _ => False) :=
  (rep_codec parseSubLayerHrdEntry_codec).readsBytes

theorem C55_vui_parameters (maxSub : Nat) :
    ReadsBytes (fun d => parseVuiParametersBytes d maxSub) Spec.vuiParameters (ValidVuiParameters maxSub) (fun _ => True) (fun _ => False) :=
  (parseVuiParameters_codec (max_sub := maxSub)).readsBytes

theorem C55_sps_range_extension :
    ReadsBytes parseSpsRangeExtensionBytes Spec.spsRangeExtension ValidSpsRangeExtension (fun _ => True) (fun _ => False) :=
  parseSpsRangeExtension_codec.readsBytes

theorem C55_sps_multilayer_extension :
    ReadsBytes parseSpsMultilayerExtensionBytes Spec.spsMultilayerExtension ValidSpsMultilayerExtension (fun _ => True) (fun _ => False) :=
  parseSpsMultilayerExtension_codec.readsBytes

theorem C55_sps_3d_extension : ReadsBytes parseSps3dExtensionBytes Spec.sps3dExtension ValidSps3dExtension (fun _ => True) (fun _ => False) :=
  parseSps3dExtension_codec.readsBytes

theorem C55_sps_scc_extension (chroma luma8 chroma8 : Nat) (hl : luma8 ≤ 24) (hc : chroma8 ≤ 24) :
    ReadsBytes (fun d => parseSpsSccExtensionBytes d chroma luma8 chroma8) (Spec.spsSccExtension luma8 chroma8)
      (ValidSpsSccExtension chroma luma8 chroma8) (fun _ => True) (fun _ => False) :=
  (parseSpsSccExtension_codec hl hc).readsBytes

/-! ### structures whose values are added up: signed overflow -/

theorem C55_st_ref_pic_set (idx num maxNum : Nat) (prev : List StRefPicSet) (hlen : idx ≤ prev.length) (hw : ∀ p ∈ prev, RpsWF p)
    (hm : maxNum < 2 ^ 32 - 1) :
    ReadsBytes (fun d => parseStRefPicSetBytes d idx num prev maxNum) (Spec.stRefPicSet idx num) (ValidStRefPicSet idx num prev maxNum)
      (fun _ => True) (fun k => k = .signedOverflow) :=
  (parseStRefPicSet_codec hlen hw hm).readsBytesOvf

/-! ### structures with se(v) elements: exact as long as no aliased code word is read (C06) -/

theorem C55_pps_multilayer_extension :
    ReadsBytes parsePpsMultilayerExtensionBytes Spec.ppsMultilayerExtension ValidPpsMultilayerExtension parsePpsMultilayerExtension.NoAlias
      (fun k => k = .signedOverflow) :=
  parsePpsMultilayerExtension_codec.readsBytesSigned

theorem C55_pps_scc_extension :
    ReadsBytes parsePpsSccExtensionBytes Spec.ppsSccExtension ValidPpsSccExtension parsePpsSccExtension.NoAlias (fun k => k = .signedOverflow) :=
  parsePpsSccExtension_codec.readsBytesSigned

theorem C55_pred_weight_table (cat n : Nat) :
    ReadsBytes (fun d => parsePredWeightTableBytes d cat n) (Spec.predWeightTable cat) (ValidPredWeightTable cat n) (parsePredWeightTable cat n).NoAlias
      (fun k => k = .signedOverflow) :=
  (parsePredWeightTable_codec (cat := cat) (n := n)).readsBytesSigned

theorem C55_scaling_list_data :
    ReadsBytes parseScalingListDataBytes Spec.scalingListData ValidScalingListData parseScalingListData.NoAlias (fun k => k = .signedOverflow) :=
  parseScalingListData_codec.readsBytesSigned

/-! ### AUD, parameter sets, SEI -/

/-- The AUD entry point reports the first three unescaped bits, whatever follows; it returns null exactly if the buffer is empty. -/
theorem C55_aud {data rbsp : List UInt8} (hu : unescapeRbsp data = .ok rbsp) (hlen : data.length < 2 ^ 32) :
    (data ≠ [] → ∃ b, parseAudBytes data = .ok ⟨val ((bitsOf rbsp).take 3)⟩ b) ∧ (data = [] → ∃ b, parseAudBytes data = .fail b) := by
  have hb : (bitsOf rbsp).length = 8 * rbsp.length := by simp
  have he : rbsp = [] ↔ data = [] := by
    obtain ⟨out, h1, _, h2, h3⟩ := C11_unescape_bounds data
    rw [hu] at h1; cases h1
    constructor
    · rintro rfl; exact List.eq_nil_of_length_eq_zero (by simp at h3; omega)
    · rintro rfl; exact List.eq_nil_of_length_eq_zero (Nat.le_zero.mp (unesc_le hu))
  have hc := C19_aud (BB.WF.init rbsp)
  unfold parseAudBytes
  rw [C55_entry _ hu hlen]
  rw [BB.rem_init] at hc
  constructor
  · intro hd
    have hr : rbsp ≠ [] := fun h => hd (he.mp h)
    have hpos := List.length_pos_iff.mpr hr
    rcases hc with ⟨b, h, _⟩ | ⟨b, h, h3⟩
    · exact ⟨b, h⟩
    · omega
  · intro hd
    have hr := he.mpr hd
    subst hr
    rcases hc with ⟨b, h, h3⟩ | ⟨b, h, _⟩
    · simp at h3
    · exact ⟨b, h⟩

/-- What is promised of a parameter set entry point whose result consists of a body, read first, and of the extension data flag read last:
* (accepts) the escaped form of bytes that start with the serialisation of a valid body is accepted, whatever follows, and the body is returned;
* (exact) if what follows is extension data (only if announced), a stop bit and at most seven zero bits, everything is read;
* (valid), (says) a returned body is valid, and the unescaped bytes start with its serialisation, if `Plain` holds of their bits;
* (safe) undefined behaviour is limited to `allowed`. -/
structure Spec.ReadsParameterSet {α β : Type} (entry : List UInt8 → Res α) (enc : β → List Bool) (Valid : β → Prop) (ext : β → Nat) (body : α → β)
    (lastFlag : α → Nat) (Plain : List Bool → Prop) (allowed : Bad → Prop) : Prop where
  accepts : ∀ (rbsp : List UInt8) (b : β) (rest : List Bool), rbsp.length < 2 ^ 32 → Valid b → bitsOf rbsp = enc b ++ rest →
    ∃ a b', entry (escape rbsp) = .ok a b' ∧ body a = b
  exact : ∀ (rbsp : List UInt8) (b : β) (w : List Bool) (k : Nat), rbsp.length < 2 ^ 32 → Valid b → k ≤ 7 → (ext b = 0 → w = []) →
    bitsOf rbsp = enc b ++ (w ++ true :: List.replicate k false) →
    ∃ a b', entry (escape rbsp) = .ok a b' ∧ body a = b ∧ lastFlag a = (w.getLast?.map Bool.toNat).getD 0 ∧ b'.rem = []
  valid : ∀ (data : List UInt8) (a : α) (b' : BB), data.length < 2 ^ 32 → entry data = .ok a b' → Valid (body a)
  says : ∀ (data : List UInt8) (a : α) (b' : BB), data.length < 2 ^ 32 → entry data = .ok a b' →
    ∃ rbsp, unescapeRbsp data = .ok rbsp ∧ (Plain (bitsOf rbsp) → enc (body a) <+: bitsOf rbsp)
  safe : ∀ (data : List UInt8) (k : Bad), data.length < 2 ^ 32 → entry data = .bad k → allowed k

theorem InvertsRbsp.readsParameterSet {α β : Type} {H : Cond} {A : Bad → Prop} {p : Prog α} {enc : β → List Bool} {Valid : β → Prop}
    {ext : β → Nat} {body : α → β} {data : α → Nat} (h : InvertsRbsp H A p enc Valid ext body data) :
    ReadsParameterSet p.parseEscaped enc Valid ext body data (H α p) A where
  accepts := by
    intro rbsp b rest hlen hv hb
    rw [C55_escaped p hlen]
    exact h.accepts _ b rest (BB.WF.init rbsp) hv (by rw [BB.rem_init]; exact hb)
  exact := by
    intro rbsp b w k hlen hv hk hw hb
    exact h.escaped b w k rbsp hv hk hw hlen hb
  valid := by
    intro data a b' hlen hr
    obtain ⟨rbsp, hu, _⟩ := C11_unescape_bounds data
    rw [C55_entry p hu hlen] at hr
    exact (h.sound _ _ _ (BB.WF.init rbsp) hr).1
  says := by
    intro data a b' hlen hr
    obtain ⟨rbsp, hu, _⟩ := C11_unescape_bounds data
    rw [C55_entry p hu hlen] at hr
    have := (h.sound _ _ _ (BB.WF.init rbsp) hr).2.2.2
    rw [BB.rem_init] at this
    exact ⟨rbsp, hu, this⟩
  safe := by
    intro data k hlen hr
    obtain ⟨rbsp, hu, _⟩ := C11_unescape_bounds data
    rw [C55_entry p hu hlen] at hr
    exact h.safe _ _ (BB.WF.init rbsp) hr

theorem C55_vps : ReadsParameterSet parseVpsBytes Spec.vpsBody ValidVpsBody (·.vps_extension_flag) (·.body) (·.vps_extension_data_flag)
    (fun _ => True) (fun _ => False) := C28_vps_inverts.readsParameterSet

theorem C55_sps : ReadsParameterSet parseSpsBytes Spec.spsBody ValidSpsBody (·.sps_extension_4bits) (·.body) (·.sps_extension_data_flag)
    parseSps.NoAlias (fun k => k = .signedOverflow) := C27_sps_inverts.readsParameterSet

/-- For the PPS, validity and losslessness need the multilayer extension not to have been dropped silently (C29). -/
theorem C55_pps :
    (∀ (rbsp : List UInt8) (b : PpsBody) (rest : List Bool), rbsp.length < 2 ^ 32 → ValidPpsBody b → bitsOf rbsp = Spec.ppsBody b ++ rest →
      ∃ s b', parsePpsBytes (escape rbsp) = .ok s b' ∧ s.body = b) ∧
    (∀ (rbsp : List UInt8) (b : PpsBody) (w : List Bool) (k : Nat), rbsp.length < 2 ^ 32 → ValidPpsBody b → k ≤ 7 →
      (b.head.pps_extension_4bits = 0 → w = []) → bitsOf rbsp = Spec.ppsBody b ++ (w ++ true :: List.replicate k false) →
      ∃ b', parsePpsBytes (escape rbsp) = .ok ⟨b, (w.getLast?.map Bool.toNat).getD 0⟩ b' ∧ b'.rem = []) ∧
    (∀ (data : List UInt8) (s : Pps) (b' : BB), data.length < 2 ^ 32 → parsePpsBytes data = .ok s b' → ¬ Spec.MultilayerLost s.body →
      ValidPpsBody s.body ∧ ∃ rbsp, unescapeRbsp data = .ok rbsp ∧ (parsePps.NoAlias (bitsOf rbsp) → Spec.ppsBody s.body <+: bitsOf rbsp)) ∧
    (∀ (data : List UInt8) (k : Bad), data.length < 2 ^ 32 → parsePpsBytes data = .bad k → k = .signedOverflow) := by
  refine ⟨?_, ?_, ?_, ?_⟩
  · intro rbsp b rest hlen hv hb
    unfold parsePpsBytes
    rw [C55_escaped _ hlen]
    exact C29_pps_accepts _ b rest (BB.WF.init rbsp) hv (by rw [BB.rem_init]; exact hb)
  · intro rbsp b w k hlen hv hk hw hb
    unfold parsePpsBytes
    rw [C55_escaped _ hlen]
    exact C29_pps_exact _ b w k (BB.WF.init rbsp) hv hk hw (by rw [BB.rem_init]; exact hb)
  · intro data s b' hlen hr hl
    obtain ⟨rbsp, hu, _⟩ := C11_unescape_bounds data
    unfold parsePpsBytes at hr
    rw [C55_entry _ hu hlen] at hr
    obtain ⟨h1, _, _, h2⟩ := C29_pps_sound (BB.WF.init rbsp) hr hl
    rw [BB.rem_init] at h2
    exact ⟨h1, rbsp, hu, h2⟩
  · intro data k hlen hr
    obtain ⟨rbsp, hu, _⟩ := C11_unescape_bounds data
    unfold parsePpsBytes at hr
    rw [C55_entry _ hu hlen] at hr
    exact C29_pps_safe (BB.WF.init rbsp) hr

/-- SEI: the framing and every valid payload are read back; null exactly if there is no framing; only a colour remapping message can overflow. -/
theorem C55_sei :
    (∀ (rbsp : List UInt8) (t s : Nat) (p : SeiPayload) (rest : List Bool), rbsp.length < 2 ^ 32 → t < 2 ^ 32 → s < 2 ^ 32 → ValidSeiPayload t s p →
      bitsOf rbsp = ffCoded t ++ ffCoded s ++ seiPayload p ++ rest → ∃ b, parseSeiBytes (escape rbsp) = .ok ⟨t, s, some p⟩ b ∧ b.rem = rest) ∧
    (∀ (data rbsp : List UInt8), data.length < 2 ^ 32 → unescapeRbsp data = .ok rbsp →
      ((∃ b, parseSeiBytes data = .fail b) ↔ ¬ ∃ t s rest, t < 2 ^ 32 ∧ s < 2 ^ 32 ∧ bitsOf rbsp = ffCoded t ++ ffCoded s ++ rest)) ∧
    (∀ (data : List UInt8) (k : Bad), data.length < 2 ^ 32 → parseSeiBytes data = .bad k → k = .signedOverflow) := by
  refine ⟨?_, ?_, ?_⟩
  · intro rbsp t s p rest hlen ht hs hv hb
    unfold parseSeiBytes
    rw [C55_escaped _ hlen]
    obtain ⟨b, h1, _, _, h2⟩ := C40_sei_accepts (BB.WF.init rbsp) ht hs hv (rest := rest) (by rw [BB.rem_init]; exact hb)
    exact ⟨b, h1, h2⟩
  · intro data rbsp hlen hu
    unfold parseSeiBytes
    rw [C55_entry _ hu hlen]
    have := C40_sei_rejects (BB.WF.init rbsp)
    rw [BB.rem_init] at this
    exact this
  · intro data k hlen hr
    obtain ⟨rbsp, hu, _⟩ := C11_unescape_bounds data
    unfold parseSeiBytes at hr
    rw [C55_entry _ hu hlen] at hr
    exact (C40_sei_safe (BB.WF.init rbsp) hr).1

/-! ### entry points that take a parser state

They are safe for every parser state whose SPSs and PPSs are usable, no matter whether the library or the caller made them (`UsableFor`); in
particular for every state reached by parsing (`Reach.usable`). -/

/-- the slice segment header and the slice segment layer are the same parse -/
theorem C55_slice_layer (data : List UInt8) (t : Nat) (st : ParserState) :
    parseSliceSegmentLayerBytes data t st = parseSliceSegmentHeaderBytes data t st := rfl

theorem C55_slice_accepts {st : ParserState} {t : Nat} {P : Pps} {S : Sps} {h : SliceSegmentHeader} {rbsp : List UInt8} {rest : List Bool} (hs : Reach st)
    (hlen : rbsp.length < 2 ^ 32) (hn : Spec.Names st.pps st.sps h.head.slice_pic_parameter_set_id P S) (hv : ValidSliceSegmentHeader t P S h)
    (hb : bitsOf rbsp = Spec.sliceSegmentHeader t P S h ++ rest) :
    ∃ b, parseSliceSegmentLayerBytes (escape rbsp) t st = .ok h b ∧ b.rem = rest := by
  have hok := C21_reachable_states hs
  rw [C55_slice_layer]
  unfold parseSliceSegmentHeaderBytes
  rw [C55_escaped _ hlen]
  obtain ⟨b, h1, _, _, h2⟩ := C36_slice_accepts (fun i P hP => (hok.pps i P hP).1) (fun i S hS => (hok.sps i S hS).1) (BB.init rbsp) h rest P S
    (BB.WF.init rbsp) hn hv (by rw [BB.rem_init]; exact hb)
  exact ⟨b, h1, h2⟩

theorem C55_slice_safe {A : Bad → Prop} {data : List UInt8} {t : Nat} {st : ParserState} {k : Bad} (hs : UsableFor A st) (hlen : data.length < 2 ^ 32)
    (h : parseSliceSegmentLayerBytes data t st = .bad k) : A k := by
  obtain ⟨rbsp, hu, _⟩ := C11_unescape_bounds data
  rw [C55_slice_layer] at h
  unfold parseSliceSegmentHeaderBytes at h
  rw [C55_entry _ hu hlen] at h
  exact slice_safe_for hs.overflow hs.pps hs.sps (BB.WF.init rbsp) h

theorem C55_payload_safe {A : Bad → Prop} {data : List UInt8} {t : Nat} {st : ParserState} {k : Bad} (hs : UsableFor A st) (hlen : data.length < 2 ^ 32)
    (h : parseNalUnitPayloadBytes data t st = .bad k) : A k := by
  obtain ⟨rbsp, hu, _⟩ := C11_unescape_bounds data
  unfold parseNalUnitPayloadBytes at h
  rw [C55_entry _ hu hlen] at h
  exact payload_safe_for hs (BB.WF.init rbsp) h

/-- the payload entry point never returns null -/
theorem C55_payload_total {data : List UInt8} {t : Nat} {st : ParserState} {b : BB} (hlen : data.length < 2 ^ 32) :
    parseNalUnitPayloadBytes data t st ≠ .fail b := by
  intro h
  obtain ⟨rbsp, hu, _⟩ := C11_unescape_bounds data
  unfold parseNalUnitPayloadBytes at h
  rw [C55_entry _ hu hlen, parseNalUnitPayload_eq] at h
  repeat' split at h
  all_goals first
    | exact attempt_not_fail h
    | cases h

theorem C55_rtp_single_safe {A : Bad → Prop} {data : List UInt8} {st : ParserState} {k : Bad} (hs : UsableFor A st) (hlen : data.length < 2 ^ 32)
    (h : parseRtpSingleBytes data st = .bad k) : A k := by
  obtain ⟨rbsp, hu, _⟩ := C11_unescape_bounds data
  unfold parseRtpSingleBytes at h
  rw [C55_entry _ hu hlen] at h
  exact rtpSingle_safe_for hs (BB.WF.init rbsp) h

theorem C55_rtp_ap_safe {A : Bad → Prop} {data : List UInt8} {st : ParserState} {k : Bad} (hs : UsableFor A st) (hlen : data.length < 2 ^ 32)
    (h : parseRtpApBytes data st = .bad k) : A k := by
  obtain ⟨rbsp, hu, _⟩ := C11_unescape_bounds data
  unfold parseRtpApBytes at h
  rw [C55_entry _ hu hlen] at h
  exact rtpAp_safe_for hs (BB.WF.init rbsp) h

theorem C55_rtp_fu_safe {A : Bad → Prop} {data : List UInt8} {st : ParserState} {k : Bad} (hs : UsableFor A st) (hlen : data.length < 2 ^ 32)
    (h : parseRtpFuBytes data st = .bad k) : A k := by
  obtain ⟨rbsp, hu, _⟩ := C11_unescape_bounds data
  unfold parseRtpFuBytes at h
  rw [C55_entry _ hu hlen] at h
  exact rtpFu_safe_for hs (BB.WF.init rbsp) h

/-! ### examples -/

/-- an HRD of the project's unit test (it contains no emulation prevention) -/
example : ((parseHrdParametersBytes [0x80, 0x17, 0x79, 0x44, 0x00, 0x05, 0xb8, 0xd8, 0x00, 0x07, 0xa1, 0x20, 0x40, 0x00] 1 0).val?.map
    fun h => h.sub_layers.length) = some 1 := by decide +kernel

/-- a sub-layer HRD whose bytes need escaping: the hypotheses of `accepts` -/
example : bitsOf [0x00, 0x00, 0x01, 0x00, 0x00, 0x01, 0x80] =
    Spec.list (Spec.subLayerHrdEntry 0) [⟨8388607, 0, 0, 0, 1⟩] ++ [false, false, false, false, false, false, false] := by decide +kernel
example : escape [0x00, 0x00, 0x01, 0x00, 0x00, 0x01, 0x80] = [0x00, 0x00, 0x03, 0x01, 0x00, 0x00, 0x03, 0x01, 0x80] := by decide +kernel
example : (parseSubLayerHrdParametersBytes [0x00, 0x00, 0x03, 0x01, 0x00, 0x00, 0x03, 0x01, 0x80] 1 0).val? = some [⟨8388607, 0, 0, 0, 1⟩] := by
  decide +kernel

/-- the default state is usable, and so is the state of an SPS and a PPS parsed before (C21) -/
example : UsableFor (fun k => k = .signedOverflow) .empty := Reach.empty.usable

end H265
