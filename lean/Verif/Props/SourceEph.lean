import Verif.Props.SourceText
import Verif.Refine.Eph
import Verif.Props.Eph
import Verif.Props.EndToEndScaled
import Verif.Spec.EphNames
import Verif.Spec.Arithmetic
import Verif.Lemmas.ExactArith

/-!
Claims about the text of `sub_decoders/RTCM_EPH.py`.
-/

namespace Verif
open Spec PyCore Refine
open Rounding (rnd)

section
variable [Rounding]

/-- In the heap, `a` is a sub-decoder of ephemerides as `SubdecoderEph.__init__` (sub_decoders/RTCM_EPH.py:726-731) leaves
it: an object with a decoder of its own and the mode; the attribute `io` is not used by the method. -/
def EphSub (h : Heap) (a : Nat) (bare : Bool) : Prop :=
  ∃ fs d l, h[a]? = some (.inst n!"SubdecoderEph" fs) ∧ fs.lookup n!"decoder" = some (.ref d) ∧
    fs.lookup n!"_SubdecoderEph__bare_data" = some (.bool bare) ∧ h[d]? = some (.inst n!"EphemerisDecoder" [(n!"msgList", l)])

theorem ephAttrs_obj {ν : Type} (f : ν → Val) (o : Eph.Obj ν) :
    (namesOf o).map (attrVal (ephObj f o)) = (valsOf o).map (fun v => some (f v)) := by
  cases o <;> rfl

/-- **C88** the text of `SubdecoderEph.decode` never raises and changes no object that exists, whatever the bytes: it
returns `None` or a new object. -/
theorem C88_total (h : Heap) (a : Nat) (bare : Bool) (ha : EphSub h a bare) (buf : Bytes) :
    Ends n!"SubdecoderEph.decode" [.ref a, .bytes buf] h (fun r => ∃ t,
      r = (.ok .none, h ++ t) ∨ ∃ b, r = (.ok (.ref b), h ++ t) ∧ h.length ≤ b ∧ b < (h ++ t).length) := by
  obtain ⟨fs, d, l, h1, hf1, hf2, h2⟩ := ha
  refine Ends.of_call 6 (fun n => ?_)
  have := ephSub_src n ⟨l, h2⟩ bare h1 hf1 hf2 buf
  generalize Eph.subDecodeR rnd bare buf = p at this
  cases p with
  | none => obtain ⟨t, ht⟩ := this; exact ⟨t, .inl ht⟩
  | some e =>
    obtain ⟨b, t, ht, hb, hx⟩ := this
    exact ⟨t, .inr ⟨b, ht, hb, (List.getElem?_eq_some_iff.1 hx).1⟩⟩

/-- **C88** in bare mode, from a message that carries the fields of an ephemeris of a type other than QZSS the text builds
a new object, and each named attribute of it is the integer of its field. (Missing: QZSS, for which it is false, C88_qzss_violated.) -/
theorem C88_bare_partial (h : Heap) (a : Nat) (ha : EphSub h a true) (buf : Bytes) (o : Eph.Obj Int)
    (hq : ∀ e, o ≠ .qzs e) (hn : NumOk o) (hc : CarriesEph buf o) :
    Ends n!"SubdecoderEph.decode" [.ref a, .bytes buf] h (fun r => ∃ b t x,
      r = (.ok (.ref b), h ++ t) ∧ h.length ≤ b ∧ (h ++ t)[b]? = some x ∧
        (namesOf o).map (attrVal x) = (valsOf o).map (fun v => some (.int v))) := by
  obtain ⟨fs, d, l, h1, hf1, hf2, h2⟩ := ha
  refine Ends.of_call 6 (fun n => ?_)
  have := ephSub_src n ⟨l, h2⟩ true h1 hf1 hf2 buf
  rw [show Eph.subDecodeR rnd true buf = Eph.subDecode true buf from rfl, C30_subDecode buf o hq hn hc] at this
  obtain ⟨b, t, ht, hb, hx⟩ := this
  refine ⟨b, t, _, ht, hb, hx, ?_⟩
  have e1 := ephAttrs_obj numVal (o.map PyNum.int)
  have e2 : namesOf (o.map PyNum.int) = namesOf o := by cases o <;> rfl
  have e3 : valsOf (o.map PyNum.int) = (valsOf o).map PyNum.int := by cases o <;> rfl
  rw [e2, e3, List.map_map] at e1
  exact e1

/-- The value of a scaled quantity. -/
def pyNumVal : PyNum → Val
  | .int x => .int x
  | .flt x => .flt x

/-- **C88** every QZSS ephemeris is refused by the text: `None` is returned. -/
theorem C88_qzss_violated (h : Heap) (a : Nat) (bare : Bool) (ha : EphSub h a bare) (buf : Bytes) (e : EphQZS Int)
    (hn : NumOk (.qzs e)) (hc : CarriesEph buf (.qzs e)) :
    Ends n!"SubdecoderEph.decode" [.ref a, .bytes buf] h (fun r => ∃ t, r = (.ok .none, h ++ t)) := by
  obtain ⟨fs, d, l, h1, hf1, hf2, h2⟩ := ha
  refine Ends.of_call 6 (fun n => ?_)
  have := ephSub_src n ⟨l, h2⟩ bare h1 hf1 hf2 buf
  have e1 : Eph.subDecodeR rnd bare buf = none := by
    have := C31_violated_wellformed buf bare e hn hc
    unfold Eph.subDecode Eph.decode at this
    unfold Eph.subDecodeR Eph.decodeR
    cases hg : Eph.getMsgNum buf with
    | error e => rfl
    | ok m =>
      cases hd : Eph.decodeBare buf with
      | error e => rfl
      | ok o =>
        rw [hg, hd] at this
        cases bare <;> cases this
  rwa [e1] at this

end

section
attribute [local instance] exactArith

/-- **C88** in scaled mode with exact arithmetic each named attribute is the integer of its field times the resolution of the standard. (Missing: QZSS.) -/
theorem C88_scaled_partial (h : Heap) (a : Nat) (ha : EphSub h a false) (buf : Bytes) (o : Eph.Obj Int)
    (hq : ∀ e, o ≠ .qzs e) (hn : NumOk o) (hc : CarriesEph buf o) :
    Ends n!"SubdecoderEph.decode" [.ref a, .bytes buf] h (fun r => ∃ b t x,
      r = (.ok (.ref b), h ++ t) ∧ h.length ≤ b ∧ (h ++ t)[b]? = some x ∧
        (namesOf o).map (attrVal x) = (scaledVals (tableOf o) (valsOf o)).map (fun v => some (pyNumVal v))) := by
  obtain ⟨fs, d, l, h1, hf1, hf2, h2⟩ := ha
  refine Ends.of_call 6 (fun n => ?_)
  have := ephSub_src n ⟨l, h2⟩ false h1 hf1 hf2 buf
  rw [show Eph.subDecodeR (@rnd exactArith) = Eph.subDecode from Eph.subDecodeR_id] at this
  have hd : Eph.subDecode false buf = some (Eph.scale o) := by
    have h5 : 5 ≤ buf.length := le_trans (by unfold minFrame; omega) hc.facts.1
    unfold Eph.subDecode Eph.decode
    rw [getMsgNum_eq buf h5, ok_bind, C30_roundtrip buf o hq hn hc]
    rfl
  rw [hd] at this
  obtain ⟨b, t, ht, hb, hx⟩ := this
  refine ⟨b, t, _, ht, hb, hx, ?_⟩
  have e1 := ephAttrs_obj numVal (Eph.scale o)
  have e2 : namesOf (Eph.scale o) = namesOf o := by cases o <;> rfl
  have e4 : (fun v => some (numVal v)) = (fun v => some (pyNumVal v)) := by funext v; cases v <;> rfl
  rw [e2, C32_scale, e4] at e1
  · exact e1
  · intro e he
    exact Run.tk_range (C30_range buf o hq (C30_roundtrip buf o hq hn hc)) e he

end

/-- An object as the constructor leaves it, with the objects that it refers to: the text of `EphemerisDecoder.__init__`
fills the decoder. -/
def exEphHeap (bare : Bool) : Heap :=
  [.inst n!"EphemerisDecoder" [(n!"msgList", .tup [.int 1019, .int 1020, .int 1041, .int 1042, .int 1044, .int 1045, .int 1046])],
   .inst n!"SubdecoderEph" [(n!"_SubdecoderEph__bare_data", .bool bare), (n!"decoder", .ref 0), (n!"io", .none)]]

example [Rounding] : (callFn src 1 n!"EphemerisDecoder.__init__" [.ref 0] [.inst n!"EphemerisDecoder" []]).2 = (exEphHeap true).take 1 := by rfl
example (bare : Bool) : EphSub (exEphHeap bare) 1 bare := ⟨_, 0, _, rfl, rfl, rfl, rfl⟩

/-- A message with a GLONASS ephemeris with extreme values, and one with a QZSS ephemeris. -/
example : NumOk (.glo sampleGlo) ∧
    CarriesEph ([0xD3, 0, 45] ++ bytesOfBits 45 (encode (fieldsOf T1020) (vals1020 sampleGlo)) ++ [1, 2, 3]) (.glo sampleGlo) :=
  ⟨rfl, [0xD3, 0, 45], _, [1, 2, 3], encode (fieldsOf T1020) (vals1020 sampleGlo), [], rfl, rfl, rfl, by decide +kernel,
    encodes_encode (by decide)⟩
example : NumOk (.qzs sampleQzs) ∧ CarriesEph ([0xD3, 0, 61] ++ bytesOfBits 61
      (encode (fieldsOf T1044) (vals1044 sampleQzs) ++ [false, false, false]) ++ [1, 2, 3]) (.qzs sampleQzs) :=
  ⟨rfl, [0xD3, 0, 61], _, [1, 2, 3], encode (fieldsOf T1044) (vals1044 sampleQzs), [false, false, false], rfl, rfl, rfl,
    by decide +kernel, encodes_encode (by decide)⟩

attribute [local instance] exactArith

/-- The text executed on this message: the attribute `tk` of the new object. -/
example : (match ((callFn src 6 n!"SubdecoderEph.decode" [.ref 1, .bytes ([0xD3, 0, 45] ++
      bytesOfBits 45 (encode (fieldsOf T1020) (vals1020 sampleGlo)) ++ [1, 2, 3])] (exEphHeap true)).2[2]?.bind
        (attrVal · "tk")) with
    | some (.int x) => x == sampleGlo.tk
    | _ => false) = true := by decide +kernel

end Verif
