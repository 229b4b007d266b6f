import Verif.Refine.BaseDict

/-!
# The text of `scale`, `decode` and of the sub-decoder of sub_decoders/RTCM_BASE.py
-/

namespace Verif
namespace PyCore
namespace Refine
open Base

open Rounding (rnd)
variable [Rounding]

@[pyrun] theorem builtin_isinstance3 (P : Prog) (s : St) (a : Nat) (b c d : Ident) :
    builtinFn P n!"isinstance" [.ref a, .tup [.cls b, .cls c, .cls d]] s =
      M.seq (M.read a s) (fun o => instOf P b o >>= fun r => instOf P c o >>= fun r' => instOf P d o >>= fun r'' => M.pure (.bool (r || (r' || r'')))) := by
  show (isInstance P (.ref a) [.cls b, .cls c, .cls d] >>= _) s = _
  unfold isInstance
  simp only []
  rw [M.bind_apply, M.bind_apply]
  cases h : M.read a s with
  | mk r s' =>
    cases r with
    | error e => rfl
    | ok o => cases o <;> simp only [M.seq_ok, instOf, List.any_cons, List.any_nil, Bool.or_false] <;> rfl

/-- The classes with the ones they are tested against in `scale`. -/
theorem scaleDispatch (n : Nat) {h : Heap} {b : Nat} {c : Ident} {fs : List (Ident × Val)} (hb : h[b]? = some (.inst c fs))
    {f : Ident}
    (hf : f = (if subclass src c n!"BaseRP" || subclass src c n!"BaseRPH" then n!"BaseStationDataDecoder.__scale10056"
      else if subclass src c n!"BaseAD" || (subclass src c n!"BaseADSN" || subclass src c n!"BaseADSNRC") then n!"BaseStationDataDecoder.__scale10078_1033"
      else if subclass src c n!"BaseSP" then n!"BaseStationDataDecoder.__scale1013"
      else if subclass src c n!"BaseTS" then n!"BaseStationDataDecoder.__scale1029"
      else n!"BaseStationDataDecoder.__scale1230"))
    (hg : (subclass src c n!"BaseRP" || subclass src c n!"BaseRPH") = true ∨ (subclass src c n!"BaseAD" || (subclass src c n!"BaseADSN" || subclass src c n!"BaseADSNRC")) = true ∨
      subclass src c n!"BaseSP" = true ∨ subclass src c n!"BaseTS" = true ∨ subclass src c n!"BaseGLBS" = true)
    : callFn src (n + 1) n!"BaseStationDataDecoder.scale" [.cls n!"BaseStationDataDecoder", .ref b] h =
      callFn src n f [.cls n!"BaseStationDataDecoder", .ref b] h := by
  pycall Look.fn_BaseStationDataDecoder_scale Src.fn_BaseStationDataDecoder_scale
  cases hq : callFn src n f [.cls n!"BaseStationDataDecoder", .ref b] h with
  | mk r t =>
  cases h1 : (subclass src c n!"BaseRP" || subclass src c n!"BaseRPH") with
  | true =>
    rw [h1, if_pos rfl] at hf
    subst hf
    cases r <;> pyexec [hb, h1, hq, getAttr_cls]
  | false =>
    rw [h1, if_neg (by decide)] at hf
    rw [h1] at hg
    cases h2 : (subclass src c n!"BaseAD" || (subclass src c n!"BaseADSN" || subclass src c n!"BaseADSNRC")) with
    | true =>
      rw [h2, if_pos rfl] at hf
      subst hf
      cases r <;> pyexec [hb, h1, h2, hq, getAttr_cls]
    | false =>
      rw [h2, if_neg (by decide)] at hf
      rw [h2] at hg
      cases h3 : subclass src c n!"BaseSP" with
      | true =>
        rw [h3, if_pos rfl] at hf
        subst hf
        cases r <;> pyexec [hb, h1, h2, h3, hq, getAttr_cls]
      | false =>
        rw [h3, if_neg (by decide)] at hf
        rw [h3] at hg
        cases h4 : subclass src c n!"BaseTS" with
        | true =>
          rw [h4, if_pos rfl] at hf
          subst hf
          cases r <;> pyexec [hb, h1, h2, h3, h4, hq, getAttr_cls]
        | false =>
          rw [h4, if_neg (by decide)] at hf
          rw [h4] at hg
          have h5 : subclass src c n!"BaseGLBS" = true := by simpa using hg
          subst hf
          cases r <;> pyexec [hb, h1, h2, h3, h4, h5, hq, getAttr_cls]

theorem baseScale_src (n : Nat) {h : Heap} {b : Nat} {o : BareObj} (hb : BareShown o h b) :
    Builds ScaledBase h (callFn src (n + 4) n!"BaseStationDataDecoder.scale" [.cls n!"BaseStationDataDecoder", .ref b] h) (Base.scaleR rnd o) := by
  cases o with
  | rp o =>
    rw [scaleDispatch (n + 3) (f := n!"BaseStationDataDecoder.__scale10056") hb rfl (Or.inl rfl)]
    exact scaleRP_src n _ hb
  | rph o =>
    rw [scaleDispatch (n + 3) (f := n!"BaseStationDataDecoder.__scale10056") hb rfl (Or.inl rfl)]
    exact scaleRPH_src n _ hb
  | ad o =>
    rw [scaleDispatch (n + 3) (f := n!"BaseStationDataDecoder.__scale10078_1033") hb rfl (Or.inr (Or.inl rfl))]
    exact scaleAD_src (n + 1) _ hb
  | adsn o =>
    rw [scaleDispatch (n + 3) (f := n!"BaseStationDataDecoder.__scale10078_1033") hb rfl (Or.inr (Or.inl rfl))]
    exact scaleADSN_src (n + 1) _ hb
  | adsnrc o =>
    rw [scaleDispatch (n + 3) (f := n!"BaseStationDataDecoder.__scale10078_1033") hb rfl (Or.inr (Or.inl rfl))]
    exact scaleADSNRC_src (n + 1) _ hb
  | sp o =>
    obtain ⟨d, h1, h2⟩ := hb
    rw [scaleDispatch (n + 3) (f := n!"BaseStationDataDecoder.__scale1013") h1 rfl (Or.inr (Or.inr (Or.inl rfl)))]
    exact scaleSP_src (n + 1) _ ⟨d, h1, h2⟩
  | ts o =>
    rw [scaleDispatch (n + 3) (f := n!"BaseStationDataDecoder.__scale1029") hb rfl (Or.inr (Or.inr (Or.inr (Or.inl rfl))))]
    exact scaleTS_src (n + 1) _ hb
  | glbs o =>
    obtain ⟨d, e, h1, h2⟩ := hb
    rw [scaleDispatch (n + 3) (f := n!"BaseStationDataDecoder.__scale1230") h1 rfl (Or.inr (Or.inr (Or.inr (Or.inr rfl))))]
    exact scaleGLBS_src (n + 1) _ ⟨d, e, h1, h2⟩

/-- The result of `decode`. -/
def DecodedBase : BareObj ⊕ ScaledObj → Heap → Nat → Prop
  | .inl o => BareShown o
  | .inr o => ScaledBase o

theorem baseDecode_src (n : Nat) {h : Heap} {a : Nat} (ha : BaseSelf h a) (buf : Bytes) (bare : Bool) :
    Builds DecodedBase h (callFn src (n + 5) n!"BaseStationDataDecoder.decode" [.ref a, .bytes buf, .bool bare] h) (Base.decodeR rnd buf bare) := by
  pycall Look.fn_BaseStationDataDecoder_decode Src.fn_BaseStationDataDecoder_decode
  have h1 := baseDecodeBare_src n ha buf
  obtain ⟨l, ha'⟩ := ha
  unfold Base.decodeR
  cases hv : Base.decodeBareR rnd buf with
  | error e =>
    rw [hv] at h1
    obtain ⟨t, h1⟩ := h1
    refine ⟨t, ?_⟩
    pyexec [ha', h1]
  | ok e =>
    rw [hv] at h1
    obtain ⟨b, t, h1, hb, hbt⟩ := h1
    cases bare with
    | true =>
      refine ⟨b, t, ?_, hb, hbt⟩
      pyexec [ha', h1, Bool.not_true]
    | false =>
      have h2 := baseScale_src n hbt
      change Builds _ _ _ (Base.scaleR rnd e >>= fun z => pure (Sum.inr z))
      cases hs : Base.scaleR rnd e with
      | error x =>
        rw [hs] at h2
        obtain ⟨t', h2⟩ := h2
        refine ⟨t ++ t', ?_⟩
        rw [← List.append_assoc]
        pyexec [ha', heap_old ha', h1, h2, Bool.not_false]
      | ok z =>
        rw [hs] at h2
        obtain ⟨b', t', h2, hb', hbt'⟩ := h2
        refine ⟨b', t ++ t', ?_, ?_, ?_⟩
        · rw [← List.append_assoc]
          pyexec [ha', heap_old ha', h1, h2, Bool.not_false]
        · rw [List.length_append] at hb'
          omega
        · rw [← List.append_assoc]
          exact hbt'

theorem baseSub_src (n : Nat) {h : Heap} {a d : Nat} (hd : BaseSelf h d) (bare : Bool)
    {fs : List (Ident × Val)}
    (ha : h[a]? = some (.inst n!"SubdecoderBaseStationData" fs)) (hf1 : fs.lookup n!"decoder" = some (.ref d))
    (hf2 : fs.lookup n!"_SubdecoderBaseStationData__is_bare_data" = some (.bool bare)) (buf : Bytes) :
    match Base.subDecodeR rnd bare buf with
    | .ok (some e) => ∃ b t, callFn src (n + 6) n!"SubdecoderBaseStationData.decode" [.ref a, .bytes buf] h = (.ok (.ref b), h ++ t) ∧
        h.length ≤ b ∧ DecodedBase e (h ++ t) b
    | .ok none => ∃ t, callFn src (n + 6) n!"SubdecoderBaseStationData.decode" [.ref a, .bytes buf] h = (.ok .none, h ++ t)
    | .error e => callFn src (n + 6) n!"SubdecoderBaseStationData.decode" [.ref a, .bytes buf] h = (.error (.py (errName e)), h) := by
  pycall Look.fn_SubdecoderBaseStationData_decode Src.fn_SubdecoderBaseStationData_decode
  have h1 := baseMsgNum_src (n + 3) hd buf
  have h2 := baseDecode_src n hd buf bare
  obtain ⟨l, hd'⟩ := hd
  unfold Base.subDecodeR
  have hc1 : ∀ e, catches src (errName e) n!"ExceptionBaseStationDataDecoder" = decide (e = .baseDecoder) := by intro e; cases e <;> rfl
  have hc2 : ∀ e, catches src (errName e) n!"ExceptionBitsError" = decide (e = .bitsError) := by intro e; cases e <;> rfl
  have hc3 : ∀ e, catches src (errName e) n!"IndexError" = decide (e = .indexError) := by intro e; cases e <;> rfl
  have hc4 : ∀ e, catches src (errName e) n!"ArithmeticError" = decide (e = .zeroDivision) := by intro e; cases e <;> rfl
  have hc5 : ∀ e, catches src (errName e) n!"Exception" = true := by intro e; cases e <;> rfl
  cases hv : Base.getMsgNum buf with
  | error e =>
    rw [hv] at h1
    change _ = _
    pyexec [ha, hf1, hf2, hd', h1]
  | ok v =>
    rw [hv] at h1
    cases hv2 : Base.decodeR rnd buf bare with
    | error e =>
      rw [hv2] at h2
      obtain ⟨t, h2⟩ := h2
      refine ⟨t, ?_⟩
      pyexec [ha, hf1, hf2, hd', h1, h2, handle_cons, hc1, hc2, hc3, hc4, hc5]
      cases e <;> pyexec [reduceCtorEq, decide_true, decide_false]
    | ok e =>
      rw [hv2] at h2
      obtain ⟨b, t, h2, hb, hbt⟩ := h2
      refine ⟨b, t, ?_, hb, hbt⟩
      pyexec [ha, hf1, hf2, hd', h1, h2]

end Refine
end PyCore
end Verif
