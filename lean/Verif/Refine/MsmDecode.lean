import Verif.Refine.MsmObs13
import Verif.Refine.RtcmUtil

/-!
# `BareObservablesMSM17Decoder.decode` of the source and its model
-/

namespace Verif
namespace PyCore
namespace Refine

open Rounding (rnd)
variable [Rounding]

/-- A new decoder as an object: `__init__` has set `_ready`, sub_decoders/RTCM_MSM.py:49-52. -/
def newMsm : Obj := .inst n!"BareObservablesMSM17Decoder" [(n!"_ready", .bool false)]

theorem msm_subset_none (n : Nat) (h : Heap) :
    callFn src (n + 1) n!"MSMT.msm_subset" [.cls n!"MSMT", .none] h = (.error (.py n!"TypeError"), h) := by
  pycall Look.fn_MSMT_msm_subset Src.fn_MSMT_msm_subset
  pyexec
  rfl

section
variable {G : Heap} {buf : Bytes}

/-- Local variables of `decode`. -/
def decLoc (G : Heap) (buf : Bytes) : Fields := [(n!"self", .ref G.length), (n!"buf", .bytes buf), (n!"atr", .ref (G.length + 1))]

theorem decode_pre (n m : Nat) (rest : List Stmt) :
    execBlock src m (callFn src (n + 3)) (Src.fn_BareObservablesMSM17Decoder_decode.body.take 4 ++ rest)
      ⟨[(n!"self", .ref G.length), (n!"buf", .bytes buf)], G ++ [newMsm]⟩ =
    match Msm.getMsgNum buf with
    | some _ => execBlock src m (callFn src (n + 3)) rest ⟨decLoc G buf, G ++ [newMsm, .inst n!"Attributes" (atrF (Msm.attributes buf))]⟩
    | none => (.error (.py n!"TypeError"), ⟨decLoc G buf, G ++ [newMsm, .inst n!"Attributes" (atrF ⟨"", "", none⟩)]⟩) := by
  unfold newMsm decLoc
  have e1 := atr_init (n + 1) (G ++ [.inst n!"BareObservablesMSM17Decoder" [(n!"_ready", .bool false)]])
  have e2 := fun o => msm_num_src n G.length buf (G ++ [.inst n!"BareObservablesMSM17Decoder" [(n!"_ready", .bool false)], o]) _ (append_getElem0 ..) rfl
  simp only [List.length_append, List.length_cons, List.length_nil, Nat.zero_add, last1, List.cons_append, List.nil_append] at e1 e2
  simp only [Src.fn_BareObservablesMSM17Decoder_decode, List.take_succ_cons, List.take_zero, List.cons_append, List.nil_append]
  cases hv : Msm.getMsgNum buf with
  | none =>
    rw [hv] at e2
    pyexec [last1, List.cons_append, List.nil_append, append_getElem0, append_set0, append_getElem, append_set, List.getElem?_cons_zero,
      List.getElem?_cons_succ, List.set_cons_zero, List.set_cons_succ, e1, e2, atrF, optVal, List.length_append, List.length_cons, List.length_nil, Nat.zero_add, getAttr_cls, msm_subset_none]
  | some v =>
    rw [hv] at e2
    pyexec [last1, List.cons_append, List.nil_append, append_getElem0, append_set0, append_getElem, append_set, List.getElem?_cons_zero,
      List.getElem?_cons_succ, List.set_cons_zero, List.set_cons_succ, e1, e2, atrF, optVal, List.length_append, List.length_cons, List.length_nil, Nat.zero_add, getAttr_cls, msm_subset_src, pairVal,
      Msm.attributes, hv, Msm.subsetOf]

theorem bare_parts (K : BareKind) (atr sat sgn : Fields) :
    G ++ [.inst n!"BareObservablesMSM17Decoder" [(n!"_ready", .bool false), (n!"bd", .ref (G.length + 2))], .inst n!"Attributes" atr] ++
      [.inst K.bd [(n!"atr", .ref (G.length + 1)), (n!"hdr", .ref (G.length + 2 + 2)), (n!"sat", .ref (G.length + 2 + 3)), (n!"sgn", .ref (G.length + 2 + 4))],
        .inst n!"Attributes" (atrF ⟨"", "", some 0⟩), .inst n!"_BareObservablesHdrMSM" (hdrF {}), .inst K.sat sat, .inst K.sgn sgn] =
    bareHeap G false K atr (hdrF {}) sat sgn [] := by
  unfold bareHeap
  simp only [List.append_assoc, List.cons_append, List.nil_append]
  rfl

theorem cond_123 (n : Nat) (x : Msm.Attributes) :
    eval src (callFn src (n + 3)) (.or (.attr (.name n!"atr") n!"is_msm1") (.or (.attr (.name n!"atr") n!"is_msm2") (.attr (.name n!"atr") n!"is_msm3")))
      ⟨decLoc G buf, G ++ [newMsm, .inst n!"Attributes" (atrF x)]⟩ =
    (.ok (.bool (x.is_msm1 || x.is_msm2 || x.is_msm3)), ⟨decLoc G buf, G ++ [newMsm, .inst n!"Attributes" (atrF x)]⟩) := by
  have ha : (G ++ [newMsm, .inst n!"Attributes" (atrF x)])[G.length + 1]? = some (.inst n!"Attributes" (atrF x)) := append_getElem ..
  have h1 := is_msm1_src (n + 2) _ _ x ha
  have h2 := is_msm2_src (n + 2) _ _ x ha
  have h3 := is_msm3_src (n + 2) _ _ x ha
  unfold decLoc
  generalize x.is_msm1 = b1 at *
  generalize x.is_msm2 = b2 at *
  generalize x.is_msm3 = b3 at *
  cases b1
  · cases b2
    · pyexec [ha, atrF_1, atrF_2, atrF_3, h1, h2, h3, Bool.false_or]
    · pyexec [ha, atrF_1, atrF_2, atrF_3, h1, h2, h3, Bool.false_or, Bool.true_or]
  · pyexec [ha, atrF_1, atrF_2, atrF_3, h1, h2, h3, Bool.true_or]

theorem cond_4567 (n : Nat) (x : Msm.Attributes) :
    eval src (callFn src (n + 3)) (.or (.attr (.name n!"atr") n!"is_msm4") (.or (.attr (.name n!"atr") n!"is_msm5") (.or (.attr (.name n!"atr") n!"is_msm6")
        (.attr (.name n!"atr") n!"is_msm7"))))
      ⟨decLoc G buf, G ++ [newMsm, .inst n!"Attributes" (atrF x)]⟩ =
    (.ok (.bool (x.is_msm4 || x.is_msm5 || x.is_msm6 || x.is_msm7)), ⟨decLoc G buf, G ++ [newMsm, .inst n!"Attributes" (atrF x)]⟩) := by
  have ha : (G ++ [newMsm, .inst n!"Attributes" (atrF x)])[G.length + 1]? = some (.inst n!"Attributes" (atrF x)) := append_getElem ..
  have h4 := is_msm4_src (n + 2) _ _ x ha
  have h5 := is_msm5_src (n + 2) _ _ x ha
  have h6 := is_msm6_src (n + 2) _ _ x ha
  have h7 := is_msm7_src (n + 2) _ _ x ha
  unfold decLoc
  generalize x.is_msm4 = b4 at *
  generalize x.is_msm5 = b5 at *
  generalize x.is_msm6 = b6 at *
  generalize x.is_msm7 = b7 at *
  cases b4
  · cases b5
    · cases b6
      · pyexec [ha, atrF_4, atrF_5, atrF_6, atrF_7, h4, h5, h6, h7, Bool.false_or]
      · pyexec [ha, atrF_4, atrF_5, atrF_6, h4, h5, h6, Bool.false_or, Bool.true_or]
    · pyexec [ha, atrF_4, atrF_5, h4, h5, Bool.false_or, Bool.true_or]
  · pyexec [ha, atrF_4, h4, Bool.true_or]

/-- The part up to the header. -/
theorem decode_bd13 (n m : Nat) (rest : List Stmt) (x : Msm.Attributes) (hx : (x.is_msm1 || x.is_msm2 || x.is_msm3) = true) :
    execBlock src m (callFn src (n + 3)) ((Src.fn_BareObservablesMSM17Decoder_decode.body.drop 4).take 3 ++ rest)
      ⟨decLoc G buf, G ++ [newMsm, .inst n!"Attributes" (atrF x)]⟩ =
    execBlock src m (callFn src (n + 3)) rest ⟨decLoc G buf, bareHeap G false K13 (atrF x) (hdrF {}) (sat13F {}) (sgn13F {}) []⟩ := by
  have hcond := cond_123 (G := G) (buf := buf) n x
  rw [hx] at hcond
  have e1 := bd13_init n (G ++ [newMsm, .inst n!"Attributes" (atrF x)])
  have e2 := fun o1 o2 => bd13_clear (n + 1) (G ++ [o1, o2])
  simp only [List.length_append, List.length_cons, List.length_nil, Nat.zero_add, last1, List.cons_append, List.nil_append, Nat.reduceAdd, List.append_assoc] at e1 e2
  simp only [Src.fn_BareObservablesMSM17Decoder_decode, List.drop_succ_cons, List.drop_zero, List.take_succ_cons, List.take_zero, List.cons_append, List.nil_append]
  rw [← bare_parts]
  unfold decLoc at hcond ⊢
  unfold newMsm at *
  pyexec [hcond]
  unfold K13 at *
  unfold newBare at *
  pyexec [last1, List.cons_append, List.nil_append, append_getElem0, append_set0, append_getElem, append_set, List.getElem?_cons_zero,
      List.getElem?_cons_succ, List.set_cons_zero, List.set_cons_succ, e1, e2, List.length_append, List.length_cons, List.length_nil, Nat.zero_add, Nat.reduceAdd, List.append_assoc]
/-- The part up to the header. -/
theorem decode_bd47 (n m : Nat) (rest : List Stmt) (x : Msm.Attributes) (hx0 : (x.is_msm1 || x.is_msm2 || x.is_msm3) = false)
    (hx : (x.is_msm4 || x.is_msm5 || x.is_msm6 || x.is_msm7) = true) :
    execBlock src m (callFn src (n + 3)) ((Src.fn_BareObservablesMSM17Decoder_decode.body.drop 4).take 3 ++ rest)
      ⟨decLoc G buf, G ++ [newMsm, .inst n!"Attributes" (atrF x)]⟩ =
    execBlock src m (callFn src (n + 3)) rest ⟨decLoc G buf, bareHeap G false K47 (atrF x) (hdrF {}) (sat47F {}) (sgn47F {}) []⟩ := by
  have hcond := cond_123 (G := G) (buf := buf) n x
  have hcond2 := cond_4567 (G := G) (buf := buf) n x
  rw [hx0] at hcond
  rw [hx] at hcond2
  have e1 := bd47_init n (G ++ [newMsm, .inst n!"Attributes" (atrF x)])
  have e2 := fun o1 o2 => bd47_clear (n + 1) (G ++ [o1, o2])
  simp only [List.length_append, List.length_cons, List.length_nil, Nat.zero_add, last1, List.cons_append, List.nil_append, Nat.reduceAdd, List.append_assoc] at e1 e2
  simp only [Src.fn_BareObservablesMSM17Decoder_decode, List.drop_succ_cons, List.drop_zero, List.take_succ_cons, List.take_zero, List.cons_append, List.nil_append]
  rw [← bare_parts]
  unfold decLoc at hcond hcond2 ⊢
  unfold newMsm at *
  pyexec [hcond, hcond2]
  unfold K47 at *
  unfold newBare at *
  pyexec [last1, List.cons_append, List.nil_append, append_getElem0, append_set0, append_getElem, append_set, List.getElem?_cons_zero,
      List.getElem?_cons_succ, List.set_cons_zero, List.set_cons_succ, e1, e2, List.length_append, List.length_cons, List.length_nil, Nat.zero_add, Nat.reduceAdd, List.append_assoc]
/-- A number that is in no table. -/
theorem decode_none (n m : Nat) (rest : List Stmt) (x : Msm.Attributes) (hx0 : (x.is_msm1 || x.is_msm2 || x.is_msm3) = false)
    (hx : (x.is_msm4 || x.is_msm5 || x.is_msm6 || x.is_msm7) = false) :
    execBlock src m (callFn src (n + 3)) ((Src.fn_BareObservablesMSM17Decoder_decode.body.drop 4).take 3 ++ rest)
      ⟨decLoc G buf, G ++ [newMsm, .inst n!"Attributes" (atrF x)]⟩ =
    (.error (.py n!"ExceptionBareDataStructure"), ⟨decLoc G buf, G ++ [newMsm, .inst n!"Attributes" (atrF x)]⟩) := by
  have ha : (G ++ [newMsm, .inst n!"Attributes" (atrF x)])[G.length + 1]? = some (.inst n!"Attributes" (atrF x)) := append_getElem ..
  have hn : (atrF x).lookup n!"msg_number" = some (optVal (fun x : Nat => .int x) x.msg_number) := rfl
  have hcond := cond_123 (G := G) (buf := buf) n x
  have hcond2 := cond_4567 (G := G) (buf := buf) n x
  rw [hx0] at hcond
  rw [hx] at hcond2
  simp only [Src.fn_BareObservablesMSM17Decoder_decode, List.drop_succ_cons, List.drop_zero, List.take_succ_cons, List.take_zero, List.cons_append, List.nil_append]
  unfold decLoc at *
  pyexec [hcond, hcond2, ha, hn]

/-- The decoder after a successful `decode`. -/
def msmHeap (G : Heap) (b : Msm.Bare) (T : List Obj) : Heap :=
  match b with
  | .m123 b => bareHeap G true K13 (atrF b.atr) (hdrF b.hdr) (sat13F b.sat) (sgn13F b.sgn) T
  | .m4567 b => bareHeap G true K47 (atrF b.atr) (hdrF b.hdr) (sat47F b.sat) (sgn47F b.sgn) T

/-- The heap after a failed `decode`: the decoder is not ready. -/
def MsmFailed (G : Heap) (c : Ident) (h : Heap) : Prop :=
  (c = n!"TypeError" ∨ ∃ e, c = errName e) ∧ ∃ (fs : Fields) (T : List Obj),
    h = G ++ .inst n!"BareObservablesMSM17Decoder" ((n!"_ready", .bool false) :: fs) :: T ∧ fs.lookup n!"ready" = none

theorem bareHeap_failed {K : BareKind} {atr hdr sat sgn : Fields} {T : List Obj} (e : PyErr) :
    MsmFailed G (errName e) (bareHeap G false K atr hdr sat sgn T) := ⟨.inr ⟨e, rfl⟩, _, _, rfl, rfl⟩

theorem K13_bd : K13.bd = n!"BareObservablesMSM123" := rfl
theorem K47_bd : K47.bd = n!"BareObservablesMSM4567" := rfl

theorem sub_13 : subclass src n!"BareObservablesMSM123" n!"BareObservablesMSM4567" = false := rfl
theorem sub_47 : subclass src n!"BareObservablesMSM4567" n!"BareObservablesMSM4567" = true := rfl

theorem decode_rest13 (n m : Nat) (x : Msm.Attributes) (hx : (x.is_msm1 || x.is_msm2 || x.is_msm3) = true) :
    match (do
      let (hdr, offset) ← Msm.extractHdr buf 24
      if hdr.sat_mask = 0 then pure { atr := x, hdr := hdr } else do
        let (b, _) ← Msm.extract123 buf x hdr offset
        pure b : Py Msm.Bare123) with
    | .ok b => ∃ (l : Fields) (T : List Obj), execBlock src m (callFn src (n + 3)) (Src.fn_BareObservablesMSM17Decoder_decode.body.drop 7)
        ⟨decLoc G buf, bareHeap G false K13 (atrF x) (hdrF {}) (sat13F {}) (sgn13F {}) []⟩ = (.ok (.ret .none), ⟨l, msmHeap G (.m123 b) T⟩)
    | .error e => ∃ (l : Fields) (h : Heap), execBlock src m (callFn src (n + 3)) (Src.fn_BareObservablesMSM17Decoder_decode.body.drop 7)
        ⟨decLoc G buf, bareHeap G false K13 (atrF x) (hdrF {}) (sat13F {}) (sgn13F {}) []⟩ = (.error (.py (errName e)), ⟨l, h⟩) ∧
          MsmFailed G (errName e) h := by
  have h1 := extract_hdr_src (G := G) (r := false) (K := K13) (atr := atrF x) (sat := sat13F {}) (sgn := sgn13F {}) (T := []) (n + 1) buf 24
  simp only [Src.fn_BareObservablesMSM17Decoder_decode, List.drop_succ_cons, List.drop_zero]
  unfold decLoc
  cases hv : Msm.extractHdr buf 24 with
  | error e =>
    rw [hv] at h1
    obtain ⟨hdr', h1⟩ := h1
    simp only [Nat.cast_ofNat] at h1
    rw [except_error_bind]
    exact ⟨_, _, by pyexec [h1]; rfl, bareHeap_failed e⟩
  | ok y =>
    obtain ⟨hd, o⟩ := y
    rw [hv] at h1
    simp only [Nat.cast_ofNat] at h1
    rw [except_ok_bind]
    dsimp only
    by_cases hz : hd.sat_mask = 0
    · rw [if_pos hz]
      have hz' : ((hd.sat_mask : Int) == 0) = true := by rw [beq_iff_eq]; omega
      exact ⟨_, _, by pyexec [h1, hdrF_sat, hz']; rfl⟩
    · rw [if_neg hz]
      have hz' : ((hd.sat_mask : Int) == 0) = false := by rw [beq_eq_false_iff_ne]; omega
      have h2 := obs13_src (G := G) (r := false) (K := K13) (buf := buf) n x hd o hx
      cases hv2 : Msm.extract123 buf x hd o with
      | error e =>
        rw [hv2] at h2
        obtain ⟨sat, sgn, T, h2⟩ := h2
        rw [except_error_bind]
        exact ⟨_, _, by pyexec [h1, hdrF_sat, hz', h2, K13_bd, sub_13]; rfl, bareHeap_failed e⟩
      | ok y =>
        obtain ⟨b, o'⟩ := y
        rw [hv2] at h2
        obtain ⟨T, h2⟩ := h2
        rw [except_ok_bind]
        exact ⟨_, _, by pyexec [h1, hdrF_sat, hz', h2, K13_bd, sub_13]; rfl⟩

theorem decode_rest47 (n m : Nat) (x : Msm.Attributes) :
    match (do
      let (hdr, offset) ← Msm.extractHdr buf 24
      if hdr.sat_mask = 0 then pure { atr := x, hdr := hdr } else do
        let (b, _) ← Msm.extract4567 buf x hdr offset
        pure b : Py Msm.Bare4567) with
    | .ok b => ∃ (l : Fields) (T : List Obj), execBlock src m (callFn src (n + 3)) (Src.fn_BareObservablesMSM17Decoder_decode.body.drop 7)
        ⟨decLoc G buf, bareHeap G false K47 (atrF x) (hdrF {}) (sat47F {}) (sgn47F {}) []⟩ = (.ok (.ret .none), ⟨l, msmHeap G (.m4567 b) T⟩)
    | .error e => ∃ (l : Fields) (h : Heap), execBlock src m (callFn src (n + 3)) (Src.fn_BareObservablesMSM17Decoder_decode.body.drop 7)
        ⟨decLoc G buf, bareHeap G false K47 (atrF x) (hdrF {}) (sat47F {}) (sgn47F {}) []⟩ = (.error (.py (errName e)), ⟨l, h⟩) ∧
          MsmFailed G (errName e) h := by
  have h1 := extract_hdr_src (G := G) (r := false) (K := K47) (atr := atrF x) (sat := sat47F {}) (sgn := sgn47F {}) (T := []) (n + 1) buf 24
  simp only [Src.fn_BareObservablesMSM17Decoder_decode, List.drop_succ_cons, List.drop_zero]
  unfold decLoc
  cases hv : Msm.extractHdr buf 24 with
  | error e =>
    rw [hv] at h1
    obtain ⟨hdr', h1⟩ := h1
    simp only [Nat.cast_ofNat] at h1
    rw [except_error_bind]
    exact ⟨_, _, by pyexec [h1]; rfl, bareHeap_failed e⟩
  | ok y =>
    obtain ⟨hd, o⟩ := y
    rw [hv] at h1
    simp only [Nat.cast_ofNat] at h1
    rw [except_ok_bind]
    dsimp only
    by_cases hz : hd.sat_mask = 0
    · rw [if_pos hz]
      have hz' : ((hd.sat_mask : Int) == 0) = true := by rw [beq_iff_eq]; omega
      exact ⟨_, _, by pyexec [h1, hdrF_sat, hz']; rfl⟩
    · rw [if_neg hz]
      have hz' : ((hd.sat_mask : Int) == 0) = false := by rw [beq_eq_false_iff_ne]; omega
      have h2 := obs47_src (G := G) (r := false) (K := K47) (buf := buf) n x hd o
      cases hv2 : Msm.extract4567 buf x hd o with
      | error e =>
        rw [hv2] at h2
        obtain ⟨sat, sgn, T, h2⟩ := h2
        rw [except_error_bind]
        exact ⟨_, _, by pyexec [h1, hdrF_sat, hz', h2, K47_bd, sub_47]; rfl, bareHeap_failed e⟩
      | ok y =>
        obtain ⟨b, o'⟩ := y
        rw [hv2] at h2
        obtain ⟨T, h2⟩ := h2
        rw [except_ok_bind]
        exact ⟨_, _, by pyexec [h1, hdrF_sat, hz', h2, K47_bd, sub_47]; rfl⟩

theorem decode_body : Src.fn_BareObservablesMSM17Decoder_decode.body = Src.fn_BareObservablesMSM17Decoder_decode.body.take 4 ++
    ((Src.fn_BareObservablesMSM17Decoder_decode.body.drop 4).take 3 ++ Src.fn_BareObservablesMSM17Decoder_decode.body.drop 7) := rfl

/-- `BareObservablesMSM17Decoder.decode` and its model. The class of an exception may be another one: `msm_subset(None)` raises `TypeError`. -/
theorem msmDecode_src (n : Nat) :
    match Msm.decode buf with
    | .ok b => ∃ T : List Obj, callFn src (n + 4) n!"BareObservablesMSM17Decoder.decode" [.ref G.length, .bytes buf] (G ++ [newMsm]) =
        (.ok .none, msmHeap G b T)
    | .error _ => ∃ (c : Ident) (h : Heap), callFn src (n + 4) n!"BareObservablesMSM17Decoder.decode" [.ref G.length, .bytes buf] (G ++ [newMsm]) =
        (.error (.py c), h) ∧ MsmFailed G c h := by
  have hc : callFn src (n + 4) n!"BareObservablesMSM17Decoder.decode" [.ref G.length, .bytes buf] (G ++ [newMsm]) =
      endCall (execBlock src (n + 3) (callFn src (n + 3)) Src.fn_BareObservablesMSM17Decoder_decode.body
        ⟨[(n!"self", .ref G.length), (n!"buf", .bytes buf)], G ++ [newMsm]⟩) :=
    callFn_succ src _ _ _ _ _ _ Look.fn_BareObservablesMSM17Decoder_decode rfl
  rw [hc, decode_body, decode_pre]
  clear hc
  unfold Msm.decode
  dsimp only
  have hnone : Msm.getMsgNum buf = none → Msm.attributes buf = ⟨"", "", none⟩ := by
    intro h
    unfold Msm.attributes
    rw [h]
    rfl
  cases hv : Msm.getMsgNum buf with
  | none =>
    rw [hnone hv]
    exact ⟨_, _, rfl, .inl rfl, _, _, rfl, rfl⟩
  | some v =>
    dsimp only
    generalize Msm.attributes buf = x
    rcases Bool.eq_false_or_eq_true (x.is_msm1 || x.is_msm2 || x.is_msm3) with e1 | e1
    · rw [if_pos e1, decode_bd13 n _ _ x e1]
      have h1 := decode_rest13 (G := G) (buf := buf) n (n + 3) x e1
      cases hv1 : Msm.extractHdr buf 24 with
      | error e =>
        rw [hv1] at h1
        obtain ⟨l, h, h1, hf⟩ := h1
        rw [h1]
        exact ⟨_, _, rfl, hf⟩
      | ok y =>
        rw [hv1] at h1
        rw [except_ok_bind] at h1 ⊢
        dsimp only at h1 ⊢
        by_cases hz : y.1.sat_mask = 0
        · rw [if_pos hz] at h1 ⊢
          obtain ⟨l, T, h1⟩ := h1
          rw [h1]
          exact ⟨_, rfl⟩
        · rw [if_neg hz] at h1 ⊢
          cases hv2 : Msm.extract123 buf x y.1 y.2 with
          | error e =>
            rw [hv2] at h1
            obtain ⟨l, h, h1, hf⟩ := h1
            rw [h1]
            exact ⟨_, _, rfl, hf⟩
          | ok z =>
            rw [hv2] at h1
            obtain ⟨l, T, h1⟩ := h1
            rw [h1]
            exact ⟨_, rfl⟩
    · rw [if_neg (by rw [e1]; decide)]
      rcases Bool.eq_false_or_eq_true (x.is_msm4 || x.is_msm5 || x.is_msm6 || x.is_msm7) with e2 | e2
      · rw [if_pos e2, decode_bd47 n _ _ x e1 e2]
        have h1 := decode_rest47 (G := G) (buf := buf) n (n + 3) x
        cases hv1 : Msm.extractHdr buf 24 with
        | error e =>
          rw [hv1] at h1
          obtain ⟨l, h, h1, hf⟩ := h1
          rw [h1]
          exact ⟨_, _, rfl, hf⟩
        | ok y =>
          rw [hv1] at h1
          rw [except_ok_bind] at h1 ⊢
          dsimp only at h1 ⊢
          by_cases hz : y.1.sat_mask = 0
          · rw [if_pos hz] at h1 ⊢
            obtain ⟨l, T, h1⟩ := h1
            rw [h1]
            exact ⟨_, rfl⟩
          · rw [if_neg hz] at h1 ⊢
            cases hv2 : Msm.extract4567 buf x y.1 y.2 with
            | error e =>
              rw [hv2] at h1
              obtain ⟨l, h, h1, hf⟩ := h1
              rw [h1]
              exact ⟨_, _, rfl, hf⟩
            | ok z =>
              rw [hv2] at h1
              obtain ⟨l, T, h1⟩ := h1
              rw [h1]
              exact ⟨_, rfl⟩
      · rw [if_neg (by rw [e2]; decide), decode_none n _ _ x e1 e2]
        exact ⟨_, _, rfl, .inr ⟨.bareData, rfl⟩, _, _, rfl, rfl⟩

/-! ## `decode_msm17` -/

theorem msmInit_src (n : Nat) (h : Heap) : callFn src (n + 1) n!"BareObservablesMSM17Decoder.__init__" [.ref h.length]
    (h ++ [.inst n!"BareObservablesMSM17Decoder" []]) = (.ok .none, h ++ [newMsm]) := by
  pycall Look.fn_BareObservablesMSM17Decoder_P_init_P Src.fn_BareObservablesMSM17Decoder_P_init_P
  pyexec [heap_last, heap_set]
  rfl

theorem ready_not (n : Nat) (fs : Fields) (T : List Obj) : callFn src (n + 1) n!"BareObservablesMSM17Decoder.ready" [.ref G.length]
    (G ++ .inst n!"BareObservablesMSM17Decoder" ((n!"_ready", .bool false) :: fs) :: T) =
    (.ok (.bool false), G ++ .inst n!"BareObservablesMSM17Decoder" ((n!"_ready", .bool false) :: fs) :: T) := by
  pycall Look.fn_BareObservablesMSM17Decoder_ready Src.fn_BareObservablesMSM17Decoder_ready
  pyexec [append_getElem0, List.getElem?_cons_zero]

theorem ready_src (n : Nat) (r : Bool) (K : BareKind) (atr hdr sat sgn : Fields) (T : List Obj) :
    callFn src (n + 1) n!"BareObservablesMSM17Decoder.ready" [.ref G.length] (bareHeap G r K atr hdr sat sgn T) =
    (.ok (.bool r), bareHeap G r K atr hdr sat sgn T) := by
  pycall Look.fn_BareObservablesMSM17Decoder_ready Src.fn_BareObservablesMSM17Decoder_ready
  cases r
  · pyexec
  · pyexec
    rfl

theorem bare_data_src (n : Nat) (K : BareKind) (atr hdr sat sgn : Fields) (T : List Obj) :
    callFn src (n + 2) n!"BareObservablesMSM17Decoder.bare_data" [.ref G.length] (bareHeap G true K atr hdr sat sgn T) =
    (.ok (.ref (G.length + 2)), bareHeap G true K atr hdr sat sgn T) := by
  pycall Look.fn_BareObservablesMSM17Decoder_bare_data Src.fn_BareObservablesMSM17Decoder_bare_data
  pyexec [ready_src]

theorem time47_src (n : Nat) (r : Bool) (x : Msm.Attributes) (hd : Msm.BareHdr) (sat sgn : Fields) (T : List Obj) :
    ∃ v, callFn src (n + 1) n!"BareObservablesMSM4567.time" [.ref (G.length + 2)] (bareHeap G r K47 (atrF x) (hdrF hd) sat sgn T) =
    (.ok v, bareHeap G r K47 (atrF x) (hdrF hd) sat sgn T) := by
  pycall Look.fn_BareObservablesMSM4567_time Src.fn_BareObservablesMSM4567_time
  have h1 : (hdrF hd).lookup n!"time" = some (.int hd.time) := rfl
  have h2 : (atrF x).lookup n!"gnss" = some (.str x.gnss) := rfl
  by_cases hg : x.gnss = "R"
  · exact ⟨_, by pyexec [h1, h2, hg, K47_bd, beq_self_eq_true]; rfl⟩
  · have hg' : (x.gnss == "R") = false := by rw [beq_eq_false_iff_ne]; exact hg
    exact ⟨_, by pyexec [h1, h2, hg', K47_bd]; rfl⟩

theorem time13_src (n : Nat) (r : Bool) (x : Msm.Attributes) (hd : Msm.BareHdr) (sat sgn : Fields) (T : List Obj) :
    ∃ v, callFn src (n + 1) n!"BareObservablesMSM123.time" [.ref (G.length + 2)] (bareHeap G r K13 (atrF x) (hdrF hd) sat sgn T) =
    (.ok v, bareHeap G r K13 (atrF x) (hdrF hd) sat sgn T) := by
  pycall Look.fn_BareObservablesMSM123_time Src.fn_BareObservablesMSM123_time
  have h1 : (hdrF hd).lookup n!"time" = some (.int hd.time) := rfl
  have h2 : (atrF x).lookup n!"gnss" = some (.str x.gnss) := rfl
  by_cases hg : x.gnss = "R"
  · exact ⟨_, by pyexec [h1, h2, hg, K13_bd, beq_self_eq_true]; rfl⟩
  · have hg' : (x.gnss == "R") = false := by rw [beq_eq_false_iff_ne]; exact hg
    exact ⟨_, by pyexec [h1, h2, hg', K13_bd]; rfl⟩

theorem msmHeap_ready (b : Msm.Bare) (T : List Obj) : ∃ K x hd sat sgn, (K = K13 ∨ K = K47) ∧
    msmHeap G b T = bareHeap G true K (atrF x) (hdrF hd) sat sgn T := by
  cases b
  · exact ⟨_, _, _, _, _, .inr rfl, rfl⟩
  · exact ⟨_, _, _, _, _, .inl rfl, rfl⟩

/-- `decode_msm17` up to the decision about the output. -/
theorem msm17_pre (n m : Nat) (bare : Bool) (rest : List Stmt) :
    match Msm.decode buf with
    | .ok b => ∃ (v : Val) (T : List Obj), execBlock src m (callFn src (n + 4)) (Src.fn_decode_msm17.body.take 4 ++ rest)
        ⟨[(n!"is_bare_output", .bool bare), (n!"buf", .bytes buf)], G⟩ =
        execBlock src m (callFn src (n + 4)) rest
          ⟨[(n!"is_bare_output", .bool bare), (n!"buf", .bytes buf), (n!"msm", .ref G.length), (n!"mnum", v)], msmHeap G b T⟩
    | .error _ => ∃ (l : Fields) (T : List Obj), execBlock src m (callFn src (n + 4)) (Src.fn_decode_msm17.body.take 4 ++ rest)
        ⟨[(n!"is_bare_output", .bool bare), (n!"buf", .bytes buf)], G⟩ = (.ok (.ret .none), ⟨l, G ++ T⟩) := by
  have e1 := msmInit_src (n + 3) G
  have e2 := msm_num_src (n + 1) G.length buf (G ++ [newMsm]) _ (append_getElem0 ..) rfl
  have e0 : (G ++ [newMsm])[G.length]? = some (.inst n!"BareObservablesMSM17Decoder" [(n!"_ready", .bool false)]) := append_getElem0 ..
  have h1 := msmDecode_src (G := G) (buf := buf) n
  simp only [Src.fn_decode_msm17, List.take_succ_cons, List.take_zero, List.cons_append, List.nil_append]
  cases hv : Msm.decode buf with
  | ok b =>
    rw [hv] at h1
    obtain ⟨T, h1⟩ := h1
    obtain ⟨K, x, hd, sat, sgn, -, hm⟩ := msmHeap_ready (G := G) b T
    refine ⟨optVal (fun x : Nat => .int x) (Msm.getMsgNum buf), T, ?_⟩
    rw [hm] at h1 ⊢
    pyexec [e0, e1, e2, h1, ready_src, Bool.not_true]
  | error e =>
    rw [hv] at h1
    obtain ⟨c, h, h1, hc, fs, T, rfl, hfs⟩ := h1
    have hg : (G ++ .inst n!"BareObservablesMSM17Decoder" ((n!"_ready", .bool false) :: fs) :: T)[G.length]? =
      some (.inst n!"BareObservablesMSM17Decoder" ((n!"_ready", .bool false) :: fs)) := append_getElem0 ..
    have hr := ready_not (G := G) (n + 3) fs T
    rcases hc with rfl | ⟨e, rfl⟩
    · exact ⟨_, _, by
        pyexec [e0, e1, e2, h1, handle_cons, show catches src n!"TypeError" n!"ExceptionBareDataStructure" = false from rfl,
          show catches src n!"TypeError" n!"ExceptionBitsError" = false from rfl, show catches src n!"TypeError" n!"IndexError" = false from rfl,
          show catches src n!"TypeError" n!"ArithmeticError" = false from rfl, show catches src n!"TypeError" n!"Exception" = true from rfl, hg, hfs, hr, Bool.not_false]
        rfl⟩
    · have hc1 : ∀ e, catches src (errName e) n!"ExceptionBareDataStructure" = decide (e = .bareData) := by intro e; cases e <;> rfl
      have hc3 : ∀ e, catches src (errName e) n!"IndexError" = decide (e = .indexError) := by intro e; cases e <;> rfl
      have hc4 : ∀ e, catches src (errName e) n!"ArithmeticError" = decide (e = .zeroDivision) := by intro e; cases e <;> rfl
      cases e
      all_goals
        exact ⟨_, _, by
          pyexec [e0, e1, e2, h1, handle_cons, hc1, catchesBits, hc3, hc4, catchesAny, reduceCtorEq, decide_true, decide_false, hg, hfs, hr, Bool.not_false]
          rfl⟩

/-- `decode_msm17(True, buf)` and its model. -/
theorem msm17_bare_src (n : Nat) :
    match Msm.decode buf with
    | .ok b => ∃ T : List Obj, callFn src (n + 5) n!"decode_msm17" [.bool true, .bytes buf] G = (.ok (.ref (G.length + 2)), msmHeap G b T)
    | .error _ => ∃ T : List Obj, callFn src (n + 5) n!"decode_msm17" [.bool true, .bytes buf] G = (.ok .none, G ++ T) := by
  have hc : callFn src (n + 5) n!"decode_msm17" [.bool true, .bytes buf] G =
      endCall (execBlock src (n + 4) (callFn src (n + 4)) (Src.fn_decode_msm17.body.take 4 ++ Src.fn_decode_msm17.body.drop 4)
        ⟨[(n!"is_bare_output", .bool true), (n!"buf", .bytes buf)], G⟩) :=
    callFn_succ src _ _ _ _ _ _ Look.fn_decode_msm17 rfl
  rw [hc]
  clear hc
  have h1 := msm17_pre (G := G) (buf := buf) n (n + 4) true (Src.fn_decode_msm17.body.drop 4)
  cases hv : Msm.decode buf with
  | error e =>
    rw [hv] at h1
    obtain ⟨l, T, h1⟩ := h1
    rw [h1]
    exact ⟨_, rfl⟩
  | ok b =>
    rw [hv] at h1
    obtain ⟨v, T, h1⟩ := h1
    rw [h1]
    refine ⟨T, ?_⟩
    obtain ⟨K, x, hd, sat, sgn, hK, hm⟩ := msmHeap_ready (G := G) b T
    rw [hm]
    simp only [Src.fn_decode_msm17, List.drop_succ_cons, List.drop_zero]
    rcases hK with rfl | rfl
    · obtain ⟨t, ht⟩ := time13_src (G := G) (n + 3) true x hd sat sgn T
      pyexec [ht, hdrF_sat, bare_data_src, K13_bd]
    · obtain ⟨t, ht⟩ := time47_src (G := G) (n + 3) true x hd sat sgn T
      pyexec [ht, hdrF_sat, bare_data_src, K47_bd]
end

end Refine
end PyCore
end Verif
