import Verif.Refine.JsonMsm
import Verif.Refine.BaseDict
import Verif.Refine.EphScale
import Verif.Refine.Eph

/-! # `JSONCore.dataClassToPrintBuffer`, printers/json_printer.py:334-353 -/

namespace Verif
namespace PyCore
namespace Refine
open Verif.Msm

open Rounding (rnd)
variable [Rounding]

theorem builtin_asdict (P : Prog) (v : Val) (s : St) : builtinFn P n!"asdict" [v] s = asDict P v s := rfl

theorem copyField_imm {x : Ident} {v : Val} (hv : immediate v = true) (s : St) : copyField (x, v) s = (.ok (x, v), s) := by
  cases v <;> first | rfl | (unfold copyField; dsimp only; rw [hv]; rfl) | cases hv

/-- The entries of fields with immediate values. -/
def Entries (fs : Fields) (es : List (Ident × Default)) (l : List (String × Val)) : Prop :=
  List.Forall₂ (fun f p => nameOf f.1 = p.1 ∧ fs.lookup f.1 = some p.2 ∧ immediate p.2 = true) es l

theorem entry_imm {fs : Fields} {f : Ident × Default} {p : String × Val} (h1 : nameOf f.1 = p.1) (h2 : fs.lookup f.1 = some p.2) (h3 : immediate p.2 = true) (s : St) :
    dictEntry fs f s = (.ok (.str p.1, p.2), s) := by
  unfold dictEntry
  rw [h2]
  dsimp only
  pyexec [copyField_imm h3, h1]

theorem entry_dict {fs : Fields} {f : Ident × Default} {k : String} {d : Nat} {D : List (Val × Val)} {L : Fields} {h : Heap} (h1 : nameOf f.1 = k) (h2 : fs.lookup f.1 = some (.ref d))
    (h3 : h[d]? = some (.dict D)) (h4 : D.all (fun p => immediate p.1 && immediate p.2) = true) :
    dictEntry fs f ⟨L, h⟩ = (.ok (.str k, .ref h.length), ⟨L, h ++ [.dict D]⟩) := by
  unfold dictEntry
  rw [h2]
  dsimp only
  pyexec [copyField_dict h3 h4, h1]

theorem entries_then {fs : Fields} {s s' : St} {rest : List (Ident × Default)} {ws : List (Val × Val)} (hr : M.mapList (dictEntry fs) rest s = (.ok ws, s')) :
    ∀ {es : List (Ident × Default)} {l : List (String × Val)}, Entries fs es l → M.mapList (dictEntry fs) (es ++ rest) s = (.ok (strPairs l ++ ws), s')
  | [], [], _ => hr
  | e :: es, p :: l, h => by
    cases h with
    | cons h1 h2 =>
      rw [List.cons_append, M.mapList_cons]
      pyexec [entry_imm h1.1 h1.2.1 h1.2.2, entries_then hr h2]
      rfl

theorem entries_imm {fs : Fields} (s : St) {es : List (Ident × Default)} {l : List (String × Val)} (h : Entries fs es l) :
    M.mapList (dictEntry fs) es s = (.ok (strPairs l), s) := by
  have := entries_then (s := s) (rest := []) (ws := []) rfl h
  rwa [List.append_nil, List.append_nil] at this

section
variable (n : Nat) {h : Heap} {a k o : Nat} {pretty hdr aux : Bool} {c : Ident} {fs : Fields}
  (h1 : h[a]? = some (.inst n!"JSONCore" [(n!"ctrls", .ref k)]))
  (h2 : h[k]? = some (.inst n!"JSONControls" [(n!"enable_hdr_data", .bool hdr), (n!"enable_aux_data", .bool aux), (n!"enable_pretty_view", .bool pretty)]))
  (h3 : h[o]? = some (.inst c fs)) (hc : isDataclass src c = true)
include h1 h2 h3 hc

theorem data_run {t : Heap} {kvs : List (Val × Val)} (hm : ∀ L, M.mapList (dictEntry fs) (dataFields src c) ⟨L, h⟩ = (.ok kvs, ⟨L, h ++ t⟩)) {j : PyVal}
    (hj : jsonVal (h ++ (t ++ [.dict kvs])) 8 (.ref (h.length + t.length)) = some j) :
    callFn src (n + 2) n!"JSONCore.dataClassToPrintBuffer" [.ref a, .ref o] h = (.ok (.json j (if pretty then some 2 else none)), h ++ (t ++ [.dict kvs])) := by
  have g1 : ∀ X, (h ++ X)[a]? = _ := fun X => heap_old h1 X
  have g2 : ∀ X, (h ++ X)[k]? = _ := fun X => heap_old h2 X
  have hA : ∀ L, asDict src (.ref o) ⟨L, h⟩ = (.ok (.ref (h.length + t.length)), ⟨L, h ++ (t ++ [.dict kvs])⟩) := by
    intro L
    unfold asDict
    pyexec [h3, hc, hm, List.length_append, List.append_assoc]
  pycall Look.fn_JSONCore_dataClassToPrintBuffer Src.fn_JSONCore_dataClassToPrintBuffer
  have d1 := dumps_none hj
  have d2 := dumps_two hj
  cases pretty <;>
  ( pyexec [h1, h2, h3, hA, g1, g2, builtin_asdict, builtin_dumps, d1, d2])

/-- A dataclass whose fields are immediate values. -/
theorem flat_json {l : List (String × Val)} {js : List (String × PyVal)} (hl : Entries fs (dataFields src c) l)
    (hj : List.Forall₂ (fun p q => p.1 = q.1 ∧ ∀ h, jsonVal h 7 p.2 = some q.2) l js) :
    ∃ t, callFn src (n + 2) n!"JSONCore.dataClassToPrintBuffer" [.ref a, .ref o] h =
      (.ok (.json (Json.strDict js) (if pretty then some 2 else none)), h ++ t) := by
  refine ⟨_, data_run n h1 h2 h3 hc (t := []) (kvs := strPairs l) (fun L => by rw [List.append_nil]; exact entries_imm _ hl) ?_⟩
  exact json_slots (append_getElem0 h _) (hj.imp (fun p q hq => ⟨hq.1, hq.2 _⟩))
end

/-! ## Ephemerides -/

theorem num_json (v : PyNum) (h : Heap) : jsonVal h 7 (numVal v) = some (Json.ofNum v) := by cases v <;> rfl
theorem num_imm (v : PyNum) : immediate (numVal v) = true := by cases v <;> rfl

/-- Names and values of an ephemeris. -/
def ephPairs (e : Eph.Obj PyNum) : List (String × Val) := (Json.ephFields e).map (fun p => (p.1, numVal p.2))

theorem eph_json (n : Nat) {h : Heap} {a o : Nat} {c : Json.Controls} {e : Eph.Obj PyNum} (hc : CoreAt h a c) (he : h[o]? = some (ephObj numVal e)) :
    ∃ t, callFn src (n + 2) n!"JSONCore.dataClassToPrintBuffer" [.ref a, .ref o] h =
      (.ok (.json (Json.strDictOf Json.ofNum (Json.ephFields e)) c.indent), h ++ t) := by
  obtain ⟨k, h1, h2⟩ := hc
  have key : ∀ {c' : Ident} {fs : Fields}, ephObj numVal e = .inst c' fs → isDataclass src c' = true → Entries fs (dataFields src c') (ephPairs e) →
      ∃ t, callFn src (n + 2) n!"JSONCore.dataClassToPrintBuffer" [.ref a, .ref o] h =
        (.ok (.json (Json.strDictOf Json.ofNum (Json.ephFields e)) c.indent), h ++ t) := by
    intro c' fs e1 e2 e3
    rw [e1] at he
    have := flat_json n h1 h2 he e2 e3 (js := (Json.ephFields e).map (fun p => (p.1, Json.ofNum p.2))) (by
      unfold ephPairs
      rw [List.forall₂_map_left_iff, List.forall₂_map_right_iff, List.forall₂_same]
      exact fun p _ => ⟨rfl, num_json _⟩)
    unfold Json.strDict at this
    rw [List.map_map] at this
    exact this
  cases e with
  | gps e =>
    refine key rfl rfl ?_
    rw [Look.fields_EphGPS]
    unfold ephPairs Json.ephFields Json.fieldsGPS
    simp only [List.map_cons, List.map_nil]
    repeat (refine .cons ⟨by rfl, by rfl, num_imm _⟩ ?_)
    exact .nil
  | glo e =>
    refine key rfl rfl ?_
    rw [Look.fields_EphGLO]
    unfold ephPairs Json.ephFields Json.fieldsGLO
    simp only [List.map_cons, List.map_nil]
    repeat (refine .cons ⟨by rfl, by rfl, num_imm _⟩ ?_)
    exact .nil
  | navic e =>
    refine key rfl rfl ?_
    rw [Look.fields_EphNAVIC]
    unfold ephPairs Json.ephFields Json.fieldsNAVIC
    simp only [List.map_cons, List.map_nil]
    repeat (refine .cons ⟨by rfl, by rfl, num_imm _⟩ ?_)
    exact .nil
  | bds e =>
    refine key rfl rfl ?_
    rw [Look.fields_EphBDS]
    unfold ephPairs Json.ephFields Json.fieldsBDS
    simp only [List.map_cons, List.map_nil]
    repeat (refine .cons ⟨by rfl, by rfl, num_imm _⟩ ?_)
    exact .nil
  | qzs e =>
    refine key rfl rfl ?_
    rw [Look.fields_EphQZS]
    unfold ephPairs Json.ephFields Json.fieldsQZS
    simp only [List.map_cons, List.map_nil]
    repeat (refine .cons ⟨by rfl, by rfl, num_imm _⟩ ?_)
    exact .nil
  | galf e =>
    refine key rfl rfl ?_
    rw [Look.fields_EphGALF]
    unfold ephPairs Json.ephFields Json.fieldsGALF
    simp only [List.map_cons, List.map_nil]
    repeat (refine .cons ⟨by rfl, by rfl, num_imm _⟩ ?_)
    exact .nil
  | gali e =>
    refine key rfl rfl ?_
    rw [Look.fields_EphGALI]
    unfold ephPairs Json.ephFields Json.fieldsGALI
    simp only [List.map_cons, List.map_nil]
    repeat (refine .cons ⟨by rfl, by rfl, num_imm _⟩ ?_)
    exact .nil

/-! ## Base station data -/

section
variable {β ν σ : Type} {fb : β → Val} {fn : ν → Val} {fq : σ → Val} {R : Json.BaseRepr β ν σ}

/-- The values are written as they are represented. -/
structure Written (fb : β → Val) (fn : ν → Val) (fq : σ → Val) (R : Json.BaseRepr β ν σ) : Prop where
  flag : ∀ h n x, jsonVal h (n + 1) (fb x) = some (R.flag x)
  num : ∀ h n x, jsonVal h (n + 1) (fn x) = some (R.num x)
  txt : ∀ h n x, jsonVal h (n + 1) (fq x) = some (R.txt x)
  imm1 : ∀ x, immediate (fb x) = true
  imm2 : ∀ x, immediate (fn x) = true
  imm3 : ∀ x, immediate (fq x) = true
  tup : ∀ x y, immediate (.tup [fb x, fn y]) = true

theorem written_bare : Written (fun x : Int => .int x) (fun x : Int => .int x) (fun x : Int => .int x) Json.bareRepr :=
  ⟨fun _ _ _ => rfl, fun _ _ _ => rfl, fun _ _ _ => rfl, fun _ => rfl, fun _ => rfl, fun _ => rfl, fun _ _ => rfl⟩
theorem written_scaled : Written (fun x : Bool => .bool x) (fun x : Rat => .flt x) (fun x : String => .str x) Json.scaledRepr :=
  ⟨fun _ _ _ => rfl, fun _ _ _ => rfl, fun _ _ _ => rfl, fun _ => rfl, fun _ => rfl, fun _ => rfl, fun _ _ => rfl⟩

/-- Entries of fields with immediate values. -/
macro "entries" hw:term : tactic => `(tactic| (
  repeat (refine List.Forall₂.cons ⟨by rfl, by rfl, by first | rfl | exact Written.imm1 $hw _ | exact Written.imm2 $hw _ | exact Written.imm3 $hw _⟩ ?_)
  exact List.Forall₂.nil))

/-- What is written for them. -/
macro "written" hw:term : tactic => `(tactic| (
  repeat (refine List.Forall₂.cons ⟨by rfl, fun h => by first | rfl | exact Written.flag $hw _ _ _ | exact Written.num $hw _ _ _ | exact Written.txt $hw _ _ _⟩ ?_)
  exact List.Forall₂.nil))

theorem base_json (hw : Written fb fn fq R) (n : Nat) {h : Heap} {a b : Nat} {c : Json.Controls} {o : Base.Obj β ν σ} (hc : CoreAt h a c)
    (hb : ShowsBase fb fn fq h b o) :
    ∃ t, callFn src (n + 2) n!"JSONCore.dataClassToPrintBuffer" [.ref a, .ref b] h =
      (.ok (.json (Json.strDict (Json.baseFields R o)) c.indent), h ++ t) := by
  obtain ⟨k, h1, h2⟩ := hc
  have ha : ∀ L k, (h ++ L)[h.length + k]? = L[k]? := append_getElem h
  have ha0 : ∀ L, (h ++ L)[h.length]? = L[0]? := append_getElem0 h
  cases o with
  | rp o =>
    refine flat_json n h1 h2 hb rfl (l := [("msgNum", .int o.msgNum), ("bsID", .int o.bsID), ("ITRF_Year", .int o.ITRF_Year), ("GPS_OK", fb o.GPS_OK),
      ("GLO_OK", fb o.GLO_OK), ("GAL_OK", fb o.GAL_OK), ("isVirtual", fb o.isVirtual), ("refPoint_X", fn o.refPoint_X),
      ("singleOsc", fb o.singleOsc), ("refPoint_Y", fn o.refPoint_Y), ("QC_bias", fq o.QC_bias), ("refPoint_Z", fn o.refPoint_Z)]) ?_ ?_
    · rw [Look.fields_BaseRP]
      entries hw
    · unfold Json.baseFields Json.fieldsRP
      written hw
  | rph o =>
    refine flat_json n h1 h2 hb rfl (l := [("msgNum", .int o.rp.msgNum), ("bsID", .int o.rp.bsID), ("ITRF_Year", .int o.rp.ITRF_Year), ("GPS_OK", fb o.rp.GPS_OK),
      ("GLO_OK", fb o.rp.GLO_OK), ("GAL_OK", fb o.rp.GAL_OK), ("isVirtual", fb o.rp.isVirtual), ("refPoint_X", fn o.rp.refPoint_X),
      ("singleOsc", fb o.rp.singleOsc), ("refPoint_Y", fn o.rp.refPoint_Y), ("QC_bias", fq o.rp.QC_bias), ("refPoint_Z", fn o.rp.refPoint_Z), ("height", fn o.height)]) ?_ ?_
    · rw [Look.fields_BaseRPH]
      entries hw
    · unfold Json.baseFields Json.fieldsRP
      written hw
  | ad o =>
    refine flat_json n h1 h2 hb rfl (l := [("msgNum", .int o.msgNum), ("bsID", .int o.bsID), ("descrLength", .int o.descrLength), ("descr", .str o.descr),
      ("setupID", .int o.setupID)]) ?_ ?_
    · rw [Look.fields_BaseAD]
      entries hw
    · unfold Json.baseFields Json.fieldsAD
      written hw
  | adsn o =>
    refine flat_json n h1 h2 hb rfl (l := [("msgNum", .int o.ad.msgNum), ("bsID", .int o.ad.bsID), ("descrLength", .int o.ad.descrLength), ("descr", .str o.ad.descr),
      ("setupID", .int o.ad.setupID), ("serialNumberLength", .int o.serialNumberLength), ("serialNumber", .str o.serialNumber)]) ?_ ?_
    · rw [Look.fields_BaseADSN]
      entries hw
    · unfold Json.baseFields Json.fieldsADSN Json.fieldsAD
      written hw
  | adsnrc o =>
    refine flat_json n h1 h2 hb rfl (l := [("msgNum", .int o.adsn.ad.msgNum), ("bsID", .int o.adsn.ad.bsID), ("descrLength", .int o.adsn.ad.descrLength), ("descr", .str o.adsn.ad.descr),
      ("setupID", .int o.adsn.ad.setupID), ("serialNumberLength", .int o.adsn.serialNumberLength), ("serialNumber", .str o.adsn.serialNumber),
      ("rcvDescriptorLength", .int o.rcvDescriptorLength), ("rcvDescriptor", .str o.rcvDescriptor), ("rcvFWVersionLength", .int o.rcvFWVersionLength),
      ("rcvFWVersion", .str o.rcvFWVersion), ("rcvSerNumLength", .int o.rcvSerNumLength), ("rcvSerNum", .str o.rcvSerNum)]) ?_ ?_
    · rw [Look.fields_BaseADSNRC]
      entries hw
    · unfold Json.baseFields Json.fieldsADSN Json.fieldsAD
      written hw
  | ts o =>
    refine flat_json n h1 h2 hb rfl (l := [("msgNum", .int o.msgNum), ("bsID", .int o.bsID), ("modifiedJulianDay", .int o.modifiedJulianDay), ("daySec", .int o.daySec),
      ("charNum", .int o.charNum), ("unitsNum", .int o.unitsNum), ("message", .str o.message)]) ?_ ?_
    · rw [Look.fields_BaseTS]
      entries hw
    · unfold Json.baseFields 
      written hw
  | sp o =>
    obtain ⟨d, hb, hd, -⟩ := hb
    have hi : (schedDict fb fn o.shedule).all (fun p => immediate p.1 && immediate p.2) = true := by
      unfold schedDict encD
      rw [List.all_map, List.all_eq_true]
      exact fun p _ => hw.tup _ _
    have he : Entries (spFields o d) ((dataFields src n!"BaseSP").take 6) [("msgNum", .int o.msgNum), ("bsID", .int o.bsID),
        ("modifiedJulianDay", .int o.modifiedJulianDay), ("daySec", .int o.daySec), ("Nm", .int o.Nm), ("leapSec", .int o.leapSec)] := by
      rw [Look.fields_BaseSP]
      entries hw
    refine ⟨_, data_run n h1 h2 hb rfl (t := [.dict (schedDict fb fn o.shedule)]) (kvs := strPairs [("msgNum", .int o.msgNum), ("bsID", .int o.bsID),
        ("modifiedJulianDay", .int o.modifiedJulianDay), ("daySec", .int o.daySec), ("Nm", .int o.Nm), ("leapSec", .int o.leapSec), ("shedule", .ref h.length)])
        (fun L => ?_) ?_⟩
    · refine entries_then (rest := (dataFields src n!"BaseSP").drop 6) (ws := [(.str "shedule", .ref h.length)]) ?_ he
      rw [Look.fields_BaseSP]
      have e := entry_dict (fs := spFields o d) (L := L) (f := (n!"shedule", Default.emptyDict)) (k := "shedule") rfl rfl hd hi
      simp only [List.drop_succ_cons, List.drop_zero]
      pyexec [e]
    · have hs : ∀ g r, g[r]? = some (Obj.dict (schedDict fb fn o.shedule)) → jsonVal g 7 (.ref r) =
          some (.dict (o.shedule.map (fun p => (.int p.1, .seq [R.flag p.2.1, R.num p.2.2])))) := by
        intro g r hr
        refine json_dict hr ?_
        unfold schedDict encD
        rw [List.forall₂_map_left_iff, List.forall₂_map_right_iff, List.forall₂_same]
        exact fun p _ => ⟨rfl, json_tup (.cons (hw.flag _ _ _) (.cons (hw.num _ _ _) .nil))⟩
      refine json_slots (ha _ 1) ?_
      exact .cons ⟨rfl, rfl⟩ (.cons ⟨rfl, rfl⟩ (.cons ⟨rfl, rfl⟩ (.cons ⟨rfl, rfl⟩ (.cons ⟨rfl, rfl⟩ (.cons ⟨rfl, rfl⟩ (.cons ⟨rfl, hs _ _ (ha0 _)⟩ .nil))))))
  | glbs o =>
    obtain ⟨d, e, hb, hd, he, -⟩ := hb
    have i1 : (encD .str (fun _ v => fb v) o.validity).all (fun p => immediate p.1 && immediate p.2) = true := by
      unfold encD
      rw [List.all_map, List.all_eq_true]
      exact fun p _ => hw.imm1 _
    have i2 : (encD .str (fun _ v => fn v) o.correction).all (fun p => immediate p.1 && immediate p.2) = true := by
      unfold encD
      rw [List.all_map, List.all_eq_true]
      exact fun p _ => hw.imm2 _
    have hE : Entries (glbsFields fb o d e) ((dataFields src n!"BaseGLBS").take 3) [("msgNum", .int o.msgNum), ("bsID", .int o.bsID), ("isCorrected", fb o.isCorrected)] := by
      rw [Look.fields_BaseGLBS]
      entries hw
    refine ⟨_, data_run n h1 h2 hb rfl (t := [.dict (encD .str (fun _ v => fb v) o.validity), .dict (encD .str (fun _ v => fn v) o.correction)])
      (kvs := strPairs [("msgNum", .int o.msgNum), ("bsID", .int o.bsID), ("isCorrected", fb o.isCorrected), ("validity", .ref h.length), ("correction", .ref (h.length + 1))])
      (fun L => ?_) ?_⟩
    · refine entries_then (rest := (dataFields src n!"BaseGLBS").drop 3) (ws := [(.str "validity", .ref h.length), (.str "correction", .ref (h.length + 1))]) ?_ hE
      rw [Look.fields_BaseGLBS]
      have e1 := entry_dict (fs := glbsFields fb o d e) (L := L) (f := (n!"validity", Default.emptyDict)) (k := "validity") rfl rfl hd i1
      have e2 := entry_dict (fs := glbsFields fb o d e) (L := L) (f := (n!"correction", Default.emptyDict)) (k := "correction") rfl rfl
        (heap_old he [.dict (encD .str (fun _ v => fb v) o.validity)]) i2
      simp only [List.drop_succ_cons, List.drop_zero]
      pyexec [e1, e2, List.length_append, List.length_cons, List.length_nil, Nat.reduceAdd, List.append_assoc, List.cons_append, List.nil_append]
    · have hs : ∀ {γ : Type} {f : γ → Val} {g : γ → PyVal} (_ : ∀ h n x, jsonVal h (n + 1) (f x) = some (g x)) (D : PyDict String γ) (G : Heap) (r : Nat),
          G[r]? = some (Obj.dict (encD .str (fun _ v => f v) D)) → jsonVal G 7 (.ref r) = some (Json.strDictOf g D) := by
        intro γ f g hf D G r hr
        refine json_dict hr ?_
        unfold encD
        rw [List.forall₂_map_left_iff, List.forall₂_map_right_iff, List.forall₂_same]
        exact fun p _ => ⟨rfl, hf _ _ _⟩
      refine json_slots (ha _ 2) ?_
      exact .cons ⟨rfl, rfl⟩ (.cons ⟨rfl, rfl⟩ (.cons ⟨rfl, hw.flag _ _ _⟩ (.cons ⟨rfl, hs hw.flag _ _ _ (ha0 _)⟩ (.cons ⟨rfl, hs hw.num _ _ _ (ha _ _)⟩ .nil))))
end

end Refine
end PyCore
end Verif
