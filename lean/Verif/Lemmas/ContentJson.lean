import Verif.Props.Json
import Verif.Props.Base
import Verif.Spec.ContentJson

/-!
# The values that the JSON printer writes are those of `Spec.ContentJson`
-/

namespace Verif
open Spec Decoder

namespace Json

variable (fr : Rat → Txt)

theorem jv_strDict (d : PyDict String PyVal) : jv fr (strDict d) = jObj (d.map (fun p => (p.1, jv fr p.2))) := by
  unfold strDict jObj
  rw [jv]
  congr 1
  induction d with
  | nil => rfl
  | cons p d ih => rw [List.map_cons, List.map_cons, List.map_cons, ← ih]; rfl

theorem jv_strDictOf {α : Type} (f : α → PyVal) (d : PyDict String α) :
    jv fr (strDictOf f d) = jObj (d.map (fun p => (p.1, jv fr (f p.2)))) := by
  unfold strDictOf jObj
  rw [jv]
  congr 1
  induction d with
  | nil => rfl
  | cons p d ih => rw [List.map_cons, List.map_cons, List.map_cons, ← ih]; rfl

theorem jv_natDictOf {α : Type} (f : α → PyVal) (d : PyDict Nat α) :
    jv fr (natDictOf f d) = .obj (d.map (fun p => (decText (p.1 : Int), jv fr (f p.2)))) := by
  unfold natDictOf
  rw [jv]
  congr 1
  induction d with
  | nil => rfl
  | cons p d ih => rw [List.map_cons, List.map_cons, ← ih]; rfl

theorem jv_dict1 (k : PyKey) (v : PyVal) : jv fr (.dict [(k, v)]) = .obj [(keyText k, jv fr v)] := by
  rw [jv]; rfl

theorem jv_natSeq (l : List Nat) : jv fr (natSeq l) = jNats l := by
  unfold natSeq jNats
  rw [jv]
  congr 1
  induction l with
  | nil => rfl
  | cons p d ih => rw [List.map_cons, List.map_cons, ← ih]; rfl

theorem jv_intSeq (l : List Int) : jv fr (intSeq l) = jInts l := by
  unfold intSeq jInts
  rw [jv]
  congr 1
  induction l with
  | nil => rfl
  | cons p d ih => rw [List.map_cons, List.map_cons, ← ih]; rfl

theorem jv_table {α : Type} (f : α → PyVal) (t : PyDict String (PyDict Nat α)) :
    jv fr (strDictOf (natDictOf f) t) = jTable (fun x => jv fr (f x)) t := by
  rw [jv_strDictOf]
  unfold jTable
  congr 1
  apply List.map_congr_left
  intro p _
  rw [jv_natDictOf]

theorem jv_int (i : Int) : jv fr (.int i) = jInt i := by rw [jv]; rfl
theorem jv_str (s : String) : jv fr (.str s) = jText s := by rw [jv]; rfl
theorem jv_flt (x : Rat) : jv fr (.flt x) = .num (fr x) := by rw [jv]
theorem jv_bool (b : Bool) : jv fr (.bool b) = .bool b := by rw [jv]

/-! ## MSM -/

theorem bareVal_json (c : Controls) (d : MsmData) :
    jv fr (bareVal c d.bareObj) = d.bareJson c.enable_hdr_data c.enable_aux_data := by
  have hs : jv fr (slotsSat d.bareObj) = d.satJson := by
    unfold MsmData.bareObj MsmData.satJson
    dsimp only
    split
    · rw [slotsSat, jv_strDict]
      simp only [List.map_cons, List.map_nil, jv_natSeq]
      rfl
    · rw [slotsSat, jv_strDict]
      simp only [List.map_cons, List.map_nil, jv_natSeq, jv_intSeq]
      rfl
  have hg : jv fr (slotsSgn d.bareObj) = d.sgnJson := by
    unfold MsmData.bareObj MsmData.sgnJson
    dsimp only
    split
    · rw [slotsSgn, jv_strDict]
      simp only [List.map_cons, List.map_nil, jv_natSeq, jv_intSeq]
      rfl
    · rw [slotsSgn, jv_strDict]
      simp only [List.map_cons, List.map_nil, jv_natSeq, jv_intSeq]
      rfl
  have hh : jv fr (slotsBareHdr d.bareObj.hdr) = d.hdrJson := by
    have : d.bareObj.hdr = d.hdrObj := by unfold MsmData.bareObj; dsimp only; split <;> rfl
    rw [this, slotsBareHdr, jv_strDict]
    simp only [List.map_cons, List.map_nil, jv_int]
    rfl
  have ha : jv fr (slotsAtr d.bareObj.atr) = d.atrJson := by
    have : d.bareObj.atr = d.attrObj := by unfold MsmData.bareObj; dsimp only; split <;> rfl
    rw [this, slotsAtr, jv_strDict]
    simp only [List.map_cons, List.map_nil, jv_str]
    rfl
  have ht : d.bareObj.time = d.timeKey := by
    have h1 : d.bareObj.atr = d.attrObj := by unfold MsmData.bareObj; dsimp only; split <;> rfl
    have h2 : d.bareObj.hdr = d.hdrObj := by unfold MsmData.bareObj; dsimp only; split <;> rfl
    unfold Msm.Bare.time MsmData.timeKey
    rw [h1, h2]
    show (if gnssLetter d.g = "R" then d.time &&& 0x7FFFFFF else d.time) = _
    rw [show (0x7FFFFFF : Nat) = 2 ^ 27 - 1 from rfl, Nat.and_two_pow_sub_one_eq_mod]
    have : gnssLetter d.g = "R" ↔ d.g = 1 := by
      generalize d.g = g
      unfold gnssLetter
      split <;> simp_all
    simp only [this]
  unfold bareVal MsmData.bareJson
  dsimp only
  rw [jv_dict1, jv_strDict, ht]
  simp only [List.map_append, List.map_cons, List.map_nil, hs, hg]
  cases c.enable_hdr_data <;> cases c.enable_aux_data <;> simp [hh, ha] <;> rfl

theorem msmVal_json (c : Controls) (d : MsmData) :
    jv fr (msmVal c d.scaledObj) = d.scaledJson fr c.enable_hdr_data c.enable_aux_data := by
  have hh : jv fr (slotsHdr d.scaledObj.hdr) = jObj
        [("signals", jObj (d.sigList.filterMap (fun t => (d.sigName t).map (fun n => (n, JV.num (fr (d.sigFreq n))))))),
         ("sats", jNats d.satList), ("time", jNat (if d.g = 1 then d.time % 2 ^ 27 else d.time)),
         ("day", jNat (if d.g = 1 then d.time / 2 ^ 27 else 0))] := by
    rw [slotsHdr, jv_strDict]
    simp only [List.map_cons, List.map_nil, jv_int, jv_natSeq, jv_strDictOf, jv_flt]
    have : (d.scaledObj.hdr.signals.map (fun p => (p.1, JV.num (fr p.2)))) =
        d.sigList.filterMap (fun t => (d.sigName t).map (fun n => (n, JV.num (fr (d.sigFreq n))))) := by
      show (d.sigList.filterMap _).map _ = _
      rw [List.map_filterMap]
      apply List.filterMap_congr
      intro t _
      cases d.sigName t <;> rfl
    rw [this]
    rfl
  have ha : jv fr (slotsAux d.scaledObj.aux) = jObj
        [("rs_id", jNat d.station), ("MMB", jNat d.multiple), ("IODS", jNat d.iods), ("clk_steer", jCode d.steering (steerName d.steering)),
         ("clk_ext", jCode d.external (extClockName d.external)), ("smth_indc", jCode d.smoothing (smoothName d.smoothing)),
         ("smth_intr", jCode d.interval (intervalName d.interval))] := by
    have hc : ∀ n s, jv fr (codeVal (n, s)) = jCode n s := by
      intro n s
      unfold codeVal jCode
      rw [jv_strDict]
      simp only [List.map_cons, List.map_nil, jv_int, jv_str]
      rfl
    rw [slotsAux, jv_strDict]
    simp only [List.map_cons, List.map_nil, jv_int]
    show jObj [_, _, _, (_, jv fr (codeVal (_, _))), (_, jv fr (codeVal (_, _))), (_, jv fr (codeVal (_, _))), (_, jv fr (codeVal (_, _)))] = _
    rw [hc, hc, hc, hc]
    rfl
  have ho : jv fr (slotsObs d.scaledObj.obs) = jObj
        [("rng", jTable (fun x => JV.num (fr x)) (d.table d.rngVal)), ("phs", jTable (fun x => JV.num (fr x)) (d.table d.phsVal)),
         ("ltm", jTable jNat (d.table d.ltmVal)), ("hca", jTable JV.bool (d.table d.hcaVal)),
         ("dpl", jTable (fun x => JV.num (fr x)) (d.table d.dplVal)), ("c2n", jTable (fun x => JV.num (fr x)) (d.table d.c2nVal))] := by
    rw [slotsObs, jv_strDict]
    simp only [List.map_cons, List.map_nil, jv_table, jv_int, jv_flt, jv_bool]
    rfl
  have ht : d.scaledObj.hdr.time + d.scaledObj.hdr.day * 86400000 = d.timeMs := by
    show (if d.g = 1 then d.time % 2 ^ 27 else d.time) + (if d.g = 1 then d.time / 2 ^ 27 else 0) * 86400000 = _
    unfold MsmData.timeMs
    split <;> simp
  unfold msmVal MsmData.scaledJson
  dsimp only
  rw [jv_dict1, jv_strDict, ht]
  simp only [List.map_append, List.map_cons, List.map_nil, ho]
  cases c.enable_hdr_data <;> cases c.enable_aux_data <;> simp [hh, ha] <;> rfl

/-! ## Base station -/

theorem announce_bare (ann : List (Int × Int × Int)) (h : (ann.map (·.1)).Nodup) :
    (ann.foldl (fun d a => d.set a.1 (a.2.1, a.2.2)) [] : PyDict Int (Int × Int)) = ann := by
  have := foldl_set_distinct ann [] (by simpa using h)
  simpa using this

theorem announce_scaled (ann : List (Int × Int × Int)) (h : (ann.map (·.1)).Nodup) :
    (ann.foldl (fun d a => d.set a.1 (decide (a.2.1 = 1), (a.2.2 : Rat) / 10)) [] : PyDict Int (Bool × Rat)) =
      ann.map (fun a => (a.1, (decide (a.2.1 = 1), (a.2.2 : Rat) / 10))) := by
  have := foldl_set_distinct (ann.map (fun a => (a.1, (decide (a.2.1 = 1), (a.2.2 : Rat) / 10)))) []
    (by simpa [Function.comp_def] using h)
  rw [List.foldl_map] at this
  simpa using this

theorem jv_schedule {β ν : Type} (f : β → PyVal) (g : ν → PyVal) (l : List (Int × β × ν)) :
    jv fr (.dict (l.map (fun p => (PyKey.int p.1, PyVal.seq [f p.2.1, g p.2.2])))) =
      .obj (l.map (fun p => (decText p.1, .arr [jv fr (f p.2.1), jv fr (g p.2.2)]))) := by
  rw [jv]
  congr 1
  induction l with
  | nil => rfl
  | cons p l ih =>
    rw [List.map_cons, List.map_cons, ← ih, jvDict, jvItem, jv]
    rfl

theorem baseBare_json (m : BaseMsg) (hm : ∀ id mjd sec leap ann, m = .m1013 id mjd sec leap ann → (ann.map (·.1)).Nodup) :
    jv fr (strDict (baseFields bareRepr (bareObj m))) = m.json bareStyle := by
  rw [jv_strDict]
  cases m with
  | m1013 id mjd sec leap ann =>
    have h := hm _ _ _ _ _ rfl
    simp only [bareObj, baseFields, List.map_cons, List.map_nil, bareRepr, jv_schedule, announce_bare ann h, jv_int]
    rfl
  | m1230 id al a b c d =>
    simp only [bareObj, baseFields, List.map_cons, List.map_nil, bareRepr, jv_strDictOf, jv_int, gloTable]
    rfl
  | _ =>
    simp only [bareObj, baseFields, fieldsRP, fieldsAD, fieldsADSN, List.map_cons, List.map_nil, List.map_append, bareRepr, jv_int, jv_str,
      refObj, adObj, adsnObj, adsnrcObj, tsObj]
    rfl

theorem flag_bias (a : Option Int) : decide (biasBit a = 1) = a.isSome := by cases a <;> rfl

theorem baseScaled_json (f : List UInt8 → String) (m : BaseMsg)
    (hm : ∀ id mjd sec leap ann, m = .m1013 id mjd sec leap ann → (ann.map (·.1)).Nodup) :
    jv fr (strDict (baseFields scaledRepr (scaledObj f m))) = m.json (scaledStyle fr f) := by
  rw [jv_strDict]
  cases m with
  | m1013 id mjd sec leap ann =>
    have h := hm _ _ _ _ _ rfl
    have hs := jv_schedule fr PyVal.bool PyVal.flt (ann.map (fun a => (a.1, (decide (a.2.1 = 1), (a.2.2 : Rat) / 10))))
    simp only [scaledObj, baseFields, List.map_cons, List.map_nil, scaledRepr, announce_scaled ann h, jv_int, hs]
    simp only [jv_bool, jv_flt, List.map_map, Function.comp_def]
    rfl
  | m1230 id al a b c d =>
    simp only [scaledObj, baseFields, List.map_cons, List.map_nil, scaledRepr, jv_strDictOf, jv_int, gloTable, jv_bool, jv_flt,
      BaseMsg.json, scaledStyle, flag_bias, gloJson]
    have h5 : ∀ x : Int, (x : Rat) * (1 / 5) = x / ((5 : Int) : Rat) := by intro x; push_cast; ring
    simp only [h5]
  | _ =>
    simp only [scaledObj, baseFields, fieldsRP, fieldsAD, fieldsADSN, List.map_cons, List.map_nil, List.map_append, scaledRepr, jv_int,
      jv_str, jv_flt, jv_bool, refScaled, adObj, adsnObj, adsnrcObj, tsObj, BaseMsg.json, scaledStyle, refJson, antJson, serialJson]
    norm_cast

/-! ## Ephemeris -/

theorem zip_filter_length {α β : Type} (p : α → Bool) : ∀ (l : List α) (m : List β), l.length = m.length →
    ((l.zip m).filter (fun q => p q.1)).length = (l.filter p).length
  | [], m, _ => by simp
  | a :: l, [], h => by cases h
  | a :: l, b :: m, h => by
    have := zip_filter_length p l m (by simpa using h)
    rw [List.zip_cons_cons, List.filter_cons, List.filter_cons]
    dsimp only
    split <;> simp [this]

theorem ephFields_length (e : Eph.Obj PyNum) : (ephFields e).length = ((namesOf e).filter (fun n => !unwritten n)).length := by
  cases e <;> rfl

theorem ephFields_perm (e : Eph.Obj PyNum) :
    (ephFields e).Perm (((namesOf e).zip (valsOf e)).filter (fun p => !unwritten p.1)) := by
  obtain ⟨h1, h2, -⟩ := C55_partial (fun _ => []) {} e
  have hnd : (((namesOf e).zip (valsOf e)).filter (fun p => !unwritten p.1)).Nodup := by
    refine List.Nodup.filter _ (List.Nodup.of_map Prod.fst ?_)
    rw [List.map_fst_zip (by omega)]
    exact h2
  have hsub : (((namesOf e).zip (valsOf e)).filter (fun p => !unwritten p.1)) ⊆ ephFields e := by
    intro p hp
    obtain ⟨h3, h4⟩ := List.mem_filter.1 hp
    unfold unwritten at h4
    simp only [Bool.not_or, Bool.and_eq_true, Bool.not_eq_true', beq_eq_false_iff_ne] at h4
    exact ephFields_mem e p.1 p.2 h3 h4.1 h4.2
  refine ((List.subperm_of_subset hnd hsub).perm_of_length_le ?_).symm
  rw [ephFields_length, zip_filter_length (fun n => !unwritten n) _ _ h1]

theorem ephFields_json (e : Eph.Obj PyNum) : EphJson (namesOf e) ((valsOf e).map (jNum fr)) (jv fr (strDictOf ofNum (ephFields e))) := by
  refine ⟨(ephFields e).map (fun p => (p.1, jNum fr p.2)), ?_, ?_⟩
  · rw [jv_strDictOf]
    congr 1
    apply List.map_congr_left
    rintro ⟨n, v⟩ _
    cases v <;> simp [ofNum, jNum, jv_int, jv_flt]
  · refine ((ephFields_perm e).map _).trans (.of_eq ?_)
    rw [List.zip_map_right, List.filter_map]
    congr 1

theorem names_num {e e' : Eph.Obj PyNum} {i : Eph.Obj Int} (h : ephNum e' = ephNum i) : namesOf e' = namesOf i := by
  cases e' <;> cases i <;> first | rfl | (exact absurd h (by simp [ephNum]))

/-! ## Contents -/

theorem content_bare (c : Controls) (x : Content) (h : x.WellFormed) :
    x.BareJson c.enable_hdr_data c.enable_aux_data (jv fr (objVal c x.bareObj)) := by
  cases x with
  | eph e =>
    have := ephFields_json fr (e.map .int)
    have hn : namesOf (e.map PyNum.int) = namesOf e := by cases e <;> rfl
    have hv : (valsOf (e.map PyNum.int)).map (jNum fr) = (valsOf e).map jInt := by cases e <;> rfl
    rw [hn, hv] at this
    exact this
  | base m =>
    refine baseBare_json fr m ?_
    rintro id mjd sec leap ann rfl
    exact h.2.2
  | msm d => exact bareVal_json fr c d

theorem content_scaled (c : Controls) (x : Content) (h : x.WellFormed) (o : PyObj) (ho : x.Scaled o) :
    x.ScaledJson fr c.enable_hdr_data c.enable_aux_data (jv fr (objVal c o)) := by
  cases x with
  | eph e =>
    obtain ⟨e', h1, h2, rfl⟩ := ho
    have := ephFields_json fr e'
    rw [names_num (e := e') h1, h2] at this
    exact this
  | base m =>
    obtain ⟨f, hf, rfl⟩ := ho
    refine ⟨f, fun t ht => (hf t ht).2, baseScaled_json fr f m ?_⟩
    rintro id mjd sec leap ann rfl
    exact h.2.2
  | msm d =>
    cases ho
    exact msmVal_json fr c d

/-! ## Files -/

theorem file_of (n : Nat) (row : SpecRow) (h : JSON_SPEC.get? (n : Int) = some row) :
    row.dir.toList ++ '/' :: row.file.toList = (jsonFile n).toList := by
  have key : ∀ p ∈ JSON_SPEC, p.2.dir.toList ++ '/' :: p.2.file.toList = (jsonFile p.1.toNat).toList := by decide +kernel
  exact key _ (PyDict.mem_of_get? h)

theorem path_of (wd : Txt) (n : Nat) (row : SpecRow) (h : JSON_SPEC.get? (n : Int) = some row) :
    pathOf wd row = Disk.join wd (jsonFile n).toList := by
  rw [pathOf_eq wd h, file_of n row h]

theorem class_of (bare : Bool) (n : Nat) (c : Cls) (h : declared bare n = some c) : clsName c = className bare n := by
  have key : ∀ i < 226, ∀ b, ((declared b (1005 + i)).all (fun c => clsName c == className b (1005 + i))) = true := by
    decide +kernel
  by_cases hr : n < 1005 ∨ 1231 ≤ n
  · unfold declared at h
    rw [family_none hr] at h
    cases h
  · obtain ⟨i, rfl⟩ := Nat.exists_eq_add_of_le (show 1005 ≤ n by omega)
    have := key i (by omega) bare
    rw [h] at this
    simpa using this

end Json
end Verif
