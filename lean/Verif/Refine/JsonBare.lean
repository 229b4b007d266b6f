import Verif.Refine.JsonSlots

/-! # `JSONCore.BareObservablesMSMtoPrintBuffer`, printers/json_printer.py:279-325 -/

namespace Verif
namespace PyCore
namespace Refine
open Verif.Msm

open Rounding (rnd)
variable [Rounding]

/-- A `JSONCore` with its controls. -/
def CoreAt (h : Heap) (a : Nat) (c : Json.Controls) : Prop :=
  ∃ k, h[a]? = some (.inst n!"JSONCore" [(n!"ctrls", .ref k)]) ∧ h[k]? = some (.inst n!"JSONControls" [(n!"enable_hdr_data", .bool c.enable_hdr_data),
    (n!"enable_aux_data", .bool c.enable_aux_data), (n!"enable_pretty_view", .bool c.enable_pretty_view)])

/-- The parts of a bare message. -/
def PartsAt (h : Heap) (o : Nat) (K : BareKind) (x : Attributes) (hd : BareHdr) (sat sgn : Fields) : Prop :=
  ∃ aA aH aT aG, h[o]? = some (.inst K.bd (bdF aA aH aT aG)) ∧ h[aA]? = some (.inst n!"Attributes" (atrF x)) ∧
    h[aH]? = some (.inst n!"_BareObservablesHdrMSM" (hdrF hd)) ∧ h[aT]? = some (.inst K.sat sat) ∧ h[aG]? = some (.inst K.sgn sgn)

/-- A bare message. -/
def BareHeld (h : Heap) (o : Nat) : Bare → Prop
  | .m4567 b => PartsAt h o K47 b.atr b.hdr (sat47F b.sat) (sgn47F b.sgn)
  | .m123 b => PartsAt h o K13 b.atr b.hdr (sat13F b.sat) (sgn13F b.sgn)

/-- Names of the slots and values. -/
def hdrSlots (h : BareHdr) : List (String × Val) :=
  [("rs_id", .int h.rs_id), ("time", .int h.time), ("MMB", .int h.MMB), ("IODS", .int h.IODS), ("clk_steer", .int h.clk_steer),
    ("clk_ext", .int h.clk_ext), ("smth_indc", .int h.smth_indc), ("smth_intr", .int h.smth_intr), ("sat_mask", .int h.sat_mask),
    ("sgn_mask", .int h.sgn_mask), ("cell_mask", .int h.cell_mask)]
/-- Names of the slots and values. -/
def atrSlots (a : Attributes) : List (String × Val) :=
  [("gnss", .str a.gnss), ("subset", .str a.subset), ("msg_number", optVal (fun x : Nat => .int x) a.msg_number)]
/-- Names of the slots and values. -/
def sat47Slots (s : BareSat4567) : List (String × Val) :=
  [("rng_ms", natTup s.rng_ms), ("ext_info", natTup s.ext_info), ("rng_rough", natTup s.rng_rough), ("phase_rate_rough", intTup s.phase_rate_rough)]
/-- Names of the slots and values. -/
def sgn47Slots (s : BareSgn4567) : List (String × Val) :=
  [("rng_fine", intTup s.rng_fine), ("phase_fine", intTup s.phase_fine), ("lock_time", natTup s.lock_time),
    ("hc_indc", natTup s.hc_indc), ("c2n", natTup s.c2n), ("phase_rate_fine", intTup s.phase_rate_fine)]
/-- Names of the slots and values. -/
def sat13Slots (s : BareSat123) : List (String × Val) := [("rng_rough", natTup s.rng_rough)]
/-- Names of the slots and values. -/
def sgn13Slots (s : BareSgn123) : List (String × Val) :=
  [("rng_fine", intTup s.rng_fine), ("phase_fine", intTup s.phase_fine), ("lock_time", natTup s.lock_time), ("hc_indc", natTup s.hc_indc)]

/-- The values of slots are what the fields of an object hold. -/
macro "slot_vals" : tactic => `(tactic| (
  repeat (refine List.forall_mem_cons.2 (And.intro (by dsimp only; rfl) ?_))
  intro p hp
  cases hp))

section
variable (n : Nat) {h : Heap} {a k o aA aH aT aG : Nat} {x : Attributes} {hd : BareHdr} {K : BareKind} {sat sgn : Fields}
  {satL sgnL : List (String × Val)} {time : Val} {hdr aux pretty : Bool}
  (h1 : h[a]? = some (.inst n!"JSONCore" [(n!"ctrls", .ref k)]))
  (h2 : h[k]? = some (.inst n!"JSONControls" [(n!"enable_hdr_data", .bool hdr), (n!"enable_aux_data", .bool aux), (n!"enable_pretty_view", .bool pretty)]))
  (hK : K = K47 ∨ K = K13)
  (h3 : h[o]? = some (.inst K.bd (bdF aA aH aT aG)))
  (h4 : h[aA]? = some (.inst n!"Attributes" (atrF x))) (h5 : h[aH]? = some (.inst n!"_BareObservablesHdrMSM" (hdrF hd)))
  (hT : ∀ X L, List.lookup n!"pdata" L = some (.ref o) → List.lookup n!"getattr" L = none →
    eval src (callFn src (n + 1)) (slotE n!"sat") ⟨L, h ++ X⟩ = (.ok (.ref (h ++ X).length), ⟨L, h ++ X ++ [.dict (strPairs satL)]⟩))
  (hG : ∀ X L, List.lookup n!"pdata" L = some (.ref o) → List.lookup n!"getattr" L = none →
    eval src (callFn src (n + 1)) (slotE n!"sgn") ⟨L, h ++ X⟩ = (.ok (.ref (h ++ X).length), ⟨L, h ++ X ++ [.dict (strPairs sgnL)]⟩))
include h1 h2 hK h3 h4 h5 hT hG

/-- The entries of `summary`. -/
def bareSum (b : Nat) (hdr aux : Bool) : List (Val × Val) :=
  (if hdr then [(.str "hdr", .ref (b + 2))] else []) ++ (if aux then [(.str "aux", .ref (b + 3))] else []) ++
    [(.str "sat", .ref b), (.str "sgn", .ref (b + 1))]

/-- The objects that the function makes. -/
def bareObjs (b : Nat) (hdr aux : Bool) (satL sgnL : List (String × Val)) (hd : BareHdr) (x : Attributes) : List Obj :=
  [.dict (strPairs satL), .dict (strPairs sgnL), .dict (strPairs (hdrSlots hd)), .dict (strPairs (atrSlots x)), .dict (bareSum b hdr aux)] ++
    (if hdr then [.dict [(.str "hdr", .ref (b + 2))]] else []) ++ (if aux then [.dict [(.str "aux", .ref (b + 3))]] else []) ++
    [.dict [(.str "sat", .ref b)], .dict [(.str "sgn", .ref (b + 1))], .dict [(.int (timeOf x hd), .ref (b + 4))]]

theorem bare_run {j : PyVal} (hj : jsonVal (h ++ bareObjs h.length hdr aux satL sgnL hd x) 8
      (.ref (h.length + (7 + ((if hdr then 1 else 0) + (if aux then 1 else 0))))) = some j) :
    callFn src (n + 2) n!"JSONCore.BareObservablesMSMtoPrintBuffer" [.ref a, .ref o] h =
      (.ok (.json j (if pretty then some 2 else none)), h ++ bareObjs h.length hdr aux satL sgnL hd x) := by
  have g1 : ∀ X, (h ++ X)[a]? = _ := fun X => heap_old h1 X
  have g2 : ∀ X, (h ++ X)[k]? = _ := fun X => heap_old h2 X
  have hH : ∀ X L, List.lookup n!"pdata" L = some (.ref o) → List.lookup n!"getattr" L = none →
      eval src (callFn src (n + 1)) (slotE n!"hdr") ⟨L, h ++ X⟩ = (.ok (.ref (h ++ X).length), ⟨L, h ++ X ++ [.dict (strPairs (hdrSlots hd))]⟩) :=
    fun X L => slots_eval (n + 1) (heap_old h3 X) rfl (heap_old h5 X) (hdrSlots hd) rfl rfl (by slot_vals) (by simp [hdrSlots]) L
  have hA : ∀ X L, List.lookup n!"pdata" L = some (.ref o) → List.lookup n!"getattr" L = none →
      eval src (callFn src (n + 1)) (slotE n!"atr") ⟨L, h ++ X⟩ = (.ok (.ref (h ++ X).length), ⟨L, h ++ X ++ [.dict (strPairs (atrSlots x))]⟩) :=
    fun X L => slots_eval (n + 1) (heap_old h3 X) rfl (heap_old h4 X) (atrSlots x) rfl rfl (by slot_vals) (by simp [atrSlots]) L
  unfold slotE at hA hH hT hG
  have hT0 := fun L => hT [] L
  simp only [List.append_nil] at hT0
  pycall Look.fn_JSONCore_BareObservablesMSMtoPrintBuffer Src.fn_JSONCore_BareObservablesMSMtoPrintBuffer
  rcases hK with rfl | rfl
  · have t1 := time47_at h4 h5 n h3
    simp only [K47, bdF] at h3
    cases hdr <;> cases aux <;> cases pretty <;>
    ( simp only [bareObjs, bareSum, if_true, if_false, Bool.false_eq_true, List.cons_append, List.nil_append, Nat.reduceAdd] at hj
      have d1 := dumps_none hj
      have d2 := dumps_two hj
      pyexec [h1, h2, h3, t1, hT0, hT, hG, hH, hA, g1, g2, builtin_dumps, d1, d2, List.foldl_cons, List.foldl_nil, dictSet, keyEq_str,
        Nat.add_assoc, List.append_assoc, List.cons_append, List.nil_append, Nat.reduceAdd, append_getElem0, append_set0, append_getElem,
        append_set, List.getElem?_cons_zero, List.getElem?_cons_succ, List.set_cons_zero, List.set_cons_succ]
      rfl)
  · have t1 := time13_at h4 h5 n h3
    simp only [K13, bdF] at h3
    cases hdr <;> cases aux <;> cases pretty <;>
    ( simp only [bareObjs, bareSum, if_true, if_false, Bool.false_eq_true, List.cons_append, List.nil_append, Nat.reduceAdd] at hj
      have d1 := dumps_none hj
      have d2 := dumps_two hj
      pyexec [h1, h2, h3, t1, hT0, hT, hG, hH, hA, g1, g2, builtin_dumps, d1, d2, List.foldl_cons, List.foldl_nil, dictSet, keyEq_str,
        Nat.add_assoc, List.append_assoc, List.cons_append, List.nil_append, Nat.reduceAdd, append_getElem0, append_set0, append_getElem,
        append_set, List.getElem?_cons_zero, List.getElem?_cons_succ, List.set_cons_zero, List.set_cons_succ]
      rfl)
end

theorem json_slots {h : Heap} {n a : Nat} {l : List (String × Val)} {js : List (String × PyVal)} (ha : h[a]? = some (.dict (strPairs l)))
    (hj : List.Forall₂ (fun p q => p.1 = q.1 ∧ jsonVal h n p.2 = some q.2) l js) : jsonVal h (n + 1) (.ref a) = some (Json.strDict js) := json_strDict ha hj

theorem bare_val {h : Heap} {c : Json.Controls} {hdr aux : Bool} (hc : c.enable_hdr_data = hdr ∧ c.enable_aux_data = aux) {b : Bare} {satL sgnL : List (String × Val)} {x : Attributes} {hd : BareHdr}
    (e1 : b.time = timeOf x hd) (e2 : b.hdr = hd) (e3 : b.atr = x)
    (h1 : ∀ g a, g[a]? = some (.dict (strPairs satL)) → jsonVal g 6 (.ref a) = some (Json.slotsSat b))
    (h2 : ∀ g a, g[a]? = some (.dict (strPairs sgnL)) → jsonVal g 6 (.ref a) = some (Json.slotsSgn b)) :
    jsonVal (h ++ bareObjs h.length hdr aux satL sgnL hd x) 8
      (.ref (h.length + (7 + ((if hdr then 1 else 0) + (if aux then 1 else 0))))) = some (Json.bareVal c b) := by
  have ha : ∀ L k, (h ++ L)[h.length + k]? = L[k]? := append_getElem h
  have ha0 : ∀ L, (h ++ L)[h.length]? = L[0]? := append_getElem0 h
  have a0 : (h ++ bareObjs h.length hdr aux satL sgnL hd x)[h.length]? = some (.dict (strPairs satL)) := ha0 _
  have a1 : (h ++ bareObjs h.length hdr aux satL sgnL hd x)[h.length + 1]? = some (.dict (strPairs sgnL)) := ha _ _
  have a2 : (h ++ bareObjs h.length hdr aux satL sgnL hd x)[h.length + 2]? = some (.dict (strPairs (hdrSlots hd))) := ha _ _
  have a3 : (h ++ bareObjs h.length hdr aux satL sgnL hd x)[h.length + 3]? = some (.dict (strPairs (atrSlots x))) := ha _ _
  have a4 : (h ++ bareObjs h.length hdr aux satL sgnL hd x)[h.length + 4]? = some (.dict (bareSum h.length hdr aux)) := ha _ _
  have a5 : (h ++ bareObjs h.length hdr aux satL sgnL hd x)[h.length + (7 + ((if hdr then 1 else 0) + (if aux then 1 else 0)))]? =
      some (.dict [(.int (timeOf x hd), .ref (h.length + 4))]) := by
    rw [ha]
    cases hdr <;> cases aux <;> rfl
  have b0 := h1 _ _ a0
  have b1 := h2 _ _ a1
  have b2 : jsonVal _ 6 (.ref (h.length + 2)) = some (Json.slotsBareHdr hd) := json_slots a2 (by
    unfold hdrSlots
    repeat (refine .cons ⟨rfl, rfl⟩ ?_)
    exact .nil)
  have b3 : jsonVal _ 6 (.ref (h.length + 3)) = some (Json.slotsAtr x) := json_slots a3 (by
    unfold atrSlots
    refine .cons ⟨rfl, rfl⟩ (.cons ⟨rfl, rfl⟩ (.cons ⟨rfl, ?_⟩ .nil))
    cases x.msg_number <;> rfl)
  unfold Json.bareVal
  rw [hc.1, hc.2, e1, e2, e3]
  refine json_dict a5 (.cons ⟨rfl, ?_⟩ .nil)
  refine json_dict a4 ?_
  unfold bareSum
  cases hdr <;> cases aux
  · exact .cons ⟨rfl, b0⟩ (.cons ⟨rfl, b1⟩ .nil)
  · exact .cons ⟨rfl, b3⟩ (.cons ⟨rfl, b0⟩ (.cons ⟨rfl, b1⟩ .nil))
  · exact .cons ⟨rfl, b2⟩ (.cons ⟨rfl, b0⟩ (.cons ⟨rfl, b1⟩ .nil))
  · exact .cons ⟨rfl, b2⟩ (.cons ⟨rfl, b3⟩ (.cons ⟨rfl, b0⟩ (.cons ⟨rfl, b1⟩ .nil)))

/-- `BareObservablesMSMtoPrintBuffer` of a bare message. -/
theorem bare_json (n : Nat) {h : Heap} {a o : Nat} {c : Json.Controls} {b : Bare} (hc : CoreAt h a c) (hb : BareHeld h o b) :
    ∃ t, callFn src (n + 2) n!"JSONCore.BareObservablesMSMtoPrintBuffer" [.ref a, .ref o] h = (.ok (.json (Json.bareVal c b) c.indent), h ++ t) := by
  obtain ⟨k, h1, h2⟩ := hc
  cases b with
  | m4567 b =>
    obtain ⟨aA, aH, aT, aG, h3, h4, h5, h6, h7⟩ := hb
    exact ⟨_, bare_run n h1 h2 (.inl rfl) h3 h4 h5
      (fun X L => slots_eval (n + 1) (heap_old h3 X) rfl (heap_old h6 X) (sat47Slots b.sat) rfl rfl (by slot_vals) (by simp [sat47Slots]) L)
      (fun X L => slots_eval (n + 1) (heap_old h3 X) rfl (heap_old h7 X) (sgn47Slots b.sgn) rfl rfl (by slot_vals) (by simp [sgn47Slots]) L)
      (bare_val ⟨rfl, rfl⟩ rfl rfl rfl
        (fun g r hr => json_slots hr (.cons ⟨rfl, json_natTup _⟩ (.cons ⟨rfl, json_natTup _⟩ (.cons ⟨rfl, json_natTup _⟩ (.cons ⟨rfl, json_intTup _⟩ .nil)))))
        (fun g r hr => json_slots hr (.cons ⟨rfl, json_intTup _⟩ (.cons ⟨rfl, json_intTup _⟩ (.cons ⟨rfl, json_natTup _⟩ (.cons ⟨rfl, json_natTup _⟩
          (.cons ⟨rfl, json_natTup _⟩ (.cons ⟨rfl, json_intTup _⟩ .nil))))))))⟩
  | m123 b =>
    obtain ⟨aA, aH, aT, aG, h3, h4, h5, h6, h7⟩ := hb
    exact ⟨_, bare_run n h1 h2 (.inr rfl) h3 h4 h5
      (fun X L => slots_eval (n + 1) (heap_old h3 X) rfl (heap_old h6 X) (sat13Slots b.sat) rfl rfl (by slot_vals) (by simp [sat13Slots]) L)
      (fun X L => slots_eval (n + 1) (heap_old h3 X) rfl (heap_old h7 X) (sgn13Slots b.sgn) rfl rfl (by slot_vals) (by simp [sgn13Slots]) L)
      (bare_val ⟨rfl, rfl⟩ rfl rfl rfl
        (fun g r hr => json_slots hr (.cons ⟨rfl, json_natTup _⟩ .nil))
        (fun g r hr => json_slots hr (.cons ⟨rfl, json_intTup _⟩ (.cons ⟨rfl, json_intTup _⟩ (.cons ⟨rfl, json_natTup _⟩ (.cons ⟨rfl, json_natTup _⟩ .nil))))))⟩

end Refine
end PyCore
end Verif
