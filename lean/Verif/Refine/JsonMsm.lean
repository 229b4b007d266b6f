import Verif.Refine.JsonBare

/-! # `JSONCore.ObservablesMSMtoPrintBuffer`, printers/json_printer.py:233-277 -/

namespace Verif
namespace PyCore
namespace Refine
open Verif.Msm

open Rounding (rnd)
variable [Rounding]

/-- Names of the slots and values. -/
def obsSlots (c : Nat) : List (String × Val) :=
  [("rng", .ref (c + 1)), ("phs", .ref (c + 2)), ("ltm", .ref (c + 3)), ("hca", .ref (c + 4)), ("dpl", .ref (c + 5)), ("c2n", .ref (c + 6))]
/-- Names of the slots and values. -/
def ohdrSlots (g : Nat) (o : ObservablesMSM) : List (String × Val) :=
  [("signals", .ref g), ("sats", natTup o.hdr.sats), ("time", .int o.hdr.time), ("day", .int o.hdr.day)]
/-- Names of the slots and values. -/
def oauxSlots (c : Nat) (o : ObservablesMSM) : List (String × Val) :=
  [("rs_id", .int o.aux.rs_id), ("MMB", .int o.aux.MMB), ("IODS", .int o.aux.IODS), ("clk_steer", .ref (c + 1)), ("clk_ext", .ref (c + 2)),
    ("smth_indc", .ref (c + 3)), ("smth_intr", .ref (c + 4))]

/-- The entries of `summary`. -/
def obsSum (b : Nat) (hdr aux : Bool) : List (Val × Val) :=
  (if hdr then [(.str "hdr", .ref (b + 1))] else []) ++ (if aux then [(.str "aux", .ref (b + 2))] else []) ++ [(.str "obs", .ref b)]

/-- The objects that the function makes. -/
def obsObjs (b r g : Nat) (hdr aux : Bool) (o : ObservablesMSM) : List Obj :=
  [.dict (strPairs (obsSlots (r + 1))), .dict (strPairs (ohdrSlots g o)), .dict (strPairs (oauxSlots (r + 10) o)), .dict (obsSum b hdr aux)] ++
    (if hdr then [.dict [(.str "hdr", .ref (b + 1))]] else []) ++ (if aux then [.dict [(.str "aux", .ref (b + 2))]] else []) ++
    [.dict [(.str "obs", .ref b)], .dict [(.int ((o.hdr.time + o.hdr.day * 86400000 : Nat) : Int), .ref (b + 3))]]

theorem obs_run (n : Nat) {h : Heap} {a k r at' g : Nat} {o : ObservablesMSM} {hdr aux pretty : Bool} (hO : ObsAt h r at' o)
    (h1 : h[a]? = some (.inst n!"JSONCore" [(n!"ctrls", .ref k)]))
    (h2 : h[k]? = some (.inst n!"JSONControls" [(n!"enable_hdr_data", .bool hdr), (n!"enable_aux_data", .bool aux), (n!"enable_pretty_view", .bool pretty)]))
    (h4 : h[r + 8]? = some (.inst n!"_ObservablesHdrMSM" (ohdrF (.ref g) (natTup o.hdr.sats) (.int o.hdr.time) (.int o.hdr.day))))
    {j : PyVal} (hj : jsonVal (h ++ obsObjs h.length r g hdr aux o) 8 (.ref (h.length + (5 + ((if hdr then 1 else 0) + (if aux then 1 else 0))))) = some j) :
    callFn src (n + 2) n!"JSONCore.ObservablesMSMtoPrintBuffer" [.ref a, .ref r] h =
      (.ok (.json j (if pretty then some 2 else none)), h ++ obsObjs h.length r g hdr aux o) := by
  have g1 : ∀ X, (h ++ X)[a]? = _ := fun X => heap_old h1 X
  have g2 : ∀ X, (h ++ X)[k]? = _ := fun X => heap_old h2 X
  have h3 := hO.rv
  have hG : ∀ X L, List.lookup n!"pdata" L = some (.ref r) → List.lookup n!"getattr" L = none →
      eval src (callFn src (n + 1)) (slotE n!"obs") ⟨L, h ++ X⟩ = (.ok (.ref (h ++ X).length), ⟨L, h ++ X ++ [.dict (strPairs (obsSlots (r + 1)))]⟩) :=
    fun X L => slots_eval (n + 1) (heap_old h3 X) rfl (heap_old hO.obs X) (obsSlots (r + 1)) rfl rfl (by slot_vals) (by simp [obsSlots]) L
  have hH : ∀ X L, List.lookup n!"pdata" L = some (.ref r) → List.lookup n!"getattr" L = none →
      eval src (callFn src (n + 1)) (slotE n!"hdr") ⟨L, h ++ X⟩ = (.ok (.ref (h ++ X).length), ⟨L, h ++ X ++ [.dict (strPairs (ohdrSlots g o))]⟩) :=
    fun X L => slots_eval (n + 1) (heap_old h3 X) rfl (heap_old h4 X) (ohdrSlots g o) rfl rfl (by slot_vals) (by simp [ohdrSlots]) L
  have hA : ∀ X L, List.lookup n!"pdata" L = some (.ref r) → List.lookup n!"getattr" L = none →
      eval src (callFn src (n + 1)) (slotE n!"aux") ⟨L, h ++ X⟩ = (.ok (.ref (h ++ X).length), ⟨L, h ++ X ++ [.dict (strPairs (oauxSlots (r + 10) o))]⟩) :=
    fun X L => slots_eval (n + 1) (heap_old h3 X) rfl (heap_old hO.aux X) (oauxSlots (r + 10) o) rfl rfl (by slot_vals) (by simp [oauxSlots]) L
  unfold slotE at hA hH hG
  have hG0 := fun L => hG [] L
  simp only [List.append_nil] at hG0
  have et : ((o.hdr.time : Int) + (o.hdr.day : Int) * 86400000) = ((o.hdr.time + o.hdr.day * 86400000 : Nat) : Int) := by push_cast; rfl
  pycall Look.fn_JSONCore_ObservablesMSMtoPrintBuffer Src.fn_JSONCore_ObservablesMSMtoPrintBuffer
  unfold ohdrF at h4
  cases hdr <;> cases aux <;> cases pretty <;>
  ( simp only [obsObjs, obsSum, if_true, if_false, Bool.false_eq_true, List.cons_append, List.nil_append, Nat.reduceAdd] at hj
    have d1 := dumps_none hj
    have d2 := dumps_two hj
    pyexec [h1, h2, h3, h4, et, hG0, hG, hH, hA, g1, g2, builtin_dumps, d1, d2, List.foldl_cons, List.foldl_nil, dictSet, keyEq_str,
      Nat.add_assoc, List.append_assoc, List.cons_append, List.nil_append, Nat.reduceAdd, append_getElem0, append_set0, append_getElem,
      append_set, List.getElem?_cons_zero, List.getElem?_cons_succ, List.set_cons_zero, List.set_cons_succ]
    rfl)

section
variable {h : Heap} {n : Nat}

theorem json_inner {α : Type} {f : α → Val} {g : α → PyVal} (hf : ∀ h n x, jsonVal h (n + 1) (f x) = some (g x)) {a : Nat} {d : PyDict Nat α}
    (ha : h[a]? = some (inner (d.map (fun p => (p.1, f p.2))))) : jsonVal h (n + 2) (.ref a) = some (Json.natDictOf g d) := by
  refine json_dict ha ?_
  unfold encD
  rw [List.map_map, List.forall₂_map_left_iff, List.forall₂_map_right_iff, List.forall₂_same]
  exact fun p _ => ⟨rfl, hf _ _ _⟩

theorem json_tab {α : Type} {f : α → Val} {g : α → PyVal} (hf : ∀ h n x, jsonVal h (n + 1) (f x) = some (g x)) {a : Nat} {t : PyDict String (PyDict Nat α)}
    {ad : String → Nat} (ha : h[a]? = some (.dict (encD .str (fun s _ => .ref (ad s)) (mapV f t)))) (hi : ∀ p ∈ mapV f t, h[ad p.1]? = some (inner p.2)) :
    jsonVal h (n + 3) (.ref a) = some (Json.strDictOf (Json.natDictOf g) t) := by
  refine json_dict ha ?_
  unfold encD mapV mapD
  rw [List.map_map, List.forall₂_map_left_iff, List.forall₂_map_right_iff, List.forall₂_same]
  exact fun p hp => ⟨rfl, json_inner hf (hi _ (List.mem_map_of_mem hp))⟩

theorem json_code {a : Nat} {p : Nat × String} (ha : h[a]? = some (codeD (.int p.1) (.str p.2))) : jsonVal h (n + 2) (.ref a) = some (Json.codeVal p) :=
  json_dict ha (.cons ⟨rfl, rfl⟩ (.cons ⟨rfl, rfl⟩ .nil))

theorem json_signals {a : Nat} {d : PyDict String Rat} (ha : h[a]? = some (.dict (encD .str (fun _ v => .flt v) d))) :
    jsonVal h (n + 2) (.ref a) = some (Json.strDictOf .flt d) := by
  refine json_dict ha ?_
  unfold encD
  rw [List.forall₂_map_left_iff, List.forall₂_map_right_iff, List.forall₂_same]
  exact fun p _ => ⟨rfl, rfl⟩
end

/-- `ObservablesMSMtoPrintBuffer` of observables. -/
theorem msm_json (n : Nat) {h : Heap} {a r at' : Nat} {c : Json.Controls} {o : ObservablesMSM} (hc : CoreAt h a c) (hO : ObsAt h r at' o) :
    ∃ t, callFn src (n + 2) n!"JSONCore.ObservablesMSMtoPrintBuffer" [.ref a, .ref r] h = (.ok (.json (Json.msmVal c o) c.indent), h ++ t) := by
  obtain ⟨k, h1, h2⟩ := hc
  obtain ⟨g, h4, h5⟩ := hO.hdr
  refine ⟨_, obs_run n hO h1 h2 h4 ?_⟩
  obtain ⟨hdr, aux, pretty⟩ := c
  dsimp only
  have ha : ∀ L k, (h ++ L)[h.length + k]? = L[k]? := append_getElem h
  have ha0 : ∀ L, (h ++ L)[h.length]? = L[0]? := append_getElem0 h
  have a0 : (h ++ obsObjs h.length r g hdr aux o)[h.length]? = some (.dict (strPairs (obsSlots (r + 1)))) := ha0 _
  have a1 : (h ++ obsObjs h.length r g hdr aux o)[h.length + 1]? = some (.dict (strPairs (ohdrSlots g o))) := ha _ _
  have a2 : (h ++ obsObjs h.length r g hdr aux o)[h.length + 2]? = some (.dict (strPairs (oauxSlots (r + 10) o))) := ha _ _
  have a3 : (h ++ obsObjs h.length r g hdr aux o)[h.length + 3]? = some (.dict (obsSum h.length hdr aux)) := ha _ _
  have a4 : (h ++ obsObjs h.length r g hdr aux o)[h.length + (5 + ((if hdr then 1 else 0) + (if aux then 1 else 0)))]? =
      some (.dict [(.int ((o.hdr.time + o.hdr.day * 86400000 : Nat) : Int), .ref (h.length + 3))]) := by
    rw [ha]
    cases hdr <;> cases aux <;> rfl
  have tab : ∀ t, ∃ ad : String → Nat, (h ++ obsObjs h.length r g hdr aux o)[r + t.pos]? = some (.dict (encD .str (fun s _ => .ref (ad s)) (obsV o.obs t))) ∧
      ∀ p ∈ obsV o.obs t, (h ++ obsObjs h.length r g hdr aux o)[ad p.1]? = some (inner p.2) := by
    intro t
    obtain ⟨ad, e1, e2⟩ := hO.tab t
    exact ⟨ad, heap_old e1 _, fun p hp => heap_old (e2 p hp) _⟩
  have b0 : jsonVal (h ++ obsObjs h.length r g hdr aux o) 6 (.ref h.length) = some (Json.slotsObs o.obs) := by
    refine json_slots a0 ?_
    obtain ⟨ad1, e1, f1⟩ := tab .rng
    obtain ⟨ad2, e2, f2⟩ := tab .phs
    obtain ⟨ad3, e3, f3⟩ := tab .ltm
    obtain ⟨ad4, e4, f4⟩ := tab .hca
    obtain ⟨ad5, e5, f5⟩ := tab .dpl
    obtain ⟨ad6, e6, f6⟩ := tab .c2n
    exact .cons ⟨rfl, json_tab (fun _ _ _ => rfl) e1 f1⟩ (.cons ⟨rfl, json_tab (fun _ _ _ => rfl) e2 f2⟩ (.cons ⟨rfl, json_tab (fun _ _ _ => rfl) e3 f3⟩
      (.cons ⟨rfl, json_tab (fun _ _ _ => rfl) e4 f4⟩ (.cons ⟨rfl, json_tab (fun _ _ _ => rfl) e5 f5⟩ (.cons ⟨rfl, json_tab (fun _ _ _ => rfl) e6 f6⟩ .nil)))))
  have b1 : jsonVal (h ++ obsObjs h.length r g hdr aux o) 6 (.ref (h.length + 1)) = some (Json.slotsHdr o.hdr) :=
    json_slots a1 (.cons ⟨rfl, json_signals (heap_old h5 _)⟩ (.cons ⟨rfl, json_natTup _⟩ (.cons ⟨rfl, rfl⟩ (.cons ⟨rfl, rfl⟩ .nil))))
  have b2 : jsonVal (h ++ obsObjs h.length r g hdr aux o) 6 (.ref (h.length + 2)) = some (Json.slotsAux o.aux) :=
    json_slots a2 (.cons ⟨rfl, rfl⟩ (.cons ⟨rfl, rfl⟩ (.cons ⟨rfl, rfl⟩ (.cons ⟨rfl, json_code (heap_old hO.steer _)⟩ (.cons ⟨rfl, json_code (heap_old hO.ext _)⟩
      (.cons ⟨rfl, json_code (heap_old hO.indc _)⟩ (.cons ⟨rfl, json_code (heap_old hO.intr _)⟩ .nil)))))))
  unfold Json.msmVal
  refine json_dict a4 (.cons ⟨rfl, ?_⟩ .nil)
  refine json_dict a3 ?_
  unfold obsSum
  cases hdr <;> cases aux
  · exact .cons ⟨rfl, b0⟩ .nil
  · exact .cons ⟨rfl, b2⟩ (.cons ⟨rfl, b0⟩ .nil)
  · exact .cons ⟨rfl, b1⟩ (.cons ⟨rfl, b0⟩ .nil)
  · exact .cons ⟨rfl, b1⟩ (.cons ⟨rfl, b2⟩ (.cons ⟨rfl, b0⟩ .nil))

end Refine
end PyCore
end Verif
