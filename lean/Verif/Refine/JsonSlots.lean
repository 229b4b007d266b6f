import Verif.Refine.ScFinish
import Verif.Model.JsonPrinter

/-!
# `{s: getattr(x, s) for s in x.__slots__}` and what `json.dumps` is handed, printers/json_printer.py:239-261, 287-309
-/

namespace Verif
namespace PyCore
namespace Refine

open Rounding (rnd)
variable [Rounding]

/-! ## Rules -/

theorem builtin_dumps (P : Prog) (v i : Val) (s : St) : builtinFn P n!"json.dumps" [v, i] s = dumpJson v i s := rfl
theorem dumps_none {h : Heap} {v : Val} {j : PyVal} (hj : jsonVal h 8 v = some j) (L : Fields) : dumpJson v .none ⟨L, h⟩ = (.ok (.json j none), ⟨L, h⟩) := by
  unfold dumpJson; dsimp only; rw [hj]
theorem dumps_two {h : Heap} {v : Val} {j : PyVal} (hj : jsonVal h 8 v = some j) (L : Fields) : dumpJson v (.int 2) ⟨L, h⟩ = (.ok (.json j (some 2)), ⟨L, h⟩) := by
  unfold dumpJson; dsimp only; rw [hj]

/-! ## Dictionaries with texts as keys -/

/-- The entries of a dictionary with texts as keys. -/
def strPairs (l : List (String × Val)) : List (Val × Val) := l.map (fun p => (.str p.1, p.2))

theorem keyEq_str (a b : String) : keyEq (.str a) (.str b) = (a == b) := rfl

theorem dictSet_new (k : String) (v : Val) : ∀ l : List (String × Val), (∀ p ∈ l, p.1 ≠ k) → dictSet (strPairs l) (.str k) v = strPairs (l ++ [(k, v)])
  | [], _ => rfl
  | p :: l, h => by
    show (if keyEq (.str p.1) (.str k) then _ else (.str p.1, p.2) :: dictSet (strPairs l) (.str k) v) = _
    rw [keyEq_str, if_neg (by simpa using h p List.mem_cons_self), dictSet_new k v l (fun q hq => h q (List.mem_cons_of_mem _ hq))]
    rfl

theorem foldl_strPairs : ∀ (l d : List (String × Val)), ((d ++ l).map (·.1)).Nodup →
    (strPairs l).foldl (fun d p => dictSet d p.1 p.2) (strPairs d) = strPairs (d ++ l)
  | [], d, _ => by rw [List.append_nil]; rfl
  | p :: l, d, h => by
    show (strPairs l).foldl (fun d p => dictSet d p.1 p.2) (dictSet (strPairs d) (.str p.1) p.2) = _
    have hd : ∀ q ∈ d, q.1 ≠ p.1 := by
      rw [List.map_append, List.nodup_append] at h
      exact fun q hq => h.2.2 _ (List.mem_map_of_mem hq) _ (List.mem_map_of_mem List.mem_cons_self)
    rw [dictSet_new p.1 p.2 d hd, foldl_strPairs l (d ++ [(p.1, p.2)]) (by rw [List.append_assoc]; exact h), List.append_assoc]
    rfl

theorem mapList_strPairs (L : Fields) (h : Heap) : ∀ l : List (String × Val),
    M.mapList pairOf (l.map (fun p => .tup [.str p.1, p.2])) ⟨L, h⟩ = (.ok (strPairs l), ⟨L, h⟩)
  | [] => rfl
  | p :: l => by
    have ih := mapList_strPairs L h l
    rw [List.map_cons]
    rw [M.mapList_cons]
    pyexec [ih]
    rfl

/-! ## The comprehension -/

/-- `{s: getattr(pdata.part, s) for s in pdata.part.__slots__}`. -/
def slotE (part : Ident) : Expr :=
  .dictComp (.name n!"s") (.call (.name n!"getattr") [.attr (.name n!"pdata") part, .name n!"s"]) n!"s" (.attr (.attr (.name n!"pdata") part) n!"__slots__")

section
variable (n : Nat) {h : Heap} {part c c' : Ident} {o b : Nat} {fo fs : Fields} (ho : h[o]? = some (.inst c' fo)) (hp : fo.lookup part = some (.ref b))
  (hb : h[b]? = some (.inst c fs))
include ho hp hb

theorem slot_loop : ∀ (l : List (String × Val)), (∀ p ∈ l, fs.lookup ⟨codeOf p.1⟩ = some p.2) → ∀ L : Fields, L.lookup n!"pdata" = some (.ref o) →
    L.lookup n!"getattr" = none →
    ∃ L', compLoop n!"s" (M.pure true) (eval src (callFn src n) (.name n!"s") >>= fun a =>
      eval src (callFn src n) (.call (.name n!"getattr") [.attr (.name n!"pdata") part, .name n!"s"]) >>= fun b => M.pure (.tup [a, b]))
      (l.map (fun p => .str p.1)) ⟨L, h⟩ = (.ok (l.map (fun p => .tup [.str p.1, p.2])), ⟨L', h⟩)
  | [], _, L, _, _ => ⟨L, rfl⟩
  | p :: l, hl, L, h1, h2 => by
    have e0 := hl p List.mem_cons_self
    have e1 : (M.bindKey L n!"s" (.str p.1)).lookup n!"pdata" = some (.ref o) := by rw [lookup_bindKey, ← h1]; rfl
    have e2 : (M.bindKey L n!"s" (.str p.1)).lookup n!"getattr" = none := by rw [lookup_bindKey, ← h2]; rfl
    have e3 : (M.bindKey L n!"s" (.str p.1)).lookup n!"s" = some (.str p.1) := by rw [lookup_bindKey]; rfl
    obtain ⟨L', ih⟩ := slot_loop l (fun q hq => hl q (List.mem_cons_of_mem _ hq)) _ e1 e2
    refine ⟨L', ?_⟩
    rw [List.map_cons, compLoop_cons]
    pyexec [e0, e1, e2, e3, ho, hp, hb, ih]
    rfl

theorem slots_eval {K : Ident} (l : List (String × Val)) (hs : findMember src c n!"__slots__" = some (K, .value (.tuple (l.map (fun p => .const (.str p.1))))))
    (hn : fs.lookup n!"__slots__" = none) (hl : ∀ p ∈ l, fs.lookup ⟨codeOf p.1⟩ = some p.2) (hd : (l.map (·.1)).Nodup) (L : Fields)
    (h1 : L.lookup n!"pdata" = some (.ref o)) (h2 : L.lookup n!"getattr" = none) :
    eval src (callFn src n) (slotE part) ⟨L, h⟩ = (.ok (.ref h.length), ⟨L, h ++ [.dict (strPairs l)]⟩) := by
  obtain ⟨L', hc⟩ := slot_loop n ho hp hb l hl L h1 h2
  have hv : ∀ l : List (String × Val), staticVal.staticVals src K (l.map (fun p => .const (.str p.1))) = some (l.map (fun p => .str p.1)) := by
    intro l
    induction l with
    | nil => rfl
    | cons p l ih => rw [List.map_cons, staticVals_const, ih]; rfl
  have hf := foldl_strPairs l [] (by rw [List.nil_append]; exact hd)
  rw [List.nil_append] at hf
  unfold slotE
  pyexec [eval_dictComp, h1, ho, hp, hb, hn, hs, hv l, hc, mapList_strPairs, hf]
  exact congrArg (fun x => (Except.ok (Val.ref h.length), (⟨L, h ++ [Obj.dict x]⟩ : St))) hf
end

/-! ## What `json.dumps` is handed -/

section
variable {h : Heap} {n : Nat}

theorem json_none : jsonVal h (n + 1) .none = some .none := rfl
theorem json_bool (b : Bool) : jsonVal h (n + 1) (.bool b) = some (.bool b) := rfl
theorem json_int (i : Int) : jsonVal h (n + 1) (.int i) = some (.int i) := rfl
theorem json_flt (q : Rat) : jsonVal h (n + 1) (.flt q) = some (.flt q) := rfl
theorem json_str (s : String) : jsonVal h (n + 1) (.str s) = some (.str s) := rfl

theorem json_mapM {α β : Type} (f : α → Option β) : ∀ {l : List α} {l' : List β}, List.Forall₂ (fun a b => f a = some b) l l' → l.mapM f = some l'
  | [], [], _ => rfl
  | a :: l, b :: l', h => by
    cases h with
    | cons h1 h2 => rw [List.mapM_cons, h1, json_mapM f h2]; rfl

theorem json_tup {vs : List Val} {js : List PyVal} (hj : List.Forall₂ (fun v j => jsonVal h n v = some j) vs js) :
    jsonVal h (n + 1) (.tup vs) = some (.seq js) := by
  show (vs.mapM (jsonVal h n)).map PyVal.seq = _
  rw [json_mapM _ hj]; rfl

theorem json_natTup (l : List Nat) : jsonVal h (n + 2) (natTup l) = some (Json.natSeq l) := by
  refine json_tup ?_
  induction l with
  | nil => exact .nil
  | cons x l ih => exact .cons rfl ih

theorem json_intTup (l : List Int) : jsonVal h (n + 2) (intTup l) = some (Json.intSeq l) := by
  refine json_tup ?_
  induction l with
  | nil => exact .nil
  | cons x l ih => exact .cons rfl ih

theorem json_dict {a : Nat} {d : List (Val × Val)} {js : List (PyKey × PyVal)} (ha : h[a]? = some (.dict d))
    (hj : List.Forall₂ (fun p q => jsonKey p.1 = some q.1 ∧ jsonVal h n p.2 = some q.2) d js) : jsonVal h (n + 1) (.ref a) = some (.dict js) := by
  rw [jsonVal]
  rw [ha]
  dsimp only
  rw [json_mapM _ (l' := js) (hj.imp (fun p q hq => by rw [hq.1, hq.2]; rfl))]
  rfl

/-- Names and values in the heap and names and values for `json.dumps`. -/
def JsonPairs (h : Heap) (n : Nat) (l : List (String × Val)) (js : List (String × PyVal)) : Prop :=
  List.Forall₂ (fun p q => p.1 = q.1 ∧ jsonVal h n p.2 = some q.2) l js

theorem json_strDict {a : Nat} {l : List (String × Val)} {js : List (String × PyVal)} (ha : h[a]? = some (.dict (strPairs l)))
    (hj : JsonPairs h n l js) : jsonVal h (n + 1) (.ref a) = some (Json.strDict js) := by
  refine json_dict ha ?_
  unfold strPairs
  rw [List.forall₂_map_left_iff, List.forall₂_map_right_iff]
  exact hj.imp (fun p q hq => ⟨by rw [hq.1]; rfl, hq.2⟩)
end

end Refine
end PyCore
end Verif
