import Verif.Refine.BaseDecode

/-!
# The text of gnss_types/data_class_methods.py: `items`, `copy`, `deepcopy`
-/

namespace Verif
namespace PyCore
namespace Refine
open Base

open Rounding (rnd)
variable [Rounding]

@[pyrun] theorem getAttr_fieldName (P : Prog) (call : CallT) (s : St) (x : Ident) : getAttr P call (.field x) n!"name" s = (.ok (.ident x), s) := rfl
@[pyrun] theorem builtin_fields (P : Prog) (s : St) (c : Ident) :
    builtinFn P n!"fields" [.cls c] s = (.ok (.tup ((dataFields P c).map (fun f => .field f.1))), s) := rfl
@[pyrun] theorem instAttr_dunder (P : Prog) (call : CallT) (s : St) (c : Ident) (self : Val) :
    instAttr P call c n!"__class__" self none s = (.ok (.cls c), s) := rfl
@[pyrun] theorem builtin_setattr (P : Prog) (s : St) (v x : Val) (a : Ident) :
    builtinFn P n!"setattr" [v, .ident a, x] s = M.seq (setAttr v a x s) (fun _ => M.pure .none) := by
  show (setAttr v a x >>= _) s = _
  rw [M.bind_apply]

/-- What `items` gives for a field. -/
def itemOf (f : Ident × Val) : Val := .tup [.ident f.1, f.2]

theorem lookup_mem_nodup {fs : List (Ident × Val)} (hn : (fs.map (·.1)).Nodup) {f : Ident × Val} (hf : f ∈ fs) : fs.lookup f.1 = some f.2 := by
  induction fs with
  | nil => cases hf
  | cons g fs ih =>
    obtain ⟨y, w⟩ := g
    rw [List.map_cons, List.nodup_cons] at hn
    rcases List.mem_cons.1 hf with rfl | hf2
    · rw [List.lookup_cons, beq_self_eq_true]
    · have hne : (f.1 == y) = false := by
        rw [beq_eq_false_iff_ne]
        rintro rfl
        exact hn.1 (List.mem_map_of_mem (f := (·.1)) hf2)
      rw [List.lookup_cons, hne]
      exact ih hn.2 hf2

/-- gnss_types/data_class_methods.py:29 -/
def itemsBody : List Stmt :=
  [.expr (.call (.attr (.name n!"$out") n!"append") [.tuple [.attr (.name n!"field") n!"name", .call (.name n!"getattr") [.name n!"self", .attr (.name n!"field") n!"name"]]])]

theorem items_loop (n m : Nat) {h : Heap} {a : Nat} {c : Ident} {fs : List (Ident × Val)} (ha : h[a]? = some (.inst c fs)) (hn : (fs.map (·.1)).Nodup) :
    ∀ (gs : List (Ident × Val)), (∀ f ∈ gs, f ∈ fs) → ∀ (out : List Val) (l : List (Ident × Val)),
    (l = [] ∨ ∃ v, l = [(n!"field", v)]) →
    ∃ l', forLoop (assign src (callFn src n) (.name n!"field")) (execBlock src m (callFn src n) itemsBody) (execBlock src m (callFn src n) [])
      (gs.map (fun f => .field f.1)) ⟨(n!"self", .ref a) :: (n!"$out", .ref h.length) :: l, h ++ [.list out]⟩ =
      (.ok .next, ⟨(n!"self", .ref a) :: (n!"$out", .ref h.length) :: l', h ++ [.list (out ++ gs.map itemOf)]⟩)
  | [], _, out, l, _ => ⟨l, by rw [List.map_nil, List.map_nil, List.append_nil]; pyexec⟩
  | g :: gs, hg, out, l, hl => by
    have ih := items_loop n m ha hn gs (fun f hf => hg f (List.mem_cons_of_mem _ hf)) (out ++ [itemOf g]) [(n!"field", .field g.1)] (Or.inr ⟨_, rfl⟩)
    obtain ⟨l', ih⟩ := ih
    have hk := lookup_mem_nodup hn (hg g List.mem_cons_self)
    refine ⟨l', ?_⟩
    rw [List.map_cons, forLoop_cons, List.map_cons, ← List.append_cons] at *
    rw [← ih]
    unfold itemsBody
    generalize hF : forLoop _ _ _ (gs.map _) = F
    rcases hl with rfl | ⟨v, rfl⟩
    · pyexec [heap_old ha, hk, heap_last, heap_set]
      rfl
    · pyexec [heap_old ha, hk, heap_last, heap_set]
      rfl

theorem clsItems_src (n : Nat) {h : Heap} {a : Nat} {c : Ident} {fs : List (Ident × Val)} (ha : h[a]? = some (.inst c fs)) (hn : (fs.map (·.1)).Nodup)
    (hc : fs.lookup n!"__class__" = none) (hd : (dataFields src c).map (fun f => Val.field f.1) = fs.map (fun f => Val.field f.1)) :
    callFn src (n + 1) n!"DataClassMethods.items" [.ref a] h = (.ok (.ref h.length), h ++ [.list (fs.map itemOf)]) := by
  pycall Look.fn_DataClassMethods_items Src.fn_DataClassMethods_items
  obtain ⟨l', hi⟩ := items_loop n n ha hn fs (fun _ h => h) [] [] (Or.inl rfl)
  unfold itemsBody at hi
  pyexec [heap_old ha, hc, hd, hi, List.nil_append]

theorem bindKey_append {p : List (Ident × Val)} {k : Ident} (hk : k ∉ p.map (·.1)) (v w : Val) (q : List (Ident × Val)) :
    M.bindKey (p ++ (k, w) :: q) k v = (p ++ [(k, v)]) ++ q := by
  induction p with
  | nil =>
    rw [List.nil_append, M.bindKey, beq_self_eq_true]
    rfl
  | cons y p ih =>
    obtain ⟨y, u⟩ := y
    rw [List.map_cons, List.mem_cons, not_or] at hk
    rw [List.cons_append, M.bindKey, if_neg (by rw [beq_iff_eq]; exact fun e => hk.1 e.symm), ih hk.2]
    rfl

/-- gnss_types/data_class_methods.py:34-35 -/
def copyBody : List Stmt :=
  [.unpack [.name n!"key", .name n!"value"] (.name n!"$t"),
   .expr (.call (.name n!"setattr") [.name n!"ret", .name n!"key", .name n!"value"])]

theorem copy_loop (n m : Nat) {h : Heap} {a : Nat} {c : Ident} {X : Obj} : ∀ (gs p q : List (Ident × Val)), q.map (·.1) = gs.map (·.1) →
    ((p ++ gs).map (·.1)).Nodup → ∀ (l : List (Ident × Val)), (l = [] ∨ ∃ u v w, l = [(n!"$t", u), (n!"key", v), (n!"value", w)]) →
    ∃ l', forLoop (assign src (callFn src n) (.name n!"$t")) (execBlock src m (callFn src n) copyBody) (execBlock src m (callFn src n) [])
      (gs.map itemOf) ⟨(n!"self", .ref a) :: (n!"ret", .ref h.length) :: l, h ++ [.inst c (p ++ q), X]⟩ =
      (.ok .next, ⟨(n!"self", .ref a) :: (n!"ret", .ref h.length) :: l', h ++ [.inst c (p ++ gs), X]⟩)
  | [], p, q, hq, _, l, _ => ⟨l, by
      rw [List.map_eq_nil_iff.1 hq, List.map_nil]
      pyexec⟩
  | g :: gs, p, q, hq, hn, l, hl => by
    obtain ⟨k, v⟩ := g
    cases q with
    | nil => cases hq
    | cons y q =>
      obtain ⟨k', w⟩ := y
      rw [List.map_cons, List.map_cons, List.cons.injEq] at hq
      obtain ⟨h1, h2⟩ := hq
      dsimp only at h1
      subst h1
      have hk : k' ∉ p.map (·.1) := by
        intro hm
        rw [List.map_append, List.nodup_append] at hn
        exact hn.2.2 k' hm k' (by rw [List.map_cons]; exact List.mem_cons_self) rfl
      have hn2 : ((p ++ [(k', v)] ++ gs).map (·.1)).Nodup := by
        rw [List.append_assoc]
        exact hn
      obtain ⟨l', ih⟩ := copy_loop n m (h := h) (a := a) (c := c) (X := X) gs (p ++ [(k', v)]) q h2 hn2
        [(n!"$t", itemOf (k', v)), (n!"key", .ident k'), (n!"value", v)] (Or.inr ⟨_, _, _, rfl⟩)
      refine ⟨l', ?_⟩
      have hb := bindKey_append hk v w q
      rw [List.map_cons, forLoop_cons]
      rw [List.append_assoc _ [_] gs, List.singleton_append] at ih
      rw [← ih]
      unfold copyBody
      generalize hF : forLoop _ _ _ (gs.map _) = F
      unfold itemOf
      rcases hl with rfl | ⟨x, y, z, rfl⟩
      · pyexec [append_getElem0, append_set0, List.getElem?_cons_zero, List.set_cons_zero, hb]
      · pyexec [append_getElem0, append_set0, List.getElem?_cons_zero, List.set_cons_zero, hb]

theorem copyRP_src (n : Nat) {β ν σ : Type} {fb : β → Val} {fn : ν → Val} {fq : σ → Val} {h : Heap} {a : Nat} {o : BaseRP β ν σ}
    (ha : h[a]? = some (.inst n!"BaseRP" (rpFields fb fn fq o))) :
    callFn src (n + 2) n!"DataClassMethods.copy" [.ref a] h =
      (.ok (.ref h.length), h ++ [.inst n!"BaseRP" (rpFields fb fn fq o), .list ((rpFields fb fn fq o).map itemOf)]) := by
  pycall Look.fn_DataClassMethods_copy Src.fn_DataClassMethods_copy
  have hnew : ∀ s, M.mapList fieldVal (dataFields src n!"BaseRP") s = (.ok rpNew, s) := fun _ => rfl
  have hit := clsItems_src n (h := h ++ [.inst n!"BaseRP" rpNew]) (heap_old ha _) (show (rpNew.map (·.1)).Nodup by decide) rfl rfl
  obtain ⟨l', hl⟩ := copy_loop (n + 1) (n + 1) (h := h) (a := a) (c := n!"BaseRP") (X := .list ((rpFields fb fn fq o).map itemOf))
    (rpFields fb fn fq o) [] rpNew rfl (show (rpNew.map (·.1)).Nodup by decide) [] (Or.inl rfl)
  unfold copyBody at hl
  rw [List.append_assoc, List.singleton_append] at hit
  rw [List.nil_append, List.nil_append] at hl
  have hc : (rpFields fb fn fq o).lookup n!"__class__" = none := rfl
  have hi2 : (rpFields fb fn fq o).lookup n!"items" = none := rfl
  generalize rpFields fb fn fq o = fs at *
  pyexec [ha, heap_old ha, hc, hi2, hl, hnew, hit, heap_last, heap_set, append_getElem, append_getElem0, List.getElem?_cons_zero, List.getElem?_cons_succ,
    List.contains_cons, Bool.or_true, Bool.true_or]

/-- A new `BaseRPH`. -/
def rphNew : List (Ident × Val) := rpNew ++ [(n!"height", .int 0)]

theorem copyRPH_src (n : Nat) {β ν σ : Type} {fb : β → Val} {fn : ν → Val} {fq : σ → Val} {h : Heap} {a : Nat} {o : BaseRPH β ν σ}
    (ha : h[a]? = some (.inst n!"BaseRPH" (rphFields fb fn fq o))) :
    callFn src (n + 2) n!"DataClassMethods.copy" [.ref a] h =
      (.ok (.ref h.length), h ++ [.inst n!"BaseRPH" (rphFields fb fn fq o), .list ((rphFields fb fn fq o).map itemOf)]) := by
  pycall Look.fn_DataClassMethods_copy Src.fn_DataClassMethods_copy
  have hnew : ∀ s, M.mapList fieldVal (dataFields src n!"BaseRPH") s = (.ok rphNew, s) := fun _ => rfl
  have hit := clsItems_src n (h := h ++ [.inst n!"BaseRPH" rphNew]) (heap_old ha _) (show (rphNew.map (·.1)).Nodup by decide) rfl rfl
  obtain ⟨l', hl⟩ := copy_loop (n + 1) (n + 1) (h := h) (a := a) (c := n!"BaseRPH") (X := .list ((rphFields fb fn fq o).map itemOf))
    (rphFields fb fn fq o) [] rphNew rfl (show (rphNew.map (·.1)).Nodup by decide) [] (Or.inl rfl)
  unfold copyBody at hl
  rw [List.append_assoc, List.singleton_append] at hit
  rw [List.nil_append, List.nil_append] at hl
  have hc : (rphFields fb fn fq o).lookup n!"__class__" = none := rfl
  have hi2 : (rphFields fb fn fq o).lookup n!"items" = none := rfl
  generalize rphFields fb fn fq o = fs at *
  pyexec [ha, heap_old ha, hc, hi2, hl, hnew, hit, heap_last, heap_set, append_getElem, append_getElem0, List.getElem?_cons_zero, List.getElem?_cons_succ,
    List.contains_cons, Bool.or_true, Bool.true_or]

end Refine
end PyCore
end Verif
