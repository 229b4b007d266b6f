import Verif.Refine.BaseText

/-!
# The text of `__scale1013` and `__scale1230` of sub_decoders/RTCM_BASE.py
-/

namespace Verif
namespace PyCore
namespace Refine
open Base

open Rounding (rnd)
variable [Rounding]

@[pyrun] theorem copyField_int (x : Ident) (i : Int) (s : St) : copyField (x, .int i) s = (.ok (x, .int i), s) := rfl

theorem copyField_dict {x : Ident} {d : Nat} {D : List (Val × Val)} {l : List (Ident × Val)} {h : Heap} (hd : h[d]? = some (.dict D))
    (hD : D.all (fun p => immediate p.1 && immediate p.2) = true) :
    copyField (x, .ref d) ⟨l, h⟩ = (.ok (x, .ref h.length), ⟨l, h ++ [.dict D]⟩) := by
  unfold copyField
  dsimp only
  rw [M.bind_apply]
  pyexec [hd]
  rw [if_pos hD]
  rfl

/-- A dictionary of biases. -/
def biasD (a b c d : Val) : List (Val × Val) := [(.str "1C", a), (.str "1P", b), (.str "2C", c), (.str "2P", d)]

theorem biasD_get1 (a b c d : Val) : dictGet (biasD a b c d) (.str "1C") = some a := rfl
theorem biasD_get2 (a b c d : Val) : dictGet (biasD a b c d) (.str "1P") = some b := rfl
theorem biasD_get3 (a b c d : Val) : dictGet (biasD a b c d) (.str "2C") = some c := rfl
theorem biasD_get4 (a b c d : Val) : dictGet (biasD a b c d) (.str "2P") = some d := rfl
theorem biasD_set1 (a b c d x : Val) : dictSet (biasD a b c d) (.str "1C") x = biasD x b c d := rfl
theorem biasD_set2 (a b c d x : Val) : dictSet (biasD a b c d) (.str "1P") x = biasD a x c d := rfl
theorem biasD_set3 (a b c d x : Val) : dictSet (biasD a b c d) (.str "2C") x = biasD a b x d := rfl
theorem biasD_set4 (a b c d x : Val) : dictSet (biasD a b c d) (.str "2P") x = biasD a b c x := rfl

theorem biasKeys_cases {α : Type} {d : PyDict String α} (h : d.keys = biasKeys) : ∃ x y z w, d = [("1C", x), ("1P", y), ("2C", z), ("2P", w)] := by
  unfold biasKeys PyDict.keys at h
  match d, h with
  | [(k1, x), (k2, y), (k3, z), (k4, w)], h =>
    simp only [List.map_cons, List.map_nil, List.cons.injEq] at h
    obtain ⟨rfl, rfl, rfl, rfl, _⟩ := h
    exact ⟨x, y, z, w, rfl⟩
  | [], h => simp at h
  | [_], h => simp at h
  | [_, _], h => simp at h
  | [_, _, _], h => simp at h
  | _ :: _ :: _ :: _ :: _ :: _, h => simp at h

theorem hr5 : mkRat 1 5 = 2 / 10 := by rw [Rat.mkRat_eq_div]; norm_num

theorem scaleGLBS_src (n : Nat) (v : Val) {h : Heap} {a : Nat} {o : BaseGLBS Int Int} (ha : BareShown (.glbs o) h a) :
    Builds ScaledBase h (callFn src (n + 2) n!"BaseStationDataDecoder.__scale1230" [v, .ref a] h) (Base.scaleR rnd (.glbs o)) := by
  obtain ⟨d, e, ha, hd, he, hne, hkd, hke⟩ := ha
  obtain ⟨x1, x2, x3, x4, hv⟩ := biasKeys_cases hkd
  obtain ⟨y1, y2, y3, y4, hc⟩ := biasKeys_cases hke
  rw [hv] at hd
  rw [hc] at he
  change h[d]? = some (.dict (biasD (.int x1) (.int x2) (.int x3) (.int x4))) at hd
  change h[e]? = some (.dict (biasD (.int y1) (.int y2) (.int y3) (.int y4))) at he
  have hcp : ∀ l, M.mapList copyField (glbsFields .int o d e) ⟨l, h⟩ = (.ok (glbsFields .int o h.length (h.length + 1)),
      ⟨l, h ++ [.dict (biasD (.int x1) (.int x2) (.int x3) (.int x4)), .dict (biasD (.int y1) (.int y2) (.int y3) (.int y4))]⟩) := by
    intro l
    unfold glbsFields
    have e1 := fun x => copyField_dict (x := x) (l := l) hd rfl
    have e2 := fun x => copyField_dict (x := x) (l := l) (heap_old he [.dict (biasD (.int x1) (.int x2) (.int x3) (.int x4))]) rfl
    pyexec [e1, e2, List.append_assoc, List.cons_append, List.nil_append]
  have hdc := deepcopy_src n ha (show [d, e].Nodup by simpa using hne) hcp
  rw [callFn_succ src _ _ _ _ _ _ Look.fn_BaseStationDataDecoder_P_scale1230 rfl]
  unfold Src.fn_BaseStationDataDecoder_P_scale1230
  change Post _ _ (execBlock _ _ _ _ ⟨[(n!"cls", v), (n!"ibs", .ref a)], h⟩) _
  rw [List.append_assoc, List.cons_append, List.cons_append, List.nil_append] at hdc
  have hl2 : (h ++ [PyCore.Obj.dict (biasD (.int x1) (.int x2) (.int x3) (.int x4)), .dict (biasD (.int y1) (.int y2) (.int y3) (.int y4))]).length = h.length + 2 := by
    rw [List.length_append]; rfl
  rw [hl2] at hdc
  unfold glbsFields at ha hdc
  pyexec [ha, hdc, biasD_get1, biasD_get2, biasD_get3, biasD_get4, biasD_set1, biasD_set2, biasD_set3, biasD_set4, append_getElem0, append_set0, append_getElem, append_set,
    List.getElem?_cons_zero, List.getElem?_cons_succ, List.set_cons_zero, List.set_cons_succ, hr5]
  refine ⟨h.length + 2, _, rfl, by omega, h.length, h.length + 1, ?_, ?_, ?_, by omega, ?_, ?_⟩
  · rw [append_getElem]
    rfl
  · rw [append_getElem0]
    unfold scaleGLBSR
    rw [hv]
    rfl
  · rw [append_getElem]
    unfold scaleGLBSR
    rw [hc]
    rfl
  · unfold scaleGLBSR
    rw [hv]
    rfl
  · unfold scaleGLBSR
    rw [hc]
    rfl

theorem dictGet_app {A B : List (Val × Val)} {k v : Val} (hA : ∀ p ∈ A, keyEq p.1 k = false) (hk : keyEq k k = true) : dictGet (A ++ (k, v) :: B) k = some v := by
  induction A with
  | nil => rw [List.nil_append, dictGet, hk]; rfl
  | cons p A ih =>
    obtain ⟨x, w⟩ := p
    rw [List.cons_append, dictGet, hA (x, w) List.mem_cons_self]
    exact ih (fun q hq => hA q (List.mem_cons_of_mem _ hq))

theorem dictSet_app {A B : List (Val × Val)} {k v w : Val} (hA : ∀ p ∈ A, keyEq p.1 k = false) (hk : keyEq k k = true) :
    dictSet (A ++ (k, v) :: B) k w = (A ++ [(k, w)]) ++ B := by
  induction A with
  | nil => rw [List.nil_append, dictSet, hk]; rfl
  | cons p A ih =>
    obtain ⟨x, u⟩ := p
    rw [List.cons_append, dictSet, hA (x, u) List.mem_cons_self]
    rw [if_neg (by decide), ih (fun q hq => hA q (List.mem_cons_of_mem _ hq))]
    rfl

/-- sub_decoders/RTCM_BASE.py:258-260 -/
def spBody : List Stmt :=
  [.assign (.name n!"is_periodic") (.cmp .eq (.const (.int 1)) (.index (.index (.attr (.name n!"bs") n!"shedule") (.name n!"k")) (.const (.int 0)))),
   .assign (.name n!"period") (.bin .mul (.index (.index (.attr (.name n!"bs") n!"shedule") (.name n!"k")) (.const (.int 1))) (.const (.flt 1 10))),
   .assign (.index (.attr (.name n!"bs") n!"shedule") (.name n!"k")) (.tuple [.name n!"is_periodic", .name n!"period"])]

/-- A scaled entry. -/
def spEntry (kv : Int × Int × Int) : Int × Bool × Rat := (kv.1, (1 == kv.2.1, mulR rnd kv.2.2 (1 / 10)))

theorem hr10 : mkRat 1 10 = 1 / 10 := by rw [Rat.mkRat_eq_div]; norm_num

theorem sp_loop (n m : Nat) (v : Val) {h : Heap} {a : Nat} {fs : List (Ident × Val)} (hfs : fs.lookup n!"shedule" = some (.ref h.length)) :
    ∀ (suf pre : PyDict Int (Int × Int)), ((pre ++ suf).map (·.1)).Nodup → ∀ (l : List (Ident × Val)),
    (l = [] ∨ ∃ x y z, l = [(n!"k", x), (n!"is_periodic", y), (n!"period", z)]) →
    ∃ l', forLoop (assign src (callFn src n) (.name n!"k")) (execBlock src m (callFn src n) spBody) (execBlock src m (callFn src n) [])
      ((schedDict Val.int Val.int suf).map (·.1))
      ⟨(n!"cls", v) :: (n!"ibs", .ref a) :: (n!"bs", .ref (h.length + 1)) :: l,
        h ++ [.dict (schedDict Val.bool Val.flt (pre.map spEntry) ++ schedDict Val.int Val.int suf), .inst n!"BaseSP" fs]⟩ =
      (.ok .next, ⟨(n!"cls", v) :: (n!"ibs", .ref a) :: (n!"bs", .ref (h.length + 1)) :: l',
        h ++ [.dict (schedDict Val.bool Val.flt ((pre ++ suf).map spEntry)), .inst n!"BaseSP" fs]⟩)
  | [], pre, _, l, _ => ⟨l, by
      have : schedDict Val.int Val.int ([] : PyDict Int (Int × Int)) = [] := rfl
      rw [this, List.append_nil, List.append_nil, List.map_nil]
      pyexec⟩
  | (k, p, q) :: suf, pre, hn, l, hl => by
    have hn2 : ((pre ++ [(k, p, q)] ++ suf).map (·.1)).Nodup := by
      rw [List.append_assoc]
      exact hn
    obtain ⟨l', ih⟩ := sp_loop n m v hfs suf (pre ++ [(k, p, q)]) hn2 [(n!"k", .int k), (n!"is_periodic", .bool (1 == p)), (n!"period", .flt (mulR rnd q (1 / 10)))] (Or.inr ⟨_, _, _, rfl⟩)
    refine ⟨l', ?_⟩
    have hA : ∀ x ∈ schedDict Val.bool Val.flt (pre.map spEntry), keyEq x.1 (.int k) = false := by
      intro x hx
      unfold schedDict encD at hx
      rw [List.map_map, List.mem_map] at hx
      obtain ⟨y, hy, rfl⟩ := hx
      change (y.1 == k) = false
      rw [beq_eq_false_iff_ne]
      rintro rfl
      rw [List.map_append, List.nodup_append] at hn
      exact hn.2.2 y.1 (List.mem_map_of_mem (f := (·.1)) hy) y.1 (by rw [List.map_cons]; exact List.mem_cons_self) rfl
    have hk : keyEq (.int k) (.int k) = true := by
      change (k == k) = true
      exact beq_self_eq_true k
    have e1 : schedDict Val.int Val.int ((k, p, q) :: suf) = (.int k, .tup [.int p, .int q]) :: schedDict Val.int Val.int suf := rfl
    have e2 : schedDict Val.bool Val.flt ((pre ++ [(k, p, q)]).map spEntry) =
        schedDict Val.bool Val.flt (pre.map spEntry) ++ [(.int k, .tup [.bool (1 == p), .flt (mulR rnd q (1 / 10))])] := by
      unfold schedDict encD
      rw [List.map_append, List.map_append]
      rfl
    rw [e2] at ih
    rw [e1, List.map_cons, forLoop_cons, List.append_cons pre (k, p, q) suf, ← ih]
    have hg := dictGet_app (B := schedDict Val.int Val.int suf) (v := .tup [.int p, .int q]) hA hk
    have hs := dictSet_app (B := schedDict Val.int Val.int suf) (v := .tup [.int p, .int q]) (w := .tup [.bool (1 == p), .flt (mulR rnd q (1 / 10))]) hA hk
    have t0 : ∀ s, indexVal src (.tup [.int p, .int q]) (.int 0) s = (.ok (.int p), s) := fun _ => rfl
    have t1 : ∀ s, indexVal src (.tup [.int p, .int q]) (.int 1) s = (.ok (.int q), s) := fun _ => rfl
    have hmul : rnd (rnd q * rnd (1 / 10)) = mulR rnd q (1 / 10) := rfl
    unfold spBody
    generalize hF : forLoop _ _ _ ((schedDict Val.int Val.int suf).map _) = F
    rcases hl with rfl | ⟨x, y, z, rfl⟩
    · pyexec [hfs, hg, hs, t0, t1, hr10, hmul, append_getElem0, append_set0, append_getElem, append_set, List.getElem?_cons_zero, List.getElem?_cons_succ, List.set_cons_zero, List.set_cons_succ]
    · pyexec [hfs, hg, hs, t0, t1, hr10, hmul, append_getElem0, append_set0, append_getElem, append_set, List.getElem?_cons_zero, List.getElem?_cons_succ, List.set_cons_zero, List.set_cons_succ]

theorem sched_immediate (d : PyDict Int (Int × Int)) : (schedDict Val.int Val.int d).all (fun p => immediate p.1 && immediate p.2) = true := by
  unfold schedDict encD
  rw [List.all_map, List.all_eq_true]
  intro p _
  rfl

theorem scaleSP_src (n : Nat) (v : Val) {h : Heap} {a : Nat} {o : BaseSP Int Int} (ha : BareShown (.sp o) h a) :
    Builds ScaledBase h (callFn src (n + 2) n!"BaseStationDataDecoder.__scale1013" [v, .ref a] h) (Base.scaleR rnd (.sp o)) := by
  obtain ⟨d, ha, hd, hn⟩ := ha
  have hcp : ∀ l, M.mapList copyField (spFields o d) ⟨l, h⟩ = (.ok (spFields o h.length), ⟨l, h ++ [.dict (schedDict .int .int o.shedule)]⟩) := by
    intro l
    unfold spFields
    have e1 := fun x => copyField_dict (x := x) (l := l) hd (sched_immediate _)
    pyexec [e1]
  have hdc := deepcopy_src n ha (show [d].Nodup from List.nodup_singleton d) hcp
  rw [callFn_succ src _ _ _ _ _ _ Look.fn_BaseStationDataDecoder_P_scale1013 rfl]
  unfold Src.fn_BaseStationDataDecoder_P_scale1013
  change Post _ _ (execBlock _ _ _ _ ⟨[(n!"cls", v), (n!"ibs", .ref a)], h⟩) _
  rw [List.append_assoc, List.cons_append, List.nil_append, List.length_append, List.length_singleton] at hdc
  obtain ⟨l', hl⟩ := sp_loop (n + 1) (n + 1) v (a := a) (h := h) (fs := spFields o h.length) rfl o.shedule [] hn [] (Or.inl rfl)
  rw [List.nil_append, List.map_nil] at hl
  change forLoop _ _ _ _ ⟨_, h ++ [.dict (schedDict Val.int Val.int o.shedule), _]⟩ = _ at hl
  unfold spBody at hl
  unfold spFields at ha hdc hl
  pyexec [ha, hdc, append_getElem0, append_getElem, List.getElem?_cons_zero, List.getElem?_cons_succ, hl]
  refine ⟨h.length + 1, _, rfl, by omega, h.length, ?_, ?_, ?_⟩
  · rw [append_getElem]
    rfl
  · rw [append_getElem0]
    rfl
  · change ((o.shedule.map spEntry).map (·.1)).Nodup
    rw [List.map_map]
    exact hn

end Refine
end PyCore
end Verif
