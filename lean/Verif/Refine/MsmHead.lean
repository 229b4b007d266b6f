import Verif.Refine.MsmExtract

/-!
# `BareObservablesMSM17Decoder`: observables of MSM4 to MSM7
-/

namespace Verif
namespace PyCore
namespace Refine

open Rounding (rnd)
variable [Rounding]

/-- Local variables at the beginning. -/
def obsLoc0 (G : Heap) (buf : Bytes) (o : Nat) : Fields := [(n!"self", .ref G.length), (n!"buf", .bytes buf), (n!"offset", .int o)]

/-- What the statements up to the check of the length do: an exception, or all the numbers and the generator of widths are there. -/
def HeadRes (m : Nat) (call : CallT) (G : Heap) (r : Bool) (K : BareKind) (buf : Bytes) (x : Msm.Attributes) (hd : Msm.BareHdr) (o : Nat) (sat sgn : Fields)
    (est : Nat) (ws : List Nat) (rest : List Stmt) (y : Except Exc Flow × St) : Prop :=
  if Msm.bitCount hd.sat_mask = 0 ∨ Msm.bitCount hd.sgn_mask = 0 ∨ Msm.bitCount hd.cell_mask = 0 ∨ est ≠ buf.length then
    ∃ l T, y = (.error (.py (errName .bareData)), ⟨l, bareHeap G r K (atrF x) (hdrF hd) sat sgn T⟩)
  else y = execBlock src m call rest ⟨obsLoc G buf o (Msm.bitCount hd.sat_mask) (Msm.bitCount hd.sgn_mask) (Msm.bitCount hd.cell_mask) est [],
    bareHeap G r K (atrF x) (hdrF hd) sat sgn [widths ws]⟩

theorem est_int (o a Ns b Nc : Nat) : ((o : Int) + (a : Int) * (Ns : Int) + (b : Int) * (Nc : Int) + (7 : Int)) / (2 : Int) ^ 3 + (3 : Int) =
    (((o + a * Ns + b * Nc + 7) >>> 3 + 3 : Nat) : Int) := by rw [Nat.shiftRight_eq_div_pow]; push_cast; rfl

section
variable (hd : Msm.BareHdr) (x : Msm.Attributes)
theorem hdrF_sat : (hdrF hd).lookup n!"sat_mask" = some (.int hd.sat_mask) := rfl
theorem hdrF_sgn : (hdrF hd).lookup n!"sgn_mask" = some (.int hd.sgn_mask) := rfl
theorem hdrF_cell : (hdrF hd).lookup n!"cell_mask" = some (.int hd.cell_mask) := rfl
theorem atrF_1 : (atrF x).lookup n!"is_msm1" = none := rfl
theorem atrF_2 : (atrF x).lookup n!"is_msm2" = none := rfl
theorem atrF_3 : (atrF x).lookup n!"is_msm3" = none := rfl
theorem atrF_4 : (atrF x).lookup n!"is_msm4" = none := rfl
theorem atrF_5 : (atrF x).lookup n!"is_msm5" = none := rfl
theorem atrF_6 : (atrF x).lookup n!"is_msm6" = none := rfl
theorem atrF_7 : (atrF x).lookup n!"is_msm7" = none := rfl
end

section
variable {G : Heap} {r : Bool} {K : BareKind} {sat sgn : Fields} {buf : Bytes}

theorem head47 (n m : Nat) (rest : List Stmt) (x : Msm.Attributes) (hd : Msm.BareHdr) (o est : Nat) (ws : List Nat)
    (hp : Msm.plan4567 x o (Msm.bitCount hd.sat_mask) (Msm.bitCount hd.cell_mask) = (est, ws)) :
    HeadRes m (callFn src (n + 2)) G r K buf x hd o sat sgn est ws rest
      (execBlock src m (callFn src (n + 2)) (Src.fn_BareObservablesMSM17Decoder_P_extract_observables4567.body.take 6 ++ rest)
        ⟨obsLoc0 G buf o, bareHeap G r K (atrF x) (hdrF hd) sat sgn []⟩) := by
  have hs := bitCount_digits hd.sat_mask
  have hg := bitCount_digits hd.sgn_mask
  have hl := bitCount_digits hd.cell_mask
  have ha := bareHeap_atr G r K (atrF x) (hdrF hd) sat sgn []
  have h7 := is_msm7_src (n + 1) _ _ x ha
  have h6 := is_msm6_src (n + 1) _ _ x ha
  have h5 := is_msm5_src (n + 1) _ _ x ha
  have hap := bareHeap_append G r K (atrF x) (hdrF hd) sat sgn [] 
  have hlen := bareHeap_length G r K (atrF x) (hdrF hd) sat sgn []
  unfold HeadRes obsLoc0 obsLoc
  generalize Msm.bitCount hd.sat_mask = Nsat at *
  generalize Msm.bitCount hd.sgn_mask = Nsgn at *
  generalize Msm.bitCount hd.cell_mask = Ncell at *
  simp only [Src.fn_BareObservablesMSM17Decoder_P_extract_observables4567, List.take_succ_cons, List.take_zero, List.cons_append, List.nil_append]
  by_cases c1 : Nsat = 0
  · have c1' : ((Nsat : Int) == 0) = true := by rw [beq_iff_eq]; omega
    rw [if_pos (.inl c1)]
    exact ⟨_, _, by pyexec [hdrF_sat, hdrF_sgn, hdrF_cell, hs, hg, hl, c1']; rfl⟩
  have c1' : ((Nsat : Int) == 0) = false := by rw [beq_eq_false_iff_ne]; omega
  by_cases c2 : Nsgn = 0
  · have c2' : ((Nsgn : Int) == 0) = true := by rw [beq_iff_eq]; omega
    rw [if_pos (.inr (.inl c2))]
    exact ⟨_, _, by pyexec [hdrF_sat, hdrF_sgn, hdrF_cell, hs, hg, hl, c1', c2']; rfl⟩
  have c2' : ((Nsgn : Int) == 0) = false := by rw [beq_eq_false_iff_ne]; omega
  by_cases c3 : Ncell = 0
  · have c3' : ((Ncell : Int) == 0) = true := by rw [beq_iff_eq]; omega
    rw [if_pos (.inr (.inr (.inl c3)))]
    exact ⟨_, _, by pyexec [hdrF_sat, hdrF_sgn, hdrF_cell, hs, hg, hl, c1', c2', c3']; rfl⟩
  have c3' : ((Ncell : Int) == 0) = false := by rw [beq_eq_false_iff_ne]; omega
  rcases Bool.eq_false_or_eq_true x.is_msm7 with e7 | e7
  · simp only [Msm.plan4567, e7, reduceIte, Bool.false_eq_true, Prod.mk.injEq] at hp
    obtain ⟨rfl, rfl⟩ := hp
    rw [e7] at h7
    have e1 := est_int o 36 Nsat 80 Ncell
    simp only [Nat.cast_ofNat] at e1
    generalize (o + 36 * Nsat + 80 * Ncell + 7) >>> 3 + 3 = est at *
    by_cases c4 : est = buf.length
    · have c4' : ((est : Int) == (buf.length : Int)) = true := by rw [beq_iff_eq]; omega
      rw [if_neg (by simp [c1, c2, c3, c4])]
      pyexec [hdrF_sat, hdrF_sgn, hdrF_cell, hs, hg, hl, c1', c2', c3', atrF_7, h7, e1, c4', hap, hlen, compLoop_cons, Bool.not_true]
      rfl
    · have c4' : ((est : Int) == (buf.length : Int)) = false := by rw [beq_eq_false_iff_ne]; omega
      rw [if_pos (.inr (.inr (.inr c4)))]
      exact ⟨_, _, by
        pyexec [hdrF_sat, hdrF_sgn, hdrF_cell, hs, hg, hl, c1', c2', c3', atrF_7, h7, e1, c4', hap, hlen, compLoop_cons, Bool.not_false]
        rfl⟩
  rw [e7] at h7
  rcases Bool.eq_false_or_eq_true x.is_msm6 with e6 | e6
  · simp only [Msm.plan4567, e7, e6, reduceIte, Bool.false_eq_true, Prod.mk.injEq] at hp
    obtain ⟨rfl, rfl⟩ := hp
    rw [e6] at h6
    have e1 := est_int o 18 Nsat 65 Ncell
    simp only [Nat.cast_ofNat] at e1
    generalize (o + 18 * Nsat + 65 * Ncell + 7) >>> 3 + 3 = est at *
    by_cases c4 : est = buf.length
    · have c4' : ((est : Int) == (buf.length : Int)) = true := by rw [beq_iff_eq]; omega
      rw [if_neg (by simp [c1, c2, c3, c4])]
      pyexec [hdrF_sat, hdrF_sgn, hdrF_cell, hs, hg, hl, c1', c2', c3', atrF_7, h7, atrF_6, h6, e1, c4', hap, hlen, compLoop_cons, Bool.not_true]
      rfl
    · have c4' : ((est : Int) == (buf.length : Int)) = false := by rw [beq_eq_false_iff_ne]; omega
      rw [if_pos (.inr (.inr (.inr c4)))]
      exact ⟨_, _, by
        pyexec [hdrF_sat, hdrF_sgn, hdrF_cell, hs, hg, hl, c1', c2', c3', atrF_7, h7, atrF_6, h6, e1, c4', hap, hlen, compLoop_cons, Bool.not_false]
        rfl⟩
  rw [e6] at h6
  rcases Bool.eq_false_or_eq_true x.is_msm5 with e5 | e5
  · simp only [Msm.plan4567, e7, e6, e5, reduceIte, Bool.false_eq_true, Prod.mk.injEq] at hp
    obtain ⟨rfl, rfl⟩ := hp
    rw [e5] at h5
    have e1 := est_int o 36 Nsat 63 Ncell
    simp only [Nat.cast_ofNat] at e1
    generalize (o + 36 * Nsat + 63 * Ncell + 7) >>> 3 + 3 = est at *
    by_cases c4 : est = buf.length
    · have c4' : ((est : Int) == (buf.length : Int)) = true := by rw [beq_iff_eq]; omega
      rw [if_neg (by simp [c1, c2, c3, c4])]
      pyexec [hdrF_sat, hdrF_sgn, hdrF_cell, hs, hg, hl, c1', c2', c3', atrF_7, h7, atrF_6, h6, atrF_5, h5, e1, c4', hap, hlen, compLoop_cons, Bool.not_true]
      rfl
    · have c4' : ((est : Int) == (buf.length : Int)) = false := by rw [beq_eq_false_iff_ne]; omega
      rw [if_pos (.inr (.inr (.inr c4)))]
      exact ⟨_, _, by
        pyexec [hdrF_sat, hdrF_sgn, hdrF_cell, hs, hg, hl, c1', c2', c3', atrF_7, h7, atrF_6, h6, atrF_5, h5, e1, c4', hap, hlen, compLoop_cons, Bool.not_false]
        rfl⟩
  rw [e5] at h5
  · simp only [Msm.plan4567, e7, e6, e5, reduceIte, Bool.false_eq_true, Prod.mk.injEq] at hp
    obtain ⟨rfl, rfl⟩ := hp
    have e1 := est_int o 18 Nsat 48 Ncell
    simp only [Nat.cast_ofNat] at e1
    generalize (o + 18 * Nsat + 48 * Ncell + 7) >>> 3 + 3 = est at *
    by_cases c4 : est = buf.length
    · have c4' : ((est : Int) == (buf.length : Int)) = true := by rw [beq_iff_eq]; omega
      rw [if_neg (by simp [c1, c2, c3, c4])]
      pyexec [hdrF_sat, hdrF_sgn, hdrF_cell, hs, hg, hl, c1', c2', c3', atrF_7, h7, atrF_6, h6, atrF_5, h5, e1, c4', hap, hlen, compLoop_cons, Bool.not_true]
      rfl
    · have c4' : ((est : Int) == (buf.length : Int)) = false := by rw [beq_eq_false_iff_ne]; omega
      rw [if_pos (.inr (.inr (.inr c4)))]
      exact ⟨_, _, by
        pyexec [hdrF_sat, hdrF_sgn, hdrF_cell, hs, hg, hl, c1', c2', c3', atrF_7, h7, atrF_6, h6, atrF_5, h5, e1, c4', hap, hlen, compLoop_cons, Bool.not_false]
        rfl⟩

theorem cond57_src (n : Nat) (x : Msm.Attributes) (hdr : Fields) (Nsat Nsgn Ncell est : Nat) (b : Bool) (hb : (x.is_msm5 || x.is_msm7) = b)
    (part : Part) (F : Ident) (k : Kind) :
    Item.CondOk n G r K (atrF x) hdr buf Nsat Nsgn Ncell est ⟨some (cond57, b), part, F, k⟩ := by
  rintro c b' hcb o l sat sgn T hl
  obtain ⟨rfl, rfl⟩ : cond57 = c ∧ b = b' := by simpa using hcb
  have ha := bareHeap_atr G r K (atrF x) hdr sat sgn T
  have h7 := is_msm7_src (n + 1) _ _ x ha
  have h5 := is_msm5_src (n + 1) _ _ x ha
  unfold cond57 obsLoc
  subst hb
  rcases Bool.eq_false_or_eq_true x.is_msm5 with e5 | e5
  · rw [e5] at h5 ⊢
    pyexec [atrF_5, h5, Bool.true_or]
  · rw [e5] at h5 ⊢
    pyexec [atrF_5, h5, atrF_7, h7, Bool.false_or]

theorem tail_src (n m : Nat) (x : Msm.Attributes) (hdr : Fields) (T : List Obj) (o Nsat Nsgn Ncell est : Nat) (l : Fields) (hl : BitsLoc l) :
    ∃ l', execBlock src m (callFn src (n + 2)) obsTail ⟨obsLoc G buf o Nsat Nsgn Ncell est l, bareHeap G r K (atrF x) hdr sat sgn T⟩ =
      (if buf.length ≠ (o + 7) >>> 3 + 3 then .error (.py (errName .bareData)) else .ok (.ret (.int o)),
        ⟨l', bareHeap G r K (atrF x) hdr sat sgn T⟩) := by
  have e2 : ((o : Int) + (7 : Int)) / (2 : Int) ^ 3 = (((o + 7) >>> 3 : Nat) : Int) := by
    rw [Nat.shiftRight_eq_div_pow]; push_cast; rfl
  unfold obsTail obsLoc
  have hlen : (l.lookup n!"len") = none := by rcases hl with rfl | ⟨i, rfl⟩ <;> rfl
  have hex : (l.lookup n!"ExceptionBareDataStructure") = none := by rcases hl with rfl | ⟨i, rfl⟩ <;> rfl
  have hNb : ∀ v, (M.bindKey l n!"Nbytes" v).lookup n!"Nbytes" = some v := fun v => lookup_bindKey_self _ v l
  have hlen' : ∀ v, (M.bindKey l n!"Nbytes" v).lookup n!"len" = none := fun v => by rw [lookup_bindKey_ne (by rfl), hlen]
  have hex' : ∀ v, (M.bindKey l n!"Nbytes" v).lookup n!"ExceptionBareDataStructure" = none := fun v => by rw [lookup_bindKey_ne (by rfl), hex]
  by_cases c2 : buf.length = (o + 7) >>> 3 + 3
  · have c2' : ((buf.length : Int) == (((o + 7) >>> 3 : Nat) : Int) + 3) = true := by rw [beq_iff_eq]; omega
    rw [if_neg (by omega)]
    exact ⟨_, by
      pyexec [e2, c2', Bool.not_true, hNb, hlen', hex']
      rfl⟩
  · have c2' : ((buf.length : Int) == (((o + 7) >>> 3 : Nat) : Int) + 3) = false := by rw [beq_eq_false_iff_ne]; omega
    rw [if_pos c2]
    exact ⟨_, by
      pyexec [e2, c2', Bool.not_false, hNb, hlen', hex']
      rfl⟩

/-- `__extract_observables4567` and its model. -/
theorem obs47_src (n : Nat) (x : Msm.Attributes) (hd : Msm.BareHdr) (o : Nat) :
    match Msm.extract4567 buf x hd o with
    | .ok (b, o') => ∃ T : List Obj, callFn src (n + 3) n!"BareObservablesMSM17Decoder.__extract_observables4567" [.ref G.length, .bytes buf, .int o]
        (bareHeap G r K (atrF x) (hdrF hd) (sat47F {}) (sgn47F {}) []) =
          (.ok (.int o'), bareHeap G r K (atrF b.atr) (hdrF b.hdr) (sat47F b.sat) (sgn47F b.sgn) T)
    | .error e => ∃ (sat sgn : Fields) (T : List Obj),
        callFn src (n + 3) n!"BareObservablesMSM17Decoder.__extract_observables4567" [.ref G.length, .bytes buf, .int o]
          (bareHeap G r K (atrF x) (hdrF hd) (sat47F {}) (sgn47F {}) []) =
          (.error (.py (errName e)), bareHeap G r K (atrF x) (hdrF hd) sat sgn T) := by
  have hc : callFn src (n + 3) n!"BareObservablesMSM17Decoder.__extract_observables4567" [.ref G.length, .bytes buf, .int o]
        (bareHeap G r K (atrF x) (hdrF hd) (sat47F {}) (sgn47F {}) []) = endCall (execBlock src (n + 2) (callFn src (n + 2))
      Src.fn_BareObservablesMSM17Decoder_P_extract_observables4567.body ⟨obsLoc0 G buf o, bareHeap G r K (atrF x) (hdrF hd) (sat47F {}) (sgn47F {}) []⟩) :=
    callFn_succ src _ _ _ _ _ _ Look.fn_BareObservablesMSM17Decoder_P_extract_observables4567 rfl
  rw [hc]
  clear hc
  obtain ⟨b, ws, est, w0, wE, w2, wP, w4, w5, w6, w7, w8, wR, hb, hp, hw, hri⟩ : ∃ b ws est w0 wE w2 wP w4 w5 w6 w7 w8 wR,
      (x.is_msm5 || x.is_msm7) = b ∧ Msm.plan4567 x o (Msm.bitCount hd.sat_mask) (Msm.bitCount hd.cell_mask) = (est, ws) ∧
      (ws = if b then [w0, wE, w2, wP, w4, w5, w6, w7, w8, wR] else [w0, w2, w4, w5, w6, w7, w8]) ∧
      ((items47 b).filter Item.active).length ≤ ws.length := by
    rcases Bool.eq_false_or_eq_true x.is_msm7 with e7 | e7
    · exact ⟨true, Msm.BIT_WIDTH_7, _, 8, 4, 10, 14, 20, 24, 10, 1, 10, 15, by rw [e7, Bool.or_true], by rw [Msm.plan4567, if_pos e7], rfl, by decide⟩
    have n7 : ¬ x.is_msm7 = true := by rw [e7]; decide
    rcases Bool.eq_false_or_eq_true x.is_msm6 with e6 | e6
    · have e5 : x.is_msm5 = false := by
        simp only [Msm.Attributes.is_msm6, Msm.Attributes.is_msm5, beq_iff_eq, beq_eq_false_iff_ne] at e6 ⊢
        rw [e6]; decide
      exact ⟨false, Msm.BIT_WIDTH_6, _, 8, 0, 10, 0, 20, 24, 10, 1, 10, 0, by rw [e7, e5]; rfl, by rw [Msm.plan4567, if_neg n7, if_pos e6], rfl, by decide⟩
    have n6 : ¬ x.is_msm6 = true := by rw [e6]; decide
    rcases Bool.eq_false_or_eq_true x.is_msm5 with e5 | e5
    · exact ⟨true, Msm.BIT_WIDTH_5, _, 8, 4, 10, 14, 15, 22, 4, 1, 6, 15, by rw [e5]; rfl, by rw [Msm.plan4567, if_neg n7, if_neg n6, if_pos e5], rfl, by decide⟩
    have n5 : ¬ x.is_msm5 = true := by rw [e5]; decide
    exact ⟨false, Msm.BIT_WIDTH_4, _, 8, 0, 10, 0, 15, 22, 4, 1, 6, 0, by rw [e7, e5]; rfl, by rw [Msm.plan4567, if_neg n7, if_neg n6, if_neg n5], rfl, by decide⟩
  have hh := head47 (G := G) (r := r) (K := K) (sat := sat47F {}) (sgn := sgn47F {}) (buf := buf) n (n + 2)
    ((items47 b).flatMap Item.stmts ++ obsTail) x hd o est ws hp
  rw [extract47_eq buf x hd o b ws est w0 wE w2 wP w4 w5 w6 w7 w8 wR hb hp hw]
  rw [← body47_eq] at hh
  unfold HeadRes at hh
  by_cases c1 : Msm.bitCount hd.sat_mask = 0 ∨ Msm.bitCount hd.sgn_mask = 0 ∨ Msm.bitCount hd.cell_mask = 0
  · rw [if_pos (by tauto)] at hh
    rw [if_pos c1]
    obtain ⟨l, T, hh⟩ := hh
    rw [hh]
    exact ⟨_, _, _, rfl⟩
  rw [if_neg c1]
  by_cases c2 : est ≠ buf.length
  · rw [if_pos (by tauto)] at hh
    rw [if_pos c2]
    obtain ⟨l, T, hh⟩ := hh
    rw [hh]
    exact ⟨_, _, _, rfl⟩
  rw [if_neg c2]
  rw [if_neg (by tauto)] at hh
  rw [hh]
  clear hh c1 c2 hp
  generalize Msm.bitCount hd.sat_mask = Nsat
  generalize Msm.bitCount hd.sgn_mask = Nsgn
  generalize Msm.bitCount hd.cell_mask = Ncell
  have hi : ∀ it ∈ items47 b, it.kind ≠ .S ∧ it.CondOk n G r K (atrF x) (hdrF hd) buf Nsat Nsgn Ncell est := by
    have hu : ∀ (part : Part) (F : Ident) (k : Kind), Item.CondOk n G r K (atrF x) (hdrF hd) buf Nsat Nsgn Ncell est ⟨none, part, F, k⟩ := by
      intro part F k c b hcb; cases hcb
    have hd57 := fun part F k => cond57_src (G := G) (r := r) (K := K) (buf := buf) n x (hdrF hd) Nsat Nsgn Ncell est b hb part F k
    unfold items47
    simp only [List.forall_mem_cons, hu, hd57]
    simp
  have hr := items_src n (n + 2) obsTail (items47 b) ws o (sat47F {}) (sgn47F {}) [] [] hi (.inl rfl) hri
  have hpart : readItems buf Nsat Ncell (items47 b) ws o (sat47F {}) (sgn47F {}) =
      part47 buf Nsat Ncell b w0 wE w2 wP w4 w5 w6 w7 w8 wR o >>= fun x => pure (x.2.2, sat47F x.1, sgn47F x.2.1) := by
    subst hw
    cases b
    · exact part46_eq ..
    · exact part57_eq ..
  rw [hpart] at hr
  cases hv : part47 buf Nsat Ncell b w0 wE w2 wP w4 w5 w6 w7 w8 wR o with
  | error e =>
    rw [hv] at hr
    obtain ⟨l', sat', sgn', T', hr⟩ := hr
    rw [hr]
    exact ⟨_, _, _, rfl⟩
  | ok y =>
    rw [hv] at hr
    obtain ⟨l', T', hl', hr⟩ := hr
    rw [hr, except_ok_bind]
    obtain ⟨l2, ht⟩ := tail_src (G := G) (r := r) (K := K) (sat := sat47F y.1) (sgn := sgn47F y.2.1) (buf := buf) n (n + 2) x (hdrF hd)
      (widths (ws.drop ((items47 b).filter Item.active).length) :: T') y.2.2 Nsat Nsgn Ncell est l' hl'
    rw [ht]
    unfold final47
    by_cases c3 : buf.length ≠ (y.2.2 + 7) >>> 3 + 3
    · rw [if_pos c3, if_pos c3]
      exact ⟨_, _, _, rfl⟩
    · rw [if_neg c3, if_neg c3]
      exact ⟨_, rfl⟩
end

end Refine
end PyCore
end Verif
