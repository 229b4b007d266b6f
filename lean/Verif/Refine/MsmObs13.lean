import Verif.Refine.MsmHead

/-!
# `BareObservablesMSM17Decoder`: observables of MSM1 to MSM3
-/

namespace Verif
namespace PyCore
namespace Refine

open Rounding (rnd)
variable [Rounding]

section
variable {G : Heap} {r : Bool} {K : BareKind} {sat sgn : Fields} {buf : Bytes}

theorem head13 (n m : Nat) (rest : List Stmt) (x : Msm.Attributes) (hd : Msm.BareHdr) (o est : Nat) (ws : List Nat) (h123 : (x.is_msm1 || x.is_msm2 || x.is_msm3) = true)
    (hp : Msm.plan123 x o (Msm.bitCount hd.sat_mask) (Msm.bitCount hd.cell_mask) = (est, ws)) :
    HeadRes m (callFn src (n + 2)) G r K buf x hd o sat sgn est ws rest
      (execBlock src m (callFn src (n + 2)) (Src.fn_BareObservablesMSM17Decoder_P_extract_observables123.body.take 6 ++ rest)
        ⟨obsLoc0 G buf o, bareHeap G r K (atrF x) (hdrF hd) sat sgn []⟩) := by
  have hs := bitCount_digits hd.sat_mask
  have hg := bitCount_digits hd.sgn_mask
  have hl := bitCount_digits hd.cell_mask
  have ha := bareHeap_atr G r K (atrF x) (hdrF hd) sat sgn []
  have h1 := is_msm1_src (n + 1) _ _ x ha
  have h2 := is_msm2_src (n + 1) _ _ x ha
  have h3 := is_msm3_src (n + 1) _ _ x ha
  have hap := bareHeap_append G r K (atrF x) (hdrF hd) sat sgn [] 
  have hlen := bareHeap_length G r K (atrF x) (hdrF hd) sat sgn []
  unfold HeadRes obsLoc0 obsLoc
  generalize Msm.bitCount hd.sat_mask = Nsat at *
  generalize Msm.bitCount hd.sgn_mask = Nsgn at *
  generalize Msm.bitCount hd.cell_mask = Ncell at *
  simp only [Src.fn_BareObservablesMSM17Decoder_P_extract_observables123, List.take_succ_cons, List.take_zero, List.cons_append, List.nil_append]
  by_cases c1 : Nsat = 0
  · have c1' : ((Nsat : Int) == 0) = true := by rw [beq_iff_eq]; omega
    rw [if_pos (.inl c1)]
    exact ⟨_, _, by pyexec [hdrF_sat, hdrF_sgn, hdrF_cell, hs, hg, hl, c1']; rfl⟩
  have c1' : ((Nsat : Int) == 0) = false := by rw [beq_eq_false_iff_ne]; omega
  by_cases c2 : Nsgn = 0
  · have c2' : ((Nsgn : Int) == 0) = true := by rw [beq_iff_eq]; omega
    rw [if_pos (.inr (.inl c2))]
    exact ⟨_, _, by pyexec [hdrF_sat, hdrF_sgn, hdrF_cell, hs, hg, hl, c1', c2']; rfl⟩
  have c2' : ((Nsgn : Int) == 0) = false := by rw [beq_eq_false_iff_ne]; omega
  by_cases c3 : Ncell = 0
  · have c3' : ((Ncell : Int) == 0) = true := by rw [beq_iff_eq]; omega
    rw [if_pos (.inr (.inr (.inl c3)))]
    exact ⟨_, _, by pyexec [hdrF_sat, hdrF_sgn, hdrF_cell, hs, hg, hl, c1', c2', c3']; rfl⟩
  have c3' : ((Ncell : Int) == 0) = false := by rw [beq_eq_false_iff_ne]; omega
  rcases Bool.eq_false_or_eq_true x.is_msm1 with e1 | e1
  · simp only [Msm.plan123, e1, reduceIte, Bool.false_eq_true, Prod.mk.injEq] at hp
    obtain ⟨rfl, rfl⟩ := hp
    rw [e1] at h1
    have e1 := est_int o 10 Nsat 15 Ncell
    simp only [Nat.cast_ofNat] at e1
    generalize (o + 10 * Nsat + 15 * Ncell + 7) >>> 3 + 3 = est at *
    by_cases c4 : est = buf.length
    · have c4' : ((est : Int) == (buf.length : Int)) = true := by rw [beq_iff_eq]; omega
      rw [if_neg (by simp [c1, c2, c3, c4])]
      pyexec [hdrF_sat, hdrF_sgn, hdrF_cell, hs, hg, hl, c1', c2', c3', atrF_1, h1, e1, c4', hap, hlen, compLoop_cons, Bool.not_true]
      rfl
    · have c4' : ((est : Int) == (buf.length : Int)) = false := by rw [beq_eq_false_iff_ne]; omega
      rw [if_pos (.inr (.inr (.inr c4)))]
      exact ⟨_, _, by
        pyexec [hdrF_sat, hdrF_sgn, hdrF_cell, hs, hg, hl, c1', c2', c3', atrF_1, h1, e1, c4', hap, hlen, compLoop_cons, Bool.not_false]
        rfl⟩
  rw [e1] at h1
  rcases Bool.eq_false_or_eq_true x.is_msm2 with e2 | e2
  · simp only [Msm.plan123, e1, e2, reduceIte, Bool.false_eq_true, Prod.mk.injEq] at hp
    obtain ⟨rfl, rfl⟩ := hp
    rw [e2] at h2
    have e1 := est_int o 10 Nsat 28 Ncell
    simp only [Nat.cast_ofNat] at e1
    generalize (o + 10 * Nsat + 28 * Ncell + 7) >>> 3 + 3 = est at *
    by_cases c4 : est = buf.length
    · have c4' : ((est : Int) == (buf.length : Int)) = true := by rw [beq_iff_eq]; omega
      rw [if_neg (by simp [c1, c2, c3, c4])]
      pyexec [hdrF_sat, hdrF_sgn, hdrF_cell, hs, hg, hl, c1', c2', c3', atrF_1, h1, atrF_2, h2, e1, c4', hap, hlen, compLoop_cons, Bool.not_true]
      rfl
    · have c4' : ((est : Int) == (buf.length : Int)) = false := by rw [beq_eq_false_iff_ne]; omega
      rw [if_pos (.inr (.inr (.inr c4)))]
      exact ⟨_, _, by
        pyexec [hdrF_sat, hdrF_sgn, hdrF_cell, hs, hg, hl, c1', c2', c3', atrF_1, h1, atrF_2, h2, e1, c4', hap, hlen, compLoop_cons, Bool.not_false]
        rfl⟩
  rw [e2] at h2
  rcases Bool.eq_false_or_eq_true x.is_msm3 with e3 | e3
  · simp only [Msm.plan123, e1, e2, e3, reduceIte, Bool.false_eq_true, Prod.mk.injEq] at hp
    obtain ⟨rfl, rfl⟩ := hp
    rw [e3] at h3
    have e1 := est_int o 10 Nsat 43 Ncell
    simp only [Nat.cast_ofNat] at e1
    generalize (o + 10 * Nsat + 43 * Ncell + 7) >>> 3 + 3 = est at *
    by_cases c4 : est = buf.length
    · have c4' : ((est : Int) == (buf.length : Int)) = true := by rw [beq_iff_eq]; omega
      rw [if_neg (by simp [c1, c2, c3, c4])]
      pyexec [hdrF_sat, hdrF_sgn, hdrF_cell, hs, hg, hl, c1', c2', c3', atrF_1, h1, atrF_2, h2, atrF_3, h3, e1, c4', hap, hlen, compLoop_cons, Bool.not_true]
      rfl
    · have c4' : ((est : Int) == (buf.length : Int)) = false := by rw [beq_eq_false_iff_ne]; omega
      rw [if_pos (.inr (.inr (.inr c4)))]
      exact ⟨_, _, by
        pyexec [hdrF_sat, hdrF_sgn, hdrF_cell, hs, hg, hl, c1', c2', c3', atrF_1, h1, atrF_2, h2, atrF_3, h3, e1, c4', hap, hlen, compLoop_cons, Bool.not_false]
        rfl⟩
  rw [e1, e2, e3] at h123
  exact absurd h123 (by decide)

/-- `self.bd.atr.is_msm3` -/
def cond3 : Expr := .attr (.attr (.attr (.name n!"self") n!"bd") n!"atr") n!"is_msm3"
/-- `self.bd.atr.is_msm1` -/
def cond1 : Expr := .attr (.attr (.attr (.name n!"self") n!"bd") n!"atr") n!"is_msm1"

/-- `rng_rough`, sub_decoders/RTCM_MSM.py:290-294. -/
def item13 : Item where
  cond := none
  part := .sat
  field := n!"rng_rough"
  kind := .u

/-- `rng_fine` of MSM1, sub_decoders/RTCM_MSM.py:298-302. -/
def items1 : List Item := [⟨none, .sgn, n!"rng_fine", .s⟩]

/-- Signals of MSM2 and MSM3, sub_decoders/RTCM_MSM.py:304-331. -/
def items23 (b : Bool) : List Item :=
  [⟨some (cond3, b), .sgn, n!"rng_fine", .s⟩, ⟨none, .sgn, n!"phase_fine", .s⟩, ⟨none, .sgn, n!"lock_time", .u⟩, ⟨none, .sgn, n!"hc_indc", .u⟩]

theorem body13_eq (b : Bool) : Src.fn_BareObservablesMSM17Decoder_P_extract_observables123.body =
    Src.fn_BareObservablesMSM17Decoder_P_extract_observables123.body.take 6 ++ ([item13].flatMap Item.stmts ++
      (.ite cond1 (items1.flatMap Item.stmts) ((items23 b).flatMap Item.stmts) :: obsTail)) := rfl

/-- The signals in the model. -/
def part13 (buf : Bytes) (Ncell : Nat) (m1 m3 : Bool) (w1 w2 w3 w4 : Nat) (offset : Nat) : Py (Msm.BareSgn123 × Nat) :=
  if m1 then do
    let rng_fine ← Msm.tupleS buf offset w1 Ncell
    pure ({ rng_fine }, offset + w1 * Ncell)
  else do
    let (rng_fine, offset) ← if m3 then do let x ← Msm.tupleS buf offset w1 Ncell; pure (x, offset + w1 * Ncell) else pure ([0], offset)
    let phase_fine ← Msm.tupleS buf offset w2 Ncell
    let offset := offset + w2 * Ncell
    let lock_time ← Msm.tupleU buf offset w3 Ncell
    let offset := offset + w3 * Ncell
    let hc_indc ← Msm.tupleU buf offset w4 Ncell
    pure ({ rng_fine, phase_fine, lock_time, hc_indc }, offset + w4 * Ncell)

/-- The widths behind the first one. -/
def ws13 (m1 m3 : Bool) (w1 w2 w3 w4 : Nat) : List Nat := if m1 then [w1] else if m3 then [w1, w2, w3, w4] else [w2, w3, w4]

theorem part13_eq (buf : Bytes) (Nsat Ncell : Nat) (m1 m3 : Bool) (w1 w2 w3 w4 : Nat) (o : Nat) (sat : Fields) :
    readItems buf Nsat Ncell (if m1 then items1 else items23 m3) (ws13 m1 m3 w1 w2 w3 w4) o sat (sgn13F {}) =
      part13 buf Ncell m1 m3 w1 w2 w3 w4 o >>= fun y => pure (y.2, sat, sgn13F y.1) := by
  cases m1 with
  | true =>
    simp only [items1, ws13, readItems, Item.active, part13, tupRead_u, tupRead_s, reduceIte, bind_assoc, pure_bind, intTup_eq, sgn13F,
      M.bindKey_cons, ident_beq, Bool.false_eq_true, Nat.reduceBEq]
  | false =>
    cases m3 with
    | true =>
      simp only [items23, ws13, readItems, Item.active, part13, tupRead_u, tupRead_s, reduceIte, bind_assoc, pure_bind, intTup_eq, sgn13F,
        M.bindKey_cons, ident_beq, Bool.false_eq_true, Nat.reduceBEq]
      simp only [natTup_eq]
    | false =>
      simp only [items23, ws13, readItems, Item.active, part13, tupRead_u, tupRead_s, reduceIte, bind_assoc, pure_bind, intTup_eq, sgn13F,
        M.bindKey_cons, ident_beq, Bool.false_eq_true, Nat.reduceBEq]
      simp only [natTup_eq]

/-- The last check. -/
def final13 (buf : Bytes) (x : Msm.Attributes) (hd : Msm.BareHdr) (s : Msm.BareSat123) (y : Msm.BareSgn123 × Nat) : Py (Msm.Bare123 × Nat) :=
  if buf.length ≠ (y.2 + 7) >>> 3 + 3 then .error .bareData else pure ({ atr := x, hdr := hd, sat := s, sgn := y.1 }, y.2)

theorem extract13_eq (buf : Bytes) (x : Msm.Attributes) (hd : Msm.BareHdr) (o : Nat) (m1 m3 : Bool) (est : Nat)
    (w0 w1 w2 w3 w4 : Nat) (h1 : x.is_msm1 = m1) (h3 : x.is_msm3 = m3)
    (hp : Msm.plan123 x o (Msm.bitCount hd.sat_mask) (Msm.bitCount hd.cell_mask) = (est, w0 :: ws13 m1 m3 w1 w2 w3 w4)) :
    Msm.extract123 buf x hd o =
      if Msm.bitCount hd.sat_mask = 0 ∨ Msm.bitCount hd.sgn_mask = 0 ∨ Msm.bitCount hd.cell_mask = 0 then .error .bareData
      else if est ≠ buf.length then .error .bareData
      else Msm.tupleU buf o w0 (Msm.bitCount hd.sat_mask) >>= fun v =>
        part13 buf (Msm.bitCount hd.cell_mask) m1 m3 w1 w2 w3 w4 (o + w0 * Msm.bitCount hd.sat_mask) >>= final13 buf x hd { rng_rough := v } := by
  unfold Msm.extract123
  dsimp only
  rw [hp]
  dsimp only
  rw [h1, h3]
  congr 1
  congr 1
  cases m1 with
  | true => simp only [part13, ws13, final13, reduceIte, bind_assoc, pure_bind, Msm.nextW, except_ok_bind]
  | false =>
    cases m3 with
    | true => simp only [part13, ws13, final13, reduceIte, bind_assoc, pure_bind, Msm.nextW, except_ok_bind, Bool.false_eq_true]
    | false => simp only [part13, ws13, final13, reduceIte, bind_assoc, pure_bind, Msm.nextW, except_ok_bind, Bool.false_eq_true]

theorem cond3_src (n : Nat) (x : Msm.Attributes) (hdr : Fields) (Nsat Nsgn Ncell est : Nat) (b : Bool) (hb : x.is_msm3 = b)
    (part : Part) (F : Ident) (k : Kind) :
    Item.CondOk n G r K (atrF x) hdr buf Nsat Nsgn Ncell est ⟨some (cond3, b), part, F, k⟩ := by
  rintro c b' hcb o l sat sgn T hl
  obtain ⟨rfl, rfl⟩ : cond3 = c ∧ b = b' := by simpa using hcb
  have h3 := is_msm3_src (n + 1) _ _ x (bareHeap_atr G r K (atrF x) hdr sat sgn T)
  unfold cond3 obsLoc
  subst hb
  pyexec [atrF_3, h3]

/-- `__extract_observables123` and its model. -/
theorem obs13_src (n : Nat) (x : Msm.Attributes) (hd : Msm.BareHdr) (o : Nat) (h123 : (x.is_msm1 || x.is_msm2 || x.is_msm3) = true) :
    match Msm.extract123 buf x hd o with
    | .ok (b, o') => ∃ T : List Obj, callFn src (n + 3) n!"BareObservablesMSM17Decoder.__extract_observables123" [.ref G.length, .bytes buf, .int o]
        (bareHeap G r K (atrF x) (hdrF hd) (sat13F {}) (sgn13F {}) []) =
          (.ok (.int o'), bareHeap G r K (atrF b.atr) (hdrF b.hdr) (sat13F b.sat) (sgn13F b.sgn) T)
    | .error e => ∃ (sat sgn : Fields) (T : List Obj),
        callFn src (n + 3) n!"BareObservablesMSM17Decoder.__extract_observables123" [.ref G.length, .bytes buf, .int o]
          (bareHeap G r K (atrF x) (hdrF hd) (sat13F {}) (sgn13F {}) []) =
          (.error (.py (errName e)), bareHeap G r K (atrF x) (hdrF hd) sat sgn T) := by
  have hc : callFn src (n + 3) n!"BareObservablesMSM17Decoder.__extract_observables123" [.ref G.length, .bytes buf, .int o]
        (bareHeap G r K (atrF x) (hdrF hd) (sat13F {}) (sgn13F {}) []) = endCall (execBlock src (n + 2) (callFn src (n + 2))
      Src.fn_BareObservablesMSM17Decoder_P_extract_observables123.body ⟨obsLoc0 G buf o, bareHeap G r K (atrF x) (hdrF hd) (sat13F {}) (sgn13F {}) []⟩) :=
    callFn_succ src _ _ _ _ _ _ Look.fn_BareObservablesMSM17Decoder_P_extract_observables123 rfl
  rw [hc]
  clear hc
  obtain ⟨m1, m3, est, w0, w1, w2, w3, w4, h1, h3, hp, hw⟩ : ∃ m1 m3 est w0 w1 w2 w3 w4, x.is_msm1 = m1 ∧ x.is_msm3 = m3 ∧
      Msm.plan123 x o (Msm.bitCount hd.sat_mask) (Msm.bitCount hd.cell_mask) = (est, w0 :: ws13 m1 m3 w1 w2 w3 w4) ∧
      ((if m1 then items1 else items23 m3).filter Item.active).length ≤ (ws13 m1 m3 w1 w2 w3 w4).length := by
    rcases Bool.eq_false_or_eq_true x.is_msm1 with e1 | e1
    · exact ⟨true, x.is_msm3, _, 10, 15, 0, 0, 0, e1, rfl, by rw [Msm.plan123, if_pos e1]; rfl, Nat.le_refl 1⟩
    have n1 : ¬ x.is_msm1 = true := by rw [e1]; decide
    rcases Bool.eq_false_or_eq_true x.is_msm2 with e2 | e2
    · have e3 : x.is_msm3 = false := by
        simp only [Msm.Attributes.is_msm2, Msm.Attributes.is_msm3, beq_iff_eq, beq_eq_false_iff_ne] at e2 ⊢
        rw [e2]; decide
      exact ⟨false, false, _, 10, 0, 22, 4, 1, e1, e3, by rw [Msm.plan123, if_neg n1, if_pos e2]; rfl, by decide⟩
    have n2 : ¬ x.is_msm2 = true := by rw [e2]; decide
    rcases Bool.eq_false_or_eq_true x.is_msm3 with e3 | e3
    · exact ⟨false, true, _, 10, 15, 22, 4, 1, e1, e3, by rw [Msm.plan123, if_neg n1, if_neg n2, if_pos e3]; rfl, by decide⟩
    · rw [e1, e2, e3] at h123
      exact absurd h123 (by decide)
  have hh := head13 (G := G) (r := r) (K := K) (sat := sat13F {}) (sgn := sgn13F {}) (buf := buf) n (n + 2)
    ([item13].flatMap Item.stmts ++ (.ite cond1 (items1.flatMap Item.stmts) ((items23 m3).flatMap Item.stmts) :: obsTail)) x hd o est _ h123 hp
  rw [extract13_eq buf x hd o m1 m3 est w0 w1 w2 w3 w4 h1 h3 hp]
  rw [← body13_eq] at hh
  unfold HeadRes at hh
  by_cases c1 : Msm.bitCount hd.sat_mask = 0 ∨ Msm.bitCount hd.sgn_mask = 0 ∨ Msm.bitCount hd.cell_mask = 0
  · rw [if_pos (by tauto)] at hh
    rw [if_pos c1]
    obtain ⟨l, T, hh⟩ := hh
    rw [hh]
    exact ⟨_, _, _, rfl⟩
  rw [if_neg c1]
  by_cases c2 : est ≠ buf.length
  · rw [if_pos (by tauto)] at hh
    rw [if_pos c2]
    obtain ⟨l, T, hh⟩ := hh
    rw [hh]
    exact ⟨_, _, _, rfl⟩
  rw [if_neg c2]
  rw [if_neg (by tauto)] at hh
  rw [hh]
  clear hh c1 c2 hp
  generalize Msm.bitCount hd.sat_mask = Nsat
  generalize Msm.bitCount hd.sgn_mask = Nsgn
  generalize Msm.bitCount hd.cell_mask = Ncell
  have hu : ∀ (part : Part) (F : Ident) (k : Kind), Item.CondOk n G r K (atrF x) (hdrF hd) buf Nsat Nsgn Ncell est ⟨none, part, F, k⟩ := by
    intro part F k c b hcb; cases hcb
  have hi0 : ∀ it ∈ [item13], it.kind ≠ .S ∧ it.CondOk n G r K (atrF x) (hdrF hd) buf Nsat Nsgn Ncell est := by
    unfold item13
    simp only [List.forall_mem_cons, hu]
    simp
  have hr := items_src n (n + 2) (.ite cond1 (items1.flatMap Item.stmts) ((items23 m3).flatMap Item.stmts) :: obsTail) [item13]
    (w0 :: ws13 m1 m3 w1 w2 w3 w4) o (sat13F {}) (sgn13F {}) [] [] hi0 (.inl rfl) (Nat.succ_le_succ (Nat.zero_le _))
  have hpart : readItems buf Nsat Ncell [item13] (w0 :: ws13 m1 m3 w1 w2 w3 w4) o (sat13F {}) (sgn13F {}) =
      Msm.tupleU buf o w0 Nsat >>= fun v => pure (o + w0 * Nsat, sat13F { rng_rough := v }, sgn13F {}) := by
    simp only [item13, readItems, Item.active, tupRead_u, reduceIte, intTup_eq, sat13F, M.bindKey_cons, ident_beq, Nat.reduceBEq]
    simp only [natTup_eq]
  rw [hpart] at hr
  cases hv : Msm.tupleU buf o w0 Nsat with
  | error e =>
    rw [hv] at hr
    obtain ⟨l', sat', sgn', T', hr⟩ := hr
    rw [hr]
    exact ⟨_, _, _, rfl⟩
  | ok v =>
    rw [hv] at hr
    obtain ⟨l', T', hl', hr⟩ := hr
    rw [hr, except_ok_bind]
    clear hr hpart hv
    have hdrop : (w0 :: ws13 m1 m3 w1 w2 w3 w4).drop ([item13].filter Item.active).length = ws13 m1 m3 w1 w2 w3 w4 := rfl
    rw [hdrop]
    have hif : execBlock src (n + 2) (callFn src (n + 2)) (.ite cond1 (items1.flatMap Item.stmts) ((items23 m3).flatMap Item.stmts) :: obsTail)
        ⟨obsLoc G buf (o + w0 * Nsat) Nsat Nsgn Ncell est l', bareHeap G r K (atrF x) (hdrF hd) (sat13F { rng_rough := v }) (sgn13F {})
          (widths (ws13 m1 m3 w1 w2 w3 w4) :: T')⟩ =
        execBlock src (n + 2) (callFn src (n + 2)) ((if m1 then items1 else items23 m3).flatMap Item.stmts ++ obsTail)
        ⟨obsLoc G buf (o + w0 * Nsat) Nsat Nsgn Ncell est l', bareHeap G r K (atrF x) (hdrF hd) (sat13F { rng_rough := v }) (sgn13F {})
          (widths (ws13 m1 m3 w1 w2 w3 w4) :: T')⟩ := by
      rw [execBlock_app]
      have h1' := is_msm1_src (n + 1) _ _ x (bareHeap_atr G r K (atrF x) (hdrF hd) (sat13F { rng_rough := v }) (sgn13F {})
          (widths (ws13 m1 m3 w1 w2 w3 w4) :: T'))
      rw [h1] at h1'
      generalize hA : items1.flatMap Item.stmts = A
      generalize obsTail = O
      unfold cond1 obsLoc
      cases m1 with
      | true => pyexec [atrF_1, h1', hA]
      | false =>
        generalize hB : (items23 m3).flatMap Item.stmts = B
        pyexec [atrF_1, h1', hB, Bool.false_eq_true]
    rw [hif]
    clear hif
    have hi : ∀ it ∈ (if m1 then items1 else items23 m3), it.kind ≠ .S ∧ it.CondOk n G r K (atrF x) (hdrF hd) buf Nsat Nsgn Ncell est := by
      have hd57 := fun part F k => cond3_src (G := G) (r := r) (K := K) (buf := buf) n x (hdrF hd) Nsat Nsgn Ncell est m3 h3 part F k
      cases m1
      · unfold items23
        simp only [List.forall_mem_cons, hu, hd57, Bool.false_eq_true, reduceIte]
        simp
      · unfold items1
        simp only [List.forall_mem_cons, hu, reduceIte]
        simp
    have hr := items_src n (n + 2) obsTail _ (ws13 m1 m3 w1 w2 w3 w4) (o + w0 * Nsat) (sat13F { rng_rough := v }) (sgn13F {}) T' l' hi hl' hw
    rw [part13_eq] at hr
    cases hv : part13 buf Ncell m1 m3 w1 w2 w3 w4 (o + w0 * Nsat) with
    | error e =>
      rw [hv] at hr
      obtain ⟨l', sat', sgn', T', hr⟩ := hr
      rw [hr]
      exact ⟨_, _, _, rfl⟩
    | ok y =>
      rw [hv] at hr
      obtain ⟨l', T', hl', hr⟩ := hr
      rw [hr, except_ok_bind]
      obtain ⟨l2, ht⟩ := tail_src (G := G) (r := r) (K := K) (sat := sat13F { rng_rough := v }) (sgn := sgn13F y.1) (buf := buf) n (n + 2) x (hdrF hd)
        (widths ((ws13 m1 m3 w1 w2 w3 w4).drop ((if m1 then items1 else items23 m3).filter Item.active).length) :: T') y.2 Nsat Nsgn Ncell est l' hl'
      rw [ht]
      unfold final13
      by_cases c3 : buf.length ≠ (y.2 + 7) >>> 3 + 3
      · rw [if_pos c3, if_pos c3]
        exact ⟨_, _, _, rfl⟩
      · rw [if_neg c3, if_neg c3]
        exact ⟨_, rfl⟩
end

end Refine
end PyCore
end Verif
