import Verif.Spec.ContentJson
import Verif.Lemmas.BaseText
import Verif.Lemmas.JsonUnique
import Verif.Lemmas.Msm
import Verif.Lemmas.ReadText

/-!
# The JSON value of a content as transmitted determines the content
-/

namespace Verif
namespace Lossless
open Spec Bits Base PyStr

theorem toDigits_inj {a b : Nat} (h : Nat.toDigits 10 a = Nat.toDigits 10 b) : a = b := by
  rw [← ReadText.val_nat a, ← ReadText.val_nat b]
  unfold Text.natRepr
  rw [h]

theorem decText_inj {a b : Int} (h : decText a = decText b) : a = b := by
  have no_minus : ∀ n : Nat, ∀ t, Nat.toDigits 10 n ≠ '-' :: t := by
    intro n t e
    have := Nat.isDigit_of_mem_toDigits (b := 10) (n := n) (c := '-') (by omega) (by omega) (by rw [e]; simp)
    revert this; decide
  unfold decText at h
  split at h <;> split at h
  · have := toDigits_inj (List.cons.inj h).2; omega
  · exact absurd h.symm (no_minus _ _)
  · exact absurd h (no_minus _ _)
  · have := toDigits_inj h; omega

theorem jInt_inj {a b : Int} : jInt a = jInt b ↔ a = b := by
  constructor
  · intro h; unfold jInt at h; exact decText_inj (JV.num.inj h)
  · rintro rfl; rfl

theorem jNat_inj {a b : Nat} : jNat a = jNat b ↔ a = b := by
  unfold jNat; rw [jInt_inj]; exact Int.ofNat_inj

theorem jNats_inj {a b : List Nat} : jNats a = jNats b ↔ a = b := by
  constructor
  · intro h
    have := JV.arr.inj h
    exact List.map_injective_iff.2 (fun x y => jNat_inj.1) this
  · rintro rfl; rfl

theorem jInts_inj {a b : List Int} : jInts a = jInts b ↔ a = b := by
  constructor
  · intro h
    have := JV.arr.inj h
    exact List.map_injective_iff.2 (fun x y => jInt_inj.1) this
  · rintro rfl; rfl

theorem jText_inj {a b : String} : jText a = jText b ↔ a = b := by
  unfold jText
  rw [JV.str.injEq, String.toList_inj]

/-- Objects are equal if and only if their members are. -/
theorem jObj_inj {a b : List (String × JV)} : jObj a = jObj b ↔ a = b := by
  unfold jObj
  constructor
  · intro h
    have := JV.obj.inj h
    refine List.map_injective_iff.2 (fun x y h => ?_) this
    obtain ⟨h1, h2⟩ := Prod.mk.inj h
    exact Prod.ext (String.toList_inj.1 h1) h2
  · rintro rfl; rfl

theorem hexText_split (d : List UInt8) (hd : d ≠ []) : splitBlank (hexText d).toList = d.map (fun b => (hex b.toNat).toList) := by
  unfold hexText
  rw [intercalate_toList]
  have e2 : List.map String.toList (List.map (fun b => "0x" ++ String.ofList (Nat.toDigits 16 b.toNat)) d)
      = d.map (fun b => (hex b.toNat).toList) := by
    rw [List.map_map]; rfl
  rw [e2, splitBlank_join _ (by simpa using hd) (by
    intro w hw c hc
    obtain ⟨b, _, rfl⟩ := List.mem_map.1 hw
    exact ((hex_byte b).1 c hc).2)]

theorem hexText_empty : splitBlank (hexText []).toList = [[]] := by decide +kernel

theorem hex_inj {a b : UInt8} (h : (hex a.toNat).toList = (hex b.toNat).toList) : a = b := by
  have h1 := (hex_byte a).2.2
  rw [h, (hex_byte b).2.2] at h1
  exact UInt8.toNat_inj.1 (Except.ok.inj h1).symm

/-- The hexadecimal text determines the bytes. -/
theorem hexText_inj {a b : List UInt8} : hexText a = hexText b ↔ a = b := by
  refine ⟨fun h => ?_, fun h => by rw [h]⟩
  have h' := congrArg (fun s : String => splitBlank s.toList) h
  have key : ∀ d : List UInt8, d ≠ [] → splitBlank (hexText d).toList ≠ [[]] := by
    intro d hd e
    rw [hexText_split d hd] at e
    cases d with
    | nil => exact hd rfl
    | cons x d => exact (hex_byte x).2.1 (List.cons.inj e).1
  by_cases ha : a = [] <;> by_cases hb : b = []
  · rw [ha, hb]
  · rw [ha, hexText_empty] at h'; exact absurd h'.symm (key b hb)
  · rw [hb, hexText_empty] at h'; exact absurd h' (key a ha)
  · rw [hexText_split a ha, hexText_split b hb] at h'
    exact List.map_injective_iff.2 (fun x y => hex_inj) h'

theorem maskInt_inj : ∀ {a b : List Bool}, a.length = b.length → maskInt a = maskInt b → a = b
  | [], [], _, _ => rfl
  | x :: a, y :: b, hl, h => by
    have h1 : x = y := by
      unfold maskInt at h
      cases x <;> cases y <;> simp at h ⊢ <;> omega
    subst h1
    unfold maskInt at h
    rw [maskInt_inj (by simpa using hl) (by omega : maskInt a = maskInt b)]

/-- Columns. -/
theorem col_inj {α : Type} [OfNat α 0] {w n : Nat} {a b : List α} (ha : a.length = MsmData.colLen w n) (hb : b.length = MsmData.colLen w n)
    (h : (if w = 0 then [0] else a) = (if w = 0 then [0] else b)) : a = b := by
  unfold MsmData.colLen at ha hb
  by_cases h0 : w = 0
  · rw [if_pos h0] at ha hb
    rw [List.length_eq_zero_iff.1 ha, List.length_eq_zero_iff.1 hb]
  · rwa [if_neg h0, if_neg h0] at h

/-- Tables with the same distinct names and the same entries. -/
theorem zip_inj {α : Type} : ∀ {names : List String} {a b : List α}, names.Nodup → a.length = names.length → b.length = names.length →
    (names.zip a).Perm (names.zip b) → a = b
  | [], [], [], _, _, _, _ => rfl
  | n :: names, x :: a, y :: b, hn, ha, hb, h => by
    have hx : (n, x) ∈ (n, y) :: names.zip b := h.subset (by simp)
    obtain ⟨hn1, hn2⟩ := List.nodup_cons.1 hn
    have hxy : x = y := by
      rcases List.mem_cons.1 hx with e | e
      · exact (Prod.mk.inj e).2
      · exact absurd (List.of_mem_zip e).1 hn1
    subst hxy
    rw [zip_inj hn2 (by simpa using ha) (by simpa using hb) h.cons_inv]

theorem vals_inj {e e' : Eph.Obj Int} (hn : ephNum e = ephNum e') (h : valsOf e = valsOf e') : e = e' := by
  cases e <;> cases e' <;> simp only [ephNum] at hn <;> first | omega | skip
  all_goals
    rename_i a b
    cases a; cases b
    simp only [valsOf, vals1019, vals1020, vals1041, vals1042, vals1044, vals1045, vals1046, List.cons.injEq] at h
    simp_all

theorem names_ok (e : Eph.Obj Int) : (namesOf e).Nodup ∧ (valsOf e).length = (namesOf e).length := by
  cases e <;> refine ⟨?_, rfl⟩ <;> simp only [namesOf] <;> decide +kernel

theorem written_all (e : Eph.Obj Int) (h : ephNum e ≠ 1041) : ∀ n ∈ namesOf e, unwritten n = false := by
  cases e with
  | navic => exact absurd rfl h
  | _ => simp only [namesOf]; decide +kernel

theorem eph_inj {e e' : Eph.Obj Int} (hn : ephNum e = ephNum e') (h0 : ephNum e ≠ 1041) {v : JV}
    (h : EphJson (namesOf e) ((valsOf e).map jInt) v) (h' : EphJson (namesOf e') ((valsOf e').map jInt) v) : e = e' := by
  have hnames : namesOf e = namesOf e' := by
    cases e <;> cases e' <;> simp only [ephNum] at hn <;> first | rfl | omega
  obtain ⟨l, rfl, hl⟩ := h
  obtain ⟨l', e1, hl'⟩ := h'
  obtain rfl := jObj_inj.1 e1
  have hw := written_all e h0
  obtain ⟨n1, n2⟩ := names_ok e
  have n2' := (names_ok e').2
  rw [← hnames] at hl' n2'
  have hf : ∀ vs : List JV, ((namesOf e).zip vs).filter (fun p => !unwritten p.1) = (namesOf e).zip vs := by
    intro vs
    rw [List.filter_eq_self]
    intro p hp
    rw [hw p.1 (List.of_mem_zip hp).1]
    rfl
  rw [hf] at hl hl'
  have := zip_inj n1 (by simpa using n2) (by simpa using n2') (hl.symm.trans hl')
  exact vals_inj hn (List.map_injective_iff.2 (fun x y => jInt_inj.1) this)

theorem bias_inj {a b : Option Int} (h1 : biasBit a = biasBit b) (h2 : a.getD 0 = b.getD 0) : a = b := by
  cases a <;> cases b <;> simp_all [biasBit]

theorem base_inj {m m' : BaseMsg} (h : m.json bareStyle = m'.json bareStyle) : m = m' := by
  cases m <;> cases m' <;> simp only [BaseMsg.json, refJson, antJson, serialJson, bareStyle, gloJson, List.cons_append, List.nil_append,
    jObj_inj, jNat_inj, jInt_inj, jText_inj, hexText_inj, List.cons.injEq, Prod.mk.injEq, true_and, and_true] at h
  case m1005.m1005 p q => cases p; cases q; simp_all
  case m1006.m1006 p a q b => cases p; cases q; simp_all
  case m1007.m1007 => simp_all
  case m1008.m1008 => simp_all
  case m1033.m1033 => simp_all
  case m1029.m1029 => simp_all
  case m1230.m1230 =>
    obtain ⟨rfl, rfl, ⟨a1, b1, c1, d1⟩, a2, b2, c2, d2⟩ := h
    rw [bias_inj a1 a2, bias_inj b1 b2, bias_inj c1 c2, bias_inj d1 d2]
  case m1013.m1013 ann _ _ _ _ ann' =>
    obtain ⟨rfl, rfl, rfl, -, rfl, h⟩ := h
    have := JV.obj.inj h
    rw [List.map_injective_iff.2 (fun x y h => ?_) this]
    obtain ⟨h1, h2⟩ := Prod.mk.inj h
    have h2 := JV.arr.inj h2
    simp only [List.cons.injEq, jInt_inj, and_true] at h2
    exact Prod.ext (decText_inj h1) (Prod.ext h2.1 h2.2)
  all_goals exact absurd h.1 (by decide)

theorem msm_inj {d d' : MsmData} (hw : d.WF) (hw' : d'.WF) (hn : d.number = d'.number) {aux : Bool}
    (h : d.bareJson true aux = d'.bareJson true aux) : d = d' := by
  have hg : d.g = d'.g ∧ d.k = d'.k := by
    have := hw.k; have := hw'.k
    unfold MsmData.number at hn
    omega
  unfold MsmData.bareJson at h
  have h := JV.obj.inj h
  simp only [List.cons.injEq, Prod.mk.injEq, and_true, if_true, List.cons_append, List.nil_append, jObj_inj, true_and] at h
  obtain ⟨-, h1, h2⟩ := h
  have h3 : d.satJson = d'.satJson ∧ d.sgnJson = d'.sgnJson := by
    cases aux
    · simpa using h2
    · simp only [if_true, List.cons_append, List.nil_append, List.cons.injEq, Prod.mk.injEq, true_and, and_true] at h2
      exact h2.2
  obtain ⟨h3, h4⟩ := h3
  simp only [MsmData.hdrJson, jObj_inj, List.cons.injEq, Prod.mk.injEq, true_and, and_true, jNat_inj] at h1
  obtain ⟨a1, a2, a3, a4, a5, a6, a7, a8, a9, a10, a11⟩ := h1
  have m1 := maskInt_inj (by rw [hw.sats, hw'.sats]) a9
  have m2 := maskInt_inj (by rw [hw.sigs, hw'.sigs]) a10
  have ns : d.nsat = d'.nsat := by unfold MsmData.nsat; rw [m1]
  have ng : d.nsig = d'.nsig := by unfold MsmData.nsig; rw [m2]
  have m3 := maskInt_inj (by rw [hw.cells, hw'.cells, ns, ng]) a11
  have nc : d.ncell = d'.ncell := by unfold MsmData.ncell; rw [m3]
  obtain ⟨g1, g2⟩ := hg
  have w1 := hw'.rngMs; have w2 := hw'.extInfo; have w3 := hw'.rngRough; have w4 := hw'.rateRough; have w5 := hw'.rngFine
  have w6 := hw'.phsFine; have w7 := hw'.lock; have w8 := hw'.half; have w9 := hw'.cnr; have w10 := hw'.rateFine
  rw [← g2, ← ns] at w1 w2 w3 w4
  rw [← g2, ← nc] at w5 w6 w7 w8 w9 w10
  unfold MsmData.satJson at h3
  unfold MsmData.sgnJson at h4
  rw [← g2] at h3 h4
  dsimp only at h3 h4
  simp only [jObj_inj, List.cons_append, List.nil_append, List.cons.injEq, Prod.mk.injEq, true_and, colInts, colNats, jNats_inj, jInts_inj] at h4
  obtain ⟨b1, b2, b3, b4, h4⟩ := h4
  have e5 := col_inj hw.rngFine w5 b1
  have e6 := col_inj hw.phsFine w6 b2
  have e7 := col_inj hw.lock w7 b3
  have e8 := col_inj hw.half w8 b4
  have e3 : d.rngRough = d'.rngRough ∧ d.rngMs = d'.rngMs ∧ d.extInfo = d'.extInfo ∧ d.rateRough = d'.rateRough ∧ d.cnr = d'.cnr ∧
      d.rateFine = d'.rateFine := by
    by_cases hk : d.k ≤ 3
    · have hz : (msmWidths d.k).ms = 0 ∧ (msmWidths d.k).ext = 0 ∧ (msmWidths d.k).rate = 0 ∧ (msmWidths d.k).cnr = 0 ∧
          (msmWidths d.k).fineRate = 0 := by
        have : ∀ k ≤ 3, (msmWidths k).ms = 0 ∧ (msmWidths k).ext = 0 ∧ (msmWidths k).rate = 0 ∧ (msmWidths k).cnr = 0 ∧
          (msmWidths k).fineRate = 0 := by decide +kernel
        exact this _ hk
      obtain ⟨z1, z2, z3, z4, z5⟩ := hz
      rw [if_pos hk, if_pos hk] at h3
      simp only [jObj_inj, List.cons.injEq, Prod.mk.injEq, true_and, and_true, colNats, jNats_inj] at h3
      exact ⟨col_inj hw.rngRough w3 h3, col_inj hw.rngMs w1 (by simp [z1]), col_inj hw.extInfo w2 (by simp [z2]),
        col_inj hw.rateRough w4 (by simp [z3]), col_inj hw.cnr w9 (by simp [z4]), col_inj hw.rateFine w10 (by simp [z5])⟩
    · rw [if_neg hk, if_neg hk] at h3 h4
      simp only [jObj_inj, List.cons.injEq, Prod.mk.injEq, true_and, and_true, colNats, colInts, jNats_inj, jInts_inj] at h3 h4
      obtain ⟨c1, c2, c3, c4⟩ := h3
      exact ⟨col_inj hw.rngRough w3 c3, col_inj hw.rngMs w1 c1, col_inj hw.extInfo w2 c2,
        col_inj hw.rateRough w4 c4, col_inj hw.cnr w9 h4.1, col_inj hw.rateFine w10 h4.2⟩
  obtain ⟨x1, x2, x3, x4, x5, x6⟩ := e3
  cases d; cases d'
  simp_all

theorem number_msm_range {d : MsmData} (h : d.WF) : 1071 ≤ d.number ∧ d.number ≤ 1137 := by
  have := h.k; have := h.g
  unfold MsmData.number
  omega

/-- Contents with the same number and the same value are equal. -/
theorem content_inj {c c' : Content} (h : c.WellFormed) (h' : c'.WellFormed) (hn : c.number = c'.number) (h0 : c.number ≠ 1041) {aux : Bool}
    {v : JV} (hv : c.BareJson true aux v) (hv' : c'.BareJson true aux v) : c = c' := by
  cases c <;> cases c' <;> simp only [Content.BareJson] at hv hv'
  case eph.eph e e' => rw [eph_inj hn h0 hv hv']
  case base.base m m' => rw [base_inj (hv.symm.trans hv')]
  case msm.msm d d' => rw [msm_inj h.2.2 h'.2.2 hn (hv.symm.trans hv')]
  case eph.base e m => cases e <;> cases m <;> simp [Content.number, ephNum] at hn
  case base.eph m e => cases e <;> cases m <;> simp [Content.number, ephNum] at hn
  case eph.msm e d =>
    have := number_msm_range (d := d) h'.2.2
    cases e <;> simp only [Content.number, ephNum] at hn <;> omega
  case msm.eph d e =>
    have := number_msm_range (d := d) h.2.2
    cases e <;> simp only [Content.number, ephNum] at hn <;> omega
  case base.msm m d =>
    have := number_msm_range (d := d) h'.2.2
    cases m <;> simp only [Content.number] at hn <;> omega
  case msm.base d m =>
    have := number_msm_range (d := d) h.2.2
    cases m <;> simp only [Content.number] at hn <;> omega

end Lossless
end Verif
