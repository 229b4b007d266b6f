import Verif.Props.SourceJson
import Verif.Props.Margo
import Verif.Props.DoubleMargo
import Verif.Refine.MargoCall
import Verif.Spec.MargoBuffer

/-!
Claims about the text of the MARGO printer: the rows for the multiple signal messages that a decoder in use delivers.
-/

namespace Verif
open Spec PyCore Refine Framer Decoder Run Msm
open Rounding (rnd)

/-- The controls in the model. -/
def Spec.MargoSetup.ctl (c : MargoSetup) : Margo.Controls := ⟨c.half, c.lock, c.leap, c.table⟩

theorem setup_settings (c : MargoSetup) : Margo.settings c.ctl = c.settings := rfl

section
variable [Rounding]

theorem IsMargo.at {c : MargoSetup} {h : Heap} {a : Nat} (hc : IsMargo c h a) : ∃ k g, CtrlAt h a k g c.ctl := by
  obtain ⟨k, g, h1, h2, h3⟩ := hc
  exact ⟨k, g, h1, h2, h3⟩

/-- Columns as values. -/
theorem columns_shown {R : Rat → Rat → Prop} : ∀ {l : List (Option Rat)} {l' : List Margo.Cell}, List.Forall₂ (Option.Rel R) l (l'.map Margo.Cell.val) →
    List.Forall₂ (ColumnIs R) l (l'.map cellVal) := by
  intro l l' h
  rw [List.forall₂_map_right_iff] at h ⊢
  refine List.Forall₂.imp ?_ h
  intro x y hxy
  cases y with
  | num y => cases hxy with | some hxy => exact ⟨y, rfl, hxy⟩
  | negZero => cases hxy with | some hxy => exact ⟨0, rfl, hxy⟩
  | nan => cases hxy; exact rfl

/-- Rows of the model as values. -/
theorem rows_shown {R : ObsKind → Rat → Rat → Prop} {m : MargoSettings} {g : Nat} {t : Int} {p : ObservablesMSM} {rows : PyDict Txt Margo.Row}
    (hr : List.Forall₂ (fun ks r => r.1 = margoName g ks.1 ks.2 p.atr.subset ∧ r.2.1 = t ∧
      List.Forall₂ (Option.Rel (R ks.1)) (margoCols m g p ks.1 ks.2) (r.2.2.map Margo.Cell.val)) (margoPlan m p) rows)
    {h : Heap} {d : List (Val × Val)} {o : Obj} {Y : Heap} (hb : BufIn h.length Y d rows) : RowsAre R m g t p (h ++ .dict d :: o :: Y) (.ref h.length) := by
  refine ⟨_, d, rfl, append_getElem0 _ _, ?_⟩
  suffices key : ∀ (D : List (Val × Val)) {d : List (Val × Val)} {rows : PyDict Txt Margo.Row} {plan : List (ObsKind × String)}, BufIn h.length Y d rows →
      List.Forall₂ (fun ks r => r.1 = margoName g ks.1 ks.2 p.atr.subset ∧ r.2.1 = t ∧
        List.Forall₂ (Option.Rel (R ks.1)) (margoCols m g p ks.1 ks.2) (r.2.2.map Margo.Cell.val)) plan rows →
      List.Forall₂ (fun ks e => e.1 = .str (String.ofList (margoName g ks.1 ks.2 p.atr.subset)) ∧
        ∃ w l, e.2 = .ref w ∧ (h ++ .dict D :: o :: Y)[w]? = some (.list (.int t :: l)) ∧ List.Forall₂ (ColumnIs (R ks.1)) (margoCols m g p ks.1 ks.2) l) plan d from
    key d hb hr
  intro D d rows plan hb hr
  unfold BufIn at hb
  induction hb generalizing plan with
  | nil => cases hr; exact .nil
  | cons hx _ ih =>
    cases hr with
    | cons hy hr =>
      refine .cons ?_ (ih hr)
      obtain ⟨e1, w, e2, e3⟩ := hx
      obtain ⟨f1, f2, f3⟩ := hy
      refine ⟨by rw [e1, f1], _, _, e2, ?_, columns_shown f3⟩
      rw [List.getElem?_append_right (by omega), show h.length + 2 + w - h.length = w + 2 by omega]
      show Y[w]? = _
      rw [e3, ← f2]
      rfl

/-- What is printed for an object. -/
theorem obj_printed {c : MargoSetup} {R : ObsKind → Rat → Rat → Prop} {g : Nat} {t : Int} {p o : ObservablesMSM} {rows : PyDict Txt Margo.Row} (hone : rnd 1 = 1)
    (hb : Margo.printBufferR rnd c.ctl o = .ok rows)
    (hr : List.Forall₂ (fun ks r => r.1 = margoName g ks.1 ks.2 p.atr.subset ∧ r.2.1 = t ∧
      List.Forall₂ (Option.Rel (R ks.1)) (margoCols c.settings g p ks.1 ks.2) (r.2.2.map Margo.Cell.val)) (margoPlan c.settings p) rows)
    {h : Heap} {b : Nat} (ho : ObjAt h b (.msm o)) : PrintedAs c (RowsAre R c.settings g t p) h (.ref b) := by
  obtain ⟨a', ho'⟩ := ho
  refine ⟨b, _, rfl, ho'.rv, fun G a hg hc => Ends.of_call 4 (fun n => ?_)⟩
  obtain ⟨a', ho⟩ := (kept_of_ext hg).obj (o := .msm o) ⟨a', ho'⟩
  obtain ⟨k, l, hc⟩ := IsMargo.at hc
  have := print_buffer_call hc ho hone n
  rw [hb] at this
  obtain ⟨d, Y, h1, h2⟩ := this
  exact ⟨_, _, h1, rows_shown hr h2⟩

theorem PrintedAs.imp {c : MargoSetup} {P Q : Heap → Val → Prop} (hpq : ∀ h v, P h v → Q h v) {h : Heap} {v : Val} (hp : PrintedAs c P h v) : PrintedAs c Q h v := by
  obtain ⟨b, fs, h1, h2, h3⟩ := hp
  refine ⟨b, fs, h1, h2, fun g a hg hc => ?_⟩
  obtain ⟨N, hN⟩ := h3 g a hg hc
  refine ⟨N, fun n hn => ?_⟩
  obtain ⟨x, t, e1, e2⟩ := hN n hn
  exact ⟨x, t, e1, hpq _ _ e2⟩

end

/-- The objects that are delivered are regular. -/
theorem regular_scaled {d : MsmData} (hw : d.WF) (hs : d.SignalsKnown) {m : Bytes} (hv : ValidFrame m) (hc : d.CarriedBy m) (hE : LengthEstimateRight d)
    (hd : decodeMsm17 false m = some (.inr d.scaledObj)) : Regular d.g d.scaledObj := by
  obtain ⟨p, h1, h2, -⟩ := C40_decoded d hw hs hE m hv hc
  rw [hd] at h1
  cases h1
  exact h2

theorem estimate_high {d : MsmData} (hk : 4 ≤ d.k) : LengthEstimateRight d := ⟨fun e => by omega, fun e => by omega⟩

/-- Rows of a delivered message, exact arithmetic. -/
theorem deliver_rows {all : Bool} {a K : Nat} {fed got : List Bytes} {dec : List (Bytes × Val)} {h : Heap} (hu : @InUse exactArith all false a K fed got dec h)
    {d : MsmData} (hw : d.WF) (hs : d.SignalsKnown) {m : Bytes} (hv : ValidFrame m) (hc : d.CarriedBy m) (hE : LengthEstimateRight d)
    (hd : decodeMsm17 false m = some (.inr d.scaledObj)) (c : MargoSetup) (hC : d.g = 1 → c.Tuned) :
    @Delivers exactArith a h m (@PrintedAs exactArith c (PrintsRows (fun _ x y => y = x) c d.g d.scaledObj)) := by
  let _ := exactArith
  obtain ⟨f, h1, h2, h3, h4⟩ := msm_family hw hc all
  have hR := regular_scaled hw hs hv hc hE hd
  refine deliver_obj hu h1 h2 h3 (o := .msm d.scaledObj) ?_ (fun g b ho => ?_)
  · show familyDecodeR id false f m = _
    rw [familyDecodeR_id]
    rcases h4 with rfl | rfl <;> (show (decodeMsm17 false m).map msmObj = _; rw [hd]; rfl)
  · refine PrintedAs.imp (fun g v hv => ⟨_, Margo.row_time c.ctl hw.g, hv⟩) (obj_printed (R := fun _ x y => y = x) rfl
      (Margo.printBuffer_ok c.ctl hR hC) ?_ ho)
    rw [Margo.mrows_plan, List.forall₂_map_right_iff]
    refine List.forall₂_same.2 (fun ks _ => ⟨rfl, rfl, ?_⟩)
    unfold margoCols
    rw [List.map_map, List.forall₂_map_left_iff, List.forall₂_map_right_iff]
    refine List.forall₂_same.2 (fun i _ => ?_)
    show Option.Rel _ _ (Margo.cellOf _ _ _ _ _ _).val
    rw [Margo.val_cellOf, setup_settings]
    cases margoCell c.settings d.g d.scaledObj ks.1 ks.2 (i + 1) with
    | none => exact .none
    | some x => exact .some rfl

/-- **C108** in exact arithmetic: of every valid frame with an MSM4 … MSM7 content whose signals have RINEX codes a decoder in use delivers an object for which the MARGO printer
returns exactly the rows of the content, with the GPS time of week. -/
theorem C108_rows {all : Bool} {a K : Nat} {fed got : List Bytes} {dec : List (Bytes × Val)} {h : Heap} (hu : @InUse exactArith all false a K fed got dec h)
    (d : MsmData) (hw : d.WF) (hk : 4 ≤ d.k) (hs : d.SignalsKnown) (m : Bytes) (hv : ValidFrame m) (hc : d.CarriedBy m) (c : MargoSetup) (hC : d.g = 1 → c.Tuned) :
    @Delivers exactArith a h m (@PrintedAs exactArith c (PrintsRows (fun _ x y => y = x) c d.g d.scaledObj)) :=
  deliver_rows hu hw hs hv hc (estimate_high hk) (C24_scaled d hw hk hs m hv hc) c hC

/-- **C108** in double precision: the same rows, times and missing columns; a number differs from the exact one by at most the tolerance of its kind. -/
theorem C108_double {rnd : Rat → Rat} (hr : Nearest rnd) {all : Bool} {a K : Nat} {fed got : List Bytes} {dec : List (Bytes × Val)} {h : Heap}
    (hu : @InUse (doubleArith hr) all false a K fed got dec h) (d : MsmData) (hw : d.WF) (hk : 4 ≤ d.k) (hs : d.SignalsKnown) (m : Bytes) (hv : ValidFrame m)
    (hc : d.CarriedBy m) (c : MargoSetup) (hC : d.g = 1 → c.Tuned) (hM : c.Moderate) :
    @Delivers (doubleArith hr) a h m (@PrintedAs (doubleArith hr) c (PrintsRows (fun k x y => |y - x| ≤ k.tolerance x) c d.g d.scaledObj)) := by
  let _ := doubleArith hr
  obtain ⟨f, h1, h2, h3, h4⟩ := msm_family hw hc all
  have hd := C24_scaled d hw hk hs m hv hc
  have hR := regular_scaled hw hs hv hc (estimate_high hk) hd
  obtain ⟨p', e1, e2⟩ := Msm.decoded_rel hr hd
  obtain ⟨rows, t, e3, e4, e5⟩ := Margo.rows_rel hr c.ctl hM e2 hR hC
  refine deliver_obj hu h1 h2 h3 (o := .msm p') ?_ (fun g b ho => ?_)
  · rcases h4 with rfl | rfl <;> (show (decodeMsm17R rnd false m).map msmObj = _; rw [e1]; rfl)
  · refine PrintedAs.imp (fun g v hv => ⟨t, e4, hv⟩) (obj_printed (R := fun k x y => |y - x| ≤ k.tolerance x) (hr.keeps ⟨1, 0, by norm_num, by norm_num, by norm_num⟩) e3
      (List.Forall₂.imp ?_ e5) ho)
    rintro ks r ⟨a1, a2, a3, -⟩
    exact ⟨a1, a2, a3⟩

section
variable [Rounding]

/-- **C108** `MargoCore(controls)` has the given controls. -/
theorem C108_core (c : MargoSetup) (h : Heap) (a k g : Nat) (ha : h[a]? = some (.inst n!"MargoCore" []))
    (hk : h[k]? = some (.inst n!"MargoControls" [(n!"half_cycle_enable", .bool c.half), (n!"lock_time_enable", .bool c.lock), (n!"gps_utc_shift", .int c.leap),
      (n!"glo_lit_tab", .ref g)])) (hg : h[g]? = some (.dict (c.table.map (fun p => (.int (p.1 : Nat), .int p.2))))) :
    Ends n!"MargoCore.__init__" [.ref a, .ref k] h (fun res => ∃ h', res = (.ok .none, h') ∧ IsMargo c h' a) := by
  have h1 : a ≠ k := by rintro rfl; rw [ha] at hk; cases hk
  have h2 : a ≠ g := by rintro rfl; rw [ha] at hg; cases hg
  refine Ends.of_call 2 (fun n => ⟨h.set a (.inst n!"MargoCore" [(n!"ctrl", .ref k)]), ?_, k, g, ?_, ?_, ?_⟩)
  · pycall Look.fn_MargoCore_P_init_P Src.fn_MargoCore_P_init_P
    have hne : ∀ s : St, cmpOp src .isNot (.ref k) .none s = (.ok (.bool true), s) := fun _ => rfl
    pyexec [ha, hne]
  · rw [List.getElem?_set_self (List.getElem?_eq_some_iff.1 ha).1]
  · rw [List.getElem?_set_ne h1, hk]
  · rw [List.getElem?_set_ne h2, hg]

/-- The channels of the GLONASS satellites 1 … 24. -/
def gloChannels : List Int := [1, -4, 5, 6, 1, -4, 5, 6, -2, -7, 0, -1, -2, -7, 0, -1, 4, -3, 3, 2, 4, -3, 3, 2]

/-- **C108** `MargoControls()`: half-cycle flags and lock times are off, GPS time is 18 s ahead of UTC, and the table of channels is the known one. -/
theorem C108_controls (h : Heap) (k : Nat) (hk : h[k]? = some (.inst n!"MargoControls" [])) :
    Ends n!"MargoControls.__init__" [.ref k] h (fun res => ∃ h', res = (.ok .none, h') ∧ ∃ g,
      h'[k]? = some (.inst n!"MargoControls" [(n!"half_cycle_enable", .bool false), (n!"lock_time_enable", .bool false), (n!"gps_utc_shift", .int 18),
        (n!"glo_lit_tab", .ref g)]) ∧
      h'[g]? = some (.dict (gloChannels.zipIdx.map (fun p => (.int (p.2 + 1 : Nat), .int p.1))))) := by
  have hl := (List.getElem?_eq_some_iff.1 hk).1
  have hs : ∀ o, (h.set k o)[k]? = some o := fun o => List.getElem?_set_self hl
  have ha : ∀ (o : Obj) (X : Heap), (h.set k o ++ X)[k]? = some o := fun o X => heap_old (hs o) X
  have he : ∀ (o o' : Obj) (X : Heap), (h.set k o ++ X).set k o' = h.set k o' ++ X := fun o o' X => by
    rw [List.set_append_left _ _ (by rw [List.length_set]; exact hl), List.set_set]
  refine Ends.of_call 2 (fun n => ⟨h.set k (.inst n!"MargoControls" [(n!"half_cycle_enable", .bool false), (n!"lock_time_enable", .bool false),
    (n!"gps_utc_shift", .int 18), (n!"glo_lit_tab", .ref h.length)]) ++ [.dict (gloChannels.zipIdx.map (fun p => (.int (p.2 + 1 : Nat), .int p.1)))], ?_,
    h.length, ha _ _, ?_⟩)
  · pycall Look.fn_MargoControls_P_init_P Src.fn_MargoControls_P_init_P
    pyexec [hk, hs, ha, he, List.set_set, List.length_set]
    rfl
  · rw [List.getElem?_append_right (by rw [List.length_set]), List.length_set, Nat.sub_self]
    rfl

end

/-! ## What is lost -/

/-- A cell of the rows. -/
theorem column_at {c : MargoSetup} {g : Nat} {t : Int} {p : ObservablesMSM} {h : Heap} {v : Val} (hr : RowsAre (fun _ x y => y = x) c.settings g t p h v)
    {k : ObsKind} (hk : k ∈ kindsOf c.settings) {n : String} (hn : n ∈ slotsOf p k) {s : Nat} (h1 : 1 ≤ s) (h2 : s ≤ margoSats g) {x : Rat}
    (hx : margoCell c.settings g p k n s = some x) : ColumnAt (margoName g k n p.atr.subset) s (.flt x) h v := by
  obtain ⟨b, d, e1, e2, e3⟩ := hr
  have hm : (k, n) ∈ margoPlan c.settings p := List.mem_flatMap.2 ⟨k, hk, List.mem_map.2 ⟨n, hn, rfl⟩⟩
  obtain ⟨i, hi⟩ := List.mem_iff_getElem?.1 hm
  obtain ⟨e, he⟩ : ∃ e, d[i]? = some e := by
    have := (List.getElem?_eq_some_iff.1 hi).1
    rw [e3.length_eq] at this
    exact ⟨_, List.getElem?_eq_getElem this⟩
  have hrow := List.forall₂_iff_get.1 e3
  obtain ⟨hlen, hrow⟩ := hrow
  obtain ⟨j1, j2⟩ := List.getElem?_eq_some_iff.1 hi
  obtain ⟨l1, l2⟩ := List.getElem?_eq_some_iff.1 he
  have := hrow i j1 l1
  rw [List.get_eq_getElem, List.get_eq_getElem, j2, l2] at this
  obtain ⟨f1, w, l, f2, f3, f4⟩ := this
  refine ⟨b, d, w, _, l, e1, e2, ?_, f3, ?_⟩
  · rw [← f1, ← f2]
    exact List.mem_of_getElem? he
  · obtain ⟨hlen, hcol⟩ := List.forall₂_iff_get.1 f4
    have q : s - 1 < (margoCols c.settings g p k n).length := by unfold margoCols; rw [List.length_map, List.length_range]; omega
    have := hcol (s - 1) q (hlen ▸ q)
    rw [List.get_eq_getElem, List.get_eq_getElem] at this
    have hg : (margoCols c.settings g p k n)[s - 1] = some x := by
      simp only [margoCols, List.getElem_map, List.getElem_range, Nat.sub_add_cancel h1, hx]
    rw [hg] at this
    obtain ⟨y, e, rfl⟩ := this
    rw [List.getElem?_eq_getElem (hlen ▸ q), e]

/-- All observables of a satellite that has a column. -/
theorem satellite_printed {c : MargoSetup} {g : Nat} {p : ObservablesMSM} {h : Heap} {v : Val} (hr : PrintsRows (fun _ x y => y = x) c g p h v)
    {s : Nat} (h1 : 1 ≤ s) (h2 : s ≤ margoSats g) : SatellitePrinted c g p s h v := by
  obtain ⟨t, -, hr⟩ := hr
  intro n x
  refine ⟨fun hv => ?_, fun hv ha => ?_, fun hv => ?_, fun hv => ?_⟩
  · exact column_at hr (by simp [kindsOf]) (Margo.slot_of_get2 hv) h1 h2 hv
  · refine column_at hr (k := .phase) (by simp [kindsOf]) (Margo.slot_of_get2 hv) h1 h2 ?_
    simp [margoCell, hv, ha]
  · refine column_at hr (k := .doppler) (by simp [kindsOf]) (Margo.slot_of_get2 hv) h1 h2 ?_
    simp [margoCell, hv]
  · exact column_at hr (by simp [kindsOf]) (Margo.slot_of_get2 hv) h1 h2 hv

/-- **C109** MSM4 … MSM7, the satellites that have a column. (Missing: the others, C109_violated.) -/
theorem C109_satellite_partial {all : Bool} {a K : Nat} {fed got : List Bytes} {dec : List (Bytes × Val)} {h : Heap}
    (hu : @InUse exactArith all false a K fed got dec h) (d : MsmData) (hw : d.WF) (hk : 4 ≤ d.k) (hs : d.SignalsKnown) (m : Bytes) (hv : ValidFrame m)
    (hc : d.CarriedBy m) (c : MargoSetup) (hC : d.g = 1 → c.Tuned) :
    @Delivers exactArith a h m (@PrintedAs exactArith c (fun h' v => ∀ s, 1 ≤ s → s ≤ margoSats d.g → SatellitePrinted c d.g d.scaledObj s h' v)) := by
  obtain ⟨b, h', e1, e2, e3⟩ := C108_rows hu d hw hk hs m hv hc c hC
  exact ⟨b, h', e1, e2, @PrintedAs.imp exactArith _ _ _ (fun _ _ hr s h1 h2 => satellite_printed hr h1 h2) _ _ e3⟩

/-- **C109** MSM1 … MSM3. (Missing: besides such satellites the contents whose length is estimated wrongly, and MSM3 with an invalid pseudorange: C100.) -/
theorem C109_msm_partial {all : Bool} {a K : Nat} {fed got : List Bytes} {dec : List (Bytes × Val)} {h : Heap}
    (hu : @InUse exactArith all false a K fed got dec h) (d : MsmData) (hw : d.WF) (hk : d.k ≤ 3) (hs : d.SignalsKnown)
    (h3 : d.k = 3 → ∀ x ∈ d.rngFine, x ≠ -(2 ^ 14)) (hE : LengthEstimateRight d) (m : Bytes) (hv : ValidFrame m)
    (hc : d.CarriedBy m) (c : MargoSetup) (hC : d.g = 1 → c.Tuned) :
    @Delivers exactArith a h m (@PrintedAs exactArith c (fun h' v => PrintsRows (fun _ x y => y = x) c d.g d.scaledObj h' v ∧
      ∀ s, 1 ≤ s → s ≤ margoSats d.g → SatellitePrinted c d.g d.scaledObj s h' v)) := by
  obtain ⟨b, h', e1, e2, e3⟩ := deliver_rows hu hw hs hv hc hE (C25_partial d hw hk hs h3 hE m hv hc) c hC
  exact ⟨b, h', e1, e2, @PrintedAs.imp exactArith _ _ _ (fun _ _ hr => ⟨hr, fun s h1 h2 => satellite_printed hr h1 h2⟩) _ _ e3⟩

/-- **C109** is violated: of a message whose satellites have no columns (BeiDou 38 … 63, Galileo 37 … 63 and others) not one number is printed. -/
theorem C109_violated {all : Bool} {a K : Nat} {fed got : List Bytes} {dec : List (Bytes × Val)} {h : Heap}
    (hu : @InUse exactArith all false a K fed got dec h) (d : MsmData) (hw : d.WF) (hk : 4 ≤ d.k) (hs : d.SignalsKnown) (m : Bytes) (hv : ValidFrame m)
    (hc : d.CarriedBy m) (c : MargoSetup) (hC : d.g = 1 → c.Tuned) (hn : ∀ s ∈ d.satList, margoSats d.g < s) :
    @Delivers exactArith a h m (@PrintedAs exactArith c NoNumbers) := by
  obtain ⟨b, h', e1, e2, e3⟩ := C108_rows hu d hw hk hs m hv hc c hC
  refine ⟨b, h', e1, e2, @PrintedAs.imp exactArith _ _ _ (fun H v hr => ?_) _ _ e3⟩
  obtain ⟨t, -, b, D, f1, f2, f3⟩ := hr
  refine ⟨b, D, f1, f2, fun e he => ?_⟩
  obtain ⟨ks, -, -, w, l, f4, f5, f6⟩ := Margo.forall₂_right f3 he
  refine ⟨w, _, l, f4, f5, fun x hx => ?_⟩
  obtain ⟨y, hy, f7⟩ := Margo.forall₂_right f6 hx
  unfold margoCols at hy
  obtain ⟨i, hi, rfl⟩ := List.mem_map.1 hy
  have hi := List.mem_range.1 hi
  have none_of : ∀ {α : Type} (val : Nat → Nat → Option α), get2 (d.table val) ks.2 (i + 1) = none := by
    intro α val
    cases hg : get2 (d.table val) ks.2 (i + 1) with
    | none => rfl
    | some v =>
      obtain ⟨t, -, -, q, -⟩ := (get2_table _ _ _ _ _).1 hg
      have := hn _ q
      omega
  have : margoCell c.settings d.g d.scaledObj ks.1 ks.2 (i + 1) = none := by
    have r1 : get2 d.scaledObj.obs.rng ks.2 (i + 1) = none := none_of d.rngVal
    have r2 : get2 d.scaledObj.obs.phs ks.2 (i + 1) = none := none_of d.phsVal
    have r3 : get2 d.scaledObj.obs.dpl ks.2 (i + 1) = none := none_of d.dplVal
    have r4 : get2 d.scaledObj.obs.c2n ks.2 (i + 1) = none := none_of d.c2nVal
    have r5 : get2 d.scaledObj.obs.ltm ks.2 (i + 1) = none := none_of d.ltmVal
    have r6 : get2 d.scaledObj.obs.hca ks.2 (i + 1) = none := none_of d.hcaVal
    unfold margoCell
    cases ks.1 <;> dsimp only <;> simp only [r1, r2, r3, r4, r5, r6] <;> simp
  rw [this] at f7
  exact f7

/-! ## The hypotheses are met -/

/-- A `MargoCore` in a heap that keeps the objects. -/
example [Rounding] (h : Heap) (c : MargoSetup) : ∃ g a, (∀ (b : Nat) (o : Obj), h[b]? = some o → g[b]? = some o) ∧ IsMargo c g a :=
  ⟨h ++ [.inst n!"MargoCore" [(n!"ctrl", .ref (h.length + 1))],
      .inst n!"MargoControls" [(n!"half_cycle_enable", .bool c.half), (n!"lock_time_enable", .bool c.lock), (n!"gps_utc_shift", .int c.leap),
        (n!"glo_lit_tab", .ref (h.length + 2))], .dict (c.table.map (fun p => (.int (p.1 : Nat), .int p.2)))], h.length,
    fun _ _ hb => heap_old hb _, h.length + 1, h.length + 2, append_getElem0 _ _, append_getElem _ _ _, append_getElem _ _ _⟩

/-- Controls with the frequency channels of printers/margo_printer.py:32-36, everything printed. -/
def exSetup : MargoSetup := ⟨true, true, 18, ({} : Margo.Controls).glo_lit_tab⟩

theorem exSetup_tuned : exSetup.Tuned := Margo.default_channels
theorem exSetup_moderate : exSetup.Moderate := Margo.channels_default

example : exSetup.table = gloChannels.zipIdx.map (fun p => (p.2 + 1, p.1)) := by decide +kernel

/-- The hypotheses of C108_controls and C108_core. -/
example [Rounding] : ([.inst n!"MargoControls" []] : Heap)[0]? = some (.inst n!"MargoControls" []) ∧
    ([.inst n!"MargoCore" [], .inst n!"MargoControls" [(n!"half_cycle_enable", .bool true), (n!"lock_time_enable", .bool true), (n!"gps_utc_shift", .int 18),
      (n!"glo_lit_tab", .ref 2)], .dict (exSetup.table.map (fun p => (.int (p.1 : Nat), .int p.2)))] : Heap)[0]? = some (.inst n!"MargoCore" []) := ⟨rfl, rfl⟩

/-- Decoders that have been used, and messages of Galileo and GLONASS; the GLONASS satellite 24 is on channel 2. Satellite 38 of BeiDou has a pseudorange, which is lost. -/
example (f x : Bytes) : ∃ a K ms v h, @InUse exactArith true false a K [f] ms [(x, v)] h ∧
    @Delivers exactArith a h exMsm5.toFrame (@PrintedAs exactArith exSetup (PrintsRows (fun _ x y => y = x) exSetup 2 exMsm5.scaledObj)) ∧
    @Delivers exactArith a h exGlo5.toFrame (@PrintedAs exactArith exSetup (PrintsRows (fun _ x y => y = x) exSetup 1 exGlo5.scaledObj)) ∧
    @Delivers exactArith a h exGlo5.toFrame (@PrintedAs exactArith exSetup (fun h' v => ∀ s, 1 ≤ s → s ≤ 24 → SatellitePrinted exSetup 1 exGlo5.scaledObj s h' v)) ∧
    @Delivers exactArith a h exBds38.toFrame (@PrintedAs exactArith exSetup NoNumbers) ∧
    get2 exGlo5.scaledObj.obs.dpl "1C" 24 ≠ none ∧ exSetup.settings.channel 24 = 2 ∧ ValidTime 18 1 exGlo5.scaledObj ∧
    (margoPlan exSetup.settings exGlo5.scaledObj).length = 12 ∧ get2 exBds38.scaledObj.obs.rng "2I" 38 ≠ none := by
  obtain ⟨a, K, ms, v, h, hu⟩ := @inUse_some exactArith true false f x
  have h1 : exMsm5.WF := by decide +kernel
  have h2 : exMsm5.InRange := by unfold MsmData.InRange; decide +kernel
  have h3 : exGlo5.WF := by decide +kernel
  have h4 : exGlo5.InRange := by unfold MsmData.InRange; decide +kernel
  have h5 : exBds38.WF := by decide +kernel
  have h6 : exBds38.InRange := by unfold MsmData.InRange; decide +kernel
  exact ⟨a, K, ms, v, h, hu,
    C108_rows hu exMsm5 h1 (by decide) (by decide +kernel) _ (msm_frame h1 h2).1 (msm_frame h1 h2).2 exSetup (fun _ => exSetup_tuned),
    C108_rows hu exGlo5 h3 (by decide) (by decide +kernel) _ (msm_frame h3 h4).1 (msm_frame h3 h4).2 exSetup (fun _ => exSetup_tuned),
    C109_satellite_partial hu exGlo5 h3 (by decide) (by decide +kernel) _ (msm_frame h3 h4).1 (msm_frame h3 h4).2 exSetup (fun _ => exSetup_tuned),
    C109_violated hu exBds38 h5 (by decide) (by decide +kernel) _ (msm_frame h5 h6).1 (msm_frame h5 h6).2 exSetup (fun _ => exSetup_tuned) (by decide +kernel),
    by decide +kernel, by decide +kernel, by unfold ValidTime; decide +kernel, by decide +kernel, by decide +kernel⟩

/-- Double precision. -/
example {rnd : Rat → Rat} (hr : Nearest rnd) : ∃ a h,
    @Delivers (doubleArith hr) a h exGlo5.toFrame (@PrintedAs (doubleArith hr) exSetup (PrintsRows (fun k x y => |y - x| ≤ k.tolerance x) exSetup 1 exGlo5.scaledObj)) := by
  obtain ⟨a, h, hu⟩ := @inUse_exists (doubleArith hr) true false
  have h3 : exGlo5.WF := by decide +kernel
  have h4 : exGlo5.InRange := by unfold MsmData.InRange; decide +kernel
  exact ⟨a, h, C108_double hr hu exGlo5 h3 (by decide) (by decide +kernel) _ (msm_frame h3 h4).1 (msm_frame h3 h4).2 exSetup (fun _ => exSetup_tuned) exSetup_moderate⟩

/-- MSM1 … MSM3. -/
example : exMsm3.WF ∧ exMsm3.k ≤ 3 ∧ exMsm3.SignalsKnown ∧ (∀ x ∈ exMsm3.rngFine, x ≠ -(2 ^ 14)) ∧ LengthEstimateRight exMsm3 ∧ exMsm3.satList = [24] ∧
    24 ≤ margoSats exMsm3.g ∧ get2 exMsm3.scaledObj.obs.rng "1C" 24 ≠ none := by decide +kernel

end Verif
