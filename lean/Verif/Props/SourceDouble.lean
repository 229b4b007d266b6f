import Verif.Props.SourceDeliver
import Verif.Spec.ScaledDoubles
import Verif.Props.Double

/-!
Claims about the text of the sub-decoders in the mode of scaled values, executed in double precision: the rounding of each operation is any function that rounds to a
nearest double.
-/

namespace Verif
open Spec PyCore Refine Msm Decoder
open Rounding (rnd)

/-! ## Reading the objects -/

section
variable [Rounding]

theorem near_table {h : Heap} {r a : Nat} {o : ObservablesMSM} (ho : ObsAt h r a o) (d : MsmData) (t : Tab) (b : Rat) (val : Nat → Nat → Option Rat)
    (u : PyDict String (PyDict Nat Rat)) (hu : obsV o.obs t = mapV .flt u) (hn : ∀ n s, Option.Rel (Within b) (get2 (d.table val) n s) (get2 u n s)) :
    d.TableNear h (.ref r) (Tab.name t) b val := by
  constructor
  · intro n s w hw
    rw [obsAt_entry ho, hu, get2_mapV, Option.map_eq_some_iff] at hw
    obtain ⟨y, hy, rfl⟩ := hw
    have h1 := hn n s
    rw [hy] at h1
    cases hx : get2 (d.table val) n s with
    | none => rw [hx] at h1; cases h1
    | some x =>
      rw [hx] at h1
      cases h1 with
      | some h1 =>
        obtain ⟨t, ht, e1, e2, e3⟩ := (get2_table d val n s x).1 hx
        exact ⟨t, ht, e1, e2, x, y, e3, rfl, h1⟩
  · intro t' ht n hnm s hs x hx
    have h1 := hn n s
    rw [(get2_table d val n s x).2 ⟨t', ht, hnm, hs, hx⟩] at h1
    rw [obsAt_entry ho, hu, get2_mapV]
    cases hy : get2 u n s with
    | none => rw [hy] at h1; cases h1
    | some y =>
      rw [hy] at h1
      cases h1 with
      | some h1 => exact ⟨y, rfl, h1⟩

theorem near_head {h : Heap} {r a : Nat} {d : MsmData} {o : Obs} {o' : ObservablesMSM} (ho : ObsAt h r a o')
    (hI : InDoubles { d.scaledObj with obs := o } o') : d.HeadNear h (.ref r) where
  attrs p hp := by
    obtain ⟨g, o2, -⟩ := ho.hdr
    have e0 : { o'.hdr with signals := d.scaledHdr.signals } = d.scaledHdr := hI.hdr
    have e1 : o'.hdr.sats = d.scaledHdr.sats := congrArg (fun x => x.sats) e0
    have e2 : o'.hdr.time = d.scaledHdr.time := congrArg (fun x => x.time) e0
    have e3 : o'.hdr.day = d.scaledHdr.day := congrArg (fun x => x.day) e0
    have ha := ho.atr
    have hx := ho.aux
    rw [hI.atr] at ha
    rw [hI.aux] at hx
    rw [e1, e2, e3] at o2
    simp only [MsmData.scaledAttrs, List.mem_cons, List.not_mem_nil, or_false] at hp
    rcases hp with rfl | rfl | rfl | rfl | rfl | rfl | rfl | rfl | rfl
    · exact path2 ho.rv rfl ha rfl
    · exact path2 ho.rv rfl ha rfl
    · exact path2 ho.rv rfl ha rfl
    · exact path2 ho.rv rfl o2 rfl
    · exact path2 ho.rv rfl o2 rfl
    · exact path2 ho.rv rfl o2 rfl
    · exact path2 ho.rv rfl hx rfl
    · exact path2 ho.rv rfl hx rfl
    · exact path2 ho.rv rfl hx rfl
  codes p hp := by
    have hx := ho.aux
    have hst := ho.steer
    have hex := ho.ext
    have hin := ho.indc
    have hit := ho.intr
    rw [hI.aux] at hx hst hex hin hit
    have hc : ∀ (x : String) (b : Nat) (c s : Val), attrVal (.inst n!"_ObservablesAuxMSM" (oauxF (.int d.station) (.int d.multiple) (.int d.iods) (r + 10))) x = some (.ref b) →
        h[b]? = some (codeD c s) → (pathVal h (.ref r) ["aux", x]).bind (itemVal h · (.str "code")) = some c ∧
          (pathVal h (.ref r) ["aux", x]).bind (itemVal h · (.str "val")) = some s := by
      intro x b c s h1 h2
      rw [path2 (y := x) (v := .ref b) ho.rv rfl hx h1]
      simp only [Option.bind_some, itemVal, h2, codeD]
      exact ⟨rfl, rfl⟩
    simp only [MsmData.codedAttrs, List.mem_cons, List.not_mem_nil, or_false] at hp
    rcases hp with rfl | rfl | rfl | rfl
    · exact hc "clk_steer" (r + 10 + 1) _ _ rfl hst
    · exact hc "clk_ext" (r + 10 + 2) _ _ rfl hex
    · exact hc "smth_indc" (r + 10 + 3) _ _ rfl hin
    · exact hc "smth_intr" (r + 10 + 4) _ _ rfl hit
  signals n w := by
    obtain ⟨g, o2, o3⟩ := ho.hdr
    rw [path2 (x := "hdr") (y := "signals") (v := .ref g) ho.rv rfl o2 rfl, Option.bind_some]
    unfold itemVal
    simp only [o3]
    rw [encD_get (f := fun _ v => .flt v) keyEnc_str]
    intro hw
    obtain ⟨y, hy, rfl⟩ := Option.map_eq_some_iff.1 hw
    have h1 : Option.Rel (Within (1 / 10 ^ 12)) (d.scaledHdr.signals.get? n) (o'.hdr.signals.get? n) := hI.freq n
    rw [hy] at h1
    cases hx : d.scaledHdr.signals.get? n with
    | none => rw [hx] at h1; cases h1
    | some x =>
      rw [hx] at h1
      obtain ⟨t, ht, e1, rfl⟩ := (signals_get d n x).1 hx
      cases h1 with
      | some h1 => exact ⟨⟨t, ht, e1⟩, y, rfl, h1⟩
  allSignals t ht n hn := by
    obtain ⟨g, o2, o3⟩ := ho.hdr
    rw [path2 (x := "hdr") (y := "signals") (v := .ref g) ho.rv rfl o2 rfl, Option.bind_some]
    unfold itemVal
    simp only [o3]
    rw [encD_get (f := fun _ v => .flt v) keyEnc_str]
    have h1 : Option.Rel (Within (1 / 10 ^ 12)) (d.scaledHdr.signals.get? n) (o'.hdr.signals.get? n) := hI.freq n
    rw [(signals_get d n _).2 ⟨t, ht, hn, rfl⟩] at h1
    cases hy : o'.hdr.signals.get? n with
    | none => rw [hy] at h1; cases h1
    | some y => exact ⟨.flt y, rfl⟩

theorem near_shown {h : Heap} {r a : Nat} {d : MsmData} {o' : ObservablesMSM} (ho : ObsAt h r a o') (hI : InDoubles d.scaledObj o') : d.ScaledNear h (.ref r) where
  head := near_head (o := d.scaledObs) ho hI
  rng := near_table ho d .rng _ _ _ rfl hI.rng
  phs := near_table ho d .phs _ _ _ rfl hI.phs
  dpl := near_table ho d .dpl _ _ _ rfl hI.dpl
  c2n := obsAt_table ho d .flt .c2n _ (congrArg (mapV .flt) hI.c2n)
  ltm := obsAt_table ho d (fun x : Nat => .int x) .ltm _ (congrArg (mapV (fun x : Nat => .int x)) hI.ltm)
  hca := obsAt_table ho d .bool .hca _ (congrArg (mapV .bool) hI.hca)

/-! ## Base station objects -/

/-- The object of a message in scaled mode, with coordinates, intervals and biases given by functions. -/
def objBy (fc ft fx : Int → Rat) (f : List UInt8 → String) : BaseMsg → Base.ScaledObj
  | .m1005 p => .rp { refScaled 1005 p with refPoint_X := fc p.x, refPoint_Y := fc p.y, refPoint_Z := fc p.z }
  | .m1006 p h => .rph ⟨{ refScaled 1006 p with refPoint_X := fc p.x, refPoint_Y := fc p.y, refPoint_Z := fc p.z }, fc h⟩
  | .m1013 id mjd sec leap ann => .sp
      { msgNum := 1013, bsID := id, modifiedJulianDay := mjd, daySec := sec, Nm := ann.length, leapSec := leap,
        shedule := ann.foldl (fun d a => d.set a.1 (decide (a.2.1 = 1), ft a.2.2)) [] }
  | .m1230 id al a b c d => .glbs
      { msgNum := 1230, bsID := id, isCorrected := al = 1, validity := gloTable a.isSome b.isSome c.isSome d.isSome,
        correction := gloTable (fx (a.getD 0)) (fx (b.getD 0)) (fx (c.getD 0)) (fx (d.getD 0)) }
  | m => scaledObj f m

theorem held_by {fc ft fx : Int → Rat} {f : List UInt8 → String} {m : BaseMsg} {h : Heap} {b : Nat} (hb : ScaledBase (objBy fc ft fx f m) h b) :
    IsOfClass h (.ref b) m.className ∧ (∀ p ∈ m.attrs flagVal (fun x => .flt (fc x)) (fun x => .str (quarterText x)) f, pathVal h (.ref b) [p.1] = some p.2) ∧
    m.Tables flagVal (fun x => .flt (ft x)) flagVal (fun x => .flt (fx x)) h (.ref b) := by
  cases m with
  | m1005 p => exact ⟨of_class hb (by dsimp only [BaseMsg.className]; rfl), attrs_held hb (by attr_by_attr), trivial⟩
  | m1006 p x => exact ⟨of_class hb (by dsimp only [BaseMsg.className]; rfl), attrs_held hb (by attr_by_attr), trivial⟩
  | m1007 id d u => exact ⟨of_class hb (by dsimp only [BaseMsg.className]; rfl), attrs_held hb (by attr_by_attr), trivial⟩
  | m1008 id d u s => exact ⟨of_class hb (by dsimp only [BaseMsg.className]; rfl), attrs_held hb (by attr_by_attr), trivial⟩
  | m1033 id d u s r f n => exact ⟨of_class hb (by dsimp only [BaseMsg.className]; rfl), attrs_held hb (by attr_by_attr), trivial⟩
  | m1013 id mjd sec leap ann =>
    obtain ⟨d, h1, h2, h3⟩ := hb
    refine ⟨of_class h1 (by dsimp only [BaseMsg.className]; rfl), attrs_held h1 (by attr_by_attr), ?_⟩
    intro k
    rw [entry_held h1 (by rfl) h2]
    unfold schedDict
    rw [encD_get _ keyEnc_int]
    dsimp only
    rw [foldl_set_get (fun a => (decide (a.2.1 = 1), ft a.2.2))]
    cases (ann.filter (fun x => x.1 == k)).getLast? <;> rfl
  | m1029 id mjd sec n t => exact ⟨of_class hb (by dsimp only [BaseMsg.className]; rfl), attrs_held hb (by attr_by_attr), trivial⟩
  | m1230 id al a' b' c' d' =>
    obtain ⟨d, e, h1, h2, h3, h4, h5, h6⟩ := hb
    refine ⟨of_class h1 (by dsimp only [BaseMsg.className]; rfl), attrs_held h1 (by attr_by_attr), ?_⟩
    intro k hk
    rw [entry_held h1 (by rfl) h2, entry_held h1 (by rfl) h3]
    have e1 : ∀ x : Option Int, some (Val.bool x.isSome) = some (flagVal (biasBit x)) := by intro x; cases x <;> rfl
    simp only [List.mem_cons, List.not_mem_nil, or_false] at hk
    rcases hk with rfl | rfl | rfl | rfl <;> exact ⟨e1 _, rfl⟩

end

theorem schedR (rnd : Rat → Rat) (ann : List (Int × Int × Int)) (d : PyDict Int (Int × Int)) :
    (ann.foldl (fun d a => d.set a.1 (a.2.1, a.2.2)) d).map (fun kv => (kv.1, ((1 == kv.2.1 : Bool), Base.mulR rnd kv.2.2 (1 / 10)))) =
    ann.foldl (fun (d : PyDict Int (Bool × Rat)) a => d.set a.1 (decide (a.2.1 = 1), Base.mulR rnd a.2.2 (1 / 10)))
      (d.map (fun kv => (kv.1, ((1 == kv.2.1 : Bool), Base.mulR rnd kv.2.2 (1 / 10))))) := by
  induction ann generalizing d with
  | nil => rfl
  | cons a ann ih =>
    rw [List.foldl_cons, ih, List.foldl_cons]
    congr 1
    have := dict_set_map (fun x : Int × Int => ((1 == x.1 : Bool), Base.mulR rnd x.2 (1 / 10))) d a.1 (a.2.1, a.2.2)
    rw [this]
    congr 2
    rw [Bool.eq_iff_iff]; simp; omega

theorem scaleR_carried (rnd : Rat → Rat) (f : List UInt8 → String) {m : BaseMsg} {buf : Bytes} (hc : m.CarriedBy buf)
    (h : ∀ t ∈ m.texts, t ≠ [] ∧ IsUtf8Of t (f t)) : Base.scaleR rnd (bareObj m) =
      .ok (objBy (fun x => Base.mulR rnd x (1 / 10000)) (fun x => Base.mulR rnd x (1 / 10)) (fun x => Base.mulR rnd x (2 / 10)) f m) := by
  have h0 := scale_ok f hc h
  have hrp : ∀ {n : Int} {p : RefPoint}, 0 ≤ p.quarter ∧ p.quarter < 4 → Base.scaleRPR rnd (refObj n p) = .ok { refScaled n p with
      refPoint_X := Base.mulR rnd p.x (1 / 10000), refPoint_Y := Base.mulR rnd p.y (1 / 10000), refPoint_Z := Base.mulR rnd p.z (1 / 10000) } := by
    intro n p hq
    have e : Base.qcIndex (refObj n p).QC_bias = .ok (quarterText p.quarter) := by
      show Base.qcIndex p.quarter = _
      have : p.quarter = 0 ∨ p.quarter = 1 ∨ p.quarter = 2 ∨ p.quarter = 3 := by omega
      rcases this with h | h | h | h <;> rw [h] <;> decide
    unfold Base.scaleRPR
    rw [e, ok_bind]
    rfl
  cases m with
  | m1005 p => simp only [bareObj, Base.scaleR, hrp (fits_quarter hc (.inl rfl)), ok_bind]; rfl
  | m1006 p x => simp only [bareObj, Base.scaleR, hrp (fits_quarter hc (.inr ⟨x, rfl⟩)), ok_bind]; rfl
  | m1007 id d u => exact h0
  | m1008 id d u s => exact h0
  | m1033 id d u s r fw n => exact h0
  | m1013 id mjd sec leap ann =>
    simp only [bareObj, Base.scaleR, Base.scaleSPR, objBy, pure_ok, schedR]
    rfl
  | m1029 id mjd sec n t => exact h0
  | m1230 id al a b c d =>
    simp only [bareObj, Base.scaleR, Base.scaleGLBSR, objBy, pure_ok, gloTable, List.map_cons, List.map_nil]
    have e : ∀ x : Option Int, (biasBit x == 1) = x.isSome := by intro x; cases x <;> rfl
    rw [e, e, e, e]
    rfl

theorem decodeR_carried (rnd : Rat → Rat) (f : List UInt8 → String) {m : BaseMsg} {buf : Bytes} (hc : m.CarriedBy buf) (hm : m.isEmptySchedule = false)
    (h : ∀ t ∈ m.texts, t ≠ [] ∧ IsUtf8Of t (f t)) : Base.decodeR rnd buf false =
      .ok (.inr (objBy (fun x => Base.mulR rnd x (1 / 10000)) (fun x => Base.mulR rnd x (1 / 10)) (fun x => Base.mulR rnd x (2 / 10)) f m)) := by
  have h3 := (C33_C37_bare_iff buf _).2 ⟨m, (@acceptable_iff exactArith m).2 hm, hc, rfl⟩
  unfold Base.decode at h3
  obtain ⟨o, h4, h5⟩ := bind_ok h3
  cases h5
  unfold Base.decodeR
  rw [Base.decodeBareR_of_ok rnd h4, ok_bind, if_neg (by decide), scaleR_carried rnd f hc h]
  · rfl
  · intro s hs
    cases m with
    | m1013 id mjd sec leap ann =>
      cases hs
      cases ann with
      | nil => cases hm
      | cons x ann => simp; omega
    | _ => cases hs

theorem base_refused_bare {buf : Bytes} (hl : 5 ≤ buf.length) (hno : ∀ m : BaseMsg, m.CarriedBy buf → m.isEmptySchedule = true) : Base.subDecode true buf = .ok none := by
  obtain ⟨n, hn⟩ := @baseNum_ok exactArith _ hl
  unfold Base.subDecode
  rw [hn, ok_bind]
  cases hd : Base.decode buf true with
  | error e => rfl
  | ok o =>
    obtain ⟨m, ha, hc⟩ : ∃ m, Acceptable m ∧ m.CarriedBy buf := by
      cases o with
      | inl o => obtain ⟨m, ha, hc, -⟩ := (C33_C37_bare_iff buf o).1 hd; exact ⟨m, ha, hc⟩
      | inr o =>
        unfold Base.decode at hd
        obtain ⟨b, -, h2⟩ := bind_ok hd
        cases h2
    rw [@acceptable_iff exactArith, hno m hc] at ha
    cases ha

theorem base_refused {buf : Bytes} (hl : 5 ≤ buf.length)
    (hno : ∀ m : BaseMsg, m.CarriedBy buf → m.isEmptySchedule = true ∨ ∃ t ∈ m.texts, t = [] ∨ ∀ s, t ≠ utf8 s) : Base.subDecode false buf = .ok none := by
  obtain ⟨n, hn⟩ := @baseNum_ok exactArith _ hl
  unfold Base.subDecode
  rw [hn, ok_bind]
  cases hd : Base.decode buf false with
  | error e => rfl
  | ok o =>
    obtain ⟨m, f, ha, hc, hf⟩ : ∃ (m : BaseMsg) (f : List UInt8 → String), Acceptable m ∧ m.CarriedBy buf ∧ ∀ t ∈ m.texts, t ≠ [] ∧ IsUtf8Of t (f t) := by
      cases o with
      | inr o => obtain ⟨m, f, ha, hc, hf, -⟩ := (C33_C37_scaled_iff buf o).1 hd; exact ⟨m, f, ha, hc, hf⟩
      | inl o =>
        unfold Base.decode at hd
        obtain ⟨b, -, h2⟩ := bind_ok hd
        rw [if_neg (by decide)] at h2
        obtain ⟨c, -, h3⟩ := bind_ok h2
        cases h3
    rcases hno m hc with he | ⟨t, ht, he | he⟩
    · rw [@acceptable_iff exactArith, he] at ha
      cases ha
    · exact absurd he (hf t ht).1
    · exact absurd ((isUtf8Of_iff _ _).1 (hf t ht).2) (he _)

/-! ## Claims: the sub-decoders -/

section
variable {r : Rat → Rat} (hr : Nearest r)
include hr

theorem double_msm {d : MsmData} {buf : Bytes} {o : Obs} (h : decodeMsm17 false buf = some (.inr { d.scaledObj with obs := o })) :
    ∃ o', decodeMsm17R r false buf = some (.inr o') ∧ InDoubles { d.scaledObj with obs := o } o' := by
  have key := decodeMsm17_rel hr false buf
  rw [h] at key
  cases hx : decodeMsm17R r false buf with
  | none => rw [hx] at key; cases key
  | some x =>
    rw [hx] at key
    cases key with
    | some hk =>
      cases x with
      | inl b => exact hk.elim
      | inr o' => exact ⟨o', rfl, inDoubles_of hr hk⟩

/-- **C101** from every frame that carries an MSM4 … MSM7 content whose signals have RINEX codes, the text, executed in double precision, builds a new object that shows the
header, and exactly the valid observables: ranges within 0.1 µm, rates within 1e-12 m/s, all others exactly. -/
theorem C101_scaled (h : Heap) (a : Nat) (f : Ident) (ha : MsmSub h a false f) (d : MsmData) (hw : d.WF) (hk : 4 ≤ d.k) (hs : d.SignalsKnown)
    (buf : Bytes) (hv : ValidFrame buf) (hc : d.CarriedBy buf) :
    @Ends (doubleArith hr) f [.ref a, .bytes buf] h (fun res => ∃ r t, res = (.ok (.ref r), h ++ t) ∧ h.length ≤ r ∧ d.ScaledNear (h ++ t) (.ref r)) := by
  let _ := doubleArith hr
  obtain ⟨o', h1, h2⟩ := double_msm hr (o := d.scaledObs) (C24_scaled d hw hk hs buf hv hc)
  exact scaled_ends ha (P := fun h v => d.ScaledNear h v) h1 (fun _ _ _ ho => near_shown ho h2)

/-- **C101** a message with a signal that has no RINEX code is not delivered. -/
theorem C101_unknown (h : Heap) (a : Nat) (f : Ident) (ha : MsmSub h a false f) (d : MsmData) (hw : d.WF) (hk : 4 ≤ d.k)
    (hs : ∃ t ∈ d.sigList, d.sigName t = none) (buf : Bytes) (hv : ValidFrame buf) (hc : d.CarriedBy buf) :
    @Ends (doubleArith hr) f [.ref a, .bytes buf] h (fun res => ∃ t, res = (.ok .none, h ++ t)) := by
  let _ := doubleArith hr
  exact scaled_ends_none ha ((C66_double hr buf).1.2 ((C27_reject d hw ⟨by omega, by omega⟩ buf hv hc).2.2 hs))

/-- **C101** conversely, for every valid frame: if the text returns an object, then the frame carries a content whose signals have RINEX codes, and the object shows its
header; for MSM4 … MSM7 it shows its observables. -/
theorem C101_sound (h : Heap) (a : Nat) (f : Ident) (ha : MsmSub h a false f) (buf : Bytes) (hv : ValidFrame buf) :
    @Ends (doubleArith hr) f [.ref a, .bytes buf] h (fun res => (∃ t, res = (.ok .none, h ++ t)) ∨
      ∃ (d : MsmData) (r : Nat) (t : List Obj), d.WF ∧ d.CarriedBy buf ∧ d.SignalsKnown ∧ res = (.ok (.ref r), h ++ t) ∧ h.length ≤ r ∧
        d.HeadNear (h ++ t) (.ref r) ∧ (4 ≤ d.k → d.ScaledNear (h ++ t) (.ref r))) := by
  let _ := doubleArith hr
  rcases (C24_C27_scaled_iff buf hv _).1 rfl with ⟨d, hw, hc, hE, hx⟩ | ⟨-, hx⟩
  · by_cases hs : d.SignalsKnown
    · rw [if_pos hs] at hx
      obtain ⟨o', h1, h2⟩ := double_msm hr hx
      obtain ⟨N, hN⟩ := scaled_ends ha (P := fun h v => d.HeadNear h v ∧ (4 ≤ d.k → d.ScaledNear h v)) h1 (fun h' r b ho => by
        refine ⟨near_head ho h2, fun hk => near_shown (a := b) ho ?_⟩
        have : codeObs d = d.scaledObj.obs := by
          unfold codeObs
          rw [if_neg (by omega)]
          rfl
        rwa [this] at h2)
      refine ⟨N, fun n hn => ?_⟩
      obtain ⟨r, t, h1, h2, h3⟩ := hN n hn
      exact .inr ⟨d, r, t, hw, hc, hs, h1, h2, h3⟩
    · rw [if_neg hs] at hx
      obtain ⟨N, hN⟩ := scaled_ends_none ha ((C66_double hr buf).1.2 hx)
      exact ⟨N, fun n hn => .inl (hN n hn)⟩
  · obtain ⟨N, hN⟩ := scaled_ends_none ha ((C66_double hr buf).1.2 hx)
    exact ⟨N, fun n hn => .inl (hN n hn)⟩

/-- **C105** from a frame that carries an MSM1 … MSM3 content with known signals, if the wrong length estimate does not matter and, for MSM3, no fine pseudorange is
marked invalid. (Missing: the other contents, for which it is false, C91_violated and C93_violated.) -/
theorem C105_text_partial (h : Heap) (a : Nat) (f : Ident) (ha : MsmSub h a false f) (d : MsmData) (hw : d.WF) (hk : d.k ≤ 3) (hs : d.SignalsKnown)
    (h3 : d.k = 3 → ∀ x ∈ d.rngFine, x ≠ -(2 ^ 14)) (hE : LengthEstimateRight d) (buf : Bytes) (hv : ValidFrame buf) (hc : d.CarriedBy buf) :
    @Ends (doubleArith hr) f [.ref a, .bytes buf] h (fun res => ∃ r t, res = (.ok (.ref r), h ++ t) ∧ h.length ≤ r ∧ d.ScaledNear (h ++ t) (.ref r)) := by
  let _ := doubleArith hr
  obtain ⟨o', h1, h2⟩ := double_msm hr (o := d.scaledObs) (C25_partial d hw hk hs h3 hE buf hv hc)
  exact scaled_ends ha (P := fun h v => d.ScaledNear h v) h1 (fun _ _ _ ho => near_shown ho h2)

theorem named_tgd (o : Eph.Obj Int) (hv : ∀ v ∈ valsOf o, |v| ≤ 2 ^ 40) {h : Heap} {v : Val}
    (h1 : ∀ x, pathVal h v [x] = attrVal (ephObj numVal (Nav.tgdR r o)) x)
    (h2 : (namesOf o).map (attrVal (ephObj numVal (Nav.tgdR r o))) = (valsOf (Nav.tgdR r o)).map (fun v => some (numVal v))) :
    NamedNear (namesOf o) ((valsOf (Eph.scale o)).map pyNumVal) h v := by
  have e0 : ∀ v, numVal v = pyNumVal v := by intro v; cases v <;> rfl
  have gen : ∀ (names : List String) (vals : List PyNum), names.map (attrVal (ephObj numVal (Nav.tgdR r o))) = vals.map (fun v => some (numVal v)) →
      NamedNear names (vals.map pyNumVal) h v := by
    intro names
    induction names with
    | nil =>
      intro vals hx
      cases vals with
      | nil => exact .nil
      | cons y vals => cases hx
    | cons n names ih =>
      intro vals hx
      cases vals with
      | nil => cases hx
      | cons y vals =>
        rw [List.map_cons, List.map_cons, List.cons.injEq] at hx
        exact .cons ⟨_, (h1 n).trans hx.1, .inl (e0 y)⟩ (ih vals hx.2)
  cases o with
  | bds e =>
    have key : ∀ n : Int, |n| ≤ 2 ^ 40 → Within (|(n : Rat) * (1 / 10 ^ 10)| / 2 ^ 51) (n * (1 / 10 ^ 10)) (Eph.mulR r n (1 / 10 ^ 10)) := by
      intro n hn
      refine ⟨hr.double _, le_trans (Nav.prod_within hr n hn _ le_rfl) (le_of_eq ?_)⟩
      rw [abs_mul, abs_of_pos (by norm_num : (0 : Rat) < 1 / 10 ^ 10)]
      unfold ulp
      norm_num
      ring
    have k1 := key e.TGD1 (hv _ (by simp [valsOf, vals1042]))
    have k2 := key e.TGD2 (hv _ (by simp [valsOf, vals1042]))
    unfold NamedNear
    simp only [h1]
    dsimp only [namesOf, names1042, valsOf, Eph.scale, vals1042, List.map_cons, List.map_nil]
    repeat' (first | exact List.Forall₂.nil | refine List.Forall₂.cons ?_ ?_)
    all_goals first
      | exact ⟨_, rfl, .inl rfl⟩
      | exact ⟨_, rfl, .inr ⟨.inl rfl, _, _, rfl, rfl, k1⟩⟩
      | exact ⟨_, rfl, .inr ⟨.inr rfl, _, _, rfl, rfl, k2⟩⟩
  | gps e => exact gen _ _ h2
  | glo e => exact gen _ _ h2
  | galf e => exact gen _ _ h2
  | gali e => exact gen _ _ h2
  | navic e => exact gen _ _ h2
  | qzs e => exact gen _ _ h2

/-- **C102** from a message that carries the fields of an ephemeris of a type other than QZSS the text, executed in double precision, builds a new object, and each named
attribute of it is the integer of its field times the resolution of the standard, exactly but for the two group delays of BeiDou. (Missing: QZSS, C88_qzss_violated.) -/
theorem C102_scaled_partial (h : Heap) (a : Nat) (ha : EphSub h a false) (buf : Bytes) (o : Eph.Obj Int) (hq : ∀ e, o ≠ .qzs e) (hn : NumOk o) (hc : CarriesEph buf o) :
    @Ends (doubleArith hr) n!"SubdecoderEph.decode" [.ref a, .bytes buf] h (fun res => ∃ b t, res = (.ok (.ref b), h ++ t) ∧ h.length ≤ b ∧
      NamedNear (namesOf o) ((scaledVals (tableOf o) (valsOf o)).map pyNumVal) (h ++ t) (.ref b)) := by
  let _ := doubleArith hr
  obtain ⟨fs, d, l, h1, hf1, hf2, h2⟩ := ha
  refine Ends.of_call 6 (fun n => ?_)
  have := ephSub_src n ⟨l, h2⟩ false h1 hf1 hf2 buf
  have hb := C30_roundtrip buf o hq hn hc
  have hv := Nav.small_eph hb
  have hd : Eph.subDecodeR r false buf = some (Nav.tgdR r o) := by
    have h5 : 5 ≤ buf.length := le_trans (by unfold minFrame; omega) hc.facts.1
    unfold Eph.subDecodeR Eph.decodeR
    rw [getMsgNum_eq buf h5, ok_bind, hb, ← Nav.scaleEph hr o hv]
    rfl
  rw [show Eph.subDecodeR (@rnd (doubleArith hr)) false buf = some (Nav.tgdR r o) from hd] at this
  obtain ⟨b, t, ht, hb', hx⟩ := this
  refine ⟨b, t, ht, hb', ?_⟩
  have e1 := ephAttrs_obj numVal (Nav.tgdR r o)
  have e2 : namesOf (Nav.tgdR r o) = namesOf o := by cases o <;> rfl
  have e3 := C32_scale o (fun e he => Run.tk_range (C30_range buf o hq hb) e he)
  rw [e2] at e1
  have e4 : ∀ x, pathVal (h ++ t) (.ref b) [x] = attrVal (ephObj numVal (Nav.tgdR r o)) x := by
    intro x
    change ((h ++ t)[b]?.bind (attrVal · x)).bind (fun v => some v) = _
    rw [hx, Option.bind_some]
    cases attrVal (ephObj numVal (Nav.tgdR r o)) x <;> rfl
  rw [← e3]
  exact named_tgd hr o hv e4 e1

/-- **C103** from a buffer that carries a base station message (of 1013 those that announce something) with texts that are neither empty nor anything else than UTF-8 the
text, executed in double precision, builds a new object that holds the message in physical units: coordinates and heights within 20 nm, intervals within 20 ps, biases within
20 pm, all else exactly. -/
theorem C103_carried (h : Heap) (a : Nat) (ha : BaseSub h a false) (buf : Bytes) (m : BaseMsg) (hm : m.isEmptySchedule = false) (hc : m.CarriedBy buf)
    (f : List UInt8 → String) (hf : ∀ t ∈ m.texts, t ≠ [] ∧ t = utf8 (f t)) :
    @Ends (doubleArith hr) n!"SubdecoderBaseStationData.decode" [.ref a, .bytes buf] h (fun res => ∃ b t, res = (.ok (.ref b), h ++ t) ∧ h.length ≤ b ∧
      m.HeldNear f (h ++ t) (.ref b)) := by
  let _ := doubleArith hr
  obtain ⟨fs, d, l, h1, hf1, hf2, h2⟩ := ha
  refine Ends.of_call 6 (fun n => ?_)
  have := baseSub_src n ⟨l, h2⟩ false h1 hf1 hf2 buf
  unfold Base.subDecodeR Base.getMsgNum at this
  rw [carried_num hc, decodeR_carried _ f hc hm (fun t ht => ⟨(hf t ht).1, (isUtf8Of_iff _ _).2 (hf t ht).2⟩)] at this
  obtain ⟨b, t, e, hb, hs⟩ := this
  refine ⟨b, t, e, hb, _, _, _, ?_, ?_, ?_, held_by hs⟩
  · intro x hx
    have := Nav.prod_double hr hx (by norm_num) (L := 1 / 10000) (by norm_num) (t := 2 / 10 ^ 8) (by unfold ulp; norm_num)
    rwa [mul_one_div] at this
  · intro x hx
    have := Nav.prod_double hr hx (by norm_num) (L := 1 / 10) (by norm_num) (t := 2 / 10 ^ 11) (by unfold ulp; norm_num)
    rwa [mul_one_div] at this
  · intro x hx
    have := Nav.prod_double hr hx (by norm_num) (L := 2 / 10) (by norm_num) (t := 2 / 10 ^ 11) (by unfold ulp; norm_num)
    rwa [show (x : Rat) * (2 / 10) = x / 5 by ring] at this

theorem double_none {bare : Bool} {buf : Bytes} (hl : 5 ≤ buf.length) (hs : buf.length < 2 ^ 40) (h : Base.subDecode bare buf = .ok none) :
    ∃ e, Base.decodeR r buf bare = .error e := by
  obtain ⟨n, hn⟩ := @baseNum_ok exactArith _ hl
  have h1 := C68_base hr buf hs
  cases bare with
  | true =>
    have h2 := h1.1
    rw [h] at h2
    unfold Base.subDecodeR at h2
    rw [hn, ok_bind] at h2
    cases hd : Base.decodeR r buf true with
    | error e => exact ⟨e, rfl⟩
    | ok o => rw [hd] at h2; cases h2
  | false =>
    have h2 := h1.2
    rw [h] at h2
    unfold Base.subDecodeR at h2
    rw [hn, ok_bind] at h2
    cases hd : Base.decodeR r buf false with
    | error e => exact ⟨e, rfl⟩
    | ok o => rw [hd] at h2; cases h2

theorem base_none {bare : Bool} {h : Heap} {a : Nat} (ha : BaseSub h a bare) {buf : Bytes} (hl : 5 ≤ buf.length) (hs : buf.length < 2 ^ 40)
    (hx : Base.subDecode bare buf = .ok none) :
    @Ends (doubleArith hr) n!"SubdecoderBaseStationData.decode" [.ref a, .bytes buf] h (fun res => ∃ t, res = (.ok .none, h ++ t)) := by
  let _ := doubleArith hr
  obtain ⟨fs, d, l, h1, hf1, hf2, h2⟩ := ha
  refine Ends.of_call 6 (fun n => ?_)
  have := baseSub_src n ⟨l, h2⟩ bare h1 hf1 hf2 buf
  obtain ⟨e, he⟩ := double_none hr hl hs hx
  rw [baseSub_ok hl, show Base.decodeR (@rnd (doubleArith hr)) buf bare = _ from he] at this
  exact this

/-- **C103** any other buffer of less than 2^40 bytes gives `None` in bare mode. -/
theorem C103_other_bare (h : Heap) (a : Nat) (ha : BaseSub h a true) (buf : Bytes) (hl : 5 ≤ buf.length) (hs : buf.length < 2 ^ 40)
    (hno : ∀ m : BaseMsg, m.CarriedBy buf → m.isEmptySchedule = true) :
    @Ends (doubleArith hr) n!"SubdecoderBaseStationData.decode" [.ref a, .bytes buf] h (fun res => ∃ t, res = (.ok .none, h ++ t)) :=
  base_none hr ha hl hs (base_refused_bare hl hno)

/-- **C103** any other buffer of less than 2^40 bytes gives `None` in scaled mode: those that carry no message, schedules that announce nothing, and messages with a text
that is empty or not UTF-8. -/
theorem C103_other (h : Heap) (a : Nat) (ha : BaseSub h a false) (buf : Bytes) (hl : 5 ≤ buf.length) (hs : buf.length < 2 ^ 40)
    (hno : ∀ m : BaseMsg, m.CarriedBy buf → m.isEmptySchedule = true ∨ ∃ t ∈ m.texts, t = [] ∨ ∀ s, t ≠ utf8 s) :
    @Ends (doubleArith hr) n!"SubdecoderBaseStationData.decode" [.ref a, .bytes buf] h (fun res => ∃ t, res = (.ok .none, h ++ t)) :=
  base_none hr ha hl hs (base_refused hl hno)

end

/-! ## Concrete cases, with the rounding of IEEE 754 -/

/-- The content `exMsm5` of C21: the rate of satellite 11 is delivered within 1e-12 m/s, the pseudorange of satellite 3, which is marked invalid, is not. -/
example : @Ends (doubleArith ieee_nearest) n!"SubdecoderMSM4567.decode" [.ref 0, .bytes exMsm5.toFrame] (exMsmHeap false) (fun res => ∃ r t,
    res = (.ok (.ref r), exMsmHeap false ++ t) ∧ (exMsmHeap false).length ≤ r ∧ exMsm5.ScaledNear (exMsmHeap false ++ t) (.ref r)) :=
  have h1 : exMsm5.WF := by decide +kernel
  have h2 : exMsm5.InRange := by unfold MsmData.InRange; decide +kernel
  C101_scaled _ _ 0 _ (.inl ⟨rfl, _, rfl, rfl⟩) exMsm5 h1 (by decide) (by decide +kernel) _ (msm_frame h1 h2).1 (msm_frame h1 h2).2
example : exMsm5.rngVal 3 2 = none ∧ 3 ∈ exMsm5.satList ∧ exMsm5.dplVal 11 2 = some (8191 + 16383 / 10000) := by decide +kernel

/-- A base station with extreme coordinates, an ephemeris of GLONASS. -/
example : @Ends (doubleArith ieee_nearest) n!"SubdecoderBaseStationData.decode" [.ref 1, .bytes (messageFrame exRefMsg.layout exRefMsg.vals)] (exBaseHeap false)
    (fun res => ∃ b t, res = (.ok (.ref b), exBaseHeap false ++ t) ∧ 2 ≤ b ∧ exRefMsg.HeldNear (fun _ => "") (exBaseHeap false ++ t) (.ref b)) :=
  C103_carried _ _ 1 ⟨_, 0, _, rfl, rfl, rfl, rfl⟩ _ exRefMsg rfl (C33_C37_encodable _ (by decide +kernel)).1 _ (by simp [BaseMsg.texts, exRefMsg])
example : @Ends (doubleArith ieee_nearest) n!"SubdecoderEph.decode" [.ref 1, .bytes ([0xD3, 0, 45] ++
      bytesOfBits 45 (encode (fieldsOf T1020) (vals1020 sampleGlo)) ++ [1, 2, 3])] (exEphHeap false)
    (fun res => ∃ b t, res = (.ok (.ref b), exEphHeap false ++ t) ∧ 2 ≤ b ∧
      NamedNear (namesOf (.glo sampleGlo)) ((scaledVals (tableOf (.glo sampleGlo)) (valsOf (.glo sampleGlo))).map pyNumVal) (exEphHeap false ++ t) (.ref b)) :=
  C102_scaled_partial _ _ 1 ⟨_, 0, _, rfl, rfl, rfl, rfl⟩ _ (.glo sampleGlo) (by intro e; simp) rfl
    ⟨[0xD3, 0, 45], _, [1, 2, 3], encode (fieldsOf T1020) (vals1020 sampleGlo), [], rfl, rfl, rfl, by decide +kernel, encodes_encode (by decide)⟩

end Verif
