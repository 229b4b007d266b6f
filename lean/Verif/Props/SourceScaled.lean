import Verif.Props.SourceMsm
import Verif.Props.MsmScaled
import Verif.Refine.ScMsm17
import Verif.Spec.ScaledNames
import Verif.Lemmas.ExactArith

/-!
Claims about the text of `sub_decoders/RTCM_MSM.py`, output of values in physical units.
-/

namespace Verif
open Spec PyCore Refine Msm
open Rounding (rnd)

section
variable [Rounding]

/-! ## Reading the object -/

theorem get2_mapV {α : Type} (g : α → Val) (d : PyDict String (PyDict Nat α)) (n : String) (s : Nat) :
    get2 (mapV g d) n s = (get2 d n s).map g := by
  unfold get2
  rw [show (mapV g d).get? n = _ from mapD_get _ d n]
  cases d.get? n with
  | none => rfl
  | some e => exact mapD_get _ e s

theorem get?_mem {κ α : Type} [BEq κ] [LawfulBEq κ] {d : PyDict κ α} {k : κ} {v : α} (h : d.get? k = some v) : (k, v) ∈ d := by
  unfold PyDict.get? at h
  obtain ⟨l1, l2, rfl, -⟩ := List.lookup_eq_some_iff.1 h
  exact List.mem_append_right _ List.mem_cons_self

/-- Name of a table. -/
def Tab.name : Tab → String
  | .rng => "rng" | .phs => "phs" | .ltm => "ltm" | .hca => "hca" | .dpl => "dpl" | .c2n => "c2n"

theorem obsAt_entry {h : Heap} {r a : Nat} {o : ObservablesMSM} (ho : ObsAt h r a o) (t : Tab) (n : String) (s : Nat) :
    entryVal h (.ref r) (Tab.name t) n s = get2 (obsV o.obs t) n s := by
  obtain ⟨ad, h1, h2⟩ := ho.tab t
  have hp : pathVal h (.ref r) ["obs", Tab.name t] = some (.ref (r + t.pos)) := by
    refine path2 ho.rv rfl ho.obs ?_
    cases t <;> rfl
  unfold entryVal get2
  rw [hp, Option.bind_some]
  have e1 : itemVal h (.ref (r + t.pos)) (.str n) = ((obsV o.obs t).get? n).map (fun _ => .ref (ad n)) := by
    unfold itemVal
    simp only [h1]
    exact encD_get (f := fun s _ => .ref (ad s)) keyEnc_str _ n
  rw [e1]
  cases hg : (obsV o.obs t).get? n with
  | none => rfl
  | some row =>
    have h3 := h2 _ (get?_mem hg)
    simp only [Option.map_some, Option.bind_some]
    unfold itemVal
    simp only [h3]
    exact (encD_get (f := fun _ v => v) keyEnc_nat row s).trans (by cases row.get? s <;> rfl)

theorem signals_get (d : MsmData) (n : String) (x : Rat) :
    d.scaledHdr.signals.get? n = some x ↔ ∃ t ∈ d.sigList, d.sigName t = some n ∧ x = d.sigFreq n := by
  have hn : (d.scaledHdr.signals.map (·.1)).Nodup := by
    refine filterMap_keys_nodup _ (setNumbers_nodup _) _ (fun t => (d.sigName t).getD "") ?_ ?_
    · intro y _ p hp
      simp only [Option.map_eq_some_iff] at hp
      obtain ⟨m, hm, rfl⟩ := hp
      rw [hm]; rfl
    · intro y hy z hz p q hp hq h
      simp only [Option.map_eq_some_iff] at hp hq
      obtain ⟨m, hm, rfl⟩ := hp
      obtain ⟨m', hm', rfl⟩ := hq
      rw [hm, hm'] at h
      have h : m = m' := h
      subst h
      exact sigName_inj hm hm'
  unfold PyDict.get?
  rw [lookup_iff _ hn]
  unfold MsmData.scaledHdr
  simp only [List.mem_filterMap, Option.map_eq_some_iff]
  constructor
  · rintro ⟨t, ht, m, hm, he⟩
    cases he
    exact ⟨t, ht, hm, rfl⟩
  · rintro ⟨t, ht, hm, rfl⟩
    exact ⟨t, ht, n, hm, rfl⟩

theorem obsAt_head {h : Heap} {r a : Nat} {d : MsmData} {o : Obs} (ho : ObsAt h r a { d.scaledObj with obs := o }) : d.HeadShown h (.ref r) where
  attrs p hp := by
    obtain ⟨g, o2, -⟩ := ho.hdr
    simp only [MsmData.scaledAttrs, List.mem_cons, List.not_mem_nil, or_false] at hp
    rcases hp with rfl | rfl | rfl | rfl | rfl | rfl | rfl | rfl | rfl
    · exact path2 ho.rv rfl ho.atr rfl
    · exact path2 ho.rv rfl ho.atr rfl
    · exact path2 ho.rv rfl ho.atr rfl
    · exact path2 ho.rv rfl o2 rfl
    · exact path2 ho.rv rfl o2 rfl
    · exact path2 ho.rv rfl o2 rfl
    · exact path2 ho.rv rfl ho.aux rfl
    · exact path2 ho.rv rfl ho.aux rfl
    · exact path2 ho.rv rfl ho.aux rfl
  codes p hp := by
    have hc : ∀ (x : String) (b : Nat) (c s : Val), attrVal (.inst n!"_ObservablesAuxMSM" (oauxF (.int d.station) (.int d.multiple) (.int d.iods) (r + 10))) x = some (.ref b) →
        h[b]? = some (codeD c s) → (pathVal h (.ref r) ["aux", x]).bind (itemVal h · (.str "code")) = some c ∧
          (pathVal h (.ref r) ["aux", x]).bind (itemVal h · (.str "val")) = some s := by
      intro x b c s h1 h2
      rw [path2 (y := x) (v := .ref b) ho.rv rfl ho.aux h1]
      simp only [Option.bind_some, itemVal, h2, codeD]
      exact ⟨rfl, rfl⟩
    simp only [MsmData.codedAttrs, List.mem_cons, List.not_mem_nil, or_false] at hp
    rcases hp with rfl | rfl | rfl | rfl
    · exact hc "clk_steer" (r + 10 + 1) _ _ rfl ho.steer
    · exact hc "clk_ext" (r + 10 + 2) _ _ rfl ho.ext
    · exact hc "smth_indc" (r + 10 + 3) _ _ rfl ho.indc
    · exact hc "smth_intr" (r + 10 + 4) _ _ rfl ho.intr
  signals n w := by
    obtain ⟨g, o2, o3⟩ := ho.hdr
    rw [path2 (x := "hdr") (y := "signals") (v := .ref g) ho.rv rfl o2 rfl, Option.bind_some]
    unfold itemVal
    simp only [o3]
    rw [encD_get (f := fun _ v => .flt v) keyEnc_str]
    show Option.map _ (d.scaledHdr.signals.get? n) = some w ↔ _
    rw [Option.map_eq_some_iff]
    constructor
    · rintro ⟨x, hx, rfl⟩
      obtain ⟨t, ht, hn, rfl⟩ := (signals_get d n x).1 hx
      exact ⟨t, ht, hn, rfl⟩
    · rintro ⟨t, ht, hn, rfl⟩
      exact ⟨_, (signals_get d n _).2 ⟨t, ht, hn, rfl⟩, rfl⟩

theorem obsAt_table {h : Heap} {r a : Nat} {o : ObservablesMSM} (ho : ObsAt h r a o) (d : MsmData) {α : Type} (g : α → Val) (t : Tab)
    (val : Nat → Nat → Option α) (ht : obsV o.obs t = mapV g (d.table val)) :
    d.TableShown h (.ref r) (Tab.name t) (fun s t => (val s t).map g) := by
  intro n s w
  rw [obsAt_entry ho, ht, get2_mapV, Option.map_eq_some_iff]
  constructor
  · rintro ⟨x, hx, rfl⟩
    obtain ⟨t, ht, hn, hs, hx⟩ := (get2_table d val n s x).1 hx
    exact ⟨t, ht, hn, hs, by dsimp only; rw [hx]; rfl⟩
  · rintro ⟨t, ht, hn, hs, hx⟩
    dsimp only at hx
    obtain ⟨x, hx', rfl⟩ := Option.map_eq_some_iff.1 hx
    exact ⟨x, (get2_table d val n s x).2 ⟨t, ht, hn, hs, hx'⟩, rfl⟩

theorem obsAt_shown {h : Heap} {r a : Nat} {d : MsmData} (ho : ObsAt h r a d.scaledObj) : d.ScaledShown h (.ref r) where
  head := obsAt_head (o := d.scaledObs) ho
  rng := obsAt_table ho d .flt .rng _ rfl
  phs := obsAt_table ho d .flt .phs _ rfl
  dpl := obsAt_table ho d .flt .dpl _ rfl
  c2n := obsAt_table ho d .flt .c2n _ rfl
  ltm := obsAt_table ho d (fun x : Nat => .int x) .ltm _ rfl
  hca := obsAt_table ho d .bool .hca _ rfl

/-! ## The call -/

theorem le_sum {l : List Nat} {s : Nat} (h : s ∈ l) : s ≤ l.sum := List.single_le_sum (fun _ _ => Nat.zero_le _) s h

/-- What the text returns in scaled mode for the given bytes. -/
theorem msmSub_scaled {h : Heap} {a : Nat} {f : Ident} (ha : MsmSub h a false f) (buf : Bytes) :
    ∃ k, ∀ n, match decodeMsm17R rnd false buf with
    | some (.inr o) => ∃ t r b, callFn src (n + k) f [.ref a, .bytes buf] h = (.ok (.ref r), h ++ t) ∧ h.length ≤ r ∧ ObsAt (h ++ t) r b o
    | _ => ∃ t, callFn src (n + k) f [.ref a, .bytes buf] h = (.ok .none, h ++ t) := by
  obtain ⟨B, hB⟩ : ∃ B, ∀ m, Msm.decode buf = .ok m → ∀ s ∈ slotList m, s < B := by
    cases hv : Msm.decode buf with
    | error e => exact ⟨0, fun m hm => by cases hm⟩
    | ok m =>
      refine ⟨(slotList m).sum + 1, fun m' hm s hs => ?_⟩
      cases hm
      have := le_sum hs
      omega
  refine ⟨B + 7, fun n => ?_⟩
  have h1 := msm17_scaled_src (G := h) (buf := buf) (n + B) (fun m hm s hs => by have := hB m hm s hs; omega)
  have e : n + (B + 7) = (n + B + 6) + 1 := by omega
  rw [e]
  rcases hv : decodeMsm17R rnd false buf with _ | (b | o)
  · rw [hv] at h1
    obtain ⟨t, h1⟩ := h1
    exact ⟨t, msmSub_call ha buf _ h1⟩
  · rw [hv] at h1
    obtain ⟨t, h1⟩ := h1
    exact ⟨t, msmSub_call ha buf _ h1⟩
  · rw [hv] at h1
    obtain ⟨t, r, b, h1, h2, h3⟩ := h1
    exact ⟨t, r, b, msmSub_call ha buf _ h1, h2, h3⟩

theorem scaled_ends {h : Heap} {a : Nat} {f : Ident} (ha : MsmSub h a false f) {buf : Bytes} {o : ObservablesMSM}
    (hv : decodeMsm17R rnd false buf = some (.inr o)) {P : Heap → Val → Prop} (hP : ∀ h' r b, ObsAt h' r b o → P h' (.ref r)) :
    Ends f [.ref a, .bytes buf] h (fun res => ∃ r t, res = (.ok (.ref r), h ++ t) ∧ h.length ≤ r ∧ P (h ++ t) (.ref r)) := by
  obtain ⟨k, hk⟩ := msmSub_scaled ha buf
  refine Ends.of_call k (fun n => ?_)
  have := hk n
  rw [hv] at this
  obtain ⟨t, r, b, h1, h2, h3⟩ := this
  exact ⟨r, t, h1, h2, hP _ _ _ h3⟩

theorem scaled_ends_none {h : Heap} {a : Nat} {f : Ident} (ha : MsmSub h a false f) {buf : Bytes} (hv : decodeMsm17R rnd false buf = none) :
    Ends f [.ref a, .bytes buf] h (fun res => ∃ t, res = (.ok .none, h ++ t)) := by
  obtain ⟨k, hk⟩ := msmSub_scaled ha buf
  refine Ends.of_call k (fun n => ?_)
  have := hk n
  rw [hv] at this
  exact this

/-! ## Claims -/

/-- **C92** in scaled mode the text of `decode` of both sub-decoders never raises and changes no object that exists, whatever the bytes: it
returns `None` or a new object. -/
theorem C92_total (h : Heap) (a : Nat) (f : Ident) (ha : MsmSub h a false f) (buf : Bytes) :
    Ends f [.ref a, .bytes buf] h (fun res => ∃ t,
      res = (.ok .none, h ++ t) ∨ ∃ r, res = (.ok (.ref r), h ++ t) ∧ h.length ≤ r ∧ r < (h ++ t).length) := by
  obtain ⟨k, hk⟩ := msmSub_scaled ha buf
  refine Ends.of_call k (fun n => ?_)
  have := hk n
  rcases hv : decodeMsm17R rnd false buf with _ | (b | o)
  · rw [hv] at this
    obtain ⟨t, h1⟩ := this
    exact ⟨t, .inl h1⟩
  · rw [hv] at this
    obtain ⟨t, h1⟩ := this
    exact ⟨t, .inl h1⟩
  · rw [hv] at this
    obtain ⟨t, r, b, h1, h2, h3⟩ := this
    exact ⟨t, .inr ⟨r, h1, h2, (List.getElem?_eq_some_iff.1 h3.rv).1⟩⟩

end

section
attribute [local instance] exactArith

theorem exactMsm (buf : Bytes) : decodeMsm17R rnd false buf = decodeMsm17 false buf := by
  rw [show decodeMsm17R rnd = decodeMsm17 from decodeMsm17R_id]

/-- **C92** with exact arithmetic, from every frame that carries an MSM4 … MSM7 content whose signals have RINEX codes, the text builds a new object that shows the
header and the observables in physical units: exactly the valid ones, each under the code of its signal and the number of its satellite. -/
theorem C92_scaled (h : Heap) (a : Nat) (f : Ident) (ha : MsmSub h a false f) (d : MsmData) (hw : d.WF) (hk : 4 ≤ d.k) (hs : d.SignalsKnown)
    (buf : Bytes) (hv : ValidFrame buf) (hc : d.CarriedBy buf) :
    Ends f [.ref a, .bytes buf] h (fun res => ∃ r t,
      res = (.ok (.ref r), h ++ t) ∧ h.length ≤ r ∧ d.ScaledShown (h ++ t) (.ref r)) :=
  scaled_ends ha (P := fun h v => d.ScaledShown h v) ((exactMsm buf).trans (C24_scaled d hw hk hs buf hv hc)) (fun _ _ _ => obsAt_shown)

/-- **C92** a message with a signal that has no RINEX code is not delivered in scaled mode. -/
theorem C92_unknown (h : Heap) (a : Nat) (f : Ident) (ha : MsmSub h a false f) (d : MsmData) (hw : d.WF) (hk : 4 ≤ d.k)
    (hs : ∃ t ∈ d.sigList, d.sigName t = none) (buf : Bytes) (hv : ValidFrame buf) (hc : d.CarriedBy buf) :
    Ends f [.ref a, .bytes buf] h (fun res => ∃ t, res = (.ok .none, h ++ t)) :=
  scaled_ends_none ha ((exactMsm buf).trans ((C27_reject d hw ⟨by omega, by omega⟩ buf hv hc).2.2 hs))

/-- **C92** conversely, for every valid frame: if the text returns an object, then the frame carries a content whose signals have RINEX codes,
and the object shows its header; for MSM4 … MSM7 it shows its observables. -/
theorem C92_sound (h : Heap) (a : Nat) (f : Ident) (ha : MsmSub h a false f) (buf : Bytes) (hv : ValidFrame buf) :
    Ends f [.ref a, .bytes buf] h (fun res => (∃ t, res = (.ok .none, h ++ t)) ∨
      ∃ (d : MsmData) (r : Nat) (t : List Obj), d.WF ∧ d.CarriedBy buf ∧ d.SignalsKnown ∧ res = (.ok (.ref r), h ++ t) ∧ h.length ≤ r ∧
        d.HeadShown (h ++ t) (.ref r) ∧ (4 ≤ d.k → d.ScaledShown (h ++ t) (.ref r))) := by
  rcases (C24_C27_scaled_iff buf hv _).1 rfl with ⟨d, hw, hc, hE, hx⟩ | ⟨-, hx⟩
  · by_cases hs : d.SignalsKnown
    · rw [if_pos hs] at hx
      obtain ⟨N, hN⟩ := scaled_ends ha (P := fun h v => d.HeadShown h v ∧ (4 ≤ d.k → d.ScaledShown h v)) ((exactMsm buf).trans hx) (fun h' r b ho => by
        refine ⟨obsAt_head ho, fun hk => obsAt_shown (a := b) ?_⟩
        have : codeObs d = d.scaledObj.obs := by
          unfold codeObs
          rw [if_neg (by omega)]
          rfl
        rwa [this] at ho)
      refine ⟨N, fun n hn => ?_⟩
      obtain ⟨r, t, h1, h2, h3⟩ := hN n hn
      exact .inr ⟨d, r, t, hw, hc, hs, h1, h2, h3⟩
    · rw [if_neg hs] at hx
      obtain ⟨N, hN⟩ := scaled_ends_none ha ((exactMsm buf).trans hx)
      exact ⟨N, fun n hn => .inl (hN n hn)⟩
  · obtain ⟨N, hN⟩ := scaled_ends_none ha ((exactMsm buf).trans hx)
    exact ⟨N, fun n hn => .inl (hN n hn)⟩

/-- **C93** from a frame that carries an MSM1 … MSM3 content with known signals, the text builds an object that shows header and observables, if
the wrong length estimate does not matter and, for MSM3, no fine pseudorange is marked invalid. (Missing: the other contents, for which it is false,
C91_violated and C93_violated.) -/
theorem C93_scaled_partial (h : Heap) (a : Nat) (f : Ident) (ha : MsmSub h a false f) (d : MsmData) (hw : d.WF) (hk : d.k ≤ 3) (hs : d.SignalsKnown)
    (h3 : d.k = 3 → ∀ x ∈ d.rngFine, x ≠ -(2 ^ 14)) (hE : LengthEstimateRight d) (buf : Bytes) (hv : ValidFrame buf) (hc : d.CarriedBy buf) :
    Ends f [.ref a, .bytes buf] h (fun res => ∃ r t,
      res = (.ok (.ref r), h ++ t) ∧ h.length ≤ r ∧ d.ScaledShown (h ++ t) (.ref r)) :=
  scaled_ends ha (P := fun h v => d.ScaledShown h v) ((exactMsm buf).trans (C25_partial d hw hk hs h3 hE buf hv hc)) (fun _ _ _ => obsAt_shown)

/-- **C93** violated: in no MSM3 message does the text deliver a phase range for a cell of a satellite if an earlier cell of that satellite has its
pseudorange marked invalid. -/
theorem C93_violated (h : Heap) (a : Nat) (f : Ident) (ha : MsmSub h a false f) (d : MsmData) (hw : d.WF) (hk : d.k = 3) (hs : d.SignalsKnown)
    (hE : LengthEstimateRight d) (buf : Bytes) (hv : ValidFrame buf) (hc : d.CarriedBy buf) (s t u : Nat) (n : String) (hss : s ∈ d.satList)
    (ht : t ∈ d.sigList) (hu : u ∈ d.sigList) (hn : d.sigName t = some n) (hut : d.sigCol u ≤ d.sigCol t) (hbad : d.rngBad s u = true) :
    Ends f [.ref a, .bytes buf] h (fun res => ∃ r t,
      res = (.ok (.ref r), h ++ t) ∧ h.length ≤ r ∧ entryVal (h ++ t) (.ref r) "phs" n s = none) := by
  obtain ⟨o, h1, h2⟩ := C25_violated_general d hw hk hs hE buf hv hc s t u n hss ht hu hn hut hbad
  refine scaled_ends ha (P := fun h v => entryVal h v "phs" n s = none) ((exactMsm buf).trans h1) (fun h' r b ho => ?_)
  have := obsAt_entry ho .phs n s
  rw [show obsV o.obs .phs = mapV .flt o.obs.phs from rfl, get2_mapV, h2] at this
  exact this

example : exSticky.WF ∧ exSticky.k = 3 ∧ exSticky.SignalsKnown ∧ LengthEstimateRight exSticky ∧ 5 ∈ exSticky.satList ∧ 3 ∈ exSticky.sigList ∧
    2 ∈ exSticky.sigList ∧ exSticky.sigName 3 = some "1P" ∧ exSticky.sigCol 2 ≤ exSticky.sigCol 3 ∧ exSticky.rngBad 5 2 = true ∧
    exSticky.phsVal 5 3 ≠ none := by
  decide +kernel

/-- The text executed on a frame with the content `exMsm5` of C21: the pseudorange of satellite 3, which is marked invalid, is missing; the C/N
of satellite 11 and the frequency of signal 1C. -/
example : (let r := callFn src 30 n!"SubdecoderMSM4567.decode" [.ref 0, .bytes exMsm5.toFrame] (exMsmHeap false)
    match r.1 with
    | .ok v =>
      match entryVal r.2 v "rng" "1C" 3, entryVal r.2 v "c2n" "1C" 11, (pathVal r.2 v ["hdr", "signals"]).bind (itemVal r.2 · (.str "1C")) with
      | none, some (.flt x), some (.flt y) => exMsm5.c2nVal 11 2 == some x && y == 157542 / 100
      | _, _, _ => false
    | _ => false) = true := by decide +kernel

end

end Verif
