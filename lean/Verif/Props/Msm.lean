import Verif.Lemmas.MsmIff
import Verif.Props.Eph

/-!
# C21–C23: bare decoding of multiple signal messages
-/

namespace Verif
open Spec Bits Msm

/-- The bit counts per satellite and per cell of the RTCM standard. -/
def satBits : Nat → Nat
  | 1 => 10 | 2 => 10 | 3 => 10 | 4 => 18 | 5 => 36 | 6 => 18 | 7 => 36 | _ => 0
def cellBits : Nat → Nat
  | 1 => 15 | 2 => 27 | 3 => 42 | 4 => 48 | 5 => 63 | 6 => 65 | 7 => 80 | _ => 0

theorem satBits_eq {k : Nat} (h : 1 ≤ k ∧ k ≤ 7) : satWidth k = satBits k ∧ cellWidth k = cellBits k := by
  have : k = 1 ∨ k = 2 ∨ k = 3 ∨ k = 4 ∨ k = 5 ∨ k = 6 ∨ k = 7 := by omega
  rcases this with rfl | rfl | rfl | rfl | rfl | rfl | rfl <;> decide

/-- Payload length in bytes of a content. -/
def msmBytes (d : MsmData) (cell : Nat) : Nat :=
  (169 + d.nsat * d.nsig + satBits d.k * d.nsat + cell * d.ncell + 7) / 8

/-- The payload of a content has `msmBytes` bytes, which is the length its layout asks for. -/
theorem msmBytes_layout {d : MsmData} (h : d.WF) : msmBytes d (cellBits d.k) = (layoutWidth d.layout + 7) / 8 := by
  rw [wf_layoutWidth h, (satBits_eq h.k).1, (satBits_eq h.k).2]; rfl

/-- The length estimate of the decoder agrees with the actual length: always for MSM1 and MSM4 … MSM7; for MSM2 (MSM3) the
decoder counts 28 (43) bits per cell instead of 27 (42), which must be hidden by the rounding to bytes. -/
def LengthEstimateRight (d : MsmData) : Prop :=
  (d.k = 2 → msmBytes d 28 = msmBytes d 27) ∧ (d.k = 3 → msmBytes d 43 = msmBytes d 42)

instance (d : MsmData) : Decidable (LengthEstimateRight d) := by unfold LengthEstimateRight; infer_instance

theorem est_iff {d : MsmData} (h : d.WF) {buf : Bytes} (hc : d.CarriedBy buf) :
    EstOk d.k buf ↔ LengthEstimateRight d := by
  obtain ⟨hG, hd⟩ := carried_good h hc
  have hl := hG.len
  have hN : nsatAt (bitsOf buf) = d.nsat := by rw [hd]; rfl
  have hM : nsigAt (bitsOf buf) = d.nsig := by rw [hd]; rfl
  have hC : ncellAt (bitsOf buf) = d.ncell := by rw [hd]; rfl
  unfold EstOk LengthEstimateRight msmBytes
  rw [hN, hM, hC, (satBits_eq h.k).1, (satBits_eq h.k).2] at hl
  rw [hN, hM, hC]
  rw [(satBits_eq h.k).1, hl]
  have : d.k = 1 ∨ d.k = 2 ∨ d.k = 3 ∨ d.k = 4 ∨ d.k = 5 ∨ d.k = 6 ∨ d.k = 7 := by have := h.k; omega
  rcases this with e | e | e | e | e | e | e <;> rw [e] <;>
    simp (decide := true) [estWidth, satBits, cellBits, cellWidth, msmWidths] <;> omega

/-- **C21, C22** Complete characterisation on valid frames: bare decoding yields exactly the contents carried by the frame, and it
yields them if and only if the length estimate is right. -/
theorem C21_C22_bare_iff (buf : Bytes) (hv : ValidFrame buf) (o : Bare) :
    Msm.decode buf = .ok o ↔ ∃ d : MsmData, d.WF ∧ d.CarriedBy buf ∧ LengthEstimateRight d ∧ o = d.bareObj := by
  constructor
  · intro h
    rcases decode_inv h with ⟨g, k, hG, hL, hE, rfl⟩ | ⟨_, h2, h3⟩
    · have hc := good_carried hG
      have hw := dataAt_wf hG
      exact ⟨_, hw, hc, (est_iff hw hc).1 hE, rfl⟩
    · rw [lenField_valid hv, h2] at h3
      omega
  · rintro ⟨d, hw, hc, hE, rfl⟩
    obtain ⟨hG, hd⟩ := carried_good hw hc
    rw [decode_ok hG (lenOk_valid hv hG) ((est_iff hw hc).2 hE), ← hd]

/-- **C21, C22** For every byte string, valid frame or not: an object with satellites is the content of the byte string. -/
theorem C21_C22_sound (buf : Bytes) (o : Bare) (h : Msm.decode buf = .ok o) (hs : o.hdr.sat_mask ≠ 0) :
    ∃ d : MsmData, d.WF ∧ d.CarriedBy buf ∧ o = d.bareObj := by
  rcases decode_inv h with ⟨g, k, hG, hL, hE, rfl⟩ | ⟨h1, h2, h3⟩
  · exact ⟨_, dataAt_wf hG, good_carried hG, rfl⟩
  · exfalso
    unfold Msm.decode at h
    dsimp only at h
    split at h
    · obtain ⟨⟨hdr, off⟩, h4, h⟩ := bind_ok h
      dsimp only at h
      split at h
      · rename_i h0; cases h; exact hs h0
      · rename_i h0
        have := (extractHdr_inv 0 0 h4 h0).2.2.1
        omega
    · split at h
      · obtain ⟨⟨hdr, off⟩, h4, h⟩ := bind_ok h
        dsimp only at h
        split at h
        · rename_i h0; cases h; exact hs h0
        · rename_i h0
          have := (extractHdr_inv 0 0 h4 h0).2.2.1
          omega
      · cases h

theorem msm_width {d : MsmData} (h : d.WF) : layoutWidth d.layout ≤ 8184 := by
  rw [wf_layoutWidth h]
  have h1 := h.size
  have hC : d.ncell ≤ d.nsat * d.nsig := by rw [← h.cells]; exact List.count_le_length
  have hN : d.nsat ≤ d.nsat * d.nsig := by
    have : 0 < d.nsat * d.nsig := by have := h.nonempty; omega
    exact Nat.le_mul_of_pos_right _ (Nat.pos_of_mul_pos_left this)
  have : d.k = 1 ∨ d.k = 2 ∨ d.k = 3 ∨ d.k = 4 ∨ d.k = 5 ∨ d.k = 6 ∨ d.k = 7 := by have := h.k; omega
  rcases this with e | e | e | e | e | e | e <;> rw [e] <;> simp only [satWidth, cellWidth, msmWidths] <;> omega

/-- Every content in range fits into a frame. -/
theorem msm_frame {d : MsmData} (h : d.WF) (hr : d.InRange) : ValidFrame d.toFrame ∧ d.CarriedBy d.toFrame :=
  ⟨validFrame_messageFrame hr (msm_width h), carries_messageFrame hr⟩

/-- **C21** Encoding any well-formed MSM4 … MSM7 content in range and decoding the frame in bare mode returns the content. -/
theorem C21_roundtrip (d : MsmData) (h : d.WF) (hr : d.InRange) (hk : 4 ≤ d.k) :
    Msm.decode d.toFrame = .ok d.bareObj ∧ decodeMsm17 true d.toFrame = some (.inl d.bareObj) := by
  have e : Msm.decode d.toFrame = .ok d.bareObj :=
    (C21_C22_bare_iff _ (msm_frame h hr).1 _).2 ⟨d, h, (msm_frame h hr).2, ⟨by omega, by omega⟩, rfl⟩
  refine ⟨e, ?_⟩
  unfold decodeMsm17
  rw [e]; rfl

/-- **C21** Every frame that carries an MSM4 … MSM7 content decodes to that content, whatever its reserved and padding bits. -/
theorem C21_carried (d : MsmData) (h : d.WF) (hk : 4 ≤ d.k) (buf : Bytes) (hv : ValidFrame buf) (hc : d.CarriedBy buf) :
    Msm.decode buf = .ok d.bareObj :=
  (C21_C22_bare_iff _ hv _).2 ⟨d, h, hc, ⟨by omega, by omega⟩, rfl⟩

/-- The bare object determines the content. -/
theorem C21_injective (d d' : MsmData) (h : d.WF) (h' : d'.WF) (e : d.bareObj = d'.bareObj) : d = d' := by
  have hcol : ∀ {α : Type} [OfNat α 0] {w n n' : Nat} {l l' : List α}, l.length = MsmData.colLen w n →
      l'.length = MsmData.colLen w n' → colObj w l = colObj w l' → l = l' := by
    intro α _ w n n' l l' h1 h2 h3
    unfold colObj MsmData.colLen at *
    by_cases hw : w = 0
    · rw [if_pos hw] at h1 h2
      rw [List.length_eq_zero_iff] at h1 h2
      rw [h1, h2]
    · rwa [if_neg hw, if_neg hw] at h3
  have hmask : ∀ {a b : List Bool}, a.length = b.length → maskInt a = maskInt b → a = b := by
    intro a b h1 h2
    rw [maskInt_eq, maskInt_eq] at h2
    have := natOfBits_inj (by simpa using h1) h2
    exact List.reverse_injective this
  have hatr : d.attrObj = d'.attrObj := by
    have := congrArg Bare.atr e
    unfold MsmData.bareObj at this
    dsimp only at this
    split at this <;> split at this <;> exact this
  have hhdr : d.hdrObj = d'.hdrObj := by
    have := congrArg Bare.hdr e
    unfold MsmData.bareObj at this
    dsimp only at this
    split at this <;> split at this <;> exact this
  have hn : d.number = d'.number := by
    have := congrArg Attributes.msg_number hatr
    exact Option.some.inj this
  have hgk : d.g = d'.g ∧ d.k = d'.k := by
    unfold MsmData.number at hn
    have := h.k; have := h'.k
    omega
  have hk := hgk.2
  simp only [MsmData.hdrObj, BareHdr.mk.injEq] at hhdr
  obtain ⟨f1, f2, f3, f4, f5, f6, f7, f8, f9, f10, f11⟩ := hhdr
  have hs := hmask (by rw [h.sats, h'.sats]) f9
  have hg := hmask (by rw [h.sigs, h'.sigs]) f10
  have hc := hmask (by rw [h.cells, h'.cells]; unfold MsmData.nsat MsmData.nsig; rw [hs, hg]) f11
  obtain ⟨dg, dk, a1, a2, a3, a4, a5, a6, a7, a8, ds, dsg, dc, e1, e2, e3, e4, e5, e6, e7, e8, e9, e10⟩ := d
  obtain ⟨dg', dk', a1', a2', a3', a4', a5', a6', a7', a8', ds', dsg', dc', e1', e2', e3', e4', e5', e6', e7', e8', e9',
    e10'⟩ := d'
  simp only at hk hs hg hc f1 f2 f3 f4 f5 f6 f7 f8
  have hg' : dg = dg' := hgk.1
  subst hk hs hg hc f1 f2 f3 f4 f5 f6 f7 f8 hg'
  have q1 : e3 = e3' ∧ e5 = e5' ∧ e6 = e6' ∧ e7 = e7' ∧ e8 = e8' := by
    unfold MsmData.bareObj at e
    dsimp only at e
    split at e
    · simp only [Bare.m123.injEq, Bare123.mk.injEq, BareSat123.mk.injEq, BareSgn123.mk.injEq, true_and] at e
      obtain ⟨-, -, p1, p2, p3, p4, p5⟩ := e
      exact ⟨hcol h.rngRough h'.rngRough p1, hcol h.rngFine h'.rngFine p2, hcol h.phsFine h'.phsFine p3,
        hcol h.lock h'.lock p4, hcol h.half h'.half p5⟩
    · simp only [Bare.m4567.injEq, Bare4567.mk.injEq, BareSat4567.mk.injEq, BareSgn4567.mk.injEq, true_and] at e
      obtain ⟨-, -, ⟨-, -, p1, -⟩, p2, p3, p4, p5, -, -⟩ := e
      exact ⟨hcol h.rngRough h'.rngRough p1, hcol h.rngFine h'.rngFine p2, hcol h.phsFine h'.phsFine p3,
        hcol h.lock h'.lock p4, hcol h.half h'.half p5⟩
  have q2 : e1 = e1' ∧ e2 = e2' ∧ e4 = e4' ∧ e9 = e9' ∧ e10 = e10' := by
    unfold MsmData.bareObj at e
    dsimp only at e
    split at e
    · rename_i hk3
      have hk3' : dk = 1 ∨ dk = 2 ∨ dk = 3 := by have := h.k; simp only at this hk3; omega
      have z : ∀ {α : Type} {n : Nat} {l : List α}, l.length = MsmData.colLen 0 n → l = [] := by
        intro α n l hl
        exact List.length_eq_zero_iff.1 hl
      have y1 := h.rngMs; have y2 := h.extInfo; have y3 := h.rateRough; have y4 := h.cnr; have y5 := h.rateFine
      have y1' := h'.rngMs; have y2' := h'.extInfo; have y3' := h'.rateRough; have y4' := h'.cnr; have y5' := h'.rateFine
      rcases hk3' with rfl | rfl | rfl <;>
        exact ⟨(z y1).trans (z y1').symm, (z y2).trans (z y2').symm, (z y3).trans (z y3').symm, (z y4).trans (z y4').symm,
          (z y5).trans (z y5').symm⟩
    · simp only [Bare.m4567.injEq, Bare4567.mk.injEq, BareSat4567.mk.injEq, BareSgn4567.mk.injEq, true_and] at e
      obtain ⟨-, -, ⟨p1, p2, -, p3⟩, -, -, -, -, p4, p5⟩ := e
      exact ⟨hcol h.rngMs h'.rngMs p1, hcol h.extInfo h'.extInfo p2, hcol h.rateRough h'.rateRough p3,
        hcol h.cnr h'.cnr p4, hcol h.rateFine h'.rateFine p5⟩
  obtain ⟨rfl, rfl, rfl, rfl, rfl⟩ := q1
  obtain ⟨rfl, rfl, rfl, rfl, rfl⟩ := q2
  rfl

/-- A mask with the given entries set. -/
def maskOf (n : Nat) (l : List Nat) : List Bool := (List.range n).map (fun i => l.contains i)

/-- MSM5 of Galileo: satellites 3 and 11, signals 2 and 15, three cells. -/
def exMsm5 : MsmData :=
  { g := 2, k := 5, station := 4095, time := 604799999, multiple := 1, iods := 5, steering := 2, external := 1, smoothing := 1,
    interval := 7, sats := maskOf 64 [2, 10], sigs := maskOf 32 [1, 14], cells := [true, false, true, true],
    rngMs := [78, 255], extInfo := [0, 15], rngRough := [1023, 0], rateRough := [-8191, 8191],
    rngFine := [-16384, 16383, 0], phsFine := [-2097152, 2097151, 5], lock := [15, 0, 7], half := [0, 1, 0],
    cnr := [63, 0, 44], rateFine := [-16384, 16383, -1] }

instance (d : MsmData) : Decidable d.WF :=
  decidable_of_iff (d.g < 7 ∧ (1 ≤ d.k ∧ d.k ≤ 7) ∧ d.sats.length = 64 ∧ d.sigs.length = 32 ∧
      d.cells.length = d.nsat * d.nsig ∧ d.nsat * d.nsig ≤ 64 ∧ 0 < d.ncell ∧
      d.rngMs.length = MsmData.colLen (msmWidths d.k).ms d.nsat ∧
      d.extInfo.length = MsmData.colLen (msmWidths d.k).ext d.nsat ∧
      d.rngRough.length = MsmData.colLen (msmWidths d.k).rough d.nsat ∧
      d.rateRough.length = MsmData.colLen (msmWidths d.k).rate d.nsat ∧
      d.rngFine.length = MsmData.colLen (msmWidths d.k).fine d.ncell ∧
      d.phsFine.length = MsmData.colLen (msmWidths d.k).phs d.ncell ∧
      d.lock.length = MsmData.colLen (msmWidths d.k).lock d.ncell ∧
      d.half.length = MsmData.colLen (msmWidths d.k).half d.ncell ∧
      d.cnr.length = MsmData.colLen (msmWidths d.k).cnr d.ncell ∧
      d.rateFine.length = MsmData.colLen (msmWidths d.k).fineRate d.ncell)
    ⟨fun ⟨a1, a2, a3, a4, a5, a6, a7, a8, a9, a10, a11, a12, a13, a14, a15, a16, a17⟩ =>
      ⟨a1, a2, a3, a4, a5, a6, a7, a8, a9, a10, a11, a12, a13, a14, a15, a16, a17⟩,
     fun ⟨a1, a2, a3, a4, a5, a6, a7, a8, a9, a10, a11, a12, a13, a14, a15, a16, a17⟩ =>
      ⟨a1, a2, a3, a4, a5, a6, a7, a8, a9, a10, a11, a12, a13, a14, a15, a16, a17⟩⟩

example : exMsm5.WF ∧ exMsm5.InRange ∧ 4 ≤ exMsm5.k ∧ exMsm5.number = 1095 := by
  refine ⟨by decide +kernel, ?_, by decide, rfl⟩
  unfold MsmData.InRange
  decide +kernel

/-! ## C22 -/

/-- **C22, partial**: MSM1 contents are decoded exactly; MSM2 and MSM3 contents are decoded exactly if the wrong length estimate
(28 and 43 bits per cell instead of 27 and 42) is hidden by the rounding to bytes. What is missing are the other MSM2 and MSM3
contents: see `C22_violated`. -/
theorem C22_partial (d : MsmData) (h : d.WF) (hk : d.k ≤ 3) (hE : d.k = 1 ∨ LengthEstimateRight d) :
    (d.InRange → Msm.decode d.toFrame = .ok d.bareObj ∧ decodeMsm17 true d.toFrame = some (.inl d.bareObj)) ∧
    (∀ buf, ValidFrame buf → d.CarriedBy buf → Msm.decode buf = .ok d.bareObj) := by
  have hE' : LengthEstimateRight d := by
    rcases hE with h1 | h1
    · exact ⟨by omega, by omega⟩
    · exact h1
  have e : ∀ buf, ValidFrame buf → d.CarriedBy buf → Msm.decode buf = .ok d.bareObj :=
    fun buf hv hc => (C21_C22_bare_iff _ hv _).2 ⟨d, h, hc, hE', rfl⟩
  refine ⟨fun hr => ?_, e⟩
  have e' := e _ (msm_frame h hr).1 (msm_frame h hr).2
  refine ⟨e', ?_⟩
  unfold decodeMsm17
  rw [e']; rfl

/-- MSM3 of GLONASS: one satellite, one signal, one cell. -/
def exMsm3 : MsmData :=
  { g := 1, k := 3, station := 17, time := 1073741823, multiple := 0, iods := 0, steering := 0, external := 0, smoothing := 0,
    interval := 0, sats := maskOf 64 [23], sigs := maskOf 32 [1], cells := [true], rngMs := [], extInfo := [],
    rngRough := [512], rateRough := [], rngFine := [-5], phsFine := [77], lock := [3], half := [1], cnr := [],
    rateFine := [] }

example : exMsm3.WF ∧ exMsm3.InRange ∧ LengthEstimateRight exMsm3 := by
  refine ⟨by decide +kernel, ?_, by decide +kernel⟩
  unfold MsmData.InRange
  decide +kernel

/-- **C22 violated**: no frame that carries an MSM2 or MSM3 content with eight or more cells is decoded, in either mode;
the same holds for fewer cells whenever the estimate differs. -/
theorem C22_violated (d : MsmData) (h : d.WF) (hk : d.k = 2 ∨ d.k = 3) (hn : 8 ≤ d.ncell ∨ ¬ LengthEstimateRight d)
    (buf : Bytes) (hv : ValidFrame buf) (hc : d.CarriedBy buf) (bare : Bool) : decodeMsm17 bare buf = none := by
  have hE : ¬ LengthEstimateRight d := by
    rcases hn with h1 | h1
    · rintro ⟨h2, h3⟩
      unfold msmBytes at h2 h3
      rcases hk with hk | hk
      · have := h2 hk; omega
      · have := h3 hk; omega
    · exact h1
  have : ∀ o, Msm.decode buf ≠ .ok o := by
    intro o ho
    obtain ⟨d', h1, h2, h3, -⟩ := (C21_C22_bare_iff _ hv _).1 ho
    obtain ⟨hG, hd⟩ := carried_good h hc
    obtain ⟨hG', hd'⟩ := carried_good h1 h2
    have e : d = d' := by
      have h4 := hG.num
      rw [hG'.num] at h4
      have := h.k; have := h1.k
      have e1 : d.g = d'.g := by omega
      have e2 : d.k = d'.k := by omega
      rw [hd, hd', e1, e2]
    exact hE (e ▸ h3)
  unfold decodeMsm17
  cases hx : Msm.decode buf with
  | error e => rfl
  | ok o => exact absurd hx (this o)

/-- MSM2 of GPS: two satellites, four signals, eight cells. -/
def exMsm2 : MsmData :=
  { g := 0, k := 2, station := 1, time := 1000, multiple := 0, iods := 0, steering := 0, external := 0, smoothing := 0,
    interval := 0, sats := maskOf 64 [0, 31], sigs := maskOf 32 [1, 2, 7, 8], cells := List.replicate 8 true, rngMs := [],
    extInfo := [], rngRough := [1, 2], rateRough := [], rngFine := [], phsFine := [1, 2, 3, 4, 5, 6, 7, 8],
    lock := [1, 2, 3, 4, 5, 6, 7, 8], half := [0, 1, 0, 1, 0, 1, 0, 1], cnr := [], rateFine := [] }

/-- The violation is not vacuous: such frames exist. -/
example : exMsm2.WF ∧ exMsm2.InRange ∧ ValidFrame exMsm2.toFrame ∧ exMsm2.CarriedBy exMsm2.toFrame ∧ 8 ≤ exMsm2.ncell := by
  have h1 : exMsm2.WF := by decide +kernel
  have h2 : exMsm2.InRange := by unfold MsmData.InRange; decide +kernel
  exact ⟨h1, h2, (msm_frame h1 h2).1, (msm_frame h1 h2).2, by decide +kernel⟩

/-! ## C23 -/

/-- **C23 violated**: a valid frame that carries an empty message (header only, satellite mask zero) is never decoded, in either
mode: the length check asks for three bytes more than the header has. -/
theorem C23_violated (d : MsmData) (buf : Bytes) (hv : ValidFrame buf)
    (hc : CarriesExact buf MsmData.hdrLayout d.emptyVals) (bare : Bool) : decodeMsm17 bare buf = none := by
  have hlen : buf.length = 28 := by
    rw [carriesExact_iff _ _ _ (by decide), hdr_width] at hc
    exact hc.1
  have : ∀ o, Msm.decode buf ≠ .ok o := by
    intro o ho
    have hL := lenField_valid hv
    rcases decode_inv ho with ⟨g, k, hG, hL', -, -⟩ | ⟨-, -, h3⟩
    · unfold LenOk at hL'
      rw [hL, hlen] at hL'
      omega
    · omega
  unfold decodeMsm17
  cases hx : Msm.decode buf with
  | error e => rfl
  | ok o => exact absurd hx (this o)

/-- Such frames exist for every header content in range. -/
example : ValidFrame (messageFrame MsmData.hdrLayout exMsm5.emptyVals) ∧
    CarriesExact (messageFrame MsmData.hdrLayout exMsm5.emptyVals) MsmData.hdrLayout exMsm5.emptyVals := by
  have h : FitsAll MsmData.hdrLayout exMsm5.emptyVals := by decide +kernel
  exact ⟨validFrame_messageFrame h (by decide), carries_messageFrame h⟩

/-- **C23, partial**: the scaling step handles empty messages: it yields an object with the header data, without satellites,
signals and observations. What is missing is that such an object is ever produced by decoding a frame: see `C23_violated`. -/
theorem C23_partial (b : Bare) (hg : b.atr.gnss ≠ "") (hs : b.hdr.sat_mask = 0) :
    ∃ r, convert (some b) = .ok (some r) ∧ r.atr = b.atr ∧ r.hdr.time = b.time ∧ r.hdr.day = b.day ∧ r.hdr.sats = [] ∧
      r.hdr.signals = [] ∧ r.obs = {} ∧ r.aux.rs_id = b.hdr.rs_id ∧ r.aux.MMB = b.hdr.MMB ∧ r.aux.IODS = b.hdr.IODS := by
  unfold convert
  dsimp only
  rw [if_neg hg, if_pos hs]
  exact ⟨_, rfl, rfl, rfl, rfl, rfl, rfl, rfl, rfl, rfl, rfl⟩

example : (Bare.m123 { atr := attrOf 1 1 }).atr.gnss ≠ "" ∧ (Bare.m123 { atr := attrOf 1 1 }).hdr.sat_mask = 0 := by decide

end Verif
