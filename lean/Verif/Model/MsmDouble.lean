import Verif.Model.Msm

/-!
# `Bare2Scaled` with rounded arithmetic

The functions of `Model/Msm.lean` that compute with floats, once more, with a rounding `rnd` at each place where Python rounds: each
float literal, each conversion `float(…)` and each operation. With `rnd = id` they are the functions of `Model/Msm.lean`
(`convertR_id`), so that the copy cannot differ otherwise.
-/

namespace Verif
namespace Msm
open RtcmUtil

/-- utilities/RTCM_utilities.py:98, the literal `299792.458`. -/
def crngR (rnd : Rat → Rat) : Rat := rnd CRNG_1MS

/-- sub_decoders/RTCM_MSM.py:349-363: the literals `2**-29` … are rounded. -/
def scalersR (rnd : Rat → Rat) (sc : Scalers) : Scalers :=
  { sc with rng := rnd sc.rng, phs := rnd sc.phs, dpl := rnd sc.dpl, c2n := rnd sc.c2n }

/-- sub_decoders/RTCM_MSM.py:429 with the literals of utilities/RTCM_utilities.py:250-394 rounded. -/
def signalItemR (rnd : Rat → Rat) (gnss : String) (s : Option String) : Py (String × Rat) := do
  let p ← signalItem gnss s
  pure (p.1, rnd p.2)

/-- sub_decoders/RTCM_MSM.py:509-567, the body of `while slots` in `_convert_obs47`. -/
def body47R (rnd : Rat → Rat) (src : Bare4567) (sc : Scalers) (sgn_map : List String) (sat : Nat) (rng_ok : Bool) (rng : Rat)
    (phase_rate_ok : Bool) (phase_rate : Rat) (i : Nat) (slotExist : Bool) (st : Nat × Obs) : Py (Nat × Obs) := do
  let (sgn_idx, obs) := st
  let sgn ← tupAt sgn_map i
  if slotExist = false then pure (sgn_idx, obs)
  else
    let obs ←
      if rng_ok then do
        let f ← tupAt src.sgn.rng_fine sgn_idx
        if sc.okRng f then do
          let d ← updIn obs.rng sgn sat (rnd (rnd (rng + rnd (rnd f * sc.rng)) * crngR rnd))
          pure { obs with rng := d }
        else pure obs
      else pure obs
    let obs ←
      if rng_ok then do
        let f ← tupAt src.sgn.phase_fine sgn_idx
        if sc.okPhs f then do
          let d ← updIn obs.phs sgn sat (rnd (rnd (rng + rnd (rnd f * sc.phs)) * crngR rnd))
          pure { obs with phs := d }
        else pure obs
      else pure obs
    let obs ←
      if phase_rate_ok then do
        let f ← tupAt src.sgn.phase_rate_fine sgn_idx
        if sc.okDpl f then do
          let d ← updIn obs.dpl sgn sat (rnd (phase_rate + rnd (rnd f * sc.dpl)))
          pure { obs with dpl := d }
        else pure obs
      else pure obs
    let t ← tupAt src.sgn.lock_time sgn_idx
    let d ← updIn obs.ltm sgn sat (sc.ltm t)
    let obs := { obs with ltm := d }
    let c ← tupAt src.sgn.c2n sgn_idx
    let d ← updIn obs.c2n sgn sat (rnd (rnd c * sc.c2n))
    let obs := { obs with c2n := d }
    let h ← tupAt src.sgn.hc_indc sgn_idx
    let d ← updIn obs.hca sgn sat (h != 0)
    let obs := { obs with hca := d }
    pure (sgn_idx + 1, obs)

/-- sub_decoders/RTCM_MSM.py:472-568, the body of `for slots in self.slots_per_sat` in `_convert_obs47`. -/
def sat47R (rnd : Rat → Rat) (src : Bare4567) (sc : Scalers) (sat_list : List Nat) (sgn_map : List String)
    (st : Nat × Nat × Obs) (slots : Nat) : Py (Nat × Nat × Obs) := do
  let (sat_idx, sgn_idx, obs) := st
  let sat ← tupAt sat_list sat_idx
  let ms ← tupAt src.sat.rng_ms sat_idx
  let rng_ok := ms != 255
  let rng : Rat ←
    if rng_ok then do
      let rough ← tupAt src.sat.rng_rough sat_idx
      pure (rnd (rnd (((ms <<< 10) + rough : Nat) : Rat) / 1024))
    else pure 0
  let (phase_rate_ok, phase_rate) ←
    if src.atr.is_msm7 || src.atr.is_msm5 then do
      let r ← tupAt src.sat.phase_rate_rough sat_idx
      if r % 2 ^ 14 != 0x2000 then pure (true, rnd r) else pure (false, (0 : Rat))
    else pure (false, (0 : Rat))
  let (sgn_idx, obs) ← whileSlots (body47R rnd src sc sgn_map sat rng_ok rng phase_rate_ok phase_rate) slots 0 (sgn_idx, obs)
  pure (sat_idx + 1, sgn_idx, obs)

/-- sub_decoders/RTCM_MSM.py:447-583 `_convert_obs47`. -/
def convertObs47R (rnd : Rat → Rat) (src : Bare4567) (sat_list : List Nat) (sgn_map : List String) (slots_per_sat : List Nat) (obs : Obs) :
    Py Obs := do
  let sc := if src.atr.is_msm7 || src.atr.is_msm6 then scalersR rnd SCALERS67 else scalersR rnd SCALERS45
  let obs : Obs :=
    { rng := addEmpty obs.rng sgn_map, c2n := addEmpty obs.c2n sgn_map, dpl := addEmpty obs.dpl sgn_map,
      phs := addEmpty obs.phs sgn_map, ltm := addEmpty obs.ltm sgn_map, hca := addEmpty obs.hca sgn_map }
  let (_, _, obs) ← slots_per_sat.foldlM (sat47R rnd src sc sat_list sgn_map) (0, 0, obs)
  sgn_map.foldlM del47 obs

/-- sub_decoders/RTCM_MSM.py:614-655, the body of `while slots` in `_convert_obs13`; `ph_ok` lives across iterations. -/
def body13R (rnd : Rat → Rat) (src : Bare123) (sc : Scalers) (sgn_map : List String) (sat : Nat) (rng : Rat) (rng_ok : Bool)
    (i : Nat) (slotExist : Bool) (st : Bool × Nat × Obs) : Py (Bool × Nat × Obs) := do
  let (ph_ok, sgn_idx, obs) := st
  let sgn ← tupAt sgn_map i
  if slotExist = false then pure (ph_ok, sgn_idx, obs)
  else
    let (ph_ok, obs) ←
      if rng_ok then do
        let f ← tupAt src.sgn.rng_fine sgn_idx
        if f % 2 ^ 15 != 0x4000 then do
          let d ← updIn obs.rng sgn sat (rnd (rnd (rng + rnd (rnd f * sc.rng)) * crngR rnd))
          pure (ph_ok, { obs with rng := d })
        else pure (false, obs)
      else pure (ph_ok, obs)
    let obs ←
      if ph_ok then do
        let f ← tupAt src.sgn.phase_fine sgn_idx
        if f % 2 ^ 22 == 0x200000 then pure obs
        else do
          let d ← updIn obs.phs sgn sat (rnd (rnd (rng + rnd (rnd f * sc.phs)) * crngR rnd))
          let obs := { obs with phs := d }
          let t ← tupAt src.sgn.lock_time sgn_idx
          let d ← updIn obs.ltm sgn sat (sc.ltm t)
          let obs := { obs with ltm := d }
          let h ← tupAt src.sgn.hc_indc sgn_idx
          let d ← updIn obs.hca sgn sat (h != 0)
          pure { obs with hca := d }
      else pure obs
    pure (ph_ok, sgn_idx + 1, obs)

/-- sub_decoders/RTCM_MSM.py:603-656, the body of `for slots in self.slots_per_sat` in `_convert_obs13`. -/
def sat13R (rnd : Rat → Rat) (src : Bare123) (sc : Scalers) (sat_list : List Nat) (sgn_map : List String)
    (st : Nat × Nat × Obs) (slots : Nat) : Py (Nat × Nat × Obs) := do
  let (sat_idx, sgn_idx, obs) := st
  let sat ← tupAt sat_list sat_idx
  let rough ← tupAt src.sat.rng_rough sat_idx
  let rng : Rat := rnd (rnd rough / 1024)
  let rng_ok := src.atr.is_msm1 || src.atr.is_msm3
  let ph_ok := src.atr.is_msm2 || src.atr.is_msm3
  let (_, sgn_idx, obs) ← whileSlots (body13R rnd src sc sgn_map sat rng rng_ok) slots 0 (ph_ok, sgn_idx, obs)
  pure (sat_idx + 1, sgn_idx, obs)

/-- sub_decoders/RTCM_MSM.py:585-668 `_convert_obs13`. -/
def convertObs13R (rnd : Rat → Rat) (src : Bare123) (sat_list : List Nat) (sgn_map : List String) (slots_per_sat : List Nat) (obs : Obs) :
    Py Obs := do
  let sc := scalersR rnd SCALERS45
  let obs : Obs :=
    { obs with rng := addEmpty obs.rng sgn_map, phs := addEmpty obs.phs sgn_map,
               ltm := addEmpty obs.ltm sgn_map, hca := addEmpty obs.hca sgn_map }
  let (_, _, obs) ← slots_per_sat.foldlM (sat13R rnd src sc sat_list sgn_map) (0, 0, obs)
  sgn_map.foldlM del13 obs

/-- sub_decoders/RTCM_MSM.py:382-445 `convert`; `none` is `None`. -/
def convertR (rnd : Rat → Rat) (src : Option Bare) : Py (Option ObservablesMSM) :=
  match src with
  | none => pure none
  | some src =>
    if src.atr.gnss = "" then pure none
    else do
      let h := src.hdr
      let hdr : ObsHdr := { time := src.time, day := src.day }
      let aux : ObsAux :=
        { rs_id := h.rs_id, MMB := h.MMB, IODS := h.IODS,
          clk_steer := (h.clk_steer, unpackClkSteer h.clk_steer), clk_ext := (h.clk_ext, unpackClkExt h.clk_ext),
          smth_indc := (h.smth_indc, unpackSmthIndc h.smth_indc),
          smth_intr := (h.smth_intr, unpackSmthIntr h.smth_intr) }
      if h.sat_mask = 0 then pure (some { hdr := { hdr with sats := [], signals := [] }, aux := aux, atr := src.atr })
      else
        let sat_list := maskList h.sat_mask 64
        let sat_num := sat_list.length
        let items ← ((maskList h.sgn_mask 32).map (rnxLit src.atr.gnss)).mapM (signalItemR rnd src.atr.gnss)
        let sgn_map := items.map (·.1)
        let signals : PyDict String Rat := items.foldl (fun d p => d.set p.1 p.2) []
        let hdr := { hdr with sats := sat_list, signals := signals }
        let M := bitCount h.sgn_mask
        let mask := (1 <<< M) - 1
        let slots_per_sat := (List.range sat_num).map (fun i => (h.cell_mask >>> (M * i)) &&& mask)
        let obs ← match src with
          | .m4567 b => convertObs47R rnd b sat_list sgn_map slots_per_sat {}
          | .m123 b => convertObs13R rnd b sat_list sgn_map slots_per_sat {}
        pure (some { hdr := hdr, obs := obs, aux := aux, atr := src.atr })

/-- sub_decoders/RTCM_MSM.py:675-728 `decode_msm17`: bare object (`inl`), scaled object (`inr`) or `None`. All exceptions of
`decode` and of `convert` are caught. -/
def decodeMsm17R (rnd : Rat → Rat) (isBare : Bool) (buf : Bytes) : Option (Bare ⊕ ObservablesMSM) :=
  match decode buf with
  | .error _ => none
  | .ok b =>
    if isBare then some (.inl b)
    else
      match convertR rnd (some b) with
      | .error _ => none
      | .ok none => none
      | .ok (some r) => some (.inr r)

end Msm
end Verif
