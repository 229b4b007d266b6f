import Verif.Props.DoubleNav
import Verif.Lemmas.DoubleConv

/-!
The models with roundings, with no rounding at all, are the exact models.
-/

namespace Verif

namespace Eph

theorem pow2R_id (x : Int) (k : Nat) : pow2R id x k = pow2 x k := by
  show PyNum.flt ((x : Rat) * (1 / 2 ^ k)) = _
  rw [mul_one_div]
  rfl

theorem scaleR_id : scaleR id = scale := by
  funext o
  cases o with
  | gps e => unfold scaleR scale scale1019R scale1019; simp only [pow2R_id]
  | glo e => unfold scaleR scale scale1020R scale1020; simp only [pow2R_id]
  | navic e => unfold scaleR scale scale1041R scale1041; simp only [pow2R_id]
  | bds e => unfold scaleR scale scale1042R scale1042; simp only [pow2R_id]; rfl
  | qzs e => unfold scaleR scale scale1044R scale1044; simp only [pow2R_id]
  | galf e => unfold scaleR scale scale1045R scale1045; simp only [pow2R_id]
  | gali e => unfold scaleR scale scale1046R scale1046; simp only [pow2R_id]

theorem subDecodeR_id : subDecodeR id = subDecode := by
  unfold subDecodeR subDecode decodeR decode
  rw [scaleR_id]
  rfl

end Eph

namespace Base
open Bits

theorem count_id (len : Nat) (h : 9 ≤ len) : countR id len = ((8 * len - 70) / 29 : Nat) := by
  unfold countR id
  have e : (8 * (len : Int) - 70 : Int) = ((8 * len - 70 : Nat) : Int) := by omega
  rw [e, Int.cast_natCast, show ((29 : Rat)) = ((29 : Nat) : Rat) from rfl, Rat.floor_natCast_div_natCast]
  rfl

/-- The rounding matters for the number of announcements only. -/
theorem decode1013R_of_count {rnd : Rat → Rat} (buf : Bytes) (h : 9 ≤ buf.length → gbu buf 81 5 = .ok 0 → countR rnd buf.length = ((8 * buf.length - 70) / 29 : Nat)) :
    decode1013R rnd buf = decode1013 buf := by
  unfold decode1013R decode1013
  refine Nav.bind_same fun msgNum _ => ?_
  refine Nav.bind_same fun bsID _ => ?_
  refine Nav.bind_same fun mjd _ => ?_
  refine Nav.bind_same fun sec _ => ?_
  refine Nav.bind_same fun nm hnm => ?_
  refine Nav.bind_same fun leap hleap => ?_
  have hlen : 12 ≤ buf.length := by
    rw [gbu_eq] at hleap
    split at hleap
    · omega
    · cases hleap
  dsimp only
  have e : (if nm ≠ 0 then (nm : Int) else countR rnd buf.length) =
      ((if nm ≠ 0 then nm else (8 * buf.length - 70) / 29 : Nat) : Int) := by
    by_cases h0 : nm = 0
    · subst h0
      exact h (by omega) hnm
    · rw [if_pos h0, if_pos h0]
  rw [e]
  generalize (if nm ≠ 0 then nm else (8 * buf.length - 70) / 29 : Nat) = N
  rw [Int.toNat_natCast]
  refine Nav.bind_same fun so _ => ?_
  obtain ⟨sh, o⟩ := so
  dsimp only
  unfold lengthCheck
  by_cases ho : o - 24 = 70 + 29 * N
  · rw [if_neg (by omega), ho, if_neg (fun h => h rfl)]
  · rw [if_pos (by omega), if_pos ho]
    rfl

theorem decodeBareR_of_1013 {rnd : Rat → Rat} (buf : Bytes) (h : decode1013R rnd buf = decode1013 buf) : decodeBareR rnd buf = decodeBare buf := by
  unfold decodeBareR
  rw [h]
  cases hn : getMsgNum buf with
  | error e => unfold decodeBare; rw [hn]; rfl
  | ok n =>
    rw [ok_bind]
    split
    · rename_i h13
      unfold decodeBare
      rw [hn, ok_bind, h13]
      rfl
    · rfl

/-- No rounding matters for a schedule with a number of announcements. -/
theorem decodeBareR_of_ok (rnd : Rat → Rat) {buf : Bytes} {o : BareObj} (h : decodeBare buf = .ok o) (hne : ∀ s, o = .sp s → s.Nm ≠ 0) :
    decodeBareR rnd buf = .ok o := by
  by_cases h13 : getMsgNum buf = .ok 1013
  · rw [← h]
    refine decodeBareR_of_1013 buf (decode1013R_of_count buf (fun _ h0 => ?_))
    exfalso
    have h1 : decode1013 buf = .ok o := by
      rw [← h]
      unfold decodeBare
      rw [h13]
      rfl
    unfold decode1013 at h1
    obtain ⟨_, -, h1⟩ := bind_ok h1
    obtain ⟨_, -, h1⟩ := bind_ok h1
    obtain ⟨_, -, h1⟩ := bind_ok h1
    obtain ⟨_, -, h1⟩ := bind_ok h1
    obtain ⟨nm, h2, h1⟩ := bind_ok h1
    cases h0.symm.trans h2
    obtain ⟨_, -, h1⟩ := bind_ok h1
    obtain ⟨⟨_, _⟩, -, h1⟩ := bind_ok h1
    obtain ⟨_, -, h1⟩ := bind_ok h1
    cases h1
    exact hne _ rfl rfl
  · rw [← h]
    unfold decodeBareR
    cases hn : getMsgNum buf with
    | error e => unfold decodeBare; rw [hn]; rfl
    | ok n =>
      rw [ok_bind, if_neg (fun hc => h13 (by rw [hn, hc]))]

theorem decodeBareR_id : decodeBareR id = decodeBare := by
  funext buf
  exact decodeBareR_of_1013 buf (decode1013R_of_count buf (fun h _ => count_id _ h))

theorem scaleR_id : scaleR id = scale := by
  funext o
  cases o <;> rfl

theorem decodeR_id : decodeR id = decode := by
  unfold decodeR decode
  rw [decodeBareR_id, scaleR_id]

theorem subDecodeR_id : subDecodeR id = subDecode := by
  unfold subDecodeR subDecode
  rw [decodeR_id]
  rfl

end Base

end Verif
