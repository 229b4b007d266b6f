import Verif.Model.Objects
import Verif.Spec.Bits

/-!
# Specification of the message dispatcher
-/

namespace Verif
namespace Spec
open Decoder

/-- The families of supported messages. -/
inductive Family where
  | msm13 | msm47 | eph | base
  deriving DecidableEq, Repr

/-- Family of a message number. MSM numbers are 1071 … 1137: the tens number the constellation (107 … 113), the last digit is
the MSM type 1 … 7. -/
def family (n : Nat) : Option Family :=
  if 107 ≤ n / 10 ∧ n / 10 ≤ 113 ∧ 1 ≤ n % 10 ∧ n % 10 ≤ 3 then some .msm13
  else if 107 ≤ n / 10 ∧ n / 10 ≤ 113 ∧ 4 ≤ n % 10 ∧ n % 10 ≤ 7 then some .msm47
  else if n = 1019 ∨ n = 1020 ∨ n = 1041 ∨ n = 1042 ∨ n = 1044 ∨ n = 1045 ∨ n = 1046 then some .eph
  else if n = 1005 ∨ n = 1006 ∨ n = 1007 ∨ n = 1008 ∨ n = 1013 ∨ n = 1029 ∨ n = 1033 ∨ n = 1230 then some .base
  else none

/-- Families supported in a mode; `obsOnly` is mode MARGO. -/
def familyOn (obsOnly : Bool) (f : Family) : Bool :=
  match f with
  | .msm13 | .msm47 => true
  | .eph | .base => !obsOnly

/-- The class declared for a message number. -/
def declared (bare : Bool) (n : Nat) : Option Cls :=
  match family n with
  | none => none
  | some .msm13 => some (if bare then .bareMSM123 else .observablesMSM)
  | some .msm47 => some (if bare then .bareMSM4567 else .observablesMSM)
  | some .eph =>
    if n = 1019 then some .ephGPS else if n = 1020 then some .ephGLO else if n = 1041 then some .ephNAVIC
    else if n = 1042 then some .ephBDS else if n = 1044 then some .ephQZS else if n = 1045 then some .ephGALF
    else some .ephGALI
  | some .base =>
    if n = 1005 then some .baseRP else if n = 1006 then some .baseRPH else if n = 1007 then some .baseAD
    else if n = 1008 then some .baseADSN else if n = 1033 then some .baseADSNRC else if n = 1013 then some .baseSP
    else if n = 1029 then some .baseTS else some .baseGLBS

/-- The message number in a byte string: the 12 bits after the 3 bytes of the frame header; none if the string is shorter. -/
def numberIn (msg : List UInt8) : Option Nat :=
  if msg.length < 5 then none else some (natOfBits (((bitsOf msg).drop 24).take 12))

/-- A number that is stored as an integer. -/
def asInt : PyNum → Option Int
  | .int x => some x
  | .flt _ => none

/-- The message number recorded in a decoded object. -/
def recorded : PyObj → Option Int
  | .msmBare b => b.atr.msg_number.map Int.ofNat
  | .msm o => o.atr.msg_number.map Int.ofNat
  | .eph e => match e with
    | .gps e => asInt e.msgNum
    | .glo e => asInt e.msgNum
    | .navic e => asInt e.msgNum
    | .bds e => asInt e.msgNum
    | .qzs e => asInt e.msgNum
    | .galf e => asInt e.msgNum
    | .gali e => asInt e.msgNum
  | .baseBare b => some (match b with
    | .rp o => o.msgNum
    | .rph o => o.rp.msgNum
    | .ad o => o.msgNum
    | .adsn o => o.ad.msgNum
    | .adsnrc o => o.adsn.ad.msgNum
    | .sp o => o.msgNum
    | .ts o => o.msgNum
    | .glbs o => o.msgNum)
  | .baseScaled b => some (match b with
    | .rp o => o.msgNum
    | .rph o => o.rp.msgNum
    | .ad o => o.msgNum
    | .adsn o => o.ad.msgNum
    | .adsnrc o => o.adsn.ad.msgNum
    | .sp o => o.msgNum
    | .ts o => o.msgNum
    | .glbs o => o.msgNum)

end Spec
end Verif
