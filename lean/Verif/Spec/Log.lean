import Verif.Model.Log
import Verif.Spec.Decoder
import Verif.Spec.ReadText

/-!
# What the log of a conversion should say
-/

namespace Verif
namespace Spec
open Decoder Run

/-- Name of a sub-decoder. -/
def subsetName : Family → String
  | .msm13 => "MSM13O"
  | .msm47 => "MSM47O"
  | .eph => "EPH"
  | .base => "BASE"

/-- The records about a message that decoding turns into `res`, with the remarks `det` about single observables and fields: the remarks come
first; an unsupported number is noted, a success is noted, and a failure gives an error of the sub-decoder and a warning that names the
number. -/
def messageRecords (obsOnly : Bool) (msg : Bytes) (det : List Msm.Detail) (res : Option PyObj) : List Record :=
  det.map .detail ++ match numberIn msg with
  | none => [.noDecoder none]
  | some n =>
    match family n with
    | none => [.noDecoder (some n)]
    | some f =>
      if familyOn obsOnly f then
        match res with
        | some o => [.succeeded (some n) o]
        | none => [.failed (some n), .wrongResult (subsetName f) (some n)]
      else [.noDecoder (some n)]

/-- Progress records. -/
def isProgress : Record → Bool
  | .progress .. => true
  | _ => false

/-- Records about files that cannot be created. -/
def aboutCreation : Record → Bool
  | .notCreated _ | .notCreatedText => true
  | _ => false

/-- Records about the output. -/
def aboutOutput (r : Record) : Bool := aboutCreation r || decide (r = .printFailed)

/-- Records that announce an error. -/
def announcesError (r : Record) : Prop := r.level = .error

/-- Reading a percentage. -/
def readPercent (t : Txt) : Option Rat :=
  match t.reverse with
  | '%' :: r => readFixed r.reverse
  | _ => none

end Spec
end Verif
