import Verif.Spec.Decoder

/-!
# What the test data grabber is meant to do

For a mode there is a plan: the message numbers to be saved, how many messages of the number are passed over first, and how many are
saved then.
-/

namespace Verif
namespace Spec

/-- Which messages are saved. -/
structure Plan where
  numbers : List Nat
  skip : Nat
  keep : Nat

/-- The plans. -/
def plan (mode : List Char) : Plan :=
  if mode = "EPH".toList then ⟨[1019, 1020, 1041, 1042, 1044, 1045, 1046], 0, 3⟩
  else if mode = "BASE".toList then ⟨[1005, 1006, 1007, 1033, 1230], 0, 1⟩
  else if mode = "MSM7".toList then ⟨[1077, 1087, 1097, 1127, 1137], 10, 1⟩
  else if mode = "MSM5".toList then ⟨[1075, 1085, 1095, 1125, 1135], 10, 20⟩
  else ⟨[], 0, 0⟩

/-- The file of a message number. -/
def grabFile (n : Nat) : List Char := ("msg" ++ toString n ++ ".rtcm3").toList

/-- The messages with number `n`, in order. -/
def numbered (n : Nat) (msgs : List (List UInt8)) : List (List UInt8) := msgs.filter (fun m => numberIn m == some n)

/-- The messages with number `n` that are to be saved. -/
def Plan.saved (p : Plan) (n : Nat) (msgs : List (List UInt8)) : List (List UInt8) := ((numbered n msgs).drop p.skip).take p.keep

/-- A message that is to be saved in a file that cannot be created: the number is in the plan, the messages to be passed over have come
before. -/
def Plan.blocked (p : Plan) (openable : List Char → Bool) (before : List (List UInt8)) (m : List UInt8) : Bool :=
  match numberIn m with
  | none => false
  | some n => p.numbers.contains n && !openable (grabFile n) && decide (p.skip ≤ (numbered n before).length)

end Spec
end Verif
