import Verif.Spec.Frame

/-!
# Specification of message extraction

A plain left-to-right scan of the whole stream. Looking at the rest of the stream `s`:
* if `s` begins with a complete valid frame, take it;
* if `s` cannot be the beginning of a valid frame, skip one byte;
* if too few bytes are there to decide, stop and wait.
-/

namespace Verif
namespace Spec

/-- What the beginning of the stream is. -/
inductive Verdict where
  | wait
  | skip
  | frame (n : Nat)
  deriving DecidableEq, Repr

/-- Judge the beginning of `s`. -/
def verdict (s : List UInt8) : Verdict :=
  if s = [] then .wait
  else if s[0]? ≠ some 0xD3 then .skip
  else if 2 ≤ s.length ∧ 4 ≤ (s.getD 1 0).toNat then .skip
  else if s.length < 6 ∨ s.length < payloadLen s + 6 then .wait
  else if ValidFrame (s.take (payloadLen s + 6)) then .frame (payloadLen s + 6)
  else .skip

/-- One extracted message with the bytes discarded directly before it. -/
structure Seg where
  gap : List UInt8
  msg : List UInt8
  deriving DecidableEq, Repr

/-- Result of a scan: messages with gaps, the currently open gap, the bytes still undecided. -/
structure ScanResult where
  segs : List Seg
  gap : List UInt8
  rest : List UInt8
  deriving DecidableEq, Repr

/-- The scan; `gap` are the bytes skipped since the last message. -/
def scan (gap s : List UInt8) : ScanResult :=
  match verdict s with
  | .wait => ⟨[], gap, s⟩
  | .skip =>
    if s = [] then ⟨[], gap, s⟩ else scan (gap ++ s.take 1) (s.drop 1)
  | .frame n =>
    if n = 0 ∨ s = [] then ⟨[], gap, s⟩
    else
      let r := scan [] (s.drop n)
      ⟨⟨gap, s.take n⟩ :: r.segs, r.gap, r.rest⟩
termination_by s.length
decreasing_by
  all_goals
    have := List.length_pos_iff.2 (show s ≠ [] by simp_all)
    simp_all
  all_goals omega

/-- The messages in a stream. -/
def messages (s : List UInt8) : List (List UInt8) := (scan [] s).segs.map (·.msg)

/-- Number of messages that are separated from the previous message by discarded bytes. -/
def dirtyGaps (segs : List Seg) : Nat := (segs.drop 1).countP (fun g => g.gap ≠ [])

end Spec
end Verif
