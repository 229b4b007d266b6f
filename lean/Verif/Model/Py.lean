/-!
# Python runtime conventions used by the model

Exceptions are values of `PyErr`, a Python function that may raise is a function into `Py α`.
`bytes` is `List UInt8`.
-/

namespace Verif

/-- The exception classes that the modelled code can raise.
Raised in utilities/bits.py:54-61, 90, sub_decoders/RTCM_MSM.py:78, 110-150, 183-185, 255,
sub_decoders/RTCM_EPH.py:49-59, 686, 708, sub_decoders/RTCM_BASE.py:53-59, 398, 417,
decoder_top.py:210, printers/json_printer.py:177, 212-218, 264-275,
printers/margo_printer.py:109-155; the other ones by Python. -/
inductive PyErr where
  /-- `ExceptionBitsError`, utilities/bits.py:17 -/
  | bitsError
  /-- `ExceptionBareDataStructure`, sub_decoders/RTCM_MSM.py:29 -/
  | bareData
  /-- `ExceptionEphemerisDecoder`, sub_decoders/RTCM_EPH.py:30 -/
  | ephDecoder
  /-- `ExceptionBaseStationDataDecoder`, sub_decoders/RTCM_BASE.py:30 -/
  | baseDecoder
  /-- `ExceptionDecoderDecode`, decoder_top.py:134 -/
  | decoderDecode
  /-- builtin `IndexError` -/
  | indexError
  /-- builtin `KeyError` -/
  | keyError
  /-- builtin `TypeError` -/
  | typeError
  /-- builtin `ValueError` -/
  | valueError
  /-- builtin `UnicodeDecodeError` (a `ValueError`) -/
  | unicodeError
  /-- builtin `AssertionError` -/
  | assertionError
  /-- builtin `NotImplementedError` -/
  | notImplemented
  /-- builtin `OSError` -/
  | osError
  /-- builtin `ZeroDivisionError` -/
  | zeroDivision
  /-- builtin `AttributeError` -/
  | attributeError
  /-- `configparser.Error` -/
  | configError
  deriving DecidableEq, Repr

/-- A Python computation that returns a value or raises.
Caught in decoder_top.py:138-152 and printer_top.py:125-134. -/
abbrev Py (α : Type) : Type := Except PyErr α

/-- Python `bytes`. For example utilities/bits.py:50 and decoder_top.py:222. -/
abbrev Bytes : Type := List UInt8

/-- Python indexing `buf[i]` of a `bytes` object at a non-negative index.
Used in utilities/bits.py:67 and decoder_top.py:286-310. -/
def byteAt (buf : Bytes) (i : Nat) : Py Nat :=
  match buf[i]? with
  | some b => .ok b.toNat
  | none => .error .indexError

/-- Python `tuple(gen)` / list comprehension over `range(0, n)` with a body that may raise.
Used in sub_decoders/RTCM_MSM.py:189-249. -/
def tupleOfRange {α : Type} (n : Nat) (f : Nat → Py α) : Py (List α) :=
  (List.range n).mapM f

/-- A Python computation containing `while` loops: `none` means that it never returns, otherwise it
returns a value or raises. Loops are defined by `partial_fixpoint`, so that termination is something
to be proved and not something built into the model.
Loops: decoder_top.py:229, 301, sub_decoders/RTCM_MSM.py:507, 613. -/
abbrev PyD (α : Type) : Type := ExceptT PyErr Option α

/-- Embedding of loop-free computations. Used for decoder_top.py:222-319. -/
def liftD {α : Type} (x : Py α) : PyD α := ExceptT.mk (some x)

/-- The computation terminates normally with result `a`. Used for decoder_top.py:222-319. -/
def returnsD {α : Type} (x : PyD α) (a : α) : Prop := x.run = some (.ok a)

end Verif
