import Verif.Source.Program
import Verif.PyCore.Semantics
import Verif.Spec.Bits

/-!
Vocabulary for claims about the text of the program: what a call of a function of `src` comes to.

`src` is the text of the files of `/repo` listed in `Verif/Source/Program.lean`, translated
statement by statement by `fidelity/embed.py`; `callFn` is the meaning of Python that is defined in
`Verif/PyCore/Semantics.lean`. Nothing here refers to the hand-written model.
-/

namespace Verif
namespace Spec
open PyCore

variable [Rounding]

/-- The call of function `f` of the program with the given arguments in the heap `h` comes to an end, and the result
(value or exception, and the heap afterwards) satisfies `post`: it does with every sufficiently deep stack. -/
def Ends (f : Ident) (args : List Val) (h : Heap) (post : Except Exc Val × Heap → Prop) : Prop :=
  ∃ N, ∀ n, N ≤ n → post (callFn src n f args h)

/-- The call returns the value `v` and leaves the heap as it was. -/
def Returns (f : Ident) (args : List Val) (h : Heap) (v : Val) : Prop := Ends f args h (fun r => r = (.ok v, h))

/-- The call raises an exception of class `c` and leaves the heap as it was. -/
def Raises (f : Ident) (args : List Val) (h : Heap) (c : Ident) : Prop := Ends f args h (fun r => r = (.error (.py c), h))

/-- The identifier with the given name. -/
def identOf (s : String) : Ident := ⟨codeOf s⟩

/-- The value of attribute `x` of object `o`. -/
def attrVal (o : Obj) (x : String) : Option Val :=
  match o with
  | .inst _ fs => fs.lookup (identOf x)
  | _ => none

/-- The field `start .. start + length` is a legal one for the buffer. -/
def FieldOk (buf : List UInt8) (start length : Int) : Prop :=
  1 ≤ length ∧ length ≤ 128 ∧ 0 ≤ start ∧ start + length ≤ 8 * buf.length

/-- Calls of `catch_message` of the object at address `a` with the chunks one after the other, from the heap `h` on: the call
with the i-th chunk returns a list whose elements are the `bytes` objects `outs[i]`; `h'` is the heap afterwards. -/
def CatchAll (a : Nat) : (chunks : List (List UInt8)) → (h : Heap) → (outs : List (List (List UInt8))) → (h' : Heap) → Prop
  | [], h, outs, h' => outs = [] ∧ h' = h
  | c :: cs, h, outs, h' => ∃ r h1 ms rest,
      Ends n!"DecoderTop.catch_message" [.ref a, .bytes c] h (fun res => res = (.ok (.ref r), h1)) ∧
      h1[r]? = some (.list (ms.map .bytes)) ∧ outs = ms :: rest ∧ CatchAll a cs h1 rest h'

/-- The object at address `a` is a new one, `DecoderTop()`: its `__init__`, called in the heap `h0`, has returned and left the heap `h`. -/
def NewDecoder (h0 : Heap) (a : Nat) (h : Heap) : Prop :=
  h0[a]? = some (.inst n!"DecoderTop" []) ∧ Ends n!"DecoderTop.__init__" [.ref a] h0 (fun res => res = (.ok .none, h))

end Spec
end Verif
