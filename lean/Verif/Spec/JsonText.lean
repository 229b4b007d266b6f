import Verif.Spec.TopText
import Verif.Spec.JsonDouble
import Verif.Model.PyVal

/-!
Vocabulary for claims about the text of the JSON serialiser, printers/json_printer.py:93-101 and 224-355.
-/

namespace Verif
namespace Spec
open PyCore

variable [Rounding]

/-- In the heap, `a` is a `JSONCore` whose controls are set as given. -/
def IsCore (hdr aux pretty : Bool) (h : Heap) (a : Nat) : Prop :=
  ∃ k, h[a]? = some (.inst n!"JSONCore" [(n!"ctrls", .ref k)]) ∧
    h[k]? = some (.inst n!"JSONControls" [(n!"enable_hdr_data", .bool hdr), (n!"enable_aux_data", .bool aux), (n!"enable_pretty_view", .bool pretty)])

/-- The function that printers/json_printer.py:200-209 calls with an object of the class. -/
def serialiser (c : Ident) : Ident :=
  if c = n!"ObservablesMSM" then n!"JSONCore.ObservablesMSMtoPrintBuffer"
  else if c = n!"BareObservablesMSM4567" ∨ c = n!"BareObservablesMSM123" then n!"JSONCore.BareObservablesMSMtoPrintBuffer"
  else n!"JSONCore.dataClassToPrintBuffer"

/-- The value is a text, and the text is JSON for a value with the property, whatever the way `fr` of writing a float as a number. With `pretty`
it is the text that `json.dumps` writes with an indent of two, without it is in one line. -/
def IsJsonText (pretty : Bool) (prop : (Rat → List Char) → JV → Prop) (v : Val) : Prop :=
  ∃ j, v = .json j (if pretty then some 2 else none) ∧
    ∀ fr : Rat → List Char, (∀ x, IsNum (fr x)) → ∃ w, prop fr w ∧ Denotes w (Json.dumps fr (if pretty then some 2 else none) j)

/-- The object that the value `v` is in the heap `h` is written as JSON with the property: in every heap in which the objects of `h` are what they were
and in which a `JSONCore` with the given controls is, the function for the class of the object returns such a text. It changes no object. -/
def WrittenAs (hdr aux pretty : Bool) (prop : (Rat → List Char) → JV → Prop) (h : Heap) (v : Val) : Prop :=
  ∃ b c fs, v = .ref b ∧ h[b]? = some (.inst c fs) ∧ ∀ (g : Heap) (a : Nat), (∀ (b : Nat) (o : Obj), h[b]? = some o → g[b]? = some o) → IsCore hdr aux pretty g a →
    Ends (serialiser c) [.ref a, v] g (fun res => ∃ x t, res = (.ok x, g ++ t) ∧ IsJsonText pretty prop x)

end Spec
end Verif
