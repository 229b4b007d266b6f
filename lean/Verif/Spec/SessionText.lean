import Verif.Spec.JsonText

/-!
Vocabulary for claims about a conversion at the level of the text: chunks of a file are given to a decoder, and what it decodes is serialised.
-/

namespace Verif
namespace Spec
open PyCore

variable [Rounding]

/-- The calls of run_conversion.py:118-121 for the messages of a chunk, with `decode` of the decoder `a` (converter_top.py:117-118), and for every object that it returns the
function of the `JSONCore` `s` for the class of the object (printers/json_printer.py:200-209). The texts that are returned, and the heap that is left. -/
inductive Written (a s : Nat) : (ms : List (List UInt8)) → Heap → (texts : List Val) → Heap → Prop
  | done {h : Heap} : Written a s [] h [] h
  | nothing {m : List UInt8} {ms : List (List UInt8)} {h h1 h2 : Heap} {xs : List Val}
      (hd : Ends n!"DecoderTop.decode" [.ref a, .bytes m] h (fun res => res = (.ok .none, h1))) (hw : Written a s ms h1 xs h2) : Written a s (m :: ms) h xs h2
  | object {m : List UInt8} {ms : List (List UInt8)} {h h1 h2 h3 : Heap} {b : Nat} {c : Ident} {fs : List (Ident × Val)} {x : Val} {xs : List Val}
      (hd : Ends n!"DecoderTop.decode" [.ref a, .bytes m] h (fun res => res = (.ok (.ref b), h1))) (hb : h1[b]? = some (.inst c fs))
      (hs : Ends (serialiser c) [.ref s, .ref b] h1 (fun res => res = (.ok x, h2))) (hw : Written a s ms h2 xs h3) : Written a s (m :: ms) h (x :: xs) h3

/-- The same for a list of chunks, run_conversion.py:113-134 with `catch_message` of the decoder (converter_top.py:114-115). -/
inductive Session (a s : Nat) : (chunks : List (List UInt8)) → Heap → (texts : List Val) → Heap → Prop
  | done {h : Heap} : Session a s [] h [] h
  | chunk {c : List UInt8} {cs ms : List (List UInt8)} {h h1 h2 h3 : Heap} {r : Nat} {xs ys : List Val}
      (hc : Ends n!"DecoderTop.catch_message" [.ref a, .bytes c] h (fun res => res = (.ok (.ref r), h1))) (hr : h1[r]? = some (.list (ms.map .bytes)))
      (hw : Written a s ms h1 xs h2) (hn : Session a s cs h2 ys h3) : Session a s (c :: cs) h (xs ++ ys) h3

end Spec
end Verif
