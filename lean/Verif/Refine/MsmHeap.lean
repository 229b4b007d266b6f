import Verif.Refine.EphDecode
import Verif.Refine.Framer
import Verif.PyCore.RulesMore
import Verif.Model.Msm

/-!
# Objects of the MSM decoder on the heap
-/

namespace Verif
namespace PyCore
namespace Refine

open Rounding (rnd)
variable [Rounding]

/-- Fields of an object. -/
abbrev Fields := List (Ident × Val)

/-- The classes of the parts of a message: `BareObservablesMSM4567` or `BareObservablesMSM123`, gnss_types/observables.py:280-364. -/
structure BareKind where
  bd : Ident
  sat : Ident
  sgn : Ident

/-- The decoder, the attributes of the message, the message and its parts: the objects that
`BareObservablesMSM17Decoder.decode` has created on the heap `G`, and other objects behind them. -/
def bareHeap (G : Heap) (ready : Bool) (K : BareKind) (atr hdr sat sgn : Fields) (T : List Obj) : Heap :=
  G ++ (.inst n!"BareObservablesMSM17Decoder" [(n!"_ready", .bool ready), (n!"bd", .ref (G.length + 2))] ::
    .inst n!"Attributes" atr ::
    .inst K.bd [(n!"atr", .ref (G.length + 1)), (n!"hdr", .ref (G.length + 4)), (n!"sat", .ref (G.length + 5)),
      (n!"sgn", .ref (G.length + 6))] ::
    .inst n!"Attributes" [(n!"gnss", .str ""), (n!"subset", .str ""), (n!"msg_number", .int 0)] ::
    .inst n!"_BareObservablesHdrMSM" hdr :: .inst K.sat sat :: .inst K.sgn sgn :: T)

section
variable (G : Heap) (r : Bool) (K : BareKind) (atr hdr sat sgn : Fields) (T : List Obj)

theorem append_getElem (G L : Heap) (k : Nat) : (G ++ L)[G.length + k]? = L[k]? := by
  rw [List.getElem?_append_right (Nat.le_add_right _ _)]; congr 1; omega
theorem append_getElem0 (G L : Heap) : (G ++ L)[G.length]? = L[0]? := append_getElem G L 0
theorem append_set (G L : Heap) (k : Nat) (o : Obj) : (G ++ L).set (G.length + k) o = G ++ L.set k o := by
  rw [List.set_append_right _ _ (Nat.le_add_right _ _)]; congr 2; omega
theorem append_set0 (G L : Heap) (o : Obj) : (G ++ L).set G.length o = G ++ L.set 0 o := append_set G L 0 o

@[pyrun] theorem bareHeap_self : (bareHeap G r K atr hdr sat sgn T)[G.length]? =
    some (.inst n!"BareObservablesMSM17Decoder" [(n!"_ready", .bool r), (n!"bd", .ref (G.length + 2))]) := append_getElem0 ..
@[pyrun] theorem bareHeap_atr : (bareHeap G r K atr hdr sat sgn T)[G.length + 1]? = some (.inst n!"Attributes" atr) := append_getElem ..
@[pyrun] theorem bareHeap_bd : (bareHeap G r K atr hdr sat sgn T)[G.length + 2]? = some (.inst K.bd
    [(n!"atr", .ref (G.length + 1)), (n!"hdr", .ref (G.length + 4)), (n!"sat", .ref (G.length + 5)),
      (n!"sgn", .ref (G.length + 6))]) := append_getElem ..
@[pyrun] theorem bareHeap_hdr : (bareHeap G r K atr hdr sat sgn T)[G.length + 4]? = some (.inst n!"_BareObservablesHdrMSM" hdr) :=
  append_getElem ..
@[pyrun] theorem bareHeap_sat : (bareHeap G r K atr hdr sat sgn T)[G.length + 5]? = some (.inst K.sat sat) := append_getElem ..
@[pyrun] theorem bareHeap_sgn : (bareHeap G r K atr hdr sat sgn T)[G.length + 6]? = some (.inst K.sgn sgn) := append_getElem ..
@[pyrun] theorem bareHeap_seven (o : Obj) : (bareHeap G r K atr hdr sat sgn (o :: T))[G.length + 7]? = some o := append_getElem ..
@[pyrun] theorem bareHeap_ready (r' : Bool) : (bareHeap G r K atr hdr sat sgn T).set G.length
    (.inst n!"BareObservablesMSM17Decoder" [(n!"_ready", .bool r'), (n!"bd", .ref (G.length + 2))]) =
    bareHeap G r' K atr hdr sat sgn T := append_set0 ..
@[pyrun] theorem bareHeap_setHdr (fs : Fields) : (bareHeap G r K atr hdr sat sgn T).set (G.length + 4)
    (.inst n!"_BareObservablesHdrMSM" fs) = bareHeap G r K atr fs sat sgn T := append_set ..
@[pyrun] theorem bareHeap_setSat (fs : Fields) : (bareHeap G r K atr hdr sat sgn T).set (G.length + 5)
    (.inst K.sat fs) = bareHeap G r K atr hdr fs sgn T := append_set ..
@[pyrun] theorem bareHeap_setSgn (fs : Fields) : (bareHeap G r K atr hdr sat sgn T).set (G.length + 6)
    (.inst K.sgn fs) = bareHeap G r K atr hdr sat fs T := append_set ..
@[pyrun] theorem bareHeap_setSeven (o o' : Obj) : (bareHeap G r K atr hdr sat sgn (o :: T)).set (G.length + 7) o' =
    bareHeap G r K atr hdr sat sgn (o' :: T) := append_set ..
theorem bareHeap_append (T' : List Obj) : bareHeap G r K atr hdr sat sgn T ++ T' = bareHeap G r K atr hdr sat sgn (T ++ T') := by
  unfold bareHeap; simp only [List.append_assoc, List.cons_append]
theorem bareHeap_length : (bareHeap G r K atr hdr sat sgn T).length = G.length + (7 + T.length) := by
  unfold bareHeap; simp only [List.length_append, List.length_cons]; omega
end

end Refine
end PyCore
end Verif
