import Verif.Spec.SourceText
import Verif.Spec.Decoder

/-!
Vocabulary for claims about the text of the top level of decoding: how a strategy of `converter_top.py` puts the decoder together, and what is done with it
afterwards.
-/

namespace Verif
namespace Spec
open PyCore

variable [Rounding]

/-- `x = C(bare_data=…)` -/
def newSub (x c : Ident) (bare : Bool) : Stmt := .assign (.name x) (.call (.name c) [.const (.bool bare)])

/-- `if not decoder.register_decoder(x.io): return None` -/
def registerSub (x : Ident) : Stmt :=
  .ite (.not (.call (.attr (.name n!"decoder") n!"register_decoder") [.attr (.name x) n!"io"])) [.ret (.const .none)] []

/-- The decoding part of a strategy: converter_top.py:168-181, 202-215 and 236-249 for the modes with all messages (`all`), converter_top.py:140-147 for MARGO.
`decoder` is `conv.decoder`, which converter_top.py:111 binds to `DecoderTop()`. By C96_text these are the statements of the text. -/
def strategyText (all bare : Bool) : List Stmt :=
  [.assign (.name n!"decoder") (.call (.name n!"DecoderTop") []), newSub n!"msm123" n!"SubdecoderMSM123" bare, newSub n!"msm4567" n!"SubdecoderMSM4567" bare] ++
  (if all then [newSub n!"eph" n!"SubdecoderEph" bare, newSub n!"base" n!"SubdecoderBaseStationData" bare] else []) ++
  [registerSub n!"msm4567", registerSub n!"msm123"] ++
  (if all then [registerSub n!"eph", registerSub n!"base"] else []) ++
  [.ret (.name n!"decoder")]

/-- The statements, executed in the heap `h`, return the value `v` and leave the heap `h'`. -/
def BlockReturns (body : List Stmt) (h : Heap) (v : Val) (h' : Heap) : Prop :=
  ∃ N, ∀ n, N ≤ n → ∃ l, execBlock src n (callFn src n) body ⟨[], h⟩ = (.ok (.ret v), ⟨l, h'⟩)

open Decoder in
/-- The name of a class. -/
def clsIdent : Cls → Ident
  | .bareMSM123 => n!"BareObservablesMSM123"
  | .bareMSM4567 => n!"BareObservablesMSM4567"
  | .observablesMSM => n!"ObservablesMSM"
  | .ephGPS => n!"EphGPS"
  | .ephGLO => n!"EphGLO"
  | .ephNAVIC => n!"EphNAVIC"
  | .ephBDS => n!"EphBDS"
  | .ephQZS => n!"EphQZS"
  | .ephGALF => n!"EphGALF"
  | .ephGALI => n!"EphGALI"
  | .baseRP => n!"BaseRP"
  | .baseRPH => n!"BaseRPH"
  | .baseAD => n!"BaseAD"
  | .baseADSN => n!"BaseADSN"
  | .baseADSNRC => n!"BaseADSNRC"
  | .baseSP => n!"BaseSP"
  | .baseTS => n!"BaseTS"
  | .baseGLBS => n!"BaseGLBS"

/-- The message has the number of a family that the strategy registers. -/
def supported (all : Bool) (msg : List UInt8) : Bool :=
  match numberIn msg with
  | none => false
  | some k => match family k with
    | none => false
    | some f => familyOn (!all) f

/-- The value is `None`. -/
def noneVal : Val → Bool
  | .none => true
  | _ => false

/-- In the heap, `a` is a decoder in use: a strategy has put it together when the heap had `K` objects at the end; since then `catch_message` and `decode` have
been called on it with any arguments in any order, and any other code has run that has not changed one of the `K` objects. `fed` are the chunks given to `catch_message`,
`got` the messages that it has returned, `dec` the messages given to `decode` with what it has returned. -/
inductive InUse (all bare : Bool) (a K : Nat) : (fed got : List (List UInt8)) → (dec : List (List UInt8 × Val)) → Heap → Prop
  | start {h0 h : Heap} (hs : BlockReturns (strategyText all bare) h0 (.ref a) h) (hK : K = h.length) : InUse all bare a K [] [] [] h
  | caught {fed got : List (List UInt8)} {dec : List (List UInt8 × Val)} {h h' : Heap} {r : Nat} {ms : List (List UInt8)} (c : List UInt8)
      (hu : InUse all bare a K fed got dec h) (hc : Ends n!"DecoderTop.catch_message" [.ref a, .bytes c] h (fun res => res = (.ok (.ref r), h')))
      (hr : h'[r]? = some (.list (ms.map .bytes))) : InUse all bare a K (fed ++ [c]) (got ++ ms) dec h'
  | decoded {fed got : List (List UInt8)} {dec : List (List UInt8 × Val)} {h h' : Heap} {v : Val} (m : List UInt8)
      (hu : InUse all bare a K fed got dec h) (hd : Ends n!"DecoderTop.decode" [.ref a, .bytes m] h (fun res => res = (.ok v, h'))) :
      InUse all bare a K fed got (dec ++ [(m, v)]) h'
  | other {fed got : List (List UInt8)} {dec : List (List UInt8 × Val)} {h h' : Heap} (hu : InUse all bare a K fed got dec h) (hl : K ≤ h'.length)
      (ho : ∀ b, b < K → h'[b]? = h[b]?) : InUse all bare a K fed got dec h'

/-- No object of `h` is different in `h'`, but for the two counters of `decode` in the object `a`. -/
def OnlyCounts (a : Nat) (h h' : Heap) : Prop :=
  (∀ b, b < h.length → b ≠ a → h'[b]? = h[b]?) ∧
  ∃ c fs fs', h[a]? = some (.inst c fs) ∧ h'[a]? = some (.inst c fs') ∧
    ∀ x, x ≠ n!"_DecoderTop__dec_attempts" → x ≠ n!"_DecoderTop__dec_succeeded" → fs'.lookup x = fs.lookup x

/-- `decode` of the decoder `a`, called with the message, returns an object that has not existed before, and the property holds of it. -/
def Delivers (a : Nat) (h : Heap) (m : List UInt8) (prop : Heap → Val → Prop) : Prop :=
  ∃ b h', Ends n!"DecoderTop.decode" [.ref a, .bytes m] h (fun res => res = (.ok (.ref b), h')) ∧ h.length ≤ b ∧ prop h' (.ref b)

/-- `decode` of the decoder `a`, called with the message, returns `None`. -/
def Refuses (a : Nat) (h : Heap) (m : List UInt8) : Prop :=
  ∃ h', Ends n!"DecoderTop.decode" [.ref a, .bytes m] h (fun res => res = (.ok .none, h'))

end Spec
end Verif
