import Verif.Model.Bits
import Verif.Model.CRC24Q

/-!
# Model of the parsing part of `DecoderTop` (decoder_top.py:222-357)
-/

namespace Verif
namespace Framer

/-- Parser attributes of a `DecoderTop` object, decoder_top.py:160-163. -/
structure Parser where
  /-- `_tail` -/
  tail : Bytes
  /-- `_skipped_some_bytes` -/
  skipped : Bool
  /-- `_synchronized` -/
  synchronized : Bool
  /-- `__pars_err_cnt` -/
  parsErrCnt : Nat
  deriving DecidableEq, Repr

/-- decoder_top.py:160-163, part of `__init__`. -/
def Parser.init : Parser := ⟨[], false, false, 0⟩

/-- decoder_top.py:338-342 `mnum` (wrapped by `catch_bits_exceptions`, `None` on error). -/
def mnum (buf : Bytes) : Option Nat := Bits.catchBits (Bits.gbu buf 24 12)

/-- decoder_top.py:344-348 `mlen`. -/
def mlen (buf : Bytes) : Option Nat := Bits.catchBits do
  let l ← Bits.gbu buf 14 10
  pure (l + 6)

/-- decoder_top.py:350-357 `mcrc`. -/
def mcrc (buf : Bytes) : Option Bool := Bits.catchBits do
  let l ← Bits.gbu buf 14 10
  let dataLen := l + 3
  let crcCalc ← CRC24Q.crcCalc (buf.take dataLen)
  let crcGet ← Bits.gbu buf (dataLen * 8) 24
  pure (crcCalc == crcGet)

/-- `tail.find(b"\\xD3", ptr)`, decoder_top.py:302; `none` is -1. -/
def findD3 (tail : Bytes) (ptr : Nat) : Option Nat :=
  ((tail.drop ptr).findIdx? (fun b => b == 0xD3)).map (· + ptr)

/-- The search loop decoder_top.py:300-317 starting at `ptr`; returns the new `_tail`. -/
def rebaseLoop (tail : Bytes) (ptr : Nat) : PyD Bytes := do
  match findD3 tail ptr with
  | none => pure []
  | some ofs =>
    if ofs = tail.length - 1 then
      pure ((tail.drop ofs).take 1)
    else
      let b ← liftD (byteAt tail (ofs + 1))
      if b &&& 0xFC = 0 then
        pure (tail.drop ofs)
      else
        rebaseLoop tail (ofs + 1)
partial_fixpoint

/-- decoder_top.py:275-319 `__rebase_to_D3`: returns the new `_tail` and the return value. -/
def rebaseToD3 (tail : Bytes) : PyD (Bytes × Nat) := do
  if tail = [] then
    pure (tail, 0)
  else
    let tailLen := tail.length
    let b0 ← liftD (byteAt tail 0)
    let synchOk : Bool := b0 == 0xD3
    if tailLen = 1 then
      pure (tail, if synchOk then 1 else 0)
    else
      let b1 ← liftD (byteAt tail 1)
      let synchOk : Bool := if synchOk && (b1 &&& 0xFC) != 0 then false else synchOk
      if synchOk then
        pure (tail, tailLen)
      else
        let t ← rebaseLoop tail 1
        pure (t, t.length)

/-- The loop decoder_top.py:229-269. `ret` is `ret_list`. A `None` length would raise `TypeError` in the
comparison of line 250; a `None` from `mcrc` counts as false in line 254. -/
def catchLoop (st : Parser) (ret : List Bytes) : PyD (Parser × List Bytes) := do
  let tail0 := st.tail.length
  let (tail, tailLength) ← rebaseToD3 st.tail
  let st := { st with tail := tail }
  let st :=
    if (!st.skipped) && (tailLength < tail0) && st.synchronized then
      { st with skipped := true, synchronized := false }
    else st
  if tailLength < 6 then
    pure (st, ret)
  else
    match mlen st.tail with
    | none => liftD (.error .typeError)
    | some msgLength =>
      if msgLength > tailLength then
        pure (st, ret)
      else if mcrc st.tail = some true then
        let ret := ret ++ [st.tail.take msgLength]
        let st := { st with tail := st.tail.drop msgLength }
        let st :=
          if st.skipped then { st with parsErrCnt := st.parsErrCnt + 1, skipped := false } else st
        catchLoop { st with synchronized := true } ret
      else
        catchLoop { st with tail := st.tail.drop 1 } ret
partial_fixpoint

/-- decoder_top.py:222-271 `catch_message`. -/
def catchMessage (st : Parser) (chunk : Bytes) : PyD (Parser × List Bytes) :=
  let st := { st with tail := st.tail ++ chunk }
  if st.tail = [] then pure (st, [])
  else catchLoop st []

/-- A sequence of calls of `catch_message` (Converter.parse_bytes, converter_top.py:114-115): final state and
all returned messages in order. -/
def feed (st : Parser) : List Bytes → PyD (Parser × List Bytes)
  | [] => pure (st, [])
  | c :: cs => do
    let (st, ms) ← catchMessage st c
    let (st, ms') ← feed st cs
    pure (st, ms ++ ms')

end Framer
end Verif
