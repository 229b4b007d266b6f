import Verif.PyCore.Syntax

/-!
# utilities/bits.py

Generated by fidelity/embed.py from the text of the module.
-/

namespace Verif
namespace PyCore
namespace Src

/-- `ExceptionBitsError.process`, utilities/bits.py:20-22. -/
def fn_ExceptionBitsError_process : FnDef where
  params := [n!"self"]
  defaults := []
  body := [
    .expr (.call (.attr (.name n!"logger") n!"error") [.index (.attr (.name n!"self") n!"args") (.const (.int 0))])]

/-- `ExceptionBitsError`, utilities/bits.py:17-22. -/
def cls_ExceptionBitsError : ClassDef where
  mro := [n!"ExceptionBitsError"]
  members := [(n!"process", .method n!"ExceptionBitsError.process")]
  fields := []
  isData := false
  isExc := true

/-- `Bits.getbitu`, utilities/bits.py:50-71. -/
def fn_Bits_getbitu : FnDef where
  params := [n!"cls", n!"buf", n!"start_pos", n!"length"]
  defaults := []
  body := [
    .ite (.or (.cmp .lt (.name n!"length") (.const (.int 1))) (.or (.cmp .gt (.name n!"length") (.attr (.name n!"cls") n!"MAX_BIT_WIDTH")) (.cmp .lt (.name n!"start_pos") (.const (.int 0))))) [
      .raise (.call (.name n!"ExceptionBitsError") [.fstr [.name n!"length", .name n!"start_pos"]])] [],
    .assign (.name n!"finish_pos") (.bin .add (.name n!"start_pos") (.name n!"length")),
    .assign (.name n!"finish_byte") (.bin .shr (.bin .add (.name n!"finish_pos") (.const (.int 7))) (.const (.int 3))),
    .assign (.name n!"start_byte") (.bin .shr (.name n!"start_pos") (.const (.int 3))),
    .ite (.cmp .gt (.name n!"finish_byte") (.call (.name n!"len") [.name n!"buf"])) [
      .raise (.call (.name n!"ExceptionBitsError") [.fstr [.name n!"finish_byte", .call (.name n!"len") [.name n!"buf"]]])] [],
    .assign (.name n!"acc") (.call (.name n!"int") [.const (.int 0)]),
    .for (.name n!"i") (.call (.name n!"range") [.name n!"start_byte", .name n!"finish_byte"]) [
      .assign (.name n!"acc") (.bin .add (.bin .mul (.name n!"acc") (.const (.int 256))) (.index (.name n!"buf") (.name n!"i")))] [],
    .assign (.name n!"acc") (.bin .shr (.name n!"acc") (.bin .sub (.bin .mul (.name n!"finish_byte") (.const (.int 8))) (.name n!"finish_pos"))),
    .assign (.name n!"mask") (.bin .sub (.bin .shl (.call (.name n!"int") [.const (.int 1)]) (.name n!"length")) (.const (.int 1))),
    .ret (.bin .band (.name n!"acc") (.name n!"mask"))]

/-- `Bits.getbits`, utilities/bits.py:74-81. -/
def fn_Bits_getbits : FnDef where
  params := [n!"cls", n!"buf", n!"start_pos", n!"length"]
  defaults := []
  body := [
    .assign (.name n!"acc") (.call (.attr (.name n!"cls") n!"getbitu") [.name n!"buf", .name n!"start_pos", .name n!"length"]),
    .assign (.name n!"mask") (.bin .shl (.call (.name n!"int") [.const (.int 1)]) (.bin .sub (.name n!"length") (.const (.int 1)))),
    .assign (.name n!"acc") (.bin .sub (.bin .bxor (.name n!"acc") (.name n!"mask")) (.name n!"mask")),
    .ret (.name n!"acc")]

/-- `Bits.revbitu`, utilities/bits.py:84-98. -/
def fn_Bits_revbitu : FnDef where
  params := [n!"cls", n!"a", n!"length", n!"ofs"]
  defaults := [.int 0]
  body := [
    .ite (.cmp .gt (.bin .add (.name n!"length") (.name n!"ofs")) (.attr (.name n!"cls") n!"MAX_BIT_WIDTH")) [
      .raise (.call (.name n!"ExceptionBitsError") [.fstr [.bin .add (.name n!"length") (.name n!"ofs")]])] [],
    .assign (.name n!"src") (.bin .shr (.name n!"a") (.name n!"ofs")),
    .assign (.name n!"rv") (.const (.int 0)),
    .for (.name n!"_") (.call (.name n!"range") [.const (.int 0), .name n!"length"]) [
      .assign (.name n!"rv") (.bin .bor (.bin .shl (.name n!"rv") (.const (.int 1))) (.bin .band (.name n!"src") (.const (.int 1)))),
      .assign (.name n!"src") (.bin .shr (.name n!"src") (.const (.int 1)))] [],
    .ret (.name n!"rv")]

/-- `Bits.revbits`, utilities/bits.py:101-108. -/
def fn_Bits_revbits : FnDef where
  params := [n!"cls", n!"a", n!"length", n!"ofs"]
  defaults := [.int 0]
  body := [
    .assign (.name n!"rv") (.call (.attr (.name n!"cls") n!"revbitu") [.name n!"a", .name n!"length", .name n!"ofs"]),
    .assign (.name n!"mask") (.bin .shl (.const (.int 1)) (.bin .sub (.name n!"length") (.const (.int 1)))),
    .ret (.bin .sub (.bin .bxor (.name n!"rv") (.name n!"mask")) (.name n!"mask"))]

/-- `Bits`, utilities/bits.py:44-108. -/
def cls_Bits : ClassDef where
  mro := [n!"Bits"]
  members := [(n!"MAX_BIT_WIDTH", .value (.const (.int 128))),
    (n!"getbitu", .clsMethod n!"Bits.getbitu"),
    (n!"getbits", .clsMethod n!"Bits.getbits"),
    (n!"revbitu", .clsMethod n!"Bits.revbitu"),
    (n!"revbits", .clsMethod n!"Bits.revbits")]
  fields := []
  isData := false
  isExc := false

end Src
end PyCore
end Verif
