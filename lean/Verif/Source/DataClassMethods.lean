import Verif.PyCore.Syntax

/-!
# gnss_types/data_class_methods.py

Generated by fidelity/embed.py from the text of the module. Left out:
`DataClassMethods.__compare`, `DataClassMethods.compare`, `DataClassMethods.len`, `DEF_FLOAT_CMP_TOLR`.
-/

namespace Verif
namespace PyCore
namespace Src

/-- `DataClassMethods.items`, gnss_types/data_class_methods.py:26-29. -/
def fn_DataClassMethods_items : FnDef where
  params := [n!"self"]
  defaults := []
  body := [
    .assign (.name n!"$out") (.list []),
    .for (.name n!"field") (.call (.name n!"fields") [.attr (.name n!"self") n!"__class__"]) [
      .expr (.call (.attr (.name n!"$out") n!"append") [.tuple [.attr (.name n!"field") n!"name", .call (.name n!"getattr") [.name n!"self", .attr (.name n!"field") n!"name"]]])] [],
    .ret (.name n!"$out")]

/-- `DataClassMethods.copy`, gnss_types/data_class_methods.py:31-37. -/
def fn_DataClassMethods_copy : FnDef where
  params := [n!"self"]
  defaults := []
  body := [
    .assign (.name n!"ret") (.call (.attr (.name n!"self") n!"__class__") []),
    .for (.name n!"$t") (.call (.attr (.name n!"self") n!"items") []) [
      .unpack [.name n!"key", .name n!"value"] (.name n!"$t"),
      .expr (.call (.name n!"setattr") [.name n!"ret", .name n!"key", .name n!"value"])] [],
    .ret (.name n!"ret")]

/-- `DataClassMethods.deepcopy`, gnss_types/data_class_methods.py:39-41. -/
def fn_DataClassMethods_deepcopy : FnDef where
  params := [n!"self"]
  defaults := []
  body := [
    .ret (.call (.attr (.name n!"copy") n!"deepcopy") [.name n!"self"])]

/-- `DataClassMethods`, gnss_types/data_class_methods.py:23-126. -/
def cls_DataClassMethods : ClassDef where
  mro := [n!"DataClassMethods"]
  members := [(n!"items", .method n!"DataClassMethods.items"),
    (n!"copy", .method n!"DataClassMethods.copy"),
    (n!"deepcopy", .method n!"DataClassMethods.deepcopy")]
  fields := []
  isData := true
  isExc := false

end Src
end PyCore
end Verif
