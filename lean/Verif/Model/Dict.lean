/-!
# Python `dict`

An association list in insertion order with unique keys. `set` replaces the value of an existing key in
place and appends a new key at the end, as CPython does.
-/

namespace Verif

/-- Python `dict[κ, α]`.
Used for example in gnss_types/observables.py:124-142 and printer_top.py:70-74. -/
abbrev PyDict (κ α : Type) : Type := List (κ × α)

namespace PyDict
variable {κ α : Type} [BEq κ]

/-- `d.get(k)`, `none` is `None`.
Used in decoder_top.py:122, utilities/RTCM_utilities.py:386-438,
printers/margo_printer.py:108, 136, 145, 154. -/
def get? (d : PyDict κ α) (k : κ) : Option α := List.lookup k d

/-- `k in d`.
Used in decoder_top.py:205, printers/margo_printer.py:167, 224, 245, 429,
printers/json_printer.py:185, 217. -/
def mem (d : PyDict κ α) (k : κ) : Bool := (List.lookup k d).isSome

/-- `d[k] = v`.
Used in sub_decoders/RTCM_BASE.py:260, 311-347, sub_decoders/RTCM_MSM.py:403-410,
printers/margo_printer.py:419, printers/json_printer.py:175. -/
def set (d : PyDict κ α) (k : κ) (v : α) : PyDict κ α :=
  if mem d k then d.map (fun p => if p.1 == k then (p.1, v) else p) else d ++ [(k, v)]

/-- `d.update(e)`.
Used in decoder_top.py:187, sub_decoders/RTCM_MSM.py:459-465, 524-565,
printers/margo_printer.py:248, 283. -/
def update (d e : PyDict κ α) : PyDict κ α := e.foldl (fun d p => set d p.1 p.2) d

/-- `d.keys()`.
Used in decoder_top.py:205, printers/margo_printer.py:115, 245, printers/json_printer.py:185,
217. -/
def keys (d : PyDict κ α) : List κ := d.map (·.1)

end PyDict
end Verif
