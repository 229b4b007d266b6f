import Verif.Model.Controls
import Verif.Spec.Select

/-!
# When a configuration defines controls
-/

namespace Verif
namespace Spec
open Ctl

/-- Text of an option (its name in lower case): that of the section, or else that of `DEFAULT`. -/
def optionText (ini : Ini) (section_ option : String) : Option Txt :=
  ((List.lookup section_.toList ini.sects).bind (List.lookup option.toList)).or (List.lookup option.toList ini.defaults)

/-- What a text stands for, with references to options that are nested at most `depth` deep: `%%` stands for a percent sign, `%(name)s`
for the text of the option `name`, everything else for itself. `look` gives the texts of the options. -/
inductive Expands (look : Txt → Option Txt) : Nat → Txt → Txt → Prop
  | nil {depth} : Expands look (depth + 1) [] []
  | char {depth c t r} : c ≠ '%' → Expands look (depth + 1) t r → Expands look (depth + 1) (c :: t) (c :: r)
  | percent {depth t r} : Expands look (depth + 1) t r → Expands look (depth + 1) ('%' :: '%' :: t) ('%' :: r)
  | plain {depth name v t r} : name ≠ [] → ')' ∉ name → look (name.map Char.toLower) = some v → '%' ∉ v →
      Expands look (depth + 1) t r → Expands look (depth + 1) ('%' :: '(' :: (name ++ ')' :: 's' :: t)) (v ++ r)
  | nested {depth name v w t r} : name ≠ [] → ')' ∉ name → look (name.map Char.toLower) = some v → '%' ∈ v → Expands look depth v w →
      Expands look (depth + 1) t r → Expands look (depth + 1) ('%' :: '(' :: (name ++ ')' :: 's' :: t)) (w ++ r)

/-- What an option (its name in lower case) stands for; references to options of the same section are resolved, 10 levels deep. -/
def OptionValue (ini : Ini) (section_ option : String) (t : Txt) : Prop :=
  ∃ r, optionText ini section_ option = some r ∧ Expands (fun name => optionText ini section_ (String.ofList name)) 10 r t

/-- The section exists. -/
def Section (ini : Ini) (name : String) : Prop := ∃ opts, (name.toList, opts) ∈ ini.sects

/-- Texts of truth values, in any case of letters. -/
def BoolText (t : Txt) (b : Bool) : Prop :=
  t.map Char.toLower ∈ (if b then ["1", "yes", "true", "on"] else ["0", "no", "false", "off"]).map String.toList

/-- An option of the section of literals that belongs to satellite `sat`: its number with letters `r` or `R` around it. -/
def LiteralKey (key : Txt) (sat : Int) : Prop :=
  ∃ a n b, key = a ++ n ++ b ∧ (∀ c ∈ a, c = 'r' ∨ c = 'R') ∧ (∀ c ∈ b, c = 'r' ∨ c = 'R') ∧ IntText n sat

/-- The configuration defines the controls `c` of the MARGO printer completely: sections, time shift and switches are there, and the
table has a literal of the configuration for the satellites 1 to 24 and for no others. -/
structure MargoValid (ini : Ini) (c : Margo.Controls) : Prop where
  sections : Section ini "LITERALS" ∧ Section ini "TIME" ∧ Section ini "MARGO"
  shift : ∃ t, OptionValue ini "TIME" "gps2utc" t ∧ IntText t c.gps_utc_shift
  hca : ∃ t, OptionValue ini "MARGO" "hca" t ∧ BoolText t c.half_cycle_enable
  lock : ∃ t, OptionValue ini "MARGO" "lock_time" t ∧ BoolText t c.lock_time_enable
  literals : ∀ sat : Nat, 1 ≤ sat ∧ sat ≤ 24 → ∃ v, List.lookup sat c.glo_lit_tab = some v ∧
    ∃ key t, LiteralKey key.toList sat ∧ OptionValue ini "LITERALS" key t ∧ IntText t v
  others : ∀ (sat : Nat) v, List.lookup sat c.glo_lit_tab = some v → 1 ≤ sat ∧ sat ≤ 24

/-- The configuration defines the controls `c` of the JSON printer completely. -/
structure JsonValid (ini : Ini) (c : Json.Controls) : Prop where
  sections : Section ini "JSON"
  hdr : ∃ t, OptionValue ini "JSON" "enable_hdr_data" t ∧ BoolText t c.enable_hdr_data
  aux : ∃ t, OptionValue ini "JSON" "enable_aux_data" t ∧ BoolText t c.enable_aux_data
  pretty : ∃ t, OptionValue ini "JSON" "enable_pretty_view" t ∧ BoolText t c.enable_pretty_view

/-- Literals can be read: every option of the section (and of `DEFAULT`) belongs to a number, satellites 1 to 24 all have one, and the
values are integers. -/
structure LiteralsReadable (ini : Ini) : Prop where
  keys : ∀ key t, optionText ini "LITERALS" key = some t → ∃ sat, LiteralKey key.toList sat ∧
    (1 ≤ sat ∧ sat ≤ 24 → ∃ t v, OptionValue ini "LITERALS" key t ∧ IntText t v)
  all : ∀ sat : Int, 1 ≤ sat ∧ sat ≤ 24 → ∃ key t, optionText ini "LITERALS" key = some t ∧ LiteralKey key.toList sat

/-- Names of options are in lower case, as `ConfigParser` stores them. -/
def LowerKeys (ini : Ini) : Prop :=
  (∀ s ∈ ini.sects, ∀ o ∈ s.2, o.1.map Char.toLower = o.1) ∧ ∀ o ∈ ini.defaults, o.1.map Char.toLower = o.1

/-- Every name occurs once. -/
def UniqueNames (ini : Ini) : Prop :=
  (ini.sects.map Prod.fst).Nodup ∧ (∀ s ∈ ini.sects, (s.2.map Prod.fst).Nodup) ∧ (ini.defaults.map Prod.fst).Nodup

end Spec
end Verif
