import Verif.Model.Text

/-!
# Specification of the command line

The grammar of the command line (DOCs/CommandLineArgs.md, run_conversion.py:162-217 and the documentation of argparse), on words, without
reference to how it is parsed: options with their values, a group of sources, options again; or options, sources, `--` and anything.
-/

namespace Verif
namespace Spec
namespace Cmd

/-- What an option with a value sets. -/
inductive Setting where
  | format
  | ini
  | ext
  deriving DecidableEq, Repr

/-- Names of one letter: a value can be glued to them. -/
inductive Short : Setting → Txt → Prop
  | o : Short .format ['-', 'o']
  | i : Short .ini ['-', 'i']

/-- Names with two dashes: they may be abbreviated. -/
inductive Long : Setting → Txt → Prop
  | output {n : Txt} (h : n <+: "--output".toList) (l : 3 ≤ n.length) : Long .format n
  | ini {n : Txt} (h : n <+: "--ini".toList) (l : 3 ≤ n.length) : Long .ini n

/-- A negative number, possibly followed by a line feed. -/
def Number (w : Txt) : Prop :=
  ∃ ds fs e : Txt, (∀ c ∈ ds ++ fs, c.isDigit) ∧ (e = [] ∨ e = ['\n']) ∧
    ((ds ≠ [] ∧ w = '-' :: ds ++ e) ∨ (fs ≠ [] ∧ w = '-' :: ds ++ '.' :: fs ++ e))

/-- Words that are taken for an option: one of the letters `h`, `o`, `i`, `v` with whatever follows, the option `-ext` and its
abbreviations, abbreviations of the long names, possibly with `=` and something. -/
inductive OptionWord : Txt → Prop
  | letter {c : Char} {t : Txt} (h : c ∈ ['h', 'o', 'i', 'v']) : OptionWord ('-' :: c :: t)
  | ext {n : Txt} (h : n ∈ ["-e".toList, "-ex".toList, "-ext".toList]) : OptionWord n
  | extEq (v : Txt) : OptionWord ("-ext=".toList ++ v)
  | long {n m : Txt} (hm : m ∈ ["--help".toList, "--output".toList, "--ini".toList, "--version".toList]) (h : n <+: m)
      (l : 2 ≤ n.length) : OptionWord n
  | longEq {n m v : Txt} (hm : m ∈ ["--help".toList, "--output".toList, "--ini".toList, "--version".toList]) (h : n <+: m)
      (l : 2 ≤ n.length) : OptionWord (n ++ '=' :: v)

/-- Words that can be a source or the value of an option: those that do not begin with a dash, a single dash, and words with a dash that
cannot be an option and are a number or contain a blank. -/
def Plain (w : Txt) : Prop := w.head? ≠ some '-' ∨ w = ['-'] ∨ (¬ OptionWord w ∧ (Number w ∨ ' ' ∈ w))

/-- The ways to give a value: `-o JSON`, `-e rtcm`, `--output JSON`; `-o=JSON`, `-ext=rtcm`, `--output=JSON`; `-oJSON`. -/
inductive Gives : Setting → Txt → List Txt → Prop
  | short {s n v} (hn : Short s n) (hv : Plain v) : Gives s v [n, v]
  | long {s n v} (hn : Long s n) (hv : Plain v) : Gives s v [n, v]
  | ext {n v} (hn : n ∈ ["-e".toList, "-ex".toList, "-ext".toList]) (hv : Plain v) : Gives .ext v [n, v]
  | shortEq {s n} (v : Txt) (hn : Short s n) : Gives s v [n ++ '=' :: v]
  | longEq {s n} (v : Txt) (hn : Long s n) : Gives s v [n ++ '=' :: v]
  | extEq (v : Txt) : Gives .ext v ["-ext=".toList ++ v]
  | glued {s n v} (hn : Short s n) (h1 : v ≠ []) (h2 : v.head? ≠ some '=') : Gives s v [n ++ v]

/-- A sequence of options with the values they give, in order. -/
inductive Options : List (Setting × Txt) → List Txt → Prop
  | nil : Options [] []
  | cons {s v ws l rest} (h : Gives s v ws) (t : Options l rest) : Options ((s, v) :: l) (ws ++ rest)

/-- The last value given for a setting. -/
def last (s : Setting) (l : List (Setting × Txt)) : Option Txt := ((l.filter (·.1 = s)).getLast?).map (·.2)

/-- The formats that can be chosen. -/
def formats : List Txt := ["MARGO".toList, "JSON".toList, "JSON-B".toList, "JARGO".toList]

/-- The command line `argv` asks to convert `source`, with these settings: options, sources, options; or options, sources, `--` and
further sources. Every format that is named exists, the last value of each setting counts. -/
def CmdLine (source : List Txt) (format : Txt) (ini : Option Txt) (ext : Txt) (argv : List Txt) : Prop :=
  ∃ (before after : List (Setting × Txt)) (ws1 ws2 first : List Txt),
    Options before ws1 ∧ (∀ w ∈ first, Plain w) ∧ source ≠ [] ∧
    ((Options after ws2 ∧ argv = ws1 ++ first ++ ws2 ∧ source = first) ∨
      (after = [] ∧ ∃ more, argv = ws1 ++ first ++ ['-', '-'] :: more ∧ source = first ++ more)) ∧
    (∀ v, (Setting.format, v) ∈ before ++ after → v ∈ formats) ∧
    format = (last .format (before ++ after)).getD "MARGO".toList ∧
    ini = last .ini (before ++ after) ∧
    ext = (last .ext (before ++ after)).getD "rtcm3".toList

/-- The words that ask for help or for the version, alone or at the beginning of a word with further letters. -/
inductive Asks : Txt → Prop
  | letter {c : Char} {t : Txt} (h : c = 'h' ∨ c = 'v') : Asks ('-' :: c :: t)
  | long {n m : Txt} (hm : m = "--help".toList ∨ m = "--version".toList) (h : n <+: m) (l : 3 ≤ n.length) : Asks n

/-- An abbreviation that stands for several options: two dashes and `=`. -/
def Ambiguous (w : Txt) : Prop := ∃ v, w = '-' :: '-' :: '=' :: v

end Cmd
end Spec
end Verif
