import Verif.Model.Controls
import Verif.Model.IniText

/-!
# Model of the command line

`create_argument_parser` (run_conversion.py:162-217) fills a table of the library class `ArgumentParser`; what `parse_args` makes of the
table and of a list of arguments is modelled after argparse.py of Python 3.11, for this table only. Simplifications: the texts that are
printed (help, version, usage, errors) are left out, only the way the program goes on counts; of the arguments that are left over
(`extras`) only whether there are some; digits of negative numbers are ASCII digits; arguments are texts without surrogates. Instead of
indices into the list of arguments the functions pass on the arguments that are still to be read.
-/

namespace Verif
namespace Args
open Conv Run Ctl

/-- The options with one argument: `dest` is `format`, `ini_file` and `rtcm_ext` (run_conversion.py:169-214). -/
inductive Store where
  | format
  | ini
  | ext
  deriving DecidableEq, Repr

/-- The actions of the options. `help` is added by the library, `version` by run_conversion.py:200-206; both take no argument. -/
inductive Act where
  | help
  | version
  | store (s : Store)
  deriving DecidableEq, Repr

/-- `_option_string_actions` after run_conversion.py:162-217, in the order of insertion. -/
def options : PyDict Txt Act :=
  [("-h".toList, .help), ("--help".toList, .help), ("-o".toList, .store .format), ("--output".toList, .store .format),
   ("-i".toList, .store .ini), ("--ini".toList, .store .ini), ("-v".toList, .version), ("--version".toList, .version),
   ("-ext".toList, .store .ext)]

/-- run_conversion.py:177 `choices` -/
def choices : List Txt := ["MARGO".toList, "JSON".toList, "JSON-B".toList, "JARGO".toList]

/-- How `parse_args` ends the program: with help or version (exit code 0), or with an error message (exit code 2).
Call: run_conversion.py:293, 296; library: argparse.py. -/
inductive Exit where
  | help
  | version
  | error
  deriving DecidableEq, Repr

/-- The exit code: argparse.py:1123, 1151 and 2640. -/
def Exit.code : Exit → Nat
  | .help => 0
  | .version => 0
  | .error => 2

/-- A parsing step that may end the program. Call: run_conversion.py:293, 296. -/
abbrev Res (α : Type) := Except Exit α

/-- What `_parse_optional` returns for an option: action, option string, whether `sep` is `=`, explicit argument.
Options: run_conversion.py:169-215. -/
structure Found where
  act : Act
  name : Txt
  eq : Bool := false
  arg : Option Txt := none
  deriving DecidableEq, Repr

/-- An argument as `_parse_known_args` classifies it: `A`, `-` or `O` in `arg_strings_pattern`.
Call: run_conversion.py:293, 296. -/
inductive Tok where
  | plain (t : Txt)
  | dashes
  | opt (f : Found)
  /-- an option that is not in the table -/
  | unknown
  deriving DecidableEq, Repr

/-- `t.partition("=")`: the part before the first `=`, and the part after it if there is one.
Used by argparse for the options of run_conversion.py:169-215. -/
def partitionEq : Txt → Txt × Option Txt
  | [] => ([], none)
  | c :: cs => if c = '=' then ([], some cs) else (c :: (partitionEq cs).1, (partitionEq cs).2)

/-- argparse.py:2300-2340 `_get_option_tuples`, for a text of at least two characters that begins with `-`. -/
def optionTuples (t : Txt) : List Found :=
  if t.take 2 = ['-', '-'] then
    options.filterMap fun o =>
      if (partitionEq t).1.isPrefixOf o.1 then some ⟨o.2, o.1, (partitionEq t).2.isSome, (partitionEq t).2⟩ else none
  else
    options.filterMap fun o =>
      if o.1 = t.take 2 then some ⟨o.2, o.1, false, some (t.drop 2)⟩
      else if t.isPrefixOf o.1 then some ⟨o.2, o.1, false, none⟩ else none

/-- argparse.py:1386 `_negative_number_matcher`: `^-\d+$|^-\d*\.\d+$`, where `$` also matches before a line feed at the end. -/
def negativeNumber (t : Txt) : Bool :=
  let b := if t.getLast? = some '\n' then t.dropLast else t
  let ds := b.tail.takeWhile Char.isDigit
  let r := b.tail.dropWhile Char.isDigit
  b.head? = some '-' && ((!ds.isEmpty && r.isEmpty) || (r.head? = some '.' && !r.tail.isEmpty && r.tail.all Char.isDigit))

/-- argparse.py:2262-2266: an option string of the table, `=` and an explicit argument. -/
def exactEq (t : Txt) : Option Found :=
  match (partitionEq t).2, options.get? (partitionEq t).1 with
  | some v, some a => some ⟨a, (partitionEq t).1, true, some v⟩
  | _, _ => none

/-- argparse.py:2243-2298 `_parse_optional`; an ambiguous abbreviation is an error. -/
def parseOptional (t : Txt) : Res Tok :=
  if t.head? ≠ some '-' then .ok (.plain t)
  else
    match options.get? t with
    | some a => .ok (.opt ⟨a, t, false, none⟩)
    | none =>
      if t.length = 1 then .ok (.plain t)
      else
        match exactEq t with
        | some f => .ok (.opt f)
        | none =>
          match optionTuples t with
          | _ :: _ :: _ => .error .error
          | [f] => .ok (.opt f)
          | [] => if negativeNumber t then .ok (.plain t) else if ' ' ∈ t then .ok (.plain t) else .ok .unknown

/-- argparse.py:1936-1959, the first loop of `_parse_known_args`: every argument is classified before anything else happens; after `--` there are no options. -/
def classify : List Txt → Res (List Tok)
  | [] => .ok []
  | t :: ts =>
    if t = ['-', '-'] then .ok (.dashes :: ts.map .plain)
    else
      match parseOptional t with
      | .error x => .error x
      | .ok k =>
        match classify ts with
        | .error x => .error x
        | .ok ks => .ok (k :: ks)

/-- The namespace, `source` as long as it has not been parsed being `none`; and whether there are `extras`.
Arguments: run_conversion.py:169-215. -/
structure State where
  format : Txt := "MARGO".toList
  ini : Option Txt := none
  ext : Txt := "rtcm3".toList
  source : Option (List Txt) := none
  extras : Bool := false
  deriving DecidableEq, Repr

/-- argparse.py:1965-1983 `take_action` for an option with one argument, with `_check_value`. -/
def takeStore (st : State) (s : Store) (v : Txt) : Res State :=
  match s with
  | .format => if v ∈ choices then .ok { st with format := v } else .error .error
  | .ini => .ok { st with ini := some v }
  | .ext => .ok { st with ext := v }

/-- An action with its arguments, as in `action_tuples`. Actions: run_conversion.py:169-215. -/
abbrev Taken := Act × List Txt

/-- argparse.py:2067-2068, the loop `for action, args, option_string in action_tuples` of `consume_optional`. -/
def takeActions : State → List Taken → Res State
  | st, [] => .ok st
  | _, (.help, _) :: _ => .error .help
  | _, (.version, _) :: _ => .error .version
  | st, (.store s, args) :: rest =>
    match takeStore st s (args.headD []) with
    | .error x => .error x
    | .ok st => takeActions st rest

/-- argparse.py:2055-2061, `consume_optional` without explicit argument: a flag takes nothing, an option needs one argument `A` after it. -/
def following (acts : List Taken) (rest : List Tok) : Act → Res (List Taken × Bool × List Tok)
  | .store s =>
    match rest with
    | .plain v :: rest => .ok (acts ++ [(.store s, [v])], false, rest)
    | _ => .error .error
  | a => .ok (acts ++ [(a, [])], false, rest)

/-- argparse.py:2005-2050, `consume_optional` with an explicit argument. `long` tells whether the second character of the option string is `-`. The second
result tells whether something is added to `extras`. -/
def explicit (rest : List Tok) (acts : List Taken) (long eq : Bool) (a : Act) : Txt → Res (List Taken × Bool × List Tok)
  | [] =>
    match a with
    | .store s => .ok (acts ++ [(.store s, [[]])], false, rest)
    | _ => .error .error
  | c :: cs =>
    match a with
    | .store s => .ok (acts ++ [(.store s, [c :: cs])], false, rest)
    | a =>
      if long then .error .error
      else if eq ∨ c = '-' then .error .error
      else
        match options.get? ['-', c] with
        | none => .ok (acts ++ [(a, [])], true, rest)
        | some b =>
          match cs with
          | [] => following (acts ++ [(a, [])]) rest b
          | d :: ds =>
            if d = '=' then explicit rest (acts ++ [(a, [])]) false true b ds
            else explicit rest (acts ++ [(a, [])]) false false b (d :: ds)

/-- argparse.py:1988-2062: the actions that an option of the table stands for, whether something is added to `extras`, and the arguments
after it. -/
def chain (f : Found) (rest : List Tok) : Res (List Taken × Bool × List Tok) :=
  match f.arg with
  | none => following [] rest f.act
  | some e => explicit rest [] (f.name.take 2 = ['-', '-']) f.eq f.act e

/-- argparse.py:1986-2069 `consume_optional`, for an option of the table. -/
def consumeOptional (st : State) (f : Found) (rest : List Tok) : Res (State × List Tok) :=
  match chain f rest with
  | .error x => .error x
  | .ok (acts, extra, rest) =>
    match takeActions { st with extras := st.extras || extra } acts with
    | .error x => .error x
    | .ok st => .ok (st, rest)

/-- An argument that is not an option (`A` in the pattern of argparse; call: run_conversion.py:293, 296). -/
def Tok.isPlain : Tok → Bool
  | .plain _ => true
  | _ => false

/-- The argument `--` (`-` in the pattern of argparse; call: run_conversion.py:293, 296). -/
def Tok.isDashes : Tok → Bool
  | .dashes => true
  | _ => false

/-- The arguments that are not options, as texts. Call: run_conversion.py:293, 296. -/
def texts : List Tok → List Txt
  | [] => []
  | .plain t :: ks => t :: texts ks
  | .dashes :: ks => ['-', '-'] :: texts ks
  | _ :: ks => texts ks

/-- argparse.py:2475-2482, `_get_values` for `source`: the first `--` is removed. -/
def sourceValue (ks : List Tok) : List Txt := (texts ks).erase ['-', '-']

/-- An option (`O` in the pattern of argparse; call: run_conversion.py:293, 296). -/
def Tok.isOption : Tok → Bool
  | .opt _ => true
  | .unknown => true
  | _ => false

/-- argparse.py:2131-2134, `consume_positionals` (2076-2092) after the last option, and the rest of `extras`: `source` takes all that is left if there is an `A` in it
(pattern `-*A[A-]*`). -/
def finish (st : State) (ks : List Tok) : State :=
  match st.source with
  | some _ => { st with extras := st.extras || !ks.isEmpty }
  | none =>
    match ks.dropWhile Tok.isDashes with
    | .plain _ :: _ => { st with source := some (sourceValue ks) }
    | _ => { st with extras := st.extras || !ks.isEmpty }

/-- argparse.py:2102-2134, the loop `while start_index <= max_option_string_index` of `_parse_known_args` and what follows it. Every round uses up an argument,
`n` is the number of arguments. -/
def loop : Nat → State → List Tok → Res State
  | 0, st, ks => .ok (finish st ks)
  | n + 1, st, ks =>
    if ks.any Tok.isOption then
      match ks with
      | .opt f :: ks =>
        match consumeOptional st f ks with
        | .error x => .error x
        | .ok (st, ks) => loop n st ks
      | .unknown :: ks => loop n { st with extras := true } ks
      | ks =>
        let run := ks.takeWhile Tok.isPlain
        let rest := ks.dropWhile Tok.isPlain
        match st.source with
        | none => loop n { st with source := some (sourceValue run) } rest
        | some _ => loop n { st with extras := true } rest
    else .ok (finish st ks)

/-- The attributes of the namespace that `main` uses. Used in run_conversion.py:299-306, 315. -/
structure Request where
  source : List Txt
  format : Txt
  ini : Option Txt
  ext : Txt
  deriving DecidableEq, Repr

/-- argparse.py:1873-1878 `arg_parser.parse_args(argv)` with the parser of run_conversion.py:162-217. -/
def parseArgs (argv : List Txt) : Res Request :=
  match classify argv with
  | .error x => .error x
  | .ok ks =>
    match loop ks.length {} ks with
    | .error x => .error x
    | .ok st =>
      match st.source with
      | none => .error .error
      | some source => if st.extras then .error .error else .ok ⟨source, st.format, st.ini, st.ext⟩

/-- run_conversion.py:290-295: the arguments come from the command prompt, or from a text that is split at blanks. -/
def argv (prompt : List Txt) : Option Txt → List Txt
  | none => prompt
  | some t => splitOn ' ' t

/-- How the program ends. Calls: run_conversion.py:282-350. -/
inductive Ending where
  /-- an exception that is not caught -/
  | raised (e : PyErr)
  /-- `SystemExit` -/
  | exited (code : Nat)
  | finished (vs : List Verdict)
  deriving Repr

/-- run_conversion.py:282-350 `main`. `ini` gives the configuration files by their paths. -/
def command (fr : Rat → Txt) (sh : Shell) (src : Txt → Option Bytes) (ini : Txt → IniFile) (order1 order2 : List Txt → List Txt)
    (prompt : List Txt) (localArgs : Option Txt) (w : Disk) (ready : Bool) : Option ((Disk × Bool) × Ending) :=
  match ({} : Manager).initFromFile order1 (ini "defaults.ini".toList) with
  | (_, .error e) => some ((w, ready), .raised e)
  | (m, .ok ()) =>
    match parseArgs (argv prompt localArgs) with
    | .error x => some ((w, ready), .exited x.code)
    | .ok r =>
      match (match r.ini with
        | none => (m, (.ok () : Py Unit))
        | some p => m.updateFromFile order2 (ini p)) with
      | (_, .error e) => some ((w, ready), .raised e)
      | (m, .ok ()) =>
        match mainLoop fr src (String.ofList r.format) m.boxed w ready (makeListOfSourceFiles sh r.source r.ext) with
        | none => none
        | some (s, .error e) => some (s, .raised e)
        | some (s, .ok vs) => some (s, .finished vs)

end Args
end Verif
