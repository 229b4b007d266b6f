import Verif.Spec.Controls

/-!
# The format of configuration files

A document is a list of sections. A section is a header line and a list of options; an option is a line with a name, a delimiter and a
value, and the value may go on in indented lines. Blank lines and comment lines may stand before headers, before options and at the end.
-/

namespace Verif
namespace Spec
open Ctl Run

/-- The text stays within one line. -/
def Inline (t : Txt) : Prop := '\n' ∉ t ∧ '\r' ∉ t

/-- White space within a line. -/
def Blanks (t : Txt) : Prop := (∀ c ∈ t, WhiteSpace c) ∧ Inline t

/-- No white space at either end. -/
def Trimmed (t : Txt) : Prop := (∀ c ∈ t.head?, ¬ WhiteSpace c) ∧ ∀ c ∈ t.getLast?, ¬ WhiteSpace c

/-- Characters that begin a comment. -/
def CommentMark (c : Char) : Prop := c = '#' ∨ c = ';'

/-- Characters between name and value. -/
def Delimiter (c : Char) : Prop := c = '=' ∨ c = ':'

/-- A line that says nothing. -/
inductive Filler where
  | blank (ws : Txt)
  | comment (ws : Txt) (mark : Char) (text : Txt)
  deriving DecidableEq, Repr

def Filler.line : Filler → Txt
  | .blank ws => ws
  | .comment ws mark text => ws ++ mark :: text

def Filler.OK : Filler → Prop
  | .blank ws => Blanks ws
  | .comment ws mark text => Blanks ws ∧ CommentMark mark ∧ Inline text

/-- A further line of a value. -/
structure MoreLine where
  indent : Txt
  text : Txt
  trail : Txt := []
  deriving DecidableEq, Repr

def MoreLine.line (m : MoreLine) : Txt := m.indent ++ m.text ++ m.trail

structure MoreLine.OK (m : MoreLine) : Prop where
  indent : Blanks m.indent ∧ m.indent ≠ []
  text : Inline m.text ∧ Trimmed m.text ∧ m.text ≠ [] ∧ ∀ c ∈ m.text.head?, ¬ CommentMark c
  trail : Blanks m.trail

/-- An option. -/
structure Entry where
  before : List Filler := []
  name : Txt
  sp1 : Txt := " ".toList
  delim : Char := '='
  sp2 : Txt := " ".toList
  value : Txt
  trail : Txt := []
  more : List MoreLine := []
  deriving DecidableEq, Repr

/-- The first line of an option. -/
def Entry.line (e : Entry) : Txt := e.name ++ e.sp1 ++ e.delim :: (e.sp2 ++ e.value ++ e.trail)

def Entry.lines (e : Entry) : List Txt := e.before.map Filler.line ++ e.line :: e.more.map MoreLine.line

/-- The value of an option: its lines with line feeds between them. -/
def Entry.content (e : Entry) : Txt := e.value ++ e.more.flatMap (fun m => '\n' :: m.text)

/-- The name of an option; letters are not case sensitive. -/
def Entry.key (e : Entry) : Txt := e.name.map Char.toLower

structure Entry.OK (e : Entry) : Prop where
  before : ∀ f ∈ e.before, f.OK
  name : Inline e.name ∧ Trimmed e.name ∧ e.name ≠ []
  /-- the name does not look like a comment or a header, and has no delimiter in it -/
  start : ∀ c ∈ e.name.head?, ¬ CommentMark c ∧ c ≠ '['
  plain : ∀ c ∈ e.name, ¬ Delimiter c
  blanks : Blanks e.sp1 ∧ Blanks e.sp2 ∧ Blanks e.trail
  delim : Delimiter e.delim
  value : Inline e.value ∧ Trimmed e.value
  more : ∀ m ∈ e.more, m.OK

/-- A section. -/
structure Block where
  before : List Filler := []
  name : Txt
  trail : Txt := []
  entries : List Entry
  deriving DecidableEq, Repr

def Block.line (b : Block) : Txt := '[' :: (b.name ++ ']' :: b.trail)

def Block.lines (b : Block) : List Txt := b.before.map Filler.line ++ b.line :: b.entries.flatMap Entry.lines

def Block.options (b : Block) : List (Txt × Txt) := b.entries.map (fun e => (e.key, e.content))

structure Block.OK (b : Block) : Prop where
  before : ∀ f ∈ b.before, f.OK
  name : Inline b.name ∧ b.name ≠ []
  trail : Blanks b.trail
  entries : ∀ e ∈ b.entries, e.OK
  /-- every option is given once -/
  unique : (b.entries.map Entry.key).Nodup

/-- A configuration file. -/
structure Document where
  blocks : List Block
  after : List Filler := []
  deriving DecidableEq, Repr

def Document.lines (d : Document) : List Txt := d.blocks.flatMap Block.lines ++ d.after.map Filler.line

structure Document.OK (d : Document) : Prop where
  blocks : ∀ b ∈ d.blocks, b.OK
  after : ∀ f ∈ d.after, f.OK
  /-- every section is given once -/
  unique : (d.blocks.map Block.name).Nodup

/-- Ends of lines: those of Linux, Windows and old Macs. -/
def LineEnd (e : Txt) : Prop := e = ['\n'] ∨ e = ['\r', '\n'] ∨ e = ['\r']

/-- The text of the document. -/
def Document.text (d : Document) (eol : Txt) : Txt := d.lines.flatMap (· ++ eol)

/-- What the document says: the options of the sections, and those of the section `DEFAULT`. -/
def Document.contents (d : Document) : Ini where
  sects := (d.blocks.filter (fun b => b.name ≠ "DEFAULT".toList)).map (fun b => (b.name, b.options))
  defaults := (d.blocks.filter (fun b => b.name = "DEFAULT".toList)).flatMap Block.options

end Spec
end Verif
