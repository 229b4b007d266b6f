import Lean.PrettyPrinter.Delaborator.Builtins

/-!
# Identifiers

Identifiers of programs are numbers, so that the kernel compares them quickly: `n!"abc"` is the identifier whose number has the digits
97, 98, 99 in base 256.
-/

namespace Verif
namespace PyCore

/-- An identifier. -/
structure Ident where
  code : Nat
  deriving DecidableEq

instance : BEq Ident := ⟨fun a b => Nat.beq a.code b.code⟩

instance : LawfulBEq Ident where
  eq_of_beq {a b} h := by
    cases a; cases b
    exact congrArg Ident.mk (Nat.eq_of_beq_eq_true h)
  rfl {a} := Nat.beq_refl a.code

theorem ident_beq (a b : Nat) : ((⟨a⟩ : Ident) == ⟨b⟩) = (a == b) := by
  rw [Bool.eq_iff_iff, beq_iff_eq, beq_iff_eq, Ident.mk.injEq]

/-- The number of an identifier. -/
def codeOf (s : String) : Nat := s.toList.foldl (fun n c => n * 256 + c.toNat) 0

/-- Identifiers in programs and proofs. -/
macro:max "n!" noWs s:str : term => do
  let n := Lean.Syntax.mkNumLit (toString (codeOf s.getString))
  `(Ident.mk $n)

open Lean in
/-- Identifiers are shown as they are written. -/
@[app_unexpander Ident.mk]
def unexpandIdent : PrettyPrinter.Unexpander
  | `($_ $n:num) => do
    let rec go (k : Nat) (fuel : Nat) (acc : List Char) : List Char :=
      match fuel with
      | 0 => acc
      | fuel + 1 => if k = 0 then acc else go (k / 256) fuel (Char.ofNat (k % 256) :: acc)
    let s := Syntax.mkStrLit (String.ofList (go n.getNat 200 []))
    `(n!$s)
  | _ => throw ()

example : n!"ab" = ⟨97 * 256 + 98⟩ := rfl

end PyCore
end Verif
