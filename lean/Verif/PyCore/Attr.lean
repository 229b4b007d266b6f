import Lean.Meta.Tactic.Simp.RegisterCommand

/-!
# Set of rules for the execution of programs in proofs
-/

/-- Rules with which programs are executed in proofs, see Verif/PyCore/Rules.lean. -/
register_simp_attr pyrun
