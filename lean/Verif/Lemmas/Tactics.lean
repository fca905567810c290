import Mathlib.Tactic.ByContra
import Mathlib.Tactic.Use
import Mathlib.Tactic.Tauto
import Mathlib.Tactic.Push
import Mathlib.Tactic.Linarith
import Mathlib.Tactic.Ring
import Mathlib.Tactic.NormNum
import Mathlib.Tactic.SplitIfs
import Mathlib.Tactic.IntervalCases
/-
Tactics used by the proofs.
-/
