import Mathlib.Analysis.SpecialFunctions.Gamma.Basic
import Mathlib.Analysis.SpecialFunctions.Pow.Real

/-!
# The Fermi-Dirac integral

The textbook object `FD_int_num` is documented to compute (general.py:46: "the script F defined by Blakemore (1982)");
nothing here comes from the code.
-/

namespace Optics

/-- The density of states of order `j` times the Fermi function. -/
noncomputable def fermiIntegrand (eta j x : ℝ) : ℝ := x ^ j / (1 + Real.exp (x - eta))

/-- The Fermi-Dirac integral of order `j`, in Blakemore's normalisation. -/
noncomputable def fermiDirac (eta j : ℝ) : ℝ := (∫ x in Set.Ioi 0, fermiIntegrand eta j x) / Real.Gamma (j + 1)

end Optics
