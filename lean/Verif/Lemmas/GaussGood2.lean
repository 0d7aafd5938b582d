import Verif.Model.GaussTable2
import Verif.Lemmas.GaussCheck

/-! The tables for 65 to 90 nodes pass the check. -/

namespace Verif.Gauss

theorem good65 : good 65 nodes65 weights65 = true := by decide +kernel
theorem good66 : good 66 nodes66 weights66 = true := by decide +kernel
theorem good67 : good 67 nodes67 weights67 = true := by decide +kernel
theorem good68 : good 68 nodes68 weights68 = true := by decide +kernel
theorem good69 : good 69 nodes69 weights69 = true := by decide +kernel
theorem good70 : good 70 nodes70 weights70 = true := by decide +kernel
theorem good71 : good 71 nodes71 weights71 = true := by decide +kernel
theorem good72 : good 72 nodes72 weights72 = true := by decide +kernel
theorem good73 : good 73 nodes73 weights73 = true := by decide +kernel
theorem good74 : good 74 nodes74 weights74 = true := by decide +kernel
theorem good75 : good 75 nodes75 weights75 = true := by decide +kernel
theorem good76 : good 76 nodes76 weights76 = true := by decide +kernel
theorem good77 : good 77 nodes77 weights77 = true := by decide +kernel
theorem good78 : good 78 nodes78 weights78 = true := by decide +kernel
theorem good79 : good 79 nodes79 weights79 = true := by decide +kernel
theorem good80 : good 80 nodes80 weights80 = true := by decide +kernel
theorem good81 : good 81 nodes81 weights81 = true := by decide +kernel
theorem good82 : good 82 nodes82 weights82 = true := by decide +kernel
theorem good83 : good 83 nodes83 weights83 = true := by decide +kernel
theorem good84 : good 84 nodes84 weights84 = true := by decide +kernel
theorem good85 : good 85 nodes85 weights85 = true := by decide +kernel
theorem good86 : good 86 nodes86 weights86 = true := by decide +kernel
theorem good87 : good 87 nodes87 weights87 = true := by decide +kernel
theorem good88 : good 88 nodes88 weights88 = true := by decide +kernel
theorem good89 : good 89 nodes89 weights89 = true := by decide +kernel
theorem good90 : good 90 nodes90 weights90 = true := by decide +kernel

end Verif.Gauss
