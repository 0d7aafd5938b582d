import Verif.Model.GaussTable4
import Verif.Lemmas.GaussCheck

/-! The tables for 111 to 128 nodes pass the check. -/

namespace Verif.Gauss

theorem good111 : good 111 nodes111 weights111 = true := by decide +kernel
theorem good112 : good 112 nodes112 weights112 = true := by decide +kernel
theorem good113 : good 113 nodes113 weights113 = true := by decide +kernel
theorem good114 : good 114 nodes114 weights114 = true := by decide +kernel
theorem good115 : good 115 nodes115 weights115 = true := by decide +kernel
theorem good116 : good 116 nodes116 weights116 = true := by decide +kernel
theorem good117 : good 117 nodes117 weights117 = true := by decide +kernel
theorem good118 : good 118 nodes118 weights118 = true := by decide +kernel
theorem good119 : good 119 nodes119 weights119 = true := by decide +kernel
theorem good120 : good 120 nodes120 weights120 = true := by decide +kernel
theorem good121 : good 121 nodes121 weights121 = true := by decide +kernel
theorem good122 : good 122 nodes122 weights122 = true := by decide +kernel
theorem good123 : good 123 nodes123 weights123 = true := by decide +kernel
theorem good124 : good 124 nodes124 weights124 = true := by decide +kernel
theorem good125 : good 125 nodes125 weights125 = true := by decide +kernel
theorem good126 : good 126 nodes126 weights126 = true := by decide +kernel
theorem good127 : good 127 nodes127 weights127 = true := by decide +kernel
theorem good128 : good 128 nodes128 weights128 = true := by decide +kernel

end Verif.Gauss
