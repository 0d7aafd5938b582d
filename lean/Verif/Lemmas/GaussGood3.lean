import Verif.Model.GaussTable3
import Verif.Lemmas.GaussCheck

/-! The tables for 91 to 110 nodes pass the check. -/

namespace Verif.Gauss

theorem good91 : good 91 nodes91 weights91 = true := by decide +kernel
theorem good92 : good 92 nodes92 weights92 = true := by decide +kernel
theorem good93 : good 93 nodes93 weights93 = true := by decide +kernel
theorem good94 : good 94 nodes94 weights94 = true := by decide +kernel
theorem good95 : good 95 nodes95 weights95 = true := by decide +kernel
theorem good96 : good 96 nodes96 weights96 = true := by decide +kernel
theorem good97 : good 97 nodes97 weights97 = true := by decide +kernel
theorem good98 : good 98 nodes98 weights98 = true := by decide +kernel
theorem good99 : good 99 nodes99 weights99 = true := by decide +kernel
theorem good100 : good 100 nodes100 weights100 = true := by decide +kernel
theorem good101 : good 101 nodes101 weights101 = true := by decide +kernel
theorem good102 : good 102 nodes102 weights102 = true := by decide +kernel
theorem good103 : good 103 nodes103 weights103 = true := by decide +kernel
theorem good104 : good 104 nodes104 weights104 = true := by decide +kernel
theorem good105 : good 105 nodes105 weights105 = true := by decide +kernel
theorem good106 : good 106 nodes106 weights106 = true := by decide +kernel
theorem good107 : good 107 nodes107 weights107 = true := by decide +kernel
theorem good108 : good 108 nodes108 weights108 = true := by decide +kernel
theorem good109 : good 109 nodes109 weights109 = true := by decide +kernel
theorem good110 : good 110 nodes110 weights110 = true := by decide +kernel

end Verif.Gauss
