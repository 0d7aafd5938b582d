import Verif.Model.GaussTable1
import Verif.Lemmas.GaussCheck

/-! The tables for 1 to 64 nodes pass the check. -/

namespace Verif.Gauss

theorem good1 : good 1 nodes1 weights1 = true := by decide +kernel
theorem good2 : good 2 nodes2 weights2 = true := by decide +kernel
theorem good3 : good 3 nodes3 weights3 = true := by decide +kernel
theorem good4 : good 4 nodes4 weights4 = true := by decide +kernel
theorem good5 : good 5 nodes5 weights5 = true := by decide +kernel
theorem good6 : good 6 nodes6 weights6 = true := by decide +kernel
theorem good7 : good 7 nodes7 weights7 = true := by decide +kernel
theorem good8 : good 8 nodes8 weights8 = true := by decide +kernel
theorem good9 : good 9 nodes9 weights9 = true := by decide +kernel
theorem good10 : good 10 nodes10 weights10 = true := by decide +kernel
theorem good11 : good 11 nodes11 weights11 = true := by decide +kernel
theorem good12 : good 12 nodes12 weights12 = true := by decide +kernel
theorem good13 : good 13 nodes13 weights13 = true := by decide +kernel
theorem good14 : good 14 nodes14 weights14 = true := by decide +kernel
theorem good15 : good 15 nodes15 weights15 = true := by decide +kernel
theorem good16 : good 16 nodes16 weights16 = true := by decide +kernel
theorem good17 : good 17 nodes17 weights17 = true := by decide +kernel
theorem good18 : good 18 nodes18 weights18 = true := by decide +kernel
theorem good19 : good 19 nodes19 weights19 = true := by decide +kernel
theorem good20 : good 20 nodes20 weights20 = true := by decide +kernel
theorem good21 : good 21 nodes21 weights21 = true := by decide +kernel
theorem good22 : good 22 nodes22 weights22 = true := by decide +kernel
theorem good23 : good 23 nodes23 weights23 = true := by decide +kernel
theorem good24 : good 24 nodes24 weights24 = true := by decide +kernel
theorem good25 : good 25 nodes25 weights25 = true := by decide +kernel
theorem good26 : good 26 nodes26 weights26 = true := by decide +kernel
theorem good27 : good 27 nodes27 weights27 = true := by decide +kernel
theorem good28 : good 28 nodes28 weights28 = true := by decide +kernel
theorem good29 : good 29 nodes29 weights29 = true := by decide +kernel
theorem good30 : good 30 nodes30 weights30 = true := by decide +kernel
theorem good31 : good 31 nodes31 weights31 = true := by decide +kernel
theorem good32 : good 32 nodes32 weights32 = true := by decide +kernel
theorem good33 : good 33 nodes33 weights33 = true := by decide +kernel
theorem good34 : good 34 nodes34 weights34 = true := by decide +kernel
theorem good35 : good 35 nodes35 weights35 = true := by decide +kernel
theorem good36 : good 36 nodes36 weights36 = true := by decide +kernel
theorem good37 : good 37 nodes37 weights37 = true := by decide +kernel
theorem good38 : good 38 nodes38 weights38 = true := by decide +kernel
theorem good39 : good 39 nodes39 weights39 = true := by decide +kernel
theorem good40 : good 40 nodes40 weights40 = true := by decide +kernel
theorem good41 : good 41 nodes41 weights41 = true := by decide +kernel
theorem good42 : good 42 nodes42 weights42 = true := by decide +kernel
theorem good43 : good 43 nodes43 weights43 = true := by decide +kernel
theorem good44 : good 44 nodes44 weights44 = true := by decide +kernel
theorem good45 : good 45 nodes45 weights45 = true := by decide +kernel
theorem good46 : good 46 nodes46 weights46 = true := by decide +kernel
theorem good47 : good 47 nodes47 weights47 = true := by decide +kernel
theorem good48 : good 48 nodes48 weights48 = true := by decide +kernel
theorem good49 : good 49 nodes49 weights49 = true := by decide +kernel
theorem good50 : good 50 nodes50 weights50 = true := by decide +kernel
theorem good51 : good 51 nodes51 weights51 = true := by decide +kernel
theorem good52 : good 52 nodes52 weights52 = true := by decide +kernel
theorem good53 : good 53 nodes53 weights53 = true := by decide +kernel
theorem good54 : good 54 nodes54 weights54 = true := by decide +kernel
theorem good55 : good 55 nodes55 weights55 = true := by decide +kernel
theorem good56 : good 56 nodes56 weights56 = true := by decide +kernel
theorem good57 : good 57 nodes57 weights57 = true := by decide +kernel
theorem good58 : good 58 nodes58 weights58 = true := by decide +kernel
theorem good59 : good 59 nodes59 weights59 = true := by decide +kernel
theorem good60 : good 60 nodes60 weights60 = true := by decide +kernel
theorem good61 : good 61 nodes61 weights61 = true := by decide +kernel
theorem good62 : good 62 nodes62 weights62 = true := by decide +kernel
theorem good63 : good 63 nodes63 weights63 = true := by decide +kernel
theorem good64 : good 64 nodes64 weights64 = true := by decide +kernel

end Verif.Gauss
