import Verif.Model.GaussTable1
import Verif.Model.GaussTable2
import Verif.Model.GaussTable3
import Verif.Model.GaussTable4
import Mathlib.Data.Real.Basic

/-!
`Gauss_Legendre_Nodes_and_Weights` (Util/Gauss_Legendre_Nodes_and_Weights.hpp:18-40003).

The template parameter `Real` is modelled by the rounding with which a literal is turned into a `Real`.
-/

namespace Verif.Gauss

/-- The `switch` (Util/Gauss_Legendre_Nodes_and_Weights.hpp:22-40002): the label, what is assigned to `nodes` and what is
assigned to `weights`. -/
def cases : List (Nat × List Int × List Nat) := [
  (1, nodes1, weights1),
  (2, nodes2, weights2),
  (3, nodes3, weights3),
  (4, nodes4, weights4),
  (5, nodes5, weights5),
  (6, nodes6, weights6),
  (7, nodes7, weights7),
  (8, nodes8, weights8),
  (9, nodes9, weights9),
  (10, nodes10, weights10),
  (11, nodes11, weights11),
  (12, nodes12, weights12),
  (13, nodes13, weights13),
  (14, nodes14, weights14),
  (15, nodes15, weights15),
  (16, nodes16, weights16),
  (17, nodes17, weights17),
  (18, nodes18, weights18),
  (19, nodes19, weights19),
  (20, nodes20, weights20),
  (21, nodes21, weights21),
  (22, nodes22, weights22),
  (23, nodes23, weights23),
  (24, nodes24, weights24),
  (25, nodes25, weights25),
  (26, nodes26, weights26),
  (27, nodes27, weights27),
  (28, nodes28, weights28),
  (29, nodes29, weights29),
  (30, nodes30, weights30),
  (31, nodes31, weights31),
  (32, nodes32, weights32),
  (33, nodes33, weights33),
  (34, nodes34, weights34),
  (35, nodes35, weights35),
  (36, nodes36, weights36),
  (37, nodes37, weights37),
  (38, nodes38, weights38),
  (39, nodes39, weights39),
  (40, nodes40, weights40),
  (41, nodes41, weights41),
  (42, nodes42, weights42),
  (43, nodes43, weights43),
  (44, nodes44, weights44),
  (45, nodes45, weights45),
  (46, nodes46, weights46),
  (47, nodes47, weights47),
  (48, nodes48, weights48),
  (49, nodes49, weights49),
  (50, nodes50, weights50),
  (51, nodes51, weights51),
  (52, nodes52, weights52),
  (53, nodes53, weights53),
  (54, nodes54, weights54),
  (55, nodes55, weights55),
  (56, nodes56, weights56),
  (57, nodes57, weights57),
  (58, nodes58, weights58),
  (59, nodes59, weights59),
  (60, nodes60, weights60),
  (61, nodes61, weights61),
  (62, nodes62, weights62),
  (63, nodes63, weights63),
  (64, nodes64, weights64),
  (65, nodes65, weights65),
  (66, nodes66, weights66),
  (67, nodes67, weights67),
  (68, nodes68, weights68),
  (69, nodes69, weights69),
  (70, nodes70, weights70),
  (71, nodes71, weights71),
  (72, nodes72, weights72),
  (73, nodes73, weights73),
  (74, nodes74, weights74),
  (75, nodes75, weights75),
  (76, nodes76, weights76),
  (77, nodes77, weights77),
  (78, nodes78, weights78),
  (79, nodes79, weights79),
  (80, nodes80, weights80),
  (81, nodes81, weights81),
  (82, nodes82, weights82),
  (83, nodes83, weights83),
  (84, nodes84, weights84),
  (85, nodes85, weights85),
  (86, nodes86, weights86),
  (87, nodes87, weights87),
  (88, nodes88, weights88),
  (89, nodes89, weights89),
  (90, nodes90, weights90),
  (91, nodes91, weights91),
  (92, nodes92, weights92),
  (93, nodes93, weights93),
  (94, nodes94, weights94),
  (95, nodes95, weights95),
  (96, nodes96, weights96),
  (97, nodes97, weights97),
  (98, nodes98, weights98),
  (99, nodes99, weights99),
  (100, nodes100, weights100),
  (101, nodes101, weights101),
  (102, nodes102, weights102),
  (103, nodes103, weights103),
  (104, nodes104, weights104),
  (105, nodes105, weights105),
  (106, nodes106, weights106),
  (107, nodes107, weights107),
  (108, nodes108, weights108),
  (109, nodes109, weights109),
  (110, nodes110, weights110),
  (111, nodes111, weights111),
  (112, nodes112, weights112),
  (113, nodes113, weights113),
  (114, nodes114, weights114),
  (115, nodes115, weights115),
  (116, nodes116, weights116),
  (117, nodes117, weights117),
  (118, nodes118, weights118),
  (119, nodes119, weights119),
  (120, nodes120, weights120),
  (121, nodes121, weights121),
  (122, nodes122, weights122),
  (123, nodes123, weights123),
  (124, nodes124, weights124),
  (125, nodes125, weights125),
  (126, nodes126, weights126),
  (127, nodes127, weights127),
  (128, nodes128, weights128)]

/-- A literal as a real number. -/
noncomputable def lit (a : Int) : ℝ := a / 10 ^ 129

/-- `Gauss_Legendre_Nodes_and_Weights(N, nodes, weights)`: `none` if an assertion fails
(Util/Gauss_Legendre_Nodes_and_Weights.hpp:20-21), otherwise what the two vectors are afterwards. -/
noncomputable def nodesAndWeights (fl : ℝ → ℝ) (N : Int) : Option (List ℝ × List ℝ) :=
  if 1 ≤ N ∧ N ≤ 128 then
    (cases.find? fun c => c.1 = N).map fun c => (c.2.1.map fun a => fl (lit a), c.2.2.map fun a : Nat => fl (lit a))
  else none

end Verif.Gauss
