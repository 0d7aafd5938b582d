import Verif.Model.Sim
import Verif.Model.Orient
/-! Runs of a monolayer. -/
namespace Verif.Sim
open Domain Near Collector RunStep Mobility

/-- SylinderSystem.cpp:910-916: what the projection of a monolayer does to an orientation, as in `Mobility.prepareBody`.  `svd`: the axis that Eigen finds by an SVD, see
`Orient.fromTwoVectors`. -/
noncomputable def flat (svd : V3 → V3 → V3) (q : Quat) : Quat :=
  Orient.fromTwoVectors svd ⟨0, 0, 1⟩ (⟨(q.rot ⟨0, 0, 1⟩).x, (q.rot ⟨0, 0, 1⟩).y, 0⟩ : V3).normalized

end Verif.Sim
