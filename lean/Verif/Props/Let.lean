import Verif.Lemmas.Force
/-! C76: the exchange of particles between ranks. -/
namespace Verif
open Tree Image Let Force

/-- Let every rank have the tree of its own particles, inside its domain.  Then for every rank `b` the exchange ends, stays
inside its arrays and gives a list of copies of particles (rank, number, displacement along periodic axes), none twice and
none of an own particle in its place, in which no neighbour is missing: whenever a particle `i` of rank `b` and the copy of
the particle `j` of rank `a` displaced by `k` box lengths are within the search radius of one of them, the copy is in the
list.  All copies lie in the root cell of the tree. -/
theorem C76_exchange {α : Type} (d : Dinfo) (f : Morton.Frame) (big : ℝ) (T : ℕ → MTree α) (hW : World d f big T)
    (build : ℕ → List (Ep α) → Option (MTree α)) (hbuild : ∀ r < d.n, Builds f big (build r)) :
    ∃ N, ∀ fuel, N ≤ fuel → ∀ b < d.n, ∃ (es : List (Ep α)) (O : List (ℕ × ℕ × Idx)), exchange d build T b fuel = some es ∧ es.map some = O.map (copyOf d T) ∧
      O.Nodup ∧ (∀ o ∈ O, o.1 < d.n ∧ Allowed d.pa o.2.2 ∧ (o.1 = b → o.2.2 ≠ ⟨0, 0, 0⟩)) ∧
      (∀ (a i j : ℕ) (ei ej : Ep α) (k : Idx), a < d.n → (T b).eps[i]? = some ei → (T a).eps[j]? = some ej → Allowed d.pa k →
        (a = b → k ≠ ⟨0, 0, 0⟩) →
        (ei.pos - (ej.pos + ⟨k.x * (d.root.high.x - d.root.low.x), k.y * (d.root.high.y - d.root.low.y),
          k.z * (d.root.high.z - d.root.low.z)⟩)).normSq ≤ max (ei.rs * ei.rs) (ej.rs * ej.rs) → (a, j, k) ∈ O) ∧
      ∀ e ∈ es, Morton.InRoot f e.pos := 
  exchange_spec d f big T hW build hbuild

/-- Two ranks, neighbours over the boundary of a periodic axis: a particle of rank 0, and the copy of one of rank 1 displaced by
minus one box length. -/
example : ∃ (f : Morton.Frame) (T : ℕ → MTree Unit) (build : ℕ → List (Ep Unit) → Option (MTree Unit)), World twoRanks f 100 T ∧
    (∀ r < twoRanks.n, Builds f 100 (build r)) ∧ ∃ (i j : ℕ) (ei ej : Ep Unit), (T 0).eps[i]? = some ei ∧ (T 1).eps[j]? = some ej ∧
      Allowed twoRanks.pa ⟨-1, 0, 0⟩ ∧
      (ei.pos - (ej.pos + ⟨((-1 : ℤ) : ℝ) * (twoRanks.root.high.x - twoRanks.root.low.x), ((0 : ℤ) : ℝ) * (twoRanks.root.high.y - twoRanks.root.low.y),
        ((0 : ℤ) : ℝ) * (twoRanks.root.high.z - twoRanks.root.low.z)⟩)).normSq ≤ max (ei.rs * ei.rs) (ej.rs * ej.rs) := by
  obtain ⟨f, T, build, h1, h2, h3⟩ := twoRanks_setup.exists_world
  have m0 : (⟨⟨0, 1, 1⟩, 2, ()⟩ : Ep Unit) ∈ (T 0).eps := (h3 0 (by decide)).mem_iff.mpr (by simp [twoLists])
  have m1 : (⟨⟨3, 1, 1⟩, 0, ()⟩ : Ep Unit) ∈ (T 1).eps := (h3 1 (by decide)).mem_iff.mpr (by simp [twoLists])
  obtain ⟨i, hi⟩ := List.mem_iff_getElem?.mp m0
  obtain ⟨j, hj⟩ := List.mem_iff_getElem?.mp m1
  refine ⟨f, T, build, h1, h2, i, j, _, _, hi, hj, ⟨fun h => (by cases h), fun _ => rfl, fun _ => rfl⟩, le_max_of_le_left ?_⟩
  simp only [twoRanks, V3.normSq, V3.dot, V3.sub_x, V3.sub_y, V3.sub_z, V3.add_x, V3.add_y, V3.add_z]
  norm_num

end Verif
