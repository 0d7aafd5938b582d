import Verif.Lemmas.Place
/-! A grid of ranks with a single layer. -/
namespace Verif
open Domain Migrate Place

theorem Place.layer_range {c : Cfg} {dom : ℕ → Box} (hg : IsGrid c.root c.g dom) (hz : c.g.nz = 1) (hy : 1 ≤ c.g.ny) {r : ℕ} (hr : r < c.g.n) :
    (dom r).low.z = c.root.low.z ∧ (dom r).high.z = c.root.high.z := by
  obtain ⟨X, Y, Z, -, -, h3, h4⟩ := hg
  have hn : c.g.n = c.g.nx * c.g.ny := by simp [Grid.n, hz]
  have hi : r / c.g.ny < c.g.nx := Nat.div_lt_of_lt_mul (by rw [Nat.mul_comm, ← hn]; exact hr)
  have hj : r % c.g.ny < c.g.ny := Nat.mod_lt _ hy
  have e := h4 _ hi _ hj 0 (by omega)
  have er : (r / c.g.ny * c.g.ny + r % c.g.ny) * c.g.nz + 0 = r := by
    rw [hz, Nat.mul_one, Nat.add_zero, Nat.mul_comm]
    exact Nat.div_add_mod _ _
  rw [er] at e
  obtain ⟨z1, z2, -⟩ := h3 _ hi _ hj
  rw [hz] at z2
  rw [e]
  exact ⟨z1, z2⟩

theorem Place.project_mem {c : Cfg} {dom : ℕ → Box} (hg : IsGrid c.root c.g dom) (hz : c.g.nz = 1) (hy : 1 ≤ c.g.ny) (hin : c.root.low.z ≤ c.monoZ ∧ c.monoZ < c.root.high.z)
    {r : ℕ} (hr : r < c.g.n) {b : Sylinder} (hb : Box.MemHalf b.pos (dom r)) : Box.MemHalf (project c b).pos (dom r) := by
  obtain ⟨e1, e2⟩ := layer_range hg hz hy hr
  unfold project
  split_ifs
  · obtain ⟨a1, a2, a3⟩ := hb
    exact ⟨a1, a2, by rw [e1]; exact hin.1, by rw [e2]; exact hin.2⟩
  · exact hb

/-- The decomposition does not depend on what is done in the other parts of `prepareStep`. -/
theorem Place.decompose_congr {c c' : Cfg} (h1 : c'.g = c.g) (h2 : c'.d = c.d) (h3 : c'.coef = c.coef) (h4 : c'.target = c.target) (h5 : c'.srt = c.srt) {x : Exec} {s s' : Sys}
    (h : DecomposeDomain c x s s') : DecomposeDomain c' x s s' := by
  have hc : ∀ P r, collect c' x P r = collect c x P r := by
    intro P r
    induction r with
    | zero => rfl
    | succ r ih => simp only [collect, ih, h1, h4]
  have hroot : c'.root = c.root := by simp only [Cfg.root, h2]
  obtain ⟨P, k1, k2⟩ := h
  refine ⟨P, ?_, ?_⟩
  · intro r hr
    rw [h2]
    exact k1 r (h1 ▸ hr)
  · rw [← k2]
    simp only [decomposeAll, hc, h1, h3, h4, h5, hroot]

end Verif
