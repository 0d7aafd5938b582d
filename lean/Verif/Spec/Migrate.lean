import Verif.Spec.Domain
/-! What `exchangeParticle` has to do. -/
namespace Verif.Migrate

/-- After the exchange every rank has the particles that lie in its domain: first its own ones in their order, then those of the other ranks,
in the order of the ranks. -/
noncomputable def settled {α : Type} (pos : α → V3) (dom : ℕ → Box) (n : ℕ) (P : ℕ → List α) (r : ℕ) : List α := open Classical in
  ((P r).filter fun e => decide (Box.MemHalf (pos e) (dom r))) ++
    (List.range n).flatMap fun a => if a = r then [] else (P a).filter fun e => decide (Box.MemHalf (pos e) (dom r))

/-- Each rank gets every message once: from the other ranks, by their distance, and (`Alltoallv`) from all ranks. -/
def Arrivals (n : ℕ) (ord ord' : ℕ → List ℕ) : Prop := ∀ r < n, (ord r).Perm (List.range' 1 (n - 1)) ∧ (ord' r).Perm (List.range n)

end Verif.Migrate
