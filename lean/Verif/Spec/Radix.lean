import Verif.Model.Radix
import Mathlib.Data.List.Perm.Basic
/-! What the radix sort has to deliver, and what it needs from the runtime. -/
namespace Verif.Radix

/-- `out` lists the elements of `val` by increasing key, elements of equal key in their original order: `idx` is the
list of the original positions. -/
def StableSorted {α : Type} (key : α → ℕ) (val out : List α) : Prop :=
  ∃ idx : List ℕ, idx.Perm (List.range val.length) ∧ out.map some = idx.map (fun i => val[i]?) ∧
    idx.Pairwise (fun i j => ∀ a b, val[i]? = some a → val[j]? = some b →
      key a < key b ∨ key a = key b ∧ i < j)

/-- The OpenMP executions of a parallel region over `n` iterations for which the code is written: the team has all
`nt` threads, both loops give the same iterations to the same thread, a thread with a larger number gets later
iterations (a static schedule), and a thread runs its iterations of the second loop in increasing order. -/
structure Static (n nt : ℕ) (s : Sched) : Prop where
  team : s.team = nt
  same : ∀ i < n, s.own2 i = s.own1 i
  lt : ∀ i < n, s.own1 i < nt
  mono : ∀ i j, i ≤ j → j < n → s.own1 i ≤ s.own1 j
  all1 : s.order1.Perm (List.range n)
  all2 : s.order2.Perm (List.range n)
  inc : s.order2.Pairwise (fun i j => s.own2 i = s.own2 j → i < j)

end Verif.Radix
