import Verif.Lemmas.Dump

/-!
C108: the file of `dumpPoints` is complete although all ranks open it.
-/

namespace Verif

open Dump Dump.Spec

/-- Every rank calls `dumpPoints` with its points and their values, of which each has `dim`.  In whatever order the ranks run and in
whatever pieces the text reaches the file, there is always somebody who can go on until all have ended, and then the file has one
line for each point, in the order of the ranks, whatever it had before. -/
theorem C108_complete (fmt : ℝ → List Char) (dim : Nat) (ranks : List (List Point)) (hn : ranks ≠ []) (hd : ∀ p ∈ ranks.flatten, p.values.length = dim)
    (h3 : 3 * ranks.flatten.length ≤ PointDist.intMax) (hi : dim * ranks.flatten.length ≤ PointDist.intMax) (c0 c : Conf)
    (hs : Start fmt dim (ranks.map (·.flatMap Point.coords)) (ranks.map (·.flatMap Point.values)) c0) (hr : Relation.ReflTransGen Step c0 c) :
    (∃ c', Step c c') ∨ (∀ p ∈ c.procs, p.prog = []) ∧ c.file = ranks.flatten.flatMap (Point.line fmt) := by
  have e : ∀ f : Point → List ℝ, (ranks.map (·.flatMap f)).flatten = ranks.flatten.flatMap f := by
    intro f
    simp only [List.flatMap_def, List.map_flatten, List.flatten_flatten, List.map_map]
    rfl
  have ht := text_eq fmt dim ranks.flatten hd hi
  rw [← e, ← e] at ht
  have h1 := start_inv (by simpa using hn) (by simp) (by rw [e, length_coords]; exact h3) (by rw [e, length_values dim _ hd]; exact hi) hs _ (Or.inl ht)
  rcases reach h1 hr with ⟨k, h⟩ | h
  · exact h.goes
  · exact h.goes

/-- No run goes on for ever: it has at most as many steps as the ranks have things to do. -/
theorem C108_terminates (c : Nat → Conf) (n : Nat) (hs : ∀ i, i < n → Step (c i) (c (i + 1))) : n ≤ ((c 0).procs.map fun p => p.prog.length).sum := by
  have : ∀ k, k ≤ n → left (c k) + k ≤ left (c 0) := by
    intro k
    induction k with
    | zero => intro _; omega
    | succ k ih =>
      intro hk
      have h1 := ih (by omega)
      have h2 := left_step (hs k (by omega))
      omega
  have := this n (le_refl n)
  change n ≤ left (c 0)
  omega

/-- If the numbers of points and values do not match, the file ends up empty. -/
theorem C108_mismatch (fmt : ℝ → List Char) (dim : Nat) (coords values : List (List ℝ)) (hn : coords ≠ []) (hl : values.length = coords.length)
    (hc : coords.flatten.length ≤ PointDist.intMax) (hv : values.flatten.length ≤ PointDist.intMax) (hi : dim * (coords.flatten.length / 3) ≤ PointDist.intMax)
    (hm : values.flatten.length ≠ dim * (coords.flatten.length / 3)) (c0 c : Conf) (hs : Start fmt dim coords values c0) (hr : Relation.ReflTransGen Step c0 c) :
    (∃ c', Step c c') ∨ (∀ p ∈ c.procs, p.prog = []) ∧ c.file = [] := by
  have ht : text fmt dim coords.flatten values.flatten = some none := by
    unfold text
    simp only
    rw [if_neg (by omega), if_pos hm]
  rcases reach (start_inv hn hl hc hv hs [] (Or.inr ⟨ht, rfl⟩)) hr with ⟨k, h⟩ | h
  · exact h.goes
  · exact h.goes

/-- Only the totals are compared: rank 0 gives two points without values and rank 1 two values without points, and the file is as
if rank 0 had given both. -/
theorem C108_shifted_false (fmt : ℝ → List Char) (a b : Point) (v w : ℝ) (ha : a.values = [v]) (hb : b.values = [w]) (c0 c : Conf)
    (hs : Start fmt 1 [a.coords ++ b.coords, []] [[], [v, w]] c0) (hr : Relation.ReflTransGen Step c0 c) :
    (∃ c', Step c c') ∨ (∀ p ∈ c.procs, p.prog = []) ∧ c.file = a.line fmt ++ b.line fmt := by
  have ht := text_eq fmt 1 [a, b] (by simp [ha, hb]) (by simp [PointDist.intMax])
  have e1 : ([a.coords ++ b.coords, []] : List (List ℝ)).flatten = [a, b].flatMap Point.coords := by simp
  have e2 : ([[], [v, w]] : List (List ℝ)).flatten = [a, b].flatMap Point.values := by simp [ha, hb]
  have e3 : [a, b].flatMap (Point.line fmt) = a.line fmt ++ b.line fmt := by simp
  rw [← e1, ← e2, e3] at ht
  rcases reach (start_inv (coords := [a.coords ++ b.coords, []]) (values := [[], [v, w]]) (by simp) rfl (by simp [Point.coords, PointDist.intMax]) (by simp [PointDist.intMax]) hs _ (Or.inl ht)) hr with ⟨k, h⟩ | h
  · exact h.goes
  · exact h.goes

/-- Two ranks with a point each, rank 0's text in two pieces. -/
example : ∃ (fmt : ℝ → List Char) (ranks : List (List Point)) (c0 : Conf), ranks.flatten.length = 2 ∧ (∀ p ∈ ranks.flatten, p.values.length = 1) ∧
    Start fmt 1 (ranks.map (·.flatMap Point.coords)) (ranks.map (·.flatMap Point.values)) c0 := by
  refine ⟨fun _ => ['1'], [[⟨1, 1, 1, [1]⟩], [⟨1, 1, 1, [1]⟩]],
    ⟨"old".toList, [⟨0, .open :: (sync 2 ++ sync 2 ++ ([("1 1 1; 1 \n1 1").toList, (" 1; 1 \n").toList].map .write ++ [.close]))⟩,
      ⟨0, .open :: (sync 2 ++ sync 2 ++ ([].map .write ++ [.close]))⟩]⟩, rfl, by simp, ?_⟩
  refine ⟨_, _, C09_collect _ (by simp) (by simp [Point.coords, PointDist.intMax]), C09_collect _ (by simp) (by simp [PointDist.intMax]), rfl, ?_⟩
  have ht := text_eq (fun _ => ['1']) 1 [⟨1, 1, 1, [1]⟩, ⟨1, 1, 1, [1]⟩] (by simp) (by decide)
  intro i p hp
  match i with
  | 0 =>
    simp only [List.getElem?_cons_zero, Option.some.injEq] at hp
    subst hp
    refine ⟨rfl, _, _, rfl, rfl, Or.inr ⟨_, ht.trans ?_, rfl⟩⟩
    simp [Point.line]
  | 1 =>
    simp only [List.getElem?_cons_succ, List.getElem?_cons_zero, Option.some.injEq] at hp
    subst hp
    exact ⟨rfl, [], [], rfl, rfl, Or.inr ⟨[], text_nil _ _, rfl⟩⟩
  | i + 2 => simp at hp

end Verif
