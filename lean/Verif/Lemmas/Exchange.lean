import Verif.Lemmas.Let
import Verif.Props.Walk
import Mathlib.Tactic.NormNum
/-! The exchange of particles between ranks. -/
namespace Verif.Let
open Tree Image

theorem exchange_spec {α : Type} (d : Dinfo) (f : Morton.Frame) (big : ℝ) (T : ℕ → MTree α) (hW : World d f big T)
    (build : ℕ → List (Ep α) → Option (MTree α)) (hbuild : ∀ r < d.n, Builds f big (build r)) :
    ∃ N, ∀ fuel, N ≤ fuel → ∀ b < d.n, ∃ (es : List (Ep α)) (O : List (ℕ × ℕ × Idx)), exchange d build T b fuel = some es ∧ es.map some = O.map (copyOf d T) ∧
      O.Nodup ∧ (∀ o ∈ O, o.1 < d.n ∧ Allowed d.pa o.2.2 ∧ (o.1 = b → o.2.2 ≠ ⟨0, 0, 0⟩)) ∧
      (∀ (a i j : ℕ) (ei ej : Ep α) (k : Idx), a < d.n → (T b).eps[i]? = some ei → (T a).eps[j]? = some ej → Allowed d.pa k →
        (a = b → k ≠ ⟨0, 0, 0⟩) →
        (ei.pos - (ej.pos + ⟨k.x * (d.root.high.x - d.root.low.x), k.y * (d.root.high.y - d.root.low.y),
          k.z * (d.root.high.z - d.root.low.z)⟩)).normSq ≤ max (ei.rs * ei.rs) (ej.rs * ej.rs) → (a, j, k) ∈ O) ∧
      ∀ e ∈ es, Morton.InRoot f e.pos := by
  have hall : ∀ b < d.n, ∃ N, ∀ fuel, N ≤ fuel → ∀ a < d.n, ∃ im, table d build T a b fuel = some im ∧ Tabled d T a b im := by
    intro b hb
    apply uniform
    intro a ha
    obtain ⟨N, im, h1, h2⟩ := table_spec hW build hbuild ha hb
    exact ⟨N, fun fuel hf => ⟨im, h1 fuel hf, h2⟩⟩
  obtain ⟨N, hN⟩ := uniform (n := d.n) (P := fun b fuel => ∀ a < d.n, ∃ im, table d build T a b fuel = some im ∧ Tabled d T a b im) hall
  refine ⟨N, fun fuel hf b hb => ?_⟩
  have key : ∀ as : List ℕ, as.Nodup → (∀ a ∈ as, a < d.n) → ∃ (es : List (Ep α)) (O : List (ℕ × ℕ × Idx)), recvFrom d build T b fuel as = some es ∧
      es.map some = O.map (copyOf d T) ∧ O.Nodup ∧
      (∀ o ∈ O, o.1 ∈ as ∧ Allowed d.pa o.2.2 ∧ (o.1 = b → o.2.2 ≠ ⟨0, 0, 0⟩)) ∧
      (∀ (a i j : ℕ) (ei ej : Ep α) (k : Idx), a ∈ as → (T b).eps[i]? = some ei → (T a).eps[j]? = some ej → Allowed d.pa k →
        (a = b → k ≠ ⟨0, 0, 0⟩) → Close d ei ej k → (a, j, k) ∈ O) ∧
      ∀ e ∈ es, Morton.InRoot f e.pos := by
    intro as
    induction as with
    | nil => intro _ _; exact ⟨[], [], rfl, rfl, List.nodup_nil, by simp, by simp, by simp⟩
    | cons a as ih =>
      intro hnd hlt
      rw [List.nodup_cons] at hnd
      obtain ⟨es, O, g1, g2, g3, g4, g5, g6⟩ := ih hnd.2 (fun a ha => hlt a (List.mem_cons_of_mem _ ha))
      have ha := hlt a List.mem_cons_self
      obtain ⟨im, t1, t2⟩ := hN fuel hf b hb a ha
      have hpk := pk_origins (d := d) T a im t2.range
      refine ⟨im.flatMap (pk (T a).eps d.size) ++ es, (origins im).map (fun o => (a, o.1, o.2)) ++ O, ?_, ?_, ?_, ?_, ?_, ?_⟩
      · rw [recvFrom, g1, recv, t1]
        simp only
        rw [pack_eq _ _ _ t2.range]
      · rw [List.map_append, List.map_append, g2, hpk, List.map_map]
        rfl
      · rw [List.nodup_append]
        refine ⟨t2.nodup.map (fun o o' h => ?_), g3, fun o ho o' ho' hoo => ?_⟩
        · simp only [Prod.mk.injEq, true_and] at h
          exact Prod.ext h.1 h.2
        · subst hoo
          obtain ⟨o', _, rfl⟩ := List.mem_map.mp ho
          exact hnd.1 (g4 _ ho').1
      · intro o ho
        rcases List.mem_append.mp ho with ho | ho
        · obtain ⟨⟨j, k⟩, hjk, rfl⟩ := List.mem_map.mp ho
          refine ⟨List.mem_cons_self, ?_, t2.own j k hjk⟩
          obtain ⟨x, x1, x2, _⟩ := mem_origins.mp hjk
          have := (t2.allowed x x1).neg
          rwa [x2, neg_neg'] at this
        · obtain ⟨o1, o2⟩ := g4 o ho
          exact ⟨List.mem_cons_of_mem _ o1, o2⟩
      · intro a' i j ei ej k ha' hi hj hk hne hc
        rw [List.mem_append]
        rcases List.mem_cons.mp ha' with rfl | ha'
        · exact Or.inl (List.mem_map.mpr ⟨(j, k), t2.complete i j ei ej k hi hj hk hne hc, rfl⟩)
        · exact Or.inr (g5 a' i j ei ej k ha' hi hj hk hne hc)
      · intro e he
        rcases List.mem_append.mp he with he | he
        · have hsome : some e ∈ (im.flatMap (pk (T a).eps d.size)).map some := List.mem_map.mpr ⟨e, he, rfl⟩
          rw [hpk] at hsome
          obtain ⟨⟨j, k⟩, hjk, h0⟩ := List.mem_map.mp hsome
          simp only [copyOf, Option.map_eq_some_iff] at h0
          obtain ⟨e', he', rfl⟩ := h0
          have hmem := List.mem_of_getElem? he'
          obtain ⟨x, x1, x2, _⟩ := mem_origins.mp hjk
          have hal := t2.allowed x x1
          rw [x2] at hal
          rcases t2.listed j k hjk with h | h
          · have := (hW.cell a ha b hb k.neg hal h).1 e' hmem
            rw [shiftOf_neg] at this
            have e0 : e'.pos - -shiftOf d.size k = e'.pos + shiftOf d.size k := by ext <;> simp
            rwa [e0] at this
          · have hal' := hal.neg
            rw [neg_neg'] at hal'
            exact (hW.cell b hb a ha k hal' h).2 e' hmem
        · exact g6 e he
  obtain ⟨es, O, h1, h2, h3, h4, h5, h6⟩ := key (List.range d.n) List.nodup_range (fun a ha => List.mem_range.mp ha)
  refine ⟨es, O, h1, h2, h3, fun o ho => ?_, fun a i j ei ej k ha hi hj hk hne hc => ?_, h6⟩
  · obtain ⟨o1, o2⟩ := h4 o ho
    exact ⟨List.mem_range.mp o1, o2⟩
  · exact h5 a i j ei ej k (List.mem_range.mpr ha) hi hj hk hne (le_max_iff.mp hc)

end Verif.Let
