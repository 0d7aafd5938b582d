import Verif.Lemmas.Comm
import Verif.Spec.Comm
import Mathlib.Data.List.Forall2
/-! Property C08: `CommMPI::exchangeAllToAllV`. -/
namespace Verif
open Comm Spec

/-- C08.  A collective exchange with admissible arguments succeeds whatever the receive vectors held before;
afterwards every rank holds exactly the items addressed to it, each next to the rank it came from, grouped by
source rank and in the order in which the source listed them. -/
theorem C08_exchange {α : Type} [Inhabited α] (ins : List (List ℤ × List α)) (olds : ℕ → List ℕ × List α)
    (h : Admissible ins) :
    ∃ outs, exchange ins olds = some outs ∧ outs.length = ins.length ∧
      ∀ r, r < ins.length → ∃ src data, outs[r]? = some (src, data) ∧ src.length = data.length ∧
        src.zip data = received ins r := by
  refine ⟨_, exchange_aux ins olds h, by simp, ?_⟩
  intro r hr
  refine ⟨_, _, by simp [List.getElem?_range hr]; exact ⟨rfl, rfl⟩, by simp, ?_⟩
  rw [← List.unzip_fst, ← List.unzip_snd, List.zip_unzip]

example : Admissible [([1, 0, 1], ["a", "b", "c"]), ([1, 1], ["d", "e"]), (([] : List ℤ), ([] : List String))] := by
  simp [Admissible]

/-- C08, conservation: over all ranks together, the received items (source, destination, item) are the sent
ones, each exactly once. -/
theorem C08_conservation {α : Type} [Inhabited α] (ins : List (List ℤ × List α)) (olds : ℕ → List ℕ × List α)
    (outs : List (List ℕ × List α)) (hok : exchange ins olds = some outs) (h : Admissible ins) :
    (outs.zipIdx.flatMap (fun o => (o.1.1.zip o.1.2).map (fun q => (q.1, (o.2 : ℤ), q.2)))).Perm (sentItems ins) := by
  rw [exchange_aux ins olds h, Option.some.injEq] at hok
  subst hok
  have hmem : ∀ e ∈ sentItems ins, 0 ≤ e.2.1 ∧ e.2.1 < ins.length := by
    intro e he
    simp only [sentItems, List.mem_flatMap, List.mem_map] at he
    obtain ⟨p, hp, q, hq, rfl⟩ := he
    have hp' : p.1 ∈ ins := List.fst_mem_of_mem_zipIdx hp
    exact (h p.1 hp').2 _ (List.of_mem_zip (a := q.1) (b := q.2) hq).1
  have e1 : (((List.range ins.length).map (fun r =>
      ((received ins r).map Prod.fst, (received ins r).map Prod.snd))).zipIdx.flatMap
        (fun o => (o.1.1.zip o.1.2).map (fun q => (q.1, (o.2 : ℤ), q.2))))
      = (List.range ins.length).flatMap (fun r : ℕ => (sentItems ins).filter (fun e => decide (e.2.1 = (r : ℤ)))) := by
    rw [List.zipIdx_map, List.flatMap_map, List.zipIdx_eq_zip_range', List.length_range, ← List.range_eq_range',
      ← List.map_id (List.range ins.length), List.zip_map', List.flatMap_map]
    simp only [id, List.map_id']
    rw [List.map_id]
    congr 1
    funext r
    simp only [Prod.map]
    rw [← List.unzip_fst, ← List.unzip_snd, List.zip_unzip, received, List.map_map]
    conv_rhs => rw [← List.map_id ((sentItems ins).filter (fun e => decide (e.2.1 = (r : ℤ))))]
    apply List.map_congr_left
    intro e he
    simp only [List.mem_filter, decide_eq_true_eq] at he
    simp [← he.2]
  rw [e1]
  revert hmem
  generalize sentItems ins = l
  generalize ins.length = n
  intro hmem
  induction l with
  | nil => simp
  | cons e l ih =>
    have ih := ih (fun x hx => hmem x (List.mem_cons_of_mem _ hx))
    have he := hmem e List.mem_cons_self
    refine List.Perm.trans ?_ (ih.cons e)
    clear ih hmem
    exact perm_insert e l n he

/-- C08, error branch: if on some rank the vectors differ in length or a destination is not a rank, the
exchange fails (assertion, or memory error with assertions off). -/
theorem C08_inadmissible {α : Type} [Inhabited α] (ins : List (List ℤ × List α)) (olds : ℕ → List ℕ × List α)
    (h : ¬ Admissible ins) : exchange ins olds = none := by
  unfold Admissible at h
  push Not at h
  obtain ⟨p, hp, hbad⟩ := h
  unfold exchange
  rw [mapM_none_of]
  · rfl
  · refine ⟨p, hp, ?_⟩
    unfold sendSide
    by_cases hl : p.1.length = p.2.length
    · obtain ⟨d, hd, hn⟩ := hbad hl
      rw [TagSort.sortDataWithTag_eq _ _ hl]
      simp only [Option.bind_eq_bind, Option.bind_some]
      rw [countLoop_none]
      · rfl
      · refine ⟨d, ?_, by omega⟩
        have : ((p.1.zip p.2).map Prod.fst) = p.1 := List.map_fst_zip hl.le
        rw [((List.mergeSort_perm (p.1.zip p.2) _).map Prod.fst).mem_iff, this]
        exact hd
    · simp [TagSort.sortDataWithTag, hl]

example : ¬ Admissible [([2], ["a"]), (([] : List ℤ), ([] : List String))] := by
  simp [Admissible]

end Verif
