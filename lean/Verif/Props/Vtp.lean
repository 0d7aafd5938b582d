import Verif.Spec.Vtp
import Verif.Lemmas.Collector
import Verif.Lemmas.Text
import Verif.Model.Output
import Verif.Props.Links
namespace Verif
open Verif.Vtp Verif.Mem Verif.Text Verif.Collector Verif.Spec.Vtp

/-! ### filling the vectors -/

theorem vtp_idxWrites_flatMap {α β : Type} (c : ℕ) (v : ℕ → β → List α) (hv : ∀ i b, (v i b).length = c) (l : List β) :
    ∀ k, (l.zipIdx k).flatMap (fun p => idxWrites (c * p.2) (v p.2 p.1)) =
      idxWrites (c * k) ((l.zipIdx k).flatMap fun p => v p.2 p.1) := by
  induction l with
  | nil => intro k; rfl
  | cons b l ih =>
    intro k
    rw [List.zipIdx_cons, List.flatMap_cons, List.flatMap_cons, idxWrites_append, ih, hv, Nat.mul_succ]

theorem vtp_length_flatMap {α β : Type} (c : ℕ) (v : ℕ → β → List α) (hv : ∀ i b, (v i b).length = c) (l : List β) :
    ∀ k, ((l.zipIdx k).flatMap fun p => v p.2 p.1).length = c * l.length := by
  induction l with
  | nil => intro k; simp
  | cons b l ih =>
    intro k
    rw [List.zipIdx_cons, List.flatMap_cons, List.length_append, ih, hv, List.length_cons]; ring

theorem vtp_fill {α β : Type} (sched : Sched) (hs : ∀ nm (γ : Type) (l : List (ℕ × γ)), (sched nm l).Perm l) (name : String)
    (zero : α) (items : List (ℕ × β)) (bs : List β) (hi : items = bs.zipIdx.map Prod.swap) (c size : ℕ)
    (w : ℕ → β → List (ℕ × α)) (v : ℕ → β → List α) (hsize : size = c * bs.length)
    (hw : ∀ i b, w i b = idxWrites (c * i) (v i b)) (hv : ∀ i b, (v i b).length = c) :
    fill sched name size zero items w = some (bs.zipIdx.flatMap fun p => v p.2 p.1) := by
  unfold fill
  apply writeAll_perm
  · rw [List.length_replicate, vtp_length_flatMap c v hv, hsize]
  · refine (hs _ _ _).trans ?_
    subst hi
    have : (List.map Prod.swap bs.zipIdx).flatMap (fun p => w p.1 p.2) =
        bs.zipIdx.flatMap (fun p => idxWrites (c * p.2) (v p.2 p.1)) := by
      rw [List.flatMap_map]; exact List.flatMap_congr fun p _ => hw _ _
    rw [this, vtp_idxWrites_flatMap c v hv, Nat.mul_zero]

theorem vtp_tuple {α β : Type} (c : ℕ) (v : ℕ → β → List α) (hv : ∀ i b, (v i b).length = c) (bs : List β) :
    ∀ (m k : ℕ) (b : β), bs[k]? = some b →
      (((bs.zipIdx m).flatMap fun p => v p.2 p.1).drop (k * c)).take c = v (m + k) b := by
  induction bs with
  | nil => intro m k b h; simp at h
  | cons x bs ih =>
    intro m k b h
    rw [List.zipIdx_cons, List.flatMap_cons]
    cases k with
    | zero =>
      simp only [List.getElem?_cons_zero, Option.some.injEq] at h
      subst h
      rw [Nat.zero_mul, List.drop_zero, List.take_append_of_le_length (by rw [hv]),
        List.take_of_length_le (by rw [hv]), Nat.add_zero]
    | succ k =>
      rw [List.getElem?_cons_succ] at h
      have hd : (v m x ++ (bs.zipIdx (m + 1)).flatMap fun p => v p.2 p.1).drop c =
          (bs.zipIdx (m + 1)).flatMap fun p => v p.2 p.1 := by
        have := List.drop_left (l₁ := v m x) (l₂ := (bs.zipIdx (m + 1)).flatMap fun p => v p.2 p.1)
        rwa [hv] at this
      rw [Nat.succ_mul, Nat.add_comm, ← List.drop_drop]
      show (((v m x ++ (bs.zipIdx (m + 1)).flatMap fun p => v p.2 p.1).drop c).drop (k * c)).take c = _
      rw [hd, ih (m + 1) k b h]
      congr 1; omega

theorem vtp_half {α : Type} (l : List α) (k c : ℕ) :
    (l.drop (2 * k * c)).take c = (((l.drop (k * (2 * c))).take (2 * c))).take c ∧
      (l.drop ((2 * k + 1) * c)).take c = (((l.drop (k * (2 * c))).take (2 * c))).drop c := by
  constructor
  · rw [List.take_take, Nat.min_eq_left (by omega)]; congr 2; ring
  · rw [List.drop_take, List.drop_drop]
    congr 1
    · omega
    · congr 1; ring

/-- A vector with one number per item. -/
def col1 {α β : Type} (f : β → α) (bs : List β) : List α := bs.zipIdx.flatMap fun p => [f p.1]

/-- A vector with two numbers per item. -/
def col2 {α β : Type} (f g : β → α) (bs : List β) : List α := bs.zipIdx.flatMap fun p => [f p.1, g p.1]

/-- A vector with three numbers per item. -/
def col3 {β : Type} (r : ℝ → ℝ) (f : β → V3) (bs : List β) : List ℝ :=
  bs.zipIdx.flatMap fun p => [r (f p.1).x, r (f p.1).y, r (f p.1).z]

/-- A vector with six numbers per item. -/
def col6 {β : Type} (r : ℝ → ℝ) (f g : β → V3) (bs : List β) : List ℝ :=
  bs.zipIdx.flatMap fun p => [r (f p.1).x, r (f p.1).y, r (f p.1).z, r (g p.1).x, r (g p.1).y, r (g p.1).z]

section
variable {β : Type} (sched : Sched) (hs : ∀ nm (γ : Type) (l : List (ℕ × γ)), (sched nm l).Perm l) (bs : List β)
include hs

theorem vtp_wr1 {α : Type} (name : String) (zero : α) (f : β → α) :
    fill sched name bs.length zero (bs.zipIdx.map Prod.swap) (wr1 f) = some (col1 f bs) :=
  vtp_fill sched hs name zero _ bs rfl 1 _ (wr1 f) (fun _ b => [f b]) (by simp)
    (by intro i b; simp [wr1, idxWrites]) (by simp)

theorem vtp_wr3 (name : String) (r32 : ℝ → ℝ) (f : β → V3) :
    fill sched name (3 * bs.length) 0 (bs.zipIdx.map Prod.swap) (wr3 r32 f) =
      some (col3 r32 f bs) :=
  vtp_fill sched hs name 0 _ bs rfl 3 _ (wr3 r32 f) (fun _ b => [r32 (f b).x, r32 (f b).y, r32 (f b).z]) rfl
    (by intro i b; simp [wr3, idxWrites]) (by simp)

theorem vtp_wrLabel (name : String) :
    fill sched name (2 * bs.length) 0 (bs.zipIdx.map Prod.swap) wrLabel = some (col2 (fun _ => 0) (fun _ => 1) bs) :=
  vtp_fill sched hs name 0 _ bs rfl 2 _ wrLabel (fun _ _ => [0, 1]) rfl (by intro i b; simp [wrLabel, idxWrites]) (by simp)

theorem vtp_wrConn (name : String) :
    fill sched name (2 * bs.length) 0 (bs.zipIdx.map Prod.swap) wrConn =
      some (bs.zipIdx.flatMap fun p => [((2 * p.2 : ℕ) : ℤ), ((2 * p.2 + 1 : ℕ) : ℤ)]) :=
  vtp_fill sched hs name 0 _ bs rfl 2 _ wrConn (fun i _ => [((2 * i : ℕ) : ℤ), ((2 * i + 1 : ℕ) : ℤ)]) rfl
    (by intro i b; simp [wrConn, idxWrites]) (by simp)

theorem vtp_wrOffset (name : String) :
    fill sched name bs.length 0 (bs.zipIdx.map Prod.swap) wrOffset =
      some (bs.zipIdx.flatMap fun p => [((2 * p.2 + 2 : ℕ) : ℤ)]) :=
  vtp_fill sched hs name 0 _ bs rfl 1 _ wrOffset (fun i _ => [((2 * i + 2 : ℕ) : ℤ)]) (by simp)
    (by intro i b; simp [wrOffset, idxWrites]) (by simp)
end

theorem vtp_wrEnds (sched : Sched) (hs : ∀ nm (γ : Type) (l : List (ℕ × γ)), (sched nm l).Perm l) (bs : List Sylinder)
    (name : String) :
    fill sched name (6 * bs.length) 0 (bs.zipIdx.map Prod.swap) wrEnds =
      some (col6 id end0 end1 bs) :=
  vtp_fill sched hs name 0 _ bs rfl 6 _ wrEnds
    (fun _ b => [(end0 b).x, (end0 b).y, (end0 b).z, (end1 b).x, (end1 b).y, (end1 b).z]) rfl
    (by intro i b; simp [wrEnds, idxWrites]) (by simp)

theorem vtp_wrSides (sched : Sched) (hs : ∀ nm (γ : Type) (l : List (ℕ × γ)), (sched nm l).Perm l) (bs : List Block)
    (name : String) (r : ℝ → ℝ) (f g : Block → V3) :
    fill sched name (6 * bs.length) 0 (bs.zipIdx.map Prod.swap) (wrSides r f g) =
      some (col6 r f g bs) :=
  vtp_fill sched hs name 0 _ bs rfl 6 _ (wrSides r f g)
    (fun _ b => [r (f b).x, r (f b).y, r (f b).z, r (g b).x, r (g b).y, r (g b).z]) rfl
    (by intro i b; simp [wrSides, idxWrites]) (by simp)

theorem vtp_wrPair (sched : Sched) (hs : ∀ nm (γ : Type) (l : List (ℕ × γ)), (sched nm l).Perm l) (bs : List Block)
    (name : String) (f g : Block → ℤ) :
    fill sched name (2 * bs.length) 0 (bs.zipIdx.map Prod.swap) (wrPair f g) =
      some (col2 f g bs) :=
  vtp_fill sched hs name 0 _ bs rfl 2 _ (wrPair f g) (fun _ b => [f b, g b]) rfl
    (by intro i b; simp [wrPair, idxWrites]) (by simp)

theorem vtp_wrStress (sched : Sched) (hs : ∀ nm (γ : Type) (l : List (ℕ × γ)), (sched nm l).Perm l) (bs : List Block)
    (name : String) (r : ℝ → ℝ) :
    fill sched name (9 * bs.length) 0 (bs.zipIdx.map Prod.swap) (wrStress r) =
      some (bs.zipIdx.flatMap fun p => (List.finRange 9).map fun kk => r (p.1.stress kk)) :=
  vtp_fill sched hs name 0 _ bs rfl 9 _ (wrStress r) (fun _ b => (List.finRange 9).map fun kk => r (b.stress kk)) rfl
    (by intro i b; simp [wrStress, idxWrites]; apply List.ext_getElem <;> simp) (by simp)

theorem vtp_conItems (pool : Pool) : conItems pool = pool.flatten.zipIdx.map Prod.swap := by
  unfold conItems buildConIndex
  simp only
  have : ∀ (p : Pool) (acc : ℕ), ((queIndexFrom acc (p.map List.length)).zip p).flatMap
      (fun p => p.2.zipIdx.map fun bc => (p.1 + bc.2, bc.1)) = (p.flatten.zipIdx acc).map Prod.swap := by
    intro p
    induction p with
    | nil => intro acc; rfl
    | cons q p ih =>
      intro acc
      simp only [List.map_cons, queIndexFrom, List.zip_cons_cons, List.flatMap_cons, List.flatten_cons]
      rw [ih, List.zipIdx_append, List.map_append, Nat.add_comm]
      congr 1
      apply List.ext_getElem <;> simp
  exact this pool 0

/-! ### names -/

theorem vtp_dirOf (a b : Str) (ha : a.getLast? = some '/') (hb : '/' ∉ b) : dirOf (a ++ b) = a := by
  unfold dirOf
  rw [List.reverse_append, List.dropWhile_append_of_pos]
  · obtain ⟨c, rfl⟩ : ∃ c, a = c ++ ['/'] := by
      obtain ⟨h, h'⟩ := List.getLast?_eq_some_iff.1 ha; exact ⟨h, h'⟩
    simp
  · intro x hx
    have : x ≠ '/' := by rintro rfl; exact hb (by simpa using hx)
    simpa using this

/-! ### bodies -/

theorem vtp_lines {β : Type} (bs : List β) (p : Piece) (hn : p.numberOfLines = bs.length) (hp : p.numberOfPoints = bs.length * 2)
    (hl : p.lines = [writeDataArray (.i32 (bs.zipIdx.flatMap fun p => [((2 * p.2 : ℕ) : ℤ), ((2 * p.2 + 1 : ℕ) : ℤ)])) "connectivity" 1,
      writeDataArray (.i32 (bs.zipIdx.flatMap fun p => [((2 * p.2 + 2 : ℕ) : ℤ)])) "offsets" 1]) : TwoPointLines p := by
  refine ⟨_, _, by rw [hl]; rfl, ?_, ?_, ?_⟩
  · rw [vtp_length_flatMap 1 (fun i _ => [((2 * i + 2 : ℕ) : ℤ)]) (by simp), hn, Nat.one_mul]
  · rw [vtp_length_flatMap 2 (fun i _ => [((2 * i : ℕ) : ℤ), ((2 * i + 1 : ℕ) : ℤ)]) (by simp)]
    rcases List.eq_nil_or_concat bs with rfl | ⟨l, b, rfl⟩
    · simp
    · simp [List.zipIdx_append]; ring
  · intro k hk
    rw [hn] at hk
    have hoff : ∀ k, k < bs.length → (bs.zipIdx.flatMap fun p => [((2 * p.2 + 2 : ℕ) : ℤ)])[k]? = some ((2 * k + 2 : ℕ) : ℤ) := by
      intro k hk
      rw [← List.map_eq_flatMap]
      simp [hk]
    have hconn := vtp_tuple 2 (fun i (_ : β) => [((2 * i : ℕ) : ℤ), ((2 * i + 1 : ℕ) : ℤ)]) (by simp) bs 0 k bs[k] (by simp [hk])
    refine ⟨((k * 2 : ℕ) : ℤ), ((2 * k + 2 : ℕ) : ℤ), ?_, hoff k hk, by omega, by omega, ?_, by omega⟩
    · cases k with
      | zero => simp
      | succ k => rw [List.getElem?_cons_succ, hoff k (by omega)]; congr 2; omega
    · have h1 : (((k * 2 : ℕ) : ℤ)).toNat = k * 2 := by omega
      have h2 : (((2 * k + 2 : ℕ) : ℤ) - ((k * 2 : ℕ) : ℤ)).toNat = 2 := by omega
      rw [h1, h2, hconn]
      simp

theorem vtp_toNat (b : Bool) : (if b then 1 else 0 : ℕ) = b.toNat := by cases b <;> rfl

theorem vtp_toInt (b : Bool) : (if b then 1 else 0 : ℤ) = (b.toNat : ℤ) := by cases b <;> rfl

theorem vtp_col1 {α β : Type} (bs : List β) (f : β → α) (k : ℕ) (b : β) (h : bs[k]? = some b) :
    ((col1 f bs).drop (k * 1)).take 1 = [f b] := vtp_tuple 1 (fun _ b => [f b]) (by simp) bs 0 k b h

theorem vtp_col2 {α β : Type} (bs : List β) (f g : β → α) (k : ℕ) (b : β) (h : bs[k]? = some b) :
    ((col2 f g bs).drop (k * (2 * 1))).take (2 * 1) = [f b, g b] :=
  vtp_tuple 2 (fun _ b => [f b, g b]) (by simp) bs 0 k b h

theorem vtp_col3 {β : Type} (bs : List β) (r : ℝ → ℝ) (f : β → V3) (k : ℕ) (b : β) (h : bs[k]? = some b) :
    ((col3 r f bs).drop (k * 3)).take 3 = [r (f b).x, r (f b).y, r (f b).z] :=
  vtp_tuple 3 (fun _ b => [r (f b).x, r (f b).y, r (f b).z]) (by simp) bs 0 k b h

theorem vtp_col6 {β : Type} (bs : List β) (r : ℝ → ℝ) (f g : β → V3) (k : ℕ) (b : β) (h : bs[k]? = some b) :
    ((col6 r f g bs).drop (k * (2 * 3))).take (2 * 3) =
      [r (f b).x, r (f b).y, r (f b).z, r (g b).x, r (g b).y, r (g b).z] :=
  vtp_tuple 6 (fun _ b => [r (f b).x, r (f b).y, r (f b).z, r (g b).x, r (g b).y, r (g b).z]) (by simp) bs 0 k b h

theorem vtp_len1 {α β : Type} (bs : List β) (f : β → α) : (col1 f bs).length = bs.length := by
  unfold col1; rw [vtp_length_flatMap 1 (fun _ b => [f b]) (by simp), Nat.one_mul]

theorem vtp_len2 {α β : Type} (bs : List β) (f g : β → α) : (col2 f g bs).length = 2 * bs.length :=
  vtp_length_flatMap 2 (fun _ b => [f b, g b]) (by simp) bs 0

theorem vtp_len3 {β : Type} (bs : List β) (r : ℝ → ℝ) (f : β → V3) : (col3 r f bs).length = 3 * bs.length :=
  vtp_length_flatMap 3 (fun _ b => [r (f b).x, r (f b).y, r (f b).z]) (by simp) bs 0

theorem vtp_len6 {β : Type} (bs : List β) (r : ℝ → ℝ) (f g : β → V3) : (col6 r f g bs).length = 6 * bs.length :=
  vtp_length_flatMap 6 (fun _ b => [r (f b).x, r (f b).y, r (f b).z, r (g b).x, r (g b).y, r (g b).z]) (by simp) bs 0

/-- **C62** for bodies, for all numbers of bodies of a rank for which `6 * n` is an `int`, and all orders in which the
threads write: the piece agrees with the parallel header, its lines are the pairs of points of the bodies, and tuple
`k` of each array holds the data of body `k`. -/
theorem C62_bodies_partial (r32 : ℝ → ℝ) (sched : Sched) (hs : ∀ nm (γ : Type) (l : List (ℕ × γ)), (sched nm l).Perm l)
    (bodies : List Sylinder) (hn : 6 * bodies.length ≤ maxInt) (pre post : Str) (nProcs : ℕ) :
    ∃ p, bodyVTP r32 sched bodies = some p ∧ p.numberOfLines = bodies.length ∧ p.numberOfPoints = 2 * bodies.length ∧
      Agrees (bodyPVTP pre post nProcs).2 p ∧ TwoPointLines p ∧
      ∀ k s, bodies[k]? = some s → row p.cellData k = bodyCells r32 s ∧
        row p.pointData (2 * k) = [("endLabel", .u8 [0])] ∧ row p.pointData (2 * k + 1) = [("endLabel", .u8 [1])] ∧
        row p.points (2 * k) = [("position", .f64 [(end0 s).x, (end0 s).y, (end0 s).z])] ∧
        row p.points (2 * k + 1) = [("position", .f64 [(end1 s).x, (end1 s).y, (end1 s).z])] := by
  unfold bodyVTP
  simp only [vtp_wr1 sched hs bodies, vtp_wr3 sched hs bodies, vtp_wrLabel sched hs bodies, vtp_wrConn sched hs bodies,
    vtp_wrOffset sched hs bodies, vtp_wrEnds sched hs bodies, if_neg (Nat.not_lt.2 hn), Option.bind_eq_bind,
    Option.bind_some, Option.pure_def]
  refine ⟨_, rfl, rfl, by simp only; omega, ⟨?_, ?_, ?_, rfl, rfl, ⟨_, rfl, rfl, ?_⟩⟩, vtp_lines bodies _ rfl rfl rfl, ?_⟩
  · intro d hd
    simp only [List.mem_singleton] at hd
    subst hd
    simp only [writeDataArray, Arr.size, vtp_len2]; omega
  · simp only [List.forall_mem_cons, writeDataArray, Arr.size, List.not_mem_nil, false_imp_iff, implies_true, and_true,
      vtp_len1, vtp_len3, Nat.one_mul, true_and]
  · simp only [List.cons_append, List.nil_append, List.forall_mem_cons, writeDataArray, vtkName, List.not_mem_nil,
      false_imp_iff, implies_true, and_true, true_and]
  · simp only [writeDataArray, Arr.size, vtp_len6]; omega
  · intro k s hk
    refine ⟨?_, ?_, ?_, ?_, ?_⟩
    · simp only [row, List.map_cons, List.map_nil, writeDataArray, tuple, vtp_col1 bodies _ k s hk,
        vtp_col3 bodies r32 _ k s hk, bodyCells, vec, vtp_toNat]
    · simp only [row, List.map_cons, List.map_nil, writeDataArray, tuple, (vtp_half _ k 1).1, vtp_col2 bodies _ _ k s hk]
      rfl
    · simp only [row, List.map_cons, List.map_nil, writeDataArray, tuple, (vtp_half _ k 1).2, vtp_col2 bodies _ _ k s hk]
      rfl
    · simp only [row, List.map_cons, List.map_nil, writeDataArray, tuple, (vtp_half _ k 3).1, vtp_col6 bodies _ _ _ k s hk]
      rfl
    · simp only [row, List.map_cons, List.map_nil, writeDataArray, tuple, (vtp_half _ k 3).2, vtp_col6 bodies _ _ _ k s hk]
      rfl

/-- Two bodies, writes in reverse order. -/
example : ∃ p, bodyVTP id (fun _ _ l => l.reverse) [rodAt 1 0, rodAt 2 ⟨5, 0, 0⟩] = some p ∧
    p.numberOfPoints = 4 := by
  obtain ⟨p, h1, -, h3, -⟩ := C62_bodies_partial id (fun _ _ l => l.reverse) (fun _ _ l => List.reverse_perm l)
    [rodAt 1 0, rodAt 2 ⟨5, 0, 0⟩] (by simp [maxInt]) [] [] 1
  exact ⟨p, h1, by simpa using h3⟩

/-- **C62**, beyond the range of `int`: with 357913942 bodies on a rank `6 * n` overflows. -/
theorem C62_overflow_false : ∃ bodies : List Sylinder, ∀ (r32 : ℝ → ℝ) (sched : Sched), bodyVTP r32 sched bodies = none := by
  refine ⟨List.replicate 357913942 (rodAt 0 0), fun r32 sched => ?_⟩
  unfold bodyVTP
  rw [List.length_replicate]
  exact if_pos (by unfold maxInt; omega)

/-! ### constraints -/

/-- **C62** for constraints, for all pools for which `9 * n` is an `int`, however the constraints are distributed over
the queues, and all orders of the writes: the piece agrees with the parallel header, and tuple `k` of each array holds
the data of constraint `k` (the queues one after the other). -/
theorem C62_constraints_partial (r32 : ℝ → ℝ) (sched : Sched)
    (hs : ∀ nm (γ : Type) (l : List (ℕ × γ)), (sched nm l).Perm l)
    (pool : Pool) (hn : 9 * pool.flatten.length ≤ maxInt) (folder pre post : Str) (nProcs : ℕ) :
    ∃ p, conVTP r32 sched pool = some p ∧ p.numberOfLines = pool.flatten.length ∧
      p.numberOfPoints = 2 * pool.flatten.length ∧
      Agrees (conPVTP folder pre post nProcs).2 p ∧ TwoPointLines p ∧
      ∀ k b, pool.flatten[k]? = some b → row p.cellData k = conCells r32 b ∧
        row p.pointData (2 * k) = conPoint r32 b false ∧ row p.pointData (2 * k + 1) = conPoint r32 b true ∧
        row p.points (2 * k) = [("position", .f64 [b.labI.x, b.labI.y, b.labI.z])] ∧
        row p.points (2 * k + 1) = [("position", .f64 [b.labJ.x, b.labJ.y, b.labJ.z])] := by
  have hline : (List.range pool.flatten.length).map (fun i => (i, ())) =
      ((List.replicate pool.flatten.length ()).zipIdx.map Prod.swap) := by
    apply List.ext_getElem <;> simp
  have hconn := vtp_wrConn sched hs (List.replicate pool.flatten.length ())
  have hoff := vtp_wrOffset sched hs (List.replicate pool.flatten.length ())
  rw [List.length_replicate] at hconn hoff
  unfold conVTP
  rw [buildConIndex_last, Option.bind_eq_bind, Option.bind_some, if_neg (Nat.not_lt.2 hn), vtp_conItems, hline]
  simp only [Option.bind_eq_bind, hconn, hoff, vtp_wr1 sched hs pool.flatten, vtp_wrSides sched hs pool.flatten, vtp_wrPair sched hs pool.flatten,
    vtp_wrStress sched hs pool.flatten, Option.bind_some, Option.pure_def]
  generalize pool.flatten = bs at *
  have h9 : (bs.zipIdx.flatMap fun p => (List.finRange 9).map fun kk => r32 (p.1.stress kk)).length = 9 * bs.length :=
    vtp_length_flatMap 9 (fun _ b => (List.finRange 9).map fun kk => r32 (b.stress kk)) (by simp) bs 0
  refine ⟨_, rfl, rfl, by simp only; omega, ⟨?_, ?_, ?_, rfl, rfl, ⟨_, rfl, rfl, ?_⟩⟩,
    vtp_lines (List.replicate bs.length ()) _ (by simp) (by simp) rfl, ?_⟩
  · simp only [List.forall_mem_cons, writeDataArray, Arr.size, List.not_mem_nil, false_imp_iff, implies_true, and_true,
      vtp_len2, vtp_len6]
    refine ⟨?_, ?_, ?_, ?_⟩ <;> omega
  · simp only [List.forall_mem_cons, writeDataArray, Arr.size, List.not_mem_nil, false_imp_iff, implies_true, and_true,
      vtp_len1, Nat.one_mul, true_and, h9]
  · simp only [List.cons_append, List.nil_append, List.forall_mem_cons, writeDataArray, vtkName, List.not_mem_nil,
      false_imp_iff, implies_true, and_true, true_and]
  · simp only [writeDataArray, Arr.size, vtp_len6]; omega
  · intro k s hk
    have t9 : ((bs.zipIdx.flatMap fun p => (List.finRange 9).map fun kk => r32 (p.1.stress kk)).drop (k * 9)).take 9 =
        (List.finRange 9).map fun kk => r32 (s.stress kk) :=
      vtp_tuple 9 (fun _ b => (List.finRange 9).map fun kk => r32 (b.stress kk)) (by simp) bs 0 k s hk
    refine ⟨?_, ?_, ?_, ?_, ?_⟩
    · simp only [row, List.map_cons, List.map_nil, writeDataArray, tuple, vtp_col1 bs _ k s hk, t9, conCells, vtp_toInt]
      rfl
    · simp only [row, List.map_cons, List.map_nil, writeDataArray, tuple, (vtp_half _ k 1).1, (vtp_half _ k 3).1, vtp_col2 bs _ _ k s hk, vtp_col6 bs _ _ _ k s hk]
      rfl
    · simp only [row, List.map_cons, List.map_nil, writeDataArray, tuple, (vtp_half _ k 1).2, (vtp_half _ k 3).2, vtp_col2 bs _ _ k s hk, vtp_col6 bs _ _ _ k s hk]
      rfl
    · simp only [row, List.map_cons, List.map_nil, writeDataArray, tuple, (vtp_half _ k 3).1, vtp_col6 bs _ _ _ k s hk]; rfl
    · simp only [row, List.map_cons, List.map_nil, writeDataArray, tuple, (vtp_half _ k 3).2, vtp_col6 bs _ _ _ k s hk]; rfl

/-- An example constraint. -/
noncomputable def vtpBlock : Block :=
  ⟨0, 1, 0, 3, 4, 0, 1, false, false, 0, ⟨1, 0, 0⟩, ⟨-1, 0, 0⟩, 0, 0, 0, 0, fun _ => 2⟩

/-- Three constraints in the first and third of three queues. -/
example : ∃ p, conVTP id (fun _ _ l => l.reverse) [[vtpBlock], [], [vtpBlock, vtpBlock]] = some p ∧
    p.numberOfLines = 3 := by
  obtain ⟨p, h1, h2, -⟩ := C62_constraints_partial id (fun _ _ l => l.reverse) (fun _ _ l => List.reverse_perm l)
    [[vtpBlock], [], [vtpBlock, vtpBlock]] (by simp [maxInt]) [] [] [] 1
  exact ⟨p, h1, by simpa using h2⟩

/-! ### names of the pieces -/

theorem vtp_dec_slash (n : ℕ) : '/' ∉ dec n := by
  intro h
  have := dec_digit n _ h
  revert this; decide

theorem vtp_dec_inj (a b : ℕ) (h : dec a = dec b) : a = b := by rw [← ofDigit_dec a, h, ofDigit_dec]

/-- **C62**: each header is in a folder in which the source that it names for rank `r` is the file that rank `r`
writes, the ranks write different files, and there is one source for each rank. -/
theorem C62_pieces (size snapID : ℕ) (folder : Str) (hf : Output.resultFolder size snapID = some folder) :
    (∀ (j : ℕ) (h : Str × Header) , (writeVTKHeaders folder snapID size)[j]? = some h →
      h.2.pieces.length = size ∧
      ∀ r < size, ∃ src f, h.2.pieces[r]? = some src ∧ (writeVTKPieces folder snapID r)[j]? = some f ∧
        dirOf h.1 ++ src = f) ∧
    ∀ (j : ℕ) (r r' : ℕ) (f : Str), (writeVTKPieces folder snapID r)[j]? = some f →
      (writeVTKPieces folder snapID r')[j]? = some f → r = r' := by
  have hlast : folder.getLast? = some '/' := by
    unfold Output.resultFolder at hf
    obtain ⟨q, -, rfl⟩ := Option.map_eq_some_iff.1 hf
    have : "/".toList = ['/'] := rfl
    rw [this, List.getLast?_concat]
  have hinj : ∀ (a c : Str) (r r' : ℕ), a ++ dec r ++ "_".toList ++ c = a ++ dec r' ++ "_".toList ++ c → r = r' := by
    intro a c r r' h
    rw [List.append_left_inj, List.append_left_inj, List.append_right_inj] at h
    exact vtp_dec_inj _ _ h
  constructor
  · intro j h hj
    rcases j with _ | _ | j
    · obtain rfl : bodyPVTP folder (dec snapID) size = h := by simpa [writeVTKHeaders] using hj
      refine ⟨by simp [bodyPVTP, writePVTPFile], fun r hr => ⟨bodyPiece (dec snapID) r, bodyFile folder (dec snapID) r,
        by simp [bodyPVTP, writePVTPFile, hr], rfl, ?_⟩⟩
      have : dirOf (bodyPVTP folder (dec snapID) size).1 = folder := by
        unfold bodyPVTP
        simp only
        rw [List.append_assoc, List.append_assoc]
        refine vtp_dirOf _ _ hlast ?_
        have h1 : '/' ∉ "Sylinder_".toList := by decide
        have h2 : '/' ∉ ".pvtp".toList := by decide
        simp only [List.mem_append, h1, h2, vtp_dec_slash, or_self, not_false_eq_true]
      rw [this]
      unfold bodyPiece bodyFile
      simp only [List.append_assoc]
    · obtain rfl : conPVTP folder [] (dec snapID) size = h := by simpa [writeVTKHeaders] using hj
      refine ⟨by simp [conPVTP, writePVTPFile], fun r hr => ⟨conPiece [] (dec snapID) r, conFile folder [] (dec snapID) r,
        by simp [conPVTP, writePVTPFile, hr], rfl, ?_⟩⟩
      have : dirOf (conPVTP folder [] (dec snapID) size).1 = folder ++ "/".toList := by
        unfold conPVTP
        simp only
        rw [List.append_nil, List.append_assoc, List.append_assoc]
        refine vtp_dirOf _ _ ?_ ?_
        · have : "/".toList = ['/'] := rfl
          rw [this, List.getLast?_concat]
        have h1 : '/' ∉ "ConBlock_".toList := by decide
        have h2 : '/' ∉ ".pvtp".toList := by decide
        simp only [List.mem_append, h1, h2, vtp_dec_slash, or_self, not_false_eq_true]
      rw [this]
      unfold conPiece conFile
      simp only [List.append_assoc, List.nil_append]
    · simp [writeVTKHeaders] at hj
  · intro j r r' f h h'
    rcases j with _ | _ | j
    · have h1 : bodyFile folder (dec snapID) r = f := by simpa [writeVTKPieces] using h
      have h2 : bodyFile folder (dec snapID) r' = f := by simpa [writeVTKPieces] using h'
      have := h1.trans h2.symm
      unfold bodyFile at this
      rw [List.append_left_inj] at this
      exact hinj _ _ _ _ this
    · have h1 : conFile folder [] (dec snapID) r = f := by simpa [writeVTKPieces] using h
      have h2 : conFile folder [] (dec snapID) r' = f := by simpa [writeVTKPieces] using h'
      have := h1.trans h2.symm
      unfold conFile at this
      rw [List.append_left_inj] at this
      exact hinj _ _ _ _ this
    · simp [writeVTKPieces] at h

/-- Snapshot 7 on 4 ranks. -/
example : ∃ folder, Output.resultFolder 4 7 = some folder := ⟨_, rfl⟩

end Verif
