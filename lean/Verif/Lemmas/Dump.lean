import Verif.Model.Dump
import Verif.Spec.Dump
import Verif.Props.PointDist
import Mathlib.Logic.Relation

namespace Verif.Dump

open Spec

/-- Without opening and barriers. -/
def NoSync (prog : List Act) : Prop := ∀ x ∈ prog, x ≠ .open ∧ x ≠ .barrier

/-- What it writes. -/
def output : List Act → List Char
  | [] => []
  | .write c :: prog => c ++ output prog
  | _ :: prog => output prog

/-- `k` barriers and then to write `t`. -/
def Opened (k : Nat) (t : List Char) (p : Proc) : Prop :=
  p.pos = 0 ∧ ∃ tail, NoSync tail ∧ output tail = t ∧ p.prog = List.replicate k .barrier ++ tail

/-- To open, `m` barriers and then to write `t`. -/
def Unopened (m : Nat) (t : List Char) (p : Proc) : Prop :=
  p.pos = 0 ∧ ∃ tail, NoSync tail ∧ output tail = t ∧ p.prog = .open :: (List.replicate m .barrier ++ tail)

/-- Before the last barrier. -/
structure Inv1 (m : Nat) (t : List Char) (k : Nat) (c : Conf) : Prop where
  le : k ≤ m
  ex : ∃ r os, c.procs = r :: os ∧ (m = 0 → os = []) ∧ (Opened k t r ∨ k = m ∧ Unopened m t r) ∧ ∀ o ∈ os, Opened k [] o ∨ k = m ∧ Unopened m [] o
  empty : (∃ p ∈ c.procs, ∃ t', Opened k t' p) → c.file = []

/-- After it. -/
def Inv2 (t : List Char) (c : Conf) : Prop :=
  ∃ r os, c.procs = r :: os ∧ NoSync r.prog ∧ r.pos = c.file.length ∧ c.file ++ output r.prog = t ∧ ∀ o ∈ os, o.pos = 0 ∧ NoSync o.prog ∧ output o.prog = []

theorem writeAt_end (file piece : List Char) : writeAt file file.length piece = file ++ piece := by
  simp [writeAt]

theorem writeAt_nil (file : List Char) : writeAt file 0 [] = file := by simp [writeAt]

/-- All have opened and passed the barriers. -/
theorem Inv1.two {m : Nat} {t : List Char} {c : Conf} (h : Inv1 m t 0 c) (ho : ∃ p ∈ c.procs, ∃ t', Opened 0 t' p) : Inv2 t c := by
  have hf := h.empty ho
  obtain ⟨r, os, h1, h2, h3, h4⟩ := h.ex
  have notU : ∀ p t1 t2, Opened 0 t1 p → ¬ Unopened m t2 p := by
    rintro p t1 t2 ⟨-, tail, k1, -, k2⟩ ⟨-, tail', -, -, k3⟩
    rw [k3] at k2
    simp only [List.replicate_zero, List.nil_append] at k2
    exact (k1 .open (by rw [← k2]; simp)).1 rfl
  have all : Opened 0 t r ∧ ∀ o ∈ os, Opened 0 [] o := by
    by_cases hm : m = 0
    · have := h2 hm
      subst this
      rcases h3 with h3 | ⟨-, h3⟩
      · exact ⟨h3, by simp⟩
      · obtain ⟨p, hp, t', ht⟩ := ho
        rw [h1] at hp
        simp only [List.mem_singleton] at hp
        subst hp
        exact absurd h3 (notU _ _ _ ht)
    · refine ⟨h3.resolve_right fun k => hm k.1.symm, fun o ho => (h4 o ho).resolve_right fun k => hm k.1.symm⟩
  obtain ⟨⟨p1, tail, p2, p3, p4⟩, all⟩ := all
  simp only [List.replicate_zero, List.nil_append] at p4
  refine ⟨r, os, h1, p4 ▸ p2, by rw [p1, hf]; rfl, by rw [hf, p4, p3]; rfl, fun o ho => ?_⟩
  obtain ⟨q1, tail', q2, q3, q4⟩ := all o ho
  simp only [List.replicate_zero, List.nil_append] at q4
  exact ⟨q1, q4 ▸ q2, by rw [q4, q3]⟩

theorem NoSync.tail {x : Act} {prog : List Act} (h : NoSync (x :: prog)) : NoSync prog := fun y hy => h y (List.mem_cons_of_mem _ hy)

theorem Inv2.step {t : List Char} {c c' : Conf} (h : Inv2 t c) (hs : Step c c') : Inv2 t c' := by
  obtain ⟨r, os, h1, h2, h3, h4, h5⟩ := h
  cases hs with
  | barrier file procs hne hb =>
    simp only at h1
    have := hb r (by rw [h1]; simp)
    cases hp : r.prog with
    | nil => simp [hp] at this
    | cons x rest =>
      simp only [hp, List.head?_cons, Option.some.injEq] at this
      exact absurd this (h2 x (by rw [hp]; simp)).2
  | act file a b pos x rest hx =>
    simp only at h1 h3 h4
    cases a with
    | nil =>
      simp only [List.nil_append, List.cons.injEq] at h1
      obtain ⟨rfl, rfl⟩ := h1
      simp only at h2 h3 h4
      refine ⟨_, b, rfl, h2.tail, ?_, ?_, h5⟩
      · cases x with
        | «open» => exact absurd rfl (h2 _ (List.mem_cons_self)).1
        | barrier => exact absurd rfl hx
        | write p => simp only [exec, h3, writeAt_end, List.length_append]
        | close => exact h3
        | exit => exact h3
      · cases x with
        | «open» => exact absurd rfl (h2 _ (List.mem_cons_self)).1
        | barrier => exact absurd rfl hx
        | write p => simp only [exec, h3, writeAt_end, List.append_assoc]; exact h4
        | close => exact h4
        | exit => exact h4
    | cons a0 a =>
      simp only [List.cons_append, List.cons.injEq] at h1
      obtain ⟨rfl, rfl⟩ := h1
      obtain ⟨q1, q2, q3⟩ := h5 ⟨pos, x :: rest⟩ (by simp)
      simp only at q1 q2 q3
      subst q1
      have e : exec file 0 x = (file, 0) ∧ output rest = [] := by
        cases x with
        | «open» => exact absurd rfl (q2 _ (List.mem_cons_self)).1
        | barrier => exact absurd rfl hx
        | write p =>
          simp only [output, List.append_eq_nil_iff] at q3
          rw [q3.1]
          exact ⟨by simp [exec, writeAt_nil], q3.2⟩
        | close => exact ⟨rfl, q3⟩
        | exit => exact ⟨rfl, q3⟩
      refine ⟨a0, a ++ ⟨0, rest⟩ :: b, by rw [e.1]; rfl, h2, by rw [e.1]; exact h3, by rw [e.1]; exact h4, fun o ho => ?_⟩
      rcases List.mem_append.1 ho with ho | ho
      · exact h5 o (by simp [ho])
      · rcases List.mem_cons.1 ho with rfl | ho
        · exact ⟨rfl, q2.tail, e.2⟩
        · exact h5 o (by simp [ho])

theorem Inv1.step {m k : Nat} {t : List Char} {c c' : Conf} (h : Inv1 m t k c) (hs : Step c c') : (∃ k', Inv1 m t k' c') ∨ Inv2 t c' := by
  obtain ⟨r, os, h1, h2, h3, h4⟩ := h.ex
  cases hs with
  | barrier file procs hne hb =>
    simp only at h1
    left
    have key : ∀ p ∈ procs, ∀ t', (Opened k t' p ∨ k = m ∧ Unopened m t' p) → ∃ k', k = k' + 1 ∧ Opened k' t' ⟨p.pos, p.prog.tail⟩ := by
      intro p hp t' hq
      have hh := hb p hp
      rcases hq with ⟨q1, tail, q2, q3, q4⟩ | ⟨-, q1, tail, q2, q3, q4⟩
      · cases k with
        | zero =>
          simp only [List.replicate_zero, List.nil_append] at q4
          rw [q4] at hh
          cases tail with
          | nil => simp at hh
          | cons y tail =>
            simp only [List.head?_cons, Option.some.injEq] at hh
            exact absurd hh (q2 y (by simp)).2
        | succ k' => exact ⟨k', rfl, q1, tail, q2, q3, by rw [q4]; rfl⟩
      · rw [q4] at hh
        simp at hh
    obtain ⟨k', rfl, hr⟩ := key r (by rw [h1]; simp) t h3
    have hf : file = [] := h.empty ⟨r, by simp [h1], t, h3.resolve_right fun q => by
      obtain ⟨-, -, tail, -, -, q4⟩ := q
      have := hb r (by rw [h1]; simp)
      rw [q4] at this
      simp at this⟩
    refine ⟨k', by have := h.le; omega, ⟨_, _, by rw [h1]; rfl, fun hm => by rw [h2 hm]; rfl, Or.inl hr, fun o ho => ?_⟩, fun _ => hf⟩
    obtain ⟨o', ho', rfl⟩ := List.mem_map.1 ho
    obtain ⟨k'', e, q⟩ := key o' (by rw [h1]; simp [ho']) [] (h4 o' ho')
    cases e
    exact Or.inl q
  | act file a b pos x rest hx =>
    simp only at h1
    by_cases hop : x = .open
    · subst hop
      left
      have key : ∀ t', (Opened k t' ⟨pos, .open :: rest⟩ ∨ k = m ∧ Unopened m t' ⟨pos, .open :: rest⟩) → k = m ∧ Opened k t' ⟨0, rest⟩ := by
        rintro t' (⟨q1, tail, q2, q3, q4⟩ | ⟨e, q1, tail, q2, q3, q4⟩)
        · exfalso
          cases k with
          | zero =>
            simp only [List.replicate_zero, List.nil_append] at q4
            exact (q2 .open (by rw [← q4]; simp)).1 rfl
          | succ k => simp [List.replicate_succ] at q4
        · simp only [List.cons.injEq, true_and] at q4
          exact ⟨e, rfl, tail, q2, q3, by rw [e, q4]⟩
      refine ⟨k, h.le, ?_, fun _ => rfl⟩
      cases a with
      | nil =>
        simp only [List.nil_append, List.cons.injEq] at h1
        obtain ⟨rfl, rfl⟩ := h1
        exact ⟨_, b, rfl, h2, Or.inl (key t h3).2, h4⟩
      | cons a0 a =>
        simp only [List.cons_append, List.cons.injEq] at h1
        obtain ⟨rfl, rfl⟩ := h1
        refine ⟨a0, a ++ ⟨0, rest⟩ :: b, rfl, fun hm => ?_, h3, fun o ho => ?_⟩
        · exact absurd (h2 hm) (by simp)
        · rcases List.mem_append.1 ho with ho | ho
          · exact h4 o (by simp [ho])
          · rcases List.mem_cons.1 ho with rfl | ho
            · exact Or.inl (key [] (h4 _ (by simp))).2
            · exact h4 o (by simp [ho])
    · right
      have key : ∀ t', (Opened k t' ⟨pos, x :: rest⟩ ∨ k = m ∧ Unopened m t' ⟨pos, x :: rest⟩) → k = 0 ∧ Opened 0 t' ⟨pos, x :: rest⟩ := by
        rintro t' (⟨q1, tail, q2, q3, q4⟩ | ⟨e, q1, tail, q2, q3, q4⟩)
        · cases k with
          | zero => exact ⟨rfl, q1, tail, q2, q3, q4⟩
          | succ k =>
            simp only [List.replicate_succ, List.cons_append, List.cons.injEq] at q4
            exact absurd q4.1 hx
        · simp only [List.cons.injEq] at q4
          exact absurd q4.1 hop
      have : ∃ t', k = 0 ∧ Opened 0 t' ⟨pos, x :: rest⟩ := by
        have hm : (⟨pos, x :: rest⟩ : Proc) ∈ r :: os := by rw [← h1]; simp
        rcases List.mem_cons.1 hm with e | hm
        · exact ⟨t, key t (e ▸ h3)⟩
        · exact ⟨[], key [] (h4 _ hm)⟩
      obtain ⟨t', rfl, ht⟩ := this
      exact (h.two ⟨_, by simp, t', ht⟩).step (Step.act file a b pos x rest hx)

/-- Whatever has happened, somebody can go on or everybody has ended and the file is complete. -/
theorem Inv2.goes {t : List Char} {c : Conf} (h : Inv2 t c) : (∃ c', Step c c') ∨ (∀ p ∈ c.procs, p.prog = []) ∧ c.file = t := by
  obtain ⟨r, os, h1, h2, h3, h4, h5⟩ := h
  by_cases hall : ∀ p ∈ c.procs, p.prog = []
  · right
    refine ⟨hall, ?_⟩
    have := hall r (by rw [h1]; simp)
    rw [this] at h4
    simpa [output] using h4
  · left
    push Not at hall
    obtain ⟨p, hp, hne⟩ := hall
    obtain ⟨a, b, hab⟩ := List.append_of_mem hp
    obtain ⟨file, procs⟩ := c
    obtain ⟨pos, prog⟩ := p
    cases prog with
    | nil => exact absurd rfl hne
    | cons x rest =>
      simp only at hab
      subst hab
      refine ⟨_, Step.act file a b pos x rest ?_⟩
      have : NoSync (x :: rest) := by
        rw [h1] at hp
        rcases List.mem_cons.1 hp with e | hm
        · rw [← e] at h2; exact h2
        · exact (h5 _ hm).2.1
      exact (this x (by simp)).2

theorem Inv1.goes {m k : Nat} {t : List Char} {c : Conf} (h : Inv1 m t k c) : (∃ c', Step c c') ∨ (∀ p ∈ c.procs, p.prog = []) ∧ c.file = t := by
  obtain ⟨r, os, h1, h2, h3, h4⟩ := h.ex
  by_cases hu : ∃ p ∈ c.procs, ∃ t', Unopened m t' p
  · left
    obtain ⟨p, hp, t', q1, tail, q2, q3, q4⟩ := hu
    obtain ⟨a, b, hab⟩ := List.append_of_mem hp
    obtain ⟨file, procs⟩ := c
    obtain ⟨pos, prog⟩ := p
    simp only at hab q4
    subst hab q4
    exact ⟨_, Step.act file a b pos _ _ (by simp)⟩
  · have all : ∀ p ∈ c.procs, ∃ t', Opened k t' p := by
      intro p hp
      have hp' := hp
      rw [h1] at hp
      rcases List.mem_cons.1 hp with rfl | hm
      · exact ⟨t, h3.resolve_right fun q => hu ⟨p, hp', t, q.2⟩⟩
      · exact ⟨[], (h4 p hm).resolve_right fun q => hu ⟨p, hp', [], q.2⟩⟩
    cases k with
    | zero => exact (h.two ⟨r, by rw [h1]; simp, all r (by rw [h1]; simp)⟩).goes
    | succ k =>
      left
      obtain ⟨file, procs⟩ := c
      refine ⟨_, Step.barrier file procs (by simp only at h1; rw [h1]; simp) fun p hp => ?_⟩
      obtain ⟨t', -, tail, -, -, q⟩ := all p hp
      rw [q]
      rfl

theorem reach {m : Nat} {t : List Char} {c c' : Conf} (h : Inv1 m t m c) (hr : Relation.ReflTransGen Step c c') : (∃ k, Inv1 m t k c') ∨ Inv2 t c' := by
  induction hr with
  | refl => exact Or.inl ⟨m, h⟩
  | tail _ hs ih =>
    rcases ih with ⟨k, ih⟩ | ih
    · exact ih.step hs
    · exact Or.inr (ih.step hs)

/-- What is left to do. -/
def left (c : Conf) : Nat := (c.procs.map fun p => p.prog.length).sum

theorem left_step {c c' : Conf} (hs : Step c c') : left c' < left c := by
  cases hs with
  | act file a b pos x rest hx =>
    simp only [left, List.map_append, List.map_cons, List.sum_append, List.sum_cons, List.length_cons]
    omega
  | barrier file procs hne hb =>
    simp only [left, List.map_map]
    have : ∀ l : List Proc, (∀ p ∈ l, p.prog.head? = some .barrier) → (l.map fun p => p.prog.length).sum = (l.map ((fun p => p.prog.length) ∘ fun p : Proc => (⟨p.pos, p.prog.tail⟩ : Proc))).sum + l.length := by
      intro l
      induction l with
      | nil => simp
      | cons p l ih =>
        intro hl
        have h1 := ih fun q hq => hl q (by simp [hq])
        have h2 := hl p (by simp)
        cases hp : p.prog with
        | nil => simp [hp] at h2
        | cons y rest =>
          simp only [List.map_cons, List.sum_cons, List.length_cons, Function.comp, hp, List.tail_cons] at h1 ⊢
          omega
    rw [this procs hb]
    have := List.length_pos_iff.2 hne
    omega

theorem output_pieces (pieces : List (List Char)) : output (pieces.map .write ++ [.close]) = pieces.flatten := by
  induction pieces with
  | nil => rfl
  | cons a l ih => simp only [List.map_cons, List.cons_append, output, ih, List.flatten_cons]

theorem sync_replicate (n : Nat) : sync n ++ sync n = List.replicate (if n = 1 then 0 else 4) .barrier := by
  unfold sync
  split <;> rfl

theorem unopened {fmt : ℝ → List Char} {dim n : Nat} {coord value : List ℝ} {p : Proc} {t : List Char} (h : IsProgram fmt dim n coord value p.prog) (h0 : p.pos = 0)
    (ht : text fmt dim coord value = some (some t) ∨ text fmt dim coord value = some none ∧ t = []) : Unopened (if n = 1 then 0 else 4) t p := by
  rcases h with ⟨h1, h2⟩ | ⟨pieces, h1, h2⟩
  · have : t = [] := by
      rcases ht with ht | ht
      · rw [h1] at ht; simp at ht
      · exact ht.2
    refine ⟨h0, [.exit], by simp [NoSync], by rw [this]; rfl, by rw [h2, sync_replicate]⟩
  · have : t = pieces.flatten := by
      rcases ht with ht | ht
      · rw [h1] at ht; simpa using ht.symm
      · rw [h1] at ht; simp at ht
    refine ⟨h0, pieces.map .write ++ [.close], ?_, by rw [output_pieces, this], by rw [h2, sync_replicate]⟩
    intro x hx
    rcases List.mem_append.1 hx with hx | hx
    · obtain ⟨q, -, rfl⟩ := List.mem_map.1 hx
      simp
    · simp only [List.mem_singleton] at hx
      subst hx
      simp

theorem text_nil (fmt : ℝ → List Char) (dim : Nat) : text fmt dim [] [] = some (some []) := by
  simp [text]

theorem start_inv {fmt : ℝ → List Char} {dim : Nat} {coords values : List (List ℝ)} {c : Conf} (hn : coords ≠ []) (hl : values.length = coords.length)
    (hc : coords.flatten.length ≤ PointDist.intMax) (hv : values.flatten.length ≤ PointDist.intMax) (hs : Start fmt dim coords values c) (t : List Char)
    (ht : text fmt dim coords.flatten values.flatten = some (some t) ∨ text fmt dim coords.flatten values.flatten = some none ∧ t = []) :
    Inv1 (if coords.length = 1 then 0 else 4) t (if coords.length = 1 then 0 else 4) c := by
  obtain ⟨cs, vs, h1, h2, h3, h4⟩ := hs
  rw [C09_collect coords hn hc] at h1
  rw [C09_collect values (by intro e; rw [e] at hl; exact hn (List.length_eq_zero_iff.1 hl.symm)) hv] at h2
  cases h1
  cases h2
  obtain ⟨file, procs⟩ := c
  simp only at h3 h4
  have hpos := List.length_pos_iff.2 hn
  cases procs with
  | nil => simp at h3; omega
  | cons r os =>
    have hr : Unopened (if coords.length = 1 then 0 else 4) t r := by
      obtain ⟨q0, co, va, q1, q2, q3⟩ := h4 0 r rfl
      simp only [List.getElem?_cons_zero, Option.some.injEq] at q1 q2
      subst q1 q2
      exact unopened q3 q0 ht
    have ho : ∀ o ∈ os, Unopened (if coords.length = 1 then 0 else 4) [] o := by
      intro o ho
      obtain ⟨i, hi⟩ := List.mem_iff_getElem?.1 ho
      obtain ⟨q0, co, va, q1, q2, q3⟩ := h4 (i + 1) o (by rw [List.getElem?_cons_succ]; exact hi)
      rw [List.getElem?_cons_succ] at q1 q2
      have e1 : co = [] := List.eq_of_mem_replicate (List.mem_iff_getElem?.2 ⟨i, q1⟩)
      have e2 : va = [] := List.eq_of_mem_replicate (List.mem_iff_getElem?.2 ⟨i, q2⟩)
      subst e1 e2
      exact unopened q3 q0 (Or.inl (text_nil _ _))
    refine ⟨le_refl _, ⟨r, os, rfl, fun hm => ?_, Or.inr ⟨rfl, hr⟩, fun o h => Or.inr ⟨rfl, ho o h⟩⟩, ?_⟩
    · split at hm
      · rename_i h
        simp only [List.length_cons] at h3
        exact List.length_eq_zero_iff.1 (by omega)
      · cases hm
    · rintro ⟨p, hp, t', q1, tail, q2, q3, q4⟩
      exfalso
      have : ∃ t'', Unopened (if coords.length = 1 then 0 else 4) t'' p := by
        rcases List.mem_cons.1 hp with rfl | hp
        · exact ⟨t, hr⟩
        · exact ⟨[], ho p hp⟩
      obtain ⟨t'', -, tail', -, -, e⟩ := this
      rw [e] at q4
      generalize (if coords.length = 1 then 0 else 4) = m at q4
      cases m with
      | zero =>
        simp only [List.replicate_zero, List.nil_append] at q4
        exact (q2 .open (by rw [← q4]; simp)).1 rfl
      | succ m => simp [List.replicate_succ] at q4

theorem length_coords (l : List Point) : (l.flatMap Point.coords).length = 3 * l.length := by
  induction l with
  | nil => rfl
  | cons p l ih => simp [Point.coords, ih]; omega

theorem length_values (dim : Nat) (l : List Point) (h : ∀ p ∈ l, p.values.length = dim) : (l.flatMap Point.values).length = dim * l.length := by
  induction l with
  | nil => rfl
  | cons p l ih =>
    rw [List.flatMap_cons, List.length_append, ih fun q hq => h q (by simp [hq]), h p (by simp), List.length_cons]
    ring

theorem coords_get (l : List Point) (i j : Nat) (p : Point) (hp : l[i]? = some p) (hj : j < 3) : (l.flatMap Point.coords)[3 * i + j]? = p.coords[j]? := by
  induction l generalizing i with
  | nil => simp at hp
  | cons q l ih =>
    rw [List.flatMap_cons]
    cases i with
    | zero =>
      simp only [List.getElem?_cons_zero, Option.some.injEq] at hp
      subst hp
      rw [List.getElem?_append_left (by simp [Point.coords]; omega)]
      simp
    | succ i =>
      rw [List.getElem?_append_right (by simp [Point.coords]; omega)]
      have : 3 * (i + 1) + j - q.coords.length = 3 * i + j := by simp [Point.coords]; omega
      rw [this]
      exact ih i (by simpa using hp)

theorem values_get (dim : Nat) (l : List Point) (h : ∀ p ∈ l, p.values.length = dim) (i j : Nat) (p : Point) (hp : l[i]? = some p) (hj : j < dim) :
    (l.flatMap Point.values)[dim * i + j]? = p.values[j]? := by
  induction l generalizing i with
  | nil => simp at hp
  | cons q l ih =>
    have hq := h q (by simp)
    rw [List.flatMap_cons]
    cases i with
    | zero =>
      simp only [List.getElem?_cons_zero, Option.some.injEq] at hp
      subst hp
      rw [List.getElem?_append_left (by rw [hq]; simpa using hj)]
      simp
    | succ i =>
      have e : dim * (i + 1) + j = dim + (dim * i + j) := by ring
      rw [List.getElem?_append_right (by rw [hq, e]; omega), hq, e, Nat.add_sub_cancel_left]
      exact ih (fun r hr => h r (by simp [hr])) i (by simpa using hp)

theorem line_eq (fmt : ℝ → List Char) (dim : Nat) (l : List Point) (h : ∀ p ∈ l, p.values.length = dim) (i : Nat) (p : Point) (hp : l[i]? = some p) :
    line fmt dim (l.flatMap Point.coords) (l.flatMap Point.values) i = some (p.line fmt) := by
  have hv : (List.range dim).mapM (fun j => ((l.flatMap Point.values)[dim * i + j]?).map fun v => ' ' :: fmt v) = some (p.values.map fun v => ' ' :: fmt v) := by
    have hd := h p (List.mem_iff_getElem?.2 ⟨i, hp⟩)
    rw [Comm.mapM_some_of _ (fun j => ' ' :: fmt (p.values.getD j 0))]
    · congr 1
      apply List.ext_getElem
      · simp [hd]
      · intro j h1 h2
        simp at h2
        simp [h2]
    · intro j hj
      have hj := List.mem_range.1 hj
      rw [values_get dim l h i j p hp hj, List.getElem?_eq_getElem (by omega)]
      simp [show j < p.values.length by omega]
  unfold line
  have c0 := coords_get l i 0 p hp (by omega)
  have c1 := coords_get l i 1 p hp (by omega)
  have c2 := coords_get l i 2 p hp (by omega)
  simp only [Point.coords, Nat.add_zero, List.getElem?_cons_zero, List.getElem?_cons_succ] at c0 c1 c2
  rw [c0, c1, c2, hv]
  simp [Point.line]

theorem text_eq (fmt : ℝ → List Char) (dim : Nat) (l : List Point) (h : ∀ p ∈ l, p.values.length = dim) (hi : dim * l.length ≤ PointDist.intMax) :
    text fmt dim (l.flatMap Point.coords) (l.flatMap Point.values) = some (some (l.flatMap (Point.line fmt))) := by
  have e : (l.flatMap Point.coords).length / 3 = l.length := by rw [length_coords]; omega
  unfold text
  simp only [e]
  rw [if_neg (by omega), if_neg (by rw [length_values dim l h]; simp)]
  rw [Comm.mapM_some_of _ (fun i => ((l[i]?).map (Point.line fmt)).getD [])]
  · simp only [Option.bind_eq_bind, Option.bind_some, List.flatMap]
    congr 3
    apply List.ext_getElem
    · simp
    · intro j h1 h2
      simp at h2
      simp [h2]
  · intro i hi
    have hi := List.mem_range.1 hi
    rw [line_eq fmt dim l h i l[i] (List.getElem?_eq_getElem hi), List.getElem?_eq_getElem hi]
    rfl

end Verif.Dump
