import Verif.Spec.Snapshot
import Verif.Lemmas.Text
import Verif.Lemmas.Orient
import Verif.Lemmas.Mobility
import Verif.Props.Equatn
namespace Verif.Snapshot
open Verif.Text Verif.V3 Verif.Spec.Snapshot

/-! ### orientation from a direction -/

theorem ez_normalized : (⟨0, 0, 1⟩ : V3).normalized = ⟨0, 0, 1⟩ := by
  have hz1 : (⟨0, 0, 1⟩ : V3) ≠ 0 := by
    intro h0
    have := congrArg V3.z h0
    norm_num at this
  rw [normalized_eq _ hz1]
  have : V3.norm (⟨0, 0, 1⟩ : V3) = 1 := by simp [V3.norm, normSq, dot]
  rw [this]
  ext <;> simp

theorem ez_ne : (⟨0, 0, 1⟩ : V3) ≠ 0 := by
  intro h0
  have := congrArg V3.z h0
  norm_num at this

theorem orient_of (svd : V3 → V3 → V3) (hs : SvdOk svd) (d : V3) (hd : dot d d = 1) (hr : Regular d) (c : ℝ) (hc : 0 < c) :
    Verif.Spec.UnitQuat (Orient.fromTwoVectors svd ⟨0, 0, 1⟩ (c • d)) ∧
      (Orient.fromTwoVectors svd ⟨0, 0, 1⟩ (c • d)).rot ⟨0, 0, 1⟩ = d := by
  have hn : V3.norm d = 1 := by
    have : V3.norm d ^ 2 = 1 := by rw [V3.norm_sq]; exact hd
    nlinarith [V3.norm_nonneg d]
  have hd0 : d ≠ 0 := by
    intro h
    rw [h, V3.norm_zero] at hn
    norm_num at hn
  have hcd : c • d ≠ 0 := by
    intro h
    have := V3.norm_smul c d
    rw [h, V3.norm_zero, hn, abs_of_pos hc] at this
    linarith
  have hnd : (c • d).normalized = d := by
    rw [normalized_smul_pos c hc d, normalized_eq _ hd0, hn]
    ext <;> simp
  rcases hr with h | h
  · have := Orient.fromTwoVectors_regular svd ⟨0, 0, 1⟩ (c • d) ez_ne hcd (by
      rw [hnd, ez_normalized]
      simp only [dot, Orient.dummyPrecision]
      simpa using h)
    rw [ez_normalized, hnd] at this
    exact this
  · have hneg : (c • d).normalized = -(⟨0, 0, 1⟩ : V3).normalized := by
      rw [hnd, ez_normalized, h]
      ext <;> simp
    have := Orient.fromTwoVectors_opposite svd ⟨0, 0, 1⟩ (c • d) ez_ne hneg (by
      rw [hneg]
      exact hs _ (by rw [ez_normalized]; simp [V3.norm, normSq, dot]))
    rw [ez_normalized, hnd] at this
    exact this

theorem orient_z (svd : V3 → V3 → V3) : Verif.Spec.UnitQuat (Orient.fromTwoVectors svd ⟨0, 0, 1⟩ ⟨0, 0, 1⟩) ∧
      (Orient.fromTwoVectors svd ⟨0, 0, 1⟩ ⟨0, 0, 1⟩).rot ⟨0, 0, 1⟩ = ⟨0, 0, 1⟩ := by
  have := Orient.fromTwoVectors_regular svd ⟨0, 0, 1⟩ ⟨0, 0, 1⟩ ez_ne ez_ne (by
    rw [ez_normalized]
    norm_num [dot, Orient.dummyPrecision])
  rw [ez_normalized] at this
  exact this

/-! ### lines -/

theorem lines_unlines (ls : List Str) (h : ∀ l ∈ ls, '\n' ∉ l) : lines (unlines ls) = ls := by
  induction ls with
  | nil => rfl
  | cons l ls ih =>
    have : unlines (l :: ls) = l ++ '\n' :: unlines ls := by simp [unlines]
    rw [this, lines_cons_line l _ (h l (by simp)), ih (fun l hl => h l (List.mem_cons_of_mem _ hl))]

theorem newline_not_decInt (z : ℤ) : '\n' ∉ decInt z := by
  unfold decInt
  split
  · simp only [List.mem_cons, not_or]
    exact ⟨by decide, not_mem_dec _ _ (by decide)⟩
  · exact not_mem_dec _ _ (by decide)

theorem newline_not_body (F : Fmt) (r8 : ℝ → ℝ) (hF : FmtOk F r8) (s : Sylinder) : '\n' ∉ bodyLine F s := by
  unfold bodyLine field
  simp only [List.mem_cons, List.mem_append, not_or, List.cons_append]
  refine ⟨by split <;> decide, by decide, newline_not_decInt _, by decide, hF.line _, by decide, hF.line _, by decide, hF.line _,
    by decide, hF.line _, by decide, hF.line _, by decide, hF.line _, by decide, hF.line _, by decide, newline_not_decInt _⟩

theorem newline_not_link (l : ℤ × ℤ) : '\n' ∉ linkLine l := by
  unfold linkLine
  simp only [List.mem_cons, List.mem_append, not_or, List.cons_append]
  exact ⟨by decide, by decide, newline_not_decInt _, by decide, newline_not_decInt _⟩

/-- The lines after the header. -/
theorem ascii_lines (F : Fmt) (r8 : ℝ → ℝ) (hF : FmtOk F r8) (time : ℝ) (bodies : List Sylinder) (links : List (ℤ × ℤ)) :
    (lines (asciiText F time bodies links)).drop 2 = bodies.map (bodyLine F) ++ links.map linkLine := by
  unfold asciiText
  rw [lines_unlines]
  · rfl
  · intro l hl
    simp only [List.mem_cons, List.mem_append, List.mem_map] at hl
    rcases hl with rfl | rfl | ⟨s, -, rfl⟩ | ⟨l, -, rfl⟩
    · simp only [List.mem_append, not_or]
      exact ⟨newline_not_decInt _, by decide⟩
    · simp only [List.mem_cons, not_or]
      exact ⟨by decide, hF.lineF _⟩
    · exact newline_not_body F r8 hF s
    · exact newline_not_link l

theorem ascii_bodies (F : Fmt) (r8 : ℝ → ℝ) (hF : FmtOk F r8) (time : ℝ) (bodies : List Sylinder) (links : List (ℤ × ℤ)) :
    ((lines (asciiText F time bodies links)).drop 2).filter (fun l => l.head? == some 'C' || l.head? == some 'S') =
      bodies.map (bodyLine F) := by
  rw [ascii_lines F r8 hF, List.filter_append]
  have h1 : (bodies.map (bodyLine F)).filter (fun l => l.head? == some 'C' || l.head? == some 'S') = bodies.map (bodyLine F) := by
    rw [List.filter_eq_self]
    intro l hl
    obtain ⟨s, -, rfl⟩ := List.mem_map.1 hl
    unfold bodyLine
    cases s.isImmovable <;> simp
  have h2 : (links.map linkLine).filter (fun l => l.head? == some 'C' || l.head? == some 'S') = [] := by
    rw [List.filter_eq_nil_iff]
    intro l hl
    obtain ⟨s, -, rfl⟩ := List.mem_map.1 hl
    simp [linkLine]
  rw [h1, h2, List.append_nil]

theorem ascii_links (F : Fmt) (r8 : ℝ → ℝ) (hF : FmtOk F r8) (time : ℝ) (bodies : List Sylinder) (links : List (ℤ × ℤ)) :
    ((lines (asciiText F time bodies links)).drop 2).filter (fun l => l.head? == some 'L') = links.map linkLine := by
  rw [ascii_lines F r8 hF, List.filter_append]
  have h1 : (bodies.map (bodyLine F)).filter (fun l => l.head? == some 'L') = [] := by
    rw [List.filter_eq_nil_iff]
    intro l hl
    obtain ⟨s, -, rfl⟩ := List.mem_map.1 hl
    unfold bodyLine
    cases s.isImmovable <;> simp
  have h2 : (links.map linkLine).filter (fun l => l.head? == some 'L') = links.map linkLine := by
    rw [List.filter_eq_self]
    intro l hl
    obtain ⟨s, -, rfl⟩ := List.mem_map.1 hl
    simp [linkLine]
  rw [h1, h2, List.nil_append]

theorem space_head (s : Str) : ∀ c t, ' ' :: s = c :: t → c.isDigit = false := by
  intro c t h
  simp only [List.cons.injEq] at h
  rw [← h.1]; decide

theorem space_head' (s : Str) : ∀ c t, ' ' :: s = c :: t → isSpace c = true := by
  intro c t h
  simp only [List.cons.injEq] at h
  rw [← h.1]; decide

theorem parseLink_linkLine (l : ℤ × ℤ) (h1 : Int32 l.1) (h2 : Int32 l.2) : parseLink (linkLine l) = some l := by
  unfold parseLink linkLine
  rw [readChar_of _ _ (by decide)]
  simp only [Option.bind_eq_bind, Option.bind_some, List.cons_append]
  rw [readInt_ws _ _ (by decide), readInt_decInt _ _ h1.1 h1.2 (space_head _)]
  simp only [Option.bind_some]
  have := readInt_decInt l.2 [] h2.1 h2.2 (by simp)
  rw [List.append_nil] at this
  rw [readInt_ws _ _ (by decide), this]
  rfl

theorem readLinks_ascii (F : Fmt) (r8 : ℝ → ℝ) (hF : FmtOk F r8) (time : ℝ) (bodies : List Sylinder) (links : List (ℤ × ℤ))
    (hl : ∀ l ∈ links, Int32 l.1 ∧ Int32 l.2) : readLinks (asciiText F time bodies links) = some links := by
  unfold readLinks
  rw [ascii_links F r8 hF]
  clear hF
  induction links with
  | nil => rfl
  | cons l ls ih =>
    have := ih (fun l h => hl l (List.mem_cons_of_mem _ h))
    rw [List.map_cons, List.mapM_cons, parseLink_linkLine l (hl l (by simp)).1 (hl l (by simp)).2]
    simp [this]

/-- A body read back from its line. -/
noncomputable def parsed (svd : V3 → V3 → V3) (blank : Sylinder) (r8 : ℝ → ℝ) (s : Sylinder) : Sylinder :=
  let m := v32 r8 (minusEnd s)
  let p := v32 r8 (plusEnd s)
  { blank with
    pos := ⟨(m.x + p.x) * 0.5, (m.y + p.y) * 0.5, (m.z + p.z) * 0.5⟩
    gid := s.gid
    group := s.group
    isImmovable := s.isImmovable
    radius := r8 s.radius
    radiusCollision := r8 s.radius
    length := V3.norm (p - m)
    lengthCollision := V3.norm (p - m)
    orientation :=
      if V3.norm (p - m) > 1 / 10 ^ 7 then Orient.fromTwoVectors svd ⟨0, 0, 1⟩ (p - m)
      else Orient.fromTwoVectors svd ⟨0, 0, 1⟩ ⟨0, 0, 1⟩ }

theorem skipWs_decInt_ne (z : ℤ) : skipWs (' ' :: decInt z) ≠ [] := by
  rw [skipWs_cons _ _ (by decide)]
  unfold decInt
  split
  · simp [skipWs, isSpace]
  · have := skipWs_of (dec z.natAbs) (by simpa using dec_append_head z.natAbs [])
    rw [this]
    exact dec_ne_nil _

theorem readGroup_decInt (z : ℤ) (h : Int32 z) : readGroup (' ' :: decInt z) = z := by
  unfold readGroup
  rw [if_neg (skipWs_decInt_ne z), readInt_ws _ _ (by decide)]
  have := readInt_decInt z [] h.1 h.2 (by simp)
  rw [List.append_nil] at this
  rw [this]
  rfl

theorem parseBody_bodyLine (F : Fmt) (r8 : ℝ → ℝ) (hF : FmtOk F r8) (svd : V3 → V3 → V3) (blank s : Sylinder) (hg : Int32 s.gid) (hgr : Int32 s.group) :
    parseBody F svd blank (bodyLine F s) = some (parsed svd blank r8 s) := by
  have hty : ∀ b : Bool, isSpace (if b then 'S' else 'C') = false := by decide
  unfold parseBody bodyLine
  rw [readChar_of _ _ (hty _)]
  simp only [Option.bind_eq_bind, Option.bind_some, List.cons_append, field]
  rw [readInt_ws _ _ (by decide), readInt_decInt _ _ hg.1 hg.2 (space_head _)]
  simp only [Option.bind_some]
  rw [hF.scan _ _ (space_head' _)]
  simp only [Option.bind_some]
  rw [hF.scan _ _ (space_head' _)]
  simp only [Option.bind_some]
  rw [hF.scan _ _ (space_head' _)]
  simp only [Option.bind_some]
  rw [hF.scan _ _ (space_head' _)]
  simp only [Option.bind_some]
  rw [hF.scan _ _ (space_head' _)]
  simp only [Option.bind_some]
  rw [hF.scan _ _ (space_head' _)]
  simp only [Option.bind_some]
  rw [hF.scan _ _ (space_head' _)]
  simp only [Option.bind_some]
  rw [readGroup_decInt _ hgr]
  have hlen : Real.sqrt ((r8 (plusEnd s).x - r8 (minusEnd s).x) ^ 2 + (r8 (plusEnd s).y - r8 (minusEnd s).y) ^ 2 +
      (r8 (plusEnd s).z - r8 (minusEnd s).z) ^ 2) = V3.norm (v32 r8 (plusEnd s) - v32 r8 (minusEnd s)) := by
    unfold V3.norm V3.normSq dot v32
    simp only [sub_x, sub_y, sub_z, pow_two]
  have hvec : (⟨r8 (plusEnd s).x - r8 (minusEnd s).x, r8 (plusEnd s).y - r8 (minusEnd s).y, r8 (plusEnd s).z - r8 (minusEnd s).z⟩ : V3) =
      v32 r8 (plusEnd s) - v32 r8 (minusEnd s) := rfl
  rw [hlen, hvec]
  have him : ((if s.isImmovable = true then 'S' else 'C') == 'S') = s.isImmovable := by
    cases s.isImmovable <;> decide
  rw [him]
  rfl

theorem setInitial_ascii (F : Fmt) (r8 : ℝ → ℝ) (hF : FmtOk F r8) (svd : V3 → V3 → V3) (blank : Sylinder) (time : ℝ) (bodies : List Sylinder)
    (links : List (ℤ × ℤ)) (hg : ∀ s ∈ bodies, Int32 s.gid ∧ Int32 s.group) :
    setInitialFromFile F svd blank (asciiText F time bodies links) = some (bodies.map fun s => (parsed svd blank r8 s).clear) := by
  unfold setInitialFromFile
  rw [ascii_bodies F r8 hF]
  have : (bodies.map (bodyLine F)).mapM (parseBody F svd blank) = some (bodies.map (parsed svd blank r8)) := by
    induction bodies with
    | nil => rfl
    | cons s bs ih =>
      have h := ih (fun l h => hg l (List.mem_cons_of_mem _ h))
      rw [List.map_cons, List.mapM_cons, parseBody_bodyLine F r8 hF svd blank s (hg s (by simp)).1 (hg s (by simp)).2]
      simp [h]
  rw [this]
  simp

/-! ### the restart file -/

theorem newline_head (s : Str) : ∀ c t, '\n' :: s = c :: t → c.isDigit = false := by
  intro c t h
  simp only [List.cons.injEq] at h
  rw [← h.1]; decide

/-- The characters of a `pvtp` name. -/
theorem pvtpName_eq (snap : ℕ) : Output.pvtpName snap =
    ['S', 'y', 'l', 'i', 'n', 'd', 'e', 'r', '_'] ++ (dec snap ++ ['.', 'p', 'v', 't', 'p']) := by
  unfold Output.pvtpName
  rw [show "Sylinder_".toList = ['S', 'y', 'l', 'i', 'n', 'd', 'e', 'r', '_'] from rfl, show ".pvtp".toList = ['.', 'p', 'v', 't', 'p'] from rfl,
    List.append_assoc]

theorem asciiName_eq (snap : ℕ) : Output.asciiName snap =
    ['S', 'y', 'l', 'i', 'n', 'd', 'e', 'r', 'A', 's', 'c', 'i', 'i', '_'] ++ (dec snap ++ ['.', 'd', 'a', 't']) := by
  unfold Output.asciiName
  rw [show "SylinderAscii_".toList = ['S', 'y', 'l', 'i', 'n', 'd', 'e', 'r', 'A', 's', 'c', 'i', 'i', '_'] from rfl,
    show ".dat".toList = ['.', 'd', 'a', 't'] from rfl, List.append_assoc]

theorem pieceName_eq (rank snap : ℕ) : pieceName rank snap =
    ['S', 'y', 'l', 'i', 'n', 'd', 'e', 'r', '_', 'r'] ++ (dec rank ++ '_' :: (dec snap ++ ['.', 'v', 't', 'p'])) := by
  unfold pieceName
  rw [show "Sylinder_".toList = ['S', 'y', 'l', 'i', 'n', 'd', 'e', 'r', '_'] from rfl, show ".vtp".toList = ['.', 'v', 't', 'p'] from rfl,
    show "r".toList = ['r'] from rfl, show "_".toList = ['_'] from rfl]
  simp only [List.append_assoc, List.cons_append, List.nil_append]

theorem pvtp_not_space (snap : ℕ) : ∀ c ∈ Output.pvtpName snap, isSpace c = false := by
  intro c hc
  rw [pvtpName_eq] at hc
  simp only [List.mem_append] at hc
  have h1 : ∀ c ∈ ['S', 'y', 'l', 'i', 'n', 'd', 'e', 'r', '_'], isSpace c = false := by decide
  have h2 : ∀ c ∈ ['.', 'p', 'v', 't', 'p'], isSpace c = false := by decide
  rcases hc with hc | hc | hc
  · exact h1 c hc
  · exact digit_not_space c (dec_digit _ c hc)
  · exact h2 c hc

theorem readInfo_writeInfo (seed step snap : ℕ) (h1 : seed < 2 ^ 32) (h2 : step < 2 ^ 31) (h3 : snap < 2 ^ 31) :
    Output.readInfo (Output.writeInfo seed step snap) = some ⟨seed, step, snap, Output.pvtpName snap⟩ := by
  have hst : Output.writeInfo seed step snap = dec seed ++ ('\n' :: (decInt step ++ ('\n' :: (decInt snap ++ ('\n' :: (Output.pvtpName snap ++ ['\n'])))))) := by
    have hd : ∀ n : ℕ, decInt n = dec n := by
      intro n
      unfold decInt
      rw [if_neg (by omega)]
      simp
    rw [hd, hd]
    unfold Output.writeInfo
    simp
  rw [hst]
  unfold Output.readInfo
  rw [readUInt_dec seed _ h1 (newline_head _)]
  simp only [Option.bind_eq_bind, Option.bind_some]
  rw [readInt_ws _ _ (by decide), readInt_decInt _ _ (by omega) (by omega) (newline_head _)]
  simp only [Option.bind_some]
  rw [readInt_ws _ _ (by decide), readInt_decInt _ _ (by omega) (by omega) (newline_head _)]
  simp only [Option.bind_some]
  rw [readWord_ws _ _ (by decide), readWord_append _ _ (pvtp_not_space snap) (by rw [pvtpName_eq]; exact List.cons_ne_nil _ _) (by
    intro c t h
    simp only [List.cons.injEq] at h
    rw [← h.1]; decide)]
  simp only [Option.bind_some]
  rw [if_pos ⟨by omega, by omega⟩]
  simp

theorem asciiOf_pvtpName (snap : ℕ) : Output.asciiOf (Output.pvtpName snap) = some (Output.asciiName snap) := by
  have hdat : ".dat".toList = ['.', 'd', 'a', 't'] := rfl
  have hasc : "Ascii_".toList = ['A', 's', 'c', 'i', 'i', '_'] := rfl
  unfold Output.asciiOf
  rw [hdat, hasc, pvtpName_eq, asciiName_eq]
  have hu : '_' ∉ dec snap := not_mem_dec _ _ (by decide)
  generalize dec snap = D at hu
  have h1 : findLast '.' (['S', 'y', 'l', 'i', 'n', 'd', 'e', 'r', '_'] ++ (D ++ ['.', 'p', 'v', 't', 'p'])) =
      some (['S', 'y', 'l', 'i', 'n', 'd', 'e', 'r', '_'] ++ D).length := by
    rw [← List.append_assoc]
    exact findLast_append '.' _ ['p', 'v', 't', 'p'] (by decide)
  rw [h1]
  simp only [Option.bind_eq_bind, Option.bind_some]
  have r1 : replaceAt (['S', 'y', 'l', 'i', 'n', 'd', 'e', 'r', '_'] ++ D).length 5 ['.', 'd', 'a', 't']
      (['S', 'y', 'l', 'i', 'n', 'd', 'e', 'r', '_'] ++ (D ++ ['.', 'p', 'v', 't', 'p'])) =
      ['S', 'y', 'l', 'i', 'n', 'd', 'e', 'r'] ++ '_' :: (D ++ ['.', 'd', 'a', 't']) := by
    have := replaceAt_append (['S', 'y', 'l', 'i', 'n', 'd', 'e', 'r', '_'] ++ D) ['.', 'p', 'v', 't', 'p'] ['.', 'd', 'a', 't'] []
    rw [List.append_nil, List.append_nil, List.append_assoc _ D, List.append_assoc _ D] at this
    exact this
  rw [r1, findLast_append '_' _ _ (by
    simp only [List.mem_append, not_or]
    exact ⟨hu, by decide⟩)]
  simp only [Option.bind_some]
  have := replaceAt_append ['S', 'y', 'l', 'i', 'n', 'd', 'e', 'r'] ['_'] ['A', 's', 'c', 'i', 'i', '_'] (D ++ ['.', 'd', 'a', 't'])
  exact congrArg some (by simpa only [List.append_assoc, List.cons_append, List.nil_append, List.length_cons, List.length_nil] using this)

/-! ### the disk -/

theorem pieceName_injective {a b snap : ℕ} (h : pieceName a snap = pieceName b snap) : a = b := by
  rw [pieceName_eq, pieceName_eq] at h
  exact dec_injective (sep_unique (not_mem_dec _ _ (by decide)) (not_mem_dec _ _ (by decide)) (List.append_cancel_left h)).1

theorem piece_ne_pvtp (a snap : ℕ) : pieceName a snap ≠ Output.pvtpName snap := by
  intro h
  rw [pieceName_eq, pvtpName_eq] at h
  have h' := congrArg (fun l : Str => l[9]?) h
  cases hd : dec snap with
  | nil => exact dec_ne_nil _ hd
  | cons c t =>
    have hc := dec_digit snap c (by rw [hd]; simp)
    rw [hd] at h'
    simp only [List.cons_append, List.nil_append, List.getElem?_cons_succ, List.getElem?_cons_zero, Option.some.injEq] at h'
    rw [← h'] at hc
    exact absurd hc (by decide)

theorem ascii_ne_piece (a snap : ℕ) : Output.asciiName snap ≠ pieceName a snap := by
  intro h
  rw [pieceName_eq, asciiName_eq] at h
  have h' := congrArg (fun l : Str => l[8]?) h
  simp only [List.cons_append, List.nil_append, List.getElem?_cons_succ, List.getElem?_cons_zero, Option.some.injEq] at h'
  exact absurd h' (by decide)

theorem ascii_ne_pvtp (snap : ℕ) : Output.asciiName snap ≠ Output.pvtpName snap := by
  intro h
  rw [pvtpName_eq, asciiName_eq] at h
  have h' := congrArg (fun l : Str => l[8]?) h
  simp only [List.cons_append, List.nil_append, List.getElem?_cons_succ, List.getElem?_cons_zero, Option.some.injEq] at h'
  exact absurd h' (by decide)

theorem folder_head (size snap : ℕ) (folder : Str) (h : Output.resultFolder size snap = some folder) (x : Str) : folder ++ x ≠ infoPath := by
  unfold Output.resultFolder at h
  cases hr : Output.folderRange size snap with
  | none => rw [hr] at h; simp at h
  | some r =>
    rw [hr] at h
    simp only [Option.map_some, Option.some.injEq] at h
    rw [← h]
    intro h'
    have := congrArg List.head? h'
    rw [show infoPath = 'T' :: "imeStepInfo.txt".toList from rfl, show "./result/result".toList = '.' :: "/result/result".toList from rfl] at this
    simp only [List.cons_append, List.head?_cons, Option.some.injEq] at this
    exact absurd this (by decide)

theorem put_same (d : Disk) (p : Str) (f : File) : (d.put p f) p = some f := by simp [Disk.put]

theorem put_other (d : Disk) (p q : Str) (f : File) (h : q ≠ p) : (d.put p f) q = d q := by simp [Disk.put, h]

theorem putPieces_other (r32 : ℝ → ℝ) (folder : Str) (snap : ℕ) (ranks : List (List Sylinder)) (d : Disk) (x : Str)
    (hx : ∀ r, x ≠ folder ++ pieceName r snap) : (putPieces r32 folder snap d ranks) x = d x := by
  unfold putPieces
  generalize ranks.zipIdx = l
  induction l generalizing d with
  | nil => rfl
  | cons b l ih =>
    rw [List.foldl_cons, ih, put_other _ _ _ _ (hx _)]

theorem putPieces_piece (r32 : ℝ → ℝ) (folder : Str) (snap : ℕ) (ranks : List (List Sylinder)) (d : Disk) (i : ℕ) (b : List Sylinder)
    (hb : ranks[i]? = some b) : (putPieces r32 folder snap d ranks) (folder ++ pieceName i snap) = some (.piece (b.map (record r32))) := by
  unfold putPieces
  have key : ∀ (l : List (List Sylinder)) (k : ℕ) (d : Disk), k ≤ i → l[i - k]? = some b →
      ((l.zipIdx k).foldl (fun d b => d.put (folder ++ pieceName b.2 snap) (.piece (b.1.map (record r32)))) d) (folder ++ pieceName i snap) =
        some (.piece (b.map (record r32))) := by
    intro l
    induction l with
    | nil => intro k d _ h; simp at h
    | cons a l ih =>
      intro k d hk h
      rw [List.zipIdx_cons, List.foldl_cons]
      rcases Nat.eq_or_lt_of_le hk with rfl | hlt
      · simp only [Nat.sub_self, List.getElem?_cons_zero, Option.some.injEq] at h
        subst h
        have hoth : ∀ (m : List (List Sylinder × ℕ)) (d : Disk), (∀ x ∈ m, x.2 ≠ k) →
            (m.foldl (fun d b => d.put (folder ++ pieceName b.2 snap) (.piece (b.1.map (record r32)))) d) (folder ++ pieceName k snap) =
              d (folder ++ pieceName k snap) := by
          intro m
          induction m with
          | nil => intro d _; rfl
          | cons x m ih =>
            intro d hx
            rw [List.foldl_cons, ih _ (fun y hy => hx y (List.mem_cons_of_mem _ hy)), put_other]
            intro h
            exact hx x (by simp) (pieceName_injective (List.append_cancel_left h)).symm
        rw [hoth]
        · exact put_same _ _ _
        · rintro ⟨x, j⟩ hx
          have := List.le_snd_of_mem_zipIdx hx
          simp only at this ⊢
          omega
      · refine ih (k + 1) _ hlt ?_
        have : i - k = i - (k + 1) + 1 := by omega
        rw [this, List.getElem?_cons_succ] at h
        exact h
  exact key ranks 0 d (Nat.zero_le _) (by simpa using hb)

/-! ### writing and reading back -/

theorem folder_some (size snap : ℕ) (h : (snap : ℤ) + 400 ≤ Output.intMax) : ∃ folder, Output.resultFolder size snap = some folder := by
  have hnum4 : Output.perFolder size ≤ 400 := max_le (Nat.div_le_self _ _) (by norm_num)
  have : (snap / Output.perFolder size) * Output.perFolder size ≤ snap := Nat.div_mul_le_self _ _
  unfold Output.resultFolder Output.folderRange
  simp only
  have h2 : snap / Output.perFolder size * Output.perFolder size + Output.perFolder size ≤ snap + 400 := by omega
  have h3 : ((snap / Output.perFolder size * Output.perFolder size + Output.perFolder size : ℕ) : ℤ) ≤ ((snap + 400 : ℕ) : ℤ) := by
    exact_mod_cast h2
  rw [if_pos (le_trans h3 (by push_cast; exact h))]
  exact ⟨_, rfl⟩

theorem reinit_of (svd : V3 → V3 → V3) (blank : Sylinder) (fixed : Bool) (dt : ℝ) (size : ℕ) (d : Disk) (info : Output.Info) (ascii folder : Str)
    (records : List Record) (links : List (ℤ × ℤ)) (seed step snap : ℕ) (h1 : (d.textAt infoPath).bind Output.readInfo = some info)
    (h2 : Output.asciiOf info.pvtp = some ascii) (h3 : Output.resultFolder size info.snapID = some folder)
    (h4 : readPieces d folder info.pvtp = some records) (h5 : (d.textAt (folder ++ ascii)).elim (some []) readLinks = some links)
    (h6 : Output.restartCounters info = some (seed, step, snap)) :
    reinitialize svd blank fixed dt size d = some
      { seed := seed, stepCount := step, snapID := snap, links := links
        bodies := if fixed then records.map (fromRecord svd blank) else (records.map (fromRecord svd blank)).map (fun s => s.stepEuler dt) } := by
  unfold reinitialize
  rw [h1]
  simp only [Option.bind_some, Option.bind_eq_bind]
  rw [h2, h3]
  simp only [Option.bind_some]
  rw [h4]
  simp only [Option.bind_some]
  rw [h5, h6]
  rfl

theorem reinit_any (F : Fmt) (r8 : ℝ → ℝ) (hF : FmtOk F r8) (r32 : ℝ → ℝ) (svd : V3 → V3 → V3) (blank : Sylinder) (fixed : Bool) (dt dt' : ℝ)
    (seed step snap : ℕ) (ranks : List (List Sylinder)) (links : List (ℤ × ℤ)) (d : Disk)
    (hsnap : (snap : ℤ) + 400 ≤ Output.intMax) (hstep : (step : ℤ) < Output.intMax) (hseed : seed < 2 ^ 32)
    (hl : ∀ l ∈ links, Int32 l.1 ∧ Int32 l.2) :
    ∃ d', writeResult F r32 dt seed step snap ranks links d = some d' ∧
      reinitialize svd blank fixed dt' ranks.length d' = some
        { seed := (seed + 1) % 2 ^ 32, stepCount := step + 1, snapID := snap + 1, links := links
          bodies := if fixed then ranks.flatten.map (fun s => fromRecord svd blank (record r32 s))
            else ranks.flatten.map (fun s => (fromRecord svd blank (record r32 s)).stepEuler dt') } := by
  obtain ⟨folder, hfo⟩ := folder_some ranks.length snap hsnap
  have hst : step < 2 ^ 31 := by
    unfold Output.intMax at hstep
    omega
  have hsn : snap < 2 ^ 31 := by
    unfold Output.intMax at hsnap
    omega
  have hsnM : (snap : ℤ) < Output.intMax := by linarith
  unfold writeResult
  rw [hfo]
  simp only [Option.map_some, Option.some.injEq, exists_eq_left']
  generalize hd1 : d.put (folder ++ Output.asciiName snap) (.text (asciiText F (step * dt) ranks.flatten links)) = d1
  generalize hd2 : putPieces r32 folder snap d1 ranks = d2
  generalize hd3 : d2.put (folder ++ Output.pvtpName snap) (.head ((List.range ranks.length).map (pieceName · snap))) = d3
  generalize hd4 : d3.put infoPath (.text (Output.writeInfo seed step snap)) = d4
  have hinfo : d4.textAt infoPath = some (Output.writeInfo seed step snap) := by
    unfold Disk.textAt
    rw [← hd4, put_same]
  have hhead : d4.headAt (folder ++ Output.pvtpName snap) = some ((List.range ranks.length).map (pieceName · snap)) := by
    unfold Disk.headAt
    rw [← hd4, put_other _ _ _ _ (folder_head _ _ _ hfo _), ← hd3, put_same]
  have hpiece : ∀ i b, ranks[i]? = some b → d4.pieceAt (folder ++ pieceName i snap) = some (b.map (record r32)) := by
    intro i b hb
    unfold Disk.pieceAt
    rw [← hd4, put_other _ _ _ _ (folder_head _ _ _ hfo _), ← hd3, put_other _ _ _ _ (by
      intro h
      exact piece_ne_pvtp _ _ (List.append_cancel_left h)), ← hd2, putPieces_piece _ _ _ _ _ _ _ hb]
  have hascii : d4.textAt (folder ++ Output.asciiName snap) = some (asciiText F (step * dt) ranks.flatten links) := by
    unfold Disk.textAt
    rw [← hd4, put_other _ _ _ _ (folder_head _ _ _ hfo _), ← hd3, put_other _ _ _ _ (by
      intro h
      exact ascii_ne_pvtp _ (List.append_cancel_left h)), ← hd2, putPieces_other _ _ _ _ _ _ (by
      intro r h
      exact ascii_ne_piece _ _ (List.append_cancel_left h)), ← hd1, put_same]
  have hpieces : readPieces d4 folder (Output.pvtpName snap) = some (ranks.flatten.map (record r32)) := by
    unfold readPieces
    rw [hhead]
    simp only [Option.bind_some, List.mapM_map]
    have := Comm.mapM_some_of (fun i => d4.pieceAt (folder ++ pieceName i snap)) (fun i => ((ranks[i]?).getD []).map (record r32)) (List.range ranks.length) (by
      intro i hi
      have hi : i < ranks.length := by simpa using hi
      rw [hpiece i ranks[i] (List.getElem?_eq_getElem hi), List.getElem?_eq_getElem hi, Option.getD_some])
    have hmm : (List.range ranks.length).map (fun i => ((ranks[i]?).getD []).map (record r32)) = ranks.map (List.map (record r32)) := by
      apply List.ext_getElem
      · simp
      · intro i h1 h2
        simp only [List.getElem_map, List.getElem_range]
        rw [List.getElem?_eq_getElem (by simpa using h1), Option.getD_some]
    rw [hmm] at this
    have h2 := congrArg (Option.map List.flatten) this
    rw [Option.map_some, ← List.map_flatten] at h2
    exact h2
  have hlinks : (d4.textAt (folder ++ Output.asciiName snap)).elim (some []) readLinks = some links := by
    rw [hascii]
    exact readLinks_ascii F r8 hF _ _ _ hl
  clear hascii
  have hr : (d4.textAt infoPath).bind Output.readInfo = some ⟨seed, step, snap, Output.pvtpName snap⟩ := by
    rw [hinfo, Option.bind_some]
    exact readInfo_writeInfo _ _ _ hseed hst hsn
  have hc : Output.restartCounters ⟨seed, step, snap, Output.pvtpName snap⟩ = some ((seed + 1) % 2 ^ 32, step + 1, snap + 1) := by
    unfold Output.restartCounters
    exact if_pos ⟨hstep, hsnM⟩
  rw [reinit_of svd blank fixed dt' ranks.length d4 _ _ _ _ _ _ _ _ hr (asciiOf_pvtpName snap) hfo hpieces hlinks hc]
  cases fixed
  · simp only [Bool.false_eq_true, if_false, List.map_map, Function.comp_def]
  · simp only [if_true, List.map_map, Function.comp_def]

theorem reinit_eq (F : Fmt) (r8 : ℝ → ℝ) (hF : FmtOk F r8) (r32 : ℝ → ℝ) (svd : V3 → V3 → V3) (blank : Sylinder) (fixed : Bool) (dt : ℝ)
    (seed step snap : ℕ) (ranks : List (List Sylinder)) (links : List (ℤ × ℤ)) (d : Disk)
    (hsnap : (snap : ℤ) + 400 ≤ Output.intMax) (hstep : (step : ℤ) < Output.intMax) (hseed : seed < 2 ^ 32)
    (hl : ∀ l ∈ links, Int32 l.1 ∧ Int32 l.2) :
    ∃ d', writeResult F r32 dt seed step snap ranks links d = some d' ∧
      reinitialize svd blank fixed dt ranks.length d' = some
        { seed := (seed + 1) % 2 ^ 32, stepCount := step + 1, snapID := snap + 1, links := links
          bodies := if fixed then ranks.flatten.map (fun s => fromRecord svd blank (record r32 s))
            else ranks.flatten.map (fun s => (fromRecord svd blank (record r32 s)).stepEuler dt) } :=
  reinit_any F r8 hF r32 svd blank fixed dt dt seed step snap ranks links d hsnap hstep hseed hl

/-! ### rounding -/

theorem v32_err (r : ℝ → ℝ) (ε : ℝ) (hε : 0 ≤ ε) (h : ∀ x, |r x - x| ≤ ε * |x|) (v : V3) : V3.norm (v32 r v - v) ≤ ε * V3.norm v := by
  have key : V3.normSq (v32 r v - v) ≤ (ε * V3.norm v) ^ 2 := by
    rw [mul_pow, V3.norm_sq]
    simp only [normSq, dot, v32, sub_x, sub_y, sub_z]
    have hx := sq_le_sq' (by linarith [neg_abs_le (r v.x - v.x), h v.x]) (le_trans (le_abs_self _) (h v.x))
    have hy := sq_le_sq' (by linarith [neg_abs_le (r v.y - v.y), h v.y]) (le_trans (le_abs_self _) (h v.y))
    have hz := sq_le_sq' (by linarith [neg_abs_le (r v.z - v.z), h v.z]) (le_trans (le_abs_self _) (h v.z))
    rw [mul_pow, sq_abs] at hx hy hz
    nlinarith
  have := Real.sqrt_le_sqrt key
  rwa [Real.sqrt_sq (mul_nonneg hε (V3.norm_nonneg v))] at this

theorem dir_err (a d : V3) (L : ℝ) (hL : 0 < L) (ha : a ≠ 0) : V3.norm (a.normalized - d) ≤ (|V3.norm a - L| + V3.norm (a - L • d)) / L := by
  rw [le_div_iff₀ hL]
  have e : L • (a.normalized - d) = (L - V3.norm a) • a.normalized + (a - L • d) := by
    have h := V3.norm_smul_normalized a
    have hx := congrArg V3.x h
    have hy := congrArg V3.y h
    have hz := congrArg V3.z h
    simp only [smul_x, smul_y, smul_z] at hx hy hz
    ext <;> simp <;> linarith
  have := V3.norm_add_le ((L - V3.norm a) • a.normalized) (a - L • d)
  rw [← e, V3.norm_smul, V3.norm_smul, V3.norm_normalized a ha, abs_of_pos hL, abs_sub_comm] at this
  linarith

theorem dir_err_unit (a d : V3) (L : ℝ) (hL : 0 < L) (ha : a ≠ 0) (hd : V3.norm d = 1) :
    V3.norm (a.normalized - d) ≤ 2 * V3.norm (a - L • d) / L := by
  have h1 := dir_err a d L hL ha
  have h2 := V3.abs_norm_sub_le a (L • d)
  rw [V3.norm_smul, hd, abs_of_pos hL, mul_one] at h2
  refine le_trans h1 ?_
  rw [div_le_div_iff_of_pos_right hL]
  linarith

end Verif.Snapshot
