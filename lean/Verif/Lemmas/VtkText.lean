import Verif.Model.VtkText
import Verif.Spec.VtkText
import Mathlib.Tactic.FinCases
/-!
Reading the text of the VTK files.
-/
namespace Verif.VtkText
open Text (Str dec decInt)
open Spec.Xml (Token Mode lex nest step Clean blank)
open Spec.VtkText (within)

theorem lex_app {m m1 m2 : Mode} {a b : Str} {t1 t2 : List Token} (h1 : lex m a = some (m1, t1)) (h2 : lex m1 b = some (m2, t2)) :
    lex m (a ++ b) = some (m2, t1 ++ t2) := by
  induction a generalizing m t1 with
  | nil =>
    simp only [lex, Option.some.injEq, Prod.mk.injEq] at h1
    obtain ⟨rfl, rfl⟩ := h1
    simpa using h2
  | cons c s ih =>
    simp only [List.cons_append, lex] at h1 ⊢
    cases hs : step m c with
    | none => simp [hs] at h1
    | some r =>
      simp only [hs, Option.bind_some, Option.map_eq_some_iff, Prod.mk.injEq] at h1 ⊢
      obtain ⟨q, hq, rfl, rfl⟩ := h1
      exact ⟨_, ih hq, rfl, by simp⟩

theorem lex_value {v : Str} (hv : Clean v) (n : Str) (as : Spec.Xml.Attrs) (a w : Str) :
    lex (.value n as a w) v = some (.value n as a (w ++ v), []) := by
  induction v generalizing w with
  | nil => simp [lex]
  | cons c s ih =>
    obtain ⟨h1, h2, h3⟩ := hv
    simp only [List.mem_cons, not_or] at h1 h2 h3
    have hc : step (.value n as a w) c = some (.value n as a (w ++ [c]), []) := by
      simp only [step, if_neg (Ne.symm h1.1), if_neg (show ¬(c = '<' ∨ c = '&') from fun h => h.elim (fun e => h2.1 e.symm) fun e => h3.1 e.symm)]
    simp only [lex, hc, Option.bind_some, ih ⟨h1.2, h2.2, h3.2⟩, Option.map_some, List.append_assoc, List.singleton_append, List.append_nil]

theorem lex_text {v : Str} (hv : ∀ c ∈ v, c ≠ '<' ∧ c ≠ '&' ∧ blank c = false) : lex .text v = some (.text, v.map .data) := by
  induction v with
  | nil => rfl
  | cons c s ih =>
    obtain ⟨h1, h2, h3⟩ := hv c (by simp)
    have hc : step .text c = some (.text, [.data c]) := by simp [step, h1, h2, h3]
    simp only [lex, hc, Option.bind_some, ih fun x hx => hv x (by simp [hx]), Option.map_some, List.map_cons, List.singleton_append]

theorem lex_flat {α : Type} (f : α → Str) (g : α → List Token) (l : List α) (h : ∀ x ∈ l, lex .text (f x) = some (.text, g x)) :
    lex .text (l.flatMap f) = some (.text, l.flatMap g) := by
  induction l with
  | nil => rfl
  | cons x l ih =>
    rw [List.flatMap_cons, List.flatMap_cons]
    exact lex_app (h x (by simp)) (ih fun y hy => h y (by simp [hy]))

theorem nest_app {o o1 : List Str} {a b : List Token} (h : nest o a = some o1) : nest o (a ++ b) = nest o1 b := by
  induction a generalizing o with
  | nil =>
    simp only [nest, Option.some.injEq] at h
    rw [h, List.nil_append]
  | cons t a ih =>
    cases t with
    | opening n as => exact ih h
    | empty n as => exact ih h
    | closing n =>
      cases o with
      | nil => simp [nest] at h
      | cons m rest =>
        simp only [List.cons_append, nest] at h ⊢
        split at h
        · rename_i hm
          rw [if_pos hm]
          exact ih h
        · simp at h
    | data c =>
      simp only [List.cons_append, nest] at h ⊢
      split at h
      · simp at h
      · rename_i hm
        rw [if_neg hm]
        exact ih h

theorem nest_within {o : List Str} {n : Str} {as : Spec.Xml.Attrs} {inner : List Token} (h : nest (n :: o) inner = some (n :: o)) :
    nest o (within n as inner) = some o := by
  unfold within
  show nest (n :: o) (inner ++ [.closing n]) = _
  rw [nest_app h]
  simp [nest]

theorem nest_two {o : List Str} {a b : List Token} (ha : nest o a = some o) (hb : nest o b = some o) : nest o (a ++ b) = some o := by
  rw [nest_app ha, hb]

theorem nest_flat {α : Type} {o : List Str} (g : α → List Token) (l : List α) (h : ∀ x, nest o (g x) = some o) : nest o (l.flatMap g) = some o := by
  induction l with
  | nil => rfl
  | cons x l ih =>
    rw [List.flatMap_cons]
    exact nest_two (h x) ih

theorem nest_empties {α : Type} {o : List Str} (n : α → Str) (as : α → Spec.Xml.Attrs) (l : List α) :
    nest o (l.map fun x => .empty (n x) (as x)) = some o := by
  induction l with
  | nil => rfl
  | cons x l ih => simpa [nest] using ih

theorem nest_data {n : Str} {o : List Str} (v : Str) : nest (n :: o) (v.map .data) = some (n :: o) := by
  induction v with
  | nil => rfl
  | cons x l ih => simpa [nest] using ih

/-! ### what is clean -/

theorem digit_clean (c : Char) (h : c.isDigit = true) : c ≠ '"' ∧ c ≠ '<' ∧ c ≠ '&' := by
  refine ⟨?_, ?_, ?_⟩ <;> rintro rfl <;> simp at h

theorem dec_clean (k : ℕ) : Clean (dec k) := by
  have h : ∀ c ∈ dec k, c.isDigit = true := fun c hc => by
    unfold dec at hc
    exact Nat.isDigit_of_mem_toDigits (by omega) (by omega) hc
  exact ⟨fun hm => (digit_clean _ (h _ hm)).1 rfl, fun hm => (digit_clean _ (h _ hm)).2.1 rfl, fun hm => (digit_clean _ (h _ hm)).2.2 rfl⟩

theorem clean_append {a b : Str} (ha : Clean a) (hb : Clean b) : Clean (a ++ b) := by
  unfold Clean at *
  simp only [List.mem_append, not_or]
  exact ⟨⟨ha.1, hb.1⟩, ⟨ha.2.1, hb.2.1⟩, ha.2.2, hb.2.2⟩

instance (v : Str) : Decidable (Clean v) := by unfold Clean; infer_instance

/-- The characters of the encoding. -/
theorem encodeChar_plain (c : Base64.Byte) :
    Base64.encodeChar c ≠ 0x3C#8 ∧ Base64.encodeChar c ≠ 0x26#8 ∧ Base64.encodeChar c ≠ 0x20#8 ∧ Base64.encodeChar c ≠ 0x0A#8 := by
  revert c
  decide +kernel

/-- A byte that is no markup. -/
def Plain (b : Base64.Byte) : Prop := b ≠ 0x3C#8 ∧ b ≠ 0x26#8 ∧ b ≠ 0x20#8 ∧ b ≠ 0x0A#8

theorem eqChar_plain : Plain Base64.eqChar := by unfold Plain; decide

theorem body_plain (m : Bool) : ∀ (l : List Base64.Byte), ∀ b ∈ Base64.encodeBody m l, Plain b
  | s0 :: s1 :: s2 :: rest, b, hb => by
    rw [Base64.encodeBody, List.mem_append] at hb
    refine hb.elim (fun h => ?_) (body_plain m rest b)
    simp only [Base64.encode3, List.mem_cons, List.not_mem_nil, or_false] at h
    rcases h with rfl | rfl | rfl | rfl <;> exact encodeChar_plain _
  | [s0, s1], b, hb => by
    simp only [Base64.encodeBody, Base64.encode2, List.mem_cons, List.not_mem_nil, or_false] at hb
    rcases hb with rfl | rfl | rfl | rfl
    · exact encodeChar_plain _
    · exact encodeChar_plain _
    · exact encodeChar_plain _
    · exact eqChar_plain
  | [s0], b, hb => by
    simp only [Base64.encodeBody, Base64.encode1, List.mem_cons, List.not_mem_nil, or_false] at hb
    rcases hb with rfl | rfl | rfl | rfl
    · exact encodeChar_plain _
    · exact encodeChar_plain _
    · exact eqChar_plain
    · exact eqChar_plain
  | [], b, hb => by
    unfold Base64.encodeBody at hb
    split at hb
    · simp only [List.mem_cons, List.not_mem_nil, or_false, or_self] at hb
      rw [hb]
      exact eqChar_plain
    · simp at hb

theorem plain_char (b : Base64.Byte) (h : Plain b) : Char.ofNat b.toNat ≠ '<' ∧ Char.ofNat b.toNat ≠ '&' ∧ blank (Char.ofNat b.toNat) = false := by
  revert b
  unfold Plain
  decide +kernel

theorem encoded_plain (bytes : Vtp.Arr → List Base64.Byte) (a : Vtp.Arr) : ∀ c ∈ encoded bytes a, c ≠ '<' ∧ c ≠ '&' ∧ blank c = false := by
  intro c hc
  unfold encoded at hc
  obtain ⟨b, hb, rfl⟩ := List.mem_map.1 hc
  refine plain_char b ?_
  simp only [Base64.getBase64FromBytes, Base64.encode, List.nil_append, List.mem_append] at hb
  exact hb.elim (body_plain _ _ b) (body_plain _ _ b)

/-! ### lines -/

theorem typeName_clean (t) : Clean (Vtp.getTypeName t).toList := by
  cases t <;> decide +kernel

theorem lex_field (f : Vtp.Field) (h : Clean f.name.toList) : lex .text (fieldLine f) = some (.text, [Spec.VtkText.declared (Vtp.pDataArray f)]) := by
  unfold fieldLine
  exact lex_app (lex_app (lex_app (lex_app (lex_app (lex_app (m1 := .value "PDataArray".toList [] "Name".toList []) (t1 := [])
    (show lex .text "<PDataArray Name=\"".toList = _ from rfl) (lex_value h _ _ _ _))
    (show lex _ "\" type=\"".toList = some (.value "PDataArray".toList [("Name".toList, f.name.toList)] "type".toList [], []) from rfl))
    (lex_value (typeName_clean f.type) _ _ _ _))
    (show lex _ "\" NumberOfComponents=\"".toList =
      some (.value "PDataArray".toList [("Name".toList, f.name.toList), ("type".toList, (Vtp.getTypeName f.type).toList)] "NumberOfComponents".toList [], []) from rfl))
    (lex_value (dec_clean f.dimension) _ _ _ _))
    (show lex _ "\" format=\"binary\"/>\n".toList = some (.text, [Spec.VtkText.declared (Vtp.pDataArray f)]) from rfl)

theorem lex_piece (p : Str) (h : Clean p) : lex .text (pieceLine p) = some (.text, [Spec.VtkText.source p]) := by
  unfold pieceLine
  exact lex_app (lex_app (m1 := .value "Piece".toList [] "Source".toList []) (t1 := []) rfl (lex_value h _ _ _ _)) rfl

theorem flatMap_one {α β : Type} (f : α → β) (l : List α) : l.flatMap (fun x => [f x]) = l.map f := by
  induction l with
  | nil => rfl
  | cons x l ih => simp [ih]

theorem lex_fields (fs : List Vtp.Field) (h : ∀ f ∈ fs, Clean f.name.toList) :
    lex .text (fs.flatMap fieldLine) = some (.text, (fs.map Vtp.pDataArray).map Spec.VtkText.declared) := by
  rw [lex_flat fieldLine (fun f => [Spec.VtkText.declared (Vtp.pDataArray f)]) fs fun f hf => lex_field f (h f hf),
    flatMap_one (fun f => Spec.VtkText.declared (Vtp.pDataArray f)), List.map_map]
  rfl

theorem lex_pieces (ps : List Str) (h : ∀ p ∈ ps, Clean p) : lex .text (ps.flatMap pieceLine) = some (.text, ps.map Spec.VtkText.source) := by
  rw [lex_flat pieceLine (fun p => [Spec.VtkText.source p]) ps fun p hp => lex_piece p (h p hp), flatMap_one]

theorem lex_points (fs : List Vtp.Field) (h : ∀ f ∈ fs, Clean f.name.toList) :
    lex .text (pointSection fs) = some (.text, Spec.VtkText.pointDecls (fs.map Vtp.pDataArray)) := by
  unfold pointSection
  exact lex_app (lex_app (m1 := .text) (t1 := [.opening "PPointData".toList [("Scalars".toList, "scalars".toList)]]) rfl (lex_fields fs h)) rfl

theorem lex_cells (fs : List Vtp.Field) (h : ∀ f ∈ fs, Clean f.name.toList) :
    lex .text (cellSection fs) = some (.text, Spec.VtkText.cellDecls (fs.map Vtp.pDataArray)) := by
  unfold cellSection
  exact lex_app (lex_app (m1 := .text) (t1 := [.opening "PCellData".toList [("Scalars".toList, "scalars".toList)]]) rfl (lex_fields fs h)) rfl

theorem lex_coords : lex .text pointsLines = some (.text, within "PPoints".toList [] [Spec.VtkText.declaredPoints]) := by decide +kernel

theorem lex_array (bytes : Vtp.Arr → List Base64.Byte) (a : Vtp.DataArray) (hn : Clean a.name.toList) (ht : Clean a.type.toList) :
    lex .text (arrayText bytes a) = some (.text, Spec.VtkText.array (encoded bytes) a) := by
  unfold arrayText dataArray
  have h := lex_app (lex_app (lex_app (lex_app (lex_app (lex_app (lex_app (lex_app (lex_app (m1 := .value "DataArray".toList [] "Name".toList []) (t1 := [])
    (show lex .text "<DataArray Name=\"".toList = _ from rfl) (lex_value hn _ _ _ _))
    (show lex _ "\" type=\"".toList = some (.value "DataArray".toList [("Name".toList, a.name.toList)] "type".toList [], []) from rfl)) (lex_value ht _ _ _ _))
    (show lex _ "\" NumberOfComponents=\"".toList = some (.value "DataArray".toList [("Name".toList, a.name.toList), ("type".toList, a.type.toList)] "NumberOfComponents".toList [], []) from rfl))
    (lex_value (dec_clean a.comps) _ _ _ _))
    (show lex _ "\" format=\"binary\">\n".toList = some (.text, [.opening "DataArray".toList [("Name".toList, a.name.toList), ("type".toList, a.type.toList), ("NumberOfComponents".toList, dec a.comps), ("format".toList, "binary".toList)]]) from rfl))
    (lex_text (encoded_plain bytes a.data))) (show lex .text "\n".toList = some (.text, []) from rfl))
    (show lex .text "</DataArray>\n".toList = some (.text, [.closing "DataArray".toList]) from rfl)
  rw [h]
  simp [Spec.VtkText.array, within]

theorem nest_array (content : Vtp.Arr → Str) (o : List Str) (a : Vtp.DataArray) : nest o (Spec.VtkText.array content a) = some o :=
  nest_within (nest_data _)

theorem lex_arrays (bytes : Vtp.Arr → List Base64.Byte) (l : List Vtp.DataArray) (h : ∀ a ∈ l, Clean a.name.toList ∧ Clean a.type.toList) :
    lex .text (l.flatMap (arrayText bytes)) = some (.text, l.flatMap (Spec.VtkText.array (encoded bytes))) :=
  lex_flat _ _ l fun a ha => lex_array bytes a (h a ha).1 (h a ha).2

/-! ### files -/

theorem nest_decls (n : Str) (as : Spec.Xml.Attrs) (o : List Str) (ds : List Vtp.Decl) : nest o (within n as (ds.map Spec.VtkText.declared)) = some o :=
  nest_within (nest_empties _ _ ds)

theorem nest_header (kind : Str) (sections : List Token) (pieces : List Str) (h : ∀ o, nest o sections = some o) :
    nest [] (Spec.VtkText.header kind sections pieces) = some [] :=
  nest_within (nest_within (nest_two (nest_two (h _) (nest_within rfl)) (nest_empties _ _ pieces)))

theorem lex_top (kind : Str) (top bottom mid pcs : Str) (secs : List Token) (pieces : List Str)
    (ht : lex .text top = some (.text, [.opening "VTKFile".toList (Spec.VtkText.rootAttrs kind), .opening kind [("GhostLevel".toList, "0".toList)]]))
    (hb : lex .text bottom = some (.text, [.closing kind, .closing "VTKFile".toList]))
    (hm : lex .text mid = some (.text, secs)) (hp : lex .text pcs = some (.text, pieces.map Spec.VtkText.source)) :
    lex .text (xmlHead ++ top ++ mid ++ pointsLines ++ pcs ++ bottom) = some (.text, Spec.VtkText.header kind secs pieces) := by
  rw [lex_app (lex_app (lex_app (lex_app (lex_app (show lex .text xmlHead = some (.text, []) by decide +kernel) ht) hm) lex_coords) hp) hb]
  simp [Spec.VtkText.header, within]

theorem vtu_top : lex .text vtuTop =
    some (.text, [.opening "VTKFile".toList (Spec.VtkText.rootAttrs "PUnstructuredGrid".toList), .opening "PUnstructuredGrid".toList [("GhostLevel".toList, "0".toList)]]) := by
  decide +kernel

theorem vtu_end : lex .text vtuEnd = some (.text, [.closing "PUnstructuredGrid".toList, .closing "VTKFile".toList]) := by decide +kernel

theorem vtp_top : lex .text vtpTop =
    some (.text, [.opening "VTKFile".toList (Spec.VtkText.rootAttrs "PPolyData".toList), .opening "PPolyData".toList [("GhostLevel".toList, "0".toList)]]) := by
  decide +kernel

theorem vtp_end : lex .text vtpEnd = some (.text, [.closing "PPolyData".toList, .closing "VTKFile".toList]) := by decide +kernel

theorem lex_part {a : Str} {mid : Str} {z : Str} {n : Str} {as : Spec.Xml.Attrs} {ts : List Token} (ha : lex .text a = some (.text, [.opening n as]))
    (hm : lex .text mid = some (.text, ts)) (hz : lex .text z = some (.text, [.closing n])) : lex .text (a ++ mid ++ z) = some (.text, within n as ts) := by
  rw [lex_app (lex_app ha hm) hz]
  rfl

theorem lex_vtp (bytes : Vtp.Arr → List Base64.Byte) (p : Vtp.Piece)
    (h : ∀ a ∈ p.points ++ p.lines ++ p.pointData ++ p.cellData, Clean a.name.toList ∧ Clean a.type.toList) :
    lex .text (vtp bytes p) = some (.text, Spec.VtkText.piece (encoded bytes) p) := by
  simp only [List.mem_append] at h
  have hh : lex .text headVTP = some (.text, [.opening "VTKFile".toList (Spec.VtkText.rootAttrs "PolyData".toList), .opening "PolyData".toList []]) := by decide +kernel
  have ht : lex .text tailVTP = some (.text, [.closing "PolyData".toList, .closing "VTKFile".toList]) := by decide +kernel
  have hp := lex_app (lex_app (lex_app (lex_app (m1 := .value "Piece".toList [] "NumberOfPoints".toList []) (t1 := [])
    (show lex .text "<Piece NumberOfPoints=\"".toList = _ from rfl) (lex_value (dec_clean p.numberOfPoints) _ _ _ _))
    (show lex _ "\" NumberOfLines=\"".toList = some (.value "Piece".toList [("NumberOfPoints".toList, dec p.numberOfPoints)] "NumberOfLines".toList [], []) from rfl))
    (lex_value (dec_clean p.numberOfLines) _ _ _ _))
    (show lex _ "\">\n".toList =
      some (.text, [.opening "Piece".toList [("NumberOfPoints".toList, dec p.numberOfPoints), ("NumberOfLines".toList, dec p.numberOfLines)]]) from rfl)
  have h1 := lex_part (n := "Points".toList) (as := []) (show lex .text "<Points>\n".toList = _ from rfl)
    (lex_arrays bytes p.points fun a ha => h a (.inl (.inl (.inl ha)))) (show lex .text "</Points>\n".toList = _ from rfl)
  have h2 := lex_part (n := "Lines".toList) (as := []) (show lex .text "<Lines>\n".toList = _ from rfl)
    (lex_arrays bytes p.lines fun a ha => h a (.inl (.inl (.inr ha)))) (show lex .text "</Lines>\n".toList = _ from rfl)
  have h3 := lex_part (n := "PointData".toList) (as := [("Scalars".toList, "scalars".toList)]) (show lex .text "<PointData Scalars=\"scalars\">\n".toList = _ from rfl)
    (lex_arrays bytes p.pointData fun a ha => h a (.inl (.inr ha))) (show lex .text "</PointData>\n".toList = _ from rfl)
  have h4 := lex_part (n := "CellData".toList) (as := [("Scalars".toList, "scalars".toList)]) (show lex .text "<CellData Scalars=\"scalars\">\n".toList = _ from rfl)
    (lex_arrays bytes p.cellData fun a ha => h a (.inr ha)) (show lex .text "</CellData>\n".toList = _ from rfl)
  unfold vtp
  rw [lex_app (lex_app (lex_app (lex_app (lex_app (lex_app (lex_app hh hp) h1) h2) h3) h4)
    (show lex .text "</Piece>\n".toList = some (.text, [.closing "Piece".toList]) from rfl)) ht]
  simp [Spec.VtkText.piece, within]

theorem nest_piece (content : Vtp.Arr → Str) (p : Vtp.Piece) : nest [] (Spec.VtkText.piece content p) = some [] := by
  have h : ∀ (n : Str) (as : Spec.Xml.Attrs) (o : List Str) (l : List Vtp.DataArray), nest o (within n as (l.flatMap (Spec.VtkText.array content))) = some o :=
    fun n as o l => nest_within (nest_flat _ l (nest_array content _))
  exact nest_within (nest_within (nest_within (nest_two (nest_two (nest_two (h _ _ _ _) (h _ _ _ _)) (h _ _ _ _)) (h _ _ _ _))))

theorem written_clean (d : Vtp.Arr) (n : String) (k : ℕ) (h : Clean n.toList) :
    Clean (Vtp.writeDataArray d n k).name.toList ∧ Clean (Vtp.writeDataArray d n k).type.toList := by
  refine ⟨h, ?_⟩
  cases d
  · show Clean "UInt8".toList
    decide +kernel
  · show Clean "Int32".toList
    decide +kernel
  · show Clean "Float32".toList
    decide +kernel
  · show Clean "Float64".toList
    decide +kernel

theorem bind_elim {α β : Type} {o : Option α} {f : α → Option β} {p : β} (h : (o >>= f) = some p) : ∃ x, f x = some p := by
  cases o with
  | none => simp at h
  | some x => exact ⟨x, h⟩

theorem ite_elim {β : Type} {c : Prop} [Decidable c] {x : Option β} {p : β} (h : (if c then none else x) = some p) : x = some p := by
  split at h
  · simp at h
  · exact h

theorem body_clean {r32 : ℝ → ℝ} {sched : Vtp.Sched} {bodies} {p : Vtp.Piece} (h : Vtp.bodyVTP r32 sched bodies = some p) :
    ∀ a ∈ p.points ++ p.lines ++ p.pointData ++ p.cellData, Clean a.name.toList ∧ Clean a.type.toList := by
  unfold Vtp.bodyVTP at h
  replace h := ite_elim h
  repeat (obtain ⟨_, h⟩ := bind_elim h)
  obtain rfl := Option.some.inj h
  simp only [List.cons_append, List.nil_append]
  repeat (refine List.forall_mem_cons.2 ⟨written_clean _ _ _ (by decide +kernel), ?_⟩)
  exact fun _ h => nomatch h

theorem con_clean {r32 : ℝ → ℝ} {sched : Vtp.Sched} {pool} {p : Vtp.Piece} (h : Vtp.conVTP r32 sched pool = some p) :
    ∀ a ∈ p.points ++ p.lines ++ p.pointData ++ p.cellData, Clean a.name.toList ∧ Clean a.type.toList := by
  unfold Vtp.conVTP at h
  obtain ⟨n, h⟩ := bind_elim h
  replace h := ite_elim h
  repeat (obtain ⟨_, h⟩ := bind_elim h)
  obtain rfl := Option.some.inj h
  simp only [List.cons_append, List.nil_append]
  repeat (refine List.forall_mem_cons.2 ⟨written_clean _ _ _ (by decide +kernel), ?_⟩)
  exact fun _ h => nomatch h

/-! ### heads and tails -/

theorem nest_under {o r : List Str} {ts : List Token} (x : List Str) (h : nest o ts = some r) : nest (o ++ x) ts = some (r ++ x) := by
  induction ts generalizing o with
  | nil =>
    simp only [nest, Option.some.injEq] at h
    rw [nest, h]
  | cons t ts ih =>
    cases t with
    | opening n as => exact ih (o := n :: o) h
    | empty n as => exact ih h
    | closing n =>
      cases o with
      | nil => simp [nest] at h
      | cons m rest =>
        simp only [List.cons_append, nest] at h ⊢
        split at h
        · rename_i hm
          rw [if_pos hm]
          exact ih h
        · simp at h
    | data c =>
      simp only [nest] at h ⊢
      split at h
      · simp at h
      · rename_i hm
        rw [if_neg fun e => hm (List.append_eq_nil_iff.1 e).1]
        exact ih h

theorem decInt_clean (z : ℤ) : Clean (decInt z) := by
  unfold decInt
  split
  · exact clean_append (a := ['-']) (by decide) (dec_clean _)
  · exact dec_clean _

theorem extent_clean (low high : Fin 3 → ℤ) : Clean (extent low high) := by
  have hb : Clean " ".toList := by decide +kernel
  unfold extent
  repeat (first | exact decInt_clean _ | refine clean_append ?_ (decInt_clean _) | refine clean_append ?_ hb)

theorem triple_clean (x : Fin 3 → Str) (h : ∀ i, Clean (x i)) : Clean (triple x) := by
  have hb : Clean " ".toList := by decide +kernel
  unfold triple
  exact clean_append (clean_append (clean_append (clean_append (clean_append hb (h 0)) hb) (h 1)) hb) (h 2)

theorem extent_eq (low high : Fin 3 → ℤ) : ("WholeExtent".toList, extent low high) = Spec.VtkText.wholeExtent low high := by
  have hb : " ".toList = [' '] := rfl
  unfold extent Spec.VtkText.wholeExtent
  rw [hb]
  simp [List.intercalate]

theorem triple_eq (x : Fin 3 → Str) : triple x = Spec.VtkText.numbers x := by
  have hb : " ".toList = [' '] := rfl
  unfold triple Spec.VtkText.numbers
  rw [hb]
  simp [List.intercalate]

theorem frame_reads {head body tail kind : Str} {as : Spec.Xml.Attrs} {ts : List Token}
    (hh : lex .text head = some (.text, [.opening "VTKFile".toList (Spec.VtkText.rootAttrs kind), .opening kind as]))
    (ht : lex .text tail = some (.text, [.closing kind, .closing "VTKFile".toList])) (hb : Spec.Xml.Reads body ts) :
    Spec.Xml.Reads (head ++ body ++ tail) (Spec.VtkText.frame kind as ts) := by
  refine ⟨?_, nest_within (nest_within (nest_under (o := []) (r := []) _ hb.2))⟩
  rw [lex_app (lex_app hh hb.1) ht]
  simp [Spec.VtkText.frame, within]

theorem lex_headVTR (low high : Fin 3 → ℤ) : lex .text (headVTR low high) =
    some (.text, [.opening "VTKFile".toList (Spec.VtkText.rootAttrs "RectilinearGrid".toList), .opening "RectilinearGrid".toList [Spec.VtkText.wholeExtent low high]]) := by
  rw [← extent_eq]
  have h1 : lex .text (xmlHead ++ "<VTKFile type=\"RectilinearGrid\" version=\"1.0\" byte_order=\"LittleEndian\"  header_type=\"UInt32\">\n".toList) =
    some (.text, [.opening "VTKFile".toList (Spec.VtkText.rootAttrs "RectilinearGrid".toList)]) := by decide +kernel
  exact lex_app h1 (lex_app (lex_app (m1 := .value "RectilinearGrid".toList [] "WholeExtent".toList []) (t1 := [])
    (show lex .text "<RectilinearGrid WholeExtent=\"".toList = _ from rfl) (lex_value (extent_clean low high) _ _ _ _))
    (show lex _ "\">\n".toList = some (.text, [.opening "RectilinearGrid".toList [("WholeExtent".toList, extent low high)]]) from rfl))

theorem lex_headVTI (low high : Fin 3 → ℤ) (spacing origin : Fin 3 → Str) (hs : ∀ i, Clean (spacing i)) (ho : ∀ i, Clean (origin i)) :
    lex .text (headVTI low high spacing origin) = some (.text, [.opening "VTKFile".toList (Spec.VtkText.rootAttrs "ImageData".toList),
      .opening "ImageData".toList [Spec.VtkText.wholeExtent low high, ("Origin".toList, Spec.VtkText.numbers origin), ("Spacing".toList, Spec.VtkText.numbers spacing)]]) := by
  rw [← extent_eq, ← triple_eq, ← triple_eq]
  have h1 : lex .text (xmlHead ++ "<VTKFile type=\"ImageData\" version=\"1.0\" byte_order=\"LittleEndian\"  header_type=\"UInt32\">\n".toList) =
    some (.text, [.opening "VTKFile".toList (Spec.VtkText.rootAttrs "ImageData".toList)]) := by decide +kernel
  exact lex_app h1 (lex_app (lex_app (lex_app (lex_app (lex_app (lex_app (m1 := .value "ImageData".toList [] "WholeExtent".toList []) (t1 := [])
    (show lex .text "<ImageData WholeExtent=\"".toList = _ from rfl) (lex_value (extent_clean low high) _ _ _ _))
    (show lex _ "\" Origin=\"".toList = some (.value "ImageData".toList [("WholeExtent".toList, extent low high)] "Origin".toList [], []) from rfl))
    (lex_value (triple_clean origin ho) _ _ _ _))
    (show lex _ "\" Spacing=\"".toList = some (.value "ImageData".toList [("WholeExtent".toList, extent low high), ("Origin".toList, triple origin)] "Spacing".toList [], []) from rfl))
    (lex_value (triple_clean spacing hs) _ _ _ _))
    (show lex _ "\">\n".toList = some (.text, [.opening "ImageData".toList [("WholeExtent".toList, extent low high), ("Origin".toList, triple origin),
      ("Spacing".toList, triple spacing)]]) from rfl))

end Verif.VtkText
