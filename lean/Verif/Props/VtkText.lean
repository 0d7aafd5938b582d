import Verif.Lemmas.VtkText
import Verif.Props.Vtp
import Verif.Props.Base64
/-!
C125: the VTK files are well-formed XML.
-/
namespace Verif
open Text (Str dec)
open VtkText Vtp
open Spec.Xml (Reads Clean lex)
open Spec.VtkText (header pointDecls cellDecls piece frame wholeExtent numbers)

/-- **C125** for the headers of poly data, for all fields and names of pieces that can be between quotes: a reader finds the tags in their nesting, the declaration of
each field in the order given and each piece, and nothing else. -/
theorem C125_pvtp (points cells : List Field) (pieces : List Str) (hp : ∀ f ∈ points, Clean f.name.toList) (hc : ∀ f ∈ cells, Clean f.name.toList)
    (hs : ∀ p ∈ pieces, Clean p) :
    Reads (pvtp points cells pieces) (header "PPolyData".toList
      (pointDecls (writePVTPFile points cells pieces).pointData ++ cellDecls (writePVTPFile points cells pieces).cellData) (writePVTPFile points cells pieces).pieces) ∧
    Reads (pvtpPoints points pieces) (header "PPolyData".toList (pointDecls (points.map pDataArray)) pieces) := by
  refine ⟨⟨?_, nest_header _ _ _ fun o => nest_two (nest_decls _ _ _ _) (nest_decls _ _ _ _)⟩, ⟨?_, nest_header _ _ _ fun o => nest_decls _ _ _ _⟩⟩
  · unfold pvtp
    rw [List.append_assoc (xmlHead ++ vtpTop)]
    exact lex_top _ _ _ _ _ _ _ vtp_top vtp_end (lex_app (lex_points points hp) (lex_cells cells hc)) (lex_pieces pieces hs)
  · exact lex_top _ _ _ _ _ _ _ vtp_top vtp_end (lex_points points hp) (lex_pieces pieces hs)

/-- The headers of the bodies. -/
example (n : ℕ) : ∃ ts, Reads (pvtp bodyPointFields bodyCellFields ((List.range n).map (bodyPiece (dec 12)))) ts := by
  refine ⟨_, (C125_pvtp _ _ _ (by decide +kernel) (by decide +kernel) fun p hp => ?_).1⟩
  obtain ⟨i, -, rfl⟩ := List.mem_map.1 hp
  unfold bodyPiece
  exact clean_append (clean_append (clean_append (clean_append (by decide +kernel) (dec_clean i)) (by decide +kernel)) (dec_clean 12)) (by decide +kernel)

/-- **C125** for the headers of unstructured grids. -/
theorem C125_pvtu (points cells : List Field) (pieces : List Str) (hp : ∀ f ∈ points, Clean f.name.toList) (hc : ∀ f ∈ cells, Clean f.name.toList)
    (hs : ∀ p ∈ pieces, Clean p) :
    Reads (pvtu points cells pieces) (header "PUnstructuredGrid".toList (pointDecls (points.map pDataArray) ++ cellDecls (cells.map pDataArray)) pieces) ∧
    Reads (pvtuPoints points pieces) (header "PUnstructuredGrid".toList (pointDecls (points.map pDataArray)) pieces) := by
  refine ⟨⟨?_, nest_header _ _ _ fun o => nest_two (nest_decls _ _ _ _) (nest_decls _ _ _ _)⟩, ⟨?_, nest_header _ _ _ fun o => nest_decls _ _ _ _⟩⟩
  · unfold pvtu
    rw [List.append_assoc (xmlHead ++ vtuTop)]
    exact lex_top _ _ _ _ _ _ _ vtu_top vtu_end (lex_app (lex_points points hp) (lex_cells cells hc)) (lex_pieces pieces hs)
  · exact lex_top _ _ _ _ _ _ _ vtu_top vtu_end (lex_points points hp) (lex_pieces pieces hs)

/-- Two fields and a piece. -/
example : ∃ ts, Reads (pvtu [⟨3, .float32, "vel"⟩] [⟨1, .int32, "gid"⟩] ["a_r0.vtu".toList]) ts :=
  ⟨_, (C125_pvtu _ _ _ (by decide +kernel) (by decide +kernel) (by decide +kernel)).1⟩

/-- **C125** for the headers that are written in a step: for all steps, folders and numbers of ranks both can be read, and declare what `writeVTKHeaders` says. -/
theorem C125_headers (folder : Str) (snapID size : ℕ) :
    Reads (pvtp bodyPointFields bodyCellFields ((List.range size).map (bodyPiece (dec snapID))))
      (header "PPolyData".toList (pointDecls (bodyPVTP folder (dec snapID) size).2.pointData ++ cellDecls (bodyPVTP folder (dec snapID) size).2.cellData)
        (bodyPVTP folder (dec snapID) size).2.pieces) ∧
    Reads (pvtp conPointFields conCellFields ((List.range size).map (conPiece [] (dec snapID))))
      (header "PPolyData".toList (pointDecls (conPVTP folder [] (dec snapID) size).2.pointData ++ cellDecls (conPVTP folder [] (dec snapID) size).2.cellData)
        (conPVTP folder [] (dec snapID) size).2.pieces) := by
  refine ⟨(C125_pvtp _ _ _ (by decide +kernel) (by decide +kernel) fun p hp => ?_).1, (C125_pvtp _ _ _ (by decide +kernel) (by decide +kernel) fun p hp => ?_).1⟩
  · obtain ⟨i, -, rfl⟩ := List.mem_map.1 hp
    unfold bodyPiece
    exact clean_append (clean_append (clean_append (clean_append (by decide +kernel) (dec_clean i)) (by decide +kernel)) (dec_clean snapID)) (by decide +kernel)
  · obtain ⟨i, -, rfl⟩ := List.mem_map.1 hp
    unfold conPiece
    exact clean_append (clean_append (clean_append (clean_append (by decide +kernel) (dec_clean i)) (by decide +kernel)) (dec_clean snapID)) (by decide +kernel)

/-- Three ranks: the third piece of the header of the bodies in step 7. -/
example : (bodyPVTP [] (dec 7) 3).2.pieces[2]? = some "Sylinder_r2_7.vtp".toList := by decide +kernel

/-- **C125** for the file of a rank, for all arrays whose names can be between quotes and all ways to store elements: a reader finds the four sections with their arrays,
and in each array exactly the characters of its encoding. -/
theorem C125_piece (bytes : Arr → List Base64.Byte) (p : Piece)
    (h : ∀ a ∈ p.points ++ p.lines ++ p.pointData ++ p.cellData, Clean a.name.toList ∧ Clean a.type.toList) :
    Reads (vtp bytes p) (piece (encoded bytes) p) :=
  ⟨lex_vtp bytes p h, nest_piece _ p⟩

/-- A piece with a point. -/
example (bytes : Arr → List Base64.Byte) :
    Reads (vtp bytes ⟨1, 0, [writeDataArray (.f64 [0, 0, 0]) "position" 3], [], [], []⟩) (piece (encoded bytes) ⟨1, 0, [writeDataArray (.f64 [0, 0, 0]) "position" 3], [], [], []⟩) :=
  C125_piece bytes _ (List.forall_mem_cons.2 ⟨written_clean _ _ _ (by decide +kernel), fun _ h => nomatch h⟩)

/-- **C125** for the files that a rank writes, for all bodies and constraints and all orders of the writes. -/
theorem C125_written (bytes : Arr → List Base64.Byte) (r32 : ℝ → ℝ) (sched : Sched) (p : Piece) :
    (∀ bodies, bodyVTP r32 sched bodies = some p → Reads (vtp bytes p) (piece (encoded bytes) p)) ∧
    ∀ pool, conVTP r32 sched pool = some p → Reads (vtp bytes p) (piece (encoded bytes) p) :=
  ⟨fun _ h => C125_piece bytes p (body_clean h), fun _ h => C125_piece bytes p (con_clean h)⟩

/-- Two bodies. -/
example (bytes : Arr → List Base64.Byte) : ∃ p, bodyVTP id (fun _ _ l => l.reverse) [rodAt 1 0, rodAt 2 ⟨5, 0, 0⟩] = some p ∧
    Reads (vtp bytes p) (piece (encoded bytes) p) := by
  obtain ⟨p, h1, -⟩ := C62_bodies_partial id (fun _ _ l => l.reverse) (fun _ _ l => List.reverse_perm l)
    [rodAt 1 0, rodAt 2 ⟨5, 0, 0⟩] (by simp [maxInt]) [] [] 1
  exact ⟨p, h1, (C125_written bytes _ _ p).1 _ h1⟩

/-- **C125** for an array of less than 2^32 bytes: what is read between its tags decodes to the number of bytes and the bytes. -/
theorem C125_content (bytes : Arr → List Base64.Byte) (a : DataArray) (hn : Clean a.name.toList) (ht : Clean a.type.toList) (hlen : (bytes a.data).length < 2 ^ 32) :
    ∃ (text : Str) (hdr body count : List Base64.Byte),
      Reads (arrayText bytes a) (.opening "DataArray".toList [("Name".toList, a.name.toList), ("type".toList, a.type.toList), ("NumberOfComponents".toList, dec a.comps),
        ("format".toList, "binary".toList)] :: (text.map .data ++ [.closing "DataArray".toList])) ∧
      text.map (fun c => BitVec.ofNat 8 c.toNat) = hdr ++ body ∧ hdr.length = 8 ∧ Base64.decode hdr 4 [0, 0, 0, 0] 0 = some (count, 4) ∧
      Base64.Spec.leNat count = (bytes a.data).length ∧
      ∀ buf : List Base64.Byte, buf.length = Base64.Spec.leNat count → Base64.decode body (Base64.Spec.leNat count) buf 0 = some (bytes a.data, (bytes a.data).length) := by
  obtain ⟨hdr, body, count, h1, h2, h3, h4, h5⟩ := C04_vtk_header_partial (bytes a.data) [] [0, 0, 0, 0] rfl hlen
  refine ⟨encoded bytes a.data, hdr, body, count, ⟨lex_array bytes a hn ht, nest_array _ _ a⟩, ?_, h2, h3, h4, h5⟩
  have hb : ∀ b : Base64.Byte, BitVec.ofNat 8 (Char.ofNat b.toNat).toNat = b := by decide +kernel
  unfold encoded
  rw [List.map_map, show ((fun c : Char => BitVec.ofNat 8 c.toNat) ∘ fun b : Base64.Byte => Char.ofNat b.toNat) = id from funext hb, List.map_id, h1, List.nil_append]

/-- Positions. -/
example : Clean (writeDataArray (.f64 [1, 2, 3]) "position" 3).name.toList ∧ Clean (writeDataArray (.f64 [1, 2, 3]) "position" 3).type.toList :=
  written_clean _ _ _ (by decide +kernel)

/-- **C125** for the heads and tails of the other kinds of files: around any text that is XML they give XML, with the extent, origin and spacing given. -/
theorem C125_frames (body : Str) (ts : List Spec.Xml.Token) (h : Reads body ts) (low high : Fin 3 → ℤ) (spacing origin : Fin 3 → Str)
    (hs : ∀ i, Clean (spacing i)) (ho : ∀ i, Clean (origin i)) :
    Reads (headVTP ++ body ++ tailVTP) (frame "PolyData".toList [] ts) ∧
    Reads (headVTU ++ body ++ tailVTU) (frame "UnstructuredGrid".toList [] ts) ∧
    Reads (headVTR low high ++ body ++ tailVTR) (frame "RectilinearGrid".toList [wholeExtent low high] ts) ∧
    Reads (headVTI low high spacing origin ++ body ++ tailVTI)
      (frame "ImageData".toList [wholeExtent low high, ("Origin".toList, numbers origin), ("Spacing".toList, numbers spacing)] ts) :=
  ⟨frame_reads (by decide +kernel) (by decide +kernel) h, frame_reads (by decide +kernel) (by decide +kernel) h,
    frame_reads (lex_headVTR low high) (by decide +kernel) h, frame_reads (lex_headVTI low high spacing origin hs ho) (by decide +kernel) h⟩

/-- A grid around a tag. -/
example : Reads (headVTR (fun _ => -1) (fun _ => 4) ++ "<Piece Extent=\"-1 4 -1 4 -1 4\"/>".toList ++ tailVTR)
    (frame "RectilinearGrid".toList [("WholeExtent".toList, "-1 4 -1 4 -1 4".toList)] [.empty "Piece".toList [("Extent".toList, "-1 4 -1 4 -1 4".toList)]]) := by
  have h := (C125_frames "<Piece Extent=\"-1 4 -1 4 -1 4\"/>".toList [.empty "Piece".toList [("Extent".toList, "-1 4 -1 4 -1 4".toList)]]
    ⟨by decide +kernel, by decide +kernel⟩ (fun _ => -1) (fun _ => 4) (fun _ => []) (fun _ => []) (by decide +kernel) (by decide +kernel)).2.2.1
  have e : wholeExtent (fun _ => -1) (fun _ => 4) = ("WholeExtent".toList, "-1 4 -1 4 -1 4".toList) := by decide +kernel
  rw [← e]
  exact h

/-- **C125**, other names: they are written as they are, so a name with a quote, and one with an ampersand, makes a file that cannot be read. -/
theorem C125_quote_false : (∀ ts, ¬Reads (pvtp [⟨1, .int32, "5\" bolts"⟩] [] []) ts) ∧ ∀ ts, ¬Reads (pvtp [] [⟨1, .int32, "a&b"⟩] []) ts := by
  refine ⟨fun ts h => ?_, fun ts h => ?_⟩
  · have : lex .text (pvtp [⟨1, .int32, "5\" bolts"⟩] [] []) = none := by decide +kernel
    rw [h.1] at this
    simp at this
  · have : lex .text (pvtp [] [⟨1, .int32, "a&b"⟩] []) = none := by decide +kernel
    rw [h.1] at this
    simp at this

end Verif
