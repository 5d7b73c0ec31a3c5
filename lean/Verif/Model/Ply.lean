/-
Writing PLY files: voxblox/src/io/mesh_ply.cc and voxblox/include/voxblox/io/ply_writer.h, down to the characters in the file.
-/
import Verif.Model.Mesh
import Verif.Model.Ieee
import Mathlib.Data.Int.Log
import Mathlib.Data.Nat.Digits.Defs

namespace Vox.Ply

open MC Ieee

/-! ### Numbers as text -/

/-- Decimal digits as characters; used for all numbers written by voxblox/src/io/mesh_ply.cc:72-120. -/
def chars (ds : List ℕ) : List Char := ds.map Nat.digitChar

/-- An unsigned number written to a stream, voxblox/src/io/mesh_ply.cc:72, :88, :109, :120. -/
def natText (n : ℕ) : List Char := if n = 0 then ['0'] else chars (Nat.digits 10 n).reverse

/-- The decimal representation with six significant digits of a positive number, as a `std::ostream` prints by default (precision 6,
`%g`), voxblox/src/io/mesh_ply.cc:96: the number is about `m * 10 ^ (e - 5)` with `m` of six digits. The nearest is taken, ties to even,
as glibc does. -/
def sixDigits (q : ℚ) : ℕ × ℤ :=
  let e := Int.log 10 q
  let m := (roundEven (q / 10 ^ (e - 5))).toNat
  if m = 10 ^ 6 then (10 ^ 5, e + 1) else (m, e)

/-- Trailing zeros are not printed: `%g` as used in voxblox/src/io/mesh_ply.cc:96. -/
def strip (ds : List ℕ) : List ℕ := (ds.reverse.dropWhile (· = 0)).reverse

/-- Digits before and after the point, `%g` as used in voxblox/src/io/mesh_ply.cc:96. -/
def pointText (ip fp : List ℕ) : List Char := chars ip ++ (if strip fp = [] then [] else '.' :: chars (strip fp))

/-- An exponent, at least two digits: `%g` as used in voxblox/src/io/mesh_ply.cc:96. -/
def expText (e : ℤ) : List Char :=
  'e' :: (if e < 0 then '-' else '+') :: (if e.natAbs < 10 then '0' :: natText e.natAbs else natText e.natAbs)

/-- Six digits `ds` with decimal exponent `e`, `%g` as used in voxblox/src/io/mesh_ply.cc:96. -/
def generalText (ds : List ℕ) (e : ℤ) : List Char :=
  if -4 ≤ e ∧ e < 6 then
    if 0 ≤ e then pointText (ds.take (e.toNat + 1)) (ds.drop (e.toNat + 1))
    else pointText [0] (List.replicate (-e - 1).toNat 0 ++ ds)
  else pointText (ds.take 1) (ds.drop 1) ++ expText e

/-- A positive number, voxblox/src/io/mesh_ply.cc:96. -/
def posText (q : ℚ) : List Char := generalText (Nat.digits 10 (sixDigits q).1).reverse (sixDigits q).2

/-- A `float` written to a stream, voxblox/src/io/mesh_ply.cc:96, :100. Simplified: the signs of zeros and NaN are not modelled. -/
def floatText : Fl → List Char
  | .nan => "nan".toList
  | .pinf => "inf".toList
  | .ninf => "-inf".toList
  | .fin q => if q = 0 then ['0'] else if q < 0 then '-' :: posText (-q) else posText q

/-! ### outputMeshAsPly -/

/-- A line of fixed text with `std::endl`, voxblox/src/io/mesh_ply.cc:70-93. -/
def line (s : String) : List Char := s.toList ++ ['\n']

/-- Three numbers with spaces between them, voxblox/src/io/mesh_ply.cc:96, :100. -/
def vecText (v : Vec3 Fl) : List Char := floatText v.x ++ ' ' :: (floatText v.y ++ ' ' :: floatText v.z)

/-- The four channels as numbers, each with a space before it, voxblox/src/io/mesh_ply.cc:104-109. -/
def colorText (c : Color) : List Char :=
  ' ' :: (natText c.r.toNat ++ ' ' :: (natText c.g.toNat ++ ' ' :: (natText c.b.toNat ++ ' ' :: natText c.a.toNat)))

/-- The header, voxblox/src/io/mesh_ply.cc:69-93. -/
def headerText (m : Mesh) : List Char :=
  line "ply" ++ line "format ascii 1.0" ++ ("element vertex ".toList ++ natText m.vertices.length ++ ['\n']) ++
  line "property float x" ++ line "property float y" ++ line "property float z" ++
  (if m.normals.isEmpty then [] else line "property float normal_x" ++ line "property float normal_y" ++ line "property float normal_z") ++
  (if m.colors.isEmpty then [] else
    line "property uchar red" ++ line "property uchar green" ++ line "property uchar blue" ++ line "property uchar alpha") ++
  (if m.indices.isEmpty then [] else
    ("element face ".toList ++ natText (m.indices.length / 3) ++ ['\n']) ++ line "property list uchar int vertex_indices") ++
  line "end_header"

/-- The normal of a vertex, voxblox/src/io/mesh_ply.cc:98-101, read without a check of the position. -/
def normalPart (m : Mesh) (k : ℕ) : Outcome (List Char) :=
  if m.normals.isEmpty then .ok [] else do
    let n ← MeshOps.at_ m.normals k
    pure (' ' :: vecText n)

/-- The colour of a vertex, voxblox/src/io/mesh_ply.cc:102-110, read without a check of the position. -/
def colorPart (m : Mesh) (k : ℕ) : Outcome (List Char) :=
  if m.colors.isEmpty then .ok [] else do
    let c ← MeshOps.at_ m.colors k
    pure (colorText c)

/-- The line of one vertex, voxblox/src/io/mesh_ply.cc:95-114. -/
def vertexText (m : Mesh) (v : Vec3 Fl) (k : ℕ) : Outcome (List Char) := do
  let n ← normalPart m k
  let c ← colorPart m k
  pure (vecText v ++ n ++ c ++ ['\n'])

/-- `indices.at(i)`, voxblox/src/io/mesh_ply.cc:120: throws behind the end (nothing catches it, the process ends: `fatal`). -/
def indexAt (is : List ℕ) (i : ℕ) : Outcome ℕ :=
  match is[i]? with
  | some a => .ok a
  | none => .fatal

/-- The line of one triangle, voxblox/src/io/mesh_ply.cc:116-124. -/
def faceText (is : List ℕ) (k : ℕ) : Outcome (List Char) := do
  let a ← indexAt is (3 * k)
  let b ← indexAt is (3 * k + 1)
  let c ← indexAt is (3 * k + 2)
  pure ("3 ".toList ++ (natText a ++ ' ' :: (natText b ++ ' ' :: (natText c ++ [' ', '\n']))))

/-- The triangles, voxblox/src/io/mesh_ply.cc:115-125. The loop runs once for each begun triple. -/
def facesText (m : Mesh) : Outcome (List Char) :=
  if m.indices.isEmpty then .ok [] else
    (List.range ((m.indices.length + 2) / 3)).foldlM (fun acc k => do
      let t ← faceText m.indices k
      pure (acc ++ t)) []

/-- All that is sent to the stream, voxblox/src/io/mesh_ply.cc:69-125. -/
def meshText (m : Mesh) : Outcome (List Char) := do
  let vs ← m.vertices.zipIdx.foldlM (fun acc vk => do
    let t ← vertexText m vk.1 vk.2
    pure (acc ++ t)) []
  let fs ← facesText m
  pure (headerText m ++ vs ++ fs)

/-- What the file system does: whether the file can be opened, and after how many characters writing fails (if it does). Stands for the
`std::ofstream` of voxblox/src/io/mesh_ply.cc:63. -/
structure Disk where
  opens : Bool
  room : Option ℕ
deriving DecidableEq

/-- What ends up in the file, voxblox/src/io/mesh_ply.cc:63-125. -/
def Disk.store (d : Disk) (t : List Char) : List Char :=
  match d.room with
  | none => t
  | some n => t.take n

/-- voxblox/src/io/mesh_ply.cc:62-127 `outputMeshAsPly`: the returned flag and the file, if there is one. -/
def outputMeshAsPly (d : Disk) (m : Mesh) : Outcome (Bool × Option (List Char)) :=
  if d.opens then do
    let t ← meshText m
    pure (true, some (d.store t))
  else .ok (false, none)

/-- voxblox/src/io/mesh_ply.cc:46-60 `outputMeshLayerAsPly`, from the mesh that `convertMeshLayerToMesh` (:27-38) produces. -/
def outputMeshLayerAsPly (d : Disk) (combined : Outcome Mesh) : Outcome (Bool × Option (List Char)) := do
  let m ← combined
  if m.vertices.isEmpty then pure (false, none) else outputMeshAsPly d m

/-! ### PlyWriter -/

/-- The stream of a writer, voxblox/include/voxblox/io/ply_writer.h:110. -/
inductive Stream where
  | failed
  | opened
  | closed
deriving DecidableEq

/-- voxblox/include/voxblox/io/ply_writer.h:103-110. -/
structure Writer where
  headerWritten : Bool
  parametersSet : Bool
  total : ℕ
  written : ℕ
  hasColor : Bool
  stream : Stream
  file : List Char
deriving DecidableEq

/-- voxblox/include/voxblox/io/ply_writer.h:22-28, the constructor. -/
def Writer.new (opens : Bool) : Writer := ⟨false, false, 0, 0, false, if opens then .opened else .failed, []⟩

/-- `<<` on the stream: after `close` characters are lost and the stream fails. voxblox/include/voxblox/io/ply_writer.h:53-66, :81, :94-96. -/
def Writer.put (w : Writer) (t : List Char) : Writer :=
  match w.stream with
  | .opened => { w with file := w.file ++ t }
  | _ => { w with stream := .failed }

/-- voxblox/include/voxblox/io/ply_writer.h:32-36 `addVerticesWithProperties`. -/
def Writer.add (w : Writer) (n : ℕ) (hasColor : Bool) : Writer := { w with total := n, hasColor := hasColor, parametersSet := true }

/-- The text of the header, voxblox/include/voxblox/io/ply_writer.h:53-66. -/
def Writer.headerText (w : Writer) : List Char :=
  line "ply" ++ line "format ascii 1.0" ++ ("element vertex ".toList ++ natText w.total ++ ['\n']) ++
  line "property float x" ++ line "property float y" ++ line "property float z" ++
  (if w.hasColor then line "property uchar red" ++ line "property uchar green" ++ line "property uchar blue" else []) ++
  line "end_header"

/-- voxblox/include/voxblox/io/ply_writer.h:38-70 `writeHeader`. -/
def Writer.writeHeader (w : Writer) : Bool × Writer :=
  if w.stream = .failed then (false, w)
  else if !w.parametersSet then (false, w)
  else if w.headerWritten then (false, w)
  else (true, { w.put w.headerText with headerWritten := true })

/-- The header if it is not yet written, voxblox/include/voxblox/io/ply_writer.h:73-77, :86-90. -/
def Writer.ensureHeader (w : Writer) : Bool × Writer := if w.headerWritten then (true, w) else w.writeHeader

/-- voxblox/include/voxblox/io/ply_writer.h:72-83 `writeVertex`; `vertices_written_` is compared but never changed. -/
def Writer.vertex (w : Writer) (v : Vec3 Fl) : Bool × Writer :=
  let r := w.ensureHeader
  if !r.1 then (false, r.2)
  else if r.2.total ≤ r.2.written || r.2.hasColor then (false, r.2)
  else (true, r.2.put (vecText v ++ ['\n']))

/-- voxblox/include/voxblox/io/ply_writer.h:85-98 `writeVertex` with a colour. -/
def Writer.vertexColor (w : Writer) (v : Vec3 Fl) (c : Color) : Bool × Writer :=
  let r := w.ensureHeader
  if !r.1 then (false, r.2)
  else if r.2.total ≤ r.2.written || !r.2.hasColor then (false, r.2)
  else (true, r.2.put (vecText v ++ ' ' :: (natText c.r.toNat ++ ' ' :: (natText c.g.toNat ++ ' ' :: (natText c.b.toNat ++ ['\n'])))))

/-- voxblox/include/voxblox/io/ply_writer.h:100 `closeFile`; closing a file that is not open makes the stream fail. -/
def Writer.close (w : Writer) : Writer := { w with stream := if w.stream = .opened then .closed else .failed }

end Vox.Ply
