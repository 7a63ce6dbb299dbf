import Verif.Model.GroundTruth
import Verif.Model.LabelFile
import Verif.Model.Shard
/-!
# Model of the filtered ground truth (tests/compute_filtered_groundtruth.cpp)

`es` is `sizeof(T)`.  `dist q x` is the distance of query `q` from the vector with the bytes `x`, as the BLAS calls
compute it.  Numbers of points are below 2^31.  The program's temporary files are given by their contents.
-/

namespace Grann

/-- `parse_label_string` (tests/compute_filtered_groundtruth.cpp:34-46) and the tokens of a line
(tests/compute_filtered_groundtruth.cpp:168-170). -/
def commaTokens (s : Bytes) : List Label := (pieces 44 s).map stripEol

/-- The test of a line (tests/compute_filtered_groundtruth.cpp:168-178); `univ` is the universal label, if one is
used. -/
def keepLine (filters : List Label) (univ : Option Label) (line : Bytes) : Bool :=
  (commaTokens line).any (fun t => filters.contains t || decide (univ = some t))

/-- The loop over the lines (tests/compute_filtered_groundtruth.cpp:164-180): `line_cnt`, `filtered_pts_index` and what
was written to the filtered file.  `pt` is the buffer for a vector of `rb` bytes. -/
def filterLoop (keep : Bytes → Bool) (rb : Nat) : List Bytes → IStream → Bytes → Nat → List Nat → Bytes →
    List Nat × Bytes
  | [], _, _, _, idx, out => (idx, out)
  | line :: lines, s, pt, i, idx, out =>
    let (b, s) := s.read rb
    let pt := b ++ pt.drop b.length
    if keep line then filterLoop keep rb lines s pt (u32 (i + 1)) (idx ++ [i]) (out ++ pt)
    else filterLoop keep rb lines s pt (u32 (i + 1)) idx out

/-- What `save_groundtruth_as_one_file` writes (src/aux_compute_groundtruth.cpp:256-274). -/
def truthFile (k : Nat) (rows : List (List (Nat × F32))) : Bytes :=
  le 4 rows.length ++ le 4 k ++ le32s (rows.flatMap (fun r => r.map Prod.fst)) ++
    le32s (rows.flatMap (fun r => r.map (fun x => x.2.bits.toNat)))

/-- `aux_main` (src/aux_compute_groundtruth.cpp:276-338) on a file of vectors: the contents of the ground-truth file. -/
def auxMain (pick : Nat → Nat → Nat → List (Nat × F32) → Nat) (sortP : List (Nat × F32) → List (Nat × F32))
    (partSize rb nq k : Nat) (dist : Nat → Bytes → F32) (junk : Nat → Nat → F32) (base : Bytes) : Res Bytes := do
  let n := unle (base.take 4)
  let (k, rows) ← groundTruth true pick sortP partSize n nq k
    (fun q i => dist q ((base.drop (8 + i * rb)).take rb)) junk
  .ok (truthFile k rows)

/-- The first loop of `compute_new_groundtruth` (tests/compute_filtered_groundtruth.cpp:233-240); `buf` is `quer_nns`. -/
def remapLoop (idx : List Nat) (k : Nat) : Nat → IStream → Bytes → Bytes → Res (IStream × Bytes)
  | 0, s, _, out => .ok (s, out)
  | todo + 1, s, buf, out => do
    let (b, s) := s.read (4 * k)
    let buf ← blit buf 0 b
    let nn ← (un32s k buf).mapM (fun x => rd idx x)
    remapLoop idx k todo s (le32s nn) (out ++ le32s nn)

/-- The second loop (tests/compute_filtered_groundtruth.cpp:242-246); `buf` is `quer_dists`, a `std::vector<T>`. -/
def copyDists (k : Nat) : Nat → IStream → Bytes → Bytes → Res Bytes
  | 0, _, _, out => .ok out
  | todo + 1, s, buf, out => do
    let (b, s) := s.read (4 * k)
    let buf ← blit buf 0 b
    let w ← slice buf 0 (4 * k)
    copyDists k todo s buf (out ++ w)

/-- `compute_new_groundtruth` (tests/compute_filtered_groundtruth.cpp:211-251) after the call of `aux_main` that wrote
`truth`: the contents of the output file. -/
def remapTruth (es : Nat) (idx : List Nat) (truth : Bytes) (j1 j2 : Bytes) : Res Bytes := do
  let (nq, k, s) := readHeader (some truth) j1 j2
  let (s, out) ← remapLoop idx k nq s (List.replicate (4 * k) 0) (le 4 nq ++ le 4 k)
  copyDists k nq s (List.replicate (es * k) 0) out

/-- What the program is given: `BLOCK`-like constants, the oracles, the sizes, the labels. -/
structure FtPar where
  pick : Nat → Nat → Nat → List (Nat × F32) → Nat
  sortP : List (Nat × F32) → List (Nat × F32)
  partSize : Nat
  es : Nat
  nq : Nat
  k : Nat
  dist : Nat → Bytes → F32
  filter : Bytes
  univ : Option Label
  junk : Nat → Nat → F32
  j1 : Bytes
  j2 : Bytes
  mem : Nat → UInt8

/-- The file with the vectors that match (tests/compute_filtered_groundtruth.cpp:143-190) and their numbers. -/
def filteredBase (P : FtPar) (coords map : Option Bytes) : List Nat × Bytes :=
  let (_, dim, s) := readHeader coords P.j1 P.j2
  let (idx, out) := filterLoop (keepLine (commaTokens P.filter) P.univ) (dim * P.es) (pieces 10 (map.getD [])) s
    (List.replicate (dim * P.es) 0) 0 [] (le 4 0 ++ le 4 dim)
  (idx, patchCount out (u32 idx.length))

/-- `compute_filtered_gt` (tests/compute_filtered_groundtruth.cpp:105-209): the contents of the output file. -/
def filteredTruth (P : FtPar) (coords map : Option Bytes) : Res Bytes := do
  let (_, dim, _) := readHeader coords P.j1 P.j2
  let (idx, base) := filteredBase P coords map
  let _ ← loadBin P.es coords P.j1 P.j2 P.mem
  let truth ← auxMain P.pick P.sortP P.partSize (dim * P.es) P.nq P.k P.dist P.junk base
  remapTruth P.es idx truth P.j1 P.j2

end Grann
