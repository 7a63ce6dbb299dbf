import Verif.Model.Recall
/-!
# Model of the statistics

`get_percentile_stats` (include/percentile_stats.h:35-50), the latency percentile of the search programs
(tests/search_vamana.cpp:172 and the like), and `update_degree_stats` (src/graph_index.cpp:305-362).

Values are elements of an ordered type (NaN does not occur among counts and times).  `std::sort` is a function giving
an ordered rearrangement.  Products are rounded to `prec` binary digits, 24 for `float` and 53 for `double`.
-/

namespace Grann

/-- `std::sort` with the comparison of the values `key`. -/
structure SortsBy {α V : Type} [LinearOrder V] (key : α → V) (sort : List α → List α) : Prop where
  perm : ∀ l, (sort l).Perm l
  sorted : ∀ l, (sort l).Pairwise (fun x y => key x ≤ key y)

/-- `(uint64_t) (p * len)`: `len` is converted, the product rounded, and the fraction cut off
(include/percentile_stats.h:47, src/graph_index.cpp:347-349, tests/search_vamana.cpp:172). -/
def pctIndex (prec : Nat) (p : Nat × Nat) (len : Nat) : Nat :=
  let l := roundBin prec (len, 1)
  let x := roundBin prec (p.1 * l.1, p.2 * l.2)
  x.1 / x.2

/-- `get_percentile_stats` (include/percentile_stats.h:35-50) and the access to the sorted latencies. -/
def percentile {V : Type} (sort : List V → List V) (prec : Nat) (p : Nat × Nat) (vals : List V) : Res V :=
  rd (sort vals) (pctIndex prec p vals.length)

/-- `in_degrees[x].second++` (src/graph_index.cpp:323-325) for the neighbours of a point. -/
def countIn : List (Nat × Nat) → List Nat → Res (List (Nat × Nat))
  | deg, [] => .ok deg
  | deg, x :: xs => do
    let d ← rd deg x
    let deg ← wr deg x (d.1, u32 (d.2 + 1))
    countIn deg xs

/-- The loop over the points (src/graph_index.cpp:318-326): `_max_degree`, `out_degrees`, `in_degrees`. -/
def degLoop : List (List Nat) → Nat → List Nat → List (Nat × Nat) → Res (Nat × List Nat × List (Nat × Nat))
  | [], m, out, deg => .ok (m, out, deg)
  | l :: ls, m, out, deg => do
    let deg ← countIn deg l
    degLoop ls (u32 (if m > l.length then m else l.length)) (out ++ [u32 l.length]) deg

/-- The loop counting the points without incoming edge (src/graph_index.cpp:336-340), from position `i` on. -/
def unreachLoop (deg : List (Nat × Nat)) (n : Nat) : Nat → Nat → Res Nat
  | 0, i => .ok i
  | todo + 1, i =>
    if i < n then do
      let d ← rd deg i
      if d.2 = 0 then unreachLoop deg n todo (i + 1) else .ok i
    else .ok i

/-- What `update_degree_stats` computes: `_max_degree`, the printed percentiles of the degrees, the number of points
called unreachable, and the most popular point. -/
structure DegStats where
  maxDegree : Nat
  out : List Nat
  inn : List Nat
  unreachable : Nat
  popular : Nat
  deriving DecidableEq, Repr

/-- The percentages (src/graph_index.cpp:346): `p / 100.0`. -/
def tenths : List (Nat × Nat) := (List.range 10).map (fun i => ddiv (10 * i, 1) (100, 1))

/-- `update_degree_stats` (src/graph_index.cpp:305-362) for a built index. -/
def degreeStats (sortOut : List Nat → List Nat) (sortIn : List (Nat × Nat) → List (Nat × Nat))
    (nbrs : List (List Nat)) : Res DegStats := do
  let n := nbrs.length
  let (m, out, deg) ← degLoop nbrs 0 [] ((List.range n).map (fun i => (i, 0)))
  let deg := sortIn deg
  let out := sortOut out
  let un ← unreachLoop deg n n 0
  let po ← tenths.mapM (fun p => rd out (pctIndex 53 p n))
  let pi ← tenths.mapM (fun p => do let d ← rd deg (pctIndex 53 p n); .ok d.2)
  let lo ← if n = 0 then .error .ub else rd out (n - 1)
  let li ← if n = 0 then .error .ub else rd deg (n - 1)
  .ok ⟨m, po ++ [lo], pi ++ [li.2], un, li.1⟩

end Grann
