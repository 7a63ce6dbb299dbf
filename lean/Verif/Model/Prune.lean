import Verif.Model.Greedy
/-!
# Model of the pruning procedures of `GraphIndex` (src/graph_index.cpp:130-232)
-/

namespace Grann

/-- What pruning reads besides its arguments: data/labels/distance, `_filtered_index`
(include/index.h:169), and float division, which is left uninterpreted. -/
structure PruneEnv (V : Type) where
  ctx : Ctx V
  filtered : Bool
  div : F32 → F32 → F32

/-- `std::max` on floats (src/graph_index.cpp:191): `(a < b) ? b : a`. -/
def fmax2 (a b : F32) : F32 := if a.lt b then b else a

/-- The label test of src/graph_index.cpp:168-181: on a labelled index `a` may occlude `b` only if it
carries every label of `b`.  `_pts_to_labels[a]` is accessed only if `b` has a label. -/
def pruneAllowed {V : Type} (e : PruneEnv V) (a b : Nat) : Res Bool :=
  if e.filtered then do
    let lb ← rd e.ctx.labels b
    if lb.isEmpty then .ok true
    else do
      let la ← rd e.ctx.labels a
      .ok (lb.all (fun x => la.contains x))
  else .ok true

/-- One iteration of the inner loop (src/graph_index.cpp:163-192): new value of `occlude_factor[t]` for the
candidate `t` when `p` has just been selected. -/
def occludeStep {V : Type} (e : PruneEnv V) (alpha : F32) (p t : Nbr) (o : F32) : Res F32 :=
  if alpha.lt o then .ok o
  else do
    let allowed ← pruneAllowed e p.id t.id
    if !allowed then .ok o
    else do
      let vt ← rd e.ctx.data t.id
      let vp ← rd e.ctx.data p.id
      .ok (fmax2 o (e.div t.dist (e.ctx.cmp vt vp)))

/-- The inner loop (src/graph_index.cpp:163-192) over the candidates after the selected one, with their
occlusion factors. -/
def occludeAll {V : Type} (e : PruneEnv V) (alpha : F32) (p : Nbr) : List Nbr → List F32 → Res (List F32)
  | t :: ts, o :: os => do
    let o' ← occludeStep e alpha p t o
    let os' ← occludeAll e alpha p ts os
    .ok (o' :: os')
  | [], _ => .ok []
  | _ :: _, [] => .error .ub

/-- The selection loop (src/graph_index.cpp:150-194).  The list argument holds the candidates from
position `start` on (cut off at position `C`), the second one their occlusion factors, `res` is
`result`.  (Setting the factor of the selected candidate itself, src/graph_index.cpp:162, has no effect:
it is never read again.) -/
def pruneLoop {V : Type} (e : PruneEnv V) (alpha : F32) (point R : Nat) :
    List Nbr → List F32 → List Nbr → Res (List Nbr)
  | [], _, res => .ok res
  | p :: rest, occ, res =>
    if R ≤ res.length then .ok res
    else match occ with
      | [] => .error .ub
      | o :: occ =>
        if p.id = point then pruneLoop e alpha point R rest occ res
        else if alpha.lt o then pruneLoop e alpha point R rest occ res
        else do
          let occ' ← occludeAll e alpha p rest occ
          pruneLoop e alpha point R rest occ' (res ++ [p])

/-- `prune_candidates_alpha_rng` (src/graph_index.cpp:130-205): the resulting `pruned_list`, given its
content `old` on entry (kept when there are no candidates).  `sortF` is `std::sort` by distance. -/
def pruneAlpha {V : Type} (sortF : List Nbr → List Nbr) (e : PruneEnv V) (alpha : F32) (C R point : Nat)
    (cands : List Nbr) (old : List Nat) : Res (List Nat) :=
  if cands.isEmpty then .ok old
  else do
    let res ← pruneLoop e alpha point R ((sortF cands).take C)
      (List.replicate cands.length F32.zero) []
    .ok ((res.filter (fun x => x.id != point)).map Nbr.id)

/-- The loop of `prune_candidates_top_K` (src/graph_index.cpp:221-231). -/
def topKLoop (point R : Nat) : List Nbr → List Nat → List Nat
  | [], out => out
  | p :: rest, out =>
    if R ≤ out.length then out
    else if p.id = point then topKLoop point R rest out
    else topKLoop point R rest (out ++ [p.id])

/-- `prune_candidates_top_K` (src/graph_index.cpp:207-232). -/
def pruneTopK (sortF : List Nbr → List Nbr) (R point : Nat) (cands : List Nbr) (old : List Nat) :
    List Nat :=
  if cands.isEmpty then old else topKLoop point R (sortF cands) []

end Grann
