import Verif.Basic.Res
/-!
# Model of the hash set that remembers visited points

`tsl::robin_set<unsigned>` (include/tsl/robin_set.h:74-79): linear probing with robin hood displacement, bucket counts
that are powers of two, maximal load factor 0.5, no stored hashes (include/tsl/robin_hash.h:344-355: the key type is
arithmetic with the default hash).  Erasing is not used by the library and not modelled.

The hash function is a parameter `hash`, and so is the comparison `load_factor() >= 0.15f`, a function `hi` of the
number of elements and the number of buckets.  Allocation succeeds.
-/

namespace Grann

/-- `bucket_entry` (include/tsl/robin_hash.h:130-284).  `dist` is a 16-bit integer, `-1` marks an empty bucket;
`val` is `none` if the value was never set. -/
structure Bkt where
  dist : Int
  val : Option Nat
  deriving DecidableEq, Repr

/-- A new bucket (include/tsl/robin_hash.h:139-143). -/
def Bkt.fresh : Bkt := ⟨-1, none⟩

/-- `value()` (include/tsl/robin_hash.h:212-220); reading a value that was never set is undefined. -/
def Bkt.value (b : Bkt) : Res Nat :=
  match b.val with
  | some v => .ok v
  | none => .error .ub

/-- `dist_from_ideal_bucket++` for `distance_type = std::int_least16_t` (include/tsl/robin_hash.h:136); the conversion
back to 16 bits wraps. -/
def inc16 (d : Int) : Int := if d = 32767 then -32768 else d + 1

/-- `next_bucket` (include/tsl/robin_hash.h:1032-1037). -/
def nextBkt (mask i : Nat) : Nat := (i + 1) &&& mask

/-- How a probe ends: at a bucket with the key, or at a bucket where the key would be put, with the distance. -/
inductive Probe
  | found (p : Nat)
  | stop (p : Nat) (d : Int)
  deriving DecidableEq, Repr

/-- The loop of `find_impl` and the first loop of `insert_impl` (include/tsl/robin_hash.h:1056-1070, 1103-1115). -/
def probe (bs : List Bkt) (mask key : Nat) : Nat → Nat → Int → Res Probe
  | 0, _, _ => .error .loop
  | f + 1, p, d => do
    let b ← rd bs p
    if d ≤ b.dist then do
      let v ← b.value
      if v = key then .ok (.found p) else probe bs mask key f (nextBkt mask p) (inc16 d)
    else .ok (.stop p d)

/-- The second loop of `insert_impl` (include/tsl/robin_hash.h:1118-1124), without comparisons. -/
def skip (bs : List Bkt) (mask : Nat) : Nat → Nat → Int → Res (Nat × Int)
  | 0, _, _ => .error .loop
  | f + 1, p, d => do
    let b ← rd bs p
    if d ≤ b.dist then skip bs mask f (nextBkt mask p) (inc16 d) else .ok (p, d)

/-- The loop of `insert_value` (include/tsl/robin_hash.h:1161-1180): `hi` is `load_factor() >= 0.15f`, `g` is
`m_grow_on_next_insert`. -/
def insLoop (hi : Bool) (mask : Nat) : Nat → List Bkt → Nat → Int → Nat → Bool → Res (List Bkt × Bool)
  | 0, _, _, _, _, _ => .error .loop
  | f + 1, bs, p, d, v, g => do
    let b ← rd bs p
    if b.dist = -1 then do
      let bs ← wr bs p ⟨d, some v⟩
      .ok (bs, g)
    else if b.dist < d then do
      let w ← b.value
      let bs ← wr bs p ⟨d, some v⟩
      insLoop hi mask f bs (nextBkt mask p) (inc16 b.dist) w (g || (decide (128 ≤ d) && hi))
    else insLoop hi mask f bs (nextBkt mask p) (inc16 d) v g

/-- `insert_value` (include/tsl/robin_hash.h:1154-1181). -/
def insValue (hi : Bool) (mask fuel : Nat) (bs : List Bkt) (p : Nat) (d : Int) (v : Nat) (g : Bool) :
    Res (List Bkt × Bool) := do
  let b ← rd bs p
  let w ← b.value
  let bs ← wr bs p ⟨d, some v⟩
  insLoop hi mask fuel bs (nextBkt mask p) (inc16 b.dist) w g

/-- `insert_value_on_rehash` (include/tsl/robin_hash.h:1205-1222). -/
def rhLoop (mask : Nat) : Nat → List Bkt → Nat → Int → Nat → Res (List Bkt)
  | 0, _, _, _, _ => .error .loop
  | f + 1, bs, p, d, v => do
    let b ← rd bs p
    if b.dist < d then
      if b.dist = -1 then wr bs p ⟨d, some v⟩
      else do
        let w ← b.value
        let bs ← wr bs p ⟨d, some v⟩
        rhLoop mask f bs (nextBkt mask p) (inc16 b.dist) w
    else rhLoop mask f bs (nextBkt mask p) (inc16 d) v

/-- The set.  `buckets` is `m_buckets`, `mask` is `m_mask`, `size` is `m_nb_elements`, `grow` is
`m_grow_on_next_insert`. -/
structure RSet where
  buckets : List Bkt
  mask : Nat
  size : Nat
  grow : Bool
  deriving DecidableEq, Repr

/-- The constructor (include/tsl/robin_hash.h:485-520, include/tsl/robin_growth_policy.h:93-105) for a bucket count that
is 0 (`none`) or was rounded up to `2 ^ k`; also `reserve` on an empty set. -/
def RSet.new : Option Nat → RSet
  | none => ⟨[], 0, 0, false⟩
  | some k => ⟨List.replicate (2 ^ k) Bkt.fresh, 2 ^ k - 1, 0, false⟩

/-- `m_first_or_empty_bucket` (include/tsl/robin_hash.h:1250-1266): a static empty bucket if there is none. -/
def RSet.first (s : RSet) : List Bkt := if s.buckets = [] then [Bkt.fresh] else s.buckets

/-- Enough steps for every loop whose distance does not wrap. -/
def RSet.fuel (s : RSet) : Nat := s.buckets.length + 65536

/-- `m_load_threshold = size_type(float(bucket_count()) * 0.5f)` (include/tsl/robin_hash.h:983); exact, as the bucket
count is 0 or a power of two. -/
def RSet.threshold (s : RSet) : Nat := s.buckets.length / 2

/-- `rehash_impl` (include/tsl/robin_hash.h:1184-1203) to `m` buckets, a power of two. -/
def RSet.rehash (hash : Nat → Nat) (s : RSet) (m : Nat) : Res RSet := do
  let bs ← s.buckets.foldlM (fun bs b =>
    if b.dist = -1 then .ok bs
    else do
      let v ← b.value
      rhLoop (m - 1) (m + 65536) bs (hash v &&& (m - 1)) 0 v) (List.replicate m Bkt.fresh)
  .ok ⟨bs, m - 1, s.size, false⟩

/-- `next_bucket_count` (include/tsl/robin_growth_policy.h:118-124). -/
def nextBucketCount (mask : Nat) : Res Nat :=
  if mask + 1 > 9223372036854775808 / 2 then .error .throw else .ok ((mask + 1) * 2)

/-- `grow_on_high_load` and the loop after it (include/tsl/robin_hash.h:1117-1125, 1229-1238). -/
def RSet.room (hash : Nat → Nat) (s : RSet) (key p : Nat) (d : Int) : Res (RSet × Nat × Int) :=
  if s.grow ∨ s.threshold ≤ s.size then do
    let m ← nextBucketCount s.mask
    let s ← s.rehash hash m
    let r ← skip s.first s.mask s.fuel (hash key &&& s.mask) 0
    .ok (s, r)
  else .ok (s, p, d)

/-- The end of `insert_impl` (include/tsl/robin_hash.h:1128-1143). -/
def RSet.put (hi : Nat → Nat → Bool) (s : RSet) (key p : Nat) (d : Int) : Res RSet := do
  let b ← rd s.first p
  if b.dist = -1 then do
    let bs ← wr s.buckets p ⟨d, some key⟩
    .ok ⟨bs, s.mask, s.size + 1, s.grow⟩
  else do
    let r ← insValue (hi s.size s.buckets.length) s.mask s.fuel s.buckets p d key s.grow
    .ok ⟨r.1, s.mask, s.size + 1, r.2⟩

/-- `insert_impl` (include/tsl/robin_hash.h:1099-1144); the second component tells that the key was new. -/
def RSet.insert (hash : Nat → Nat) (hi : Nat → Nat → Bool) (s : RSet) (key : Nat) : Res (RSet × Bool) := do
  let r ← probe s.first s.mask key s.fuel (hash key &&& s.mask) 0
  match r with
  | .found _ => .ok (s, false)
  | .stop p d => do
    let r ← s.room hash key p d
    let s ← r.1.put hi key r.2.1 r.2.2
    .ok (s, true)

/-- `find(key) != end()` (include/tsl/robin_hash.h:1054-1071). -/
def RSet.find (hash : Nat → Nat) (s : RSet) (key : Nat) : Res Bool := do
  let r ← probe s.first s.mask key s.fuel (hash key &&& s.mask) 0
  match r with
  | .found _ => .ok true
  | .stop _ _ => .ok false

/-- Inserting keys one after the other; the results of the insertions are collected. -/
def RSet.insertAll (hash : Nat → Nat) (hi : Nat → Nat → Bool) : RSet → List Nat → Res (RSet × List Bool)
  | s, [] => .ok (s, [])
  | s, k :: ks => do
    let r ← s.insert hash hi k
    let t ← RSet.insertAll hash hi r.1 ks
    .ok (t.1, r.2 :: t.2)

end Grann
