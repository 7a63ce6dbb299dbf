import Verif.Props.CutFile
/-!
# C107: files of inverted lists that were cut or are missing
-/

namespace Grann

theorem zeros_read (k : Nat) : un32s k (le32s (List.replicate k 0)) = List.replicate k 0 := by
  have := un32s_le32s (List.replicate k 0) (by simp) []
  rw [List.append_nil, List.length_replicate] at this
  exact this

/-- Once the stream has failed every list is as long as the memory of the counter says, and consists of zeros. -/
theorem readLists_failed (junk : Nat → Bytes) (m : Nat) (s : IStream) (hs : s.eof = true ∨ s.fail = true) (i : Nat)
    (hi : i < m) : (readLists junk (List.replicate m []) s)[i]? = some (List.replicate (unle (junk (m - 1 - i))) 0) := by
  induction m generalizing i s with
  | zero => omega
  | succ m ih =>
    have hf : ∀ s : IStream, s.eof = true ∨ s.fail = true → ∀ n, s.read n = ([], { s with fail := true }) := by
      intro s hs n
      unfold IStream.read
      rw [if_pos (by simpa using hs)]
    have hr : readList s (junk m) [] = (List.replicate (unle (junk m)) 0, { s with fail := true }) := by
      unfold readList IStream.readInt
      rw [hf s hs]
      dsimp only
      rw [hf _ (.inr rfl)]
      simp [zeros_read]
    rw [List.replicate_succ, readLists, List.length_replicate, hr]
    dsimp only
    cases i with
    | zero => simp
    | succ i =>
      rw [List.getElem?_cons_succ, ih _ (.inr rfl) i (by omega)]
      congr 4
      omega

/-- The first `c` bytes of inverted lists: lists in front of the cut are complete, those behind it are zeros. -/
theorem readLists_cut (junk : Nat → Bytes) (hj : ∀ i, (junk i).length = 4) (g : List (List Nat)) (hg : Spec.GraphFits g)
    (c : Nat) (i : Nat) (hi : i < g.length) :
    (((g.take (i + 1)).map (fun nb => 4 + 4 * nb.length)).sum ≤ c →
      (readLists junk (List.replicate g.length []) ⟨(encNodes g).take c, false, false⟩)[i]? = g[i]?) ∧
    (c ≤ ((g.take i).map (fun nb => 4 + 4 * nb.length)).sum →
      (readLists junk (List.replicate g.length []) ⟨(encNodes g).take c, false, false⟩)[i]? =
        some (List.replicate (unle (junk (g.length - 1 - i))) 0)) := by
  induction g generalizing c i with
  | nil => simp at hi
  | cons nb g ih =>
    have hnb := hg nb (by simp)
    have hg' : Spec.GraphFits g := fun x hx => hg x (by simp [hx])
    have h4 : (junk g.length).length = 4 := hj _
    rw [List.length_cons, List.replicate_succ, readLists, List.length_replicate, encNodes_cons]
    by_cases hc : c < 4 + 4 * nb.length
    · -- the cut is inside of this record
      have hfail : ∀ s2 l, readList ⟨(le 4 nb.length ++ (le32s nb ++ encNodes g)).take c, false, false⟩ (junk g.length) [] =
          (l, s2) → s2.fail = true := by
        intro s2 l h
        unfold readList at h
        by_cases hc4 : c < 4
        · have : ((IStream.mk ((le 4 nb.length ++ (le32s nb ++ encNodes g)).take c) false false).readInt
              (junk g.length)).2 = ⟨[], true, true⟩ := by
            unfold IStream.readInt IStream.read
            simp only [h4]
            rw [if_neg (by simp), if_neg (by rw [List.length_take]; omega)]
          dsimp only at h
          rw [this] at h
          have h2 : ∀ n, (IStream.mk [] true true).read n = ([], ⟨[], true, true⟩) := fun n => rfl
          rw [h2] at h
          cases h
          rfl
        · have htake : (le 4 nb.length ++ (le32s nb ++ encNodes g)).take c =
              le 4 nb.length ++ (le32s nb ++ encNodes g).take (c - 4) := by
            rw [List.take_append, le_length, List.take_of_length_le (by simp; omega)]
          rw [htake, IStream.readInt_le nb.length 4 _ _ h4 (by omega)] at h
          dsimp only at h
          have htake2 : (le32s nb ++ encNodes g).take (c - 4) = (le32s nb).take (c - 4) := by
            rw [List.take_append_of_le_length (by simp; omega)]
          have hl : ((le32s nb).take (c - 4)).length = c - 4 := by simp; omega
          have hr : (IStream.mk ((le32s nb).take (c - 4)) false false).read (nb.length * 4) =
              ((le32s nb).take (c - 4), ⟨[], true, true⟩) := by
            unfold IStream.read
            rw [if_neg (by simp), if_neg (by simp only [hl]; omega)]
          rw [htake2, hr] at h
          cases h
          rfl
      obtain ⟨l, s2, hl⟩ : ∃ l s2, readList ⟨(le 4 nb.length ++ (le32s nb ++ encNodes g)).take c, false, false⟩
          (junk g.length) [] = (l, s2) := ⟨_, _, rfl⟩
      have hs2 := hfail s2 l hl
      rw [hl]
      dsimp only
      cases i with
      | zero =>
        refine ⟨fun h => ?_, fun h => ?_⟩
        · simp at h; omega
        · have h0 : c = 0 := by simpa using h
          subst h0
          have hr : readList ⟨[], false, false⟩ (junk g.length) [] =
              (List.replicate (unle (junk g.length)) 0, ⟨[], true, true⟩) := by
            unfold readList IStream.readInt
            have h1 : (IStream.mk [] false false).read (junk g.length).length = ([], ⟨[], true, true⟩) := by
              unfold IStream.read
              rw [if_neg (by simp), if_neg (by simp [h4])]
            rw [h1]
            dsimp only
            have h2 : ∀ n, (IStream.mk [] true true).read n = ([], ⟨[], true, true⟩) := fun n => rfl
            rw [h2]
            simp [zeros_read]
          rw [List.take_zero, hr] at hl
          cases hl
          simp
      | succ i =>
        have hi' : i < g.length := by simpa using hi
        refine ⟨fun h => ?_, fun _ => ?_⟩
        · simp only [List.take_succ_cons, List.map_cons, List.sum_cons] at h; omega
        · rw [List.getElem?_cons_succ, readLists_failed junk _ _ (.inr hs2) i hi']
          congr 4
          omega
    · have htake : (le 4 nb.length ++ (le32s nb ++ encNodes g)).take c =
          le 4 nb.length ++ (le32s nb ++ (encNodes g).take (c - (4 + 4 * nb.length))) := by
        rw [List.take_append, le_length, List.take_of_length_le (by simp; omega), List.take_append,
          List.take_of_length_le (by simp; omega), le32s_length]
        congr 3; omega
      have hr : readList ⟨(le 4 nb.length ++ (le32s nb ++ encNodes g)).take c, false, false⟩ (junk g.length) [] =
          (nb, ⟨(encNodes g).take (c - (4 + 4 * nb.length)), false, false⟩) := by
        unfold readList
        rw [htake, IStream.readInt_le nb.length 4 _ _ h4 (by omega)]
        dsimp only
        have hr : (IStream.mk (le32s nb ++ (encNodes g).take (c - (4 + 4 * nb.length))) false false).read
            (nb.length * 4) = (le32s nb, ⟨(encNodes g).take (c - (4 + 4 * nb.length)), false, false⟩) := by
          have := IStream.read_append (le32s nb) ((encNodes g).take (c - (4 + 4 * nb.length)))
          rw [le32s_length, Nat.mul_comm 4 nb.length] at this; rw [Nat.mul_comm 4 nb.length]; exact this
        rw [hr]
        dsimp only
        rw [un32s_le32s nb hnb.2]
      rw [hr]
      dsimp only
      cases i with
      | zero => exact ⟨fun _ => by simp, fun h => by simp at h; omega⟩
      | succ i =>
        obtain ⟨h1, h2⟩ := ih hg' (c - (4 + 4 * nb.length)) i (by simpa using hi)
        refine ⟨fun h => ?_, fun h => ?_⟩
        · simp only [List.take_succ_cons, List.map_cons, List.sum_cons] at h
          simpa using h1 (by omega)
        · simp only [List.take_succ_cons, List.map_cons, List.sum_cons] at h
          rw [List.getElem?_cons_succ, h2 (by omega)]
          congr 4
          omega

section
variable {P : Type} [DecidableEq P]

/-- Loading an IVF index whose file of inverted lists was replaced by something else. -/
theorem ivfLoad_other (nm : Part → P) (hnm : Function.Injective nm) (pc : P)
    (hpc : ∀ p, pc ≠ nm p) (fs : FS P) (es : Nat) (o : IvfObj) (rows crows : List Bytes)
    (hs : IvfSaveable es o rows crows) (sortL : List Label → List Label) (hsort : IsStrSort sortL) (j : Junk) (hj : j.WF)
    (o0 : IvfObj) (h0 : IsFresh o0.base) (hi0 : o0.inv = []) (x : Option Bytes) :
    ∃ ops b, ivfSave es nm pc o = .ok ops ∧ runOps ops fs (nm .graph) = some (encNodes o.inv) ∧
      ivfLoad sortL j es nm pc (fun q => if q = nm .graph then x else runOps ops fs q) o0 =
        .ok ⟨b, o.nc, o.centers, readLists j.k (List.replicate o.nc []) (IStream.open x)⟩ := by
  have ne : ∀ {a b : Part}, a ≠ b → nm a ≠ nm b := fun h e => h (hnm e)
  obtain ⟨b, ops, hb, ho, hrun⟩ := ivfSave_run nm hnm pc hs fs
  obtain ⟨b', hb', hbh, hbq⟩ := saveBase_holds nm hnm hs.base fs
  rw [hb] at hb'
  cases hb'
  have hfs : (fun q => if q = nm .graph then x else runOps ops fs q) = fun q => if q = nm .graph then x else
        if q = pc then some (le 4 o.nc ++ (le 4 o.base.adim ++ o.centers)) else runOps b fs q := by
    rw [hrun]
    funext q
    dsimp only
    split <;> rfl
  have hbh' : HoldsBase nm (fun q => if q = nm .graph then x else
        if q = pc then some (le 4 o.nc ++ (le 4 o.base.adim ++ o.centers)) else runOps b fs q) o.base rows := by
    constructor <;> rw [if_neg (ne (by decide)), if_neg (Ne.symm (hpc _))]
    · exact hbh.data
    · exact hbh.tags
    · exact hbh.labels
    · exact hbh.univ
  obtain ⟨seen, hl⟩ := loadBase_holds sortL hsort j hj nm hs.base _ hbh' o0.base h0
  have hcen := loadAligned_ok (es := 4) (d := o.base.adim) hs.matrix (by rw [hs.crows_n]; exact hs.nc_lt)
    hs.adim_lt (by have := hs.csize; rw [hs.crows_n]; omega)
    (by rw [hs.crows_n]; exact aligned_size_lt (by have := hs.csize; omega)) hj.1 hj.2.1 j.mem
  have hpad : crows.map (Spec.padTo (roundUp8 o.base.adim * 4)) = crows := by
    rw [hs.base.adim, adim_round, ← hs.base.adim]
    conv_rhs => rw [← List.map_id crows]
    apply List.map_congr_left
    intro r hr
    simp [Spec.padTo, hs.matrix r hr]
  rw [hs.crows_n, hpad, ← hs.centers] at hcen
  refine ⟨ops, { o.base with seen := seen, maxDeg := o0.base.maxDeg, start := o0.base.start, graph := [], medoids := [] },
    ho, by rw [hrun]; simp, ?_⟩
  rw [hfs]
  unfold ivfLoad
  rw [hl, Res.ok_bind]
  dsimp only
  rw [if_neg (hpc _), if_pos rfl, hcen, Res.ok_bind]
  dsimp only
  rw [if_pos rfl, hi0]
  simp

/-- **C107 is false for IVF, cut files.**  However many bytes of the inverted lists are left, `load` accepts them: the
lists in front of the cut are complete, every list behind it consists of zeros, as many as the uninitialised counter says. -/
theorem C107_ivf_cut (nm : Part → P) (hnm : Function.Injective nm) (pc : P)
    (hpc : ∀ p, pc ≠ nm p) (fs : FS P) (es : Nat) (o : IvfObj) (rows crows : List Bytes)
    (hs : IvfSaveable es o rows crows) (sortL : List Label → List Label) (hsort : IsStrSort sortL) (j : Junk) (hj : j.WF)
    (o0 : IvfObj) (h0 : IsFresh o0.base) (hi0 : o0.inv = []) (c : Nat) :
    ∃ ops f o', ivfSave es nm pc o = .ok ops ∧ runOps ops fs (nm .graph) = some f ∧
      ivfLoad sortL j es nm pc (fun q => if q = nm .graph then some (f.take c) else runOps ops fs q) o0 = .ok o' ∧
      ∀ i, i < o.nc →
        (((o.inv.take (i + 1)).map (fun l => 4 + 4 * l.length)).sum ≤ c → o'.inv[i]? = o.inv[i]?) ∧
        (c ≤ ((o.inv.take i).map (fun l => 4 + 4 * l.length)).sum →
          o'.inv[i]? = some (List.replicate (unle (j.k (o.nc - 1 - i))) 0)) := by
  obtain ⟨ops, b, ho, hg, hl⟩ := ivfLoad_other nm hnm pc hpc fs es o rows crows hs sortL hsort j hj o0 h0 hi0
    (some ((encNodes o.inv).take c))
  refine ⟨ops, _, _, ho, hg, hl, fun i hi => ?_⟩
  have := readLists_cut j.k hj.2.2.2.2.2.2.2 o.inv hs.inv_fits c i (by rw [hs.inv_len]; exact hi)
  rw [hs.inv_len] at this
  exact this

/-- **C107 is false for IVF, missing file.**  Without the file of the inverted lists `load` succeeds: all lists consist of
zeros, as many as the uninitialised counter says. -/
theorem C107_ivf_missing (nm : Part → P) (hnm : Function.Injective nm) (pc : P)
    (hpc : ∀ p, pc ≠ nm p) (fs : FS P) (es : Nat) (o : IvfObj) (rows crows : List Bytes)
    (hs : IvfSaveable es o rows crows) (sortL : List Label → List Label) (hsort : IsStrSort sortL) (j : Junk) (hj : j.WF)
    (o0 : IvfObj) (h0 : IsFresh o0.base) (hi0 : o0.inv = []) :
    ∃ ops o', ivfSave es nm pc o = .ok ops ∧
      ivfLoad sortL j es nm pc (fun q => if q = nm .graph then none else runOps ops fs q) o0 = .ok o' ∧
      ∀ i, i < o.nc → o'.inv[i]? = some (List.replicate (unle (j.k (o.nc - 1 - i))) 0) := by
  obtain ⟨ops, b, ho, -, hl⟩ := ivfLoad_other nm hnm pc hpc fs es o rows crows hs sortL hsort j hj o0 h0 hi0 none
  exact ⟨ops, _, ho, hl, fun i hi => readLists_failed j.k o.nc _ (.inr rfl) i hi⟩

end

/-! ## The theorems applied to the examples -/

example := C107_ivf_cut some (Option.some_injective _) none (fun p => by simp) (fun _ => none) 1 exIvfObj _ _
  exIvfObj_saveable exStrSort exStrSort_isStrSort exJunk exJunk_WF ⟨IdxObj.fresh, 0, [], []⟩ fresh_isFresh rfl 6

example := C107_ivf_missing some (Option.some_injective _) none (fun p => by simp) (fun _ => none) 1 exIvfObj _ _
  exIvfObj_saveable exStrSort exStrSort_isStrSort exJunk exJunk_WF ⟨IdxObj.fresh, 0, [], []⟩ fresh_isFresh rfl

/-- Three lists of which the first eleven bytes are left. -/
example : readLists (fun _ => [3, 0, 0, 0]) (List.replicate 3 []) ⟨(encNodes [[1], [0, 2], [3]]).take 11, false, false⟩ =
    [[1], [0, 0], [0, 0, 0]] := by decide

end Grann
