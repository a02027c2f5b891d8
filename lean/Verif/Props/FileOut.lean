import Verif.Lemmas.FileWhole
import Verif.Props.GfsSubset
/-!
# C75: rasters and subsets in files
-/
namespace CCGL
namespace Disk
open Fs Fs.Spec Disk.Spec CCGL.Spec

theorem calcValid_hdr {r r' : Raster} (e : r.calcValidPositions = .ok r') : ∃ n, r'.hdr = { r.hdr with cellsnum := n } := by
  unfold Raster.calcValidPositions at e
  obtain ⟨vs, -, e⟩ := Out.bind_ok e
  dsimp only at e
  split at e
  · cases e
  · obtain ⟨pd, -, e⟩ := Out.bind_ok e
    obtain ⟨pi, -, e⟩ := Out.bind_ok e
    simp only [Out.pure_eq, Out.ok.injEq] at e
    subst e
    exact ⟨_, rfl⟩

theorem calcNoMask_hdr {r : Raster} {y} (e : r.calcNoMask = .ok y) : ∃ n, y.1.hdr = { r.hdr with cellsnum := n } := by
  unfold Raster.calcNoMask at e
  split at e
  · split at e
    · obtain ⟨r1, e1, e⟩ := Out.bind_ok e
      simp only [Out.pure_eq, Out.ok.injEq] at e
      subst e
      exact calcValid_hdr e1
    · injection e with e
      subst e
      exact ⟨r.hdr.cellsnum, rfl⟩
  · injection e with e
    subst e
    exact ⟨_, rfl⟩

/-- Building subsets does not change the grid. -/
theorem build_hdr {r : Raster} {groups : IMap Int} {rs' b} (e : buildSubSet ⟨r, []⟩ groups = .ok (rs', b)) :
    ∃ n, rs'.ras.hdr = { r.hdr with cellsnum := n } := by
  unfold buildSubSet at e
  dsimp only at e
  split at e
  · injection e with e
    injection e with e _
    subst e
    exact ⟨r.hdr.cellsnum, rfl⟩
  · obtain ⟨x, e1, e⟩ := Out.bind_ok e
    have hx : ∃ n, x.1.hdr = { r.hdr with cellsnum := n } := by
      split at e1
      · unfold Raster.setCalcPositions at e1
        split at e1
        · injection e1 with e1; subst e1; exact ⟨r.hdr.cellsnum, rfl⟩
        · split at e1
          · injection e1 with e1; subst e1; exact ⟨r.hdr.cellsnum, rfl⟩
          · obtain ⟨y, e2, e1⟩ := Out.bind_ok e1
            simp only [Out.pure_eq, Out.ok.injEq] at e1
            subst e1
            exact calcNoMask_hdr (r := { r with calcPos := true }) e2
      · injection e1 with e1; subst e1; exact ⟨r.hdr.cellsnum, rfl⟩
    split at e
    · injection e with e
      injection e with e _
      subst e; exact hx
    · split at e
      · injection e with e
        injection e with e _
        subst e; exact hx
      · obtain ⟨m, -, e⟩ := Out.bind_ok e
        obtain ⟨subs, -, e⟩ := Out.bind_ok e
        simp only [Out.pure_eq, Out.ok.injEq, Prod.mk.injEq] at e
        rw [← e.1]; exact hx

theorem layerOf_get {full : List ℚ} {fsize lyrs : Int} (hl : 1 ≤ lyrs) (hlen : (full.length : Int) = fsize * lyrs) {l : Nat} (hll : (l : Int) < lyrs)
    {gi : Int} (h0 : 0 ≤ gi) (h1 : gi < fsize) :
    readAt (some full) (gi * lyrs + l) = .ok ((layerOf full fsize lyrs l).getD gi.toNat 0) := by
  obtain ⟨i, rfl⟩ := Int.eq_ofNat_of_zero_le h0
  have hb : i * lyrs.toNat + l < full.length := by
    have h3 : ((i : Int) + 1) * lyrs ≤ fsize * lyrs := mul_le_mul_of_nonneg_right (by omega) (by omega)
    rw [add_mul, one_mul] at h3
    zify
    rw [Int.toNat_of_nonneg (show (0:Int) ≤ lyrs by omega)]
    omega
  have e : (i : Int) * lyrs + l = ((i * lyrs.toNat + l : Nat) : Int) := by
    push_cast
    rw [Int.toNat_of_nonneg (show (0:Int) ≤ lyrs by omega)]
  rw [e, readAt_some_nat _ _ hb]
  have hi : i < fsize.toNat := by omega
  unfold layerOf
  rw [Int.toNat_natCast, List.getD_eq_getElem _ _ (by simpa using hi), List.getElem_map, List.getElem_range, List.getD_eq_getElem _ _ hb]

theorem layerOf_mem {full : List ℚ} {fsize lyrs : Int} (hl : 1 ≤ lyrs) (hlen : (full.length : Int) = fsize * lyrs) {l : Nat} (hll : (l : Int) < lyrs)
    {v : ℚ} (hv : v ∈ layerOf full fsize lyrs l) : v ∈ full := by
  unfold layerOf at hv
  obtain ⟨i, hi, rfl⟩ := List.mem_map.1 hv
  have hi := List.mem_range.1 hi
  have hb : i * lyrs.toNat + l < full.length := by
    have h3 : ((i : Int) + 1) * lyrs ≤ fsize * lyrs := mul_le_mul_of_nonneg_right (by omega) (by omega)
    rw [add_mul, one_mul] at h3
    zify
    rw [Int.toNat_of_nonneg (show (0:Int) ≤ lyrs by omega)]
    omega
  rw [List.getD_eq_getElem _ _ hb]
  exact List.getElem_mem hb

/-- What is written for each subset. -/
theorem subset_pay {fmt : Fmt} {d : Disk} {r : Raster} (hb : Built r) {groups : List (Int × Int)} {rs' : RasterS} {b : Bool}
    (e : buildSubSet ⟨r, []⟩ groups = .ok (rs', b)) (hne : rs'.subs ≠ []) (h2 : r.is2d = true → 1 < r.nLyrs)
    {p : Path} {dt core suf : Str} (hn : NameIn d.fs p dt core suf) (hsuf : IsAscSuffix suf ∨ IsTifSuffix suf)
    (hty : IsTifSuffix suf → SameType fmt) (dv : ℚ)
    (hh : ∀ k s, rs'.subs.get k = some s → CarriesHeader suf (s.getHeader r.hdr.xll r.hdr.yll r.hdr.rows r.hdr.cellsize r.noData))
    (hv : ∀ row col lyr v, 0 ≤ row → row < r.hdr.rows → 0 ≤ col → col < r.hdr.cols → 1 ≤ lyr → lyr ≤ r.nLyrs →
      r.getValue row col lyr = .ok v → CarriesValue fmt suf v) (hnv : CarriesValue fmt suf r.noData) :
    (rs'.subs.map (·.1)).Pairwise (· < ·) ∧ rs'.ras.validData = true ∧ 1 ≤ r.nLyrs ∧
    ∀ k, ∃ (H : Header) (F : List ℚ) (N : Int) (cs : Nat → Content), ∀ s, rs'.subs.get k = some s →
      subPayload rs'.ras k s true [] dv = .ok (some (H, some F, N, r.nLyrs)) ∧ 0 < N ∧ (F.length : Int) = N * r.nLyrs ∧
      N = H.rows * H.cols ∧
      H.rows = s.erow - s.srow + 1 ∧ H.cols = s.ecol - s.scol + 1 ∧ H.cellsize = r.hdr.cellsize ∧ H.noData = r.noData ∧
      (∀ lr lc, H.grid.center lr lc = r.hdr.grid.center (s.srow + lr) (s.scol + lc)) ∧
      (∀ l : Nat, (l : Int) < r.nLyrs → content fmt suf H (some (layerOf F N r.nLyrs l)) = .ok (some (cs l)) ∧
        (∀ d2 : Disk, NameIn d2.fs p dt core suf → d2.fs.kindOf (p ++ [layerCore (subsetCore k core) r.nLyrs l ++ '.' :: suf]) = some .file →
          d2.data (p ++ [layerCore (subsetCore k core) r.nLyrs l ++ '.' :: suf]) = some (cs l) →
          ReadsAs d2 (dt ++ layerCore (subsetCore k core) r.nLyrs l ++ '.' :: suf) H
            (fun row col => (layerOf F N r.nLyrs l).getD (row * H.cols + col).toNat 0))) ∧
      ∀ row col (l : Nat), s.srow ≤ row → row ≤ s.erow → s.scol ≤ col → col ≤ s.ecol → (l : Int) < r.nLyrs →
        (InSubset s row col → r.getValue row col ((l : Int) + 1) =
          .ok ((layerOf F N r.nLyrs l).getD ((row - s.srow) * H.cols + (col - s.scol)).toNat 0)) ∧
        (¬ InSubset s row col → (layerOf F N r.nLyrs l).getD ((row - s.srow) * H.cols + (col - s.scol)).toNat 0 = r.noData) := by
  obtain ⟨n0, hhdr⟩ := build_hdr e
  have hsorted : (rs'.subs.map (·.1)).Pairwise (· < ·) := by
    obtain ⟨-, -, -, -, -, -, -, ⟨ls, ps, hC, hok⟩ | hn⟩ := build_cases2 hb e
    · exact hok.sorted
    · exact absurd hn hne
  have hvalid : rs'.ras.validData = true := by
    obtain ⟨-, -, -, -, -, -, -, ⟨ls, ps, hC, hok⟩ | hn⟩ := build_cases2 hb e
    · exact Raster.Holds.valid hC.holds
    · exact absurd hn hne
  have hndr : rs'.ras.noData = r.noData := (build_cases2 hb e).2.2.1
  have hget : ∀ x ∈ rs'.subs, rs'.subs.get x.1 = some x.2 := fun x hx => (IMap.mem_iff_get _ hsorted _ _).1 hx
  have hL : 1 ≤ r.nLyrs := by
    obtain ⟨x, hx⟩ := List.exists_mem_of_ne_nil _ hne
    exact (Gfs.store_one hb groups e h2 true dv (hget x hx)).2.1
  refine ⟨hsorted, hvalid, hL, ?_⟩
  intro k
  cases hk : rs'.subs.get k with
  | none => exact ⟨r.hdr, [], 0, fun _ => .asc [], fun s hs => by cases hs⟩
  | some s =>
    obtain ⟨hu, -, D, s', p1, p2, p3, -⟩ := Gfs.store_one hb groups e h2 true dv hk
    obtain ⟨F, q1, q2, q3⟩ := C15_decompose_full hb groups e h2 k s hk dv
    have hDF : D = F := by
      rw [p1] at q1
      simp only [Out.ok.injEq, Option.some.injEq, Prod.mk.injEq] at q1
      exact q1.1
    subst hDF
    generalize hN : (s.erow - s.srow + 1) * (s.ecol - s.scol + 1) = N at q1 q2
    obtain ⟨c1, c2, c3⟩ := hh k s hk
    have c1' : 0 < s.erow - s.srow + 1 := c1
    have c2' : 0 < s.ecol - s.scol + 1 := c2
    have hNp : 0 < N := by rw [← hN]; exact mul_pos c1' c2'
    let H : Header := { s.getHeader r.hdr.xll r.hdr.yll r.hdr.rows r.hdr.cellsize r.noData with layers := r.nLyrs, cellsnum := N }
    have hpl : subPayload rs'.ras k s true [] dv = .ok (some (H, some D, N, r.nLyrs)) := by
      unfold subPayload
      rw [hu, q1]
      simp only [Bool.not_true, Bool.false_eq_true, if_false, Out.ok_bind]
      rw [if_neg (by omega), Int.mul_tdiv_cancel _ (by omega), Out.pure_eq, hhdr, hndr]
    have hmem : ∀ v ∈ D, CarriesValue fmt suf v := by
      intro v hvm
      rcases p3 v hvm with rfl | ⟨row, col, lyr, h1, h2, h3, h4, h5, h6, h7⟩
      · exact hnv
      · exact hv row col lyr v h1 h2 h3 h4 h5 h6 h7
    have hlay : ∀ l : Nat, ((layerOf D N r.nLyrs l).length : Int) = H.rows * H.cols := by
      intro l
      unfold layerOf
      rw [List.length_map, List.length_range, Int.toNat_of_nonneg hNp.le]
      exact hN.symm
    have hcont : ∀ l : Nat, ∃ c, (l : Int) < r.nLyrs → content fmt suf H (some (layerOf D N r.nLyrs l)) = .ok (some c) := by
      intro l
      by_cases hl : (l : Int) < r.nLyrs
      · obtain ⟨c, hc, -⟩ := reads_content (fmt := fmt) hn hsuf (hlay l) ⟨c1, c2, c3⟩
          (fun v hv => hmem v (layerOf_mem hL q2 hl hv)) hnv hty
        exact ⟨c, fun _ => hc⟩
      · exact ⟨.asc [], fun h => absurd h hl⟩
    choose cs hcs using hcont
    refine ⟨H, D, N, cs, ?_⟩
    intro s2 hs2
    injection hs2 with hs2
    subst hs2
    obtain ⟨g1, g2, g3, g4, g5⟩ : (∀ lr lc, H.grid.center lr lc = r.hdr.grid.center (s.srow + lr) (s.scol + lc)) ∧ H.rows = s.erow - s.srow + 1 ∧
        H.cols = s.ecol - s.scol + 1 ∧ H.cellsize = r.hdr.cellsize ∧ H.noData = r.noData :=
      ⟨fun lr lc => (C14_header s r.hdr r.noData lr lc).1, rfl, rfl, rfl, rfl⟩
    refine ⟨hpl, hNp, q2, hN.symm, g2, g3, g4, g5, g1, ?_, ?_⟩
    · intro l hl
      refine ⟨hcs l hl, ?_⟩
      intro d2 hn2 hk2 hd2
      obtain ⟨c, hc, hread⟩ := reads_content (fmt := fmt) (nameIn_core hn2 (layerCore_slash (subsetCore_slash hn.core k) r.nLyrs l)) hsuf (hlay l)
        ⟨c1, c2, c3⟩ (fun v hv => hmem v (layerOf_mem hL q2 hl hv)) hnv hty
      rw [hcs l hl] at hc
      simp only [Out.ok.injEq, Option.some.injEq] at hc
      subst hc
      exact hread hk2 hd2
    · intro row col l r0 r1 k0 k1 hl
      obtain ⟨t1, t2⟩ := q3 row col l r0 r1 k0 k1 (by omega) hl
      have hidx := idx_range (rows := s.erow - s.srow + 1) (cols := s.ecol - s.scol + 1) (i := row - s.srow) (j := col - s.scol)
        (by omega) (by omega) (by omega) (by omega)
      rw [hN] at hidx
      rw [layerOf_get hL q2 hl hidx.1 hidx.2] at t1 t2
      rw [g3]
      refine ⟨fun hin => (t1 hin).symm, fun hin => ?_⟩
      have := t2 hin
      injection this

/-- C75: writing the subsets of a raster to files. In a writable directory and with values and headers the format can carry, the call
returns true; each layer of each subset is in a file of its own that reads back as the rectangle of the subset at its
place in the grid of the raster, with the values of the raster at the cells of the subset and NoData at the other
cells; nothing else on the disk changes. -/
theorem C75_subsets_partial {env : Env} {fmt : Fmt} {d : Disk} {r : Raster} (hb : Built r) {groups : List (Int × Int)} {rs' : RasterS} {b : Bool}
    (e : buildSubSet ⟨r, []⟩ groups = .ok (rs', b)) (hne : rs'.subs ≠ []) (h2 : r.is2d = true → 1 < r.nLyrs)
    {p : Path} {dt core suf : Str} (hn : NameIn d.fs p dt core suf) (hsuf : IsAscSuffix suf ∨ IsTifSuffix suf)
    (hty : IsTifSuffix suf → SameType fmt) (hnd : d.fs.kindOf (p ++ [core ++ '.' :: suf]) ≠ some .dir) {dv : ℚ}
    (hdir : ∀ k s, rs'.subs.get k = some s → d.fs.kindOf (p ++ [subsetCore k core ++ '.' :: suf]) ≠ some .dir)
    (hw : ∀ k s (l : Nat), rs'.subs.get k = some s → (l : Int) < r.nLyrs →
      Writable env d.fs (p ++ [layerCore (subsetCore k core) r.nLyrs l ++ '.' :: suf]))
    (hh : ∀ k s, rs'.subs.get k = some s → CarriesHeader suf (s.getHeader r.hdr.xll r.hdr.yll r.hdr.rows r.hdr.cellsize r.noData))
    (hv : ∀ row col lyr v, 0 ≤ row → row < r.hdr.rows → 0 ≤ col → col < r.hdr.cols → 1 ≤ lyr → lyr ≤ r.nLyrs →
      r.getValue row col lyr = .ok v → CarriesValue fmt suf v) (hnv : CarriesValue fmt suf r.noData) :
    ∃ d', outputSubsetToFile env fmt d rs' true false (dt ++ core ++ '.' :: suf) [] dv = .ok (true, d') ∧
      Rewritten d d' (fun q => ∃ k s, ∃ l : Nat, rs'.subs.get k = some s ∧ (l : Int) < r.nLyrs ∧
        q = p ++ [layerCore (subsetCore k core) r.nLyrs l ++ '.' :: suf]) ∧
      ∀ k s (l : Nat), rs'.subs.get k = some s → (l : Int) < r.nLyrs → ∃ h v,
        ReadsAs d' (dt ++ layerCore (subsetCore k core) r.nLyrs l ++ '.' :: suf) h v ∧
        h.rows = s.erow - s.srow + 1 ∧ h.cols = s.ecol - s.scol + 1 ∧ h.cellsize = r.hdr.cellsize ∧ h.noData = r.noData ∧
        (∀ lr lc, h.grid.center lr lc = r.hdr.grid.center (s.srow + lr) (s.scol + lc)) ∧
        ∀ row col, s.srow ≤ row → row ≤ s.erow → s.scol ≤ col → col ≤ s.ecol →
          (InSubset s row col → r.getValue row col ((l : Int) + 1) = .ok (v (row - s.srow) (col - s.scol))) ∧
          (¬ InSubset s row col → v (row - s.srow) (col - s.scol) = r.noData) := by
  obtain ⟨hsorted, hvalid, hL, pay⟩ := subset_pay hb e hne h2 hn hsuf hty dv hh hv hnv
  have hget : ∀ x ∈ rs'.subs, rs'.subs.get x.1 = some x.2 := fun x hx => (IMap.mem_iff_get _ hsorted _ _).1 hx
  choose H F N cs hP using pay
  have hnodup : (rs'.subs.map (·.1)).Nodup := hsorted.imp (fun h => ne_of_lt h)
  obtain ⟨d', o1, o2⟩ := sub_loop (env := env) (fmt := fmt) (r := rs'.ras) (oo := true) (recls := []) (dv := dv) hsuf hL H F N cs rs'.subs d hn hnd hnodup
    (fun x hx => by
      have hk := hget x hx
      obtain ⟨a1, a2, a3, -, -, -, -, -, -, a4, -⟩ := hP x.1 x.2 hk
      exact ⟨a1, a2, a3, hdir _ _ hk, fun l hl => ⟨hw _ _ l hk hl, (a4 l hl).1⟩⟩)
  have hpaths : ∀ q, q ∈ (rs'.subs.flatMap (fun e => (List.range r.nLyrs.toNat).map
      (fun l => (p ++ [layerCore (subsetCore e.1 core) r.nLyrs l ++ '.' :: suf], cs e.1 l)))).map (·.1) →
      ∃ k s, ∃ l : Nat, rs'.subs.get k = some s ∧ (l : Int) < r.nLyrs ∧ q = p ++ [layerCore (subsetCore k core) r.nLyrs l ++ '.' :: suf] := by
    intro q hq
    obtain ⟨x, hx, rfl⟩ := List.mem_map.1 hq
    obtain ⟨m, hm, hx⟩ := List.mem_flatMap.1 hx
    obtain ⟨l, hl, rfl⟩ := List.mem_map.1 hx
    have := List.mem_range.1 hl
    exact ⟨m.1, m.2, l, hget m hm, by omega, rfl⟩
  refine ⟨d', ?_, ?_, ?_⟩
  · unfold outputSubsetToFile
    rw [hvalid]
    simp only [Bool.not_true, Bool.false_eq_true, if_false]
    rw [if_neg hne]
    exact o1
  · refine o2.rewritten (fun q => ⟨hpaths q, ?_⟩)
    rintro ⟨k, s, l, hk, hl, rfl⟩
    exact List.mem_map.2 ⟨_, List.mem_flatMap.2 ⟨(k, s), (IMap.mem_iff_get _ hsorted _ _).2 hk, List.mem_map.2 ⟨l, List.mem_range.2 (by omega), rfl⟩⟩, rfl⟩
  · intro k s l hk hl
    obtain ⟨a1, a2, a3, a4, a5, a6, a7, a8, a9, a10, a11⟩ := hP k s hk
    have hin : (p ++ [layerCore (subsetCore k core) r.nLyrs l ++ '.' :: suf], cs k l) ∈ rs'.subs.flatMap (fun e => (List.range r.nLyrs.toNat).map
        (fun l => (p ++ [layerCore (subsetCore e.1 core) r.nLyrs l ++ '.' :: suf], cs e.1 l))) :=
      List.mem_flatMap.2 ⟨(k, s), (IMap.mem_iff_get _ hsorted _ _).2 hk, List.mem_map.2 ⟨l, List.mem_range.2 (by omega), rfl⟩⟩
    have hdirs : ∀ x ∈ rs'.subs.flatMap (fun e => (List.range r.nLyrs.toNat).map
        (fun l => (p ++ [layerCore (subsetCore e.1 core) r.nLyrs l ++ '.' :: suf], cs e.1 l))), d.fs.kindOf x.1 ≠ some .dir := by
      intro x hx
      obtain ⟨k2, s2, l2, b1, b2, b3⟩ := hpaths x.1 (List.mem_map.2 ⟨x, hx, rfl⟩)
      rw [b3]
      exact (hw k2 s2 l2 b1 b2).nodir
    refine ⟨H k, fun row col => (layerOf (F k) (N k) r.nLyrs l).getD (row * (H k).cols + col).toNat 0, ?_, a5, a6, a7, a8, a9, ?_⟩
    · exact (a10 l hl).2 d' (o2.nameIn hdirs hn) (by rw [o2.kind, if_pos (List.mem_map.2 ⟨_, hin, rfl⟩)]) (o2.new _ hin)
    · intro row col b1 b2 b3 b4
      exact a11 row col l b1 b2 b3 b4 hl

/-- The combined output of subsets, for any array the combination delivers. -/
theorem comb_files {env : Env} {fmt : Fmt} {d : Disk} {rs : RasterS} {oo : Bool} {recls : IMap (List ℚ)} {dv : ℚ} {F : List ℚ} {N L : Int}
    (hvalid : rs.ras.validData = true) (hne : rs.subs ≠ []) (hpc : prepareComb rs oo true recls dv = .ok (some (some F, N * L, L)))
    (hL : 1 ≤ L) (hlen : (F.length : Int) = N * L) (hN : N = rs.ras.hdr.rows * rs.ras.hdr.cols)
    {p : Path} {dt core suf : Str} (hn : NameIn d.fs p dt core suf) (hsuf : IsAscSuffix suf ∨ IsTifSuffix suf)
    (hty : IsTifSuffix suf → SameType fmt) (hnd : d.fs.kindOf (p ++ [core ++ '.' :: suf]) ≠ some .dir)
    (hnd0 : d.fs.kindOf (p ++ [subsetCore 0 core ++ '.' :: suf]) ≠ some .dir)
    (hw : ∀ l : Nat, (l : Int) < L → Writable env d.fs (p ++ [layerCore (subsetCore 0 core) L l ++ '.' :: suf]))
    (hh : CarriesHeader suf rs.ras.hdr) (hv : ∀ v ∈ F, CarriesValue fmt suf v) (hnv : CarriesValue fmt suf rs.ras.hdr.noData) :
    ∃ d', outputSubsetToFile env fmt d rs oo true (dt ++ core ++ '.' :: suf) recls dv = .ok (true, d') ∧
      Rewritten d d' (fun q => ∃ l : Nat, (l : Int) < L ∧ q = p ++ [layerCore (subsetCore 0 core) L l ++ '.' :: suf]) ∧
      ∀ l : Nat, (l : Int) < L → ReadsAs d' (dt ++ layerCore (subsetCore 0 core) L l ++ '.' :: suf) rs.ras.hdr
        (fun row col => (layerOf F N L l).getD (row * rs.ras.hdr.cols + col).toNat 0) := by
  obtain ⟨c1, c2, c3⟩ := hh
  have hNp : 0 < N := by rw [hN]; exact mul_pos c1 c2
  let H : Header := { rs.ras.hdr with layers := L, cellsnum := N }
  have hlay : ∀ l : Nat, ((layerOf F N L l).length : Int) = H.rows * H.cols := by
    intro l
    unfold layerOf
    rw [List.length_map, List.length_range, Int.toNat_of_nonneg hNp.le]
    exact hN
  have hcont : ∀ l : Nat, ∃ c, (l : Int) < L → content fmt suf H (some (layerOf F N L l)) = .ok (some c) := by
    intro l
    by_cases hl : (l : Int) < L
    · obtain ⟨c, hc, -⟩ := reads_content (fmt := fmt) hn hsuf (hlay l) ⟨c1, c2, c3⟩ (fun v hv' => hv v (layerOf_mem hL hlen hl hv')) hnv hty
      exact ⟨c, fun _ => hc⟩
    · exact ⟨.asc [], fun h => absurd h hl⟩
  choose cs hcs using hcont
  obtain ⟨d', o1, o2⟩ := fullsize_ok (env := env) (nameIn_core hn (subsetCore_slash hn.core 0)) hsuf hnd0 hNp hL hlen cs
    (fun l hl => ⟨hw l hl, hcs l hl⟩)
  have hpaths : ∀ q, q ∈ ((List.range L.toNat).map (fun l => (p ++ [layerCore (subsetCore 0 core) L l ++ '.' :: suf], cs l))).map (·.1) →
      ∃ l : Nat, (l : Int) < L ∧ q = p ++ [layerCore (subsetCore 0 core) L l ++ '.' :: suf] := by
    intro q hq
    obtain ⟨x, hx, rfl⟩ := List.mem_map.1 hq
    obtain ⟨l, hl, rfl⟩ := List.mem_map.1 hx
    have := List.mem_range.1 hl
    exact ⟨l, by omega, rfl⟩
  refine ⟨d', ?_, ?_, ?_⟩
  · unfold outputSubsetToFile
    rw [hvalid]
    simp only [Bool.not_true, Bool.false_eq_true, if_false, if_true]
    rw [if_neg hne, hpc, Out.ok_bind]
    dsimp only
    rw [if_neg (by omega), Int.mul_tdiv_cancel _ (by omega),
      (C53_rename_int d.fs hn.wf p dt core suf hn.dir hn.core hn.suf.1 hn.suf.2.1 hn.suf.2.2 hnd _ '_').2]
    exact o1
  · refine o2.rewritten (fun q => ⟨hpaths q, ?_⟩)
    rintro ⟨l, hl, rfl⟩
    exact List.mem_map.2 ⟨_, List.mem_map.2 ⟨l, List.mem_range.2 (by omega), rfl⟩, rfl⟩
  · intro l hl
    have hin : (p ++ [layerCore (subsetCore 0 core) L l ++ '.' :: suf], cs l) ∈
        (List.range L.toNat).map (fun l => (p ++ [layerCore (subsetCore 0 core) L l ++ '.' :: suf], cs l)) :=
      List.mem_map.2 ⟨l, List.mem_range.2 (by omega), rfl⟩
    have hdirs : ∀ x ∈ (List.range L.toNat).map (fun l => (p ++ [layerCore (subsetCore 0 core) L l ++ '.' :: suf], cs l)),
        d.fs.kindOf x.1 ≠ some .dir := by
      intro x hx
      obtain ⟨l2, b2, b3⟩ := hpaths x.1 (List.mem_map.2 ⟨x, hx, rfl⟩)
      rw [b3]
      exact (hw l2 b2).nodir
    obtain ⟨c, hc, hread⟩ := reads_content (fmt := fmt) (nameIn_core (o2.nameIn hdirs hn) (layerCore_slash (subsetCore_slash hn.core 0) L l)) hsuf (hlay l)
      ⟨c1, c2, c3⟩ (fun v hv' => hv v (layerOf_mem hL hlen hl hv')) hnv hty
    rw [hcs l hl] at hc
    simp only [Out.ok.injEq, Option.some.injEq] at hc
    subst hc
    exact readsAs_congr (hread (by rw [o2.kind, if_pos (List.mem_map.2 ⟨_, hin, rfl⟩)]) (o2.new _ hin)) rfl rfl rfl rfl rfl rfl (fun _ _ _ _ _ _ => rfl)

theorem readAt_ok_lt {τ : Type} {F : List τ} {i : Nat} {v : τ} (h : readAt (some F) i = .ok v) : F[i]? = some v := by
  by_cases hi : i < F.length
  · rw [readAt_some_nat _ i hi] at h
    injection h with h
    rw [List.getElem?_eq_getElem hi, h]
  · rw [readAt_oob _ _ (.inr (by omega))] at h
    cases h

/-- Everything in interleaved data is at a cell and layer. -/
theorem mem_cells {F : List ℚ} {rows cols L : Int} (hr : 0 < rows) (hc : 0 < cols) (hL : 1 ≤ L) (hlen : (F.length : Int) = rows * cols * L)
    {v : ℚ} (hv : v ∈ F) : ∃ row col l, 0 ≤ row ∧ row < rows ∧ 0 ≤ col ∧ col < cols ∧ 0 ≤ l ∧ l < L ∧
      readAt (some F) ((row * cols + col) * L + l) = .ok v := by
  obtain ⟨i, hi, rfl⟩ := List.getElem_of_mem hv
  have hiN : (i : Int) < rows * cols * L := by rw [← hlen]; exact_mod_cast hi
  have a1 : (i : Int) / L < rows * cols := Int.ediv_lt_of_lt_mul (by omega) hiN
  have a0 : 0 ≤ (i : Int) / L := Int.ediv_nonneg (by omega) (by omega)
  have b1 : (i : Int) / L / cols < rows := Int.ediv_lt_of_lt_mul hc a1
  have b0 : 0 ≤ (i : Int) / L / cols := Int.ediv_nonneg a0 hc.le
  refine ⟨(i : Int) / L / cols, (i : Int) / L % cols, (i : Int) % L, b0, b1, Int.emod_nonneg _ (by omega), Int.emod_lt_of_pos _ hc,
    Int.emod_nonneg _ (by omega), Int.emod_lt_of_pos _ (by omega), ?_⟩
  rw [Int.ediv_mul_add_emod, Int.ediv_mul_add_emod, readAt_some_nat _ i hi]

open Classical in
/-- The combined array of a reclassification by id, with the value at each cell. -/
theorem reclass_array {fmt : Fmt} {r : Raster} (hb : Built r) {groups : List (Int × Int)} {rs' : RasterS} {b : Bool}
    (e : buildSubSet ⟨r, []⟩ groups = .ok (rs', b)) (hne : rs'.subs ≠ []) {recls : List (Int × List ℚ)} {m : Int} (ht : TableOf recls m) {suf : Str}
    (hh : CarriesHeader suf r.hdr) {dv : ℚ} (hv : ∀ k l, CarriesValue fmt suf (tableValue recls k l (fillValue r dv)))
    (hnv : CarriesValue fmt suf r.noData) :
    rs'.ras.validData = true ∧ ∃ F, prepareComb rs' false true recls dv = .ok (some (some F, r.hdr.rows * r.hdr.cols * m, m)) ∧
      (F.length : Int) = r.hdr.rows * r.hdr.cols * m ∧ (∀ v ∈ F, CarriesValue fmt suf v) ∧
      ∀ row col (l : Int), 0 ≤ row → row < r.hdr.rows → 0 ≤ col → col < r.hdr.cols → 0 ≤ l → l < m →
      (∀ x, ValidCell r row col x → readAt (some F) ((row * r.hdr.cols + col) * m + l) =
        .ok (tableValue recls (subsetId groups x) l (fillValue r dv))) ∧
      ((¬ ∃ x, ValidCell r row col x) → readAt (some F) ((row * r.hdr.cols + col) * m + l) = .ok r.noData) := by
  obtain ⟨c1, c2, c3⟩ := hh
  obtain ⟨hrw, hcl, hndr, -, -, -, -, ⟨ls, ps, hC, hok⟩ | hnil⟩ := build_cases2 hb e
  swap
  · exact absurd hnil hne
  have hm := ht.2.1
  obtain ⟨F, f1, f2, f3, f4⟩ := C73_combine_id_partial hb groups e rs'.subs hne rfl (fun k s s' h1 h2 => by
      rw [h1] at h2; injection h2 with h2; subst h2; exact ⟨rfl, rfl, rfl, rfl, rfl, rfl, rfl, rfl⟩) recls m m ht hm
    (.inr ⟨fun k s hk _ => (hok.some k s hk).2.2.1, rfl⟩) true dv
  simp only [if_true] at f1 f2 f3 f4
  -- the value at each cell
  have hcell : ∀ row col (l : Int), 0 ≤ row → row < r.hdr.rows → 0 ≤ col → col < r.hdr.cols → 0 ≤ l → l < m →
      (∀ x, ValidCell r row col x → readAt (some F) ((row * r.hdr.cols + col) * m + l) =
        .ok (tableValue recls (subsetId groups x) l (fillValue r dv))) ∧
      ((¬ ∃ x, ValidCell r row col x) → readAt (some F) ((row * r.hdr.cols + col) * m + l) = .ok r.noData) := by
    intro row col l a1 a2 a3 a4 a5 a6
    constructor
    · intro x hx
      obtain ⟨⟨s, hk, hin⟩, -⟩ := C13_partition hb groups e row col x hx
      obtain ⟨ho, hfr⟩ := hok.some _ s hk
      obtain ⟨i, hi, hp⟩ := (ho.in_iff row col).1 hin
      obtain ⟨j, hj, hij⟩ := List.mem_iff_getElem.1 hi
      have t1 : readAt s.localPos j = .ok (row - s.srow, col - s.scol) := by
        rw [ho.lpos, readAt_some_nat _ j (by rw [List.length_map]; exact hj), List.getElem_map, hij, hp]
      have t2 : readAt s.glob j = .ok (i : Int) := by
        rw [ho.glob, readAt_some_nat _ j (by rw [List.length_map]; exact hj), List.getElem_map, hij]
      have := f3 _ s j l _ _ _ hk t1 t2 a5 a6
      rw [hfr.1, if_neg (by simp), show s.srow + (row - s.srow) = row by ring, show s.scol + (col - s.scol) = col by ring] at this
      exact this
    · intro hx
      refine f4 trivial row col l a1 a2 a3 a4 a5 a6 (fun k s hk hin => hx ?_)
      obtain ⟨x, hx, -⟩ := (C13_only hb groups e k s hk).1 row col hin
      exact ⟨x, hx⟩
  have hmem : ∀ v ∈ F, CarriesValue fmt suf v := by
    intro v hvF
    obtain ⟨row, col, l, a1, a2, a3, a4, a5, a6, a7⟩ := mem_cells c1 c2 hm f2 hvF
    by_cases hx : ∃ x, ValidCell r row col x
    · obtain ⟨x, hx⟩ := hx
      rw [(hcell row col l a1 a2 a3 a4 a5 a6).1 x hx] at a7
      injection a7 with a7
      rw [← a7]; exact hv _ _
    · rw [(hcell row col l a1 a2 a3 a4 a5 a6).2 hx] at a7
      injection a7 with a7
      rw [← a7]; exact hnv
  exact ⟨Raster.Holds.valid hC.holds, F, f1, f2, hmem, hcell⟩

open Classical in
/-- C75, reclassification to files: the subsets of a raster are combined with a table of `m` values per subset id. In a writable
directory and with values the format can carry, the call returns true; the `m` files `0_<name>[_layer]` read back as rasters on the
grid of the raster, holding at each valid cell the table's value for the subset of the cell (the default value if the table has no
entry) and NoData at the other cells; nothing else on the disk changes. -/
theorem C75_reclass_partial {env : Env} {fmt : Fmt} {d : Disk} {r : Raster} (hb : Built r) {groups : List (Int × Int)} {rs' : RasterS} {b : Bool}
    (e : buildSubSet ⟨r, []⟩ groups = .ok (rs', b)) (hne : rs'.subs ≠ []) {recls : List (Int × List ℚ)} {m : Int} (ht : TableOf recls m)
    {p : Path} {dt core suf : Str} (hn : NameIn d.fs p dt core suf) (hsuf : IsAscSuffix suf ∨ IsTifSuffix suf)
    (hty : IsTifSuffix suf → SameType fmt) (hnd : d.fs.kindOf (p ++ [core ++ '.' :: suf]) ≠ some .dir)
    (hnd0 : d.fs.kindOf (p ++ [subsetCore 0 core ++ '.' :: suf]) ≠ some .dir)
    (hw : ∀ l : Nat, (l : Int) < m → Writable env d.fs (p ++ [layerCore (subsetCore 0 core) m l ++ '.' :: suf]))
    (hh : CarriesHeader suf r.hdr) {dv : ℚ} (hv : ∀ k l, CarriesValue fmt suf (tableValue recls k l (fillValue r dv)))
    (hnv : CarriesValue fmt suf r.noData) :
    ∃ d', outputSubsetToFile env fmt d rs' false true (dt ++ core ++ '.' :: suf) recls dv = .ok (true, d') ∧
      Rewritten d d' (fun q => ∃ l : Nat, (l : Int) < m ∧ q = p ++ [layerCore (subsetCore 0 core) m l ++ '.' :: suf]) ∧
      ∀ l : Nat, (l : Int) < m → ∃ v, ReadsAs d' (dt ++ layerCore (subsetCore 0 core) m l ++ '.' :: suf) r.hdr v ∧
        ∀ row col, 0 ≤ row → row < r.hdr.rows → 0 ≤ col → col < r.hdr.cols →
          (∀ x, ValidCell r row col x → v row col = tableValue recls (subsetId groups x) l (fillValue r dv)) ∧
          ((¬ ∃ x, ValidCell r row col x) → v row col = r.noData) := by
  obtain ⟨n0, hhdr⟩ := build_hdr e
  have hm := ht.2.1
  obtain ⟨hvalid, F, f1, f2, hmem, hcell⟩ := reclass_array (fmt := fmt) hb e hne ht hh hv hnv
  obtain ⟨c1, c2, c3⟩ := hh
  have hnd2 : r.hdr.noData = r.noData := hb.hdrOk.nd
  obtain ⟨d', o1, o2, o3⟩ := comb_files (env := env) (fmt := fmt) (N := r.hdr.rows * r.hdr.cols) hvalid hne f1 hm f2 (by rw [hhdr]) hn hsuf hty hnd hnd0 hw
    (by rw [hhdr]; exact ⟨c1, c2, c3⟩) hmem (by rw [hhdr]; show CarriesValue fmt suf r.hdr.noData; rw [hnd2]; exact hnv)
  refine ⟨d', o1, o2, ?_⟩
  intro l hl
  refine ⟨fun row col => (layerOf F (r.hdr.rows * r.hdr.cols) m l).getD (row * r.hdr.cols + col).toNat 0, ?_, ?_⟩
  · have := o3 l hl
    rw [hhdr] at this
    exact readsAs_congr this rfl rfl rfl rfl rfl rfl (fun _ _ _ _ _ _ => rfl)
  · intro row col a1 a2 a3 a4
    have hidx := idx_range a1 a2 a3 a4
    have hg := layerOf_get hm f2 hl hidx.1 hidx.2
    obtain ⟨u1, u2⟩ := hcell row col l a1 a2 a3 a4 (by omega) hl
    rw [hg] at u1 u2
    exact ⟨fun x hx => by have := u1 x hx; injection this, fun hx => by have := u2 hx; injection this⟩

end Disk
end CCGL
