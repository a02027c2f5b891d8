import Verif.Lemmas.AppGfsDec
/-!
# Lemmas about jobs that mask a raster with a mask that has subsets, inputs in GridFS
-/
namespace CCGL
namespace App
open Fs Disk Main Raster Gfs Disk.Spec App.Spec

/-- After `BuildSubSet` a cell has the value it had or NoData. -/
theorem build_value {r : Raster} (hb : CCGL.Spec.Built r) {groups : IMap Int} {rs' b} (e : buildSubSet ⟨r, []⟩ groups = .ok (rs', b)) (row col lyr : Int) :
    rs'.ras.getValue row col lyr = r.getValue row col lyr ∨ rs'.ras.getValue row col lyr = .ok r.noData := by
  have hrun : ∀ r0 : Raster, (buildLoop r0 groups (List.range r0.nCells.toNat) [] >>= fun m =>
      m.mapM (fun (e : Int × (Subset × List Int)) => (do
        let s ← finishSubset r0 e.2
        return (e.1, s) : Out (Int × Subset))) >>= fun subs => .ok ((⟨r0, subs⟩, true) : RasterS × Bool)) = .ok (rs', b) → rs'.ras = r0 := by
    intro r0 h
    obtain ⟨x, -, h⟩ := Out.bind_ok h
    obtain ⟨y, -, h⟩ := Out.bind_ok h
    injection h with h
    injection h with h _
    rw [← h]
  rcases hb.inv with ⟨ls, loc, hi⟩ | ⟨hd, hE⟩
  · cases hi with
    | full h =>
      have h' := h.setCalc true
      obtain ⟨r', ec, hnd, -, hval⟩ := h'.calc_value
      have hs : r.setCalcPositions = .ok (r', true) := by
        unfold setCalcPositions
        simp only [h.holds.valid, h.pd, h.pi, Bool.not_true, Bool.false_eq_true, if_false, Option.isSome_none, Bool.or_self,
          Bool.and_false]
        unfold calcNoMask
        simp only [if_true, Option.isNone_none, Bool.true_or]
        rw [show ({ r with calcPos := true, posData := none, posIdx := none } : Raster) = { r with calcPos := true } by
          have h1 := h.pd
          have h2 := h.pi
          cases r
          simp only at h1 h2
          subst h1 h2
          rfl]
        rw [ec]
        rfl
      have hras : rs'.ras = r' := by
        apply hrun
        rw [← e]
        unfold buildSubSet
        simp only [h.holds.valid, h.pd, Option.isNone_none, Bool.true_or, Bool.not_true, Bool.false_eq_true, if_false, if_true,
          hs, Out.ok_bind]
        simp only [ne_eq, not_true_eq_false, if_false]
        rfl
      have hinv : Inv r ls (fullLoc r.hdr) := .full h
      have hv : r'.getValue row col lyr = .ok
          (if 0 ≤ row ∧ row < r.hdr.rows ∧ 0 ≤ col ∧ col < r.hdr.cols ∧ 1 ≤ lyr ∧ lyr ≤ r.nLyrs ∧
            floatEqual (cellAt ls (row * r.hdr.cols + col).toNat 0) r.noData = false
          then cellAt ls (row * r.hdr.cols + col).toNat (lyr - 1).toNat else r.noData) := hval row col lyr
      rw [hras, hv]
      split_ifs with hc
      · left
        have := hinv.val row col lyr ⟨hc.2.2.2.2.1, hc.2.2.2.2.2.1⟩
        unfold fullLoc at this
        rw [if_pos ⟨hc.1, hc.2.1, hc.2.2.1, hc.2.2.2.1⟩] at this
        exact this.symm
      · right; rfl
    | comp h =>
      left
      have hras : rs'.ras = r := by
        apply hrun
        rw [← e]
        unfold buildSubSet
        simp only [h.holds.valid, h.pd, h.pi, Option.isNone_some, Bool.or_self, Bool.not_true, Bool.false_eq_true, if_false,
          Out.ok_bind]
        simp only [ne_eq, not_true_eq_false, if_false]
        rfl
      rw [hras]
    | empty h h1 =>
      left
      unfold buildSubSet at e
      simp [Raster.validData, h1, h.data1 h1] at e
      rw [← e.1]
  · left
    unfold buildSubSet at e
    simp [hE.valid2 hd, hE.pd, hE.pi, Raster.setCalcPositions, hE.calcOn] at e
    rw [← e.1]

/-- Masking a grid with a mask that has subsets. -/
theorem grid_masked_groups {hM hR : Header} {vM vR : Int → Int → ℚ} {m : RasterS} {r : Raster} {dv : ℚ} (hm : CutMask m hM vM)
    (hrd : CCGL.Spec.ReadGrid r) (hu : r.useMaskExt = true) (hc : r.calcPos = false) (h2 : r.is2d = false) (hl : r.nLyrs = 1)
    (hgrid : r.hdr.grid = hR.grid) (hn : r.noData = hR.noData) (hd : r.dflt = checkDefault dv hR.noData)
    (hv0 : ∀ i j, hR.grid.CellInside i j → r.getValue i j 1 = .ok (vR i j)) (hg : CCGL.Spec.CommonGrid hR hM)
    (hco : CCGL.Spec.CoordsPresent hM) (hov : Overlaps hM vM hR) :
    ∃ res subs', maskRasterS r [] m = .ok (res, subs') ∧ res.code = 2 ∧ res.mask = m.ras ∧
      CCGL.Spec.Built res.ras ∧ 0 < res.ras.nCells ∧ res.ras.is2d = false ∧ res.ras.nLyrs = 1 ∧ res.ras.dflt = checkDefault dv hR.noData ∧
      res.ras.hdr.grid = hM.grid ∧ res.ras.noData = hR.noData ∧
      (∀ row col, hM.grid.CellInside row col → res.ras.getValue row col 1 = .ok (maskedVal hM vM hR vR dv row col)) ∧
      Bare subs' ∧ (∀ r' : Raster, CCGL.Spec.Built r' → r'.posData = res.ras.posData → ∃ ls ps G, Cut ⟨r', subs'⟩ ls ps G) ∧
      ∀ k row col, having (byValue hM vM) (fun row col => floatEqual (maskedVal hM vM hR vR dv row col) hR.noData = false) k row col ↔
        ∃ s, subs'.get k = some s ∧ CCGL.Spec.InSubset s row col := by
  obtain ⟨res, w0, em, hcode, -, hsh, hval⟩ := grid_masked (dv := dv) hm.isMask hrd hu hc h2 hl hgrid hn hd hv0 hg hov
  have hb := hsh.built
  have hnc := hsh.cells
  have h2d := hsh.one
  have hly := hsh.lyrs
  have hgr : res.ras.hdr.grid = hM.grid := hsh.grid
  have hnd : res.ras.noData = hR.noData := hsh.nodata
  have hgr' := hgrid
  unfold Header.grid at hgr'
  injection hgr' with g1 g2 g3 g4 g5
  have hMg' := hm.grid
  unfold Header.grid at hMg'
  injection hMg' with m1 m2 m3 m4 m5
  have hcg : CCGL.Spec.CommonGrid r.hdr m.ras.hdr := by
    obtain ⟨a1, a2, a, b, a3, a4⟩ := hg
    refine ⟨?_, ?_, a, b, ?_, ?_⟩
    · rw [g3]; exact a1
    · rw [g3, m3]; exact a2
    · rw [g3, g4, m4]; exact a3
    · rw [g3, g5, m5]; exact a4
  obtain ⟨lsM, psM, GM, hcut⟩ := hm.cut
  have hcoM : CCGL.Spec.CoordsPresent m.ras.hdr := by
    unfold CCGL.Spec.CoordsPresent at hco ⊢
    rw [m1, m2, m3, m4, m5]
    exact hco
  have hov' : ∃ x y, CCGL.Spec.ValidAt m.ras x y ∧ CCGL.Spec.Covers r x y := by
    obtain ⟨row, col, i, j, hq, q3, q4⟩ := hov
    obtain ⟨y1, y2⟩ := (hm.valid row col _).2 ⟨hq, rfl⟩
    refine ⟨(hM.grid.center row col).1, (hM.grid.center row col).2, ⟨vM row col, row, col, by rw [hm.grid]; exact hq.1, by rw [hm.grid],
      y1, y2⟩, i, j, by rw [hgrid]; exact q3, ?_⟩
    rw [hgrid, q4]
  have hat : ∀ k s, m.subs.get k = some s → CCGL.Spec.SubsetAt m.ras s
      ((GM k).map (fun i => m.ras.hdr.grid.center (posAt psM i).1 (posAt psM i).2)) :=
    fun k s hk => Raster.SubOk.subsetAt hcut.comp (hcut.part.some k s hk) (fun i hi => hcut.part.lt hi)
  obtain ⟨res2, subs', es, -, hfol⟩ := C74_same_partial (own := []) hrd hm.built hm.clean hcg (by rw [hcut.comp.pd]; rfl) hcoM hm.ne
    hcut.part.sorted (fun k s hk => ⟨_, hat k s hk⟩) (by
      obtain ⟨x, y, a, b⟩ := hov'
      exact ⟨x, y, a, by rw [if_pos ⟨hu, hc⟩]; exact b⟩) (.inl hu) (fun h => by rw [hc] at h; cases h)
  obtain ⟨res3, ls3, m3', ps3, dr, dc, hpl, em3, hvp3, hmk3, hcase⟩ := mask_full hrd hm.built.inv hm.clean hcg
    (fun h => absurd ⟨hu, hc⟩ h) (fun _ h => by (rw [hc] at h; cases h)) (fun h => by (rw [hu] at h; cases h))
  rw [em] at em3
  injection em3 with em3
  subst em3
  rcases hcase with ⟨-, h2⟩ | ⟨-, lsM3, sr, sc, keep, hcm, hma, -, -, hup, hpd, -⟩
  · obtain ⟨x, y, a, b⟩ := hov'
    exact absurd b (h2 x y a)
  obtain ⟨hself, -⟩ := placed_self hpl hm.built (by rw [hcut.comp.pd]; rfl) hcm.ne
  have hmask : res.mask = m.ras := by rw [hmk3, hself]
  have hpos : res.ras.posData = some psM := by
    rw [hpd (.inl hu) (fun h => by (rw [hc] at h; cases h)), hself, hcut.comp.pd]
  have hupf : res.updRowCol = false := by
    rw [← Bool.not_eq_true, hup]
    rintro ⟨h, -⟩
    rw [hu] at h
    cases h
  have es' := es
  unfold maskRasterS at es'
  rw [em] at es'
  simp only [Out.ok_bind] at es'
  rw [if_neg (by rw [hcode]; simp [hm.ne])] at es'
  obtain ⟨l, el, es'⟩ := Out.bind_ok es'
  simp only [Out.pure_eq, Out.ok.injEq, Prod.mk.injEq] at es'
  obtain ⟨hres, hl⟩ := es'
  subst hres hl
  rw [hupf, Bool.and_false] at el
  obtain ⟨hsub, hkept⟩ := maskSubs_kept _ el
  have hsorted : (l.map (·.1)).Pairwise (· < ·) := hcut.part.sorted.sublist hsub
  have hget : ∀ k s', l.get k = some s' → ∃ s, m.subs.get k = some s ∧ s' = { s with nLyrs := res.ras.nLyrs } := by
    intro k s' hk
    obtain ⟨s, a, b⟩ := hkept (k, s') ((IMap.mem_iff_get _ hsorted _ _).2 hk)
    exact ⟨s, (IMap.mem_iff_get _ hcut.part.sorted _ _).1 a, b⟩
  have hvals : ∀ row col, hM.grid.CellInside row col → res.ras.getValue row col 1 = .ok (maskedVal hM vM hR vR dv row col) := by
    intro row col hin
    have w1 := hsh.val row col hin
    rw [w1, masked_eq (hval row col hin)]
  refine ⟨res, l, es, hcode, hmask, hb, hnc, h2d, hly, ?_, hgr, hnd, hvals, ?_, ?_, ?_⟩
  · rw [maskRaster_dflt em, hd]
  · intro x hx
    obtain ⟨s, a, b⟩ := hkept x hx
    have := hm.bare _ a
    rw [b]
    exact this
  · intro r' hb' hp'
    obtain ⟨ls', hC'⟩ := compact_of hb' (by rw [hp']; exact hpos) hcut.comp.ne
    refine ⟨ls', psM, fun k => if (l.get k).isSome then GM k else [], hC', ⟨hsorted, ?_, ?_, ?_, ?_, ?_⟩, ?_, hb'.tidy.n1, ?_, res.ras.nLyrs, ?_⟩
    · intro k s' hk
      have hk : l.get k = some s' := hk
      obtain ⟨s, a, b⟩ := hget k s' hk
      simp only [hk, Option.isSome_some, if_true]
      exact (hcut.part.some k s a).same (by rw [b]; exact ⟨rfl, rfl, rfl, rfl, rfl, rfl, rfl, rfl⟩)
    · intro k hk
      have hk : l.get k = none := hk
      simp [hk]
    · intro k i hi
      split at hi
      · exact hcut.part.lt hi
      · cases hi
    · intro k
      split
      · exact hcut.part.nodup k
      · exact List.nodup_nil
    · intro k k' i hi hi'
      split at hi
      · split at hi'
        · exact hcut.part.disj hi hi'
        · cases hi'
      · cases hi
    · intro k
      split
      · exact hcut.asc k
      · exact List.Pairwise.nil
    · intro k s' hk
      obtain ⟨s, a, b⟩ := hget k s' hk
      rw [b]
      exact hcut.use k s a
    · intro k s' hk
      obtain ⟨s, a, b⟩ := hget k s' hk
      rw [b]
  · -- the groups
    have hcell : ∀ k s row col, m.subs.get k = some s → CCGL.Spec.InSubset s row col → hM.grid.CellInside row col := fun k s row col a b =>
      ((hm.grp k row col).2 ⟨s, a, b⟩).1.1
    have hvalid : ∀ k s, m.subs.get k = some s → (CCGL.Spec.validPts res.ras
        ((GM k).map (fun i => m.ras.hdr.grid.center (posAt psM i).1 (posAt psM i).2)) ≠ [] ↔
        ∃ row col, CCGL.Spec.InSubset s row col ∧ floatEqual (maskedVal hM vM hR vR dv row col) hR.noData = false) := by
      intro k s hk
      have ho := hcut.part.some k s hk
      unfold CCGL.Spec.validPts
      rw [Ne, List.filter_eq_nil_iff]
      push Not
      have hcs : 0 < hM.cellsize := by rw [hg.2.1]; exact hg.1
      constructor
      · rintro ⟨pt, h1, h2⟩
        obtain ⟨i, hi, rfl⟩ := List.mem_map.1 h1
        simp only [decide_eq_true_eq] at h2
        obtain ⟨v, row, col, a1, a2, a3, a4⟩ := h2
        have hin := (ho.in_iff (posAt psM i).1 (posAt psM i).2).2 ⟨i, hi, rfl⟩
        rw [hgr, hm.grid] at a2
        obtain ⟨b1, b2⟩ := center_inj (g := hM.grid) hcs a2
        rw [b1, b2, hvals _ _ (hcell k s _ _ hk hin)] at a3
        injection a3 with a3
        refine ⟨_, _, hin, ?_⟩
        rw [a3, ← hnd]
        exact a4
      · rintro ⟨row, col, hin, hv⟩
        obtain ⟨i, hi, hp⟩ := (ho.in_iff row col).1 hin
        refine ⟨_, List.mem_map.2 ⟨i, hi, rfl⟩, ?_⟩
        simp only [decide_eq_true_eq]
        rw [hp]
        refine ⟨_, row, col, by rw [hgr]; exact hcell k s _ _ hk hin, by rw [hgr, hm.grid], hvals _ _ (hcell k s _ _ hk hin), by rw [hnd]; exact hv⟩
    intro k row col
    constructor
    · rintro ⟨hk, row', col', hk', hP⟩
      obtain ⟨s, a, b⟩ := (hm.grp k row col).1 hk
      obtain ⟨s2, a2, b2⟩ := (hm.grp k row' col').1 hk'
      rw [a] at a2
      injection a2 with a2
      subst a2
      obtain ⟨s', c1, -⟩ := hfol.here k s _ a (hat k s a) ((hvalid k s a).2 ⟨row', col', b2, hP⟩)
      refine ⟨s', c1, ?_⟩
      obtain ⟨s3, d1, d2⟩ := hget k s' c1
      rw [a] at d1
      injection d1 with d1
      subst d1
      rw [d2]
      exact b
    · rintro ⟨s', c1, c2⟩
      obtain ⟨s, d1, d2⟩ := hget k s' c1
      rw [d2] at c2
      have c2 : CCGL.Spec.InSubset s row col := c2
      have hne : CCGL.Spec.validPts res.ras ((GM k).map (fun i => m.ras.hdr.grid.center (posAt psM i).1 (posAt psM i).2)) ≠ [] := by
        intro h0
        rw [hfol.gone k s _ d1 (hat k s d1) h0] at c1
        cases c1
      obtain ⟨row', col', e1, e2⟩ := (hvalid k s d1).1 hne
      exact ⟨(hm.grp k row col).2 ⟨s, d1, c2⟩, row', col', (hm.grp k row' col').2 ⟨s, d1, e1⟩, e2⟩


/-- What masking a grid with a mask that has subsets leaves: the raster and its subsets. -/
structure MaskedGroups (r : Raster) (subs : IMap Subset) (hM : Header) (vM : Int → Int → ℚ) (hR : Header) (vR : Int → Int → ℚ) (dv : ℚ) : Prop where
  built : CCGL.Spec.Built r
  cells : 0 < r.nCells
  one : r.is2d = false
  lyrs : r.nLyrs = 1
  dflt : r.dflt = checkDefault dv hR.noData
  grid : r.hdr.grid = hM.grid
  nodata : r.noData = hR.noData
  val : ∀ row col, hM.grid.CellInside row col → r.getValue row col 1 = .ok (maskedVal hM vM hR vR dv row col)
  cut : ∀ r' : Raster, CCGL.Spec.Built r' → r'.posData = r.posData → ∃ ls ps G, Cut ⟨r', subs⟩ ls ps G
  grp : ∀ k row col, having (byValue hM vM) (fun row col => floatEqual (maskedVal hM vM hR vR dv row col) hR.noData = false) k row col ↔
        ∃ s, subs.get k = some s ∧ CCGL.Spec.InSubset s row col
  bare : Bare subs

/-- Reading a stored grid with a mask that has subsets. -/
theorem gfs_masked_groups {rnd : ℚ → ℚ} {st : Store} {name : Str} {ty : RDT} {hM hR : Header} {vM vR : Int → Int → ℚ} {m : RasterS} (hm : CutMask m hM vM)
    (H : HoldsGrid rnd st name (wholeOpts ty) hR vR) {ok1 ok2 : Nat → Bool} (h1 : Answered ok1) (h2 : Answered ok2)
    (hg : CCGL.Spec.CommonGrid hR hM) (hco : CCGL.Spec.CoordsPresent hM) (hov : Overlaps hM vM hR) (dv : ℚ) :
    ∃ r subs, readFromMongoMaskS rnd .double ok1 true ok2 st name false m true dv (jobOpts true ty) = .ok (some ⟨r, subs⟩, m) ∧
      MaskedGroups r subs hM vM hR vR dv := by
  obtain ⟨cells, hmm, sm, q1, q2, q3, q4⟩ := H.reads ok1 ok2 h1 h2
  obtain ⟨hRr, hRc, hrd, hv⟩ := stored_grid H.header q4 true dv
  obtain ⟨res, subs, e1, e2, e3, k1, k2, k3, k4, k5, k6, k7, k8, k9, k10, k11⟩ :=
    grid_masked_groups (dv := dv) (hR := hR) hm hrd rfl rfl rfl rfl rfl rfl rfl hv hg hco hov
  refine ⟨res.ras, subs, ?_, ⟨k1, k2, k3, k4, k5, k6, k7, k8, k10, k11, k9⟩⟩
  have d1 : (!stringMatch ((some "TRUE".toList).getD []) "FALSE".toList) = true := by decide
  unfold readFromMongoMaskS
  rw [inOpts_job, q1, Out.ok_bind]
  dsimp only
  rw [headerOf_one q2 H.header, Out.ok_bind]
  dsimp only
  rw [mul_one_grid H.header, Out.ok_bind]
  have hnd : conv rnd .double .double hR.noData = .ok hR.noData := by unfold conv; rw [if_pos rfl]
  rw [hnd, Out.ok_bind]
  have hk : sm kIncNodata = some "TRUE".toList := q3
  rw [hk, d1]
  simp only [Bool.true_and, ne_eq, not_true_eq_false, decide_false, Bool.false_eq_true, if_false, Bool.not_true, if_true, Out.ok_bind, Bool.or_false,
    Bool.false_and]
  have hr : ({ Raster.init false with
        hdr := { hR with layers := 1, cellsnum := hR.rows * hR.cols }, noData := hR.noData, nLyrs := 1, nCells := hR.rows * hR.cols, calcPos := false,
        useMaskExt := true, dflt := Raster.checkDefault dv hR.noData, raster1 := some cells } : Raster) =
      ofStore1 { hR with layers := 1, cellsnum := hR.rows * hR.cols } cells false true dv := rfl
  rw [← hr] at e1
  rw [e1, Out.ok_bind]
  dsimp only
  rw [if_pos (by rw [e2]; decide), e3]
  rfl

/-- The input is read and masked, subsets included. -/
theorem input_groups {sys : Sys} {d : Disk} {st : Store} {j : Job} {jd : JobDb} {hM hR : Header} {vM vR : Int → Int → ℚ} {m : RasterS}
    (hm : CutMask m hM vM) (H : Input sys d st j jd hR vR) (hg : CCGL.Spec.CommonGrid hR hM) (hco : CCGL.Spec.CoordsPresent hM)
    (hov : Overlaps hM vM hR) (mode : IOMode) :
    ∃ r subs, layerJobDb sys true mode (d, st, some m) (j, jd) = finishJobDb sys true mode (d, st, some m) (j, jd) (some ⟨r, subs⟩, some m) ∧
      MaskedGroups r subs hM vM hR vR j.default.toQ := by
  cases H with
  | file s h1 h2 h3 =>
    obtain ⟨x, res, subs, hex, ex, em, hcode, hmk, k1, k2, k3, k4, k5, k6, k7, k8, k9, k10, k11⟩ := file_masked_groups hm h3 hg hco hov j.default.toQ
    refine ⟨res.ras, subs, ?_, ⟨k1, k2, k3, k4, k5, k6, k7, k8, k10, k11, k9⟩⟩
    unfold layerJobDb
    have hfe : filesExist d.fs j.inputs = true := by rw [h2]; unfold filesExist; simp [hex]
    dsimp only
    rw [if_pos ⟨h1, hfe⟩]
    have hi : initFiles d j.inputs false (some m) true j.default.toQ = .ok (some ⟨res.ras, subs⟩, some m) := by
      unfold initFiles
      rw [hfe, h2]
      simp only [Bool.not_true, Bool.false_eq_true, if_false]
      unfold initFile
      rw [hex]
      simp only [Bool.not_true, Bool.false_eq_true, if_false]
      rw [ex]
      simp only [Out.ok_bind]
      rw [em]
      simp only [Out.ok_bind, Out.pure_eq, hcode, hmk]
      rfl
    rw [hi, Out.ok_bind]
  | bucket name more h1 h2 h3 h4 h5 h6 =>
    obtain ⟨r, subs, e, k⟩ := gfs_masked_groups hm h3 h4 h5 hg hco hov j.default.toQ
    refine ⟨r, subs, ?_, k⟩
    unfold layerJobDb
    dsimp only
    rw [if_neg (by rw [h1]; simp), if_pos h1, h2]
    have hv : vecAt (name :: more) 0 = .ok name := rfl
    rw [hv, Out.ok_bind]
    unfold initGfs
    dsimp only
    rw [h6, e]
    rfl

end App
end CCGL
