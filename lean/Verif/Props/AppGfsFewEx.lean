import Verif.Props.AppGfsEx
import Verif.Props.AppGfsFewJobs
/-!
# Example for the jobs without NoData cells (C87)
-/
namespace CCGL
namespace App
open Fs Disk Main Raster Gfs Disk.Spec App.Spec

theorem ex_few_key : CCGL.Spec.GoodKey ⟨storedName "x".toList, outOpts .double [] (fewOpts .double) false⟩ := by
  have h1 : CCGL.Spec.withType .double (outOpts .double [] (fewOpts .double) false) = outOpts .double [] (fewOpts .double) false := by
    rw [← curOpts_eq]; decide +kernel
  rw [← h1]
  exact goodKey_of (by decide +kernel)

theorem ex_fitsAll : FitsAll .double (exH 2) (fun row col => [10, 20, -9999, (40 : ℚ)].getD (row * 2 + col).toNat 0) exToDb.default.toQ true exToDb.nodata.toQ :=
    ⟨by
      intro i j hij
      obtain ⟨h1, h2, h3, h4⟩ := hij
      have h2' : i < 2 := h2
      have h4' : j < 2 := h4
      have ei : i = 0 ∨ i = 1 := by omega
      have ej : j = 0 ∨ j = 1 := by omega
      rcases ei with rfl | rfl <;> rcases ej with rfl | rfl
      · exact ex_fits 10 (by decide)
      · exact ex_fits 20 (by decide)
      · have := ex_fits (-9999) (by decide)
        exact (by decide +kernel : ((-9999 : Int) : ℚ) = [10, 20, -9999, (40 : ℚ)].getD ((1 : Int) * 2 + 0).toNat 0) ▸ this
      · exact ex_fits 40 (by decide),
    by
      have := ex_fits (-9999) (by decide)
      exact (by decide +kernel : ((-9999 : Int) : ℚ) = (exH 2).noData) ▸ this,
    by
      have := ex_fits 7 (by decide)
      exact (by decide +kernel : ((7 : Int) : ℚ) = exToDb.default.toQ) ▸ this,
    by
      intro _
      have := ex_fits (-1) (by decide)
      exact (by decide +kernel : ((-1 : Int) : ℚ) = exToDb.nodata.toQ) ▸ this⟩

theorem ex_storable2 : CCGL.Spec.StorableHeader { exH 2 with layers := 1, cellsnum := (exH 2).rows * (exH 2).cols, noData := -1 } := by
  have hz : ∀ z : Int, (1 / 2 : ℚ) ≠ z := by
    intro z h
    have : (1 : ℚ) = ((2 * z : Int) : ℚ) := by push_cast; linarith
    have h2 : (1 : Int) = 2 * z := by exact_mod_cast this
    omega
  refine ⟨by decide, by decide, by decide, by decide, by decide, ?_, fun z h => absurd h (hz z), fun z h => absurd h (hz z)⟩
  intro z h
  have h' : (1 : ℚ) = z := h
  have : (1 : Int) = z := by exact_mod_cast h'
  omega

/-- A raster file is masked and the cells of the mask are stored in an empty bucket (NoData renamed to -1, default value 7); then the file in the
bucket is read with the mask, as it is loaded, and written to a file: the cell (0, 0) of the file is 10, the cell (1, 0), which is NoData in the raster, is 7, and the
cell (0, 1), which is NoData in the mask and not stored, is -1. -/
example : ∃ m m' m'' st d' v, layerJobDb exSys false .mask (exRunDisk, [], some ⟨m, []⟩) (exToDb, exDb) = .ok (exRunDisk, st, some ⟨m', []⟩) ∧
    layerJobDb exSys false .mask (exRunDisk, st, some ⟨m, []⟩) (exFromDb, exDb) = .ok (d', st, some ⟨m'', []⟩) ∧
    ReadsAs d' "/o.tif".toList { exH 3 with noData := -1 } v ∧ v 0 0 = 10 ∧ v 1 0 = 7 ∧ v 0 1 = -1 := by
  obtain ⟨m, -, hm⟩ := full_mask_loaded exRun_m
  obtain ⟨hg, hov⟩ := exRun_overlap (fun row col => [1, -9999, 1, 2, 2, -9999].getD (row * 3 + col).toNat 0) (by decide +kernel)
  obtain ⟨st, m', w, e1, -, hw, -, hH, -⟩ := C87_mask_few exSys (fun v _ => rfl) (d := exRunDisk) (st := []) hm.isMask (j := exToDb) (jd := exDb)
    rfl rfl exRun_a hg hov rfl rfl
    ⟨ex_few_key, ex_storable, ⟨by decide, by decide, by decide⟩, fun _ => rfl, fun _ => .inl ⟨rfl, rfl⟩, by simp⟩ ex_fitsAll
  have hH := hH ⟨0, by decide, rfl⟩
  have c00 := (hw 0 0 (exIn 3 _ _ (by decide) (by decide) (by decide) (by decide))).taken
    ⟨exIn 3 _ _ (by decide) (by decide) (by decide) (by decide), by decide +kernel⟩ 0 0
    ⟨exIn 2 _ _ (by decide) (by decide) (by decide) (by decide), by decide +kernel⟩
  have c10 := (hw 1 0 (exIn 3 _ _ (by decide) (by decide) (by decide) (by decide))).taken
    ⟨exIn 3 _ _ (by decide) (by decide) (by decide) (by decide), by decide +kernel⟩ 1 0
    ⟨exIn 2 _ _ (by decide) (by decide) (by decide) (by decide), by decide +kernel⟩
  have n01 : ¬ HasValue (exH 3) (fun row col => [1, -9999, 1, 2, 2, -9999].getD (row * 3 + col).toNat 0) 0 1 := by
    intro h
    have := h.2
    revert this
    decide +kernel
  have hcv : ∀ x, CarriesValue (exSys.fmt .double) "tif".toList x := fun x => ⟨fun ha => (asc_not_tif ha exTif).elim, fun _ h => by cases h⟩
  classical
  let u : Int → Int → ℚ := fun row col => if HasValue (exH 3) (fun row col => [1, -9999, 1, 2, 2, -9999].getD (row * 3 + col).toNat 0) row col then
    renamed true (exH 2).noData exToDb.nodata.toQ (w row col) else -1
  obtain ⟨d', m'', e2, -, -, hR⟩ := C87_few_file exSys (d := exRunDisk) (st := st) hm (j := exFromDb) (jd := exDb) (w := u)
    ⟨rfl, ⟨"0_x".toList, [], rfl, hH⟩, ⟨0, by decide, rfl⟩, ⟨0, by decide, rfl⟩, rfl, rfl, rfl,
      ⟨0, 1, exIn 3 _ _ (by decide) (by decide) (by decide) (by decide), n01⟩⟩
    (fun row col _ => ⟨fun h => if_pos h, fun h => by (show u row col = _; rw [show u row col = -1 from if_neg h]; decide +kernel)⟩)
    rfl rfl (p := []) (dt := "/".toList) (core := "o".toList)
    (suf := "tif".toList) (by decide +kernel) (exRun_out _ (by decide) (by decide +kernel)) ⟨by decide, by decide, fun ha => (asc_not_tif ha exTif).elim⟩
    (fun row col _ => hcv _) (hcv _)
  refine ⟨m, m', m'', st, d', _, e1, e2, hR, ?_⟩
  have h00 : HasValue (exH 3) (fun row col => [1, -9999, 1, 2, 2, -9999].getD (row * 3 + col).toNat 0) 0 0 :=
    ⟨exIn 3 _ _ (by decide) (by decide) (by decide) (by decide), by decide +kernel⟩
  have h10 : HasValue (exH 3) (fun row col => [1, -9999, 1, 2, 2, -9999].getD (row * 3 + col).toNat 0) 1 0 :=
    ⟨exIn 3 _ _ (by decide) (by decide) (by decide) (by decide), by decide +kernel⟩
  dsimp only
  rw [show u 0 0 = _ from if_pos h00, show u 1 0 = _ from if_pos h10, show u 0 1 = _ from if_neg n01, c00, c10]
  decide +kernel

/-- Without a mask: NoData is renamed to -1 and the three cells that are not NoData are stored. -/
example : ∃ st', layerJobDb exSys false .mask (exRunDisk, [], none) ({ exToDb with default := .fin 7 }, exDb) = .ok (exRunDisk, st', none) ∧
    HoldsCells exSys.rnd st' (storedName "x".toList) (fewOpts .double) { exH 2 with noData := -1 }
      (fun row col => renamed true (-9999) (-1) ([10, 20, -9999, (40 : ℚ)].getD (row * 2 + col).toNat 0))
      (fun row col => floatEqual (renamed true (-9999) (-1) ([10, 20, -9999, (40 : ℚ)].getD (row * 2 + col).toNat 0)) (-1) = false) := by
  obtain ⟨st', e, -, h, -⟩ := C87_plain_few exSys (fun v _ => rfl) (d := exRunDisk) (st := []) (j := exToDb) (jd := exDb) rfl rfl exRun_a rfl rfl
    ⟨0, 0, exIn 2 _ _ (by decide) (by decide) (by decide) (by decide), by unfold NotNoData; decide +kernel⟩
    ⟨ex_few_key, ex_storable2, ⟨by decide, by decide, by decide⟩, fun _ => rfl, fun _ => .inl ⟨rfl, rfl⟩, by simp⟩ ex_fitsAll
  have h := h ⟨0, by decide, rfl⟩
  refine ⟨st', e, ?_⟩
  have e1 : (exH 2).noData = -9999 := by decide +kernel
  have e2 : exToDb.nodata.toQ = -1 := by decide +kernel
  have e3 : renamedNd exToDb.update (-9999) (-1) = -1 := by decide +kernel
  unfold NotNoData at h
  simp only [e1, e2, e3] at h
  exact h

theorem ex_few_key_y : CCGL.Spec.GoodKey ⟨storedName "y".toList, outOpts .double [] (fewOpts .double) false⟩ := by
  have h1 : CCGL.Spec.withType .double (outOpts .double [] (fewOpts .double) false) = outOpts .double [] (fewOpts .double) false := by
    rw [← curOpts_eq]; decide +kernel
  rw [← h1]
  exact goodKey_of (by decide +kernel)

/-- Two jobs with the mask: `x` and `y` are stored with the cells of the mask. -/
example : ∃ m st', runJobsDb exSys false .mask (some ⟨m, []⟩) exRunDisk [] [(exToDb, exDb), ({ exToDb with out := "y".toList }, exDb)] = .ok (0, exRunDisk, st') ∧
    (∃ v, HoldsCells exSys.rnd st' (storedName "y".toList) (fewOpts .double) { exH 3 with noData := -1 } v
      (HasValue (exH 3) (fun row col => [1, -9999, 1, 2, 2, -9999].getD (row * 3 + col).toNat 0)) ∧ v 1 0 = 7) := by
  obtain ⟨m, -, hm⟩ := full_mask_loaded exRun_m
  obtain ⟨hg, hov⟩ := exRun_overlap (fun row col => [1, -9999, 1, 2, 2, -9999].getD (row * 3 + col).toNat 0) (by decide +kernel)
  have hap : ([(exToDb, exDb), ({ exToDb with out := "y".toList }, exDb)] : List (Job × JobDb)).Pairwise WritesApart := by
    refine .cons ?_ (.cons (by simp) .nil)
    intro b hb
    simp only [List.mem_singleton] at hb
    subst hb
    exact ⟨by decide, fun h => by cases h⟩
  obtain ⟨st', e, -, hF⟩ := C87_few_jobs exSys (fun v _ => rfl) (d := exRunDisk) (st := []) hm
    (js := [(exToDb, exDb), ({ exToDb with out := "y".toList }, exDb)])
    (ss := [⟨exH 2, fun row col => [10, 20, -9999, (40 : ℚ)].getD (row * 2 + col).toNat 0⟩, ⟨exH 2, fun row col => [10, 20, -9999, (40 : ℚ)].getD (row * 2 + col).toNat 0⟩])
    hap
    (.cons ⟨⟨rfl, rfl⟩, .file _ rfl rfl exRun_a hg hov
        ⟨ex_few_key, ex_storable, ⟨by decide, by decide, by decide⟩, fun _ => rfl, fun _ => .inl ⟨rfl, rfl⟩, by simp⟩ ex_fitsAll⟩
      (.cons ⟨⟨rfl, rfl⟩, .file _ rfl rfl exRun_a hg hov
        ⟨ex_few_key_y, ex_storable, ⟨by decide, by decide, by decide⟩, fun _ => rfl, fun _ => .inl ⟨rfl, rfl⟩, by simp⟩ ex_fitsAll⟩ .nil))
  refine ⟨m, st', e, ?_⟩
  cases hF with
  | cons _ hF =>
  cases hF with
  | cons h2 _ =>
  obtain ⟨h, w, hr, hb, -⟩ := h2
  rcases hr with ⟨-, rfl, hw⟩ | ⟨q, -⟩
  · have := hb ⟨0, by decide, rfl⟩
    refine ⟨_, this, ?_⟩
    have c10 := (hw 1 0 (exIn 3 _ _ (by decide) (by decide) (by decide) (by decide))).taken
      ⟨exIn 3 _ _ (by decide) (by decide) (by decide) (by decide), by decide +kernel⟩ 1 0
      ⟨exIn 2 _ _ (by decide) (by decide) (by decide) (by decide), by decide +kernel⟩
    dsimp only
    rw [c10]
    decide +kernel
  · cases q

end App
end CCGL
