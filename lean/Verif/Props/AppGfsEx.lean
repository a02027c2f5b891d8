import Verif.Props.AppGfsJobs
import Verif.Props.AppBatch
/-!
# Examples for C87
-/
namespace CCGL
namespace App
open Fs Disk Main Raster Gfs Disk.Spec App.Spec

/-- A driver without failures; the object has no options. -/
def exDb : JobDb where
  ok1 := fun _ => true
  ok2 := fun _ => true
  rd := true
  cok1 := fun _ _ => true
  cok2 := fun _ _ => true
  crd := fun _ => true
  rm := fun _ => true
  att := goodAtt
  rms := fun _ _ => true
  atts := fun _ => goodAtt
  own := []
  core := []

def exToDb : Job := { exOneJob with out := "x".toList, outFmt := .gfs, default := .fin 7 }
def exFromDb : Job := { exOneJob with inputs := ["0_x".toList], inFmt := .gfs, update := false }

theorem ex_fits (n : Int) (h : -32768 ≤ n ∧ n ≤ 32767) : Fits .double (n : ℚ) := by
  have : CCGL.Spec.Representable .double (n : ℚ) := by
    refine ⟨n, 0, ?_, by norm_num, by norm_num, by simp⟩
    have : n.natAbs ≤ 32768 := by omega
    exact lt_of_le_of_lt this (by norm_num)
  exact ⟨this, this⟩

theorem ex_storable : CCGL.Spec.StorableHeader { exH 3 with layers := 1, cellsnum := (exH 3).rows * (exH 3).cols, noData := -1 } := by
  have hz : ∀ z : Int, (1 / 2 : ℚ) ≠ z := by
    intro z h
    have : (1 : ℚ) = ((2 * z : Int) : ℚ) := by push_cast; linarith
    have h2 : (1 : Int) = 2 * z := by exact_mod_cast this
    omega
  refine ⟨by decide, by decide, by decide, by decide, by decide, ?_, fun z h => absurd h (hz z), fun z h => absurd h (hz z)⟩
  intro z h
  have h' : (1 : ℚ) = z := h
  have : (1 : Int) = z := by exact_mod_cast h'
  omega

theorem ex_key : CCGL.Spec.GoodKey ⟨storedName "x".toList, outOpts .double [] (wholeOpts .double) true⟩ := by
  have h1 : CCGL.Spec.withType .double (outOpts .double [] (wholeOpts .double) true) = outOpts .double [] (wholeOpts .double) true := by
    rw [← curOpts_eq]; decide +kernel
  rw [← h1]
  exact goodKey_of (by decide +kernel)

/-- A raster file is masked and stored in an empty bucket (NoData renamed to -1, default value 7); then it is read from the bucket and written to a file:
the cell (0, 0) of the file is 10, the cell (1, 0), which is NoData in the raster, is 7, and the cell (0, 1), which is NoData in the mask, is -1. -/
example : ∃ m m' st d' v, layerJobDb exSys true .mask (exRunDisk, [], some ⟨m, []⟩) (exToDb, exDb) = .ok (exRunDisk, st, some ⟨m', []⟩) ∧
    layerJobDb exSys true .mask (exRunDisk, st, none) (exFromDb, exDb) = .ok (d', st, none) ∧
    ReadsAs d' "/o.tif".toList { exH 3 with noData := -1 } v ∧ v 0 0 = 10 ∧ v 1 0 = 7 ∧ v 0 1 = -1 := by
  obtain ⟨m, -, hm⟩ := mask_loaded exRun_m
  obtain ⟨hg, hov⟩ := exRun_overlap (fun row col => [1, -9999, 1, 2, 2, -9999].getD (row * 3 + col).toNat 0) (by decide +kernel)
  obtain ⟨st, m', w, e1, -, hw, -, hH, -⟩ := C87_mask_store_partial exSys (fun v _ => rfl) (d := exRunDisk) (st := []) hm (j := exToDb) (jd := exDb)
    (.file _ rfl rfl exRun_a) hg hov rfl rfl
    ⟨ex_key, ex_storable, ⟨by decide, by decide, by decide⟩, fun _ => rfl, fun _ => .inl ⟨rfl, rfl⟩, by simp⟩
    ⟨by
      intro i j hij
      obtain ⟨h1, h2, h3, h4⟩ := hij
      have h2' : i < 2 := h2
      have h4' : j < 2 := h4
      have ei : i = 0 ∨ i = 1 := by omega
      have ej : j = 0 ∨ j = 1 := by omega
      rcases ei with rfl | rfl <;> rcases ej with rfl | rfl
      · exact ex_fits 10 (by decide)
      · exact ex_fits 20 (by decide)
      · have := ex_fits (-9999) (by decide)
        exact (by decide +kernel : ((-9999 : Int) : ℚ) = [10, 20, -9999, (40 : ℚ)].getD ((1 : Int) * 2 + 0).toNat 0) ▸ this
      · exact ex_fits 40 (by decide),
    by
      have := ex_fits (-9999) (by decide)
      exact (by decide +kernel : ((-9999 : Int) : ℚ) = (exH 2).noData) ▸ this,
    by
      have := ex_fits 7 (by decide)
      exact (by decide +kernel : ((7 : Int) : ℚ) = exToDb.default.toQ) ▸ this,
    by
      intro _
      have := ex_fits (-1) (by decide)
      exact (by decide +kernel : ((-1 : Int) : ℚ) = exToDb.nodata.toQ) ▸ this⟩
  have hH := hH ⟨0, by decide, rfl⟩
  obtain ⟨d', e2, -, hR⟩ := C87_plain_file exSys (d := exRunDisk) (st := st) (j := exFromDb) (jd := exDb)
    (.bucket "0_x".toList [] rfl rfl hH ⟨0, by decide, rfl⟩ ⟨0, by decide, rfl⟩ rfl) rfl rfl (p := []) (dt := "/".toList) (core := "o".toList)
    (suf := "tif".toList) (by decide +kernel) (exRun_out _ (by decide) (by decide +kernel)) ⟨by decide, by decide, fun ha => (asc_not_tif ha exTif).elim⟩
    (exRun_carried _ _ _ _ _)
  refine ⟨m, m', st, d', _, e1, e2, hR, ?_⟩
  have c00 := (hw 0 0 (exIn 3 _ _ (by decide) (by decide) (by decide) (by decide))).taken
    ⟨exIn 3 _ _ (by decide) (by decide) (by decide) (by decide), by decide +kernel⟩ 0 0
    ⟨exIn 2 _ _ (by decide) (by decide) (by decide) (by decide), by decide +kernel⟩
  have c10 := (hw 1 0 (exIn 3 _ _ (by decide) (by decide) (by decide) (by decide))).taken
    ⟨exIn 3 _ _ (by decide) (by decide) (by decide) (by decide), by decide +kernel⟩ 1 0
    ⟨exIn 2 _ _ (by decide) (by decide) (by decide) (by decide), by decide +kernel⟩
  have c01 := (hw 0 1 (exIn 3 _ _ (by decide) (by decide) (by decide) (by decide))).none
    (.inl (fun h => by
      have := h.2
      revert this
      decide +kernel))
  dsimp only
  rw [c00, c10, c01]
  decide +kernel

/-- A file stored as INT16 and a job that asks for DOUBLE. -/
example : runJobsDb exSys true .mask none exRunDisk [File.mk "0_x".toList [("DATATYPE_OUT".toList, .utf8 "INT16".toList), ("INCLUDE_NODATA".toList, .utf8 "TRUE".toList)] []]
    [(exFromDb, exDb)] = .ok (0, exRunDisk, [File.mk "0_x".toList [("DATATYPE_OUT".toList, .utf8 "INT16".toList), ("INCLUDE_NODATA".toList, .utf8 "TRUE".toList)] []]) := by
  refine C87_false_type exSys .mask (by decide) exRunDisk _ none exDb (j := exFromDb) (name := "0_x".toList) (more := []) rfl rfl (by decide)
    (ty := .int16) (by decide) (by decide) (by decide) ?_
  intro f hf _
  simp only [List.mem_singleton] at hf
  subst hf
  refine ⟨rfl, ?_⟩
  intro k v hkv
  unfold wholeOpts at hkv
  simp only [List.mem_cons, List.not_mem_nil, or_false, Prod.mk.injEq] at hkv
  rcases hkv with ⟨rfl, rfl⟩ | ⟨rfl, rfl⟩
  · exact ⟨_, rfl, .inr ⟨fun x => type_not_number (O := .int16) (by decide) (by decide +kernel) x, by decide +kernel⟩⟩
  · exact ⟨_, rfl, .inr ⟨not_number_TRUE, by decide +kernel⟩⟩

end App
end CCGL
