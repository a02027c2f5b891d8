import Verif.Props.AppGfsToFile
import Verif.Props.AppGfsEx
/-!
# A stored grid is reclassified and written to files (C100): example
-/
namespace CCGL
namespace App
open Fs Disk Main Raster Gfs Disk.Spec App.Spec

def exFromRecls : Job := { exJobB with inputs := ["0_x".toList], inFmt := .gfs, update := false, table := [(10, [.fin 50])] }
def exPlanR (v : Int → Int → ℚ) : RPlan := ⟨[], { exH 3 with noData := -1 }, v, [], "/".toList, "o".toList, "tif".toList, 1⟩

/-- The stored grid of the examples of C87: 10 at (0, 0), 7 at (1, 0), NoData (-1) at (0, 1). -/
theorem exStored : ∃ st v, HoldsGrid exSys.rnd st "0_x".toList (wholeOpts .double) { exH 3 with noData := -1 } v ∧ v 0 0 = 10 ∧ v 1 0 = 7 ∧ v 0 1 = -1 := by
  obtain ⟨m, -, hm⟩ := mask_loaded exRun_m
  obtain ⟨hg, hov⟩ := exRun_overlap (fun row col => [1, -9999, 1, 2, 2, -9999].getD (row * 3 + col).toNat 0) (by decide +kernel)
  obtain ⟨st, m', w, e1, -, hw, -, hH, -⟩ := C87_mask_store_partial exSys (fun v _ => rfl) (d := exRunDisk) (st := []) hm (j := exToDb) (jd := exDb)
    (.file _ rfl rfl exRun_a) hg hov rfl rfl
    ⟨ex_key, ex_storable, ⟨by decide, by decide, by decide⟩, fun _ => rfl, fun _ => .inl ⟨rfl, rfl⟩, by simp⟩
    ⟨by
      intro i j hij
      obtain ⟨h1, h2, h3, h4⟩ := hij
      have h2' : i < 2 := h2
      have h4' : j < 2 := h4
      have ei : i = 0 ∨ i = 1 := by omega
      have ej : j = 0 ∨ j = 1 := by omega
      rcases ei with rfl | rfl <;> rcases ej with rfl | rfl
      · exact ex_fits 10 (by decide)
      · exact ex_fits 20 (by decide)
      · have := ex_fits (-9999) (by decide)
        exact (by decide +kernel : ((-9999 : Int) : ℚ) = [10, 20, -9999, (40 : ℚ)].getD ((1 : Int) * 2 + 0).toNat 0) ▸ this
      · exact ex_fits 40 (by decide),
    by
      have := ex_fits (-9999) (by decide)
      exact (by decide +kernel : ((-9999 : Int) : ℚ) = (exH 2).noData) ▸ this,
    by
      have := ex_fits 7 (by decide)
      exact (by decide +kernel : ((7 : Int) : ℚ) = exToDb.default.toQ) ▸ this,
    by
      intro _
      have := ex_fits (-1) (by decide)
      exact (by decide +kernel : ((-1 : Int) : ℚ) = exToDb.nodata.toQ) ▸ this⟩
  have hH := hH ⟨0, by decide, rfl⟩
  refine ⟨st, _, hH, ?_⟩
  have c00 := (hw 0 0 (exIn 3 _ _ (by decide) (by decide) (by decide) (by decide))).taken
    ⟨exIn 3 _ _ (by decide) (by decide) (by decide) (by decide), by decide +kernel⟩ 0 0
    ⟨exIn 2 _ _ (by decide) (by decide) (by decide) (by decide), by decide +kernel⟩
  have c10 := (hw 1 0 (exIn 3 _ _ (by decide) (by decide) (by decide) (by decide))).taken
    ⟨exIn 3 _ _ (by decide) (by decide) (by decide) (by decide), by decide +kernel⟩ 1 0
    ⟨exIn 2 _ _ (by decide) (by decide) (by decide) (by decide), by decide +kernel⟩
  have c01 := (hw 0 1 (exIn 3 _ _ (by decide) (by decide) (by decide) (by decide))).none
    (.inl (fun h => by
      have := h.2
      revert this
      decide +kernel))
  rw [c00, c10, c01]
  decide +kernel

theorem exFromRecls_disk {st : Store} {v : Int → Int → ℚ} (hH : HoldsGrid exSys.rnd st "0_x".toList (wholeOpts .double) { exH 3 with noData := -1 } v) (mode : IOMode)
    (V : View) (hh : 0 < V.hdr.rows ∧ 0 < V.hdr.cols) : DiskJob exSys exRunDisk st mode V (exFromRecls, exDb) (exPlanR v) :=
  ⟨.bucket "0_x".toList [] rfl rfl hH ⟨0, by decide, rfl⟩ ⟨0, by decide, rfl⟩ rfl, (fun h => by cases h), (by decide), rfl,
    (fun _ => exRun_can (m := 1) rfl ⟨by decide, by decide, by decide⟩ (by decide) rfl hh), (fun h => by cases h)⟩

/-- The stored grid is reclassified in the mode MASKDEC without mask: the hypotheses of `C100_job_plain` hold, and what it says about three cells of the
combined file `/0_o.tif`: the table's value, the default value for a number that is not in the table, NoData. -/
example : ∃ st d' v, layerJobDb exSys true .maskdec (exRunDisk, st, none) (exFromRecls, exDb) = .ok (d', st, none) ∧
    ReadsAs d' "/0_o.tif".toList { exH 3 with noData := -1 } v ∧ v 0 0 = 50 ∧ v 1 0 = 7 ∧ v 0 1 = -1 := by
  obtain ⟨st, v, hH, v00, v10, v01⟩ := exStored
  obtain ⟨d', e, -, hD⟩ := C100_job_plain (sys := exSys) (d := exRunDisk) (st := st) (mode := .maskdec) (j := exFromRecls) (jd := exDb) (pl := exPlanR v) exRun_wf
    (exFromRecls_disk hH _ _ (show (0 : Int) < 2 ∧ (0 : Int) < 3 by decide))
  have hin := exIn 3
  have hB := hD.recls rfl
  have hg : ∀ row col, 0 ≤ row → row < 2 → 0 ≤ col → col < 3 → floatEqual (v row col) (-1) = false →
      ∃ k, (ownView exFromRecls (exPlanR v).hdr (exPlanR v).val).grp k row col := fun row col a b x y h => ⟨_, ⟨hin row col a b x y, h⟩, rfl⟩
  have g00 := hg 0 0 (by decide) (by decide) (by decide) (by decide) (by rw [v00]; decide +kernel)
  have g10 := hg 1 0 (by decide) (by decide) (by decide) (by decide) (by rw [v10]; decide +kernel)
  obtain ⟨k, hk⟩ := g00
  obtain ⟨w, w1, w2⟩ := hB.all (.inr rfl) ⟨k, 0, 0, hk⟩ 0 (show ((0 : Nat) : Int) < 1 by decide)
  have hname : outFile (exPlanR v).dt (exPlanR v).core (exPlanR v).suf (exPlanR v).m 0 0 = "/0_o.tif".toList :=
    show outFile "/".toList "o".toList "tif".toList 1 0 0 = "/0_o.tif".toList by decide +kernel
  rw [hname] at w1
  have hv : ∀ row col, (ownView exFromRecls (exPlanR v).hdr (exPlanR v).val).val row col = v row col := fun row col => rfl
  refine ⟨st, d', w, e, w1, ?_, ?_, ?_⟩
  · rw [(w2 0 0 (hin 0 0 (by decide) (by decide) (by decide) (by decide))).1 ⟨k, hk⟩, hv, v00]
    show CCGL.Spec.tableValue (numTable exFromRecls) (truncQ 10) 0 (jobFill exFromRecls { exH 3 with noData := -1 }) = 50
    decide +kernel
  · rw [(w2 1 0 (hin 1 0 (by decide) (by decide) (by decide) (by decide))).1 g10, hv, v10]
    show CCGL.Spec.tableValue (numTable exFromRecls) (truncQ 7) 0 (jobFill exFromRecls { exH 3 with noData := -1 }) = 7
    decide +kernel
  · rw [(w2 0 1 (hin 0 1 (by decide) (by decide) (by decide) (by decide))).2 (by
      rintro ⟨k, ⟨-, h⟩, -⟩
      have h : floatEqual (v 0 1) (-1) = false := h
      rw [v01] at h
      revert h
      decide +kernel)]
    rfl

end App
end CCGL
