import Verif.Props.AppGfsLayers
import Verif.Props.AppGfsDecEx
import Verif.Props.AppGfsFewEx
import Verif.Props.AppLayersRun
import Verif.Props.AppGfsLayersRun
import Verif.Props.AppGfsRunEx
/-!
# Examples for C92 with output to GridFS
-/
namespace CCGL
namespace App
open Fs Disk Main Raster Gfs Disk.Spec App.Spec

/-- The two-file job of the other example with output to the bucket. -/
def exJobGL : Job := { exJobL with out := "ga".toList, outFmt := .gfs }
def exRestL : List LayerFile := [⟨"/b.tif".toList, exH 2, exPlanB.val⟩]

theorem ex_stack_key : CCGL.Spec.GoodKey ⟨storedName "ga".toList, outOpts .double [] (wholeOpts .double) true⟩ := by
  have h1 : CCGL.Spec.withType .double (outOpts .double [] (wholeOpts .double) true) = outOpts .double [] (wholeOpts .double) true := by
    rw [← curOpts_eq]; decide +kernel
  rw [← h1]
  exact goodKey_of (by decide +kernel)

theorem ex_storableL (n : Int) (hn : n = 2 ∨ n = 3) :
    CCGL.Spec.StorableHeader { exH n with layers := ((exRestL.length + 1 : Nat) : Int), cellsnum := (exH n).rows * (exH n).cols, noData := -1 } := by
  have hz : ∀ z : Int, (1 / 2 : ℚ) ≠ z := by
    intro z h
    have : (1 : ℚ) = ((2 * z : Int) : ℚ) := by push_cast; linarith
    have h2 : (1 : Int) = 2 * z := by exact_mod_cast this
    omega
  have h1 : ∀ z : Int, (1 : ℚ) = z → -(2 ^ 31) ≤ z ∧ z < 2 ^ 31 := by
    intro z h
    have : (1 : Int) = z := by exact_mod_cast h
    omega
  rcases hn with rfl | rfl
  · exact ⟨by decide, by decide, by decide, by decide, by decide, fun z h => h1 z h, fun z h => absurd h (hz z), fun z h => absurd h (hz z)⟩
  · exact ⟨by decide, by decide, by decide, by decide, by decide, fun z h => h1 z h, fun z h => absurd h (hz z), fun z h => absurd h (hz z)⟩

theorem ex_fitLayers : FitLayers .double (exH 2) exPlanA.val exJobGL.default.toQ true exJobGL.nodata.toQ exRestL :=
  ⟨ex_fitsAll, by
    intro l hl i j hij
    have hl : l ∈ [(⟨"/b.tif".toList, exH 2, exPlanB.val⟩ : LayerFile)] := hl
    rw [List.mem_singleton.1 hl] at hij ⊢
    obtain ⟨h1, h2, h3, h4⟩ := hij
    have h2' : i < 2 := h2
    have h4' : j < 2 := h4
    have ei : i = 0 ∨ i = 1 := by omega
    have ej : j = 0 ∨ j = 1 := by omega
    rcases ei with rfl | rfl <;> rcases ej with rfl | rfl
    · exact ex_fits 5 (by decide)
    · exact ex_fits 6 (by decide)
    · exact ex_fits 7 (by decide)
    · exact ex_fits 8 (by decide)⟩

theorem ex_restL : ∀ l ∈ exRestL, RasterFile exRunDisk l.path l.hdr l.val := by
  intro l hl
  have hl : l ∈ [(⟨"/b.tif".toList, exH 2, exPlanB.val⟩ : LayerFile)] := hl
  rw [List.mem_singleton.1 hl]
  exact exRun_b

/-- Two raster files with a mask: one file `0_ga` with two layers in the bucket. Cell (0, 0) is 10 in the first layer and 5 in the second; cell (1, 0), NoData in the
first raster, is 7 (the default value) there and 7 (the number in the second raster) in the second layer; cell (0, 1), NoData in the mask, is -1 in both. -/
example : ∃ m m' st w, layerJobDb exSys true .mask (exRunDisk, [], some ⟨m, []⟩) (exJobGL, exDb) = .ok (exRunDisk, st, some ⟨m', []⟩) ∧
    HoldsLayers exSys.rnd st "0_ga".toList (wholeOpts .double) { exH 3 with noData := -1 } 2 w ∧
    w 0 0 0 = 10 ∧ w 1 0 0 = 5 ∧ w 0 1 0 = 7 ∧ w 1 1 0 = 7 ∧ w 0 0 1 = -1 ∧ w 1 0 1 = -1 := by
  obtain ⟨m, -, hm⟩ := full_mask_loaded exRun_m
  obtain ⟨hg, hov⟩ := exRun_overlap exMaskV (by decide +kernel)
  obtain ⟨st, m', e, -, -, hS, -⟩ := C92_gfs_mask_partial (sys := exSys) (fun v _ => rfl) (d := exRunDisk) (st := []) hm.isMask (j := exJobGL) (jd := exDb)
    (rest := exRestL) (s := "/a.tif".toList) rfl rfl (by unfold exRestL; simp) exRun_a ex_restL hg (by
      intro l hl
      have hl : l ∈ [(⟨"/b.tif".toList, exH 2, exPlanB.val⟩ : LayerFile)] := hl
      rw [List.mem_singleton.1 hl]
      exact hg) hov rfl rfl
    ⟨ex_stack_key, ex_storableL 3 (.inr rfl), ⟨by decide, by decide, by decide⟩, fun _ => rfl, fun _ => .inl ⟨rfl, rfl⟩, by simp⟩ ex_fitLayers
  obtain ⟨w, hw, hH⟩ := hS ⟨0, by decide, rfl⟩
  have hin : ∀ i j, 0 ≤ i → i < 2 → 0 ≤ j → j < 3 → (exH 3).grid.CellInside i j := fun i j => exIn 3 i j
  have hin2 : ∀ i j, 0 ≤ i → i < 2 → 0 ≤ j → j < 2 → (exH 2).grid.CellInside i j := fun i j => exIn 2 i j
  have g : ∀ i j : Int, 0 ≤ i → i < 2 → 0 ≤ j → j < 3 → ∀ l : Nat, l < 2 → _ := fun i j a b c d' l hl => hw i j (hin i j a b c d') l hl
  refine ⟨m, m', st, _, e, hH, ?_, ?_, ?_, ?_, ?_, ?_⟩
  · have := ((g 0 0 (by decide) (by decide) (by decide) (by decide) 0 (by decide)).1 rfl).taken ⟨hin _ _ (by decide) (by decide) (by decide) (by decide), by decide +kernel⟩ 0 0
      ⟨hin2 _ _ (by decide) (by decide) (by decide) (by decide), by decide +kernel⟩
    rw [this]
    decide +kernel
  · have := ((g 0 0 (by decide) (by decide) (by decide) (by decide) 1 (by decide)).2 0 (by decide) rfl).taken ⟨hin _ _ (by decide) (by decide) (by decide) (by decide), by decide +kernel⟩ 0 0
      ⟨hin2 _ _ (by decide) (by decide) (by decide) (by decide), by decide +kernel⟩
    rw [this]
    decide +kernel
  · have := ((g 1 0 (by decide) (by decide) (by decide) (by decide) 0 (by decide)).1 rfl).taken ⟨hin _ _ (by decide) (by decide) (by decide) (by decide), by decide +kernel⟩ 1 0
      ⟨hin2 _ _ (by decide) (by decide) (by decide) (by decide), by decide +kernel⟩
    rw [this]
    decide +kernel
  · have := ((g 1 0 (by decide) (by decide) (by decide) (by decide) 1 (by decide)).2 0 (by decide) rfl).taken ⟨hin _ _ (by decide) (by decide) (by decide) (by decide), by decide +kernel⟩ 1 0
      ⟨hin2 _ _ (by decide) (by decide) (by decide) (by decide), by decide +kernel⟩
    rw [this]
    decide +kernel
  · have := ((g 0 1 (by decide) (by decide) (by decide) (by decide) 0 (by decide)).1 rfl).none (.inl (by rintro ⟨-, h⟩; revert h; decide +kernel))
    rw [this]
    decide +kernel
  · have := ((g 0 1 (by decide) (by decide) (by decide) (by decide) 1 (by decide)).2 0 (by decide) rfl).none (.inl (by rintro ⟨-, h⟩; revert h; decide +kernel))
    rw [this]
    decide +kernel

/-- The same without a mask: the second layer has no number where the first file has none. -/
example : ∃ st w, layerJobDb exSys true .mask (exRunDisk, [], none) (exJobGL, exDb) = .ok (exRunDisk, st, none) ∧
    HoldsLayers exSys.rnd st "0_ga".toList (wholeOpts .double) { exH 2 with noData := -1 } 2 w ∧ w 0 0 0 = 10 ∧ w 1 0 0 = 5 ∧ w 0 1 0 = -1 ∧ w 1 1 0 = -1 := by
  obtain ⟨st, e, -, hS, -⟩ := C92_gfs_plain_partial (sys := exSys) (fun v _ => rfl) (d := exRunDisk) (st := []) (j := exJobGL) (jd := exDb)
    (rest := exRestL) (s := "/a.tif".toList) rfl rfl (by unfold exRestL; simp) exRun_a ex_restL (by
      intro l hl
      have hl : l ∈ [(⟨"/b.tif".toList, exH 2, exPlanB.val⟩ : LayerFile)] := hl
      rw [List.mem_singleton.1 hl]
      exact ⟨by decide, rfl, 0, 0, by decide +kernel, by decide +kernel⟩) rfl rfl
    ⟨ex_stack_key, ex_storableL 2 (.inl rfl), ⟨by decide, by decide, by decide⟩, fun _ => rfl, fun _ => .inl ⟨rfl, rfl⟩, by simp⟩ ex_fitLayers
  obtain ⟨w, hw, hH⟩ := hS ⟨0, by decide, rfl⟩
  have hin2 : ∀ i j, 0 ≤ i → i < 2 → 0 ≤ j → j < 2 → (exH 2).grid.CellInside i j := fun i j => exIn 2 i j
  refine ⟨st, _, e, hH, ?_, ?_, ?_, ?_⟩
  · have := (hw 0 0 (hin2 _ _ (by decide) (by decide) (by decide) (by decide)) 0 (by decide)).1 rfl
    rw [this]
    decide +kernel
  · have := ((hw 0 0 (hin2 _ _ (by decide) (by decide) (by decide) (by decide)) 1 (by decide)).2 0 (by decide) rfl).taken
      ⟨hin2 _ _ (by decide) (by decide) (by decide) (by decide), by decide +kernel⟩ 0 0 ⟨hin2 _ _ (by decide) (by decide) (by decide) (by decide), by decide +kernel⟩
    rw [this]
    decide +kernel
  · have := (hw 1 0 (hin2 _ _ (by decide) (by decide) (by decide) (by decide)) 0 (by decide)).1 rfl
    rw [this]
    decide +kernel
  · have := ((hw 1 0 (hin2 _ _ (by decide) (by decide) (by decide) (by decide)) 1 (by decide)).2 0 (by decide) rfl).none (.inl (by rintro ⟨-, h⟩; revert h; decide +kernel))
    rw [this]
    decide +kernel

/-- The program with two such jobs and a mask in a file: the bucket has a file with two layers for each. -/
example (md : MaskDb) : ∃ st', runDb exSys (exWorld "/a.tif,/b.tif;ga;7;-1;DOUBLE\n/a.tif,/b.tif;gb;7;-1;DOUBLE\n") md (fun _ => exDb) exRunDisk []
      ["-mode".toList, "mask".toList, "-mask".toList, "/m.tif".toList, "-mongo".toList, "localhost".toList, "27017".toList, "db".toList, "g".toList,
        "-configfile".toList, "/c.txt".toList] = .ok (0, exRunDisk, st') ∧
    (∃ w, HoldsLayers exSys.rnd st' "0_ga".toList (wholeOpts .double) { exH 3 with noData := -1 } 2 w) ∧
    ∃ w, HoldsLayers exSys.rnd st' "0_gb".toList (wholeOpts .double) { exH 3 with noData := -1 } 2 w ∧ w 0 0 0 = 10 ∧ w 1 0 0 = 5 := by
  have hj : jobsOf (exWorld "/a.tif,/b.tif;ga;7;-1;DOUBLE\n/a.tif,/b.tif;gb;7;-1;DOUBLE\n") ["-mode".toList, "mask".toList, "-mask".toList, "/m.tif".toList, "-mongo".toList,
        "localhost".toList, "27017".toList, "db".toList, "g".toList, "-configfile".toList, "/c.txt".toList] =
      .ok (some [exJobGL, { exJobGL with out := "gb".toList }]) := by decide +kernel
  have hcfg : (configure (exWorld "/a.tif,/b.tif;ga;7;-1;DOUBLE\n/a.tif,/b.tif;gb;7;-1;DOUBLE\n") ["-mode".toList, "mask".toList, "-mask".toList, "/m.tif".toList,
        "-mongo".toList, "localhost".toList, "27017".toList, "db".toList, "g".toList, "-configfile".toList, "/c.txt".toList]).bind
      (fun | .exit _ => .ub | .go c => .ok (c.mode, c.maskFmt, c.maskPath, c.useMongo, c.incNodata)) = .ok (.mask, .sfile, "/m.tif".toList, true, true) := by decide +kernel
  obtain ⟨c, h1, h2⟩ := jobsOf_go hj
  rw [h1] at hcfg
  have hcfg' : (c.mode, c.maskFmt, c.maskPath, c.useMongo, c.incNodata) = (IOMode.mask, DataFmt.sfile, "/m.tif".toList, true, true) := Out.ok.inj hcfg
  injection hcfg' with q1 q2
  injection q2 with q2 q3
  injection q3 with q3 q4
  injection q4 with q4 q5
  obtain ⟨hg, hov⟩ := exRun_overlap exMaskV (by decide +kernel)
  have hgl : ∀ l ∈ exRestL, CCGL.Spec.CommonGrid l.hdr (exH 3) := by
    intro l hl
    have hl : l ∈ [(⟨"/b.tif".toList, exH 2, exPlanB.val⟩ : LayerFile)] := hl
    rw [List.mem_singleton.1 hl]
    exact hg
  have hkey : CCGL.Spec.GoodKey ⟨storedName "gb".toList, outOpts .double [] (wholeOpts .double) true⟩ := by
    have h1 : CCGL.Spec.withType .double (outOpts .double [] (wholeOpts .double) true) = outOpts .double [] (wholeOpts .double) true := by
      rw [← curOpts_eq]; decide +kernel
    rw [← h1]
    exact goodKey_of (by decide +kernel)
  obtain ⟨st', e, -, hd⟩ := C92_gfs_mask_run_partial (sys := exSys) (fun v _ => rfl) (md := md) (dbs := fun _ => exDb) (st := []) h1 h2 q4 q5 q1
    (.file q2 (by rw [q3]; exact exRun_m)) (xs := [((exJobGL, exDb), ⟨exH 2, exPlanA.val, exRestL⟩), (({ exJobGL with out := "gb".toList }, exDb), ⟨exH 2, exPlanA.val, exRestL⟩)]) rfl
    (.cons (by
      intro y hy
      rw [List.mem_singleton.1 hy]
      show storedName "ga".toList ≠ storedName "gb".toList
      decide) (List.pairwise_singleton _ _))
    (by
      intro x hx
      simp only [List.mem_cons, List.not_mem_nil, or_false] at hx
      rcases hx with rfl | rfl
      · exact ⟨⟨hg, hov, hgl⟩, ⟨rfl, rfl, rfl⟩, ⟨_, rfl, exRun_a⟩, ⟨by unfold exRestL; simp, ex_restL⟩,
          ⟨ex_stack_key, ex_storableL 3 (.inr rfl), ⟨by decide, by decide, by decide⟩, fun _ => rfl, fun _ => .inl ⟨rfl, rfl⟩, by simp⟩, ex_fitLayers, ⟨0, by decide, rfl⟩⟩
      · exact ⟨⟨hg, hov, hgl⟩, ⟨rfl, rfl, rfl⟩, ⟨_, rfl, exRun_a⟩, ⟨by unfold exRestL; simp, ex_restL⟩,
          ⟨hkey, ex_storableL 3 (.inr rfl), ⟨by decide, by decide, by decide⟩, fun _ => rfl, fun _ => .inl ⟨rfl, rfl⟩, by simp⟩, ex_fitLayers, ⟨0, by decide, rfl⟩⟩)
  obtain ⟨wa, -, hA⟩ := hd ((exJobGL, exDb), ⟨exH 2, exPlanA.val, exRestL⟩) (by simp)
  obtain ⟨w, hw, hH⟩ := hd (({ exJobGL with out := "gb".toList }, exDb), ⟨exH 2, exPlanA.val, exRestL⟩) (by simp)
  have hin : ∀ i j, 0 ≤ i → i < 2 → 0 ≤ j → j < 3 → (exH 3).grid.CellInside i j := fun i j => exIn 3 i j
  have hin2 : ∀ i j, 0 ≤ i → i < 2 → 0 ≤ j → j < 2 → (exH 2).grid.CellInside i j := fun i j => exIn 2 i j
  refine ⟨st', e, ⟨_, hA⟩, _, hH, ?_, ?_⟩
  · have := ((hw 0 0 (hin _ _ (by decide) (by decide) (by decide) (by decide)) 0 (by decide)).1 rfl).taken ⟨hin _ _ (by decide) (by decide) (by decide) (by decide), by decide +kernel⟩ 0 0
      ⟨hin2 _ _ (by decide) (by decide) (by decide) (by decide), by decide +kernel⟩
    rw [this]
    decide +kernel
  · have := ((hw 0 0 (hin _ _ (by decide) (by decide) (by decide) (by decide)) 1 (by decide)).2 0 (by decide) rfl).taken ⟨hin _ _ (by decide) (by decide) (by decide) (by decide), by decide +kernel⟩ 0 0
      ⟨hin2 _ _ (by decide) (by decide) (by decide) (by decide), by decide +kernel⟩
    rw [this]
    decide +kernel

end App
end CCGL
