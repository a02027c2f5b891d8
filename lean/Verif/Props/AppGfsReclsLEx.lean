import Verif.Props.AppGfsReclsLRun
import Verif.Props.AppGfsLayersEx
import Verif.Props.AppMany
/-!
# Examples for C98 with output to GridFS
-/
namespace CCGL
namespace App
open Fs Disk Main Raster Gfs Disk.Spec App.Spec

theorem ex_storable22 {h : Header} {a b : Int} (hr : 0 < h.rows ∧ h.rows ≤ 2) (hc : 0 < h.cols ∧ h.cols ≤ 3) (hs : h.cellsize = 1) (hx : h.xll = 1 / 2 + a)
    (hy : h.yll = 1 / 2 + b) : CCGL.Spec.StorableHeader { h with layers := 2, cellsnum := h.rows * h.cols } := by
  have e1 : h.rows = 1 ∨ h.rows = 2 := by omega
  have e2 : h.cols = 1 ∨ h.cols = 2 ∨ h.cols = 3 := by omega
  refine ⟨?_, ?_, ⟨by show (0 : Int) < 2; decide, by show (2 : Int) < 2 ^ 31; decide⟩, ?_, ?_, ?_, fun z h => absurd (hx.symm.trans h) (half_not_int a z), fun z h => absurd (hy.symm.trans h) (half_not_int b z)⟩
  · show 0 ≤ h.rows ∧ h.rows < 2 ^ 31
    omega
  · show 0 ≤ h.cols ∧ h.cols < 2 ^ 31
    omega
  · show 0 < h.rows * h.cols ∧ h.rows * h.cols < 2 ^ 31
    rcases e1 with e | e <;> rcases e2 with f | f | f <;> rw [e, f] <;> decide
  · show h.rows * h.cols * 2 < 2 ^ 31
    rcases e1 with e | e <;> rcases e2 with f | f | f <;> rw [e, f] <;> decide
  · intro z h
    have h' : (1 : ℚ) = z := hs.symm.trans h
    have : (1 : Int) = z := by exact_mod_cast h'
    omega

theorem ex_box2 {h : Header} (hh : h.grid = (exH 3).grid) {g : Int → Int → Prop} (hg : ∀ row col, g row col → h.grid.CellInside row col) {r0 r1 c0 c1 : Int}
    (hb : IsBox g r0 r1 c0 c1) : CCGL.Spec.StorableHeader { boxHeader h r0 r1 c0 c1 with layers := 2, cellsnum := (r1 - r0 + 1) * (c1 - c0 + 1) } := by
  obtain ⟨a, ha⟩ := hb.top
  obtain ⟨b, hb1⟩ := hb.bottom
  obtain ⟨c, hc⟩ := hb.left
  obtain ⟨e, he⟩ := hb.right
  have h1 := hg _ _ ha
  have h2 := hg _ _ hb1
  have h3 := hg _ _ hc
  have h4 := hg _ _ he
  have b2 := hb.inside _ _ hb1
  have b4 := hb.inside _ _ he
  rw [hh] at h1 h2 h3 h4
  have q1 : 0 ≤ r0 ∧ r0 < 2 := ⟨h1.1, h1.2.1⟩
  have q2 : 0 ≤ r1 ∧ r1 < 2 := ⟨h2.1, h2.2.1⟩
  have q3 : 0 ≤ c0 ∧ c0 < 3 := ⟨h3.2.2.1, h3.2.2.2⟩
  have q4 : 0 ≤ c1 ∧ c1 < 3 := ⟨h4.2.2.1, h4.2.2.2⟩
  unfold Header.grid at hh
  injection hh with g1 g2 g3 g4 g5
  have g3' : h.cellsize = 1 := g3
  have g4' : h.xll = 1 / 2 := g4
  have g5' : h.yll = 1 / 2 := g5
  exact ex_storable22 (h := boxHeader h r0 r1 c0 c1) (a := c0) (b := h.rows - 1 - r1) ⟨by show 0 < r1 - r0 + 1; omega, by show r1 - r0 + 1 ≤ 2; omega⟩
    ⟨by show 0 < c1 - c0 + 1; omega, by show c1 - c0 + 1 ≤ 3; omega⟩ g3' (by show h.xll + c0 * h.cellsize = _; rw [g3', g4']; ring)
    (by show h.yll + ((h.rows - 1 - r1 : Int) : ℚ) * h.cellsize = _; rw [g3', g5']; ring)

theorem ex_whole2 {h : Header} (hh : h.grid = (exH 3).grid) : CCGL.Spec.StorableHeader { h with layers := 2, cellsnum := h.rows * h.cols } := by
  unfold Header.grid at hh
  injection hh with g1 g2 g3 g4 g5
  have g1' : h.rows = 2 := g1
  have g2' : h.cols = 3 := g2
  exact ex_storable22 (a := 0) (b := 0) (by omega) (by omega) g3 (by rw [g4]; simp [exH]) (by rw [g5]; simp [exH])

/-- Two files and a table with two columns, output to the bucket. -/
def exDecM : Job := { exJobM with out := "gb".toList, outFmt := .gfs }
def exFullA : FullPlan := ⟨exH 2, exPlanA.val, 1, []⟩
def exFullM : FullPlan := ⟨exH 2, exPlanA.val, 2, exRestL⟩

theorem exDecM_out (mode : IOMode) :
    DbOut [] mode exDecM exDb (unitsView exDecM (exH 3) exMaskV (exH 2) exPlanA.val) (jobFill exDecM (exH 2)) 2 where
  name := by decide
  key := ex_dec_key _ (.inr rfl)
  type := ⟨by decide, by decide, by decide⟩
  rm := fun _ => rfl
  rms := fun _ _ => rfl
  att := fun _ => .inl ⟨rfl, rfl⟩
  atts := fun _ _ => .inl ⟨rfl, rfl⟩
  done := ⟨⟨0, by decide, rfl⟩, fun _ => ⟨0, by decide, rfl⟩⟩
  table := fun _ => ⟨⟨by decide, by decide, by decide⟩, by decide⟩
  one := fun h => by cases h
  whole := fun _ => ex_whole2 rfl
  single := fun _ k _ r0 r1 c0 c1 hb => ex_box2 (h := maskHdr exDecM (exH 3) (exH 2)) rfl (groups_in k) hb
  vals := by
    intro _ key l
    have hf : Fits .double (jobFill exDecM (exH 2)) := (by decide +kernel : ((7 : Int) : ℚ) = jobFill exDecM (exH 2)) ▸ ex_fits 7 (by decide)
    have ht : numTable exDecM = [(5, [50, 51]), (10, [100, 101]), (40, [400, 401])] := by decide +kernel
    show Fits .double (CCGL.Spec.tableValue (numTable exDecM) key l (jobFill exDecM (exH 2)))
    rw [ht]
    unfold CCGL.Spec.tableValue
    have two : ∀ a b : Int, (-32768 ≤ a ∧ a ≤ 32767) → (-32768 ≤ b ∧ b ≤ 32767) → Fits .double (([(a : ℚ), (b : ℚ)][l.toNat]?).getD (jobFill exDecM (exH 2))) := by
      intro a b ha hb
      rcases hl : l.toNat with _ | _ | n
      · exact ex_fits a ha
      · exact ex_fits b hb
      · exact hf
    by_cases h5 : 5 = key
    · rw [List.find?_cons_of_pos (by simp [h5])]
      exact two 50 51 (by decide) (by decide)
    · rw [List.find?_cons_of_neg (by simp [h5])]
      by_cases h8 : 10 = key
      · rw [List.find?_cons_of_pos (by simp [h8])]
        exact two 100 101 (by decide) (by decide)
      · rw [List.find?_cons_of_neg (by simp [h8])]
        by_cases h9 : 40 = key
        · rw [List.find?_cons_of_pos (by simp [h9])]
          exact two 400 401 (by decide) (by decide)
        · rw [List.find?_cons_of_neg (by simp [h9])]
          exact hf
  cells := fun h => by cases h
  nodata := (by decide +kernel : ((-1 : Int) : ℚ) = (maskHdr exDecM (exH 3) (exH 2)).noData) ▸ ex_fits (-1) (by decide)
  old := by
    intro n hn f hf hh
    cases hf

theorem exFull_apart : [((exDecA, exDb), exFullA), ((exDecM, exDb), exFullM)].Pairwise
    (FullApart .maskdec (fun j p => unitsView j (exH 3) exMaskV p.hdr p.val)) := by
  simp only [List.pairwise_cons, List.mem_cons, List.not_mem_nil, or_false, forall_eq]
  refine ⟨?_, fun _ h => h.elim, .nil⟩
  intro n hn
  refine ⟨fun hn' => ?_, fun h => by cases h⟩
  rcases exDec_targets hn with h | h
  · rcases exDec_targets hn' with h' | h'
    · rw [h] at h'
      exact absurd h' (by decide +kernel)
    · cases h'
  · cases h

/-- The program in the mode MASKDEC with output to an empty bucket; the second job has two files and a table with two columns. The file `0_gb` has two
layers: at cell (0, 0) the table's first entry for 10 (first file) and its second for 5 (second file), at (0, 1), in no group, the new NoData value. -/
example (md : MaskDb) : ∃ st', runDb exSys (exWorld "/a.tif;ga;;;DOUBLE\n/a.tif,/b.tif;gb;7;-1;DOUBLE;5:50|51,10:100|101,40:400|401\n") md (fun _ => exDb) exRunDisk []
      (exDbArgs "/m.tif") = .ok (0, exRunDisk, st') ∧
    ∃ w, HoldsLayers exSys.rnd st' "0_gb".toList (wholeOpts .double) { exH 3 with noData := -1 } 2 w ∧
      w 0 0 0 = 100 ∧ w 1 0 0 = 51 ∧ w 0 0 1 = -1 ∧ w 1 0 1 = -1 := by
  have hj : jobsOf (exWorld "/a.tif;ga;;;DOUBLE\n/a.tif,/b.tif;gb;7;-1;DOUBLE;5:50|51,10:100|101,40:400|401\n") (exDbArgs "/m.tif") =
      .ok (some [exDecA, exDecM]) := by decide +kernel
  have hcfg : (configure (exWorld "/a.tif;ga;;;DOUBLE\n/a.tif,/b.tif;gb;7;-1;DOUBLE;5:50|51,10:100|101,40:400|401\n") (exDbArgs "/m.tif")).bind
      (fun | .exit _ => .ub | .go c => .ok (c.mode, c.maskFmt, c.maskPath, c.useMongo, c.incNodata)) =
      .ok (.maskdec, .sfile, "/m.tif".toList, true, true) := by decide +kernel
  obtain ⟨c, h1, h2⟩ := jobsOf_go hj
  rw [h1] at hcfg
  have hcfg' : (c.mode, c.maskFmt, c.maskPath, c.useMongo, c.incNodata) = (IOMode.maskdec, DataFmt.sfile, "/m.tif".toList, true, true) := Out.ok.inj hcfg
  injection hcfg' with q1 q2
  injection q2 with q2 q3
  injection q3 with q3 q4
  injection q4 with q4 q5
  have v00 := exMask_value 0 0 (by decide) (by decide) (by decide) (by decide) (by decide +kernel)
  obtain ⟨hg, hov⟩ := exRun_overlap exMaskV (by decide +kernel)
  obtain ⟨st', e, -, hd⟩ := C98_gfs_groups_run_partial (sys := exSys) (fun v _ => rfl) (md := md) (dbs := fun _ => exDb) (st := []) h1 h2 q4 q5 (.inr q1)
    (.file q2 (by rw [q3]; exact exRun_m)) ex_coords ⟨0, 0, v00⟩ (xs := [((exDecA, exDb), exFullA), ((exDecM, exDb), exFullM)]) rfl
    (by rw [q1]; exact exFull_apart)
    (by
      rw [q1]
      intro x hx
      simp only [List.mem_cons, List.not_mem_nil, or_false] at hx
      rcases hx with rfl | rfl
      · exact ⟨⟨hg, hov, fun l hl => by cases hl⟩, ⟨fun _ => exDecA_ok _ (fun _ _ f hf => by cases hf), fun h => absurd rfl h, fun h => absurd rfl h, fun h => absurd rfl h⟩⟩
      · refine ⟨⟨hg, hov, ?_⟩, ⟨fun h => (by cases h), fun _ => ⟨rfl, rfl, ⟨_, rfl, exRun_a⟩, ex_restL⟩, fun _ _ => ⟨by decide, exDecM_out _⟩, fun _ h => by cases h⟩⟩
        intro l hl
        have hl : l ∈ [(⟨"/b.tif".toList, exH 2, exPlanB.val⟩ : LayerFile)] := hl
        rw [List.mem_singleton.1 hl]
        exact hg)
  rw [q1] at hd
  have hL : DbLayers exSys.rnd st' .maskdec exDecM (unitsView exDecM (exH 3) exMaskV (exH 2) exPlanA.val) (maskNum exDecM (exH 3) exMaskV (exH 2) exPlanA.val exRestL)
      (jobFill exDecM (exH 2)) 2 := (hd ((exDecM, exDb), exFullM) (by simp)).table (by unfold exFullM exRestL; simp) rfl
  obtain ⟨u, u1, -, u3⟩ := hL
  have b00 : byValue (exH 3) exMaskV 1 0 0 := ⟨v00, by decide +kernel⟩
  have h00 : maskedVal (exH 3) exMaskV (exH 2) exPlanA.val exDecM.default.toQ 0 0 = filled 7 (-9999) (exPlanA.val 0 0) :=
    maskedVal_at (by decide) v00 ⟨exIn 2 0 0 (by decide) (by decide) (by decide) (by decide), rfl⟩
  have f00 : floatEqual (maskedVal (exH 3) exMaskV (exH 2) exPlanA.val exDecM.default.toQ 0 0) (exH 2).noData = false := by rw [h00]; decide +kernel
  have g00 : maskGroups exDecM (exH 3) exMaskV (exH 2) exPlanA.val 1 0 0 := ⟨b00, 0, 0, b00, f00⟩
  obtain ⟨w, w1, w2⟩ := u3 (.inr rfl) ⟨1, 0, 0, g00⟩
  have hin := exIn 3
  have hno : ¬ ∃ k, maskGroups exDecM (exH 3) exMaskV (exH 2) exPlanA.val k 0 1 := by
    rintro ⟨k, ⟨⟨-, h⟩, -⟩, -⟩
    revert h
    decide +kernel
  refine ⟨st', e, w, w1, ?_, ?_, ?_, ?_⟩
  · rw [(w2 0 0 0 (hin 0 0 (by decide) (by decide) (by decide) (by decide)) (by decide)).1 ⟨1, g00⟩]
    obtain ⟨x, ⟨y, y1, rfl⟩, hx⟩ := u1 1 0 0 0 g00 (by decide)
    have := (y1.1 rfl).taken v00 0 0 ⟨exIn 2 _ _ (by decide) (by decide) (by decide) (by decide), by decide +kernel⟩
    rw [hx, this]
    decide +kernel
  · rw [(w2 0 0 1 (hin 0 0 (by decide) (by decide) (by decide) (by decide)) (by decide)).1 ⟨1, g00⟩]
    obtain ⟨x, ⟨y, y1, rfl⟩, hx⟩ := u1 1 0 0 1 g00 (by decide)
    have := (y1.2 0 (by decide) rfl).taken v00 0 0 ⟨exIn 2 _ _ (by decide) (by decide) (by decide) (by decide), by decide +kernel⟩
    rw [hx, this]
    decide +kernel
  · rw [(w2 0 1 0 (hin 0 1 (by decide) (by decide) (by decide) (by decide)) (by decide)).2 hno]
    decide +kernel
  · rw [(w2 0 1 1 (hin 0 1 (by decide) (by decide) (by decide) (by decide)) (by decide)).2 hno]
    decide +kernel

end App
end CCGL
