import Verif.Props.AppGfsDecJobs
import Verif.Props.AppGfsEx
/-!
# Examples for C90
-/
namespace CCGL
namespace App
open Fs Disk Main Raster Gfs Disk.Spec App.Spec

theorem half_not_int (a : Int) : ∀ z : Int, (1 / 2 : ℚ) + a ≠ z := by
  intro z h
  have : (1 : ℚ) = ((2 * (z - a) : Int) : ℚ) := by push_cast; linarith
  have h2 : (1 : Int) = 2 * (z - a) := by exact_mod_cast this
  omega

/-- Grids of the size of the example fit the header of a stored file. -/
theorem ex_storable_of {h : Header} {a b : Int} (hr : 0 < h.rows ∧ h.rows ≤ 2) (hc : 0 < h.cols ∧ h.cols ≤ 3) (hs : h.cellsize = 1) (hx : h.xll = 1 / 2 + a)
    (hy : h.yll = 1 / 2 + b) : CCGL.Spec.StorableHeader { h with layers := 1, cellsnum := h.rows * h.cols } := by
  have e1 : h.rows = 1 ∨ h.rows = 2 := by omega
  have e2 : h.cols = 1 ∨ h.cols = 2 ∨ h.cols = 3 := by omega
  refine ⟨?_, ?_, ⟨by show (0 : Int) < 1; decide, by show (1 : Int) < 2 ^ 31; decide⟩, ?_, ?_, ?_, fun z h => absurd (hx.symm.trans h) (half_not_int a z), fun z h => absurd (hy.symm.trans h) (half_not_int b z)⟩
  · show 0 ≤ h.rows ∧ h.rows < 2 ^ 31
    omega
  · show 0 ≤ h.cols ∧ h.cols < 2 ^ 31
    omega
  · show 0 < h.rows * h.cols ∧ h.rows * h.cols < 2 ^ 31
    rcases e1 with e | e <;> rcases e2 with f | f | f <;> rw [e, f] <;> decide
  · show h.rows * h.cols * 1 < 2 ^ 31
    rcases e1 with e | e <;> rcases e2 with f | f | f <;> rw [e, f] <;> decide
  · intro z h
    have h' : (1 : ℚ) = z := hs.symm.trans h
    have : (1 : Int) = z := by exact_mod_cast h'
    omega

theorem maskVal_cases (j : Job) (hM : Header) (vM : Int → Int → ℚ) (hR : Header) (vR : Int → Int → ℚ) (row col : Int) :
    maskVal j hM vM hR vR row col = renamed j.update hR.noData j.nodata.toQ hR.noData ∨
    ∃ i k, hR.grid.CellInside i k ∧ maskVal j hM vM hR vR row col = renamed j.update hR.noData j.nodata.toQ (filled j.default.toQ hR.noData (vR i k)) := by
  unfold maskVal maskedVal
  split
  · next h => exact .inr ⟨_, _, h.2.choose_spec.choose_spec.1, rfl⟩
  · exact .inl rfl

/-- Two jobs on the files of the example with output to the bucket: one as it is, one reclassified. -/
def exDecA : Job := { exJobA with out := "ga".toList, outFmt := .gfs }
def exDecB : Job := { exJobB with out := "gb".toList, outFmt := .gfs }
def exDecPlanA : DecPlan := ⟨exH 2, exPlanA.val, 1⟩
def exDecPlanB : DecPlan := ⟨exH 2, exPlanB.val, 1⟩

theorem ex_box {h : Header} (hh : h.grid = (exH 3).grid) {g : Int → Int → Prop} (hg : ∀ row col, g row col → h.grid.CellInside row col) {r0 r1 c0 c1 : Int}
    (hb : IsBox g r0 r1 c0 c1) : CCGL.Spec.StorableHeader { boxHeader h r0 r1 c0 c1 with layers := 1, cellsnum := (r1 - r0 + 1) * (c1 - c0 + 1) } := by
  obtain ⟨a, ha⟩ := hb.top
  obtain ⟨b, hb1⟩ := hb.bottom
  obtain ⟨c, hc⟩ := hb.left
  obtain ⟨e, he⟩ := hb.right
  have h1 := hg _ _ ha
  have h2 := hg _ _ hb1
  have h3 := hg _ _ hc
  have h4 := hg _ _ he
  have b2 := hb.inside _ _ hb1
  have b4 := hb.inside _ _ he
  rw [hh] at h1 h2 h3 h4
  have q1 : 0 ≤ r0 ∧ r0 < 2 := ⟨h1.1, h1.2.1⟩
  have q2 : 0 ≤ r1 ∧ r1 < 2 := ⟨h2.1, h2.2.1⟩
  have q3 : 0 ≤ c0 ∧ c0 < 3 := ⟨h3.2.2.1, h3.2.2.2⟩
  have q4 : 0 ≤ c1 ∧ c1 < 3 := ⟨h4.2.2.1, h4.2.2.2⟩
  unfold Header.grid at hh
  injection hh with g1 g2 g3 g4 g5
  have g3' : h.cellsize = 1 := g3
  have g4' : h.xll = 1 / 2 := g4
  have g5' : h.yll = 1 / 2 := g5
  exact ex_storable_of (h := boxHeader h r0 r1 c0 c1) (a := c0) (b := h.rows - 1 - r1) ⟨by show 0 < r1 - r0 + 1; omega, by show r1 - r0 + 1 ≤ 2; omega⟩
    ⟨by show 0 < c1 - c0 + 1; omega, by show c1 - c0 + 1 ≤ 3; omega⟩ g3' (by show h.xll + c0 * h.cellsize = _; rw [g3', g4']; ring)
    (by show h.yll + ((h.rows - 1 - r1 : Int) : ℚ) * h.cellsize = _; rw [g3', g5']; ring)

theorem ex_whole {h : Header} (hh : h.grid = (exH 3).grid) : CCGL.Spec.StorableHeader { h with layers := 1, cellsnum := h.rows * h.cols } := by
  unfold Header.grid at hh
  injection hh with g1 g2 g3 g4 g5
  have g1' : h.rows = 2 := g1
  have g2' : h.cols = 3 := g2
  exact ex_storable_of (a := 0) (b := 0) (by omega) (by omega) g3 (by rw [g4]; simp [exH]) (by rw [g5]; simp [exH])

theorem ex_dec_key (n : Str) (h : n = "ga".toList ∨ n = "gb".toList) : CCGL.Spec.GoodKey ⟨n, outOpts .double [] (wholeOpts .double) true⟩ := by
  have h1 : CCGL.Spec.withType .double (outOpts .double [] (wholeOpts .double) true) = outOpts .double [] (wholeOpts .double) true := by
    rw [← curOpts_eq]; decide +kernel
  rw [← h1]
  rcases h with rfl | rfl <;> exact goodKey_of (by decide +kernel)

theorem exDec_targets {mode : IOMode} {j : Job} {g : Groups} {n : Str} (h : DbTargets mode j g n) : n.getLast? = (CCGL.Spec.subsetFile 0 j.out).getLast? ∨ j.out = [] := by
  rcases h with ⟨-, k, -, rfl⟩ | ⟨-, -, rfl⟩
  · by_cases ho : j.out = []
    · exact .inr ho
    · left
      unfold CCGL.Spec.subsetFile
      rw [List.getLast?_append_of_ne_nil _ ho, List.getLast?_append_of_ne_nil _ ho]
  · exact .inl (by rw [stored_zero])

theorem exDecA_ok {st : Store} (mode : IOMode)
    (hold : ∀ name, name.getLast? = "ga".toList.getLast? → ∀ f ∈ st, ¬ CCGL.Spec.Has f ⟨name, wholeOpts .double⟩) :
    DecJob exSys exRunDisk st mode false (exDecA, exDb) exDecPlanA (unitsView exDecA (exH 3) exMaskV (exH 2) exPlanA.val) where
  fmt := rfl
  kind := .inr ⟨rfl, rfl, fun h => by cases h⟩
  input := .file _ rfl rfl exRun_a
  nul := by decide
  out :=
    { name := by decide
      key := ex_dec_key _ (.inl rfl)
      type := ⟨by decide, by decide, by decide⟩
      rm := fun _ => rfl
      rms := fun _ _ => rfl
      att := fun _ => .inl ⟨rfl, rfl⟩
      atts := fun _ _ => .inl ⟨rfl, rfl⟩
      done := ⟨⟨0, by decide, rfl⟩, fun _ => ⟨0, by decide, rfl⟩⟩
      table := fun h => by cases h
      one := fun _ => rfl
      whole := fun _ => ex_whole rfl
      single := fun _ k _ r0 r1 c0 c1 hb => ex_box (h := maskHdr exDecA (exH 3) (exH 2)) rfl (groups_in k) hb
      vals := fun h => by cases h
      cells := by
        intro _ row col _
        have hm := ex_fits (-9999) (by decide)
        have hn : Fits .double (renamed false (-9999) (-9999) (-9999)) := by
          exact (by decide +kernel : ((-9999 : Int) : ℚ) = renamed false (-9999) (-9999) (-9999)) ▸ hm
        rcases maskVal_cases exDecA (exH 3) exMaskV (exH 2) exPlanA.val row col with e | ⟨i, k, hin, e⟩
        · show Fits .double (maskVal exDecA (exH 3) exMaskV (exH 2) exPlanA.val row col)
          rw [e]
          exact hn
        · show Fits .double (maskVal exDecA (exH 3) exMaskV (exH 2) exPlanA.val row col)
          rw [e]
          obtain ⟨h1, h2, h3, h4⟩ := hin
          have h2' : i < 2 := h2
          have h4' : k < 2 := h4
          have ei : i = 0 ∨ i = 1 := by omega
          have ek : k = 0 ∨ k = 1 := by omega
          rcases ei with rfl | rfl <;> rcases ek with rfl | rfl
          · exact (by decide +kernel : ((10 : Int) : ℚ) = renamed exDecA.update (exH 2).noData exDecA.nodata.toQ
              (filled exDecA.default.toQ (exH 2).noData (exPlanA.val 0 0))) ▸ ex_fits 10 (by decide)
          · exact (by decide +kernel : ((20 : Int) : ℚ) = renamed exDecA.update (exH 2).noData exDecA.nodata.toQ
              (filled exDecA.default.toQ (exH 2).noData (exPlanA.val 0 1))) ▸ ex_fits 20 (by decide)
          · exact (by decide +kernel : ((-9999 : Int) : ℚ) = renamed exDecA.update (exH 2).noData exDecA.nodata.toQ
              (filled exDecA.default.toQ (exH 2).noData (exPlanA.val 1 0))) ▸ hm
          · exact (by decide +kernel : ((40 : Int) : ℚ) = renamed exDecA.update (exH 2).noData exDecA.nodata.toQ
              (filled exDecA.default.toQ (exH 2).noData (exPlanA.val 1 1))) ▸ ex_fits 40 (by decide)
      nodata := (by decide +kernel : ((-9999 : Int) : ℚ) = (maskHdr exDecA (exH 3) (exH 2)).noData) ▸ ex_fits (-9999) (by decide)
      old := by
        intro n hn f hf hh
        refine absurd hh (hold n ?_ f hf)
        rcases exDec_targets hn with h | h
        · rw [h]; decide +kernel
        · cases h }

theorem exDecB_ok {st : Store} (mode : IOMode)
    (hold : ∀ name, name.getLast? = "gb".toList.getLast? → ∀ f ∈ st, ¬ CCGL.Spec.Has f ⟨name, wholeOpts .double⟩) :
    DecJob exSys exRunDisk st mode false (exDecB, exDb) exDecPlanB (unitsView exDecB (exH 3) exMaskV (exH 2) exPlanB.val) where
  fmt := rfl
  kind := .inl rfl
  input := .file _ rfl rfl exRun_b
  nul := by decide
  out :=
    { name := by decide
      key := ex_dec_key _ (.inr rfl)
      type := ⟨by decide, by decide, by decide⟩
      rm := fun _ => rfl
      rms := fun _ _ => rfl
      att := fun _ => .inl ⟨rfl, rfl⟩
      atts := fun _ _ => .inl ⟨rfl, rfl⟩
      done := ⟨⟨0, by decide, rfl⟩, fun _ => ⟨0, by decide, rfl⟩⟩
      table := fun _ => ⟨⟨by decide, by decide, by decide⟩, by decide⟩
      one := fun h => by cases h
      whole := fun _ => ex_whole rfl
      single := fun _ k _ r0 r1 c0 c1 hb => ex_box (h := maskHdr exDecB (exH 3) (exH 2)) rfl (groups_in k) hb
      vals := by
        intro _ key l
        have hf : Fits .double (jobFill exDecB (exH 2)) := (by decide +kernel : ((7 : Int) : ℚ) = jobFill exDecB (exH 2)) ▸ ex_fits 7 (by decide)
        have ht : numTable exDecB = [(5, [50]), (8, [80])] := by decide +kernel
        show Fits .double (CCGL.Spec.tableValue (numTable exDecB) key l (jobFill exDecB (exH 2)))
        rw [ht]
        unfold CCGL.Spec.tableValue
        by_cases h5 : 5 = key
        · rw [List.find?_cons_of_pos (by simp [h5])]
          cases hl : l.toNat with
          | zero => exact ex_fits 50 (by decide)
          | succ n => exact hf
        · rw [List.find?_cons_of_neg (by simp [h5])]
          by_cases h8 : 8 = key
          · rw [List.find?_cons_of_pos (by simp [h8])]
            cases hl : l.toNat with
            | zero => exact ex_fits 80 (by decide)
            | succ n => exact hf
          · rw [List.find?_cons_of_neg (by simp [h8])]
            exact hf
      cells := fun h => by cases h
      nodata := (by decide +kernel : ((-1 : Int) : ℚ) = (maskHdr exDecB (exH 3) (exH 2)).noData) ▸ ex_fits (-1) (by decide)
      old := by
        intro n hn f hf hh
        refine absurd hh (hold n ?_ f hf)
        rcases exDec_targets hn with h | h
        · rw [h]; decide +kernel
        · cases h }

theorem ex_coords : CCGL.Spec.CoordsPresent (exH 3) := by
  refine ⟨by decide +kernel, ?_, ?_⟩
  · intro col a b
    have : col = 0 ∨ col = 1 ∨ col = 2 := by have : col < 3 := b; omega
    rcases this with rfl | rfl | rfl <;> decide +kernel
  · intro row a b
    have : row = 0 ∨ row = 1 := by have : row < 2 := b; omega
    rcases this with rfl | rfl <;> decide +kernel

theorem exMask_value (row col : Int) (a : 0 ≤ row) (b : row < 2) (x : 0 ≤ col) (y : col < 3) (h : floatEqual (exMaskV row col) (-9999) = false) :
    HasValue (exH 3) exMaskV row col := ⟨exIn 3 row col a b x y, h⟩

/-- Some of the cells of the file `0_gb`: (0, 0) has the table's value, (0, 2), which has no
value in the raster but is in group 1, the default value, (0, 1), in no group, the new NoData value. -/
theorem exDecB_cells {st' : Store} (hB : DbDone exSys.rnd st' .maskdec exDecB (unitsView exDecB (exH 3) exMaskV (exH 2) exPlanB.val) (jobFill exDecB (exH 2)) 1) :
    ∃ w, HoldsLayers exSys.rnd st' "0_gb".toList (wholeOpts .double) { exH 3 with noData := -1 } 1 w ∧
      w 0 0 0 = 50 ∧ w 0 0 1 = -1 ∧ w 0 1 1 = 80 ∧ w 0 1 0 = 7 ∧ w 0 0 2 = 7 := by
  have v00 := exMask_value 0 0 (by decide) (by decide) (by decide) (by decide) (by decide +kernel)
  have v02 := exMask_value 0 2 (by decide) (by decide) (by decide) (by decide) (by decide +kernel)
  have v10 := exMask_value 1 0 (by decide) (by decide) (by decide) (by decide) (by decide +kernel)
  have v11 := exMask_value 1 1 (by decide) (by decide) (by decide) (by decide) (by decide +kernel)
  have hmv : ∀ row col, 0 ≤ row → row < 2 → 0 ≤ col → col < 2 → HasValue (exH 3) exMaskV row col →
      maskedVal (exH 3) exMaskV (exH 2) exPlanB.val exDecB.default.toQ row col = filled 7 (-9999) (exPlanB.val row col) :=
    fun row col a b x y h => maskedVal_at (by decide) h ⟨exIn 2 row col a b x y, rfl⟩
  have h00 := hmv 0 0 (by decide) (by decide) (by decide) (by decide) v00
  have h10 := hmv 1 0 (by decide) (by decide) (by decide) (by decide) v10
  have h11 := hmv 1 1 (by decide) (by decide) (by decide) (by decide) v11
  have h02 : maskedVal (exH 3) exMaskV (exH 2) exPlanB.val exDecB.default.toQ 0 2 = -9999 := maskedVal_none (.inr (by
    rintro ⟨i, j, h3, h4⟩
    have h5 : 0 ≤ i ∧ i < 2 ∧ 0 ≤ j ∧ j < 2 := h3
    have hj : j = 0 ∨ j = 1 := by omega
    have hi : i = 0 ∨ i = 1 := by omega
    rcases hi with rfl | rfl <;> rcases hj with rfl | rfl <;> revert h4 <;> decide +kernel))
  have b00 : byValue (exH 3) exMaskV 1 0 0 := ⟨v00, by decide +kernel⟩
  have b02 : byValue (exH 3) exMaskV 1 0 2 := ⟨v02, by decide +kernel⟩
  have b10 : byValue (exH 3) exMaskV 2 1 0 := ⟨v10, by decide +kernel⟩
  have b11 : byValue (exH 3) exMaskV 2 1 1 := ⟨v11, by decide +kernel⟩
  have f00 : floatEqual (maskedVal (exH 3) exMaskV (exH 2) exPlanB.val exDecB.default.toQ 0 0) (exH 2).noData = false := by rw [h00]; decide +kernel
  have f10 : floatEqual (maskedVal (exH 3) exMaskV (exH 2) exPlanB.val exDecB.default.toQ 1 0) (exH 2).noData = false := by rw [h10]; decide +kernel
  have g00 : maskGroups exDecB (exH 3) exMaskV (exH 2) exPlanB.val 1 0 0 := ⟨b00, 0, 0, b00, f00⟩
  have g02 : maskGroups exDecB (exH 3) exMaskV (exH 2) exPlanB.val 1 0 2 := ⟨b02, 0, 0, b00, f00⟩
  have g10 : maskGroups exDecB (exH 3) exMaskV (exH 2) exPlanB.val 2 1 0 := ⟨b10, 1, 0, b10, f10⟩
  have g11 : maskGroups exDecB (exH 3) exMaskV (exH 2) exPlanB.val 2 1 1 := ⟨b11, 1, 0, b10, f10⟩
  obtain ⟨w, w1, w2⟩ := hB.all rfl (.inr rfl) ⟨1, 0, 0, g00⟩
  have hv : ∀ row col x, maskedVal (exH 3) exMaskV (exH 2) exPlanB.val exDecB.default.toQ row col = x →
      cellOut exDecB (unitsView exDecB (exH 3) exMaskV (exH 2) exPlanB.val).val (jobFill exDecB (exH 2)) 0 row col =
      CCGL.Spec.tableValue (numTable exDecB) (truncQ (renamed true (-9999) (-1) x)) 0 (jobFill exDecB (exH 2)) := by
    intro row col x h
    rw [← h]
    rfl
  have hin := exIn 3
  refine ⟨w, w1, ?_, ?_, ?_, ?_, ?_⟩
  · rw [(w2 0 0 0 (hin 0 0 (by decide) (by decide) (by decide) (by decide)) (by decide)).1 ⟨1, g00⟩]
    refine (hv 0 0 _ h00).trans ?_
    decide +kernel
  · rw [(w2 0 1 0 (hin 0 1 (by decide) (by decide) (by decide) (by decide)) (by decide)).2 (by
      rintro ⟨k, ⟨⟨-, h⟩, -⟩, -⟩
      revert h
      decide +kernel)]
    decide +kernel
  · rw [(w2 1 1 0 (hin 1 1 (by decide) (by decide) (by decide) (by decide)) (by decide)).1 ⟨2, g11⟩]
    exact (hv 1 1 _ h11).trans (by decide +kernel)
  · rw [(w2 1 0 0 (hin 1 0 (by decide) (by decide) (by decide) (by decide)) (by decide)).1 ⟨2, g10⟩]
    exact (hv 1 0 _ h10).trans (by decide +kernel)
  · rw [(w2 0 2 0 (hin 0 2 (by decide) (by decide) (by decide) (by decide)) (by decide)).1 ⟨1, g02⟩]
    exact (hv 0 2 _ h02).trans (by decide +kernel)


theorem exDec_apart : [((exDecA, exDb), exDecPlanA), ((exDecB, exDb), exDecPlanB)].Pairwise
    (DecApart .maskdec (fun j p => unitsView j (exH 3) exMaskV p.hdr p.val)) := by
  simp only [List.pairwise_cons, List.mem_cons, List.not_mem_nil, or_false, forall_eq]
  refine ⟨?_, fun _ h => h.elim, .nil⟩
  intro n hn
  refine ⟨fun hn' => ?_, fun h => by cases h⟩
  rcases exDec_targets hn with h | h
  · rcases exDec_targets hn' with h' | h'
    · rw [h] at h'
      exact absurd h' (by decide +kernel)
    · cases h'
  · cases h

/-- A batch in the mode MASKDEC with output to an empty bucket, one job with and one without reclassification: the hypotheses of
`C90_units_jobs_partial` hold, and what it says about some of the cells of the file `0_gb`: (0, 0) has the table's value, (0, 2), which has no
value in the raster but is in group 1, the default value, (0, 1), in no group, the new NoData value. -/
example : ∃ m st', runJobsDb exSys true .maskdec (some m) exRunDisk [] [(exDecA, exDb), (exDecB, exDb)] = .ok (0, exRunDisk, st') ∧
    CutMask m (exH 3) exMaskV ∧
    ∃ w, HoldsLayers exSys.rnd st' "0_gb".toList (wholeOpts .double) { exH 3 with noData := -1 } 1 w ∧
      w 0 0 0 = 50 ∧ w 0 0 1 = -1 ∧ w 0 1 1 = 80 ∧ w 0 1 0 = 7 ∧ w 0 0 2 = 7 := by
  obtain ⟨M, eM, hb, hcl, hg, hn, hval, h2, hl, hnc⟩ := mask_file exRun_m NODATA
  have v00 := exMask_value 0 0 (by decide) (by decide) (by decide) (by decide) (by decide +kernel)
  obtain ⟨m, b, eb, hm⟩ := cutMask_of (vM := exMaskV) hb hcl hg hn hval h2 ⟨0, 0, v00⟩
  obtain ⟨st', e, -, hd⟩ := C90_units_jobs_partial (sys := exSys) (fun v _ => rfl) (d := exRunDisk) (st := []) hm ex_coords (mode := .maskdec)
    (.inr rfl) (xs := [((exDecA, exDb), exDecPlanA), ((exDecB, exDb), exDecPlanB)])
    exDec_apart
    (by
      intro x hx
      simp only [List.mem_cons, List.not_mem_nil, or_false] at hx
      rcases hx with rfl | rfl
      · exact ⟨exRun_overlap _ (by decide +kernel), exDecA_ok _ (fun _ _ f hf => by cases hf)⟩
      · exact ⟨exRun_overlap _ (by decide +kernel), exDecB_ok _ (fun _ _ f hf => by cases hf)⟩)
  exact ⟨m, st', e, hm, exDecB_cells (hd ((exDecB, exDb), exDecPlanB) (by simp))⟩

end App
end CCGL
