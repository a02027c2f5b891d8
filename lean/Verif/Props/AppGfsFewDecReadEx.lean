import Verif.Props.AppGfsFewDecRead
import Verif.Props.AppGfsFewDecEx
import Verif.Props.AppGfsFewEx
/-!
# Jobs whose input is stored without NoData cells: a concrete bucket (C90)
-/
namespace CCGL
namespace App
open Fs Disk Main Raster Gfs Disk.Spec App.Spec

/-- The job with the table, the job without, with the stored file as input. -/
def exDecR : Job := { exDecB with inputs := ["0_x".toList], inFmt := .gfs }
def exDecS' : Job := { exDecA with inputs := ["0_x".toList], inFmt := .gfs }

/-- The header of the stored file. -/
def exHS : Header := { exH 3 with noData := -1 }

/-- A bucket that holds the cells of the mask: (0, 0) is 10, (1, 0) is 7; no other file. -/
theorem exFew_store (M : Raster) (hM : IsMask M (exH 3) exMaskV) : ∃ (st : Store) (w : Int → Int → ℚ),
    FewInput exSys st exDecR exDb exHS w (exH 3) exMaskV ∧
    FewInput exSys st exDecS' exDb exHS w (exH 3) exMaskV ∧
    FewCells exHS w (exH 3) exMaskV
      (fun row col => if floatEqual (exMaskV row col) (-9999) = false then w row col else -1) ∧
    (∀ name, name ≠ "0_x".toList → ∀ f ∈ st, ¬ CCGL.Spec.Has f ⟨name, fewOpts .double⟩) ∧ w 0 0 = 10 ∧ w 1 0 = 7 ∧
    ∀ row col, (exH 3).grid.CellInside row col → Fits .double (w row col) := by
  obtain ⟨hg, hov⟩ := exRun_overlap exMaskV (by decide +kernel)
  obtain ⟨st, m', w, e1, -, hw, hold, hH, -⟩ := C87_mask_few exSys (fun v _ => rfl) (d := exRunDisk) (st := []) hM (j := exToDb) (jd := exDb)
    rfl rfl exRun_a hg hov rfl rfl
    ⟨ex_few_key, ex_storable, ⟨by decide, by decide, by decide⟩, fun _ => rfl, fun _ => .inl ⟨rfl, rfl⟩, by simp⟩ ex_fitsAll
  have hH := hH ⟨0, by decide, rfl⟩
  have n01 : ¬ HasValue (exH 3) exMaskV 0 1 := by
    intro h
    have := h.2
    revert this
    decide +kernel
  have c00 := (hw 0 0 (exIn 3 _ _ (by decide) (by decide) (by decide) (by decide))).taken
    ⟨exIn 3 _ _ (by decide) (by decide) (by decide) (by decide), by decide +kernel⟩ 0 0
    ⟨exIn 2 _ _ (by decide) (by decide) (by decide) (by decide), by decide +kernel⟩
  have c10 := (hw 1 0 (exIn 3 _ _ (by decide) (by decide) (by decide) (by decide))).taken
    ⟨exIn 3 _ _ (by decide) (by decide) (by decide) (by decide), by decide +kernel⟩ 1 0
    ⟨exIn 2 _ _ (by decide) (by decide) (by decide) (by decide), by decide +kernel⟩
  have gap : ∃ row col, (exH 3).grid.CellInside row col ∧ ¬ HasValue (exH 3) exMaskV row col :=
    ⟨0, 1, exIn 3 _ _ (by decide) (by decide) (by decide) (by decide), n01⟩
  refine ⟨st, _, ⟨rfl, ⟨"0_x".toList, [], rfl, hH⟩, ⟨0, by decide, rfl⟩, ⟨0, by decide, rfl⟩, rfl, rfl, rfl, gap⟩,
    ⟨rfl, ⟨"0_x".toList, [], rfl, hH⟩, ⟨0, by decide, rfl⟩, ⟨0, by decide, rfl⟩, rfl, rfl, rfl, gap⟩, ?_, ?_, ?_, ?_, ?_⟩
  · intro row col hin
    refine ⟨fun h => if_pos h.2, fun h => if_neg (fun q => h ⟨hin, q⟩)⟩
  · intro name hn f hf hh
    have h0 := hold ⟨name, fewOpts .double⟩ hn
    have h1 : f ∈ CCGL.Spec.filesOf st ⟨name, fewOpts .double⟩ := List.mem_filter.2 ⟨hf, by simpa using hh⟩
    rw [h0] at h1
    cases h1
  · rw [c00]
    decide +kernel
  · rw [c10]
    decide +kernel
  · intro row col hin
    exact fits_masked ex_fitsAll (hw row col hin)

theorem exR_vals (h : Header) (hf : Fits .double (jobFill exDecR h)) (key : Int) (l : Int) : Fits .double (CCGL.Spec.tableValue (numTable exDecR) key l (jobFill exDecR h)) := by
  have ht : numTable exDecR = [(5, [50]), (8, [80])] := by decide +kernel
  rw [ht]
  unfold CCGL.Spec.tableValue
  by_cases h5 : 5 = key
  · rw [List.find?_cons_of_pos (by simp [h5])]
    cases hl : l.toNat with
    | zero => exact ex_fits 50 (by decide)
    | succ n => exact hf
  · rw [List.find?_cons_of_neg (by simp [h5])]
    by_cases h8 : 8 = key
    · rw [List.find?_cons_of_pos (by simp [h8])]
      cases hl : l.toNat with
      | zero => exact ex_fits 80 (by decide)
      | succ n => exact hf
    · rw [List.find?_cons_of_neg (by simp [h8])]
      exact hf

theorem exR_target {mode : IOMode} {g : Groups} {j : Job} (hj : j.out = "gb".toList ∨ j.out = "ga".toList) {n : Str} (hn : DbTargets mode j g n) : n ≠ "0_x".toList := by
  rintro rfl
  rcases exDec_targets hn with h | h
  · rcases hj with e | e <;> rw [e] at h <;> revert h <;> decide +kernel
  · rcases hj with e | e <;> rw [e] at h <;> revert h <;> decide +kernel

theorem exR_out {st : Store} {mode : IOMode} {V : View} (hold : ∀ name, name ≠ "0_x".toList → ∀ f ∈ st, ¬ CCGL.Spec.Has f ⟨name, fewOpts .double⟩)
    (h1 : V.hdr = plainHdr exDecR exHS) (h2 : ∀ k row col, V.grp k row col → V.hdr.grid.CellInside row col) :
    FewOut st mode exDecR exDb V (jobFill exDecR exHS) 1 where
  name := by decide
  key := ex_few_dec_key _ (.inr rfl)
  type := ⟨by decide, by decide, by decide⟩
  rm := fun _ => rfl
  rms := fun _ _ => rfl
  att := fun _ => .inl ⟨rfl, rfl⟩
  atts := fun _ _ => .inl ⟨rfl, rfl⟩
  done := ⟨⟨0, by decide, rfl⟩, fun _ => ⟨0, by decide, rfl⟩⟩
  table := fun _ => ⟨⟨by decide, by decide, by decide⟩, by decide⟩
  one := fun h => by cases h
  whole := fun _ => ex_whole (by rw [h1]; rfl)
  single := fun _ k _ r0 r1 c0 c1 hb => ex_box (by rw [h1]; rfl) (h2 k) hb
  vals := fun _ => exR_vals _ ((by decide +kernel : ((7 : Int) : ℚ) = jobFill exDecR exHS) ▸ ex_fits 7 (by decide))
  cells := fun h => by cases h
  nodata := by rw [h1]; exact (by decide +kernel : ((-1 : Int) : ℚ) = (plainHdr exDecR exHS).noData) ▸ ex_fits (-1) (by decide)
  old := fun n hn f hf hh => absurd hh (hold n (exR_target (.inl rfl) hn) f hf)

theorem exS_out {st : Store} {mode : IOMode} {V : View} (hold : ∀ name, name ≠ "0_x".toList → ∀ f ∈ st, ¬ CCGL.Spec.Has f ⟨name, fewOpts .double⟩)
    (h1 : V.hdr = plainHdr exDecS' exHS) (h2 : ∀ k row col, V.grp k row col → V.hdr.grid.CellInside row col)
    (h3 : ∀ row col, V.hdr.grid.CellInside row col → Fits .double (V.val row col)) :
    FewOut st mode exDecS' exDb V (jobFill exDecS' exHS) 1 where
  name := by decide
  key := ex_few_dec_key _ (.inl rfl)
  type := ⟨by decide, by decide, by decide⟩
  rm := fun _ => rfl
  rms := fun _ _ => rfl
  att := fun _ => .inl ⟨rfl, rfl⟩
  atts := fun _ _ => .inl ⟨rfl, rfl⟩
  done := ⟨⟨0, by decide, rfl⟩, fun _ => ⟨0, by decide, rfl⟩⟩
  table := fun h => by cases h
  one := fun _ => rfl
  whole := fun _ => ex_whole (by rw [h1]; rfl)
  single := fun _ k _ r0 r1 c0 c1 hb => ex_box (by rw [h1]; rfl) (h2 k) hb
  vals := fun h => by cases h
  cells := fun _ => h3
  nodata := by rw [h1]; exact (by decide +kernel : ((-1 : Int) : ℚ) = (plainHdr exDecS' exHS).noData) ▸ ex_fits (-1) (by decide)
  old := fun n hn f hf hh => absurd hh (hold n (exR_target (.inr rfl) hn) f hf)

/-- The hypotheses of `C90_few_store_units_recls` hold for the stored file: the groups of the mask are stored with the table's numbers. -/
example : ∃ m st st1 w, CutMask m (exH 3) exMaskV ∧ w 0 0 = 10 ∧
    layerJobDb exSys false .maskdec (exRunDisk, st, some m) (exDecR, exDb) = .ok (exRunDisk, st1, some m) ∧
    FewDone exSys.rnd st1 .maskdec exDecR (storeView exDecR (exH 3) exMaskV exHS w) (jobFill exDecR exHS) 1 (HasValue (exH 3) exMaskV) := by
  obtain ⟨M, eM, hb, hcl, hg, hn, hval, h2, hl, hnc⟩ := mask_file exRun_m NODATA
  have v00 := exMask_value 0 0 (by decide) (by decide) (by decide) (by decide) (by decide +kernel)
  obtain ⟨m, b, eb, hm⟩ := cutMask_of (vM := exMaskV) hb hcl hg hn hval h2 ⟨0, 0, v00⟩
  obtain ⟨st, w, H1, -, hw, hold, w00, -, -⟩ := exFew_store m.ras hm.isMask
  obtain ⟨st1, e1, -, d1⟩ := C90_few_store_units_recls (sys := exSys) (fun v _ => rfl) (d := exRunDisk) (mode := .maskdec) hm H1 hw rfl rfl (n := 1)
    (exR_out hold rfl (storeView_in rfl rfl))
  refine ⟨m, st, st1, _, hm, ?_, e1, d1⟩
  exact (if_pos v00.2).trans w00

/-- The hypotheses of `C90_few_store_units` hold for the stored file: the groups of the mask are stored with the values of the file. -/
example : ∃ m st st1 w, CutMask m (exH 3) exMaskV ∧ w 0 0 = 10 ∧
    layerJobDb exSys false .dec (exRunDisk, st, some m) (exDecS', exDb) = .ok (exRunDisk, st1, some m) ∧
    FewDone exSys.rnd st1 .dec exDecS' (storeView exDecS' (exH 3) exMaskV exHS w) (jobFill exDecS' exHS) 1 (HasValue (exH 3) exMaskV) := by
  obtain ⟨M, eM, hb, hcl, hg, hn, hval, h2, hl, hnc⟩ := mask_file exRun_m NODATA
  have v00 := exMask_value 0 0 (by decide) (by decide) (by decide) (by decide) (by decide +kernel)
  obtain ⟨m, b, eb, hm⟩ := cutMask_of (vM := exMaskV) hb hcl hg hn hval h2 ⟨0, 0, v00⟩
  obtain ⟨st, w, -, H2, hw, hold, w00, -, hfit⟩ := exFew_store m.ras hm.isMask
  obtain ⟨st1, e1, -, d1⟩ := C90_few_store_units (sys := exSys) (fun v _ => rfl) (d := exRunDisk) (mode := .dec) hm H2 hw rfl rfl (.inl rfl)
    (exS_out hold rfl (storeView_in rfl rfl) (by
        intro row col hin
        show Fits .double (renamed false exHS.noData exDecS'.nodata.toQ (if floatEqual (exMaskV row col) (-9999) = false then w row col else -1))
        unfold renamed
        rw [if_neg (by simp)]
        split
        · exact hfit row col hin
        · exact (by norm_num : ((-1 : Int) : ℚ) = -1) ▸ ex_fits (-1) (by decide)))
  refine ⟨m, st, st1, _, hm, ?_, e1, d1⟩
  exact (if_pos v00.2).trans w00

/-- The hypotheses of `C90_few_store_recls` hold for the stored file. -/
example : ∃ m m' st st1 w, layerJobDb exSys false .mask (exRunDisk, st, some ⟨m, []⟩) (exDecR, exDb) = .ok (exRunDisk, st1, some ⟨m', []⟩) ∧
    FewDone exSys.rnd st1 .mask exDecR (ownView exDecR exHS w) (jobFill exDecR exHS) 1 (HasValue (exH 3) exMaskV) := by
  obtain ⟨m, -, hm⟩ := full_mask_loaded exRun_m
  obtain ⟨st, w, H1, -, hw, hold, -, -, -⟩ := exFew_store m hm.isMask
  obtain ⟨st1, m', e1, -, -, d1⟩ := C90_few_store_recls (sys := exSys) (fun v _ => rfl) (d := exRunDisk) hm H1 hw rfl rfl (n := 1)
    (exR_out hold rfl byValue_in)
  exact ⟨m, m', st, st1, _, e1, d1⟩

end App
end CCGL
