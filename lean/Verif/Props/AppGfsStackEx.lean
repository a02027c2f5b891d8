import Verif.Props.AppGfsReclsLEx
/-!
# Example for C98: several files, no table, output to GridFS
-/
namespace CCGL
namespace App
open Fs Disk Main Raster Gfs Disk.Spec App.Spec

def exDecS : Job := { exJobL with out := "gb".toList, outFmt := .gfs }

theorem exDecS_out (mode : IOMode) :
    StackOut [] mode exDecS exDb (unitsView exDecS (exH 3) exMaskV (exH 2) exPlanA.val) (maskNum exDecS (exH 3) exMaskV (exH 2) exPlanA.val exRestL) 2 where
  name := by decide
  key := ex_dec_key _ (.inr rfl)
  type := ⟨by decide, by decide, by decide⟩
  rm := fun _ => rfl
  rms := fun _ _ => rfl
  att := fun _ => .inl ⟨rfl, rfl⟩
  atts := fun _ _ => .inl ⟨rfl, rfl⟩
  done := ⟨⟨0, by decide, rfl⟩, fun _ => ⟨0, by decide, rfl⟩⟩
  whole := fun _ => ex_whole2 rfl
  single := fun _ k _ r0 r1 c0 c1 hb => ex_box2 (h := maskHdr exDecS (exH 3) (exH 2)) rfl (groups_in k) hb
  cells := by
    intro row col _ l hl x hx
    obtain ⟨w, w1, rfl⟩ := hx
    rcases l with _ | l
    · exact fits_masked ex_fitLayers.first (w1.1 rfl)
    · have hl' : l = 0 := by omega
      subst hl'
      exact fits_layer ex_fitLayers (List.getElem_mem _) (w1.2 0 (by decide) rfl)
  nodata := (by decide +kernel : ((-1 : Int) : ℚ) = (maskHdr exDecS (exH 3) (exH 2)).noData) ▸ ex_fits (-1) (by decide)
  old := by
    intro n hn f hf hh
    cases hf

theorem exStack_apart : [((exDecA, exDb), exFullA), ((exDecS, exDb), exFullM)].Pairwise
    (FullApart .maskdec (fun j p => unitsView j (exH 3) exMaskV p.hdr p.val)) := by
  simp only [List.pairwise_cons, List.mem_cons, List.not_mem_nil, or_false, forall_eq]
  refine ⟨?_, fun _ h => h.elim, .nil⟩
  intro n hn
  refine ⟨fun hn' => ?_, fun h => by cases h⟩
  rcases exDec_targets hn with h | h
  · rcases exDec_targets hn' with h' | h'
    · rw [h] at h'
      exact absurd h' (by decide +kernel)
    · cases h'
  · cases h

/-- The program in the mode MASKDEC with output to an empty bucket; the second job has two files and no table. The file `0_gb` has both as layers: at cell
(0, 0) the first has 10 and the second 5. -/
example (md : MaskDb) : ∃ st', runDb exSys (exWorld "/a.tif;ga;;;DOUBLE\n/a.tif,/b.tif;gb;7;-1;DOUBLE\n") md (fun _ => exDb) exRunDisk []
      (exDbArgs "/m.tif") = .ok (0, exRunDisk, st') ∧
    ∃ w, HoldsLayers exSys.rnd st' "0_gb".toList (wholeOpts .double) { exH 3 with noData := -1 } 2 w ∧ w 0 0 0 = 10 ∧ w 1 0 0 = 5 := by
  have hj : jobsOf (exWorld "/a.tif;ga;;;DOUBLE\n/a.tif,/b.tif;gb;7;-1;DOUBLE\n") (exDbArgs "/m.tif") =
      .ok (some [exDecA, exDecS]) := by decide +kernel
  have hcfg : (configure (exWorld "/a.tif;ga;;;DOUBLE\n/a.tif,/b.tif;gb;7;-1;DOUBLE\n") (exDbArgs "/m.tif")).bind
      (fun | .exit _ => .ub | .go c => .ok (c.mode, c.maskFmt, c.maskPath, c.useMongo, c.incNodata)) =
      .ok (.maskdec, .sfile, "/m.tif".toList, true, true) := by decide +kernel
  obtain ⟨c, h1, h2⟩ := jobsOf_go hj
  rw [h1] at hcfg
  have hcfg' : (c.mode, c.maskFmt, c.maskPath, c.useMongo, c.incNodata) = (IOMode.maskdec, DataFmt.sfile, "/m.tif".toList, true, true) := Out.ok.inj hcfg
  injection hcfg' with q1 q2
  injection q2 with q2 q3
  injection q3 with q3 q4
  injection q4 with q4 q5
  have v00 := exMask_value 0 0 (by decide) (by decide) (by decide) (by decide) (by decide +kernel)
  obtain ⟨hg, hov⟩ := exRun_overlap exMaskV (by decide +kernel)
  obtain ⟨st', e, -, hd⟩ := C98_gfs_groups_run_partial (sys := exSys) (fun v _ => rfl) (md := md) (dbs := fun _ => exDb) (st := []) h1 h2 q4 q5 (.inr q1)
    (.file q2 (by rw [q3]; exact exRun_m)) ex_coords ⟨0, 0, v00⟩ (xs := [((exDecA, exDb), exFullA), ((exDecS, exDb), exFullM)]) rfl
    (by rw [q1]; exact exStack_apart)
    (by
      rw [q1]
      intro x hx
      simp only [List.mem_cons, List.not_mem_nil, or_false] at hx
      rcases hx with rfl | rfl
      · exact ⟨⟨hg, hov, fun l hl => by cases hl⟩, ⟨fun _ => exDecA_ok _ (fun _ _ f hf => by cases hf), fun h => absurd rfl h, fun h => absurd rfl h, fun h => absurd rfl h⟩⟩
      · refine ⟨⟨hg, hov, ?_⟩, ⟨fun h => (by cases h), fun _ => ⟨rfl, rfl, ⟨_, rfl, exRun_a⟩, ex_restL⟩, fun _ h => (by cases h), fun _ _ => ⟨exDecS_out _, fun h => (by cases h)⟩⟩⟩
        intro l hl
        have hl : l ∈ [(⟨"/b.tif".toList, exH 2, exPlanB.val⟩ : LayerFile)] := hl
        rw [List.mem_singleton.1 hl]
        exact hg)
  rw [q1] at hd
  have hL : DbStack exSys.rnd st' .maskdec exDecS (unitsView exDecS (exH 3) exMaskV (exH 2) exPlanA.val) (maskNum exDecS (exH 3) exMaskV (exH 2) exPlanA.val exRestL) 2 :=
    (hd ((exDecS, exDb), exFullM) (by simp)).stack (by unfold exFullM exRestL; simp) rfl
  obtain ⟨w, u1, -, u3⟩ := hL
  have hin := exIn 3 0 0 (by decide) (by decide) (by decide) (by decide)
  refine ⟨st', e, w, u3 (.inr rfl), ?_, ?_⟩
  · obtain ⟨y, y1, hy⟩ := u1 0 0 hin 0 (by decide)
    have := (y1.1 rfl).taken v00 0 0 ⟨exIn 2 _ _ (by decide) (by decide) (by decide) (by decide), by decide +kernel⟩
    rw [hy, this]
    decide +kernel
  · obtain ⟨y, y1, hy⟩ := u1 0 0 hin 1 (by decide)
    have := (y1.2 0 (by decide) rfl).taken v00 0 0 ⟨exIn 2 _ _ (by decide) (by decide) (by decide) (by decide), by decide +kernel⟩
    rw [hy, this]
    decide +kernel

end App
end CCGL
