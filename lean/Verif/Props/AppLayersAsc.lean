import Verif.Props.AppLayersRun
/-!
# C92 is false for ASCII files of several layers whose NoData value is not -9999
-/
namespace CCGL
namespace App
open Fs Disk Main Raster Disk.Spec App.Spec

def exJobAsc : Job := { exJobL with out := "/l.asc".toList }
def exPlanAsc : LPlan := { exPlanL with suf := "asc".toList, first := 0 }

theorem exAscSuf : IsAscSuffix "asc".toList := (stringMatch_iff _ _).1 (by decide)

theorem exAsc_int (n : Int) : CarriesValue (exSys.fmt .double) "asc".toList (n : ℚ) := ⟨fun _ => prints_int n, fun _ h => by cases h⟩

theorem exAsc_list (l : List Int) (i : Nat) : CarriesValue (exSys.fmt .double) "asc".toList ((l.map (fun z : Int => (z : ℚ))).getD i 0) := by
  have : (l.map (fun z : Int => (z : ℚ))).getD i 0 = ((l.getD i 0 : Int) : ℚ) := by
    rw [List.getD_eq_getElem?_getD, List.getD_eq_getElem?_getD, List.getElem?_map]
    cases l[i]? <;> simp
  rw [this]
  exact exAsc_int _

theorem exAsc_a (i k : Int) : CarriesValue (exSys.fmt .double) "asc".toList (exPlanA.val i k) := by
  have h := exAsc_list [10, 20, -9999, 40] (i * 2 + k).toNat
  have e : exPlanA.val i k = ([10, 20, -9999, 40].map (fun z : Int => (z : ℚ))).getD (i * 2 + k).toNat 0 := by
    unfold exPlanA
    norm_num
  rw [e]
  exact h

theorem exAsc_b (i k : Int) : CarriesValue (exSys.fmt .double) "asc".toList (exPlanB.val i k) := by
  have h := exAsc_list [5, 6, 7, 8] (i * 2 + k).toNat
  have e : exPlanB.val i k = ([5, 6, 7, 8].map (fun z : Int => (z : ℚ))).getD (i * 2 + k).toNat 0 := by
    unfold exPlanB
    norm_num
  rw [e]
  exact h

theorem exAsc_ok : LayersJob exSys exRunDisk (exH 3) exJobAsc exPlanAsc where
  fmts := ⟨rfl, rfl, rfl⟩
  files := ⟨_, rfl, exRun_a⟩
  more := (exLayers_ok (exH 3) ⟨by decide, by decide⟩).more
  paths := (exLayers_ok (exH 3) ⟨by decide, by decide⟩).paths
  out := by decide
  write := ⟨⟨exRun_wf, ⟨by simp [exPlanAsc, exPlanL], rfl⟩, by decide, by decide, rfl⟩, exRun_nodir _, fun _ _ => exRun_writable _,
    .inl ⟨exAscSuf, rfl, by have := exAsc_int (-9999); exact_mod_cast this⟩⟩
  header := by
    have six1 : CCGL.Spec.SixSig 1 := ⟨1, 0, by decide, by norm_num⟩
    have sixh : CCGL.Spec.SixSig (1 / 2) := ⟨5, -1, by decide, by norm_num⟩
    have sixm : CCGL.Spec.SixSig (-1) := ⟨-1, 0, by decide, by norm_num⟩
    have e : renamedNd exJobAsc.update exPlanAsc.hdr.noData exJobAsc.nodata.toQ = -1 := by decide +kernel
    rw [e]
    exact ⟨by decide, by decide, fun _ => ⟨by decide, by show (0 : ℚ) ≤ 1; norm_num, by show |(1 : ℚ) / 2| < _; norm_num, by show |(1 : ℚ) / 2| < _; norm_num, sixh, sixh, six1, sixm⟩⟩
  carried := ⟨fun _ _ _ => exAsc_a _ _, by have := exAsc_int (-9999); exact_mod_cast this, by have := exAsc_int 7; exact_mod_cast this,
    fun _ => by have := exAsc_int (-1); exact_mod_cast this⟩
  carriedMore := by
    intro l hl i k _
    have hl : l ∈ [(⟨"/b.tif".toList, exH 2, exPlanB.val⟩ : LayerFile)] := hl
    rw [List.mem_singleton.1 hl]
    exact exAsc_b i k

theorem exAscNames (l : Nat) : ["a_masked.tif".toList] ≠ [] ++ ["l".toList ++ '_' :: intToDec ((l : Int) + 0) ++ '.' :: "asc".toList] := by
  intro h
  injection h with h _
  injection h with h _
  exact absurd h (by decide)

/-- C92 is false for ASCII files if the NoData value of the result is not -9999: the run of the item `/a.tif,/b.tif;/l.asc;7;-1` with a mask writes files with the
NoData value -1 in which the cells outside the mask, such as (0, 1), have the number -9999. -/
theorem C92_false_ascii : ∃ d', run exSys (exWorld "/a.tif,/b.tif;/l.asc;7;-1;DOUBLE\n") exRunDisk exLayerArgs = .ok (0, d') ∧
    ¬ HasValue (exH 3) exMaskV 0 1 ∧
    (∃ v, ReadsAs d' "/l_0.asc".toList { exH 3 with noData := -1 } v ∧ v 0 0 = 10 ∧ v 0 1 = -9999) ∧
    (∃ v, ReadsAs d' "/l_1.asc".toList { exH 3 with noData := -1 } v ∧ v 0 0 = 5 ∧ v 0 1 = -9999) := by
  have hj : jobsOf (exWorld "/a.tif,/b.tif;/l.asc;7;-1;DOUBLE\n") exLayerArgs = .ok (some [exJobA, exJobAsc]) := by decide +kernel
  have hcfg : (configure (exWorld "/a.tif,/b.tif;/l.asc;7;-1;DOUBLE\n") exLayerArgs).bind (fun | .exit _ => .ub | .go c => .ok (c.mode, c.maskFmt, c.maskPath)) =
      .ok (.mask, .sfile, "/m.tif".toList) := by decide +kernel
  obtain ⟨c, h1, h2⟩ := jobsOf_go hj
  rw [h1] at hcfg
  have hcfg' : (c.mode, c.maskFmt, c.maskPath) = (IOMode.mask, DataFmt.sfile, "/m.tif".toList) := Out.ok.inj hcfg
  injection hcfg' with q1 q2
  injection q2 with q2 q3
  obtain ⟨d', e, -, hd⟩ := C92_mask_run_partial exSys (xs := [(exJobA, .inl exPlanA), (exJobAsc, .inr exPlanAsc)]) exRun_wf h1 h2 q1 q2 (by rw [q3]; exact exRun_m)
    (vM := exMaskV)
    (by
      simp only [List.pairwise_cons, List.mem_cons, List.not_mem_nil, or_false, forall_eq]
      refine ⟨?_, fun _ h => h.elim, .nil⟩
      rintro q (⟨h, -⟩ | ⟨-, -, rfl⟩)
      · cases h
      · refine ⟨fun h => ?_, ?_⟩
        · have h : ["a_masked.tif".toList] ∈ [["a.tif".toList], ["b.tif".toList]] := h
          revert h
          decide
        · rintro ⟨l, -, h⟩
          exact exAscNames l h)
    (by
      intro x hx
      simp only [List.mem_cons, List.not_mem_nil, or_false] at hx
      rcases hx with rfl | rfl <;> exact exRun_overlap _ (by decide +kernel))
    (by
      intro x hx pl hpl l hl
      simp only [List.mem_cons, List.not_mem_nil, or_false] at hx
      rcases hx with rfl | rfl
      · cases hpl
      · injection hpl with hpl
        subst hpl
        have hl : l ∈ [(⟨"/b.tif".toList, exH 2, exPlanB.val⟩ : LayerFile)] := hl
        rw [List.mem_singleton.1 hl]
        exact (exRun_overlap exMaskV (by decide +kernel)).1)
    (by
      intro x hx
      simp only [List.mem_cons, List.not_mem_nil, or_false] at hx
      rcases hx with rfl | rfl
      · exact exJobA_ok _ ⟨by decide, by decide⟩ _
      · exact exAsc_ok)
  have hL : LayersOut .. := hd (exJobAsc, .inr exPlanAsc) (by simp)
  have hin : ∀ i j, 0 ≤ i → i < 2 → 0 ≤ j → j < 3 → (exH 3).grid.CellInside i j := fun i j => exIn 3 i j
  have hin2 : ∀ i j, 0 ≤ i → i < 2 → 0 ≤ j → j < 2 → (exH 2).grid.CellInside i j := fun i j => exIn 2 i j
  have v00 : HasValue (exH 3) exMaskV 0 0 := ⟨hin _ _ (by decide) (by decide) (by decide) (by decide), by decide +kernel⟩
  have v01 : ¬ HasValue (exH 3) exMaskV 0 1 := by
    rintro ⟨-, h⟩
    revert h
    decide +kernel
  refine ⟨d', e, v01, ?_, ?_⟩
  · obtain ⟨v, v1, v2⟩ := hL 0 (by decide)
    have hs : exPlanAsc.dt ++ exPlanAsc.core ++ '_' :: intToDec (((0 : Nat) : Int) + exPlanAsc.first) ++ '.' :: exPlanAsc.suf = "/l_0.asc".toList := by decide +kernel
    rw [hs] at v1
    refine ⟨v, v1, ?_, (v2 0 1 (hin _ _ (by decide) (by decide) (by decide) (by decide))).2 v01 exAscSuf⟩
    obtain ⟨w, w1, w2⟩ := (v2 0 0 v00.1).1 (.inl v00)
    rw [w2, (w1.1 rfl).taken v00 0 0 ⟨hin2 _ _ (by decide) (by decide) (by decide) (by decide), by decide +kernel⟩]
    decide +kernel
  · obtain ⟨v, v1, v2⟩ := hL 1 (by decide)
    have hs : exPlanAsc.dt ++ exPlanAsc.core ++ '_' :: intToDec (((1 : Nat) : Int) + exPlanAsc.first) ++ '.' :: exPlanAsc.suf = "/l_1.asc".toList := by decide +kernel
    rw [hs] at v1
    refine ⟨v, v1, ?_, (v2 0 1 (hin _ _ (by decide) (by decide) (by decide) (by decide))).2 v01 exAscSuf⟩
    obtain ⟨w, w1, w2⟩ := (v2 0 0 v00.1).1 (.inl v00)
    rw [w2, (w1.2 0 (by decide) rfl).taken v00 0 0 ⟨hin2 _ _ (by decide) (by decide) (by decide) (by decide), by decide +kernel⟩]
    decide +kernel

end App
end CCGL
