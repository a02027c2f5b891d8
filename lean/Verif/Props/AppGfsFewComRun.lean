import Verif.Props.AppGfsFewCom
import Verif.Props.AppGfsComJobs
import Verif.Props.AppGfsFewRun
import Verif.Props.AppGfsComEx
import Verif.Props.AppGfsFewEx
/-!
# All jobs of the mode COM with output to GridFS, without NoData cells (C88, C91)
-/
namespace CCGL
namespace App
open Fs Disk Main Raster Gfs Disk.Spec App.Spec

/-- What has to be known about a job of the mode COM with output to the bucket and without NoData cells: what its inputs contribute (at least one of them
something), and that the bucket can take the values of the cells of the mask. -/
structure Spec.ComFewJob (sys : Sys) (d : Disk) (st : Store) (hM : Header) (vM : Int → Int → ℚ) (jj : Job × JobDb)
    (pieces : List (Option (Int × (Int → Int → ℚ)))) : Prop where
  fmt : jj.1.outFmt = .gfs ∧ jj.1.out ≠ []
  input : ComPieces sys d st false (byValue hM vM) jj.1 jj.2 pieces
  some : ∃ x ∈ pieces, x ≠ none
  out : BucketFew st jj.1 jj.2 hM
  fits : ∀ row col, HasValue hM vM row col → Fits jj.1.type (comVal hM vM pieces jj.1.default.toQ row col)

/-- C88: all jobs of the mode COM with output to the bucket and without NoData cells, in their order, if there is a mask and no job writes to a file of a
later job: each output has the values of the cells of the mask and no other, or is missing if its four attempts fail; other files stay, the disk does not
change and the exit code is 0 in any case. -/
theorem C88_few_jobs (sys : Sys) (hrnd : ∀ v, CCGL.Spec.Representable .float v → sys.rnd v = v) {d : Disk} {hM : Header} {vM : Int → Int → ℚ} :
    ∀ {js : List (Job × JobDb)} {ps : List (List (Option (Int × (Int → Int → ℚ))))} {st : Store} {m : RasterS}, ComFull m hM vM →
      js.Pairwise WritesApart → List.Forall₂ (ComFewJob sys d st hM vM) js ps →
      ∃ st', runJobsDb sys false .com (some m) d st js = .ok (0, d, st') ∧
        (∀ R : CCGL.Spec.Key, (∀ jj ∈ js, R.name ≠ storedName jj.1.out) → CCGL.Spec.filesOf st' R = CCGL.Spec.filesOf st R) ∧
        List.Forall₂ (fun jj p => InBucketFew sys st' jj hM (comVal hM vM p jj.1.default.toQ) (HasValue hM vM)) js ps := by
  intro js ps st m hm hA hF
  suffices h : ∃ st' m', js.foldlM (comJobDb sys false) (d, st, m) = .ok (d, st', m') ∧
      (∀ R : CCGL.Spec.Key, (∀ jj ∈ js, R.name ≠ storedName jj.1.out) → CCGL.Spec.filesOf st' R = CCGL.Spec.filesOf st R) ∧
      List.Forall₂ (fun jj p => InBucketFew sys st' jj hM (comVal hM vM p jj.1.default.toQ) (HasValue hM vM)) js ps by
    obtain ⟨st', m', e, h1, h2⟩ := h
    refine ⟨st', ?_, h1, h2⟩
    unfold runJobsDb
    rw [if_pos rfl]
    dsimp only
    rw [e]
    rfl
  induction js generalizing ps st m with
  | nil =>
    cases hF
    exact ⟨st, m, rfl, fun _ _ => rfl, .nil⟩
  | cons jj js ih =>
    cases hF with
    | @cons _ p _ ps hj hF =>
    obtain ⟨hA1, hA2⟩ := List.pairwise_cons.1 hA
    obtain ⟨st1, m1, e1, hm1, k1, k2, k3⟩ := C88_few sys hrnd hm hj.input hj.some hj.fmt.1 hj.fmt.2 hj.out hj.fits
    have hF1 : List.Forall₂ (ComFewJob sys d st1 hM vM) js ps := by
      clear ih e1 hj hm1 k2 k3 hA hA2
      induction hF with
      | nil => exact .nil
      | @cons b t js' ss' hb hF' ih' =>
        have hab := hA1 b List.mem_cons_self
        exact .cons ⟨hb.fmt, comPieces_same k1 hab.2 hb.input, hb.some, bucketFew_same k1 hab.1.symm hb.out, hb.fits⟩
          (ih' (fun b hb => hA1 b (List.mem_cons_of_mem _ hb)))
    obtain ⟨st2, m2, e2, k4, k5⟩ := ih hm1 hA2 hF1
    have hk : CCGL.Spec.filesOf st2 ⟨storedName jj.1.out, fewOpts jj.1.type⟩ = CCGL.Spec.filesOf st1 ⟨storedName jj.1.out, fewOpts jj.1.type⟩ :=
      k4 _ (fun b hb => (hA1 b hb).1)
    refine ⟨st2, m2, by rw [List.foldlM_cons, e1]; exact e2, ?_, .cons ⟨?_, ?_⟩ k5⟩
    · intro R hR
      rw [k4 R (fun b hb => hR b (List.mem_cons_of_mem _ hb)), k1 R (hR jj List.mem_cons_self)]
    · intro h
      exact holdsCells_congr hj.out.key.name hk (k2 h)
    · intro h
      rw [hk]; exact k3 h

/-- C91: a run of the mode COM with `-include_nodata 0` and a mask in a file or in the bucket: the pieces are put together and the cells of the mask are
stored. -/
theorem C91_com_few_run {sys : Sys} (hrnd : ∀ v, CCGL.Spec.Representable .float v → sys.rnd v = v) {w : World} {md : MaskDb} {dbs : Nat → JobDb}
    {d : Disk} {st : Store} {args : List Str} {c : Cfg} {js : List Job} (hc : configure w args = .ok (.go c)) (hjs : jobs c = .ok js)
    (hu : c.useMongo = true) (hinc : c.incNodata = false) (hmode : c.mode = .com) {hM : Header} {vM : Int → Int → ℚ}
    (hmask : MaskFrom sys md d st c hM vM) (hv : ∃ row col, HasValue hM vM row col)
    {ps : List (List (Option (Int × (Int → Int → ℚ))))} (hA : (withDb dbs js).Pairwise WritesApart)
    (hj : List.Forall₂ (ComFewJob sys d st hM vM) (withDb dbs js) ps) :
    ∃ st', runDb sys w md dbs d st args = .ok (0, d, st') ∧
      (∀ R : CCGL.Spec.Key, (∀ jj ∈ withDb dbs js, R.name ≠ storedName jj.1.out) → CCGL.Spec.filesOf st' R = CCGL.Spec.filesOf st R) ∧
      List.Forall₂ (fun jj p => InBucketFew sys st' jj hM (comVal hM vM p jj.1.default.toQ) (HasValue hM vM)) (withDb dbs js) ps := by
  obtain ⟨M, eM, hb, hcl, hg, hn, hval, h2⟩ := mask_source hmask
  obtain ⟨m, b, eb, hm⟩ := cutMask_of hb hcl hg hn hval h2 hv
  obtain ⟨st', e, h1, h2⟩ := C88_few_jobs sys hrnd (CutMask.comFull hm) hA hj
  refine ⟨st', ?_, h1, h2⟩
  rw [runDb_go hc hjs hu eM (prepare_cut (by rw [hmode]; simp) eb), hinc, hmode]
  exact e

/-- The mask of C79 with its groups. -/
theorem exCom_full : ∃ m, ComFull m (exComH 2 3) exComM := by
  obtain ⟨M, eM, hb, hcl, hg, hn, hval, h2, hl, hnc⟩ := mask_file exCom_m NODATA
  obtain ⟨m, b, eb, hm⟩ := cutMask_of hb hcl hg hn hval h2 ⟨0, 0, exCom_00.1⟩
  exact ⟨m, CutMask.comFull hm⟩

def exComFewJob : Job := { exComJob with out := "x".toList, outFmt := .gfs }

theorem exCom_val : ∀ k row col, byValue (exComH 2 3) exComM k row col → comVal (exComH 2 3) exComM exComPlan.pieces exComJob.default.toQ row col =
    match lastPiece exComPlan.pieces k with
    | some w => w row col
    | none => if floatEqual (exComH 2 3).noData 4 = true then (exComH 2 3).noData else 4 := by
  intro k row col hk
  unfold comVal
  rw [if_pos hk.1, hk.2]
  rfl

/-- The job with the pieces of C79 (files) meets the hypotheses with an empty bucket. -/
theorem exComFew_ok : ComFewJob exSys exComDisk [] (exComH 2 3) exComM (exComFewJob, exDb) exComPlan.pieces where
  fmt := ⟨rfl, by decide⟩
  input := .files exComPlan.ins rfl rfl exCom_ok.gives rfl
  some := ⟨some (1, exW1), by
    show some (1, exW1) ∈ exComPlan.ins.map (fun x => x.2.2)
    exact List.mem_cons_self, by simp⟩
  out := ⟨ex_few_key, exComDb_storable 2 3 6 (by decide) (by decide) (by decide) (by decide) (by decide) (by decide), ⟨by decide, by decide, by decide⟩,
    fun _ => rfl, fun _ => .inl ⟨rfl, rfl⟩, by simp⟩
  fits := by
    intro row col hc
    have h : byValue (exComH 2 3) exComM (truncQ (exComM row col)) row col := ⟨hc, rfl⟩
    show Fits .double (comVal (exComH 2 3) exComM exComPlan.pieces exComJob.default.toQ row col)
    rw [exCom_val _ _ _ h]
    rcases exCom_cells h with h | h | h | h | h <;> obtain ⟨rfl, rfl, h⟩ := h <;> rw [h]
    · have := ex_fits 5 (by decide); exact_mod_cast this
    · have := ex_fits 4 (by decide)
      exact (by decide +kernel : ((4 : Int) : ℚ) = if floatEqual (exComH 2 3).noData 4 = true then (exComH 2 3).noData else 4) ▸ this
    · have := ex_fits 6 (by decide); exact_mod_cast this
    · have := ex_fits 7 (by decide); exact_mod_cast this
    · have := ex_fits 8 (by decide); exact_mod_cast this

/-- The run of this job: five numbers are stored, in the order of the cells of the mask; the cell that is not in the mask is left out. -/
example : ∃ m st', runJobsDb exSys false .com (some m) exComDisk [] [(exComFewJob, exDb)] = .ok (0, exComDisk, st') ∧
    ∃ v, HoldsCells exSys.rnd st' "0_x".toList (fewOpts .double) (exComH 2 3) v (HasValue (exComH 2 3) exComM) ∧
      v 0 0 = 5 ∧ v 0 1 = 4 ∧ v 0 2 = 6 ∧ v 1 0 = 7 ∧ v 1 1 = 8 ∧ ¬ HasValue (exComH 2 3) exComM 1 2 := by
  obtain ⟨m, hm⟩ := exCom_full
  obtain ⟨st', f1, -, f2⟩ := C88_few_jobs exSys (fun v _ => rfl) hm (List.pairwise_singleton _ _) (.cons exComFew_ok .nil)
  cases f2 with
  | cons a _ =>
    refine ⟨m, st', f1, _, a.1 ⟨0, by decide, rfl⟩, ?_, ?_, ?_, ?_, ?_, ?_⟩
    · exact (exCom_val _ _ _ exCom_00).trans rfl
    · exact (exCom_val _ _ _ exCom_01).trans (by decide +kernel)
    · exact (exCom_val _ _ _ exCom_02).trans rfl
    · exact (exCom_val _ _ _ exCom_10).trans rfl
    · exact (exCom_val _ _ _ exCom_11).trans rfl
    · rintro ⟨-, hv⟩; revert hv; decide +kernel

end App
end CCGL
