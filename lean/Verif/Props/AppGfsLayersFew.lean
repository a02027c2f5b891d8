import Verif.Lemmas.AppGfsLayersFew
import Verif.Lemmas.AppGfsFewWrite
import Verif.Props.AppGfsLayersRun
import Verif.Props.AppGfsFewDecJobs
/-!
# C92: jobs of the mode MASK with several input files whose result goes to GridFS without the NoData cells
-/
namespace CCGL
namespace App
open Fs Disk Main Raster Gfs Disk.Spec App.Spec

/-- C92: a job of the mode MASK with several input files, a mask and output to GridFS without NoData cells: one file with all numbers of the cells of the mask. -/
theorem C92_gfs_few_mask_partial {sys : Sys} (hrnd : ∀ v, CCGL.Spec.Representable .float v → sys.rnd v = v) {d : Disk} {st : Store} {m : Raster} {hM hR : Header}
    {vM vR : Int → Int → ℚ} (hm : IsMask m hM vM) {j : Job} {jd : JobDb} {s : Str} {rest : List LayerFile} (hin : j.inFmt = .sfile)
    (hs : j.inputs = s :: rest.map (·.path)) (hne : rest ≠ []) (H : RasterFile d s hR vR) (Hl : ∀ l ∈ rest, RasterFile d l.path l.hdr l.val)
    (hg : CCGL.Spec.CommonGrid hR hM) (hgl : ∀ l ∈ rest, CCGL.Spec.CommonGrid l.hdr hM) (hov : Overlaps hM vM hR) (hout : j.outFmt = .gfs)
    (hre : j.recls = false) (ho : BucketLayersFew st j jd { hM with noData := renamedNd j.update hR.noData j.nodata.toQ } (rest.length + 1))
    (hf : FitLayers j.type hR vR j.default.toQ j.update j.nodata.toQ rest) :
    ∃ st' m', layerJobDb sys false .mask (d, st, some ⟨m, []⟩) (j, jd) = .ok (d, st', some ⟨m', []⟩) ∧ IsMask m' hM vM ∧
      StoredLayersFew sys st st' j jd hM hR.noData (rest.length + 1) (MaskedLayers hM vM hR vR j.default.toQ rest) (HasValue hM vM) := by
  obtain ⟨r, m', hi, hm', hfe, hb, hnc, h2, hl, hgr, hnd, hdf, ⟨ps, hp, hps⟩, hval⟩ := masked_layers_pos hm hne H Hl hg hgl hov j.default.toQ
  obtain ⟨st', e, hS⟩ := finish_fewL (sys := sys) hrnd (d := d) (st := st) (mask := some ⟨m, []⟩) (mask' := some ⟨m', []⟩) (j := j) (jd := jd) (subs := [])
    (n := rest.length + 1) (S := HasValue hM vM) hb hnc (by rw [hl]; push_cast; rfl) hgr hnd hval hout hre (by
      intro r' w q1 q2 q3 q4 q5 q6 q7 q8
      exact ⟨r', ps, few_storedL q1 q2 q3 q4 q8 (by rw [q5, hp]) hps⟩) ho (by
      intro row col hin l hln w hw
      cases l with
      | zero => exact fits_masked hf.first (hw.1 rfl)
      | succ k => exact fits_layer hf (List.getElem_mem (by omega : k < rest.length)) (hw.2 k (by omega) rfl))
  refine ⟨st', m', ?_, hm', hS⟩
  unfold layerJobDb
  rw [if_pos ⟨hin, by rw [hs]; exact hfe⟩]
  dsimp only
  rw [hs, hi, Out.ok_bind]
  exact e

/-- C92: the same without a mask; the stored cells are those where the first file (NoData renamed if asked for) is not NoData. -/
theorem C92_gfs_few_plain_partial {sys : Sys} (hrnd : ∀ v, CCGL.Spec.Representable .float v → sys.rnd v = v) {d : Disk} {st : Store} {hR : Header}
    {vR : Int → Int → ℚ} {j : Job} {jd : JobDb} {s : Str} {rest : List LayerFile} (hin : j.inFmt = .sfile)
    (hs : j.inputs = s :: rest.map (·.path)) (hne : rest ≠ []) (H : RasterFile d s hR vR) (Hl : ∀ l ∈ rest, RasterFile d l.path l.hdr l.val)
    (hgl : ∀ l ∈ rest, CCGL.Spec.CommonGrid l.hdr hR) (hout : j.outFmt = .gfs)
    (hre : j.recls = false) (hex : ∃ row col, hR.grid.CellInside row col ∧ plainCells j hR vR row col)
    (ho : BucketLayersFew st j jd { hR with noData := renamedNd j.update hR.noData j.nodata.toQ } (rest.length + 1))
    (hf : FitLayers j.type hR vR j.default.toQ j.update j.nodata.toQ rest) :
    ∃ st', layerJobDb sys false .mask (d, st, none) (j, jd) = .ok (d, st', none) ∧
      StoredLayersFew sys st st' j jd hR hR.noData (rest.length + 1) (PlainLayers hR vR rest) (plainCells j hR vR) := by
  obtain ⟨r, hi, hfe, hb, hnc, h2, hl, hgr, hnd, hdf, hp, hval⟩ := plain_layers_pos hne H Hl hgl j.default.toQ
  obtain ⟨st', e, hS⟩ := finish_fewL (sys := sys) hrnd (d := d) (st := st) (mask := none) (mask' := none) (j := j) (jd := jd) (subs := [])
    (n := rest.length + 1) (S := plainCells j hR vR) hb hnc (by rw [hl]; push_cast; rfl) hgr hnd hval hout hre (by
      intro r' w q1 q2 q3 q4 q5 q6 q7 q8
      have hw0 : ∀ row col, hR.grid.CellInside row col → w 0 row col = vR row col := fun row col hin => (q7 row col hin 0 (Nat.succ_pos _)).1 rfl
      have hiff : ∀ row col, hR.grid.CellInside row col → (NotNoData { hR with noData := renamedNd j.update hR.noData j.nodata.toQ }
          (fun row col => renamed j.update hR.noData j.nodata.toQ (w 0 row col)) row col ↔ plainCells j hR vR row col) := by
        intro row col hin
        unfold plainCells NotNoData
        dsimp only
        rw [hw0 row col hin]
      obtain ⟨r1, ps, hs1⟩ := few_validL (h := { hR with noData := renamedNd j.update hR.noData j.nodata.toQ })
        (w := fun l row col => renamed j.update hR.noData j.nodata.toQ (w l row col)) q1 (Nat.succ_pos _) q3 q4 q6 q8 (by rw [q5, hp]) (by
          obtain ⟨row, col, a, b⟩ := hex
          exact ⟨row, col, a, (hiff row col a).2 b⟩)
      refine ⟨r1, ps, hs1.out, ⟨hs1.order.1, fun row col => (hs1.order.2 row col).trans ?_⟩, hs1.ne⟩
      exact ⟨fun a => ⟨a.1, (hiff row col a.1).1 a.2⟩, fun a => ⟨a.1, (hiff row col a.1).2 a.2⟩⟩) ho (by
      intro row col hin l hln w hw
      cases l with
      | zero =>
        rw [hw.1 rfl]
        unfold renamed
        split
        · next hu => exact hf.first.new hu.1
        · exact hf.first.cells _ _ hin
      | succ k => exact fits_layer hf (List.getElem_mem (by omega : k < rest.length)) (hw.2 k (by omega) rfl))
  refine ⟨st', ?_, hS⟩
  unfold layerJobDb
  rw [if_pos ⟨hin, by rw [hs]; exact hfe⟩]
  dsimp only
  rw [hs, hi, Out.ok_bind]
  exact e

/-- What the jobs leave in the bucket: the files no job writes as before, and the outputs of every job. -/
def StackDoneFew (sys : Sys) (hdr : StackPlan → Header) (L : Job → StackPlan → Nat → Int → Int → ℚ → Prop) (S : Job → StackPlan → Int → Int → Prop)
    (xs : List ((Job × JobDb) × StackPlan)) (st st' : Store) : Prop :=
  (∀ R : CCGL.Spec.Key, (∀ x ∈ xs, R.name ≠ storedName x.1.1.out) → CCGL.Spec.filesOf st' R = CCGL.Spec.filesOf st R) ∧
  ∀ x ∈ xs, InBucketLayersFew sys st' x.1.1 (hdr x.2) x.2.hdr.noData (x.2.rest.length + 1) (L x.1.1 x.2) (S x.1.1 x.2)

theorem stack_few_batch {sys : Sys} {d : Disk} {I : Option RasterS → Prop} {ok : Job → StackPlan → Prop} {hdr : StackPlan → Header}
    {L : Job → StackPlan → Nat → Int → Int → ℚ → Prop} {S : Job → StackPlan → Int → Int → Prop}
    (step : ∀ st m jj p, I m → ok jj.1 p → StackJobFew d st jj p (hdr p) → ∃ (st' : Store) (m' : Option RasterS),
      layerJobDb sys false .mask (d, st, m) jj = .ok (d, st', m') ∧ I m' ∧
      StoredLayersFew sys st st' jj.1 jj.2 (hdr p) p.hdr.noData (p.rest.length + 1) (L jj.1 p) (S jj.1 p)) :
    ∀ (xs : List ((Job × JobDb) × StackPlan)) (st : Store) (m : Option RasterS), I m →
      (∀ x ∈ xs, ok x.1.1 x.2 ∧ StackJobFew d st x.1 x.2 (hdr x.2)) → xs.Pairwise StackApart →
      ∃ st' m', (xs.map (·.1)).foldlM (layerJobDb sys false .mask) (d, st, m) = .ok (d, st', m') ∧ I m' ∧ StackDoneFew sys hdr L S xs st st' := by
  intro xs
  induction xs with
  | nil =>
    intro st m hI _ _
    exact ⟨st, m, rfl, hI, fun _ _ => rfl, by intro x h; cases h⟩
  | cons x xs ih =>
    intro st m hI hx hA
    obtain ⟨hA1, hA2⟩ := List.pairwise_cons.1 hA
    obtain ⟨hok, H⟩ := hx x List.mem_cons_self
    obtain ⟨st1, m1, e1, hI1, k⟩ := step st m x.1 x.2 hI hok H
    have hx1 : ∀ y ∈ xs, ok y.1.1 y.2 ∧ StackJobFew d st1 y.1 y.2 (hdr y.2) := by
      intro y hy
      obtain ⟨a, b⟩ := hx y (List.mem_cons_of_mem _ hy)
      refine ⟨a, { b with out := { b.out with old := ?_ } }⟩
      intro f hf hh
      have h1 : f ∈ CCGL.Spec.filesOf st1 ⟨storedName y.1.1.out, fewOpts y.1.1.type⟩ := mem_filesOf.2 ⟨hf, hh⟩
      rw [k.others _ (fun h => hA1 y hy h.symm)] at h1
      exact b.out.old f (mem_filesOf.1 h1).1 hh
    obtain ⟨st2, m2, e2, hI2, k3, k4⟩ := ih st1 m1 hI1 hx1 hA2
    refine ⟨st2, m2, ?_, hI2, ?_, ?_⟩
    · rw [List.map_cons, List.foldlM_cons, e1]
      exact e2
    · intro R hR
      rw [k3 R (fun y hy => hR y (List.mem_cons_of_mem _ hy)), k.others R (hR x List.mem_cons_self)]
    · intro y hy
      rcases List.mem_cons.1 hy with rfl | hy
      · obtain ⟨w, w1, w2⟩ := k.file H.done
        exact ⟨w, w1, holdsSome_congr H.out.key.name (k3 _ (fun z hz => hA1 z hz)) w2⟩
      · exact k4 y hy

/-- C92: the jobs of the mode MASK with several files and output to GridFS without NoData cells, with a mask. -/
theorem C92_gfs_few_mask_jobs_partial {sys : Sys} (hrnd : ∀ v, CCGL.Spec.Representable .float v → sys.rnd v = v) {d : Disk} {st : Store} {m : Raster} {hM : Header}
    {vM : Int → Int → ℚ} (hm : IsMask m hM vM) {xs : List ((Job × JobDb) × StackPlan)} (hA : xs.Pairwise StackApart)
    (hj : ∀ x ∈ xs, (CCGL.Spec.CommonGrid x.2.hdr hM ∧ Overlaps hM vM x.2.hdr ∧ ∀ l ∈ x.2.rest, CCGL.Spec.CommonGrid l.hdr hM) ∧ StackJobFew d st x.1 x.2 hM) :
    ∃ st', runJobsDb sys false .mask (some ⟨m, []⟩) d st (xs.map (·.1)) = .ok (0, d, st') ∧
      StackDoneFew sys (fun _ => hM) (fun j p => MaskedLayers hM vM p.hdr p.val j.default.toQ p.rest) (fun _ _ => HasValue hM vM) xs st st' := by
  obtain ⟨st', m', e, -, h⟩ := stack_few_batch (sys := sys) (d := d) (I := fun m => ∃ r, m = some ⟨r, []⟩ ∧ IsMask r hM vM)
    (ok := fun _ p => CCGL.Spec.CommonGrid p.hdr hM ∧ Overlaps hM vM p.hdr ∧ ∀ l ∈ p.rest, CCGL.Spec.CommonGrid l.hdr hM) (hdr := fun _ => hM)
    (L := fun j p => MaskedLayers hM vM p.hdr p.val j.default.toQ p.rest) (S := fun _ _ => HasValue hM vM) (by
      rintro st _ jj p ⟨r, rfl, hr⟩ ⟨g1, g2, g3⟩ H
      obtain ⟨s, hs, hf⟩ := H.inputs
      obtain ⟨st', m', e, hm', hS⟩ := C92_gfs_few_mask_partial hrnd hr H.fmt.1 hs H.more.1 hf H.more.2 g1 g3 g2 H.fmt.2.1 H.fmt.2.2 H.out H.fits
      exact ⟨st', some ⟨m', []⟩, e, ⟨m', rfl, hm'⟩, hS⟩) xs st (some ⟨m, []⟩) ⟨m, rfl, hm⟩ hj hA
  exact ⟨st', runJobsDb_layers_few (.inl rfl) e, h⟩

/-- C92: the same without a mask. -/
theorem C92_gfs_few_plain_jobs_partial {sys : Sys} (hrnd : ∀ v, CCGL.Spec.Representable .float v → sys.rnd v = v) {d : Disk} {st : Store}
    {xs : List ((Job × JobDb) × StackPlan)} (hA : xs.Pairwise StackApart)
    (hj : ∀ x ∈ xs, ((∀ l ∈ x.2.rest, CCGL.Spec.CommonGrid l.hdr x.2.hdr) ∧
      ∃ row col, x.2.hdr.grid.CellInside row col ∧ plainCells x.1.1 x.2.hdr x.2.val row col) ∧ StackJobFew d st x.1 x.2 x.2.hdr) :
    ∃ st', runJobsDb sys false .mask none d st (xs.map (·.1)) = .ok (0, d, st') ∧
      StackDoneFew sys (fun p => p.hdr) (fun _ p => PlainLayers p.hdr p.val p.rest) (fun j p => plainCells j p.hdr p.val) xs st st' := by
  obtain ⟨st', m', e, -, h⟩ := stack_few_batch (sys := sys) (d := d) (I := fun m => m = none)
    (ok := fun j p => (∀ l ∈ p.rest, CCGL.Spec.CommonGrid l.hdr p.hdr) ∧ ∃ row col, p.hdr.grid.CellInside row col ∧ plainCells j p.hdr p.val row col)
    (hdr := fun p => p.hdr) (L := fun _ p => PlainLayers p.hdr p.val p.rest) (S := fun j p => plainCells j p.hdr p.val) (by
      rintro st _ jj p rfl g H
      obtain ⟨s, hs, hf⟩ := H.inputs
      obtain ⟨st', e, hS⟩ := C92_gfs_few_plain_partial hrnd H.fmt.1 hs H.more.1 hf H.more.2 g.1 H.fmt.2.1 H.fmt.2.2 g.2 H.out H.fits
      exact ⟨st', none, e, rfl, hS⟩) xs st none rfl hj hA
  exact ⟨st', runJobsDb_layers_few (.inl rfl) e, h⟩

/-- C92: a run of the program in the mode MASK with a mask in a file or in the bucket, outputs without NoData cells. -/
theorem C92_gfs_few_mask_run_partial {sys : Sys} (hrnd : ∀ v, CCGL.Spec.Representable .float v → sys.rnd v = v) {w : World} {md : MaskDb} {dbs : Nat → JobDb}
    {d : Disk} {st : Store} {args : List Str} {c : Cfg} {js : List Job} (hc : configure w args = .ok (.go c)) (hjs : jobs c = .ok js)
    (hu : c.useMongo = true) (hinc : c.incNodata = false) (hmode : c.mode = .mask) {hM : Header} {vM : Int → Int → ℚ} (hmask : MaskFrom sys md d st c hM vM)
    {xs : List ((Job × JobDb) × StackPlan)} (hxs : withDb dbs js = xs.map (·.1)) (hA : xs.Pairwise StackApart)
    (hj : ∀ x ∈ xs, (CCGL.Spec.CommonGrid x.2.hdr hM ∧ Overlaps hM vM x.2.hdr ∧ ∀ l ∈ x.2.rest, CCGL.Spec.CommonGrid l.hdr hM) ∧ StackJobFew d st x.1 x.2 hM) :
    ∃ st', runDb sys w md dbs d st args = .ok (0, d, st') ∧
      StackDoneFew sys (fun _ => hM) (fun j p => MaskedLayers hM vM p.hdr p.val j.default.toQ p.rest) (fun _ _ => HasValue hM vM) xs st st' := by
  obtain ⟨M, eM, hm⟩ := mask_is hmask
  obtain ⟨st', e, h⟩ := C92_gfs_few_mask_jobs_partial hrnd hm hA hj
  refine ⟨st', ?_, h⟩
  have hp : prepareMask c.mode (some ⟨M, []⟩) = .ok (some ⟨M, []⟩) := by
    unfold prepareMask
    dsimp only
    rw [if_pos hmode]
  rw [runDb_go hc hjs hu eM hp, hinc, hxs, hmode]
  exact e

/-- C92: a run of the program in the mode MASK without a mask, outputs without NoData cells. -/
theorem C92_gfs_few_plain_run_partial {sys : Sys} (hrnd : ∀ v, CCGL.Spec.Representable .float v → sys.rnd v = v) {w : World} {md : MaskDb} {dbs : Nat → JobDb}
    {d : Disk} {st : Store} {args : List Str} {c : Cfg} {js : List Job} (hc : configure w args = .ok (.go c)) (hjs : jobs c = .ok js)
    (hu : c.useMongo = true) (hinc : c.incNodata = false) (hmode : c.mode = .mask) (hno : c.maskPath = [])
    {xs : List ((Job × JobDb) × StackPlan)} (hxs : withDb dbs js = xs.map (·.1)) (hA : xs.Pairwise StackApart)
    (hj : ∀ x ∈ xs, ((∀ l ∈ x.2.rest, CCGL.Spec.CommonGrid l.hdr x.2.hdr) ∧
      ∃ row col, x.2.hdr.grid.CellInside row col ∧ plainCells x.1.1 x.2.hdr x.2.val row col) ∧ StackJobFew d st x.1 x.2 x.2.hdr) :
    ∃ st', runDb sys w md dbs d st args = .ok (0, d, st') ∧
      StackDoneFew sys (fun p => p.hdr) (fun _ p => PlainLayers p.hdr p.val p.rest) (fun j p => plainCells j p.hdr p.val) xs st st' := by
  obtain ⟨st', e, h⟩ := C92_gfs_few_plain_jobs_partial hrnd hA hj
  refine ⟨st', ?_, h⟩
  have hl : loadMaskDb sys md d st c = .ok (.go none) := by
    unfold loadMaskDb
    rw [if_pos hno]
  rw [runDb_go hc hjs hu hl rfl, hinc, hxs, hmode]
  exact e

end App
end CCGL
