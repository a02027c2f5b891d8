import Verif.Props.AppGfsCom
/-!
# All jobs of the mode COM of `mask_rasterio` with output to GridFS (C88)
-/
namespace CCGL
namespace App
open Fs Disk Main Raster Gfs Disk.Spec App.Spec

theorem numbers_congr {rnd : ℚ → ℚ} {st st' : Store} {name : Str} {opts : Opts} {cells : List ℚ} (hn : CCGL.Spec.GoodKey ⟨name, opts⟩)
    (he : CCGL.Spec.filesOf st' ⟨name, opts⟩ = CCGL.Spec.filesOf st ⟨name, opts⟩) (H : HoldsNumbers rnd st name (opts) cells) :
    HoldsNumbers rnd st' name (opts) cells := by
  refine ⟨H.count, ?_⟩
  intro ok1 ok2 h1 h2
  have := readGridfs_congr (rnd := rnd) (T := .double) (ok1 := ok1) (ok2 := ok2) (rd := true) (h := initialHeader) (s := initialStr)
    (hn) he
  dsimp only at this
  rw [this]
  exact H.reads ok1 ok2 h1 h2

theorem dbGives_same {rnd : ℚ → ℚ} {st st' : Store} {name : Str} {opts : Opts} {g : Groups} {ok1 ok2 : Nat → Bool} {rd : Bool} {s core : Str} {x}
    (he : ∀ R : CCGL.Spec.Key, R.name ≠ name → CCGL.Spec.filesOf st' R = CCGL.Spec.filesOf st R) (hk : CCGL.Spec.GoodKey ⟨s, opts⟩) (hne : s ≠ name)
    (H : DbGives rnd st (opts) g ok1 ok2 rd s core x) : DbGives rnd st' (opts) g ok1 ok2 rd s core x := by
  have he' := he ⟨s, opts⟩ hne
  cases H with
  | values h1 h2 h3 h4 h5 h6 h7 h8 => exact .values h1 h2 h3 h4 h5 (numbers_congr hk he' h6) h7 h8
  | box h1 h2 h3 h4 h5 h6 h7 h8 h9 => exact .box h1 h2 h3 h4 h5 (numbers_congr hk he' h6) h7 h8 h9
  | unnumbered h => exact .unnumbered h
  | nogroup h1 h2 => exact .nogroup h1 h2
  | missing h =>
    refine .missing ?_
    intro f hf hh
    have : f ∈ CCGL.Spec.filesOf st' ⟨s, opts⟩ := mem_filesOf.2 ⟨hf, hh⟩
    rw [he'] at this
    exact h f (mem_filesOf.1 this).1 hh
  | lost h => exact .lost h
  | unfit h1 h2 h3 h4 h5 h6 h7 h8 h9 => exact .unfit h1 h2 h3 h4 (numbers_congr hk he' h5) h6 h7 h8 h9

theorem comPieces_same {inc : Bool} {sys : Sys} {d : Disk} {st st' : Store} {g : Groups} {j : Job} {jd : JobDb} {ps : List (Option (Int × (Int → Int → ℚ)))} {name : Str}
    (he : ∀ R : CCGL.Spec.Key, R.name ≠ name → CCGL.Spec.filesOf st' R = CCGL.Spec.filesOf st R) (hne : j.inFmt = .gfs → name ∉ j.inputs)
    (H : ComPieces sys d st inc g j jd ps) : ComPieces sys d st' inc g j jd ps := by
  cases H with
  | files ins h1 h2 h3 h4 => exact .files ins h1 h2 h3 h4
  | bucket ins h1 h2 =>
    refine .bucket ins ⟨h1.fmt, h1.inputs, h1.name, ?_⟩ h2
    intro i x hx
    have hm := List.mem_of_getElem? hx
    refine dbGives_same he (jobOpts_good inc j.type (h1.name x hm).1) ?_ (h1.gives i x hx)
    intro e
    exact hne h1.fmt (by rw [h1.inputs, ← e]; exact List.mem_map_of_mem hm)

/-- What has to be known about a job of the mode COM with output to the bucket: what its inputs contribute (at least one of them something), and that the
bucket can take the result. -/
structure Spec.ComDbJob (sys : Sys) (d : Disk) (st : Store) (hM : Header) (vM : Int → Int → ℚ) (jj : Job × JobDb)
    (pieces : List (Option (Int × (Int → Int → ℚ)))) : Prop where
  fmt : jj.1.outFmt = .gfs ∧ jj.1.out ≠ []
  input : ComPieces sys d st true (byValue hM vM) jj.1 jj.2 pieces
  some : ∃ x ∈ pieces, x ≠ none
  out : BucketOut st jj.1 jj.2 hM
  fits : ∀ row col, hM.grid.CellInside row col → Fits jj.1.type (comVal hM vM pieces jj.1.default.toQ row col)

/-- C88: all jobs of the mode COM with output to the bucket, in their order, if there is a mask and no job writes to a file of a later job: each output
is the grid of the mask with the values of the pieces, or is missing if its four attempts fail; other files stay, the disk does not change and the exit
code is 0 in any case. -/
theorem C88_jobs_partial (sys : Sys) (hrnd : ∀ v, CCGL.Spec.Representable .float v → sys.rnd v = v) {d : Disk} {hM : Header} {vM : Int → Int → ℚ} :
    ∀ {js : List (Job × JobDb)} {ps : List (List (Option (Int × (Int → Int → ℚ))))} {st : Store} {m : RasterS}, ComMask m hM vM →
      js.Pairwise WritesApart → List.Forall₂ (ComDbJob sys d st hM vM) js ps →
      ∃ st', runJobsDb sys true .com (some m) d st js = .ok (0, d, st') ∧
        (∀ R : CCGL.Spec.Key, (∀ jj ∈ js, R.name ≠ storedName jj.1.out) → CCGL.Spec.filesOf st' R = CCGL.Spec.filesOf st R) ∧
        List.Forall₂ (fun jj p => InBucket sys st' jj hM (comVal hM vM p jj.1.default.toQ)) js ps := by
  intro js ps st m hm hA hF
  suffices h : ∃ st' m', js.foldlM (comJobDb sys true) (d, st, m) = .ok (d, st', m') ∧
      (∀ R : CCGL.Spec.Key, (∀ jj ∈ js, R.name ≠ storedName jj.1.out) → CCGL.Spec.filesOf st' R = CCGL.Spec.filesOf st R) ∧
      List.Forall₂ (fun jj p => InBucket sys st' jj hM (comVal hM vM p jj.1.default.toQ)) js ps by
    obtain ⟨st', m', e, h1, h2⟩ := h
    refine ⟨st', ?_, h1, h2⟩
    unfold runJobsDb
    rw [if_pos rfl]
    dsimp only
    rw [e]
    rfl
  induction js generalizing ps st m with
  | nil =>
    cases hF
    exact ⟨st, m, rfl, fun _ _ => rfl, .nil⟩
  | cons jj js ih =>
    cases hF with
    | @cons _ p _ ps hj hF =>
    obtain ⟨hA1, hA2⟩ := List.pairwise_cons.1 hA
    obtain ⟨st1, m1, e1, hm1, k1, k2, k3⟩ := C88_bucket_partial sys hrnd hm hj.input hj.some hj.fmt.1 hj.fmt.2 hj.out hj.fits
    have hF1 : List.Forall₂ (ComDbJob sys d st1 hM vM) js ps := by
      clear ih e1 hj hm1 k2 k3 hA hA2
      induction hF with
      | nil => exact .nil
      | @cons b t js' ss' hb hF' ih' =>
        have hab := hA1 b List.mem_cons_self
        exact .cons ⟨hb.fmt, comPieces_same k1 hab.2 hb.input, hb.some, out_same k1 hab.1.symm hb.out, hb.fits⟩
          (ih' (fun b hb => hA1 b (List.mem_cons_of_mem _ hb)))
    obtain ⟨st2, m2, e2, k4, k5⟩ := ih hm1 hA2 hF1
    have hk : CCGL.Spec.filesOf st2 ⟨storedName jj.1.out, wholeOpts jj.1.type⟩ = CCGL.Spec.filesOf st1 ⟨storedName jj.1.out, wholeOpts jj.1.type⟩ :=
      k4 _ (fun b hb => (hA1 b hb).1)
    refine ⟨st2, m2, by rw [List.foldlM_cons, e1]; exact e2, ?_, .cons ⟨?_, ?_⟩ k5⟩
    · intro R hR
      rw [k4 R (fun b hb => hR b (List.mem_cons_of_mem _ hb)), k1 R (hR jj List.mem_cons_self)]
    · intro h
      exact holds_congr hj.out.key.name hk (k2 h)
    · intro h
      rw [hk]; exact k3 h

end App
end CCGL
