import Verif.Props.AppCrash
import Verif.Props.AppCom
/-!
# A run of `mask_rasterio` in the mode COM is stopped and started again (C101)
-/
namespace CCGL
namespace App
open Fs Disk Main Raster Disk.Spec App.Spec

namespace Spec

/-- The disks a run in the mode COM can leave behind if it is stopped: some jobs are done, the next one may have changed its output file in any way. -/
def StoppedCom (sys : Sys) (c : Cfg) (xs : List (Job × ComPlan)) (d d' : Disk) (done : List (Job × ComPlan)) : Prop :=
  ∃ m, Loaded d c (some m) ∧ ∃ rest, xs = done ++ rest ∧ ∃ d1 m1, (done.map (·.1)).foldlM (comJob sys) (d, m) = .ok (d1, m1) ∧
    OnlyAt d1 d' (fun q => ∃ x, rest.head? = some x ∧ ComTarget x.2 q)

/-- No job reads the output of a job of the run, and no two jobs write the same file. -/
def SeparateCom (xs : List (Job × ComPlan)) : Prop :=
  (∀ x ∈ xs, ∀ y ∈ xs, ∀ i ∈ y.2.ins, ¬ ComTarget x.2 i.2.1) ∧ xs.Pairwise (fun a b => ∀ q, ComTarget a.2 q → ¬ ComTarget b.2 q)

end Spec

theorem separate_com {xs : List (Job × ComPlan)} (h : SeparateCom xs) : ApartCom xs := by
  unfold ApartCom
  refine (List.pairwise_iff_forall_sublist.2 fun {a b} hs => ?_)
  have ha : a ∈ xs := hs.subset (by simp)
  have hb : b ∈ xs := hs.subset (by simp)
  intro q hq
  refine ⟨fun i hi he => h.1 a ha b hb i hi (he ▸ hq), ?_⟩
  exact (List.pairwise_iff_forall_sublist.1 h.2 hs) q hq

theorem readFromFile_only {d d' : Disk} {T : Path → Prop} (hw : Fs.Spec.WF d.fs) (hr : OnlyAt d d' T) {s : Str} {q : Path} (e : d.fs.resolve s = some q) (hq : ¬ T q)
    (b : Bool) (x : ℚ) : readFromFile d' s b x = readFromFile d s b x := by
  have e' := resolve_only hr e hq
  have hf : fileExists d'.fs s = fileExists d.fs s := by
    unfold fileExists; rw [e, e']
  have a : getAbsolutePath d'.fs s = getAbsolutePath d.fs s := by
    unfold getAbsolutePath; rw [e, e']
  have hsx : getSuffix d'.fs s = getSuffix d.fs s := by
    unfold getSuffix; rw [a]
  have hdat : d'.data q = d.data q := (hr.same q hq).2
  have hdec : decode d' s = decode d s := by
    unfold decode
    rw [hsx, resolve_abs hr.wf, resolve_abs hw, e, e']
    simp only [Option.bind_some, hdat]
  unfold readFromFile
  rw [hdec, hf]

theorem gives_only {d d' : Disk} {T : Path → Prop} (hw : Fs.Spec.WF d.fs) (hr : OnlyAt d d' T) {g : Groups} {s : Str} {q : Path} {x} (hq : ¬ T q)
    (h : Gives d g s q x) : Gives d' g s q x := by
  have hN : ∀ {core}, Names d.fs s q core → Names d'.fs s q core := by
    rintro core ⟨p, dt, suf, hn, e1, e2⟩
    exact ⟨p, dt, suf, hr.nameIn hn, e1, e2⟩
  cases h with
  | piece h1 h2 h3 h4 h5 h6 => exact .piece (hN h1) h2 h3 (resolve_only hr h4 hq) (rasterFile_only hw hr h4 hq h5) h6
  | unnumbered h1 h2 => exact .unnumbered (hN h1) h2
  | nogroup h1 h2 h3 => exact .nogroup (hN h1) h2 h3
  | missing h1 h2 => exact .missing (hN h1) (by rw [(hr.same q hq).1]; exact h2)
  | refused h1 h2 h3 => exact .refused (hN h1) (resolve_only hr h2 hq) (fun b x => by rw [readFromFile_only hw hr h2 hq]; exact h3 b x)
  | unfit h1 h2 h4 h5 h6 => exact .unfit (hN h1) h2 (resolve_only hr h4 hq) (rasterFile_only hw hr h4 hq h5) h6

theorem comOk_only {sys : Sys} {d d' : Disk} {hM : Header} {vM : Int → Int → ℚ} {j : Job} {pl : ComPlan} {T : Path → Prop} (hw : Fs.Spec.WF d.fs)
    (hr : OnlyAt d d' T) (hi : ∀ x ∈ pl.ins, ¬ T x.2.1) (H : ComOk sys d hM vM j pl) : ComOk sys d' hM vM j pl :=
  ⟨⟨H.out, hr.nameIn H.name, H.kind, hr.nodir H.nodir, writable_only hr H.write, H.hdr, H.vals, H.nodata⟩, H.fmts, H.ins,
    fun x hx => gives_only hw hr (hi x hx) (H.gives x hx)⟩

/-- C101: a run in the mode COM is stopped. -/
theorem C101_com (sys : Sys) {w : World} {d : Disk} {args : List Str} {c : Cfg} {xs : List (Job × ComPlan)} (hw : Fs.Spec.WF d.fs)
    (hc : configure w args = .ok (.go c)) (hjs : jobs c = .ok (xs.map (·.1))) (hmode : c.mode = .com)
    {hM : Header} {vM : Int → Int → ℚ} (hf : c.maskFmt = .sfile) (hmask : RasterFile d c.maskPath hM vM) (hv : ∃ row col, HasValue hM vM row col) {qM : Path}
    (hq : d.fs.resolve c.maskPath = some qM) (hqn : ∀ x ∈ xs, ¬ ComTarget x.2 qM) (hA : SeparateCom xs) (hj : ∀ x ∈ xs, ComOk sys d hM vM x.1 x.2)
    {d1 : Disk} {done : List (Job × ComPlan)} (hs : StoppedCom sys c xs d d1 done) :
    OnlyAt d d1 (fun q => ∃ x ∈ xs, ComTarget x.2 q) ∧ (∀ x ∈ done, ComDone d1 hM vM x.1 x.2) ∧
    ∃ d', run sys w d1 args = .ok (0, d') ∧ Rewritten d1 d' (fun q => ∃ x ∈ xs, ComTarget x.2 q) ∧ ∀ x ∈ xs, ComDone d' hM vM x.1 x.2 := by
  obtain ⟨M, eM, hb, hcl, hg, hn, hval, h2, hl, hnc⟩ := mask_file hmask NODATA
  obtain ⟨m, b, eb, hm⟩ := cutMask_of hb hcl hg hn hval h2 hv
  obtain ⟨m', hm', rest, hxs, d0, m1, e, hr⟩ := hs
  have em : m' = m := by
    obtain ⟨m0, e1, e2⟩ := hm'
    rw [loadMask_file hf hmask eM] at e1
    injection e1 with e1
    injection e1 with e1
    subst e1
    unfold prepareMask at e2
    dsimp only at e2
    rw [if_neg (by rw [hmode]; simp), eb] at e2
    exact (Option.some.inj (Out.ok.inj e2)).symm
  subst em
  have hsub : ∀ x ∈ done, x ∈ xs := fun x h => by rw [hxs]; exact List.mem_append_left _ h
  have hA' : ApartCom done := by
    have := separate_com hA
    rw [hxs] at this
    unfold ApartCom at this ⊢
    exact (List.pairwise_append.1 this).1
  obtain ⟨d2, m2, e2, -, h1, h3⟩ := C79_batch sys done d m' hw hm.comMask (fun x h => hj x (hsub x h)) hA'
  rw [e] at e2
  injection e2 with e2
  injection e2 with e2 _
  subst e2
  have hd0 : ∀ q, (∃ x ∈ done, ComTarget x.2 q) → d.fs.kindOf q ≠ some .dir := by
    rintro q ⟨x, h, hq⟩
    exact comTarget_nodir (hj x (hsub x h)) hq
  have ho := rewritten_only h1 hd0
  have hO : OnlyAt d d1 (fun q => ∃ x ∈ xs, ComTarget x.2 q) := by
    refine ho.trans hr ?_ ?_
    · rintro q ⟨x, h, hq⟩
      exact ⟨x, hsub x h, hq⟩
    · rintro q ⟨x, h, hq⟩
      refine ⟨x, ?_, hq⟩
      rw [hxs]
      exact List.mem_append_right _ (List.mem_of_mem_head? h)
  refine ⟨hO, fun x h hany => ?_, C79_run sys hO.wf hc hjs hmode hf (rasterFile_only hw hO hq ?_ hmask) hv (separate_com hA)
    (fun x hx => comOk_only hw hO ?_ (hj x hx))⟩
  · have H := hj x (hsub x h)
    have ht : ComTarget x.2 (x.2.dir ++ [subsetCore 0 x.2.core ++ '.' :: x.2.suf]) := ⟨hany, rfl⟩
    have hN := nameIn_core (ho.nameIn H.name) (subsetCore_slash H.name.core 0)
    refine reads_only hN.wf hr (resolve_out hN (h1.file _ ⟨x, h, ht⟩)) ?_ (h3 x h hany)
    rintro ⟨y, hy, hq'⟩
    have hp := hA.2
    rw [hxs] at hp
    exact (List.pairwise_append.1 hp).2.2 x h y (List.mem_of_mem_head? hy) _ ht hq'
  · rintro ⟨x, hx, h⟩
    exact hqn x hx h
  · rintro i hi ⟨y, hy, h⟩
    exact hA.1 y hy x hx i hi h

end App
end CCGL
