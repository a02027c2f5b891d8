import Verif.Lemmas.AppGfsFewGroups
/-!
# Lemmas about the writing steps of jobs that store files without NoData cells
-/
namespace CCGL
namespace App
open Fs Disk Main Raster Gfs Disk.Spec App.Spec

theorem holdsSome_congr {rnd : ℚ → ℚ} {st st' : Store} {name : Str} {ty : RDT} {h : Header} {m : Int} {w : Nat → Int → Int → ℚ} {S : Int → Int → Prop}
    (hn : Char.ofNat 0 ∉ name) (hf : CCGL.Spec.filesOf st' ⟨name, fewOpts ty⟩ = CCGL.Spec.filesOf st ⟨name, fewOpts ty⟩)
    (H : HoldsSome rnd st name (fewOpts ty) h m w S) : HoldsSome rnd st' name (fewOpts ty) h m w S := by
  refine ⟨H.header, H.nonempty, ?_⟩
  intro ok1 ok2 h1 h2
  have e := readGridfs_congr (rnd := rnd) (T := .double) (ok1 := ok1) (ok2 := ok2) (rd := true) (h := initialHeader) (s := initialStr)
    (jobOpts_good false ty hn) hf
  dsimp only at e
  rw [jobOpts_false] at e
  rw [e]
  exact H.reads ok1 ok2 h1 h2

theorem fewSingle_congr {rnd : ℚ → ℚ} {st st' : Store} {name : Str} {ty : RDT} {h : Header} {m : Int} {u : Nat → Int → Int → ℚ} {c : Int → Int → Prop}
    (hn : Char.ofNat 0 ∉ name) (hf : CCGL.Spec.filesOf st' ⟨name, fewOpts ty⟩ = CCGL.Spec.filesOf st ⟨name, fewOpts ty⟩)
    (H : FewSingle rnd st name (fewOpts ty) h m u c) : FewSingle rnd st' name (fewOpts ty) h m u c := by
  obtain ⟨r0, r1, c0, c1, hb, hw⟩ := H
  exact ⟨r0, r1, c0, c1, hb, holdsSome_congr hn hf hw⟩

/-- What holds after the files of the groups (if any) have been stored. -/
theorem step_groups_few {rnd : ℚ → ℚ} (hrnd : ∀ v, CCGL.Spec.Representable .float v → rnd v = v) {st : Store} {mode : IOMode} {j : Job} {jd : JobDb} {V : View}
    {fill : ℚ} {m : Int} {rs : RasterS} (H : Ready rs V.hdr V.val V.grp j.default.toQ fill) (hl : rs.ras.nLyrs = 1) (O : FewOut st mode j jd V fill m)
    (hin : ∀ k row col, V.grp k row col → V.hdr.grid.CellInside row col) :
    ∃ s1, (if outSubset mode then do
        let w ← outputSubsets rnd .double jd.rms jd.atts st rs jd.own jd.core j.out (jobOpts false j.type) false true false (useTable j) (useDflt j)
        return w.2.1
      else return st : Out Store) = .ok s1 ∧
      (∀ R : CCGL.Spec.Key, (∀ k, WantsSingle mode → Present V.grp k → R.name ≠ CCGL.Spec.subsetFile k j.out) → CCGL.Spec.filesOf s1 R = CCGL.Spec.filesOf st R) ∧
      (WantsSingle mode → ∀ k, Present V.grp k → FewSingle rnd s1 (CCGL.Spec.subsetFile k j.out) (fewOpts j.type) V.hdr m (cellOut j V.val fill) (V.grp k)) ∧
      (WantsAll mode → (j.recls = true → ∃ k, Present V.grp k) → ∀ f ∈ s1, CCGL.Spec.Has f ⟨storedName j.out, fewOpts j.type⟩ →
        CCGL.Spec.Has f ⟨storedName j.out, outOpts .double jd.own (fewOpts j.type) false⟩) := by
  by_cases hm : WantsSingle mode
  · rw [if_pos ((outSubset_iff mode).2 hm)]
    obtain ⟨s1, o, b, e, h1, h2⟩ := store_groups_few hrnd H hl O hin hm
    refine ⟨s1, by rw [e]; rfl, fun R hR => h1 R (fun k hk => hR k hm hk), fun _ k hk => (h2 k hk).1, ?_⟩
    intro ha hany f hf hh
    by_cases h0 : Present V.grp 0
    · have := (h2 0 h0).2 f hf
      rw [← stored_zero] at this
      exact this hh
    · have hsame : ∀ o : Opts, CCGL.Spec.filesOf s1 ⟨storedName j.out, o⟩ = CCGL.Spec.filesOf st ⟨storedName j.out, o⟩ := by
        intro o
        apply h1
        intro k hk he
        have he : storedName j.out = CCGL.Spec.subsetFile k j.out := he
        rw [stored_zero, ← subFile_eq, ← subFile_eq] at he
        rw [← subFile_inj he] at hk
        exact h0 hk
      have h3 : f ∈ CCGL.Spec.filesOf s1 ⟨storedName j.out, fewOpts j.type⟩ := mem_filesOf.2 ⟨hf, hh⟩
      rw [hsame] at h3
      obtain ⟨h4, h5⟩ := mem_filesOf.1 h3
      exact O.old _ (.inr ⟨ha, hany, rfl⟩) f h4 h5
  · rw [if_neg (fun h => hm ((outSubset_iff mode).1 h))]
    exact ⟨st, rfl, fun _ _ => rfl, fun h => absurd h hm, fun ha hany => O.old _ (.inr ⟨ha, hany, rfl⟩)⟩

/-- A reclassification job stores its outputs. -/
theorem write_recls_few {sys : Sys} (hrnd : ∀ v, CCGL.Spec.Representable .float v → sys.rnd v = v) {st : Store} {mode : IOMode} {j : Job} {jd : JobDb} {V : View}
    {fill : ℚ} {m : Int} {rs : RasterS} {noMask : Bool} {C : Int → Int → Prop} (hre : j.recls = true) (H : Ready rs V.hdr V.val V.grp j.default.toQ fill) (hl : rs.ras.nLyrs = 1)
    (O : FewOut st mode j jd V fill m) (hin : ∀ k row col, V.grp k row col → V.hdr.grid.CellInside row col)
    (hcells : WantsAll mode → (∃ k, Present V.grp k) → ∃ ps, rs.ras.posData = some ps ∧ ∀ row col, (row, col) ∈ ps ↔ V.hdr.grid.CellInside row col ∧ C row col) :
    ∃ st', writeJobDb sys.rnd false mode jd j noMask rs st = .ok st' ∧ OthersStay st st' mode j V.grp ∧ FewDone sys.rnd st' mode j V fill m C := by
  obtain ⟨s1, e1, f1, d1, o1⟩ := step_groups_few hrnd H hl O hin
  have hT : useTable j = tableOf j.table := by unfold useTable; rw [hre, if_pos rfl]
  have hD : useDflt j = j.default.toQ := by unfold useDflt; rw [hre, if_pos rfl]
  rw [hT, hD] at e1
  have hw : writeJobDb sys.rnd false mode jd j noMask rs st = (do
      if outAll mode then do
        let w ← outputSubsets sys.rnd .double (fun _ => jd.rm) (fun _ => jd.att) s1 rs jd.own jd.core j.out (jobOpts false j.type) false true true
          (tableOf j.table) j.default.toQ
        return w.2.1
      else return s1 : Out Store) := by
    unfold writeJobDb
    dsimp only
    rw [hre, if_pos rfl, e1]
    rfl
  rw [hw]
  by_cases hm : WantsAll mode
  · rw [if_pos ((outAll_iff mode).2 hm)]
    by_cases hp : ∃ k, Present V.grp k
    · obtain ⟨s2, o, b, e2, f2, d2⟩ := store_comb_few hrnd H O hre hm hp (hcells hm hp) (o1 hm (fun _ => hp))
      refine ⟨s2, by rw [e2]; rfl, ?_, ⟨?_, fun _ _ _ => d2, fun h => by rw [hre] at h; cases h⟩⟩
      · intro R hR
        rw [f2 R (hR _ (.inr ⟨hm, fun _ => hp, rfl⟩)), f1 R (fun k hs hk => hR _ (.inl ⟨hs, k, hk, rfl⟩))]
      · intro hs k hk h0
        refine fewSingle_congr (few_file_key O k).name (f2 _ ?_) (d1 hs k hk)
        intro he
        have he : CCGL.Spec.subsetFile k j.out = storedName j.out := he
        rw [stored_zero, ← subFile_eq, ← subFile_eq] at he
        exact h0 hm (subFile_inj he)
    · have hs : rs.subs = [] := by
        by_contra hne
        exact hp (H.any.2 hne)
      refine ⟨s1, ?_, ?_, ⟨fun h k hk => absurd ⟨k, hk⟩ hp, fun _ _ h => absurd h hp, fun h => by rw [hre] at h; cases h⟩⟩
      · unfold outputSubsets
        cases hvd : rs.ras.validData with
        | false => rfl
        | true =>
          rw [if_neg (by simp), if_pos hs]
          rfl
      · intro R hR
        exact f1 R (fun k hs hk => hR _ (.inl ⟨hs, k, hk, rfl⟩))
  · rw [if_neg (fun h => hm ((outAll_iff mode).1 h))]
    refine ⟨s1, rfl, fun R hR => f1 R (fun k hs hk => hR _ (.inl ⟨hs, k, hk, rfl⟩)), ⟨fun h k hk _ => d1 h k hk, fun _ h => absurd h hm, fun _ h => absurd h hm⟩⟩

/-- A job that stores the groups of a raster as they are. -/
theorem write_groups_few {sys : Sys} (hrnd : ∀ v, CCGL.Spec.Representable .float v → sys.rnd v = v) {st : Store} {mode : IOMode} {j : Job} {jd : JobDb} {V : View}
    {fill : ℚ} {m : Int} {rs y : RasterS} {noMask : Bool} {C : Int → Int → Prop} (hre : j.recls = false) (hs : WantsSingle mode)
    (hy : (if noMask then do
            let b ← buildSubSet rs []
            return b.1
          else return rs : Out RasterS) = .ok y)
    (H : Ready y V.hdr V.val V.grp j.default.toQ fill) (hl : y.ras.nLyrs = 1) (O : FewOut st mode j jd V fill m)
    (hin : ∀ k row col, V.grp k row col → V.hdr.grid.CellInside row col) {w : Int → Int → ℚ}
    (hw : WantsAll mode → Shows y.ras V.hdr w ∧ (∃ r1 ps, FewStream y.ras V.hdr w C r1 ps) ∧ ∀ row col, V.hdr.grid.CellInside row col →
      (w row col = V.val row col ∨ w row col = V.hdr.noData) ∧ (HasValue V.hdr V.val row col → w row col = V.val row col) ∧
      (¬ HasValue V.hdr V.val row col → floatEqual (w row col) V.hdr.noData = true)) :
    ∃ st', writeJobDb sys.rnd false mode jd j noMask rs st = .ok st' ∧ OthersStay st st' mode j V.grp ∧ FewDone sys.rnd st' mode j V fill m C := by
  obtain ⟨s1, e1, f1, d1, o1⟩ := step_groups_few hrnd H hl O hin
  rw [if_pos ((outSubset_iff mode).2 hs)] at e1
  have hT : useTable j = [] := by unfold useTable; rw [hre, if_neg (by simp)]
  have hD : useDflt j = NODATA := by unfold useDflt; rw [hre, if_neg (by simp)]
  rw [hT, hD] at e1
  obtain ⟨x, ex, e1⟩ := Out.bind_ok e1
  simp only [Out.pure_eq, Out.ok.injEq] at e1
  have hwr : writeJobDb sys.rnd false mode jd j noMask rs st = (do
      if outAll mode then do
        let w ← outputToMongo sys.rnd .double jd.rm jd.att s1 y.ras jd.own jd.core ("0_".toList ++ j.out) (jobOpts false j.type) false
        return w.2.2.1
      else return s1 : Out Store) := by
    unfold writeJobDb
    dsimp only
    rw [hre, if_neg (by simp), if_pos ((outSubset_iff mode).2 hs), hy, Out.ok_bind, ex, Out.ok_bind, Out.pure_eq, Out.ok_bind, e1]
  rw [hwr]
  by_cases hm : WantsAll mode
  · rw [if_pos ((outAll_iff mode).2 hm)]
    obtain ⟨w1, ⟨r1, ps, hfs⟩, w2⟩ := hw hm
    have h1 := O.one hre
    subst h1
    have hB : BucketFew s1 j jd V.hdr := ⟨by rw [stored_zero]; exact few_file_key O 0, O.whole hm, O.type, O.rm, O.att, o1 hm (fun h => by rw [hre] at h; cases h)⟩
    obtain ⟨s2, ok, e2, ok2, f2, d2, -⟩ := store_few hrnd w1 H.hnd hfs hB (by
      intro row col hin
      rcases (w2 row col hin).1 with q | q
      · rw [q]; exact O.cells hre row col hin
      · rw [q]; exact O.nodata)
    have hok := ok2.2 O.done.1
    refine ⟨s2, ?_, ?_, ⟨?_, fun h => by (rw [hre] at h; cases h), fun _ _ => ⟨w, d2 hok, fun row col hin _ => (w2 row col hin).2⟩⟩⟩
    · have : "0_".toList ++ j.out = storedName j.out := rfl
      rw [this, e2]
      rfl
    · intro R hR
      rw [f2 R (hR _ (.inr ⟨hm, fun h => by (rw [hre] at h; cases h), rfl⟩)), f1 R (fun k hs hk => hR _ (.inl ⟨hs, k, hk, rfl⟩))]
    · intro _ k hk h0
      refine fewSingle_congr (few_file_key O k).name (f2 _ ?_) (d1 hs k hk)
      intro he
      have he : CCGL.Spec.subsetFile k j.out = storedName j.out := he
      rw [stored_zero, ← subFile_eq, ← subFile_eq] at he
      exact h0 hm (subFile_inj he)
  · rw [if_neg (fun h => hm ((outAll_iff mode).1 h))]
    refine ⟨s1, rfl, fun R hR => f1 R (fun k hs hk => hR _ (.inl ⟨hs, k, hk, rfl⟩)), ⟨fun h k hk _ => d1 h k hk, fun _ h => absurd h hm, fun _ h => absurd h hm⟩⟩

end App
end CCGL
