import Verif.Props.AppMany
/-!
# C98: a table with more columns than the job has input files
-/
namespace CCGL
namespace App
open Fs Disk Main Raster Disk.Spec App.Spec

theorem wide_holds {r : Raster} {ls ps} (hC : r.Compact ls ps) (h2 : r.is2d = true) :
    r.raster2 = some ls ∧ ls.length = ps.length ∧ ∀ c ∈ ls, (c.length : Int) = r.nLyrs := by
  obtain ⟨a, b, c⟩ := hC.holds
  rw [h2, if_pos rfl] at c
  exact ⟨c, hC.len, b⟩

theorem readAt_cases {α : Type} (p : Ptr α) (i : Int) : readAt p i = .ub ∨ ∃ a, readAt p i = .ok a := by
  unfold readAt
  cases p with
  | none => exact .inl rfl
  | some l =>
    dsimp only
    by_cases h : 0 ≤ i
    · rw [if_pos h]
      cases l[i.toNat]? with
      | none => exact .inl rfl
      | some a => exact .inr ⟨a, rfl⟩
    · rw [if_neg h]; exact .inl rfl

theorem collect_ub {α β : Type} {f : β → Out (Option (Int × α))} : ∀ {l : List β}, (∀ x ∈ l, f x = .ub ∨ ∃ it, f x = .ok (some it)) → (∃ x ∈ l, f x = .ub) →
    collectItems f l = .ub
  | [], _, h => by obtain ⟨x, hx, -⟩ := h; cases hx
  | b :: bs, h1, h2 => by
    unfold collectItems
    rcases h1 b List.mem_cons_self with h | ⟨it, h⟩
    · rw [h]; rfl
    · rw [h, Out.ok_bind]
      dsimp only
      have : ∃ x ∈ bs, f x = .ub := by
        obtain ⟨x, hx, hu⟩ := h2
        rcases List.mem_cons.1 hx with rfl | hx
        · rw [h] at hu; cases hu
        · exact ⟨x, hx, hu⟩
      rw [collect_ub (fun x hx => h1 x (List.mem_cons_of_mem _ hx)) this]
      rfl

theorem recls_cases (r : Raster) (t : IMap (List ℚ)) (k : Int) (dv : ℚ) (g l : Int) :
    reclsValue r t k true dv g l = .ub ∨ ∃ a, reclsValue r t k true dv g l = .ok a := by
  have htail : ∀ key : Int, (match t.get key with
      | some v => if (v.length : Int) > l then readAt (some v) l else .ok dv
      | none => .ok dv : Out ℚ) = .ub ∨ ∃ a, (match t.get key with
      | some v => if (v.length : Int) > l then readAt (some v) l else .ok dv
      | none => .ok dv : Out ℚ) = .ok a := by
    intro key
    cases t.get key with
    | none => exact .inr ⟨_, rfl⟩
    | some v =>
      dsimp only
      by_cases h : (v.length : Int) > l
      · rw [if_pos h]; exact readAt_cases _ _
      · rw [if_neg h]; exact .inr ⟨_, rfl⟩
  unfold reclsValue
  rw [if_pos rfl]
  by_cases h1 : r.raster1.isSome = true
  · rw [if_pos h1]
    rcases readAt_cases r.raster1 g with h | ⟨a, h⟩
    · rw [h]; exact .inl rfl
    · rw [h]; exact htail _
  · rw [if_neg h1]
    by_cases h2 : r.raster2.isSome = true
    · rw [if_pos h2]
      rcases readAt_cases r.raster2 g with h | ⟨a, h⟩
      · rw [h]; exact .inl rfl
      · rw [h]
        rcases readAt_cases (some a) l with h | ⟨b, h⟩
        · simp only [Out.ok_bind]; rw [h]; exact .inl rfl
        · simp only [Out.ok_bind]; rw [h]; exact htail _
    · rw [if_neg h2]; exact htail _

/-- The read of a layer the raster does not have. -/
theorem recls_wide {r : Raster} {ls ps} (hC : r.Compact ls ps) (h2 : r.is2d = true) (h1 : r.raster1 = none) (t : IMap (List ℚ)) (k : Int) (dv : ℚ) {i : Nat}
    (hi : i < ps.length) : reclsValue r t k true dv i r.nLyrs = .ub := by
  obtain ⟨a, b, c⟩ := wide_holds hC h2
  unfold reclsValue
  rw [if_pos rfl, h1, if_neg (by simp), a, if_pos (by rfl : (some ls).isSome = true), readAt_some_nat _ _ (by rw [b]; exact hi)]
  simp only [Out.ok_bind]
  have hb : readAt (some (ls[i]'(by rw [b]; exact hi))) r.nLyrs = (.ub : Out ℚ) := by
    have hc := c _ (List.getElem_mem (l := ls) (by rw [b]; exact hi))
    unfold readAt
    dsimp only
    rw [← hc, if_pos (by omega), Int.toNat_natCast, List.getElem?_eq_none le_rfl]
  rw [hb]
  rfl

theorem glob_first {rs ls ps G} (hc : Cut rs ls ps G) {k : Int} {s : Subset} (hk : rs.subs.get k = some s) :
    ∃ i : Nat, i < ps.length ∧ readAt s.glob 0 = .ok (i : Int) ∧ 0 < s.nCells := by
  have ho := hc.part.some k s hk
  have hl : 0 < (G k).length := List.length_pos_of_ne_nil ho.ne
  refine ⟨(G k)[0], hc.part.lt (List.getElem_mem hl), ?_, by rw [ho.n]; exact_mod_cast hl⟩
  have := readAt_some_nat ((G k).map (fun (i : Nat) => (i : Int))) 0 (by simpa using hl)
  rw [ho.glob]
  simpa using this

/-- The combined output reads a layer the raster does not have. -/
theorem wide_comb {rs ls ps G} (hc : Cut rs ls ps G) (hne : rs.subs ≠ []) (h2 : rs.ras.is2d = true) {t : IMap (List ℚ)} {m : Int} (ht : CCGL.Spec.TableOf t m)
    (hm : rs.ras.nLyrs < m) (dv : ℚ) : prepareComb rs true true t dv = .ub := by
  obtain ⟨n, hn⟩ := hc.lyrs
  have hmem : ∀ e ∈ rs.subs, rs.subs.get e.1 = some e.2 := fun e he => (IMap.mem_iff_get _ hc.part.sorted _ _).1 he
  obtain ⟨x, hx, -⟩ := subsetLyrs_recls n rs.subs (-1) (fun e he _ => hn _ _ (hmem e he)) (.inl rfl)
  have hsl : subsetLyrs rs.subs (decide (t = [])) = some x := by
    unfold subsetLyrs
    rw [decide_eq_false ht.1]
    exact hx
  have hm1 := ht.2.1
  unfold prepareComb
  rw [if_neg hne, reclsLyrs_table ht]
  dsimp only
  rw [hsl]
  dsimp only
  simp only [if_true]
  rw [if_pos (show m > 0 by omega), if_neg (show ¬ m < 0 by omega)]
  have hu : collectItems (fun (x : (Int × Subset × Bool) × (Int × Int)) => do
            let gidx ← readAt x.1.2.1.glob x.2.1
            let p ← readAt rs.ras.posIdx gidx
            let v ← combValue rs.ras x.1.1 x.1.2.1 true x.1.2.2 t (defaultOf rs.ras dv) m x.2.1 x.2.2
            return v.map (fun v => (p * m + x.2.2, v))) (combCells rs.subs rs.ras.noData (defaultOf rs.ras dv) m) = .ub := by
    apply collect_ub
    · intro y _
      rcases readAt_cases y.1.2.1.glob y.2.1 with h | ⟨g, h⟩
      · rw [h]; exact .inl rfl
      rw [h, Out.ok_bind]
      rcases readAt_cases rs.ras.posIdx g with h' | ⟨q, h'⟩
      · rw [h']; exact .inl rfl
      rw [h', Out.ok_bind]
      unfold combValue
      rw [h, Out.ok_bind, if_pos ht.1]
      rcases recls_cases rs.ras t y.1.1 (defaultOf rs.ras dv) g y.2.2 with h'' | ⟨a, h''⟩
      · rw [h'']; exact .inl rfl
      · rw [h'']; exact .inr ⟨_, rfl⟩
    · obtain ⟨e, es, he⟩ := List.exists_cons_of_ne_nil hne
      have hin : e ∈ rs.subs := by rw [he]; exact List.mem_cons_self
      have hk := hmem e hin
      obtain ⟨i, hi, hg, hp⟩ := glob_first hc hk
      have hly := hc.comp.holds.1
      refine ⟨((e.1, e.2, false), (0, rs.ras.nLyrs)), ?_, ?_⟩
      · unfold combCells
        refine List.mem_flatMap.2 ⟨e, hin, ?_⟩
        rw [if_pos (hc.use _ _ hk)]
        exact List.mem_map.2 ⟨(0, rs.ras.nLyrs), (mem_gridCells _ _ _).2 ⟨le_rfl, hp, by omega, hm⟩, rfl⟩
      · dsimp only
        rw [hg, Out.ok_bind]
        have hpi : ∃ q, readAt rs.ras.posIdx i = .ok q := by
          rw [hc.comp.pi]
          exact ⟨_, readAt_some_nat _ _ (by simpa using hi)⟩
        obtain ⟨q, hq⟩ := hpi
        rw [hq, Out.ok_bind]
        unfold combValue
        rw [hg, Out.ok_bind, if_pos ht.1, recls_wide hc.comp h2 (hc.one h2) t _ _ hi]
        rfl
  rw [hu]
  rfl

/-- So does the output of a group. -/
theorem wide_sub {rs ls ps G} (hc : Cut rs ls ps G) {k : Int} {s : Subset} (hk : rs.subs.get k = some s) (h2 : rs.ras.is2d = true) {t : IMap (List ℚ)} {m : Int}
    (ht : CCGL.Spec.TableOf t m) (hm : rs.ras.nLyrs < m) (dv : ℚ) : prepareSubsetData rs.ras k s true true t dv = .ub := by
  have hm1 := ht.2.1
  unfold prepareSubsetData
  rw [reclsLyrs_table ht]
  dsimp only
  simp only [if_true]
  rw [if_pos (show m > 0 by omega), if_neg (show ¬ m < 0 by omega)]
  have hu : collectItems (fun (x : Int × Int) => do
          let j ← readAt s.localIdx x.1
          let v ← subValue rs.ras k s true t (defaultOf rs.ras dv) m x.1 x.2
          return v.map (fun v => (j * m + x.2, v))) (Raster.gridCells s.nCells m) = .ub := by
    apply collect_ub
    · intro y _
      rcases readAt_cases s.localIdx y.1 with h | ⟨q, h⟩
      · rw [h]; exact .inl rfl
      rw [h, Out.ok_bind]
      unfold subValue
      rcases readAt_cases s.glob y.1 with h' | ⟨g, h'⟩
      · rw [h']; exact .inl rfl
      rw [h', Out.ok_bind, if_pos ht.1]
      rcases recls_cases rs.ras t k (defaultOf rs.ras dv) g y.2 with h'' | ⟨a, h''⟩
      · rw [h'']; exact .inl rfl
      · rw [h'']; exact .inr ⟨_, rfl⟩
    · obtain ⟨i, hi, hg, hp⟩ := glob_first hc hk
      have hly := hc.comp.holds.1
      refine ⟨(0, rs.ras.nLyrs), (mem_gridCells _ _ _).2 ⟨le_rfl, hp, by omega, hm⟩, ?_⟩
      dsimp only
      have hli : ∃ q, readAt s.localIdx 0 = .ok q := by
        have ho := hc.part.some k s hk
        have hl : 0 < (G k).length := List.length_pos_of_ne_nil ho.ne
        rw [ho.lidx]
        exact ⟨_, readAt_some_nat _ 0 (by simpa using hl)⟩
      obtain ⟨q, hq⟩ := hli
      rw [hq, Out.ok_bind]
      unfold subValue
      rw [hg, Out.ok_bind, if_pos ht.1, recls_wide hc.comp h2 (hc.one h2) t _ _ hi]
      rfl
  rw [hu]
  rfl

theorem wide_out {env : Env} {fmt : Disk.Fmt} {d : Disk} {rs ls ps G} (hc : Cut rs ls ps G) (hne : rs.subs ≠ []) (h2 : rs.ras.is2d = true) {t : IMap (List ℚ)} {m : Int}
    (ht : CCGL.Spec.TableOf t m) (hm : rs.ras.nLyrs < m) (dv : ℚ) (name : Str) (cb : Bool) : outputSubsetToFile env fmt d rs true cb name t dv = .ub := by
  unfold outputSubsetToFile
  rw [hc.comp.holds.valid, if_neg (by simp), if_neg hne]
  cases cb with
  | true =>
    rw [if_pos rfl, wide_comb hc hne h2 ht hm]
    rfl
  | false =>
    rw [if_neg (by simp)]
    obtain ⟨e, es, he⟩ := List.exists_cons_of_ne_nil hne
    have hk := (IMap.mem_iff_get _ hc.part.sorted e.1 e.2).1 (by rw [he]; exact List.mem_cons_self)
    rw [he]
    unfold subLoop
    unfold subPayload
    rw [hc.use _ _ hk, if_neg (by simp), wide_sub hc hk h2 ht hm]
    rfl

theorem wide_job (sys : Sys) {d : Disk} {mode : IOMode} {j : Job} {mk mk' : Option RasterS} {r r' : Raster} {subs : IMap Subset} {rs : RasterS} {b : Bool}
    {m : Int} (hin : j.inFmt = .sfile) (hout : j.outFmt = .sfile) (hre : j.recls = true) (hfe : filesExist d.fs j.inputs = true)
    (hi : initFiles d j.inputs false mk true j.default.toQ = .ok (some ⟨r, subs⟩, mk'))
    (e3 : (if j.update then r.replaceNoData j.nodata.toQ else .ok r : Out Raster) = .ok r') (eb : buildSubSet ⟨r', subs⟩ [] = .ok (rs, b))
    (hc : ∃ ls ps G, Cut rs ls ps G) (hne : rs.subs ≠ []) (h2 : rs.ras.is2d = true) (ht : CCGL.Spec.TableOf (numTable j) m) (hm : rs.ras.nLyrs < m)
    (hmode : WantsAll mode ∨ WantsSingle mode) : layerJob sys mode (d, mk) j = .ub := by
  obtain ⟨ls, ps, G, hc⟩ := hc
  have hw : writeJob sys mode j rs d = .ub := by
    unfold writeJob
    rw [if_neg (by rw [hout]; simp), hre, if_pos rfl]
    by_cases hs : WantsSingle mode
    · rw [if_pos ((outSubset_iff mode).2 hs), wide_out hc hne h2 (table_ok ht) hm]
      rfl
    · rw [if_neg (fun h => hs ((outSubset_iff mode).1 h))]
      simp only [Out.pure_eq, Out.ok_bind]
      rw [if_pos ((outAll_iff mode).2 (hmode.resolve_right hs)), wide_out hc hne h2 (table_ok ht) hm]
      rfl
  unfold layerJob
  dsimp only
  rw [if_pos ⟨hin, hfe⟩, hi]
  simp only [Out.ok_bind]
  rw [e3]
  simp only [Out.ok_bind]
  rw [hre, if_pos rfl, eb]
  simp only [Out.ok_bind, Out.pure_eq]
  rw [hw]
  rfl

/-- C98, what is not so: if the table has more columns than the job has input files and the first file has any value, the job reads numbers of a layer that
does not exist (beyond the end of the cell's array). Without mask. -/
theorem C98_false_wide_table (sys : Sys) {d : Disk} {mode : IOMode} {j : Job} {s : Str} {rest : List LayerFile} {hR : Header} {vR : Int → Int → ℚ} (hin : j.inFmt = .sfile)
    (hs : j.inputs = s :: rest.map (·.path)) (hne : rest ≠ []) (H : RasterFile d s hR vR)
    (Hl : ∀ l ∈ rest, RasterFile d l.path l.hdr l.val) (hgl : ∀ l ∈ rest, CCGL.Spec.CommonGrid l.hdr hR)
    (hout : j.outFmt = .sfile) (hre : j.recls = true) {m : Int} (hm : rest.length + 1 < m) (ht : CCGL.Spec.TableOf (numTable j) m)
    (hmode : WantsAll mode ∨ WantsSingle mode) (hv : ∃ row col, HasValue (plainHdr j hR) (plainVal j hR vR) row col) :
    layerJob sys mode (d, none) j = .ub := by
  obtain ⟨r, hi, hfe, hb, hnc, h2, hl, hgr, hnd, hdf, hval⟩ := plain_layers hne H Hl hgl j.default.toQ
  obtain ⟨r', e3, hb', hnc', h2d', hly', hhdr, hnd', hval'⟩ := rename_step hb j.update j.nodata.toQ
  obtain ⟨rs, b, eb, HR, q2, ql⟩ := ready_ownL (h := plainHdr j hR) (v := plainVal j hR vR) (V := fun _ _ _ _ => True) (dv := j.default.toQ) (m := 0) (n := rest.length + 1)
    hb' (by rw [h2d', h2]) (by rw [hly', hl]; push_cast; rfl) (by omega)
    (by rw [hhdr]; exact hgr) (by rw [hnd', hnd]; rfl) (by
      intro row col hij
      obtain ⟨w, w1, w2⟩ := hval row col hij 0 (by omega)
      obtain ⟨y, y1, y2⟩ := hval' row col 1
      have w1 : r.getValue row col 1 = .ok w := w1
      rw [w1] at y1
      cases y1
      rw [y2, hnd, w2.1 rfl]
      rfl) (fun _ _ _ _ _ _ _ => trivial) rfl
  obtain ⟨row, col, hv⟩ := hv
  have hsub := HR.any.1 ⟨_, row, col, hv, rfl⟩
  refine wide_job sys hin hout hre (by rw [hs]; exact hfe) (by rw [hs]; exact hi) e3 eb (HR.cut hsub) hsub (by rw [q2, h2d', h2]) ht (by rw [ql, hly', hl]; exact hm) hmode

/-- Two files and a table with three columns, in the mode MASK without mask. -/
example : layerJob exSys .mask (exRunDisk, none) { exJobM with table := [(5, [.fin 50, .fin 51, .fin 52])] } = .ub :=
  C98_false_wide_table exSys (s := "/a.tif".toList) (rest := exPlanM.rest) (m := 3) rfl rfl (by unfold exPlanM; simp) exRun_a
    (exMany_ok (plainView exJobM exPlanM.head) ⟨by decide, by decide⟩ .mask).more.2
    (by
      intro l hl
      have hl : l ∈ [(⟨"/b.tif".toList, exH 2, exPlanB.val⟩ : LayerFile)] := hl
      rw [List.mem_singleton.1 hl]
      exact ⟨by decide, rfl, 0, 0, by decide +kernel, by decide +kernel⟩)
    rfl rfl (by decide) ⟨by decide, by decide, by decide⟩ (.inl (.inl rfl))
    ⟨0, 0, exIn 2 0 0 (by decide) (by decide) (by decide) (by decide), by decide +kernel⟩

end App
end CCGL
